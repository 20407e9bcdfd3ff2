/-
C115: receivers that heard different things before, and then the same stream.
-/
import Verif.Lemmas.Resync
import Verif.Props.Streams
import Verif.Props.Commute

namespace Nmea
open Spec

/-- C115: two receivers, whatever they heard before, receive two parts with the same number of a group one after the other
(among any other sentences, for each its own): from then on they answer the parts of the group alike. -/
theorem C115_parts (own : Bool) (id : Nat) (chan : Str) (x y : PartIn) (hx : x.Of own id chan) (hy : y.Of own id chan)
    (hn : x.num = y.num) (p p' : Parser) (hp : Reachable p) (hp' : Reachable p') (h h' : List (Env × Str))
    (hh : only (InGroup own id chan) h = [(x.env, x.sentence), (y.env, y.sentence)])
    (hh' : only (InGroup own id chan) h' = [(x.env, x.sentence), (y.env, y.sentence)]) (c c' : List (Env × Str))
    (hc : only (InGroup own id chan) c' = only (InGroup own id chan) c)
    (hs : ∀ z ∈ c, ∀ talker payload, Part talker own 1 id chan payload z.2 → payload ≠ [] ∧ typeOf (payloadBits payload) ≠ 24) :
    answersTo (InGroup own id chan) (run p h) c = answersTo (InGroup own id chan) (run p' h') c' := by
  have hs' : ∀ z ∈ c', ∀ talker payload, Part talker own 1 id chan payload z.2 →
      payload ≠ [] ∧ typeOf (payloadBits payload) ≠ 24 := by
    intro z hz t pl hpl
    have : z ∈ only (InGroup own id chan) c := hc ▸ mem_only.2 ⟨hz, ⟨_, _, _, hpl⟩⟩
    exact hs z (mem_only.1 this).1 t pl hpl
  -- a parser that only heard the last part
  have r0 : Rel (parseSentence y.env Parser.new y.sentence).2 (Memory.empty.setPart own id chan (some (y.num, y.payload))) :=
    (step_rel _ _ _ _ _ _ rel_new (.waits hy.2.1 hy.1 (fun _ e => by cases e))).2
  have key : ∀ (p : Parser) (h c : List (Env × Str)), Reachable p →
      only (InGroup own id chan) h = [(x.env, x.sentence), (y.env, y.sentence)] →
      (∀ z ∈ c, ∀ talker payload, Part talker own 1 id chan payload z.2 → payload ≠ [] ∧ typeOf (payloadBits payload) ≠ 24) →
      answersTo (InGroup own id chan) (run p h) c =
        answers (parseSentence y.env Parser.new y.sentence).2 (only (InGroup own id chan) c) := by
    intro p h c hp hh hs
    obtain ⟨m, hr⟩ := rel_reachable hp
    obtain ⟨as, m', ht⟩ := trace_total m h
    have e := trace_two own id chan x y h m m' as hn hx.1 hx.2.1 hy.2.1 ht hh
    refine projection (InGroup own id chan) (fun s => ∀ t x, Part t own 1 id chan x s → NotStatic x) (simPart own id chan)
      (fun env m s a m' k _ => part_skip own id chan env m s a m' k)
      (fun env m s a m' k hH => part_step own id chan env m s a m' k hH)
      c hs _ _ m' _ (trace_rel _ _ _ _ _ hr ht).2 r0 ⟨by rw [setPart_self, e], ?_⟩
    intro pl hpl
    rw [e] at hpl
    injection hpl with hpl
    injection hpl with h1 h2
    rw [← h2]
    exact hy.2.2 h1
  rw [key p h c hp hh hs, key p' h' c' hp' hh' hs', hc]

/-- Twice part 1, with a GLL sentence heard by one receiver in between. -/
example : PartIn.Of false 3 (c! "B") ⟨demoEnv, c! "AI", 1, c! "55NPLM0", c! "!AIVDM,2,1,3,B,55NPLM0,0"⟩ ∧
    ¬ InGroup false 3 (c! "B") (c! "$GPGLL,") := by
  refine ⟨⟨.inl rfl, ⟨[c! "2", c! "1", c! "3", c! "B", c! "55NPLM0", c! "0"], demoTagged .bare (by decide),
    demoDec (by decide), demoDec (by decide), demoDec (by decide), rfl, rfl⟩, fun _ => ⟨by decide, by decide +kernel⟩⟩, ?_⟩
  rintro ⟨_, _, _, h⟩
  obtain ⟨_, e⟩ := h.bang
  exact absurd (List.cons.inj e).1 (by decide)

/-- C115: two receivers, whatever they heard before (but no type 24 in two parts), receive the same type 24 messages of a
vessel (among any other sentences, for each its own). Either they never agree: each message is answered with a report by
exactly one of them, forever; or they agree from the second message on. -/
theorem C115_static (mmsi : Nat) (l : List StaticSentence) (hl : ∀ x ∈ l, x.Of mmsi 0 ∨ x.Of mmsi 1)
    (g g' h h' : List (Env × Str)) (hs : ∀ x ∈ g ++ g' ++ h ++ h', NoSplitStatic x.2)
    (he : only (StaticOf mmsi) h = l.map fun x => (x.env, x.sentence))
    (he' : only (StaticOf mmsi) h' = l.map fun x => (x.env, x.sentence)) :
    (∀ i < l.length,
      ((answersTo (StaticOf mmsi) (run Parser.new g) h)[i]? = some (.ok .incomplete) ↔
        ¬ (answersTo (StaticOf mmsi) (run Parser.new g') h')[i]? = some (.ok .incomplete))) ∨
    (answersTo (StaticOf mmsi) (run Parser.new g) h).drop 1 = (answersTo (StaticOf mmsi) (run Parser.new g') h').drop 1 := by
  obtain ⟨w, e⟩ := static_from mmsi l hl g h (fun x hx => hs x (by simp [hx])) (fun x hx => hs x (by simp [hx])) he
  obtain ⟨w', e'⟩ := static_from mmsi l hl g' h' (fun x hx => hs x (by simp [hx])) (fun x hx => hs x (by simp [hx])) he'
  rw [e, e']
  match w, w' with
  | none, none => exact .inr rfl
  | none, some (o, b) => exact .inl fun i hi => staticAnswers_opposite o b l i hi
  | some (o, b), none =>
    refine .inl fun i hi => ?_
    rw [staticAnswers_opposite o b l i hi, not_not]
  | some (o, b), some (o', b') =>
    right
    cases l <;> rfl

/-- One receiver has heard part A before, the other nothing; both then hear part B and part A. -/
example :
    (∀ i < 2,
      ((answersTo (StaticOf 271041815) (run Parser.new [(demoEnv, demoSA.sentence)])
          [(demoEnv, demoSB.sentence), (demoEnv, demoSA.sentence)])[i]? = some (.ok .incomplete) ↔
        ¬ (answersTo (StaticOf 271041815) (run Parser.new [])
          [(demoEnv, demoSB.sentence), (demoEnv, c! "!AIVDM,2,1,8,B,:5MlU41,0"), (demoEnv, demoSA.sentence)])[i]? =
            some (.ok .incomplete))) ∨
    (answersTo (StaticOf 271041815) (run Parser.new [(demoEnv, demoSA.sentence)])
        [(demoEnv, demoSB.sentence), (demoEnv, demoSA.sentence)]).drop 1 =
      (answersTo (StaticOf 271041815) (run Parser.new [])
        [(demoEnv, demoSB.sentence), (demoEnv, c! "!AIVDM,2,1,8,B,:5MlU41,0"), (demoEnv, demoSA.sentence)]).drop 1 :=
  C115_static 271041815 [demoSB, demoSA]
    (by
      simp only [List.forall_mem_cons, List.not_mem_nil, false_imp_iff, implies_true, and_true]
      exact ⟨.inr demoSB_of, .inl demoSA_of⟩) _ _ _ _
    (fun x hx => demoNoSplit x (by
      simp only [List.append_nil, List.cons_append, List.nil_append, List.mem_cons, List.not_mem_nil, or_false] at hx ⊢
      tauto))
    (demoOnly_in demoSB_in (demoOnly_in demoSA_in demoOnly_nil))
    (demoOnly_in demoSB_in (demoOnly_out demoS_out (demoOnly_in demoSA_in demoOnly_nil)))

/-- C115: a receiver that has heard one more or one less type 24 message of the vessel than another (so, one that was
switched on between part A and part B) never agrees with it. -/
theorem C115_static_joined_late (mmsi : Nat) (x : StaticSentence) (hx : x.Of mmsi 0) (l : List StaticSentence)
    (hl : ∀ x ∈ l, x.Of mmsi 0 ∨ x.Of mmsi 1) (i : Nat) (hi : i < l.length) :
    (answers (run Parser.new [(x.env, x.sentence)]) (l.map fun x => (x.env, x.sentence)))[i]? = some (.ok .incomplete) ↔
      ¬ (answers Parser.new (l.map fun x => (x.env, x.sentence)))[i]? = some (.ok .incomplete) := by
  have s1 := static_waits hx (by decide) Memory.empty rfl
  have r1 : Rel (run Parser.new [(x.env, x.sentence)]) (Memory.empty.setStatic mmsi (some (x.own, x.bits))) :=
    (step_rel _ _ _ _ _ _ rel_new s1).2
  obtain ⟨m1, t1⟩ := trace_static mmsi l hl _ _ (setStatic_self Memory.empty mmsi (some (x.own, x.bits)))
  obtain ⟨m2, t2⟩ := trace_static mmsi l hl none Memory.empty rfl
  rw [(trace_rel _ _ _ _ _ r1 t1).1, answers_of_trace t2, staticAnswers_opposite x.own x.bits l i hi, not_not]

/-- The same, of the two messages alone. -/
example (i : Nat) (hi : i < 2) :
    (answers (run Parser.new [(demoEnv, demoSA.sentence)]) [(demoEnv, demoSB.sentence), (demoEnv, demoSA.sentence)])[i]? =
        some (.ok .incomplete) ↔
      ¬ (answers Parser.new [(demoEnv, demoSB.sentence), (demoEnv, demoSA.sentence)])[i]? = some (.ok .incomplete) :=
  C115_static_joined_late 271041815 demoSA demoSA_of [demoSB, demoSA]
    (by
      simp only [List.forall_mem_cons, List.not_mem_nil, false_imp_iff, implies_true, and_true]
      exact ⟨.inr demoSB_of, .inl demoSA_of⟩) i hi

/-- C115: two receivers, whatever they heard before, miss the same sentence `k` of a GSV group twice in a row (in `l1` and in
`l2` every other sentence is received, in any order): from then on they answer the sentences of the group alike. -/
theorem C115_gsv (talker : Str) (n k : Nat) (hn : n < 2 ^ 32 - 1) (hk : 1 ≤ k ∧ k ≤ n) (l1 l2 : List GsvIn)
    (hl : ∀ x ∈ l1 ++ l2, GsvPart talker n x.num x.fields x.sentence ∧ x.num ≠ k)
    (h1 : ∀ j, 1 ≤ j → j ≤ n → j ≠ k → ∃ x ∈ l1, x.num = j) (h2 : ∀ j, 1 ≤ j → j ≤ n → j ≠ k → ∃ x ∈ l2, x.num = j)
    (p p' : Parser) (hp : Reachable p) (hp' : Reachable p') (h h' : List (Env × Str))
    (hh : only (GsvOfGroup talker n) h = (l1 ++ l2).map fun x => (x.env, x.sentence))
    (hh' : only (GsvOfGroup talker n) h' = (l1 ++ l2).map fun x => (x.env, x.sentence)) (c c' : List (Env × Str))
    (hc : only (GsvOfGroup talker n) c' = only (GsvOfGroup talker n) c) :
    answersTo (GsvOfGroup talker n) (run p h) c = answersTo (GsvOfGroup talker n) (run p' h') c' := by
  obtain ⟨l, hl1, hl2⟩ := gsv_list talker n c
  have key : ∀ (p : Parser) (h c : List (Env × Str)), Reachable p →
      only (GsvOfGroup talker n) h = (l1 ++ l2).map (fun x => (x.env, x.sentence)) →
      only (GsvOfGroup talker n) c = l.map (fun x => (x.env, x.sentence)) →
      ∃ w : Nat → Option (List Str), w k = none ∧
        answersTo (GsvOfGroup talker n) (run p h) c = gsvAnswers (talkerSystem talker) n (l2.foldl (gsvAfter n) w) l := by
    intro p h c hp hh hc
    obtain ⟨m, hr, hmiss⟩ := gsv_reachable hp talker n (by omega) hn
    obtain ⟨as, m', ht⟩ := trace_total m h
    have hr' := (trace_rel _ _ _ _ _ hr ht).2
    have e := trace_gsvAfter talker n hn (l1 ++ l2) (fun x hx => (hl x hx).1) h m m' as ht hh
    rw [List.foldl_append] at e
    refine ⟨l1.foldl (gsvAfter n) (m.gsv talker n), (after_pass n k hk l1
      (fun x hx => (hl x (List.mem_append_left _ hx)).2) _).2 (fun j a b d => .inr (h1 j a b d)) hmiss, ?_⟩
    rw [projection (GsvOfGroup talker n) (fun _ => True) (simGsv fun t k => t = talker ∧ k = n)
      (fun env m s a m' k _ => gsv_skip _ _ (fun _ _ _ _ _ h e => ⟨_, _, e.1 ▸ e.2 ▸ h⟩) env m s a m' k)
      (fun env m s a m' k _ => gsv_step _ _ (fun _ ⟨_, _, h⟩ => h.notBang)
        (fun _ _ _ _ _ h ⟨_, _, h'⟩ => ⟨(h.unique h').1, (h.unique h').2.1⟩) env m s a m' k)
      c (fun _ _ => trivial) _ _ m' m' hr' hr' (fun _ _ _ _ => rfl), hc]
    obtain ⟨m'', ht'⟩ := trace_gsv talker n hn l hl2 _ m' (fun _ => rfl)
    rw [(trace_rel _ _ _ _ _ hr' ht').1, ← e]
  obtain ⟨w, hw, e⟩ := key p h c hp hh hl1
  obtain ⟨w', hw', e'⟩ := key p' h' c' hp' hh' (hc.trans hl1)
  rw [e, e']
  refine gsvAnswers_congr _ _ _ _ _ (pass_agree n k hk l2 (fun x hx => (hl x (List.mem_append_right _ hx)).2) w w' hw hw' ?_)
  intro j a b
  by_cases hj : j = k
  · exact .inl (by rw [hj, hw, hw'])
  · exact .inr (h2 j a b hj)

/-- A group of two whose second sentence is missed twice. -/
example : GsvPart (c! "GP") 2 1 [c! "2", c! "1", c! "00"] (c! "$GPGSV,2,1,00") ∧ (1 : Nat) ≠ 2 ∧
    ∀ j, 1 ≤ j → j ≤ 2 → j ≠ 2 → ∃ x ∈ [(⟨demoEnv, 1, [c! "2", c! "1", c! "00"], c! "$GPGSV,2,1,00"⟩ : GsvIn)], x.num = j :=
  ⟨⟨demoTagged .bare (by decide), .inr (demoDec (by decide)), .inr (demoDec (by decide))⟩, by decide,
    fun j h1 h2 h3 => ⟨_, List.mem_cons_self, by show 1 = j; omega⟩⟩

end Nmea
