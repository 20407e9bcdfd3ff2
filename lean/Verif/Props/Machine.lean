/-
C84-C88: the parser as a machine over the sentences received, and the independence of interleaved streams.
-/
import Verif.Lemmas.Interleave
import Verif.Props.Fragments
import Verif.Props.Gsv

namespace Nmea
open Spec

/-! ### Refinement -/

/-- C84: the machine always has a next step. -/
theorem C84_step_total (env : Env) (m : Memory) (s : Str) : ∃ a m', Step env m s a m' := step_total env m s

/-- A step of the machine that changes its memory: a first part is remembered. -/
example (env : Env) : Step env Memory.empty (c! "!AIVDM,2,1,7,B,:5MlU41,0") (.ok .incomplete)
    (Memory.empty.setPart false 7 (c! "B") (some (1, c! ":5MlU41"))) :=
  .waits demoFirst (.inl rfl) (by simp [Memory.empty])

/-- C84: for every history, the answers of a new parser are exactly those of the machine that starts with an
empty memory. -/
theorem C84_refinement (h : List (Env × Str)) (as : List Answer) :
    (∃ m, Trace Memory.empty h as m) ↔ as = answers Parser.new h := by
  constructor
  · rintro ⟨m, ht⟩
    exact (trace_rel _ _ _ _ _ rel_new ht).1.symm
  · rintro rfl
    obtain ⟨as, m, ht⟩ := trace_total Memory.empty h
    rw [(trace_rel _ _ _ _ _ rel_new ht).1]
    exact ⟨m, ht⟩

/-- A history whose answers are not all those of isolated sentences: part 1, a GSV sentence, part 2. -/
example : ∃ d, answers Parser.new [(demoEnv, c! "!AIVDM,2,1,7,B,:5MlU41,0"), (demoEnv, c! "$GPGSV,2,1,00"),
      (demoEnv, c! "!AIVDM,2,2,7,B,GMK6@,0")] = [.ok .incomplete, .ok .incomplete, .ok (.utcDateInquiry d)] ∧
    alone demoEnv (c! "!AIVDM,2,2,7,B,GMK6@,0") = .ok .incomplete :=
  ⟨{ ownVessel := false, station := .mobileStation, sourceMmsi := 366814480, destinationMmsi := 366832740 },
    by decide +kernel⟩

/-- C85: what was remembered is all that counts: two histories that leave the same memory cannot be told
apart by any continuation. -/
theorem C85_memory_is_all (h h' : List (Env × Str)) (as as' : List Answer) (m : Memory)
    (ht : Trace Memory.empty h as m) (ht' : Trace Memory.empty h' as' m) (f : List (Env × Str)) :
    answers (run Parser.new h) f = answers (run Parser.new h') f := by
  obtain ⟨bs, m', hf⟩ := trace_total m f
  rw [(trace_rel _ _ _ _ _ (trace_rel _ _ _ _ _ rel_new ht).2 hf).1,
    (trace_rel _ _ _ _ _ (trace_rel _ _ _ _ _ rel_new ht').2 hf).1]

/-- Two histories that leave the same memory: another first part and then this one, and this one alone. Whatever
follows is answered alike. -/
example (f : List (Env × Str)) :
    answers (run Parser.new [(demoEnv, c! "!AIVDM,2,1,7,B,15M67F0,0"), (demoEnv, c! "!AIVDM,2,1,7,B,:5MlU41,0")]) f =
      answers (run Parser.new [(demoEnv, c! "!AIVDM,2,1,7,B,:5MlU41,0")]) f := by
  refine C85_memory_is_all _ _ [.ok .incomplete, .ok .incomplete] _ (Memory.empty.setPart false 7 (c! "B") (some (1, c! ":5MlU41")))
    (.cons (.waits demoFirst' (.inl rfl) (by simp [Memory.empty]))
      (.cons ?_ (.nil _)))
    (.cons (.waits demoFirst (.inl rfl) (by simp [Memory.empty])) (.nil _)) f
  · have h := Step.waits (env := demoEnv)
      (m := Memory.empty.setPart false 7 (c! "B") (some (1, c! "15M67F0"))) demoFirst (.inl rfl)
      (by simp [Memory.setPart])
    rwa [show (Memory.empty.setPart false 7 (c! "B") (some (1, c! "15M67F0"))).setPart false 7 (c! "B")
      (some (1, c! ":5MlU41")) = Memory.empty.setPart false 7 (c! "B") (some (1, c! ":5MlU41")) by
        simp only [Memory.setPart, Memory.mk.injEq, and_true]
        funext o i c
        split <;> rfl] at h

/-- C85: in particular a sentence that is not an unfragmented AIS message, part 1 or 2 of two, or a GSV
sentence may be left out: it is answered as if it stood alone and no later answer changes. -/
theorem C85_other_sentences (env : Env) (p : Parser) (s : Str) (hs : ¬ UsesMemory s) (f : List (Env × Str)) :
    answers p ((env, s) :: f) = alone env s :: answers p f := by
  rw [answers, eval_alone env p s hs]

/-- An RMC sentence before anything else: it is answered as if it stood alone. -/
example (f : List (Env × Str)) : answers Parser.new ((demoEnv, c! "$GPRMC,,V,,,,,,,,,") :: f) =
    alone demoEnv (c! "$GPRMC,,V,,,,,,,,,") :: answers Parser.new f := by
  refine C85_other_sentences demoEnv Parser.new _ ?_ f
  have hb : ¬ Bang (c! "$GPRMC,,V,,,,,,,,,") := fun ⟨t, e⟩ => absurd (List.cons.inj e).1 (by decide)
  rintro (⟨_, _, _, h⟩ | ⟨_, _, _, _, _, _, h, -⟩ | ⟨_, _, _, _, h, -⟩)
  · exact hb h.bang
  · exact hb h.bang
  · have h' : IsTagged '$' (c! "GP") (c! "RMC") [[], c! "V", [], [], [], [], [], [], [], [], []]
      (c! "$GPRMC,,V,,,,,,,,,") := demoTagged .bare (by decide)
    have := (IsTagged.unique h h' (by decide) (by decide) (by decide) (by decide)).2.2.1
    exact absurd this (by decide)

/-! ### Interleaved streams -/

/-- C86: AIS and GNSS streams on one parser do not influence each other: the answers to the AIS sentences are
those of a parser that is given only these. -/
theorem C86_ais_independent (h : List (Env × Str)) :
    answersTo Bang Parser.new h = answers Parser.new (only Bang h) :=
  projection Bang (fun _ => True) simAis (fun env m s a m' k _ => bang_skip env m s a m' k)
    (fun env m s a m' k _ => bang_step env m s a m' k) h (fun _ _ => trivial) _ _ _ _ rel_new rel_new ⟨rfl, rfl⟩

/-- Part 1, a GSV sentence, part 2: the AIS sentences are answered as without the GSV sentence. -/
example : answersTo Bang Parser.new [(demoEnv, c! "!AIVDM,2,1,7,B,:5MlU41,0"), (demoEnv, c! "$GPGSV,2,1,00"),
      (demoEnv, c! "!ABVDM,2,2,7,B,GMK6@,0")] =
    [.ok .incomplete, .ok (.utcDateInquiry ⟨false, .baseStation, 366814480, 366832740⟩)] := by
  have h1 : Bang (c! "!AIVDM,2,1,7,B,:5MlU41,0") := ⟨_, rfl⟩
  have h2 : ¬ Bang (c! "$GPGSV,2,1,00") := fun ⟨_, e⟩ => absurd (List.cons.inj e).1 (by decide)
  have h3 : Bang (c! "!ABVDM,2,2,7,B,GMK6@,0") := ⟨_, rfl⟩
  rw [C86_ais_independent, only, List.filter_cons_of_pos (by simpa using h1), List.filter_cons_of_neg (by simpa using h2),
    List.filter_cons_of_pos (by simpa using h3), List.filter_nil]
  decide +kernel

/-- C86: and the answers to all other sentences are those of a parser that is given only these. -/
theorem C86_gnss_independent (h : List (Env × Str)) :
    answersTo (fun s => ¬ Bang s) Parser.new h = answers Parser.new (only (fun s => ¬ Bang s) h) :=
  projection (fun s => ¬ Bang s) (fun _ => True) (simGsv fun _ _ => True)
    (fun env m s a m' k _ => gsv_skip _ _ (fun _ _ _ _ _ h _ => h.notBang) env m s a m' k)
    (fun env m s a m' k _ => gsv_step _ _ (fun _ h => h) (fun _ _ _ _ _ _ _ => trivial) env m s a m' k)
    h (fun _ _ => trivial) _ _ _ _ rel_new rel_new (fun _ _ _ _ => rfl)

/-- Two GSV sentences of a group with part of an AIS message between them. -/
example : answersTo (fun s => ¬ Bang s) Parser.new [(demoEnv, c! "$GPGSV,2,1,05,01,40,083,46"),
      (demoEnv, c! "!AIVDM,2,1,7,B,:5MlU41,0"), (demoEnv, c! "$GPGSV,2,2,05,02,17,x,")] =
    [.ok .incomplete, .ok (.gsv [⟨.gps, 1, some 40, some 83, some 46⟩, ⟨.gps, 2, some 17, none, none⟩])] := by
  have h1 : ¬ Bang (c! "$GPGSV,2,1,05,01,40,083,46") := fun ⟨_, e⟩ => absurd (List.cons.inj e).1 (by decide)
  have h2 : ¬ ¬ Bang (c! "!AIVDM,2,1,7,B,:5MlU41,0") := not_not.mpr ⟨_, rfl⟩
  have h3 : ¬ Bang (c! "$GPGSV,2,2,05,02,17,x,") := fun ⟨_, e⟩ => absurd (List.cons.inj e).1 (by decide)
  rw [C86_gnss_independent, only, List.filter_cons_of_pos (by simpa using h1),
    List.filter_cons_of_neg (by simpa using h2), List.filter_cons_of_pos (by simpa using h3), List.filter_nil]
  decide +kernel

/-- C87: the GSV sentences of a talker are answered as if they were the only sentences. -/
theorem C87_talkers_independent (talker : Str) (h : List (Env × Str)) :
    answersTo (GsvOf talker) Parser.new h = answers Parser.new (only (GsvOf talker) h) :=
  projection (GsvOf talker) (fun _ => True) (simGsv fun t _ => t = talker)
    (fun env m s a m' k _ => gsv_skip _ _ (fun _ _ _ _ _ h e => ⟨_, _, _, e ▸ h⟩) env m s a m' k)
    (fun env m s a m' k _ => gsv_step _ _ (fun _ ⟨_, _, _, h⟩ => h.notBang)
      (fun _ _ _ _ _ h ⟨_, _, _, h'⟩ => (h.unique h').1) env m s a m' k)
    h (fun _ _ => trivial) _ _ _ _ rel_new rel_new (fun _ _ _ _ => rfl)

/-- The GPS group with a GLONASS sentence between its sentences. -/
example : answersTo (GsvOf (c! "GP")) Parser.new [(demoEnv, c! "$GPGSV,2,1,05,01,40,083,46"),
      (demoEnv, c! "$GLGSV,2,1,05,70,40,083,46"), (demoEnv, c! "$GPGSV,2,2,05,02,17,x,")] =
    [.ok .incomplete, .ok (.gsv [⟨.gps, 1, some 40, some 83, some 46⟩, ⟨.gps, 2, some 17, none, none⟩])] := by
  have hg : GsvPart (c! "GL") 2 1 [c! "2", c! "1", c! "05", c! "70", c! "40", c! "083", c! "46"]
      (c! "$GLGSV,2,1,05,70,40,083,46") :=
    ⟨demoTagged .bare (by decide), .inr (demoDec (by decide)), .inr (demoDec (by decide))⟩
  have h1 : GsvOf (c! "GP") (c! "$GPGSV,2,1,05,01,40,083,46") := ⟨_, _, _, demoGsv1⟩
  have h2 : ¬ GsvOf (c! "GP") (c! "$GLGSV,2,1,05,70,40,083,46") :=
    fun ⟨_, _, _, h⟩ => absurd (hg.unique h).1 (by decide)
  have h3 : GsvOf (c! "GP") (c! "$GPGSV,2,2,05,02,17,x,") := ⟨_, _, _, demoGsv2⟩
  rw [C87_talkers_independent, only, List.filter_cons_of_pos (by simpa using h1),
    List.filter_cons_of_neg (by simpa using h2), List.filter_cons_of_pos (by simpa using h3), List.filter_nil]
  decide +kernel

/-- C87: and so are those of a talker with one sentence count. -/
theorem C87_groups_independent (talker : Str) (n : Nat) (h : List (Env × Str)) :
    answersTo (GsvOfGroup talker n) Parser.new h = answers Parser.new (only (GsvOfGroup talker n) h) :=
  projection (GsvOfGroup talker n) (fun _ => True) (simGsv fun t k => t = talker ∧ k = n)
    (fun env m s a m' k _ => gsv_skip _ _ (fun _ _ _ _ _ h e => ⟨_, _, e.1 ▸ e.2 ▸ h⟩) env m s a m' k)
    (fun env m s a m' k _ => gsv_step _ _ (fun _ ⟨_, _, h⟩ => h.notBang)
      (fun _ _ _ _ _ h ⟨_, _, h'⟩ => ⟨(h.unique h').1, (h.unique h').2.1⟩) env m s a m' k)
    h (fun _ _ => trivial) _ _ _ _ rel_new rel_new (fun _ _ _ _ => rfl)

/-- The group of two with a sentence of a group of three of the same talker between its sentences. -/
example : answersTo (GsvOfGroup (c! "GP") 2) Parser.new [(demoEnv, c! "$GPGSV,2,1,05,01,40,083,46"),
      (demoEnv, c! "$GPGSV,3,1,05,70,40,083,46"), (demoEnv, c! "$GPGSV,2,2,05,02,17,x,")] =
    [.ok .incomplete, .ok (.gsv [⟨.gps, 1, some 40, some 83, some 46⟩, ⟨.gps, 2, some 17, none, none⟩])] := by
  have hg : GsvPart (c! "GP") 3 1 [c! "3", c! "1", c! "05", c! "70", c! "40", c! "083", c! "46"]
      (c! "$GPGSV,3,1,05,70,40,083,46") :=
    ⟨demoTagged .bare (by decide), .inr (demoDec (by decide)), .inr (demoDec (by decide))⟩
  have h1 : GsvOfGroup (c! "GP") 2 (c! "$GPGSV,2,1,05,01,40,083,46") := ⟨_, _, demoGsv1⟩
  have h2 : ¬ GsvOfGroup (c! "GP") 2 (c! "$GPGSV,3,1,05,70,40,083,46") :=
    fun ⟨_, _, h⟩ => absurd (hg.unique h).2.1 (by decide)
  have h3 : GsvOfGroup (c! "GP") 2 (c! "$GPGSV,2,2,05,02,17,x,") := ⟨_, _, demoGsv2⟩
  rw [C87_groups_independent, only, List.filter_cons_of_pos (by simpa using h1),
    List.filter_cons_of_neg (by simpa using h2), List.filter_cons_of_pos (by simpa using h3), List.filter_nil]
  decide +kernel

/-- C88: the sentences of a two-part group (kind, message id and channel) whose first parts do not belong to
type 24 are answered as if they were the only sentences. -/
theorem C88_groups_independent (own : Bool) (id : Nat) (chan : Str) (h : List (Env × Str))
    (hh : ∀ x ∈ h, ∀ talker payload, Part talker own 1 id chan payload x.2 →
      payload ≠ [] ∧ typeOf (payloadBits payload) ≠ 24) :
    answersTo (InGroup own id chan) Parser.new h = answers Parser.new (only (InGroup own id chan) h) :=
  projection (InGroup own id chan) (fun s => ∀ t x, Part t own 1 id chan x s → NotStatic x) (simPart own id chan)
    (fun env m s a m' k _ => part_skip own id chan env m s a m' k)
    (fun env m s a m' k hH => part_step own id chan env m s a m' k hH)
    h hh _ _ _ _ rel_new rel_new ⟨rfl, fun _ e => by cases e⟩

/-- Message 7 with the first part of message 8 between its parts. -/
example : answersTo (InGroup false 7 (c! "B")) Parser.new [(demoEnv, c! "!AIVDM,2,1,7,B,:5MlU41,0"),
      (demoEnv, c! "!AIVDM,2,1,8,B,:5MlU41,0"), (demoEnv, c! "!ABVDM,2,2,7,B,GMK6@,0")] =
    [.ok .incomplete, .ok (.utcDateInquiry ⟨false, .baseStation, 366814480, 366832740⟩)] := by
  have h1 : InGroup false 7 (c! "B") (c! "!AIVDM,2,1,7,B,:5MlU41,0") := ⟨_, _, _, demoFirst⟩
  have h2 : ¬ InGroup false 7 (c! "B") (c! "!AIVDM,2,1,8,B,:5MlU41,0") :=
    fun ⟨_, _, _, h⟩ => absurd (demoOther.unique h).2.2.2.1 (by decide)
  have h3 : InGroup false 7 (c! "B") (c! "!ABVDM,2,2,7,B,GMK6@,0") := ⟨_, _, _, demoSecond⟩
  rw [C88_groups_independent false 7 (c! "B"), only, List.filter_cons_of_pos (by simpa using h1),
    List.filter_cons_of_neg (by simpa using h2), List.filter_cons_of_pos (by simpa using h3), List.filter_nil]
  · decide +kernel
  · simp only [List.forall_mem_cons, List.not_mem_nil, false_imp_iff, implies_true, and_true]
    refine ⟨fun t pl h => ?_, fun t pl h => absurd (demoOther.unique h).2.2.2.1 (by decide),
      fun t pl h => absurd (demoSecond.unique h).2.2.1 (by decide)⟩
    obtain ⟨-, -, -, -, -, rfl⟩ := demoFirst.unique h
    decide +kernel

/-- C88: 'AIS messages about own vessel (VDO) and about others (VDM) are handled independently' is false: type 24
parts of the two kinds are combined. -/
theorem C88_own_vessel_counterexample :
    ∃ d, answers Parser.new [(demoEnv, c! "!AIVDM,1,1,,A,H42O55i18tMET00000000000000,2"),
        (demoEnv, c! "!AIVDO,1,1,,A,H42O55lti4hhhilD3nink000?050,0")] =
      [.ok .incomplete, .ok (.vesselStaticData d)] ∧ d.ownVessel = true ∧ d.name = some (c! "PROGUY") :=
  ⟨_, rfl, by decide +kernel⟩

/-! ### Observable forms of C20, C21 and C33 -/

/-- C21, observable: in no reachable state do both a part 1 and a part 2 of one group complete a message. -/
theorem C21_one_waits (e1 e2 : Env) (p : Parser) (hr : Reachable p) (t1 t2 : Str) (own : Bool) (id : Nat)
    (chan a b s1 s2 : Str) (h1 : Part t1 own 1 id chan a s1) (h2 : Part t2 own 2 id chan b s2) :
    (parseSentence e1 p s1).1 = .ok .incomplete ∨ (parseSentence e2 p s2).1 = .ok .incomplete := by
  rcases C21_never_both p hr own id chan with hn | hn
  · right
    rw [eval_part2 e2 p t2 own id chan b s2 h2, joinPart, show p.savedFragments.get _ = none from hn]
  · left
    rw [eval_part1 e1 p t1 own id chan a s1 h1, joinPart, show p.savedFragments.get _ = none from hn]

/-- After the first part of message 7 a second first part waits. -/
example : (parseSentence demoEnv (run Parser.new [(demoEnv, c! "!AIVDM,2,1,7,B,:5MlU41,0")])
      (c! "!AIVDM,2,1,7,B,15M67F0,0")).1 = .ok .incomplete :=
  (C21_one_waits demoEnv demoEnv _ ⟨_, rfl⟩ _ _ _ _ _ _ _ _ _ demoFirst' demoSecond).resolve_right (by decide +kernel)

/-- C20, in terms of sentences only: on a new parser, part 1 and part 2 of a group with any sentences outside
the group around them; the next part of the group waits again. -/
theorem C20_from_new (e1 e2 e3 : Env) (t1 t2 t3 : Str) (own : Bool) (id num : Nat) (chan a b c s1 s2 s3 : Str)
    (h0 h h' : List (Env × Str)) (h1 : Part t1 own 1 id chan a s1) (h2 : Part t2 own 2 id chan b s2)
    (h3 : Part t3 own num id chan c s3) (hn : num = 1 ∨ num = 2)
    (hh0 : ∀ x ∈ h0, ¬ InGroup own id chan x.2) (hh : ∀ x ∈ h, ¬ InGroup own id chan x.2)
    (hh' : ∀ x ∈ h', ¬ InGroup own id chan x.2) :
    (parseSentence e3 (run Parser.new (h0 ++ (e1, s1) :: h ++ (e2, s2) :: h')) s3).1 = .ok .incomplete := by
  have hp : pendingPart (run Parser.new (h0 ++ (e1, s1) :: h)) own 1 id chan ≠ none := by
    have hno : (run Parser.new h0).savedFragments.get (partKey own 2 id chan) = none := new_part h0 own 2 id chan hh0
    rw [run_append, run, part_frame_run _ _ _ _ _ _ hh, eval_part1 e1 _ t1 own id chan a s1 h1, joinPart, hno]
    intro e
    have e' : some a = none := (KV.get_insert_self _ _ _).symm.trans e
    cases e'
  obtain ⟨k1, k2⟩ := C20_consumed e2 _ ⟨_, rfl⟩ t2 own 2 id chan b s2 h2 (.inr ⟨rfl, hp⟩)
  rw [run_append, run]
  generalize (parseSentence e2 (run Parser.new (h0 ++ (e1, s1) :: h)) s2).2 = q at k1 k2 ⊢
  rw [← part_frame_run q h' own _ id chan hh'] at k1 k2
  generalize run q h' = q' at k1 k2 ⊢
  rcases hn with rfl | rfl
  · rw [eval_part1 e3 q' t3 own id chan c s3 h3, joinPart, show q'.savedFragments.get _ = none from k2]
  · rw [eval_part2 e3 q' t3 own id chan c s3 h3, joinPart, show q'.savedFragments.get _ = none from k1]

/-- Both parts of message 7 with other sentences around them; the second part once more waits. -/
example : (parseSentence demoEnv (run Parser.new (demoBetween ++ (demoEnv, c! "!AIVDM,2,1,7,B,:5MlU41,0") ::
      demoBetween ++ (demoEnv, c! "!ABVDM,2,2,7,B,GMK6@,0") :: demoBetween)) (c! "!ABVDM,2,2,7,B,GMK6@,0")).1 =
    .ok .incomplete :=
  C20_from_new demoEnv demoEnv demoEnv _ _ _ _ _ _ _ _ _ _ _ _ _ demoBetween demoBetween demoBetween demoFirst demoSecond
    demoSecond (.inr rfl) demoOutside demoOutside demoOutside

/-- C33, observable: after a GSV result, a sentence of the same group of two or more yields `Incomplete`. -/
theorem C33_again_incomplete (env env' : Env) (p : Parser) (s s' talker : Str) (n k k' : Nat) (fs fs' : List Str)
    (hs : GsvPart talker n k fs s) (hs' : GsvPart talker n k' fs' s') (hn : 2 ≤ n) (hn' : n < 2 ^ 32 - 1)
    (l : List GsvData) (hr : (parseSentence env p s).1 = .ok (.gsv l)) :
    (parseSentence env' (parseSentence env p s).2 s').1 = .ok .incomplete := by
  have hnone := C33_consumed env p s talker n k fs hs l hr
  exact C32_incomplete env' _ talker n k' fs' s' [] [] hn' hnone hs' .nil (if k' = 1 then 2 else 1)
    (by split <;> omega) (by simp only [Received, List.nil_append, List.map_cons, List.map_nil, List.mem_singleton]; split <;> omega)

/-- The complete group of `demoGsv1` and `demoGsv2`, and its first sentence once more. -/
example : (parseSentence demoEnv (parseSentence demoEnv
    (run Parser.new [(demoEnv, c! "$GPGSV,2,2,05,02,17,x,")]) (c! "$GPGSV,2,1,05,01,40,083,46")).2
    (c! "$GPGSV,2,1,05,01,40,083,46")).1 = .ok .incomplete :=
  C33_again_incomplete demoEnv demoEnv _ _ _ _ _ _ _ _ _ demoGsv1 demoGsv1 (by decide) (by decide)
    [⟨.gps, 1, some 40, some 83, some 46⟩, ⟨.gps, 2, some 17, none, none⟩] (by decide +kernel)

end Nmea
