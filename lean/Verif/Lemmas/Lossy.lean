/-
Lossy links: slots with a source in transit, with remains of one, and with a source that has lost a sentence.
-/
import Verif.Lemmas.Traffic
import Verif.Props.Dispatch
import Verif.Props.Framing
import Verif.Spec.Lossy

namespace Nmea
open Spec

/-- A sentence that is refused changes nothing. -/
theorem noise_refused {s : Str} (h : Noise s) (env : Env) (p : Parser) : ∃ e, parseSentence env p s = (.err e, p) := by
  cases h with
  | damaged hs hne hb => obtain ⟨m, h⟩ := C01_wrong_checksum_rejected env p _ _ hs hne hb; exact ⟨_, h⟩
  | noComma hf hc => obtain ⟨m, h⟩ := C05_no_comma_invalid env p _ _ hf hc; exact ⟨_, h⟩
  | otherGnss hk hc h hn => obtain ⟨m, h⟩ := C10_other_gnss_kind env p _ _ _ _ hk hc h hn; exact ⟨_, h⟩
  | otherAis hk hc h hn => obtain ⟨m, h⟩ := C10_other_ais_kind env p _ _ _ _ hk hc h hn; exact ⟨_, h⟩
  | oddTag hf hc ho => obtain ⟨m, h⟩ := C10_odd_tag env p _ _ _ hf hc ho; exact ⟨_, h⟩
  | otherType h ht =>
    obtain ⟨h1, h2, -⟩ := C11_message_type env p _ _ _ _ h
    obtain ⟨m, hm⟩ := h1.mpr ht
    exact ⟨_, Prod.ext hm (h2 ht)⟩

/-! ### Slots -/

/-- What may be left behind in a slot without harm to the next source. -/
def Stale : (r : Slot) → r.Cell → Prop
  | .part _ _ _, c => ∀ y, (c : Option (Nat × Str)) ≠ some (2, y)
  | .static _, c => (c : Option (Bool × List Bool)) = none
  | .gsv _ n, c => ∀ k, ¬ (1 ≤ k ∧ k < n) → (c : Nat → Option (List Str)) k = none

theorem stale_free (r : Slot) : Stale r r.free := by
  cases r with
  | part _ _ _ => intro y h; cases h
  | static _ => rfl
  | gsv _ _ => intro k _; rfl

/-- Whatever arrives of these sentences is answered with "incomplete" and touches no other slot. -/
def Useless (r : Slot) : List (Env × Str) → r.Cell → Prop
  | [], _ => True
  | x :: xs, c => Useless r xs c ∧ ∀ env m, r.at m = c → ∃ m', Step env m x.2 (.ok .incomplete) m' ∧ Useless r xs (r.at m') ∧
      Besides r m m'

/-- The sentences lead to the answer and leave the slot free, without touching another slot. When one of them gets lost
(if `fresh`), the rest is useless; when all the rest gets lost, no harm is done to the next source. -/
def Leading (r : Slot) (fresh : Bool) : List (Env × Str) → Answer → r.Cell → Prop
  | [], _, _ => False
  | [x], a, c => ∀ m, r.at m = c → ∃ m', Step x.1 m x.2 a m' ∧ r.at m' = r.free ∧ Besides r m m'
  | x :: y :: xs, a, c => (fresh = true → Useless r (y :: xs) c) ∧
      ∀ env m, r.at m = c → ∃ m', Step env m x.2 (.ok .incomplete) m' ∧ Leading r fresh (y :: xs) a (r.at m') ∧
        ((∀ i, r ≠ .static i) → Stale r (r.at m')) ∧ Besides r m m'

theorem useless_gsv (talker : Str) (n : Nat) (hn : n < 2 ^ 32 - 1) (j : Nat) (h1 : 1 ≤ j) (h2 : j ≤ n) (l : List GsvIn)
    (hl : ∀ x ∈ l, GsvPart talker n x.num x.fields x.sentence) (hj : j ∉ l.map (·.num)) (c : Slot.Cell (.gsv talker n))
    (hc : (c : Nat → Option (List Str)) j = none) :
    Useless (.gsv talker n) (l.map fun x => (x.env, x.sentence)) c := by
  induction l generalizing c with
  | nil => trivial
  | cons x l ih =>
    have hx : j ≠ x.num := fun e => hj (by simp [e])
    have ih' := ih (fun y hy => hl y (List.mem_cons_of_mem _ hy)) (fun h => hj (List.mem_cons_of_mem _ h))
    refine ⟨ih' c hc, fun env m hm => ⟨_, Step.gsvWaits (env := env) (hl x List.mem_cons_self) hn ⟨j, h1, h2, hx, ?_⟩, ?_,
      besides_setGsv _ _ _ _ _⟩⟩
    · exact (congrFun hm j).trans hc
    · refine ih' _ ?_
      show (m.setGsv talker n x.num x.fields).gsv talker n j = none
      rw [setGsv_ne _ _ _ _ _ _ hx]
      exact (congrFun hm j).trans hc

theorem last_num {l1 l2 : List GsvIn} {n : Nat} (h : (l1 ++ l2).map (·.num) = List.range' 1 n) (hne : l2 ≠ []) :
    1 ≤ n ∧ n ∈ l2.map (·.num) ∧ (∀ x, l2 = [x] → x.num = n) := by
  obtain ⟨l, z, rfl⟩ : ∃ l z, l2 = l ++ [z] := ⟨_, _, (List.dropLast_append_getLast hne).symm⟩
  cases n with
  | zero =>
    have := congrArg List.length h
    simp at this
  | succ n =>
    have hz : z.num = n + 1 := by
      rw [List.range'_concat, ← List.append_assoc, List.map_append] at h
      have := (List.append_inj' h rfl).2
      simp only [List.map_cons, List.map_nil, List.cons.injEq, and_true] at this
      omega
    refine ⟨by omega, by simp [hz], fun x e => ?_⟩
    cases l with
    | nil => simp at e; rw [← e, hz]
    | cons _ _ => simp at e

theorem leading_gsv (talker : Str) (n : Nat) (hn : n < 2 ^ 32 - 1) (fresh : Bool) (l2 : List GsvIn) :
    ∀ (l1 : List GsvIn) (c : Slot.Cell (.gsv talker n)), l2 ≠ [] →
    (∀ x ∈ l1 ++ l2, GsvPart talker n x.num x.fields x.sentence) → (l1 ++ l2).map (·.num) = List.range' 1 n →
    (∀ k ∈ l1.map (·.num), (c : Nat → Option (List Str)) k = received l1 k) → Stale (.gsv talker n) c →
    (fresh = true → ∀ k, k ∉ l1.map (·.num) → (c : Nat → Option (List Str)) k = none) →
    Leading (.gsv talker n) fresh (l2.map fun x => (x.env, x.sentence))
      (.ok (.gsv ((List.range' 1 n).flatMap fun k => satellites (talkerSystem talker) (fieldsOf (l1 ++ l2) k)))) c := by
  induction l2 with
  | nil => intro _ _ h; exact absurd rfl h
  | cons x l2 ih =>
    intro l1 c hne hl hp hc hs hfr
    obtain ⟨hn1, hmem, honly⟩ := last_num hp hne
    have hx := hl x (by simp)
    have hnd : ((l1 ++ x :: l2).map (·.num)).Nodup := by rw [hp]; exact List.nodup_range'
    rw [List.map_append, List.map_cons, List.nodup_append] at hnd
    have hx1 : x.num ∉ l1.map (·.num) := fun h => hnd.2.2 _ h _ List.mem_cons_self rfl
    have hset : ∀ m : Memory, Slot.at m (.gsv talker n) = c → ∀ k ∈ (l1 ++ [x]).map (·.num),
        (m.setGsv talker n x.num x.fields).gsv talker n k = received (l1 ++ [x]) k := by
      intro m hm k hk
      rw [received_append l1 x hx1]
      by_cases hk' : k = x.num
      · subst hk'
        rw [setGsv_self, if_pos rfl]
      · rw [setGsv_ne _ _ _ _ _ _ hk', if_neg hk']
        refine (congrFun hm k).trans (hc k ?_)
        simp only [List.map_append, List.map_cons, List.map_nil, List.mem_append, List.mem_singleton] at hk
        exact hk.resolve_right hk'
    cases l2 with
    | nil =>
      have hxn := honly x rfl
      intro m hm
      have hin : ∀ j, 1 ≤ j → j ≤ n → j ∈ (l1 ++ [x]).map (·.num) := by
        intro j h1 h2
        rw [hp]
        exact List.mem_range'_1.mpr ⟨h1, by omega⟩
      have hall : ∀ j, 1 ≤ j → j ≤ n → j ≠ x.num → m.gsv talker n j ≠ none := by
        intro j h1 h2 h3
        have hj1 : j ∈ l1.map (·.num) := by
          have hj := hin j h1 h2
          simp only [List.map_append, List.map_cons, List.map_nil, List.mem_append, List.mem_singleton] at hj
          exact hj.resolve_right h3
        have e : m.gsv talker n j = received l1 j := (congrFun hm j).trans (hc j hj1)
        rw [e]
        exact received_some hj1
      have s1 := Step.gsvDone (env := x.env) (m := m) hx hn hall
      have e : ((List.range' 1 n).flatMap fun j => satellites (talkerSystem talker)
          (((m.setGsv talker n x.num x.fields).gsv talker n j).getD [])) =
          (List.range' 1 n).flatMap fun k => satellites (talkerSystem talker) (fieldsOf (l1 ++ [x]) k) := by
        refine List.flatMap_congr fun j hj => ?_
        have hj := List.mem_range'_1.mp hj
        rw [hset m hm j (hin j hj.1 (by omega))]
        rfl
      rw [e] at s1
      refine ⟨_, s1, ?_, (besides_setGsv _ _ _ _ _).trans (besides_clearGsv _ _ _)⟩
      funext k
      show (((m.setGsv talker n x.num x.fields).clearGsv talker n).gsv talker n k : Option (List Str)) = none
      by_cases h : 1 ≤ k ∧ k ≤ n
      · exact clearGsv_in _ _ _ _ h.1 h.2
      · have : ((m.setGsv talker n x.num x.fields).clearGsv talker n).gsv talker n k =
            (m.setGsv talker n x.num x.fields).gsv talker n k := if_neg (fun e => h e.2.2)
        rw [this, setGsv_ne _ _ _ _ _ _ (by omega)]
        exact (congrFun hm k).trans (hs k (by omega))
    | cons y l2 =>
      have hxn : n ≠ x.num := by
        have h2 : n ∈ (y :: l2).map (·.num) := by
          have := (last_num (l1 := l1 ++ [x]) (l2 := y :: l2) (by simpa using hp) (by simp)).2.1
          exact this
        intro e
        have := hnd.2.1
        rw [← e, List.nodup_cons] at this
        exact this.1 h2
      have hxr : 1 ≤ x.num ∧ x.num ≤ n := by
        have : x.num ∈ List.range' 1 n := hp ▸ (by simp)
        have := List.mem_range'_1.mp this
        omega
      have hcx : fresh = true → (c : Nat → Option (List Str)) x.num = none := fun h => hfr h _ hx1
      refine ⟨fun h => ?_, fun env m hm => ⟨_, Step.gsvWaits (env := env) (m := m) hx hn ⟨n, hn1, le_refl n, hxn, ?_⟩, ?_, ?_,
        besides_setGsv _ _ _ _ _⟩⟩
      · refine useless_gsv talker n hn x.num hxr.1 hxr.2 (y :: l2) (fun z hz => hl z (by simp at hz ⊢; tauto)) ?_ c (hcx h)
        exact (List.nodup_cons.mp hnd.2.1).1
      · exact (congrFun hm n).trans (hs n (by omega))
      · have := ih (l1 ++ [x]) (Slot.at (m.setGsv talker n x.num x.fields) (.gsv talker n)) (by simp) (by simpa using hl)
          (by simpa using hp) (hset m hm) ?_ ?_
        · simpa using this
        · intro k hk
          show (m.setGsv talker n x.num x.fields).gsv talker n k = none
          rw [setGsv_ne _ _ _ _ _ _ (by omega)]
          exact (congrFun hm k).trans (hs k hk)
        · intro h k hk
          simp only [List.map_append, List.map_cons, List.map_nil, List.mem_append, List.mem_singleton, not_or] at hk
          show (m.setGsv talker n x.num x.fields).gsv talker n k = none
          rw [setGsv_ne _ _ _ _ _ _ hk.2]
          exact (congrFun hm k).trans (hfr h k hk.1)
      · intro _ k hk
        show (m.setGsv talker n x.num x.fields).gsv talker n k = none
        rw [setGsv_ne _ _ _ _ _ _ (by omega)]
        exact (congrFun hm k).trans (hs k hk)

theorem inOrder_leading {r : Slot} {xs : List (Env × Str)} {a : Answer} (h : InOrder r xs a) (fresh : Bool) (c : r.Cell)
    (hs : Stale r c) (hf : fresh = true → c = r.free) : Leading r fresh xs a c := by
  cases h with
  | @part own id chan t1 t2 x y s1 s2 e1 e2 h1 h2 hx ht =>
    refine ⟨fun h => ?_, fun _ m hm => ⟨_, .waits h1 (.inl rfl) (fun z e => ?_), fun m' hm' =>
      ⟨_, .second h2 (hm'.trans (setPart_self _ _ _ _ _)) (.plain (NotStatic.plain ⟨hx, ht⟩ _ _)), setPart_self _ _ _ _ _,
      besides_setPart _ _ _ _ _⟩, fun _ z e => ?_, besides_setPart _ _ _ _ _⟩⟩
    · obtain rfl := hf h
      refine ⟨trivial, fun _ m hm => ⟨_, .waits h2 (.inr rfl) (fun z e => ?_), trivial, besides_setPart _ _ _ _ _⟩⟩
      rw [show m.part own id chan = none from hm] at e
      cases e
    · rw [show m.part own id chan = c from hm] at e
      exact hs z e
    · have e' := (setPart_self m own id chan (some (1, x))).symm.trans e
      cases e'
  | @static mmsi a b ha hb hr =>
    have ha' : ∀ env, StaticSentence.Of mmsi 0 { a with env := env } := fun env => ⟨ha.1, (hr env).1, ha.2.2⟩
    have hb' : ∀ env, StaticSentence.Of mmsi 1 { b with env := env } := fun env => ⟨hb.1, (hr env).2, hb.2.2⟩
    obtain rfl : c = (none : Option (Bool × List Bool)) := hs
    refine ⟨fun h => ⟨trivial, fun env m hm => ⟨_, static_waits (hb' env) (by decide) m hm, trivial, besides_setStatic _ _ _⟩⟩,
      fun env m hm => ⟨_, static_waits (ha' env) (by decide) m hm, fun m' hm' => ⟨_, ?_, setStatic_self _ _ _, besides_setStatic _ _ _⟩,
        fun h => absurd rfl (h mmsi), besides_setStatic _ _ _⟩⟩
    rw [← overlay_BA b.own a.own a.bits b.bits ha.2.2.2.2 hb.2.2.2.2]
    exact static_done hb (by decide) m' (hm'.trans (setStatic_self _ _ _))
  | @gsv talker n l hn h0 hl hp =>
    have hne : l ≠ [] := by
      rintro rfl
      have := congrArg List.length hp
      simp at this
      omega
    refine leading_gsv talker n hn fresh l [] c hne hl hp (fun k hk => by simp at hk) hs fun h k _ => ?_
    obtain rfl := hf h
    rfl

/-! ### Reports -/

theorem Source.tells_ne_err {x : Source} {e : ParseError} : ¬ x.Tells (.err e) := by
  cases x with
  | ais x =>
    intro h
    simp only [Source.Tells] at h
    unfold Broadcast.Tells at h
    split at h
    · rename_i m _
      cases m with
      | positionA m => obtain ⟨d, e, h⟩ := h; cases e
      | base m =>
        simp only [AisMessage.Tells] at h
        split at h
        · obtain ⟨d, e, h⟩ := h; cases e
        · cases h
      | voyage m =>
        simp only [AisMessage.Tells] at h
        split at h <;> cases h
      | addressed m => cases h
      | aircraft m => obtain ⟨d, e, h⟩ := h; cases e
      | inquiry m => cases h
      | positionB m => obtain ⟨d, e, h⟩ := h; cases e
      | aid m => obtain ⟨d, e, h⟩ := h; cases e
      | staticA m => exact h
      | staticB m => exact h
      | longRange m => obtain ⟨d, e, h⟩ := h; cases e
    · cases h
  | gnss env talker r =>
    intro h
    cases r <;>
    · obtain ⟨d, e, -⟩ := h
      cases e
  | view env talker rows =>
    intro h
    cases h

theorem heard_cons {x : Source} {a : Answer} (h : x.Tells a) (as : List Answer) : heard (a :: as) = a :: heard as := by
  have h1 := Source.tells_ne_incomplete h
  cases a with
  | ok r =>
    cases r <;> first | rfl | exact absurd rfl h1
  | err e => exact absurd h Source.tells_ne_err
  | panic => rfl

/-! ### The link -/

/-- The memory fits what occupies the slots. -/
def Agrees (o : Slot → Option Occupant) (m : Memory) : Prop :=
  ∀ r : Slot, (o r = none → r.at m = r.free) ∧
    (∀ xs x b, o r = some (.coming xs x b) → x.Fits ∧ Leading r b xs x.report (r.at m) ∧
      ((∀ i, r ≠ .static i) → Stale r (r.at m))) ∧
    ∀ xs, o r = some (.spoiled xs) → Useless r xs (r.at m)

theorem Agrees.put {o : Slot → Option Occupant} {m m' : Memory} (h : Agrees o m) {r : Slot} (hb : Besides r m m')
    (v : Option Occupant) (h0 : v = none → r.at m' = r.free)
    (h1 : ∀ xs x b, v = some (.coming xs x b) → x.Fits ∧ Leading r b xs x.report (r.at m') ∧
      ((∀ i, r ≠ .static i) → Stale r (r.at m')))
    (h2 : ∀ xs, v = some (.spoiled xs) → Useless r xs (r.at m')) : Agrees (put o r v) m' := by
  intro t
  by_cases ht : t = r
  · subst ht
    rw [show Spec.put o t v t = v from if_pos rfl]
    exact ⟨h0, h1, h2⟩
  · have : Spec.put o r v t = o t := if_neg ht
    rw [this, hb t ht]
    exact h t

theorem besides_refl (r : Slot) (m : Memory) : Besides r m m := fun _ _ => rfl

theorem leading_cons {r : Slot} {fresh : Bool} {x : Env × Str} {xs : List (Env × Str)} {a : Answer} {c : r.Cell}
    (h : Leading r fresh (x :: xs) a c) (hf : fresh = true) : Useless r xs c := by
  cases xs with
  | nil => trivial
  | cons y xs => exact h.1 hf

theorem lossy_heard {o h l} (hl : Lossy o h l) (p : Parser) (m : Memory) (hr : Rel p m) (hm : Agrees o m) :
    List.Forall₂ (fun (x : Source) a => x.Tells a) l (heard (answers p h)) := by
  induction hl generalizing p m with
  | done => exact .nil
  | @noise o env s h l hs _ ih =>
    obtain ⟨e, he⟩ := noise_refused hs env p
    rw [answers, he]
    exact ih p m hr hm
  | @one o s h l x hx hs hf _ ih =>
    obtain ⟨hr', hk⟩ := Source.report_spec x hx
    rcases hk with ⟨-, env, s', e, hw, ha⟩ | ⟨k, hk, hs'⟩
    · rw [hs] at e
      obtain rfl := (List.cons.inj e).1
      obtain ⟨e1, r1⟩ := step_rel _ p _ _ _ _ hr (whole_step hw m)
      rw [answers, e1, ← ha, heard_cons hr']
      exact .cons hr' (ih _ m r1 hm)
    · have hk0 := hf k hk
      rw [hs] at hs'
      obtain ⟨m', s1, h1, h2⟩ := inOrder_leading hs' true k.free (stale_free k) (fun _ => rfl) m ((hm k).1 hk0)
      obtain ⟨e1, r1⟩ := step_rel _ p _ _ _ _ hr s1
      obtain ⟨env, s⟩ := s
      rw [answers, e1, heard_cons hr']
      refine .cons hr' (ih _ m' r1 ?_)
      have := hm.put h2 none (fun _ => h1) (fun _ _ _ e => by cases e) (fun _ e => by cases e)
      have e : put o k none = o := by
        funext t
        by_cases ht : t = k
        · rw [put, if_pos ht, ht, hk0]
        · rw [put, if_neg ht]
      rwa [e] at this
  | @start o k env s t rest h l x hx hs hk hf _ ih =>
    rcases (Source.report_spec x hx).2 with ⟨hn, -⟩ | ⟨k', hk', hs'⟩
    · rw [hn] at hk; cases hk
    · rw [hk] at hk'
      obtain rfl := Option.some.inj hk'
      rw [hs] at hs'
      obtain ⟨-, hl⟩ := inOrder_leading hs' true k.free (stale_free k) (fun _ => rfl)
      obtain ⟨m', s1, h1, h3, h2⟩ := hl env m ((hm k).1 hf)
      obtain ⟨e1, r1⟩ := step_rel _ p _ _ _ _ hr s1
      rw [answers, e1]
      refine ih _ m' r1 (hm.put h2 _ (fun e => by cases e) (fun xs y b e => ?_) (fun _ e => by cases e))
      cases e
      exact ⟨hx, h1, h3⟩
  | @more o x k env s t rest b h l ho _ ih =>
    obtain ⟨hx, ⟨-, hl⟩, -⟩ := (hm k).2.1 _ _ _ ho
    obtain ⟨m', s1, h1, h3, h2⟩ := hl env m rfl
    obtain ⟨e1, r1⟩ := step_rel _ p _ _ _ _ hr s1
    rw [answers, e1]
    refine ih _ m' r1 (hm.put h2 _ (fun e => by cases e) (fun xs y b e => ?_) (fun _ e => by cases e))
    cases e
    exact ⟨hx, h1, h3⟩
  | @last o x k s b h l ho _ ih =>
    obtain ⟨hx, hl, -⟩ := (hm k).2.1 _ _ _ ho
    obtain ⟨m', s1, h1, h2⟩ := hl m rfl
    obtain ⟨e1, r1⟩ := step_rel _ p _ _ _ _ hr s1
    obtain ⟨env, s⟩ := s
    have hr' := (Source.report_spec x hx).1
    rw [answers, e1, heard_cons hr']
    exact .cons hr' (ih _ m' r1 (hm.put h2 none (fun _ => h1) (fun _ _ _ e => by cases e) (fun _ e => by cases e)))
  | @restart o k env s t rest lost b h l x y ho hn hx hs hk _ ih =>
    rcases (Source.report_spec x hx).2 with ⟨hn', -⟩ | ⟨k', hk', hs'⟩
    · rw [hn'] at hk; cases hk
    · rw [hk] at hk'
      obtain rfl := Option.some.inj hk'
      rw [hs] at hs'
      obtain ⟨-, -, hst⟩ := (hm k).2.1 _ _ _ ho
      obtain ⟨-, hl⟩ := inOrder_leading hs' false _ (hst hn) (fun h => by cases h)
      obtain ⟨m', s1, h1, h3, h2⟩ := hl env m rfl
      obtain ⟨e1, r1⟩ := step_rel _ p _ _ _ _ hr s1
      rw [answers, e1]
      refine ih _ m' r1 (hm.put h2 _ (fun e => by cases e) (fun xs y b e => ?_) (fun _ e => by cases e))
      cases e
      exact ⟨hx, h1, h3⟩
  | @lostFirst o k s rest h l x hx hs hk hf _ ih =>
    refine ih p m hr (hm.put (besides_refl k m) _ (fun e => by cases e) (fun _ _ _ e => by cases e) (fun xs e => ?_))
    cases e
    rcases (Source.report_spec x hx).2 with ⟨hn, -⟩ | ⟨k', hk', hs'⟩
    · rw [hn] at hk; cases hk
    · rw [hk] at hk'
      obtain rfl := Option.some.inj hk'
      rw [hs] at hs'
      rw [(hm k).1 hf]
      exact leading_cons (inOrder_leading hs' true k.free (stale_free k) (fun _ => rfl)) rfl
  | @lostNext o x k s rest h l ho _ ih =>
    refine ih p m hr (hm.put (besides_refl k m) _ (fun e => by cases e) (fun _ _ _ e => by cases e) (fun xs e => ?_))
    cases e
    exact leading_cons ((hm k).2.1 _ _ _ ho).2.1 rfl
  | @lostMore o k s rest h l ho _ ih =>
    refine ih p m hr (hm.put (besides_refl k m) _ (fun e => by cases e) (fun _ _ _ e => by cases e) (fun xs e => ?_))
    cases e
    exact ((hm k).2.2 _ ho).1
  | @useless o k env s rest h l ho _ ih =>
    obtain ⟨-, hl⟩ := (hm k).2.2 _ ho
    obtain ⟨m', s1, h1, h2⟩ := hl env m rfl
    obtain ⟨e1, r1⟩ := step_rel _ p _ _ _ _ hr s1
    rw [answers, e1]
    refine ih _ m' r1 (hm.put h2 _ (fun e => by cases e) (fun _ _ _ e => by cases e) (fun xs e => ?_))
    cases e
    exact h1

theorem agrees_empty : Agrees (fun _ => none) Memory.empty := by
  intro r
  refine ⟨fun _ => ?_, (fun _ _ _ e => nomatch e), (fun _ e => nomatch e)⟩
  cases r <;> rfl

end Nmea
