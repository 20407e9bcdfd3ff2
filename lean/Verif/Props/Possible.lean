/-
Which memories a parser can have: exactly the possible ones.
-/
import Verif.Lemmas.Machine
import Verif.Lemmas.Demo
import Verif.Lemmas.Traffic
import Verif.Spec.Possible

namespace Nmea
open Spec

/-! ### What can have been received -/

/-- The sentence of a part that can be remembered. -/
theorem canWait_part (own : Bool) (id num : Nat) (chan payload : Str) (h : CanWait id num chan payload) :
    ∃ s, Part (c! "AI") own num id chan payload s := by
  obtain ⟨hn, hi, hc, hp⟩ := h
  refine ⟨_, [c! "2", Nat.toDigits 10 num, Nat.toDigits 10 id, chan, payload], ⟨⟨by decide, by decide⟩, ?_, by simp,
    .full, fun h => (by cases h), rfl⟩, ?_, ?_, ?_, rfl, rfl⟩
  · intro f hf
    simp only [List.mem_cons, List.not_mem_nil, or_false] at hf
    rcases hf with rfl | rfl | rfl | rfl | rfl
    · decide
    · exact digits_comma _
    · exact digits_comma _
    · exact hc
    · exact hp
  · exact dec_natStr 255 2 (by decide)
  · exact dec_natStr 255 num (by omega)
  · exact dec_natStr _ id hi

theorem part_canWait {talker : Str} {own : Bool} {id num : Nat} {chan payload s : Str}
    (h : Part talker own num id chan payload s) (hn : num = 1 ∨ num = 2) : CanWait id num chan payload := by
  obtain ⟨fs, h, -, -, ⟨_, -, -, -, hi⟩, rfl, rfl⟩ := h
  exact ⟨hn, hi, field_noComma h.2.1 3, field_noComma h.2.1 4⟩

theorem canWaitGsv_iff (talker : Str) (n k : Nat) (fs : List Str) :
    CanWaitGsv talker n k fs ↔ ∃ s, GsvPart talker n k fs s := by
  constructor
  · rintro ⟨h1, h2, h3, h4, h5⟩
    exact ⟨_, ⟨h1, h2, h3, .full, fun h => (by cases h), rfl⟩, h4, h5⟩
  · rintro ⟨s, ⟨h1, h2, h3, -⟩, h4, h5⟩
    exact ⟨h1, h2, h3, h4, h5⟩

/-! ### Every memory is possible -/

theorem possible_empty : Possible Memory.empty where
  parts := fun _ _ _ _ _ h => (by cases h)
  gsvs := fun _ _ _ _ h => (by cases h)
  statics := fun _ _ _ h => (by cases h)
  incomplete := fun _ n h _ => ⟨1, by omega, by omega, rfl⟩
  finitely := ⟨[], [], [], fun _ _ _ h => (h rfl).elim, fun _ _ _ h => (h rfl).elim, fun _ h => (h rfl).elim⟩

theorem Spec.Possible.setPart {m : Memory} (h : Possible m) (own : Bool) (id : Nat) (chan : Str)
    (x : Option (Nat × Str)) (hx : ∀ num payload, x = some (num, payload) → CanWait id num chan payload) :
    Possible (m.setPart own id chan x) where
  parts := by
    intro o i c num payload hm
    simp only [Memory.setPart] at hm
    split at hm
    · rename_i e
      obtain ⟨rfl, rfl, rfl⟩ := e
      exact hx _ _ hm
    · exact h.parts _ _ _ _ _ hm
  gsvs := h.gsvs
  statics := h.statics
  incomplete := h.incomplete
  finitely := by
    obtain ⟨ps, gs, ss, h1, h2, h3⟩ := h.finitely
    refine ⟨(own, id, chan) :: ps, gs, ss, ?_, h2, h3⟩
    intro o i c hm
    simp only [Memory.setPart] at hm
    split at hm
    · rename_i e
      obtain ⟨rfl, rfl, rfl⟩ := e
      exact List.mem_cons_self
    · exact List.mem_cons_of_mem _ (h1 _ _ _ hm)

theorem Spec.Possible.setStatic {m : Memory} (h : Possible m) (mmsi : Nat) (x : Option (Bool × List Bool))
    (hx : ∀ own bits, x = some (own, bits) → CanWaitStatic mmsi bits) : Possible (m.setStatic mmsi x) where
  parts := h.parts
  gsvs := h.gsvs
  statics := by
    intro i own bits hm
    simp only [Memory.setStatic] at hm
    split at hm
    · rename_i e
      subst e
      exact hx _ _ hm
    · exact h.statics _ _ _ hm
  incomplete := h.incomplete
  finitely := by
    obtain ⟨ps, gs, ss, h1, h2, h3⟩ := h.finitely
    refine ⟨ps, gs, mmsi :: ss, h1, h2, ?_⟩
    intro i hm
    simp only [Memory.setStatic] at hm
    split at hm
    · rename_i e
      subst e
      exact List.mem_cons_self
    · exact List.mem_cons_of_mem _ (h3 _ hm)

theorem Spec.Possible.message {env : Env} {m m' : Memory} {talker : Str} {own : Bool} {payload : Str} {a : Answer}
    (h : Possible m) (hp : ',' ∉ payload) (hm : Message env m talker own payload a m') : Possible m' := by
  cases hm with
  | plain _ => exact h
  | first hs _ =>
    refine h.setStatic _ _ ?_
    intro o b e
    cases e
    exact ⟨env, payload, hp, hs, rfl, rfl⟩
  | second _ _ _ _ => exact h.setStatic _ _ (fun _ _ e => by cases e)

/-- GSV sentences are remembered: what holds of one more sentence and of fewer. -/
theorem Spec.Possible.gsv {m : Memory} (h : Possible m) (g : Str → Nat → Nat → Option (List Str)) (talker : Str)
    (n k : Nat) (fs : List Str) (hg : CanWaitGsv talker n k fs)
    (hk : ∀ t n' k' fs', g t n' k' = some fs' → m.gsv t n' k' = some fs' ∨ (t, n', k', fs') = (talker, n, k, fs))
    (hi : n ≠ 0 → n < 2 ^ 32 - 1 → ∃ j, 1 ≤ j ∧ j ≤ n ∧ g talker n j = none) : Possible { m with gsv := g } where
  parts := h.parts
  gsvs := by
    intro t n' k' fs' e
    rcases hk _ _ _ _ e with e | e
    · exact h.gsvs _ _ _ _ e
    · cases e
      exact hg
  statics := h.statics
  incomplete := by
    intro t n' h0 h1
    by_cases e : t = talker ∧ n' = n
    · obtain ⟨rfl, rfl⟩ := e
      exact hi h0 h1
    · obtain ⟨j, h2, h3, h4⟩ := h.incomplete t n' h0 h1
      refine ⟨j, h2, h3, ?_⟩
      show g t n' j = none
      cases hj : g t n' j with
      | none => rfl
      | some fs' =>
        rcases hk _ _ _ _ hj with e' | e'
        · rw [h4] at e'
          cases e'
        · cases e'
          exact absurd ⟨rfl, rfl⟩ e
  finitely := by
    obtain ⟨ps, gs, ss, h1, h2, h3⟩ := h.finitely
    refine ⟨ps, (talker, n, k) :: gs, ss, h1, ?_, h3⟩
    intro t n' k' hm
    cases hj : g t n' k' with
    | none => exact absurd hj hm
    | some fs' =>
      rcases hk _ _ _ _ hj with e' | e'
      · exact List.mem_cons_of_mem _ (h2 _ _ _ (by rw [e']; simp))
      · cases e'
        exact List.mem_cons_self

theorem setGsv_of {m : Memory} {talker : Str} {n k : Nat} {fs : List Str} (t : Str) (n' k' : Nat) (fs' : List Str)
    (h : (m.setGsv talker n k fs).gsv t n' k' = some fs') :
    m.gsv t n' k' = some fs' ∨ (t, n', k', fs') = (talker, n, k, fs) := by
  simp only [Memory.setGsv] at h
  split at h
  · rename_i e
    obtain ⟨rfl, rfl, rfl⟩ := e
    cases h
    exact .inr rfl
  · exact .inl h

theorem Spec.Possible.step {env : Env} {m m' : Memory} {s : Str} {a : Answer} (h : Possible m)
    (hs : Step env m s a m') : Possible m' := by
  cases hs with
  | single h1 hm => exact h.message h1.noComma.2 hm
  | waits h1 hn _ =>
    refine h.setPart _ _ _ _ ?_
    intro num payload e
    cases e
    exact part_canWait h1 hn
  | @first talker own id chan x y _ _ h1 hw hm =>
    refine Possible.message (h.setPart own id chan none (fun _ _ e => by cases e)) ?_ hm
    rw [List.mem_append]
    exact fun e => e.elim h1.noComma.2 (h.parts _ _ _ _ _ hw).2.2.2
  | @second talker own id chan x y _ _ h1 hw hm =>
    refine Possible.message (h.setPart own id chan none (fun _ _ e => by cases e)) ?_ hm
    rw [List.mem_append]
    exact fun e => e.elim (h.parts _ _ _ _ _ hw).2.2.2 h1.noComma.2
  | @gsvWaits talker n k fs h1 hn hw =>
    refine h.gsv _ talker n k fs ((canWaitGsv_iff _ _ _ _).mpr ⟨_, h1⟩) setGsv_of ?_
    intro _ _
    obtain ⟨j, h2, h3, h4, h5⟩ := hw
    exact ⟨j, h2, h3, by simp [h4, h5]⟩
  | @gsvDone talker n k fs h1 hn hw =>
    refine h.gsv _ talker n k fs ((canWaitGsv_iff _ _ _ _).mpr ⟨_, h1⟩) ?_ ?_
    · intro t n' k' fs' e
      refine setGsv_of t n' k' fs' ?_
      split at e
      · cases e
      · exact e
    · intro h0 _
      exact ⟨1, by omega, by omega, by simp; omega⟩
  | @gsvHuge talker k fs h1 =>
    exact h.gsv _ talker _ k fs ((canWaitGsv_iff _ _ _ _).mpr ⟨_, h1⟩) setGsv_of (fun _ h => by omega)
  | other _ => exact h

theorem Spec.Possible.trace {m m' : Memory} {h : List (Env × Str)} {as : List Answer} (hp : Possible m)
    (ht : Trace m h as m') : Possible m' := by
  induction ht with
  | nil => exact hp
  | cons h1 _ ih => exact ih (hp.step h1)

/-! ### Every possible memory is reached -/

/-- Some history leads from an empty memory to this one. -/
def Reached (m : Memory) : Prop := ∃ h as, Trace Memory.empty h as m

theorem trace_snoc {m m' m'' : Memory} {h : List (Env × Str)} {as : List Answer} {env : Env} {s : Str} {a : Answer}
    (ht : Trace m h as m') (hs : Step env m' s a m'') : Trace m (h ++ [(env, s)]) (as ++ [a]) m'' := by
  induction ht with
  | nil => exact .cons hs (.nil _)
  | cons h1 _ ih => exact .cons h1 (ih hs)

theorem Reached.step {m m' : Memory} {env : Env} {s : Str} {a : Answer} (h : Reached m) (hs : Step env m s a m') :
    Reached m' := by
  obtain ⟨h, as, ht⟩ := h
  exact ⟨_, _, trace_snoc ht hs⟩

theorem reached_static (ss : List Nat) : ∀ st : Nat → Option (Bool × List Bool),
    (∀ mmsi own bits, st mmsi = some (own, bits) → CanWaitStatic mmsi bits) → (∀ i, st i ≠ none → i ∈ ss) →
    Reached ⟨fun _ _ _ => none, fun _ _ _ => none, st⟩ := by
  induction ss with
  | nil =>
    intro st _ hs
    have : st = fun _ => none := by
      funext i
      by_contra h
      exact absurd (hs i h) (by simp)
    subst this
    exact ⟨[], [], .nil _⟩
  | cons i ss ih =>
    intro st hc hs
    have h1 : Reached ⟨fun _ _ _ => none, fun _ _ _ => none, fun j => if j = i then none else st j⟩ := by
      refine ih _ ?_ ?_
      · intro mmsi own bits h
        split at h
        · cases h
        · exact hc _ _ _ h
      · intro j h
        split at h
        · exact absurd rfl h
        · rename_i e
          exact (List.mem_cons.mp (hs j h)).resolve_left e
    cases hi : st i with
    | none =>
      have : (fun j => if j = i then none else st j) = st := by
        funext j
        split
        · rename_i e
          rw [e, hi]
        · rfl
      rwa [this] at h1
    | some x =>
      obtain ⟨own, bits⟩ := x
      obtain ⟨env, payload, hp, hst, rfl, rfl⟩ := hc _ _ _ hi
      have h2 := h1.step (.single (env := env) (single_of_payload (c! "AI") own payload ⟨by decide, by decide⟩ hp)
        (.first hst (by simp)))
      refine (congrArg Reached ?_).mp h2
      simp only [Memory.setStatic, Memory.mk.injEq, true_and]
      funext j
      split
      · rename_i e
        rw [e, hi]
      · rfl

theorem reached_gsv (gs : List (Str × Nat × Nat)) : ∀ m : Memory, (∀ t n k fs, m.gsv t n k = some fs → CanWaitGsv t n k fs) →
    (∀ t n, n ≠ 0 → n < 2 ^ 32 - 1 → ∃ j, 1 ≤ j ∧ j ≤ n ∧ m.gsv t n j = none) →
    (∀ t n k, m.gsv t n k ≠ none → (t, n, k) ∈ gs) → Reached { m with gsv := fun _ _ _ => none } → Reached m := by
  induction gs with
  | nil =>
    intro m _ _ hs h
    have : m.gsv = fun _ _ _ => none := by
      funext t n k
      by_contra h
      exact absurd (hs t n k h) (by simp)
    rwa [← this] at h
  | cons x gs ih =>
    obtain ⟨t, n, k⟩ := x
    intro m hc hi hs h
    have h1 : Reached { m with gsv := fun t' n' k' => if t' = t ∧ n' = n ∧ k' = k then none else m.gsv t' n' k' } := by
      refine ih _ ?_ ?_ ?_ h
      · intro t' n' k' fs h
        simp only [] at h
        split at h
        · cases h
        · exact hc _ _ _ _ h
      · intro t' n' h0 h1
        obtain ⟨j, h2, h3, h4⟩ := hi t' n' h0 h1
        exact ⟨j, h2, h3, by simp [h4]⟩
      · intro t' n' k' h
        simp only [] at h
        split at h
        · exact absurd rfl h
        · rename_i e
          refine (List.mem_cons.mp (hs _ _ _ h)).resolve_left ?_
          intro e'
          cases e'
          exact e ⟨rfl, rfl, rfl⟩
    cases hk : m.gsv t n k with
    | none =>
      have : (fun t' n' k' => if t' = t ∧ n' = n ∧ k' = k then none else m.gsv t' n' k') = m.gsv := by
        funext t' n' k'
        split
        · rename_i e
          obtain ⟨rfl, rfl, rfl⟩ := e
          exact hk.symm
        · rfl
      rwa [this] at h1
    | some fs =>
      obtain ⟨s, hg⟩ := (canWaitGsv_iff _ _ _ _).mp (hc _ _ _ _ hk)
      have back : Memory.setGsv { m with gsv := fun t' n' k' => if t' = t ∧ n' = n ∧ k' = k then none else m.gsv t' n' k' }
          t n k fs = m := by
        obtain ⟨mp, mg, ms⟩ := m
        simp only [Memory.setGsv, Memory.mk.injEq, true_and, and_true]
        funext t' n' k'
        split
        · rename_i e
          obtain ⟨rfl, rfl, rfl⟩ := e
          exact hk.symm
        · rfl
      by_cases h0 : n = 0
      · have h2 := h1.step (.gsvDone (env := demoEnv) hg (by omega) (by intro j; omega))
        rw [back] at h2
        have : m.clearGsv t n = m := by
          obtain ⟨mp, mg, ms⟩ := m
          simp only [Memory.clearGsv, Memory.mk.injEq, true_and, and_true]
          funext t' n' k'
          split
          · omega
          · rfl
        rwa [this] at h2
      · by_cases hl : n < 2 ^ 32 - 1
        · obtain ⟨j, h2, h3, h4⟩ := hi t n h0 hl
          have h5 := h1.step (.gsvWaits (env := demoEnv) hg hl ⟨j, h2, h3, fun e => (by rw [← e, h4] at hk; cases hk), by simp [h4]⟩)
          rwa [back] at h5
        · have he : n = 2 ^ 32 - 1 := by
            have := hg.2.1.le
            omega
          subst he
          have h5 := h1.step (.gsvHuge (env := demoEnv) hg)
          rwa [back] at h5

theorem reached_parts (ps : List (Bool × Nat × Str)) : ∀ m : Memory,
    (∀ own id chan num payload, m.part own id chan = some (num, payload) → CanWait id num chan payload) →
    (∀ own id chan, m.part own id chan ≠ none → (own, id, chan) ∈ ps) →
    Reached { m with part := fun _ _ _ => none } → Reached m := by
  induction ps with
  | nil =>
    intro m _ hs h
    have : m.part = fun _ _ _ => none := by
      funext o i c
      by_contra h
      exact absurd (hs o i c h) (by simp)
    rwa [← this] at h
  | cons x ps ih =>
    obtain ⟨o, i, c⟩ := x
    intro m hc hs h
    have h1 : Reached (m.setPart o i c none) := by
      refine ih _ ?_ ?_ h
      · intro o' i' c' num payload h
        simp only [Memory.setPart] at h
        split at h
        · cases h
        · exact hc _ _ _ _ _ h
      · intro o' i' c' h
        simp only [Memory.setPart] at h
        split at h
        · exact absurd rfl h
        · rename_i e
          refine (List.mem_cons.mp (hs _ _ _ h)).resolve_left ?_
          intro e'
          cases e'
          exact e ⟨rfl, rfl, rfl⟩
    have back : (m.setPart o i c none).setPart o i c (m.part o i c) = m := by
      obtain ⟨mp, mg, ms⟩ := m
      simp only [Memory.setPart, Memory.mk.injEq, and_true]
      funext o' i' c'
      split
      · rename_i e
        obtain ⟨rfl, rfl, rfl⟩ := e
        rfl
      · rfl
    cases hk : m.part o i c with
    | none =>
      rw [hk] at back
      have : (m.setPart o i c none).setPart o i c none = m.setPart o i c none := by
        simp only [Memory.setPart, Memory.mk.injEq, and_true]
        funext o' i' c'
        split <;> rfl
      rw [this] at back
      rwa [back] at h1
    | some y =>
      obtain ⟨num, payload⟩ := y
      have hw := hc _ _ _ _ _ hk
      obtain ⟨s, hp⟩ := canWait_part o i num c payload hw
      rw [hk] at back
      have h2 := h1.step (.waits (env := demoEnv) hp hw.1 (by simp [Memory.setPart]))
      rwa [back] at h2

/-! ### C160 -/

/-- C160: the memories that some history leads to are exactly the possible ones. -/
theorem C160_exact (m : Memory) : (∃ h as, Trace Memory.empty h as m) ↔ Possible m := by
  constructor
  · rintro ⟨h, as, ht⟩
    exact possible_empty.trace ht
  · intro h
    obtain ⟨ps, gs, ss, h1, h2, h3⟩ := h.finitely
    refine reached_parts ps m h.parts h1 ?_
    exact reached_gsv gs _ h.gsvs h.incomplete h2 (reached_static ss m.static h.statics h3)

/-- A possible memory in which parts of two messages, a GSV sentence beyond its group and a group of no sentences
wait. -/
def demoMemory : Memory where
  part := fun own id chan => if own = false ∧ id = 7 ∧ chan = c! "B" then some (1, c! ":5MlU41")
    else if own = true ∧ id = 2 ^ 64 - 1 ∧ chan = [] then some (2, []) else none
  gsv := fun t n k => if t = c! "GP" ∧ n = 2 ∧ k = 9 then some [c! "2", c! "9"]
    else if t = c! "GP" ∧ n = 0 ∧ k = 0 then some [[]] else none
  static := fun _ => none

theorem demoMemory_possible : Possible demoMemory where
  parts := by
    intro own id chan num payload h
    simp only [demoMemory] at h
    split at h
    · rename_i e
      obtain ⟨rfl, rfl, rfl⟩ := e
      cases h
      exact ⟨.inl rfl, by decide, by decide, by decide⟩
    · split at h
      · rename_i e
        obtain ⟨rfl, rfl, rfl⟩ := e
        cases h
        exact ⟨.inr rfl, by decide, by decide, by decide⟩
      · cases h
  gsvs := by
    intro t n k fs h
    simp only [demoMemory] at h
    split at h
    · rename_i e
      obtain ⟨rfl, rfl, rfl⟩ := e
      cases h
      exact ⟨⟨by decide, by decide⟩, by unfold CommaFree; decide, by decide, .inr (demoDec (by decide)),
        .inr (demoDec (by decide))⟩
    · split at h
      · rename_i e
        obtain ⟨rfl, rfl, rfl⟩ := e
        cases h
        exact ⟨⟨by decide, by decide⟩, by unfold CommaFree; decide, by decide, .inl ⟨rfl, rfl⟩, .inl ⟨rfl, rfl⟩⟩
      · cases h
  statics := fun _ _ _ h => (by cases h)
  incomplete := fun t n h _ => ⟨1, by omega, by omega, by simp [demoMemory]⟩
  finitely := by
    refine ⟨[(false, 7, c! "B"), (true, 2 ^ 64 - 1, [])], [(c! "GP", 2, 9), (c! "GP", 0, 0)], [], ?_, ?_, ?_⟩
    · intro own id chan h
      simp only [demoMemory] at h
      grind
    · intro t n k h
      simp only [demoMemory] at h
      grind
    · exact fun _ h => (h rfl).elim

/-- That memory is reached by some history. -/
example : ∃ h as, Trace Memory.empty h as demoMemory := (C160_exact _).mpr demoMemory_possible

/-- No history leads to a memory with part 3 of a message, nor to one with a complete GSV group. -/
example : (¬ ∃ h as, Trace Memory.empty h as (Memory.empty.setPart false 7 (c! "B") (some (3, c! "x")))) ∧
    ¬ ∃ h as, Trace Memory.empty h as (Memory.empty.setGsv (c! "GP") 1 1 [c! "1", c! "1"]) := by
  constructor
  · intro h
    have := ((C160_exact _).mp h).parts false 7 (c! "B") 3 (c! "x") (by simp [Memory.setPart])
    exact absurd this.1 (by decide)
  · intro h
    obtain ⟨j, h1, h2, h3⟩ := ((C160_exact _).mp h).incomplete (c! "GP") 1 (by decide) (by decide)
    obtain rfl : j = 1 := by omega
    simp [Memory.setGsv] at h3

/-- C160: for each possible memory there is a history after which a parser answers everything as the machine with
that memory does. -/
theorem C160_reached (m : Memory) (hm : Possible m) : ∃ h, ∀ f as m', Trace m f as m' →
    answers (run Parser.new h) f = as := by
  obtain ⟨h, as, ht⟩ := (C160_exact m).mpr hm
  exact ⟨h, fun f as' m' hf => (trace_rel _ _ _ _ _ (trace_rel _ _ _ _ _ rel_new ht).2 hf).1⟩

/-- The history that leads to `demoMemory`: a part 2 of message 7 on channel B then completes a message. -/
example : ∃ h a, answers (run Parser.new h) [(demoEnv, c! "!AIVDM,2,2,7,B,GMK6@,0")] = [a] ∧ a ≠ .ok .incomplete := by
  obtain ⟨h, hh⟩ := C160_reached demoMemory demoMemory_possible
  have hs : Part (c! "AI") false 2 7 (c! "B") (c! "GMK6@") (c! "!AIVDM,2,2,7,B,GMK6@,0") :=
    demoPart [c! "2", c! "2", c! "7", c! "B", c! "GMK6@", c! "0"] .bare (by decide) (by decide)
  have hn : ¬ IsStaticPart demoEnv (c! ":5MlU41" ++ c! "GMK6@") := fun h => absurd h.2.1 (by decide +kernel)
  exact ⟨h, _, hh _ _ _ (.cons (.second hs (by simp [demoMemory]) (.plain hn)) (.nil _)), by decide +kernel⟩

/-- C160: after any history a parser answers everything as the machine with some possible memory does. -/
theorem C160_only (h : List (Env × Str)) : ∃ m, Possible m ∧ ∀ f as m', Trace m f as m' →
    answers (run Parser.new h) f = as := by
  obtain ⟨as, m, ht⟩ := trace_total Memory.empty h
  exact ⟨m, possible_empty.trace ht, fun f as' m' hf => (trace_rel _ _ _ _ _ (trace_rel _ _ _ _ _ rel_new ht).2 hf).1⟩

/-- The machine of `C160_only` after part 1 of a message: its memory answers part 2 as the parser does. -/
example : ∃ m, Possible m ∧ ∀ a m', Step demoEnv m (c! "!AIVDM,2,2,7,B,GMK6@,0") a m' →
    answers (run Parser.new [(demoEnv, c! "!AIVDM,2,1,7,B,:5MlU41,0")]) [(demoEnv, c! "!AIVDM,2,2,7,B,GMK6@,0")] = [a] := by
  obtain ⟨m, h1, h2⟩ := C160_only [(demoEnv, c! "!AIVDM,2,1,7,B,:5MlU41,0")]
  exact ⟨m, h1, fun a m' h => h2 _ _ _ (.cons h (.nil _))⟩

end Nmea
