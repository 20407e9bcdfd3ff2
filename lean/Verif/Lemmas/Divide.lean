/-
A stream divided among several parsers: the memory of each is part of the memory of one parser that gets everything.
-/
import Verif.Lemmas.Commute

namespace Nmea
open Spec

theorem run_append' (p : Parser) (h g : List (Env × Str)) : run p (h ++ g) = run (run p h) g := by
  induction h generalizing p with
  | nil => rfl
  | cons x h ih => exact ih _

/-- The memory after one more sentence. -/
noncomputable def nextMemory (m : Memory) (x : Env × Str) : Memory := (step_total x.1 m x.2).choose_spec.choose

noncomputable def nextAnswer (m : Memory) (x : Env × Str) : Answer := (step_total x.1 m x.2).choose

theorem step_next (m : Memory) (x : Env × Str) : Step x.1 m x.2 (nextAnswer m x) (nextMemory m x) :=
  (step_total x.1 m x.2).choose_spec.choose_spec

/-- The memory after a stream. -/
noncomputable def memoryOf (h : List (Env × Str)) : Memory := h.foldl nextMemory Memory.empty

theorem memoryOf_concat (h : List (Env × Str)) (x : Env × Str) : memoryOf (h ++ [x]) = nextMemory (memoryOf h) x := by
  rw [memoryOf, List.foldl_append]; rfl

theorem rel_memoryOf (h : List (Env × Str)) : Rel (run Parser.new h) (memoryOf h) := by
  have key : ∀ (h : List (Env × Str)) (p : Parser) (m : Memory), Rel p m → Rel (run p h) (h.foldl nextMemory m) := by
    intro h
    induction h with
    | nil => exact fun _ _ h => h
    | cons x h ih => exact fun p m hr => ih _ _ (step_rel _ _ _ _ _ _ hr (step_next m x)).2
  exact key h _ _ rel_new

/-- The cells that a stream uses. -/
def cellsOf (h : List (Env × Str)) : Cells :=
  ⟨fun o i c => ∃ x ∈ h, InGroup o i c x.2, fun t n => ∃ x ∈ h, GsvOfGroup t n x.2, fun i => Brings24 h i⟩

variable {ι : Type} [DecidableEq ι]

theorem shareOf_append {α : Type} (i : ι) (g h : List (ι × α)) : shareOf i (g ++ h) = shareOf i g ++ shareOf i h := by
  simp [shareOf]

theorem shareOf_self {α : Type} (x : ι × α) : shareOf x.1 [x] = [x.2] := by simp [shareOf]

theorem shareOf_other {α : Type} (i : ι) (x : ι × α) (h : x.1 ≠ i) : shareOf i [x] = [] := by simp [shareOf, h]

/-- One memory for everything, and those of the parsers among which it is divided. -/
def Divided (h : List (ι × Env × Str)) (m : Memory) (M : ι → Memory) : Prop :=
  (∀ i, Within (cellsOf (shareOf i h)) m (M i)) ∧
  (∀ o k c, (∀ i, ¬ (cellsOf (shareOf i h)).part o k c) → m.part o k c = none) ∧
  (∀ t n j, (∀ i, ¬ (cellsOf (shareOf i h)).gsv t n) → m.gsv t n j = none) ∧
  ∀ k, (∀ i, ¬ (cellsOf (shareOf i h)).static k) → m.static k = none

theorem divided_step (h pre r : List (ι × Env × Str)) (x : ι × Env × Str) (hh : h = pre ++ x :: r)
    (hs : ∀ i j, i ≠ j → Separate (shareOf i h) (shareOf j h)) (m : Memory)
    (hm : Divided h m fun i => memoryOf (shareOf i pre)) :
    ∃ m', Step x.2.1 m x.2.2 (nextAnswer (memoryOf (shareOf x.1 pre)) x.2) m' ∧
      Divided h m' fun i => memoryOf (shareOf i (pre ++ [x])) := by
  have hsub : ∀ k, (cells x.2.1 (memoryOf (shareOf x.1 pre)) x.2.2).static k → (cellsOf (shareOf x.1 h)).static k := by
    rintro k ⟨pl, hd, h1, h2⟩
    obtain ⟨t, own, hd'⟩ := delivers_of_mdelivers (rel_memoryOf _) hd
    refine ⟨shareOf x.1 pre, x.2, shareOf x.1 r, ?_, t, own, pl, hd', h1.2.1, h2⟩
    rw [hh, shareOf_append, show x :: r = [x] ++ r from rfl, shareOf_append, shareOf_self]
    rfl
  have hx : x.2 ∈ shareOf x.1 h := by
    rw [hh, shareOf_append, show x :: r = [x] ++ r from rfl, shareOf_append, shareOf_self]
    simp
  have subP : ∀ o k c, (cells x.2.1 (memoryOf (shareOf x.1 pre)) x.2.2).part o k c → (cellsOf (shareOf x.1 h)).part o k c :=
    fun o k c hc => ⟨x.2, hx, hc⟩
  have subG : ∀ t n, (cells x.2.1 (memoryOf (shareOf x.1 pre)) x.2.2).gsv t n → (cellsOf (shareOf x.1 h)).gsv t n :=
    fun t n hc => ⟨x.2, hx, hc⟩
  obtain ⟨m', h1, h2, h3, h4⟩ := step_local (step_next (memoryOf (shareOf x.1 pre)) x.2) (k := m)
    ⟨fun o k c hc => (hm.1 x.1).1 o k c (subP o k c hc), fun t n j hc => (hm.1 x.1).2.1 t n j (subG t n hc),
      fun k hc => (hm.1 x.1).2.2 k (hsub k hc)⟩
  refine ⟨m', h1, fun i => ?_, ?_, ?_, ?_⟩
  · by_cases hi : x.1 = i
    · subst hi
      beta_reduce
      rw [shareOf_append, shareOf_self, memoryOf_concat]
      refine ⟨fun o k c hc => ?_, fun t n j hc => ?_, fun k hc => ?_⟩
      · by_cases hc' : (cells x.2.1 (memoryOf (shareOf x.1 pre)) x.2.2).part o k c
        · exact h2.1 _ _ _ hc'
        · rw [h3.1 _ _ _ hc', h4.1 _ _ _ hc']
          exact (hm.1 x.1).1 _ _ _ hc
      · by_cases hc' : (cells x.2.1 (memoryOf (shareOf x.1 pre)) x.2.2).gsv t n
        · exact h2.2.1 _ _ _ hc'
        · rw [h3.2.1 _ _ _ hc', h4.2.1 _ _ _ hc']
          exact (hm.1 x.1).2.1 _ _ _ hc
      · by_cases hc' : (cells x.2.1 (memoryOf (shareOf x.1 pre)) x.2.2).static k
        · exact h2.2.2 _ hc'
        · rw [h3.2.2 _ hc', h4.2.2 _ hc']
          exact (hm.1 x.1).2.2 _ hc
    · beta_reduce
      rw [shareOf_append, shareOf_other i x hi, List.append_nil]
      have sep := hs x.1 i hi
      refine ⟨fun o k c hc => ?_, fun t n j hc => ?_, fun k hc => ?_⟩
      · rw [h3.1 _ _ _ fun hc' => sep.1 o k c ⟨subP _ _ _ hc', hc⟩]
        exact (hm.1 i).1 _ _ _ hc
      · rw [h3.2.1 _ _ _ fun hc' => sep.2.1 t n ⟨subG _ _ hc', hc⟩]
        exact (hm.1 i).2.1 _ _ _ hc
      · rw [h3.2.2 _ fun hc' => sep.2.2 k ⟨hsub _ hc', hc⟩]
        exact (hm.1 i).2.2 _ hc
  · intro o k c hc
    rw [h3.1 _ _ _ fun hc' => hc x.1 (subP _ _ _ hc')]
    exact hm.2.1 _ _ _ hc
  · intro t n j hc
    rw [h3.2.1 _ _ _ fun hc' => hc x.1 (subG _ _ hc')]
    exact hm.2.2.1 _ _ _ hc
  · intro k hc
    rw [h3.2.2 _ fun hc' => hc x.1 (hsub _ hc')]
    exact hm.2.2.2 _ hc

theorem divided_trace (h : List (ι × Env × Str)) (hs : ∀ i j, i ≠ j → Separate (shareOf i h) (shareOf j h))
    (r : List (ι × Env × Str)) : ∀ (pre : List (ι × Env × Str)) (m : Memory), h = pre ++ r →
    (Divided h m fun i => memoryOf (shareOf i pre)) →
    ∃ as m', Trace m (r.map (·.2)) as m' ∧ (Divided h m' fun i => memoryOf (shareOf i h)) ∧
      ∀ i, answers (run Parser.new (shareOf i pre)) (shareOf i r) = shareOf i ((r.map (·.1)).zip as) := by
  induction r with
  | nil =>
    intro pre m hh hm
    rw [List.append_nil] at hh
    exact ⟨[], m, .nil m, by rw [hh] at hm ⊢; exact hm, fun i => rfl⟩
  | cons x r ih =>
    intro pre m hh hm
    obtain ⟨m1, h1, h2⟩ := divided_step h pre r x hh hs m hm
    obtain ⟨as, m', h3, h4, h5⟩ := ih (pre ++ [x]) m1 (by rw [hh]; simp) h2
    refine ⟨_, m', .cons h1 h3, h4, fun i => ?_⟩
    have e := h5 i
    rw [show x :: r = [x] ++ r from rfl, shareOf_append]
    simp only [List.cons_append, List.nil_append, List.map_cons, List.zip_cons_cons]
    rw [show ∀ (y : ι × Answer) l, y :: l = [y] ++ l from fun _ _ => rfl, shareOf_append]
    by_cases hi : x.1 = i
    · subst hi
      rw [shareOf_append, shareOf_self, run_append'] at e
      rw [shareOf_self, shareOf_self (ι := ι) (α := Answer) (x.1, _)]
      simp only [List.cons_append, List.nil_append, answers]
      rw [← e, (step_rel _ _ _ _ _ _ (rel_memoryOf _) (step_next _ x.2)).1]
      rfl
    · rw [shareOf_append, shareOf_other i x hi, List.append_nil] at e
      rw [shareOf_other i x hi, shareOf_other (α := Answer) i (x.1, _) hi, List.nil_append, List.nil_append]
      exact e

theorem divided_empty (h : List (ι × Env × Str)) : Divided h Memory.empty fun i => memoryOf (shareOf i ([] : List (ι × Env × Str))) :=
  ⟨fun _ => ⟨fun _ _ _ _ => rfl, fun _ _ _ _ => rfl, fun _ _ => rfl⟩, fun _ _ _ _ => rfl, fun _ _ _ _ => rfl, fun _ _ => rfl⟩

theorem divided_memory (h : List (ι × Env × Str)) (hs : ∀ i j, i ≠ j → Separate (shareOf i h) (shareOf j h)) :
    ∃ m, Rel (run Parser.new (h.map (·.2))) m ∧ Divided h m fun i => memoryOf (shareOf i h) := by
  obtain ⟨as, m, ht, hd, -⟩ := divided_trace h hs h [] Memory.empty rfl (divided_empty h)
  exact ⟨m, (trace_rel _ _ _ _ _ rel_new ht).2, hd⟩

theorem divided_eq (h h' : List (ι × Env × Str)) (he : ∀ i, shareOf i h = shareOf i h') (m m' : Memory)
    (hm : Divided h m fun i => memoryOf (shareOf i h)) (hm' : Divided h' m' fun i => memoryOf (shareOf i h')) : m = m' := by
  have e1 : m.part = m'.part := by
    funext o k c
    by_cases hc : ∃ i, (cellsOf (shareOf i h)).part o k c
    · obtain ⟨i, hc⟩ := hc
      rw [(hm.1 i).1 _ _ _ hc]
      beta_reduce
      rw [he i]
      rw [he i] at hc
      exact ((hm'.1 i).1 _ _ _ hc).symm
    · have hn : ∀ i, ¬ (cellsOf (shareOf i h)).part o k c := fun i hi => hc ⟨i, hi⟩
      rw [hm.2.1 _ _ _ hn, hm'.2.1 _ _ _ fun i => he i ▸ hn i]
  have e2 : m.gsv = m'.gsv := by
    funext t n j
    by_cases hc : ∃ i, (cellsOf (shareOf i h)).gsv t n
    · obtain ⟨i, hc⟩ := hc
      rw [(hm.1 i).2.1 _ _ _ hc]
      beta_reduce
      rw [he i]
      rw [he i] at hc
      exact ((hm'.1 i).2.1 _ _ _ hc).symm
    · have hn : ∀ i, ¬ (cellsOf (shareOf i h)).gsv t n := fun i hi => hc ⟨i, hi⟩
      rw [hm.2.2.1 _ _ _ hn, hm'.2.2.1 _ _ _ fun i => he i ▸ hn i]
  have e3 : m.static = m'.static := by
    funext k
    by_cases hc : ∃ i, (cellsOf (shareOf i h)).static k
    · obtain ⟨i, hc⟩ := hc
      rw [(hm.1 i).2.2 _ hc]
      beta_reduce
      rw [he i]
      rw [he i] at hc
      exact ((hm'.1 i).2.2 _ hc).symm
    · have hn : ∀ i, ¬ (cellsOf (shareOf i h)).static k := fun i hi => hc ⟨i, hi⟩
      rw [hm.2.2.2 _ hn, hm'.2.2.2 _ fun i => he i ▸ hn i]
  cases m; cases m'
  simp only at e1 e2 e3
  subst e1 e2 e3
  rfl

/-! ### Merges -/

theorem merge_labels {α : Type} {a b c : List α} (h : Merge a b c) :
    ∃ l : List (Bool × α), l.map (·.2) = c ∧ shareOf true l = a ∧ shareOf false l = b := by
  induction h with
  | nil => exact ⟨[], rfl, rfl, rfl⟩
  | @left x a b c h ih =>
    obtain ⟨l, rfl, rfl, rfl⟩ := ih
    exact ⟨(true, x) :: l, rfl, by simp [shareOf], by simp [shareOf]⟩
  | @right x a b c h ih =>
    obtain ⟨l, rfl, rfl, rfl⟩ := ih
    exact ⟨(false, x) :: l, rfl, by simp [shareOf], by simp [shareOf]⟩

theorem labels_merge {α : Type} (l : List (Bool × α)) : Merge (shareOf true l) (shareOf false l) (l.map (·.2)) := by
  induction l with
  | nil => exact .nil
  | cons x l ih =>
    obtain ⟨b, x⟩ := x
    cases b
    · have e1 : shareOf true ((false, x) :: l) = shareOf true l := by simp [shareOf]
      have e2 : shareOf false ((false, x) :: l) = x :: shareOf false l := by simp [shareOf]
      rw [e1, e2]
      exact .right ih
    · have e1 : shareOf true ((true, x) :: l) = x :: shareOf true l := by simp [shareOf]
      have e2 : shareOf false ((true, x) :: l) = shareOf false l := by simp [shareOf]
      rw [e1, e2]
      exact .left ih

theorem shareOf_zip {α β : Type} (i : ι) (l : List (ι × α)) (as : List β) (h : as.length = l.length) :
    shareOf i ((l.map (·.1)).zip ((l.map (·.2)).zip as)) = (shareOf i l).zip (shareOf i ((l.map (·.1)).zip as)) := by
  induction l generalizing as with
  | nil => rfl
  | cons x l ih =>
    cases as with
    | nil => cases h
    | cons a as =>
      have e := ih as (by simpa using h)
      obtain ⟨j, x⟩ := x
      simp only [shareOf, List.map_cons, List.zip_cons_cons, List.filter_cons] at e ⊢
      by_cases hj : j = i
      · simp only [hj, decide_true, if_true, List.map_cons, List.zip_cons_cons]
        rw [e]
      · simp only [hj, decide_false, Bool.false_eq_true, if_false]
        exact e

omit [DecidableEq ι] in
theorem zip_labels {α β : Type} (l : List (ι × α)) (as : List β) (h : as.length = l.length) :
    ((l.map (·.1)).zip ((l.map (·.2)).zip as)).map (·.2) = (l.map (·.2)).zip as := by
  rw [← List.unzip_snd, List.unzip_zip]
  simp [h]

theorem Spec.Separate.symm {g h : List (Env × Str)} (hs : Separate g h) : Separate h g :=
  ⟨fun _ _ _ k => hs.1 _ _ _ k.symm, fun _ _ k => hs.2.1 _ _ k.symm, fun _ k => hs.2.2 _ k.symm⟩

end Nmea
