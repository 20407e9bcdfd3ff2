/-
C167: which sentences of a history still count.
-/
import Verif.Props.Possible
import Verif.Props.Bounded
import Verif.Props.Distinguish
import Mathlib.Data.List.Dedup
import Mathlib.Data.List.Sublists

namespace Nmea
open Spec

/-! ### Part of a memory -/

/-- Only these entries of the memory. -/
def onlyThese (m : Memory) (ps : List (Bool × Nat × Str)) (gs : List (Str × Nat × Nat)) (ss : List Nat) : Memory where
  part := fun o i c => if (o, i, c) ∈ ps then m.part o i c else none
  gsv := fun t n k => if (t, n, k) ∈ gs then m.gsv t n k else none
  static := fun i => if i ∈ ss then m.static i else none

/-- The list without an element. -/
def without {α : Type} [DecidableEq α] (l : List α) (x : α) : List α := l.filter fun y => decide (y ≠ x)

theorem mem_without {α : Type} [DecidableEq α] (l : List α) (x y : α) : y ∈ without l x ↔ y ∈ l ∧ y ≠ x := by
  simp [without]

theorem without_length {α : Type} [DecidableEq α] (l : List α) (x : α) : (without l x).length ≤ l.length :=
  List.length_filter_le _ _

theorem without_lt {α : Type} [DecidableEq α] (l : List α) (x : α) (h : x ∈ l) : (without l x).length + 1 ≤ l.length := by
  have := List.length_filter_lt_length_iff_exists (p := fun y => decide (y ≠ x)) (l := l)
  exact this.mpr ⟨x, h, by simp⟩

theorem trace_unsnoc {m m'' : Memory} {h : List (Env × Str)} {x : Env × Str} {as : List Answer}
    (ht : Trace m (h ++ [x]) as m'') : ∃ as' a m', Trace m h as' m' ∧ Step x.1 m' x.2 a m'' := by
  induction h generalizing m as with
  | nil =>
    cases ht with
    | cons h1 h2 =>
      cases h2
      exact ⟨[], _, _, .nil _, h1⟩
  | cons y h ih =>
    cases ht with
    | cons h1 h2 =>
      obtain ⟨as', a, m', h3, h4⟩ := ih h2
      exact ⟨_, a, m', .cons h1 h3, h4⟩

/-- At most `n` sentences of the history lead to this memory. -/
def Kept (h : List (Env × Str)) (m : Memory) (n : Nat) : Prop :=
  ∃ h' as, List.Sublist h' h ∧ h'.length ≤ n ∧ Trace Memory.empty h' as m

theorem Kept.drop {h : List (Env × Str)} {m m' : Memory} {n n' : Nat} (x : Env × Str) (hk : Kept h m n) (hn : n ≤ n')
    (hm : m' = m) : Kept (h ++ [x]) m' n' := by
  obtain ⟨h', as, h1, h2, h3⟩ := hk
  subst hm
  exact ⟨h', as, h1.trans (List.sublist_append_left _ _), by omega, h3⟩

theorem Kept.add {h : List (Env × Str)} {m m1 m' : Memory} {n n' : Nat} {x : Env × Str} {a : Answer} (hk : Kept h m n)
    (hs : Step x.1 m x.2 a m1) (hn : n + 1 ≤ n') (hm : m' = m1) : Kept (h ++ [x]) m' n' := by
  obtain ⟨h', as, h1, h2, h3⟩ := hk
  subst hm
  refine ⟨h' ++ [x], _, h1.append (List.Sublist.refl _), ?_, trace_snoc h3 hs⟩
  simp only [List.length_append, List.length_cons, List.length_nil]
  omega

theorem memory_ext {m k : Memory} (h1 : ∀ o i c, m.part o i c = k.part o i c) (h2 : ∀ t n j, m.gsv t n j = k.gsv t n j)
    (h3 : ∀ i, m.static i = k.static i) : m = k := by
  obtain ⟨mp, mg, ms⟩ := m
  obtain ⟨kp, kg, ks⟩ := k
  simp only [Memory.mk.injEq]
  exact ⟨funext fun o => funext fun i => funext fun c => h1 o i c, funext fun t => funext fun n => funext fun j => h2 t n j,
    funext h3⟩

/-! ### Steps -/

/-- Any entries of the memory after a history come from few of its sentences: one for each text, `w` for each static data. -/
def Few (w : Nat) (h : List (Env × Str)) (m : Memory) : Prop :=
  ∀ ps gs ss, Kept h (onlyThese m ps gs ss) (ps.length + gs.length + w * ss.length)

theorem weight_lt (w : Nat) (ss : List Nat) (i : Nat) (h : i ∈ ss) : w * (without ss i).length + w ≤ w * ss.length := by
  have := Nat.mul_le_mul_left w (without_lt ss i h)
  rwa [Nat.mul_add, Nat.mul_one] at this

theorem weight_le (w : Nat) (ss : List Nat) (i : Nat) : w * (without ss i).length ≤ w * ss.length :=
  Nat.mul_le_mul_left w (without_length ss i)

theorem few_part {w : Nat} {g : List (Env × Str)} {m : Memory} (ih : Few w g m) (x : Env × Str) (own : Bool) (id num : Nat)
    (chan payload talker : Str) (h : Part talker own num id chan payload x.2) (hn : num = 1 ∨ num = 2) :
    Few w (g ++ [x]) (m.setPart own id chan (some (num, payload))) := by
  intro ps gs ss
  by_cases hp : (own, id, chan) ∈ ps
  · refine (ih (without ps (own, id, chan)) gs ss).add (a := .ok .incomplete)
      (.waits h hn ?_) ?_ (memory_ext ?_ (fun _ _ _ => rfl) (fun _ => rfl))
    · intro y e
      simp [onlyThese, mem_without] at e
    · have := without_lt ps _ hp
      omega
    · intro o i c
      simp only [onlyThese, Memory.setPart, mem_without]
      by_cases e : o = own ∧ i = id ∧ c = chan
      · obtain ⟨rfl, rfl, rfl⟩ := e
        simp [hp]
      · have : (o, i, c) ≠ (own, id, chan) := fun h => e (by cases h; exact ⟨rfl, rfl, rfl⟩)
        simp [e]
  · refine (ih ps gs ss).drop x (Nat.le_refl _) (memory_ext ?_ (fun _ _ _ => rfl) (fun _ => rfl))
    intro o i c
    simp only [onlyThese, Memory.setPart]
    by_cases e : o = own ∧ i = id ∧ c = chan
    · obtain ⟨rfl, rfl, rfl⟩ := e
      simp [hp]
    · simp [e]

theorem few_clearPart {w : Nat} {g : List (Env × Str)} {m : Memory} (ih : Few w g m) (x : Env × Str) (own : Bool) (id : Nat) (chan : Str) :
    Few w (g ++ [x]) (m.setPart own id chan none) := by
  intro ps gs ss
  refine (ih (without ps (own, id, chan)) gs ss).drop x ?_ (memory_ext ?_ (fun _ _ _ => rfl) (fun _ => rfl))
  · have := without_length ps (own, id, chan)
    omega
  · intro o i c
    simp only [onlyThese, Memory.setPart, mem_without]
    by_cases e : o = own ∧ i = id ∧ c = chan
    · obtain ⟨rfl, rfl, rfl⟩ := e
      simp
    · simp [e]

/-- A type 24 message is complete and remembered: the sentence, and the part it was waiting for, if there was one. -/
theorem few_static {w : Nat} {g : List (Env × Str)} {m : Memory} (ih : Few w g m) (x : Env × Str) (mmsi : Nat) (y : Bool × List Bool)
    (k : Memory) (q : List (Bool × Nat × Str)) (hq : q.length + 1 ≤ w)
    (hk : ∀ o i c, k.part o i c = if (o, i, c) ∈ q then none else m.part o i c) (hg : k.gsv = m.gsv) (hst : k.static = m.static)
    (hs : ∀ m1 : Memory, (∀ o i c, (o, i, c) ∈ q → m1.part o i c = m.part o i c) → m1.static mmsi = none →
      ∃ a m2, Step x.1 m1 x.2 a m2 ∧ (∀ o i c, m2.part o i c = if (o, i, c) ∈ q then none else m1.part o i c) ∧
        m2.gsv = m1.gsv ∧ m2.static = (m1.setStatic mmsi (some y)).static) :
    Few w (g ++ [x]) (k.setStatic mmsi (some y)) := by
  intro ps gs ss
  by_cases hp : mmsi ∈ ss
  · obtain ⟨a, m2, h1, h2, h3, h4⟩ := hs (onlyThese m (q ++ ps) gs (without ss mmsi))
      (fun o i c h => by simp [onlyThese, h]) (by simp [onlyThese, mem_without])
    refine (ih (q ++ ps) gs (without ss mmsi)).add h1 ?_ (memory_ext ?_ ?_ ?_)
    · have := weight_lt w ss _ hp
      simp only [List.length_append]
      omega
    · intro o i c
      rw [h2]
      simp only [onlyThese, Memory.setStatic, hk, List.mem_append]
      by_cases e : (o, i, c) ∈ q <;> simp [e]
    · intro t n j
      rw [h3]
      simp only [onlyThese, Memory.setStatic, hg]
    · intro i
      rw [h4]
      simp only [onlyThese, Memory.setStatic, hst, mem_without]
      by_cases e : i = mmsi
      · simp [e, hp]
      · simp [e]
  · refine (ih (ps.filter fun z => decide (z ∉ q)) gs ss).drop x ?_ (memory_ext ?_ ?_ ?_)
    · have := List.length_filter_le (fun z => decide (z ∉ q)) ps
      omega
    · intro o i c
      simp only [onlyThese, Memory.setStatic, hk, List.mem_filter, decide_eq_true_eq]
      by_cases e : (o, i, c) ∈ q <;> simp [e]
    · intro t n j
      simp only [onlyThese, Memory.setStatic, hg]
    · intro i
      simp only [onlyThese, Memory.setStatic, hst]
      by_cases e : i = mmsi
      · simp [e, hp]
      · simp [e]

theorem few_clearStatic {w : Nat} {h : List (Env × Str)} {m : Memory} (ih : Few w h m) (mmsi : Nat) : Few w h (m.setStatic mmsi none) := by
  intro ps gs ss
  obtain ⟨h', as, h1, h2, h3⟩ := ih ps gs (without ss mmsi)
  have e : onlyThese (m.setStatic mmsi none) ps gs ss = onlyThese m ps gs (without ss mmsi) := by
    refine memory_ext (fun _ _ _ => rfl) (fun _ _ _ => rfl) ?_
    intro i
    simp only [onlyThese, Memory.setStatic, mem_without]
    by_cases e : i = mmsi
    · simp [e]
    · simp [e]
  rw [e]
  refine ⟨h', as, h1, ?_, h3⟩
  have := weight_le w ss mmsi
  omega

theorem few_same {w : Nat} {g : List (Env × Str)} {m : Memory} (ih : Few w g m) (x : Env × Str) : Few w (g ++ [x]) m :=
  fun ps gs ss => (ih ps gs ss).drop x (Nat.le_refl _) rfl

theorem few_gsv {w : Nat} {g : List (Env × Str)} {m : Memory} (ih : Few w g m) (x : Env × Str) (talker : Str) (n k : Nat) (fs : List Str)
    (hs : ∀ m1 : Memory, (∀ t n j, m.gsv t n j = none → m1.gsv t n j = none) → ∃ a, Step x.1 m1 x.2 a (m1.setGsv talker n k fs)) :
    Few w (g ++ [x]) (m.setGsv talker n k fs) := by
  intro ps gs ss
  by_cases hp : (talker, n, k) ∈ gs
  · obtain ⟨a, h1⟩ := hs (onlyThese m ps (without gs (talker, n, k)) ss)
      (fun t n j h => by simp [onlyThese, h])
    refine (ih ps (without gs (talker, n, k)) ss).add h1 ?_ (memory_ext (fun _ _ _ => rfl) ?_ (fun _ => rfl))
    · have := without_lt gs _ hp
      omega
    · intro t n' j
      simp only [onlyThese, Memory.setGsv, mem_without]
      by_cases e : t = talker ∧ n' = n ∧ j = k
      · obtain ⟨rfl, rfl, rfl⟩ := e
        simp [hp]
      · have : (t, n', j) ≠ (talker, n, k) := fun h => e (by cases h; exact ⟨rfl, rfl, rfl⟩)
        simp [e]
  · refine (ih ps gs ss).drop x (Nat.le_refl _) (memory_ext (fun _ _ _ => rfl) ?_ (fun _ => rfl))
    intro t n' j
    simp only [onlyThese, Memory.setGsv]
    by_cases e : t = talker ∧ n' = n ∧ j = k
    · obtain ⟨rfl, rfl, rfl⟩ := e
      simp [hp]
    · simp [e]

theorem few_clearGsv {w : Nat} {h : List (Env × Str)} {m : Memory} (ih : Few w h m) (talker : Str) (n : Nat) : Few w h (m.clearGsv talker n) := by
  intro ps gs ss
  obtain ⟨h', as, h1, h2, h3⟩ := ih ps (gs.filter fun z => decide (¬ (z.1 = talker ∧ z.2.1 = n ∧ 1 ≤ z.2.2 ∧ z.2.2 ≤ n))) ss
  have e : onlyThese (m.clearGsv talker n) ps gs ss = onlyThese m ps
      (gs.filter fun z => decide (¬ (z.1 = talker ∧ z.2.1 = n ∧ 1 ≤ z.2.2 ∧ z.2.2 ≤ n))) ss := by
    refine memory_ext (fun _ _ _ => rfl) ?_ (fun _ => rfl)
    intro t n' j
    simp only [onlyThese, Memory.clearGsv, List.mem_filter, decide_eq_true_eq]
    by_cases e : t = talker ∧ n' = n ∧ 1 ≤ j ∧ j ≤ n
    · simp [e]
    · simp [e]
  rw [e]
  refine ⟨h', as, h1, ?_, h3⟩
  have := List.length_filter_le (fun z : Str × Nat × Nat => decide (¬ (z.1 = talker ∧ z.2.1 = n ∧ 1 ≤ z.2.2 ∧ z.2.2 ≤ n))) gs
  omega

theorem few_first {w : Nat} {g : List (Env × Str)} {m m' : Memory} (ih : Few w g m) (x : Env × Str) (talker : Str) (own : Bool) (id num : Nat)
    (chan y pl : Str) (a : Answer) (hw : m.part own id chan = some (num, y))
    (hs : ∀ m1 : Memory, m1.part own id chan = some (num, y) → ∀ a m2, Message x.1 (m1.setPart own id chan none) talker own pl a m2 →
      Step x.1 m1 x.2 a m2)
    (hm : Message x.1 (m.setPart own id chan none) talker own pl a m') (h2 : IsStaticPart x.1 pl → 2 ≤ w) :
    Few w (g ++ [x]) m' := by
  cases hm with
  | plain _ => exact few_clearPart ih x own id chan
  | first h1 h0 =>
    refine few_static ih x _ _ _ [(own, id, chan)] (h2 h1) ?_ rfl rfl ?_
    · intro o i c
      simp [Memory.setPart]
    · intro m1 h3 h4
      refine ⟨_, _, hs m1 (by rw [h3 _ _ _ (by simp), hw]) _ _ (.first h1 h4), ?_, rfl, rfl⟩
      intro o i c
      simp [Memory.setPart, Memory.setStatic]
  | second _ _ _ _ => exact few_clearStatic (few_clearPart ih x own id chan) _

theorem few_step {w : Nat} {g : List (Env × Str)} {m m' : Memory} (ih : Few w g m) (hm : Possible m) (x : Env × Str) (a : Answer) (h : Step x.1 m x.2 a m')
    (hr : Rel (run Parser.new g) m) (h1w : 1 ≤ w)
    (hw : w = 1 → ∀ own bits, Completes24 x.1 (run Parser.new g) x.2 own bits → ∃ talker own payload, Single talker own payload x.2) :
    Few w (g ++ [x]) m' := by
  cases h with
  | single h1 hmsg =>
    cases hmsg with
    | plain _ => exact few_same ih x
    | first h2 h3 =>
      refine few_static ih x _ _ m [] (by simpa using h1w) (by simp) rfl rfl ?_
      intro m1 _ h4
      exact ⟨_, _, .single h1 (.first h2 h4), by simp [Memory.setStatic], rfl, rfl⟩
    | second _ _ _ _ => exact few_clearStatic (few_same ih x) _
  | waits h1 hn _ => exact few_part ih x _ _ _ _ _ _ h1 hn
  | @first talker own id chan y z _ _ h1 hp hm =>
    refine few_first ih x _ _ _ _ _ _ _ _ hp (fun m1 e a m2 h => .first h1 e h) hm ?_
    rintro ⟨hs1, hs2, -⟩
    by_contra hlt
    obtain ⟨t, o, pl, hs⟩ := hw (by omega) own _ ⟨y ++ z, .first _ id chan y z h1 (by
      rw [hr.part own 2 id chan (.inr rfl), hp]; rfl), hs1, rfl, hs2⟩
    exact hs.not_part h1
  | @second talker own id chan y z _ _ h1 hp hm =>
    refine few_first ih x _ _ _ _ _ _ _ _ hp (fun m1 e a m2 h => .second h1 e h) hm ?_
    rintro ⟨hs1, hs2, -⟩
    by_contra hlt
    obtain ⟨t, o, pl, hs⟩ := hw (by omega) own _ ⟨y ++ z, .second _ id chan y z h1 (by
      rw [hr.part own 1 id chan (.inl rfl), hp]; rfl), hs1, rfl, hs2⟩
    exact hs.not_part h1
  | gsvWaits h1 hn hw =>
    obtain ⟨j, h2, h3, h4, h5⟩ := hw
    exact few_gsv ih x _ _ _ _ fun m1 h => ⟨_, .gsvWaits h1 hn ⟨j, h2, h3, h4, h _ _ _ h5⟩⟩
  | @gsvDone talker n k fs h1 hn hw =>
    by_cases hk : 1 ≤ k ∧ k ≤ n
    · have e : (m.setGsv talker n k fs).clearGsv talker n = m.clearGsv talker n := by
        refine memory_ext (fun _ _ _ => rfl) ?_ (fun _ => rfl)
        intro t n' j
        simp only [Memory.clearGsv, Memory.setGsv]
        split
        · rfl
        · rename_i e
          rw [if_neg]
          rintro ⟨rfl, rfl, rfl⟩
          exact e ⟨rfl, rfl, hk⟩
      rw [e]
      exact few_clearGsv (few_same ih x) _ _
    · have h0 : n = 0 := by
        by_contra h0
        obtain ⟨j, h2, h3, h4⟩ := hm.incomplete talker n h0 hn
        exact hw j h2 h3 (fun e => hk (e ▸ ⟨h2, h3⟩)) h4
      subst h0
      have e : ∀ m : Memory, m.clearGsv talker 0 = m := by
        intro m
        refine memory_ext (fun _ _ _ => rfl) ?_ (fun _ => rfl)
        intro t n' j
        simp only [Memory.clearGsv]
        rw [if_neg (by omega)]
      rw [e]
      refine few_gsv ih x _ _ _ _ fun m1 _ => ?_
      have := Step.gsvDone (env := x.1) (m := m1) h1 hn (by intro j; omega)
      rw [e] at this
      exact ⟨_, this⟩
  | gsvHuge h1 => exact few_gsv ih x _ _ _ _ fun m1 _ => ⟨_, .gsvHuge h1⟩
  | other _ => exact few_same ih x

theorem few_trace (w : Nat) (h1w : 1 ≤ w) (h : List (Env × Str)) : (w = 1 → ∀ h1 x h2, h = h1 ++ x :: h2 → ∀ own bits,
      Completes24 x.1 (run Parser.new h1) x.2 own bits → ∃ talker own payload, Single talker own payload x.2) →
    ∀ as m, Trace Memory.empty h as m → Few w h m := by
  induction h using List.reverseRecOn with
  | nil =>
    intro _ as m ht ps gs ss
    cases ht
    refine ⟨[], [], List.Sublist.refl _, Nat.zero_le _, ?_⟩
    have : onlyThese Memory.empty ps gs ss = Memory.empty := by
      refine memory_ext ?_ ?_ ?_ <;> intros <;> simp [onlyThese, Memory.empty]
    rw [this]
    exact .nil _
  | append_singleton g x ih =>
    intro hw as m ht
    obtain ⟨as', a, m', h1, h2⟩ := trace_unsnoc ht
    refine few_step (ih ?_ _ _ h1) (possible_empty.trace h1) x a h2 (trace_rel _ _ _ _ _ rel_new h1).2 h1w ?_
    · intro e h1 y h2 eh
      exact hw e h1 y (h2 ++ [x]) (by rw [eh]; simp)
    · intro e
      exact hw e g x [] rfl

/-! ### Counting -/

open Classical in
/-- The entries of a memory, counted by the parser. -/
theorem count_entries {h : List (Env × Str)} {m : Memory} (hr : Rel (run Parser.new h) m) (hm : Possible m) :
    ∃ ps gs ss, onlyThese m ps gs ss = m ∧ ps.length + gs.length ≤ (run Parser.new h).stringsCount ∧
      ss.length ≤ (run Parser.new h).vsdsCount := by
  obtain ⟨ps, gs, ss, h1, h2, h3⟩ := hm.finitely
  refine ⟨(ps.filter fun x => decide (m.part x.1 x.2.1 x.2.2 ≠ none)).dedup,
    (gs.filter fun x => decide (m.gsv x.1 x.2.1 x.2.2 ≠ none)).dedup, (ss.filter fun x => decide (m.static x ≠ none)).dedup,
    ?_, ?_, ?_⟩
  · refine memory_ext ?_ ?_ ?_
    · intro o i c
      simp only [onlyThese, List.mem_dedup, List.mem_filter, decide_eq_true_eq]
      split
      · rfl
      · rename_i e
        by_contra h
        exact e ⟨h1 o i c (Ne.symm h), Ne.symm h⟩
    · intro t n j
      simp only [onlyThese, List.mem_dedup, List.mem_filter, decide_eq_true_eq]
      split
      · rfl
      · rename_i e
        by_contra h
        exact e ⟨h2 t n j (Ne.symm h), Ne.symm h⟩
    · intro i
      simp only [onlyThese, List.mem_dedup, List.mem_filter, decide_eq_true_eq]
      split
      · rfl
      · rename_i e
        by_contra h
        exact e ⟨h3 i (Ne.symm h), Ne.symm h⟩
  · let f : Bool × Nat × Str → Str := fun x => partKey x.1 (((m.part x.1 x.2.1 x.2.2).map (·.1)).getD 0) x.2.1 x.2.2
    let k : Str × Nat × Nat → Str := fun x => gsvKey x.1 x.2.1 x.2.2
    generalize hps : (ps.filter fun x => decide (m.part x.1 x.2.1 x.2.2 ≠ none)).dedup = ps'
    generalize hgs : (gs.filter fun x => decide (m.gsv x.1 x.2.1 x.2.2 ≠ none)).dedup = gs'
    have n1 : ps'.Nodup := hps ▸ List.nodup_dedup _
    have n2 : gs'.Nodup := hgs ▸ List.nodup_dedup _
    have m1 : ∀ x ∈ ps', m.part x.1 x.2.1 x.2.2 ≠ none := by
      intro x hx
      rw [← hps, List.mem_dedup, List.mem_filter] at hx
      simpa using hx.2
    have m2 : ∀ x ∈ gs', m.gsv x.1 x.2.1 x.2.2 ≠ none := by
      intro x hx
      rw [← hgs, List.mem_dedup, List.mem_filter] at hx
      simpa using hx.2
    have tk : ∀ x ∈ gs', ',' ∉ x.1 := by
      intro x hx
      obtain ⟨fs, e⟩ := Option.ne_none_iff_exists'.mp (m2 x hx)
      exact (hr.gsvOk _ _ _ _ e).1.2
    have sub : ps'.map f ++ gs'.map k ⊆ (run Parser.new h).savedFragments.items.map (·.1) := by
      intro y hy
      rw [← KV.get_isSome]
      rcases List.mem_append.mp hy with hy | hy
      · obtain ⟨x, hx, rfl⟩ := List.mem_map.mp hy
        obtain ⟨z, e⟩ := Option.ne_none_iff_exists'.mp (m1 x hx)
        have hn := (hm.parts _ _ _ z.1 z.2 e).1
        have := hr.part x.1 z.1 x.2.1 x.2.2 hn
        rw [pendingPart, e] at this
        simp only [f, e, Option.map_some, Option.getD_some]
        rw [this]
        simp [partOfMemory]
      · obtain ⟨x, hx, rfl⟩ := List.mem_map.mp hy
        obtain ⟨z, e⟩ := Option.ne_none_iff_exists'.mp (m2 x hx)
        have := hr.gsv x.1 x.2.1 x.2.2 (tk x hx)
        rw [pendingGsv, e] at this
        simp only [k]
        rw [this]
        rfl
    have nd : (ps'.map f ++ gs'.map k).Nodup := by
      refine List.nodup_append.mpr ⟨?_, ?_, ?_⟩
      · refine List.Nodup.map_on ?_ n1
        intro x _ y _ e
        obtain ⟨a, -, b, c⟩ := partKey_inj e
        exact Prod.ext a (Prod.ext b c)
      · refine List.Nodup.map_on ?_ n2
        intro x hx y hy e
        obtain ⟨a, b, c⟩ := gsvKey_inj (tk x hx) (tk y hy) e
        exact Prod.ext a (Prod.ext b c)
      · intro y hy z hz e
        obtain ⟨a, -, rfl⟩ := List.mem_map.mp hy
        obtain ⟨b, -, rfl⟩ := List.mem_map.mp hz
        exact partKey_ne_gsvKey _ _ _ _ _ _ _ e
    have := (List.subperm_of_subset nd sub).length_le
    simpa [Parser.stringsCount, KV.size] using this
  · have sub : (ss.filter fun x => decide (m.static x ≠ none)).dedup ⊆ (run Parser.new h).savedVsds.items.map (·.1) := by
      intro i hi
      rw [List.mem_dedup, List.mem_filter] at hi
      rw [← KV.get_isSome]
      obtain ⟨z, e⟩ := Option.ne_none_iff_exists'.mp (by simpa using hi.2 : m.static i ≠ none)
      have := hr.static i
      rw [pendingStatic, e] at this
      rw [this]
      rfl
    have := (List.subperm_of_subset (List.nodup_dedup _) sub).length_le
    simpa [Parser.vsdsCount, KV.size] using this

theorem few_history (w : Nat) (h1w : 1 ≤ w) (h : List (Env × Str)) (hw : w = 1 → ∀ h1 x h2, h = h1 ++ x :: h2 → ∀ own bits,
      Completes24 x.1 (run Parser.new h1) x.2 own bits → ∃ talker own payload, Single talker own payload x.2) :
    ∃ h', List.Sublist h' h ∧ h'.length ≤ (run Parser.new h).stringsCount + w * (run Parser.new h).vsdsCount ∧
      ∀ f, answers (run Parser.new h') f = answers (run Parser.new h) f := by
  obtain ⟨as, m, ht⟩ := trace_total Memory.empty h
  have hr := (trace_rel _ _ _ _ _ rel_new ht).2
  obtain ⟨ps, gs, ss, e, h1, h2⟩ := count_entries hr (possible_empty.trace ht)
  obtain ⟨h', as', s1, s2, s3⟩ := few_trace w h1w h hw as m ht ps gs ss
  rw [e] at s3
  refine ⟨h', s1, ?_, fun f => ?_⟩
  · have := Nat.mul_le_mul_left w h2
    omega
  · obtain ⟨bs, k, hf⟩ := trace_total m f
    rw [(trace_rel _ _ _ _ _ (trace_rel _ _ _ _ _ rel_new s3).2 hf).1, (trace_rel _ _ _ _ _ hr hf).1]

/-- C167: of all the sentences received, few still count: as many as there are texts pending and twice as many as there are static
data pending. A parser that is given only these, in the order they came in, answers everything from now on like the one that was
given all. -/
theorem C167_few (h : List (Env × Str)) : ∃ h', List.Sublist h' h ∧
    h'.length ≤ (run Parser.new h).stringsCount + 2 * (run Parser.new h).vsdsCount ∧
    ∀ f, answers (run Parser.new h') f = answers (run Parser.new h) f :=
  few_history 2 (by decide) h (fun e => by cases e)

/-- Of eight sentences three count: the second copy of a part, and two of three sentences of a GSV group. -/
def demoLong : List (Env × Str) :=
  [(demoEnv, c! "!AIVDM,2,1,7,B,:5Ml,0"), (demoEnv, c! "$GPGSV,3,1,00"), (demoEnv, c! "!AIVDM,2,1,3,A,:5MlU41,0"),
    (demoEnv, c! "!AIVDM,2,2,3,A,GMK6@,0"), (demoEnv, c! "$GPGSV,1,1,00"), (demoEnv, c! "!AIVDM,2,1,7,B,:5MlU41,0"),
    (demoEnv, c! "$GPGSV,3,3,00"), (demoEnv, c! "hello")]

example : ∃ h', List.Sublist h' demoLong ∧ h'.length ≤ 3 ∧
    ∀ f, answers (run Parser.new h') f = answers (run Parser.new demoLong) f := by
  have e1 : (run Parser.new demoLong).stringsCount = 3 := by decide +kernel
  have e2 : (run Parser.new demoLong).vsdsCount = 0 := by decide +kernel
  have := C167_few demoLong
  rwa [e1, e2] at this

/-- A type 24 message in two parts: both of them count. -/
def demoTwo : List (Env × Str) :=
  [(demoEnv, c! "!AIVDM,2,1,7,B,H42O55i18t,0"), (demoEnv, c! "!AIVDM,2,2,7,B,MET00000000000000,2")]

example : (run Parser.new demoTwo).stringsCount = 0 ∧ (run Parser.new demoTwo).vsdsCount = 1 ∧
    ¬ ∃ h', List.Sublist h' demoTwo ∧ h'.length ≤ 1 ∧
      ∀ f, answers (run Parser.new h') f = answers (run Parser.new demoTwo) f := by
  refine ⟨by decide +kernel, by decide +kernel, ?_⟩
  rintro ⟨h', h1, h2, h3⟩
  have e := (C161_same_pending demoEnv _ _ ⟨h', rfl⟩ ⟨demoTwo, rfl⟩ (fun f => h3 _)).2.2 271041815
  have e0 : (pendingStatic (run Parser.new demoTwo) 271041815).isSome := by decide +kernel
  have : h' ∈ demoTwo.sublists' := List.mem_sublists'.mpr h1
  simp only [demoTwo, List.sublists'_cons, List.sublists'_nil, List.map_cons, List.map_nil, List.cons_append, List.nil_append,
    List.mem_cons, List.not_mem_nil, or_false] at this
  rcases this with rfl | rfl | rfl | rfl
  · rw [e.mp (by decide +kernel)] at e0
    cases e0
  · rw [e.mp (by decide +kernel)] at e0
    cases e0
  · rw [e.mp (by decide +kernel)] at e0
    cases e0
  · simp at h2

/-- C167: one for each pending entry is enough if all type 24 messages came in one sentence. -/
theorem C167_one_each (h : List (Env × Str)) (hs : ∀ h1 x h2, h = h1 ++ x :: h2 → ∀ own bits,
      Completes24 x.1 (run Parser.new h1) x.2 own bits → ∃ talker own payload, Single talker own payload x.2) :
    ∃ h', List.Sublist h' h ∧ h'.length ≤ pendingCount (run Parser.new h) ∧
    ∀ f, answers (run Parser.new h') f = answers (run Parser.new h) f := by
  simpa only [pendingCount, Nat.one_mul] using few_history 1 (by decide) h (fun _ => hs)

/-- One sentence over and over again. -/
theorem demoRepeated : Single (c! "AI") false (c! "H42O55i18tMET00000000000000") (c! "!AIVDM,1,1,,A,H42O55i18tMET00000000000000,2") :=
  ⟨[c! "1", c! "1", c! "", c! "A", c! "H42O55i18tMET00000000000000", c! "2"], 1, demoTagged .bare (by decide),
    demoDec (by decide), demoDec (by decide), rfl⟩

theorem demoAgain {n : Nat} {h1 h2 : List (Env × Str)} {x : Env × Str}
    (e : List.replicate n (demoEnv, c! "!AIVDM,1,1,,A,H42O55i18tMET00000000000000,2") = h1 ++ x :: h2) :
    x = (demoEnv, c! "!AIVDM,1,1,,A,H42O55i18tMET00000000000000,2") :=
  List.eq_of_mem_replicate (e ▸ List.mem_append_right _ List.mem_cons_self)

example (n : Nat) : ∃ h', List.Sublist h' (List.replicate n (demoEnv, c! "!AIVDM,1,1,,A,H42O55i18tMET00000000000000,2")) ∧
    h'.length ≤ pendingCount (run Parser.new (List.replicate n (demoEnv, c! "!AIVDM,1,1,,A,H42O55i18tMET00000000000000,2"))) ∧
    ∀ f, answers (run Parser.new h') f =
      answers (run Parser.new (List.replicate n (demoEnv, c! "!AIVDM,1,1,,A,H42O55i18tMET00000000000000,2"))) f :=
  C167_one_each _ fun h1 x h2 e _ _ _ => by
    rw [demoAgain e]
    exact ⟨_, _, _, demoRepeated⟩

/-- C167: and no history with fewer sentences leads to the same answers, if the GSV sentences are numbered within their groups. -/
theorem C167_least (h g : List (Env × Str))
    (hV : ∀ x ∈ h, ∀ talker n k fs, GsvPart talker n k fs x.2 → 1 ≤ k ∧ k ≤ n ∧ n < 2 ^ 32 - 1)
    (hg : ∀ f, answers (run Parser.new g) f = answers (run Parser.new h) f) : pendingCount (run Parser.new h) ≤ g.length := by
  obtain ⟨h1, h2, h3⟩ := C161_same_pending demoEnv _ _ ⟨g, rfl⟩ ⟨h, rfl⟩ (fun f => hg _)
  refine Nat.le_trans ?_ (C15_history g)
  have s1 : (run Parser.new h).savedFragments.items.map (·.1) ⊆ (run Parser.new g).savedFragments.items.map (·.1) := by
    intro k hk
    rw [← KV.get_isSome, Option.isSome_iff_exists] at hk
    obtain ⟨b, hb⟩ := hk
    rw [← KV.get_isSome, Option.isSome_iff_ne_none]
    obtain ⟨x, hx, ⟨talker, own, num, id, chan, pl, hn, hp, rfl⟩ | ⟨talker, n, i, fs, hp, rfl⟩⟩ := key_source_run h k b hb
    · intro e
      have := (h1 own num id chan hn).mp e
      rw [show pendingPart (run Parser.new h) own num id chan = some b from hb] at this
      cases this
    · intro e
      obtain ⟨a, b', c⟩ := hV x hx _ _ _ _ hp
      have := (h2 talker n i hp.1.1 a b' c).mp e
      rw [show pendingGsv (run Parser.new h) talker n i = some b from hb] at this
      cases this
  have s2 : (run Parser.new h).savedVsds.items.map (·.1) ⊆ (run Parser.new g).savedVsds.items.map (·.1) := by
    intro k hk
    rw [← KV.get_isSome, Option.isSome_iff_exists] at hk
    obtain ⟨b, hb⟩ := hk
    rw [← KV.get_isSome, Option.isSome_iff_ne_none]
    intro e
    have := (h3 k).mp e
    rw [show pendingStatic (run Parser.new h) k = some b from hb] at this
    cases this
  have l1 := (List.subperm_of_subset (C103_once_per_key h).1 s1).length_le
  have l2 := (List.subperm_of_subset (C103_once_per_key h).2 s2).length_le
  simp only [List.length_map] at l1 l2
  simp only [pendingCount, Parser.stringsCount, Parser.vsdsCount, KV.size]
  omega

/-- A part and two sentences of a GSV group: only after three sentences or more a parser answers like this one. -/
example (g : List (Env × Str)) (hg : ∀ f, answers (run Parser.new g) f = answers (run Parser.new
      [(demoEnv, c! "!AIVDM,2,1,5,A,13HOI,0"), (demoEnv, c! "$GPGSV,3,1,00"), (demoEnv, c! "$GPGSV,3,2,00")]) f) :
    3 ≤ g.length := by
  have e : pendingCount (run Parser.new
      [(demoEnv, c! "!AIVDM,2,1,5,A,13HOI,0"), (demoEnv, c! "$GPGSV,3,1,00"), (demoEnv, c! "$GPGSV,3,2,00")]) = 3 := by
    decide +kernel
  rw [← e]
  refine C167_least _ g ?_ hg
  have p1 : Part (c! "AI") false 1 5 (c! "A") (c! "13HOI") (c! "!AIVDM,2,1,5,A,13HOI,0") :=
    ⟨[c! "2", c! "1", c! "5", c! "A", c! "13HOI", c! "0"], demoTagged .bare (by decide), demoDec (by decide),
      demoDec (by decide), demoDec (by decide), rfl, rfl⟩
  have g1 : GsvPart (c! "GP") 3 1 [c! "3", c! "1", c! "00"] (c! "$GPGSV,3,1,00") :=
    ⟨demoTagged .bare (by decide), .inr (demoDec (by decide)), .inr (demoDec (by decide))⟩
  have g2 : GsvPart (c! "GP") 3 2 [c! "3", c! "2", c! "00"] (c! "$GPGSV,3,2,00") :=
    ⟨demoTagged .bare (by decide), .inr (demoDec (by decide)), .inr (demoDec (by decide))⟩
  intro x hx talker n k fs h
  simp only [List.mem_cons, List.not_mem_nil, or_false] at hx
  rcases hx with rfl | rfl | rfl
  · obtain ⟨fs', hp, -⟩ := p1
    exact absurd (IsTagged.unique h.1 hp (by decide) (by decide) (by decide) (aisKind_noComma _)).1 (by decide)
  · obtain ⟨rfl, rfl, rfl, -⟩ := h.unique g1
    decide
  · obtain ⟨rfl, rfl, rfl, -⟩ := h.unique g2
    decide

/-- C167: in traffic of the groups `G`, GSV sentences `V` and vessels `M` (C106) this is a number that does not grow with the
history. -/
theorem C167_traffic (h : List (Env × Str)) (G : List (Bool × Nat × Str)) (V : List (Str × Nat × Nat)) (M : List Nat)
    (hG : ∀ x ∈ h, ∀ talker own num id chan payload, Part talker own num id chan payload x.2 → (own, id, chan) ∈ G)
    (hV : ∀ x ∈ h, ∀ talker n k fs, GsvPart talker n k fs x.2 → (talker, n, k) ∈ V)
    (hM : ∀ h1 x h2 own bits, h = h1 ++ x :: h2 → Completes24 x.1 (run Parser.new h1) x.2 own bits → mmsiOf bits ∈ M) :
    ∃ h', List.Sublist h' h ∧ h'.length ≤ G.length + V.length + 2 * M.length ∧
    ∀ f, answers (run Parser.new h') f = answers (run Parser.new h) f := by
  obtain ⟨h', h1, h2, h3⟩ := C167_few h
  have h4 := C106_texts h G V hG hV
  have h5 := C106_static h M hM
  exact ⟨h', h1, by omega, h3⟩

/-- Of any number of repetitions of one type 24 message at most two count. -/
example (n : Nat) : ∃ h', List.Sublist h' (List.replicate n (demoEnv, c! "!AIVDM,1,1,,A,H42O55i18tMET00000000000000,2")) ∧
    h'.length ≤ 2 ∧ ∀ f, answers (run Parser.new h') f =
      answers (run Parser.new (List.replicate n (demoEnv, c! "!AIVDM,1,1,,A,H42O55i18tMET00000000000000,2"))) f := by
  refine C167_traffic _ [] [] [271041815] ?_ ?_ ?_
  · intro x hx talker own num id chan pl hp
    rw [List.eq_of_mem_replicate hx] at hp
    exact (demoRepeated.not_part hp).elim
  · intro x hx talker n k fs hg
    rw [List.eq_of_mem_replicate hx] at hg
    obtain ⟨fs', _, hp, -⟩ := demoRepeated
    exact absurd (IsTagged.unique hg.1 hp (by decide) (by decide) (by decide) (aisKind_noComma _)).1 (by decide)
  · intro h1 x h2 own bits e hc
    rw [demoAgain e] at hc
    obtain ⟨pl, hc, -, rfl, -⟩ := hc
    cases hc with
    | single talker _ h =>
      obtain ⟨-, -, rfl⟩ := h.unique demoRepeated
      decide +kernel
    | first _ _ _ _ _ h _ => exact (demoRepeated.not_part h).elim
    | second _ _ _ _ _ h _ => exact (demoRepeated.not_part h).elim

end Nmea
