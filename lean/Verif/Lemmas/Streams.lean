/-
Traces of the memory machine over the sentences of one group.
-/
import Verif.Spec.Streams
import Verif.Lemmas.Loss

namespace Nmea
open Spec

theorem trace_parts (own : Bool) (id : Nat) (chan : Str) (l : List PartIn) (hl : ∀ x ∈ l, x.Of own id chan)
    (w : Option (Nat × Str)) (hw : ∀ num pl, w = some (num, pl) → (num = 1 ∨ num = 2) ∧ (num = 1 → NotStatic pl))
    (m : Memory) (hm : m.part own id chan = w) :
    ∃ m', Trace m (l.map fun x => (x.env, x.sentence)) (partAnswers own w l) m' := by
  induction l generalizing m w with
  | nil =>
    refine ⟨m, ?_⟩
    cases w <;> exact .nil m
  | cons x l ih =>
    obtain ⟨hn, hp, h24⟩ := hl x List.mem_cons_self
    have hl' := fun y hy => hl y (List.mem_cons_of_mem _ hy)
    have hx : ∀ num pl, some (x.num, x.payload) = some (num, pl) → (num = 1 ∨ num = 2) ∧ (num = 1 → NotStatic pl) := by
      intro num pl e
      cases e
      exact ⟨hn, h24⟩
    cases w with
    | none =>
      have s1 : Step x.env m x.sentence (.ok .incomplete) (m.setPart own id chan (some (x.num, x.payload))) :=
        .waits hp hn (fun y e => by rw [hm] at e; cases e)
      obtain ⟨m', ht⟩ := ih hl' _ hx _ (setPart_self m own id chan _)
      exact ⟨m', .cons s1 ht⟩
    | some v =>
      obtain ⟨num, pl⟩ := v
      obtain ⟨hv, hv24⟩ := hw num pl rfl
      simp only [partAnswers]
      by_cases he : num = x.num
      · rw [if_pos he]
        have s1 : Step x.env m x.sentence (.ok .incomplete) (m.setPart own id chan (some (x.num, x.payload))) :=
          .waits hp hn (fun y e => by rw [hm] at e; cases e; omega)
        obtain ⟨m', ht⟩ := ih hl' _ hx _ (setPart_self m own id chan _)
        exact ⟨m', .cons s1 ht⟩
      · rw [if_neg he]
        obtain ⟨m', ht⟩ := ih hl' none (fun _ _ e => by cases e) _ (setPart_self m own id chan none)
        rcases hn with h1 | h2
        · obtain rfl : num = 2 := by omega
          rw [if_pos h1]
          rw [h1] at hp
          exact ⟨m', .cons (.first hp hm (.plain (NotStatic.plain (h24 h1) _ _))) ht⟩
        · obtain rfl : num = 1 := by omega
          rw [if_neg (by omega)]
          rw [h2] at hp
          exact ⟨m', .cons (.second hp hm (.plain (NotStatic.plain (hv24 rfl) _ _))) ht⟩

theorem trace_static (mmsi : Nat) (l : List StaticSentence) (hl : ∀ x ∈ l, x.Of mmsi 0 ∨ x.Of mmsi 1)
    (w : Option (Bool × List Bool)) (m : Memory) (hm : m.static mmsi = w) :
    ∃ m', Trace m (l.map fun x => (x.env, x.sentence)) (staticAnswers w l) m' := by
  induction l generalizing m w with
  | nil =>
    refine ⟨m, ?_⟩
    cases w <;> exact .nil m
  | cons x l ih =>
    have hl' := fun y hy => hl y (List.mem_cons_of_mem _ hy)
    cases w with
    | none =>
      obtain ⟨m', ht⟩ := ih hl' _ _ (setStatic_self m mmsi (some (x.own, x.bits)))
      rcases hl x List.mem_cons_self with h | h
      · exact ⟨m', .cons (static_waits h (by decide) m hm) ht⟩
      · exact ⟨m', .cons (static_waits h (by decide) m hm) ht⟩
    | some v =>
      obtain ⟨m', ht⟩ := ih hl' _ _ (setStatic_self m mmsi none)
      rcases hl x List.mem_cons_self with h | h
      · exact ⟨m', .cons (static_done h (by decide) m hm) ht⟩
      · exact ⟨m', .cons (static_done h (by decide) m hm) ht⟩

theorem allKept_iff (w : Nat → Option (List Str)) (n : Nat) :
    allKept w n = true ↔ ∀ k, 1 ≤ k → k ≤ n → w k ≠ none := by
  simp only [allKept, List.all_eq_true, List.mem_range'_1, Option.isSome_iff_ne_none]
  exact ⟨fun h k h1 h2 => h k ⟨h1, by omega⟩, fun h k hk => h k hk.1 (by omega)⟩

theorem trace_gsv (talker : Str) (n : Nat) (hn : n < 2 ^ 32 - 1) (l : List GsvIn)
    (hl : ∀ x ∈ l, GsvPart talker n x.num x.fields x.sentence) (w : Nat → Option (List Str)) (m : Memory)
    (hm : ∀ k, m.gsv talker n k = w k) :
    ∃ m', Trace m (l.map fun x => (x.env, x.sentence)) (gsvAnswers (talkerSystem talker) n w l) m' := by
  induction l generalizing m w with
  | nil => exact ⟨m, .nil m⟩
  | cons x l ih =>
    have hx := hl x List.mem_cons_self
    have hl' := fun y hy => hl y (List.mem_cons_of_mem _ hy)
    have hk : ∀ k, (m.setGsv talker n x.num x.fields).gsv talker n k = keep w x k := by
      intro k
      by_cases h : k = x.num
      · subst h
        rw [setGsv_self, keep, if_pos rfl]
      · rw [setGsv_ne _ _ _ _ _ _ h, keep, if_neg h, hm]
    simp only [gsvAnswers]
    by_cases ha : allKept (keep w x) n = true
    · rw [if_pos ha]
      rw [allKept_iff] at ha
      have s1 := Step.gsvDone (env := x.env) (m := m) hx hn (fun j h1 h2 h3 => by
        have := ha j h1 h2
        rw [keep, if_neg h3] at this
        rw [hm]
        exact this)
      simp only [hk] at s1
      obtain ⟨m', ht⟩ := ih hl' (forget (keep w x) n) ((m.setGsv talker n x.num x.fields).clearGsv talker n) (by
        intro k
        by_cases h : 1 ≤ k ∧ k ≤ n
        · rw [clearGsv_in _ _ _ _ h.1 h.2, forget, if_pos h]
        · rw [forget, if_neg h, ← hk]
          exact if_neg (fun e => h e.2.2))
      exact ⟨m', .cons s1 ht⟩
    · rw [if_neg ha]
      rw [allKept_iff] at ha
      have s1 := Step.gsvWaits (env := x.env) (m := m) hx hn (by
        by_contra hc
        refine ha (fun j h1 h2 e => ?_)
        by_cases h : j = x.num
        · rw [keep, if_pos h] at e
          cases e
        · rw [keep, if_neg h, ← hm] at e
          exact hc ⟨j, h1, h2, h, e⟩)
      obtain ⟨m', ht⟩ := ih hl' _ _ hk
      exact ⟨m', .cons s1 ht⟩

theorem partAnswers_doubled (own : Bool) (y : Str) (l : List TwoPart) :
    partAnswers own (some (2, y)) (doubledParts l) = mixedAnswers own y l := by
  induction l generalizing y with
  | nil => rfl
  | cons x l ih => simp [doubledParts, partAnswers, mixedAnswers, ih]

theorem overlay_self (own : Bool) (bits : List Bool) :
    overlay (partData own bits) (partData own bits) = partData own bits := by
  simp [overlay, Option.or_self]

theorem staticAnswers_doubled (l : List StaticSentence) : staticAnswers none (doubled l) = singleAnswers l := by
  induction l with
  | nil => rfl
  | cons x l ih => simp [doubled, staticAnswers, singleAnswers, ih, overlay_self]

/-! ### Counting -/

theorem reports_cons_le (a : Answer) (l : List Answer) : reports (a :: l) ≤ reports l + 1 := by
  match a with
  | .ok .incomplete => exact Nat.le_succ _
  | .ok (.vesselDynamicData _) | .ok (.vesselStaticData _) | .ok (.baseStationReport _)
  | .ok (.binaryAddressedMessage _) | .ok (.standardSarAircraftPositionReport _) | .ok (.utcDateInquiry _)
  | .ok (.aidToNavigationReport _) | .ok (.gga _) | .ok (.rmc _) | .ok (.gsa _) | .ok (.gsv _) | .ok (.vtg _)
  | .ok (.gll _) | .err _ | .panic => exact Nat.le_refl _

theorem reports_incomplete (l : List Answer) : reports (.ok .incomplete :: l) = reports l := rfl

theorem partAnswers_reports (own : Bool) (w : Option (Nat × Str)) (l : List PartIn) :
    2 * reports (partAnswers own w l) ≤ l.length + (if w.isSome then 1 else 0) := by
  induction l generalizing w with
  | nil => cases w <;> simp [partAnswers, reports]
  | cons x l ih =>
    cases w with
    | none =>
      have := ih (some (x.num, x.payload))
      simp only [partAnswers, reports_incomplete, List.length_cons, Option.isSome_some, Option.isSome_none, if_true] at this ⊢
      simp only [Bool.false_eq_true, if_false]
      omega
    | some v =>
      obtain ⟨num, pl⟩ := v
      simp only [partAnswers, List.length_cons, Option.isSome_some, if_true]
      split
      · have := ih (some (x.num, x.payload))
        simp only [reports_incomplete, Option.isSome_some, if_true] at this ⊢
        omega
      · have := ih none
        have h' := reports_cons_le (alone x.env (aisSentence x.talker own
          (if x.num = 1 then x.payload ++ pl else pl ++ x.payload))) (partAnswers own none l)
        simp only [Option.isSome_none, Bool.false_eq_true, if_false] at this
        omega

theorem staticAnswers_reports (w : Option (Bool × List Bool)) (l : List StaticSentence) :
    reports (staticAnswers w l) = (l.length + (if w.isSome then 1 else 0)) / 2 := by
  induction l generalizing w with
  | nil => cases w <;> simp [staticAnswers, reports]
  | cons x l ih =>
    cases w with
    | none =>
      rw [staticAnswers, reports_incomplete, ih]
      simp
    | some v =>
      have e : ∀ d l', reports (.ok (.vesselStaticData d) :: l') = reports l' + 1 := fun _ _ => rfl
      rw [staticAnswers, e, ih]
      simp only [List.length_cons, Option.isSome_some, if_true, Option.isSome_none, Bool.false_eq_true, if_false]
      omega

/-- Number of sentences 1 to `n` that are kept. -/
def kept (w : Nat → Option (List Str)) (n : Nat) : Nat := (List.range' 1 n).countP fun k => (w k).isSome

theorem kept_keep (w : Nat → Option (List Str)) (x : GsvIn) (n : Nat) : kept (keep w x) n ≤ kept w n + 1 := by
  unfold kept
  have h : ∀ ks : List Nat, ks.Nodup →
      ks.countP (fun k => (keep w x k).isSome) ≤ ks.countP (fun k => (w k).isSome) + (if x.num ∈ ks then 1 else 0) := by
    intro ks
    induction ks with
    | nil => simp
    | cons k ks ih =>
      intro hd
      obtain ⟨h1, h2⟩ := List.nodup_cons.1 hd
      have := ih h2
      rw [List.countP_cons, List.countP_cons]
      by_cases hk : k = x.num
      · subst hk
        rw [if_neg h1] at this
        rw [if_pos List.mem_cons_self]
        split <;> split <;> omega
      · have e : keep w x k = w k := if_neg hk
        rw [e]
        have hm : (x.num ∈ k :: ks) ↔ x.num ∈ ks := by
          rw [List.mem_cons]
          exact ⟨fun h => h.resolve_left (fun e => hk e.symm), .inr⟩
        simp only [hm]
        omega
  refine le_trans (h _ List.nodup_range') ?_
  split <;> omega

theorem kept_all (w : Nat → Option (List Str)) (n : Nat) (h : allKept w n = true) : kept w n = n := by
  have : kept w n = (List.range' 1 n).length := by
    rw [kept, List.countP_eq_length]
    exact fun k hk => List.all_eq_true.1 h k hk
  rw [this, List.length_range']

theorem gsvAnswers_reports (nav : NavigationSystem) (n : Nat) (w : Nat → Option (List Str)) (l : List GsvIn) :
    n * reports (gsvAnswers nav n w l) ≤ l.length + kept w n := by
  induction l generalizing w with
  | nil => simp [gsvAnswers, reports]
  | cons x l ih =>
    have hk := kept_keep w x n
    simp only [gsvAnswers, List.length_cons]
    split
    · rename_i ha
      have h1 := ih (forget (keep w x) n)
      have h2 : kept (forget (keep w x) n) n = 0 := by
        rw [kept, List.countP_eq_zero]
        intro k hk
        rw [List.mem_range'_1] at hk
        rw [forget, if_pos ⟨hk.1, by omega⟩]
        simp
      have e : ∀ d l', reports (.ok (.gsv d) :: l') = reports l' + 1 := fun _ _ => rfl
      rw [e, Nat.mul_add, Nat.mul_one]
      have := kept_all _ _ ha
      omega
    · rw [reports_incomplete]
      have := ih (keep w x)
      omega

end Nmea
