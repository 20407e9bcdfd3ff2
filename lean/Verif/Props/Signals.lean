/-
C147: the GSV groups of the signals of a system.
-/
import Verif.Props.SignalId
import Verif.Props.Loss
import Verif.Props.Streams

namespace Nmea
open Spec

theorem signals_part (talker : Str) (ht : Talker talker) (n : Nat) (hn : n < 2 ^ 32 - 1) (g : SignalGroups) (hg : g.Fits)
    (c j : Nat) (_ : 1 ≤ j) (hj : j ≤ n) : GsvPart talker n j (g.fields n c j) (g.sentence talker n c j).2 :=
  signal_part talker n j _ (g.row c j) (g.signal c) ht (hg c).1 (by omega) (by omega)

theorem signals_row (nav : NavigationSystem) (n : Nat) (g : SignalGroups) (hg : g.Fits) (c j : Nat) :
    satellites nav (g.fields n c j) = rowReport nav (g.signal c) (g.row c j) :=
  signal_row nav n j _ (g.row c j) (g.signal c) ((hg c).2 j).1 ((hg c).2 j).2

/-- C147: groups of any signals received in full, in order, among any other sentences: each group is reported with its last
sentence, with the satellites of that group only (and the one its signal id is taken for, C146). -/
theorem C147_in_turn (talker : Str) (ht : Talker talker) (n : Nat) (hn1 : 1 ≤ n) (hn : n < 2 ^ 32 - 1) (g : SignalGroups)
    (hg : g.Fits) (groups : Nat) (h : List (Env × Str))
    (hh : only (GsvOfGroup talker n) h = (List.range' 1 groups).flatMap (cycle (g.sentence talker n) n)) :
    answersTo (GsvOfGroup talker n) Parser.new h = (List.range' 1 groups).flatMap (g.answers (talkerSystem talker) n) := by
  rw [C87_groups_independent, hh]
  have hs := signals_part talker ht n hn g hg
  obtain ⟨m, h1⟩ := trace_cycles talker n n (g.sentence talker n) (g.fields n) ⟨hn1, Nat.le_refl n⟩ hn hs groups 0 Memory.empty
    ⟨fun _ => ⟨rfl, fun i h1 h2 => by omega, fun i h1 h2 => by omega⟩, fun h => by omega⟩
  rw [answers_of_trace h1]
  refine List.flatMap_congr fun c _ => ?_
  obtain ⟨r, rfl⟩ : ∃ r, n = r + 1 := ⟨n - 1, by omega⟩
  rw [shiftedCycle, SignalGroups.answers, List.range'_concat, List.map_append, Nat.add_sub_cancel]
  congr 1
  · rw [List.eq_replicate_iff]
    refine ⟨by simp, fun b hb => ?_⟩
    obtain ⟨j, hj, rfl⟩ := List.mem_map.1 hb
    rw [List.mem_range'_1] at hj
    exact if_neg (by omega)
  · rw [List.map_singleton, if_pos (by omega), ← List.range'_concat]
    congr 3
    refine List.flatMap_congr fun i hi => ?_
    rw [List.mem_range'_1] at hi
    rw [if_pos (by omega), signals_row _ _ _ hg]

/-- C147: sentence `k` of one group is lost, and later groups of the same number of sentences, of whatever signals, are received
in full: each is reported with the rows after `k` of the group before, which is one of another signal if the signals take
turns. -/
theorem C147_mixed (talker : Str) (ht : Talker talker) (n k : Nat) (hk : 1 ≤ k ∧ k ≤ n) (hn : n < 2 ^ 32 - 1) (g : SignalGroups)
    (hg : g.Fits) (groups : Nat) (h : List (Env × Str))
    (hh : only (GsvOfGroup talker n) h =
      cycleWithout (g.sentence talker n) n 0 k ++ (List.range' 1 groups).flatMap (cycle (g.sentence talker n) n)) :
    answersTo (GsvOfGroup talker n) Parser.new h = List.replicate (n - 1) (.ok .incomplete) ++
      (List.range' 1 groups).flatMap (g.mixedAnswers (talkerSystem talker) n k) := by
  rw [C91_sentence_lost talker n k (g.sentence talker n) (g.fields n) hk hn (signals_part talker ht n hn g hg) groups h hh]
  congr 1
  refine List.flatMap_congr fun c _ => ?_
  obtain ⟨a, rfl⟩ : ∃ a, k = a + 1 := ⟨k - 1, by omega⟩
  obtain ⟨b, rfl⟩ : ∃ b, n = a + 1 + b := ⟨n - (a + 1), by omega⟩
  have hsplit : List.range' 1 (a + 1 + b) = List.range' 1 (a + 1) ++ List.range' (a + 1 + 1) b := by
    rw [List.range'_append_1.symm]; congr 2; omega
  rw [shiftedCycle, SignalGroups.mixedAnswers, Nat.add_sub_cancel_left]
  conv_lhs => rw [hsplit]
  rw [List.map_append, List.range'_concat, List.map_append]
  congr 1
  · congr 1
    · rw [List.eq_replicate_iff]
      refine ⟨by simp, fun b hb => ?_⟩
      obtain ⟨j, hj, rfl⟩ := List.mem_map.1 hb
      rw [List.mem_range'_1] at hj
      exact if_neg (by omega)
    · rw [List.map_singleton, if_pos (by omega), ← List.range'_concat, List.flatMap_append]
      congr 4
      · refine List.flatMap_congr fun i hi => ?_
        rw [List.mem_range'_1] at hi
        rw [if_pos (by omega), signals_row _ _ _ hg]
      · refine List.flatMap_congr fun i hi => ?_
        rw [List.mem_range'_1] at hi
        rw [if_neg (by omega), signals_row _ _ _ hg]
  · rw [List.eq_replicate_iff]
    refine ⟨by simp, fun b hb => ?_⟩
    obtain ⟨j, hj, rfl⟩ := List.mem_map.1 hb
    rw [List.mem_range'_1] at hj
    exact if_neg (by omega)

/-- What is kept while the sentences of two signals alternate: those of the second signal. -/
theorem alternating_inv (nav : NavigationSystem) (n : Nat) (h2 : 2 ≤ n) (l : List (GsvIn × GsvIn))
    (hl : ∀ x ∈ l, x.1.num = x.2.num) (all : List (GsvIn × GsvIn)) (ha : ∀ x ∈ l, x ∈ all) (w : Nat → Option (List Str))
    (hw : ∀ i fs, w i = some fs → ∃ x ∈ all, x.2.num = i ∧ fs = x.2.fields) (hmiss : ∃ i, 1 ≤ i ∧ i ≤ n ∧ w i = none) :
    ∀ a ∈ gsvAnswers nav n w (l.flatMap fun x => [x.1, x.2]), a = .ok .incomplete ∨ ∃ k, ∃ f : Nat → List Str, 1 ≤ k ∧ k ≤ n ∧
      a = .ok (.gsv ((List.range' 1 n).flatMap fun i => satellites nav (f i))) ∧
      (∃ x ∈ all, x.1.num = k ∧ f k = x.1.fields) ∧ ∀ i, 1 ≤ i → i ≤ n → i ≠ k → ∃ x ∈ all, x.2.num = i ∧ f i = x.2.fields := by
  induction l generalizing w with
  | nil => intro a h; cases h
  | cons x l ih =>
    have hx := hl x List.mem_cons_self
    have hxa := ha x List.mem_cons_self
    have ih := fun w hw hm => ih (fun y hy => hl y (List.mem_cons_of_mem _ hy)) (fun y hy => ha y (List.mem_cons_of_mem _ hy)) w hw hm
    have later : ∀ v : Nat → Option (List Str), (∀ i fs, i ≠ x.2.num → v i = some fs → ∃ x ∈ all, x.2.num = i ∧ fs = x.2.fields) →
        ∀ i fs, keep v x.2 i = some fs → ∃ x ∈ all, x.2.num = i ∧ fs = x.2.fields := by
      intro v hv i fs h
      unfold keep at h
      split at h
      · rename_i e; cases h; exact ⟨x, hxa, e.symm, rfl⟩
      · rename_i e; exact hv i fs e h
    rw [List.flatMap_cons]
    simp only [List.cons_append, List.nil_append, gsvAnswers]
    by_cases h1 : allKept (keep w x.1) n = true
    · rw [if_pos h1]
      have hm : ∃ i, 1 ≤ i ∧ i ≤ n ∧ keep (forget (keep w x.1) n) x.2 i = none := by
        by_cases e : x.2.num = 1
        · exact ⟨2, by omega, h2, by rw [keep, if_neg (by omega), forget, if_pos ⟨by omega, h2⟩]⟩
        · exact ⟨1, by omega, by omega, by rw [keep, if_neg (by omega), forget, if_pos ⟨by omega, by omega⟩]⟩
      have hno : ¬ allKept (keep (forget (keep w x.1) n) x.2) n = true := by
        rw [allKept_iff]; intro h; obtain ⟨i, i1, i2, i3⟩ := hm; exact h i i1 i2 i3
      rw [if_neg hno]
      rw [allKept_iff] at h1
      have hk : 1 ≤ x.1.num ∧ x.1.num ≤ n := by
        obtain ⟨i, i1, i2, i3⟩ := hmiss
        have := h1 i i1 i2
        unfold keep at this
        split at this
        · omega
        · exact absurd i3 this
      intro a h
      rcases List.mem_cons.1 h with rfl | h
      · refine .inr ⟨x.1.num, fun i => (keep w x.1 i).getD [], hk.1, hk.2, rfl, ⟨x, hxa, rfl, by simp [keep]⟩, fun i i1 i2 i3 => ?_⟩
        have := h1 i i1 i2
        simp only [keep, if_neg i3] at this ⊢
        obtain ⟨fs, hfs⟩ := Option.ne_none_iff_exists'.1 this
        obtain ⟨y, y1, y2, y3⟩ := hw i fs hfs
        exact ⟨y, y1, y2, by rw [hfs, ← y3]; rfl⟩
      rcases List.mem_cons.1 h with rfl | h
      · exact .inl rfl
      refine ih _ (later _ fun i fs e hi => ?_) hm a h
      unfold forget keep at hi
      split at hi
      · cases hi
      · rw [if_neg (by omega)] at hi; exact hw i fs hi
    · rw [if_neg h1]
      have e2 : keep (keep w x.1) x.2 = keep w x.2 := by
        funext i
        unfold keep
        split
        · rfl
        · rw [if_neg (by omega)]
      have hno : ¬ allKept (keep w x.2) n = true := by
        rw [allKept_iff] at h1 ⊢
        intro h
        refine h1 fun i i1 i2 => ?_
        have := h i i1 i2
        unfold keep at this ⊢
        rw [hx]
        split
        · simp
        · rename_i e; rwa [if_neg e] at this
      rw [e2, if_neg hno]
      intro a h
      rcases List.mem_cons.1 h with rfl | h
      · exact .inl rfl
      rcases List.mem_cons.1 h with rfl | h
      · exact .inl rfl
      refine ih _ (later _ fun i fs _ hi => hw i fs hi) ?_ a h
      rw [allKept_iff] at hno
      push Not at hno
      exact hno

/-- C147: if the sentences of two signals alternate (first each sentence of one signal, then that of the same number of the other),
every report has one sentence of the first signal and the others of the second. -/
theorem C147_alternating (talker : Str) (n : Nat) (h2 : 2 ≤ n) (hn : n < 2 ^ 32 - 1) (l : List (GsvIn × GsvIn))
    (hl : ∀ x ∈ l, GsvPart talker n x.1.num x.1.fields x.1.sentence ∧ GsvPart talker n x.2.num x.2.fields x.2.sentence ∧
      x.1.num = x.2.num) (h : List (Env × Str))
    (hh : only (GsvOfGroup talker n) h =
      l.flatMap fun x => [(x.1.env, x.1.sentence), (x.2.env, x.2.sentence)]) :
    ∀ a ∈ answersTo (GsvOfGroup talker n) Parser.new h, a = .ok .incomplete ∨ ∃ k, ∃ f : Nat → List Str, 1 ≤ k ∧ k ≤ n ∧
      a = .ok (.gsv ((List.range' 1 n).flatMap fun i => satellites (talkerSystem talker) (f i))) ∧
      (∃ x ∈ l, x.1.num = k ∧ f k = x.1.fields) ∧ ∀ i, 1 ≤ i → i ≤ n → i ≠ k → ∃ x ∈ l, x.2.num = i ∧ f i = x.2.fields := by
  rw [C101_any_stream talker n hn (l.flatMap fun x => [x.1, x.2]) ?_ h (by rw [hh, List.map_flatMap]; rfl)]
  · exact alternating_inv _ n h2 l (fun x hx => (hl x hx).2.2) l (fun _ h => h) _ (fun _ _ h => nomatch h) ⟨1, by omega, by omega, rfl⟩
  · intro y hy
    obtain ⟨x, hx, hy⟩ := List.mem_flatMap.1 hy
    simp only [List.mem_cons, List.not_mem_nil, or_false] at hy
    rcases hy with rfl | rfl
    · exact (hl x hx).1
    · exact (hl x hx).2.1

/-! ### Examples -/

/-- Two signals in turn, `1` and `8`: two sentences each, the satellites of the second signal numbered from 21. -/
def demoSignals : SignalGroups where
  signal c := if c % 2 = 0 then c! "1" else c! "8"
  row c j := if j = 1 then List.replicate 4 ⟨if c % 2 = 0 then 3 else 23, some 40, some 83, some 46⟩
    else [⟨if c % 2 = 0 then 9 else 29, some 13, none, none⟩]
  env _ _ := demoEnv

theorem demoSignals_fits : demoSignals.Fits := by
  intro c
  refine ⟨by simp only [demoSignals]; split <;> decide, fun j => ?_⟩
  simp only [demoSignals]
  split <;> split <;> simp [InView.Fits]

theorem only_all {P : Str → Prop} {h : List (Env × Str)} (hp : ∀ x ∈ h, P x.2) : only P h = h := by
  induction h with
  | nil => rfl
  | cons x h ih => exact demoOnly_in (hp x List.mem_cons_self) (ih fun y hy => hp y (List.mem_cons_of_mem _ hy))

theorem demoSignals_in (c j : Nat) (h1 : 1 ≤ j) (h2 : j ≤ 2) : GsvOfGroup (c! "GP") 2 (demoSignals.sentence (c! "GP") 2 c j).2 :=
  ⟨_, _, signals_part (c! "GP") ⟨rfl, by decide⟩ 2 (by decide) demoSignals demoSignals_fits c j h1 h2⟩

/-- The hypotheses of `C147_in_turn`: two groups, and what is reported of them. -/
example : answersTo (GsvOfGroup (c! "GP") 2) Parser.new
      [demoSignals.sentence (c! "GP") 2 1 1, demoSignals.sentence (c! "GP") 2 1 2, demoSignals.sentence (c! "GP") 2 2 1,
        (demoEnv, c! "!AIVDM,2,1,8,B,:5MlU41,0"), demoSignals.sentence (c! "GP") 2 2 2] =
    demoSignals.answers .gps 2 1 ++ demoSignals.answers .gps 2 2 := by
  refine (C147_in_turn (c! "GP") ⟨rfl, by decide⟩ 2 (by decide) (by decide) demoSignals demoSignals_fits 2 _ ?_).trans ?_
  · exact demoOnly_in (demoSignals_in 1 1 (by decide) (by decide)) (demoOnly_in (demoSignals_in 1 2 (by decide) (by decide))
      (demoOnly_in (demoSignals_in 2 1 (by decide) (by decide)) (demoOnly_out demoG_out
        (demoOnly_in (demoSignals_in 2 2 (by decide) (by decide)) demoOnly_nil))))
  · rfl

/-- Sentence 1 of group 0 is lost, then two groups are received in full: the hypotheses of `C147_mixed`. -/
def demoMixed : List (Env × Str) :=
  cycleWithout (demoSignals.sentence (c! "GP") 2) 2 0 1 ++
    (List.range' 1 2).flatMap (cycle (demoSignals.sentence (c! "GP") 2) 2)

example : answersTo (GsvOfGroup (c! "GP") 2) Parser.new demoMixed =
    [.ok .incomplete] ++ (demoSignals.mixedAnswers .gps 2 1 1 ++ demoSignals.mixedAnswers .gps 2 1 2) :=
  (C147_mixed (c! "GP") ⟨rfl, by decide⟩ 2 1 (by decide) (by decide) demoSignals demoSignals_fits 2 demoMixed
    (only_all fun x hx => by
      rcases List.mem_append.1 hx with hx | hx
      · simp only [cycleWithout, List.mem_map, List.mem_filter, List.mem_range'_1] at hx
        obtain ⟨j, ⟨hj, -⟩, rfl⟩ := hx
        exact demoSignals_in 0 j (by omega) (by omega)
      · simp only [cycle, List.mem_flatMap, List.mem_map, List.mem_range'_1] at hx
        obtain ⟨c, -, j, hj, rfl⟩ := hx
        exact demoSignals_in c j (by omega) (by omega))).trans rfl

/-- Which sentences these are, and the numbers of the satellites reported: each report has those of both signals. -/
example : demoMixed.map (·.2) =
      [c! "$GPGSV,2,2,5,9,13,,,1*6A", c! "$GPGSV,2,1,5,23,40,83,46,23,40,83,46,23,40,83,46,23,40,83,46,8*5B",
        c! "$GPGSV,2,2,5,29,13,,,8*51", c! "$GPGSV,2,1,5,3,40,83,46,3,40,83,46,3,40,83,46,3,40,83,46,1*52",
        c! "$GPGSV,2,2,5,9,13,,,1*6A"] ∧
    (answers Parser.new demoMixed).map (fun a => match a with | .ok (.gsv l) => l.map (·.prnNumber) | _ => []) =
      [[], [23, 23, 23, 23, 9, 1], [], [3, 3, 3, 3, 29, 8], []] := by decide +kernel

/-- C147: so "each report has the satellites of one signal" is false once a sentence was lost. -/
theorem C147_counterexample : ¬ ∀ (talker : Str) (n k : Nat) (g : SignalGroups), Talker talker → 1 ≤ k → k ≤ n → n < 2 ^ 32 - 1 →
    g.Fits → ∀ l, .ok (.gsv l) ∈ answers Parser.new (cycleWithout (g.sentence talker n) n 0 k ++
      (List.range' 1 2).flatMap (cycle (g.sentence talker n) n)) →
    ∃ c, l = (List.range' 1 n).flatMap fun j => rowReport (talkerSystem talker) (g.signal c) (g.row c j) := by
  intro H
  obtain ⟨c, hc⟩ := H (c! "GP") 2 1 demoSignals ⟨rfl, by decide⟩ (by decide) (by decide) (by decide) demoSignals_fits
    (List.replicate 4 ⟨.gps, 23, some 40, some 83, some 46⟩ ++ [⟨.gps, 9, some 13, none, none⟩, ⟨.gps, 1, none, none, none⟩])
    (by decide +kernel)
  simp only [demoSignals] at hc
  rcases Nat.mod_two_eq_zero_or_one c with e | e <;> simp only [e] at hc <;> revert hc <;> decide +kernel

/-- The sentences of two signals, alternating, twice; the hypotheses of `C147_alternating`. -/
def demoAlternating : List (GsvIn × GsvIn) :=
  (List.range' 1 4).map fun i =>
    let j := 2 - i % 2
    (⟨demoEnv, j, demoSignals.fields 2 0 j, (demoSignals.sentence (c! "GP") 2 0 j).2⟩,
      ⟨demoEnv, j, demoSignals.fields 2 1 j, (demoSignals.sentence (c! "GP") 2 1 j).2⟩)

example : (∀ x ∈ demoAlternating, GsvPart (c! "GP") 2 x.1.num x.1.fields x.1.sentence ∧
      GsvPart (c! "GP") 2 x.2.num x.2.fields x.2.sentence ∧ x.1.num = x.2.num) ∧
    only (GsvOfGroup (c! "GP") 2) (demoAlternating.flatMap fun x => [(x.1.env, x.1.sentence), (x.2.env, x.2.sentence)]) =
      demoAlternating.flatMap fun x => [(x.1.env, x.1.sentence), (x.2.env, x.2.sentence)] := by
  have h : ∀ x ∈ demoAlternating, GsvPart (c! "GP") 2 x.1.num x.1.fields x.1.sentence ∧
      GsvPart (c! "GP") 2 x.2.num x.2.fields x.2.sentence ∧ x.1.num = x.2.num := by
    intro x hx
    obtain ⟨i, -, rfl⟩ := List.mem_map.1 hx
    have h1 : 1 ≤ 2 - i % 2 := by omega
    have h2 : 2 - i % 2 ≤ 2 := by omega
    exact ⟨signals_part (c! "GP") ⟨rfl, by decide⟩ 2 (by decide) demoSignals demoSignals_fits 0 _ h1 h2,
      signals_part (c! "GP") ⟨rfl, by decide⟩ 2 (by decide) demoSignals demoSignals_fits 1 _ h1 h2, rfl⟩
  refine ⟨h, only_all fun y hy => ?_⟩
  obtain ⟨x, hx, hy⟩ := List.mem_flatMap.1 hy
  simp only [List.mem_cons, List.not_mem_nil, or_false] at hy
  rcases hy with rfl | rfl
  · exact ⟨_, _, (h x hx).1⟩
  · exact ⟨_, _, (h x hx).2.1⟩

/-- Every report has a sentence of each signal. -/
example : (answers Parser.new (demoAlternating.flatMap fun x => [(x.1.env, x.1.sentence), (x.2.env, x.2.sentence)])).map
      (fun a => match a with | .ok (.gsv l) => l.map (·.prnNumber) | _ => []) =
    [[], [], [23, 23, 23, 23, 9, 1], [], [3, 3, 3, 3, 29, 8], [], [23, 23, 23, 23, 9, 1], []] := by decide +kernel

end Nmea
