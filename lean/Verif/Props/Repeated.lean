/-
C101: GSV groups of which every sentence is received twice.
-/
import Verif.Props.Streams
import Verif.Props.Resync
import Verif.Spec.Repeated

namespace Nmea
open Spec

/-- What is kept before sentence `j + 1` of cycle `c`. -/
def twiceKept (g : Nat → Nat → GsvIn) (n c m j i : Nat) : Option (List Str) :=
  if j < m then (if i ≤ j then some (g c i).fields else if i ≤ m then none else some (g (c - 1) i).fields)
  else if m = 1 ∧ j = n then (if i = n then some (g c n).fields else none)
  else (if m ≤ i ∧ i ≤ j then some (g c i).fields else none)

theorem allKept_eq {w : Nat → Option (List Str)} {n : Nat} (h : ∀ k, 1 ≤ k → k ≤ n → (w k).isSome = true) : allKept w n = true := by
  simp only [allKept, List.all_eq_true, List.mem_range'_1]
  exact fun k hk => h k hk.1 (by omega)

theorem allKept_ne {w : Nat → Option (List Str)} {n k : Nat} (h1 : 1 ≤ k) (h2 : k ≤ n) (h : w k = none) : allKept w n = false := by
  rw [← Bool.not_eq_true]
  simp only [allKept, List.all_eq_true, List.mem_range'_1]
  intro h'
  have := h' k ⟨h1, by omega⟩
  rw [h] at this
  cases this

/-- Two copies of sentence `j + 1`. -/
theorem twice_step (nav : NavigationSystem) (g : Nat → Nat → GsvIn) (n c m j : Nat) (hg : ∀ c j, (g c j).num = j) (hn : 2 ≤ n)
    (hm : 1 ≤ m ∧ m ≤ n) (hj : j < n) (w : Nat → Option (List Str))
    (hw : ∀ i, 1 ≤ i → i ≤ n → w i = twiceKept g n c m j i) :
    ∃ w', (∀ i, 1 ≤ i → i ≤ n → w' i = twiceKept g n c m (j + 1) i) ∧ ∀ l,
      gsvAnswers nav n w (g c (j + 1) :: g c (j + 1) :: l) =
        [if j + 1 = m then staleView nav g n c m else if m = 1 ∧ j + 1 = n then staleView nav g n c n else .ok .incomplete,
          .ok .incomplete] ++ gsvAnswers nav n w' l := by
  have hk : ∀ w i, keep w (g c (j + 1)) i = if i = j + 1 then some (g c (j + 1)).fields else w i := by
    intro w i
    simp only [keep, hg]
  rcases Nat.lt_trichotomy (j + 1) m with h | h | h
  · -- before sentence m
    refine ⟨keep (keep w (g c (j + 1))) (g c (j + 1)), ?_, fun l => ?_⟩
    · intro i h1 h2
      rw [hk, hk, hw i h1 h2]
      unfold twiceKept
      by_cases e : i = j + 1
      · subst e; simp [h]
      · rw [if_neg e, if_neg e, if_pos (by omega), if_pos h]
        by_cases e2 : i ≤ j
        · rw [if_pos e2, if_pos (show i ≤ j + 1 by omega)]
        · rw [if_neg e2, if_neg (show ¬ i ≤ j + 1 by omega)]
    · have hx : ∀ w, w m = none → allKept (keep w (g c (j + 1))) n = false := by
        intro w hw
        exact allKept_ne hm.1 hm.2 (by rw [hk, if_neg (by omega), hw])
      have h0 : w m = none := by
        rw [hw m hm.1 hm.2, twiceKept, if_pos (by omega), if_neg (by omega), if_pos (Nat.le_refl _)]
      rw [gsvAnswers, if_neg (by rw [hx _ h0]; simp), gsvAnswers,
        if_neg (by rw [hx _ (by rw [hk, if_neg (by omega), h0])]; simp), if_neg (by omega), if_neg (by omega)]
      rfl
  · -- sentence m
    have h1 : ∀ i, 1 ≤ i → i ≤ n → keep w (g c (j + 1)) i = some (g (if i ≤ m then c else c - 1) i).fields := by
      intro i h1 h2
      rw [hk, hw i h1 h2, twiceKept, if_pos (show j < m by omega)]
      by_cases e : i = j + 1
      · subst e; rw [if_pos rfl, if_pos (show j + 1 ≤ m by omega)]
      · rw [if_neg e]
        by_cases e2 : i ≤ j
        · rw [if_pos e2, if_pos (show i ≤ m by omega)]
        · rw [if_neg e2, if_neg (show ¬ i ≤ m by omega), if_neg (show ¬ i ≤ m by omega)]
    have ha : allKept (keep w (g c (j + 1))) n = true := allKept_eq fun k k1 k2 => by rw [h1 k k1 k2]; rfl
    obtain ⟨o, o1, o2, o3⟩ : ∃ o, 1 ≤ o ∧ o ≤ n ∧ o ≠ j + 1 := by
      by_cases e : j + 1 = 1
      · exact ⟨2, by omega, by omega, by omega⟩
      · exact ⟨1, by omega, by omega, by omega⟩
    have hb : allKept (keep (forget (keep w (g c (j + 1))) n) (g c (j + 1))) n = false :=
      allKept_ne o1 o2 (by rw [hk, if_neg o3, forget, if_pos ⟨o1, o2⟩])
    refine ⟨keep (forget (keep w (g c (j + 1))) n) (g c (j + 1)), ?_, fun l => ?_⟩
    · intro i i1 i2
      rw [hk, forget, if_pos (show 1 ≤ i ∧ i ≤ n from ⟨i1, i2⟩), twiceKept, if_neg (show ¬ j + 1 < m by omega)]
      by_cases e : i = j + 1
      · subst e
        rw [if_pos rfl]
        split
        · rename_i e
          rw [if_pos (by omega), e.2]
        · rw [if_pos (by omega)]
      · rw [if_neg e]
        split
        · rename_i e
          rw [if_neg (by omega)]
        · rw [if_neg (by omega)]
    · rw [gsvAnswers, if_pos ha, gsvAnswers, if_neg (by rw [hb]; simp), if_pos h, staleView]
      simp only [List.cons_append, List.nil_append, List.cons.injEq, Out.ok.injEq, ParsedSentence.gsv.injEq, and_true]
      refine List.flatMap_congr fun i hi => ?_
      rw [List.mem_range'_1] at hi
      rw [h1 i hi.1 (by omega)]
      rfl
  · -- after sentence m
    have h1 : ∀ i, 1 ≤ i → i ≤ n → keep w (g c (j + 1)) i = if m ≤ i ∧ i ≤ j + 1 then some (g c i).fields else none := by
      intro i h1 h2
      rw [hk, hw i h1 h2, twiceKept, if_neg (show ¬ j < m by omega), if_neg (show ¬ (m = 1 ∧ j = n) by omega)]
      by_cases e : i = j + 1
      · subst e; rw [if_pos rfl, if_pos (by omega)]
      · rw [if_neg e]
        by_cases e2 : m ≤ i ∧ i ≤ j
        · rw [if_pos e2, if_pos (show m ≤ i ∧ i ≤ j + 1 by omega)]
        · rw [if_neg e2, if_neg (show ¬ (m ≤ i ∧ i ≤ j + 1) by omega)]
    by_cases hl : m = 1 ∧ j + 1 = n
    · have ha : allKept (keep w (g c (j + 1))) n = true :=
        allKept_eq fun k k1 k2 => by rw [h1 k k1 k2, if_pos (by omega)]; rfl
      have hb : allKept (keep (forget (keep w (g c (j + 1))) n) (g c (j + 1))) n = false :=
        allKept_ne (Nat.le_refl 1) (by omega) (by rw [hk, if_neg (by omega), forget, if_pos (by omega)])
      refine ⟨keep (forget (keep w (g c (j + 1))) n) (g c (j + 1)), ?_, fun l => ?_⟩
      · intro i i1 i2
        rw [hk, forget, if_pos (show 1 ≤ i ∧ i ≤ n from ⟨i1, i2⟩), twiceKept, if_neg (show ¬ j + 1 < m by omega), if_pos hl, hl.2]
      · rw [gsvAnswers, if_pos ha, gsvAnswers, if_neg (by rw [hb]; simp), if_neg (by omega), if_pos hl, staleView]
        simp only [List.cons_append, List.nil_append, List.cons.injEq, Out.ok.injEq, ParsedSentence.gsv.injEq, and_true]
        refine List.flatMap_congr fun i hi => ?_
        rw [List.mem_range'_1] at hi
        rw [h1 i hi.1 (by omega), if_pos (by omega), if_pos (by omega)]
        rfl
    · obtain ⟨o, o1, o2, o3⟩ : ∃ o, 1 ≤ o ∧ o ≤ n ∧ ¬ (m ≤ o ∧ o ≤ j + 1) := by
        by_cases e : m = 1
        · exact ⟨n, by omega, by omega, by omega⟩
        · exact ⟨1, by omega, by omega, by omega⟩
      have h2 : ∀ i, 1 ≤ i → i ≤ n → keep (keep w (g c (j + 1))) (g c (j + 1)) i =
          if m ≤ i ∧ i ≤ j + 1 then some (g c i).fields else none := by
        intro i i1 i2
        rw [hk, h1 i i1 i2]
        by_cases e : i = j + 1
        · subst e; rw [if_pos rfl, if_pos (by omega)]
        · rw [if_neg e]
      have ha := allKept_ne (w := keep w (g c (j + 1))) o1 o2 (by rw [h1 o o1 o2, if_neg o3])
      have hb := allKept_ne (w := keep (keep w (g c (j + 1))) (g c (j + 1))) o1 o2 (by rw [h2 o o1 o2, if_neg o3])
      refine ⟨keep (keep w (g c (j + 1))) (g c (j + 1)), ?_, fun l => ?_⟩
      · intro i i1 i2
        rw [h2 i i1 i2, twiceKept, if_neg (show ¬ j + 1 < m by omega), if_neg hl]
      · rw [gsvAnswers, if_neg (by rw [ha]; simp), gsvAnswers, if_neg (by rw [hb]; simp), if_neg (by omega), if_neg hl]
        rfl

theorem twice_cycle (nav : NavigationSystem) (g : Nat → Nat → GsvIn) (n c m : Nat) (hg : ∀ c j, (g c j).num = j) (hn : 2 ≤ n)
    (hm : 1 ≤ m ∧ m ≤ n) (r : Nat) : ∀ (j : Nat) (_ : j + r = n) (w : Nat → Option (List Str))
    (_ : ∀ i, 1 ≤ i → i ≤ n → w i = twiceKept g n c m j i),
    ∃ w', (∀ i, 1 ≤ i → i ≤ n → w' i = twiceKept g n c m n i) ∧ ∀ l,
      gsvAnswers nav n w (((List.range' (j + 1) r).flatMap fun j => [g c j, g c j]) ++ l) =
        ((List.range' (j + 1) r).flatMap fun j =>
          [if j = m then staleView nav g n c m else if m = 1 ∧ j = n then staleView nav g n c n else .ok .incomplete,
            .ok .incomplete]) ++ gsvAnswers nav n w' l := by
  induction r with
  | zero =>
    intro j hj w hw
    obtain rfl : j = n := by omega
    exact ⟨w, hw, fun l => rfl⟩
  | succ r ih =>
    intro j hj w hw
    obtain ⟨w1, k1, k2⟩ := twice_step nav g n c m j hg hn hm (by omega) w hw
    obtain ⟨w2, k3, k4⟩ := ih (j + 1) (by omega) w1 k1
    refine ⟨w2, k3, fun l => ?_⟩
    rw [List.range'_succ, List.flatMap_cons, List.flatMap_cons]
    have := k2 (((List.range' (j + 1 + 1) r).flatMap fun j => [g c j, g c j]) ++ l)
    simp only [List.cons_append, List.nil_append] at this ⊢
    rw [this, k4 l]

theorem twice_all (nav : NavigationSystem) (g : Nat → Nat → GsvIn) (n : Nat) (hg : ∀ c j, (g c j).num = j) (hn : 2 ≤ n)
    (r : Nat) : ∀ (c m : Nat) (_ : 1 ≤ m ∧ m ≤ n) (w : Nat → Option (List Str))
    (_ : ∀ i, 1 ≤ i → i ≤ n → w i = twiceKept g n c m 0 i),
    gsvAnswers nav n w ((List.range' c r).flatMap (cycleTwice g n)) = allTwice nav g n r c m := by
  induction r with
  | zero => intro c m _ w _; rfl
  | succ r ih =>
    intro c m hm w hw
    obtain ⟨w1, k1, k2⟩ := twice_cycle nav g n c m hg hn hm n 0 (by omega) w hw
    rw [List.range'_succ, List.flatMap_cons, cycleTwice, k2, allTwice, twiceAnswers]
    congr 1
    by_cases e : m = 1
    · rw [if_pos e]
      refine ih (c + 1) (n - 1) (by omega) w1 fun i i1 i2 => ?_
      rw [k1 i i1 i2, twiceKept, twiceKept, if_neg (show ¬ n < m by omega), if_pos ⟨e, rfl⟩, if_pos (show 0 < n - 1 by omega),
        if_neg (show ¬ i ≤ 0 by omega)]
      by_cases e2 : i = n
      · rw [if_pos e2, if_neg (show ¬ i ≤ n - 1 by omega), e2]; rfl
      · rw [if_neg e2, if_pos (show i ≤ n - 1 by omega)]
    · rw [if_neg e]
      refine ih (c + 1) (m - 1) (by omega) w1 fun i i1 i2 => ?_
      rw [k1 i i1 i2, twiceKept, twiceKept, if_neg (show ¬ n < m by omega), if_neg (show ¬ (m = 1 ∧ n = n) by omega),
        if_pos (show 0 < m - 1 by omega), if_neg (show ¬ i ≤ 0 by omega)]
      by_cases e2 : m ≤ i
      · rw [if_pos ⟨e2, i2⟩, if_neg (show ¬ i ≤ m - 1 by omega)]; rfl
      · rw [if_neg (show ¬ (m ≤ i ∧ i ≤ n) by omega), if_pos (show i ≤ m - 1 by omega)]

/-- C101: if every sentence of a GSV group of two or more sentences is received twice (each cycle in order), then every cycle
but the first is reported before it is complete, with the missing sentences taken from the cycle before; every `n - 1` cycles
there is a second report, of the cycle itself. -/
theorem C101_everything_twice (talker : Str) (n : Nat) (h2 : 2 ≤ n) (hn : n < 2 ^ 32 - 1) (g : Nat → Nat → GsvIn)
    (hg : ∀ c j, (g c j).num = j) (hs : ∀ c j, 1 ≤ j → j ≤ n → GsvPart talker n j (g c j).fields (g c j).sentence)
    (cycles : Nat) (h : List (Env × Str))
    (hh : only (GsvOfGroup talker n) h =
      ((List.range' 0 cycles).flatMap (cycleTwice g n)).map fun x => (x.env, x.sentence)) :
    answersTo (GsvOfGroup talker n) Parser.new h = allTwice (talkerSystem talker) g n cycles 0 n := by
  rw [C101_any_stream talker n hn _ ?_ h hh]
  · refine twice_all (talkerSystem talker) g n hg h2 cycles 0 n (by omega) _ fun i i1 i2 => ?_
    rw [twiceKept, if_pos (by omega), if_neg (by omega), if_pos i2]
  · intro x hx
    obtain ⟨c, -, hx⟩ := List.mem_flatMap.mp hx
    obtain ⟨j, hj, hx⟩ := List.mem_flatMap.mp hx
    rw [List.mem_range'_1] at hj
    simp only [List.mem_cons, List.not_mem_nil, or_false, or_self] at hx
    subst hx
    rw [hg]
    exact hs c j hj.1 (by omega)

/-- A cycle of two sentences, each received twice, with a sentence of something else between them. -/
example : answersTo (GsvOfGroup (c! "GP") 2) Parser.new
    [(demoEnv, demoG1.sentence), (demoEnv, demoG1.sentence), (demoEnv, c! "!AIVDM,2,1,8,B,:5MlU41,0"), (demoEnv, demoG2.sentence),
      (demoEnv, demoG2.sentence)] =
    [.ok .incomplete, .ok .incomplete, .ok (.gsv (satellites .gps demoGsvFields1 ++ satellites .gps demoGsvFields2)),
      .ok .incomplete] := by
  have h := C101_everything_twice (c! "GP") 2 (by decide) (by decide)
    (fun _ j => if j = 1 then demoG1 else { demoG2 with num := j })
    (by
      intro c j
      by_cases e : j = 1
      · simp only [e]; rfl
      · simp only [if_neg e])
    (by
      intro c j h1 h2
      obtain rfl | rfl : j = 1 ∨ j = 2 := by omega
      · exact demoGsv1
      · exact demoGsv2) 1
    [(demoEnv, demoG1.sentence), (demoEnv, demoG1.sentence), (demoEnv, c! "!AIVDM,2,1,8,B,:5MlU41,0"), (demoEnv, demoG2.sentence),
      (demoEnv, demoG2.sentence)]
    (demoOnly_in demoG1_in (demoOnly_in demoG1_in (demoOnly_out demoG_out (demoOnly_in demoG2_in (demoOnly_in demoG2_in demoOnly_nil)))))
  rw [h]
  decide +kernel

/-- Two cycles of three sentences, each received twice: the second cycle is reported with the third sentence of the first. -/
example : answers Parser.new
      ([c! "$GPGSV,3,1,03,11,,,", c! "$GPGSV,3,2,03,12,,,", c! "$GPGSV,3,3,03,13,,,", c! "$GPGSV,3,1,03,21,,,",
        c! "$GPGSV,3,2,03,22,,,", c! "$GPGSV,3,3,03,23,,,"].flatMap fun s => [(demoEnv, s), (demoEnv, s)]) =
    [.ok .incomplete, .ok .incomplete, .ok .incomplete, .ok .incomplete,
     .ok (.gsv [⟨.gps, 11, none, none, none⟩, ⟨.gps, 12, none, none, none⟩, ⟨.gps, 13, none, none, none⟩]), .ok .incomplete,
     .ok .incomplete, .ok .incomplete,
     .ok (.gsv [⟨.gps, 21, none, none, none⟩, ⟨.gps, 22, none, none, none⟩, ⟨.gps, 13, none, none, none⟩]), .ok .incomplete,
     .ok .incomplete, .ok .incomplete] := by
  decide +kernel

end Nmea
