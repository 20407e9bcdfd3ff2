/-
Printing doubles with as few digits as possible.
-/
import Verif.Spec.Shortest
import Verif.Lemmas.Print
import Mathlib.Tactic.NormNum

namespace Nmea
open Spec

theorem scaled_unique {m M : Nat} (hm : m < 10 ^ 15) (h : |(m : Rat) - M| ≤ (m + M) * 2 ^ (-52 : Int)) : m = M := by
  have e : (2 : Rat) ^ (-52 : Int) = 1 / 4503599627370496 := by norm_num
  rw [e] at h
  have hm' : (m : Rat) < 10 ^ 15 := by exact_mod_cast hm
  have h1 := abs_le.mp h
  have hM : (M : Rat) ≤ 2 * 10 ^ 15 := by linarith [h1.1]
  have h2 : |(m : Rat) - M| < 1 := by
    refine lt_of_le_of_lt h ?_
    rw [mul_one_div, div_lt_one (by norm_num)]
    linarith
  have h3 : |((m : Int) - M : Int)| < 1 := by
    have : |(((m : Int) - M : Int) : Rat)| < 1 := by push_cast; exact h2
    exact_mod_cast this
  have := Int.abs_lt_one_iff.mp h3
  omega

/-- Two decimal numbers of at most fifteen digits that are relatively close are equal. -/
theorem decimals_close {m m' : Nat} {e e' : Int} (hm : m < 10 ^ 15) (hm' : m' < 10 ^ 15)
    (h : |(m : Rat) * 10 ^ e - m' * 10 ^ e'| ≤ (m * 10 ^ e + m' * 10 ^ e') * 2 ^ (-52 : Int)) :
    (m : Rat) * 10 ^ e = m' * 10 ^ e' := by
  wlog hle : e ≤ e' generalizing m m' e e'
  · refine (this hm' hm ?_ (by omega)).symm
    rw [abs_sub_comm, add_comm]; exact h
  obtain ⟨j, rfl⟩ := Int.le.dest hle
  have hp : (0 : Rat) < 10 ^ e := by positivity
  have hs : (m' : Rat) * 10 ^ (e + (j : Int)) = ((m' * 10 ^ j : Nat) : Rat) * 10 ^ e := by
    rw [zpow_add₀ (by norm_num), zpow_natCast]; push_cast; ring
  rw [hs] at h ⊢
  rw [← sub_mul, ← add_mul, abs_mul, abs_of_pos hp, mul_right_comm, mul_le_mul_iff_left₀ hp] at h
  rw [scaled_unique hm h]

theorem readsAs_eq {m : Nat} {e : Int} {q : Rat} (h : ReadsAs m e q) : q = F64.roundMag (m * 10 ^ e) := by
  have h0 : (0 : Rat) ≤ m * 10 ^ e := by positivity
  have hx : ∀ x : F64, x = .fin false q → RoundsTo (m * 10 ^ e) x → q = F64.roundMag (m * 10 ^ e) := by
    intro x ex hr
    cases hr with
    | fin v hn _ =>
      rw [abs_of_nonneg h0] at hn
      have := (F64.fin.inj ex).2
      rw [← this]
      exact F64.nearest_unique _ _ h0 hn
    | inf => cases ex
  exact hx _ rfl h

/-- Decimal numbers of at most fifteen digits that are read as the same double are equal (not too small ones). -/
theorem reads_unique {m m' : Nat} {e e' : Int} {q : Rat} (hm : m < 10 ^ 15) (hm' : m' < 10 ^ 15)
    (hbig : (10 : Rat) ^ (-15 : Int) ≤ m * 10 ^ e) (h : ReadsAs m e q) (h' : ReadsAs m' e' q) :
    (m : Rat) * 10 ^ e = m' * 10 ^ e' := by
  have hq := readsAs_eq h
  have hq' := readsAs_eq h'
  have tiny : (2 : Rat) ^ (-1022 : Int) ≤ 2 ^ (-64 : Int) := zpow_le_zpow_right₀ (by norm_num) (by norm_num)
  have t2 : (2 : Rat) ^ (-64 : Int) ≤ 10 ^ (-15 : Int) := by norm_num
  have e1 := F64.roundMag_error (m * 10 ^ e) (tiny.trans (t2.trans hbig))
  rw [← hq] at e1
  have h0' : (0 : Rat) ≤ m' * 10 ^ e' := by positivity
  have h53 : (2 : Rat) ^ (-53 : Int) = 1 / 9007199254740992 := by norm_num
  have h15 : (10 : Rat) ^ (-15 : Int) = 1 / 1000000000000000 := by norm_num
  have e2 : |q - (m' : Rat) * 10 ^ e'| ≤ m' * 10 ^ e' * 2 ^ (-53 : Int) := by
    rw [hq']
    refine F64.roundMag_error _ ?_
    by_contra hc
    have hc := lt_of_lt_of_le (not_le.1 hc) (tiny.trans (by norm_num : (2 : Rat) ^ (-64 : Int) ≤ 1 / 2 ^ 64))
    have e3 := F64.roundMag_error_le (m' * 10 ^ e') 1 h0' (hc.le.trans (by norm_num)) le_rfl
    rw [← hq', h53] at e3
    rw [h53] at e1
    rw [h15] at hbig
    have a1 := (abs_le.mp e1).1
    have a2 := (abs_le.mp e3).2
    linarith
  refine decimals_close hm hm' ?_
  have := abs_sub_le ((m : Rat) * 10 ^ e) q (m' * 10 ^ e')
  rw [abs_sub_comm ((m : Rat) * 10 ^ e) q] at this
  refine (this.trans (add_le_add e1 e2)).trans ?_
  rw [← add_mul]
  exact mul_le_mul_of_nonneg_left (zpow_le_zpow_right₀ (by norm_num) (by norm_num)) (by positivity)

/-! ### Digits -/

theorem natStr_length_le {n k : Nat} (hk : 0 < k) : (natStr n).length ≤ k ↔ n < 10 ^ k :=
  Nat.length_toDigits_le_iff (by decide) hk

theorem natStr_length_mono {m n : Nat} (h : m ≤ n) : (natStr m).length ≤ (natStr n).length := by
  have hp : 0 < (natStr n).length := Nat.length_toDigits_pos
  exact (natStr_length_le hp).2 (lt_of_le_of_lt h ((natStr_length_le hp).1 le_rfl))

theorem natStr_length_ten {m : Nat} (h : 0 < m) : (natStr m).length < (natStr (m * 10)).length := by
  have hp : 0 < (natStr (m * 10)).length := Nat.length_toDigits_pos
  have h1 := (natStr_length_le hp).1 le_rfl
  obtain ⟨k, hk⟩ : ∃ k, (natStr (m * 10)).length = k + 1 := ⟨_, (Nat.succ_pred_eq_of_pos hp).symm⟩
  rw [hk] at h1 ⊢
  rw [Nat.pow_succ] at h1
  have h2 : m < 10 ^ k := by omega
  have h3 : 0 < k := by
    rcases Nat.eq_zero_or_pos k with rfl | hk'
    · simp at h2; omega
    · exact hk'
  exact Nat.lt_succ_of_le ((natStr_length_le h3).2 h2)

theorem pad_zero (k : Nat) : pad k 0 = List.replicate k '0' := by
  induction k with
  | zero => rfl
  | succ k ih => rw [pad, Nat.zero_div, ih, List.replicate_succ']; rfl

theorem pad_shift (k j n : Nat) : pad (k + j) (n * 10 ^ j) = pad k n ++ List.replicate j '0' := by
  induction j with
  | zero => simp
  | succ j ih =>
    rw [← Nat.add_assoc, pad, Nat.pow_succ, ← Nat.mul_assoc, Nat.mul_div_cancel _ (by decide), ih, Nat.mul_mod_left,
      List.replicate_succ', List.append_assoc]
    rfl

theorem trimText_zeros (w : Str) (k : Nat) : trimText (w ++ '.' :: List.replicate k '0') = w := by
  have h : ∀ (k : Nat) (l : Str), (List.replicate k '0' ++ '.' :: l).dropWhile (· == '0') = '.' :: l := by
    intro k l
    induction k with
    | zero => rfl
    | succ k ih => rw [List.replicate_succ, List.cons_append, List.dropWhile_cons_of_pos (by decide), ih]
  unfold trimText
  rw [List.reverse_append, List.reverse_cons, List.reverse_replicate, List.append_assoc, List.singleton_append, h]
  exact List.reverse_reverse w

theorem trimText_digit (w : Str) (c : Char) (k : Nat) (h0 : c ≠ '0') (h1 : c ≠ '.') :
    trimText (w ++ [c] ++ List.replicate k '0') = w ++ [c] := by
  have h : ∀ (k : Nat) (l : Str), (List.replicate k '0' ++ c :: l).dropWhile (· == '0') = c :: l := by
    intro k l
    induction k with
    | zero => exact List.dropWhile_cons_of_neg (by simpa using h0)
    | succ k ih => rw [List.replicate_succ, List.cons_append, List.dropWhile_cons_of_pos (by decide), ih]
  unfold trimText
  rw [List.reverse_append, List.reverse_append, List.reverse_replicate, List.reverse_singleton, List.singleton_append, h]
  split
  · rename_i e; cases e; exact absurd rfl h1
  · simp

theorem digit_char (d : Nat) (h : d < 10) (h0 : d ≠ 0) :
    (c! "0123456789").getD d '0' ≠ '0' ∧ (c! "0123456789").getD d '0' ≠ '.' := by
  revert h0; revert d; decide

/-- The text of a decimal number without zeros at its end. -/
theorem plainText_trim (k z m : Nat) (e : Int) (sign : Str) (hk : 0 < k) (hm : m % 10 ≠ 0)
    (h : (m : Rat) * 10 ^ e = z / 10 ^ k) : sign ++ plainText m e = trimText (sign ++ decimalText k z) := by
  have p10 : ∀ k : Nat, (0 : Rat) < 10 ^ k := fun k => by positivity
  have n10 : ∀ k : Nat, 0 < 10 ^ k := fun k => by positivity
  rw [eq_div_iff (p10 k).ne'] at h
  unfold plainText
  split
  · rename_i he
    obtain ⟨j, rfl⟩ := Int.eq_ofNat_of_zero_le he
    have hz : m * 10 ^ j * 10 ^ k = z := by
      rw [zpow_natCast] at h; exact_mod_cast h
    rw [Int.toNat_natCast, decimalText, if_neg hk.ne', ← hz, Nat.mul_div_cancel _ (n10 k), Nat.mul_mod_left, pad_zero,
      ← List.append_assoc, trimText_zeros]
  · rename_i he
    obtain ⟨k', hk'⟩ := Int.eq_ofNat_of_zero_le (show 0 ≤ -e by omega)
    obtain rfl : e = -(k' : Int) := by omega
    have hk0 : k' ≠ 0 := by rintro rfl; simp at he
    rw [neg_neg, Int.toNat_natCast]
    rw [zpow_neg, zpow_natCast, ← div_eq_mul_inv, div_mul_eq_mul_div, div_eq_iff (p10 k').ne'] at h
    have h : m * 10 ^ k = z * 10 ^ k' := by exact_mod_cast h
    rcases Nat.lt_or_ge k k' with hlt | hge
    · exfalso
      obtain ⟨j, rfl⟩ := Nat.exists_eq_add_of_lt hlt
      rw [show k + j + 1 = (j + 1) + k by omega, Nat.pow_add, ← Nat.mul_assoc] at h
      have := Nat.eq_of_mul_eq_mul_right (n10 k) h
      rw [this, Nat.pow_succ, ← Nat.mul_assoc, Nat.mul_mod_left] at hm
      exact hm rfl
    · obtain ⟨j, rfl⟩ := Nat.exists_eq_add_of_le hge
      rw [Nat.add_comm k' j, Nat.pow_add, ← Nat.mul_assoc] at h
      have hz := Nat.eq_of_mul_eq_mul_right (n10 k') h
      obtain ⟨i, rfl⟩ := Nat.exists_eq_succ_of_ne_zero hk0
      have e1 : m * 10 ^ j / 10 ^ (i.succ + j) = m / 10 ^ i.succ := by
        rw [Nat.pow_add, Nat.mul_div_mul_right _ _ (n10 j)]
      have e2 : m * 10 ^ j % 10 ^ (i.succ + j) = (m % 10 ^ i.succ) * 10 ^ j := by
        rw [Nat.pow_add, Nat.mul_mod_mul_right]
      have e3 : m % 10 ^ i.succ % 10 = m % 10 := by
        rw [Nat.pow_succ, Nat.mod_mul_left_mod]
      have hc := digit_char (m % 10) (Nat.mod_lt _ (by decide)) hm
      rw [decimalText, decimalText, if_neg hk0, if_neg hk.ne', ← hz, e1, e2, pad_shift, pad, e3]
      have := trimText_digit (sign ++ natStr (m / 10 ^ i.succ) ++ '.' :: pad i (m % 10 ^ i.succ / 10)) _ j hc.1 hc.2
      simp only [List.append_assoc, List.cons_append] at this ⊢
      exact this.symm

/-- Every number but 0 is one without zeros at its end times a power of ten. -/
theorem strip_zeros (z : Nat) (h : 0 < z) : ∃ m j, z = m * 10 ^ j ∧ m % 10 ≠ 0 := by
  induction z using Nat.strongRecOn with
  | ind z ih =>
    by_cases hz : z % 10 = 0
    · obtain ⟨m, j, e, hm⟩ := ih (z / 10) (by omega) (by omega)
      exact ⟨m, j + 1, by rw [Nat.pow_succ, ← Nat.mul_assoc, ← e]; omega, hm⟩
    · exact ⟨z, 0, by simp, hz⟩

/-- A number without zeros at its end is the shortest of its value. -/
theorem shortest_of_value {m m' : Nat} {e e' : Int} (hm : m % 10 ≠ 0) (h : (m : Rat) * 10 ^ e = m' * 10 ^ e') :
    ∃ j, m' = m * 10 ^ j := by
  rcases le_or_gt e' e with hle | hlt
  · obtain ⟨j, rfl⟩ := Int.le.dest hle
    refine ⟨j, ?_⟩
    rw [zpow_add₀ (by norm_num), zpow_natCast, mul_comm ((10 : Rat) ^ e'), ← mul_assoc] at h
    have := mul_right_cancel₀ (show (10 : Rat) ^ e' ≠ 0 by positivity) h
    exact_mod_cast this.symm
  · exfalso
    obtain ⟨j, hj⟩ := Int.le.dest (show e + 1 ≤ e' by omega)
    obtain rfl : e' = e + ((j + 1 : Nat) : Int) := by push_cast; omega
    rw [zpow_add₀ (by norm_num), zpow_natCast, mul_comm ((10 : Rat) ^ e), ← mul_assoc] at h
    have := mul_right_cancel₀ (show (10 : Rat) ^ e ≠ 0 by positivity) h
    have : m = m' * 10 ^ (j + 1) := by exact_mod_cast this
    rw [this, Nat.pow_succ, ← Nat.mul_assoc, Nat.mul_mod_left] at hm
    exact hm rfl

/-- A decimal number of at most fifteen digits is displayed as it was written, without zeros at its end. -/
theorem display_short (k z : Nat) (hk : 0 < k) (hk15 : k ≤ 15) (hz : z < 10 ^ 15) (v : Rat)
    (h : RoundsTo (z / 10 ^ k) (.fin false v)) (minus : Bool) (t : Str) :
    Displays (.fin minus v) t ↔ t = trimText ((if minus then ['-'] else []) ++ decimalText k z) := by
  have p10 : ∀ k : Nat, (0 : Rat) < 10 ^ k := fun k => by positivity
  rcases Nat.eq_zero_or_pos z with rfl | hz0
  · have hv : v = 0 := by
      have := readsAs_eq (m := 0) (e := 0) (q := v) (by simpa [ReadsAs] using h)
      rw [this]; simp [F64.roundMag_zero]
    have ht : trimText ((if minus then ['-'] else []) ++ decimalText k 0) = (if minus then ['-'] else []) ++ ['0'] := by
      rw [decimalText, if_neg hk.ne', Nat.zero_div, Nat.zero_mod, pad_zero, ← List.append_assoc, trimText_zeros]
      rfl
    rw [ht]
    simp only [Displays, hv, true_and, ne_eq, not_true_eq_false, false_and, or_false]
  · obtain ⟨m, j, rfl, hm⟩ := strip_zeros z hz0
    have hm0 : 0 < m := by omega
    have hval : (m : Rat) * 10 ^ ((j : Int) - k) = ((m * 10 ^ j : Nat) : Rat) / 10 ^ k := by
      rw [zpow_sub₀ (by norm_num), zpow_natCast, zpow_natCast]; push_cast; rw [mul_div_assoc]
    have hr : ReadsAs m (j - k) v := by unfold ReadsAs; rw [hval]; exact h
    have hml : m < 10 ^ 15 := lt_of_le_of_lt (Nat.le_mul_of_pos_right m (by positivity)) hz
    have hbig : (10 : Rat) ^ (-15 : Int) ≤ m * 10 ^ ((j : Int) - k) := by
      have h1 : (10 : Rat) ^ (-15 : Int) ≤ 10 ^ ((j : Int) - k) := zpow_le_zpow_right₀ (by norm_num) (by omega)
      have h2 : (1 : Rat) ≤ m := by exact_mod_cast hm0
      exact h1.trans (le_mul_of_one_le_left (by positivity) h2)
    have hmd : (natStr m).length ≤ 15 := (natStr_length_le (by decide)).2 hml
    have hv0 : v ≠ 0 := by
      have e1 := F64.roundMag_error (m * 10 ^ ((j : Int) - k)) (le_trans (le_trans
        (zpow_le_zpow_right₀ (by norm_num) (by norm_num) : (2 : Rat) ^ (-1022 : Int) ≤ 2 ^ (-64 : Int)) (by norm_num)) hbig)
      rw [← readsAs_eq hr] at e1
      rintro rfl
      have hp := lt_of_lt_of_le (by positivity : (0 : Rat) < 10 ^ (-15 : Int)) hbig
      rw [zero_sub, abs_neg, abs_of_pos hp] at e1
      have : (2 : Rat) ^ (-53 : Int) < 1 := by norm_num
      nlinarith
    have hclose : ∀ m' e', ReadsAs m' e' v → (natStr m').length = (natStr m).length →
        |(m : Rat) * 10 ^ ((j : Int) - k) - v| ≤ |(m' : Rat) * 10 ^ e' - v| := by
      intro m' e' hr' hl
      have hl : m' < 10 ^ 15 := (natStr_length_le (by decide)).1 (by omega)
      rw [reads_unique hml hl hbig hr hr']
    have hmin : ∀ m' e', ReadsAs m' e' v → (natStr m).length ≤ (natStr m').length := by
      intro m' e' hr'
      by_contra hc
      have hl : m' < 10 ^ 15 := (natStr_length_le (by decide)).1 (by omega)
      obtain ⟨i, rfl⟩ := shortest_of_value hm (reads_unique hml hl hbig hr hr')
      exact hc (natStr_length_mono (Nat.le_mul_of_pos_right m (by positivity)))
    constructor
    · rintro (⟨h0, -⟩ | ⟨-, m', e', rfl, hr', hmin'⟩)
      · exact absurd h0 hv0
      have hl := (hmin' m _ hr).1.trans hmd
      have hl' : m' < 10 ^ 15 := (natStr_length_le (by decide)).1 hl
      have heq := reads_unique hml hl' hbig hr hr'
      obtain ⟨i, rfl⟩ := shortest_of_value hm heq
      have hi : i = 0 := by
        by_contra hi
        obtain ⟨i, rfl⟩ := Nat.exists_eq_succ_of_ne_zero hi
        have h1 := natStr_length_ten hm0
        have h2 : (natStr (m * 10)).length ≤ (natStr (m * 10 ^ i.succ)).length :=
          natStr_length_mono (Nat.mul_le_mul_left m (by
            rw [Nat.pow_succ]; exact Nat.le_mul_of_pos_left 10 (by positivity)))
        have h3 := (hmin' m _ hr).1
        omega
      subst hi
      rw [Nat.pow_zero, Nat.mul_one] at heq ⊢
      exact plainText_trim k _ m e' _ hk hm (heq.symm.trans hval)
    · rintro rfl
      exact .inr ⟨hv0, m, _, (plainText_trim k _ m _ _ hk hm hval).symm, hr, fun m' e' h' => ⟨hmin m' e' h', hclose m' e' h'⟩⟩

theorem display_number (n : Number) (hn : n.Ok) (x : Option F64) (h : n.Result x) : DisplaysNumber n x := by
  rintro ⟨hp, hp15, hs⟩
  obtain ⟨d, hd, rfl⟩ := h
  have p0 : (0 : Rat) < 10 ^ n.places := by positivity
  have hm : n.mag = ((n.whole * 10 ^ n.places + n.frac : Nat) : Rat) / 10 ^ n.places := by
    unfold Number.mag; push_cast; field_simp
  have hq0 : 0 ≤ n.mag := by rw [hm]; positivity
  have hs' : ((n.whole * 10 ^ n.places + n.frac : Nat) : Rat) ≤ 10 ^ 15 := by exact_mod_cast hs.le
  have hb : |n.mag| ≤ 10 ^ 15 := by
    rw [abs_of_nonneg hq0, hm, div_le_iff₀ p0]
    have : (1 : Rat) ≤ 10 ^ n.places := one_le_pow₀ (by norm_num)
    nlinarith
  have he := (F64.roundsTo_iff _ _).mp hd
  rw [F64.ofRat_fin _ (F64.small_le _ (hb.trans (by norm_num))), abs_of_nonneg hq0, decide_eq_false (not_lt.2 hq0)] at he
  subst he
  refine ⟨_, rfl, fun t => ?_⟩
  rw [show signedF64 n.minus (.fin false (F64.roundMag n.mag)) = .fin n.minus (F64.roundMag n.mag) by simp [signedF64]]
  rw [hm] at hd
  rw [display_short n.places _ hp hp15 hs _ (by rw [hm]; exact hd) n.minus t, Number.text, decimalText, if_neg hp.ne']
  have hpos : 0 < 10 ^ n.places := by positivity
  rw [Nat.mul_comm, Nat.mul_add_mod, Nat.mod_eq_of_lt hn, Nat.mul_add_div hpos, Nat.div_eq_of_lt hn, Nat.add_zero,
    List.append_assoc]

theorem display_heading (raw : Nat) (hr : raw < 2 ^ 20) (x : Option F64) (h : Heading raw x) : DisplaysHeading raw x := by
  unfold Heading at h
  unfold DisplaysHeading
  split at h
  · rw [if_pos ‹_›, h]
  · rw [if_neg ‹_›]
    obtain ⟨d, rfl, h2⟩ := h
    have h0 : (0 : Rat) ≤ raw := by positivity
    have hr' : (raw : Rat) ≤ 2 ^ 20 := by exact_mod_cast hr.le
    obtain ⟨v, rfl, -⟩ := roundsTo_small (B := 2 ^ 20) h2 (by rwa [abs_of_nonneg h0]) (by norm_num) (by norm_num)
    rw [decide_eq_false (not_lt.2 h0)] at h2 ⊢
    refine ⟨_, rfl, fun t => ?_⟩
    rw [display_short 1 (raw * 10) (by decide) (by decide) (by omega) v (by
      rw [show ((raw * 10 : Nat) : Rat) / 10 ^ 1 = raw by push_cast; ring]; exact h2) false t, if_neg (by decide),
      List.nil_append, decimalText, if_neg (by decide), Nat.pow_one, Nat.mul_div_cancel _ (by decide), Nat.mul_mod_left,
      pad_zero, trimText_zeros]

theorem pad_len (k n : Nat) : (pad k n).length = k := by
  induction k generalizing n with
  | zero => rfl
  | succ k ih => rw [pad, List.length_append, ih]; rfl

/-- A number that is rounded to `q` is not nearer to the neighbours of `q`. -/
theorem between_of_nearest {b q r r' : Rat} (h : Nearest b q) (hr : Rep r) (hr' : Rep r') (h1 : r < q) (h2 : q < r') :
    (r + q) / 2 ≤ b ∧ b ≤ (q + r') / 2 := by
  obtain ⟨-, h, -⟩ := h
  constructor
  · by_contra hc
    have h3 : |r - b| < q - b := by rw [abs_lt]; constructor <;> linarith
    have := h r hr
    have := le_abs_self (q - b)
    linarith
  · by_contra hc
    have h3 : |r' - b| < b - q := by rw [abs_lt]; constructor <;> linarith
    have := h r' hr'
    have := neg_le_abs (q - b)
    linarith

/-- The text has at least the digits of the number, not counting the decimal point. -/
theorem plainText_digits (m : Nat) (e : Int) :
    (natStr m).length ≤ ((plainText m e).filter fun c => decide (c ≠ '.')).length := by
  have hn : ∀ n, (natStr n).filter (fun c => decide (c ≠ '.')) = natStr n := fun n => List.filter_eq_self.2 fun c hc => by
    have := (natStr_digits n).2 c hc
    rw [decide_eq_true_eq]; rintro rfl; revert this; decide
  have hp : ∀ k n, (pad k n).filter (fun c => decide (c ≠ '.')) = pad k n := fun k n => List.filter_eq_self.2 fun c hc => by
    have := pad_allDigits k n c hc
    rw [decide_eq_true_eq]; rintro rfl; revert this; decide
  unfold plainText
  split
  · rw [hn]; exact natStr_length_mono (Nat.le_mul_of_pos_right m (by positivity))
  · generalize (-e).toNat = k
    have hpos : 0 < (natStr (m / 10 ^ k)).length := Nat.length_toDigits_pos
    have h1 := (natStr_length_le hpos).1 le_rfl
    have h2 : m < 10 ^ ((natStr (m / 10 ^ k)).length + k) := by
      rw [Nat.pow_add]; exact (Nat.div_lt_iff_lt_mul (by positivity)).1 h1
    have h3 := (natStr_length_le (by omega)).2 h2
    unfold decimalText
    split
    · rw [List.append_nil, hn]; omega
    · rw [List.filter_append, List.filter_cons_of_neg (by decide), hn, hp, List.length_append, pad_len]; omega

theorem reads_error {m : Nat} {e : Int} {q : Rat} (hq : 1 / 20 ≤ q) (h : ReadsAs m e q) :
    |q - (m : Rat) * 10 ^ e| ≤ m * 10 ^ e * 2 ^ (-53 : Int) := by
  have h0 : (0 : Rat) ≤ m * 10 ^ e := by positivity
  have hr := readsAs_eq h
  rw [hr]
  refine F64.roundMag_error _ ?_
  by_contra hc
  have tiny : (2 : Rat) ^ (-1022 : Int) ≤ 2 ^ (-64 : Int) := zpow_le_zpow_right₀ (by norm_num) (by norm_num)
  have hc := lt_of_lt_of_le (not_le.1 hc) (tiny.trans (by norm_num : (2 : Rat) ^ (-64 : Int) ≤ 1 / 2 ^ 64))
  have e3 := F64.roundMag_error_le (m * 10 ^ e) 1 h0 (hc.le.trans (by norm_num)) le_rfl
  rw [← hr, show (2 : Rat) ^ (-53 : Int) = 1 / 9007199254740992 by norm_num] at e3
  have a2 := (abs_le.mp e3).2
  have : (1 : Rat) / 2 ^ 64 < 1 / 100 := by norm_num
  linarith

/-- A value sent in tenths, displayed. -/
theorem display_tenths (na raw : Nat) (hr : raw < 2 ^ 20) (x : Option F64)
    (h : if raw = na then x = none else Tenths raw x) : DisplaysTenths na raw x := by
  unfold DisplaysTenths
  split at h
  · rw [if_pos ‹_›, h]
  rw [if_neg ‹_›]
  obtain ⟨t, h1, d, rfl, h2⟩ := h
  obtain rfl := tenth_unique h1
  have h0 : (0 : Rat) ≤ raw := by positivity
  have hr' : (raw : Rat) ≤ 2 ^ 20 := by exact_mod_cast hr.le
  have hn : (0 : Rat) ≤ raw * tenth := mul_nonneg h0 (by norm_num [tenth])
  have ht : tenth = 1 / 10 + 1 / 180143985094819840 := by norm_num [tenth]
  obtain ⟨v, rfl, -⟩ := roundsTo_small (B := 2 ^ 20) h2 (by
    rw [abs_of_nonneg hn, ht]; nlinarith) (by norm_num) (by norm_num)
  rw [decide_eq_false (not_lt.2 hn)] at h2 ⊢
  refine ⟨_, rfl, ?_⟩
  by_cases he : RoundsTo (raw / 10) (.fin false v)
  · refine .inl ⟨he, fun t => ?_⟩
    have := display_short 1 raw (by decide) (by decide) (by omega) v (by rw [pow_one]; exact he) false t
    rwa [if_neg (by decide), List.nil_append] at this
  · refine .inr ⟨he, fun t hd => ?_⟩
    have hpos : 0 < raw := by
      rcases Nat.eq_zero_or_pos raw with rfl | hp
      · refine absurd ?_ he
        simpa using h2
      · exact hp
    have hpos' : (1 : Rat) ≤ raw := by exact_mod_cast hpos
    have hv : v = F64.roundMag (raw * tenth) := by
      have := (F64.roundsTo_iff _ _).mp h2
      rw [F64.ofRat_fin _ (F64.small_le _ (by rw [abs_of_nonneg hn, ht]; nlinarith)), abs_of_nonneg hn] at this
      exact (F64.fin.inj this).2
    have e0 : (raw : Rat) * tenth = raw / 10 + raw / 180143985094819840 := by rw [ht]; ring
    have e1 := F64.roundMag_error (raw * tenth) (by
      refine le_trans (zpow_le_zpow_right₀ (by norm_num) (by norm_num : (-1022 : Int) ≤ -10)) ?_
      rw [e0]
      have : (2 : Rat) ^ (-10 : Int) ≤ 1 / 10 := by norm_num
      have : (0 : Rat) ≤ raw / 180143985094819840 := by positivity
      linarith)
    rw [← hv, show (2 : Rat) ^ (-53 : Int) = 1 / 9007199254740992 by norm_num, e0] at e1
    have hq : 1 / 20 ≤ v := by
      have := (abs_le.mp e1).1
      linarith
    rcases hd with ⟨hz, -⟩ | ⟨-, m, e, rfl, hm, -⟩
    · rw [hz] at hq; norm_num at hq
    rw [if_neg (by decide), List.nil_append]
    refine le_trans ?_ (plainText_digits m e)
    by_contra hc
    have hml : m < 10 ^ 15 := (natStr_length_le (by decide)).1 (by omega)
    have e2 := reads_error hq hm
    have hclose : (m : Rat) * 10 ^ e = raw * 10 ^ (-1 : Int) := by
      refine decimals_close hml (by omega) ?_
      rw [show (2 : Rat) ^ (-53 : Int) = 1 / 9007199254740992 by norm_num] at e2
      rw [show (2 : Rat) ^ (-52 : Int) = 1 / 4503599627370496 by norm_num, show (10 : Rat) ^ (-1 : Int) = 1 / 10 by norm_num]
      generalize (m : Rat) * 10 ^ e = w at e2 ⊢
      rw [abs_le] at e1 e2 ⊢
      constructor <;> linarith [e1.1, e1.2, e2.1, e2.2]
    refine he ?_
    unfold ReadsAs at hm
    rwa [hclose, show (10 : Rat) ^ (-1 : Int) = 1 / 10 by norm_num, mul_one_div] at hm

end Nmea
