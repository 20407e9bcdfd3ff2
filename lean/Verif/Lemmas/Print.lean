/-
Printing doubles with a fixed number of decimals.
-/
import Verif.Spec.Print
import Verif.Lemmas.Float
import Verif.Lemmas.Ranges
import Verif.Lemmas.Format
import Mathlib.Data.Rat.Floor
import Mathlib.Tactic.Positivity
import Mathlib.Tactic.Linarith
import Mathlib.Tactic.FieldSimp
import Mathlib.Tactic.Ring

namespace Nmea
open Spec

/-- Every finite double is printed as something. -/
theorem prints_total (k : Nat) (x : F64) (hx : ∀ b q, x = .fin b q → 0 ≤ q) : ∃ t, Prints k x t := by
  cases x with
  | nan => exact ⟨_, rfl⟩
  | inf b => exact ⟨_, rfl⟩
  | fin b q =>
    have h0 := hx b q rfl
    have hp : (0 : Rat) < 10 ^ k := by positivity
    have h1 := Int.floor_le (q * 10 ^ k + 1 / 2)
    have h2 := Int.lt_floor_add_one (q * 10 ^ k + 1 / 2)
    have h3 : 0 ≤ ⌊q * 10 ^ k + 1 / 2⌋ := Int.floor_nonneg.2 (by positivity)
    obtain ⟨n, hn⟩ := Int.eq_ofNat_of_zero_le h3
    rw [hn] at h1 h2
    refine ⟨_, n, rfl, ?_⟩
    rw [show (n : Rat) / 10 ^ k - q = (n - q * 10 ^ k) / 10 ^ k by field_simp, abs_div, abs_of_pos hp,
      show (1 : Rat) / (2 * 10 ^ k) = (1 / 2) / 10 ^ k by field_simp]
    refine div_le_div_of_nonneg_right ?_ hp.le
    simp only [Int.cast_natCast] at h1 h2
    rw [abs_le]
    constructor <;> linarith

theorem roundsTo_nonneg {q v : Rat} {b : Bool} (h : RoundsTo q (.fin b v)) : 0 ≤ v := by
  cases h with
  | fin _ h _ =>
    obtain ⟨⟨m, s, -, -, rfl⟩, -⟩ := h
    exact mul_nonneg (Nat.cast_nonneg m) (zpow_nonneg (by norm_num) s)

theorem roundsTo_prints {q : Rat} {d : F64} (h : RoundsTo q d) (k : Nat) : ∃ t, Prints k d t :=
  prints_total k d fun b v e => by subst e; exact roundsTo_nonneg h

/-- A value near a decimal number with `k` decimals is printed as this. -/
theorem rounded_exact (k n0 : Nat) (minus : Bool) (v : Rat) (t : Str) (h : |v - n0 / 10 ^ k| < 1 / (2 * 10 ^ k))
    : RoundedText k minus v t ↔ t = (if minus then ['-'] else []) ++ decimalText k n0 := by
  refine ⟨fun ht => ?_, fun e => ⟨n0, e, by rw [abs_sub_comm]; exact h.le⟩⟩
  obtain ⟨n, rfl, hn⟩ := ht
  have hp : (0 : Rat) < 10 ^ k := by positivity
  have h1 : |(n : Rat) / 10 ^ k - n0 / 10 ^ k| < 1 / 10 ^ k := by
    have := abs_sub_le ((n : Rat) / 10 ^ k) v (n0 / 10 ^ k)
    have e : (1 : Rat) / 10 ^ k = 1 / (2 * 10 ^ k) + 1 / (2 * 10 ^ k) := by field_simp; norm_num
    rw [e]
    linarith
  rw [← sub_div, abs_div, abs_of_pos hp, div_lt_div_iff_of_pos_right hp] at h1
  have h2 : |((n : Int) - n0 : Int)| < 1 := by
    have : |(((n : Int) - n0 : Int) : Rat)| < 1 := by push_cast; exact h1
    exact_mod_cast this
  have : n = n0 := by
    have := Int.abs_lt_one_iff.mp h2
    omega
  rw [this]

/-- A value near a fraction with denominator `d` is printed as the fraction would be, if the distance is small enough. -/
theorem rounded_grid (k z d : Nat) (hd : 0 < d) (minus : Bool) (v : Rat) (t : Str)
    (h : |v - z / d| < 1 / (2 * 10 ^ k * d)) (ht : RoundedText k minus v t) : RoundedText k minus (z / d) t := by
  obtain ⟨n, rfl, hn⟩ := ht
  refine ⟨n, rfl, ?_⟩
  have hp : (0 : Rat) < 10 ^ k := by positivity
  have hd' : (0 : Rat) < d := by exact_mod_cast hd
  have h1 : |(n : Rat) / 10 ^ k - z / d| < 1 / (2 * 10 ^ k) + 1 / (2 * 10 ^ k * d) := by
    have := abs_sub_le ((n : Rat) / 10 ^ k) v (z / d)
    linarith
  have e : (n : Rat) / 10 ^ k - z / d = ((2 * n * d - 2 * 10 ^ k * z : Int) : Rat) / (2 * 10 ^ k * d) := by
    push_cast; field_simp
  have e2 : (1 : Rat) / (2 * 10 ^ k) + 1 / (2 * 10 ^ k * d) = ((d + 1 : Int) : Rat) / (2 * 10 ^ k * d) := by
    push_cast; field_simp
  have e3 : (1 : Rat) / (2 * 10 ^ k) = ((d : Int) : Rat) / (2 * 10 ^ k * d) := by
    push_cast; field_simp
  have hq : (0 : Rat) < 2 * 10 ^ k * d := by positivity
  rw [e, e2, abs_div, abs_of_pos hq, div_lt_div_iff_of_pos_right hq, ← Int.cast_abs, Int.cast_lt] at h1
  rw [e, e3, abs_div, abs_of_pos hq, div_le_div_iff_of_pos_right hq, ← Int.cast_abs, Int.cast_le]
  omega

theorem nearest_error {q v B : Rat} (h0 : 0 ≤ q) (h : Nearest q v) (hB : q ≤ B) (h1 : 1 ≤ B) :
    |v - q| ≤ B * 2 ^ (-53 : Int) := by
  rw [F64.nearest_unique q v h0 h]
  exact F64.roundMag_error_le q B h0 hB h1

/-- The double that a small number is rounded to. -/
theorem roundsTo_small {q B : Rat} {d : F64} (h : RoundsTo q d) (hB : |q| ≤ B) (h1 : 1 ≤ B) (h2 : B ≤ 2 ^ 64) :
    ∃ v, d = .fin (decide (q < 0)) v ∧ |v - abs q| ≤ B * 2 ^ (-53 : Int) := by
  have := (F64.roundsTo_iff _ _).mp h
  rw [F64.ofRat_fin q (F64.small_le _ (hB.trans h2))] at this
  exact ⟨_, this, F64.roundMag_error_le _ B (abs_nonneg q) hB h1⟩

theorem tenth_unique {t : Rat} (h : RoundsTo (1 / 10) (.fin false t)) : t = tenth := by
  have := (F64.roundsTo_iff _ _).mp h
  have e : F64.ofRat (1 / 10) = .fin false tenth := by decide +kernel
  rw [e] at this
  exact (F64.fin.inj this).2

/-- Tenths, printed with one decimal. -/
theorem tenths_print (raw : Nat) (hr : raw < 2 ^ 20) (x : Option F64) (h : Tenths raw x) : PrintsExactly 1 raw x := by
  obtain ⟨t, h1, d, rfl, h2⟩ := h
  obtain rfl := tenth_unique h1
  have h0 : (0 : Rat) ≤ raw := by positivity
  have hr' : (raw : Rat) ≤ 2 ^ 20 := by exact_mod_cast hr.le
  have hn : (0 : Rat) ≤ raw * tenth := mul_nonneg h0 (by norm_num [tenth])
  have ht : tenth = 1 / 10 + 1 / 180143985094819840 := by norm_num [tenth]
  obtain ⟨v, rfl, hv⟩ := roundsTo_small (B := 2 ^ 20) h2 (by
    rw [abs_of_nonneg hn, ht]; nlinarith) (by norm_num) (by norm_num)
  rw [abs_of_nonneg hn] at hv
  refine ⟨_, rfl, fun t => ?_⟩
  rw [decide_eq_false (not_lt.2 hn)]
  have := rounded_exact 1 raw false v t ?_
  · rw [if_neg (by decide), List.nil_append] at this; exact this
  · have h3 : |(raw : Rat) * tenth - raw / 10 ^ 1| ≤ 1 / 1000 := by
      rw [ht, show (raw : Rat) * (1 / 10 + 1 / 180143985094819840) - raw / 10 ^ 1 = raw / 180143985094819840 by ring,
        abs_of_nonneg (by positivity), div_le_iff₀ (by norm_num)]
      linarith
    have := abs_sub_le v (raw * tenth) (raw / 10 ^ 1)
    have e : (2 : Rat) ^ 20 * 2 ^ (-53 : Int) ≤ 1 / 1000 := by norm_num
    have e2 : (1 : Rat) / (2 * 10 ^ 1) = 1 / 20 := by norm_num
    rw [e2]
    exact lt_of_le_of_lt (this.trans (add_le_add (hv.trans e) h3)) (by norm_num)

theorem heading_print (raw : Nat) (hr : raw < 2 ^ 20) (x : Option F64) (h : Rounded raw x) : PrintsExactly 0 raw x := by
  obtain ⟨d, rfl, h2⟩ := h
  have h0 : (0 : Rat) ≤ raw := by positivity
  have hr' : (raw : Rat) ≤ 2 ^ 20 := by exact_mod_cast hr.le
  obtain ⟨v, rfl, hv⟩ := roundsTo_small (B := 2 ^ 20) h2 (by rwa [abs_of_nonneg h0]) (by norm_num) (by norm_num)
  rw [abs_of_nonneg h0] at hv
  refine ⟨_, rfl, fun t => ?_⟩
  rw [decide_eq_false (not_lt.2 h0)]
  have := rounded_exact 0 raw false v t ?_
  · rw [if_neg (by decide), List.nil_append] at this; exact this
  · have e : (2 : Rat) ^ 20 * 2 ^ (-53 : Int) < 1 / 2 := by norm_num
    simp only [pow_zero, div_one, mul_one]
    exact lt_of_le_of_lt hv e

theorem degrees_print (na raw : Int) (hr : raw.natAbs ≤ 2 ^ 27) (x : Option F64) (h : Degrees na raw x) :
    PrintsDegrees na raw x := by
  unfold Degrees at h
  unfold PrintsDegrees
  split at h
  · rw [if_pos ‹_›, h]
  · rw [if_neg ‹_›]
    obtain ⟨d, rfl, h2⟩ := h
    have ha : |(raw : Rat) / 600000| = (raw.natAbs : Rat) / 600000 := by
      rw [abs_div, ← Int.cast_abs, Int.abs_eq_natAbs]; norm_num
    have hr' : (raw.natAbs : Rat) ≤ 224 * 600000 := le_trans (by exact_mod_cast hr) (by norm_num : (2 : Rat) ^ 27 ≤ _)
    obtain ⟨v, rfl, hv⟩ := roundsTo_small (B := 224) h2 (by rw [ha, div_le_iff₀ (by norm_num)]; exact hr')
      (by norm_num) (by norm_num)
    refine ⟨_, rfl, fun k hk => ⟨roundsTo_prints h2 k, fun t hp => ?_⟩⟩
    have hs : decide ((raw : Rat) / 600000 < 0) = decide (raw < 0) := by
      rw [decide_eq_decide, div_lt_iff₀ (by norm_num), zero_mul]; exact_mod_cast Iff.rfl
    rw [hs] at hp
    have e : |(raw : Rat)| / 600000 = (raw.natAbs : Rat) / (600000 : Nat) := by
      rw [← Int.cast_abs, Int.abs_eq_natAbs]; norm_num
    rw [e]
    refine rounded_grid k raw.natAbs 600000 (by norm_num) _ v t ?_ hp
    rw [ha] at hv
    have hk' : (10 : Rat) ^ k ≤ 10 ^ 7 := pow_le_pow_right₀ (by norm_num) hk
    have h1 : (1 : Rat) / (2 * 10 ^ 7 * 600000) ≤ 1 / (2 * 10 ^ k * ((600000 : Nat) : Rat)) := by
      push_cast
      refine one_div_le_one_div_of_le (by positivity) ?_
      nlinarith
    have h3 : (224 : Rat) * 2 ^ (-53 : Int) < 1 / (2 * 10 ^ 7 * 600000) := by norm_num
    push_cast at hv ⊢
    push_cast at h1
    linarith

theorem speed_print (raw : Nat) (hr : raw < 2 ^ 20) (x : Option F64) (h : Speed raw x) : PrintsUnless 1023 1 raw x := by
  unfold Speed at h
  unfold PrintsUnless
  split at h
  · rw [if_pos ‹_›, h]
  · rw [if_neg ‹_›]; exact tenths_print raw hr x h

theorem course_print (raw : Nat) (hr : raw < 2 ^ 20) (x : Option F64) (h : Course raw x) : PrintsUnless 3600 1 raw x := by
  unfold Course at h
  unfold PrintsUnless
  split at h
  · rw [if_pos ‹_›, h]
  · rw [if_neg ‹_›]; exact tenths_print raw hr x h

theorem heading_print' (raw : Nat) (hr : raw < 2 ^ 20) (x : Option F64) (h : Heading raw x) : PrintsUnless 511 0 raw x := by
  unfold Heading at h
  unfold PrintsUnless
  split at h
  · rw [if_pos ‹_›, h]
  · rw [if_neg ‹_›]; exact heading_print raw hr x h

theorem number_print (n : Number) (hn : n.Ok) (x : Option F64) (h : n.Result x) : PrintsNumber n x := by
  rintro ⟨hp, hp15, hs⟩
  obtain ⟨d, hd, rfl⟩ := h
  have p0 : (0 : Rat) < 10 ^ n.places := by positivity
  have hm : n.mag = ((n.whole * 10 ^ n.places + n.frac : Nat) : Rat) / 10 ^ n.places := by
    unfold Number.mag; push_cast; field_simp
  have hq0 : 0 ≤ n.mag := by rw [hm]; positivity
  have hs' : ((n.whole * 10 ^ n.places + n.frac : Nat) : Rat) ≤ 10 ^ 15 := by exact_mod_cast hs.le
  have hcase : ∃ v, d = .fin false v ∧ |v - n.mag| < 1 / (2 * 10 ^ n.places) := by
    have := (F64.roundsTo_iff _ _).mp hd
    have hb : |n.mag| ≤ 10 ^ 15 := by
      rw [abs_of_nonneg hq0, hm, div_le_iff₀ p0]
      have : (1 : Rat) ≤ 10 ^ n.places := one_le_pow₀ (by norm_num)
      nlinarith
    rw [F64.ofRat_fin _ (F64.small_le _ (hb.trans (by norm_num))), abs_of_nonneg hq0, decide_eq_false (not_lt.2 hq0)] at this
    refine ⟨_, this, ?_⟩
    by_cases hc : n.mag < 2 ^ (-1022 : Int)
    · have hz : n.whole * 10 ^ n.places + n.frac = 0 ∨ 1 ≤ n.whole * 10 ^ n.places + n.frac := by omega
      rcases hz with hz | hz
      · rw [hm, hz]
        have : F64.roundMag (((0 : Nat) : Rat) / 10 ^ n.places) = 0 := by simp [F64.roundMag_zero]
        rw [this]; simp only [Nat.cast_zero, zero_div, sub_zero, abs_zero]; positivity
      · exfalso
        rw [hm, div_lt_iff₀ p0] at hc
        have h1 : (1 : Rat) ≤ ((n.whole * 10 ^ n.places + n.frac : Nat) : Rat) := by exact_mod_cast hz
        have h2 : (10 : Rat) ^ n.places ≤ 10 ^ 15 := pow_le_pow_right₀ (by norm_num) hp15
        have h3 : (2 : Rat) ^ (-1022 : Int) * 10 ^ 15 < 1 := by
          have : (2 : Rat) ^ (-1022 : Int) ≤ 2 ^ (-64 : Int) := zpow_le_zpow_right₀ (by norm_num) (by norm_num)
          have h6 : (2 : Rat) ^ (-64 : Int) * 10 ^ 15 < 1 := by norm_num
          exact lt_of_le_of_lt (mul_le_mul_of_nonneg_right this (by norm_num)) h6
        have h4 : (0 : Rat) < 2 ^ (-1022 : Int) := by positivity
        exact absurd (lt_of_lt_of_le hc (mul_le_mul_of_nonneg_left h2 h4.le)) (not_lt.2 (h3.le.trans h1))
    · have he := F64.roundMag_error n.mag (not_lt.1 hc)
      refine lt_of_le_of_lt he ?_
      rw [hm, lt_div_iff₀ (by positivity)]
      have h3 : (10 : Rat) ^ 15 * 2 ^ (-53 : Int) * 2 < 1 := by norm_num
      have h4 : (0 : Rat) < 2 ^ (-53 : Int) := by positivity
      calc _ = ((n.whole * 10 ^ n.places + n.frac : Nat) : Rat) * (2 ^ (-53 : Int) * 2) := by field_simp
        _ ≤ 10 ^ 15 * (2 ^ (-53 : Int) * 2) := mul_le_mul_of_nonneg_right hs' (by positivity)
        _ < 1 := by linarith
  obtain ⟨v, rfl, hv⟩ := hcase
  refine ⟨_, rfl, fun t => ?_⟩
  rw [hm] at hv
  have hx : signedF64 n.minus (.fin false v) = .fin n.minus v := by simp [signedF64]
  rw [hx]
  refine (rounded_exact _ _ _ _ _ hv).trans ?_
  rw [Number.text, decimalText, if_neg hp.ne']
  have hpos : 0 < 10 ^ n.places := by positivity
  rw [Nat.mul_comm, Nat.mul_add_mod, Nat.mod_eq_of_lt hn, Nat.mul_add_div hpos, Nat.div_eq_of_lt hn, Nat.add_zero,
    List.append_assoc]

theorem angle_print (a : Angle) (x : Option F64) (h : a.Result x) : PrintsAngle a x := by
  obtain ⟨r, hd, rfl, v, hv, he⟩ := h
  obtain ⟨_, _, _, _, hr3⟩ := hd
  refine ⟨_, rfl, fun k hk => ⟨prints_total k _ fun b v e => ?_, fun t hp => ?_⟩⟩
  · cases e; exact roundsTo_nonneg hr3
  have p0 : (0 : Rat) < 10 ^ a.places := by positivity
  let z := (a.deg * 60 + a.min) * 10 ^ a.places + a.frac
  have hm : a.deg + ((a.min : Rat) + a.frac / 10 ^ a.places) / 60 = (z : Rat) / ((60 * 10 ^ a.places : Nat) : Rat) := by
    simp only [z]; push_cast; field_simp; ring
  have h0 : (0 : Rat) ≤ a.deg + ((a.min : Rat) + a.frac / 10 ^ a.places) / 60 := by positivity
  have hab : |a.value| = (z : Rat) / ((60 * 10 ^ a.places : Nat) : Rat) := by
    rw [← hm, Angle.value, abs_mul, abs_of_nonneg h0]
    split <;> simp
  have hr : |r - (z : Rat) / ((60 * 10 ^ a.places : Nat) : Rat)| ≤ 3 / 10 ^ 14 := by
    rw [← hm]
    unfold valueOf at hv
    unfold Angle.value at he
    cases hmn : a.minus with
    | true =>
      rw [hmn] at hv he
      simp only [if_true, Option.some.injEq] at hv he
      rw [← hv] at he
      rw [← abs_neg]
      refine le_trans (le_of_eq ?_) he
      congr 1; ring
    | false =>
      rw [hmn] at hv he
      simp only [Bool.false_eq_true, if_false, Option.some.injEq, one_mul] at hv he
      rw [hv]; exact he
  rw [hab]
  refine rounded_grid k z _ (by positivity) _ r t (lt_of_le_of_lt hr ?_) hp
  have hk' : (10 : Rat) ^ k * 10 ^ a.places ≤ 10 ^ 11 := by
    rw [← pow_add]; exact pow_le_pow_right₀ (by norm_num) hk
  rw [lt_div_iff₀ (by positivity)]
  push_cast
  nlinarith

end Nmea
