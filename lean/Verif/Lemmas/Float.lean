/-
Rounding in the model of `f64` is rounding to nearest, ties to even.
-/
import Verif.Spec.Float
import Mathlib.Tactic.Ring
import Mathlib.Tactic.FieldSimp
import Mathlib.Tactic.Linarith
import Mathlib.Tactic.Positivity
import Mathlib.Tactic.NormNum
import Mathlib.Tactic.Zify
import Mathlib.Tactic.Qify
import Mathlib.Data.Rat.Cast.Order

namespace Nmea
open Spec
namespace F64

theorem two_zpow_pos (k : Int) : (0 : Rat) < 2 ^ k := by positivity

theorem zpow_toNat (s : Int) (h : 0 ≤ s) : (2 : Rat) ^ s = (2 : Rat) ^ s.toNat := by
  conv_lhs => rw [← Int.toNat_of_nonneg h]
  exact zpow_natCast _ _

theorem zpow_neg_toNat (s : Int) (h : ¬ 0 ≤ s) : (2 : Rat) ^ s = ((2 : Rat) ^ (-s).toNat)⁻¹ := by
  rw [← zpow_toNat (-s) (by omega), zpow_neg, inv_inv]

theorem mkRat_cast (m d : Nat) : mkRat (m : Int) d = (m : Rat) / (d : Rat) := by
  rw [Rat.mkRat_eq_div]; simp

theorem scale_eq (m : Nat) (s : Int) : scale m s = (m : Rat) * (2 : Rat) ^ s := by
  unfold scale
  split
  · rename_i h; rw [zpow_toNat s h]; push_cast; rfl
  · rename_i h; rw [zpow_neg_toNat s h, mkRat_cast]; push_cast; rw [div_eq_mul_inv]

theorem pow2Le_iff (k : Int) (n d : Nat) (hd : 0 < d) : pow2Le k n d = true ↔ (2 : Rat) ^ k ≤ n / d := by
  have hd' : (0 : Rat) < d := by exact_mod_cast hd
  rw [le_div_iff₀ hd']
  unfold pow2Le
  split
  · rename_i h
    rw [zpow_toNat k h, decide_eq_true_eq]
    constructor
    · intro h; have : ((d * 2 ^ k.toNat : Nat) : Rat) ≤ n := by exact_mod_cast h
      push_cast at this; linarith
    · intro h
      have : ((d * 2 ^ k.toNat : Nat) : Rat) ≤ n := by push_cast; linarith
      exact_mod_cast this
  · rename_i h
    rw [zpow_neg_toNat k h, decide_eq_true_eq]
    have hp : (0 : Rat) < 2 ^ (-k).toNat := by positivity
    rw [inv_mul_le_iff₀ hp]
    constructor
    · intro h; have : (d : Rat) ≤ ((n * 2 ^ (-k).toNat : Nat) : Rat) := by exact_mod_cast h
      push_cast at this; linarith
    · intro h
      have : (d : Rat) ≤ ((n * 2 ^ (-k).toNat : Nat) : Rat) := by push_cast; linarith
      exact_mod_cast this

theorem log2_bounds (n : Nat) (h : 0 < n) : (2 : Rat) ^ (n.log2 : Int) ≤ n ∧ (n : Rat) < 2 ^ ((n.log2 : Int) + 1) := by
  have h1 := Nat.log2_self_le (Nat.pos_iff_ne_zero.mp h)
  have h2 := Nat.lt_log2_self (n := n)
  constructor
  · rw [zpow_natCast]; exact_mod_cast h1
  · rw [show (n.log2 : Int) + 1 = ((n.log2 + 1 : Nat) : Int) by push_cast; rfl, zpow_natCast]; exact_mod_cast h2

theorem expOf_spec (n d : Nat) (hn : 0 < n) (hd : 0 < d) :
    (2 : Rat) ^ expOf n d ≤ n / d ∧ (n : Rat) / d < 2 ^ (expOf n d + 1) := by
  obtain ⟨n1, n2⟩ := log2_bounds n hn
  obtain ⟨d1, d2⟩ := log2_bounds d hd
  have hd' : (0 : Rat) < d := by exact_mod_cast hd
  have two : (2 : Rat) ≠ 0 := by norm_num
  unfold expOf
  simp only []
  split
  · rename_i h
    refine ⟨(pow2Le_iff _ _ _ hd).mp h, ?_⟩
    rw [div_lt_iff₀ hd']
    calc (n : Rat) < 2 ^ ((n.log2 : Int) + 1) := n2
      _ = 2 ^ ((n.log2 : Int) - d.log2 + 1) * 2 ^ (d.log2 : Int) := by rw [← zpow_add₀ two]; congr 1; ring
      _ ≤ _ := by
        apply mul_le_mul_of_nonneg_left d1
        exact (two_zpow_pos _).le
  · rename_i h
    have h' : ¬ (2 : Rat) ^ ((n.log2 : Int) - d.log2) ≤ n / d := fun hh => h ((pow2Le_iff _ _ _ hd).mpr hh)
    refine ⟨?_, ?_⟩
    · rw [le_div_iff₀ hd']
      calc (2 : Rat) ^ ((n.log2 : Int) - d.log2 - 1) * d
          ≤ 2 ^ ((n.log2 : Int) - d.log2 - 1) * 2 ^ ((d.log2 : Int) + 1) := by
            apply mul_le_mul_of_nonneg_left d2.le (two_zpow_pos _).le
        _ = 2 ^ (n.log2 : Int) := by rw [← zpow_add₀ two]; congr 1; ring
        _ ≤ n := n1
    · rw [sub_add_cancel]; exact lt_of_not_ge h'

theorem divRoundEven_spec (num den : Nat) (hd : 0 < den) :
    |(divRoundEven num den : Rat) - num / den| ≤ 1 / 2 ∧
    (|(divRoundEven num den : Rat) - num / den| = 1 / 2 → divRoundEven num den % 2 = 0) := by
  have hd' : (0 : Rat) < den := by exact_mod_cast hd
  have hdm : (num : Rat) = den * (num / den : Nat) + (num % den : Nat) := by
    exact_mod_cast (Nat.div_add_mod num den).symm
  have hr : num % den < den := Nat.mod_lt _ hd
  have hq : (num : Rat) / den = (num / den : Nat) + (num % den : Nat) / den := by
    rw [hdm, add_div, mul_div_cancel_left₀ _ hd'.ne']
  generalize hm : num / den = m at *
  generalize hrr : num % den = r at *
  have e1 : ∀ k : Nat, (k : Rat) - num / den = (k - m) - r / den := by
    intro k; rw [hq]; ring
  have hr0 : (0 : Rat) ≤ r / den := by positivity
  unfold divRoundEven
  simp only [hm, hrr]
  split
  · rename_i h
    have : (r : Rat) / den < 1 / 2 := by
      rw [div_lt_iff₀ hd']; have : (2 * r : Rat) < den := by exact_mod_cast h
      linarith
    rw [e1, sub_self, zero_sub, abs_neg, abs_of_nonneg hr0]
    exact ⟨this.le, fun h => absurd h this.ne⟩
  · split
    · rename_i h1 h
      have h2 : (1 : Rat) / 2 < r / den := by
        rw [lt_div_iff₀ hd']; have : (den : Rat) < 2 * r := by exact_mod_cast h
        linarith
      have h3 : (r : Rat) / den < 1 := by
        rw [div_lt_one hd']; exact_mod_cast hr
      rw [e1]
      push_cast
      rw [add_sub_cancel_left, abs_of_nonneg (by linarith)]
      exact ⟨by linarith, fun h => by linarith⟩
    · rename_i h1 h2
      have : (r : Rat) / den = 1 / 2 := by
        rw [div_eq_iff hd'.ne']
        have : ((2 * r : Nat) : Rat) = den := by congr 1; omega
        push_cast at this; linarith
      split
      · rename_i h
        rw [e1, sub_self, zero_sub, abs_neg, abs_of_nonneg hr0]
        exact ⟨this.le, fun _ => h⟩
      · rename_i h
        rw [e1]
        push_cast
        rw [add_sub_cancel_left, abs_of_nonneg (by linarith)]
        exact ⟨by linarith, fun _ => by omega⟩

theorem divScale_spec (n d : Nat) (s : Int) (hd : 0 < d) :
    |(divScale n d s : Rat) - n / d / 2 ^ s| ≤ 1 / 2 ∧
    (|(divScale n d s : Rat) - n / d / 2 ^ s| = 1 / 2 → divScale n d s % 2 = 0) := by
  have hd' : (d : Rat) ≠ 0 := by exact_mod_cast hd.ne'
  unfold divScale
  split
  · rename_i h
    have := divRoundEven_spec n (d * 2 ^ s.toNat) (by positivity)
    rw [zpow_toNat s h, div_div]
    push_cast at this
    exact this
  · rename_i h
    have := divRoundEven_spec (n * 2 ^ (-s).toNat) d hd
    rw [zpow_neg_toNat s h, div_inv_eq_mul]
    push_cast at this
    rw [mul_div_right_comm] at this
    exact this

/-- The exponent of the last place for `q > 0`. -/
def lastPlace (q : Rat) : Int := ulpExp q.num.toNat q.den

theorem num_toNat (q : Rat) (h : 0 < q) : 0 < q.num.toNat ∧ ((q.num.toNat : Nat) : Rat) / q.den = q := by
  have h1 : 0 < q.num := Rat.num_pos.mpr h
  refine ⟨by omega, ?_⟩
  conv_rhs => rw [← Rat.num_div_den q]
  congr 1
  rw [← Int.cast_natCast, Int.toNat_of_nonneg h1.le]

/-- What `roundMag` does to a positive number. -/
theorem roundMag_spec (q : Rat) (h : 0 < q) : ∃ m : Nat, roundMag q = m * (2 : Rat) ^ lastPlace q ∧
    |(m : Rat) - q / 2 ^ lastPlace q| ≤ 1 / 2 ∧ (|(m : Rat) - q / 2 ^ lastPlace q| = 1 / 2 → m % 2 = 0) ∧
    -1074 ≤ lastPlace q ∧ q < 2 ^ (lastPlace q + 53) ∧
    (lastPlace q = -1074 ∨ 2 ^ (lastPlace q + 52) ≤ q) := by
  obtain ⟨h1, h2⟩ := num_toNat q h
  have hd : 0 < q.den := q.den_pos
  obtain ⟨e1, e2⟩ := expOf_spec q.num.toNat q.den h1 hd
  rw [h2] at e1 e2
  refine ⟨divScale q.num.toNat q.den (lastPlace q), ?_, ?_, ?_, ?_, ?_, ?_⟩
  · unfold roundMag
    rw [if_neg (by omega)]
    simp only []
    rw [scale_eq]
    rfl
  · have := (divScale_spec q.num.toNat q.den (lastPlace q) hd).1
    rwa [h2] at this
  · have := (divScale_spec q.num.toNat q.den (lastPlace q) hd).2
    rwa [h2] at this
  · exact le_max_right _ _
  · refine lt_of_lt_of_le e2 ?_
    apply zpow_le_zpow_right₀ (by norm_num)
    have : expOf q.num.toNat q.den - 52 ≤ lastPlace q := le_max_left _ _
    omega
  · unfold lastPlace ulpExp
    rcases le_total (expOf q.num.toNat q.den - 52) (-1074) with hle | hle
    · left; exact max_eq_right hle
    · right; rw [max_eq_left hle, sub_add_cancel]; exact e1

theorem roundMag_zero : roundMag 0 = 0 := by decide +kernel

theorem abs_int_lt (m : Int) (h : |(m : Rat)| < 1) : m = 0 := by
  have : |m| < 1 := by exact_mod_cast h
  exact Int.abs_lt_one_iff.mp this

/-- An integer at distance at most one half is nearest. -/
theorem half_nearest (m : Nat) (k : Int) (x : Rat) (h : |(m : Rat) - x| ≤ 1 / 2) : |(m : Rat) - x| ≤ |(k : Rat) - x| := by
  by_contra hc
  rw [not_le] at hc
  have : |((m - k : Int) : Rat)| < 1 := by
    push_cast
    calc |(m : Rat) - k| = |((m : Rat) - x) - (k - x)| := by congr 1; ring
      _ ≤ |(m : Rat) - x| + |(k : Rat) - x| := abs_sub _ _
      _ < 1 := by linarith
  have := abs_int_lt _ this
  have hk : (k : Rat) = m := by
    have : k = m := by omega
    rw [this]; push_cast; rfl
  rw [hk] at hc
  exact lt_irrefl _ hc

theorem scaled_abs (a q g : Rat) (hg : 0 < g) : |a * g - q| = |a - q / g| * g := by
  conv_rhs => rw [← abs_of_pos hg]
  rw [abs_of_pos hg, ← abs_of_pos hg, abs_of_pos hg]
  rw [show a * g - q = (a - q / g) * g by rw [sub_mul, div_mul_cancel₀ _ hg.ne'], abs_mul, abs_of_pos hg]

/-- The numbers of the format are multiples of the last place of `q`, or smaller than all of its binade. -/
theorem rep_grid (q r : Rat) (hr : Rep r) (h52 : lastPlace q = -1074 ∨ (2 : Rat) ^ (lastPlace q + 52) ≤ q) :
    (∃ k : Nat, r = k * (2 : Rat) ^ lastPlace q) ∨
    (r < (2 ^ 52 : Nat) * (2 : Rat) ^ lastPlace q ∧ ((2 ^ 52 : Nat) : Rat) * (2 : Rat) ^ lastPlace q ≤ q) := by
  obtain ⟨m, s, hm, hs, rfl⟩ := hr
  have two : (2 : Rat) ≠ 0 := by norm_num
  by_cases hle : lastPlace q ≤ s
  · left
    refine ⟨m * 2 ^ (s - lastPlace q).toNat, ?_⟩
    push_cast
    rw [← zpow_toNat _ (by omega), mul_assoc, ← zpow_add₀ two]
    congr 2; ring
  · right
    have h52 : (2 : Rat) ^ (lastPlace q + 52) ≤ q := by
      rcases h52 with h | h
      · omega
      · exact h
    have e : ((2 ^ 52 : Nat) : Rat) * (2 : Rat) ^ lastPlace q = 2 ^ (lastPlace q + 52) := by
      rw [zpow_add₀ two]; push_cast; ring
    rw [e]
    refine ⟨?_, h52⟩
    calc (m : Rat) * 2 ^ s < (2 ^ 53 : Nat) * 2 ^ s := by
          apply mul_lt_mul_of_pos_right _ (two_zpow_pos s); exact_mod_cast hm
      _ = 2 ^ (s + 53) := by rw [zpow_add₀ two]; push_cast; ring
      _ ≤ 2 ^ (lastPlace q + 52) := zpow_le_zpow_right₀ (by norm_num) (by omega)

theorem roundMag_nearest (q : Rat) (h : 0 ≤ q) : Nearest q (roundMag q) := by
  rcases h.eq_or_lt with h0 | h
  · subst h0
    rw [roundMag_zero]
    refine ⟨⟨0, 0, by norm_num, by norm_num, by norm_num⟩, fun r _ => by simp, fun r _ hr hd => ?_⟩
    simp at hd
    exact absurd hd hr
  · obtain ⟨m, hm, hhalf, heven, hs, hlt, h52⟩ := roundMag_spec q h
    have g := two_zpow_pos (lastPlace q)
    have two : (2 : Rat) ≠ 0 := by norm_num
    have hxlt : q / 2 ^ lastPlace q < 2 ^ 53 := by
      rw [div_lt_iff₀ g]
      calc q < 2 ^ (lastPlace q + 53) := hlt
        _ = _ := by rw [zpow_add₀ two]; norm_num; ring
    have hmle : m ≤ 2 ^ 53 := by
      have h1 := (abs_le.mp hhalf).2
      have : (m : Rat) < (2 ^ 53 + 1 : Nat) := by push_cast; linarith
      have : m < 2 ^ 53 + 1 := by exact_mod_cast this
      omega
    rw [hm]
    refine ⟨?_, ?_, ?_⟩
    · by_cases hc : m < 2 ^ 53
      · exact ⟨m, lastPlace q, hc, hs, rfl⟩
      · have : m = 2 ^ 53 := by omega
        refine ⟨2 ^ 52, lastPlace q + 1, by norm_num, by omega, ?_⟩
        rw [this, zpow_add₀ two]; push_cast; ring
    · intro r hr
      rw [scaled_abs _ _ _ g]
      rcases rep_grid q r hr h52 with ⟨k, rfl⟩ | ⟨h1, h2⟩
      · rw [scaled_abs _ _ _ g]
        have := half_nearest m k _ hhalf
        push_cast at this
        exact mul_le_mul_of_nonneg_right this g.le
      · have := half_nearest m ((2 ^ 52 : Nat) : Int) _ hhalf
        have h3 := mul_le_mul_of_nonneg_right this g.le
        rw [Int.cast_natCast, ← scaled_abs ((2 ^ 52 : Nat) : Rat) _ _ g] at h3
        refine h3.trans ?_
        rw [abs_of_nonpos (by linarith), abs_of_nonpos (by linarith)]
        linarith
    · intro r hr hne heq
      rw [scaled_abs _ _ _ g] at heq
      have hhalf' : |(m : Rat) - q / 2 ^ lastPlace q| = 1 / 2 := by
        rcases rep_grid q r hr h52 with ⟨k, rfl⟩ | ⟨h1, h2⟩
        · rw [scaled_abs _ _ _ g] at heq
          have heq := mul_right_cancel₀ g.ne' heq
          refine le_antisymm hhalf ?_
          by_contra hc
          rw [not_le] at hc
          have : |((m - k : Int) : Rat)| < 1 := by
            push_cast
            calc |(m : Rat) - k| = |((m : Rat) - q / 2 ^ lastPlace q) - (k - q / 2 ^ lastPlace q)| := by congr 1; ring
              _ ≤ |(m : Rat) - q / 2 ^ lastPlace q| + |(k : Rat) - q / 2 ^ lastPlace q| := abs_sub _ _
              _ < 1 := by linarith
          have := abs_int_lt _ this
          have hk : k = m := by omega
          rw [hk] at hne
          exact absurd rfl hne
        · exfalso
          have := half_nearest m ((2 ^ 52 : Nat) : Int) _ hhalf
          have h3 := mul_le_mul_of_nonneg_right this g.le
          rw [Int.cast_natCast, ← scaled_abs ((2 ^ 52 : Nat) : Rat) _ _ g, ← heq, abs_of_nonpos (by linarith),
            abs_of_nonpos (by linarith)] at h3
          linarith
      have hev := heven hhalf'
      by_cases hc : m < 2 ^ 53
      · refine ⟨m, lastPlace q, hc, hs, ?_, hev, rfl⟩
        rcases h52 with h | h
        · right; exact h
        · left
          have hx : (2 ^ 52 : Rat) ≤ q / 2 ^ lastPlace q := by
            rw [le_div_iff₀ g]
            refine le_trans (le_of_eq ?_) h
            rw [zpow_add₀ two]; norm_num; ring
          have h1 := (abs_le.mp hhalf).1
          by_contra hlt
          have hm1 : (m : Rat) + 1 ≤ (2 ^ 52 : Nat) := by exact_mod_cast (by omega : m + 1 ≤ 2 ^ 52)
          push_cast at hm1
          linarith
      · have : m = 2 ^ 53 := by omega
        refine ⟨2 ^ 52, lastPlace q + 1, by norm_num, by omega, .inl le_rfl, by norm_num, ?_⟩
        rw [this, zpow_add₀ two]; push_cast; ring

/-! ### Consequences -/

theorem roundMag_nonneg (q : Rat) (h : 0 ≤ q) : 0 ≤ roundMag q := by
  obtain ⟨⟨m, s, -, -, e⟩, -⟩ := roundMag_nearest q h
  rw [e]
  have := two_zpow_pos s
  positivity

theorem roundMag_exact (q : Rat) (h : Rep q) : roundMag q = q := by
  have h0 : 0 ≤ q := by
    obtain ⟨m, s, -, -, rfl⟩ := h
    have := two_zpow_pos s
    positivity
  have := (roundMag_nearest q h0).2.1 q h
  rw [sub_self, abs_zero] at this
  have := le_antisymm this (abs_nonneg _)
  rw [abs_eq_zero] at this
  linarith

theorem roundMag_mono (a b : Rat) (ha : 0 ≤ a) (h : a ≤ b) : roundMag a ≤ roundMag b := by
  rcases h.eq_or_lt with rfl | hlt
  · exact le_refl _
  · by_contra hc
    rw [not_le] at hc
    obtain ⟨ra, na, -⟩ := roundMag_nearest a ha
    obtain ⟨rb, nb, -⟩ := roundMag_nearest b (ha.trans h)
    have h1 := na _ rb
    have h2 := nb _ ra
    generalize roundMag a = x at *
    generalize roundMag b = y at *
    rcases abs_cases (x - a) with ⟨e1, f1⟩ | ⟨e1, f1⟩ <;> rcases abs_cases (y - a) with ⟨e2, f2⟩ | ⟨e2, f2⟩ <;>
    rcases abs_cases (y - b) with ⟨e3, f3⟩ | ⟨e3, f3⟩ <;> rcases abs_cases (x - b) with ⟨e4, f4⟩ | ⟨e4, f4⟩ <;>
    rw [e1, e2] at h1 <;> rw [e3, e4] at h2 <;> linarith

theorem rep_nat (n : Nat) (h : n ≤ 2 ^ 53) : Rep n := by
  by_cases hc : n < 2 ^ 53
  · exact ⟨n, 0, hc, by norm_num, by simp⟩
  · exact ⟨2 ^ 52, 1, by norm_num, by norm_num, by rw [show n = 2 ^ 53 by omega]; norm_num⟩

/-- Relative error at most `2^-53` where the number is not subnormal. -/
theorem roundMag_error (q : Rat) (h : (2 : Rat) ^ (-1022 : Int) ≤ q) : |roundMag q - q| ≤ q * 2 ^ (-53 : Int) := by
  have hq : 0 < q := lt_of_lt_of_le (two_zpow_pos _) h
  obtain ⟨m, hm, hhalf, -, hs, hlt, h52⟩ := roundMag_spec q hq
  have g := two_zpow_pos (lastPlace q)
  have two : (2 : Rat) ≠ 0 := by norm_num
  have h52' : (2 : Rat) ^ (lastPlace q + 52) ≤ q := by
    rcases h52 with h' | h'
    · rw [h']; exact h
    · exact h'
  rw [hm, scaled_abs _ _ _ g]
  calc |(m : Rat) - q / 2 ^ lastPlace q| * 2 ^ lastPlace q ≤ 1 / 2 * 2 ^ lastPlace q :=
        mul_le_mul_of_nonneg_right hhalf g.le
    _ = 2 ^ (lastPlace q + 52) * 2 ^ (-53 : Int) := by
        rw [← zpow_add₀ two, show lastPlace q + 52 + -53 = lastPlace q + -1 by ring, zpow_add₀ two]
        norm_num; ring
    _ ≤ q * 2 ^ (-53 : Int) := mul_le_mul_of_nonneg_right h52' (two_zpow_pos _).le

theorem roundMag_error_le (q B : Rat) (h0 : 0 ≤ q) (h : q ≤ B) (hB : 1 ≤ B) :
    |roundMag q - q| ≤ B * 2 ^ (-53 : Int) := by
  by_cases hc : (2 : Rat) ^ (-1022 : Int) ≤ q
  · exact (roundMag_error q hc).trans (mul_le_mul_of_nonneg_right h (two_zpow_pos _).le)
  · rw [not_le] at hc
    rcases h0.eq_or_lt with h0 | h0
    · subst h0; rw [roundMag_zero]; simp; positivity
    have hr := (roundMag_nearest q h0.le).2.1 0 ⟨0, 0, by norm_num, by norm_num, by norm_num⟩
    rw [zero_sub, abs_neg, abs_of_pos h0] at hr
    have : (2 : Rat) ^ (-1022 : Int) ≤ 2 ^ (-53 : Int) := zpow_le_zpow_right₀ (by norm_num) (by norm_num)
    have h53 := two_zpow_pos (-53)
    nlinarith

/-- A significand in normal position determines significand and exponent. -/
theorem canonical_unique (m m' : Nat) (s s' : Int) (hm : m < 2 ^ 53) (hm' : m' < 2 ^ 53) (hs : -1074 ≤ s)
    (hs' : -1074 ≤ s') (hn : 2 ^ 52 ≤ m ∨ s = -1074) (hn' : 2 ^ 52 ≤ m' ∨ s' = -1074)
    (h : (m : Rat) * 2 ^ s = m' * 2 ^ s') : m = m' ∧ s = s' := by
  have two : (2 : Rat) ≠ 0 := by norm_num
  have key : ∀ (m m' : Nat) (s s' : Int), m < 2 ^ 53 → (2 ^ 52 ≤ m' ∨ s' = -1074) → -1074 ≤ s →
      (m : Rat) * 2 ^ s = m' * 2 ^ s' → ¬ s < s' := by
    intro m m' s s' hm hn' hs h hlt
    have hm2 : 2 ^ 52 ≤ m' := by
      rcases hn' with h | h
      · exact h
      · omega
    have : (m : Rat) = m' * 2 ^ (s' - s) := by
      rw [zpow_sub₀ two, ← mul_div_assoc, eq_div_iff (two_zpow_pos s).ne', h]
    have h2 : (2 : Rat) ^ (1 : Int) ≤ 2 ^ (s' - s) := zpow_le_zpow_right₀ (by norm_num) (by omega)
    have h3 : ((2 ^ 52 : Nat) : Rat) ≤ m' := by exact_mod_cast hm2
    have h4 : (m : Rat) < (2 ^ 53 : Nat) := by exact_mod_cast hm
    rw [zpow_one] at h2
    push_cast at h3 h4
    nlinarith
  have h1 := key m m' s s' hm hn' hs h
  have h2 := key m' m s' s hm' hn hs' h.symm
  have : s = s' := by omega
  subst this
  refine ⟨?_, rfl⟩
  have := mul_right_cancel₀ (two_zpow_pos s).ne' h
  exact_mod_cast this

/-- There is one nearest number. -/
theorem nearest_unique (q v : Rat) (h : 0 ≤ q) (hv : Nearest q v) : v = roundMag q := by
  by_contra hne
  obtain ⟨r1, r2, r3⟩ := roundMag_nearest q h
  obtain ⟨v1, v2, v3⟩ := hv
  have heq : |v - q| = |roundMag q - q| := le_antisymm (v2 _ r1) (r2 _ v1)
  have ev := v3 _ r1 (Ne.symm hne) heq.symm
  have er := r3 _ v1 hne heq
  have hq : 0 < q := by
    rcases h.eq_or_lt with h0 | h0
    · subst h0
      rw [roundMag_zero] at heq hne
      simp at heq
      exact absurd heq hne
    · exact h0
  obtain ⟨m, hm, hhalf, -, hs, hlt, h52⟩ := roundMag_spec q hq
  have g := two_zpow_pos (lastPlace q)
  have two : (2 : Rat) ≠ 0 := by norm_num
  rcases rep_grid q v v1 h52 with ⟨k, hk⟩ | ⟨h1, h2⟩
  · have hkm : k ≠ m := by rintro rfl; exact hne (hk.trans hm.symm)
    rw [hm, hk, scaled_abs _ _ _ g, scaled_abs _ _ _ g] at heq
    have heq := mul_right_cancel₀ g.ne' heq
    have hxge : lastPlace q = -1074 ∨ (2 ^ 52 : Rat) ≤ q / 2 ^ lastPlace q := by
      rcases h52 with h | h
      · exact .inl h
      · right
        rw [le_div_iff₀ g]
        refine le_trans (le_of_eq ?_) h
        rw [zpow_add₀ two]; norm_num; ring
    have hxlt : q / 2 ^ lastPlace q < 2 ^ 53 := by
      rw [div_lt_iff₀ g]
      calc q < 2 ^ (lastPlace q + 53) := hlt
        _ = _ := by rw [zpow_add₀ two]; norm_num; ring
    generalize q / 2 ^ lastPlace q = x at *
    -- `x` lies in the middle of two neighbouring integers
    have hx : x = ((m : Rat) + k) / 2 := by
      rcases abs_cases ((k : Rat) - x) with ⟨e1, -⟩ | ⟨e1, -⟩ <;>
      rcases abs_cases ((m : Rat) - x) with ⟨e2, -⟩ | ⟨e2, -⟩ <;> rw [e1, e2] at heq
      · exfalso; apply hkm; have : (k : Rat) = m := by linarith
        exact_mod_cast this
      · linarith
      · linarith
      · exfalso; apply hkm; have : (k : Rat) = m := by linarith
        exact_mod_cast this
    have hd : k = m + 1 ∨ m = k + 1 := by
      have h1 := abs_le.mp hhalf
      have a1 : (k : Rat) ≤ ((m + 1 : Nat) : Rat) := by push_cast; linarith [h1.1, h1.2]
      have a2 : (m : Rat) ≤ ((k + 1 : Nat) : Rat) := by push_cast; linarith [h1.1, h1.2]
      have a1 : k ≤ m + 1 := by exact_mod_cast a1
      have a2 : m ≤ k + 1 := by exact_mod_cast a2
      omega
    have even_of : ∀ (j : Nat) (w : Rat), (lastPlace q = -1074 ∨ 2 ^ 52 ≤ j) → j < 2 ^ 53 →
        w = j * 2 ^ lastPlace q → RepEven w → j % 2 = 0 := by
      rintro j w hj1 hj2 hw ⟨m', s', a1, a2, a3, a4, a5⟩
      have := canonical_unique j m' (lastPlace q) s' hj2 a1 hs a2 (hj1.symm) a3 (hw.symm.trans a5)
      omega
    have lower : lastPlace q = -1074 ∨ (2 ^ 52 ≤ m ∧ 2 ^ 52 ≤ k) := by
      rcases hxge with h | h
      · exact .inl h
      · right
        have : ((2 * 2 ^ 52 : Nat) : Rat) ≤ ((m + k : Nat) : Rat) := by push_cast; rw [hx] at h; linarith
        have : 2 * 2 ^ 52 ≤ m + k := by exact_mod_cast this
        omega
    have upper : m + k < 2 * 2 ^ 53 := by
      have : ((m + k : Nat) : Rat) < ((2 * 2 ^ 53 : Nat) : Rat) := by push_cast; rw [hx] at hxlt; linarith
      exact_mod_cast this
    have top : ∀ j : Nat, j = 2 ^ 53 → j % 2 = 0 := by rintro _ rfl; norm_num
    have em : m % 2 = 0 := by
      by_cases hc : m < 2 ^ 53
      · exact even_of m _ (by tauto) hc hm er
      · omega
    have ek : k % 2 = 0 := by
      by_cases hc : k < 2 ^ 53
      · exact even_of k _ (by tauto) hc hk ev
      · omega
    omega
  · have := half_nearest m ((2 ^ 52 : Nat) : Int) _ hhalf
    have h3 := mul_le_mul_of_nonneg_right this g.le
    rw [Int.cast_natCast, ← scaled_abs ((2 ^ 52 : Nat) : Rat) _ _ g, ← scaled_abs _ _ _ g, ← hm, ← heq,
      abs_of_nonpos (by linarith), abs_of_nonpos (by linarith)] at h3
    linarith

/-! ### Signed results -/

theorem ofRat_roundsTo (q : Rat) : RoundsTo q (ofRat q) := by
  have hn : Nearest |q| (roundMag |q|) := roundMag_nearest _ (abs_nonneg q)
  unfold ofRat
  split
  · rename_i h
    rw [← abs_of_neg h]
    unfold ofMag
    simp only []
    split
    · rename_i hlt
      have := RoundsTo.fin (q := q) _ hn hlt
      rwa [decide_eq_true h] at this
    · rename_i hlt
      have := RoundsTo.inf (q := q) _ hn (not_lt.mp hlt)
      rwa [decide_eq_true h] at this
  · rename_i h
    have ha : |q| = q := abs_of_nonneg (not_lt.mp h)
    have hn' : Nearest |q| (roundMag q) := by rw [ha] at hn ⊢; exact hn
    have e : decide (q < 0) = false := decide_eq_false h
    unfold ofMag
    simp only []
    split
    · rename_i hlt
      have := RoundsTo.fin (q := q) _ hn' hlt
      rwa [e] at this
    · rename_i hlt
      have := RoundsTo.inf (q := q) _ hn' (not_lt.mp hlt)
      rwa [e] at this

/-- `RoundsTo` determines the result. -/
theorem roundsTo_iff (q : Rat) (x : F64) : RoundsTo q x ↔ x = ofRat q := by
  constructor
  · intro h
    have h' := ofRat_roundsTo q
    generalize ofRat q = y at *
    cases h with
    | fin v hv hlt =>
      have := nearest_unique _ _ (abs_nonneg q) hv
      cases h' with
      | fin w hw _ => rw [this, nearest_unique _ _ (abs_nonneg q) hw]
      | inf w hw hge =>
        rw [nearest_unique _ _ (abs_nonneg q) hw, ← this] at hge
        exact absurd hlt (not_lt.mpr hge)
    | inf v hv hge =>
      have := nearest_unique _ _ (abs_nonneg q) hv
      cases h' with
      | fin w hw hlt =>
        rw [nearest_unique _ _ (abs_nonneg q) hw, ← this] at hlt
        exact absurd hlt (not_lt.mpr hge)
      | inf w hw _ => rfl
  · rintro rfl; exact ofRat_roundsTo q

/-! ### Arithmetic on exact operands -/

theorem rep_pow (k : Int) (h : -1074 ≤ k) : Rep (2 ^ k) := ⟨1, k, by norm_num, h, by norm_num⟩

theorem ofMag_lt (neg : Bool) (q : Rat) (h0 : 0 ≤ q) (h : q ≤ 2 ^ 1023) : ofMag neg q = fin neg (roundMag q) := by
  have h1 := roundMag_mono q _ h0 h
  rw [roundMag_exact (2 ^ 1023 : Rat) ⟨1, 1023, by norm_num, by norm_num, by norm_num⟩] at h1
  unfold ofMag
  simp only []
  rw [if_pos (lt_of_le_of_lt h1 (pow_lt_pow_right₀ (by norm_num) (by norm_num)))]

theorem ofRat_abs (q : Rat) : ofRat q = ofMag (decide (q < 0)) |q| := by
  unfold ofRat
  split
  · rename_i h; rw [abs_of_neg h, decide_eq_true h]
  · rename_i h; rw [abs_of_nonneg (not_lt.mp h), decide_eq_false h]

theorem ofRat_fin (q : Rat) (h : |q| ≤ 2 ^ 1023) : ofRat q = fin (decide (q < 0)) (roundMag |q|) := by
  rw [ofRat_abs, ofMag_lt _ _ (abs_nonneg q) h]

theorem small_le (q : Rat) (h : q ≤ 2 ^ 64) : q ≤ 2 ^ 1023 := by
  exact h.trans (pow_le_pow_right₀ (by norm_num) (by norm_num))

theorem rep_int (z : Int) (h : |z| ≤ 2 ^ 53) : Rep |(z : Rat)| := by
  have := rep_nat z.natAbs (by rw [Int.abs_eq_natAbs] at h; exact_mod_cast h)
  have e : |(z : Rat)| = ((z.natAbs : Nat) : Rat) := by
    rw [Nat.cast_natAbs (α := Rat) z, Int.cast_abs]
  rwa [e]

theorem ofInt_exact (z : Int) (h : |z| ≤ 2 ^ 53) : ofInt z = fin (decide (z < 0)) |(z : Rat)| := by
  have hle : |(z : Rat)| ≤ 2 ^ 53 := by rw [← Int.cast_abs]; exact_mod_cast h
  unfold ofInt
  rw [ofRat_fin _ (small_le _ (hle.trans (by norm_num))), roundMag_exact _ (rep_int z h)]
  congr 1
  simp

theorem div_ofInt (a b : Int) (ha : |a| ≤ 2 ^ 53) (hb : 0 < b) (hb' : b ≤ 2 ^ 53) :
    div (ofInt a) (ofInt b) = ofRat (a / b) := by
  have hb2 : (0 : Rat) < b := by exact_mod_cast hb
  rw [ofInt_exact a ha, ofInt_exact b (by rw [abs_of_pos hb]; exact hb'), ofRat_abs]
  simp only [div]
  rw [if_neg (by rw [abs_of_pos hb2]; exact hb2.ne'), abs_div]
  congr 1
  have : decide (b < 0) = false := decide_eq_false (by omega)
  rw [this, Bool.xor_false]
  congr 1
  rw [div_lt_iff₀ hb2, zero_mul]
  simp

theorem mul_fin (a b : Rat) (ha : 0 ≤ a) (hb : 0 ≤ b) : mul (fin false a) (fin false b) = ofRat (a * b) := by
  rw [ofRat_abs, abs_of_nonneg (mul_nonneg ha hb)]
  simp only [mul]
  rw [decide_eq_false (not_lt.mpr (mul_nonneg ha hb))]
  rfl

/-- Value of a rounded result and its error. -/
theorem ofRat_value (q B : Rat) (h : |q| ≤ B) (hB : 1 ≤ B) (hB' : B ≤ 2 ^ 64) :
    ∃ v, valueOf (ofRat q) = some v ∧ |v - q| ≤ B * 2 ^ (-53 : Int) := by
  rw [ofRat_fin q (small_le _ (h.trans hB'))]
  refine ⟨_, rfl, ?_⟩
  have := roundMag_error_le |q| B (abs_nonneg q) h hB
  by_cases hq : q < 0
  · simp only [hq, decide_true, if_true]
    rw [abs_of_neg hq] at this ⊢
    rw [show -roundMag (-q) - q = -(roundMag (-q) - -q) by ring, abs_neg]
    exact this
  · simp only [hq, decide_false, Bool.false_eq_true, if_false]
    rw [abs_of_nonneg (not_lt.mp hq)] at this ⊢
    exact this

end F64
end Nmea
