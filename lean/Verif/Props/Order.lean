/-
C108: numbers are decoded in order, and different numbers to different doubles.
-/
import Verif.Spec.Order
import Verif.Props.Gnss
import Verif.Props.Values

namespace Nmea
open Spec

/-! ### Rounding and order -/

/-- The double of a signed number. -/
theorem says_value {s : Str} {neg : Bool} {r : Str} {m : Rat} (h : Signed s neg r) (hd : Decimal r m) {d : F64}
    (hf : NumField s (some d)) : d = F64.ofMag neg m := by
  have h1 : NumField s (some (signedF64 neg (F64.ofRat m))) :=
    .inr ⟨_, .decimal neg r m _ h hd (F64.ofRat_roundsTo m), rfl⟩
  have := C63_unique s _ _ hf h1
  rw [Option.some.inj this, F64.ofMag, ← F64.ofMag]
  exact (ofMag_signed neg m (decimal_nonneg hd)).symm

theorem ofMag_cases (neg : Bool) (m : Rat) :
    (F64.ofMag neg m = .fin neg (F64.roundMag m) ∧ F64.roundMag m < 2 ^ 1024) ∨
    (F64.ofMag neg m = .inf neg ∧ 2 ^ 1024 ≤ F64.roundMag m) := by
  unfold F64.ofMag
  simp only []
  split
  · rename_i h; exact .inl ⟨rfl, h⟩
  · rename_i h; exact .inr ⟨rfl, not_lt.mp h⟩

theorem ofMag_ne_nan (neg : Bool) (m : Rat) : F64.ofMag neg m ≠ .nan := by
  rcases ofMag_cases neg m with ⟨e, -⟩ | ⟨e, -⟩ <;> rw [e] <;> exact fun h => by cases h

theorem ofMag_atMost (n1 n2 : Bool) (a b : Rat) (ha : 0 ≤ a) (hb : 0 ≤ b) (h : signed n1 a ≤ signed n2 b) :
    AtMost (F64.ofMag n1 a) (F64.ofMag n2 b) := by
  have pa := F64.roundMag_nonneg a ha
  have pb := F64.roundMag_nonneg b hb
  have key : signed n1 (F64.roundMag a) ≤ signed n2 (F64.roundMag b) := by
    cases n1 <;> cases n2 <;> simp only [signed, if_true, Bool.false_eq_true, if_false] at h ⊢
    · exact F64.roundMag_mono a b ha h
    · have : a = 0 := by linarith
      have : b = 0 := by linarith
      subst a b
      rw [F64.roundMag_zero]; norm_num
    · linarith
    · have := F64.roundMag_mono b a hb (by linarith)
      linarith
  have hP : (0 : Rat) < 2 ^ 1024 := by positivity
  rcases ofMag_cases n1 a with ⟨e1, l1⟩ | ⟨e1, l1⟩ <;> rcases ofMag_cases n2 b with ⟨e2, l2⟩ | ⟨e2, l2⟩ <;>
  generalize (2 : Rat) ^ 1024 = P at hP l1 l2
  · rw [e1, e2]
    exact .fin _ _ _ _ rfl rfl key
  · cases n2
    · rw [e2]; exact .above _ (ofMag_ne_nan _ _)
    · exfalso
      cases n1 <;> simp only [signed, if_true, Bool.false_eq_true, if_false] at key <;> linarith
  · cases n1
    · exfalso
      cases n2 <;> simp only [signed, if_true, Bool.false_eq_true, if_false] at key <;> linarith
    · rw [e1]; exact .below _ (ofMag_ne_nan _ _)
  · cases n1
    · cases n2
      · rw [e2]; exact .above _ (ofMag_ne_nan _ _)
      · exfalso
        simp only [signed, if_true, Bool.false_eq_true, if_false] at key
        linarith
    · rw [e1]; exact .below _ (ofMag_ne_nan _ _)

/-- C108: the decimals of GNSS sentences are decoded in order: if one text says a number not above that of another
text, its double is not above the other's. -/
theorem C108_decimal_order (s t : Str) (q r : Rat) (d e : F64) (hs : Says s q) (ht : Says t r)
    (hd : NumField s (some d)) (he : NumField t (some e)) (h : q ≤ r) : AtMost d e := by
  obtain ⟨n1, r1, m1, a1, b1, rfl⟩ := hs
  obtain ⟨n2, r2, m2, a2, b2, rfl⟩ := ht
  rw [says_value a1 b1 hd, says_value a2 b2 he]
  exact ofMag_atMost n1 n2 m1 m2 (decimal_nonneg b1) (decimal_nonneg b2) h

/-- `5e-1` is not above `54.70`. -/
example (d e : F64) (hd : NumField (c! "5e-1") (some d)) (he : NumField (c! "54.70") (some e)) : AtMost d e :=
  C108_decimal_order _ _ (1 / 2) (547 / 10) d e
    ⟨false, c! "5e-1", 1 / 2, .inl ⟨rfl, rfl⟩, ⟨c! "5", [], c! "e-1", -1, by unfold AllDigits; decide, by unfold AllDigits; decide,
      .inl (by decide), .inr ⟨'e', c! "-1", true, c! "1", rfl, .inl rfl, .inr (.inr ⟨rfl, rfl⟩), ⟨by decide, by decide⟩, by decide⟩,
      .inl ⟨rfl, rfl⟩, by rw [show decValue (c! "5") = 5 by decide, show decValue [] = 0 by decide]; norm_num⟩, by norm_num [signed]⟩
    ⟨false, c! "54.70", 547 / 10, .inl ⟨rfl, rfl⟩, ⟨c! "54", c! "70", [], 0, by unfold AllDigits; decide,
      by unfold AllDigits; decide, .inl (by decide), .inl ⟨rfl, rfl⟩, .inr rfl,
      by rw [show decValue (c! "54") = 54 by decide, show decValue (c! "70") = 70 by decide]; norm_num⟩, by norm_num [signed]⟩
    hd he (by norm_num)

/-- Neighbours among the numbers of 15 digits are kept apart. -/
theorem roundMag_step (n f : Nat) (hn : n < 10 ^ 15) (hf : f ≤ 15) :
    F64.roundMag ((n : Rat) / 10 ^ f) < F64.roundMag (((n + 1 : Nat) : Rat) / 10 ^ f) := by
  have p : (0 : Rat) < 10 ^ f := by positivity
  have hp : (10 : Rat) ^ f ≤ 10 ^ 15 := pow_le_pow_right₀ (by norm_num) hf
  have small : ∀ k : Nat, 1 ≤ k → (2 : Rat) ^ (-1022 : Int) ≤ (k : Rat) / 10 ^ f := by
    intro k hk
    rw [le_div_iff₀ p]
    have h1 : (1 : Rat) ≤ k := by exact_mod_cast hk
    have h2 : (2 : Rat) ^ (-1022 : Int) ≤ 2 ^ (-50 : Int) := zpow_le_zpow_right₀ (by norm_num) (by norm_num)
    have h3 : (2 : Rat) ^ (-50 : Int) * 10 ^ 15 ≤ 1 := by norm_num
    have h4 : (0 : Rat) < 2 ^ (-50 : Int) := by positivity
    calc (2 : Rat) ^ (-1022 : Int) * 10 ^ f ≤ 2 ^ (-50 : Int) * 10 ^ 15 := by
          apply mul_le_mul h2 hp p.le h4.le
      _ ≤ k := by linarith
  have err : ∀ k : Nat, |F64.roundMag ((k : Rat) / 10 ^ f) - k / 10 ^ f| ≤ k / 10 ^ f * 2 ^ (-53 : Int) := by
    intro k
    rcases Nat.eq_zero_or_pos k with rfl | hk
    · norm_num [F64.roundMag_zero]
    · exact F64.roundMag_error _ (small k hk)
  have e1 := (abs_le.mp (err n)).2
  have e2 := (abs_le.mp (err (n + 1))).1
  have hn' : (n : Rat) + 1 ≤ 10 ^ 15 := by exact_mod_cast hn
  have hx : (n : Rat) / 10 ^ f * 2 ^ (-53 : Int) + ((n + 1 : Nat) : Rat) / 10 ^ f * 2 ^ (-53 : Int) < 1 / 10 ^ f := by
    rw [← add_mul, ← add_div, div_mul_eq_mul_div, div_lt_div_iff_of_pos_right p]
    push_cast
    have : (0 : Rat) < 2 ^ (-53 : Int) := by positivity
    calc ((n : Rat) + (n + 1)) * 2 ^ (-53 : Int) ≤ (10 ^ 15 + 10 ^ 15) * 2 ^ (-53 : Int) := by
          apply mul_le_mul_of_nonneg_right _ this.le; linarith
      _ < 1 := by norm_num
  have hs : ((n + 1 : Nat) : Rat) / 10 ^ f = n / 10 ^ f + 1 / 10 ^ f := by push_cast; ring
  rw [hs] at e2 hx ⊢
  linarith

/-- Numbers of 15 digits are kept apart. -/
theorem roundMag_apart (n m f g : Nat) (hn : n < 10 ^ 15) (hm : m < 10 ^ 15) (hf : f ≤ 15) (hg : g ≤ 15)
    (h : (n : Rat) / 10 ^ f < m / 10 ^ g) : F64.roundMag ((n : Rat) / 10 ^ f) < F64.roundMag ((m : Rat) / 10 ^ g) := by
  have pf : (0 : Rat) < 10 ^ f := by positivity
  have pg : (0 : Rat) < 10 ^ g := by positivity
  have hnat : n * 10 ^ g < m * 10 ^ f := by
    rw [div_lt_div_iff₀ pf pg] at h
    exact_mod_cast h
  rcases le_total g f with hgf | hfg
  · obtain ⟨k, rfl⟩ := Nat.exists_eq_add_of_le hgf
    have hlt : n < m * 10 ^ k := by
      rw [pow_add, mul_comm (10 ^ g), ← mul_assoc] at hnat
      exact Nat.lt_of_mul_lt_mul_right hnat
    refine lt_of_lt_of_le (roundMag_step n _ hn hf) (F64.roundMag_mono _ _ (by positivity) ?_)
    have : ((n + 1 : Nat) : Rat) ≤ m * 10 ^ k := by exact_mod_cast hlt
    rw [div_le_div_iff₀ pf pg, pow_add]
    nlinarith
  · obtain ⟨k, rfl⟩ := Nat.exists_eq_add_of_le hfg
    have hlt : n * 10 ^ k < m := by
      rw [pow_add, mul_comm (10 ^ f), ← mul_assoc] at hnat
      exact Nat.lt_of_mul_lt_mul_right hnat
    obtain ⟨j, rfl⟩ : ∃ j, m = j + 1 := ⟨m - 1, by omega⟩
    refine lt_of_le_of_lt (F64.roundMag_mono _ _ (by positivity) ?_) (roundMag_step j _ (by omega) hg)
    have : (n : Rat) * 10 ^ k ≤ j := by exact_mod_cast (by omega : n * 10 ^ k ≤ j)
    rw [div_le_div_iff₀ pf pg, pow_add]
    nlinarith

theorem shortly_mag (ip fp : Str) (hi : AllDigits ip) (hf : AllDigits fp) (hl : ip.length + fp.length ≤ 15) :
    decValue (ip ++ fp) < 10 ^ 15 ∧
    (decValue ip : Rat) + decValue fp / 10 ^ fp.length = (decValue (ip ++ fp) : Nat) / 10 ^ fp.length := by
  constructor
  · refine lt_of_lt_of_le (decValue_lt (ip ++ fp) ?_) (Nat.pow_le_pow_right (by decide) (by simpa using hl))
    intro c hc
    rcases List.mem_append.mp hc with h | h
    · exact hi c h
    · exact hf c h
  · rw [decValue_append]
    have : (10 : Rat) ^ fp.length ≠ 0 := by positivity
    push_cast
    field_simp

theorem shortly_says {s : Str} {neg : Bool} {r ip fp : Str} (hr : (r = ip ∧ fp = []) ∨ r = ip ++ '.' :: fp)
    (hi : AllDigits ip) (hf : AllDigits fp) (hne : ip ≠ [] ∨ fp ≠ []) (_ : Signed s neg r) :
    Decimal r (decValue ip + decValue fp / 10 ^ fp.length) := by
  refine ⟨ip, fp, [], 0, hi, hf, hne, .inl ⟨rfl, rfl⟩, ?_, by simp⟩
  simpa using hr

/-- C108: decimals of up to 15 digits are decoded without loss: a greater number gives a greater double, so
different numbers give different doubles. -/
theorem C108_decimal_strict (s t : Str) (q r : Rat) (d e : F64) (hs : SaysShortly s q) (ht : SaysShortly t r)
    (hd : NumField s (some d)) (he : NumField t (some e)) : F64Lt d e ↔ q < r := by
  have key : ∀ (s t : Str) (q r : Rat) (d e : F64), SaysShortly s q → SaysShortly t r → NumField s (some d) →
      NumField t (some e) → q < r → F64Lt d e := by
    rintro s t q r d e ⟨n1, r1, i1, f1, a1, b1, c1, d1, e1, l1, rfl⟩ ⟨n2, r2, i2, f2, a2, b2, c2, d2, e2, l2, rfl⟩ hd he h
    rw [says_value a1 (shortly_says b1 c1 d1 e1 a1) hd, says_value a2 (shortly_says b2 c2 d2 e2 a2) he]
    obtain ⟨u1, v1⟩ := shortly_mag i1 f1 c1 d1 l1
    obtain ⟨u2, v2⟩ := shortly_mag i2 f2 c2 d2 l2
    rw [v1, v2] at h
    rw [v1, v2]
    generalize decValue (i1 ++ f1) = n at *
    generalize decValue (i2 ++ f2) = m at *
    have g1 : f1.length ≤ 15 := by omega
    have g2 : f2.length ≤ 15 := by omega
    generalize f1.length = f at *
    generalize f2.length = g at *
    have bound : ∀ k j : Nat, k < 10 ^ 15 → (k : Rat) / 10 ^ j ≤ 2 ^ 1023 := by
      intro k j hk
      have h1 : (k : Rat) ≤ 2 ^ 64 := by
        have : k ≤ 2 ^ 64 := by omega
        exact_mod_cast this
      refine F64.small_le _ (le_trans (div_le_self (by positivity) (one_le_pow₀ (by norm_num))) h1)
    rw [F64.ofMag_lt _ _ (by positivity) (bound n f u1), F64.ofMag_lt _ _ (by positivity) (bound m g u2)]
    refine ⟨_, _, rfl, rfl, ?_⟩
    have p1 := F64.roundMag_nonneg ((n : Rat) / 10 ^ f) (by positivity)
    have p2 := F64.roundMag_nonneg ((m : Rat) / 10 ^ g) (by positivity)
    have q1 : (0 : Rat) ≤ (n : Rat) / 10 ^ f := by positivity
    have q2 : (0 : Rat) ≤ (m : Rat) / 10 ^ g := by positivity
    cases n1 <;> cases n2 <;> simp only [signed, if_true, Bool.false_eq_true, if_false] at h ⊢
    · exact roundMag_apart n m f g u1 u2 g1 g2 h
    · linarith
    · by_cases hz : (n : Rat) / 10 ^ f = 0
      · have := roundMag_apart 0 m 0 g (by norm_num) u2 (by norm_num) g2 (by rw [hz] at h; simpa using h)
        simp only [Nat.cast_zero, zero_div, F64.roundMag_zero] at this
        linarith
      · have := roundMag_apart 0 n 0 f (by norm_num) u1 (by norm_num) g1
          (by simpa using lt_of_le_of_ne q1 (Ne.symm hz))
        simp only [Nat.cast_zero, zero_div, F64.roundMag_zero] at this
        linarith
    · have := roundMag_apart m n g f u2 u1 g2 g1 (by linarith)
      linarith
  refine ⟨fun h => ?_, key s t q r d e hs ht hd he⟩
  by_contra hc
  rcases (not_lt.mp hc).eq_or_lt with hq | hq
  · -- equal numbers
    obtain ⟨n1, r1, i1, f1, a1, b1, c1, d1, e1, l1, rfl⟩ := hs
    obtain ⟨n2, r2, i2, f2, a2, b2, c2, d2, e2, l2, rfl⟩ := ht
    have hle := ofMag_atMost n2 n1 _ _ (decimal_nonneg (shortly_says b2 c2 d2 e2 a2))
      (decimal_nonneg (shortly_says b1 c1 d1 e1 a1)) hq.le
    rw [← says_value a1 (shortly_says b1 c1 d1 e1 a1) hd, ← says_value a2 (shortly_says b2 c2 d2 e2 a2) he] at hle
    obtain ⟨x, y, hx, hy, hxy⟩ := h
    cases hle with
    | fin _ _ x' y' ha hb hab =>
      rw [hy] at ha; rw [hx] at hb; cases ha; cases hb; linarith
    | below _ _ => cases hy
    | above _ _ => cases hx
  · obtain ⟨x, y, hx, hy, hxy⟩ := h
    obtain ⟨x', y', hx', hy', hxy'⟩ := key t s r q e d ht hs he hd hq
    rw [hy] at hx'; rw [hx] at hy'; cases hx'; cases hy'; linarith

/-- `-0.5` is below `54.70`. -/
example (d e : F64) (hd : NumField (c! "-0.5") (some d)) (he : NumField (c! "54.70") (some e)) : F64Lt d e :=
  (C108_decimal_strict _ _ (-(1 / 2)) (547 / 10) d e
    ⟨true, c! "0.5", c! "0", c! "5", .inr (.inr ⟨rfl, rfl⟩), .inr rfl, by unfold AllDigits; decide, by unfold AllDigits; decide,
      .inl (by decide), by decide,
      by rw [show decValue (c! "0") = 0 by decide, show decValue (c! "5") = 5 by decide]; norm_num [signed]⟩
    ⟨false, c! "54.70", c! "54", c! "70", .inl ⟨rfl, rfl⟩, .inr rfl, by unfold AllDigits; decide, by unfold AllDigits; decide,
      .inl (by decide), by decide,
      by rw [show decValue (c! "54") = 54 by decide, show decValue (c! "70") = 70 by decide]; norm_num [signed]⟩ hd he).mpr
    (by norm_num)

/-- The latitude 48°07.038′ south. -/
theorem demoSouth : SaysAngle 2 'S' 11 (c! "4807.038") (c! "S") (-(48 + 7038 / 60000)) :=
  ⟨48, 7038 / 1000, ⟨c! "48", c! "07", c! "038", [], rfl, rfl, rfl, by unfold AllDigits; decide,
    by unfold AllDigits; decide, by decide, by simp, by decide,
    by norm_num [show decValue (c! "07") = 7 by decide, show decValue (c! "038") = 38 by decide]⟩,
    ⟨703800000000, by norm_num⟩, by norm_num [signed]⟩

/-- The latitude 48°07.0379′ south. -/
theorem demoSouth' : SaysAngle 2 'S' 11 (c! "4807.0379") (c! "S") (-(48 + 70379 / 600000)) :=
  ⟨48, 70379 / 10000, ⟨c! "48", c! "07", c! "0379", [], rfl, rfl, rfl, by unfold AllDigits; decide,
    by unfold AllDigits; decide, by decide, by simp, by decide,
    by norm_num [show decValue (c! "07") = 7 by decide, show decValue (c! "0379") = 379 by decide]⟩,
    ⟨703790000000, by norm_num⟩, by norm_num [signed]⟩

/-- C108: 17 digits are too many: these texts say different numbers, their doubles are the same. -/
theorem C108_too_many_digits : ∃ d, NumField (c! "10000000000000001") (some d) ∧ NumField (c! "10000000000000000") (some d) := by
  refine ⟨.fin false (10 ^ 16), ?_, ?_⟩
  · exact (C63_decimal_fields [c! "10000000000000001"] 0 _).mp (by decide +kernel)
  · exact (C63_decimal_fields [c! "10000000000000000"] 0 _).mp (by decide +kernel)

-- cases that meet the hypotheses
example : SaysShortly (c! "-00545.40") (-5454 / 10) :=
  ⟨true, c! "00545.40", c! "00545", c! "40", .inr (.inr ⟨rfl, rfl⟩), .inr rfl, by unfold AllDigits; decide, by unfold AllDigits; decide, .inl (by decide),
    by decide, by norm_num [signed, show decValue (c! "00545") = 545 by decide, show decValue (c! "40") = 40 by decide]⟩
example : Says (c! "12e2") 1200 :=
  ⟨false, c! "12e2", 1200, .inl ⟨rfl, rfl⟩, ⟨c! "12", [], c! "e2", 2, by unfold AllDigits; decide, by unfold AllDigits; decide, .inl (by decide),
    .inr ⟨'e', c! "2", false, c! "2", rfl, .inl rfl, .inl ⟨rfl, rfl⟩, by decide, by decide⟩, .inl ⟨rfl, rfl⟩,
    by norm_num [show decValue (c! "12") = 12 by decide, show decValue [] = 0 by decide]⟩, rfl⟩

/-! ### Positions of GNSS sentences -/

/-- C108: positions on the globe with up to 11 decimals of minutes are decoded without loss: an angle further north
(east) gives a greater double. -/
theorem C108_angles (k : Nat) (hk : k ≤ 3) (minus : Char) (s hs t ht : Str) (q r : Rat) (d e : F64)
    (h1 : SaysAngle k minus 11 s hs q) (h2 : SaysAngle k minus 11 t ht r) (hq : |q| ≤ 180) (hr : |r| ≤ 180)
    (hd : PosField k minus s hs (some d)) (he : PosField k minus t ht (some e)) (hlt : q < r) : F64Lt d e := by
  have err : ∀ (s hs : Str) (q : Rat) (d : F64), SaysAngle k minus 11 s hs q → |q| ≤ 180 →
      PosField k minus s hs (some d) → (∃ v, valueOf d = some v ∧ |v - q| ≤ 186 * 2 ^ (-53 : Int)) ∧
      ∃ z : Int, q = z / (60 * 10 ^ 11) := by
    rintro s hs q d ⟨deg, min, hp, ⟨n, hn⟩, rfl⟩ hq hd
    obtain ⟨v, e1, h0, e2⟩ := (C64_accuracy k hk minus s hs _ hd).2 deg min hp
    obtain ⟨-, m0, -⟩ := posText_bounds hp
    cases e1
    have hdeg : (deg : Rat) ≤ 180 := by
      have : |signed (decide (hs = [minus])) ((deg : Rat) + min / 60)| = deg + min / 60 := by
        unfold signed; split
        · rw [abs_neg, abs_of_nonneg (by positivity)]
        · rw [abs_of_nonneg (by positivity)]
      rw [this] at hq
      have : 0 ≤ min / 60 := by positivity
      linarith
    have hle : ((deg : Rat) + 6) * 2 ^ (-53 : Int) ≤ 186 * 2 ^ (-53 : Int) :=
      mul_le_mul_of_nonneg_right (by linarith) (by positivity)
    refine ⟨⟨_, rfl, ?_⟩, ?_⟩
    · unfold signed
      split
      · rw [show -v - -((deg : Rat) + min / 60) = -(v - (deg + min / 60)) by ring, abs_neg]; exact e2.trans hle
      · exact e2.trans hle
    · refine ⟨if hs = [minus] then -((deg * 60 * 10 ^ 11 + n : Nat) : Int) else ((deg * 60 * 10 ^ 11 + n : Nat) : Int), ?_⟩
      rw [hn]
      unfold signed
      by_cases hh : hs = [minus]
      · simp only [hh, decide_true, if_true]; push_cast; ring
      · simp only [hh, decide_false, Bool.false_eq_true, if_false]; push_cast; ring
  obtain ⟨⟨u, hu, hu'⟩, z, rfl⟩ := err s hs q d h1 hq hd
  obtain ⟨⟨v, hv, hv'⟩, w, rfl⟩ := err t ht r e h2 hr he
  refine ⟨u, v, hu, hv, ?_⟩
  have hzw : (z : Rat) + 1 ≤ w := by
    have : (z : Rat) < w := by
      rwa [div_lt_div_iff_of_pos_right (by norm_num)] at hlt
    have : z < w := by exact_mod_cast this
    exact_mod_cast this
  have hgap : (z : Rat) / (60 * 10 ^ 11) + 1 / (60 * 10 ^ 11) ≤ w / (60 * 10 ^ 11) := by
    rw [← add_div]; exact div_le_div_of_nonneg_right hzw (by norm_num)
  have hs : (186 : Rat) * 2 ^ (-53 : Int) < 1 / (60 * 10 ^ 11) / 2 := by norm_num
  rw [abs_le] at hu' hv'
  linarith [hu'.1, hu'.2, hv'.1, hv'.2]

/-- `4807.038` south is below `4807.0379` south. -/
example (d e : F64) (hd : PosField 2 'S' (c! "4807.038") (c! "S") (some d))
    (he : PosField 2 'S' (c! "4807.0379") (c! "S") (some e)) : F64Lt d e :=
  C108_angles 2 (by decide) 'S' _ _ _ _ _ _ d e demoSouth demoSouth' (by rw [abs_neg, abs_of_pos] <;> norm_num)
    (by rw [abs_neg, abs_of_pos] <;> norm_num) hd he (by norm_num)

/-- C108, observed on sentences: of two accepted GGA, RMC or GLL sentences the one that says the greater latitude
(longitude), with at most 11 decimals of minutes, has the greater latitude (longitude) in its report. -/
theorem C108_positions (e1 e2 : Env) (p1 p2 : Parser) (talker1 kind1 talker2 kind2 : Str) (fs1 fs2 : List Str)
    (s1 s2 : Str) (i1 i2 : Nat) (h1 : IsGnss talker1 kind1 fs1 s1) (h2 : IsGnss talker2 kind2 fs2 s2)
    (hi1 : latitudeIndex kind1 = some i1) (hi2 : latitudeIndex kind2 = some i2) (r1 r2 : ParsedSentence)
    (hr1 : (parseSentence e1 p1 s1).1 = .ok r1) (hr2 : (parseSentence e2 p2 s2).1 = .ok r2) (q1 q2 : Rat) :
    ∃ lat1 lon1 lat2 lon2, gnssPosition r1 = some (lat1, lon1) ∧ gnssPosition r2 = some (lat2, lon2) ∧
      (SaysAngle 2 'S' 11 (field fs1 i1) (field fs1 (i1 + 1)) q1 → SaysAngle 2 'S' 11 (field fs2 i2) (field fs2 (i2 + 1)) q2 →
        q1 < q2 → ∃ a b, lat1 = some a ∧ lat2 = some b ∧ F64Lt a b) ∧
      (SaysAngle 3 'W' 11 (field fs1 (i1 + 2)) (field fs1 (i1 + 3)) q1 →
        SaysAngle 3 'W' 11 (field fs2 (i2 + 2)) (field fs2 (i2 + 3)) q2 → |q1| ≤ 180 → |q2| ≤ 180 →
        q1 < q2 → ∃ a b, lon1 = some a ∧ lon2 = some b ∧ F64Lt a b) := by
  obtain ⟨lat1, lon1, g1, a1, b1⟩ := C64_positions e1 p1 talker1 kind1 fs1 s1 i1 h1 hi1 r1 hr1
  obtain ⟨lat2, lon2, g2, a2, b2⟩ := C64_positions e2 p2 talker2 kind2 fs2 s2 i2 h2 hi2 r2 hr2
  have some_of : ∀ {k : Nat} {minus : Char} {s h : Str} {q : Rat} {x : Option F64}, SaysAngle k minus 11 s h q →
      PosField k minus s h x → ∃ d, x = some d := by
    rintro k minus s h q x ⟨deg, min, hp, -⟩ (⟨rfl, -⟩ | ⟨_, _, _, _, _, rfl⟩)
    · exact absurd rfl (posText_ne_nil hp)
    · exact ⟨_, rfl⟩
  have small : ∀ {s h : Str} {q : Rat}, SaysAngle 2 'S' 11 s h q → |q| ≤ 180 := by
    rintro s h q ⟨deg, min, hp, -, rfl⟩
    obtain ⟨x1, x2, x3⟩ := posText_bounds hp
    have x1 : (deg : Rat) ≤ 99 := by exact_mod_cast (by omega : deg ≤ 99)
    unfold signed
    split
    · rw [abs_neg, abs_of_nonneg (by positivity)]; linarith
    · rw [abs_of_nonneg (by positivity)]; linarith
  refine ⟨lat1, lon1, lat2, lon2, g1, g2, fun u v h => ?_, fun u v w1 w2 h => ?_⟩
  · obtain ⟨a, rfl⟩ := some_of u a1
    obtain ⟨b, rfl⟩ := some_of v a2
    exact ⟨a, b, rfl, rfl, C108_angles 2 (by decide) 'S' _ _ _ _ q1 q2 a b u v (small u) (small v) a1 a2 h⟩
  · obtain ⟨a, rfl⟩ := some_of u b1
    obtain ⟨b, rfl⟩ := some_of v b2
    exact ⟨a, b, rfl, rfl, C108_angles 3 (by decide) 'W' _ _ _ _ q1 q2 a b u v w1 w2 b1 b2 h⟩

/-- Two GLL sentences. -/
example : ∃ r1 r2 a b x y, (parseSentence demoEnv Parser.new (c! "$GPGLL,4807.038,S,,,123519,A")).1 = .ok r1 ∧
    (parseSentence demoEnv Parser.new (c! "$GPGLL,4807.0379,S,,,123519,A")).1 = .ok r2 ∧
    gnssPosition r1 = some (some a, x) ∧ gnssPosition r2 = some (some b, y) ∧ F64Lt a b := by
  obtain ⟨lat1, lon1, lat2, lon2, h1, h2, h, -⟩ := C108_positions demoEnv demoEnv Parser.new Parser.new (c! "GP") (c! "GLL")
    (c! "GP") (c! "GLL") [c! "4807.038", c! "S", [], [], c! "123519", c! "A"]
    [c! "4807.0379", c! "S", [], [], c! "123519", c! "A"] (c! "$GPGLL,4807.038,S,,,123519,A")
    (c! "$GPGLL,4807.0379,S,,,123519,A") 0 0 (demoTagged .bare (by decide +kernel)) (demoTagged .bare (by decide +kernel)) rfl rfl
    _ _ rfl rfl (-(48 + 7038 / 60000)) (-(48 + 70379 / 600000))
  obtain ⟨a, b, rfl, rfl, hab⟩ := h demoSouth demoSouth' (by norm_num)
  exact ⟨_, _, a, b, lon1, lon2, rfl, rfl, h1, h2, hab⟩

/-- C108: whatever the number of decimals, positions with minutes below 60 are decoded in order: an angle not further
north (east) does not give a greater double. -/
theorem C108_angles_order (k : Nat) (minus : Char) (s hs t ht : Str) (deg1 deg2 : Nat) (min1 min2 : Rat)
    (d e : F64) (h1 : PosText k s deg1 min1) (h2 : PosText k t deg2 min2) (m1 : min1 < 60) (m2 : min2 < 60)
    (hd : PosField k minus s hs (some d)) (he : PosField k minus t ht (some e))
    (hle : signed (decide (hs = [minus])) (deg1 + min1 / 60) ≤ signed (decide (ht = [minus])) (deg2 + min2 / 60)) :
    AtMost d e := by
  -- the magnitude as a monotone function of degrees and minutes
  have val : ∀ (s hs : Str) (deg : Nat) (min : Rat) (d : F64), PosText k s deg min → PosField k minus s hs (some d) →
      d = .fin (decide (hs = [minus])) (F64.roundMag (deg + F64.roundMag (F64.roundMag min / 60))) := by
    rintro s hs deg min d hp (⟨rfl, -⟩ | ⟨deg', min', r, hp', ⟨a, b, ha, hb, hr⟩, e⟩)
    · exact absurd rfl (posText_ne_nil hp)
    · obtain ⟨rfl, rfl⟩ := posText_unique hp hp'
      cases e
      have pick : ∀ (q v : Rat), RoundsTo q (.fin false v) → 0 ≤ q → v = F64.roundMag q := by
        intro q v h h0
        have e := (F64.roundsTo_iff _ _).mp h
        rw [F64.ofRat_abs, abs_of_nonneg h0] at e
        rcases ofMag_cases (decide (q < 0)) q with ⟨e', -⟩ | ⟨e', -⟩ <;> rw [e'] at e
        · exact (F64.fin.inj e).2
        · cases e
      obtain ⟨-, m0, -⟩ := posText_bounds hp
      have ea := pick _ _ ha m0
      have a0 := F64.roundMag_nonneg _ m0
      rw [← ea] at a0
      have eb := pick _ _ hb (by positivity)
      have b0 : 0 ≤ b := by rw [eb]; exact F64.roundMag_nonneg _ (by positivity)
      rw [pick _ _ hr (by positivity), eb, ea]
  rw [val s hs deg1 min1 d h1 hd, val t ht deg2 min2 e h2 he]
  obtain ⟨-, p1, -⟩ := posText_bounds h1
  obtain ⟨-, p2, -⟩ := posText_bounds h2
  have mono : ∀ (dg1 dg2 : Nat) (x y : Rat), 0 ≤ x → 0 ≤ y → x < 60 → y < 60 → (dg1 : Rat) + x / 60 ≤ dg2 + y / 60 →
      F64.roundMag (dg1 + F64.roundMag (F64.roundMag x / 60)) ≤ F64.roundMag (dg2 + F64.roundMag (F64.roundMag y / 60)) := by
    intro dg1 dg2 x y x0 y0 hx hy hxy
    have r0 : ∀ z : Rat, 0 ≤ z → 0 ≤ F64.roundMag (F64.roundMag z / 60) := fun z hz =>
      F64.roundMag_nonneg _ (div_nonneg (F64.roundMag_nonneg _ hz) (by norm_num))
    have r1 : ∀ z : Rat, 0 ≤ z → z < 60 → F64.roundMag (F64.roundMag z / 60) ≤ 1 := by
      intro z hz hz'
      have a := F64.roundMag_mono z 60 hz hz'.le
      rw [F64.roundMag_exact 60 (by exact_mod_cast F64.rep_nat 60 (by norm_num))] at a
      have b := F64.roundMag_mono (F64.roundMag z / 60) 1 (div_nonneg (F64.roundMag_nonneg _ hz) (by norm_num))
        (by rw [div_le_one (by norm_num)]; exact a)
      rwa [F64.roundMag_exact 1 (by exact_mod_cast F64.rep_nat 1 (by norm_num))] at b
    apply F64.roundMag_mono _ _ (add_nonneg (by positivity) (r0 x x0))
    rcases Nat.lt_trichotomy dg1 dg2 with h | h | h
    · have : (dg1 : Rat) + 1 ≤ dg2 := by exact_mod_cast h
      linarith [r1 x x0 hx, r0 y y0]
    · subst h
      have hxy : x ≤ y := by linarith
      have := F64.roundMag_mono _ _ (div_nonneg (F64.roundMag_nonneg x x0) (by norm_num : (0 : Rat) ≤ 60))
        (div_le_div_of_nonneg_right (F64.roundMag_mono x y x0 hxy) (by norm_num : (0 : Rat) ≤ 60))
      linarith
    · exfalso
      have : (dg2 : Rat) + 1 ≤ dg1 := by exact_mod_cast h
      have : 0 ≤ x / 60 := by positivity
      have : y / 60 < 1 := by rw [div_lt_one (by norm_num)]; exact hy
      linarith
  have n1 : 0 ≤ F64.roundMag ((deg1 : Rat) + F64.roundMag (F64.roundMag min1 / 60)) :=
    F64.roundMag_nonneg _ (add_nonneg (by positivity) (F64.roundMag_nonneg _ (div_nonneg (F64.roundMag_nonneg _ p1) (by norm_num))))
  have n2 : 0 ≤ F64.roundMag ((deg2 : Rat) + F64.roundMag (F64.roundMag min2 / 60)) :=
    F64.roundMag_nonneg _ (add_nonneg (by positivity) (F64.roundMag_nonneg _ (div_nonneg (F64.roundMag_nonneg _ p2) (by norm_num))))
  have q1 : 0 ≤ (deg1 : Rat) + min1 / 60 := by positivity
  have q2 : 0 ≤ (deg2 : Rat) + min2 / 60 := by positivity
  refine .fin _ _ _ _ rfl rfl ?_
  unfold signed at hle
  by_cases c1 : hs = [minus] <;> by_cases c2 : ht = [minus] <;>
    simp only [c1, c2, decide_true, decide_false, if_true, Bool.false_eq_true, if_false] at hle ⊢
  · have := mono deg2 deg1 min2 min1 p2 p1 m2 m1 (by linarith)
    linarith
  · linarith
  · have := mono deg1 deg2 min1 min2 p1 p2 m1 m2 (by linarith)
    have h0 := mono deg2 0 min2 0 p2 le_rfl m2 (by norm_num) (by simp; linarith)
    have h1 := mono deg1 0 min1 0 p1 le_rfl m1 (by norm_num) (by simp; linarith)
    simp only [Nat.cast_zero, F64.roundMag_zero, zero_div, add_zero] at h0 h1
    linarith
  · exact mono deg1 deg2 min1 min2 p1 p2 m1 m2 hle

/-- The same two texts. -/
example (d e : F64) (hd : PosField 2 'S' (c! "4807.038") (c! "S") (some d))
    (he : PosField 2 'S' (c! "4807.0379") (c! "S") (some e)) : AtMost d e := by
  have p1 : PosText 2 (c! "4807.038") 48 (7038 / 1000) :=
    ⟨c! "48", c! "07", c! "038", [], rfl, rfl, rfl, by unfold AllDigits; decide, by unfold AllDigits; decide, by decide, by simp,
      by decide, by norm_num [show decValue (c! "07") = 7 by decide, show decValue (c! "038") = 38 by decide]⟩
  have p2 : PosText 2 (c! "4807.0379") 48 (70379 / 10000) :=
    ⟨c! "48", c! "07", c! "0379", [], rfl, rfl, rfl, by unfold AllDigits; decide, by unfold AllDigits; decide, by decide, by simp,
      by decide, by norm_num [show decValue (c! "07") = 7 by decide, show decValue (c! "0379") = 379 by decide]⟩
  exact C108_angles_order 2 'S' _ _ _ _ _ _ _ _ d e p1 p2 (by norm_num) (by norm_num) hd he (by norm_num [signed])

/-! ### Speeds and courses of AIS reports -/

/-- C108: a greater transmitted speed (course) gives a greater reported one, and the reported one determines the
transmitted integer: it is the integer next to ten times the reported value. -/
theorem C108_tenths (a b : Nat) (ha : a < 4096) (hb : b < 4096) (x y : Option F64) (hx : Tenths a x) (hy : Tenths b y) :
    ∃ d e u v, x = some d ∧ y = some e ∧ valueOf d = some u ∧ valueOf e = some v ∧ (u < v ↔ a < b) ∧
      |10 * u - a| < 1 / 2 := by
  obtain ⟨d, u, rfl, hu, eu⟩ := C56_tenths_error a ha x hx
  obtain ⟨e, v, rfl, hv, ev⟩ := C56_tenths_error b hb y hy
  have eu' := abs_le.mp eu
  have ev' := abs_le.mp ev
  have hs : (1 : Rat) / 10 ^ 12 < 1 / 1000 := by norm_num
  refine ⟨d, e, u, v, rfl, rfl, hu, hv, ⟨fun h => ?_, fun h => ?_⟩, ?_⟩
  · by_contra hc
    rcases (not_lt.mp hc).eq_or_lt with rfl | hlt
    · obtain ⟨t, ht1, ht2⟩ := hx
      obtain ⟨t', ht1', ht2'⟩ := hy
      have e1 := (F64.roundsTo_iff _ _).mp ht1
      rw [← (F64.roundsTo_iff _ _).mp ht1'] at e1
      cases e1
      obtain ⟨d1, k1, k2⟩ := ht2
      obtain ⟨d2, k3, k4⟩ := ht2'
      cases k1; cases k3
      rw [(F64.roundsTo_iff _ _).mp k2] at hu
      rw [(F64.roundsTo_iff _ _).mp k4] at hv
      rw [hu] at hv
      cases hv
      exact lt_irrefl _ h
    · have : (b : Rat) + 1 ≤ a := by exact_mod_cast hlt
      linarith [eu'.1, eu'.2, ev'.1, ev'.2]
  · have : (a : Rat) + 1 ≤ b := by exact_mod_cast h
    linarith [eu'.1, eu'.2, ev'.1, ev'.2]
  · rw [abs_lt]
    constructor <;> linarith [eu'.1, eu'.2]

/-- Speeds of 5.1 and 5.2 knots. -/
example : ∃ d e u v, Tenths 51 (some d) ∧ Tenths 52 (some e) ∧ valueOf d = some u ∧ valueOf e = some v ∧ u < v := by
  obtain ⟨d, e, u, v, hd, he, h1, h2, h, -⟩ := C108_tenths 51 52 (by decide) (by decide) _ _
    (tenths_spec 51 (by norm_num)) (tenths_spec 52 (by norm_num))
  exact ⟨d, e, u, v, hd ▸ tenths_spec 51 (by norm_num), he ▸ tenths_spec 52 (by norm_num), h1, h2, h.mpr (by decide)⟩

end Nmea
