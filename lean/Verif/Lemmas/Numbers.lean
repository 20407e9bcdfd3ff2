/-
Number texts.
-/
import Verif.Lemmas.Ints
import Verif.Lemmas.Float
import Verif.Spec.Numbers
import Mathlib.Tactic.Ring
import Mathlib.Tactic.FieldSimp

namespace Nmea
open Spec

theorem digitsVal_eq (s : Str) : F64.digitsVal s = decValue s := by
  unfold F64.digitsVal decValue
  congr 1
  funext a c
  rw [Nat.mul_comm]
  rfl

theorem decValue_foldl (s : Str) (a : Nat) :
    s.foldl (fun a c => 10 * a + (c.toNat - '0'.toNat)) a = a * 10 ^ s.length + decValue s := by
  unfold decValue
  induction s generalizing a with
  | nil => simp
  | cons c s ih =>
    simp only [List.foldl_cons, List.length_cons]
    rw [ih, ih (10 * 0 + _)]
    ring

theorem decValue_append (s t : Str) : decValue (s ++ t) = decValue s * 10 ^ t.length + decValue t := by
  conv => lhs; unfold decValue
  rw [List.foldl_append, decValue_foldl]
  rfl

theorem spanDigits_append (a b : Str) (ha : AllDigits a) (hb : ∀ c t, b = c :: t → c ∉ c! "0123456789") :
    F64.spanDigits (a ++ b) = (a, b) := by
  induction a with
  | nil =>
    cases b with
    | nil => rfl
    | cons c t =>
      rw [List.nil_append, F64.spanDigits, if_neg (fun h => hb c t rfl ((digit_iff c).mp h))]
  | cons c a ih =>
    rw [List.cons_append, F64.spanDigits, if_pos ((digit_iff c).mpr (ha c (by simp))),
      ih (fun x hx => ha x (by simp [hx]))]

theorem spanDigits_spec (s : Str) : s = (F64.spanDigits s).1 ++ (F64.spanDigits s).2 ∧
    AllDigits (F64.spanDigits s).1 ∧ (∀ c t, (F64.spanDigits s).2 = c :: t → c ∉ c! "0123456789") := by
  induction s with
  | nil =>
    refine ⟨rfl, ?_, ?_⟩
    · intro c hc; cases hc
    · intro c t h; cases h
  | cons c s ih =>
    rw [F64.spanDigits]
    split
    · rename_i h
      refine ⟨by simp only [List.cons_append]; exact congrArg _ ih.1, ?_, ih.2.2⟩
      intro x hx
      rcases List.mem_cons.mp hx with rfl | hx
      · exact (digit_iff _).mp h
      · exact ih.2.1 x hx
    · rename_i h
      refine ⟨rfl, ?_, ?_⟩
      · intro c hc; cases hc
      · intro x t hx
        cases hx
        exact fun h' => h ((digit_iff _).mpr h')

theorem pow10_eq (e : Int) : F64.pow10 e = (10 : Rat) ^ e := by
  unfold F64.pow10
  split
  · rename_i h
    obtain ⟨n, rfl⟩ := Int.eq_ofNat_of_zero_le h
    simp
  · rename_i h
    obtain ⟨n, hn⟩ := Int.eq_ofNat_of_zero_le (show 0 ≤ -e by omega)
    rw [show e = -(n : Int) by omega]
    simp
    rw [show mkRat 1 (10 ^ n) = mkRat ((1 : Nat) : Int) (10 ^ n) from rfl, F64.mkRat_cast]
    push_cast
    rw [one_div]

/-- The three forms of a text with an optional sign. -/
theorem signed_cases (s : Str) : (∃ r, s = '+' :: r) ∨ (∃ r, s = '-' :: r) ∨
    ((∀ r, s ≠ '+' :: r) ∧ (∀ r, s ≠ '-' :: r)) := by
  cases s with
  | nil => exact .inr (.inr ⟨fun r h => (by cases h), fun r h => (by cases h)⟩)
  | cons c r =>
    by_cases h1 : c = '+'
    · subst h1; exact .inl ⟨r, rfl⟩
    · by_cases h2 : c = '-'
      · subst h2; exact .inr (.inl ⟨r, rfl⟩)
      · exact .inr (.inr ⟨fun r h => h1 (List.cons.inj h).1, fun r h => h2 (List.cons.inj h).1⟩)

theorem digits_not_sign {c : Char} (h : c ∈ c! "0123456789") : c ≠ '+' ∧ c ≠ '-' ∧ c ≠ '.' ∧ c ≠ 'e' ∧ c ≠ 'E' := by
  simp only [List.mem_cons, List.not_mem_nil, or_false] at h
  rcases h with rfl | rfl | rfl | rfl | rfl | rfl | rfl | rfl | rfl | rfl <;> decide

theorem parseExp_iff (s : Str) (e : Int) : F64.parseExp s = some e ↔ Exponent s e := by
  unfold Exponent
  cases s with
  | nil => simp [F64.parseExp, eq_comm]
  | cons c t =>
    have key : ∀ (sgn : Int) (ds : Str), (if (F64.spanDigits ds).1 ≠ [] ∧ (F64.spanDigits ds).2 = [] then
        some (sgn * (F64.digitsVal (F64.spanDigits ds).1 : Int)) else none) = some e ↔
        Digits ds ∧ e = sgn * decValue ds := by
      intro sgn ds
      obtain ⟨h1, h2, h3⟩ := spanDigits_spec ds
      constructor
      · intro h
        split at h
        · rename_i hc
          rw [hc.2, List.append_nil] at h1
          rw [← h1] at hc h2 h
          rw [digitsVal_eq] at h
          exact ⟨⟨hc.1, h2⟩, (Option.some.inj h).symm⟩
        · cases h
      · rintro ⟨⟨hd1, hd2⟩, rfl⟩
        have := spanDigits_append ds [] hd2 (fun c t h => by cases h)
        rw [List.append_nil] at this
        rw [this]
        simp only [ne_eq, hd1, not_false_eq_true, and_self, if_true, digitsVal_eq]
    simp only [F64.parseExp]
    by_cases hc : c = 'e' ∨ c = 'E'
    · rw [if_pos hc]
      constructor
      · intro h
        refine .inr ⟨c, t, ?_⟩
        rcases signed_cases t with ⟨r, rfl⟩ | ⟨r, rfl⟩ | ⟨hp, hm⟩
        · obtain ⟨h1, h2⟩ := (key 1 r).mp h
          exact ⟨false, r, rfl, hc, .inr (.inl ⟨rfl, rfl⟩), h1, by simpa using h2⟩
        · obtain ⟨h1, h2⟩ := (key (-1) r).mp h
          exact ⟨true, r, rfl, hc, .inr (.inr ⟨rfl, rfl⟩), h1, by simpa using h2⟩
        · split at h
          · exact absurd rfl (hp _)
          · exact absurd rfl (hm _)
          · obtain ⟨h1, h2⟩ := (key 1 t).mp h
            exact ⟨false, t, rfl, hc, .inl ⟨rfl, rfl⟩, h1, by simpa using h2⟩
      · rintro (⟨h, -⟩ | ⟨c', t', neg, ds, h1, h2, h3, h4, h5⟩)
        · cases h
        · cases h1
          rcases h3 with ⟨rfl, rfl⟩ | ⟨rfl, rfl⟩ | ⟨rfl, rfl⟩
          · have hp : (∀ r, t ≠ '+' :: r) ∧ (∀ r, t ≠ '-' :: r) := by
              constructor <;> rintro r rfl
              · exact (digits_not_sign (h4.2 '+' (by simp))).1 rfl
              · exact (digits_not_sign (h4.2 '-' (by simp))).2.1 rfl
            split
            · exact absurd rfl (hp.1 _)
            · exact absurd rfl (hp.2 _)
            · exact (key 1 t).mpr ⟨h4, by simpa using h5⟩
          · exact (key 1 ds).mpr ⟨h4, by simpa using h5⟩
          · exact (key (-1) ds).mpr ⟨h4, by simpa using h5⟩
    · rw [if_neg hc]
      simp only [reduceCtorEq, false_iff, not_or, not_exists, not_and, false_and, not_false_eq_true, true_and]
      intro c' t' neg ds h1 h2
      cases h1
      exact absurd h2 hc

theorem exponent_head {s : Str} {e : Int} (h : Exponent s e) : ∀ c t, s = c :: t → c ∉ c! "0123456789" ∧ c ≠ '.' := by
  rintro c t rfl
  rcases h with ⟨h, -⟩ | ⟨c', t', _, _, h1, h2, -⟩
  · cases h
  · cases h1
    rcases h2 with rfl | rfl <;> decide

theorem mag_value (ip fp : Str) (e : Int) :
    ((decValue (ip ++ fp) : Nat) : Rat) * F64.pow10 (e - (fp.length : Int)) =
      (decValue ip + decValue fp / 10 ^ fp.length) * (10 : Rat) ^ e := by
  rw [pow10_eq, zpow_sub₀ (by norm_num), decValue_append]
  push_cast
  have : ((10 : Rat) ^ (fp.length : Int)) = 10 ^ fp.length := by simp
  rw [this]
  field_simp

theorem parseMag_iff (s : Str) (q : Rat) : F64.parseMag s = some q ↔ Decimal s q := by
  constructor
  · intro h
    obtain ⟨h1, h2, h3⟩ := spanDigits_spec s
    simp only [F64.parseMag] at h
    generalize F64.spanDigits s = ir at h h1 h2 h3
    obtain ⟨i, r⟩ := ir
    simp only at h h1 h2 h3
    by_cases hr : ∃ t, r = '.' :: t
    · obtain ⟨t, rfl⟩ := hr
      simp only [F64.fracPart] at h
      obtain ⟨k1, k2, k3⟩ := spanDigits_spec t
      generalize F64.spanDigits t = fr at h k1 k2 k3
      obtain ⟨f, r2⟩ := fr
      simp only at h k1 k2 k3
      split at h
      · cases h
      · rename_i hne
        cases hx : F64.parseExp r2 with
        | none => rw [hx] at h; cases h
        | some e =>
          rw [hx] at h
          simp only [digitsVal_eq, mag_value, Option.some.injEq] at h
          refine ⟨i, f, r2, e, h2, k2, ?_, (parseExp_iff _ _).mp hx, .inr ?_, h.symm⟩
          · by_contra hc
            simp only [not_or, not_not] at hc
            exact hne hc
          · rw [h1, k1]; simp
    · have hm : F64.fracPart r = ([], r) := by
        unfold F64.fracPart
        split
        · exact absurd ⟨_, rfl⟩ hr
        · rfl
      rw [hm] at h
      simp only at h
      split at h
      · cases h
      · rename_i hne
        cases hx : F64.parseExp r with
        | none => rw [hx] at h; cases h
        | some e =>
          rw [hx] at h
          simp only [digitsVal_eq, mag_value, Option.some.injEq] at h
          refine ⟨i, [], r, e, h2, (by intro c hc; cases hc), ?_, (parseExp_iff _ _).mp hx, .inl ⟨h1, rfl⟩, h.symm⟩
          by_contra hc
          simp only [not_or, not_not] at hc
          exact hne hc
  · rintro ⟨ip, fp, ex, e, h1, h2, h3, h4, h5, rfl⟩
    have hex := exponent_head h4
    have he := (parseExp_iff _ _).mpr h4
    rcases h5 with ⟨rfl, rfl⟩ | rfl
    · have hs := spanDigits_append ip ex h1 (fun c t h => (hex c t h).1)
      simp only [F64.parseMag, hs]
      have hm : F64.fracPart ex = ([], ex) := by
        unfold F64.fracPart
        split
        · rename_i t
          exact absurd rfl (hex '.' t rfl).2
        · rfl
      rw [hm]
      simp only
      rw [if_neg (by simpa using h3), he]
      simp only [digitsVal_eq, mag_value]
    · have hs := spanDigits_append ip ('.' :: fp ++ ex) h1 (fun c t h => by cases h; decide)
      have hs2 := spanDigits_append fp ex h2 (fun c t h => (hex c t h).1)
      have e0 : ip ++ '.' :: fp ++ ex = ip ++ ('.' :: fp ++ ex) := by simp
      simp only [F64.parseMag, e0, hs]
      simp only [F64.fracPart, List.cons_append, hs2]
      rw [if_neg (fun hc => by rcases h3 with h | h; exacts [h hc.1, h hc.2]), he]
      simp only [digitsVal_eq, mag_value]

theorem lowerC_table : ∀ n < 91, F64.lowerC (Char.ofNat n) = (Char.ofNat n).toLower := by decide +kernel

theorem lowerC_eq (c : Char) : F64.lowerC c = c.toLower := by
  by_cases h : c.toNat < 91
  · have := lowerC_table c.toNat h
    rwa [Char.ofNat_toNat] at this
  · unfold F64.lowerC Char.toLower
    rw [if_neg, dif_neg]
    · intro h'
      have h2 := UInt32.le_iff_toNat_le.mp h'.2
      exact h (Nat.lt_succ_of_le h2)
    · intro h'
      have h2 := UInt32.le_iff_toNat_le.mp h'.2
      exact h (Nat.lt_succ_of_le h2)

theorem decimal_nonneg {s : Str} {q : Rat} (h : Decimal s q) : 0 ≤ q := by
  obtain ⟨ip, fp, ex, e, -, -, -, -, -, rfl⟩ := h
  positivity

theorem ofMag_signed (neg : Bool) (q : Rat) (h : 0 ≤ q) : F64.ofMag neg q = signedF64 neg (F64.ofRat q) := by
  rw [F64.ofRat, if_neg (not_lt.mpr h)]
  unfold F64.ofMag
  simp only
  split <;> cases neg <;> rfl

theorem decimal_head {s : Str} {q : Rat} (h : Decimal s q) : ∃ c t, s = c :: t ∧ (c = '.' ∨ c ∈ c! "0123456789") := by
  obtain ⟨ip, fp, ex, e, h1, h2, h3, h4, h5, -⟩ := h
  cases ip with
  | cons c ip =>
    rcases h5 with ⟨rfl, -⟩ | rfl
    · exact ⟨c, _, rfl, .inr (h1 c (by simp))⟩
    · exact ⟨c, _, rfl, .inr (h1 c (by simp))⟩
  | nil =>
    rcases h5 with ⟨-, rfl⟩ | rfl
    · simp at h3
    · exact ⟨'.', _, rfl, .inl rfl⟩

theorem parseUnsigned_iff (neg : Bool) (s : Str) (d : F64) : F64.parseUnsigned neg s = some d ↔
    (∃ q d', Decimal s q ∧ RoundsTo q d' ∧ d = signedF64 neg d') ∨
    ((s.map Char.toLower = c! "inf" ∨ s.map Char.toLower = c! "infinity") ∧ d = .inf neg) ∨
    (s.map Char.toLower = c! "nan" ∧ d = .nan) := by
  have hl : s.map F64.lowerC = s.map Char.toLower := by
    congr 1; funext c; exact lowerC_eq c
  have hdec : ∀ q, Decimal s q → s.map Char.toLower ≠ c! "inf" ∧ s.map Char.toLower ≠ c! "infinity" ∧
      s.map Char.toLower ≠ c! "nan" := by
    intro q hq
    obtain ⟨c, t, rfl, hc⟩ := decimal_head hq
    have : c.toLower ≠ 'i' ∧ c.toLower ≠ 'n' := by
      rcases hc with rfl | hc
      · decide
      · simp only [List.mem_cons, List.not_mem_nil, or_false] at hc
        rcases hc with rfl | rfl | rfl | rfl | rfl | rfl | rfl | rfl | rfl | rfl <;> decide
    refine ⟨?_, ?_, ?_⟩ <;> intro h <;> have := (List.cons.inj h).1 <;> simp_all
  simp only [F64.parseUnsigned, hl]
  constructor
  · intro h
    split at h
    · rename_i hi
      exact .inr (.inl ⟨hi, (Option.some.inj h).symm⟩)
    · split at h
      · rename_i hn
        exact .inr (.inr ⟨hn, (Option.some.inj h).symm⟩)
      · obtain ⟨q, hq, rfl⟩ := Option.map_eq_some_iff.mp h
        have hq := (parseMag_iff _ _).mp hq
        exact .inl ⟨q, _, hq, F64.ofRat_roundsTo q, ofMag_signed _ _ (decimal_nonneg hq)⟩
  · rintro (⟨q, d', hq, hr, rfl⟩ | ⟨hi, rfl⟩ | ⟨hn, rfl⟩)
    · obtain ⟨n1, n2, n3⟩ := hdec q hq
      rw [if_neg (by rintro (h | h); exacts [n1 h, n2 h]), if_neg n3, (parseMag_iff _ _).mpr hq]
      rw [(F64.roundsTo_iff q d').mp hr, ← ofMag_signed _ _ (decimal_nonneg hq)]
      rfl
    · rw [if_pos hi]
    · rw [if_neg (by rw [hn]; decide), if_pos hn]

theorem numberText_split (s : Str) (d : F64) : NumberText s d ↔ ∃ neg r, Signed s neg r ∧
    ((∃ q d', Decimal r q ∧ RoundsTo q d' ∧ d = signedF64 neg d') ∨
    ((r.map Char.toLower = c! "inf" ∨ r.map Char.toLower = c! "infinity") ∧ d = .inf neg) ∨
    (r.map Char.toLower = c! "nan" ∧ d = .nan)) := by
  constructor
  · rintro (⟨neg, r, q, d', h, hd, hr⟩ | ⟨neg, r, h, hi⟩ | ⟨neg, r, h, hn⟩)
    · exact ⟨neg, r, h, .inl ⟨q, d', hd, hr, rfl⟩⟩
    · exact ⟨neg, r, h, .inr (.inl ⟨hi, rfl⟩)⟩
    · exact ⟨neg, r, h, .inr (.inr ⟨hn, rfl⟩)⟩
  · rintro ⟨neg, r, h, ⟨q, d', hd, hr, rfl⟩ | ⟨hi, rfl⟩ | ⟨hn, rfl⟩⟩
    · exact .decimal neg r q d' h hd hr
    · exact .infinite neg r h hi
    · exact .nan neg r h hn

theorem f64_parse_iff (s : Str) (d : F64) : F64.parse s = some d ↔ NumberText s d := by
  rw [numberText_split]
  simp only [← parseUnsigned_iff]
  have nosign : ∀ (c : Char) (t : Str) (neg : Bool) (d : F64), c = '+' ∨ c = '-' → F64.parseUnsigned neg (c :: t) ≠ some d := by
    intro c t neg d hc h
    rw [parseUnsigned_iff] at h
    rcases h with ⟨q, d', hq, -⟩ | ⟨h | h, -⟩ | ⟨h, -⟩
    · obtain ⟨c', t', e, hc'⟩ := decimal_head hq
      cases e
      rcases hc with rfl | rfl <;> revert hc' <;> decide
    all_goals
      have := (List.cons.inj h).1
      rcases hc with rfl | rfl <;> revert this <;> decide
  rcases signed_cases s with ⟨r, rfl⟩ | ⟨r, rfl⟩ | ⟨hp, hm⟩
  · constructor
    · intro h; exact ⟨false, r, .inr (.inl ⟨rfl, rfl⟩), h⟩
    · rintro ⟨neg, r', ⟨h, rfl⟩ | ⟨h, rfl⟩ | ⟨h, rfl⟩, h'⟩
      · subst h; exact absurd h' (nosign _ _ _ _ (.inl rfl))
      · cases h; exact h'
      · cases h
  · constructor
    · intro h; exact ⟨true, r, .inr (.inr ⟨rfl, rfl⟩), h⟩
    · rintro ⟨neg, r', ⟨h, rfl⟩ | ⟨h, rfl⟩ | ⟨h, rfl⟩, h'⟩
      · subst h; exact absurd h' (nosign _ _ _ _ (.inr rfl))
      · cases h
      · cases h; exact h'
  · have e : F64.parse s = F64.parseUnsigned false s := by
      unfold F64.parse
      split
      · exact absurd rfl (hp _)
      · exact absurd rfl (hm _)
      · rfl
    rw [e]
    constructor
    · intro h; exact ⟨false, s, .inl ⟨rfl, rfl⟩, h⟩
    · rintro ⟨neg, r', ⟨rfl, rfl⟩ | ⟨h, rfl⟩ | ⟨h, rfl⟩, h'⟩
      · exact h'
      · exact absurd h (hp _)
      · exact absurd h (hm _)

end Nmea
