/-
Integer fields.
-/
import Verif.Model.Util
import Verif.Spec.Sentence

namespace Nmea
open Spec

theorem digit_iff (c : Char) : ('0' ≤ c ∧ c ≤ '9') ↔ c ∈ c! "0123456789" := by
  constructor
  · rintro ⟨h1, h2⟩
    have a1 : 48 ≤ c.toNat := h1
    have a2 : c.toNat ≤ 57 := h2
    have : c = Char.ofNat c.toNat := by simp
    rw [this]
    generalize c.toNat = n at a1 a2
    have : ∀ k : Fin 10, Char.ofNat (48 + k) ∈ c! "0123456789" := by decide
    have := this ⟨n - 48, by omega⟩
    simp only [show 48 + (n - 48) = n by omega] at this
    exact this
  · intro h
    simp only [List.mem_cons, List.not_mem_nil, or_false] at h
    rcases h with rfl | rfl | rfl | rfl | rfl | rfl | rfl | rfl | rfl | rfl <;> decide

theorem decValue_foldl_le (ds : Str) (a : Nat) :
    a ≤ ds.foldl (fun a c => 10 * a + (c.toNat - '0'.toNat)) a := by
  induction ds generalizing a with
  | nil => simp
  | cons c cs ih =>
    rw [List.foldl_cons]
    refine Nat.le_trans ?_ (ih _)
    omega

theorem accDigits_iff (max : Nat) (ds : Str) (a n : Nat) (ha : a ≤ max) :
    accDigits max a ds = some n ↔
      (∀ c ∈ ds, c ∈ c! "0123456789") ∧ ds.foldl (fun a c => 10 * a + (c.toNat - '0'.toNat)) a = n ∧
        n ≤ max := by
  induction ds generalizing a with
  | nil =>
    simp only [accDigits, List.foldl_nil, List.not_mem_nil, false_imp_iff, implies_true, true_and]
    constructor
    · intro h; cases h; exact ⟨rfl, ha⟩
    · rintro ⟨rfl, -⟩; rfl
  | cons c cs ih =>
    simp only [accDigits, List.foldl_cons]
    by_cases hc : '0' ≤ c ∧ c ≤ '9'
    · rw [if_pos hc]
      have hcm := (digit_iff c).mp hc
      have e : a * 10 + (c.toNat - 48) = 10 * a + (c.toNat - '0'.toNat) := by
        rw [Nat.mul_comm]; rfl
      rw [e]
      by_cases hm : 10 * a + (c.toNat - '0'.toNat) ≤ max
      · rw [if_pos hm, ih _ hm]
        constructor
        · rintro ⟨h1, h2, h3⟩
          exact ⟨fun x hx => by
            rcases List.mem_cons.mp hx with rfl | hx
            · exact hcm
            · exact h1 x hx, h2, h3⟩
        · rintro ⟨h1, h2, h3⟩
          exact ⟨fun x hx => h1 x (List.mem_cons_of_mem _ hx), h2, h3⟩
      · rw [if_neg hm]
        constructor
        · intro h; cases h
        · rintro ⟨-, h2, h3⟩
          have := decValue_foldl_le cs (10 * a + (c.toNat - '0'.toNat))
          rw [h2] at this
          omega
    · rw [if_neg hc]
      constructor
      · intro h; cases h
      · rintro ⟨h1, -⟩
        exact absurd ((digit_iff c).mpr (h1 c (by simp))) hc

theorem plus_not_digit : '+' ∉ c! "0123456789" := by decide

/-- `parse::<uN>` accepts exactly the decimal texts in range. -/
theorem parseUInt_iff (max : Nat) (s : Str) (n : Nat) : parseUInt max s = some n ↔ Dec max s n := by
  have key : ∀ ds : Str, accDigits max 0 ds = some n ↔
      (∀ c ∈ ds, c ∈ c! "0123456789") ∧ decValue ds = n ∧ n ≤ max :=
    fun ds => accDigits_iff max ds 0 n (Nat.zero_le _)
  unfold parseUInt
  split
  · constructor
    · intro h; cases h
    · rintro ⟨ds, (h | h), ⟨hd, -⟩, -⟩
      · exact absurd h.symm hd
      · cases h
  · constructor
    · intro h; cases h
    · rintro ⟨ds, (h | h), ⟨hd, hd2⟩, -⟩
      · subst h; exact absurd (hd2 '+' (by simp)) plus_not_digit
      · simp at h; exact absurd h hd
  · rename_i r hr
    rw [key]
    constructor
    · rintro ⟨h1, h2, h3⟩
      exact ⟨r, .inr rfl, ⟨hr, h1⟩, h2, h3⟩
    · rintro ⟨ds, (h | h), ⟨hd, hd2⟩, h2, h3⟩
      · subst h; exact absurd (hd2 '+' (by simp)) plus_not_digit
      · simp at h; subst h; exact ⟨hd2, h2, h3⟩
  · rename_i h1 h2 h3
    rw [key]
    constructor
    · rintro ⟨a, b, c⟩
      exact ⟨s, .inl rfl, ⟨h1, a⟩, b, c⟩
    · rintro ⟨ds, (h | h), ⟨hd, hd2⟩, b, c⟩
      · subst h; exact ⟨hd2, b, c⟩
      · exact absurd h (h3 ds)

theorem parseUInt_none_iff (max : Nat) (s : Str) : parseUInt max s = none ↔ ∀ n, ¬ Dec max s n := by
  constructor
  · intro h n hn
    rw [(parseUInt_iff max s n).mpr hn] at h
    cases h
  · intro h
    cases hp : parseUInt max s with
    | none => rfl
    | some n => exact absurd ((parseUInt_iff max s n).mp hp) (h n)

theorem Spec.Dec.unique {max s n m} (h : Dec max s n) (h' : Dec max s m) : n = m := by
  have := (parseUInt_iff max s n).mpr h
  rw [(parseUInt_iff max s m).mpr h'] at this
  cases this; rfl

theorem parseU8_iff (s : Str) (n : Nat) : parseU8 s = some n ↔ Dec 255 s n := parseUInt_iff 255 s n
theorem parseU16_iff (s : Str) (n : Nat) : parseU16 s = some n ↔ Dec 65535 s n := parseUInt_iff 65535 s n
theorem parseU32_iff (s : Str) (n : Nat) : parseU32 s = some n ↔ Dec (2 ^ 32 - 1) s n :=
  parseUInt_iff _ s n
theorem parseU64_iff (s : Str) (n : Nat) : parseU64 s = some n ↔ Dec (2 ^ 64 - 1) s n :=
  parseUInt_iff _ s n

theorem fieldAt_cons_succ (t : Str) (fs : List Str) (i : Nat) : fieldAt (t :: fs) (i + 1) = field fs i := by
  simp [fieldAt, field, List.getD]

theorem fieldAt_zero (t : Str) (fs : List Str) : fieldAt (t :: fs) 0 = t := rfl

end Nmea
