/-
The order of moments.
-/
import Verif.Spec.Instant
import Mathlib.Tactic.Linarith

namespace Nmea
open Spec

/-- A year has 365 days, a leap year 366. -/
theorem dayNumber_year (y : Int) : dayNumber (y + 1) 1 1 = dayNumber y 1 1 + (monthDays y).sum := by
  have e : ((monthDays y).sum : Int) = if Leap y then 366 else 365 := by
    unfold monthDays; split <;> decide
  rw [e]
  simp only [dayNumber, Nat.sub_self, List.take_zero, List.sum_nil]
  by_cases h : Leap y
  · rw [if_pos h]
    unfold Leap at h
    push_cast
    omega
  · rw [if_neg h]
    unfold Leap at h
    push_cast
    omega

theorem dayNumber_years (y : Int) (n : Nat) : dayNumber y 1 1 + n ≤ dayNumber (y + n) 1 1 := by
  induction n with
  | zero => simp
  | succ n ih =>
    have := dayNumber_year (y + n)
    have e : 1 ≤ ((monthDays (y + n)).sum : Int) := by
      unfold monthDays; split <;> decide
    have e2 : y + ((n + 1 : Nat) : Int) = y + n + 1 := by push_cast; omega
    rw [e2, this]
    push_cast
    linarith

/-- A day lies within its year. -/
theorem dayNumber_in_year (y : Int) (m d : Nat) (h : IsDate y m d) :
    dayNumber y 1 1 ≤ dayNumber y m d ∧ dayNumber y m d < dayNumber (y + 1) 1 1 := by
  rw [dayNumber_year]
  obtain ⟨h1, h2, h3, h4⟩ := h
  have key : ((monthDays y).take (m - 1)).sum + d ≤ (monthDays y).sum := by
    have : ((monthDays y).take (m - 1)).sum + (monthDays y).getD (m - 1) 0 ≤ (monthDays y).sum := by
      generalize hl : monthDays y = l
      generalize m - 1 = k
      clear * -
      induction l generalizing k with
      | nil => simp
      | cons a l ih =>
        cases k with
        | zero => simp
        | succ k => have := ih k; simp at this ⊢; omega
    omega
  simp only [dayNumber, Nat.sub_self, List.take_zero, List.sum_nil]
  omega

/-- Within a year the days are numbered in order. -/
theorem dayNumber_month (y : Int) (m d m' d' : Nat) (h : IsDate y m d) (h' : IsDate y m' d') (hlt : m < m') :
    dayNumber y m d < dayNumber y m' d' := by
  obtain ⟨h1, h2, h3, h4⟩ := h
  obtain ⟨h1', h2', h3', h4'⟩ := h'
  have key : ((monthDays y).take (m - 1)).sum + (monthDays y).getD (m - 1) 0 ≤ ((monthDays y).take (m' - 1)).sum := by
    obtain ⟨k, rfl⟩ : ∃ k, m = k + 1 := ⟨m - 1, by omega⟩
    obtain ⟨k', rfl⟩ : ∃ k', m' = k' + 1 := ⟨m' - 1, by omega⟩
    simp only [Nat.add_sub_cancel]
    have hk : k < k' := by omega
    generalize monthDays y = l
    clear * - hk
    induction l generalizing k k' with
    | nil => simp
    | cons a l ih =>
      obtain ⟨j, rfl⟩ : ∃ j, k' = j + 1 := ⟨k' - 1, by omega⟩
      cases k with
      | zero => simp
      | succ k => have := ih k j (by omega); simp at this ⊢; omega
  simp only [dayNumber]
  omega

/-- Calendar days in order. -/
def DayBefore (y : Int) (m d : Nat) (y' : Int) (m' d' : Nat) : Prop := y < y' ∨ y = y' ∧ (m < m' ∨ m = m' ∧ d < d')

theorem dayNumber_lt {y y' : Int} {m d m' d' : Nat} (h : IsDate y m d) (h' : IsDate y' m' d')
    (hb : DayBefore y m d y' m' d') : dayNumber y m d < dayNumber y' m' d' := by
  rcases hb with hy | ⟨rfl, hm | ⟨rfl, hd⟩⟩
  · have h1 := (dayNumber_in_year y m d h).2
    have h2 := (dayNumber_in_year y' m' d' h').1
    obtain ⟨n, rfl⟩ : ∃ n : Nat, y' = y + 1 + n := ⟨(y' - y - 1).toNat, by omega⟩
    have h3 := dayNumber_years (y + 1) n
    omega
  · exact dayNumber_month y m d m' d' h h' hm
  · simp only [dayNumber]; omega

theorem dayNumber_inj {y y' : Int} {m d m' d' : Nat} (h : IsDate y m d) (h' : IsDate y' m' d')
    (he : dayNumber y m d = dayNumber y' m' d') : y = y' ∧ m = m' ∧ d = d' := by
  by_contra hn
  have : DayBefore y m d y' m' d' ∨ DayBefore y' m' d' y m d := by unfold DayBefore; omega
  rcases this with hb | hb
  · have := dayNumber_lt h h' hb; omega
  · have := dayNumber_lt h' h hb; omega

/-- Moments that are the same are the same date and time. -/
theorem instant_inj {a b : DateTime} (ha : IsDateTime a) (hb : IsDateTime b) (h : instant a = instant b) : a = b := by
  obtain ⟨-, da, t1, t2, t3⟩ := ha
  obtain ⟨-, db, u1, u2, u3⟩ := hb
  simp only [instant] at h
  obtain ⟨e1, e2, e3⟩ := dayNumber_inj da db (by omega)
  rw [e1, e2, e3] at h
  cases a; cases b
  simp only [DateTime.mk.injEq] at *
  omega

end Nmea
