/-
The date check of the model is the calendar.
-/
import Verif.Spec.Calendar

namespace Nmea
open Spec

theorem isLeap_iff (y : Int) : isLeap y = true ↔ Leap y := by
  simp only [isLeap, Leap, decide_eq_true_eq]
  constructor
  · rintro ⟨h1, h2⟩; exact ⟨h1, by omega⟩
  · rintro ⟨h1, h2⟩; exact ⟨h1, by omega⟩

theorem daysInMonth_eq (y : Int) (m : Nat) (h : 1 ≤ m ∧ m ≤ 12) : daysInMonth y m = (monthDays y).getD (m - 1) 0 := by
  have hl := isLeap_iff y
  have e : (if isLeap y then 29 else 28 : Nat) = if Leap y then 29 else 28 := by
    by_cases h : Leap y
    · rw [if_pos h, if_pos (hl.mpr h)]
    · rw [if_neg h, if_neg (fun hh => h (hl.mp hh))]
  obtain ⟨h1, h2⟩ := h
  rcases (by omega : m = 1 ∨ m = 2 ∨ m = 3 ∨ m = 4 ∨ m = 5 ∨ m = 6 ∨ m = 7 ∨ m = 8 ∨ m = 9 ∨ m = 10 ∨ m = 11 ∨ m = 12) with
    rfl | rfl | rfl | rfl | rfl | rfl | rfl | rfl | rfl | rfl | rfl | rfl <;>
    simp [daysInMonth, monthDays, e]

theorem daysInMonth_bad (y : Int) (m : Nat) (h : ¬ (1 ≤ m ∧ m ≤ 12)) : daysInMonth y m = 0 := by
  unfold daysInMonth
  split <;> first | omega | rfl

theorem dateOk_iff (y : Int) (m d : Nat) : dateOk y m d = true ↔ SupportedYear y ∧ IsDate y m d := by
  simp only [dateOk, decide_eq_true_eq, SupportedYear, IsDate]
  by_cases h : 1 ≤ m ∧ m ≤ 12
  · rw [daysInMonth_eq y m h]
    exact ⟨fun ⟨a, b, c, d⟩ => ⟨⟨a, b⟩, h.1, h.2, c, d⟩, fun ⟨⟨a, b⟩, _, _, c, d⟩ => ⟨a, b, c, d⟩⟩
  · rw [daysInMonth_bad y m h]
    exact ⟨fun ⟨_, _, c, d⟩ => by omega, fun ⟨_, a, b, _⟩ => absurd ⟨a, b⟩ h⟩

theorem timeOk_iff (h m s : Nat) : timeOk h m s = true ↔ IsTime h m s := by
  simp only [timeOk, decide_eq_true_eq, IsTime]
  omega

theorem ymdHms_ok {ε : Type} (y : Int) (mo d h mi s : Nat) (hd : IsDateTime ⟨y, mo, d, h, mi, s⟩) :
    ymdHms (ε := ε) y mo d h mi s = .ok ⟨y, mo, d, h, mi, s⟩ := by
  obtain ⟨h1, h2, h3⟩ := hd
  unfold ymdHms
  rw [if_pos ((dateOk_iff _ _ _).mpr ⟨h1, h2⟩), if_pos ((timeOk_iff _ _ _).mpr h3)]

theorem ymdHms_panic {ε : Type} (y : Int) (mo d h mi s : Nat) (hd : ¬ IsDateTime ⟨y, mo, d, h, mi, s⟩) :
    ymdHms (ε := ε) y mo d h mi s = .panic := by
  unfold ymdHms
  split
  · rename_i h1
    split
    · rename_i h2
      obtain ⟨a, b⟩ := (dateOk_iff _ _ _).mp h1
      exact absurd ⟨a, b, (timeOk_iff _ _ _).mp h2⟩ hd
    · rfl
  · rfl

theorem ymdHms_eq_ok {ε : Type} (y : Int) (mo d h mi s : Nat) (t : DateTime)
    (ht : ymdHms (ε := ε) y mo d h mi s = .ok t) : t = ⟨y, mo, d, h, mi, s⟩ ∧ IsDateTime t := by
  by_cases hd : IsDateTime ⟨y, mo, d, h, mi, s⟩
  · rw [ymdHms_ok _ _ _ _ _ _ hd] at ht
    cases ht
    exact ⟨rfl, hd⟩
  · rw [ymdHms_panic _ _ _ _ _ _ hd] at ht
    cases ht

end Nmea
