/-
Specification of the Gregorian calendar.
-/
import Verif.Model.Chrono

namespace Nmea.Spec

/-- Every fourth year is a leap year, except centuries not divisible by 400. -/
def Leap (y : Int) : Prop := y % 4 = 0 ∧ ¬ (y % 100 = 0 ∧ y % 400 ≠ 0)

instance (y : Int) : Decidable (Leap y) := by unfold Leap; infer_instance

/-- Lengths of the months of a year. -/
def monthDays (y : Int) : List Nat := [31, if Leap y then 29 else 28, 31, 30, 31, 30, 31, 31, 30, 31, 30, 31]

/-- `y`-`m`-`d` is a calendar date. -/
def IsDate (y : Int) (m d : Nat) : Prop := 1 ≤ m ∧ m ≤ 12 ∧ 1 ≤ d ∧ d ≤ (monthDays y).getD (m - 1) 0

/-- A time of day, without leap seconds. -/
def IsTime (h m s : Nat) : Prop := h ≤ 23 ∧ m ≤ 59 ∧ s ≤ 59

/-- Years that the date library supports. -/
def SupportedYear (y : Int) : Prop := -262144 ≤ y ∧ y ≤ 262143

instance (y m d) : Decidable (IsDate y m d) := by unfold IsDate; infer_instance
instance (h m s) : Decidable (IsTime h m s) := by unfold IsTime; infer_instance
instance (y) : Decidable (SupportedYear y) := by unfold SupportedYear; infer_instance

/-- A date-time that is a calendar date and a time of day. -/
def IsDateTime (t : DateTime) : Prop :=
  SupportedYear t.year ∧ IsDate t.year t.month t.day ∧ IsTime t.hour t.minute t.second

instance (t) : Decidable (IsDateTime t) := by unfold IsDateTime; infer_instance

end Nmea.Spec
