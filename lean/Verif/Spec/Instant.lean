/-
Specification of moments: calendar dates and times of day as numbers of days and seconds.
-/
import Verif.Spec.Calendar

namespace Nmea.Spec

/-- Number of a calendar day (day 1 is 1 January of the year 0, hence 31 December before it is day 0): 365 days for every
year, the leap days of the years before, the months before, the day. -/
def dayNumber (y : Int) (m d : Nat) : Int :=
  365 * y + ((y + 3) / 4 - (y + 99) / 100 + (y + 399) / 400) + (((monthDays y).take (m - 1)).sum : Nat) + d

/-- Number of the second. -/
def instant (t : DateTime) : Int :=
  86400 * dayNumber t.year t.month t.day + (3600 * t.hour + 60 * t.minute + t.second : Nat)

end Nmea.Spec
