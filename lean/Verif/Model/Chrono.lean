/-
The part of `chrono` 0.4 that the crate uses: UTC date-times built from year/month/day and
hour/minute/second, panicking on invalid values.
-/
import Verif.Model.Basic

namespace Nmea

/-- `DateTime<Utc>`. Simplification: sub-second part left out (all constructed values have zero
nanoseconds; the clock's nanoseconds are never returned). -/
structure DateTime where
  year : Int
  month : Nat
  day : Nat
  hour : Nat
  minute : Nat
  second : Nat
  deriving DecidableEq, Repr

/-- Gregorian leap year rule (chrono `YearFlags`). -/
def isLeap (y : Int) : Bool := decide (y % 4 = 0 ∧ (y % 100 ≠ 0 ∨ y % 400 = 0))

/-- Number of days of a month; 0 for a number that is not a month. -/
def daysInMonth (y : Int) (m : Nat) : Nat :=
  match m with
  | 1 => 31 | 2 => if isLeap y then 29 else 28 | 3 => 31 | 4 => 30 | 5 => 31 | 6 => 30
  | 7 => 31 | 8 => 31 | 9 => 30 | 10 => 31 | 11 => 30 | 12 => 31
  | _ => 0

/-- `NaiveDate::from_ymd_opt` succeeds (chrono 0.4: years -262144..=262143). -/
def dateOk (y : Int) (m d : Nat) : Bool :=
  decide (-262144 ≤ y ∧ y ≤ 262143 ∧ 1 ≤ d ∧ d ≤ daysInMonth y m)

/-- `NaiveTime::from_hms_opt` succeeds. -/
def timeOk (h m s : Nat) : Bool := decide (h < 24 ∧ m < 60 ∧ s < 60)

/-- `Utc.ymd(y, m, d).and_hms(h, mi, s)` and `NaiveDate::from_ymd(..).and_hms(..)`:
panic on an invalid date or time. -/
def ymdHms {ε : Type} (y : Int) (m d h mi s : Nat) : Out ε DateTime :=
  if dateOk y m d then
    if timeOk h mi s then .ok ⟨y, m, d, h, mi, s⟩ else .panic
  else .panic

/-- `a <= b` on date-times (whole seconds). -/
def DateTime.le (a b : DateTime) : Bool :=
  decide (a.year < b.year ∨ (a.year = b.year ∧ (a.month < b.month ∨ (a.month = b.month ∧
    (a.day < b.day ∨ (a.day = b.day ∧ (a.hour < b.hour ∨ (a.hour = b.hour ∧
      (a.minute < b.minute ∨ (a.minute = b.minute ∧ a.second ≤ b.second))))))))))

/-- What the outside world supplies to one call: the clock read by `Utc::now()`, whether the build has
integer overflow checks (debug profile), and the standard library's `Debug` rendering of characters outside
ASCII, the apostrophe and NUL (used only inside one error message, src/lib.rs:183-185). -/
structure Env where
  now : DateTime
  overflowChecks : Bool
  escape : Char → Str

/-- `Debug for str`, one character: `"`, the backslash, tabulator, line feed and carriage return get a backslash, other
control characters of ASCII are written as `\u{7f}`, printable ASCII stays. Simplification: the rendering of the
apostrophe and of NUL, which depends on the version of the standard library, is left to `escape`, as are all characters
outside ASCII. -/
def Env.debugChar (env : Env) (c : Char) : Str :=
  if c = '"' ∨ c = '\\' then ['\\', c]
  else if c = '\t' then ['\\', 't']
  else if c = '\r' then ['\\', 'r']
  else if c = '\n' then ['\\', 'n']
  else if ' ' ≤ c ∧ c ≤ '~' ∧ c ≠ '\'' then [c]
  else if c ≠ '\'' ∧ 0 < c.toNat ∧ c.toNat < 128 then c! "\\u{" ++ Nat.toDigits 16 c.toNat ++ ['}']
  else env.escape c

/-- `{:02X?}` of a `String` (src/lib.rs:184-185): `Debug for str`, which ignores width and `X`. -/
def Env.debugStr (env : Env) (s : Str) : Str := '"' :: s.flatMap env.debugChar ++ ['"']

end Nmea
