/-
Specification of decimal texts: what a program shows that prints a reported number with a fixed number of decimals
(`{:.k}` of Rust's `format!` and `println!`).
-/
import Verif.Spec.Traffic

namespace Nmea.Spec

/-- The decimal number `n / 10^k`, written with `k` decimals. -/
def decimalText (k n : Nat) : Str := natStr (n / 10 ^ k) ++ if k = 0 then [] else '.' :: pad k (n % 10 ^ k)

/-- `t` is the number of magnitude `q` (with or without minus sign) written with `k` decimals, to the nearest. If there are
two nearest ones, any of them. -/
def RoundedText (k : Nat) (minus : Bool) (q : Rat) (t : Str) : Prop :=
  ∃ n : Nat, t = (if minus then ['-'] else []) ++ decimalText k n ∧ |n / 10 ^ k - q| ≤ 1 / (2 * 10 ^ k)

/-- `{:.k}` may print the double as `t`: the exact value of the double, to the nearest (Rust has a rule for values midway
between two texts, which does not matter here). The sign is printed for negative zero as well (Rust 1.53 and later). -/
def Prints (k : Nat) (x : F64) (t : Str) : Prop :=
  match x with
  | .fin minus q => RoundedText k minus q t
  | .inf minus => t = (if minus then ['-'] else []) ++ c! "inf"
  | .nan => t = c! "NaN"

/-- The value is reported and, printed with `k` decimals, is `n / 10^k` exactly. -/
def PrintsExactly (k n : Nat) (x : Option F64) : Prop := ∃ d, x = some d ∧ ∀ t, Prints k d t ↔ t = decimalText k n

/-- Speed, course and heading; `na` stands for "not available". -/
def PrintsUnless (na k n : Nat) (x : Option F64) : Prop := if n = na then x = none else PrintsExactly k n x

/-- The position, unless it is not available: printed with up to seven decimals it is the transmitted value (1/10000
minutes) to the nearest. -/
def PrintsDegrees (na : Int) (raw : Int) (x : Option F64) : Prop :=
  if raw = na * 600000 then x = none
  else ∃ d, x = some d ∧ ∀ k ≤ 7, (∃ t, Prints k d t) ∧ ∀ t, Prints k d t → RoundedText k (decide (raw < 0)) (|(raw : Rat)| / 600000) t

/-- The number has one to fifteen decimals, and at most fifteen digits apart from leading zeros. -/
def Number.Short (n : Number) : Prop := 0 < n.places ∧ n.places ≤ 15 ∧ n.whole * 10 ^ n.places + n.frac < 10 ^ 15

/-- A short number is reported and, printed with as many decimals as it was sent with, it has the text that was sent. -/
def PrintsNumber (n : Number) (x : Option F64) : Prop :=
  n.Short → ∃ d, x = some d ∧ ∀ t, Prints n.places d t ↔ t = n.text

/-- The angle is reported and, printed with `k` decimals (together with the decimals of the minutes at most eleven), it is
the transmitted angle to the nearest. -/
def PrintsAngle (a : Angle) (x : Option F64) : Prop :=
  ∃ d, x = some d ∧ ∀ k, k + a.places ≤ 11 → (∃ t, Prints k d t) ∧ ∀ t, Prints k d t → RoundedText k a.minus |a.value| t

/-- The decimal numbers of a reading, ... -/
def Reading.numbers : Reading → List Number
  | .gga _ _ _ _ _ _ _ hdop altitude geoid age _ => [hdop, altitude, geoid, age]
  | .rmc _ _ _ _ _ _ speed bearing _ _ _ variation west =>
    [speed, bearing, { variation with minus := variation.minus ^^ west }]
  | .gsa _ _ _ pdop hdop vdop => [pdop, hdop, vdop]
  | .vtg course magnetic knots kph => [course, magnetic, knots, kph]
  | .gll .. => []

/-- ... its angles, ... -/
def Reading.angles : Reading → List Angle
  | .gga _ _ _ lat lon .. => [lat, lon]
  | .rmc _ _ _ _ lat lon .. => [lat, lon]
  | .gll lat lon .. => [lat, lon]
  | _ => []

/-- ... the numbers of the report ... -/
def reportNumbers : ParsedSentence → List (Option F64)
  | .gga d => [d.hdop, d.altitude, d.geoidSeparation, d.ageOfDgps]
  | .rmc d => [d.sogKnots, d.bearing, d.variation]
  | .gsa d => [d.pdop, d.hdop, d.vdop]
  | .vtg d => [d.cogTrue, d.cogMagnetic, d.sogKnots, d.sogKph]
  | _ => []

/-- ... and its angles. -/
def reportAngles : ParsedSentence → List (Option F64)
  | .gga d => [d.latitude, d.longitude]
  | .rmc d => [d.latitude, d.longitude]
  | .gll d => [d.latitude, d.longitude]
  | _ => []

end Nmea.Spec
