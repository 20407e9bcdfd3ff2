/-
Specification of formatted texts: how a device writes times, dates, positions and numbers into the fields of
a GNSS sentence.
-/
import Verif.Spec.Gnss
import Verif.Spec.Values

namespace Nmea.Spec

/-- The last `k` decimal digits of `n`. -/
def pad : Nat → Nat → Str
  | 0, _ => []
  | k + 1, n => pad k (n / 10) ++ [(c! "0123456789").getD (n % 10) '0']

/-- `HHMMSS`. -/
def timeText (h m s : Nat) : Str := pad 2 h ++ pad 2 m ++ pad 2 s

/-- `DDMMYY`. -/
def dateText (d m y : Nat) : Str := pad 2 d ++ pad 2 m ++ pad 2 y

/-- A decimal number: sign, whole part and decimals (`frac` of `places` digits). -/
structure Number where
  minus : Bool
  whole : Nat
  places : Nat
  frac : Nat

/-- Its text. -/
def Number.text (n : Number) : Str :=
  (if n.minus then ['-'] else []) ++ natStr n.whole ++ '.' :: pad n.places n.frac

/-- Its magnitude. -/
def Number.mag (n : Number) : Rat := n.whole + n.frac / 10 ^ n.places

/-- The double next to it, as a result. -/
def Number.Result (n : Number) (x : Option F64) : Prop := ∃ d, RoundsTo n.mag d ∧ x = some (signedF64 n.minus d)

/-- An angle: degrees, minutes and decimals of minutes, in the negative hemisphere or not. -/
structure Angle where
  minus : Bool
  deg : Nat
  min : Nat
  places : Nat
  frac : Nat

/-- Its text, with `k` digits of degrees. -/
def Angle.text (a : Angle) (k : Nat) : Str := pad k a.deg ++ pad 2 a.min ++ '.' :: pad a.places a.frac

/-- Its value in degrees. -/
def Angle.value (a : Angle) : Rat :=
  (if a.minus then -1 else 1) * (a.deg + (a.min + a.frac / 10 ^ a.places) / 60)

/-- An angle of at most `max` degrees that can be written. -/
def Angle.Ok (a : Angle) (max : Nat) : Prop := a.deg ≤ max ∧ a.min < 60 ∧ 0 < a.places ∧ a.frac < 10 ^ a.places

/-- The double computed from degrees and minutes (minutes rounded, divided by 60, added to the degrees) with the sign of
the hemisphere; it is within `3e-14` degrees of the angle. -/
def Angle.Result (a : Angle) (x : Option F64) : Prop :=
  ∃ r, DegreesOf a.deg (a.min + a.frac / 10 ^ a.places) r ∧ x = some (.fin a.minus r) ∧
    Within a.value (3 / 10 ^ 14) (.fin a.minus r)

/-- `N` or `S`, `E` or `W`. -/
def Angle.side (a : Angle) (plus minus : Char) : Str := [if a.minus then minus else plus]

end Nmea.Spec
