/-
Specification of the set of binary64 numbers, and of the reports with decimal numbers.
-/
import Verif.Spec.Occurs
import Verif.Spec.Float

namespace Nmea.Spec

/-- The binary64 numbers: the finite ones (both zeros among them), the two infinities, and "not a number". -/
inductive IsDouble : F64 → Prop where
  | fin (neg : Bool) (v : Rat) (h : Rep v) (hlt : v < 2 ^ 1024) : IsDouble (.fin neg v)
  | inf (neg : Bool) : IsDouble (.inf neg)
  | nan : IsDouble .nan

/-- Recommended minimum data. -/
def Minimum (P : RmcData → Prop) : ParsedSentence → Prop
  | .rmc d => P d
  | _ => False

/-- Course and speed. -/
def Velocity (P : VtgData → Prop) : ParsedSentence → Prop
  | .vtg d => P d
  | _ => False

end Nmea.Spec
