/-
Specification of the order of decoded numbers: which number a text says, and which doubles are above others.
-/
import Verif.Spec.Gnss
import Verif.Spec.Values

namespace Nmea.Spec

/-- A number with a sign. -/
def signed (neg : Bool) (m : Rat) : Rat := if neg then -m else m

/-- The text `s` says the number `q`. -/
def Says (s : Str) (q : Rat) : Prop := ∃ neg r m, Signed s neg r ∧ Decimal r m ∧ q = signed neg m

/-- The text `s` says the number `q` with at most 15 digits, leading zeros and decimals included, and without an
exponent. -/
def SaysShortly (s : Str) (q : Rat) : Prop :=
  ∃ neg r ip fp, Signed s neg r ∧ ((r = ip ∧ fp = []) ∨ r = ip ++ '.' :: fp) ∧ AllDigits ip ∧ AllDigits fp ∧
    (ip ≠ [] ∨ fp ≠ []) ∧ ip.length + fp.length ≤ 15 ∧ q = signed neg (decValue ip + decValue fp / 10 ^ fp.length)

/-- `a` is a number (not NaN) that is not above the number `b`. -/
inductive AtMost : F64 → F64 → Prop where
  | fin (a b : F64) (x y : Rat) (ha : valueOf a = some x) (hb : valueOf b = some y) (h : x ≤ y) : AtMost a b
  | below (b : F64) (h : b ≠ .nan) : AtMost (.inf true) b
  | above (a : F64) (h : a ≠ .nan) : AtMost a (.inf false)

/-- The text `s` (with hemisphere `hemi`, of which `minus` is the negative one) says the angle `q`, with at most
`places` decimals of minutes. -/
def SaysAngle (k : Nat) (minus : Char) (places : Nat) (s hemi : Str) (q : Rat) : Prop :=
  ∃ deg min, PosText k s deg min ∧ (∃ n : Nat, min = n / 10 ^ places) ∧ q = signed (decide (hemi = [minus])) (deg + min / 60)

end Nmea.Spec
