/-
Specification of binary64 numbers (IEEE 754, round to nearest, ties to even), in terms of rationals only.
-/
import Verif.Model.F64
import Mathlib.Algebra.Order.Field.Rat
import Mathlib.Algebra.Order.Field.Power

namespace Nmea.Spec

/-- `q` is the magnitude of a binary64 number, except for the upper limit of the exponent: at most 53
significant bits, none below `2^-1074`. -/
def Rep (q : Rat) : Prop := ∃ (m : Nat) (s : Int), m < 2 ^ 53 ∧ -1074 ≤ s ∧ q = m * (2 : Rat) ^ s

/-- The last bit of the significand of `q` is zero. -/
def RepEven (q : Rat) : Prop :=
  ∃ (m : Nat) (s : Int), m < 2 ^ 53 ∧ -1074 ≤ s ∧ (2 ^ 52 ≤ m ∨ s = -1074) ∧ m % 2 = 0 ∧ q = m * (2 : Rat) ^ s

/-- `v` is the number of the format next to `q`; if there is another one as near, `v` is the even one. -/
def Nearest (q v : Rat) : Prop :=
  Rep v ∧ (∀ r, Rep r → |v - q| ≤ |r - q|) ∧ (∀ r, Rep r → r ≠ v → |r - q| = |v - q| → RepEven v)

/-- `x` is the binary64 number that the exact result `q` is rounded to (`+0` for 0). -/
inductive RoundsTo (q : Rat) : F64 → Prop where
  | fin (v : Rat) (h : Nearest |q| v) (hlt : v < 2 ^ 1024) : RoundsTo q (.fin (decide (q < 0)) v)
  | inf (v : Rat) (h : Nearest |q| v) (hge : 2 ^ 1024 ≤ v) : RoundsTo q (.inf (decide (q < 0)))

/-- The value of a finite number. -/
def valueOf : F64 → Option Rat
  | .fin neg m => some (if neg then -m else m)
  | _ => none

end Nmea.Spec
