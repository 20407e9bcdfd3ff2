/-
Specification of the texts that `{}` of Rust's `format!` and `println!` gives for doubles: the shortest decimal number that
is read as this double, without exponent.
-/
import Verif.Spec.Print

namespace Nmea.Spec

/-- The decimal number `m * 10^e`, written without exponent. -/
def plainText (m : Nat) (e : Int) : Str := if 0 ≤ e then natStr (m * 10 ^ e.toNat) else decimalText (-e).toNat m

/-- The decimal number `m * 10^e` is read as the double of magnitude `q`. -/
def ReadsAs (m : Nat) (e : Int) (q : Rat) : Prop := RoundsTo (m * 10 ^ e) (.fin false q)

/-- `{}` prints the double as `t`: a decimal number that is read as this double, of as few digits as possible, and of these
numbers one next to the double. -/
def Displays (x : F64) (t : Str) : Prop :=
  match x with
  | .fin minus q =>
    q = 0 ∧ t = (if minus then ['-'] else []) ++ ['0'] ∨
    q ≠ 0 ∧ ∃ m e, t = (if minus then ['-'] else []) ++ plainText m e ∧ ReadsAs m e q ∧
      ∀ m' e', ReadsAs m' e' q → (natStr m).length ≤ (natStr m').length ∧
        ((natStr m').length = (natStr m).length → |(m : Rat) * 10 ^ e - q| ≤ |(m' : Rat) * 10 ^ e' - q|)
  | .inf minus => t = (if minus then ['-'] else []) ++ c! "inf"
  | .nan => t = c! "NaN"

/-- Decimals without zeros at their end, and without decimal point if nothing follows it. -/
def trimText (s : Str) : Str :=
  (match s.reverse.dropWhile (· == '0') with
   | '.' :: r => r
   | r => r).reverse

/-- A short number is reported and, printed with `{}`, it is the text that was sent without zeros at its end. -/
def DisplaysNumber (n : Number) (x : Option F64) : Prop :=
  n.Short → ∃ d, x = some d ∧ ∀ t, Displays d t ↔ t = trimText n.text

/-- The heading is printed with `{}` as the integer that was sent, unless it is not available. -/
def DisplaysHeading (raw : Nat) (x : Option F64) : Prop :=
  if raw = 511 then x = none else ∃ d, x = some d ∧ ∀ t, Displays d t ↔ t = natStr raw

/-- A value sent in tenths, printed with `{}`: if the reported double is the one next to the value, as it was sent (without
decimals if it is an integer), otherwise with at least sixteen digits. -/
def DisplaysTenths (na raw : Nat) (x : Option F64) : Prop :=
  if raw = na then x = none else ∃ d, x = some d ∧
    ((RoundsTo (raw / 10) d ∧ ∀ t, Displays d t ↔ t = trimText (decimalText 1 raw)) ∨
      (¬ RoundsTo (raw / 10) d ∧ ∀ t, Displays d t → 16 ≤ (t.filter fun c => decide (c ≠ '.')).length))

end Nmea.Spec
