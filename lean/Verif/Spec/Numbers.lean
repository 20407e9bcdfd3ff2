/-
Specification of number texts: integers and decimal numbers in comma-separated fields.
-/
import Verif.Spec.Sentence
import Verif.Spec.Float

namespace Nmea.Spec

/-- An integer field of at most `max`: empty (absent) or a decimal text. -/
def IntField (max : Nat) (s : Str) (x : Option Nat) : Prop :=
  (s = [] ∧ x = none) ∨ ∃ n, Dec max s n ∧ x = some n

/-- Only decimal digits (possibly none). -/
def AllDigits (s : Str) : Prop := ∀ c ∈ s, c ∈ c! "0123456789"

/-- `s` is the unsigned text `r`, with a sign or without. -/
def Signed (s : Str) (neg : Bool) (r : Str) : Prop :=
  (s = r ∧ neg = false) ∨ (s = '+' :: r ∧ neg = false) ∨ (s = '-' :: r ∧ neg = true)

/-- An exponent: nothing, or `e` or `E`, an optional sign, digits. -/
def Exponent (s : Str) (e : Int) : Prop :=
  (s = [] ∧ e = 0) ∨ ∃ c t neg ds, s = c :: t ∧ (c = 'e' ∨ c = 'E') ∧ Signed t neg ds ∧ Digits ds ∧
    e = if neg then -(decValue ds : Int) else decValue ds

/-- An unsigned decimal number: digits, optionally a point and more digits (at least one digit in all), an
exponent; and its value. -/
def Decimal (s : Str) (q : Rat) : Prop :=
  ∃ ip fp ex e, AllDigits ip ∧ AllDigits fp ∧ (ip ≠ [] ∨ fp ≠ []) ∧ Exponent ex e ∧
    ((s = ip ++ ex ∧ fp = []) ∨ s = ip ++ '.' :: fp ++ ex) ∧
    q = (decValue ip + decValue fp / 10 ^ fp.length) * (10 : Rat) ^ e

/-- A double, negated or not. -/
def signedF64 (neg : Bool) : F64 → F64
  | .fin s m => .fin (s ^^ neg) m
  | .inf s => .inf (s ^^ neg)
  | .nan => .nan

/-- Number texts and their doubles: an optional sign and a decimal number, which is rounded to a double; or
`inf`, `infinity`, `nan` in any case. -/
inductive NumberText (s : Str) : F64 → Prop where
  | decimal (neg : Bool) (r : Str) (q : Rat) (d : F64) (h : Signed s neg r) (hd : Decimal r q)
      (hr : RoundsTo q d) : NumberText s (signedF64 neg d)
  | infinite (neg : Bool) (r : Str) (h : Signed s neg r)
      (hi : r.map Char.toLower = c! "inf" ∨ r.map Char.toLower = c! "infinity") : NumberText s (.inf neg)
  | nan (neg : Bool) (r : Str) (h : Signed s neg r) (hn : r.map Char.toLower = c! "nan") : NumberText s .nan

/-- A decimal field: empty (absent) or a number text. -/
def NumField (s : Str) (x : Option F64) : Prop :=
  (s = [] ∧ x = none) ∨ ∃ d, NumberText s d ∧ x = some d

/-- A decimal field that counts as absent when it is not a number text. -/
def LenientField (s : Str) (x : Option F64) : Prop :=
  (∃ d, NumberText s d ∧ x = some d) ∨ ((∀ d, ¬ NumberText s d) ∧ x = none)

end Nmea.Spec
