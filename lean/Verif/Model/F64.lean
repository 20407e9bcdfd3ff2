/-
A model of Rust's `f64` (IEEE-754 binary64, round to nearest, ties to even).

Simplification: there is one NaN (sign and payload of NaNs are not modelled). A finite value is a sign
and an exact non-negative rational magnitude (so signed zeros are kept); all magnitudes produced by the
operations below are representable because every operation ends with `roundMag`.
-/
import Verif.Model.Basic

namespace Nmea

inductive F64 where
  | nan
  | inf (neg : Bool)
  | fin (neg : Bool) (mag : Rat)
  deriving DecidableEq, Repr

namespace F64

/-- Round the quotient `num / den` to an integer, ties to even. -/
def divRoundEven (num den : Nat) : Nat :=
  let m := num / den
  let r := num % den
  if 2 * r < den then m
  else if den < 2 * r then m + 1
  else if m % 2 = 0 then m else m + 1

/-- `m * 2^s` as a rational. -/
def scale (m : Nat) (s : Int) : Rat :=
  if 0 ≤ s then ((m * 2 ^ s.toNat : Nat) : Rat) else mkRat m (2 ^ (-s).toNat)

/-- `q / 2^s` rounded to an integer (ties to even), for `q ≥ 0` given as numerator and denominator. -/
def divScale (n d : Nat) (s : Int) : Nat :=
  if 0 ≤ s then divRoundEven n (d * 2 ^ s.toNat) else divRoundEven (n * 2 ^ (-s).toNat) d

/-- `2^k ≤ n/d`. -/
def pow2Le (k : Int) (n d : Nat) : Bool :=
  if 0 ≤ k then decide (d * 2 ^ k.toNat ≤ n) else decide (d ≤ n * 2 ^ (-k).toNat)

/-- Binary exponent of `n/d > 0`: the largest `k` with `2^k ≤ n/d`. -/
def expOf (n d : Nat) : Int :=
  let k : Int := (n.log2 : Int) - (d.log2 : Int)
  if pow2Le k n d then k else k - 1

/-- Exponent of the unit in the last place used for `n/d`: 52 below the binary exponent, but not below
the subnormal spacing `2^-1074`. -/
def ulpExp (n d : Nat) : Int := max (expOf n d - 52) (-1074)

/-- Round a non-negative rational to binary64 precision with unbounded exponent range above. -/
def roundMag (q : Rat) : Rat :=
  if q.num.toNat = 0 then 0
  else
    let s := ulpExp q.num.toNat q.den
    scale (divScale q.num.toNat q.den s) s

/-- Round a signed exact result: overflow to infinity at `2^1024`. -/
def ofMag (neg : Bool) (q : Rat) : F64 :=
  let r := roundMag q
  if r < 2 ^ 1024 then fin neg r else inf neg

/-- Exact value of a finite number. -/
def val (neg : Bool) (q : Rat) : Rat := if neg then -q else q

/-- Round an exact rational result; an exact zero becomes `+0`. -/
def ofRat (q : Rat) : F64 := if q < 0 then ofMag true (-q) else ofMag false q

/-- `n as f64` for an integer. -/
def ofInt (n : Int) : F64 := ofRat n

/-- `-x`. -/
def neg : F64 → F64
  | nan => nan
  | inf b => inf (!b)
  | fin b q => fin (!b) q

/-- `x + y`. -/
def add : F64 → F64 → F64
  | nan, _ => nan
  | _, nan => nan
  | inf a, inf b => if a = b then inf a else nan
  | inf a, fin _ _ => inf a
  | fin _ _, inf b => inf b
  | fin a x, fin b y =>
    let r := val a x + val b y
    if r = 0 then fin (a && b) 0 else ofRat r

/-- `x * y`. -/
def mul : F64 → F64 → F64
  | nan, _ => nan
  | _, nan => nan
  | inf a, inf b => inf (xor a b)
  | inf a, fin b y => if y = 0 then nan else inf (xor a b)
  | fin a x, inf b => if x = 0 then nan else inf (xor a b)
  | fin a x, fin b y => ofMag (xor a b) (x * y)

/-- `x / y`. -/
def div : F64 → F64 → F64
  | nan, _ => nan
  | _, nan => nan
  | inf _, inf _ => nan
  | inf a, fin b _ => inf (xor a b)
  | fin a _, inf b => fin (xor a b) 0
  | fin a x, fin b y =>
    if y = 0 then (if x = 0 then nan else inf (xor a b)) else ofMag (xor a b) (x / y)

/-- `x.powi(2)`. Simplification: Rust leaves the precision of `powi` unspecified; LLVM expands the
constant exponent 2 to one multiplication, which is what is modelled. -/
def powi2 (x : F64) : F64 := mul x x

/-- Value of a decimal digit character. -/
def digitVal (c : Char) : Nat := c.toNat - 48

/-- Longest prefix of ASCII digits and the rest. -/
def spanDigits : Str → Str × Str
  | [] => ([], [])
  | c :: cs => if '0' ≤ c ∧ c ≤ '9' then ((c :: (spanDigits cs).1), (spanDigits cs).2) else ([], c :: cs)

/-- Decimal value of a digit string. -/
def digitsVal (s : Str) : Nat := s.foldl (fun acc c => acc * 10 + digitVal c) 0

/-- ASCII lower-casing of one character. -/
def lowerC (c : Char) : Char := if 'A' ≤ c ∧ c ≤ 'Z' then Char.ofNat (c.toNat + 32) else c

/-- `10^e` for an integer exponent. -/
def pow10 (e : Int) : Rat := if 0 ≤ e then ((10 ^ e.toNat : Nat) : Rat) else mkRat 1 (10 ^ (-e).toNat)

/-- Optional exponent part of a Rust float literal string: `none` = malformed. -/
def parseExp : Str → Option Int
  | [] => some 0
  | c :: cs =>
    if c = 'e' ∨ c = 'E' then
      let (sgn, ds) : Int × Str := match cs with
        | '+' :: r => (1, r)
        | '-' :: r => (-1, r)
        | r => (1, r)
      let (a, b) := spanDigits ds
      if a ≠ [] ∧ b = [] then some (sgn * (digitsVal a : Int)) else none
    else none

/-- The digits after a decimal point, if there is one, and the rest (part of `f64::from_str`'s grammar). -/
def fracPart (r : Str) : Str × Str :=
  match r with
  | '.' :: t => spanDigits t
  | _ => ([], r)

/-- Unsigned part of a float string (after the optional sign): exact magnitude. -/
def parseMag (s : Str) : Option Rat :=
  let (i, r) := spanDigits s
  let (f, r2) := fracPart r
  if i = [] ∧ f = [] then none
  else match parseExp r2 with
    | none => none
    | some e => some ((digitsVal (i ++ f) : Rat) * pow10 (e - (f.length : Int)))

/-- Unsigned part of a float string as a binary64 with the given sign. -/
def parseUnsigned (neg : Bool) (s : Str) : Option F64 :=
  let l := s.map lowerC
  if l = c! "inf" ∨ l = c! "infinity" then some (inf neg)
  else if l = c! "nan" then some nan
  else (parseMag s).map (fun q => ofMag neg q)

/-- `str::parse::<f64>` (Rust `core::num::dec2flt`, grammar of `f64::from_str`): optional sign, then
`inf`, `infinity`, `nan` (ASCII case-insensitive), or digits with optional fraction and exponent
(at least one digit in the mantissa), converted with correct rounding. -/
def parse (s : Str) : Option F64 :=
  match s with
  | '+' :: r => parseUnsigned false r
  | '-' :: r => parseUnsigned true r
  | r => parseUnsigned false r

end F64
end Nmea
