/-
Specification vocabulary for AIS bit strings (ITU-R M.1371): fixed-width fields, two's complement,
six-bit text and the six-bit ASCII armoring. Nothing here refers to the decoding functions of the model.
-/
import Verif.Model.Basic

namespace Nmea.Spec

/-- The `w` lowest bits of `n`, most significant first. -/
def natBits (w n : Nat) : List Bool := (List.range w).map (fun i => n.testBit (w - 1 - i))

/-- The `w`-bit two's complement representation of `z`. -/
def intBits (w : Nat) (z : Int) : List Bool := natBits w (z % 2 ^ w).toNat

/-- One bit. -/
def flagBit (b : Bool) : List Bool := [b]

/-- Big-endian value of a bit string. -/
def bitsVal (bs : List Bool) : Nat := bs.foldl (fun a b => 2 * a + b.toNat) 0

/-- Two's complement value of a bit string. -/
def signedVal (bs : List Bool) : Int :=
  if bs.head? = some true then (bitsVal bs : Int) - 2 ^ bs.length else bitsVal bs

/-- The `len` bits from position `i` on, zero bits being supplied past the end. -/
def window (bv : List Bool) (i len : Nat) : List Bool :=
  ((bv ++ List.replicate (i + len) false).drop i).take len

/-- The armoring character of a six-bit value: 0..39 are `0`..`W`, 40..63 are `` ` ``..`w`. -/
def armorChar (v : Nat) : Char := Char.ofNat (if v < 40 then v + 48 else v + 56)

/-- Armoring of a bit string, six bits per character, the last group filled with zero bits. -/
def armor : List Bool → Str
  | b0 :: b1 :: b2 :: b3 :: b4 :: b5 :: rest => armorChar (bitsVal [b0, b1, b2, b3, b4, b5]) :: armor rest
  | [] => []
  | short => [armorChar (bitsVal (short ++ List.replicate (6 - short.length) false))]

/-- The AIS text alphabet: the ASCII characters from blank to underscore. -/
def InAlphabet (c : Char) : Prop := 32 ≤ c.toNat ∧ c.toNat ≤ 95

/-- Six-bit code of a character of the alphabet: `@`, `A`, ... are 0, 1, ...; blank, `!`, ... are 32, 33, ... -/
def textCode (c : Char) : Nat := if c.toNat < 64 then c.toNat else c.toNat - 64

/-- A text in a field of `n` six-bit characters, filled up with `@` (code 0). -/
def textBits (n : Nat) (s : Str) : List Bool :=
  (s.map (fun c => natBits 6 (textCode c))).flatten ++ List.replicate (6 * (n - s.length)) false

/-- A text that survives the six-bit field of `n` characters: short enough, over the alphabet, without the
fill character `@` and without trailing blank. -/
def PlainText (n : Nat) (s : Str) : Prop :=
  s.length ≤ n ∧ (∀ c ∈ s, InAlphabet c ∧ c ≠ '@') ∧ s.getLast? ≠ some ' '

end Nmea.Spec
