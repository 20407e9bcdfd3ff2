/-
`str::parse` for the integer types (core::num `from_str_radix` with radix 10).
-/
import Verif.Model.Basic

namespace Nmea

/-- Accumulate decimal digits, failing on a non-digit or when the value exceeds `max`. -/
def accDigits (max : Nat) : Nat → Str → Option Nat
  | acc, [] => some acc
  | acc, c :: cs =>
    if '0' ≤ c ∧ c ≤ '9' then
      let acc' := acc * 10 + (c.toNat - 48)
      if acc' ≤ max then accDigits max acc' cs else none
    else none

/-- `s.parse::<uN>()` with `max = uN::MAX`: empty input is an error, one leading `+` is allowed, a lone
sign is an error, `-` is not a digit for unsigned types, values above `max` are an error. -/
def parseUInt (max : Nat) (s : Str) : Option Nat :=
  match s with
  | [] => none
  | ['+'] => none
  | '+' :: r => accDigits max 0 r
  | r => accDigits max 0 r

/-- `s.parse::<i32>()`: as above, with `-` allowed as leading sign. -/
def parseI32 (s : Str) : Option Int :=
  match s with
  | [] => none
  | ['+'] => none
  | ['-'] => none
  | '+' :: r => (accDigits (2 ^ 31 - 1) 0 r).map (fun n : Nat => (n : Int))
  | '-' :: r => (accDigits (2 ^ 31) 0 r).map (fun n : Nat => -(n : Int))
  | r => (accDigits (2 ^ 31 - 1) 0 r).map (fun n : Nat => (n : Int))

/-- `parse::<u8>` / `parse::<u16>` / `parse::<u32>` / `parse::<u64>`. -/
def parseU8 : Str → Option Nat := parseUInt (2 ^ 8 - 1)
/-- `parse::<u16>`. -/
def parseU16 : Str → Option Nat := parseUInt (2 ^ 16 - 1)
/-- `parse::<u32>`. -/
def parseU32 : Str → Option Nat := parseUInt (2 ^ 32 - 1)
/-- `parse::<u64>`. -/
def parseU64 : Str → Option Nat := parseUInt (2 ^ 64 - 1)

end Nmea
