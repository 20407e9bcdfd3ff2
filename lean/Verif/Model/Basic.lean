/-
Basic vocabulary of the model: strings, outcomes, errors, environment.
-/
namespace Nmea

/-- Rust `String` / `&str`: the sequence of its `char`s. Lean's `Char` is a Unicode scalar value,
exactly like Rust's `char`; the UTF-8 byte view is recovered by `byteLen` / `slice` below. -/
abbrev Str := List Char

/-- `c! "abc"` is the list literal `['a','b','c']` (model-side notation for Rust string literals). -/
macro "c!" s:str : term => do
  let cs := s.getString.toList.map (fun c => Lean.Syntax.mkCharLit c)
  `(([$(cs.toArray),*] : List Char))

/-- src/error.rs:18-29 `ParseError`. -/
inductive ParseError where
  | unsupportedSentenceType (msg : Str)
  | corruptedSentence (msg : Str)
  | invalidSentence (msg : Str)
  deriving DecidableEq, Repr

/-- src/error.rs:37-45 `impl ToString for ParseError`: the carried message. -/
def ParseError.toStr : ParseError → Str
  | .unsupportedSentenceType s => s
  | .corruptedSentence s => s
  | .invalidSentence s => s

/-- `Result<α, ε>` with a panic made explicit as a third case. -/
inductive Out (ε α : Type) where
  | ok (a : α)
  | err (e : ε)
  | panic
  deriving DecidableEq, Repr

namespace Out
variable {ε ε' α β : Type}

/-- Sequencing: Rust's `?` inside one error type, and panic propagation. -/
@[reducible] def bind (x : Out ε α) (f : α → Out ε β) : Out ε β :=
  match x with
  | ok a => f a
  | err e => err e
  | panic => panic

instance : Monad (Out ε) where
  pure := ok
  bind := bind

/-- `Result::ok()` followed by use as an `Option` (a panic stays a panic). -/
def toOpt (x : Out ε α) : Out ε' (Option α) :=
  match x with
  | ok a => ok (some a)
  | err _ => ok none
  | panic => panic

end Out

/-- src/error.rs:31-35 `impl From<String> for ParseError`, as applied by `?` and `.into()`. -/
def liftErr {α : Type} (x : Out Str α) : Out ParseError α :=
  match x with
  | .ok a => .ok a
  | .err s => .err (.invalidSentence s)
  | .panic => .panic

/-- UTF-8 length in bytes (`str::len`). -/
def byteLen (s : Str) : Nat := (s.map Char.utf8Size).sum

/-- `&s[n..]`: `none` when byte `n` is past the end or inside a character. -/
def dropBytes : Nat → Str → Option Str
  | 0, s => some s
  | _ + 1, [] => none
  | n + 1, c :: cs => if c.utf8Size ≤ n + 1 then dropBytes (n + 1 - c.utf8Size) cs else none

/-- `&s[..n]`: `none` when byte `n` is past the end or inside a character. -/
def takeBytes : Nat → Str → Option Str
  | 0, _ => some []
  | _ + 1, [] => none
  | n + 1, c :: cs =>
    if c.utf8Size ≤ n + 1 then (takeBytes (n + 1 - c.utf8Size) cs).map (c :: ·) else none

/-- `&s[a..b]` for literal `a ≤ b`: `none` models the slice-index panic. -/
def slice (s : Str) (a b : Nat) : Option Str := (dropBytes a s).bind (takeBytes (b - a))

/-- `str::split(sep)` for a one-character separator, collected into a vector. -/
def splitChar (sep : Char) : Str → List Str
  | [] => [[]]
  | c :: cs =>
    if c = sep then [] :: splitChar sep cs
    else match splitChar sep cs with
      | [] => [[c]]
      | h :: t => (c :: h) :: t

/-- Decimal rendering by `format!("{}", n)` of an unsigned integer. -/
def natStr (n : Nat) : Str := Nat.toDigits 10 n

/-- Rust's truncating cast of a `char` to `u8` (`c as u8`). -/
def charAsU8 (c : Char) : Nat := c.toNat % 256

/-- `x as u8`, `x as u16`, `x as u32` for an unsigned `x`. -/
def asU8 (n : Nat) : Nat := n % 2 ^ 8
/-- `x as u16` for an unsigned `x`. -/
def asU16 (n : Nat) : Nat := n % 2 ^ 16
/-- `x as u32` for an unsigned `x`. -/
def asU32 (n : Nat) : Nat := n % 2 ^ 32
/-- `x as i64` for a `u64` `x`. -/
def asI64 (n : Nat) : Int := Int.bmod n (2 ^ 64)
/-- `x as i32` for an `i64` `x`. -/
def asI32 (n : Int) : Int := Int.bmod n (2 ^ 32)

end Nmea
