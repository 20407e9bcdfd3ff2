/-
Specification for the lengths of errors: how the standard library writes the characters that the model leaves to it.
-/
import Verif.Spec.Debug

namespace Nmea.Spec

/-- How `Debug for str` writes apostrophes, NUL and characters beyond ASCII, in all versions of the standard library. -/
structure Escapes (escape : Char → Str) : Prop where
  apostrophe : escape '\'' = c! "'" ∨ escape '\'' = c! "\\'"
  nul : escape (Char.ofNat 0) = c! "\\0" ∨ escape (Char.ofNat 0) = c! "\\u{0}"
  other : ∀ c, 128 ≤ c.toNat → escape c = [c] ∨ escape c = c! "\\u{" ++ Nat.toDigits 16 c.toNat ++ c! "}"

end Nmea.Spec
