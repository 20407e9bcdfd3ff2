/-
Specification of the texts of `{:?}`: what is assumed of the standard library, and texts of one line.
-/
import Verif.Model.Debug
import Verif.Spec.Doubles
import Verif.Spec.Numbers
import Verif.Spec.Machine

namespace Nmea.Spec

/-- The character breaks lines or controls the terminal: the control characters, and the line and paragraph separators. -/
def Breaks (c : Char) : Prop := c.toNat < 32 ∨ 127 ≤ c.toNat ∧ c.toNat < 160 ∨ c.toNat = 0x2028 ∨ c.toNat = 0x2029

instance (c) : Decidable (Breaks c) := by unfold Breaks; infer_instance

/-- What is assumed of the texts of the standard library: reading the text of a double gives the double; a character that is
left to the library is written as it is, which is not done for those that break lines, or by its hexadecimal code, or (the
apostrophe and NUL) with a backslash. -/
structure LibraryOk (l : Library) : Prop where
  double : ∀ x, IsDouble x → NumberText (l.double x) x
  escape : ∀ c, c = '\'' ∨ c.toNat = 0 ∨ 128 ≤ c.toNat →
    (l.escape c = [c] ∧ ¬ Breaks c) ∨ l.escape c = c! "\\u{" ++ Nat.toDigits 16 c.toNat ++ c! "}" ∨
      (c = '\'' ∧ l.escape c = c! "\\'") ∨ (c.toNat = 0 ∧ l.escape c = c! "\\0")

/-- The text stays on its line. -/
def OneLine (t : Str) : Prop := ∀ c ∈ t, ¬ Breaks c

instance (t) : Decidable (OneLine t) := by unfold OneLine; infer_instance

end Nmea.Spec
