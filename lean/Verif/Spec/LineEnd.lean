/-
Specification for sentences that are given with their line terminator.
-/
import Verif.Spec.Gnss

namespace Nmea.Spec

/-- What ends a line. -/
def LineEnd (t : Str) : Prop := t = c! "\r\n" ∨ t = c! "\n" ∨ t = c! "\r"

/-- The fields (counted from 0, the tag not included) that are a number or a letter and make the sentence refused if they are
neither that nor empty. -/
def strictFields (kind : Str) : List Nat :=
  ([(c! "GGA", [5, 6, 7, 8, 10, 12, 13]), (c! "RMC", [1, 6, 7, 9]), (c! "GSA", List.range 17)].lookup kind).getD []

end Nmea.Spec
