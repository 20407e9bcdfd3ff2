/-
Specification of a parser in which nothing is left to be completed.
-/
import Verif.Spec.Machine

namespace Nmea.Spec

/-- Something is pending that further sentences can complete: a part of a two-part AIS message, a sentence of a GSV
group with a number from 1 to the count of the group (with the largest count, 2^32 - 1, no group is ever completed), or a
part of type 24. -/
def Unfinished (p : Parser) : Prop :=
  (∃ own num id chan, (num = 1 ∨ num = 2) ∧ pendingPart p own num id chan ≠ none) ∨
  (∃ talker n k, Talker talker ∧ 1 ≤ k ∧ k ≤ n ∧ n < 2 ^ 32 - 1 ∧ pendingGsv p talker n k ≠ none) ∨
  (∃ mmsi, pendingStatic p mmsi ≠ none)

end Nmea.Spec
