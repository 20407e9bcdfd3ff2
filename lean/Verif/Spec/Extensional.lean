/-
Specification of parser states that hold the same data.
-/
import Verif.Model.Parse

namespace Nmea.Spec

/-- The two states hold the same values under the same keys (in whatever internal order). -/
def SameData (p q : Parser) : Prop :=
  (∀ k, p.savedFragments.get k = q.savedFragments.get k) ∧ ∀ k, p.savedVsds.get k = q.savedVsds.get k

/-- No key occurs twice, as in every map. -/
def OncePerKey (p : Parser) : Prop :=
  (p.savedFragments.items.map (·.1)).Nodup ∧ (p.savedVsds.items.map (·.1)).Nodup

end Nmea.Spec
