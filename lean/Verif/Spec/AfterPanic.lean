/-
Specification of the pending data after a call that panicked.
-/
import Verif.Spec.History

namespace Nmea.Spec

/-- What is pending in `q` is what is pending in `p`, but that the text kept under the name `k` is gone. -/
def LostText (p q : Parser) (k : Str) : Prop :=
  q.savedFragments.get k = none ∧ (∀ k', k' ≠ k → q.savedFragments.get k' = p.savedFragments.get k') ∧
    ∀ m, pendingStatic q m = pendingStatic p m

/-- What is pending in `q` is what is pending in `p`, and the text `v` under the name `k`. -/
def GainedText (p q : Parser) (k v : Str) : Prop :=
  q.savedFragments.get k = some v ∧ (∀ k', k' ≠ k → q.savedFragments.get k' = p.savedFragments.get k') ∧
    ∀ m, pendingStatic q m = pendingStatic p m

end Nmea.Spec
