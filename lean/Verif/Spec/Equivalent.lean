/-
Specification of parsers that cannot be told apart.
-/
import Verif.Spec.Machine

namespace Nmea.Spec

/-- The two parts of a message joined, if `x` is part `num` and `y` the other one. -/
def joined (num : Nat) (x y : Str) : Str := if num = 1 then x ++ y else y ++ x

/-- Two payloads of part `num` are interchangeable: whatever the other part is, the messages joined from it, sent in one
sentence to a new parser, are answered alike, and so is everything after them. -/
def Interchangeable (own : Bool) (num : Nat) (x x' : Str) : Prop :=
  ∀ y, ',' ∉ y → ∀ env talker, Talker talker → ∀ f : List (Env × Str),
    answers Parser.new ((env, aisSentence talker own (joined num x y)) :: f) =
      answers Parser.new ((env, aisSentence talker own (joined num x' y)) :: f)

/-- The same parts of two-part messages are pending, with interchangeable payloads. -/
def SameParts (p q : Parser) : Prop :=
  ∀ own num id chan, (num = 1 ∨ num = 2) →
    (pendingPart p own num id chan = none ∧ pendingPart q own num id chan = none) ∨
    ∃ x x', pendingPart p own num id chan = some x ∧ pendingPart q own num id chan = some x' ∧ Interchangeable own num x x'

/-- The same sentences of GSV groups are pending, with the same satellites (but for those that are never read). -/
def SameGsv (p q : Parser) : Prop :=
  ∀ talker n k, Talker talker → 1 ≤ k → k ≤ n → n < 2 ^ 32 - 1 →
    (pendingGsv p talker n k = none ∧ pendingGsv q talker n k = none) ∨
    ∃ fs gs, CommaFree fs ∧ fs ≠ [] ∧ CommaFree gs ∧ gs ≠ [] ∧
      pendingGsv p talker n k = some (join (tag '$' talker (c! "GSV")) fs) ∧
      pendingGsv q talker n k = some (join (tag '$' talker (c! "GSV")) gs) ∧
      satellites (talkerSystem talker) fs = satellites (talkerSystem talker) gs

/-- The same type 24 data are pending, but for the own-vessel flag. -/
def SameStatic (p q : Parser) : Prop :=
  ∀ mmsi, (pendingStatic p mmsi).map (fun v => { v with ownVessel := false }) =
    (pendingStatic q mmsi).map (fun v => { v with ownVessel := false })

end Nmea.Spec
