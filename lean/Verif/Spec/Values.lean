/-
Specification of the positions and motions that AIS messages report: where the standard puts them, and how to
find them in a result.
-/
import Verif.Spec.Messages

namespace Nmea.Spec

/-- Parsing `s` in state `p` completes a readable message with these bits. -/
def DeliversBits (env : Env) (p : Parser) (s talker : Str) (own : Bool) (bits : List Bool) : Prop :=
  ∃ payload, Delivers p s talker own payload ∧ Readable env payload ∧ bits = payloadBits payload

/-- The two's complement field of `w` bits at `i`. -/
def snum (bits : List Bool) (i w : Nat) : Int := signedVal (window bits i w)

/-- Longitude (28 bits) and latitude (27 bits) in 1/10000 minute: their places by message type. -/
def positionAt : List (Nat × Nat × Nat) :=
  [(1, 61, 89), (2, 61, 89), (3, 61, 89), (4, 79, 107), (9, 61, 89), (18, 57, 85), (21, 164, 192)]

/-- Latitude and longitude in an AIS result. -/
def positionOf : ParsedSentence → Option (Option F64 × Option F64)
  | .vesselDynamicData d => some (d.latitude, d.longitude)
  | .baseStationReport d => some (d.latitude, d.longitude)
  | .standardSarAircraftPositionReport d => some (d.latitude, d.longitude)
  | .aidToNavigationReport d => some (d.latitude, d.longitude)
  | _ => none

/-- Speed (10 bits), course (12 bits) and heading (9 bits) of ships: their places by message type. -/
def motionAt : List (Nat × Nat × Nat × Nat) :=
  [(1, 50, 116, 128), (2, 50, 116, 128), (3, 50, 116, 128), (18, 46, 112, 124)]

/-- A double that is the value of this rational up to `eps`. -/
def Within (q eps : Rat) (d : F64) : Prop := ∃ v, valueOf d = some v ∧ |v - q| ≤ eps

/-- The order of finite doubles. -/
def F64Lt (a b : F64) : Prop := ∃ x y, valueOf a = some x ∧ valueOf b = some y ∧ x < y

end Nmea.Spec
