/-
Specification of searching logs of `{:?}` for the value of a field.
-/
import Verif.Model.Parse

namespace Nmea.Spec

/-- The search text for a field with a value, ` name: value,`, occurs in the text. -/
def Found (name value text : Str) : Prop := (c! " " ++ name ++ c! ": " ++ value ++ c! ",") <:+: text

instance (n v t) : Decidable (Found n v t) := by unfold Found; infer_instance

/-- Without commas and blanks. -/
def OneWord (w : Str) : Prop := ',' ∉ w ∧ ' ' ∉ w

instance (w) : Decidable (OneWord w) := by unfold OneWord; infer_instance

/-- The station or vessel that a report is about. -/
def senderOf : ParsedSentence → Option Nat
  | .vesselDynamicData d => some d.mmsi
  | .vesselStaticData d => some d.mmsi
  | .baseStationReport d => some d.mmsi
  | .binaryAddressedMessage d => some d.mmsi
  | .standardSarAircraftPositionReport d => some d.mmsi
  | .aidToNavigationReport d => some d.mmsi
  | _ => none

/-- Whether a report is about the own vessel. -/
def ownOf : ParsedSentence → Option Bool
  | .vesselDynamicData d => some d.ownVessel
  | .vesselStaticData d => some d.ownVessel
  | .baseStationReport d => some d.ownVessel
  | .binaryAddressedMessage d => some d.ownVessel
  | .standardSarAircraftPositionReport d => some d.ownVessel
  | .utcDateInquiry d => some d.ownVessel
  | .aidToNavigationReport d => some d.ownVessel
  | _ => none

end Nmea.Spec
