/-
Specification of "this is reported": some sentences make a new parser report it.
-/
import Verif.Spec.History
import Verif.Spec.Machine

namespace Nmea.Spec

/-- There are sentences one of which is answered with a report of this kind. -/
def Occurs (P : ParsedSentence → Prop) : Prop := ∃ h r, .ok r ∈ answers Parser.new h ∧ P r

/-- Reports with a class A or class B position. -/
def Dynamic (P : VesselDynamicData → Prop) : ParsedSentence → Prop
  | .vesselDynamicData d => P d
  | _ => False

/-- Reports with static data. -/
def Static (P : VesselStaticData → Prop) : ParsedSentence → Prop
  | .vesselStaticData d => P d
  | _ => False

/-- Base station reports. -/
def Base (P : BaseStationReport → Prop) : ParsedSentence → Prop
  | .baseStationReport d => P d
  | _ => False

/-- Binary addressed messages. -/
def Binary (P : BinaryAddressedMessage → Prop) : ParsedSentence → Prop
  | .binaryAddressedMessage d => P d
  | _ => False

/-- Reports of search and rescue aircraft. -/
def Sar (P : StandardSarAircraftPositionReport → Prop) : ParsedSentence → Prop
  | .standardSarAircraftPositionReport d => P d
  | _ => False

/-- Inquiries. -/
def Asks (P : UtcDateInquiry → Prop) : ParsedSentence → Prop
  | .utcDateInquiry d => P d
  | _ => False

/-- Aids to navigation. -/
def AidTo (P : AidToNavigationReport → Prop) : ParsedSentence → Prop
  | .aidToNavigationReport d => P d
  | _ => False

/-- Fixes. -/
def Fix (P : GgaData → Prop) : ParsedSentence → Prop
  | .gga d => P d
  | _ => False

/-- Active satellites. -/
def Active (P : GsaData → Prop) : ParsedSentence → Prop
  | .gsa d => P d
  | _ => False

/-- Satellites in view, one of which is of this kind. -/
def View (P : GsvData → Prop) : ParsedSentence → Prop
  | .gsv l => ∃ d ∈ l, P d
  | _ => False

end Nmea.Spec
