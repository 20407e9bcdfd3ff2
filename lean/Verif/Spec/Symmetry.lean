/-
Specification vocabulary for comparing the answers to related sentences.
-/
import Verif.Model.Parse

namespace Nmea.Spec

/-- The same report with another station (reports that carry none are unchanged). -/
def withStation (st : Station) : ParsedSentence → ParsedSentence
  | .vesselDynamicData d => .vesselDynamicData { d with station := st }
  | .baseStationReport d => .baseStationReport { d with station := st }
  | .binaryAddressedMessage d => .binaryAddressedMessage { d with station := st }
  | .standardSarAircraftPositionReport d => .standardSarAircraftPositionReport { d with station := st }
  | .utcDateInquiry d => .utcDateInquiry { d with station := st }
  | .aidToNavigationReport d => .aidToNavigationReport { d with station := st }
  | r => r

/-- The same AIS report with another own-vessel flag. -/
def withOwn (own : Bool) : ParsedSentence → ParsedSentence
  | .vesselDynamicData d => .vesselDynamicData { d with ownVessel := own }
  | .vesselStaticData d => .vesselStaticData { d with ownVessel := own }
  | .baseStationReport d => .baseStationReport { d with ownVessel := own }
  | .binaryAddressedMessage d => .binaryAddressedMessage { d with ownVessel := own }
  | .standardSarAircraftPositionReport d => .standardSarAircraftPositionReport { d with ownVessel := own }
  | .utcDateInquiry d => .utcDateInquiry { d with ownVessel := own }
  | .aidToNavigationReport d => .aidToNavigationReport { d with ownVessel := own }
  | r => r

/-- The same GNSS report with another source. -/
def withSource (nav : NavigationSystem) : ParsedSentence → ParsedSentence
  | .gga d => .gga { d with source := nav }
  | .rmc d => .rmc { d with source := nav }
  | .gsa d => .gsa { d with source := nav }
  | .gsv l => .gsv (l.map fun d => { d with source := nav })
  | .vtg d => .vtg { d with source := nav }
  | .gll d => .gll { d with source := nav }
  | r => r

/-- Change the report of a successful answer. -/
def onReport (f : ParsedSentence → ParsedSentence) : Out ParseError ParsedSentence → Out ParseError ParsedSentence
  | .ok r => .ok (f r)
  | .err e => .err e
  | .panic => .panic

/-- Two answers are equal but for the own-vessel flag, or both refuse the message type. -/
inductive EqualButOwn (own : Bool) : Out ParseError ParsedSentence → Out ParseError ParsedSentence → Prop where
  | report (r : ParsedSentence) : EqualButOwn own (.ok r) (.ok (withOwn own r))
  | refused (m m' : Str) : EqualButOwn own (.err (.unsupportedSentenceType m)) (.err (.unsupportedSentenceType m'))
  | error (e : ParseError) : EqualButOwn own (.err e) (.err e)
  | panic : EqualButOwn own .panic .panic

/-- An AIS sentence and the same with VDM and VDO exchanged. -/
structure Twin where
  env : Env
  talker : Str
  own : Bool
  fields : List Str
  sentence : Str
  exchanged : Str

/-- The environment with a given build profile. -/
def build (checks : Bool) (env : Env) : Env := { env with overflowChecks := checks }

/-- A history with a given build profile. -/
def buildAll (checks : Bool) (h : List (Env × Str)) : List (Env × Str) := h.map fun x => (build checks x.1, x.2)

end Nmea.Spec
