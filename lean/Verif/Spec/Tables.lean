/-
Specification tables: talker ids and the parts of a result that depend on the tag of the sentence.
-/
import Verif.Model.GnssTypes

namespace Nmea.Spec

/-- Navigation system named by a GNSS talker id. -/
def systemTable : List (Str × NavigationSystem) :=
  [(c! "GN", .combination), (c! "GP", .gps), (c! "GL", .glonass), (c! "GA", .galileo), (c! "BD", .beidou),
   (c! "GI", .navic), (c! "QZ", .qzss)]

/-- Navigation system of a talker id; `Other` if not listed. -/
def talkerSystem (talker : Str) : NavigationSystem := (systemTable.lookup talker).getD .other

/-- Station kind named by an AIS talker id. -/
def stationTable : List (Str × Station) :=
  [(c! "AB", .baseStation), (c! "AD", .dependentAisBaseStation), (c! "AI", .mobileStation),
   (c! "AN", .aidToNavigationStation), (c! "AR", .aisReceivingStation), (c! "AS", .limitedBaseStation),
   (c! "AT", .aisTransmittingStation), (c! "AX", .repeaterStation)]

/-- Station kind of a talker id; `Other` if not listed. -/
def talkerStation (talker : Str) : Station := (stationTable.lookup talker).getD .other

/-- The navigation systems mentioned in a result. -/
def sources : ParsedSentence → List NavigationSystem
  | .gga d => [d.source]
  | .rmc d => [d.source]
  | .gsa d => [d.source]
  | .gsv l => l.map (·.source)
  | .vtg d => [d.source]
  | .gll d => [d.source]
  | _ => []

/-- The station of a result that carries one. -/
def stationIn : ParsedSentence → Option Station
  | .vesselDynamicData d => some d.station
  | .baseStationReport d => some d.station
  | .binaryAddressedMessage d => some d.station
  | .standardSarAircraftPositionReport d => some d.station
  | .utcDateInquiry d => some d.station
  | .aidToNavigationReport d => some d.station
  | _ => none

/-- The own-vessel flag of a result that carries one. -/
def ownIn : ParsedSentence → Option Bool
  | .vesselDynamicData d => some d.ownVessel
  | .vesselStaticData d => some d.ownVessel
  | .baseStationReport d => some d.ownVessel
  | .binaryAddressedMessage d => some d.ownVessel
  | .standardSarAircraftPositionReport d => some d.ownVessel
  | .utcDateInquiry d => some d.ownVessel
  | .aidToNavigationReport d => some d.ownVessel
  | _ => none

/-- The three-letter sentence kind of a GNSS result. -/
def gnssKindOf : ParsedSentence → Option Str
  | .gga _ => some (c! "GGA")
  | .rmc _ => some (c! "RMC")
  | .gsa _ => some (c! "GSA")
  | .gsv _ => some (c! "GSV")
  | .vtg _ => some (c! "VTG")
  | .gll _ => some (c! "GLL")
  | _ => none

/-- AIS message types that lead to a result of this kind. -/
def aisTypesOf : ParsedSentence → List Nat
  | .vesselDynamicData _ => [1, 2, 3, 18, 27]
  | .vesselStaticData _ => [5, 24]
  | .baseStationReport _ => [4]
  | .binaryAddressedMessage _ => [6]
  | .standardSarAircraftPositionReport _ => [9]
  | .utcDateInquiry _ => [10]
  | .aidToNavigationReport _ => [21]
  | _ => []

/-- The kinds of GNSS sentences that are decoded. -/
def gnssKinds : List Str := [c! "GGA", c! "RMC", c! "GSA", c! "GSV", c! "VTG", c! "GLL"]

end Nmea.Spec
