/-
Specification of the words that `{:?}` gives for enumeration values, as functions of what the sentence transmits: code numbers,
letters and talker ids.
-/
import Verif.Spec.Texts

namespace Nmea.Spec

/-- Words of the ship type, by the tens digit of the code. -/
def shipTensWords : List Str :=
  [c! "NotAvailable", c! "Reserved1", c! "WingInGround", [], c! "HighSpeedCraft", [], c! "Passenger", c! "Cargo", c! "Cargo",
   c! "Cargo"]

/-- Words of the ship types 30..39. -/
def shipThirtiesWords : List Str :=
  [c! "Fishing", c! "Towing", c! "TowingLong", c! "DredgingOrUnderwaterOps", c! "DivingOps", c! "MilitaryOps", c! "Sailing",
   c! "PleasureCraft", c! "Reserved38", c! "Reserved39"]

/-- Words of the ship types 50..59. -/
def shipFiftiesWords : List Str :=
  [c! "Pilot", c! "SearchAndRescue", c! "Tug", c! "PortTender", c! "AntiPollutionEquipment", c! "LawEnforcement",
   c! "SpareLocal56", c! "SpareLocal57", c! "MedicalTransport", c! "Noncombatant"]

/-- Word of the ship type of a code. -/
def shipWord (code : Nat) : Str :=
  if code / 10 = 3 then shipThirtiesWords.getD (code % 10) []
  else if code / 10 = 5 then shipFiftiesWords.getD (code % 10) []
  else shipTensWords.getD (code / 10) (c! "NotAvailable")

/-- Word of the cargo type of a code. -/
def cargoWord (code : Nat) : Str :=
  if code / 10 ∈ [1, 2, 4, 6, 7, 8, 9] then
    [c! "Undefined", c! "HazardousCategoryA", c! "HazardousCategoryB", c! "HazardousCategoryC", c! "HazardousCategoryD",
     c! "Reserved5", c! "Reserved6", c! "Reserved7", c! "Reserved8", c! "Reserved9"].getD (code % 10) []
  else c! "Undefined"

/-- Word of the fixing device of a code. -/
def fixWord (code : Nat) : Str :=
  [c! "Undefined", c! "GPS", c! "GLONASS", c! "GPSGLONASS", c! "LoranC", c! "Chayka", c! "IntegratedNavigationSystem",
   c! "Surveyed", c! "Galileo"].getD code (c! "Undefined")

/-- The fixing device where code 0 means that there is none. -/
def optFixWord (code : Nat) : Option Str := if code = 0 then none else some (fixWord code)

/-- Words of the aid to navigation types 0..31. -/
def aidWords : List Str :=
  [c! "NotSpecified", c! "ReferencePoint", c! "Racon", c! "FixedStructure", c! "Reserved4", c! "LightWithoutSectors",
   c! "LightWithSectors", c! "LeadingLightFront", c! "LeadingLightRear", c! "BeaconCardinalNorth", c! "BeaconCardinalEast",
   c! "BeaconCardinalSouth", c! "BeaconCardinalWest", c! "BeaconLateralPort", c! "BeaconLateralStarboard",
   c! "BeaconLateralPreferredChannelPort", c! "BeaconLateralPreferredChannelStarboard", c! "BeaconIsolatedDanger",
   c! "BeaconSafeWater", c! "BeaconSpecialMark", c! "CardinalMarkNorth", c! "CardinalMarkEast", c! "CardinalMarkSouth",
   c! "CardinalMarkWest", c! "PortHandMark", c! "StarboardHandMark", c! "PreferredChannelPort", c! "PreferredChannelStarboard",
   c! "IsolatedDanger", c! "SafeWater", c! "SpecialMark", c! "LightVessel"]

/-- Words of the navigation statuses 0..15. -/
def statusWords : List Str :=
  [c! "UnderWayUsingEngine", c! "AtAnchor", c! "NotUnderCommand", c! "RestrictedManoeuverability", c! "ConstrainedByDraught",
   c! "Moored", c! "Aground", c! "EngagedInFishing", c! "UnderWaySailing", c! "Reserved9", c! "Reserved10", c! "Reserved11",
   c! "Reserved12", c! "Reserved13", c! "AisSartIsActive", c! "NotDefined"]

/-- The state of the positioning system, by the time stamp second; none at 60. -/
def positioningWord (second : Nat) : Option Str :=
  if second < 60 then some (c! "Operative")
  else [none, some (c! "ManualInputMode"), some (c! "DeadReckoningMode"), some (c! "Inoperative")].getD (second - 60) none

/-- Word of the station of a talker id. -/
def stationWord (talker : Str) : Str :=
  (List.lookup talker [(c! "AB", c! "BaseStation"), (c! "AD", c! "DependentAisBaseStation"), (c! "AI", c! "MobileStation"),
    (c! "AN", c! "AidToNavigationStation"), (c! "AR", c! "AisReceivingStation"), (c! "AS", c! "LimitedBaseStation"),
    (c! "AT", c! "AisTransmittingStation"), (c! "AX", c! "RepeaterStation")]).getD (c! "Other")

/-- Word of the navigation system of a talker id. -/
def systemWord (talker : Str) : Str :=
  (List.lookup talker [(c! "GN", c! "Combination"), (c! "GP", c! "Gps"), (c! "GL", c! "Glonass"), (c! "GA", c! "Galileo"),
    (c! "BD", c! "Beidou"), (c! "GI", c! "Navic"), (c! "QZ", c! "Qzss")]).getD (c! "Other")

/-- Word of a GGA quality code. -/
def qualityWord (code : Nat) : Str :=
  [c! "Invalid", c! "GpsFix", c! "DGpsFix", c! "PpsFix", c! "RealTimeKinematic", c! "RealTimeKinematicFloat",
   c! "DeadReckoning", c! "ManualInputMode", c! "SimulationMode"].getD code (c! "Invalid")

/-- Words of the GSA fix type, by the transmitted digit. -/
def gsaFixWords : List (Str × Str) :=
  [(c! "1", c! "NotAvailable"), (c! "2", c! "Fix2D"), (c! "3", c! "Fix3D")]

/-- Words of the FAA mode, by the transmitted letter. -/
def faaWords : List (Str × Str) :=
  [(c! "A", c! "Autonomous"), (c! "D", c! "Differential"), (c! "E", c! "Estimated"), (c! "N", c! "NotValid")]

/-- The value of a field that may be absent. -/
def optWord : Option Str → Str
  | none => c! "None"
  | some w => c! "Some(" ++ w ++ c! ")"

/-- `text` has the entry `name: value`, ended by a comma or by the end of the structure. -/
def HasEntry (text name value : Str) : Prop := ∃ stop ∈ [c! ", ", c! " }"], (name ++ c! ": " ++ value ++ stop) <:+: text

end Nmea.Spec
