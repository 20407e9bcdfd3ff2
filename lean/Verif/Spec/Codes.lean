/-
Specification tables: enumerations of ITU-R M.1371, as lists indexed by the transmitted code.
-/
import Verif.Model.AisTypes

namespace Nmea.Spec

/-- Navigational status, codes 0..15. -/
def navStatusTable : List NavigationStatus :=
  [.underWayUsingEngine, .atAnchor, .notUnderCommand, .restrictedManoeuverability, .constrainedByDraught,
   .moored, .aground, .engagedInFishing, .underWaySailing, .reserved9, .reserved10, .reserved11, .reserved12,
   .reserved13, .aisSartIsActive, .notDefined]

/-- Type of electronic position fixing device, codes 0..8. -/
def fixTable : List PositionFixType :=
  [.undefined, .gps, .glonass, .gpsGlonass, .loranC, .chayka, .integratedNavigationSystem, .surveyed, .galileo]

/-- Fixing device of a code; codes outside the table are undefined. -/
def fixOf (code : Nat) : PositionFixType := fixTable.getD code .undefined

/-- Aid to navigation type, codes 0..31. -/
def navAidTable : List NavAidType :=
  [.notSpecified, .referencePoint, .racon, .fixedStructure, .reserved4, .lightWithoutSectors,
   .lightWithSectors, .leadingLightFront, .leadingLightRear, .beaconCardinalNorth, .beaconCardinalEast,
   .beaconCardinalSouth, .beaconCardinalWest, .beaconLateralPort, .beaconLateralStarboard,
   .beaconLateralPreferredChannelPort, .beaconLateralPreferredChannelStarboard, .beaconIsolatedDanger,
   .beaconSafeWater, .beaconSpecialMark, .cardinalMarkNorth, .cardinalMarkEast, .cardinalMarkSouth,
   .cardinalMarkWest, .portHandMark, .starboardHandMark, .preferredChannelPort, .preferredChannelStarboard,
   .isolatedDanger, .safeWater, .specialMark, .lightVessel]

/-- Meaning of the time stamp second of a position report: 60 not available, 61 manual input, 62 dead
reckoning, 63 inoperative, otherwise operative. -/
def metaOf (second : Nat) : Option PositioningSystemMeta :=
  if second < 60 then some .operative
  else [none, some .manualInputMode, some .deadReckoningMode, some .inoperative].getD (second - 60) none

/-- Ship types by the tens digit of the code. -/
def shipTens : List ShipType :=
  [.notAvailable, .reserved1, .wingInGround, .fishing, .highSpeedCraft, .pilot, .passenger, .cargo, .tanker,
   .other]

/-- Ship types 30..39. -/
def shipThirties : List ShipType :=
  [.fishing, .towing, .towingLong, .dredgingOrUnderwaterOps, .divingOps, .militaryOps, .sailing,
   .pleasureCraft, .reserved38, .reserved39]

/-- Ship types 50..59. -/
def shipFifties : List ShipType :=
  [.pilot, .searchAndRescue, .tug, .portTender, .antiPollutionEquipment, .lawEnforcement, .spareLocal56,
   .spareLocal57, .medicalTransport, .noncombatant]

/-- Ship type of a code according to the standard. -/
def standardShip (code : Nat) : ShipType :=
  if code / 10 = 3 then shipThirties.getD (code % 10) .notAvailable
  else if code / 10 = 5 then shipFifties.getD (code % 10) .notAvailable
  else shipTens.getD (code / 10) .notAvailable

/-- Ship type that is reported: the standard one, except that tankers (80..89) and other ships (90..99) are
reported as cargo ships. -/
def reportedShip (code : Nat) : ShipType := if code / 10 = 8 ∨ code / 10 = 9 then .cargo else standardShip code

/-- Cargo types by the units digit of the code. -/
def cargoUnits : List CargoType :=
  [.undefined, .hazardousCategoryA, .hazardousCategoryB, .hazardousCategoryC, .hazardousCategoryD,
   .reserved5, .reserved6, .reserved7, .reserved8, .reserved9]

/-- Cargo type of a code: by the units digit, except in the decades without cargo digit (0x, 3x, 5x) and
above 99. -/
def cargoOf (code : Nat) : CargoType :=
  if code / 10 ∈ [1, 2, 4, 6, 7, 8, 9] then cargoUnits.getD (code % 10) .undefined else .undefined

end Nmea.Spec
