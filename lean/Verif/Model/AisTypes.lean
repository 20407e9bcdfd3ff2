/-
Model of the data types of src/ais/mod.rs and of the report structures declared in src/ais/vdm_t*.rs.
-/
import Verif.Model.Util

namespace Nmea

/-- src/ais/mod.rs:53-63. -/
inductive Station where
  | baseStation | dependentAisBaseStation | mobileStation | aidToNavigationStation
  | aisReceivingStation | limitedBaseStation | aisTransmittingStation | repeaterStation | other
  deriving DecidableEq, Repr

/-- src/ais/mod.rs:198-207. -/
inductive AisClass where
  | unknown | classA | classB
  deriving DecidableEq, Repr

/-- src/ais/mod.rs:215-224 `Display for AisClass`. -/
def AisClass.display : AisClass → Str
  | .unknown => c! "unknown"
  | .classA => c! "Class A"
  | .classB => c! "Class B"

/-- src/ais/mod.rs:239-257. -/
inductive NavigationStatus where
  | underWayUsingEngine | atAnchor | notUnderCommand | restrictedManoeuverability
  | constrainedByDraught | moored | aground | engagedInFishing | underWaySailing
  | reserved9 | reserved10 | reserved11 | reserved12 | reserved13 | aisSartIsActive | notDefined
  deriving DecidableEq, Repr

/-- src/ais/mod.rs:259-279 `NavigationStatus::new`. -/
def NavigationStatus.new (raw : Nat) : NavigationStatus :=
  match raw with
  | 0 => .underWayUsingEngine
  | 1 => .atAnchor
  | 2 => .notUnderCommand
  | 3 => .restrictedManoeuverability
  | 4 => .constrainedByDraught
  | 5 => .moored
  | 6 => .aground
  | 7 => .engagedInFishing
  | 8 => .underWaySailing
  | 9 => .reserved9
  | 10 => .reserved10
  | 11 => .reserved11
  | 12 => .reserved12
  | 13 => .reserved13
  | 14 => .aisSartIsActive
  | 15 => .notDefined
  | _ => .notDefined

/-- src/ais/mod.rs:290-295. -/
inductive PositioningSystemMeta where
  | operative | manualInputMode | deadReckoningMode | inoperative
  deriving DecidableEq, Repr

/-- src/ais/mod.rs:93-194 `VesselDynamicData`. -/
structure VesselDynamicData where
  ownVessel : Bool
  station : Station
  aisType : AisClass
  mmsi : Nat
  navStatus : NavigationStatus
  rot : Option F64
  rotDirection : Option Int
  sogKnots : Option F64
  highPositionAccuracy : Bool
  latitude : Option F64
  longitude : Option F64
  cog : Option F64
  headingTrue : Option F64
  timestampSeconds : Nat
  positioningSystemMeta : Option PositioningSystemMeta
  currentGnssPosition : Option Bool
  specialManoeuvre : Option Bool
  raimFlag : Bool
  classBUnitFlag : Option Bool
  classBDisplay : Option Bool
  classBDsc : Option Bool
  classBBandFlag : Option Bool
  classBMsg22Flag : Option Bool
  classBModeFlag : Option Bool
  classBCssFlag : Option Bool
  radioStatus : Option Nat
  deriving DecidableEq, Repr

/-- src/ais/mod.rs:378-407. -/
inductive ShipType where
  | notAvailable | reserved1 | wingInGround | fishing | towing | towingLong
  | dredgingOrUnderwaterOps | divingOps | militaryOps | sailing | pleasureCraft
  | reserved38 | reserved39 | highSpeedCraft | pilot | searchAndRescue | tug | portTender
  | antiPollutionEquipment | lawEnforcement | spareLocal56 | spareLocal57 | medicalTransport
  | noncombatant | passenger | cargo | tanker | other
  deriving DecidableEq, Repr

/-- src/ais/mod.rs:410-465 `ShipType::new`, arm by arm (80-89 and 90-99 are `Cargo` in the code,
lines 454-459). -/
def ShipType.new (raw : Nat) : ShipType :=
  match raw with
  | 0 | 1 | 2 | 3 | 4 | 5 | 6 | 7 | 8 | 9 => .notAvailable
  | 10 | 11 | 12 | 13 | 14 | 15 | 16 | 17 | 18 | 19 => .reserved1
  | 20 | 21 | 22 | 23 | 24 | 25 | 26 | 27 | 28 | 29 => .wingInGround
  | 30 => .fishing
  | 31 => .towing
  | 32 => .towingLong
  | 33 => .dredgingOrUnderwaterOps
  | 34 => .divingOps
  | 35 => .militaryOps
  | 36 => .sailing
  | 37 => .pleasureCraft
  | 38 => .reserved38
  | 39 => .reserved39
  | 40 | 41 | 42 | 43 | 44 | 45 | 46 | 47 | 48 | 49 => .highSpeedCraft
  | 50 => .pilot
  | 51 => .searchAndRescue
  | 52 => .tug
  | 53 => .portTender
  | 54 => .antiPollutionEquipment
  | 55 => .lawEnforcement
  | 56 => .spareLocal56
  | 57 => .spareLocal57
  | 58 => .medicalTransport
  | 59 => .noncombatant
  | 60 | 61 | 62 | 63 | 64 | 65 | 66 | 67 | 68 | 69 => .passenger
  | 70 | 71 | 72 | 73 | 74 | 75 | 76 | 77 | 78 | 79 => .cargo
  | 80 | 81 | 82 | 83 | 84 | 85 | 86 | 87 | 88 | 89 => .cargo
  | 90 | 91 | 92 | 93 | 94 | 95 | 96 | 97 | 98 | 99 => .cargo
  | _ => .notAvailable

/-- src/ais/mod.rs:512-523. -/
inductive CargoType where
  | undefined | hazardousCategoryA | hazardousCategoryB | hazardousCategoryC | hazardousCategoryD
  | reserved5 | reserved6 | reserved7 | reserved8 | reserved9
  deriving DecidableEq, Repr

/-- src/ais/mod.rs:527-564 `CargoType::new`. -/
def CargoType.new (raw : Nat) : CargoType :=
  match raw with
  | 10 | 20 | 40 | 60 | 70 | 80 | 90 => .undefined
  | 11 | 21 | 41 | 61 | 71 | 81 | 91 => .hazardousCategoryA
  | 12 | 22 | 42 | 62 | 72 | 82 | 92 => .hazardousCategoryB
  | 13 | 23 | 43 | 63 | 73 | 83 | 93 => .hazardousCategoryC
  | 14 | 24 | 44 | 64 | 74 | 84 | 94 => .hazardousCategoryD
  | 15 | 25 | 45 | 65 | 75 | 85 | 95 => .reserved5
  | 16 | 26 | 46 | 66 | 76 | 86 | 96 => .reserved6
  | 17 | 27 | 47 | 67 | 77 | 87 | 97 => .reserved7
  | 18 | 28 | 48 | 68 | 78 | 88 | 98 => .reserved8
  | 19 | 29 | 49 | 69 | 79 | 89 | 99 => .reserved9
  | _ => .undefined

/-- src/ais/mod.rs:593-603. -/
inductive PositionFixType where
  | undefined | gps | glonass | gpsGlonass | loranC | chayka | integratedNavigationSystem
  | surveyed | galileo
  deriving DecidableEq, Repr

/-- src/ais/mod.rs:606-622 `PositionFixType::new`. -/
def PositionFixType.new (raw : Nat) : PositionFixType :=
  match raw with
  | 0 => .undefined
  | 1 => .gps
  | 2 => .glonass
  | 3 => .gpsGlonass
  | 4 => .loranC
  | 5 => .chayka
  | 6 => .integratedNavigationSystem
  | 7 => .surveyed
  | 8 => .galileo
  | _ => .undefined

/-- src/ais/mod.rs:314-374 `VesselStaticData`. -/
structure VesselStaticData where
  ownVessel : Bool
  aisType : AisClass
  mmsi : Nat
  aisVersionIndicator : Nat
  imoNumber : Option Nat
  callSign : Option Str
  name : Option Str
  shipType : ShipType
  cargoType : CargoType
  equipmentVendorId : Option Str
  equipmentModel : Option Nat
  equipmentSerialNumber : Option Nat
  dimensionToBow : Option Nat
  dimensionToStern : Option Nat
  dimensionToPort : Option Nat
  dimensionToStarboard : Option Nat
  positionFixType : Option PositionFixType
  eta : Option DateTime
  draught10 : Option Nat
  destination : Option Str
  mothershipMmsi : Option Nat
  deriving DecidableEq, Repr

/-- src/ais/vdm_t4.rs:23-57. -/
structure BaseStationReport where
  ownVessel : Bool
  station : Station
  mmsi : Nat
  timestamp : Option DateTime
  highPositionAccuracy : Bool
  latitude : Option F64
  longitude : Option F64
  positionFixType : Option PositionFixType
  raimFlag : Bool
  radioStatus : Nat
  deriving DecidableEq, Repr

/-- src/ais/vdm_t6.rs:23-49. -/
structure BinaryAddressedMessage where
  ownVessel : Bool
  station : Station
  mmsi : Nat
  sequenceNumber : Nat
  destinationMmsi : Nat
  retransmitFlag : Bool
  dac : Nat
  fid : Nat
  deriving DecidableEq, Repr

/-- src/ais/vdm_t9.rs:23-72. -/
structure StandardSarAircraftPositionReport where
  ownVessel : Bool
  station : Station
  mmsi : Nat
  altitude : Option Nat
  sogKnots : Option Nat
  highPositionAccuracy : Bool
  latitude : Option F64
  longitude : Option F64
  cog : Option F64
  timestampSeconds : Nat
  regional : Nat
  dte : Bool
  assigned : Bool
  raimFlag : Bool
  radioStatus : Nat
  deriving DecidableEq, Repr

/-- src/ais/vdm_t10.rs:23-36. -/
structure UtcDateInquiry where
  ownVessel : Bool
  station : Station
  sourceMmsi : Nat
  destinationMmsi : Nat
  deriving DecidableEq, Repr

/-- src/ais/vdm_t21.rs:97-193. -/
inductive NavAidType where
  | notSpecified | referencePoint | racon | fixedStructure | reserved4 | lightWithoutSectors
  | lightWithSectors | leadingLightFront | leadingLightRear | beaconCardinalNorth
  | beaconCardinalEast | beaconCardinalSouth | beaconCardinalWest | beaconLateralPort
  | beaconLateralStarboard | beaconLateralPreferredChannelPort
  | beaconLateralPreferredChannelStarboard | beaconIsolatedDanger | beaconSafeWater
  | beaconSpecialMark | cardinalMarkNorth | cardinalMarkEast | cardinalMarkSouth
  | cardinalMarkWest | portHandMark | starboardHandMark | preferredChannelPort
  | preferredChannelStarboard | isolatedDanger | safeWater | specialMark | lightVessel
  deriving DecidableEq, Repr

/-- src/ais/vdm_t21.rs:196-232 `NavAidType::new`. -/
def NavAidType.new (raw : Nat) : Out ParseError NavAidType :=
  match raw with
  | 0 => .ok .notSpecified
  | 1 => .ok .referencePoint
  | 2 => .ok .racon
  | 3 => .ok .fixedStructure
  | 4 => .ok .reserved4
  | 5 => .ok .lightWithoutSectors
  | 6 => .ok .lightWithSectors
  | 7 => .ok .leadingLightFront
  | 8 => .ok .leadingLightRear
  | 9 => .ok .beaconCardinalNorth
  | 10 => .ok .beaconCardinalEast
  | 11 => .ok .beaconCardinalSouth
  | 12 => .ok .beaconCardinalWest
  | 13 => .ok .beaconLateralPort
  | 14 => .ok .beaconLateralStarboard
  | 15 => .ok .beaconLateralPreferredChannelPort
  | 16 => .ok .beaconLateralPreferredChannelStarboard
  | 17 => .ok .beaconIsolatedDanger
  | 18 => .ok .beaconSafeWater
  | 19 => .ok .beaconSpecialMark
  | 20 => .ok .cardinalMarkNorth
  | 21 => .ok .cardinalMarkEast
  | 22 => .ok .cardinalMarkSouth
  | 23 => .ok .cardinalMarkWest
  | 24 => .ok .portHandMark
  | 25 => .ok .starboardHandMark
  | 26 => .ok .preferredChannelPort
  | 27 => .ok .preferredChannelStarboard
  | 28 => .ok .isolatedDanger
  | 29 => .ok .safeWater
  | 30 => .ok .specialMark
  | 31 => .ok .lightVessel
  | _ => .err (.invalidSentence (c! "Unrecognized Nav aid type code: " ++ natStr raw))

/-- src/ais/vdm_t21.rs:23-82. -/
structure AidToNavigationReport where
  ownVessel : Bool
  station : Station
  mmsi : Nat
  aidType : NavAidType
  name : Str
  highPositionAccuracy : Bool
  latitude : Option F64
  longitude : Option F64
  dimensionToBow : Option Nat
  dimensionToStern : Option Nat
  dimensionToPort : Option Nat
  dimensionToStarboard : Option Nat
  positionFixType : Option PositionFixType
  timestampSeconds : Nat
  offPositionIndicator : Bool
  regional : Nat
  raimFlag : Bool
  virtualAidFlag : Bool
  assignedModeFlag : Bool
  deriving DecidableEq, Repr

end Nmea
