/-
Model of the `Display` implementations (the labels of enumeration values) and of the `LatLon` accessors.
-/
import Verif.Model.GnssTypes

namespace Nmea

/-- src/ais/mod.rs:71-86 `Display for Station`. -/
def Station.label : Station → Str
  | .baseStation => c! "base station"
  | .dependentAisBaseStation => c! "dependent AIS base station"
  | .mobileStation => c! "mobile station"
  | .aidToNavigationStation => c! "aid to navigation station"
  | .aisReceivingStation => c! "ais receiving station"
  | .limitedBaseStation => c! "limited base station"
  | .aisTransmittingStation => c! "AIS transmitting station"
  | .repeaterStation => c! "repeater station"
  | .other => c! "other"

/-- src/ais/mod.rs:297-307 `Display for PositioningSystemMeta`. -/
def PositioningSystemMeta.label : PositioningSystemMeta → Str
  | .operative => c! "operative"
  | .manualInputMode => c! "manual input mode"
  | .deadReckoningMode => c! "dead reckoning mode"
  | .inoperative => c! "inoperative"

/-- src/ais/mod.rs:475-508 `Display for ShipType`. -/
def ShipType.label : ShipType → Str
  | .notAvailable => c! "(not available)"
  | .reserved1 => c! "(reserved)"
  | .wingInGround => c! "wing in ground"
  | .fishing => c! "fishing"
  | .towing => c! "towing"
  | .towingLong => c! "towing, long"
  | .dredgingOrUnderwaterOps => c! "dredging or underwater ops"
  | .divingOps => c! "diving ops"
  | .militaryOps => c! "military ops"
  | .sailing => c! "sailing"
  | .pleasureCraft => c! "pleasure craft"
  | .reserved38 => c! "(reserved)"
  | .reserved39 => c! "(reserved)"
  | .highSpeedCraft => c! "high-speed craft"
  | .pilot => c! "pilot"
  | .searchAndRescue => c! "search and rescue"
  | .tug => c! "tug"
  | .portTender => c! "port tender"
  | .antiPollutionEquipment => c! "anti-pollution equipment"
  | .lawEnforcement => c! "law enforcement"
  | .spareLocal56 => c! "(local)"
  | .spareLocal57 => c! "(local)"
  | .medicalTransport => c! "medical transport"
  | .noncombatant => c! "noncombatant"
  | .passenger => c! "passenger"
  | .cargo => c! "cargo"
  | .tanker => c! "tanker"
  | .other => c! "other"

/-- src/ais/mod.rs:567-582 `Display for CargoType`. -/
def CargoType.label : CargoType → Str
  | .undefined => c! "undefined"
  | .hazardousCategoryA => c! "hazardous category A"
  | .hazardousCategoryB => c! "hazardous category B"
  | .hazardousCategoryC => c! "hazardous category C"
  | .hazardousCategoryD => c! "hazardous category D"
  | .reserved5 => c! "(reserved)"
  | .reserved6 => c! "(reserved)"
  | .reserved7 => c! "(reserved)"
  | .reserved8 => c! "(reserved)"
  | .reserved9 => c! "(reserved)"

/-- src/ais/mod.rs:625-640 `Display for PositionFixType`. -/
def PositionFixType.label : PositionFixType → Str
  | .undefined => c! "undefined"
  | .gps => c! "GPS"
  | .glonass => c! "GLONASS"
  | .gpsGlonass => c! "GPS/GLONASS"
  | .loranC => c! "Loran-C"
  | .chayka => c! "Chayka"
  | .integratedNavigationSystem => c! "integrated navigation system"
  | .surveyed => c! "surveyed"
  | .galileo => c! "Galileo"

/-- src/ais/vdm_t21.rs:241-287 `Display for NavAidType`. -/
def NavAidType.label : NavAidType → Str
  | .notSpecified => c! "not specified"
  | .referencePoint => c! "reference point"
  | .racon => c! "RACON"
  | .fixedStructure => c! "FixedStructure"
  | .reserved4 => c! "(reserved)"
  | .lightWithoutSectors => c! "light without sectors"
  | .lightWithSectors => c! "light with sectors"
  | .leadingLightFront => c! "leading light front"
  | .leadingLightRear => c! "leading light rear"
  | .beaconCardinalNorth => c! "cardinal beacon, north"
  | .beaconCardinalEast => c! "cardinal beacon, east"
  | .beaconCardinalSouth => c! "cardinal beacon, south"
  | .beaconCardinalWest => c! "cardinal beacon, west"
  | .beaconLateralPort => c! "lateral beacon, port side"
  | .beaconLateralStarboard => c! "lateral beacon, starboard side"
  | .beaconLateralPreferredChannelPort => c! "lateral beacon, preferred channel, port side"
  | .beaconLateralPreferredChannelStarboard => c! "lateral beacon, preferred channel, starboard side"
  | .beaconIsolatedDanger => c! "isolated danger beacon"
  | .beaconSafeWater => c! "safe water"
  | .beaconSpecialMark => c! "special mark"
  | .cardinalMarkNorth => c! "cardinal mark, north"
  | .cardinalMarkEast => c! "cardinal mark, east"
  | .cardinalMarkSouth => c! "cardinal mark, south"
  | .cardinalMarkWest => c! "cardinal mark, west"
  | .portHandMark => c! "port hand mark"
  | .starboardHandMark => c! "starboard hand mark"
  | .preferredChannelPort => c! "preferred channel, port side"
  | .preferredChannelStarboard => c! "preferred channel, starboard side"
  | .isolatedDanger => c! "isolated danger"
  | .safeWater => c! "safe water"
  | .specialMark => c! "special mark"
  | .lightVessel => c! "light vessel"

/-- src/gnss/mod.rs:70-84 `Display for NavigationSystem`. -/
def NavigationSystem.label : NavigationSystem → Str
  | .combination => c! "combination"
  | .gps => c! "GPS"
  | .glonass => c! "GLONASS"
  | .galileo => c! "Galileo"
  | .beidou => c! "BeiDou"
  | .navic => c! "Navic"
  | .qzss => c! "QZSS"
  | .other => c! "other"

/-- src/gnss/gga.rs:97-112 `Display for GgaQualityIndicator`. -/
def GgaQualityIndicator.label : GgaQualityIndicator → Str
  | .invalid => c! "invalid"
  | .gpsFix => c! "GPS fix"
  | .dGpsFix => c! "DGPS fix"
  | .ppsFix => c! "PPS fix"
  | .realTimeKinematic => c! "Real-Time Kinematic"
  | .realTimeKinematicFloat => c! "Real-Time Kinematic (floating point)"
  | .deadReckoning => c! "dead reckoning"
  | .manualInputMode => c! "manual input mode"
  | .simulationMode => c! "simulation mode"

/-- src/gnss/gsa.rs:55-64 `Display for GsaFixMode`. -/
def GsaFixMode.label : GsaFixMode → Str
  | .notAvailable => c! "no available"
  | .fix2D => c! "2D fix"
  | .fix3D => c! "3D fix"

/-- The `LatLon` accessors (src/lib.rs:101-109): `latitude()` and `longitude()` of the results that implement
the trait (src/ais/mod.rs:226-234, src/ais/vdm_t4.rs:59-67, src/ais/vdm_t6.rs:51-59, src/ais/vdm_t9.rs:74-82,
src/ais/vdm_t21.rs:84-92, src/gnss/gga.rs:56-64, src/gnss/rmc.rs:46-54, src/gnss/gll.rs:40-48); `none` for
results without the trait. -/
def latLon : ParsedSentence → Option (Option F64 × Option F64)
  | .vesselDynamicData d => some (d.latitude, d.longitude)
  | .baseStationReport d => some (d.latitude, d.longitude)
  | .binaryAddressedMessage _ => some (none, none)
  | .standardSarAircraftPositionReport d => some (d.latitude, d.longitude)
  | .aidToNavigationReport d => some (d.latitude, d.longitude)
  | .gga d => some (d.latitude, d.longitude)
  | .rmc d => some (d.latitude, d.longitude)
  | .gll d => some (d.latitude, d.longitude)
  | _ => none

end Nmea
