/-
Model of the texts that `{:?}` gives for the answers of the parser: `derive(Debug)` of the types of src/lib.rs, src/error.rs,
src/ais and src/gnss. The form with line breaks, `{:#?}`, is in Model/Pretty.lean.
-/
import Verif.Model.Parse
import Verif.Model.Sample

namespace Nmea

/-- What the standard library supplies: `{:?}` of a double, and of the apostrophe, NUL and characters outside ASCII in texts.
Parameters of the model. -/
structure Library where
  double : F64 → Str
  escape : Char → Str

/-- `Debug for str`; of the environment of `Env.debugStr` only the escapes matter. -/
def Library.debugStr (l : Library) (s : Str) : Str := Env.debugStr ⟨⟨1970, 1, 1, 0, 0, 0⟩, false, l.escape⟩ s

/-- `Debug for bool`. -/
def debugBool : Bool → Str
  | true => c! "true"
  | false => c! "false"

/-- `Debug` for signed numbers. -/
def debugInt (n : Int) : Str := if n < 0 then '-' :: natStr n.natAbs else natStr n.natAbs

/-- `Debug for Option`. -/
def debugOption {α : Type} (text : α → Str) : Option α → Str
  | none => c! "None"
  | some x => c! "Some(" ++ text x ++ c! ")"

/-- The entries of a list or a structure. -/
def debugEntries : List Str → Str
  | [] => []
  | [t] => t
  | t :: ts => t ++ c! ", " ++ debugEntries ts

/-- `Debug for Vec`. -/
def debugVec {α : Type} (text : α → Str) (xs : List α) : Str := c! "[" ++ debugEntries (xs.map text) ++ c! "]"

/-- `derive(Debug)` for a structure with named fields (`Formatter::debug_struct`). -/
def debugStruct (name : Str) (fields : List (Str × Str)) : Str :=
  name ++ c! " { " ++ debugEntries (fields.map fun f => f.1 ++ c! ": " ++ f.2) ++ c! " }"

/-- `derive(Debug)` for a variant with one value (`Formatter::debug_tuple`). -/
def debugTuple (name value : Str) : Str := name ++ c! "(" ++ value ++ c! ")"

/-- chrono 0.4.19, `Debug for DateTime<Utc>` with no subseconds: `{:04}-{:02}-{:02}T{:02}:{:02}:{:02}Z`, years beyond four
digits with sign (`{:+05}`). -/
def DateTime.debug (t : DateTime) : Str :=
  (if 0 ≤ t.year ∧ t.year ≤ 9999 then zeroPadded 4 t.year.toNat
   else (if t.year < 0 then '-' else '+') :: zeroPadded 4 t.year.natAbs) ++
  '-' :: zeroPadded 2 t.month ++ '-' :: zeroPadded 2 t.day ++ 'T' :: zeroPadded 2 t.hour ++ ':' :: zeroPadded 2 t.minute ++
  ':' :: zeroPadded 2 t.second ++ c! "Z"

/-- src/gnss/mod.rs:43-68 `derive(Debug) for NavigationSystem`: the name of the variant. -/
def NavigationSystem.debug : NavigationSystem → Str
  | .combination => c! "Combination"
  | .gps => c! "Gps"
  | .glonass => c! "Glonass"
  | .galileo => c! "Galileo"
  | .beidou => c! "Beidou"
  | .navic => c! "Navic"
  | .qzss => c! "Qzss"
  | .other => c! "Other"

/-- src/gnss/mod.rs:88-104 `derive(Debug) for FaaMode`: the name of the variant. -/
def FaaMode.debug : FaaMode → Str
  | .autonomous => c! "Autonomous"
  | .differential => c! "Differential"
  | .estimated => c! "Estimated"
  | .notValid => c! "NotValid"
  | .simulator => c! "Simulator"

/-- src/ais/mod.rs:52-63 `derive(Debug) for Station`: the name of the variant. -/
def Station.debug : Station → Str
  | .baseStation => c! "BaseStation"
  | .dependentAisBaseStation => c! "DependentAisBaseStation"
  | .mobileStation => c! "MobileStation"
  | .aidToNavigationStation => c! "AidToNavigationStation"
  | .aisReceivingStation => c! "AisReceivingStation"
  | .limitedBaseStation => c! "LimitedBaseStation"
  | .aisTransmittingStation => c! "AisTransmittingStation"
  | .repeaterStation => c! "RepeaterStation"
  | .other => c! "Other"

/-- src/ais/mod.rs:197-207 `derive(Debug) for AisClass`: the name of the variant. -/
def AisClass.debug : AisClass → Str
  | .unknown => c! "Unknown"
  | .classA => c! "ClassA"
  | .classB => c! "ClassB"

/-- src/ais/mod.rs:238-257 `derive(Debug) for NavigationStatus`: the name of the variant. -/
def NavigationStatus.debug : NavigationStatus → Str
  | .underWayUsingEngine => c! "UnderWayUsingEngine"
  | .atAnchor => c! "AtAnchor"
  | .notUnderCommand => c! "NotUnderCommand"
  | .restrictedManoeuverability => c! "RestrictedManoeuverability"
  | .constrainedByDraught => c! "ConstrainedByDraught"
  | .moored => c! "Moored"
  | .aground => c! "Aground"
  | .engagedInFishing => c! "EngagedInFishing"
  | .underWaySailing => c! "UnderWaySailing"
  | .reserved9 => c! "Reserved9"
  | .reserved10 => c! "Reserved10"
  | .reserved11 => c! "Reserved11"
  | .reserved12 => c! "Reserved12"
  | .reserved13 => c! "Reserved13"
  | .aisSartIsActive => c! "AisSartIsActive"
  | .notDefined => c! "NotDefined"

/-- src/ais/mod.rs:289-295 `derive(Debug) for PositioningSystemMeta`: the name of the variant. -/
def PositioningSystemMeta.debug : PositioningSystemMeta → Str
  | .operative => c! "Operative"
  | .manualInputMode => c! "ManualInputMode"
  | .deadReckoningMode => c! "DeadReckoningMode"
  | .inoperative => c! "Inoperative"

/-- src/ais/mod.rs:377-407 `derive(Debug) for ShipType`: the name of the variant. -/
def ShipType.debug : ShipType → Str
  | .notAvailable => c! "NotAvailable"
  | .reserved1 => c! "Reserved1"
  | .wingInGround => c! "WingInGround"
  | .fishing => c! "Fishing"
  | .towing => c! "Towing"
  | .towingLong => c! "TowingLong"
  | .dredgingOrUnderwaterOps => c! "DredgingOrUnderwaterOps"
  | .divingOps => c! "DivingOps"
  | .militaryOps => c! "MilitaryOps"
  | .sailing => c! "Sailing"
  | .pleasureCraft => c! "PleasureCraft"
  | .reserved38 => c! "Reserved38"
  | .reserved39 => c! "Reserved39"
  | .highSpeedCraft => c! "HighSpeedCraft"
  | .pilot => c! "Pilot"
  | .searchAndRescue => c! "SearchAndRescue"
  | .tug => c! "Tug"
  | .portTender => c! "PortTender"
  | .antiPollutionEquipment => c! "AntiPollutionEquipment"
  | .lawEnforcement => c! "LawEnforcement"
  | .spareLocal56 => c! "SpareLocal56"
  | .spareLocal57 => c! "SpareLocal57"
  | .medicalTransport => c! "MedicalTransport"
  | .noncombatant => c! "Noncombatant"
  | .passenger => c! "Passenger"
  | .cargo => c! "Cargo"
  | .tanker => c! "Tanker"
  | .other => c! "Other"

/-- src/ais/mod.rs:511-523 `derive(Debug) for CargoType`: the name of the variant. -/
def CargoType.debug : CargoType → Str
  | .undefined => c! "Undefined"
  | .hazardousCategoryA => c! "HazardousCategoryA"
  | .hazardousCategoryB => c! "HazardousCategoryB"
  | .hazardousCategoryC => c! "HazardousCategoryC"
  | .hazardousCategoryD => c! "HazardousCategoryD"
  | .reserved5 => c! "Reserved5"
  | .reserved6 => c! "Reserved6"
  | .reserved7 => c! "Reserved7"
  | .reserved8 => c! "Reserved8"
  | .reserved9 => c! "Reserved9"

/-- src/ais/mod.rs:592-603 `derive(Debug) for PositionFixType`: the name of the variant. -/
def PositionFixType.debug : PositionFixType → Str
  | .undefined => c! "Undefined"
  | .gps => c! "GPS"
  | .glonass => c! "GLONASS"
  | .gpsGlonass => c! "GPSGLONASS"
  | .loranC => c! "LoranC"
  | .chayka => c! "Chayka"
  | .integratedNavigationSystem => c! "IntegratedNavigationSystem"
  | .surveyed => c! "Surveyed"
  | .galileo => c! "Galileo"

/-- src/ais/vdm_t21.rs:96-193 `derive(Debug) for NavAidType`: the name of the variant. -/
def NavAidType.debug : NavAidType → Str
  | .notSpecified => c! "NotSpecified"
  | .referencePoint => c! "ReferencePoint"
  | .racon => c! "Racon"
  | .fixedStructure => c! "FixedStructure"
  | .reserved4 => c! "Reserved4"
  | .lightWithoutSectors => c! "LightWithoutSectors"
  | .lightWithSectors => c! "LightWithSectors"
  | .leadingLightFront => c! "LeadingLightFront"
  | .leadingLightRear => c! "LeadingLightRear"
  | .beaconCardinalNorth => c! "BeaconCardinalNorth"
  | .beaconCardinalEast => c! "BeaconCardinalEast"
  | .beaconCardinalSouth => c! "BeaconCardinalSouth"
  | .beaconCardinalWest => c! "BeaconCardinalWest"
  | .beaconLateralPort => c! "BeaconLateralPort"
  | .beaconLateralStarboard => c! "BeaconLateralStarboard"
  | .beaconLateralPreferredChannelPort => c! "BeaconLateralPreferredChannelPort"
  | .beaconLateralPreferredChannelStarboard => c! "BeaconLateralPreferredChannelStarboard"
  | .beaconIsolatedDanger => c! "BeaconIsolatedDanger"
  | .beaconSafeWater => c! "BeaconSafeWater"
  | .beaconSpecialMark => c! "BeaconSpecialMark"
  | .cardinalMarkNorth => c! "CardinalMarkNorth"
  | .cardinalMarkEast => c! "CardinalMarkEast"
  | .cardinalMarkSouth => c! "CardinalMarkSouth"
  | .cardinalMarkWest => c! "CardinalMarkWest"
  | .portHandMark => c! "PortHandMark"
  | .starboardHandMark => c! "StarboardHandMark"
  | .preferredChannelPort => c! "PreferredChannelPort"
  | .preferredChannelStarboard => c! "PreferredChannelStarboard"
  | .isolatedDanger => c! "IsolatedDanger"
  | .safeWater => c! "SafeWater"
  | .specialMark => c! "SpecialMark"
  | .lightVessel => c! "LightVessel"

/-- src/gnss/gga.rs:67-78 `derive(Debug) for GgaQualityIndicator`: the name of the variant. -/
def GgaQualityIndicator.debug : GgaQualityIndicator → Str
  | .invalid => c! "Invalid"
  | .gpsFix => c! "GpsFix"
  | .dGpsFix => c! "DGpsFix"
  | .ppsFix => c! "PpsFix"
  | .realTimeKinematic => c! "RealTimeKinematic"
  | .realTimeKinematicFloat => c! "RealTimeKinematicFloat"
  | .deadReckoning => c! "DeadReckoning"
  | .manualInputMode => c! "ManualInputMode"
  | .simulationMode => c! "SimulationMode"

/-- src/gnss/gsa.rs:43-53 `derive(Debug) for GsaFixMode`: the name of the variant. -/
def GsaFixMode.debug : GsaFixMode → Str
  | .notAvailable => c! "NotAvailable"
  | .fix2D => c! "Fix2D"
  | .fix3D => c! "Fix3D"

/-- src/ais/mod.rs:92-194 `derive(Debug) for VesselDynamicData`. -/
def VesselDynamicData.debug (l : Library) (d : VesselDynamicData) : Str :=
  debugStruct (c! "VesselDynamicData")
    [(c! "own_vessel", debugBool d.ownVessel),
     (c! "station", Station.debug d.station),
     (c! "ais_type", AisClass.debug d.aisType),
     (c! "mmsi", natStr d.mmsi),
     (c! "nav_status", NavigationStatus.debug d.navStatus),
     (c! "rot", debugOption l.double d.rot),
     (c! "rot_direction", debugOption debugInt d.rotDirection),
     (c! "sog_knots", debugOption l.double d.sogKnots),
     (c! "high_position_accuracy", debugBool d.highPositionAccuracy),
     (c! "latitude", debugOption l.double d.latitude),
     (c! "longitude", debugOption l.double d.longitude),
     (c! "cog", debugOption l.double d.cog),
     (c! "heading_true", debugOption l.double d.headingTrue),
     (c! "timestamp_seconds", natStr d.timestampSeconds),
     (c! "positioning_system_meta", debugOption PositioningSystemMeta.debug d.positioningSystemMeta),
     (c! "current_gnss_position", debugOption debugBool d.currentGnssPosition),
     (c! "special_manoeuvre", debugOption debugBool d.specialManoeuvre),
     (c! "raim_flag", debugBool d.raimFlag),
     (c! "class_b_unit_flag", debugOption debugBool d.classBUnitFlag),
     (c! "class_b_display", debugOption debugBool d.classBDisplay),
     (c! "class_b_dsc", debugOption debugBool d.classBDsc),
     (c! "class_b_band_flag", debugOption debugBool d.classBBandFlag),
     (c! "class_b_msg22_flag", debugOption debugBool d.classBMsg22Flag),
     (c! "class_b_mode_flag", debugOption debugBool d.classBModeFlag),
     (c! "class_b_css_flag", debugOption debugBool d.classBCssFlag),
     (c! "radio_status", debugOption natStr d.radioStatus)]

/-- src/ais/mod.rs:313-374 `derive(Debug) for VesselStaticData`. -/
def VesselStaticData.debug (l : Library) (d : VesselStaticData) : Str :=
  debugStruct (c! "VesselStaticData")
    [(c! "own_vessel", debugBool d.ownVessel),
     (c! "ais_type", AisClass.debug d.aisType),
     (c! "mmsi", natStr d.mmsi),
     (c! "ais_version_indicator", natStr d.aisVersionIndicator),
     (c! "imo_number", debugOption natStr d.imoNumber),
     (c! "call_sign", debugOption l.debugStr d.callSign),
     (c! "name", debugOption l.debugStr d.name),
     (c! "ship_type", ShipType.debug d.shipType),
     (c! "cargo_type", CargoType.debug d.cargoType),
     (c! "equipment_vendor_id", debugOption l.debugStr d.equipmentVendorId),
     (c! "equipment_model", debugOption natStr d.equipmentModel),
     (c! "equipment_serial_number", debugOption natStr d.equipmentSerialNumber),
     (c! "dimension_to_bow", debugOption natStr d.dimensionToBow),
     (c! "dimension_to_stern", debugOption natStr d.dimensionToStern),
     (c! "dimension_to_port", debugOption natStr d.dimensionToPort),
     (c! "dimension_to_starboard", debugOption natStr d.dimensionToStarboard),
     (c! "position_fix_type", debugOption PositionFixType.debug d.positionFixType),
     (c! "eta", debugOption DateTime.debug d.eta),
     (c! "draught10", debugOption natStr d.draught10),
     (c! "destination", debugOption l.debugStr d.destination),
     (c! "mothership_mmsi", debugOption natStr d.mothershipMmsi)]

/-- src/ais/vdm_t21.rs:22-82 `derive(Debug) for AidToNavigationReport`. -/
def AidToNavigationReport.debug (l : Library) (d : AidToNavigationReport) : Str :=
  debugStruct (c! "AidToNavigationReport")
    [(c! "own_vessel", debugBool d.ownVessel),
     (c! "station", Station.debug d.station),
     (c! "mmsi", natStr d.mmsi),
     (c! "aid_type", NavAidType.debug d.aidType),
     (c! "name", l.debugStr d.name),
     (c! "high_position_accuracy", debugBool d.highPositionAccuracy),
     (c! "latitude", debugOption l.double d.latitude),
     (c! "longitude", debugOption l.double d.longitude),
     (c! "dimension_to_bow", debugOption natStr d.dimensionToBow),
     (c! "dimension_to_stern", debugOption natStr d.dimensionToStern),
     (c! "dimension_to_port", debugOption natStr d.dimensionToPort),
     (c! "dimension_to_starboard", debugOption natStr d.dimensionToStarboard),
     (c! "position_fix_type", debugOption PositionFixType.debug d.positionFixType),
     (c! "timestamp_seconds", natStr d.timestampSeconds),
     (c! "off_position_indicator", debugBool d.offPositionIndicator),
     (c! "regional", natStr d.regional),
     (c! "raim_flag", debugBool d.raimFlag),
     (c! "virtual_aid_flag", debugBool d.virtualAidFlag),
     (c! "assigned_mode_flag", debugBool d.assignedModeFlag)]

/-- src/ais/vdm_t4.rs:22-57 `derive(Debug) for BaseStationReport`. -/
def BaseStationReport.debug (l : Library) (d : BaseStationReport) : Str :=
  debugStruct (c! "BaseStationReport")
    [(c! "own_vessel", debugBool d.ownVessel),
     (c! "station", Station.debug d.station),
     (c! "mmsi", natStr d.mmsi),
     (c! "timestamp", debugOption DateTime.debug d.timestamp),
     (c! "high_position_accuracy", debugBool d.highPositionAccuracy),
     (c! "latitude", debugOption l.double d.latitude),
     (c! "longitude", debugOption l.double d.longitude),
     (c! "position_fix_type", debugOption PositionFixType.debug d.positionFixType),
     (c! "raim_flag", debugBool d.raimFlag),
     (c! "radio_status", natStr d.radioStatus)]

/-- src/ais/vdm_t6.rs:22-49 `derive(Debug) for BinaryAddressedMessage`. -/
def BinaryAddressedMessage.debug (_l : Library) (d : BinaryAddressedMessage) : Str :=
  debugStruct (c! "BinaryAddressedMessage")
    [(c! "own_vessel", debugBool d.ownVessel),
     (c! "station", Station.debug d.station),
     (c! "mmsi", natStr d.mmsi),
     (c! "sequence_number", natStr d.sequenceNumber),
     (c! "destination_mmsi", natStr d.destinationMmsi),
     (c! "retransmit_flag", debugBool d.retransmitFlag),
     (c! "dac", natStr d.dac),
     (c! "fid", natStr d.fid)]

/-- src/ais/vdm_t9.rs:22-72 `derive(Debug) for StandardSarAircraftPositionReport`. -/
def StandardSarAircraftPositionReport.debug (l : Library) (d : StandardSarAircraftPositionReport) : Str :=
  debugStruct (c! "StandardSarAircraftPositionReport")
    [(c! "own_vessel", debugBool d.ownVessel),
     (c! "station", Station.debug d.station),
     (c! "mmsi", natStr d.mmsi),
     (c! "altitude", debugOption natStr d.altitude),
     (c! "sog_knots", debugOption natStr d.sogKnots),
     (c! "high_position_accuracy", debugBool d.highPositionAccuracy),
     (c! "latitude", debugOption l.double d.latitude),
     (c! "longitude", debugOption l.double d.longitude),
     (c! "cog", debugOption l.double d.cog),
     (c! "timestamp_seconds", natStr d.timestampSeconds),
     (c! "regional", natStr d.regional),
     (c! "dte", debugBool d.dte),
     (c! "assigned", debugBool d.assigned),
     (c! "raim_flag", debugBool d.raimFlag),
     (c! "radio_status", natStr d.radioStatus)]

/-- src/ais/vdm_t10.rs:22-36 `derive(Debug) for UtcDateInquiry`. -/
def UtcDateInquiry.debug (_l : Library) (d : UtcDateInquiry) : Str :=
  debugStruct (c! "UtcDateInquiry")
    [(c! "own_vessel", debugBool d.ownVessel),
     (c! "station", Station.debug d.station),
     (c! "source_mmsi", natStr d.sourceMmsi),
     (c! "destination_mmsi", natStr d.destinationMmsi)]

/-- src/gnss/gga.rs:20-54 `derive(Debug) for GgaData`. -/
def GgaData.debug (l : Library) (d : GgaData) : Str :=
  debugStruct (c! "GgaData")
    [(c! "source", NavigationSystem.debug d.source),
     (c! "timestamp", debugOption DateTime.debug d.timestamp),
     (c! "latitude", debugOption l.double d.latitude),
     (c! "longitude", debugOption l.double d.longitude),
     (c! "quality", GgaQualityIndicator.debug d.quality),
     (c! "satellite_count", debugOption natStr d.satelliteCount),
     (c! "hdop", debugOption l.double d.hdop),
     (c! "altitude", debugOption l.double d.altitude),
     (c! "geoid_separation", debugOption l.double d.geoidSeparation),
     (c! "age_of_dgps", debugOption l.double d.ageOfDgps),
     (c! "ref_station_id", debugOption natStr d.refStationId)]

/-- src/gnss/rmc.rs:19-44 `derive(Debug) for RmcData`. -/
def RmcData.debug (l : Library) (d : RmcData) : Str :=
  debugStruct (c! "RmcData")
    [(c! "source", NavigationSystem.debug d.source),
     (c! "timestamp", debugOption DateTime.debug d.timestamp),
     (c! "status_active", debugOption debugBool d.statusActive),
     (c! "latitude", debugOption l.double d.latitude),
     (c! "longitude", debugOption l.double d.longitude),
     (c! "sog_knots", debugOption l.double d.sogKnots),
     (c! "bearing", debugOption l.double d.bearing),
     (c! "variation", debugOption l.double d.variation)]

/-- src/gnss/gsa.rs:18-40 `derive(Debug) for GsaData`. -/
def GsaData.debug (l : Library) (d : GsaData) : Str :=
  debugStruct (c! "GsaData")
    [(c! "source", NavigationSystem.debug d.source),
     (c! "mode1_automatic", debugOption debugBool d.mode1Automatic),
     (c! "mode2_3d", debugOption GsaFixMode.debug d.mode2_3d),
     (c! "prn_numbers", debugVec natStr d.prnNumbers),
     (c! "pdop", debugOption l.double d.pdop),
     (c! "hdop", debugOption l.double d.hdop),
     (c! "vdop", debugOption l.double d.vdop)]

/-- src/gnss/gsv.rs:19-35 `derive(Debug) for GsvData`. -/
def GsvData.debug (_l : Library) (d : GsvData) : Str :=
  debugStruct (c! "GsvData")
    [(c! "source", NavigationSystem.debug d.source),
     (c! "prn_number", natStr d.prnNumber),
     (c! "elevation", debugOption natStr d.elevation),
     (c! "azimuth", debugOption natStr d.azimuth),
     (c! "snr", debugOption natStr d.snr)]

/-- src/gnss/vtg.rs:19-38 `derive(Debug) for VtgData`. -/
def VtgData.debug (l : Library) (d : VtgData) : Str :=
  debugStruct (c! "VtgData")
    [(c! "source", NavigationSystem.debug d.source),
     (c! "cog_true", debugOption l.double d.cogTrue),
     (c! "cog_magnetic", debugOption l.double d.cogMagnetic),
     (c! "sog_knots", debugOption l.double d.sogKnots),
     (c! "sog_kph", debugOption l.double d.sogKph),
     (c! "faa_mode", debugOption FaaMode.debug d.faaMode)]

/-- src/gnss/gll.rs:19-38 `derive(Debug) for GllData`. -/
def GllData.debug (l : Library) (d : GllData) : Str :=
  debugStruct (c! "GllData")
    [(c! "source", NavigationSystem.debug d.source),
     (c! "latitude", debugOption l.double d.latitude),
     (c! "longitude", debugOption l.double d.longitude),
     (c! "timestamp", debugOption DateTime.debug d.timestamp),
     (c! "data_valid", debugOption debugBool d.dataValid),
     (c! "faa_mode", debugOption FaaMode.debug d.faaMode)]

/-- src/lib.rs:46-96 `derive(Debug) for ParsedSentence`. -/
def ParsedSentence.debug (l : Library) : ParsedSentence → Str
  | .incomplete => c! "Incomplete"
  | .vesselDynamicData d => debugTuple (c! "VesselDynamicData") (d.debug l)
  | .vesselStaticData d => debugTuple (c! "VesselStaticData") (d.debug l)
  | .baseStationReport d => debugTuple (c! "BaseStationReport") (d.debug l)
  | .binaryAddressedMessage d => debugTuple (c! "BinaryAddressedMessage") (d.debug l)
  | .standardSarAircraftPositionReport d => debugTuple (c! "StandardSarAircraftPositionReport") (d.debug l)
  | .utcDateInquiry d => debugTuple (c! "UtcDateInquiry") (d.debug l)
  | .aidToNavigationReport d => debugTuple (c! "AidToNavigationReport") (d.debug l)
  | .gga d => debugTuple (c! "Gga") (d.debug l)
  | .rmc d => debugTuple (c! "Rmc") (d.debug l)
  | .gsa d => debugTuple (c! "Gsa") (d.debug l)
  | .gsv d => debugTuple (c! "Gsv") (debugVec (GsvData.debug l) d)
  | .vtg d => debugTuple (c! "Vtg") (d.debug l)
  | .gll d => debugTuple (c! "Gll") (d.debug l)

/-- src/error.rs:19-29 `derive(Debug) for ParseError`. -/
def ParseError.debug (l : Library) : ParseError → Str
  | .unsupportedSentenceType s => debugTuple (c! "UnsupportedSentenceType") (l.debugStr s)
  | .corruptedSentence s => debugTuple (c! "CorruptedSentence") (l.debugStr s)
  | .invalidSentence s => debugTuple (c! "InvalidSentence") (l.debugStr s)

/-- `Debug for Result`: an answer; nothing can be printed after a panic. -/
def debugAnswer (l : Library) : Out ParseError ParsedSentence → Option Str
  | .ok r => some (debugTuple (c! "Ok") (r.debug l))
  | .err e => some (debugTuple (c! "Err") (e.debug l))
  | .panic => none

end Nmea
