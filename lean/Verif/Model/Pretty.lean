/-
Model of the texts that `{:#?}` gives for the answers of the parser: `derive(Debug)` of the types of src/lib.rs, src/error.rs,
src/ais and src/gnss with the alternate flag, on lines of their own and indented.
-/
import Verif.Model.Debug

namespace Nmea

/-- The calls of `Formatter::debug_struct`, `debug_tuple` and `debug_list` made by a `derive(Debug)`, with the texts of the parts
that are written directly (numbers, texts, dates, variants without value). The alternate flag changes none of the latter. -/
inductive DebugCalls where
  | text (t : Str)
  | struct (name : Str) (fields : List (Str × DebugCalls))
  | tuple (name : Str) (value : DebugCalls)
  | list (entries : List DebugCalls)

/-- core::fmt::builders `PadAdapter`: four spaces at the start of each line; `on` at the start of a line. -/
def padded : Bool → Str → Str
  | _, [] => []
  | on, c :: cs => (if on then c! "    " else []) ++ c :: padded (c == '\n') cs

mutual

/-- core::fmt::builders, with the alternate flag. A structure without fields does not occur in the crate. -/
def DebugCalls.pretty : DebugCalls → Str
  | .text t => t
  | .struct name fields => name ++ c! " {\n" ++ prettyFields fields ++ c! "}"
  | .tuple name value => name ++ c! "(\n" ++ padded true (value.pretty ++ c! ",\n") ++ c! ")"
  | .list [] => c! "[]"
  | .list (e :: es) => c! "[\n" ++ (padded true (e.pretty ++ c! ",\n") ++ prettyEntries es) ++ c! "]"

/-- core::fmt::builders `DebugStruct::field`, with the alternate flag. -/
def prettyFields : List (Str × DebugCalls) → Str
  | [] => []
  | (name, value) :: fs => padded true (name ++ c! ": " ++ value.pretty ++ c! ",\n") ++ prettyFields fs

/-- core::fmt::builders `DebugInner::entry`, with the alternate flag. -/
def prettyEntries : List DebugCalls → Str
  | [] => []
  | e :: es => padded true (e.pretty ++ c! ",\n") ++ prettyEntries es

end

/-- `Debug for Option`. -/
def optionCalls {α : Type} (text : α → Str) : Option α → DebugCalls
  | none => .text (c! "None")
  | some x => .tuple (c! "Some") (.text (text x))

/-- src/ais/mod.rs:92-194 `derive(Debug) for VesselDynamicData`. -/
def VesselDynamicData.calls (l : Library) (d : VesselDynamicData) : DebugCalls :=
  .struct (c! "VesselDynamicData")
    [(c! "own_vessel", .text (debugBool d.ownVessel)),
     (c! "station", .text (Station.debug d.station)),
     (c! "ais_type", .text (AisClass.debug d.aisType)),
     (c! "mmsi", .text (natStr d.mmsi)),
     (c! "nav_status", .text (NavigationStatus.debug d.navStatus)),
     (c! "rot", optionCalls l.double d.rot),
     (c! "rot_direction", optionCalls debugInt d.rotDirection),
     (c! "sog_knots", optionCalls l.double d.sogKnots),
     (c! "high_position_accuracy", .text (debugBool d.highPositionAccuracy)),
     (c! "latitude", optionCalls l.double d.latitude),
     (c! "longitude", optionCalls l.double d.longitude),
     (c! "cog", optionCalls l.double d.cog),
     (c! "heading_true", optionCalls l.double d.headingTrue),
     (c! "timestamp_seconds", .text (natStr d.timestampSeconds)),
     (c! "positioning_system_meta", optionCalls PositioningSystemMeta.debug d.positioningSystemMeta),
     (c! "current_gnss_position", optionCalls debugBool d.currentGnssPosition),
     (c! "special_manoeuvre", optionCalls debugBool d.specialManoeuvre),
     (c! "raim_flag", .text (debugBool d.raimFlag)),
     (c! "class_b_unit_flag", optionCalls debugBool d.classBUnitFlag),
     (c! "class_b_display", optionCalls debugBool d.classBDisplay),
     (c! "class_b_dsc", optionCalls debugBool d.classBDsc),
     (c! "class_b_band_flag", optionCalls debugBool d.classBBandFlag),
     (c! "class_b_msg22_flag", optionCalls debugBool d.classBMsg22Flag),
     (c! "class_b_mode_flag", optionCalls debugBool d.classBModeFlag),
     (c! "class_b_css_flag", optionCalls debugBool d.classBCssFlag),
     (c! "radio_status", optionCalls natStr d.radioStatus)]

/-- src/ais/mod.rs:313-374 `derive(Debug) for VesselStaticData`. -/
def VesselStaticData.calls (l : Library) (d : VesselStaticData) : DebugCalls :=
  .struct (c! "VesselStaticData")
    [(c! "own_vessel", .text (debugBool d.ownVessel)),
     (c! "ais_type", .text (AisClass.debug d.aisType)),
     (c! "mmsi", .text (natStr d.mmsi)),
     (c! "ais_version_indicator", .text (natStr d.aisVersionIndicator)),
     (c! "imo_number", optionCalls natStr d.imoNumber),
     (c! "call_sign", optionCalls l.debugStr d.callSign),
     (c! "name", optionCalls l.debugStr d.name),
     (c! "ship_type", .text (ShipType.debug d.shipType)),
     (c! "cargo_type", .text (CargoType.debug d.cargoType)),
     (c! "equipment_vendor_id", optionCalls l.debugStr d.equipmentVendorId),
     (c! "equipment_model", optionCalls natStr d.equipmentModel),
     (c! "equipment_serial_number", optionCalls natStr d.equipmentSerialNumber),
     (c! "dimension_to_bow", optionCalls natStr d.dimensionToBow),
     (c! "dimension_to_stern", optionCalls natStr d.dimensionToStern),
     (c! "dimension_to_port", optionCalls natStr d.dimensionToPort),
     (c! "dimension_to_starboard", optionCalls natStr d.dimensionToStarboard),
     (c! "position_fix_type", optionCalls PositionFixType.debug d.positionFixType),
     (c! "eta", optionCalls DateTime.debug d.eta),
     (c! "draught10", optionCalls natStr d.draught10),
     (c! "destination", optionCalls l.debugStr d.destination),
     (c! "mothership_mmsi", optionCalls natStr d.mothershipMmsi)]

/-- src/ais/vdm_t21.rs:22-82 `derive(Debug) for AidToNavigationReport`. -/
def AidToNavigationReport.calls (l : Library) (d : AidToNavigationReport) : DebugCalls :=
  .struct (c! "AidToNavigationReport")
    [(c! "own_vessel", .text (debugBool d.ownVessel)),
     (c! "station", .text (Station.debug d.station)),
     (c! "mmsi", .text (natStr d.mmsi)),
     (c! "aid_type", .text (NavAidType.debug d.aidType)),
     (c! "name", .text (l.debugStr d.name)),
     (c! "high_position_accuracy", .text (debugBool d.highPositionAccuracy)),
     (c! "latitude", optionCalls l.double d.latitude),
     (c! "longitude", optionCalls l.double d.longitude),
     (c! "dimension_to_bow", optionCalls natStr d.dimensionToBow),
     (c! "dimension_to_stern", optionCalls natStr d.dimensionToStern),
     (c! "dimension_to_port", optionCalls natStr d.dimensionToPort),
     (c! "dimension_to_starboard", optionCalls natStr d.dimensionToStarboard),
     (c! "position_fix_type", optionCalls PositionFixType.debug d.positionFixType),
     (c! "timestamp_seconds", .text (natStr d.timestampSeconds)),
     (c! "off_position_indicator", .text (debugBool d.offPositionIndicator)),
     (c! "regional", .text (natStr d.regional)),
     (c! "raim_flag", .text (debugBool d.raimFlag)),
     (c! "virtual_aid_flag", .text (debugBool d.virtualAidFlag)),
     (c! "assigned_mode_flag", .text (debugBool d.assignedModeFlag))]

/-- src/ais/vdm_t4.rs:22-57 `derive(Debug) for BaseStationReport`. -/
def BaseStationReport.calls (l : Library) (d : BaseStationReport) : DebugCalls :=
  .struct (c! "BaseStationReport")
    [(c! "own_vessel", .text (debugBool d.ownVessel)),
     (c! "station", .text (Station.debug d.station)),
     (c! "mmsi", .text (natStr d.mmsi)),
     (c! "timestamp", optionCalls DateTime.debug d.timestamp),
     (c! "high_position_accuracy", .text (debugBool d.highPositionAccuracy)),
     (c! "latitude", optionCalls l.double d.latitude),
     (c! "longitude", optionCalls l.double d.longitude),
     (c! "position_fix_type", optionCalls PositionFixType.debug d.positionFixType),
     (c! "raim_flag", .text (debugBool d.raimFlag)),
     (c! "radio_status", .text (natStr d.radioStatus))]

/-- src/ais/vdm_t6.rs:22-49 `derive(Debug) for BinaryAddressedMessage`. -/
def BinaryAddressedMessage.calls (_l : Library) (d : BinaryAddressedMessage) : DebugCalls :=
  .struct (c! "BinaryAddressedMessage")
    [(c! "own_vessel", .text (debugBool d.ownVessel)),
     (c! "station", .text (Station.debug d.station)),
     (c! "mmsi", .text (natStr d.mmsi)),
     (c! "sequence_number", .text (natStr d.sequenceNumber)),
     (c! "destination_mmsi", .text (natStr d.destinationMmsi)),
     (c! "retransmit_flag", .text (debugBool d.retransmitFlag)),
     (c! "dac", .text (natStr d.dac)),
     (c! "fid", .text (natStr d.fid))]

/-- src/ais/vdm_t9.rs:22-72 `derive(Debug) for StandardSarAircraftPositionReport`. -/
def StandardSarAircraftPositionReport.calls (l : Library) (d : StandardSarAircraftPositionReport) : DebugCalls :=
  .struct (c! "StandardSarAircraftPositionReport")
    [(c! "own_vessel", .text (debugBool d.ownVessel)),
     (c! "station", .text (Station.debug d.station)),
     (c! "mmsi", .text (natStr d.mmsi)),
     (c! "altitude", optionCalls natStr d.altitude),
     (c! "sog_knots", optionCalls natStr d.sogKnots),
     (c! "high_position_accuracy", .text (debugBool d.highPositionAccuracy)),
     (c! "latitude", optionCalls l.double d.latitude),
     (c! "longitude", optionCalls l.double d.longitude),
     (c! "cog", optionCalls l.double d.cog),
     (c! "timestamp_seconds", .text (natStr d.timestampSeconds)),
     (c! "regional", .text (natStr d.regional)),
     (c! "dte", .text (debugBool d.dte)),
     (c! "assigned", .text (debugBool d.assigned)),
     (c! "raim_flag", .text (debugBool d.raimFlag)),
     (c! "radio_status", .text (natStr d.radioStatus))]

/-- src/ais/vdm_t10.rs:22-36 `derive(Debug) for UtcDateInquiry`. -/
def UtcDateInquiry.calls (_l : Library) (d : UtcDateInquiry) : DebugCalls :=
  .struct (c! "UtcDateInquiry")
    [(c! "own_vessel", .text (debugBool d.ownVessel)),
     (c! "station", .text (Station.debug d.station)),
     (c! "source_mmsi", .text (natStr d.sourceMmsi)),
     (c! "destination_mmsi", .text (natStr d.destinationMmsi))]

/-- src/gnss/gga.rs:20-54 `derive(Debug) for GgaData`. -/
def GgaData.calls (l : Library) (d : GgaData) : DebugCalls :=
  .struct (c! "GgaData")
    [(c! "source", .text (NavigationSystem.debug d.source)),
     (c! "timestamp", optionCalls DateTime.debug d.timestamp),
     (c! "latitude", optionCalls l.double d.latitude),
     (c! "longitude", optionCalls l.double d.longitude),
     (c! "quality", .text (GgaQualityIndicator.debug d.quality)),
     (c! "satellite_count", optionCalls natStr d.satelliteCount),
     (c! "hdop", optionCalls l.double d.hdop),
     (c! "altitude", optionCalls l.double d.altitude),
     (c! "geoid_separation", optionCalls l.double d.geoidSeparation),
     (c! "age_of_dgps", optionCalls l.double d.ageOfDgps),
     (c! "ref_station_id", optionCalls natStr d.refStationId)]

/-- src/gnss/rmc.rs:19-44 `derive(Debug) for RmcData`. -/
def RmcData.calls (l : Library) (d : RmcData) : DebugCalls :=
  .struct (c! "RmcData")
    [(c! "source", .text (NavigationSystem.debug d.source)),
     (c! "timestamp", optionCalls DateTime.debug d.timestamp),
     (c! "status_active", optionCalls debugBool d.statusActive),
     (c! "latitude", optionCalls l.double d.latitude),
     (c! "longitude", optionCalls l.double d.longitude),
     (c! "sog_knots", optionCalls l.double d.sogKnots),
     (c! "bearing", optionCalls l.double d.bearing),
     (c! "variation", optionCalls l.double d.variation)]

/-- src/gnss/gsa.rs:18-40 `derive(Debug) for GsaData`. -/
def GsaData.calls (l : Library) (d : GsaData) : DebugCalls :=
  .struct (c! "GsaData")
    [(c! "source", .text (NavigationSystem.debug d.source)),
     (c! "mode1_automatic", optionCalls debugBool d.mode1Automatic),
     (c! "mode2_3d", optionCalls GsaFixMode.debug d.mode2_3d),
     (c! "prn_numbers", .list (d.prnNumbers.map fun x => .text (natStr x))),
     (c! "pdop", optionCalls l.double d.pdop),
     (c! "hdop", optionCalls l.double d.hdop),
     (c! "vdop", optionCalls l.double d.vdop)]

/-- src/gnss/gsv.rs:19-35 `derive(Debug) for GsvData`. -/
def GsvData.calls (_l : Library) (d : GsvData) : DebugCalls :=
  .struct (c! "GsvData")
    [(c! "source", .text (NavigationSystem.debug d.source)),
     (c! "prn_number", .text (natStr d.prnNumber)),
     (c! "elevation", optionCalls natStr d.elevation),
     (c! "azimuth", optionCalls natStr d.azimuth),
     (c! "snr", optionCalls natStr d.snr)]

/-- src/gnss/vtg.rs:19-38 `derive(Debug) for VtgData`. -/
def VtgData.calls (l : Library) (d : VtgData) : DebugCalls :=
  .struct (c! "VtgData")
    [(c! "source", .text (NavigationSystem.debug d.source)),
     (c! "cog_true", optionCalls l.double d.cogTrue),
     (c! "cog_magnetic", optionCalls l.double d.cogMagnetic),
     (c! "sog_knots", optionCalls l.double d.sogKnots),
     (c! "sog_kph", optionCalls l.double d.sogKph),
     (c! "faa_mode", optionCalls FaaMode.debug d.faaMode)]

/-- src/gnss/gll.rs:19-38 `derive(Debug) for GllData`. -/
def GllData.calls (l : Library) (d : GllData) : DebugCalls :=
  .struct (c! "GllData")
    [(c! "source", .text (NavigationSystem.debug d.source)),
     (c! "latitude", optionCalls l.double d.latitude),
     (c! "longitude", optionCalls l.double d.longitude),
     (c! "timestamp", optionCalls DateTime.debug d.timestamp),
     (c! "data_valid", optionCalls debugBool d.dataValid),
     (c! "faa_mode", optionCalls FaaMode.debug d.faaMode)]

/-- src/lib.rs:46-96 `derive(Debug) for ParsedSentence`. -/
def ParsedSentence.calls (l : Library) : ParsedSentence → DebugCalls
  | .incomplete => .text (c! "Incomplete")
  | .vesselDynamicData d => .tuple (c! "VesselDynamicData") (d.calls l)
  | .vesselStaticData d => .tuple (c! "VesselStaticData") (d.calls l)
  | .baseStationReport d => .tuple (c! "BaseStationReport") (d.calls l)
  | .binaryAddressedMessage d => .tuple (c! "BinaryAddressedMessage") (d.calls l)
  | .standardSarAircraftPositionReport d => .tuple (c! "StandardSarAircraftPositionReport") (d.calls l)
  | .utcDateInquiry d => .tuple (c! "UtcDateInquiry") (d.calls l)
  | .aidToNavigationReport d => .tuple (c! "AidToNavigationReport") (d.calls l)
  | .gga d => .tuple (c! "Gga") (d.calls l)
  | .rmc d => .tuple (c! "Rmc") (d.calls l)
  | .gsa d => .tuple (c! "Gsa") (d.calls l)
  | .gsv d => .tuple (c! "Gsv") (.list (d.map (GsvData.calls l)))
  | .vtg d => .tuple (c! "Vtg") (d.calls l)
  | .gll d => .tuple (c! "Gll") (d.calls l)

/-- src/error.rs:19-29 `derive(Debug) for ParseError`. -/
def ParseError.calls (l : Library) : ParseError → DebugCalls
  | .unsupportedSentenceType s => .tuple (c! "UnsupportedSentenceType") (.text (l.debugStr s))
  | .corruptedSentence s => .tuple (c! "CorruptedSentence") (.text (l.debugStr s))
  | .invalidSentence s => .tuple (c! "InvalidSentence") (.text (l.debugStr s))

/-- `Debug for Result`: an answer; nothing can be printed after a panic. -/
def prettyAnswer (l : Library) : Out ParseError ParsedSentence → Option Str
  | .ok r => some (DebugCalls.tuple (c! "Ok") (r.calls l)).pretty
  | .err e => some (DebugCalls.tuple (c! "Err") (e.calls l)).pretty
  | .panic => none

end Nmea
