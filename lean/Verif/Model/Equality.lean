/-
Model of the derived equality (`derive(PartialEq)`) of reports.
-/
import Verif.Model.Parse

namespace Nmea

/-- `f64 as PartialEq`: IEEE 754 equality. NaN is not equal to itself, the zeros of both signs are equal. -/
def F64.eq : F64 → F64 → Bool
  | .inf a, .inf b => a == b
  | .fin a x, .fin b y => if x = 0 ∧ y = 0 then true else a == b && x == y
  | _, _ => false

/-- `Option<f64> as PartialEq`. -/
def eqOpt : Option F64 → Option F64 → Bool
  | none, none => true
  | some a, some b => a.eq b
  | _, _ => false

/-- src/ais/mod.rs:92 `derive(PartialEq)`. -/
def VesselDynamicData.eq (d e : VesselDynamicData) : Bool :=
  d.ownVessel == e.ownVessel && d.station == e.station && d.aisType == e.aisType && d.mmsi == e.mmsi &&
    d.navStatus == e.navStatus && eqOpt d.rot e.rot && d.rotDirection == e.rotDirection &&
    eqOpt d.sogKnots e.sogKnots && d.highPositionAccuracy == e.highPositionAccuracy &&
    eqOpt d.latitude e.latitude && eqOpt d.longitude e.longitude && eqOpt d.cog e.cog &&
    eqOpt d.headingTrue e.headingTrue && d.timestampSeconds == e.timestampSeconds &&
    d.positioningSystemMeta == e.positioningSystemMeta && d.currentGnssPosition == e.currentGnssPosition &&
    d.specialManoeuvre == e.specialManoeuvre && d.raimFlag == e.raimFlag &&
    d.classBUnitFlag == e.classBUnitFlag && d.classBDisplay == e.classBDisplay &&
    d.classBDsc == e.classBDsc && d.classBBandFlag == e.classBBandFlag &&
    d.classBMsg22Flag == e.classBMsg22Flag && d.classBModeFlag == e.classBModeFlag &&
    d.classBCssFlag == e.classBCssFlag && d.radioStatus == e.radioStatus

/-- src/ais/vdm_t4.rs:22 `derive(PartialEq)`. -/
def BaseStationReport.eq (d e : BaseStationReport) : Bool :=
  d.ownVessel == e.ownVessel && d.station == e.station && d.mmsi == e.mmsi && d.timestamp == e.timestamp &&
    d.highPositionAccuracy == e.highPositionAccuracy && eqOpt d.latitude e.latitude &&
    eqOpt d.longitude e.longitude && d.positionFixType == e.positionFixType && d.raimFlag == e.raimFlag &&
    d.radioStatus == e.radioStatus

/-- src/ais/vdm_t9.rs:22 `derive(PartialEq)`. -/
def StandardSarAircraftPositionReport.eq (d e : StandardSarAircraftPositionReport) : Bool :=
  d.ownVessel == e.ownVessel && d.station == e.station && d.mmsi == e.mmsi && d.altitude == e.altitude &&
    d.sogKnots == e.sogKnots && d.highPositionAccuracy == e.highPositionAccuracy &&
    eqOpt d.latitude e.latitude && eqOpt d.longitude e.longitude && eqOpt d.cog e.cog &&
    d.timestampSeconds == e.timestampSeconds && d.regional == e.regional && d.dte == e.dte &&
    d.assigned == e.assigned && d.raimFlag == e.raimFlag && d.radioStatus == e.radioStatus

/-- src/ais/vdm_t21.rs:22 `derive(PartialEq)`. -/
def AidToNavigationReport.eq (d e : AidToNavigationReport) : Bool :=
  d.ownVessel == e.ownVessel && d.station == e.station && d.mmsi == e.mmsi && d.aidType == e.aidType &&
    d.name == e.name && d.highPositionAccuracy == e.highPositionAccuracy && eqOpt d.latitude e.latitude &&
    eqOpt d.longitude e.longitude && d.dimensionToBow == e.dimensionToBow &&
    d.dimensionToStern == e.dimensionToStern && d.dimensionToPort == e.dimensionToPort &&
    d.dimensionToStarboard == e.dimensionToStarboard && d.positionFixType == e.positionFixType &&
    d.timestampSeconds == e.timestampSeconds && d.offPositionIndicator == e.offPositionIndicator &&
    d.regional == e.regional && d.raimFlag == e.raimFlag && d.virtualAidFlag == e.virtualAidFlag &&
    d.assignedModeFlag == e.assignedModeFlag

/-- src/gnss/gga.rs:20 `derive(PartialEq)`. -/
def GgaData.eq (d e : GgaData) : Bool :=
  d.source == e.source && d.timestamp == e.timestamp && eqOpt d.latitude e.latitude &&
    eqOpt d.longitude e.longitude && d.quality == e.quality && d.satelliteCount == e.satelliteCount &&
    eqOpt d.hdop e.hdop && eqOpt d.altitude e.altitude && eqOpt d.geoidSeparation e.geoidSeparation &&
    eqOpt d.ageOfDgps e.ageOfDgps && d.refStationId == e.refStationId

/-- src/gnss/rmc.rs:19 `derive(PartialEq)`. -/
def RmcData.eq (d e : RmcData) : Bool :=
  d.source == e.source && d.timestamp == e.timestamp && d.statusActive == e.statusActive &&
    eqOpt d.latitude e.latitude && eqOpt d.longitude e.longitude && eqOpt d.sogKnots e.sogKnots &&
    eqOpt d.bearing e.bearing && eqOpt d.variation e.variation

/-- src/gnss/gsa.rs:18 `derive(PartialEq)`. -/
def GsaData.eq (d e : GsaData) : Bool :=
  d.source == e.source && d.mode1Automatic == e.mode1Automatic && d.mode2_3d == e.mode2_3d &&
    d.prnNumbers == e.prnNumbers && eqOpt d.pdop e.pdop && eqOpt d.hdop e.hdop && eqOpt d.vdop e.vdop

/-- src/gnss/vtg.rs:19 `derive(PartialEq)`. -/
def VtgData.eq (d e : VtgData) : Bool :=
  d.source == e.source && eqOpt d.cogTrue e.cogTrue && eqOpt d.cogMagnetic e.cogMagnetic &&
    eqOpt d.sogKnots e.sogKnots && eqOpt d.sogKph e.sogKph && d.faaMode == e.faaMode

/-- src/gnss/gll.rs:19 `derive(PartialEq)`. -/
def GllData.eq (d e : GllData) : Bool :=
  d.source == e.source && eqOpt d.latitude e.latitude && eqOpt d.longitude e.longitude &&
    d.timestamp == e.timestamp && d.dataValid == e.dataValid && d.faaMode == e.faaMode

/-- src/lib.rs:46 `derive(PartialEq)` of `ParsedSentence`. Reports without doubles (src/ais/mod.rs:313,
src/ais/vdm_t6.rs:22, src/ais/vdm_t10.rs:22, src/gnss/gsv.rs:19) are compared field by field, which is equality. -/
def ParsedSentence.eq : ParsedSentence → ParsedSentence → Bool
  | .incomplete, .incomplete => true
  | .vesselStaticData d, .vesselStaticData e => d == e
  | .binaryAddressedMessage d, .binaryAddressedMessage e => d == e
  | .utcDateInquiry d, .utcDateInquiry e => d == e
  | .gsv d, .gsv e => d == e
  | .vesselDynamicData d, .vesselDynamicData e => d.eq e
  | .baseStationReport d, .baseStationReport e => d.eq e
  | .standardSarAircraftPositionReport d, .standardSarAircraftPositionReport e => d.eq e
  | .aidToNavigationReport d, .aidToNavigationReport e => d.eq e
  | .gga d, .gga e => d.eq e
  | .rmc d, .rmc e => d.eq e
  | .gsa d, .gsa e => d.eq e
  | .vtg d, .vtg e => d.eq e
  | .gll d, .gll e => d.eq e
  | _, _ => false

end Nmea
