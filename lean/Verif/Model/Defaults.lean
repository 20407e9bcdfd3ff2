/-
Model of the `Default` implementations.
-/
import Verif.Model.Equality
import Verif.Model.Country
import Verif.Model.Display

namespace Nmea

/-- src/ais/mod.rs:65-69 `Default for Station`. -/
def Station.default : Station := .other

/-- src/ais/mod.rs:209-213 `Default for AisClass`. -/
def AisClass.default : AisClass := .unknown

/-- src/ais/mod.rs:282-286 `Default for NavigationStatus`. -/
def NavigationStatus.default : NavigationStatus := .notDefined

/-- src/ais/mod.rs:468-472 `Default for ShipType`. -/
def ShipType.default : ShipType := .notAvailable

/-- src/ais/mod.rs:584-588 `Default for CargoType`. -/
def CargoType.default : CargoType := .undefined

/-- src/ais/vdm_t21.rs:235-239 `Default for NavAidType`. -/
def NavAidType.default : NavAidType := .notSpecified

/-- src/ais/mod.rs:92 `derive(Default)`: `false`, 0, `None` and the defaults above. -/
def VesselDynamicData.default : VesselDynamicData :=
  { ownVessel := false, station := Station.default, aisType := AisClass.default, mmsi := 0,
    navStatus := NavigationStatus.default, rot := none, rotDirection := none, sogKnots := none,
    highPositionAccuracy := false, latitude := none, longitude := none, cog := none, headingTrue := none,
    timestampSeconds := 0, positioningSystemMeta := none, currentGnssPosition := none, specialManoeuvre := none,
    raimFlag := false, classBUnitFlag := none, classBDisplay := none, classBDsc := none, classBBandFlag := none,
    classBMsg22Flag := none, classBModeFlag := none, classBCssFlag := none, radioStatus := none }

/-- src/ais/mod.rs:313 `derive(Default)`. -/
def VesselStaticData.default : VesselStaticData :=
  { ownVessel := false, aisType := AisClass.default, mmsi := 0, aisVersionIndicator := 0, imoNumber := none,
    callSign := none, name := none, shipType := ShipType.default, cargoType := CargoType.default,
    equipmentVendorId := none, equipmentModel := none, equipmentSerialNumber := none, dimensionToBow := none,
    dimensionToStern := none, dimensionToPort := none, dimensionToStarboard := none, positionFixType := none,
    eta := none, draught10 := none, destination := none, mothershipMmsi := none }

/-- src/ais/vdm_t4.rs:22 `derive(Default)`. -/
def BaseStationReport.default : BaseStationReport :=
  { ownVessel := false, station := Station.default, mmsi := 0, timestamp := none, highPositionAccuracy := false,
    latitude := none, longitude := none, positionFixType := none, raimFlag := false, radioStatus := 0 }

/-- src/ais/vdm_t6.rs:22 `derive(Default)`. -/
def BinaryAddressedMessage.default : BinaryAddressedMessage :=
  { ownVessel := false, station := Station.default, mmsi := 0, sequenceNumber := 0, destinationMmsi := 0,
    retransmitFlag := false, dac := 0, fid := 0 }

/-- src/ais/vdm_t9.rs:22 `derive(Default)`. -/
def StandardSarAircraftPositionReport.default : StandardSarAircraftPositionReport :=
  { ownVessel := false, station := Station.default, mmsi := 0, altitude := none, sogKnots := none,
    highPositionAccuracy := false, latitude := none, longitude := none, cog := none, timestampSeconds := 0,
    regional := 0, dte := false, assigned := false, raimFlag := false, radioStatus := 0 }

/-- src/ais/vdm_t10.rs:22 `derive(Default)`. -/
def UtcDateInquiry.default : UtcDateInquiry :=
  { ownVessel := false, station := Station.default, sourceMmsi := 0, destinationMmsi := 0 }

/-- src/ais/vdm_t21.rs:22 `derive(Default)`. -/
def AidToNavigationReport.default : AidToNavigationReport :=
  { ownVessel := false, station := Station.default, mmsi := 0, aidType := NavAidType.default, name := [],
    highPositionAccuracy := false, latitude := none, longitude := none, dimensionToBow := none,
    dimensionToStern := none, dimensionToPort := none, dimensionToStarboard := none, positionFixType := none,
    timestampSeconds := 0, offPositionIndicator := false, regional := 0, raimFlag := false, virtualAidFlag := false,
    assignedModeFlag := false }

end Nmea
