/-
The texts of `{:?}`: the reports.
-/
import Verif.Lemmas.DebugLeaves
import Verif.Spec.Ranges

namespace Nmea
open Spec

/-- The number, if there is one, is a double. -/
def Doubles (x : Option F64) : Prop := ∀ d, x = some d → IsDouble d

theorem keys {k v : Str} (h : ∀ c ∈ k, PlainChar c) : ∀ c ∈ (k, v).1, PlainChar c := h

/-- Numbers and dates of the report. -/
structure VesselDynamicData.Sound (d : VesselDynamicData) : Prop where
  rot : Doubles d.rot
  sogKnots : Doubles d.sogKnots
  latitude : Doubles d.latitude
  longitude : Doubles d.longitude
  cog : Doubles d.cog
  headingTrue : Doubles d.headingTrue

theorem shown_VesselDynamicData {l : Library} (hl : LibraryOk l) : Shown (VesselDynamicData.debug l) VesselDynamicData.Sound := by
  have hf : ∀ d : VesselDynamicData, VesselDynamicData.Sound d → ∀ f ∈ [(c! "own_vessel", debugBool d.ownVessel),
      (c! "station", Station.debug d.station),
      (c! "ais_type", AisClass.debug d.aisType),
      (c! "mmsi", natStr d.mmsi),
      (c! "nav_status", NavigationStatus.debug d.navStatus),
      (c! "rot", debugOption l.double d.rot),
      (c! "rot_direction", debugOption debugInt d.rotDirection),
      (c! "sog_knots", debugOption l.double d.sogKnots),
      (c! "high_position_accuracy", debugBool d.highPositionAccuracy),
      (c! "latitude", debugOption l.double d.latitude),
      (c! "longitude", debugOption l.double d.longitude),
      (c! "cog", debugOption l.double d.cog),
      (c! "heading_true", debugOption l.double d.headingTrue),
      (c! "timestamp_seconds", natStr d.timestampSeconds),
      (c! "positioning_system_meta", debugOption PositioningSystemMeta.debug d.positioningSystemMeta),
      (c! "current_gnss_position", debugOption debugBool d.currentGnssPosition),
      (c! "special_manoeuvre", debugOption debugBool d.specialManoeuvre),
      (c! "raim_flag", debugBool d.raimFlag),
      (c! "class_b_unit_flag", debugOption debugBool d.classBUnitFlag),
      (c! "class_b_display", debugOption debugBool d.classBDisplay),
      (c! "class_b_dsc", debugOption debugBool d.classBDsc),
      (c! "class_b_band_flag", debugOption debugBool d.classBBandFlag),
      (c! "class_b_msg22_flag", debugOption debugBool d.classBMsg22Flag),
      (c! "class_b_mode_flag", debugOption debugBool d.classBModeFlag),
      (c! "class_b_css_flag", debugOption debugBool d.classBCssFlag),
      (c! "radio_status", debugOption natStr d.radioStatus)], FieldOk f := by
    intro d h
    simp only [List.forall_mem_cons]
    exact ⟨⟨keys (by decide), (shown_bool).passes _ trivial, (shown_bool).line _ trivial⟩,
      ⟨keys (by decide), (shown_Station).passes _ trivial, (shown_Station).line _ trivial⟩,
      ⟨keys (by decide), (shown_AisClass).passes _ trivial, (shown_AisClass).line _ trivial⟩,
      ⟨keys (by decide), (shown_nat).passes _ trivial, (shown_nat).line _ trivial⟩,
      ⟨keys (by decide), (shown_NavigationStatus).passes _ trivial, (shown_NavigationStatus).line _ trivial⟩,
      ⟨keys (by decide), ((shown_double hl).option).passes _ h.rot, ((shown_double hl).option).line _ h.rot⟩,
      ⟨keys (by decide), ((shown_int).option).passes _ (fun _ _ => trivial), ((shown_int).option).line _ (fun _ _ => trivial)⟩,
      ⟨keys (by decide), ((shown_double hl).option).passes _ h.sogKnots, ((shown_double hl).option).line _ h.sogKnots⟩,
      ⟨keys (by decide), (shown_bool).passes _ trivial, (shown_bool).line _ trivial⟩,
      ⟨keys (by decide), ((shown_double hl).option).passes _ h.latitude, ((shown_double hl).option).line _ h.latitude⟩,
      ⟨keys (by decide), ((shown_double hl).option).passes _ h.longitude, ((shown_double hl).option).line _ h.longitude⟩,
      ⟨keys (by decide), ((shown_double hl).option).passes _ h.cog, ((shown_double hl).option).line _ h.cog⟩,
      ⟨keys (by decide), ((shown_double hl).option).passes _ h.headingTrue, ((shown_double hl).option).line _ h.headingTrue⟩,
      ⟨keys (by decide), (shown_nat).passes _ trivial, (shown_nat).line _ trivial⟩,
      ⟨keys (by decide), ((shown_PositioningSystemMeta).option).passes _ (fun _ _ => trivial), ((shown_PositioningSystemMeta).option).line _ (fun _ _ => trivial)⟩,
      ⟨keys (by decide), ((shown_bool).option).passes _ (fun _ _ => trivial), ((shown_bool).option).line _ (fun _ _ => trivial)⟩,
      ⟨keys (by decide), ((shown_bool).option).passes _ (fun _ _ => trivial), ((shown_bool).option).line _ (fun _ _ => trivial)⟩,
      ⟨keys (by decide), (shown_bool).passes _ trivial, (shown_bool).line _ trivial⟩,
      ⟨keys (by decide), ((shown_bool).option).passes _ (fun _ _ => trivial), ((shown_bool).option).line _ (fun _ _ => trivial)⟩,
      ⟨keys (by decide), ((shown_bool).option).passes _ (fun _ _ => trivial), ((shown_bool).option).line _ (fun _ _ => trivial)⟩,
      ⟨keys (by decide), ((shown_bool).option).passes _ (fun _ _ => trivial), ((shown_bool).option).line _ (fun _ _ => trivial)⟩,
      ⟨keys (by decide), ((shown_bool).option).passes _ (fun _ _ => trivial), ((shown_bool).option).line _ (fun _ _ => trivial)⟩,
      ⟨keys (by decide), ((shown_bool).option).passes _ (fun _ _ => trivial), ((shown_bool).option).line _ (fun _ _ => trivial)⟩,
      ⟨keys (by decide), ((shown_bool).option).passes _ (fun _ _ => trivial), ((shown_bool).option).line _ (fun _ _ => trivial)⟩,
      ⟨keys (by decide), ((shown_bool).option).passes _ (fun _ _ => trivial), ((shown_bool).option).line _ (fun _ _ => trivial)⟩,
      ⟨keys (by decide), ((shown_nat).option).passes _ (fun _ _ => trivial), ((shown_nat).option).line _ (fun _ _ => trivial)⟩,
      fun _ h => nomatch h⟩
  refine ⟨fun d h => passes_struct (by decide) (hf d h), fun d _ => by simp [VesselDynamicData.debug, debugStruct],
    fun d h => line_struct (by decide) (hf d h), fun a b ha hb e => ?_⟩
  have h1 := struct_inj (by rfl) (hf a ha) (hf b hb) e
  simp only [List.map_cons, List.map_nil, List.cons.injEq, and_true] at h1
  obtain ⟨e0, e1, e2, e3, e4, e5, e6, e7, e8, e9, e10, e11, e12, e13, e14, e15, e16, e17, e18, e19, e20, e21, e22, e23, e24, e25⟩ := h1
  cases a
  cases b
  simp only [VesselDynamicData.mk.injEq]
  exact ⟨(shown_bool).inj _ _ trivial trivial e0,
    (shown_Station).inj _ _ trivial trivial e1,
    (shown_AisClass).inj _ _ trivial trivial e2,
    (shown_nat).inj _ _ trivial trivial e3,
    (shown_NavigationStatus).inj _ _ trivial trivial e4,
    ((shown_double hl).option).inj _ _ ha.rot hb.rot e5,
    ((shown_int).option).inj _ _ (fun _ _ => trivial) (fun _ _ => trivial) e6,
    ((shown_double hl).option).inj _ _ ha.sogKnots hb.sogKnots e7,
    (shown_bool).inj _ _ trivial trivial e8,
    ((shown_double hl).option).inj _ _ ha.latitude hb.latitude e9,
    ((shown_double hl).option).inj _ _ ha.longitude hb.longitude e10,
    ((shown_double hl).option).inj _ _ ha.cog hb.cog e11,
    ((shown_double hl).option).inj _ _ ha.headingTrue hb.headingTrue e12,
    (shown_nat).inj _ _ trivial trivial e13,
    ((shown_PositioningSystemMeta).option).inj _ _ (fun _ _ => trivial) (fun _ _ => trivial) e14,
    ((shown_bool).option).inj _ _ (fun _ _ => trivial) (fun _ _ => trivial) e15,
    ((shown_bool).option).inj _ _ (fun _ _ => trivial) (fun _ _ => trivial) e16,
    (shown_bool).inj _ _ trivial trivial e17,
    ((shown_bool).option).inj _ _ (fun _ _ => trivial) (fun _ _ => trivial) e18,
    ((shown_bool).option).inj _ _ (fun _ _ => trivial) (fun _ _ => trivial) e19,
    ((shown_bool).option).inj _ _ (fun _ _ => trivial) (fun _ _ => trivial) e20,
    ((shown_bool).option).inj _ _ (fun _ _ => trivial) (fun _ _ => trivial) e21,
    ((shown_bool).option).inj _ _ (fun _ _ => trivial) (fun _ _ => trivial) e22,
    ((shown_bool).option).inj _ _ (fun _ _ => trivial) (fun _ _ => trivial) e23,
    ((shown_bool).option).inj _ _ (fun _ _ => trivial) (fun _ _ => trivial) e24,
    ((shown_nat).option).inj _ _ (fun _ _ => trivial) (fun _ _ => trivial) e25⟩

/-- Numbers and dates of the report. -/
structure VesselStaticData.Sound (d : VesselStaticData) : Prop where
  eta : ValidTime d.eta

theorem shown_VesselStaticData {l : Library} (hl : LibraryOk l) : Shown (VesselStaticData.debug l) VesselStaticData.Sound := by
  have hf : ∀ d : VesselStaticData, VesselStaticData.Sound d → ∀ f ∈ [(c! "own_vessel", debugBool d.ownVessel),
      (c! "ais_type", AisClass.debug d.aisType),
      (c! "mmsi", natStr d.mmsi),
      (c! "ais_version_indicator", natStr d.aisVersionIndicator),
      (c! "imo_number", debugOption natStr d.imoNumber),
      (c! "call_sign", debugOption l.debugStr d.callSign),
      (c! "name", debugOption l.debugStr d.name),
      (c! "ship_type", ShipType.debug d.shipType),
      (c! "cargo_type", CargoType.debug d.cargoType),
      (c! "equipment_vendor_id", debugOption l.debugStr d.equipmentVendorId),
      (c! "equipment_model", debugOption natStr d.equipmentModel),
      (c! "equipment_serial_number", debugOption natStr d.equipmentSerialNumber),
      (c! "dimension_to_bow", debugOption natStr d.dimensionToBow),
      (c! "dimension_to_stern", debugOption natStr d.dimensionToStern),
      (c! "dimension_to_port", debugOption natStr d.dimensionToPort),
      (c! "dimension_to_starboard", debugOption natStr d.dimensionToStarboard),
      (c! "position_fix_type", debugOption PositionFixType.debug d.positionFixType),
      (c! "eta", debugOption DateTime.debug d.eta),
      (c! "draught10", debugOption natStr d.draught10),
      (c! "destination", debugOption l.debugStr d.destination),
      (c! "mothership_mmsi", debugOption natStr d.mothershipMmsi)], FieldOk f := by
    intro d h
    simp only [List.forall_mem_cons]
    exact ⟨⟨keys (by decide), (shown_bool).passes _ trivial, (shown_bool).line _ trivial⟩,
      ⟨keys (by decide), (shown_AisClass).passes _ trivial, (shown_AisClass).line _ trivial⟩,
      ⟨keys (by decide), (shown_nat).passes _ trivial, (shown_nat).line _ trivial⟩,
      ⟨keys (by decide), (shown_nat).passes _ trivial, (shown_nat).line _ trivial⟩,
      ⟨keys (by decide), ((shown_nat).option).passes _ (fun _ _ => trivial), ((shown_nat).option).line _ (fun _ _ => trivial)⟩,
      ⟨keys (by decide), ((shown_str hl).option).passes _ (fun _ _ => trivial), ((shown_str hl).option).line _ (fun _ _ => trivial)⟩,
      ⟨keys (by decide), ((shown_str hl).option).passes _ (fun _ _ => trivial), ((shown_str hl).option).line _ (fun _ _ => trivial)⟩,
      ⟨keys (by decide), (shown_ShipType).passes _ trivial, (shown_ShipType).line _ trivial⟩,
      ⟨keys (by decide), (shown_CargoType).passes _ trivial, (shown_CargoType).line _ trivial⟩,
      ⟨keys (by decide), ((shown_str hl).option).passes _ (fun _ _ => trivial), ((shown_str hl).option).line _ (fun _ _ => trivial)⟩,
      ⟨keys (by decide), ((shown_nat).option).passes _ (fun _ _ => trivial), ((shown_nat).option).line _ (fun _ _ => trivial)⟩,
      ⟨keys (by decide), ((shown_nat).option).passes _ (fun _ _ => trivial), ((shown_nat).option).line _ (fun _ _ => trivial)⟩,
      ⟨keys (by decide), ((shown_nat).option).passes _ (fun _ _ => trivial), ((shown_nat).option).line _ (fun _ _ => trivial)⟩,
      ⟨keys (by decide), ((shown_nat).option).passes _ (fun _ _ => trivial), ((shown_nat).option).line _ (fun _ _ => trivial)⟩,
      ⟨keys (by decide), ((shown_nat).option).passes _ (fun _ _ => trivial), ((shown_nat).option).line _ (fun _ _ => trivial)⟩,
      ⟨keys (by decide), ((shown_nat).option).passes _ (fun _ _ => trivial), ((shown_nat).option).line _ (fun _ _ => trivial)⟩,
      ⟨keys (by decide), ((shown_PositionFixType).option).passes _ (fun _ _ => trivial), ((shown_PositionFixType).option).line _ (fun _ _ => trivial)⟩,
      ⟨keys (by decide), ((shown_date).option).passes _ h.eta, ((shown_date).option).line _ h.eta⟩,
      ⟨keys (by decide), ((shown_nat).option).passes _ (fun _ _ => trivial), ((shown_nat).option).line _ (fun _ _ => trivial)⟩,
      ⟨keys (by decide), ((shown_str hl).option).passes _ (fun _ _ => trivial), ((shown_str hl).option).line _ (fun _ _ => trivial)⟩,
      ⟨keys (by decide), ((shown_nat).option).passes _ (fun _ _ => trivial), ((shown_nat).option).line _ (fun _ _ => trivial)⟩,
      fun _ h => nomatch h⟩
  refine ⟨fun d h => passes_struct (by decide) (hf d h), fun d _ => by simp [VesselStaticData.debug, debugStruct],
    fun d h => line_struct (by decide) (hf d h), fun a b ha hb e => ?_⟩
  have h1 := struct_inj (by rfl) (hf a ha) (hf b hb) e
  simp only [List.map_cons, List.map_nil, List.cons.injEq, and_true] at h1
  obtain ⟨e0, e1, e2, e3, e4, e5, e6, e7, e8, e9, e10, e11, e12, e13, e14, e15, e16, e17, e18, e19, e20⟩ := h1
  cases a
  cases b
  simp only [VesselStaticData.mk.injEq]
  exact ⟨(shown_bool).inj _ _ trivial trivial e0,
    (shown_AisClass).inj _ _ trivial trivial e1,
    (shown_nat).inj _ _ trivial trivial e2,
    (shown_nat).inj _ _ trivial trivial e3,
    ((shown_nat).option).inj _ _ (fun _ _ => trivial) (fun _ _ => trivial) e4,
    ((shown_str hl).option).inj _ _ (fun _ _ => trivial) (fun _ _ => trivial) e5,
    ((shown_str hl).option).inj _ _ (fun _ _ => trivial) (fun _ _ => trivial) e6,
    (shown_ShipType).inj _ _ trivial trivial e7,
    (shown_CargoType).inj _ _ trivial trivial e8,
    ((shown_str hl).option).inj _ _ (fun _ _ => trivial) (fun _ _ => trivial) e9,
    ((shown_nat).option).inj _ _ (fun _ _ => trivial) (fun _ _ => trivial) e10,
    ((shown_nat).option).inj _ _ (fun _ _ => trivial) (fun _ _ => trivial) e11,
    ((shown_nat).option).inj _ _ (fun _ _ => trivial) (fun _ _ => trivial) e12,
    ((shown_nat).option).inj _ _ (fun _ _ => trivial) (fun _ _ => trivial) e13,
    ((shown_nat).option).inj _ _ (fun _ _ => trivial) (fun _ _ => trivial) e14,
    ((shown_nat).option).inj _ _ (fun _ _ => trivial) (fun _ _ => trivial) e15,
    ((shown_PositionFixType).option).inj _ _ (fun _ _ => trivial) (fun _ _ => trivial) e16,
    ((shown_date).option).inj _ _ ha.eta hb.eta e17,
    ((shown_nat).option).inj _ _ (fun _ _ => trivial) (fun _ _ => trivial) e18,
    ((shown_str hl).option).inj _ _ (fun _ _ => trivial) (fun _ _ => trivial) e19,
    ((shown_nat).option).inj _ _ (fun _ _ => trivial) (fun _ _ => trivial) e20⟩

/-- Numbers and dates of the report. -/
structure AidToNavigationReport.Sound (d : AidToNavigationReport) : Prop where
  latitude : Doubles d.latitude
  longitude : Doubles d.longitude

theorem shown_AidToNavigationReport {l : Library} (hl : LibraryOk l) : Shown (AidToNavigationReport.debug l) AidToNavigationReport.Sound := by
  have hf : ∀ d : AidToNavigationReport, AidToNavigationReport.Sound d → ∀ f ∈ [(c! "own_vessel", debugBool d.ownVessel),
      (c! "station", Station.debug d.station),
      (c! "mmsi", natStr d.mmsi),
      (c! "aid_type", NavAidType.debug d.aidType),
      (c! "name", l.debugStr d.name),
      (c! "high_position_accuracy", debugBool d.highPositionAccuracy),
      (c! "latitude", debugOption l.double d.latitude),
      (c! "longitude", debugOption l.double d.longitude),
      (c! "dimension_to_bow", debugOption natStr d.dimensionToBow),
      (c! "dimension_to_stern", debugOption natStr d.dimensionToStern),
      (c! "dimension_to_port", debugOption natStr d.dimensionToPort),
      (c! "dimension_to_starboard", debugOption natStr d.dimensionToStarboard),
      (c! "position_fix_type", debugOption PositionFixType.debug d.positionFixType),
      (c! "timestamp_seconds", natStr d.timestampSeconds),
      (c! "off_position_indicator", debugBool d.offPositionIndicator),
      (c! "regional", natStr d.regional),
      (c! "raim_flag", debugBool d.raimFlag),
      (c! "virtual_aid_flag", debugBool d.virtualAidFlag),
      (c! "assigned_mode_flag", debugBool d.assignedModeFlag)], FieldOk f := by
    intro d h
    simp only [List.forall_mem_cons]
    exact ⟨⟨keys (by decide), (shown_bool).passes _ trivial, (shown_bool).line _ trivial⟩,
      ⟨keys (by decide), (shown_Station).passes _ trivial, (shown_Station).line _ trivial⟩,
      ⟨keys (by decide), (shown_nat).passes _ trivial, (shown_nat).line _ trivial⟩,
      ⟨keys (by decide), (shown_NavAidType).passes _ trivial, (shown_NavAidType).line _ trivial⟩,
      ⟨keys (by decide), (shown_str hl).passes _ trivial, (shown_str hl).line _ trivial⟩,
      ⟨keys (by decide), (shown_bool).passes _ trivial, (shown_bool).line _ trivial⟩,
      ⟨keys (by decide), ((shown_double hl).option).passes _ h.latitude, ((shown_double hl).option).line _ h.latitude⟩,
      ⟨keys (by decide), ((shown_double hl).option).passes _ h.longitude, ((shown_double hl).option).line _ h.longitude⟩,
      ⟨keys (by decide), ((shown_nat).option).passes _ (fun _ _ => trivial), ((shown_nat).option).line _ (fun _ _ => trivial)⟩,
      ⟨keys (by decide), ((shown_nat).option).passes _ (fun _ _ => trivial), ((shown_nat).option).line _ (fun _ _ => trivial)⟩,
      ⟨keys (by decide), ((shown_nat).option).passes _ (fun _ _ => trivial), ((shown_nat).option).line _ (fun _ _ => trivial)⟩,
      ⟨keys (by decide), ((shown_nat).option).passes _ (fun _ _ => trivial), ((shown_nat).option).line _ (fun _ _ => trivial)⟩,
      ⟨keys (by decide), ((shown_PositionFixType).option).passes _ (fun _ _ => trivial), ((shown_PositionFixType).option).line _ (fun _ _ => trivial)⟩,
      ⟨keys (by decide), (shown_nat).passes _ trivial, (shown_nat).line _ trivial⟩,
      ⟨keys (by decide), (shown_bool).passes _ trivial, (shown_bool).line _ trivial⟩,
      ⟨keys (by decide), (shown_nat).passes _ trivial, (shown_nat).line _ trivial⟩,
      ⟨keys (by decide), (shown_bool).passes _ trivial, (shown_bool).line _ trivial⟩,
      ⟨keys (by decide), (shown_bool).passes _ trivial, (shown_bool).line _ trivial⟩,
      ⟨keys (by decide), (shown_bool).passes _ trivial, (shown_bool).line _ trivial⟩,
      fun _ h => nomatch h⟩
  refine ⟨fun d h => passes_struct (by decide) (hf d h), fun d _ => by simp [AidToNavigationReport.debug, debugStruct],
    fun d h => line_struct (by decide) (hf d h), fun a b ha hb e => ?_⟩
  have h1 := struct_inj (by rfl) (hf a ha) (hf b hb) e
  simp only [List.map_cons, List.map_nil, List.cons.injEq, and_true] at h1
  obtain ⟨e0, e1, e2, e3, e4, e5, e6, e7, e8, e9, e10, e11, e12, e13, e14, e15, e16, e17, e18⟩ := h1
  cases a
  cases b
  simp only [AidToNavigationReport.mk.injEq]
  exact ⟨(shown_bool).inj _ _ trivial trivial e0,
    (shown_Station).inj _ _ trivial trivial e1,
    (shown_nat).inj _ _ trivial trivial e2,
    (shown_NavAidType).inj _ _ trivial trivial e3,
    (shown_str hl).inj _ _ trivial trivial e4,
    (shown_bool).inj _ _ trivial trivial e5,
    ((shown_double hl).option).inj _ _ ha.latitude hb.latitude e6,
    ((shown_double hl).option).inj _ _ ha.longitude hb.longitude e7,
    ((shown_nat).option).inj _ _ (fun _ _ => trivial) (fun _ _ => trivial) e8,
    ((shown_nat).option).inj _ _ (fun _ _ => trivial) (fun _ _ => trivial) e9,
    ((shown_nat).option).inj _ _ (fun _ _ => trivial) (fun _ _ => trivial) e10,
    ((shown_nat).option).inj _ _ (fun _ _ => trivial) (fun _ _ => trivial) e11,
    ((shown_PositionFixType).option).inj _ _ (fun _ _ => trivial) (fun _ _ => trivial) e12,
    (shown_nat).inj _ _ trivial trivial e13,
    (shown_bool).inj _ _ trivial trivial e14,
    (shown_nat).inj _ _ trivial trivial e15,
    (shown_bool).inj _ _ trivial trivial e16,
    (shown_bool).inj _ _ trivial trivial e17,
    (shown_bool).inj _ _ trivial trivial e18⟩

/-- Numbers and dates of the report. -/
structure BaseStationReport.Sound (d : BaseStationReport) : Prop where
  timestamp : ValidTime d.timestamp
  latitude : Doubles d.latitude
  longitude : Doubles d.longitude

theorem shown_BaseStationReport {l : Library} (hl : LibraryOk l) : Shown (BaseStationReport.debug l) BaseStationReport.Sound := by
  have hf : ∀ d : BaseStationReport, BaseStationReport.Sound d → ∀ f ∈ [(c! "own_vessel", debugBool d.ownVessel),
      (c! "station", Station.debug d.station),
      (c! "mmsi", natStr d.mmsi),
      (c! "timestamp", debugOption DateTime.debug d.timestamp),
      (c! "high_position_accuracy", debugBool d.highPositionAccuracy),
      (c! "latitude", debugOption l.double d.latitude),
      (c! "longitude", debugOption l.double d.longitude),
      (c! "position_fix_type", debugOption PositionFixType.debug d.positionFixType),
      (c! "raim_flag", debugBool d.raimFlag),
      (c! "radio_status", natStr d.radioStatus)], FieldOk f := by
    intro d h
    simp only [List.forall_mem_cons]
    exact ⟨⟨keys (by decide), (shown_bool).passes _ trivial, (shown_bool).line _ trivial⟩,
      ⟨keys (by decide), (shown_Station).passes _ trivial, (shown_Station).line _ trivial⟩,
      ⟨keys (by decide), (shown_nat).passes _ trivial, (shown_nat).line _ trivial⟩,
      ⟨keys (by decide), ((shown_date).option).passes _ h.timestamp, ((shown_date).option).line _ h.timestamp⟩,
      ⟨keys (by decide), (shown_bool).passes _ trivial, (shown_bool).line _ trivial⟩,
      ⟨keys (by decide), ((shown_double hl).option).passes _ h.latitude, ((shown_double hl).option).line _ h.latitude⟩,
      ⟨keys (by decide), ((shown_double hl).option).passes _ h.longitude, ((shown_double hl).option).line _ h.longitude⟩,
      ⟨keys (by decide), ((shown_PositionFixType).option).passes _ (fun _ _ => trivial), ((shown_PositionFixType).option).line _ (fun _ _ => trivial)⟩,
      ⟨keys (by decide), (shown_bool).passes _ trivial, (shown_bool).line _ trivial⟩,
      ⟨keys (by decide), (shown_nat).passes _ trivial, (shown_nat).line _ trivial⟩,
      fun _ h => nomatch h⟩
  refine ⟨fun d h => passes_struct (by decide) (hf d h), fun d _ => by simp [BaseStationReport.debug, debugStruct],
    fun d h => line_struct (by decide) (hf d h), fun a b ha hb e => ?_⟩
  have h1 := struct_inj (by rfl) (hf a ha) (hf b hb) e
  simp only [List.map_cons, List.map_nil, List.cons.injEq, and_true] at h1
  obtain ⟨e0, e1, e2, e3, e4, e5, e6, e7, e8, e9⟩ := h1
  cases a
  cases b
  simp only [BaseStationReport.mk.injEq]
  exact ⟨(shown_bool).inj _ _ trivial trivial e0,
    (shown_Station).inj _ _ trivial trivial e1,
    (shown_nat).inj _ _ trivial trivial e2,
    ((shown_date).option).inj _ _ ha.timestamp hb.timestamp e3,
    (shown_bool).inj _ _ trivial trivial e4,
    ((shown_double hl).option).inj _ _ ha.latitude hb.latitude e5,
    ((shown_double hl).option).inj _ _ ha.longitude hb.longitude e6,
    ((shown_PositionFixType).option).inj _ _ (fun _ _ => trivial) (fun _ _ => trivial) e7,
    (shown_bool).inj _ _ trivial trivial e8,
    (shown_nat).inj _ _ trivial trivial e9⟩


theorem shown_BinaryAddressedMessage {l : Library} (_hl : LibraryOk l) : Shown (BinaryAddressedMessage.debug l) (fun _ => True) := by
  have hf : ∀ d : BinaryAddressedMessage, (fun _ => True) d → ∀ f ∈ [(c! "own_vessel", debugBool d.ownVessel),
      (c! "station", Station.debug d.station),
      (c! "mmsi", natStr d.mmsi),
      (c! "sequence_number", natStr d.sequenceNumber),
      (c! "destination_mmsi", natStr d.destinationMmsi),
      (c! "retransmit_flag", debugBool d.retransmitFlag),
      (c! "dac", natStr d.dac),
      (c! "fid", natStr d.fid)], FieldOk f := by
    intro d h
    simp only [List.forall_mem_cons]
    exact ⟨⟨keys (by decide), (shown_bool).passes _ trivial, (shown_bool).line _ trivial⟩,
      ⟨keys (by decide), (shown_Station).passes _ trivial, (shown_Station).line _ trivial⟩,
      ⟨keys (by decide), (shown_nat).passes _ trivial, (shown_nat).line _ trivial⟩,
      ⟨keys (by decide), (shown_nat).passes _ trivial, (shown_nat).line _ trivial⟩,
      ⟨keys (by decide), (shown_nat).passes _ trivial, (shown_nat).line _ trivial⟩,
      ⟨keys (by decide), (shown_bool).passes _ trivial, (shown_bool).line _ trivial⟩,
      ⟨keys (by decide), (shown_nat).passes _ trivial, (shown_nat).line _ trivial⟩,
      ⟨keys (by decide), (shown_nat).passes _ trivial, (shown_nat).line _ trivial⟩,
      fun _ h => nomatch h⟩
  refine ⟨fun d h => passes_struct (by decide) (hf d h), fun d _ => by simp [BinaryAddressedMessage.debug, debugStruct],
    fun d h => line_struct (by decide) (hf d h), fun a b ha hb e => ?_⟩
  have h1 := struct_inj (by rfl) (hf a ha) (hf b hb) e
  simp only [List.map_cons, List.map_nil, List.cons.injEq, and_true] at h1
  obtain ⟨e0, e1, e2, e3, e4, e5, e6, e7⟩ := h1
  cases a
  cases b
  simp only [BinaryAddressedMessage.mk.injEq]
  exact ⟨(shown_bool).inj _ _ trivial trivial e0,
    (shown_Station).inj _ _ trivial trivial e1,
    (shown_nat).inj _ _ trivial trivial e2,
    (shown_nat).inj _ _ trivial trivial e3,
    (shown_nat).inj _ _ trivial trivial e4,
    (shown_bool).inj _ _ trivial trivial e5,
    (shown_nat).inj _ _ trivial trivial e6,
    (shown_nat).inj _ _ trivial trivial e7⟩

/-- Numbers and dates of the report. -/
structure StandardSarAircraftPositionReport.Sound (d : StandardSarAircraftPositionReport) : Prop where
  latitude : Doubles d.latitude
  longitude : Doubles d.longitude
  cog : Doubles d.cog

theorem shown_StandardSarAircraftPositionReport {l : Library} (hl : LibraryOk l) : Shown (StandardSarAircraftPositionReport.debug l) StandardSarAircraftPositionReport.Sound := by
  have hf : ∀ d : StandardSarAircraftPositionReport, StandardSarAircraftPositionReport.Sound d → ∀ f ∈ [(c! "own_vessel", debugBool d.ownVessel),
      (c! "station", Station.debug d.station),
      (c! "mmsi", natStr d.mmsi),
      (c! "altitude", debugOption natStr d.altitude),
      (c! "sog_knots", debugOption natStr d.sogKnots),
      (c! "high_position_accuracy", debugBool d.highPositionAccuracy),
      (c! "latitude", debugOption l.double d.latitude),
      (c! "longitude", debugOption l.double d.longitude),
      (c! "cog", debugOption l.double d.cog),
      (c! "timestamp_seconds", natStr d.timestampSeconds),
      (c! "regional", natStr d.regional),
      (c! "dte", debugBool d.dte),
      (c! "assigned", debugBool d.assigned),
      (c! "raim_flag", debugBool d.raimFlag),
      (c! "radio_status", natStr d.radioStatus)], FieldOk f := by
    intro d h
    simp only [List.forall_mem_cons]
    exact ⟨⟨keys (by decide), (shown_bool).passes _ trivial, (shown_bool).line _ trivial⟩,
      ⟨keys (by decide), (shown_Station).passes _ trivial, (shown_Station).line _ trivial⟩,
      ⟨keys (by decide), (shown_nat).passes _ trivial, (shown_nat).line _ trivial⟩,
      ⟨keys (by decide), ((shown_nat).option).passes _ (fun _ _ => trivial), ((shown_nat).option).line _ (fun _ _ => trivial)⟩,
      ⟨keys (by decide), ((shown_nat).option).passes _ (fun _ _ => trivial), ((shown_nat).option).line _ (fun _ _ => trivial)⟩,
      ⟨keys (by decide), (shown_bool).passes _ trivial, (shown_bool).line _ trivial⟩,
      ⟨keys (by decide), ((shown_double hl).option).passes _ h.latitude, ((shown_double hl).option).line _ h.latitude⟩,
      ⟨keys (by decide), ((shown_double hl).option).passes _ h.longitude, ((shown_double hl).option).line _ h.longitude⟩,
      ⟨keys (by decide), ((shown_double hl).option).passes _ h.cog, ((shown_double hl).option).line _ h.cog⟩,
      ⟨keys (by decide), (shown_nat).passes _ trivial, (shown_nat).line _ trivial⟩,
      ⟨keys (by decide), (shown_nat).passes _ trivial, (shown_nat).line _ trivial⟩,
      ⟨keys (by decide), (shown_bool).passes _ trivial, (shown_bool).line _ trivial⟩,
      ⟨keys (by decide), (shown_bool).passes _ trivial, (shown_bool).line _ trivial⟩,
      ⟨keys (by decide), (shown_bool).passes _ trivial, (shown_bool).line _ trivial⟩,
      ⟨keys (by decide), (shown_nat).passes _ trivial, (shown_nat).line _ trivial⟩,
      fun _ h => nomatch h⟩
  refine ⟨fun d h => passes_struct (by decide) (hf d h), fun d _ => by simp [StandardSarAircraftPositionReport.debug, debugStruct],
    fun d h => line_struct (by decide) (hf d h), fun a b ha hb e => ?_⟩
  have h1 := struct_inj (by rfl) (hf a ha) (hf b hb) e
  simp only [List.map_cons, List.map_nil, List.cons.injEq, and_true] at h1
  obtain ⟨e0, e1, e2, e3, e4, e5, e6, e7, e8, e9, e10, e11, e12, e13, e14⟩ := h1
  cases a
  cases b
  simp only [StandardSarAircraftPositionReport.mk.injEq]
  exact ⟨(shown_bool).inj _ _ trivial trivial e0,
    (shown_Station).inj _ _ trivial trivial e1,
    (shown_nat).inj _ _ trivial trivial e2,
    ((shown_nat).option).inj _ _ (fun _ _ => trivial) (fun _ _ => trivial) e3,
    ((shown_nat).option).inj _ _ (fun _ _ => trivial) (fun _ _ => trivial) e4,
    (shown_bool).inj _ _ trivial trivial e5,
    ((shown_double hl).option).inj _ _ ha.latitude hb.latitude e6,
    ((shown_double hl).option).inj _ _ ha.longitude hb.longitude e7,
    ((shown_double hl).option).inj _ _ ha.cog hb.cog e8,
    (shown_nat).inj _ _ trivial trivial e9,
    (shown_nat).inj _ _ trivial trivial e10,
    (shown_bool).inj _ _ trivial trivial e11,
    (shown_bool).inj _ _ trivial trivial e12,
    (shown_bool).inj _ _ trivial trivial e13,
    (shown_nat).inj _ _ trivial trivial e14⟩


theorem shown_UtcDateInquiry {l : Library} (_hl : LibraryOk l) : Shown (UtcDateInquiry.debug l) (fun _ => True) := by
  have hf : ∀ d : UtcDateInquiry, (fun _ => True) d → ∀ f ∈ [(c! "own_vessel", debugBool d.ownVessel),
      (c! "station", Station.debug d.station),
      (c! "source_mmsi", natStr d.sourceMmsi),
      (c! "destination_mmsi", natStr d.destinationMmsi)], FieldOk f := by
    intro d h
    simp only [List.forall_mem_cons]
    exact ⟨⟨keys (by decide), (shown_bool).passes _ trivial, (shown_bool).line _ trivial⟩,
      ⟨keys (by decide), (shown_Station).passes _ trivial, (shown_Station).line _ trivial⟩,
      ⟨keys (by decide), (shown_nat).passes _ trivial, (shown_nat).line _ trivial⟩,
      ⟨keys (by decide), (shown_nat).passes _ trivial, (shown_nat).line _ trivial⟩,
      fun _ h => nomatch h⟩
  refine ⟨fun d h => passes_struct (by decide) (hf d h), fun d _ => by simp [UtcDateInquiry.debug, debugStruct],
    fun d h => line_struct (by decide) (hf d h), fun a b ha hb e => ?_⟩
  have h1 := struct_inj (by rfl) (hf a ha) (hf b hb) e
  simp only [List.map_cons, List.map_nil, List.cons.injEq, and_true] at h1
  obtain ⟨e0, e1, e2, e3⟩ := h1
  cases a
  cases b
  simp only [UtcDateInquiry.mk.injEq]
  exact ⟨(shown_bool).inj _ _ trivial trivial e0,
    (shown_Station).inj _ _ trivial trivial e1,
    (shown_nat).inj _ _ trivial trivial e2,
    (shown_nat).inj _ _ trivial trivial e3⟩

/-- Numbers and dates of the report. -/
structure GgaData.Sound (d : GgaData) : Prop where
  timestamp : ValidTime d.timestamp
  latitude : Doubles d.latitude
  longitude : Doubles d.longitude
  hdop : Doubles d.hdop
  altitude : Doubles d.altitude
  geoidSeparation : Doubles d.geoidSeparation
  ageOfDgps : Doubles d.ageOfDgps

theorem shown_GgaData {l : Library} (hl : LibraryOk l) : Shown (GgaData.debug l) GgaData.Sound := by
  have hf : ∀ d : GgaData, GgaData.Sound d → ∀ f ∈ [(c! "source", NavigationSystem.debug d.source),
      (c! "timestamp", debugOption DateTime.debug d.timestamp),
      (c! "latitude", debugOption l.double d.latitude),
      (c! "longitude", debugOption l.double d.longitude),
      (c! "quality", GgaQualityIndicator.debug d.quality),
      (c! "satellite_count", debugOption natStr d.satelliteCount),
      (c! "hdop", debugOption l.double d.hdop),
      (c! "altitude", debugOption l.double d.altitude),
      (c! "geoid_separation", debugOption l.double d.geoidSeparation),
      (c! "age_of_dgps", debugOption l.double d.ageOfDgps),
      (c! "ref_station_id", debugOption natStr d.refStationId)], FieldOk f := by
    intro d h
    simp only [List.forall_mem_cons]
    exact ⟨⟨keys (by decide), (shown_NavigationSystem).passes _ trivial, (shown_NavigationSystem).line _ trivial⟩,
      ⟨keys (by decide), ((shown_date).option).passes _ h.timestamp, ((shown_date).option).line _ h.timestamp⟩,
      ⟨keys (by decide), ((shown_double hl).option).passes _ h.latitude, ((shown_double hl).option).line _ h.latitude⟩,
      ⟨keys (by decide), ((shown_double hl).option).passes _ h.longitude, ((shown_double hl).option).line _ h.longitude⟩,
      ⟨keys (by decide), (shown_GgaQualityIndicator).passes _ trivial, (shown_GgaQualityIndicator).line _ trivial⟩,
      ⟨keys (by decide), ((shown_nat).option).passes _ (fun _ _ => trivial), ((shown_nat).option).line _ (fun _ _ => trivial)⟩,
      ⟨keys (by decide), ((shown_double hl).option).passes _ h.hdop, ((shown_double hl).option).line _ h.hdop⟩,
      ⟨keys (by decide), ((shown_double hl).option).passes _ h.altitude, ((shown_double hl).option).line _ h.altitude⟩,
      ⟨keys (by decide), ((shown_double hl).option).passes _ h.geoidSeparation, ((shown_double hl).option).line _ h.geoidSeparation⟩,
      ⟨keys (by decide), ((shown_double hl).option).passes _ h.ageOfDgps, ((shown_double hl).option).line _ h.ageOfDgps⟩,
      ⟨keys (by decide), ((shown_nat).option).passes _ (fun _ _ => trivial), ((shown_nat).option).line _ (fun _ _ => trivial)⟩,
      fun _ h => nomatch h⟩
  refine ⟨fun d h => passes_struct (by decide) (hf d h), fun d _ => by simp [GgaData.debug, debugStruct],
    fun d h => line_struct (by decide) (hf d h), fun a b ha hb e => ?_⟩
  have h1 := struct_inj (by rfl) (hf a ha) (hf b hb) e
  simp only [List.map_cons, List.map_nil, List.cons.injEq, and_true] at h1
  obtain ⟨e0, e1, e2, e3, e4, e5, e6, e7, e8, e9, e10⟩ := h1
  cases a
  cases b
  simp only [GgaData.mk.injEq]
  exact ⟨(shown_NavigationSystem).inj _ _ trivial trivial e0,
    ((shown_date).option).inj _ _ ha.timestamp hb.timestamp e1,
    ((shown_double hl).option).inj _ _ ha.latitude hb.latitude e2,
    ((shown_double hl).option).inj _ _ ha.longitude hb.longitude e3,
    (shown_GgaQualityIndicator).inj _ _ trivial trivial e4,
    ((shown_nat).option).inj _ _ (fun _ _ => trivial) (fun _ _ => trivial) e5,
    ((shown_double hl).option).inj _ _ ha.hdop hb.hdop e6,
    ((shown_double hl).option).inj _ _ ha.altitude hb.altitude e7,
    ((shown_double hl).option).inj _ _ ha.geoidSeparation hb.geoidSeparation e8,
    ((shown_double hl).option).inj _ _ ha.ageOfDgps hb.ageOfDgps e9,
    ((shown_nat).option).inj _ _ (fun _ _ => trivial) (fun _ _ => trivial) e10⟩

/-- Numbers and dates of the report. -/
structure RmcData.Sound (d : RmcData) : Prop where
  timestamp : ValidTime d.timestamp
  latitude : Doubles d.latitude
  longitude : Doubles d.longitude
  sogKnots : Doubles d.sogKnots
  bearing : Doubles d.bearing
  variation : Doubles d.variation

theorem shown_RmcData {l : Library} (hl : LibraryOk l) : Shown (RmcData.debug l) RmcData.Sound := by
  have hf : ∀ d : RmcData, RmcData.Sound d → ∀ f ∈ [(c! "source", NavigationSystem.debug d.source),
      (c! "timestamp", debugOption DateTime.debug d.timestamp),
      (c! "status_active", debugOption debugBool d.statusActive),
      (c! "latitude", debugOption l.double d.latitude),
      (c! "longitude", debugOption l.double d.longitude),
      (c! "sog_knots", debugOption l.double d.sogKnots),
      (c! "bearing", debugOption l.double d.bearing),
      (c! "variation", debugOption l.double d.variation)], FieldOk f := by
    intro d h
    simp only [List.forall_mem_cons]
    exact ⟨⟨keys (by decide), (shown_NavigationSystem).passes _ trivial, (shown_NavigationSystem).line _ trivial⟩,
      ⟨keys (by decide), ((shown_date).option).passes _ h.timestamp, ((shown_date).option).line _ h.timestamp⟩,
      ⟨keys (by decide), ((shown_bool).option).passes _ (fun _ _ => trivial), ((shown_bool).option).line _ (fun _ _ => trivial)⟩,
      ⟨keys (by decide), ((shown_double hl).option).passes _ h.latitude, ((shown_double hl).option).line _ h.latitude⟩,
      ⟨keys (by decide), ((shown_double hl).option).passes _ h.longitude, ((shown_double hl).option).line _ h.longitude⟩,
      ⟨keys (by decide), ((shown_double hl).option).passes _ h.sogKnots, ((shown_double hl).option).line _ h.sogKnots⟩,
      ⟨keys (by decide), ((shown_double hl).option).passes _ h.bearing, ((shown_double hl).option).line _ h.bearing⟩,
      ⟨keys (by decide), ((shown_double hl).option).passes _ h.variation, ((shown_double hl).option).line _ h.variation⟩,
      fun _ h => nomatch h⟩
  refine ⟨fun d h => passes_struct (by decide) (hf d h), fun d _ => by simp [RmcData.debug, debugStruct],
    fun d h => line_struct (by decide) (hf d h), fun a b ha hb e => ?_⟩
  have h1 := struct_inj (by rfl) (hf a ha) (hf b hb) e
  simp only [List.map_cons, List.map_nil, List.cons.injEq, and_true] at h1
  obtain ⟨e0, e1, e2, e3, e4, e5, e6, e7⟩ := h1
  cases a
  cases b
  simp only [RmcData.mk.injEq]
  exact ⟨(shown_NavigationSystem).inj _ _ trivial trivial e0,
    ((shown_date).option).inj _ _ ha.timestamp hb.timestamp e1,
    ((shown_bool).option).inj _ _ (fun _ _ => trivial) (fun _ _ => trivial) e2,
    ((shown_double hl).option).inj _ _ ha.latitude hb.latitude e3,
    ((shown_double hl).option).inj _ _ ha.longitude hb.longitude e4,
    ((shown_double hl).option).inj _ _ ha.sogKnots hb.sogKnots e5,
    ((shown_double hl).option).inj _ _ ha.bearing hb.bearing e6,
    ((shown_double hl).option).inj _ _ ha.variation hb.variation e7⟩

/-- Numbers and dates of the report. -/
structure GsaData.Sound (d : GsaData) : Prop where
  pdop : Doubles d.pdop
  hdop : Doubles d.hdop
  vdop : Doubles d.vdop

theorem shown_GsaData {l : Library} (hl : LibraryOk l) : Shown (GsaData.debug l) GsaData.Sound := by
  have hf : ∀ d : GsaData, GsaData.Sound d → ∀ f ∈ [(c! "source", NavigationSystem.debug d.source),
      (c! "mode1_automatic", debugOption debugBool d.mode1Automatic),
      (c! "mode2_3d", debugOption GsaFixMode.debug d.mode2_3d),
      (c! "prn_numbers", debugVec natStr d.prnNumbers),
      (c! "pdop", debugOption l.double d.pdop),
      (c! "hdop", debugOption l.double d.hdop),
      (c! "vdop", debugOption l.double d.vdop)], FieldOk f := by
    intro d h
    simp only [List.forall_mem_cons]
    exact ⟨⟨keys (by decide), (shown_NavigationSystem).passes _ trivial, (shown_NavigationSystem).line _ trivial⟩,
      ⟨keys (by decide), ((shown_bool).option).passes _ (fun _ _ => trivial), ((shown_bool).option).line _ (fun _ _ => trivial)⟩,
      ⟨keys (by decide), ((shown_GsaFixMode).option).passes _ (fun _ _ => trivial), ((shown_GsaFixMode).option).line _ (fun _ _ => trivial)⟩,
      ⟨keys (by decide), (shown_nat.vec).passes _ (fun _ _ => trivial), (shown_nat.vec).line _ (fun _ _ => trivial)⟩,
      ⟨keys (by decide), ((shown_double hl).option).passes _ h.pdop, ((shown_double hl).option).line _ h.pdop⟩,
      ⟨keys (by decide), ((shown_double hl).option).passes _ h.hdop, ((shown_double hl).option).line _ h.hdop⟩,
      ⟨keys (by decide), ((shown_double hl).option).passes _ h.vdop, ((shown_double hl).option).line _ h.vdop⟩,
      fun _ h => nomatch h⟩
  refine ⟨fun d h => passes_struct (by decide) (hf d h), fun d _ => by simp [GsaData.debug, debugStruct],
    fun d h => line_struct (by decide) (hf d h), fun a b ha hb e => ?_⟩
  have h1 := struct_inj (by rfl) (hf a ha) (hf b hb) e
  simp only [List.map_cons, List.map_nil, List.cons.injEq, and_true] at h1
  obtain ⟨e0, e1, e2, e3, e4, e5, e6⟩ := h1
  cases a
  cases b
  simp only [GsaData.mk.injEq]
  exact ⟨(shown_NavigationSystem).inj _ _ trivial trivial e0,
    ((shown_bool).option).inj _ _ (fun _ _ => trivial) (fun _ _ => trivial) e1,
    ((shown_GsaFixMode).option).inj _ _ (fun _ _ => trivial) (fun _ _ => trivial) e2,
    (shown_nat.vec).inj _ _ (fun _ _ => trivial) (fun _ _ => trivial) e3,
    ((shown_double hl).option).inj _ _ ha.pdop hb.pdop e4,
    ((shown_double hl).option).inj _ _ ha.hdop hb.hdop e5,
    ((shown_double hl).option).inj _ _ ha.vdop hb.vdop e6⟩


theorem shown_GsvData {l : Library} (_hl : LibraryOk l) : Shown (GsvData.debug l) (fun _ => True) := by
  have hf : ∀ d : GsvData, (fun _ => True) d → ∀ f ∈ [(c! "source", NavigationSystem.debug d.source),
      (c! "prn_number", natStr d.prnNumber),
      (c! "elevation", debugOption natStr d.elevation),
      (c! "azimuth", debugOption natStr d.azimuth),
      (c! "snr", debugOption natStr d.snr)], FieldOk f := by
    intro d h
    simp only [List.forall_mem_cons]
    exact ⟨⟨keys (by decide), (shown_NavigationSystem).passes _ trivial, (shown_NavigationSystem).line _ trivial⟩,
      ⟨keys (by decide), (shown_nat).passes _ trivial, (shown_nat).line _ trivial⟩,
      ⟨keys (by decide), ((shown_nat).option).passes _ (fun _ _ => trivial), ((shown_nat).option).line _ (fun _ _ => trivial)⟩,
      ⟨keys (by decide), ((shown_nat).option).passes _ (fun _ _ => trivial), ((shown_nat).option).line _ (fun _ _ => trivial)⟩,
      ⟨keys (by decide), ((shown_nat).option).passes _ (fun _ _ => trivial), ((shown_nat).option).line _ (fun _ _ => trivial)⟩,
      fun _ h => nomatch h⟩
  refine ⟨fun d h => passes_struct (by decide) (hf d h), fun d _ => by simp [GsvData.debug, debugStruct],
    fun d h => line_struct (by decide) (hf d h), fun a b ha hb e => ?_⟩
  have h1 := struct_inj (by rfl) (hf a ha) (hf b hb) e
  simp only [List.map_cons, List.map_nil, List.cons.injEq, and_true] at h1
  obtain ⟨e0, e1, e2, e3, e4⟩ := h1
  cases a
  cases b
  simp only [GsvData.mk.injEq]
  exact ⟨(shown_NavigationSystem).inj _ _ trivial trivial e0,
    (shown_nat).inj _ _ trivial trivial e1,
    ((shown_nat).option).inj _ _ (fun _ _ => trivial) (fun _ _ => trivial) e2,
    ((shown_nat).option).inj _ _ (fun _ _ => trivial) (fun _ _ => trivial) e3,
    ((shown_nat).option).inj _ _ (fun _ _ => trivial) (fun _ _ => trivial) e4⟩

/-- Numbers and dates of the report. -/
structure VtgData.Sound (d : VtgData) : Prop where
  cogTrue : Doubles d.cogTrue
  cogMagnetic : Doubles d.cogMagnetic
  sogKnots : Doubles d.sogKnots
  sogKph : Doubles d.sogKph

theorem shown_VtgData {l : Library} (hl : LibraryOk l) : Shown (VtgData.debug l) VtgData.Sound := by
  have hf : ∀ d : VtgData, VtgData.Sound d → ∀ f ∈ [(c! "source", NavigationSystem.debug d.source),
      (c! "cog_true", debugOption l.double d.cogTrue),
      (c! "cog_magnetic", debugOption l.double d.cogMagnetic),
      (c! "sog_knots", debugOption l.double d.sogKnots),
      (c! "sog_kph", debugOption l.double d.sogKph),
      (c! "faa_mode", debugOption FaaMode.debug d.faaMode)], FieldOk f := by
    intro d h
    simp only [List.forall_mem_cons]
    exact ⟨⟨keys (by decide), (shown_NavigationSystem).passes _ trivial, (shown_NavigationSystem).line _ trivial⟩,
      ⟨keys (by decide), ((shown_double hl).option).passes _ h.cogTrue, ((shown_double hl).option).line _ h.cogTrue⟩,
      ⟨keys (by decide), ((shown_double hl).option).passes _ h.cogMagnetic, ((shown_double hl).option).line _ h.cogMagnetic⟩,
      ⟨keys (by decide), ((shown_double hl).option).passes _ h.sogKnots, ((shown_double hl).option).line _ h.sogKnots⟩,
      ⟨keys (by decide), ((shown_double hl).option).passes _ h.sogKph, ((shown_double hl).option).line _ h.sogKph⟩,
      ⟨keys (by decide), ((shown_FaaMode).option).passes _ (fun _ _ => trivial), ((shown_FaaMode).option).line _ (fun _ _ => trivial)⟩,
      fun _ h => nomatch h⟩
  refine ⟨fun d h => passes_struct (by decide) (hf d h), fun d _ => by simp [VtgData.debug, debugStruct],
    fun d h => line_struct (by decide) (hf d h), fun a b ha hb e => ?_⟩
  have h1 := struct_inj (by rfl) (hf a ha) (hf b hb) e
  simp only [List.map_cons, List.map_nil, List.cons.injEq, and_true] at h1
  obtain ⟨e0, e1, e2, e3, e4, e5⟩ := h1
  cases a
  cases b
  simp only [VtgData.mk.injEq]
  exact ⟨(shown_NavigationSystem).inj _ _ trivial trivial e0,
    ((shown_double hl).option).inj _ _ ha.cogTrue hb.cogTrue e1,
    ((shown_double hl).option).inj _ _ ha.cogMagnetic hb.cogMagnetic e2,
    ((shown_double hl).option).inj _ _ ha.sogKnots hb.sogKnots e3,
    ((shown_double hl).option).inj _ _ ha.sogKph hb.sogKph e4,
    ((shown_FaaMode).option).inj _ _ (fun _ _ => trivial) (fun _ _ => trivial) e5⟩

/-- Numbers and dates of the report. -/
structure GllData.Sound (d : GllData) : Prop where
  latitude : Doubles d.latitude
  longitude : Doubles d.longitude
  timestamp : ValidTime d.timestamp

theorem shown_GllData {l : Library} (hl : LibraryOk l) : Shown (GllData.debug l) GllData.Sound := by
  have hf : ∀ d : GllData, GllData.Sound d → ∀ f ∈ [(c! "source", NavigationSystem.debug d.source),
      (c! "latitude", debugOption l.double d.latitude),
      (c! "longitude", debugOption l.double d.longitude),
      (c! "timestamp", debugOption DateTime.debug d.timestamp),
      (c! "data_valid", debugOption debugBool d.dataValid),
      (c! "faa_mode", debugOption FaaMode.debug d.faaMode)], FieldOk f := by
    intro d h
    simp only [List.forall_mem_cons]
    exact ⟨⟨keys (by decide), (shown_NavigationSystem).passes _ trivial, (shown_NavigationSystem).line _ trivial⟩,
      ⟨keys (by decide), ((shown_double hl).option).passes _ h.latitude, ((shown_double hl).option).line _ h.latitude⟩,
      ⟨keys (by decide), ((shown_double hl).option).passes _ h.longitude, ((shown_double hl).option).line _ h.longitude⟩,
      ⟨keys (by decide), ((shown_date).option).passes _ h.timestamp, ((shown_date).option).line _ h.timestamp⟩,
      ⟨keys (by decide), ((shown_bool).option).passes _ (fun _ _ => trivial), ((shown_bool).option).line _ (fun _ _ => trivial)⟩,
      ⟨keys (by decide), ((shown_FaaMode).option).passes _ (fun _ _ => trivial), ((shown_FaaMode).option).line _ (fun _ _ => trivial)⟩,
      fun _ h => nomatch h⟩
  refine ⟨fun d h => passes_struct (by decide) (hf d h), fun d _ => by simp [GllData.debug, debugStruct],
    fun d h => line_struct (by decide) (hf d h), fun a b ha hb e => ?_⟩
  have h1 := struct_inj (by rfl) (hf a ha) (hf b hb) e
  simp only [List.map_cons, List.map_nil, List.cons.injEq, and_true] at h1
  obtain ⟨e0, e1, e2, e3, e4, e5⟩ := h1
  cases a
  cases b
  simp only [GllData.mk.injEq]
  exact ⟨(shown_NavigationSystem).inj _ _ trivial trivial e0,
    ((shown_double hl).option).inj _ _ ha.latitude hb.latitude e1,
    ((shown_double hl).option).inj _ _ ha.longitude hb.longitude e2,
    ((shown_date).option).inj _ _ ha.timestamp hb.timestamp e3,
    ((shown_bool).option).inj _ _ (fun _ _ => trivial) (fun _ _ => trivial) e4,
    ((shown_FaaMode).option).inj _ _ (fun _ _ => trivial) (fun _ _ => trivial) e5⟩

end Nmea
