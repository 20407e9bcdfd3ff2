/-
C123: default values of the public types.
-/
import Verif.Model.Defaults
import Verif.Lemmas.Ranges
import Verif.Lemmas.Outcome
import Verif.Spec.Demo

namespace Nmea
open Spec

/-- What a received report has and a default one has not: a class, a time, a fixing device. -/
def Marked : ParsedSentence → Prop
  | .vesselDynamicData d => d.aisType ≠ .unknown
  | .vesselStaticData d => d.aisType ≠ .unknown
  | .baseStationReport d => d.timestamp ≠ none
  | .aidToNavigationReport d => d.positionFixType ≠ none
  | _ => True

theorem dispatchAis_marked (env : Env) (ty : Str) (bits : Bits) (st : Station) (own : Bool) (p : Parser)
    (ht : typeOf bits ≠ 24) (r : ParsedSentence) (h : (dispatchAis env ty bits st own p).1 = .ok r) : Marked r := by
  rw [← typeOf_eq] at ht
  simp only [dispatchAis] at h
  generalize pickU64 bits 0 6 = n at h ht
  split at h
  case h_1 => cases h; simp [Marked]
  case h_2 => cases h; simp [Marked]
  case h_3 => cases h; simp [Marked]
  case h_4 =>
    unfold handleT4 at h
    rw [station_eval] at h
    split at h
    · cases h; simp [Marked]
    · cases h
  case h_5 =>
    simp only [handleT5, liftErr_pickString, Out.ok_bind, eta_eval] at h
    split at h
    · cases h; simp [Marked]
    · split at h
      · cases h; simp [Marked]
      · cases h
  case h_6 => cases h; trivial
  case h_7 => cases h; trivial
  case h_8 => cases h; trivial
  case h_9 => cases h; simp [Marked]
  case h_11 =>
    simp only [handleT21, liftErr_pickString, Out.ok_bind] at h
    cases h; simp [Marked]
  case h_12 => exact absurd rfl ht
  case h_13 => cases h; simp [Marked]
  all_goals cases h

theorem partData_class (own : Bool) (bits : List Bool) : (partData own bits).aisType = .classB := by
  unfold partData; split <;> rfl

theorem report_marked (env : Env) (p : Parser) (hg : GoodStatic p) (s : Str) (r : ParsedSentence)
    (h : (parseSentence env p s).1 = .ok r) : Marked r := by
  by_cases hn : NotAis r
  · cases r <;> trivial
  obtain ⟨talker, own, payload, hd, hr⟩ := ais_origin env p s r h hn
  obtain ⟨q, hq, he⟩ := eval_payload env p s talker own payload hd
  rw [he] at h
  by_cases ht : typeOf (payloadBits payload) = 24
  · rw [complete_24 env own _ payload q hr ht] at h
    split at h
    · have hm := partData_mmsi own (payloadBits payload)
      cases hp : q.savedVsds.get (mmsiOf (payloadBits payload)) with
      | none =>
        rw [(t24Store_none _ _ (by rw [hm]; exact hp)).1] at h
        cases h; trivial
      | some w =>
        obtain ⟨own', b', rfl, -, -, hb'⟩ := hg _ w (by unfold pendingStatic; rw [← hq]; exact hp)
        rw [(t24Store_some _ _ _ _ (by rw [hm]; exact hp) (merge_overlay own own' _ b' hb'.symm)).1] at h
        cases h
        simp [Marked, overlay, partData_class]
    · cases h
  · simp only [complete, parsePayload_readable env payload hr] at h
    exact dispatchAis_marked _ _ _ _ _ _ ht r h

/-- C123: a default position report, static data report, base station report or aid-to-navigation report is told apart from
every received one by `==`. -/
theorem C123_told_apart (env : Env) (p : Parser) (hp : Reachable p) (s : Str) (r : ParsedSentence)
    (h : (parseSentence env p s).1 = .ok r) :
    r.eq (.vesselDynamicData .default) = false ∧ r.eq (.vesselStaticData .default) = false ∧
    r.eq (.baseStationReport .default) = false ∧ r.eq (.aidToNavigationReport .default) = false := by
  have hm := report_marked env p (goodStatic_reachable p hp) s r h
  cases r <;> simp only [ParsedSentence.eq, and_self, true_and, and_true]
  case vesselDynamicData d =>
    have : (d.aisType == VesselDynamicData.default.aisType) = false := beq_eq_false_iff_ne.mpr hm
    simp [VesselDynamicData.eq, this]
  case vesselStaticData d =>
    exact beq_eq_false_iff_ne.mpr fun e => hm (by rw [e]; rfl)
  case baseStationReport d =>
    have : (d.timestamp == BaseStationReport.default.timestamp) = false := beq_eq_false_iff_ne.mpr hm
    simp [BaseStationReport.eq, this]
  case aidToNavigationReport d =>
    have : (d.positionFixType == AidToNavigationReport.default.positionFixType) = false := beq_eq_false_iff_ne.mpr hm
    simp [AidToNavigationReport.eq, this]

/-- A base station report by a new parser, which is reachable, with the default values but for the time. -/
example : Reachable Parser.new ∧ (parseSentence demoEnv Parser.new (aisSentence (c! "XX") false (armor (BaseStation.bits
      ⟨0, 0, 2024, 1, 1, 0, 0, 0, false, 181 * 600000, 91 * 600000, 0, 0, false, 0⟩)))).1 =
    .ok (.baseStationReport { BaseStationReport.default with timestamp := some ⟨2024, 1, 1, 0, 0, 0⟩ }) :=
  ⟨⟨[], rfl⟩, by decide +kernel⟩

/-- C123: "a report equal to the default value was not received" is false for the other types: these sentences are answered
with the default report of an aircraft, the default inquiry and the default addressed message. -/
theorem C123_not_told_apart :
    (parseSentence demoEnv Parser.new (aisSentence (c! "XX") false (armor (Aircraft.bits
      ⟨0, 0, 4095, 1023, false, 181 * 600000, 91 * 600000, 3600, 0, 0, true, 0, false, false, 0⟩)))).1 =
      .ok (.standardSarAircraftPositionReport .default) ∧
    (parseSentence demoEnv Parser.new (c! "!XXVDM,1,1,,A,:,0")).1 = .ok (.utcDateInquiry .default) ∧
    (parseSentence demoEnv Parser.new (c! "!XXVDM,1,1,,A,6,0")).1 = .ok (.binaryAddressedMessage .default) := by
  decide +kernel

/-- C123: the codes that are decoded as the default. -/
theorem C123_codes (n : Nat) (h : n < 256) :
    (NavigationStatus.new n = .default ↔ 15 ≤ n) ∧ (ShipType.new n = .default ↔ n < 10 ∨ 99 < n) ∧
    (CargoType.new n = .default ↔ n % 10 = 0 ∨ n / 10 ∉ [1, 2, 4, 6, 7, 8, 9]) ∧
    (NavAidType.new n = .ok .default ↔ n = 0) := by
  have : ∀ n : Fin 256, (NavigationStatus.new n.val = .default ↔ 15 ≤ n.val) ∧
    (ShipType.new n.val = .default ↔ n.val < 10 ∨ 99 < n.val) ∧
    (CargoType.new n.val = .default ↔ n.val % 10 = 0 ∨ n.val / 10 ∉ [1, 2, 4, 6, 7, 8, 9]) ∧
    (NavAidType.new n.val = .ok .default ↔ n.val = 0) := by decide +kernel
  exact this ⟨n, h⟩

example : ShipType.new 100 = .default ∧ ShipType.new 30 ≠ .default := by decide

/-- C123: a default report has no position and no country, and is equal to itself. -/
theorem C123_empty :
    (∀ r ∈ [ParsedSentence.vesselDynamicData .default, .baseStationReport .default, .binaryAddressedMessage .default,
      .standardSarAircraftPositionReport .default, .aidToNavigationReport .default], latLon r = some (none, none)) ∧
    VesselStaticData.default.country = none ∧
    ∀ r ∈ [ParsedSentence.vesselDynamicData .default, .vesselStaticData .default, .baseStationReport .default,
      .binaryAddressedMessage .default, .standardSarAircraftPositionReport .default, .utcDateInquiry .default,
      .aidToNavigationReport .default], r.eq r = true := by
  decide +kernel

/-- C123: what is printed for the values of a default report. -/
theorem C123_printed :
    VesselDynamicData.default.aisType.display = c! "unknown" ∧ VesselStaticData.default.aisType.display = c! "unknown" ∧
    VesselStaticData.default.shipType.label = c! "(not available)" ∧ VesselStaticData.default.cargoType.label = c! "undefined" ∧
    AidToNavigationReport.default.aidType.label = c! "not specified" ∧
    VesselDynamicData.default.station.label = c! "other" := by
  decide +kernel

end Nmea
