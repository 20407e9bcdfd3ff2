/-
C128: exactly which numbers and texts are reported.
-/
import Verif.Props.Ranges
import Verif.Props.Traffic
import Verif.Props.Messages
import Verif.Props.Misread
import Verif.Props.Delivered
import Verif.Spec.Occurs
import Verif.Spec.Equality

namespace Nmea
open Spec

theorem mem_told {a : Answer} : ∀ {l : List Answer}, a ∈ told l → a ∈ l
  | [], h => by cases h
  | b :: l, h => by
    unfold told at h
    split at h
    · cases ‹_ = []›
    · injection ‹_ :: _ = _› with _ h2
      subst h2
      exact List.mem_cons_of_mem _ (mem_told h)
    · injection ‹_ :: _ = _› with h1 h2
      subst h1 h2
      rcases List.mem_cons.mp h with rfl | h
      · exact List.mem_cons_self
      · exact List.mem_cons_of_mem _ (mem_told h)

/-- What a source tells is reported. -/
theorem occurs_source (x : Source) (hx : x.Fits) (P : ParsedSentence → Prop)
    (hP : ∀ a, x.Tells a → ∃ r, a = .ok r ∧ P r) : Occurs P := by
  have h := C124_one_by_one [x] (by simpa using hx)
  generalize ht : told _ = t at h
  cases h with
  | @cons _ a _ l h1 h2 =>
    obtain ⟨r, rfl, hr⟩ := hP a h1
    exact ⟨_, r, mem_told (by rw [ht]; exact List.mem_cons_self), hr⟩

theorem occurs_ais (m : AisMessage) (hm : m.Fits) (hw : m.IsWhole) (P : ParsedSentence → Prop)
    (hP : ∀ a, m.Tells demoEnv.now (c! "AI") false a → ∃ r, a = .ok r ∧ P r) : Occurs P :=
  occurs_source (.ais ⟨demoEnv, c! "AI", false, 0, c! "A", .message m⟩)
    ⟨show Talker (c! "AI") by decide, show 0 < 2 ^ 64 by decide, show ',' ∉ c! "A" by decide, hm, hw⟩ P hP

theorem occurs_positionA (m : PositionA) (hm : m.Fits) (P : VesselDynamicData → Prop)
    (hP : ∀ d, m.Tells (c! "AI") false d → P d) : Occurs (Dynamic P) :=
  occurs_ais (.positionA m) hm trivial _ fun _ ⟨d, ha, hd⟩ => ⟨_, ha, hP d hd⟩

theorem occurs_voyage (m : Voyage) (hm : m.Fits) (hd : IsDateTime (etaCandidate demoEnv.now m.arrival))
    (P : VesselStaticData → Prop) (hP : P (m.data demoEnv.now false)) : Occurs (Static P) :=
  occurs_ais (.voyage m) hm trivial _ fun _ ha => by
    have ha : _ = _ := ha
    rw [if_pos (.inr hd)] at ha
    exact ⟨_, ha, hP⟩

theorem occurs_static (a : StaticA) (b : StaticB) (ha : a.Fits) (hb : b.Fits) (hab : a.mmsi = b.mmsi)
    (P : VesselStaticData → Prop) (hP : P { b.data false with name := nonEmpty a.name }) : Occurs (Static P) :=
  occurs_source (.ais ⟨demoEnv, c! "AI", false, 0, c! "A", .static a b⟩)
    ⟨show Talker (c! "AI") by decide, show 0 < 2 ^ 64 by decide, show ',' ∉ c! "A" by decide, ha, hb, hab⟩ _ fun _ h => ⟨_, h, hP⟩

theorem occurs_view (v : InView) (hv : v.Fits) (P : GsvData → Prop) (hP : P (v.data .gps)) : Occurs (View P) :=
  occurs_source (.view demoEnv (c! "GP") [[v]])
    ⟨show Talker (c! "GP") by decide, by simp, by simp, by
      intro row hr
      obtain rfl : row = [v] := by simpa using hr
      exact ⟨by simp, by simpa using hv⟩⟩ _
    fun _ h => ⟨_, h, v.data .gps, by simp [show talkerSystem (c! "GP") = .gps by decide], hP⟩

theorem occurs_range {P Q : ParsedSentence → Prop} (h : Occurs P) (hq : ∀ r, P r → InRange r → Q r) : Occurs Q := by
  obtain ⟨l, r, hr, hp⟩ := h
  exact ⟨l, r, hr, hq r hp (C98_history l r hr)⟩

theorem range_dynamic {P : VesselDynamicData → Prop} (h : Occurs (Dynamic P)) : ∃ d, P d ∧ DynamicInRange d := by
  obtain ⟨l, r, hr, hp⟩ := h
  have := C98_history l r hr
  cases r <;> try cases hp
  exact ⟨_, hp, this⟩

theorem range_static {P : VesselStaticData → Prop} (h : Occurs (Static P)) : ∃ d, P d ∧ StaticInRange d := by
  obtain ⟨l, r, hr, hp⟩ := h
  have := C98_history l r hr
  cases r <;> try cases hp
  exact ⟨_, hp, this⟩

theorem range_base {P : BaseStationReport → Prop} (h : Occurs (Base P)) : ∃ d, P d ∧ BaseInRange d := by
  obtain ⟨l, r, hr, hp⟩ := h
  have := C98_history l r hr
  cases r <;> try cases hp
  exact ⟨_, hp, this⟩

theorem range_binary {P : BinaryAddressedMessage → Prop} (h : Occurs (Binary P)) : ∃ d, P d ∧ BinaryInRange d := by
  obtain ⟨l, r, hr, hp⟩ := h
  have := C98_history l r hr
  cases r <;> try cases hp
  exact ⟨_, hp, this⟩

theorem range_sar {P : StandardSarAircraftPositionReport → Prop} (h : Occurs (Sar P)) :
    ∃ d, P d ∧ AircraftInRange d := by
  obtain ⟨l, r, hr, hp⟩ := h
  have := C98_history l r hr
  cases r <;> try cases hp
  exact ⟨_, hp, this⟩

theorem range_aid {P : AidToNavigationReport → Prop} (h : Occurs (AidTo P)) : ∃ d, P d ∧ AidInRange d := by
  obtain ⟨l, r, hr, hp⟩ := h
  have := C98_history l r hr
  cases r <;> try cases hp
  exact ⟨_, hp, this⟩

theorem rounded_nat_eq {n : Nat} (hn : n ≤ 2 ^ 53) {x : Option F64} (h : Rounded n x) :
    x = some (.fin false n) := by
  obtain ⟨d, rfl, hd⟩ := h
  rw [F64.roundsTo_iff] at hd
  have := F64.ofInt_exact n (by rw [abs_of_nonneg (by omega)]; exact_mod_cast hn)
  rw [hd]
  have hf : decide ((n : Int) < 0) = false := decide_eq_false (by omega)
  rw [hf] at this
  simpa [F64.ofInt] using this

/-- C128: position reports of ships: exactly these numbers are reported. -/
theorem C128_position (n : Nat) :
    (Occurs (Dynamic fun d => d.mmsi = n) ↔ n < 2 ^ 30) ∧
    (Occurs (Dynamic fun d => d.headingTrue = some (.fin false n)) ↔ n ≤ 510) ∧
    (Occurs (Dynamic fun d => d.timestampSeconds = n) ↔ n ≤ 63) ∧
    (Occurs (Dynamic fun d => d.radioStatus = some n) ↔ n < 2 ^ 19) := by
  refine ⟨⟨fun h => ?_, fun h => ?_⟩, ⟨fun h => ?_, fun h => ?_⟩, ⟨fun h => ?_, fun h => ?_⟩, ⟨fun h => ?_, fun h => ?_⟩⟩
  · obtain ⟨d, rfl, hd⟩ := range_dynamic h; exact hd.mmsi
  · exact occurs_positionA ⟨1, 0, n, 0, 0, 0, false, 0, 0, 0, 0, 0, 0, 0, false, 0⟩
      (by unfold PositionA.Fits; simpa using h) _ fun d hd => hd.2.2.2.1
  · obtain ⟨d, e, hd⟩ := range_dynamic h
    obtain ⟨v, hv, -, hv'⟩ := hd.headingTrue _ e
    simp only [valueOf, Bool.false_eq_true, if_false, Option.some.injEq] at hv
    rw [← hv] at hv'
    exact_mod_cast hv'
  · refine occurs_positionA ⟨1, 0, 0, 0, 0, 0, false, 0, 0, 0, n, 0, 0, 0, false, 0⟩
      (by unfold PositionA.Fits; simp; omega) _ fun d hd => ?_
    obtain ⟨-, -, -, -, -, -, -, -, -, -, -, -, hh, -⟩ := hd
    simp only [Heading] at hh
    rw [if_neg (by omega)] at hh
    exact rounded_nat_eq (by omega) hh
  · obtain ⟨d, rfl, hd⟩ := range_dynamic h; exact hd.timestampSeconds
  · refine occurs_positionA ⟨1, 0, 0, 0, 0, 0, false, 0, 0, 0, 0, n, 0, 0, false, 0⟩
      (by unfold PositionA.Fits; simp; omega) _ fun d hd => ?_
    obtain ⟨-, -, -, -, -, -, -, -, -, -, -, -, -, hh, -⟩ := hd
    exact hh
  · obtain ⟨d, e, hd⟩ := range_dynamic h
    have := hd.radioStatus n e
    omega
  · refine occurs_positionA ⟨1, 0, 0, 0, 0, 0, false, 0, 0, 0, 0, 0, 0, 0, false, n⟩
      (by unfold PositionA.Fits; simp; omega) _ fun d hd => ?_
    obtain ⟨-, -, -, -, -, -, -, -, -, -, -, -, -, -, -, -, -, hh, -⟩ := hd
    exact hh

/-- Static data with these values, as in type 5. -/
theorem occurs_voyage' (mmsi version imo : Nat) (callSign name : Str) (bow stern port starboard draught : Nat)
    (destination : Str) (P : VesselStaticData → Prop)
    (h : mmsi < 2 ^ 30 ∧ version < 4 ∧ imo < 2 ^ 30 ∧ PlainText 7 callSign ∧ PlainText 20 name ∧ bow < 512 ∧ stern < 512 ∧
      port < 64 ∧ starboard < 64 ∧ draught < 256 ∧ PlainText 20 destination)
    (hP : P (Voyage.data demoEnv.now false ⟨0, mmsi, version, imo, callSign, name, 0, bow, stern, port, starboard, 0, 1, 1,
      24, 0, draught, destination, false, false⟩)) : Occurs (Static P) := by
  obtain ⟨h1, h2, h3, h4, h5, h6, h7, h8, h9, h10, h11⟩ := h
  refine occurs_voyage ⟨0, mmsi, version, imo, callSign, name, 0, bow, stern, port, starboard, 0, 1, 1,
      24, 0, draught, destination, false, false⟩ ?_ ?_ P hP
  · exact ⟨by simp, h1, h2, h3, h4, h5, by simp, h6, h7, h8, h9, by simp, by simp, by simp, by simp, by simp, h10, h11⟩
  · simp only [etaCandidate, Voyage.arrival]
    simp
    decide

theorem plain_nil (n : Nat) : PlainText n [] := ⟨by simp, by simp, by simp⟩

/-- Static data with these values, as in type 24. -/
theorem occurs_partB (b : StaticB) (hb : b.Fits) (P : VesselStaticData → Prop)
    (hP : P { b.data false with name := none }) : Occurs (Static P) :=
  occurs_static ⟨0, b.mmsi, []⟩ b ⟨Nat.zero_lt_succ _, hb.2.1, plain_nil _⟩ hb rfl P hP

/-- C128: static data of ships: exactly these numbers are reported. The identification number goes up to `2 ^ 30 - 1`, and a
draught may be 0. -/
theorem C128_static (n : Nat) :
    (Occurs (Static fun d => d.mmsi = n) ↔ n < 2 ^ 30) ∧
    (Occurs (Static fun d => d.aisVersionIndicator = n) ↔ n ≤ 3) ∧
    (Occurs (Static fun d => d.imoNumber = some n) ↔ 0 < n ∧ n < 2 ^ 30) ∧
    (Occurs (Static fun d => d.equipmentModel = some n) ↔ n ≤ 15) ∧
    (Occurs (Static fun d => d.equipmentSerialNumber = some n) ↔ n < 2 ^ 20) ∧
    (Occurs (Static fun d => d.dimensionToBow = some n) ↔ n ≤ 511) ∧
    (Occurs (Static fun d => d.dimensionToStern = some n) ↔ n ≤ 511) ∧
    (Occurs (Static fun d => d.dimensionToPort = some n) ↔ n ≤ 63) ∧
    (Occurs (Static fun d => d.dimensionToStarboard = some n) ↔ n ≤ 63) ∧
    (Occurs (Static fun d => d.draught10 = some n) ↔ n ≤ 255) ∧
    (Occurs (Static fun d => d.mothershipMmsi = some n) ↔ n < 2 ^ 30) := by
  have p := plain_nil
  refine ⟨⟨fun h => ?_, fun h => ?_⟩, ⟨fun h => ?_, fun h => ?_⟩, ⟨fun h => ?_, fun h => ?_⟩, ⟨fun h => ?_, fun h => ?_⟩,
    ⟨fun h => ?_, fun h => ?_⟩, ⟨fun h => ?_, fun h => ?_⟩, ⟨fun h => ?_, fun h => ?_⟩, ⟨fun h => ?_, fun h => ?_⟩,
    ⟨fun h => ?_, fun h => ?_⟩, ⟨fun h => ?_, fun h => ?_⟩, ⟨fun h => ?_, fun h => ?_⟩⟩
  · obtain ⟨d, rfl, hd⟩ := range_static h; exact hd.mmsi
  · exact occurs_voyage' n 0 0 [] [] 0 0 0 0 0 [] _ ⟨h, by simp [p]⟩ rfl
  · obtain ⟨d, rfl, hd⟩ := range_static h; exact hd.version
  · exact occurs_voyage' 0 n 0 [] [] 0 0 0 0 0 [] _ (by simp [p]; omega) rfl
  · obtain ⟨d, e, hd⟩ := range_static h; exact hd.imo n e
  · exact occurs_voyage' 0 0 n [] [] 0 0 0 0 0 [] _ (by simp [p]; omega) (if_neg (show ¬ n = 0 by omega))
  · obtain ⟨d, e, hd⟩ := range_static h; exact hd.model n e
  · exact occurs_partB ⟨0, 0, 0, [], n, 0, [], 0, 0, 0, 0, 0⟩ (by unfold StaticB.Fits; simp [p]; omega) _ rfl
  · obtain ⟨d, e, hd⟩ := range_static h; have := hd.serial n e; omega
  · exact occurs_partB ⟨0, 0, 0, [], 0, n, [], 0, 0, 0, 0, 0⟩ (by unfold StaticB.Fits; simp [p]; omega) _ rfl
  · obtain ⟨d, e, hd⟩ := range_static h; exact hd.bow n e
  · exact occurs_voyage' 0 0 0 [] [] n 0 0 0 0 [] _ (by simp [p]; omega) rfl
  · obtain ⟨d, e, hd⟩ := range_static h; exact hd.stern n e
  · exact occurs_voyage' 0 0 0 [] [] 0 n 0 0 0 [] _ (by simp [p]; omega) rfl
  · obtain ⟨d, e, hd⟩ := range_static h; exact hd.port n e
  · exact occurs_voyage' 0 0 0 [] [] 0 0 n 0 0 [] _ (by simp [p]; omega) rfl
  · obtain ⟨d, e, hd⟩ := range_static h; exact hd.starboard n e
  · exact occurs_voyage' 0 0 0 [] [] 0 0 0 n 0 [] _ (by simp [p]; omega) rfl
  · obtain ⟨d, e, hd⟩ := range_static h; exact hd.draught n e
  · exact occurs_voyage' 0 0 0 [] [] 0 0 0 0 n [] _ (by simp [p]; omega) rfl
  · obtain ⟨d, e, hd⟩ := range_static h; exact hd.mothership n e
  · refine occurs_partB ⟨0, 0, 0, [], 0, 0, [], n / 2 ^ 21, n / 2 ^ 12 % 2 ^ 9, n / 2 ^ 6 % 2 ^ 6, n % 2 ^ 6, 0⟩
      (by unfold StaticB.Fits; simp [p]; omega) _ ?_
    simp only [StaticB.data, Option.some.injEq]
    omega

theorem occurs_base (m : BaseStation) (hm : m.Fits) (ht : IsDateTime m.time) (P : BaseStationReport → Prop)
    (hP : ∀ d, m.Tells (c! "AI") false d → P d) : Occurs (Base P) :=
  occurs_ais (.base m) hm trivial _ fun a ha => by
    have ha : if IsDateTime m.time then _ else _ := ha
    rw [if_pos ht] at ha
    obtain ⟨d, ha, hd⟩ := ha
    exact ⟨_, ha, hP d hd⟩

theorem occurs_sar (m : Aircraft) (hm : m.Fits) (P : StandardSarAircraftPositionReport → Prop)
    (hP : ∀ d, m.Tells (c! "AI") false d → P d) : Occurs (Sar P) :=
  occurs_ais (.aircraft m) hm trivial _ fun _ ⟨d, ha, hd⟩ => ⟨_, ha, hP d hd⟩

theorem occurs_aid (m : Aid) (hm : m.Fits) (P : AidToNavigationReport → Prop)
    (hP : ∀ d, m.Tells (c! "AI") false d → P d) : Occurs (AidTo P) :=
  occurs_ais (.aid m) hm trivial _ fun _ ⟨d, ha, hd⟩ => ⟨_, ha, hP d hd⟩

theorem occurs_binary (m : Addressed) (hm : m.Fits) (P : BinaryAddressedMessage → Prop)
    (hP : P ⟨false, talkerStation (c! "AI"), m.mmsi, m.sequence, m.destination, m.retransmit, m.dac, m.fid⟩) :
    Occurs (Binary P) :=
  occurs_ais (.addressed m) hm trivial _ fun _ ha => ⟨_, ha, hP⟩

theorem occurs_asks (m : Inquiry) (hm : m.Fits) (P : UtcDateInquiry → Prop)
    (hP : P ⟨false, talkerStation (c! "AI"), m.mmsi, m.destination⟩) : Occurs (Asks P) :=
  occurs_ais (.inquiry m) hm trivial _ fun _ ha => ⟨_, ha, hP⟩

theorem range_asks {P : UtcDateInquiry → Prop} (h : Occurs (Asks P)) :
    ∃ d, P d ∧ IsMmsi d.sourceMmsi ∧ IsMmsi d.destinationMmsi := by
  obtain ⟨l, r, hr, hp⟩ := h
  have := C98_history l r hr
  cases r <;> try cases hp
  exact ⟨_, hp, this⟩

/-- C128: base stations, addressed messages, inquiries, aircraft and aids to navigation: exactly these numbers are
reported. -/
theorem C128_others (n : Nat) :
    (Occurs (Base fun d => d.mmsi = n) ↔ n < 2 ^ 30) ∧
    (Occurs (Base fun d => d.radioStatus = n) ↔ n < 2 ^ 19) ∧
    (Occurs (Binary fun d => d.mmsi = n) ↔ n < 2 ^ 30) ∧
    (Occurs (Binary fun d => d.sequenceNumber = n) ↔ n ≤ 3) ∧
    (Occurs (Binary fun d => d.destinationMmsi = n) ↔ n < 2 ^ 30) ∧
    (Occurs (Binary fun d => d.dac = n) ↔ n ≤ 1023) ∧
    (Occurs (Binary fun d => d.fid = n) ↔ n ≤ 63) ∧
    (Occurs (Asks fun d => d.sourceMmsi = n) ↔ n < 2 ^ 30) ∧
    (Occurs (Asks fun d => d.destinationMmsi = n) ↔ n < 2 ^ 30) ∧
    (Occurs (Sar fun d => d.mmsi = n) ↔ n < 2 ^ 30) ∧
    (Occurs (Sar fun d => d.altitude = some n) ↔ n ≤ 4094) ∧
    (Occurs (Sar fun d => d.sogKnots = some n) ↔ n ≤ 1022) ∧
    (Occurs (Sar fun d => d.timestampSeconds = n) ↔ n ≤ 63) ∧
    (Occurs (Sar fun d => d.regional = n) ↔ n ≤ 255) ∧
    (Occurs (Sar fun d => d.radioStatus = n) ↔ n < 2 ^ 20) ∧
    (Occurs (AidTo fun d => d.mmsi = n) ↔ n < 2 ^ 30) ∧
    (Occurs (AidTo fun d => d.dimensionToBow = some n) ↔ n ≤ 511) ∧
    (Occurs (AidTo fun d => d.dimensionToStern = some n) ↔ n ≤ 511) ∧
    (Occurs (AidTo fun d => d.dimensionToPort = some n) ↔ n ≤ 63) ∧
    (Occurs (AidTo fun d => d.dimensionToStarboard = some n) ↔ n ≤ 63) ∧
    (Occurs (AidTo fun d => d.timestampSeconds = n) ↔ n ≤ 63) ∧
    (Occurs (AidTo fun d => d.regional = n) ↔ n ≤ 255) := by
  have p := plain_nil
  refine ⟨⟨fun h => ?_, fun h => ?_⟩, ⟨fun h => ?_, fun h => ?_⟩, ⟨fun h => ?_, fun h => ?_⟩, ⟨fun h => ?_, fun h => ?_⟩,
    ⟨fun h => ?_, fun h => ?_⟩, ⟨fun h => ?_, fun h => ?_⟩, ⟨fun h => ?_, fun h => ?_⟩, ⟨fun h => ?_, fun h => ?_⟩,
    ⟨fun h => ?_, fun h => ?_⟩, ⟨fun h => ?_, fun h => ?_⟩, ⟨fun h => ?_, fun h => ?_⟩, ⟨fun h => ?_, fun h => ?_⟩,
    ⟨fun h => ?_, fun h => ?_⟩, ⟨fun h => ?_, fun h => ?_⟩, ⟨fun h => ?_, fun h => ?_⟩, ⟨fun h => ?_, fun h => ?_⟩,
    ⟨fun h => ?_, fun h => ?_⟩, ⟨fun h => ?_, fun h => ?_⟩, ⟨fun h => ?_, fun h => ?_⟩, ⟨fun h => ?_, fun h => ?_⟩,
    ⟨fun h => ?_, fun h => ?_⟩, ⟨fun h => ?_, fun h => ?_⟩⟩
  · obtain ⟨d, rfl, hd⟩ := range_base h; exact hd.mmsi
  · exact occurs_base ⟨0, n, 2000, 1, 1, 0, 0, 0, false, 0, 0, 0, 0, false, 0⟩
      (by unfold BaseStation.Fits; simp; omega) (show IsDateTime ⟨2000, 1, 1, 0, 0, 0⟩ by decide) _ fun d hd => hd.2.2.1
  · obtain ⟨d, rfl, hd⟩ := range_base h; have := hd.radioStatus; omega
  · exact occurs_base ⟨0, 0, 2000, 1, 1, 0, 0, 0, false, 0, 0, 0, 0, false, n⟩
      (by unfold BaseStation.Fits; simp; omega) (show IsDateTime ⟨2000, 1, 1, 0, 0, 0⟩ by decide) _
      fun d ⟨_, _, _, _, _, _, _, _, _, h⟩ => h
  · obtain ⟨d, rfl, hd⟩ := range_binary h; exact hd.mmsi
  · exact occurs_binary ⟨0, n, 0, 0, false, false, 0, 0⟩ (by unfold Addressed.Fits; simp; omega) _ rfl
  · obtain ⟨d, rfl, hd⟩ := range_binary h; exact hd.sequence
  · exact occurs_binary ⟨0, 0, n, 0, false, false, 0, 0⟩ (by unfold Addressed.Fits; simp; omega) _ rfl
  · obtain ⟨d, rfl, hd⟩ := range_binary h; exact hd.destination
  · exact occurs_binary ⟨0, 0, 0, n, false, false, 0, 0⟩ (by unfold Addressed.Fits; simp; omega) _ rfl
  · obtain ⟨d, rfl, hd⟩ := range_binary h; exact hd.dac
  · exact occurs_binary ⟨0, 0, 0, 0, false, false, n, 0⟩ (by unfold Addressed.Fits; simp; omega) _ rfl
  · obtain ⟨d, rfl, hd⟩ := range_binary h; exact hd.fid
  · exact occurs_binary ⟨0, 0, 0, 0, false, false, 0, n⟩ (by unfold Addressed.Fits; simp; omega) _ rfl
  · obtain ⟨d, rfl, hd⟩ := range_asks h; exact hd.1
  · exact occurs_asks ⟨0, n, 0, 0, 0⟩ (by unfold Inquiry.Fits; simp; omega) _ rfl
  · obtain ⟨d, rfl, hd⟩ := range_asks h; exact hd.2
  · exact occurs_asks ⟨0, 0, 0, n, 0⟩ (by unfold Inquiry.Fits; simp; omega) _ rfl
  · obtain ⟨d, rfl, hd⟩ := range_sar h; exact hd.mmsi
  · exact occurs_sar ⟨0, n, 0, 0, false, 0, 0, 0, 0, 0, false, 0, false, false, 0⟩ (by unfold Aircraft.Fits; simp; omega) _
      fun d hd => hd.2.2.1
  · obtain ⟨d, e, hd⟩ := range_sar h; exact hd.altitude n e
  · refine occurs_sar ⟨0, 0, n, 0, false, 0, 0, 0, 0, 0, false, 0, false, false, 0⟩ (by unfold Aircraft.Fits; simp; omega) _
      fun d hd => ?_
    rw [hd.2.2.2.1]
    exact if_neg (show ¬ n = 4095 by omega)
  · obtain ⟨d, e, hd⟩ := range_sar h; exact hd.sogKnots n e
  · refine occurs_sar ⟨0, 0, 0, n, false, 0, 0, 0, 0, 0, false, 0, false, false, 0⟩ (by unfold Aircraft.Fits; simp; omega) _
      fun d hd => ?_
    rw [hd.2.2.2.2.1]
    exact if_neg (show ¬ n = 1023 by omega)
  · obtain ⟨d, rfl, hd⟩ := range_sar h; exact hd.timestampSeconds
  · exact occurs_sar ⟨0, 0, 0, 0, false, 0, 0, 0, n, 0, false, 0, false, false, 0⟩ (by unfold Aircraft.Fits; simp; omega) _
      fun d ⟨_, _, _, _, _, _, _, _, _, h, _⟩ => h
  · obtain ⟨d, rfl, hd⟩ := range_sar h; exact hd.regional
  · exact occurs_sar ⟨0, 0, 0, 0, false, 0, 0, 0, 0, n, false, 0, false, false, 0⟩ (by unfold Aircraft.Fits; simp; omega) _
      fun d ⟨_, _, _, _, _, _, _, _, _, _, h, _⟩ => h
  · obtain ⟨d, rfl, hd⟩ := range_sar h; have := hd.radioStatus; omega
  · exact occurs_sar ⟨0, 0, 0, 0, false, 0, 0, 0, 0, 0, false, 0, false, false, n⟩ (by unfold Aircraft.Fits; simp; omega) _
      fun d ⟨_, _, _, _, _, _, _, _, _, _, _, _, _, _, h⟩ => h
  · obtain ⟨d, rfl, hd⟩ := range_aid h; exact hd.mmsi
  · exact occurs_aid ⟨0, n, 0, [], false, 0, 0, 0, 0, 0, 0, 0, 0, false, 0, false, false, false, false, []⟩
      (by unfold Aid.Fits; simp [p]; omega) _ fun d hd => hd.2.2.1
  · obtain ⟨d, e, hd⟩ := range_aid h; exact hd.bow n e
  · exact occurs_aid ⟨0, 0, 0, [], false, 0, 0, n, 0, 0, 0, 0, 0, false, 0, false, false, false, false, []⟩
      (by unfold Aid.Fits; simp [p]; omega) _ fun d ⟨_, _, _, _, _, _, _, _, h, _⟩ => h
  · obtain ⟨d, e, hd⟩ := range_aid h; exact hd.stern n e
  · exact occurs_aid ⟨0, 0, 0, [], false, 0, 0, 0, n, 0, 0, 0, 0, false, 0, false, false, false, false, []⟩
      (by unfold Aid.Fits; simp [p]; omega) _ fun d ⟨_, _, _, _, _, _, _, _, _, h, _⟩ => h
  · obtain ⟨d, e, hd⟩ := range_aid h; exact hd.port n e
  · exact occurs_aid ⟨0, 0, 0, [], false, 0, 0, 0, 0, n, 0, 0, 0, false, 0, false, false, false, false, []⟩
      (by unfold Aid.Fits; simp [p]; omega) _ fun d ⟨_, _, _, _, _, _, _, _, _, _, h, _⟩ => h
  · obtain ⟨d, e, hd⟩ := range_aid h; exact hd.starboard n e
  · exact occurs_aid ⟨0, 0, 0, [], false, 0, 0, 0, 0, 0, n, 0, 0, false, 0, false, false, false, false, []⟩
      (by unfold Aid.Fits; simp [p]; omega) _ fun d ⟨_, _, _, _, _, _, _, _, _, _, _, h, _⟩ => h
  · obtain ⟨d, rfl, hd⟩ := range_aid h; exact hd.timestampSeconds
  · exact occurs_aid ⟨0, 0, 0, [], false, 0, 0, 0, 0, 0, 0, 0, n, false, 0, false, false, false, false, []⟩
      (by unfold Aid.Fits; simp [p]; omega) _ fun d ⟨_, _, _, _, _, _, _, _, _, _, _, _, _, h, _⟩ => h
  · obtain ⟨d, rfl, hd⟩ := range_aid h; exact hd.regional
  · exact occurs_aid ⟨0, 0, 0, [], false, 0, 0, 0, 0, 0, 0, 0, 0, false, n, false, false, false, false, []⟩
      (by unfold Aid.Fits; simp [p]; omega) _ fun d ⟨_, _, _, _, _, _, _, _, _, _, _, _, _, _, _, h, _⟩ => h

/-! ### GNSS -/

theorem occurs_gnss (r : Reading) (hr : r.Fits demoEnv.now) (P : ParsedSentence → Prop)
    (hP : ∀ a, r.Tells demoEnv.now (c! "GP") a → ∃ r, a = .ok r ∧ P r) : Occurs P :=
  occurs_source (.gnss demoEnv (c! "GP") r) ⟨show Talker (c! "GP") by decide, hr⟩ P hP

theorem view_range {P : GsvData → Prop} (h : Occurs (View P)) :
    ∃ d, P d ∧ d.prnNumber ≤ 255 ∧ UpTo 255 d.elevation ∧ UpTo 65535 d.azimuth ∧ UpTo 255 d.snr := by
  obtain ⟨l, r, hr, hp⟩ := h
  have := C98_history l r hr
  cases r <;> try exact hp.elim
  obtain ⟨d, hd, hp⟩ := hp
  exact ⟨d, hp, this d hd⟩

/-- A reading of zeros. -/
def zeroNumber : Number := ⟨false, 0, 1, 0⟩

/-- Zero degrees. -/
def zeroAngle : Angle := ⟨false, 0, 0, 1, 0⟩

/-- C128: GNSS: exactly these numbers are reported of a fix, of active satellites, and of satellites in view. -/
theorem C128_gnss (n : Nat) :
    (Occurs (Fix fun d => d.satelliteCount = some n) ↔ n ≤ 255) ∧
    (Occurs (Fix fun d => d.refStationId = some n) ↔ n ≤ 65535) ∧
    (∀ l, Occurs (Active fun d => d.prnNumbers = l) ↔ l.length ≤ 12 ∧ ∀ k ∈ l, k ≤ 255) ∧
    (Occurs (View fun d => d.prnNumber = n) ↔ n ≤ 255) ∧
    (Occurs (View fun d => d.elevation = some n) ↔ n ≤ 255) ∧
    (Occurs (View fun d => d.azimuth = some n) ↔ n ≤ 65535) ∧
    (Occurs (View fun d => d.snr = some n) ↔ n ≤ 255) := by
  have hz : zeroNumber.Ok := by unfold Number.Ok zeroNumber; decide
  have ha : ∀ n, zeroAngle.Ok n := fun n => by simp [Angle.Ok, zeroAngle]
  have gga : ∀ count station, count ≤ 255 → station ≤ 65535 → (Reading.gga 0 0 0 zeroAngle zeroAngle 1 count zeroNumber
      zeroNumber zeroNumber zeroNumber station).Fits demoEnv.now := fun count station h1 h2 =>
    ⟨by decide, by decide, ha _, ha _, by decide, h1, hz, hz, hz, hz, h2⟩
  refine ⟨⟨fun h => ?_, fun h => ?_⟩, ⟨fun h => ?_, fun h => ?_⟩, fun l => ⟨fun h => ?_, fun h => ?_⟩,
    ⟨fun h => ?_, fun h => ?_⟩, ⟨fun h => ?_, fun h => ?_⟩, ⟨fun h => ?_, fun h => ?_⟩, ⟨fun h => ?_, fun h => ?_⟩⟩
  · obtain ⟨l, r, hr, hp⟩ := h
    have := C98_history l r hr
    cases r <;> try exact hp.elim
    exact this.2.2.2.1 n hp
  · exact occurs_gnss _ (gga n 0 h (by decide)) _
      fun a ⟨d, e, _, _, _, _, _, h, _⟩ => ⟨_, e, h⟩
  · obtain ⟨l, r, hr, hp⟩ := h
    have := C98_history l r hr
    cases r <;> try exact hp.elim
    exact this.2.2.2.2 n hp
  · exact occurs_gnss _ (gga 0 n (by decide) h) _
      fun a ⟨d, e, _, _, _, _, _, _, _, _, _, _, h⟩ => ⟨_, e, h⟩
  · obtain ⟨l, r, hr, hp⟩ := h
    have := C98_history l r hr
    cases r <;> try exact hp.elim
    obtain rfl := hp
    exact this
  · exact occurs_gnss (.gsa true 1 l zeroNumber zeroNumber zeroNumber) ⟨by decide, h.1, h.2, hz, hz, hz⟩ _
      fun a ⟨d, e, _, _, _, h, _⟩ => ⟨_, e, h⟩
  · obtain ⟨d, rfl, h, -⟩ := view_range h; exact h
  · exact occurs_view ⟨n, none, none, none⟩ ⟨h, by simp, by simp, by simp⟩ _ rfl
  · obtain ⟨d, e, -, h, -⟩ := view_range h; exact h n e
  · exact occurs_view ⟨0, some n, none, none⟩ ⟨by simp, by simpa using h, by simp, by simp⟩ _ rfl
  · obtain ⟨d, e, -, -, h, -⟩ := view_range h; exact h n e
  · exact occurs_view ⟨0, none, some n, none⟩ ⟨by simp, by simp, by simpa using h, by simp⟩ _ rfl
  · obtain ⟨d, e, -, -, -, h⟩ := view_range h; exact h n e
  · exact occurs_view ⟨0, none, none, some n⟩ ⟨by simp, by simp, by simp, by simpa using h⟩ _ rfl

/-! ### Texts -/

/-- Part A with a text of up to 120 characters. -/
theorem long_name (env : Env) (p : Parser) (s talker : Str) (own : Bool) (t : Str) (hne : t ≠ []) (ht : PlainText 120 t)
    (h : Delivers p s talker own (armor ([natBits 6 24, natBits 2 0, natBits 30 0, natBits 2 0].flatten ++
      (t.map fun c => natBits 6 (textCode c)).flatten))) (hp : pendingStatic p 0 = none) :
    (parseSentence env p s).1 = .ok .incomplete ∧
      pendingStatic (parseSentence env p s).2 0 = some { blankStatic own 0 with name := some t } := by
  obtain ⟨q, hq, he⟩ := eval_delivers env p s talker own _ h
  generalize hb : [natBits 6 24, natBits 2 0, natBits 30 0, natBits 2 0].flatten ++
      (t.map fun c => natBits 6 (textCode c)).flatten = bits at he
  have hn : textAt bits 40 120 = t := by
    rw [← hb, textAt_append_right _ _ 40 120 (by simp)]
    simp only [List.flatten_cons, List.flatten_nil, List.length_append, length_natBits, List.length_nil]
    conv_rhs => rw [← textAt_textBits 120 _ ht]
    unfold textBits
    rw [textAt_zeros]
  have f0 : pickU64 bits 0 6 = 24 := by rw [← hb]; exact field_u 0 rfl (by simp) (by decide) (by decide)
  have f2 : pickU64 bits 8 30 = 0 := by rw [← hb]; exact field_u 2 rfl (by simp) (by decide) (by decide)
  have f3 : pickU64 bits 38 2 = 0 := by rw [← hb]; exact field_u 3 rfl (by simp) (by decide) (by decide)
  have hopt : someIfNonEmpty t = some t := by unfold someIfNonEmpty; simp [hne]
  have : t24Fields bits own true false = .ok { blankStatic own 0 with name := some t } := by
    simp only [t24Fields, liftErr_pickString, Out.ok_bind, if_true, Bool.false_eq_true, if_false, hn, f2, hopt]
    rfl
  rw [he, dispatch_24 f0]
  simp only [handleT24, f3, this]
  exact t24Store_none { blankStatic own 0 with name := some t } q (by rw [hq]; exact hp)

theorem occurs_name (t : Str) (hne : t ≠ []) (ht : PlainText 120 t) : Occurs (Static fun d => d.name = some t) := by
  have hA := single_aisSentence (c! "AI") false ([natBits 6 24, natBits 2 0, natBits 30 0, natBits 2 0].flatten ++
      (t.map fun c => natBits 6 (textCode c)).flatten) (by decide)
  obtain ⟨h1, h2⟩ := long_name demoEnv Parser.new _ _ _ t hne ht (.single _ hA) rfl
  have hb : StaticB.Fits ⟨0, 0, 0, [], 0, 0, [], 0, 0, 0, 0, 0⟩ := by unfold StaticB.Fits; simp [plain_nil]
  have hB := single_aisSentence (c! "AI") false (StaticB.bits ⟨0, 0, 0, [], 0, 0, [], 0, 0, 0, 0, 0⟩ ++ []) (by decide)
  generalize hs : aisSentence (c! "AI") false _ = s at hA h1 h2
  generalize hs' : aisSentence (c! "AI") false _ = s' at hB
  obtain ⟨q, hq, he⟩ := eval_delivers demoEnv (parseSentence demoEnv Parser.new s).2 s' _ _ _ (.single _ hB)
  rw [StaticB.eval _ hb false []] at he
  have := t24Store_some (StaticB.data false ⟨0, 0, 0, [], 0, 0, [], 0, 0, 0, 0, 0⟩) { blankStatic false 0 with name := some t }
    { StaticB.data false ⟨0, 0, 0, [], 0, 0, [], 0, 0, 0, 0, 0⟩ with name := some t } q (by rw [hq]; exact h2) rfl
  refine ⟨[(demoEnv, s), (demoEnv, s')], .vesselStaticData { StaticB.data false ⟨0, 0, 0, [], 0, 0, [], 0, 0, 0, 0, 0⟩ with
    name := some t }, ?_, rfl⟩
  simp only [answers, he, this.1]
  exact List.mem_cons_of_mem _ List.mem_cons_self

/-- C128: exactly these texts are reported: call signs, names, vendors, destinations, and names of aids to navigation. -/
theorem C128_texts (t : Str) :
    (Occurs (Static fun d => d.callSign = some t) ↔ t ≠ [] ∧ PlainText 7 t) ∧
    (Occurs (Static fun d => d.name = some t) ↔ t ≠ [] ∧ PlainText 120 t) ∧
    (Occurs (Static fun d => d.equipmentVendorId = some t) ↔ PlainText 3 t) ∧
    (Occurs (Static fun d => d.destination = some t) ↔ t ≠ [] ∧ PlainText 20 t) ∧
    (Occurs (AidTo fun d => d.name = t) ↔ ∃ a b, t = a ++ b ∧ PlainText 20 a ∧ PlainText 14 b) := by
  have p := plain_nil
  refine ⟨⟨fun h => ?_, fun h => ?_⟩, ⟨fun h => ?_, fun h => ?_⟩, ⟨fun h => ?_, fun h => ?_⟩, ⟨fun h => ?_, fun h => ?_⟩,
    ⟨fun h => ?_, fun h => ?_⟩⟩
  · obtain ⟨d, e, hd⟩ := range_static h; exact hd.callSign t e
  · exact occurs_voyage' 0 0 0 t [] 0 0 0 0 0 [] _ (by simp [p, h.2]) (if_neg h.1)
  · obtain ⟨d, e, hd⟩ := range_static h; exact hd.name t e
  · exact occurs_name t h.1 h.2
  · obtain ⟨d, e, hd⟩ := range_static h; exact hd.vendor t e
  · exact occurs_partB ⟨0, 0, 0, t, 0, 0, [], 0, 0, 0, 0, 0⟩ (by unfold StaticB.Fits; simp [p, h]) _ rfl
  · obtain ⟨d, e, hd⟩ := range_static h; exact hd.destination t e
  · exact occurs_voyage' 0 0 0 [] [] 0 0 0 0 0 t _ (by simp [p, h.2]) (if_neg h.1)
  · obtain ⟨d, rfl, hd⟩ := range_aid h; exact hd.name
  · obtain ⟨a, b, rfl, h1, h2⟩ := h
    exact occurs_aid ⟨0, 0, 0, a, false, 0, 0, 0, 0, 0, 0, 0, 0, false, 0, false, false, false, false, b⟩
      (by unfold Aid.Fits; simp [h1, h2]) _ fun d hd => hd.2.2.2.2.1

/-! ### Whole reports -/

theorem mem_answers {r : ParsedSentence} : ∀ {h : List (Env × Str)} {p : Parser}, Reachable p → .ok r ∈ answers p h →
    ∃ e q s, Reachable q ∧ (parseSentence e q s).1 = .ok r
  | [], _, _, hr => by cases hr
  | (e, s) :: h, p, hp, hr => by
    rcases List.mem_cons.mp hr with hr | hr
    · exact ⟨e, p, s, hp, hr.symm⟩
    · exact mem_answers (reachable_step hp e s) hr

theorem mem_answers_last (e : Env) (s : Str) : ∀ (h : List (Env × Str)) (p : Parser),
    (parseSentence e (run p h) s).1 ∈ answers p (h ++ [(e, s)])
  | [], _ => List.mem_cons_self
  | (e', s') :: h, p => List.mem_cons_of_mem _ (mem_answers_last e s h (parseSentence e' p s').2)

theorem occurs_iff (P : ParsedSentence → Prop) :
    Occurs P ↔ ∃ e q s r, Reachable q ∧ (parseSentence e q s).1 = .ok r ∧ P r := by
  constructor
  · rintro ⟨h, r, hr, hp⟩
    obtain ⟨e, q, s, hq, hs⟩ := mem_answers ⟨[], rfl⟩ hr
    exact ⟨e, q, s, r, hq, hs, hp⟩
  · rintro ⟨e, q, s, r, ⟨h, rfl⟩, hs, hp⟩
    refine ⟨h ++ [(e, s)], r, ?_, hp⟩
    rw [← hs]
    exact mem_answers_last e s h _

theorem num_zeros (a : List Bool) (k i w : Nat) : num (a ++ List.replicate k false) i w = num a i w := by
  unfold num; rw [window_zeros]

theorem fieldText_zeros (a : List Bool) (k i w : Nat) :
    fieldText (a ++ List.replicate k false) i w = fieldText a i w := by
  unfold fieldText; simp only [num_zeros]

theorem partData_armor (own : Bool) (a : List Bool) : partData own (payloadBits (armor a)) = partData own a ∧
    typeOf (payloadBits (armor a)) = typeOf a ∧ mmsiOf (payloadBits (armor a)) = mmsiOf a ∧
    partOf (payloadBits (armor a)) = partOf a := by
  rw [payloadBits_armor]
  have e1 : typeOf (a ++ List.replicate (fillBits a.length) false) = typeOf a := num_zeros ..
  have e2 : mmsiOf (a ++ List.replicate (fillBits a.length) false) = mmsiOf a := num_zeros ..
  have e3 : partOf (a ++ List.replicate (fillBits a.length) false) = partOf a := num_zeros ..
  refine ⟨?_, e1, e2, e3⟩
  simp only [partData, partAData, partBData, partAName, e2, e3, num_zeros, fieldText_zeros]

/-- C128: an AIS report is given by some sentences exactly if it tells a message that can be transmitted (types other than
24), or what two parts of type 24 of one MMSI say together, one after the other. -/
theorem C128_reports (r : ParsedSentence) (hr : AisReport r) :
    Occurs (· = r) ↔
      (∃ now talker own, ∃ m : AisMessage, Talker talker ∧ m.Fits ∧ m.IsWhole ∧ m.Tells now talker own (.ok r)) ∨
      ∃ own own' a b, typeOf a = 24 ∧ typeOf b = 24 ∧ partOf a < 2 ∧ partOf b < 2 ∧ mmsiOf a = mmsiOf b ∧
        r = .vesselStaticData (overlay (partData own' b) (partData own a)) := by
  rw [occurs_iff]
  constructor
  · rintro ⟨e, q, s, r, hq, hs, rfl⟩
    obtain ⟨talker, own, payload, h1, h2⟩ := ais_origin e q s r hs (by cases r <;> first | exact fun h => h | exact hr.elim)
    have htalk : Talker talker := by
      cases h1 with
      | single _ h => obtain ⟨fs, k, h, -⟩ := h; exact h.1
      | first _ _ _ _ h => obtain ⟨fs, h, -⟩ := h; exact h.1
      | second _ _ _ _ h => obtain ⟨fs, h, -⟩ := h; exact h.1
    have ht := (C11_complete_message e q s talker own _ ⟨payload, h1, h2, rfl⟩).2.2.1 r hs
      (by rintro rfl; exact hr)
    by_cases h24 : typeOf (payloadBits payload) = 24
    · right
      have hc : Completes q s own payload := by
        cases h1 with
        | single _ h => exact .single talker _ h
        | first id chan a b h hb => exact .first talker id chan a b h hb
        | second id chan a b h ha => exact .second talker id chan a b h ha
      obtain ⟨e1, e2, e3⟩ := eval_24 e q s own _ ⟨payload, hc, h2, rfl, h24⟩
      by_cases hp : partOf (payloadBits payload) < 2
      · cases hw : pendingStatic q (mmsiOf (payloadBits payload)) with
        | none => rw [(e2 hp hw).1] at hs; cases hs; exact hr.elim
        | some w =>
          obtain ⟨own', a, rfl, k1, k2, k3⟩ := goodStatic_reachable q hq _ w hw
          rw [(e3 hp _ _ hw (merge_overlay own own' _ a k3.symm)).1] at hs
          cases hs
          exact ⟨own', own, a, _, k1, h24, k2, hp, k3, rfl⟩
      · obtain ⟨⟨m, hm⟩, -⟩ := e1 (by omega)
        rw [hm] at hs; cases hs
    · left
      have hrep : Reported (payloadBits payload) := by
        refine ⟨?_, fun h => absurd h h24⟩
        by_contra hn
        obtain ⟨m, hm⟩ := (C11_complete_message e q s talker own _ ⟨payload, h1, h2, rfl⟩).1.mpr hn
        rw [hm] at hs; cases hs
      obtain ⟨m, hm, hw, -, -, htell⟩ := C122_any_message e q s talker own payload h1 h2 hrep h24
      exact ⟨e.now, talker, own, m, htalk, hm, hw, hs ▸ htell⟩
  · rintro (⟨now, talker, own, m, htalk, hm, hw, ht⟩ | ⟨own, own', a, b, ha, hb, ha2, hb2, hab, rfl⟩)
    · have h := tells_delivered { demoEnv with now := now } Parser.new _ talker own m hm hw
        (.single _ (single_aisSentence talker own m.bits htalk))
      exact ⟨_, _, _, _, ⟨[], rfl⟩, C122_determined _ _ _ _ _ _ h ht, rfl⟩
    · obtain ⟨a1, a2, a3, a4⟩ := partData_armor own a
      obtain ⟨b1, b2, b3, b4⟩ := partData_armor own' b
      have hA := single_aisSentence (c! "AI") own a (by decide)
      have hB := single_aisSentence (c! "AI") own' b (by decide)
      obtain ⟨-, h1, -⟩ := eval_24 demoEnv Parser.new _ own _
        ⟨_, .single _ _ hA, readable_armor _ _, rfl, a2.trans ha⟩
      obtain ⟨-, h2⟩ := h1 (by rw [a4]; exact ha2) rfl
      obtain ⟨-, -, h3⟩ := eval_24 demoEnv (parseSentence demoEnv Parser.new (aisSentence (c! "AI") own (armor a))).2 _ own' _
        ⟨_, .single _ _ hB, readable_armor _ _, rfl, b2.trans hb⟩
      have h4 := (h3 (by rw [b4]; exact hb2) (partData own a) _ (by
        rw [b3, ← hab, ← a3, h2, a1]) (by rw [b1]; exact merge_overlay own' own b a hab.symm)).1
      exact ⟨_, _, _, _, ⟨[(demoEnv, _)], rfl⟩, h4, rfl⟩

/-- Position reports come from class A, class B or long-range messages. -/
theorem dynamic_origin {P : VesselDynamicData → Prop} (h : Occurs (Dynamic P)) :
    ∃ talker own d, P d ∧ ((∃ m : PositionA, m.Fits ∧ m.Tells talker own d) ∨
      (∃ m : PositionB, m.Fits ∧ m.Tells talker own d) ∨ ∃ m : LongRange, m.Fits ∧ m.Tells talker own d) := by
  obtain ⟨l, r, hr, hp⟩ := h
  cases r <;> try exact hp.elim
  rename_i d
  rcases (C128_reports _ (by exact trivial : AisReport (ParsedSentence.vesselDynamicData d))).mp ⟨l, _, hr, rfl⟩ with ⟨now, talker, own, m, -, hm, hw, ht⟩ | ⟨_, _, _, _, _, _, _, _, _, h⟩
  · refine ⟨talker, own, d, hp, ?_⟩
    cases m with
    | positionA m => obtain ⟨d', e, h⟩ := ht; cases e; exact .inl ⟨m, hm, h⟩
    | positionB m => obtain ⟨d', e, h⟩ := ht; cases e; exact .inr (.inl ⟨m, hm, h⟩)
    | longRange m => obtain ⟨d', e, h⟩ := ht; cases e; exact .inr (.inr ⟨m, hm, h⟩)
    | base m =>
      simp only [AisMessage.Tells] at ht
      split at ht
      · obtain ⟨d', e, -⟩ := ht; cases e
      · cases ht
    | voyage m =>
      simp only [AisMessage.Tells] at ht
      split at ht <;> cases ht
    | addressed m => cases ht
    | aircraft m => obtain ⟨d', e, -⟩ := ht; cases e
    | inquiry m => cases ht
    | aid m => obtain ⟨d', e, -⟩ := ht; cases e
    | staticA m => exact hw.elim
    | staticB m => exact hw.elim
  · cases h

theorem occurs_longRange (m : LongRange) (hm : m.Fits) (P : VesselDynamicData → Prop)
    (hP : ∀ d, m.Tells (c! "AI") false d → P d) : Occurs (Dynamic P) :=
  occurs_ais (.longRange m) hm trivial _ fun _ ⟨d, ha, hd⟩ => ⟨_, ha, hP d hd⟩

theorem degrees_some {na raw : Int} {x : F64} (h : Degrees na raw (some x)) :
    raw ≠ na * 600000 ∧ RoundsTo (raw / 600000) x := by
  unfold Degrees at h
  split at h
  · cases h
  · rename_i hn
    obtain ⟨d, e, hd⟩ := h
    cases e
    exact ⟨hn, hd⟩

theorem rounded_some {q : Rat} {x : Option F64} {d : F64} (hx : Rounded q x) (hd : RoundsTo q d) : x = some d := by
  obtain ⟨d', rfl, h⟩ := hx
  rw [F64.roundsTo_iff] at h hd
  rw [h, hd]

/-- C128: exactly these doubles are reported as latitude, longitude, speed, course and rate of turn of ships. -/
theorem C128_decimals (x : F64) :
    (Occurs (Dynamic fun d => d.latitude = some x) ↔
      (∃ raw : Int, (-2 ^ 26 ≤ raw ∧ raw < 2 ^ 26) ∧ raw ≠ 91 * 600000 ∧ RoundsTo (raw / 600000) x) ∨
      ∃ raw : Int, (-2 ^ 17 ≤ raw ∧ raw < 2 ^ 17) ∧ RoundsTo (raw / 600) x) ∧
    (Occurs (Dynamic fun d => d.longitude = some x) ↔
      (∃ raw : Int, (-2 ^ 27 ≤ raw ∧ raw < 2 ^ 27) ∧ raw ≠ 181 * 600000 ∧ RoundsTo (raw / 600000) x) ∨
      ∃ raw : Int, (-2 ^ 16 ≤ raw ∧ raw < 2 ^ 16) ∧ RoundsTo (raw / 600) x) ∧
    (Occurs (Dynamic fun d => d.sogKnots = some x) ↔
      (∃ raw, raw < 1023 ∧ Tenths raw (some x)) ∨ ∃ raw : Nat, raw < 63 ∧ RoundsTo raw x) ∧
    (Occurs (Dynamic fun d => d.cog = some x) ↔ ∃ raw, raw < 2 ^ 17 ∧ raw ≠ 91000 ∧ Tenths raw (some x)) ∧
    (Occurs (Dynamic fun d => d.rot = some x) ↔ ∃ raw : Int, raw.natAbs ≤ 126 ∧ Turn raw (some x)) := by
  refine ⟨⟨fun h => ?_, ?_⟩, ⟨fun h => ?_, ?_⟩, ⟨fun h => ?_, ?_⟩, ⟨fun h => ?_, ?_⟩, ⟨fun h => ?_, ?_⟩⟩
  · obtain ⟨t, o, d, hd, ⟨m, hm, ht⟩ | ⟨m, hm, ht⟩ | ⟨m, hm, ht⟩⟩ := dynamic_origin h
    · obtain ⟨-, -, -, -, -, -, -, -, -, h, -⟩ := ht
      rw [hd] at h
      exact .inl ⟨m.lat, hm.2.2.2.2.2.2.2.1, degrees_some h⟩
    · obtain ⟨-, -, -, -, -, -, h, -⟩ := ht
      rw [hd] at h
      exact .inl ⟨m.lat, hm.2.2.2.2.2.1, degrees_some h⟩
    · obtain ⟨-, -, -, -, -, -, -, h, -⟩ := ht
      rw [hd] at h
      obtain ⟨_, e, h⟩ := h
      cases e
      exact .inr ⟨m.lon, hm.2.2.2.1, h⟩
  · rintro (⟨raw, h, hn, hx⟩ | ⟨raw, h, hx⟩)
    · refine occurs_positionA ⟨1, 0, 0, 0, 0, 0, false, 0, raw, 0, 0, 0, 0, 0, false, 0⟩
        (by unfold PositionA.Fits; simp; omega) _ fun d hd => ?_
      obtain ⟨-, -, -, -, -, -, -, -, -, h, -⟩ := hd
      simp only [Degrees, if_neg hn] at h
      exact rounded_some h hx
    · refine occurs_longRange ⟨0, 0, false, false, 0, raw, 0, 0, 0, false, false⟩
        (by unfold LongRange.Fits; simp; omega) _ fun d hd => ?_
      obtain ⟨-, -, -, -, -, -, -, h, -⟩ := hd
      exact rounded_some h hx
  · obtain ⟨t, o, d, hd, ⟨m, hm, ht⟩ | ⟨m, hm, ht⟩ | ⟨m, hm, ht⟩⟩ := dynamic_origin h
    · obtain ⟨-, -, -, -, -, -, -, -, -, -, h, -⟩ := ht
      rw [hd] at h
      exact .inl ⟨m.lon, hm.2.2.2.2.2.2.1, degrees_some h⟩
    · obtain ⟨-, -, -, -, -, -, -, h, -⟩ := ht
      rw [hd] at h
      exact .inl ⟨m.lon, hm.2.2.2.2.1, degrees_some h⟩
    · obtain ⟨-, -, -, -, -, -, -, -, h, -⟩ := ht
      rw [hd] at h
      obtain ⟨_, e, h⟩ := h
      cases e
      exact .inr ⟨m.lat, hm.2.2.2.2.1, h⟩
  · rintro (⟨raw, h, hn, hx⟩ | ⟨raw, h, hx⟩)
    · refine occurs_positionA ⟨1, 0, 0, 0, 0, 0, false, raw, 0, 0, 0, 0, 0, 0, false, 0⟩
        (by unfold PositionA.Fits; simp; omega) _ fun d hd => ?_
      obtain ⟨-, -, -, -, -, -, -, -, -, -, h, -⟩ := hd
      simp only [Degrees, if_neg hn] at h
      exact rounded_some h hx
    · refine occurs_longRange ⟨0, 0, false, false, 0, 0, raw, 0, 0, false, false⟩
        (by unfold LongRange.Fits; simp; omega) _ fun d hd => ?_
      obtain ⟨-, -, -, -, -, -, -, -, h, -⟩ := hd
      exact rounded_some h hx
  · obtain ⟨t, o, d, hd, ⟨m, hm, ht⟩ | ⟨m, hm, ht⟩ | ⟨m, hm, ht⟩⟩ := dynamic_origin h
    · obtain ⟨-, -, -, -, -, -, -, h, -⟩ := ht
      rw [hd] at h
      unfold Speed at h
      split at h
      · cases h
      · have := hm.2.2.2.2.2.1
        exact .inl ⟨m.speed, by omega, h⟩
    · obtain ⟨-, -, -, -, h, -⟩ := ht
      rw [hd] at h
      unfold Speed at h
      split at h
      · cases h
      · have := hm.2.2.2.1
        exact .inl ⟨m.speed, by omega, h⟩
    · obtain ⟨-, -, -, -, -, -, -, -, -, ⟨h, -⟩, -⟩ := ht
      rw [hd] at h
      split at h
      · cases h
      · obtain ⟨_, e, h⟩ := h
        cases e
        have : (m.lat % 2 ^ 17).toNat < 2 ^ 17 := by omega
        exact .inr ⟨_, by omega, h⟩
  · rintro (⟨raw, h, hx⟩ | ⟨raw, h, hx⟩)
    · refine occurs_positionA ⟨1, 0, 0, 0, 0, raw, false, 0, 0, 0, 0, 0, 0, 0, false, 0⟩
        (by unfold PositionA.Fits; simp; omega) _ fun d hd => ?_
      obtain ⟨-, -, -, -, -, -, -, h, -⟩ := hd
      simp only [Speed, if_neg (show ¬ raw = 1023 by omega)] at h
      exact tenths_unique _ _ _ h hx
    · have hb : (((raw : Int) * 2 ^ 11 - if raw < 32 then 0 else 2 ^ 17) % 2 ^ 17).toNat / 2 ^ 11 = raw := by
        split <;> omega
      refine occurs_longRange ⟨0, 0, false, false, 0, 0, (raw : Int) * 2 ^ 11 - if raw < 32 then 0 else 2 ^ 17, 0, 0, false, false⟩
        (by unfold LongRange.Fits; simp; split <;> omega) _ fun d hd => ?_
      obtain ⟨-, -, -, -, -, -, -, -, -, ⟨h, -⟩, -⟩ := hd
      simp only [hb, if_neg (show ¬ raw = 63 by omega)] at h
      exact rounded_some h hx
  · obtain ⟨t, o, d, hd, ⟨m, hm, ht⟩ | ⟨m, hm, ht⟩ | ⟨m, hm, ht⟩⟩ := dynamic_origin h
    · obtain ⟨-, -, -, -, -, -, -, -, -, -, -, h, -⟩ := ht
      rw [hd] at h
      unfold Course at h
      split at h
      · cases h
      · have := hm.2.2.2.2.2.2.2.2.1
        exact ⟨m.course, by omega, by omega, h⟩
    · obtain ⟨-, -, -, -, -, -, -, -, h, -⟩ := ht
      rw [hd] at h
      unfold Course at h
      split at h
      · cases h
      · have := hm.2.2.2.2.2.2.1
        exact ⟨m.course, by omega, by omega, h⟩
    · obtain ⟨-, -, -, -, -, -, -, -, -, ⟨-, h⟩, -⟩ := ht
      rw [hd] at h
      split at h
      · cases h
      · rename_i hn
        exact ⟨_, by omega, hn, h⟩
  · rintro ⟨raw, h, hn, hx⟩
    have hb : (((raw : Int) - if raw < 2 ^ 16 then 0 else 2 ^ 17) % 2 ^ 17).toNat = raw := by
      split <;> omega
    refine occurs_longRange ⟨0, 0, false, false, 0, 0, (raw : Int) - if raw < 2 ^ 16 then 0 else 2 ^ 17, 0, 0, false, false⟩
      (by unfold LongRange.Fits; simp; split <;> omega) _ fun d hd => ?_
    obtain ⟨-, -, -, -, -, -, -, -, -, ⟨-, h⟩, -⟩ := hd
    simp only [hb, if_neg hn] at h
    exact tenths_unique _ _ _ h hx
  · obtain ⟨t, o, d, hd, ⟨m, hm, ht⟩ | ⟨m, hm, ht⟩ | ⟨m, hm, ht⟩⟩ := dynamic_origin h
    · obtain ⟨-, -, -, -, -, h, -⟩ := ht
      rw [hd] at h
      refine ⟨m.turn, ?_, h⟩
      unfold Turn at h
      split at h
      · assumption
      · cases h
    · obtain ⟨-, -, -, -, -, -, -, -, -, -, -, -, -, -, -, -, -, -, -, -, -, h, -⟩ := ht
      rw [hd] at h; cases h
    · obtain ⟨-, -, -, -, -, -, -, -, -, -, -, h, -⟩ := ht
      rw [hd] at h; cases h
  · rintro ⟨raw, h, hx⟩
    refine occurs_positionA ⟨1, 0, 0, 0, raw, 0, false, 0, 0, 0, 0, 0, 0, 0, false, 0⟩
      (by unfold PositionA.Fits; simp; omega) _ fun d hd => ?_
    obtain ⟨-, -, -, -, -, h', -⟩ := hd
    simp only [Turn, if_pos h] at h' hx
    obtain ⟨a, h1, h2⟩ := h'
    obtain ⟨b, h3, h4⟩ := hx
    rw [h2, h4, turnRate_unique _ _ _ h1 h3]

/-- C128: exactly these times are reported by base stations: those that exist, in years up to 16383. -/
theorem C128_times (t : DateTime) :
    Occurs (Base fun d => d.timestamp = some t) ↔ IsDateTime t ∧ 0 ≤ t.year ∧ t.year < 2 ^ 14 := by
  constructor
  · rintro ⟨l, r, hr, hp⟩
    cases r <;> try exact hp.elim
    rename_i d
    rcases (C128_reports _ (by exact trivial : AisReport (ParsedSentence.baseStationReport d))).mp ⟨l, _, hr, rfl⟩ with ⟨now, talker, own, m, -, hm, hw, ht⟩ | ⟨_, _, _, _, _, _, _, _, _, h⟩
    · cases m with
      | base m =>
        simp only [AisMessage.Tells] at ht
        split at ht
        · rename_i hd
          obtain ⟨d', e, -, -, -, h, -⟩ := ht
          cases e
          rw [hp] at h
          cases h
          have := hm.2.2.1
          exact ⟨hd, by simp [BaseStation.time], by simp only [BaseStation.time]; omega⟩
        · cases ht
      | positionA m => obtain ⟨d', e, h⟩ := ht; cases e
      | positionB m => obtain ⟨d', e, h⟩ := ht; cases e
      | longRange m => obtain ⟨d', e, h⟩ := ht; cases e
      | voyage m =>
        simp only [AisMessage.Tells] at ht
        split at ht <;> cases ht
      | addressed m => cases ht
      | aircraft m => obtain ⟨d', e, -⟩ := ht; cases e
      | inquiry m => cases ht
      | aid m => obtain ⟨d', e, -⟩ := ht; cases e
      | staticA m => exact hw.elim
      | staticB m => exact hw.elim
    · cases h
  · rintro ⟨ht, h0, hy⟩
    obtain ⟨y, m, d, h, mi, se⟩ := t
    obtain ⟨y, rfl⟩ := Int.eq_ofNat_of_zero_le h0
    refine occurs_base ⟨0, 0, y, m, d, h, mi, se, false, 0, 0, 0, 0, false, 0⟩ ?_ ht _ fun d hd => hd.2.2.2.1
    obtain ⟨-, ⟨-, hm, -, hd⟩, h1, h2, h3⟩ := ht
    have hd' : d ≤ 31 := by
      refine hd.trans ?_
      have h' : ∀ x ∈ monthDays y, x ≤ 31 := by
        unfold monthDays
        split <;> simp
      have hl : m - 1 < (monthDays y).length := by
        have : (monthDays y).length = 12 := rfl
        simp only at hm
        omega
      simp only [List.getD_eq_getElem?_getD, List.getElem?_eq_getElem hl]
      exact h' _ (List.getElem_mem _)
    simp only at hm h1 h2 h3 hy
    unfold BaseStation.Fits
    simp
    omega

/-! ### Documented limits -/

/-- C128: the limits in the documentation of these fields (heading 0-359, IMO number 1-999999999, draught 1-255, elevation
at most 90, azimuth 0-359, signal-to-noise ratio 0-99, reference station 0000-4095, names of 20 characters) are not kept:
the values beyond them that are stated here are reported. -/
theorem C128_documented (n : Nat) :
    (360 ≤ n ∧ n ≤ 510 → Occurs (Dynamic fun d => d.headingTrue = some (.fin false n))) ∧
    (999999999 < n ∧ n < 2 ^ 30 → Occurs (Static fun d => d.imoNumber = some n)) ∧
    Occurs (Static fun d => d.draught10 = some 0) ∧
    (90 < n ∧ n ≤ 255 → Occurs (View fun d => d.elevation = some n)) ∧
    (359 < n ∧ n ≤ 65535 → Occurs (View fun d => d.azimuth = some n)) ∧
    (99 < n ∧ n ≤ 255 → Occurs (View fun d => d.snr = some n)) ∧
    (4095 < n ∧ n ≤ 65535 → Occurs (Fix fun d => d.refStationId = some n)) ∧
    (20 < n ∧ n ≤ 120 → Occurs (Static fun d => ∃ t, d.name = some t ∧ t.length = n)) := by
  refine ⟨fun h => (C128_position n).2.1.mpr h.2, fun h => (C128_static n).2.2.1.mpr ⟨by omega, h.2⟩,
    (C128_static 0).2.2.2.2.2.2.2.2.2.1.mpr (by decide), fun h => (C128_gnss n).2.2.2.2.1.mpr h.2,
    fun h => (C128_gnss n).2.2.2.2.2.1.mpr h.2, fun h => (C128_gnss n).2.2.2.2.2.2.mpr h.2,
    fun h => (C128_gnss n).2.1.mpr h.2, fun h => ?_⟩
  have hl : List.replicate n 'A' ≠ [] := by
    intro e
    have := congrArg List.length e
    simp at this
    omega
  obtain ⟨l, r, hr, hp⟩ := occurs_name (List.replicate n 'A') hl
    ⟨by simpa using h.2, fun c hc => by rw [List.eq_of_mem_replicate hc]; decide, by
      intro e
      have := List.eq_of_mem_replicate (List.mem_of_getLast? e)
      cases this⟩
  refine ⟨l, r, hr, ?_⟩
  cases r <;> try exact hp.elim
  exact ⟨_, hp, by simp⟩

/-- A heading of 400 degrees, an elevation of 200 degrees and an azimuth of 65535 degrees are reported; a heading of 511 and
an azimuth of 65536 are not. -/
example : Occurs (Dynamic fun d => d.headingTrue = some (.fin false (400 : Nat))) ∧
    Occurs (View fun d => d.elevation = some 200) ∧ Occurs (View fun d => d.azimuth = some 65535) ∧
    ¬ Occurs (Dynamic fun d => d.headingTrue = some (.fin false (511 : Nat))) ∧
    ¬ Occurs (View fun d => d.azimuth = some 65536) :=
  ⟨(C128_documented 400).1 (by decide), (C128_documented 200).2.2.2.1 (by decide),
    (C128_documented 65535).2.2.2.2.1 (by decide), fun h => absurd ((C128_position 511).2.1.mp h) (by decide),
    fun h => absurd ((C128_gnss 65536).2.2.2.2.2.1.mp h) (by decide)⟩

/-- A call sign with a digit and a blank is reported, one of eight characters or in lower case is not. -/
example : Occurs (Static fun d => d.callSign = some (c! "OH 1234")) ∧
    ¬ Occurs (Static fun d => d.callSign = some (c! "OH 12345")) ∧ ¬ Occurs (Static fun d => d.callSign = some (c! "oh")) :=
  ⟨(C128_texts _).1.mpr (by decide), fun h => absurd ((C128_texts _).1.mp h) (by decide),
    fun h => absurd ((C128_texts _).1.mp h) (by decide)⟩

/-- An aircraft at 4094 m is reported, none at 4095 m; an IMO number of 0 is not reported. -/
example : Occurs (Sar fun d => d.altitude = some 4094) ∧ ¬ Occurs (Sar fun d => d.altitude = some 4095) ∧
    ¬ Occurs (Static fun d => d.imoNumber = some 0) :=
  ⟨(C128_others 4094).2.2.2.2.2.2.2.2.2.2.1.mpr (by decide),
    fun h => absurd ((C128_others 4095).2.2.2.2.2.2.2.2.2.2.1.mp h) (by decide),
    fun h => absurd ((C128_static 0).2.2.1.mp h) (by decide)⟩

/-- A ship at 100 degrees north is reported, none at 500 degrees north; a base station reports the last second of the year
16383, none reports the 30th of February. -/
example : Occurs (Dynamic fun d => d.latitude = some (.fin false 100)) ∧
    ¬ Occurs (Dynamic fun d => d.latitude = some (.fin false 500)) ∧
    Occurs (Base fun d => d.timestamp = some ⟨16383, 12, 31, 23, 59, 59⟩) ∧
    ¬ Occurs (Base fun d => d.timestamp = some ⟨2020, 2, 30, 0, 0, 0⟩) := by
  refine ⟨(C128_decimals _).1.mpr (.inl ⟨60000000, by decide, by decide, ?_⟩), fun h => ?_,
    (C128_times _).mpr (by decide), fun h => absurd ((C128_times _).mp h) (by decide)⟩
  · rw [F64.roundsTo_iff]; decide +kernel
  · rcases (C128_decimals _).1.mp h with ⟨raw, hr, -, hx⟩ | ⟨raw, hr, hx⟩
    all_goals
      obtain ⟨v, hv, -, h2, -⟩ := rounds_between _ 300 (by norm_num) (by
        rw [abs_le]
        have h1 := (Int.cast_le (R := Rat)).mpr hr.1
        have h2 := (Int.cast_lt (R := Rat)).mpr hr.2
        push_cast at h1 h2 ⊢
        constructor <;> linarith) _ hx
      cases hv
      norm_num at h2

end Nmea
