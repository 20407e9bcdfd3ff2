/-
C134: messages in which nothing is available.
-/
import Verif.Props.Messages
import Verif.Lemmas.Float
import Verif.Lemmas.Fields
import Verif.Spec.Unavailable

namespace Nmea
open Spec

/-- C134: a class A report without any information is reported with no information. -/
theorem C134_position_A (env : Env) (p : Parser) (s talker : Str) (own : Bool) (m : PositionA) (x : List Bool)
    (hm : m.Fits) (hu : m.Unknown) (h : Delivers p s talker own (armor (m.bits ++ x))) :
    (parseSentence env p s).1 = .ok (.vesselDynamicData
      { ownVessel := own
        station := talkerStation talker
        aisType := .classA
        mmsi := m.mmsi
        navStatus := .notDefined
        rot := none
        rotDirection := none
        sogKnots := none
        highPositionAccuracy := m.accuracy
        latitude := none
        longitude := none
        cog := none
        headingTrue := none
        timestampSeconds := 60
        positioningSystemMeta := none
        currentGnssPosition := none
        specialManoeuvre := none
        raimFlag := m.raim
        classBUnitFlag := none
        classBDisplay := none
        classBDsc := none
        classBBandFlag := none
        classBMsg22Flag := none
        classBModeFlag := none
        classBCssFlag := none
        radioStatus := some m.radio }) := by
  obtain ⟨d, he, h1, h2, h3, h4, h5, h6, h7, h8, h9, h10, h11, h12, h13, h14, h15, h16, h17, h18, h19, h20, h21, h22, h23,
    h24, h25, h26⟩ := C44_position_A env p s talker own m x hm h
  obtain ⟨u1, u2, u3, u4, u5, u6, u7, u8, u9⟩ := hu
  rw [u1] at h5
  rw [u2, Turn, if_neg (by decide)] at h6
  rw [u2, turnDirection, if_pos rfl] at h7
  rw [u3, Speed, if_pos rfl] at h8
  rw [u5, Degrees, if_pos rfl] at h10
  rw [u4, Degrees, if_pos rfl] at h11
  rw [u6, Course, if_pos rfl] at h12
  rw [u7, Heading, if_pos rfl] at h13
  rw [u8] at h14 h15
  rw [u9] at h16
  have h5' : d.navStatus = .notDefined := Option.some.inj h5
  have h15' : d.positioningSystemMeta = none := h15
  have h16' : d.specialManoeuvre = none := h16
  rw [he]
  cases d
  simp_all

example : PositionA.Fits ⟨1, 0, 227006760, 15, -128, 1023, false, 181 * 600000, 91 * 600000, 3600, 511, 60, 0, 0, true, 34017⟩ ∧
    PositionA.Unknown ⟨1, 0, 227006760, 15, -128, 1023, false, 181 * 600000, 91 * 600000, 3600, 511, 60, 0, 0, true, 34017⟩ := by
  unfold PositionA.Fits PositionA.Unknown; decide

/-- C134: a base station that does not know the time makes the call panic, whatever else it knows. -/
theorem C134_base_station (env : Env) (p : Parser) (s talker : Str) (own : Bool) (m : BaseStation) (x : List Bool)
    (hm : m.Fits) (hu : m.NoTime) (h : Delivers p s talker own (armor (m.bits ++ x))) :
    (parseSentence env p s).1 = .panic := by
  refine C45_bad_date_panics env p s talker own m x hm ?_ h
  unfold IsDateTime IsDate IsTime BaseStation.time
  unfold BaseStation.NoTime at hu
  simp only
  omega

/-- A position, but neither date nor time. -/
example : BaseStation.Fits ⟨0, 3669702, 0, 0, 0, 24, 60, 60, true, -45812400, 22138800, 7, 0, false, 67039⟩ ∧
    BaseStation.NoTime ⟨0, 3669702, 0, 0, 0, 24, 60, 60, true, -45812400, 22138800, 7, 0, false, 67039⟩ := by
  unfold BaseStation.Fits BaseStation.NoTime; decide

/-- One of month, day, hour, minute and second is enough. -/
example : ∀ t ∈ ([(0, 17, 12, 30, 15), (11, 0, 12, 30, 15), (11, 17, 24, 30, 15), (11, 17, 12, 60, 15), (11, 17, 12, 30, 60)] :
      List (Nat × Nat × Nat × Nat × Nat)),
    BaseStation.NoTime ⟨0, 3669702, 2026, t.1, t.2.1, t.2.2.1, t.2.2.2.1, t.2.2.2.2, true, -45812400, 22138800, 7, 0, false, 67039⟩ := by
  unfold BaseStation.NoTime; decide

/-- C134: static and voyage data without any information. An arrival at the end of the current day is reported; the
dimensions and the draught are reported as 0 m. -/
theorem C134_voyage (env : Env) (p : Parser) (s talker : Str) (own : Bool) (m : Voyage) (x : List Bool)
    (hm : m.Fits) (hu : m.Unknown) (hnow : IsDateTime env.now) (h : Delivers p s talker own (armor (m.bits ++ x))) :
    (parseSentence env p s).1 = .ok (.vesselStaticData
      { ownVessel := own
        aisType := .classB
        mmsi := m.mmsi
        aisVersionIndicator := m.version
        imoNumber := none
        callSign := none
        name := none
        shipType := .notAvailable
        cargoType := .undefined
        equipmentVendorId := none
        equipmentModel := none
        equipmentSerialNumber := none
        dimensionToBow := some 0
        dimensionToStern := some 0
        dimensionToPort := some 0
        dimensionToStarboard := some 0
        positionFixType := none
        eta := some ⟨env.now.year, env.now.month, env.now.day, 23, 59, 59⟩
        draught10 := some 0
        destination := none
        mothershipMmsi := none }) := by
  obtain ⟨u1, u2, u3, u4, u5, u6, u7, u8, u9, u10, u11, u12, u13, u14, u15⟩ := hu
  have ea : m.arrival = ⟨0, 0, 24, 60, 0⟩ := by unfold Voyage.arrival; rw [u10, u11, u12, u13, u14]
  have ec : etaCandidate env.now m.arrival = ⟨env.now.year, env.now.month, env.now.day, 23, 59, 59⟩ := by
    rw [ea]; rfl
  have hna : ¬ EtaAbsent m.arrival := by rw [ea]; decide
  have hd : IsDateTime (etaCandidate env.now m.arrival) := by
    rw [ec]
    exact ⟨hnow.1, hnow.2.1, show IsTime 23 59 59 by decide⟩
  rw [C46_voyage env p s talker own m x hm (.inr hd) h, if_neg hna, ec, u1, u2, u3, u4, u5, u6, u7, u8, u9, u14, u15]
  rfl

example : Voyage.Fits ⟨0, 351759000, 2, 0, [], [], 0, 0, 0, 0, 0, 0, 0, 0, 24, 60, 0, [], false, false⟩ ∧
    Voyage.Unknown ⟨0, 351759000, 2, 0, [], [], 0, 0, 0, 0, 0, 0, 0, 0, 24, 60, 0, [], false, false⟩ ∧ IsDateTime demoEnv.now := by
  unfold Voyage.Fits Voyage.Unknown; decide

/-- C134: an aircraft report without any information is reported with no information. -/
theorem C134_aircraft (env : Env) (p : Parser) (s talker : Str) (own : Bool) (m : Aircraft) (x : List Bool)
    (hm : m.Fits) (hu : m.Unknown) (h : Delivers p s talker own (armor (m.bits ++ x))) :
    (parseSentence env p s).1 = .ok (.standardSarAircraftPositionReport
      { ownVessel := own
        station := talkerStation talker
        mmsi := m.mmsi
        altitude := none
        sogKnots := none
        highPositionAccuracy := m.accuracy
        latitude := none
        longitude := none
        cog := none
        timestampSeconds := 60
        regional := m.regional
        dte := !m.dteOff
        assigned := m.assigned
        raimFlag := m.raim
        radioStatus := m.radio }) := by
  obtain ⟨d, he, h1, h2, h3, h4, h5, h6, h7, h8, h9, h10, h11, h12, h13, h14, h15⟩ :=
    C48_aircraft env p s talker own m x hm h
  obtain ⟨u1, u2, u3, u4, u5, u6⟩ := hu
  rw [u1, if_pos rfl] at h4
  rw [u2, if_pos rfl] at h5
  rw [u4, Degrees, if_pos rfl] at h7
  rw [u3, Degrees, if_pos rfl] at h8
  rw [u5, Course, if_pos rfl] at h9
  rw [u6] at h10
  rw [he]
  cases d
  simp_all

example : Aircraft.Fits ⟨0, 111232511, 4095, 1023, false, 181 * 600000, 91 * 600000, 3600, 60, 0, true, 0, false, false, 33392⟩ ∧
    Aircraft.Unknown ⟨0, 111232511, 4095, 1023, false, 181 * 600000, 91 * 600000, 3600, 60, 0, true, 0, false, false, 33392⟩ := by
  unfold Aircraft.Fits Aircraft.Unknown; decide

/-- C134: a class B report without any information is reported with no information except the (shifted) flags. -/
theorem C134_position_B (env : Env) (p : Parser) (s talker : Str) (own : Bool) (m : PositionB) (x : List Bool)
    (hm : m.Fits) (hu : m.Unknown) (h : Delivers p s talker own (armor (m.bits ++ x))) :
    (parseSentence env p s).1 = .ok (.vesselDynamicData
      { ownVessel := own
        station := talkerStation talker
        aisType := .classB
        mmsi := m.mmsi
        navStatus := .notDefined
        rot := none
        rotDirection := none
        sogKnots := none
        highPositionAccuracy := m.accuracy
        latitude := none
        longitude := none
        cog := none
        headingTrue := none
        timestampSeconds := 60
        positioningSystemMeta := none
        currentGnssPosition := none
        specialManoeuvre := none
        raimFlag := m.unit
        classBUnitFlag := none
        classBDisplay := some m.unit
        classBDsc := some m.display
        classBBandFlag := some m.dsc
        classBMsg22Flag := some m.band
        classBModeFlag := some m.msg22
        classBCssFlag := none
        radioStatus := some (m.radio % 2 ^ 19) }) := by
  obtain ⟨d, he, h1, h2, h3, h4, h5, h6, h7, h8, h9, h10, h11, h12, h13, h14, h15, h16, h17, h18, h19, h20, h21, h22, h23,
    h24, h25, h26⟩ := C50_position_B env p s talker own m x hm h
  obtain ⟨u1, u2, u3, u4, u5, u6⟩ := hu
  rw [u1, Speed, if_pos rfl] at h5
  rw [u3, Degrees, if_pos rfl] at h7
  rw [u2, Degrees, if_pos rfl] at h8
  rw [u4, Course, if_pos rfl] at h9
  rw [u5, Heading, if_pos rfl] at h10
  rw [u6] at h11
  rw [he]
  cases d
  simp_all

example : PositionB.Fits ⟨0, 423302100, 15, 1023, true, 181 * 600000, 91 * 600000, 3600, 511, 60, 0, true, true, true, true, true,
      false, false, 917510⟩ ∧
    PositionB.Unknown ⟨0, 423302100, 15, 1023, true, 181 * 600000, 91 * 600000, 3600, 511, 60, 0, true, true, true, true, true,
      false, false, 917510⟩ := by
  unfold PositionB.Fits PositionB.Unknown; decide

/-- C134: an aid to navigation without any information: the dimensions are reported as 0 m and the fixing device as
undefined (neither is absent), and the off-position indicator is off even if it is transmitted as on. -/
theorem C134_aid (env : Env) (p : Parser) (s talker : Str) (own : Bool) (m : Aid) (x : List Bool)
    (hm : m.Fits) (hu : m.Unknown) (h : Delivers p s talker own (armor (m.bits ++ x))) :
    (parseSentence env p s).1 = .ok (.aidToNavigationReport
      { ownVessel := own
        station := talkerStation talker
        mmsi := m.mmsi
        aidType := .notSpecified
        name := []
        highPositionAccuracy := m.accuracy
        latitude := none
        longitude := none
        dimensionToBow := some 0
        dimensionToStern := some 0
        dimensionToPort := some 0
        dimensionToStarboard := some 0
        positionFixType := some .undefined
        timestampSeconds := 60
        offPositionIndicator := false
        regional := m.regional
        raimFlag := m.raim
        virtualAidFlag := m.virtual
        assignedModeFlag := m.assigned }) := by
  obtain ⟨d, he, h1, h2, h3, h4, h5, h6, h7, h8, h9, h10, h11, h12, h13, h14, h15, h16, h17, h18, h19⟩ :=
    C51_aid env p s talker own m x hm h
  obtain ⟨u1, u2, u3, u4, u5, u6, u7, u8, u9, u10, u11⟩ := hu
  rw [u1] at h4
  have h4' : d.aidType = .notSpecified := Option.some.inj h4
  rw [u2, u3] at h5
  rw [u5, Degrees, if_pos rfl] at h7
  rw [u4, Degrees, if_pos rfl] at h8
  rw [u10] at h13
  have h13' : d.positionFixType = some .undefined := h13
  rw [he]
  cases d
  simp_all

example : Aid.Fits ⟨1, 123456789, 0, [], false, 181 * 600000, 91 * 600000, 0, 0, 0, 0, 0, 60, true, 165,
      false, false, false, false, []⟩ ∧
    Aid.Unknown ⟨1, 123456789, 0, [], false, 181 * 600000, 91 * 600000, 0, 0, 0, 0, 0, 60, true, 165,
      false, false, false, false, []⟩ := by
  unfold Aid.Fits Aid.Unknown; decide

/-- C134: parts A and B of a class B static report without any information: ship type not available, no name and call
sign, but an empty vendor, model 0, serial number 0, dimensions 0 m and the mothership MMSI 0. -/
theorem C134_static (env : Env) (p : Parser) (s talker : Str) (own own' : Bool) (m : StaticB) (a : StaticA) (x : List Bool)
    (hm : m.Fits) (hu : m.Unknown) (ha : a.Unknown) (h : Delivers p s talker own (armor (m.bits ++ x)))
    (he : a.mmsi = m.mmsi) (hp : pendingStatic p m.mmsi = some (a.data own')) :
    (parseSentence env p s).1 = .ok (.vesselStaticData
      { ownVessel := own
        aisType := .classB
        mmsi := m.mmsi
        aisVersionIndicator := 0
        imoNumber := none
        callSign := none
        name := none
        shipType := .notAvailable
        cargoType := .undefined
        equipmentVendorId := some []
        equipmentModel := some 0
        equipmentSerialNumber := some 0
        dimensionToBow := some 0
        dimensionToStern := some 0
        dimensionToPort := some 0
        dimensionToStarboard := some 0
        positionFixType := none
        eta := none
        draught10 := none
        destination := none
        mothershipMmsi := some 0 }) := by
  obtain ⟨u1, u2, u3, u4, u5, u6, u7, u8, u9⟩ := hu
  unfold StaticA.Unknown at ha
  rw [(C52_part_B_second env p s talker own own' m a x hm h he hp).1, StaticB.data, u1, u2, u3, u4, u5, u6, u7, u8, u9, ha]
  rfl

example : StaticB.Fits ⟨0, 271041815, 0, [], 0, 0, [], 0, 0, 0, 0, 0⟩ ∧ StaticB.Unknown ⟨0, 271041815, 0, [], 0, 0, [], 0, 0, 0, 0, 0⟩ ∧
    StaticA.Unknown ⟨0, 271041815, []⟩ ∧
    ∃ p s, Delivers p s (c! "AI") false (armor (StaticB.bits ⟨0, 271041815, 0, [], 0, 0, [], 0, 0, 0, 0, 0⟩ ++ [])) ∧
      pendingStatic p 271041815 = some (StaticA.data true ⟨0, 271041815, []⟩) := by
  refine ⟨by unfold StaticB.Fits; decide, by unfold StaticB.Unknown; decide, rfl,
    (parseSentence demoEnv Parser.new (c! "!AIVDO,1,1,,A,H42O55h00000000000000000000,0")).2, _,
    .single _ (single_aisSentence (c! "AI") false _ (by decide)), ?_⟩
  decide +kernel

/-- C134: a long-range report without any information is reported with a position that does not exist (181° N, 91° E), a
speed of 26 knots, a course of 5460° and a current GNSS position. -/
theorem C134_long_range (env : Env) (p : Parser) (s talker : Str) (own : Bool) (m : LongRange) (x : List Bool)
    (hm : m.Fits) (hu : m.Unknown) (h : Delivers p s talker own (armor (m.bits ++ x))) :
    (parseSentence env p s).1 = .ok (.vesselDynamicData
      { ownVessel := own
        station := talkerStation talker
        aisType := .classA
        mmsi := m.mmsi
        navStatus := .notDefined
        rot := none
        rotDirection := none
        sogKnots := some (.fin false 26)
        highPositionAccuracy := m.accuracy
        latitude := some (.fin false 181)
        longitude := some (.fin false 91)
        cog := some (.fin false 5460)
        headingTrue := none
        timestampSeconds := 0
        positioningSystemMeta := none
        currentGnssPosition := some true
        specialManoeuvre := none
        raimFlag := m.raim
        classBUnitFlag := none
        classBDisplay := none
        classBDsc := none
        classBBandFlag := none
        classBMsg22Flag := none
        classBModeFlag := none
        classBCssFlag := none
        radioStatus := none }) := by
  obtain ⟨d, he, h1, h2, h3, h4, h5, h6, h7, h8, h9, ⟨h10, h11⟩, h12, h13, h14, h15, h16, h17, h18, h19, h20, h21, h22, h23,
    h24, h25, h26⟩ := C53_long_range env p s talker own m x hm h
  obtain ⟨u1, u2, u3, u4, u5⟩ := hu
  rw [u1] at h7
  have h7' : d.navStatus = .notDefined := Option.some.inj h7
  rw [u2] at h8
  rw [u3] at h9 h10 h11 h12
  rw [if_neg (by decide)] at h10 h11
  obtain ⟨y8, e8, r8⟩ := h8
  obtain ⟨y9, e9, r9⟩ := h9
  obtain ⟨y10, e10, r10⟩ := h10
  obtain ⟨t, rt, y11, e11, r11⟩ := h11
  have q8 : y8 = .fin false 181 := ((F64.roundsTo_iff _ _).mp r8).trans (by decide +kernel)
  have q9 : y9 = .fin false 91 := ((F64.roundsTo_iff _ _).mp r9).trans (by decide +kernel)
  have q10 : y10 = .fin false 26 := ((F64.roundsTo_iff _ _).mp r10).trans (by decide +kernel)
  have qt : t = 3602879701896397 / 36028797018963968 := by
    have := ((F64.roundsTo_iff _ _).mp rt).trans (show _ = F64.fin false (3602879701896397 / 36028797018963968) by decide +kernel)
    exact (F64.fin.inj this).2
  subst qt
  have q11 : y11 = .fin false 5460 := ((F64.roundsTo_iff _ _).mp r11).trans (by decide +kernel)
  have h12' : d.currentGnssPosition = some true := h12
  rw [he]
  cases d
  simp_all

example : LongRange.Fits ⟨0, 206914217, true, false, 15, 181 * 600, 91 * 600, 63, 511, true, false⟩ ∧
    LongRange.Unknown ⟨0, 206914217, true, false, 15, 181 * 600, 91 * 600, 63, 511, true, false⟩ := by
  unfold LongRange.Fits LongRange.Unknown; decide

end Nmea
