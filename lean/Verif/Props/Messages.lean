/-
C44-C53: AIS messages are decoded to the transmitted values. Each theorem is about an arbitrary message,
encoded in the layout of the standard, followed by arbitrary further bits, and delivered in one sentence or in
two parts, in an arbitrary state.
-/
import Verif.Lemmas.Fields
import Verif.Lemmas.Static
import Verif.Spec.Demo

namespace Nmea
open Spec

local macro "fu" k:num h:term:max : term => `(field_u $k rfl (by simp) (by decide) $h)
local macro "ff" k:num : term => `(field_f $k rfl (by simp))
local macro "fi" k:num h:term:max : term =>
  `(field_i $k rfl (by simp) (by decide) (by decide) (And.left $h) (And.right $h))

/-- C44: class A position reports. -/
theorem C44_position_A (env : Env) (p : Parser) (s talker : Str) (own : Bool) (m : PositionA) (x : List Bool)
    (hm : m.Fits) (h : Delivers p s talker own (armor (m.bits ++ x))) :
    ∃ d, (parseSentence env p s).1 = .ok (.vesselDynamicData d) ∧
      d.ownVessel = own ∧ d.station = talkerStation talker ∧ d.aisType = .classA ∧ d.mmsi = m.mmsi ∧
      some d.navStatus = navStatusTable[m.status]? ∧
      Turn m.turn d.rot ∧ d.rotDirection = turnDirection m.turn ∧ Speed m.speed d.sogKnots ∧
      d.highPositionAccuracy = m.accuracy ∧ Degrees 91 m.lat d.latitude ∧ Degrees 181 m.lon d.longitude ∧
      Course m.course d.cog ∧ Heading m.heading d.headingTrue ∧ d.timestampSeconds = m.second ∧
      d.positioningSystemMeta = metaOf m.second ∧ d.specialManoeuvre = reportedManoeuvre m.manoeuvre ∧
      d.raimFlag = m.raim ∧ d.radioStatus = some m.radio ∧
      d.currentGnssPosition = none ∧ d.classBUnitFlag = none ∧ d.classBDisplay = none ∧ d.classBDsc = none ∧
      d.classBBandFlag = none ∧ d.classBMsg22Flag = none ∧ d.classBModeFlag = none ∧ d.classBCssFlag = none := by
  obtain ⟨q, -, he⟩ := eval_delivers env p s talker own _ h
  obtain ⟨ht, hrep, hmm, hst, hturn, hsp, hlon, hlat, hco, hh, hs, hma, hspare, hra⟩ := hm
  have ht' : m.type < 2 ^ 6 := by simp at ht; omega
  rw [he]
  unfold PositionA.bits
  generalize hfs : [natBits 6 m.type, _, _, _, _, _, _, _, _, _, _, _, _, _, _, _] = fs
  have f0 : pickU64 (fs.flatten ++ x) 0 6 = m.type := by subst hfs; exact fu 0 ht'
  have f2 : pickU64 (fs.flatten ++ x) 8 30 = m.mmsi := by subst hfs; exact fu 2 hmm
  have f3 : pickU64 (fs.flatten ++ x) 38 4 = m.status := by subst hfs; exact fu 3 hst
  have f4 : pickI64 (fs.flatten ++ x) 42 8 = m.turn := by
    subst hfs; exact fi 4 ⟨hturn.1, by omega⟩
  have f5 : pickU64 (fs.flatten ++ x) 50 10 = m.speed := by subst hfs; exact fu 5 hsp
  have f6 : pickU64 (fs.flatten ++ x) 60 1 = m.accuracy.toNat := by subst hfs; exact ff 6
  have f7 : pickI64 (fs.flatten ++ x) 61 28 = m.lon := by subst hfs; exact fi 7 hlon
  have f8 : pickI64 (fs.flatten ++ x) 89 27 = m.lat := by subst hfs; exact fi 8 hlat
  have f9 : pickU64 (fs.flatten ++ x) 116 12 = m.course := by subst hfs; exact fu 9 hco
  have f10 : pickU64 (fs.flatten ++ x) 128 9 = m.heading := by subst hfs; exact fu 10 hh
  have f11 : pickU64 (fs.flatten ++ x) 137 6 = m.second := by subst hfs; exact fu 11 hs
  have f12 : pickU64 (fs.flatten ++ x) 143 2 = m.manoeuvre := by subst hfs; exact fu 12 hma
  have f14 : pickU64 (fs.flatten ++ x) 148 1 = m.raim.toNat := by subst hfs; exact ff 14
  have f15 : pickU64 (fs.flatten ++ x) 149 19 = m.radio := by subst hfs; exact fu 15 hra
  rw [dispatch_123 (by rw [f0]; exact ht)]
  refine ⟨_, rfl, rfl, rfl, rfl, ?_, ?_, turn_spec _ _ f4 hturn.1 hturn.2, rotDir_eq _ _ f4 hturn.1 hturn.2,
    speed_spec _ _ _ f5 hsp, ?_, lat_spec _ _ _ f8 hlat.1 hlat.2, lon_spec _ _ _ f7 hlon.1 hlon.2,
    course_spec _ _ _ f9 hco, heading_spec _ _ _ f10, ?_, meta_eq _ hs _ _ f11, manoeuvre_eq _ hma _ _ f12,
    ?_, ?_, rfl, rfl, rfl, rfl, rfl, rfl, rfl, rfl⟩
  · simp only [f2]; exact asU32_lt _ (by omega)
  · simp only [f3]; rw [asU8_lt _ (by omega)]; exact nav_eq _ hst
  · simp only [pickFlag, f6, toNat_ne_zero]
  · simp only [f11]; exact asU8_lt _ (by omega)
  · simp only [pickFlag, f14, toNat_ne_zero]
  · simp only [f15]; rw [asU32_lt _ (by omega)]

/-- Every message can be delivered: in one sentence, by any talker, in any state. -/
theorem deliverable (p : Parser) (talker : Str) (own : Bool) (bits : List Bool) (ht : Talker talker) :
    Delivers p (aisSentence talker own (armor bits)) talker own (armor bits) :=
  .single _ (single_aisSentence talker own bits ht)

example : PositionA.Fits ⟨1, 0, 227006760, 8, -57, 123, true, -70000000, 25000000, 3599, 359, 61, 1, 0, true, 34017⟩ ∧
    Talker (c! "AI") := by
  unfold PositionA.Fits; decide

/-- A class A report in two parts, the second of which arrives first. -/
example : ∃ p s, Delivers p s (c! "AI") false (armor ((PositionA.bits
    ⟨1, 0, 227006760, 8, -57, 123, true, -70000000, 25000000, 3599, 359, 61, 1, 0, true, 34017⟩) ++ [])) := by
  refine ⟨(parseSentence demoEnv Parser.new (c! "!AIVDM,2,2,5,A,0Gmp@>3s?rR8CQ,2")).2, c! "!AIVDM,2,1,5,A,13HOI:8iisoatD,0", ?_⟩
  rw [show armor (_ ++ []) = c! "13HOI:8iisoatD" ++ c! "0Gmp@>3s?rR8CQ" by decide +kernel]
  refine .first (s := c! "!AIVDM,2,1,5,A,13HOI:8iisoatD,0") 5 (c! "A") (c! "13HOI:8iisoatD") (c! "0Gmp@>3s?rR8CQ") ?_ ?_
  · exact ⟨[c! "2", c! "1", c! "5", c! "A", c! "13HOI:8iisoatD", c! "0"], demoTagged .bare ⟨by decide, by decide, by decide, by decide, rfl⟩, demoDec (by decide), demoDec (by decide),
      demoDec (by decide), rfl, rfl⟩
  · decide +kernel

/-- C45: base station reports with a calendar date and a time of day. -/
theorem C45_base_station (env : Env) (p : Parser) (s talker : Str) (own : Bool) (m : BaseStation) (x : List Bool)
    (hm : m.Fits) (hd : IsDateTime m.time) (h : Delivers p s talker own (armor (m.bits ++ x))) :
    ∃ d, (parseSentence env p s).1 = .ok (.baseStationReport d) ∧
      d.ownVessel = own ∧ d.station = talkerStation talker ∧ d.mmsi = m.mmsi ∧ d.timestamp = some m.time ∧
      d.highPositionAccuracy = m.accuracy ∧ Degrees 91 m.lat d.latitude ∧ Degrees 181 m.lon d.longitude ∧
      d.positionFixType = optFix m.fix ∧ d.raimFlag = m.raim ∧ d.radioStatus = m.radio := by
  obtain ⟨q, -, he⟩ := eval_delivers env p s talker own _ h
  obtain ⟨hrep, hmm, hy, hmo, hda, hho, hmi, hse, hlon, hlat, hfix, hspare, hra⟩ := hm
  rw [he]
  unfold BaseStation.bits
  generalize hfs : [natBits 6 4, _, _, _, _, _, _, _, _, _, _, _, _, _, _, _] = fs
  have f0 : pickU64 (fs.flatten ++ x) 0 6 = 4 := by subst hfs; exact fu 0 (by decide)
  have f2 : pickU64 (fs.flatten ++ x) 8 30 = m.mmsi := by subst hfs; exact fu 2 hmm
  have f3 : pickU64 (fs.flatten ++ x) 38 14 = m.year := by subst hfs; exact fu 3 hy
  have f4 : pickU64 (fs.flatten ++ x) 52 4 = m.month := by subst hfs; exact fu 4 hmo
  have f5 : pickU64 (fs.flatten ++ x) 56 5 = m.day := by subst hfs; exact fu 5 hda
  have f6 : pickU64 (fs.flatten ++ x) 61 5 = m.hour := by subst hfs; exact fu 6 hho
  have f7 : pickU64 (fs.flatten ++ x) 66 6 = m.minute := by subst hfs; exact fu 7 hmi
  have f8 : pickU64 (fs.flatten ++ x) 72 6 = m.second := by subst hfs; exact fu 8 hse
  have f9 : pickU64 (fs.flatten ++ x) 78 1 = m.accuracy.toNat := by subst hfs; exact ff 9
  have f10 : pickI64 (fs.flatten ++ x) 79 28 = m.lon := by subst hfs; exact fi 10 hlon
  have f11 : pickI64 (fs.flatten ++ x) 107 27 = m.lat := by subst hfs; exact fi 11 hlat
  have f12 : pickU64 (fs.flatten ++ x) 134 4 = m.fix := by subst hfs; exact fu 12 hfix
  have f14 : pickU64 (fs.flatten ++ x) 148 1 = m.raim.toNat := by subst hfs; exact ff 14
  have f15 : pickU64 (fs.flatten ++ x) 149 19 = m.radio := by subst hfs; exact fu 15 hra
  rw [dispatch_4 f0]
  have ht : ∀ ε : Type, ymdHms (ε := ε) (asI32 (m.year : Int)) (asU32 m.month) (asU32 m.day) (asU32 m.hour) (asU32 m.minute)
      (asU32 m.second) = .ok m.time := by
    intro ε
    rw [asI32_small _ (by omega) (by omega), asU32_lt _ (by omega), asU32_lt _ (by omega), asU32_lt _ (by omega),
      asU32_lt _ (by omega), asU32_lt _ (by omega)]
    exact ymdHms_ok _ _ _ _ _ _ hd
  simp only [handleT4, f3, f4, f5, f6, f7, f8, ht, Out.ok_bind]
  refine ⟨_, rfl, rfl, rfl, ?_, rfl, ?_, lat_spec _ _ _ f11 hlat.1 hlat.2, lon_spec _ _ _ f10 hlon.1 hlon.2,
    optFix_eq _ hfix _ _ f12, ?_, ?_⟩
  · simp only [f2]; exact asU32_lt _ (by omega)
  · simp only [pickFlag, f9, toNat_ne_zero]
  · simp only [pickFlag, f14, toNat_ne_zero]
  · simp only [f15]; exact asU32_lt _ (by omega)

example : BaseStation.Fits ⟨0, 3669702, 2007, 5, 14, 19, 57, 39, true, -45812400, 22138800, 7, 0, false, 67039⟩ ∧
    IsDateTime (BaseStation.time ⟨0, 3669702, 2007, 5, 14, 19, 57, 39, true, -45812400, 22138800, 7, 0, false, 67039⟩) := by
  unfold BaseStation.Fits; decide

/-- C45: any other date or time makes the call panic. -/
theorem C45_bad_date_panics (env : Env) (p : Parser) (s talker : Str) (own : Bool) (m : BaseStation) (x : List Bool)
    (hm : m.Fits) (hd : ¬ IsDateTime m.time) (h : Delivers p s talker own (armor (m.bits ++ x))) :
    (parseSentence env p s).1 = .panic := by
  obtain ⟨q, -, he⟩ := eval_delivers env p s talker own _ h
  obtain ⟨hrep, hmm, hy, hmo, hda, hho, hmi, hse, hlon, hlat, hfix, hspare, hra⟩ := hm
  rw [he]
  unfold BaseStation.bits
  generalize hfs : [natBits 6 4, _, _, _, _, _, _, _, _, _, _, _, _, _, _, _] = fs
  have f0 : pickU64 (fs.flatten ++ x) 0 6 = 4 := by subst hfs; exact fu 0 (by decide)
  have f3 : pickU64 (fs.flatten ++ x) 38 14 = m.year := by subst hfs; exact fu 3 hy
  have f4 : pickU64 (fs.flatten ++ x) 52 4 = m.month := by subst hfs; exact fu 4 hmo
  have f5 : pickU64 (fs.flatten ++ x) 56 5 = m.day := by subst hfs; exact fu 5 hda
  have f6 : pickU64 (fs.flatten ++ x) 61 5 = m.hour := by subst hfs; exact fu 6 hho
  have f7 : pickU64 (fs.flatten ++ x) 66 6 = m.minute := by subst hfs; exact fu 7 hmi
  have f8 : pickU64 (fs.flatten ++ x) 72 6 = m.second := by subst hfs; exact fu 8 hse
  rw [dispatch_4 f0]
  have ht : ∀ ε : Type, ymdHms (ε := ε) (asI32 (m.year : Int)) (asU32 m.month) (asU32 m.day) (asU32 m.hour) (asU32 m.minute)
      (asU32 m.second) = .panic := by
    intro ε
    rw [asI32_small _ (by omega) (by omega), asU32_lt _ (by omega), asU32_lt _ (by omega), asU32_lt _ (by omega),
      asU32_lt _ (by omega), asU32_lt _ (by omega)]
    exact ymdHms_panic _ _ _ _ _ _ hd
  simp only [handleT4, f3, f4, f5, f6, f7, f8, ht]
  rfl

/-- Month 0 and day 0 stand for "not available". -/
example : BaseStation.Fits ⟨0, 3669702, 0, 0, 0, 24, 60, 60, true, -45812400, 22138800, 7, 0, false, 67039⟩ ∧
    ¬ IsDateTime (BaseStation.time ⟨0, 3669702, 0, 0, 0, 24, 60, 60, true, -45812400, 22138800, 7, 0, false, 67039⟩) := by
  unfold BaseStation.Fits; decide

/-- C46: static and voyage data. The class is reported as B, and the ETA is the one of `etaCandidate`. -/
theorem C46_voyage (env : Env) (p : Parser) (s talker : Str) (own : Bool) (m : Voyage) (x : List Bool)
    (hm : m.Fits) (hd : EtaAbsent m.arrival ∨ IsDateTime (etaCandidate env.now m.arrival))
    (h : Delivers p s talker own (armor (m.bits ++ x))) :
    (parseSentence env p s).1 = .ok (.vesselStaticData
      { ownVessel := own
        aisType := .classB
        mmsi := m.mmsi
        aisVersionIndicator := m.version
        imoNumber := if m.imo = 0 then none else some m.imo
        callSign := nonEmpty m.callSign
        name := nonEmpty m.name
        shipType := reportedShip m.ship
        cargoType := cargoOf m.ship
        equipmentVendorId := none
        equipmentModel := none
        equipmentSerialNumber := none
        dimensionToBow := some m.bow
        dimensionToStern := some m.stern
        dimensionToPort := some m.port
        dimensionToStarboard := some m.starboard
        positionFixType := optFix m.fix
        eta := if EtaAbsent m.arrival then none else some (etaCandidate env.now m.arrival)
        draught10 := some m.draught
        destination := nonEmpty m.destination
        mothershipMmsi := none }) := by
  obtain ⟨q, -, he⟩ := eval_delivers env p s talker own _ h
  obtain ⟨hrep, hmm, hve, himo, hcs, hna, hsh, hbo, hst, hpo, hsb, hfix, hmo, hda, hho, hmi, hdr, hde⟩ := hm
  rw [he]
  unfold Voyage.bits
  generalize hfs : [natBits 6 5, _, _, _, _, _, _, _, _, _, _, _, _, _, _, _, _, _, _, _, _] = fs
  have l1 := length_textBits 7 m.callSign hcs.1
  have l2 := length_textBits 20 m.name hna.1
  have f0 : pickU64 (fs.flatten ++ x) 0 6 = 5 := by subst hfs; exact fu 0 (by decide)
  have f2 : pickU64 (fs.flatten ++ x) 8 30 = m.mmsi := by subst hfs; exact fu 2 hmm
  have f3 : pickU64 (fs.flatten ++ x) 38 2 = m.version := by subst hfs; exact fu 3 hve
  have f4 : pickU64 (fs.flatten ++ x) 40 30 = m.imo := by subst hfs; exact fu 4 himo
  have f5 : textAt (fs.flatten ++ x) 70 7 = m.callSign := by
    subst hfs; exact field_t 5 rfl (by simp) hcs
  have f6 : textAt (fs.flatten ++ x) 112 20 = m.name := by
    subst hfs; exact field_t 6 rfl (by simp [l1]) hna
  have f7 : pickU64 (fs.flatten ++ x) 232 8 = m.ship := by subst hfs; exact field_u 7 rfl (by simp [l1, l2]) (by decide) hsh
  have f8 : pickU64 (fs.flatten ++ x) 240 9 = m.bow := by subst hfs; exact field_u 8 rfl (by simp [l1, l2]) (by decide) hbo
  have f9 : pickU64 (fs.flatten ++ x) 249 9 = m.stern := by subst hfs; exact field_u 9 rfl (by simp [l1, l2]) (by decide) hst
  have f10 : pickU64 (fs.flatten ++ x) 258 6 = m.port := by subst hfs; exact field_u 10 rfl (by simp [l1, l2]) (by decide) hpo
  have f11 : pickU64 (fs.flatten ++ x) 264 6 = m.starboard := by subst hfs; exact field_u 11 rfl (by simp [l1, l2]) (by decide) hsb
  have f12 : pickU64 (fs.flatten ++ x) 270 4 = m.fix := by subst hfs; exact field_u 12 rfl (by simp [l1, l2]) (by decide) hfix
  have f13 : pickU64 (fs.flatten ++ x) 274 4 = m.month := by subst hfs; exact field_u 13 rfl (by simp [l1, l2]) (by decide) hmo
  have f14 : pickU64 (fs.flatten ++ x) 278 5 = m.day := by subst hfs; exact field_u 14 rfl (by simp [l1, l2]) (by decide) hda
  have f15 : pickU64 (fs.flatten ++ x) 283 5 = m.hour := by subst hfs; exact field_u 15 rfl (by simp [l1, l2]) (by decide) hho
  have f16 : pickU64 (fs.flatten ++ x) 288 6 = m.minute := by subst hfs; exact field_u 16 rfl (by simp [l1, l2]) (by decide) hmi
  have f17 : pickU64 (fs.flatten ++ x) 294 8 = m.draught := by subst hfs; exact field_u 17 rfl (by simp [l1, l2]) (by decide) hdr
  have f18 : textAt (fs.flatten ++ x) 302 20 = m.destination := by
    subst hfs; exact field_t 18 rfl (by simp [l1, l2]) hde
  have fs' : pickU64 (fs.flatten ++ x) 294 6 = m.draught / 4 := by
    subst hfs
    rw [field_sub_u 17 0 rfl (by simp [l1, l2]) (by decide) (by decide)]
    show m.draught / 2 ^ 2 % 2 ^ 6 = _
    omega
  rw [dispatch_5 f0]
  have heta := eta_spec env.now (fs.flatten ++ x) m.arrival ⟨hmo, hda, hho, hmi, hdr⟩ f13 f14 f15 f16 fs'
  rw [eta_ok _ _ hd] at heta
  have heta' : liftErr (pickEta env.now (fs.flatten ++ x) 274) =
      .ok (if EtaAbsent m.arrival then none else some (etaCandidate env.now m.arrival)) := by rw [heta]; rfl
  simp only [handleT5, liftErr_pickString, heta', Out.ok_bind, f2, f3, f4, f5, f6, f7, f8, f9, f10, f11, f17, f18,
    optFix_eq _ hfix _ _ f12]
  rw [asU32_lt _ (by omega), asU8_lt _ (by omega), asU32_lt _ (by omega), asU8_lt _ (by omega), asU8_lt _ (by omega),
    asU16_lt _ (by omega), asU16_lt _ (by omega), asU16_lt _ (by omega), asU16_lt _ (by omega), ship_eq _ hsh,
    cargo_eq _ hsh]
  congr 3
  cases m.imo <;> rfl

example : Voyage.Fits ⟨0, 351759000, 0, 9134270, c! "3FOF8", c! "EVER DIADEM", 70, 225, 70, 1, 31, 1, 5, 15, 14, 0, 122,
      c! "NEW YORK", false, false⟩ ∧
    IsDateTime (etaCandidate demoEnv.now ⟨5, 15, 14, 0, 122⟩) := by
  unfold Voyage.Fits; decide

/-- C46: if the candidate for the ETA is not a date and time the call panics. -/
theorem C46_bad_eta_panics (env : Env) (p : Parser) (s talker : Str) (own : Bool) (m : Voyage) (x : List Bool)
    (hm : m.Fits) (ha : ¬ EtaAbsent m.arrival) (hd : ¬ IsDateTime (etaCandidate env.now m.arrival))
    (h : Delivers p s talker own (armor (m.bits ++ x))) :
    (parseSentence env p s).1 = .panic := by
  obtain ⟨q, -, he⟩ := eval_delivers env p s talker own _ h
  obtain ⟨hrep, hmm, hve, himo, hcs, hna, hsh, hbo, hst, hpo, hsb, hfix, hmo, hda, hho, hmi, hdr, hde⟩ := hm
  rw [he]
  unfold Voyage.bits
  generalize hfs : [natBits 6 5, _, _, _, _, _, _, _, _, _, _, _, _, _, _, _, _, _, _, _, _] = fs
  have l1 := length_textBits 7 m.callSign hcs.1
  have l2 := length_textBits 20 m.name hna.1
  have f0 : pickU64 (fs.flatten ++ x) 0 6 = 5 := by subst hfs; exact fu 0 (by decide)
  have f13 : pickU64 (fs.flatten ++ x) 274 4 = m.month := by subst hfs; exact field_u 13 rfl (by simp [l1, l2]) (by decide) hmo
  have f14 : pickU64 (fs.flatten ++ x) 278 5 = m.day := by subst hfs; exact field_u 14 rfl (by simp [l1, l2]) (by decide) hda
  have f15 : pickU64 (fs.flatten ++ x) 283 5 = m.hour := by subst hfs; exact field_u 15 rfl (by simp [l1, l2]) (by decide) hho
  have f16 : pickU64 (fs.flatten ++ x) 288 6 = m.minute := by subst hfs; exact field_u 16 rfl (by simp [l1, l2]) (by decide) hmi
  have fs' : pickU64 (fs.flatten ++ x) 294 6 = m.draught / 4 := by
    subst hfs
    rw [field_sub_u 17 0 rfl (by simp [l1, l2]) (by decide) (by decide)]
    show m.draught / 2 ^ 2 % 2 ^ 6 = _
    omega
  rw [dispatch_5 f0]
  have heta := eta_spec env.now (fs.flatten ++ x) m.arrival ⟨hmo, hda, hho, hmi, hdr⟩ f13 f14 f15 f16 fs'
  rw [if_neg ha, if_neg hd] at heta
  simp only [handleT5, liftErr_pickString, heta, Out.ok_bind]
  rfl

/-- A draught of 24.4 m is enough. -/
example : Voyage.Fits ⟨0, 351759000, 0, 9134270, c! "3FOF8", c! "EVER DIADEM", 70, 225, 70, 1, 31, 1, 5, 15, 14, 0, 244,
      c! "NEW YORK", false, false⟩ ∧
    ¬ EtaAbsent ⟨5, 15, 14, 0, 244⟩ ∧
    ¬ IsDateTime (etaCandidate demoEnv.now ⟨5, 15, 14, 0, 244⟩) := by
  unfold Voyage.Fits; decide

/-- C47: addressed binary messages. -/
theorem C47_addressed (env : Env) (p : Parser) (s talker : Str) (own : Bool) (m : Addressed) (x : List Bool)
    (hm : m.Fits) (h : Delivers p s talker own (armor (m.bits ++ x))) :
    (parseSentence env p s).1 = .ok (.binaryAddressedMessage
      { ownVessel := own
        station := talkerStation talker
        mmsi := m.mmsi
        sequenceNumber := m.sequence
        destinationMmsi := m.destination
        retransmitFlag := m.retransmit
        dac := m.dac
        fid := m.fid }) := by
  obtain ⟨q, -, he⟩ := eval_delivers env p s talker own _ h
  obtain ⟨hrep, hmm, hse, hde, hda, hfi⟩ := hm
  rw [he]
  unfold Addressed.bits
  generalize hfs : [natBits 6 6, _, _, _, _, _, _, _, _] = fs
  have f0 : pickU64 (fs.flatten ++ x) 0 6 = 6 := by subst hfs; exact fu 0 (by decide)
  have f2 : pickU64 (fs.flatten ++ x) 8 30 = m.mmsi := by subst hfs; exact fu 2 hmm
  have f3 : pickU64 (fs.flatten ++ x) 38 2 = m.sequence := by subst hfs; exact fu 3 hse
  have f4 : pickU64 (fs.flatten ++ x) 40 30 = m.destination := by subst hfs; exact fu 4 hde
  have f5 : pickU64 (fs.flatten ++ x) 70 1 = m.retransmit.toNat := by subst hfs; exact ff 5
  have f7 : pickU64 (fs.flatten ++ x) 72 10 = m.dac := by subst hfs; exact fu 7 hda
  have f8 : pickU64 (fs.flatten ++ x) 82 6 = m.fid := by subst hfs; exact fu 8 hfi
  rw [dispatch_6 f0]
  simp only [handleT6, pickFlag, f2, f3, f4, f5, f7, f8, toNat_ne_zero]
  rw [asU32_lt _ (by omega), asU8_lt _ (by omega), asU32_lt _ (by omega), asU16_lt _ (by omega), asU8_lt _ (by omega)]

example : Addressed.Fits ⟨0, 150834090, 3, 313240222, false, false, 669, 11⟩ := by
  unfold Addressed.Fits; decide

/-- C48: SAR aircraft position reports. -/
theorem C48_aircraft (env : Env) (p : Parser) (s talker : Str) (own : Bool) (m : Aircraft) (x : List Bool)
    (hm : m.Fits) (h : Delivers p s talker own (armor (m.bits ++ x))) :
    ∃ d, (parseSentence env p s).1 = .ok (.standardSarAircraftPositionReport d) ∧
      d.ownVessel = own ∧ d.station = talkerStation talker ∧ d.mmsi = m.mmsi ∧
      d.altitude = (if m.altitude = 4095 then none else some m.altitude) ∧
      d.sogKnots = (if m.speed = 1023 then none else some m.speed) ∧
      d.highPositionAccuracy = m.accuracy ∧ Degrees 91 m.lat d.latitude ∧ Degrees 181 m.lon d.longitude ∧
      Course m.course d.cog ∧ d.timestampSeconds = m.second ∧ d.regional = m.regional ∧ d.dte = !m.dteOff ∧
      d.assigned = m.assigned ∧ d.raimFlag = m.raim ∧ d.radioStatus = m.radio := by
  obtain ⟨q, -, he⟩ := eval_delivers env p s talker own _ h
  obtain ⟨hrep, hmm, hal, hsp, hlon, hlat, hco, hse, hre, hspare, hra⟩ := hm
  rw [he]
  unfold Aircraft.bits
  generalize hfs : [natBits 6 9, _, _, _, _, _, _, _, _, _, _, _, _, _, _, _] = fs
  have f0 : pickU64 (fs.flatten ++ x) 0 6 = 9 := by subst hfs; exact fu 0 (by decide)
  have f2 : pickU64 (fs.flatten ++ x) 8 30 = m.mmsi := by subst hfs; exact fu 2 hmm
  have f3 : pickU64 (fs.flatten ++ x) 38 12 = m.altitude := by subst hfs; exact fu 3 hal
  have f4 : pickU64 (fs.flatten ++ x) 50 10 = m.speed := by subst hfs; exact fu 4 hsp
  have f5 : pickU64 (fs.flatten ++ x) 60 1 = m.accuracy.toNat := by subst hfs; exact ff 5
  have f6 : pickI64 (fs.flatten ++ x) 61 28 = m.lon := by subst hfs; exact fi 6 hlon
  have f7 : pickI64 (fs.flatten ++ x) 89 27 = m.lat := by subst hfs; exact fi 7 hlat
  have f8 : pickU64 (fs.flatten ++ x) 116 12 = m.course := by subst hfs; exact fu 8 hco
  have f9 : pickU64 (fs.flatten ++ x) 128 6 = m.second := by subst hfs; exact fu 9 hse
  have f10 : pickU64 (fs.flatten ++ x) 134 8 = m.regional := by subst hfs; exact fu 10 hre
  have f11 : pickU64 (fs.flatten ++ x) 142 1 = m.dteOff.toNat := by subst hfs; exact ff 11
  have f13 : pickU64 (fs.flatten ++ x) 146 1 = m.assigned.toNat := by subst hfs; exact ff 13
  have f14 : pickU64 (fs.flatten ++ x) 147 1 = m.raim.toNat := by subst hfs; exact ff 14
  have f15 : pickU64 (fs.flatten ++ x) 148 20 = m.radio := by subst hfs; exact fu 15 hra
  rw [dispatch_9 f0]
  refine ⟨_, rfl, rfl, rfl, ?_, ?_, ?_, ?_, lat_spec _ _ _ f7 hlat.1 hlat.2, lon_spec _ _ _ f6 hlon.1 hlon.2,
    course_spec _ _ _ f8 hco, ?_, ?_, ?_, ?_, ?_, ?_⟩
  · simp only [f2]; exact asU32_lt _ (by omega)
  · simp only [f3, asU16_lt _ (show m.altitude < 65536 by omega)]; split <;> simp_all
  · simp only [f4, asU16_lt _ (show m.speed < 65536 by omega)]; split <;> simp_all
  · simp only [pickFlag, f5, toNat_ne_zero]
  · simp only [f9]; exact asU8_lt _ (by omega)
  · simp only [f10]; exact asU8_lt _ (by omega)
  · simp only [f11, toNat_eq_zero]
  · simp only [pickFlag, f13, toNat_ne_zero]
  · simp only [pickFlag, f14, toNat_ne_zero]
  · simp only [f15]; exact asU32_lt _ (by omega)

example : Aircraft.Fits ⟨0, 111232511, 303, 42, false, -3767400, 34862400, 1545, 15, 0, true, 0, false, false, 33392⟩ := by
  unfold Aircraft.Fits; decide

/-- C49: UTC and date inquiries. -/
theorem C49_inquiry (env : Env) (p : Parser) (s talker : Str) (own : Bool) (m : Inquiry) (x : List Bool)
    (hm : m.Fits) (h : Delivers p s talker own (armor (m.bits ++ x))) :
    (parseSentence env p s).1 = .ok (.utcDateInquiry
      { ownVessel := own
        station := talkerStation talker
        sourceMmsi := m.mmsi
        destinationMmsi := m.destination }) := by
  obtain ⟨q, -, he⟩ := eval_delivers env p s talker own _ h
  obtain ⟨hrep, hmm, hs1, hde, hs2⟩ := hm
  rw [he]
  unfold Inquiry.bits
  generalize hfs : [natBits 6 10, _, _, _, _, _] = fs
  have f0 : pickU64 (fs.flatten ++ x) 0 6 = 10 := by subst hfs; exact fu 0 (by decide)
  have f2 : pickU64 (fs.flatten ++ x) 8 30 = m.mmsi := by subst hfs; exact fu 2 hmm
  have f4 : pickU64 (fs.flatten ++ x) 40 30 = m.destination := by subst hfs; exact fu 4 hde
  rw [dispatch_10 f0]
  simp only [handleT10, f2, f4]
  rw [asU32_lt _ (by omega), asU32_lt _ (by omega)]

example : Inquiry.Fits ⟨0, 366814480, 0, 366832740, 0⟩ := by
  unfold Inquiry.Fits; decide

/-- C50: class B position reports. The five reported class B flags are each read one bit too early: as display
flag the transmitted unit flag is reported, as DSC flag the display flag, and so on; the RAIM flag too is the
unit flag. The mode and RAIM flags are never read. The radio status lacks its first bit (the selector). -/
theorem C50_position_B (env : Env) (p : Parser) (s talker : Str) (own : Bool) (m : PositionB) (x : List Bool)
    (hm : m.Fits) (h : Delivers p s talker own (armor (m.bits ++ x))) :
    ∃ d, (parseSentence env p s).1 = .ok (.vesselDynamicData d) ∧
      d.ownVessel = own ∧ d.station = talkerStation talker ∧ d.aisType = .classB ∧ d.mmsi = m.mmsi ∧
      Speed m.speed d.sogKnots ∧ d.highPositionAccuracy = m.accuracy ∧ Degrees 91 m.lat d.latitude ∧
      Degrees 181 m.lon d.longitude ∧ Course m.course d.cog ∧ Heading m.heading d.headingTrue ∧
      d.timestampSeconds = m.second ∧ d.classBUnitFlag = none ∧ d.classBDisplay = some m.unit ∧
      d.classBDsc = some m.display ∧ d.classBBandFlag = some m.dsc ∧ d.classBMsg22Flag = some m.band ∧
      d.classBModeFlag = some m.msg22 ∧ d.raimFlag = m.unit ∧ d.classBCssFlag = none ∧
      d.radioStatus = some (m.radio % 2 ^ 19) ∧
      d.navStatus = .notDefined ∧ d.rot = none ∧ d.rotDirection = none ∧ d.positioningSystemMeta = none ∧
      d.currentGnssPosition = none ∧ d.specialManoeuvre = none := by
  obtain ⟨q, -, he⟩ := eval_delivers env p s talker own _ h
  obtain ⟨hrep, hmm, hre, hsp, hlon, hlat, hco, hh, hse, hr2, hra⟩ := hm
  rw [he]
  unfold PositionB.bits
  generalize hfs : [natBits 6 18, _, _, _, _, _, _, _, _, _, _, _, _, _, _, _, _, _, _, _] = fs
  have f0 : pickU64 (fs.flatten ++ x) 0 6 = 18 := by subst hfs; exact fu 0 (by decide)
  have f2 : pickU64 (fs.flatten ++ x) 8 30 = m.mmsi := by subst hfs; exact fu 2 hmm
  have f4 : pickU64 (fs.flatten ++ x) 46 10 = m.speed := by subst hfs; exact fu 4 hsp
  have f5 : pickU64 (fs.flatten ++ x) 56 1 = m.accuracy.toNat := by subst hfs; exact ff 5
  have f6 : pickI64 (fs.flatten ++ x) 57 28 = m.lon := by subst hfs; exact fi 6 hlon
  have f7 : pickI64 (fs.flatten ++ x) 85 27 = m.lat := by subst hfs; exact fi 7 hlat
  have f8 : pickU64 (fs.flatten ++ x) 112 12 = m.course := by subst hfs; exact fu 8 hco
  have f9 : pickU64 (fs.flatten ++ x) 124 9 = m.heading := by subst hfs; exact fu 9 hh
  have f10 : pickU64 (fs.flatten ++ x) 133 6 = m.second := by subst hfs; exact fu 10 hse
  have f13 : pickU64 (fs.flatten ++ x) 141 1 = m.unit.toNat := by subst hfs; exact ff 12
  have f14 : pickU64 (fs.flatten ++ x) 142 1 = m.display.toNat := by subst hfs; exact ff 13
  have f15 : pickU64 (fs.flatten ++ x) 143 1 = m.dsc.toNat := by subst hfs; exact ff 14
  have f16 : pickU64 (fs.flatten ++ x) 144 1 = m.band.toNat := by subst hfs; exact ff 15
  have f17 : pickU64 (fs.flatten ++ x) 145 1 = m.msg22.toNat := by subst hfs; exact ff 16
  have f19 : pickU64 (fs.flatten ++ x) 149 19 = m.radio % 2 ^ 19 := by
    subst hfs
    rw [field_sub_u 19 1 rfl (by simp) (by decide) (by decide)]
    show m.radio / 2 ^ 0 % 2 ^ 19 = _
    omega
  rw [dispatch_18 f0]
  refine ⟨_, rfl, rfl, rfl, rfl, ?_, speed_spec _ _ _ f4 hsp, ?_, lat_spec _ _ _ f7 hlat.1 hlat.2,
    lon_spec _ _ _ f6 hlon.1 hlon.2, course_spec _ _ _ f8 hco, heading_spec _ _ _ f9, ?_, rfl, ?_, ?_, ?_, ?_, ?_, ?_, rfl,
    ?_, rfl, rfl, rfl, rfl, rfl, rfl⟩
  · simp only [f2]; exact asU32_lt _ (by omega)
  · simp only [pickFlag, f5, toNat_ne_zero]
  · simp only [f10]; exact asU8_lt _ (by omega)
  · simp only [pickFlag, f13, toNat_ne_zero]
  · simp only [pickFlag, f14, toNat_ne_zero]
  · simp only [pickFlag, f15, toNat_ne_zero]
  · simp only [pickFlag, f16, toNat_ne_zero]
  · simp only [pickFlag, f17, toNat_ne_zero]
  · simp only [pickFlag, f13, toNat_ne_zero]
  · simp only [f19]; rw [asU32_lt _ (by omega)]

example : PositionB.Fits ⟨0, 423302100, 15, 14, true, 31803000, 24021600, 1770, 177, 34, 0, true, true, true, true, true,
    false, false, 917510⟩ := by
  unfold PositionB.Fits; decide

/-- C51: aids to navigation. The off-position indicator is not read: the first bit of the starboard dimension
is reported in its place. -/
theorem C51_aid (env : Env) (p : Parser) (s talker : Str) (own : Bool) (m : Aid) (x : List Bool)
    (hm : m.Fits) (h : Delivers p s talker own (armor (m.bits ++ x))) :
    ∃ d, (parseSentence env p s).1 = .ok (.aidToNavigationReport d) ∧
      d.ownVessel = own ∧ d.station = talkerStation talker ∧ d.mmsi = m.mmsi ∧
      some d.aidType = navAidTable[m.kind]? ∧ d.name = m.name ++ m.extension ∧
      d.highPositionAccuracy = m.accuracy ∧ Degrees 91 m.lat d.latitude ∧ Degrees 181 m.lon d.longitude ∧
      d.dimensionToBow = some m.bow ∧ d.dimensionToStern = some m.stern ∧ d.dimensionToPort = some m.port ∧
      d.dimensionToStarboard = some m.starboard ∧ d.positionFixType = some (fixOf m.fix) ∧
      d.timestampSeconds = m.second ∧ d.offPositionIndicator = decide (32 ≤ m.starboard) ∧
      d.regional = m.regional ∧ d.raimFlag = m.raim ∧ d.virtualAidFlag = m.virtual ∧
      d.assignedModeFlag = m.assigned := by
  obtain ⟨q, -, he⟩ := eval_delivers env p s talker own _ h
  obtain ⟨hrep, hmm, hki, hna, hlon, hlat, hbo, hst, hpo, hsb, hfix, hse, hre, hext⟩ := hm
  rw [he]
  unfold Aid.bits
  generalize hfs : [natBits 6 21, _, _, _, _, _, _, _, _, _, _, _, _, _, _, _, _, _, _, _, _] = fs
  have l1 := length_textBits 20 m.name hna.1
  have f0 : pickU64 (fs.flatten ++ x) 0 6 = 21 := by subst hfs; exact fu 0 (by decide)
  have f2 : pickU64 (fs.flatten ++ x) 8 30 = m.mmsi := by subst hfs; exact fu 2 hmm
  have f3 : pickU64 (fs.flatten ++ x) 38 5 = m.kind := by subst hfs; exact fu 3 hki
  have f4 : textAt (fs.flatten ++ x) 43 20 = m.name := by subst hfs; exact field_t 4 rfl (by simp) hna
  have f5 : pickU64 (fs.flatten ++ x) 163 1 = m.accuracy.toNat := by subst hfs; exact field_f 5 rfl (by simp [l1])
  have f6 : pickI64 (fs.flatten ++ x) 164 28 = m.lon := by
    subst hfs; exact field_i 6 rfl (by simp [l1]) (by decide) (by decide) hlon.1 hlon.2
  have f7 : pickI64 (fs.flatten ++ x) 192 27 = m.lat := by
    subst hfs; exact field_i 7 rfl (by simp [l1]) (by decide) (by decide) hlat.1 hlat.2
  have f8 : pickU64 (fs.flatten ++ x) 219 9 = m.bow := by subst hfs; exact field_u 8 rfl (by simp [l1]) (by decide) hbo
  have f9 : pickU64 (fs.flatten ++ x) 228 9 = m.stern := by subst hfs; exact field_u 9 rfl (by simp [l1]) (by decide) hst
  have f10 : pickU64 (fs.flatten ++ x) 237 6 = m.port := by subst hfs; exact field_u 10 rfl (by simp [l1]) (by decide) hpo
  have f11 : pickU64 (fs.flatten ++ x) 243 6 = m.starboard := by subst hfs; exact field_u 11 rfl (by simp [l1]) (by decide) hsb
  have f12 : pickU64 (fs.flatten ++ x) 249 4 = m.fix := by subst hfs; exact field_u 12 rfl (by simp [l1]) (by decide) hfix
  have f13 : pickU64 (fs.flatten ++ x) 253 6 = m.second := by subst hfs; exact field_u 13 rfl (by simp [l1]) (by decide) hse
  have f15 : pickU64 (fs.flatten ++ x) 260 8 = m.regional := by subst hfs; exact field_u 15 rfl (by simp [l1]) (by decide) hre
  have f16 : pickU64 (fs.flatten ++ x) 268 1 = m.raim.toNat := by subst hfs; exact field_f 16 rfl (by simp [l1])
  have f17 : pickU64 (fs.flatten ++ x) 269 1 = m.virtual.toNat := by subst hfs; exact field_f 17 rfl (by simp [l1])
  have f18 : pickU64 (fs.flatten ++ x) 270 1 = m.assigned.toNat := by subst hfs; exact field_f 18 rfl (by simp [l1])
  have f20 : textAt (fs.flatten ++ x) 272 14 = m.extension := by subst hfs; exact field_t 20 rfl (by simp [l1]) hext
  have fo : pickU64 (fs.flatten ++ x) 243 1 = m.starboard / 32 % 2 := by
    subst hfs
    rw [field_sub_u 11 0 rfl (by simp [l1]) (by decide) (by decide)]
    rfl
  rw [dispatch_21 f0]
  simp only [handleT21, liftErr_pickString, Out.ok_bind, f4, f20]
  refine ⟨_, rfl, rfl, rfl, ?_, ?_, rfl, ?_, lat_spec _ _ _ f7 hlat.1 hlat.2, lon_spec _ _ _ f6 hlon.1 hlon.2,
    ?_, ?_, ?_, ?_, ?_, ?_, ?_, ?_, ?_, ?_, ?_⟩
  · simp only [f2]; exact asU32_lt _ (by omega)
  · simp only [f3]; rw [asU8_lt _ (by omega)]; exact navAid_eq _ hki
  · simp only [pickFlag, f5, toNat_ne_zero]
  · simp only [f8]; rw [asU16_lt _ (by omega)]
  · simp only [f9]; rw [asU16_lt _ (by omega)]
  · simp only [f10]; rw [asU16_lt _ (by omega)]
  · simp only [f11]; rw [asU16_lt _ (by omega)]
  · simp only [f12]; rw [asU8_lt _ (by omega), fix_eq _ hfix]
  · simp only [f13]; exact asU8_lt _ (by omega)
  · simp only [pickFlag, fo]
    by_cases hc : 32 ≤ m.starboard
    · rw [decide_eq_true hc, show m.starboard / 32 % 2 = 1 by omega]; rfl
    · rw [decide_eq_false hc, show m.starboard / 32 % 2 = 0 by omega]; rfl
  · simp only [f15]; exact asU8_lt _ (by omega)
  · simp only [pickFlag, f16, toNat_ne_zero]
  · simp only [pickFlag, f17, toNat_ne_zero]
  · simp only [pickFlag, f18, toNat_ne_zero]

example : Aid.Fits ⟨1, 123456789, 20, c! "CHINA ROSE MURPHY EX", false, -73619400, 28839600, 5, 5, 5, 5, 1, 50, false, 165,
    false, false, false, false, c! "PRESS ALERT"⟩ := by
  unfold Aid.Fits; decide

/-- C52: part A as first part is stored. (Part A is read with a name of up to 120 characters, so a name that
fills the 20 characters of the standard must not be followed by anything but fill bits.) -/
theorem C52_part_A_first (env : Env) (p : Parser) (s talker : Str) (own : Bool) (m : StaticA) (x : List Bool)
    (hm : m.Fits) (hx : m.name.length < 20 ∨ ∃ k, x = List.replicate k false)
    (h : Delivers p s talker own (armor (m.bits ++ x))) (hp : pendingStatic p m.mmsi = none) :
    (parseSentence env p s).1 = .ok .incomplete ∧
      pendingStatic (parseSentence env p s).2 m.mmsi = some (m.data own) := by
  obtain ⟨q, hq, he⟩ := eval_delivers env p s talker own _ h
  rw [he, StaticA.eval m hm own x hx]
  exact t24Store_none (m.data own) q (by rw [hq]; exact hp)

example : StaticA.Fits ⟨0, 271041815, c! "PROGUY"⟩ ∧ (c! "PROGUY").length < 20 ∧
    pendingStatic Parser.new 271041815 = none := by
  unfold StaticA.Fits; decide

/-- C52: part A as second part completes the report of part B. -/
theorem C52_part_A_second (env : Env) (p : Parser) (s talker : Str) (own own' : Bool) (m : StaticA) (b : StaticB)
    (x : List Bool) (hm : m.Fits) (hx : m.name.length < 20 ∨ ∃ k, x = List.replicate k false)
    (h : Delivers p s talker own (armor (m.bits ++ x))) (hb : b.mmsi = m.mmsi)
    (hp : pendingStatic p m.mmsi = some (b.data own')) :
    (parseSentence env p s).1 = .ok (.vesselStaticData { b.data own with name := nonEmpty m.name }) ∧
      pendingStatic (parseSentence env p s).2 m.mmsi = none := by
  obtain ⟨q, hq, he⟩ := eval_delivers env p s talker own _ h
  rw [he, StaticA.eval m hm own x hx]
  refine t24Store_some (m.data own) (b.data own') _ q (by rw [hq]; exact hp) ?_
  simp [VesselStaticData.merge, StaticA.data, StaticB.data, blankStatic, chooseSome, hb]
  cases nonEmpty m.name <;> simp

example : ∃ p, StaticA.Fits ⟨0, 271041815, c! "PROGUY"⟩ ∧ pendingStatic p 271041815 = some (StaticB.data false
      ⟨0, 271041815, 60, c! "1D0", 12, 0, c! "TC6163", 0, 15, 0, 5, 0⟩) := by
  refine ⟨(parseSentence demoEnv Parser.new (aisSentence (c! "AI") false (armor (StaticB.bits
    ⟨0, 271041815, 60, c! "1D0", 12, 0, c! "TC6163", 0, 15, 0, 5, 0⟩)))).2, by unfold StaticA.Fits; decide, ?_⟩
  decide +kernel

/-- C52: part B as first part is stored. -/
theorem C52_part_B_first (env : Env) (p : Parser) (s talker : Str) (own : Bool) (m : StaticB) (x : List Bool)
    (hm : m.Fits) (h : Delivers p s talker own (armor (m.bits ++ x))) (hp : pendingStatic p m.mmsi = none) :
    (parseSentence env p s).1 = .ok .incomplete ∧
      pendingStatic (parseSentence env p s).2 m.mmsi = some (m.data own) := by
  obtain ⟨q, hq, he⟩ := eval_delivers env p s talker own _ h
  rw [he, StaticB.eval m hm own x]
  exact t24Store_none (m.data own) q (by rw [hq]; exact hp)

example : StaticB.Fits ⟨0, 271041815, 60, c! "1D0", 12, 0, c! "TC6163", 0, 15, 0, 5, 0⟩ := by
  unfold StaticB.Fits; decide

/-- C52: part B as second part completes the report of part A. -/
theorem C52_part_B_second (env : Env) (p : Parser) (s talker : Str) (own own' : Bool) (m : StaticB) (a : StaticA)
    (x : List Bool) (hm : m.Fits) (h : Delivers p s talker own (armor (m.bits ++ x))) (ha : a.mmsi = m.mmsi)
    (hp : pendingStatic p m.mmsi = some (a.data own')) :
    (parseSentence env p s).1 = .ok (.vesselStaticData { m.data own with name := nonEmpty a.name }) ∧
      pendingStatic (parseSentence env p s).2 m.mmsi = none := by
  obtain ⟨q, hq, he⟩ := eval_delivers env p s talker own _ h
  rw [he, StaticB.eval m hm own x]
  refine t24Store_some (m.data own) (a.data own') _ q (by rw [hq]; exact hp) ?_
  simp [VesselStaticData.merge, StaticA.data, StaticB.data, blankStatic, chooseSome, ha]
  refine ⟨?_, fun h => h.symm, fun h => h.symm⟩
  cases nonEmpty m.callSign <;> simp

example : ∃ p, pendingStatic p 271041815 = some (StaticA.data false ⟨0, 271041815, c! "PROGUY"⟩) := by
  refine ⟨(parseSentence demoEnv Parser.new (aisSentence (c! "AI") false (armor (StaticA.bits
    ⟨0, 271041815, c! "PROGUY"⟩)))).2, ?_⟩
  decide +kernel

/-- C53: long-range position reports. Sender, accuracy, RAIM flag and status are read correctly. The reported
latitude is the transmitted *longitude* in 1/10 minute; the reported longitude, speed, course and GNSS flag
are all read from the bits of the transmitted *latitude*. -/
theorem C53_long_range (env : Env) (p : Parser) (s talker : Str) (own : Bool) (m : LongRange) (x : List Bool)
    (hm : m.Fits) (h : Delivers p s talker own (armor (m.bits ++ x))) :
    ∃ d, (parseSentence env p s).1 = .ok (.vesselDynamicData d) ∧
      d.ownVessel = own ∧ d.station = talkerStation talker ∧ d.aisType = .classA ∧ d.mmsi = m.mmsi ∧
      d.highPositionAccuracy = m.accuracy ∧ d.raimFlag = m.raim ∧ some d.navStatus = navStatusTable[m.status]? ∧
      Rounded (m.lon / 600) d.latitude ∧ Rounded (m.lat / 600) d.longitude ∧
      (let bits := (m.lat % 2 ^ 17).toNat
       (if bits / 2 ^ 11 = 63 then d.sogKnots = none else Rounded (bits / 2 ^ 11 : Nat) d.sogKnots) ∧
       (if bits = 91000 then d.cog = none else Tenths bits d.cog)) ∧
      d.currentGnssPosition = some (decide (0 ≤ m.lat)) ∧
      d.rot = none ∧ d.rotDirection = none ∧ d.headingTrue = none ∧ d.timestampSeconds = 0 ∧
      d.positioningSystemMeta = none ∧ d.specialManoeuvre = none ∧ d.radioStatus = none ∧
      d.classBUnitFlag = none ∧ d.classBDisplay = none ∧ d.classBDsc = none ∧
      d.classBBandFlag = none ∧ d.classBMsg22Flag = none ∧ d.classBModeFlag = none ∧ d.classBCssFlag = none := by
  obtain ⟨q, -, he⟩ := eval_delivers env p s talker own _ h
  obtain ⟨hrep, hmm, hst, hlon, hlat, hsp, hco⟩ := hm
  rw [he]
  unfold LongRange.bits
  generalize hfs : [natBits 6 27, _, _, _, _, _, _, _, _, _, _, _] = fs
  have f0 : pickU64 (fs.flatten ++ x) 0 6 = 27 := by subst hfs; exact fu 0 (by decide)
  have f2 : pickU64 (fs.flatten ++ x) 8 30 = m.mmsi := by subst hfs; exact fu 2 hmm
  have f3 : pickU64 (fs.flatten ++ x) 38 1 = m.accuracy.toNat := by subst hfs; exact ff 3
  have f4 : pickU64 (fs.flatten ++ x) 39 1 = m.raim.toNat := by subst hfs; exact ff 4
  have f5 : pickU64 (fs.flatten ++ x) 40 4 = m.status := by subst hfs; exact fu 5 hst
  have f6 : pickI64 (fs.flatten ++ x) 44 18 = m.lon := by subst hfs; exact fi 6 hlon
  have f7 : pickI64 (fs.flatten ++ x) 62 17 = m.lat := by subst hfs; exact fi 7 hlat
  have hb : (m.lat % 2 ^ 17).toNat < 2 ^ 17 := by omega
  generalize hbits : (m.lat % 2 ^ 17).toNat = b at hb
  have g1 : pickU64 (fs.flatten ++ x) 62 17 = b := by
    subst hfs
    rw [field_u 7 (n := b) (by rw [← hbits]; rfl) (by simp) (by decide) hb]
  have g2 : pickU64 (fs.flatten ++ x) 62 6 = b / 2 ^ 11 := by
    subst hfs
    rw [field_sub_u 7 0 (w := 17) (n := b) (by rw [← hbits]; rfl) (by simp) (by decide) (by decide)]
    show b / 2 ^ 11 % 2 ^ 6 = _
    omega
  have g3 : pickU64 (fs.flatten ++ x) 62 1 = b / 2 ^ 16 := by
    subst hfs
    rw [field_sub_u 7 0 (w := 17) (n := b) (by rw [← hbits]; rfl) (by simp) (by decide) (by decide)]
    show b / 2 ^ 16 % 2 ^ 1 = _
    omega
  rw [dispatch_27 f0]
  refine ⟨_, rfl, rfl, rfl, rfl, ?_, ?_, ?_, ?_, ?_, ?_, ⟨?_, ?_⟩, ?_, rfl, rfl, rfl, rfl, rfl, rfl, rfl, rfl, rfl, rfl, rfl,
    rfl, rfl, rfl⟩
  · simp only [f2]; exact asU32_lt _ (by omega)
  · simp only [pickFlag, f3, toNat_ne_zero]
  · simp only [pickFlag, f4, toNat_ne_zero]
  · simp only [f5]; rw [asU8_lt _ (by omega)]; exact nav_eq _ hst
  · simp only [f6]
    rw [asI32_small _ (by omega) (by omega), if_pos (by omega)]
    exact rounded_div _ 600 (by rw [abs_le]; constructor <;> omega) (by norm_num) (by norm_num)
  · simp only [f7]
    rw [asI32_small _ (by omega) (by omega), if_pos (by omega)]
    exact rounded_div _ 600 (by rw [abs_le]; constructor <;> omega) (by norm_num) (by norm_num)
  · simp only [g2]
    by_cases hc : b / 2 ^ 11 = 63
    · rw [if_pos hc, if_neg (not_not.mpr hc)]
    · rw [if_neg hc, if_pos hc]; exact rounded_nat _
  · simp only [g1]
    by_cases hc : b = 91000
    · rw [if_pos hc, if_neg (not_not.mpr hc)]
    · rw [if_neg hc, if_pos hc]; exact tenths_spec _ (by omega)
  · simp only [g3]
    congr 1
    by_cases hc : 0 ≤ m.lat
    · rw [decide_eq_true hc, show b / 2 ^ 16 = 0 by omega]; rfl
    · rw [decide_eq_false hc, show b / 2 ^ 16 = 1 by omega]; rfl

example : LongRange.Fits ⟨0, 206914217, false, true, 3, 82214, 2942, 57, 167, false, false⟩ := by
  unfold LongRange.Fits; decide

end Nmea
