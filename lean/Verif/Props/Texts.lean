/-
C118: the printed texts as functions of the transmitted codes, letters and talker ids.
-/
import Verif.Spec.Texts
import Verif.Props.Labels
import Verif.Props.Dispatch
import Verif.Props.Static

namespace Nmea
open Spec

/-! ### Codes -/

theorem ship_label (n : Nat) (h : n < 256) : (reportedShip n).label = shipText n := by
  have k : ∀ n : Fin 256, (reportedShip n.val).label = shipText n.val := by decide +kernel
  exact k ⟨n, h⟩

theorem cargo_label (n : Nat) (h : n < 256) : (cargoOf n).label = cargoText n := by
  have k : ∀ n : Fin 256, (cargoOf n.val).label = cargoText n.val := by decide +kernel
  exact k ⟨n, h⟩

theorem fix_label (n : Nat) (h : n < 16) : (fixOf n).label = fixText n := by
  have k : ∀ n : Fin 16, (fixOf n.val).label = fixText n.val := by decide +kernel
  exact k ⟨n, h⟩

theorem optFix_label (n : Nat) (h : n < 16) :
    (optFix n).map PositionFixType.label = if n = 0 then none else some (fixText n) := by
  unfold optFix
  split
  · rfl
  · rw [Option.map_some, fix_label n h]

theorem station_label (talker : Str) : (talkerStation talker).label = stationText talker := by
  unfold talkerStation stationText stationTable
  simp only [List.lookup]
  repeat' split
  all_goals rfl

theorem system_label (talker : Str) : (talkerSystem talker).label = systemText talker := by
  unfold talkerSystem systemText systemTable
  simp only [List.lookup]
  repeat' split
  all_goals rfl

/-- C118: the printed ship type, cargo type and fixing device of every voyage report. -/
theorem C118_voyage (env : Env) (p : Parser) (s talker : Str) (own : Bool) (bits : List Bool)
    (h : DeliversBits env p s talker own bits) (ht : typeOf bits = 5) (r : ParsedSentence)
    (hr : (parseSentence env p s).1 = .ok r) :
    ∃ d, r = .vesselStaticData d ∧ d.shipType.label = shipText (num bits 232 8) ∧
      d.cargoType.label = cargoText (num bits 232 8) ∧
      d.positionFixType.map PositionFixType.label =
        if num bits 270 4 = 0 then none else some (fixText (num bits 270 4)) := by
  obtain ⟨d, rfl, h1, h2, h3⟩ := C60_voyage env p s talker own bits h ht r hr
  exact ⟨d, rfl, by rw [h1]; exact ship_label _ (num_lt bits 232 8), by rw [h2]; exact cargo_label _ (num_lt bits 232 8),
    by rw [h3]; exact optFix_label _ (num_lt bits 270 4)⟩

/-- A voyage report with the code 130 and no fixing device. -/
example : ∃ d, (parseSentence demoEnv Parser.new
      (c! "!AIVDM,1,1,,A,539p4OT00000@7W3K@08ThiLE8@E:222222222220O0000000000000000000000000000,0")).1 =
    .ok (.vesselStaticData d) ∧ d.shipType.label = c! "(not available)" ∧ d.cargoType.label = c! "undefined" := by
  obtain ⟨r, hr⟩ := demoOk (x := (parseSentence demoEnv Parser.new
    (c! "!AIVDM,1,1,,A,539p4OT00000@7W3K@08ThiLE8@E:222222222220O0000000000000000000000000000,0")).1) (by decide +kernel)
  obtain ⟨d, h, h1, h2, -⟩ := C118_voyage _ _ _ _ _ _ demoType5 (by decide +kernel) r hr
  rw [show num (payloadBits (c! "539p4OT00000@7W3K@08ThiLE8@E:222222222220O0000000000000000000000000000")) 232 8 = 130 by
    decide +kernel] at h1 h2
  exact ⟨d, hr.trans (congrArg _ h), h1, h2⟩

/-- C118: the printed ship and cargo type of a class B report, part A first. -/
theorem C118_A_then_B (e1 e2 : Env) (p : Parser) (s1 s2 : Str) (own1 own2 : Bool) (a b : List Bool)
    (h : List (Env × Str))
    (h1 : Completes24 e1 p s1 own1 a) (ha : partOf a = 0)
    (h2 : Completes24 e2 (run (parseSentence e1 p s1).2 h) s2 own2 b) (hb : partOf b = 1)
    (hm : mmsiOf a = mmsiOf b) (hno : pendingStatic p (mmsiOf b) = none)
    (hh : Avoids (fun q x => CompletesStatic q x (mmsiOf b)) (parseSentence e1 p s1).2 h) :
    ∃ d, (parseSentence e2 (run (parseSentence e1 p s1).2 h) s2).1 = .ok (.vesselStaticData d) ∧
      d.aisType.display = c! "Class B" ∧ d.shipType.label = shipText (num b 40 8) ∧
      d.cargoType.label = cargoText (num b 40 8) :=
  ⟨_, (C25_A_then_B e1 e2 p s1 s2 own1 own2 a b h h1 ha h2 hb hm hno hh).2, rfl, ship_label _ (num_lt b 40 8),
    cargo_label _ (num_lt b 40 8)⟩

/-- Part A, a UTC inquiry, then part B. -/
example : ∃ d, (parseSentence demoEnv (run (parseSentence demoEnv Parser.new
      (c! "!AIVDM,1,1,,A,H42O55i18tMET00000000000000,2")).2 [(demoEnv, c! "!ABVDM,1,1,,B,:5MlU41GMK6@,0")])
      (c! "!AIVDO,1,1,,A,H42O55lt0000000D3nink000?0500,0")).1 = .ok (.vesselStaticData d) ∧
    d.shipType.label = shipText (num (payloadBits demoB) 40 8) := by
  obtain ⟨d, h, -, h1, -⟩ := C118_A_then_B demoEnv demoEnv Parser.new _ _ _ _ _ _
    [(demoEnv, c! "!ABVDM,1,1,,B,:5MlU41GMK6@,0")] (demoCompletesA _) demoPartA (demoCompletesB _) demoPartB
    (demoMmsiA.trans demoMmsiB.symm) rfl ⟨demoNotStatic _ _, trivial⟩
  exact ⟨d, h, h1⟩

/-- C118 with part B first. -/
theorem C118_B_then_A (e1 e2 : Env) (p : Parser) (s1 s2 : Str) (own1 own2 : Bool) (a b : List Bool)
    (h : List (Env × Str))
    (h1 : Completes24 e1 p s1 own1 b) (hb : partOf b = 1)
    (h2 : Completes24 e2 (run (parseSentence e1 p s1).2 h) s2 own2 a) (ha : partOf a = 0)
    (hm : mmsiOf a = mmsiOf b) (hno : pendingStatic p (mmsiOf b) = none)
    (hh : Avoids (fun q x => CompletesStatic q x (mmsiOf b)) (parseSentence e1 p s1).2 h) :
    ∃ d, (parseSentence e2 (run (parseSentence e1 p s1).2 h) s2).1 = .ok (.vesselStaticData d) ∧
      d.aisType.display = c! "Class B" ∧ d.shipType.label = shipText (num b 40 8) ∧
      d.cargoType.label = cargoText (num b 40 8) :=
  ⟨_, (C25_B_then_A e1 e2 p s1 s2 own1 own2 a b h h1 hb h2 ha hm hno hh).2, rfl, ship_label _ (num_lt b 40 8),
    cargo_label _ (num_lt b 40 8)⟩

/-- The same with part B first. -/
example : ∃ d, (parseSentence demoEnv (run (parseSentence demoEnv Parser.new
      (c! "!AIVDO,1,1,,A,H42O55lt0000000D3nink000?0500,0")).2 [(demoEnv, c! "!ABVDM,1,1,,B,:5MlU41GMK6@,0")])
      (c! "!AIVDM,1,1,,A,H42O55i18tMET00000000000000,2")).1 = .ok (.vesselStaticData d) ∧
    d.shipType.label = shipText (num (payloadBits demoB) 40 8) := by
  obtain ⟨d, h, -, h1, -⟩ := C118_B_then_A demoEnv demoEnv Parser.new _ _ _ _ _ _
    [(demoEnv, c! "!ABVDM,1,1,,B,:5MlU41GMK6@,0")] (demoCompletesB _) demoPartB (demoCompletesA _) demoPartA
    (demoMmsiA.trans demoMmsiB.symm) rfl ⟨demoNotStatic _ _, trivial⟩
  exact ⟨d, h, h1⟩

/-- C118: the printed fixing device of every base station report. -/
theorem C118_base_station (env : Env) (p : Parser) (s talker : Str) (own : Bool) (bits : List Bool)
    (h : DeliversBits env p s talker own bits) (ht : typeOf bits = 4) (r : ParsedSentence)
    (hr : (parseSentence env p s).1 = .ok r) :
    ∃ d, r = .baseStationReport d ∧ d.positionFixType.map PositionFixType.label =
        if num bits 134 4 = 0 then none else some (fixText (num bits 134 4)) := by
  obtain ⟨d, rfl, h1⟩ := C59_base_station env p s talker own bits h ht r hr
  exact ⟨d, rfl, by rw [h1]; exact optFix_label _ (num_lt bits 134 4)⟩

/-- A base station with a surveyed position. -/
example : ∃ d, (parseSentence demoEnv Parser.new (c! "!AIVDM,1,1,,B,403OviQuMGCqWrRO9>E6fE700@GO,0")).1 =
    .ok (.baseStationReport d) ∧ d.positionFixType.map PositionFixType.label = some (c! "surveyed") := by
  obtain ⟨r, hr⟩ := demoOk (x := (parseSentence demoEnv Parser.new
    (c! "!AIVDM,1,1,,B,403OviQuMGCqWrRO9>E6fE700@GO,0")).1) (by decide +kernel)
  obtain ⟨d, h, h1⟩ := C118_base_station _ _ _ _ _ _ demoType4 (by decide +kernel) r hr
  rw [show num (payloadBits (c! "403OviQuMGCqWrRO9>E6fE700@GO")) 134 4 = 7 by decide +kernel] at h1
  exact ⟨d, hr.trans (congrArg _ h), h1⟩

/-- C118: the printed aid type and fixing device of every aid-to-navigation report. -/
theorem C118_aid (env : Env) (p : Parser) (s talker : Str) (own : Bool) (bits : List Bool)
    (h : DeliversBits env p s talker own bits) (ht : typeOf bits = 21) :
    ∃ d, (parseSentence env p s).1 = .ok (.aidToNavigationReport d) ∧
      some d.aidType.label = aidTexts[num bits 38 5]? ∧
      d.positionFixType.map PositionFixType.label = some (fixText (num bits 249 4)) := by
  obtain ⟨d, hd, h1, h2⟩ := C59_aid env p s talker own bits h ht
  refine ⟨d, hd, ?_, by rw [h1, Option.map_some, fix_label _ (num_lt bits 249 4)]⟩
  have k : ∀ n : Fin 32, (navAidTable[n.val]?).map NavAidType.label = aidTexts[n.val]? := by decide +kernel
  rw [← k ⟨_, num_lt bits 38 5⟩, ← h2, Option.map_some]

/-- An aid to navigation of type 19 with a surveyed position. -/
example : ∃ d, (parseSentence demoEnv Parser.new
      (c! "!AIVDM,1,1,,B,E>kb9O9aS@7PUh10dh19@;0Tah2cWrfP:l?M`00003vP100,0")).1 = .ok (.aidToNavigationReport d) ∧
    d.aidType.label = c! "special mark" ∧ d.positionFixType.map PositionFixType.label = some (c! "surveyed") := by
  obtain ⟨d, h, h1, h2⟩ := C118_aid _ _ _ _ _ _ demoType21 (by decide +kernel)
  rw [show num (payloadBits (c! "E>kb9O9aS@7PUh10dh19@;0Tah2cWrfP:l?M`00003vP100")) 249 4 = 7 by decide +kernel] at h2
  rw [show num (payloadBits (c! "E>kb9O9aS@7PUh10dh19@;0Tah2cWrfP:l?M`00003vP100")) 38 5 = 19 by decide +kernel] at h1
  exact ⟨d, h, Option.some.inj h1, h2⟩

/-- C118: the printed class and state of the positioning system of every class A position report. -/
theorem C118_class_A (env : Env) (p : Parser) (s talker : Str) (own : Bool) (bits : List Bool)
    (h : DeliversBits env p s talker own bits) (ht : typeOf bits ∈ [1, 2, 3]) :
    ∃ d, (parseSentence env p s).1 = .ok (.vesselDynamicData d) ∧ d.aisType.display = c! "Class A" ∧
      d.positioningSystemMeta.map PositioningSystemMeta.label = positioningText (num bits 137 6) := by
  obtain ⟨d, hd, -, h2⟩ := C59_class_A env p s talker own bits h ht
  refine ⟨d, hd, ?_, ?_⟩
  · obtain ⟨q, -, he⟩ := eval_bits env p s talker own bits h
    rw [he, dispatch_123 (by rw [typeOf_eq]; exact ht)] at hd
    cases hd
    rfl
  · have k : ∀ n : Fin 64, (metaOf n.val).map PositioningSystemMeta.label = positioningText n.val := by decide +kernel
    rw [h2]
    exact k ⟨_, num_lt bits 137 6⟩

/-- The class A report, at second 33. -/
example : ∃ d, (parseSentence demoEnv Parser.new (c! "!AIVDM,1,1,,A,15RTgt0PAso;90TKcjM8h6g208CQ,0*4A")).1 =
      .ok (.vesselDynamicData d) ∧ d.aisType.display = c! "Class A" ∧
    d.positioningSystemMeta.map PositioningSystemMeta.label = some (c! "operative") := by
  obtain ⟨d, h, h1, h2⟩ := C118_class_A _ _ _ _ _ _ demoType1 (by decide +kernel)
  rw [show num (payloadBits (c! "15RTgt0PAso;90TKcjM8h6g208CQ")) 137 6 = 33 by decide +kernel] at h2
  exact ⟨d, h, h1, h2⟩

/-- C118: the printed station of every AIS report that has one. -/
theorem C118_station (env : Env) (p p' : Parser) (talker : Str) (own : Bool) (fs : List Str) (s : Str)
    (r : ParsedSentence) (h : IsAis talker own fs s) (hr : parseSentence env p s = (.ok r, p')) (x : Station)
    (hx : stationIn r = some x) : x.label = stationText talker := by
  rw [(C08_station_and_own env p p' talker own fs s r h hr).1 x hx, station_label]

/-- A report received by a limited base station. -/
example : Station.limitedBaseStation.label = c! "limited base station" :=
  C118_station demoEnv Parser.new Parser.new (c! "AS") true [c! "1", c! "1", [], c! "B", c! ":5MlU41GMK6@", c! "0"]
    (c! "!ASVDO,1,1,,B,:5MlU41GMK6@,0") (.utcDateInquiry ⟨true, .limitedBaseStation, 366814480, 366832740⟩)
    (demoTagged .bare (by decide +kernel)) (by decide +kernel) _ rfl

/-- C118: the printed navigation system of every GNSS report and of every satellite listed. -/
theorem C118_system (env : Env) (p p' : Parser) (talker kind : Str) (fs : List Str) (s : Str)
    (r : ParsedSentence) (hk : byteLen kind = 3) (hc : ',' ∉ kind) (h : IsGnss talker kind fs s)
    (hr : parseSentence env p s = (.ok r, p')) (x : NavigationSystem) (hx : x ∈ sources r) :
    x.label = systemText talker := by
  rw [C07_source_is_talker env p p' talker kind fs s r hk hc h hr x hx, system_label]

/-- A Galileo speed sentence. -/
example : NavigationSystem.galileo.label = c! "Galileo" :=
  C118_system demoEnv Parser.new Parser.new (c! "GA") (c! "VTG") [c! "054.7", c! "T"] (c! "$GAVTG,054.7,T*3F")
    (.vtg ⟨.galileo, F64.parse (c! "054.7"), none, none, none, none⟩) (by decide) (by decide)
    (demoTagged .full (by decide +kernel)) (by decide +kernel) _ (by decide)

/-- C118: the printed quality of every GGA report; an empty field counts as 0. -/
theorem C118_quality (env : Env) (p : Parser) (talker : Str) (fs : List Str) (s : Str) (d : GgaData)
    (h : IsGnss talker (c! "GGA") fs s) (hr : (parseSentence env p s).1 = .ok (.gga d)) :
    ∃ q, IntField 255 (field fs 5) q ∧ d.quality.label = qualityText (q.getD 0) := by
  obtain ⟨_, e, hs⟩ := ((C65_contents env p talker fs s h).2.1 _).mp hr
  cases e
  obtain ⟨q, hq, e⟩ := hs.quality
  refine ⟨q, hq, ?_⟩
  rw [e]
  by_cases hn : q.getD 0 < 9
  · have k : ∀ n : Fin 9, (qualities.getD n.val .invalid).label = qualityText n.val := by decide +kernel
    exact k ⟨_, hn⟩
  · rw [qualityText, List.getD_eq_default _ _ (show 9 ≤ _ by omega), List.getD_eq_default _ _ (show 9 ≤ _ by omega)]
    rfl

/-- The GGA sentence of the examples. -/
example : ∃ d, (parseSentence demoEnv Parser.new
      (c! "$GPGGA,123519,4807.038,N,01131.000,W,1,08,0.9,-545.4,M,46.9,M,,0042*7E")).1 = .ok (.gga d) ∧
    d.quality.label = c! "GPS fix" := by
  obtain ⟨d, hd, -⟩ := ((C65_contents demoEnv Parser.new _ _ _ demoGga_tagged).2.1 _).mp rfl
  obtain ⟨q, hq, h⟩ := C118_quality demoEnv Parser.new _ _ _ d demoGga_tagged (congrArg Out.ok hd)
  exact ⟨d, congrArg Out.ok hd, by cases hd; rfl⟩

/-- C118: the printed fix type of every GSA report. -/
theorem C118_gsa_fix (env : Env) (p : Parser) (talker : Str) (fs : List Str) (s : Str) (d : GsaData)
    (h : IsGnss talker (c! "GSA") fs s) (hr : (parseSentence env p s).1 = .ok (.gsa d)) :
    LetterField gsaFixTexts (field fs 1) (d.mode2_3d.map GsaFixMode.label) := by
  obtain ⟨_, e, hs⟩ := ((C67_contents env p talker fs s h).2.1 _).mp hr
  cases e
  rcases hs.fix with ⟨h1, h2⟩ | ⟨a, h1, h2⟩
  · exact .inl ⟨h1, by rw [h2]; rfl⟩
  · refine .inr ⟨a.label, ?_, by rw [h2]; rfl⟩
    simp only [fixTypes, List.mem_cons, Prod.mk.injEq, List.not_mem_nil, or_false] at h1
    rcases h1 with ⟨h1, rfl⟩ | ⟨h1, rfl⟩ | ⟨h1, rfl⟩ <;> rw [h1] <;> decide

/-- A report without fix; the text lacks a letter. -/
example : ∃ d, (parseSentence demoEnv Parser.new (c! "$GPGSA,A,1")).1 = .ok (.gsa d) ∧
    d.mode2_3d.map GsaFixMode.label = some (c! "no available") := by
  have hr : (parseSentence demoEnv Parser.new (c! "$GPGSA,A,1")).1 = .ok (.gsa
    ⟨.gps, some true, some .notAvailable, [], none, none, none⟩) := by decide +kernel
  have h := C118_gsa_fix demoEnv Parser.new (c! "GP") [c! "A", c! "1"] (c! "$GPGSA,A,1") _
    (demoTagged .bare (by decide +kernel)) hr
  refine ⟨_, hr, ?_⟩
  rcases h with ⟨h, -⟩ | ⟨a, h, e⟩
  · exact absurd h (by decide)
  · simp only [gsaFixTexts, List.mem_cons, Prod.mk.injEq, List.not_mem_nil, or_false] at h
    rcases h with ⟨-, rfl⟩ | ⟨h, -⟩ | ⟨h, -⟩
    · exact e
    · exact absurd h (by decide)
    · exact absurd h (by decide)

end Nmea
