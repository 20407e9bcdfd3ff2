/-
C169: the words that `{:?}` gives for enumeration values, as functions of the transmitted codes, letters and talker ids.
-/
import Verif.Spec.DebugWords
import Verif.Props.Texts
import Verif.Props.Debug
import Verif.Props.Defaults

namespace Nmea
open Spec

/-! ### Entries of a text -/

theorem entries_infix (t : Str) (ts : List Str) (h : t ∈ ts) (stop : Str) :
    ∃ s ∈ [c! ", ", stop], (t ++ s) <:+: debugEntries ts ++ stop := by
  induction ts with
  | nil => cases h
  | cons a ts ih =>
    match ts, ih, h with
    | [], _, h =>
      rw [List.mem_singleton] at h
      subst h
      exact ⟨stop, by simp, List.infix_refl _⟩
    | b :: ts, ih, h =>
      rcases List.mem_cons.mp h with rfl | h
      · exact ⟨c! ", ", by simp, [], debugEntries (b :: ts) ++ stop, by simp [debugEntries]⟩
      · obtain ⟨s, hs, hi⟩ := ih h
        refine ⟨s, hs, hi.trans ⟨a ++ c! ", ", [], ?_⟩⟩
        simp [debugEntries]

theorem struct_entry (name : Str) (fields : List (Str × Str)) (n v : Str) (h : (n, v) ∈ fields) :
    HasEntry (debugStruct name fields) n v := by
  obtain ⟨s, hs, hi⟩ := entries_infix (n ++ c! ": " ++ v) (fields.map fun f => f.1 ++ c! ": " ++ f.2)
    (List.mem_map.mpr ⟨_, h, rfl⟩) (c! " }")
  refine ⟨s, hs, hi.trans ⟨name ++ c! " { ", [], ?_⟩⟩
  simp [debugStruct]

theorem Spec.HasEntry.up {t u n v : Str} (h : HasEntry t n v) (hi : t <:+: u) : HasEntry u n v := by
  obtain ⟨s, hs, h⟩ := h
  exact ⟨s, hs, h.trans hi⟩

theorem tuple_infix (n v : Str) : v <:+: debugTuple n v := ⟨n ++ c! "(", c! ")", by simp [debugTuple]⟩

theorem Spec.HasEntry.tuple {t n v : Str} (k : Str) (h : HasEntry t n v) : HasEntry (debugTuple k t) n v := h.up (tuple_infix k t)

theorem vec_infix {α : Type} (f : α → Str) (xs : List α) (x : α) (h : x ∈ xs) : f x <:+: debugVec f xs := by
  obtain ⟨s, -, hi⟩ := entries_infix (f x) (xs.map f) (List.mem_map.mpr ⟨_, h, rfl⟩) (c! "]")
  refine (List.infix_append' [] (f x) s).trans (hi.trans ⟨c! "[", [], ?_⟩)
  simp [debugVec]

theorem debugOption_word {α : Type} (f : α → Str) (x : Option α) : debugOption f x = optWord (x.map f) := by
  cases x <;> rfl

/-! ### Codes -/

theorem ship_word (n : Nat) (h : n < 256) : (reportedShip n).debug = shipWord n := by
  have k : ∀ n : Fin 256, (reportedShip n.val).debug = shipWord n.val := by decide +kernel
  exact k ⟨n, h⟩

theorem cargo_word (n : Nat) (h : n < 256) : (cargoOf n).debug = cargoWord n := by
  have k : ∀ n : Fin 256, (cargoOf n.val).debug = cargoWord n.val := by decide +kernel
  exact k ⟨n, h⟩

theorem fix_word (n : Nat) (h : n < 16) : (fixOf n).debug = fixWord n := by
  have k : ∀ n : Fin 16, (fixOf n.val).debug = fixWord n.val := by decide +kernel
  exact k ⟨n, h⟩

theorem optFix_word (n : Nat) (h : n < 16) : (optFix n).map PositionFixType.debug = optFixWord n := by
  unfold optFix optFixWord
  split
  · rfl
  · rw [Option.map_some, fix_word n h]

theorem station_word (talker : Str) : (talkerStation talker).debug = stationWord talker := by
  unfold talkerStation stationWord stationTable
  simp only [List.lookup]
  repeat' split
  all_goals rfl

theorem system_word (talker : Str) : (talkerSystem talker).debug = systemWord talker := by
  unfold talkerSystem systemWord systemTable
  simp only [List.lookup]
  repeat' split
  all_goals rfl

theorem faa_word (t : Str) : (faaTable.lookup t).map FaaMode.debug = faaWords.lookup t := by
  unfold faaTable faaWords
  simp only [List.lookup]
  repeat' split
  all_goals rfl

/-- C169: the ship type, cargo type and fixing device in the text of every voyage report. -/
theorem C169_voyage (l : Library) (env : Env) (p : Parser) (s talker : Str) (own : Bool) (bits : List Bool)
    (h : DeliversBits env p s talker own bits) (ht : typeOf bits = 5) (r : ParsedSentence)
    (hr : (parseSentence env p s).1 = .ok r) :
    HasEntry (r.debug l) (c! "ship_type") (shipWord (num bits 232 8)) ∧
    HasEntry (r.debug l) (c! "cargo_type") (cargoWord (num bits 232 8)) ∧
    HasEntry (r.debug l) (c! "position_fix_type") (optWord (optFixWord (num bits 270 4))) := by
  obtain ⟨d, rfl, h1, h2, h3⟩ := C60_voyage env p s talker own bits h ht r hr
  rw [← ship_word _ (num_lt bits 232 8), ← cargo_word _ (num_lt bits 232 8), ← optFix_word _ (num_lt bits 270 4), ← h1, ← h2,
    ← h3, ← debugOption_word]
  exact ⟨.tuple _ (struct_entry _ _ _ _ (by simp)), .tuple _ (struct_entry _ _ _ _ (by simp)),
    .tuple _ (struct_entry _ _ _ _ (by simp))⟩

/-- A voyage report with the code 130 and no fixing device. -/
example (l : Library) : ∃ r, (parseSentence demoEnv Parser.new
      (c! "!AIVDM,1,1,,A,539p4OT00000@7W3K@08ThiLE8@E:222222222220O0000000000000000000000000000,0")).1 = .ok r ∧
    HasEntry (r.debug l) (c! "ship_type") (c! "NotAvailable") := by
  obtain ⟨r, hr⟩ := demoOk (x := (parseSentence demoEnv Parser.new
    (c! "!AIVDM,1,1,,A,539p4OT00000@7W3K@08ThiLE8@E:222222222220O0000000000000000000000000000,0")).1) (by decide +kernel)
  obtain ⟨h1, -, -⟩ := C169_voyage l _ _ _ _ _ _ demoType5 (by decide +kernel) r hr
  rw [show num (payloadBits (c! "539p4OT00000@7W3K@08ThiLE8@E:222222222220O0000000000000000000000000000")) 232 8 = 130 by
    decide +kernel] at h1
  exact ⟨r, hr, h1⟩

/-- C169: the ship and cargo type in the text of a class B report, part A first. -/
theorem C169_A_then_B (l : Library) (e1 e2 : Env) (p : Parser) (s1 s2 : Str) (own1 own2 : Bool) (a b : List Bool)
    (h : List (Env × Str))
    (h1 : Completes24 e1 p s1 own1 a) (ha : partOf a = 0)
    (h2 : Completes24 e2 (run (parseSentence e1 p s1).2 h) s2 own2 b) (hb : partOf b = 1)
    (hm : mmsiOf a = mmsiOf b) (hno : pendingStatic p (mmsiOf b) = none)
    (hh : Avoids (fun q x => CompletesStatic q x (mmsiOf b)) (parseSentence e1 p s1).2 h) :
    ∃ r, (parseSentence e2 (run (parseSentence e1 p s1).2 h) s2).1 = .ok r ∧
      HasEntry (r.debug l) (c! "ais_type") (c! "ClassB") ∧
      HasEntry (r.debug l) (c! "ship_type") (shipWord (num b 40 8)) ∧
      HasEntry (r.debug l) (c! "cargo_type") (cargoWord (num b 40 8)) := by
  refine ⟨_, (C25_A_then_B e1 e2 p s1 s2 own1 own2 a b h h1 ha h2 hb hm hno hh).2, .tuple _ (struct_entry _ _ _ _ ?_),
    .tuple _ (struct_entry _ _ _ _ ?_), .tuple _ (struct_entry _ _ _ _ ?_)⟩
  · simp [AisClass.debug, fullStatic, partBData, blankStatic]
  · rw [← ship_word _ (num_lt b 40 8)]
    simp [fullStatic, partBData]
  · rw [← cargo_word _ (num_lt b 40 8)]
    simp [fullStatic, partBData]

/-- The two parts with a UTC inquiry between them. -/
example (l : Library) : ∃ r, (parseSentence demoEnv (run (parseSentence demoEnv Parser.new
      (c! "!AIVDM,1,1,,A,H42O55i18tMET00000000000000,2")).2 [(demoEnv, c! "!ABVDM,1,1,,B,:5MlU41GMK6@,0")])
      (c! "!AIVDO,1,1,,A,H42O55lt0000000D3nink000?0500,0")).1 = .ok r ∧
    HasEntry (r.debug l) (c! "ship_type") (shipWord (num (payloadBits demoB) 40 8)) := by
  obtain ⟨r, h, -, h1, -⟩ := C169_A_then_B l demoEnv demoEnv Parser.new _ _ _ _ _ _
    [(demoEnv, c! "!ABVDM,1,1,,B,:5MlU41GMK6@,0")] (demoCompletesA _) demoPartA (demoCompletesB _) demoPartB
    (demoMmsiA.trans demoMmsiB.symm) rfl ⟨demoNotStatic _ _, trivial⟩
  exact ⟨r, h, h1⟩

/-- C169 with part B first. -/
theorem C169_B_then_A (l : Library) (e1 e2 : Env) (p : Parser) (s1 s2 : Str) (own1 own2 : Bool) (a b : List Bool)
    (h : List (Env × Str))
    (h1 : Completes24 e1 p s1 own1 b) (hb : partOf b = 1)
    (h2 : Completes24 e2 (run (parseSentence e1 p s1).2 h) s2 own2 a) (ha : partOf a = 0)
    (hm : mmsiOf a = mmsiOf b) (hno : pendingStatic p (mmsiOf b) = none)
    (hh : Avoids (fun q x => CompletesStatic q x (mmsiOf b)) (parseSentence e1 p s1).2 h) :
    ∃ r, (parseSentence e2 (run (parseSentence e1 p s1).2 h) s2).1 = .ok r ∧
      HasEntry (r.debug l) (c! "ais_type") (c! "ClassB") ∧
      HasEntry (r.debug l) (c! "ship_type") (shipWord (num b 40 8)) ∧
      HasEntry (r.debug l) (c! "cargo_type") (cargoWord (num b 40 8)) := by
  refine ⟨_, (C25_B_then_A e1 e2 p s1 s2 own1 own2 a b h h1 hb h2 ha hm hno hh).2, .tuple _ (struct_entry _ _ _ _ ?_),
    .tuple _ (struct_entry _ _ _ _ ?_), .tuple _ (struct_entry _ _ _ _ ?_)⟩
  · simp [AisClass.debug, fullStatic, partBData, blankStatic]
  · rw [← ship_word _ (num_lt b 40 8)]
    simp [fullStatic, partBData]
  · rw [← cargo_word _ (num_lt b 40 8)]
    simp [fullStatic, partBData]

/-- The two parts with a UTC inquiry between them. -/
example (l : Library) : ∃ r, (parseSentence demoEnv (run (parseSentence demoEnv Parser.new
      (c! "!AIVDO,1,1,,A,H42O55lt0000000D3nink000?0500,0")).2 [(demoEnv, c! "!ABVDM,1,1,,B,:5MlU41GMK6@,0")])
      (c! "!AIVDM,1,1,,A,H42O55i18tMET00000000000000,2")).1 = .ok r ∧
    HasEntry (r.debug l) (c! "ship_type") (shipWord (num (payloadBits demoB) 40 8)) := by
  obtain ⟨r, h, -, h1, -⟩ := C169_B_then_A l demoEnv demoEnv Parser.new _ _ _ _ _ _
    [(demoEnv, c! "!ABVDM,1,1,,B,:5MlU41GMK6@,0")] (demoCompletesB _) demoPartB (demoCompletesA _) demoPartA
    (demoMmsiA.trans demoMmsiB.symm) rfl ⟨demoNotStatic _ _, trivial⟩
  exact ⟨r, h, h1⟩

/-- C169: the fixing device in the text of every base station report. -/
theorem C169_base_station (l : Library) (env : Env) (p : Parser) (s talker : Str) (own : Bool) (bits : List Bool)
    (h : DeliversBits env p s talker own bits) (ht : typeOf bits = 4) (r : ParsedSentence)
    (hr : (parseSentence env p s).1 = .ok r) :
    HasEntry (r.debug l) (c! "position_fix_type") (optWord (optFixWord (num bits 134 4))) := by
  obtain ⟨d, rfl, h1⟩ := C59_base_station env p s talker own bits h ht r hr
  rw [← optFix_word _ (num_lt bits 134 4), ← h1, ← debugOption_word]
  exact .tuple _ (struct_entry _ _ _ _ (by simp))

/-- A base station with a surveyed position. -/
example (l : Library) : ∃ r, (parseSentence demoEnv Parser.new (c! "!AIVDM,1,1,,B,403OviQuMGCqWrRO9>E6fE700@GO,0")).1 = .ok r ∧
    HasEntry (r.debug l) (c! "position_fix_type") (c! "Some(Surveyed)") := by
  obtain ⟨r, hr⟩ := demoOk (x := (parseSentence demoEnv Parser.new
    (c! "!AIVDM,1,1,,B,403OviQuMGCqWrRO9>E6fE700@GO,0")).1) (by decide +kernel)
  have h1 := C169_base_station l _ _ _ _ _ _ demoType4 (by decide +kernel) r hr
  rw [show num (payloadBits (c! "403OviQuMGCqWrRO9>E6fE700@GO")) 134 4 = 7 by decide +kernel] at h1
  exact ⟨r, hr, h1⟩

/-- C169: the aid type and fixing device in the text of every aid-to-navigation report. -/
theorem C169_aid (l : Library) (env : Env) (p : Parser) (s talker : Str) (own : Bool) (bits : List Bool)
    (h : DeliversBits env p s talker own bits) (ht : typeOf bits = 21) :
    ∃ r, (parseSentence env p s).1 = .ok r ∧
      (∃ w, aidWords[num bits 38 5]? = some w ∧ HasEntry (r.debug l) (c! "aid_type") w) ∧
      HasEntry (r.debug l) (c! "position_fix_type") (optWord (some (fixWord (num bits 249 4)))) := by
  obtain ⟨d, hd, h1, h2⟩ := C59_aid env p s talker own bits h ht
  have k : ∀ n : Fin 32, (navAidTable[n.val]?).map NavAidType.debug = aidWords[n.val]? := by decide +kernel
  refine ⟨_, hd, ⟨d.aidType.debug, ?_, .tuple _ (struct_entry _ _ _ _ (by simp))⟩, ?_⟩
  · rw [← k ⟨_, num_lt bits 38 5⟩, ← h2, Option.map_some]
  · rw [← fix_word _ (num_lt bits 249 4), ← Option.map_some, ← h1, ← debugOption_word]
    exact .tuple _ (struct_entry _ _ _ _ (by simp))

/-- An aid to navigation of type 19; printed with `to_string` it could not be told from type 30. -/
example (l : Library) : ∃ r, (parseSentence demoEnv Parser.new
      (c! "!AIVDM,1,1,,B,E>kb9O9aS@7PUh10dh19@;0Tah2cWrfP:l?M`00003vP100,0")).1 = .ok r ∧
    HasEntry (r.debug l) (c! "aid_type") (c! "BeaconSpecialMark") := by
  obtain ⟨r, h, ⟨w, h1, h2⟩, -⟩ := C169_aid l _ _ _ _ _ _ demoType21 (by decide +kernel)
  rw [show num (payloadBits (c! "E>kb9O9aS@7PUh10dh19@;0Tah2cWrfP:l?M`00003vP100")) 38 5 = 19 by decide +kernel] at h1
  cases h1
  exact ⟨r, h, h2⟩

/-- C169: the class, navigation status and state of the positioning system in the text of every class A position report. -/
theorem C169_class_A (l : Library) (env : Env) (p : Parser) (s talker : Str) (own : Bool) (bits : List Bool)
    (h : DeliversBits env p s talker own bits) (ht : typeOf bits ∈ [1, 2, 3]) :
    ∃ r, (parseSentence env p s).1 = .ok r ∧ HasEntry (r.debug l) (c! "ais_type") (c! "ClassA") ∧
      (∃ w, statusWords[num bits 38 4]? = some w ∧ HasEntry (r.debug l) (c! "nav_status") w) ∧
      HasEntry (r.debug l) (c! "positioning_system_meta") (optWord (positioningWord (num bits 137 6))) := by
  obtain ⟨d, hd, h1, h2⟩ := C59_class_A env p s talker own bits h ht
  have k1 : ∀ n : Fin 16, (navStatusTable[n.val]?).map NavigationStatus.debug = statusWords[n.val]? := by decide +kernel
  have k2 : ∀ n : Fin 64, (metaOf n.val).map PositioningSystemMeta.debug = positioningWord n.val := by decide +kernel
  have hc : d.aisType = .classA := by
    obtain ⟨q, -, he⟩ := eval_bits env p s talker own bits h
    have hd' := hd
    rw [he, dispatch_123 (by rw [typeOf_eq]; exact ht)] at hd'
    cases hd'
    rfl
  refine ⟨_, hd, .tuple _ (struct_entry _ _ _ _ (by simp [hc, AisClass.debug])),
    ⟨d.navStatus.debug, ?_, .tuple _ (struct_entry _ _ _ _ (by simp))⟩, ?_⟩
  · rw [← k1 ⟨_, num_lt bits 38 4⟩, ← h1, Option.map_some]
  · rw [← k2 ⟨_, num_lt bits 137 6⟩, ← h2, ← debugOption_word]
    exact .tuple _ (struct_entry _ _ _ _ (by simp))

/-- The class A report, at second 33. -/
example (l : Library) : ∃ r, (parseSentence demoEnv Parser.new (c! "!AIVDM,1,1,,A,15RTgt0PAso;90TKcjM8h6g208CQ,0*4A")).1 = .ok r ∧
    HasEntry (r.debug l) (c! "ais_type") (c! "ClassA") ∧
    HasEntry (r.debug l) (c! "positioning_system_meta") (c! "Some(Operative)") := by
  obtain ⟨r, h, h1, -, h2⟩ := C169_class_A l _ _ _ _ _ _ demoType1 (by decide +kernel)
  rw [show num (payloadBits (c! "15RTgt0PAso;90TKcjM8h6g208CQ")) 137 6 = 33 by decide +kernel] at h2
  exact ⟨r, h, h1, h2⟩

/-- C169: the navigation status in the text of every long-range report. -/
theorem C169_long_range (l : Library) (env : Env) (p : Parser) (s talker : Str) (own : Bool) (bits : List Bool)
    (h : DeliversBits env p s talker own bits) (ht : typeOf bits = 27) :
    ∃ r, (parseSentence env p s).1 = .ok r ∧
      ∃ w, statusWords[num bits 40 4]? = some w ∧ HasEntry (r.debug l) (c! "nav_status") w := by
  obtain ⟨d, hd, -, h1, -⟩ := C59_other_status env p s talker own bits h (.inl ht)
  have k1 : ∀ n : Fin 16, (navStatusTable[n.val]?).map NavigationStatus.debug = statusWords[n.val]? := by decide +kernel
  refine ⟨_, hd, d.navStatus.debug, ?_, .tuple _ (struct_entry _ _ _ _ (by simp))⟩
  rw [← k1 ⟨_, num_lt bits 40 4⟩, ← h1 ht, Option.map_some]

/-- The long-range report: not under command. -/
example (l : Library) : ∃ r, (parseSentence demoEnv Parser.new (c! "!AIVDM,1,1,,B,KC5E2b@U19PFdLbMuc5=ROv62<7m,0*16")).1 = .ok r ∧
    HasEntry (r.debug l) (c! "nav_status") (c! "NotUnderCommand") := by
  obtain ⟨r, h, w, h1, h2⟩ := C169_long_range l _ _ _ _ _ _ demoType27 (by decide +kernel)
  rw [show num (payloadBits (c! "KC5E2b@U19PFdLbMuc5=ROv62<7m")) 40 4 = 2 by decide +kernel] at h1
  cases h1
  exact ⟨r, h, h2⟩

/-- C169: the station in the text of every AIS report that has one. -/
theorem C169_station (l : Library) (env : Env) (p p' : Parser) (talker : Str) (own : Bool) (fs : List Str) (s : Str)
    (r : ParsedSentence) (h : IsAis talker own fs s) (hr : parseSentence env p s = (.ok r, p'))
    (hx : (stationIn r).isSome) : HasEntry (r.debug l) (c! "station") (stationWord talker) := by
  obtain ⟨x, hx⟩ := Option.isSome_iff_exists.mp hx
  rw [← station_word, ← (C08_station_and_own env p p' talker own fs s r h hr).1 x hx]
  cases r <;> cases hx <;> exact .tuple _ (struct_entry _ _ _ _ (by simp))

/-- A report received by a limited base station. -/
example (l : Library) : HasEntry ((ParsedSentence.utcDateInquiry ⟨true, .limitedBaseStation, 366814480, 366832740⟩).debug l)
    (c! "station") (c! "LimitedBaseStation") :=
  C169_station l demoEnv Parser.new Parser.new (c! "AS") true [c! "1", c! "1", [], c! "B", c! ":5MlU41GMK6@", c! "0"]
    (c! "!ASVDO,1,1,,B,:5MlU41GMK6@,0") (.utcDateInquiry ⟨true, .limitedBaseStation, 366814480, 366832740⟩)
    (demoTagged .bare (by decide +kernel)) (by decide +kernel) rfl

/-- C169: the navigation system in the text of every GNSS report and of every satellite listed. -/
theorem C169_system (l : Library) (env : Env) (p p' : Parser) (talker kind : Str) (fs : List Str) (s : Str)
    (r : ParsedSentence) (hk : byteLen kind = 3) (hc : ',' ∉ kind) (h : IsGnss talker kind fs s)
    (hr : parseSentence env p s = (.ok r, p')) (hx : sources r ≠ []) :
    HasEntry (r.debug l) (c! "source") (systemWord talker) := by
  obtain ⟨x, hx⟩ := List.exists_mem_of_ne_nil _ hx
  rw [← system_word, ← C07_source_is_talker env p p' talker kind fs s r hk hc h hr x hx]
  cases r with
  | gsv v =>
    obtain ⟨d, hd, rfl⟩ := List.mem_map.mp hx
    exact .tuple _ (HasEntry.up (struct_entry (c! "GsvData") _ _ _ (by simp)) (vec_infix (GsvData.debug l) v d hd))
  | _ => simp only [sources, List.mem_singleton, List.not_mem_nil] at hx <;> subst hx <;>
      exact .tuple _ (struct_entry _ _ _ _ (by simp))

/-- A Galileo speed sentence. -/
example (l : Library) : HasEntry ((ParsedSentence.vtg ⟨.galileo, F64.parse (c! "054.7"), none, none, none, none⟩).debug l)
    (c! "source") (c! "Galileo") :=
  C169_system l demoEnv Parser.new Parser.new (c! "GA") (c! "VTG") [c! "054.7", c! "T"] (c! "$GAVTG,054.7,T*3F")
    (.vtg ⟨.galileo, F64.parse (c! "054.7"), none, none, none, none⟩) (by decide) (by decide)
    (demoTagged .full (by decide +kernel)) (by decide +kernel) (by decide)

/-- C169: the quality in the text of every GGA report; an empty field counts as 0. -/
theorem C169_quality (l : Library) (env : Env) (p : Parser) (talker : Str) (fs : List Str) (s : Str) (d : GgaData)
    (h : IsGnss talker (c! "GGA") fs s) (hr : (parseSentence env p s).1 = .ok (.gga d)) :
    ∃ q, IntField 255 (field fs 5) q ∧ HasEntry ((ParsedSentence.gga d).debug l) (c! "quality") (qualityWord (q.getD 0)) := by
  obtain ⟨_, e, hs⟩ := ((C65_contents env p talker fs s h).2.1 _).mp hr
  cases e
  obtain ⟨q, hq, e⟩ := hs.quality
  refine ⟨q, hq, ?_⟩
  have hw : d.quality.debug = qualityWord (q.getD 0) := by
    rw [e]
    by_cases hn : q.getD 0 < 9
    · have k : ∀ n : Fin 9, (qualities.getD n.val .invalid).debug = qualityWord n.val := by decide +kernel
      exact k ⟨_, hn⟩
    · rw [qualityWord, List.getD_eq_default _ _ (show 9 ≤ _ by omega), List.getD_eq_default _ _ (show 9 ≤ _ by omega)]
      rfl
  rw [← hw]
  exact .tuple _ (struct_entry _ _ _ _ (by simp))

/-- The GGA sentence of the examples has quality 1. -/
example (l : Library) : ∃ d, (parseSentence demoEnv Parser.new
      (c! "$GPGGA,123519,4807.038,N,01131.000,W,1,08,0.9,-545.4,M,46.9,M,,0042*7E")).1 = .ok (.gga d) ∧
    ∃ q, IntField 255 (c! "1") q ∧ HasEntry ((ParsedSentence.gga d).debug l) (c! "quality") (qualityWord (q.getD 0)) := by
  obtain ⟨d, hd, -⟩ := ((C65_contents demoEnv Parser.new _ _ _ demoGga_tagged).2.1 _).mp rfl
  exact ⟨d, congrArg Out.ok hd, C169_quality l demoEnv Parser.new _ _ _ d demoGga_tagged (congrArg Out.ok hd)⟩

/-- C169: the fix type in the text of every GSA report. -/
theorem C169_gsa_fix (l : Library) (env : Env) (p : Parser) (talker : Str) (fs : List Str) (s : Str) (d : GsaData)
    (h : IsGnss talker (c! "GSA") fs s) (hr : (parseSentence env p s).1 = .ok (.gsa d)) :
    ∃ w, LetterField gsaFixWords (field fs 1) w ∧ HasEntry ((ParsedSentence.gsa d).debug l) (c! "mode2_3d") (optWord w) := by
  obtain ⟨_, e, hs⟩ := ((C67_contents env p talker fs s h).2.1 _).mp hr
  cases e
  refine ⟨d.mode2_3d.map GsaFixMode.debug, ?_, ?_⟩
  · rcases hs.fix with ⟨h1, h2⟩ | ⟨a, h1, h2⟩
    · exact .inl ⟨h1, by rw [h2]; rfl⟩
    · refine .inr ⟨a.debug, ?_, by rw [h2]; rfl⟩
      simp only [fixTypes, List.mem_cons, Prod.mk.injEq, List.not_mem_nil, or_false] at h1
      rcases h1 with ⟨h1, rfl⟩ | ⟨h1, rfl⟩ | ⟨h1, rfl⟩ <;> rw [h1] <;> decide
  · rw [← debugOption_word]
    exact .tuple _ (struct_entry _ _ _ _ (by simp))

/-- A report without fix. -/
example (l : Library) : ∃ w, LetterField gsaFixWords (c! "1") w ∧
    HasEntry ((ParsedSentence.gsa ⟨.gps, some true, some .notAvailable, [], none, none, none⟩).debug l) (c! "mode2_3d")
      (optWord w) :=
  C169_gsa_fix l demoEnv Parser.new (c! "GP") [c! "A", c! "1"] (c! "$GPGSA,A,1") _
    (demoTagged .bare (by decide +kernel)) (by decide +kernel)

/-- C169: the FAA mode in the text of every VTG report. -/
theorem C169_vtg_mode (l : Library) (env : Env) (p : Parser) (talker : Str) (fs : List Str) (s : Str) (d : VtgData)
    (h : IsGnss talker (c! "VTG") fs s) (hr : (parseSentence env p s).1 = .ok (.vtg d)) :
    HasEntry ((ParsedSentence.vtg d).debug l) (c! "faa_mode") (optWord (faaWords.lookup (field fs 8))) := by
  have hf : d.faaMode = faaTable.lookup (field fs 8) := by
    obtain ⟨d', h1, h2⟩ := C68_contents env p talker fs s h
    rw [h1] at hr
    cases hr
    exact ((h2 _).mpr rfl).faa
  rw [← faa_word, ← hf, ← debugOption_word]
  exact .tuple _ (struct_entry _ _ _ _ (by simp))

/-- A sentence in differential mode. -/
example (l : Library) : ∃ d, (parseSentence demoEnv Parser.new (c! "$GPVTG,,,,,,,,,D")).1 = .ok (.vtg d) ∧
    HasEntry ((ParsedSentence.vtg d).debug l) (c! "faa_mode") (c! "Some(Differential)") := by
  have ht : IsGnss (c! "GP") (c! "VTG") [[], [], [], [], [], [], [], [], c! "D"] (c! "$GPVTG,,,,,,,,,D") :=
    demoTagged .bare (by decide +kernel)
  obtain ⟨d, h, -⟩ := C68_contents demoEnv Parser.new _ _ _ ht
  have h1 : (parseSentence demoEnv Parser.new (c! "$GPVTG,,,,,,,,,D")).1 = .ok (.vtg d) := by rw [h]
  exact ⟨d, h1, C169_vtg_mode l demoEnv Parser.new _ _ _ d ht h1⟩

/-- C169: the FAA mode in the text of every GLL report. -/
theorem C169_gll_mode (l : Library) (env : Env) (p : Parser) (talker : Str) (fs : List Str) (s : Str) (d : GllData)
    (h : IsGnss talker (c! "GLL") fs s) (hr : (parseSentence env p s).1 = .ok (.gll d)) :
    HasEntry ((ParsedSentence.gll d).debug l) (c! "faa_mode") (optWord (faaWords.lookup (field fs 6))) := by
  have hf : d.faaMode = faaTable.lookup (field fs 6) := by
    obtain ⟨_, e, hs⟩ := ((C69_contents env p talker fs s h).2.1 _).mp hr
    cases e
    exact hs.faa
  rw [← faa_word, ← hf, ← debugOption_word]
  exact .tuple _ (struct_entry _ _ _ _ (by simp))

/-- An estimated position at 12:35:19. -/
example (l : Library) : ∃ d, (parseSentence demoEnv Parser.new (c! "$GPGLL,,,,,123519,A,E")).1 = .ok (.gll d) ∧
    HasEntry ((ParsedSentence.gll d).debug l) (c! "faa_mode") (c! "Some(Estimated)") := by
  have ht : IsGnss (c! "GP") (c! "GLL") [[], [], [], [], c! "123519", c! "A", c! "E"] (c! "$GPGLL,,,,,123519,A,E") :=
    demoTagged .bare (by decide +kernel)
  have h := C169_gll_mode l demoEnv Parser.new _ _ _ _ ht rfl
  exact ⟨_, rfl, h⟩

set_option maxRecDepth 20000 in
/-- C123: every value of a default report, as `{:?}` shows them: no flag is set, numbers are 0, texts are empty and everything
that may be absent is absent. -/
theorem C123_values (l : Library) :
    VesselDynamicData.default.debug l =
      c! "VesselDynamicData { own_vessel: false, station: Other, ais_type: Unknown, mmsi: 0, nav_status: NotDefined, " ++
      c! "rot: None, rot_direction: None, sog_knots: None, high_position_accuracy: false, latitude: None, " ++
      c! "longitude: None, cog: None, heading_true: None, timestamp_seconds: 0, positioning_system_meta: None, " ++
      c! "current_gnss_position: None, special_manoeuvre: None, raim_flag: false, class_b_unit_flag: None, " ++
      c! "class_b_display: None, class_b_dsc: None, class_b_band_flag: None, class_b_msg22_flag: None, " ++
      c! "class_b_mode_flag: None, class_b_css_flag: None, radio_status: None }" ∧
    VesselStaticData.default.debug l =
      c! "VesselStaticData { own_vessel: false, ais_type: Unknown, mmsi: 0, ais_version_indicator: 0, " ++
      c! "imo_number: None, call_sign: None, name: None, ship_type: NotAvailable, cargo_type: Undefined, " ++
      c! "equipment_vendor_id: None, equipment_model: None, equipment_serial_number: None, dimension_to_bow: None, " ++
      c! "dimension_to_stern: None, dimension_to_port: None, dimension_to_starboard: None, position_fix_type: None, " ++
      c! "eta: None, draught10: None, destination: None, mothership_mmsi: None }" ∧
    BaseStationReport.default.debug l =
      c! "BaseStationReport { own_vessel: false, station: Other, mmsi: 0, timestamp: None, " ++
      c! "high_position_accuracy: false, latitude: None, longitude: None, position_fix_type: None, raim_flag: false, " ++
      c! "radio_status: 0 }" ∧
    BinaryAddressedMessage.default.debug l =
      c! "BinaryAddressedMessage { own_vessel: false, station: Other, mmsi: 0, sequence_number: 0, " ++
      c! "destination_mmsi: 0, retransmit_flag: false, dac: 0, fid: 0 }" ∧
    StandardSarAircraftPositionReport.default.debug l =
      c! "StandardSarAircraftPositionReport { own_vessel: false, station: Other, mmsi: 0, altitude: None, " ++
      c! "sog_knots: None, high_position_accuracy: false, latitude: None, longitude: None, cog: None, " ++
      c! "timestamp_seconds: 0, regional: 0, dte: false, assigned: false, raim_flag: false, radio_status: 0 }" ∧
    UtcDateInquiry.default.debug l =
      c! "UtcDateInquiry { own_vessel: false, station: Other, source_mmsi: 0, destination_mmsi: 0 }" ∧
    AidToNavigationReport.default.debug l =
      c! "AidToNavigationReport { own_vessel: false, station: Other, mmsi: 0, aid_type: NotSpecified, name: \"\", " ++
      c! "high_position_accuracy: false, latitude: None, longitude: None, dimension_to_bow: None, " ++
      c! "dimension_to_stern: None, dimension_to_port: None, dimension_to_starboard: None, position_fix_type: None, " ++
      c! "timestamp_seconds: 0, off_position_indicator: false, regional: 0, raim_flag: false, " ++
      c! "virtual_aid_flag: false, assigned_mode_flag: false }" := by
  refine ⟨rfl, rfl, rfl, rfl, rfl, rfl, rfl⟩

end Nmea
