/-
C172: searching logs of `{:#?}` for the line of a field finds exactly the reports with that value; no error can have such a line.
-/
import Verif.Lemmas.Lines
import Verif.Props.Search

namespace Nmea
open Spec

/-! ### Lines of answers -/

theorem twelve (n w : Str) : fieldLine n w = c! "    " ++ (c! "    " ++ (c! "    " ++ (n ++ c! ": " ++ w ++ c! ","))) := by
  simp [fieldLine]

theorem tuple_step {k : Str} (v : DebugCalls) (w y : Str) (hk : '\n' ∉ k) (hk' : (k ++ c! "(").head? ≠ some ' ') (hw : '\n' ∉ w) :
    c! "    " ++ y ∈ cutLines ((DebugCalls.tuple k v).pretty ++ w) ↔ y ∈ cutLines (v.pretty ++ c! ",") := by
  have e := tuple_block [] k v w
  rw [List.nil_append, List.nil_append] at e
  rw [e, block_step (by simp only [List.mem_append, not_or]; exact ⟨hk, by decide⟩)
    (by simp only [List.mem_append, not_or]; exact ⟨by decide, hw⟩) hk' (by simp)]
  simp

/-- The lines of a structure in an answer. -/
theorem struct_step {k k' : Str} {fs : List (Str × DebugCalls)} (hk : '\n' ∉ k) (hk1 : (k ++ c! "(").head? ≠ some ' ')
    (hk' : '\n' ∉ k') (hk1' : (k' ++ c! " {").head? ≠ some ' ') (z : Str) :
    c! "    " ++ (c! "    " ++ (c! "    " ++ z)) ∈ cutLines (DebugCalls.tuple (c! "Ok") (.tuple k (.struct k' fs))).pretty ↔
      ∃ f ∈ fs, z ∈ cutLines (f.1 ++ c! ": " ++ f.2.pretty ++ c! ",") := by
  have h0 := tuple_step (k := c! "Ok") (.tuple k (.struct k' fs)) [] (c! "    " ++ (c! "    " ++ z)) (by decide) (by decide) (by decide)
  rw [List.append_nil] at h0
  have e := struct_block [] k' fs (c! ",")
  rw [List.nil_append, List.nil_append] at e
  rw [h0, tuple_step _ _ _ hk hk1 (by decide), e,
    block_step (by simp only [List.mem_append, not_or]; exact ⟨hk', by decide⟩) (by decide) hk1' (by simp)]
  simp

theorem ok_step (l : Library) (r : ParsedSentence) {z : Str} (hz : ∀ c : Char, c.isLower = false → z.head? ≠ some c) :
    c! "    " ++ (c! "    " ++ (c! "    " ++ z)) ∈ cutLines (DebugCalls.tuple (c! "Ok") (r.calls l)).pretty ↔
      ∃ f ∈ (r.calls l).rows, z ∈ cutLines (f.1 ++ c! ": " ++ f.2.pretty ++ c! ",") := by
  cases r with
  | incomplete =>
    refine ⟨fun hm => ?_, fun ⟨f, hf, _⟩ => nomatch hf⟩
    have h0 := tuple_step (k := c! "Ok") (.text (c! "Incomplete")) [] (c! "    " ++ (c! "    " ++ z)) (by decide) (by decide) (by decide)
    rw [List.append_nil] at h0
    have h1 := h0.mp hm
    rw [cutLines_line (by decide), List.mem_singleton] at h1
    exact absurd (List.cons.inj h1).1 (by decide)
  | gsv v =>
    refine ⟨fun hm => ?_, fun ⟨f, hf, _⟩ => nomatch hf⟩
    have h0 := tuple_step (k := c! "Ok") ((ParsedSentence.gsv v).calls l) [] (c! "    " ++ (c! "    " ++ z)) (by decide) (by decide) (by decide)
    rw [List.append_nil] at h0
    have h1 := h0.mp hm
    have h2 := (tuple_step (k := c! "Gsv") _ _ _ (by decide) (by decide) (by decide)).mp h1
    match v, h2 with
    | [], h2 =>
      rw [List.map_nil, DebugCalls.pretty, cutLines_line (by decide), List.mem_singleton] at h2
      exact absurd (List.cons.inj h2).1 (by decide)
    | d :: v, h2 =>
      have e := list_block [] (d.calls l) (v.map (GsvData.calls l)) (c! ",")
      rw [List.nil_append, List.nil_append] at e
      rw [List.map_cons, e, block_step (by decide) (by decide) (by decide) (by decide)] at h2
      obtain ⟨p, hp, h3⟩ := h2
      rw [← List.map_cons, List.map_map] at hp
      obtain ⟨x, -, rfl⟩ := List.mem_map.mp hp
      rw [Function.comp_apply, GsvData.calls] at h3
      have e' := struct_block [] (c! "GsvData")
        [(c! "source", .text (NavigationSystem.debug x.source)), (c! "prn_number", .text (natStr x.prnNumber)),
         (c! "elevation", optionCalls natStr x.elevation), (c! "azimuth", optionCalls natStr x.azimuth),
         (c! "snr", optionCalls natStr x.snr)] (c! ",")
      rw [List.nil_append, List.nil_append] at e'
      rw [e'] at h3
      rcases block_outer (by decide) (by decide) (hz ' ' (by decide)) h3 with h4 | h4
      · exact (hz 'G' (by decide) (by rw [h4]; rfl)).elim
      · exact (hz '}' (by decide) (by rw [h4]; rfl)).elim
  | vesselDynamicData d => exact struct_step (by decide) (by decide) (by decide) (by decide) z
  | vesselStaticData d => exact struct_step (by decide) (by decide) (by decide) (by decide) z
  | baseStationReport d => exact struct_step (by decide) (by decide) (by decide) (by decide) z
  | binaryAddressedMessage d => exact struct_step (by decide) (by decide) (by decide) (by decide) z
  | standardSarAircraftPositionReport d => exact struct_step (by decide) (by decide) (by decide) (by decide) z
  | utcDateInquiry d => exact struct_step (by decide) (by decide) (by decide) (by decide) z
  | aidToNavigationReport d => exact struct_step (by decide) (by decide) (by decide) (by decide) z
  | gga d => exact struct_step (by decide) (by decide) (by decide) (by decide) z
  | rmc d => exact struct_step (by decide) (by decide) (by decide) (by decide) z
  | gsa d => exact struct_step (by decide) (by decide) (by decide) (by decide) z
  | vtg d => exact struct_step (by decide) (by decide) (by decide) (by decide) z
  | gll d => exact struct_step (by decide) (by decide) (by decide) (by decide) z

theorem rows_plain {l : Library} (hl : LibraryOk l) {r : ParsedSentence} (h : r.Sound) : ∀ f ∈ (r.calls l).rows, PlainRow f := by
  cases r with
  | incomplete => exact fun _ h => nomatch h
  | gsv v => exact fun _ h => nomatch h
  | vesselDynamicData d => exact rows_VesselDynamicData hl d h
  | vesselStaticData d => exact rows_VesselStaticData hl d h
  | baseStationReport d => exact rows_BaseStationReport hl d h
  | binaryAddressedMessage d => exact rows_BinaryAddressedMessage hl d
  | standardSarAircraftPositionReport d => exact rows_StandardSarAircraftPositionReport hl d h
  | utcDateInquiry d => exact rows_UtcDateInquiry hl d
  | aidToNavigationReport d => exact rows_AidToNavigationReport hl d h
  | gga d => exact rows_GgaData hl d h
  | rmc d => exact rows_RmcData hl d h
  | gsa d => exact rows_GsaData hl d h
  | vtg d => exact rows_VtgData hl d h
  | gll d => exact rows_GllData hl d h

theorem ok_line {l : Library} (hl : LibraryOk l) {r : ParsedSentence} (h : r.Sound) {n w : Str} (hn : FieldName n) (hw : '\n' ∉ w) :
    fieldLine n w ∈ cutLines (DebugCalls.tuple (c! "Ok") (r.calls l)).pretty ↔
      ∃ f ∈ (r.calls l).rows, f.1 = n ∧ (f.2 = .text w ∨ f.2 = .list [] ∧ w = c! "[]") := by
  rw [twelve, ok_step l r fun c hc => by simpa using name_ne hn (c! ": " ++ w ++ c! ",") hc]
  refine exists_congr fun f => and_congr_right fun hf => ?_
  exact field_line hn (rows_plain hl h f hf).1 (rows_plain hl h f hf).2 hw

theorem err_lines {l : Library} (hl : LibraryOk l) {k q y : Str} (hk : '\n' ∉ k) (hk' : (k ++ c! "(").head? ≠ some ' ')
    (h : c! "    " ++ (c! "    " ++ y) ∈ cutLines (DebugCalls.tuple (c! "Err") (.tuple k (.text (l.debugStr q)))).pretty) :
    y = l.debugStr q ++ c! "," := by
  have h0 := tuple_step (k := c! "Err") (.tuple k (.text (l.debugStr q))) [] (c! "    " ++ y) (by decide) (by decide) (by decide)
  rw [List.append_nil] at h0
  have h1 := (tuple_step _ _ _ hk hk' (by decide)).mp (h0.mp h)
  rw [DebugCalls.pretty, cutLines_line (by
    simp only [List.mem_append, not_or]
    exact ⟨(joins_str hl q).2.1, by decide⟩), List.mem_singleton] at h1
  exact h1

theorem err_line {l : Library} (hl : LibraryOk l) (e : ParseError) {n w : Str} :
    fieldLine n w ∉ cutLines (DebugCalls.tuple (c! "Err") (e.calls l)).pretty := by
  rw [twelve]
  intro h
  cases e with
  | unsupportedSentenceType q => exact absurd (List.cons.inj (err_lines hl (by decide) (by decide) h)).1 (by decide)
  | corruptedSentence q => exact absurd (List.cons.inj (err_lines hl (by decide) (by decide) h)).1 (by decide)
  | invalidSentence q => exact absurd (List.cons.inj (err_lines hl (by decide) (by decide) h)).1 (by decide)

theorem answer_line {l : Library} (hl : LibraryOk l) {h : List (Env × Str)} {a : Answer} (ha : a ∈ answers Parser.new h)
    {t : Str} (ht : prettyAnswer l a = some t) {n w : Str} (hn : FieldName n) (hw : '\n' ∉ w) :
    IsLine (fieldLine n w) t ↔ ∃ r, a = .ok r ∧ ∃ f ∈ (r.calls l).rows, f.1 = n ∧ (f.2 = .text w ∨ f.2 = .list [] ∧ w = c! "[]") := by
  rw [isLine_iff]
  cases a with
  | ok r =>
    cases ht
    rw [ok_line hl (sound_answer ha) hn hw]
    exact ⟨fun h => ⟨r, rfl, h⟩, fun ⟨_, e, h⟩ => by cases e; exact h⟩
  | err e =>
    cases ht
    exact ⟨fun h => absurd h (err_line hl e), fun ⟨_, e, _⟩ => nomatch e⟩
  | panic => cases ht

/-- Which field it is, by its name. -/
macro "row_fields " h:ident : tactic =>
  `(tactic| simp [ParsedSentence.calls, DebugCalls.rows, VesselDynamicData.calls, VesselStaticData.calls,
        BaseStationReport.calls, BinaryAddressedMessage.calls, StandardSarAircraftPositionReport.calls,
        UtcDateInquiry.calls, AidToNavigationReport.calls, GgaData.calls, RmcData.calls,
        GsaData.calls, VtgData.calls, GllData.calls] at $h:ident)

macro "row_field" : tactic =>
  `(tactic| simp [ParsedSentence.calls, DebugCalls.rows, VesselDynamicData.calls, VesselStaticData.calls,
        BaseStationReport.calls, BinaryAddressedMessage.calls, StandardSarAircraftPositionReport.calls,
        UtcDateInquiry.calls, AidToNavigationReport.calls, GgaData.calls, RmcData.calls,
        GsaData.calls, VtgData.calls, GllData.calls])

macro "row_names" : tactic =>
  `(tactic| (simp only [ParsedSentence.calls, DebugCalls.rows, VesselDynamicData.calls, VesselStaticData.calls,
        BaseStationReport.calls, BinaryAddressedMessage.calls, StandardSarAircraftPositionReport.calls,
        UtcDateInquiry.calls, AidToNavigationReport.calls, GgaData.calls, RmcData.calls,
        GsaData.calls, VtgData.calls, GllData.calls, List.map_cons, List.map_nil]; decide))

theorem fieldName_mmsi : FieldName (c! "mmsi") := ⟨⟨_, _, rfl, by decide⟩, by decide, by decide⟩

theorem natStr_line (n : Nat) : '\n' ∉ natStr n := (joins_nat n trivial).2.1

/-- C172: the line with the MMSI is in the text of exactly the answers that are reports about that vessel. -/
theorem C172_mmsi (l : Library) (hl : LibraryOk l) (h : List (Env × Str)) (a : Answer) (ha : a ∈ answers Parser.new h)
    (t : Str) (ht : prettyAnswer l a = some t) (n : Nat) :
    IsLine (fieldLine (c! "mmsi") (natStr n)) t ↔ ∃ r, a = .ok r ∧ senderOf r = some n := by
  rw [answer_line hl ha ht fieldName_mmsi (natStr_line n)]
  refine exists_congr fun r => and_congr_right fun _ => ?_
  constructor
  · rintro ⟨⟨m, v⟩, hf, e, hv⟩
    cases e
    cases r <;> row_fields hf <;> subst hf <;> rcases hv with hv | ⟨hv, -⟩ <;>
      first | exact congrArg some (natStr_inj (DebugCalls.text.inj hv)) | cases hv
  · intro e
    refine ⟨(c! "mmsi", .text (natStr n)), ?_, rfl, .inl rfl⟩
    cases r <;> cases e
    all_goals row_field

/-- A base station; the beginning of its number is no line. -/
example (l : Library) (hl : LibraryOk l) : ∃ a ∈ answers Parser.new [(demoEnv, c! "!AIVDM,1,1,,B,403OviQuMGCqWrRO9>E6fE700@GO,0")],
    ∃ t, prettyAnswer l a = some t ∧ IsLine (c! "            mmsi: 3669702,") t ∧ ¬ IsLine (c! "            mmsi: 366970,") t := by
  obtain ⟨r, hr, e⟩ := demoSearched (s := c! "!AIVDM,1,1,,B,403OviQuMGCqWrRO9>E6fE700@GO,0")
    (fun r => senderOf r = some 3669702) (by decide +kernel)
  refine ⟨_, hr, _, rfl, (C172_mmsi l hl _ _ hr _ rfl 3669702).2 ⟨r, rfl, of_decide_eq_true e⟩, fun h => ?_⟩
  obtain ⟨r', e1, e2⟩ := (C172_mmsi l hl _ _ hr _ rfl 366970).1 h
  cases e1
  rw [of_decide_eq_true e] at e2
  exact absurd e2 (by decide)

/-- C172: the line `own_vessel: true` is in the text of exactly the reports about the own vessel. -/
theorem C172_own_vessel (l : Library) (hl : LibraryOk l) (h : List (Env × Str)) (a : Answer) (ha : a ∈ answers Parser.new h)
    (t : Str) (ht : prettyAnswer l a = some t) (b : Bool) :
    IsLine (fieldLine (c! "own_vessel") (debugBool b)) t ↔ ∃ r, a = .ok r ∧ ownOf r = some b := by
  have inj : ∀ a b, debugBool a = debugBool b → a = b := by decide
  rw [answer_line hl ha ht ⟨⟨_, _, rfl, by decide⟩, by decide, by decide⟩ (joins_bool b trivial).2.1]
  refine exists_congr fun r => and_congr_right fun _ => ?_
  constructor
  · rintro ⟨⟨m, v⟩, hf, e, hv⟩
    cases e
    cases r <;> row_fields hf <;> subst hf <;> rcases hv with hv | ⟨hv, -⟩ <;>
      first | exact congrArg some (inj _ _ (DebugCalls.text.inj hv)) | cases hv
  · intro e
    refine ⟨(c! "own_vessel", .text (debugBool b)), ?_, rfl, .inl rfl⟩
    cases r <;> cases e
    all_goals row_field

/-- An answer for the own vessel. -/
example (l : Library) (hl : LibraryOk l) : ∃ a ∈ answers Parser.new [(demoEnv, c! "!AIVDO,1,1,,B,403OviQuMGCqWrRO9>E6fE700@GO,0")],
    ∃ t, prettyAnswer l a = some t ∧ IsLine (c! "            own_vessel: true,") t := by
  obtain ⟨r, hr, e⟩ := demoSearched (s := c! "!AIVDO,1,1,,B,403OviQuMGCqWrRO9>E6fE700@GO,0") (fun r => ownOf r = some true) (by decide +kernel)
  exact ⟨_, hr, _, rfl, (C172_own_vessel l hl _ _ hr _ rfl true).2 ⟨r, rfl, of_decide_eq_true e⟩⟩

/-- C172: the line with a navigation status is in the text of exactly the position reports with that status. -/
theorem C172_nav_status (l : Library) (hl : LibraryOk l) (h : List (Env × Str)) (a : Answer) (ha : a ∈ answers Parser.new h)
    (t : Str) (ht : prettyAnswer l a = some t) (x : NavigationStatus) :
    IsLine (fieldLine (c! "nav_status") x.debug) t ↔ ∃ d, a = .ok (.vesselDynamicData d) ∧ d.navStatus = x := by
  have inj : ∀ x y : NavigationStatus, x.debug = y.debug → x = y := by
    intro x y
    cases x <;> cases y <;> decide
  rw [answer_line hl ha ht ⟨⟨_, _, rfl, by decide⟩, by decide, by decide⟩ (joins_NavigationStatus x trivial).2.1]
  constructor
  · rintro ⟨r, rfl, ⟨m, v⟩, hf, e, hv⟩
    cases e
    cases r <;> row_fields hf
    subst hf
    rcases hv with hv | ⟨hv, -⟩
    · exact ⟨_, rfl, inj _ _ (DebugCalls.text.inj hv)⟩
    · cases hv
  · rintro ⟨d, rfl, rfl⟩
    refine ⟨_, rfl, (c! "nav_status", .text d.navStatus.debug), ?_, rfl, .inl rfl⟩
    row_field

/-- A vessel under way. -/
example (l : Library) (hl : LibraryOk l) : ∃ a ∈ answers Parser.new [(demoEnv, c! "!AIVDM,1,1,,A,15NPOOPP00o?b=bE`UNv4?w428D;,0*24")],
    ∃ t, prettyAnswer l a = some t ∧ IsLine (c! "            nav_status: UnderWayUsingEngine,") t := by
  obtain ⟨r, hr, e⟩ := demoSearched (s := c! "!AIVDM,1,1,,A,15NPOOPP00o?b=bE`UNv4?w428D;,0*24")
    (fun r => match r with | .vesselDynamicData d => d.navStatus = .underWayUsingEngine | _ => false) (by decide +kernel)
  cases r <;> try cases e
  exact ⟨_, hr, _, rfl, (C172_nav_status l hl _ _ hr _ rfl .underWayUsingEngine).2 ⟨_, rfl, of_decide_eq_true e⟩⟩

/-- C172: the line with a type of ship is in the text of exactly the static reports of such ships. -/
theorem C172_ship_type (l : Library) (hl : LibraryOk l) (h : List (Env × Str)) (a : Answer) (ha : a ∈ answers Parser.new h)
    (t : Str) (ht : prettyAnswer l a = some t) (x : ShipType) :
    IsLine (fieldLine (c! "ship_type") x.debug) t ↔ ∃ d, a = .ok (.vesselStaticData d) ∧ d.shipType = x := by
  have inj : ∀ x y : ShipType, x.debug = y.debug → x = y := by
    intro x y
    cases x <;> cases y <;> decide
  rw [answer_line hl ha ht ⟨⟨_, _, rfl, by decide⟩, by decide, by decide⟩ (joins_ShipType x trivial).2.1]
  constructor
  · rintro ⟨r, rfl, ⟨m, v⟩, hf, e, hv⟩
    cases e
    cases r <;> row_fields hf
    subst hf
    rcases hv with hv | ⟨hv, -⟩
    · exact ⟨_, rfl, inj _ _ (DebugCalls.text.inj hv)⟩
    · cases hv
  · rintro ⟨d, rfl, rfl⟩
    refine ⟨_, rfl, (c! "ship_type", .text d.shipType.debug), ?_, rfl, .inl rfl⟩
    row_field

/-- A ship of no known type. -/
example (l : Library) (hl : LibraryOk l) : ∃ a ∈ answers Parser.new [(demoEnv, c! "!AIVDM,1,1,,A,539p4OT00000@7W3K@08ThiLE8@E:222222222220O0000000000000000000000000000,0")],
    ∃ t, prettyAnswer l a = some t ∧ IsLine (c! "            ship_type: NotAvailable,") t := by
  obtain ⟨r, hr, e⟩ := demoSearched (s := c! "!AIVDM,1,1,,A,539p4OT00000@7W3K@08ThiLE8@E:222222222220O0000000000000000000000000000,0")
    (fun r => match r with | .vesselStaticData d => d.shipType = .notAvailable | _ => false) (by decide +kernel)
  cases r <;> try cases e
  exact ⟨_, hr, _, rfl, (C172_ship_type l hl _ _ hr _ rfl .notAvailable).2 ⟨_, rfl, of_decide_eq_true e⟩⟩

/-- C172: the line with a quality of the fix is in the text of exactly the GGA reports with that quality. -/
theorem C172_quality (l : Library) (hl : LibraryOk l) (h : List (Env × Str)) (a : Answer) (ha : a ∈ answers Parser.new h)
    (t : Str) (ht : prettyAnswer l a = some t) (x : GgaQualityIndicator) :
    IsLine (fieldLine (c! "quality") x.debug) t ↔ ∃ d, a = .ok (.gga d) ∧ d.quality = x := by
  have inj : ∀ x y : GgaQualityIndicator, x.debug = y.debug → x = y := by
    intro x y
    cases x <;> cases y <;> decide
  rw [answer_line hl ha ht ⟨⟨_, _, rfl, by decide⟩, by decide, by decide⟩ (joins_GgaQualityIndicator x trivial).2.1]
  constructor
  · rintro ⟨r, rfl, ⟨m, v⟩, hf, e, hv⟩
    cases e
    cases r <;> row_fields hf
    subst hf
    rcases hv with hv | ⟨hv, -⟩
    · exact ⟨_, rfl, inj _ _ (DebugCalls.text.inj hv)⟩
    · cases hv
  · rintro ⟨d, rfl, rfl⟩
    refine ⟨_, rfl, (c! "quality", .text d.quality.debug), ?_, rfl, .inl rfl⟩
    row_field

/-- A fix with centimetre accuracy. -/
example (l : Library) (hl : LibraryOk l) : ∃ a ∈ answers Parser.new [(demoEnv, c! "$GPGGA,123519,,,,,4,,,,,,,,")],
    ∃ t, prettyAnswer l a = some t ∧ IsLine (c! "            quality: RealTimeKinematic,") t := by
  obtain ⟨r, hr, e⟩ := demoSearched (s := c! "$GPGGA,123519,,,,,4,,,,,,,,")
    (fun r => match r with | .gga d => d.quality = .realTimeKinematic | _ => false) (by decide +kernel)
  cases r <;> try cases e
  exact ⟨_, hr, _, rfl, (C172_quality l hl _ _ hr _ rfl .realTimeKinematic).2 ⟨_, rfl, of_decide_eq_true e⟩⟩

/-- C172: the line with a type of aid to navigation is in the text of exactly the reports of such aids. -/
theorem C172_aid_type (l : Library) (hl : LibraryOk l) (h : List (Env × Str)) (a : Answer) (ha : a ∈ answers Parser.new h)
    (t : Str) (ht : prettyAnswer l a = some t) (x : NavAidType) :
    IsLine (fieldLine (c! "aid_type") x.debug) t ↔ ∃ d, a = .ok (.aidToNavigationReport d) ∧ d.aidType = x := by
  have inj : ∀ x y : NavAidType, x.debug = y.debug → x = y := by
    intro x y
    cases x <;> cases y <;> decide
  rw [answer_line hl ha ht ⟨⟨_, _, rfl, by decide⟩, by decide, by decide⟩ (joins_NavAidType x trivial).2.1]
  constructor
  · rintro ⟨r, rfl, ⟨m, v⟩, hf, e, hv⟩
    cases e
    cases r <;> row_fields hf
    subst hf
    rcases hv with hv | ⟨hv, -⟩
    · exact ⟨_, rfl, inj _ _ (DebugCalls.text.inj hv)⟩
    · cases hv
  · rintro ⟨d, rfl, rfl⟩
    refine ⟨_, rfl, (c! "aid_type", .text d.aidType.debug), ?_, rfl, .inl rfl⟩
    row_field

/-- An aid of no specified type. -/
example (l : Library) (hl : LibraryOk l) : ∃ a ∈ answers Parser.new [(demoEnv, c! "!AIVDM,1,1,,B,E>kb9O9aS@7PUh10dh19@;0Tah2cWrfP:l?M`00003vP100,0")],
    ∃ t, prettyAnswer l a = some t ∧ IsLine (c! "            aid_type: BeaconSpecialMark,") t := by
  obtain ⟨r, hr, e⟩ := demoSearched (s := c! "!AIVDM,1,1,,B,E>kb9O9aS@7PUh10dh19@;0Tah2cWrfP:l?M`00003vP100,0")
    (fun r => match r with | .aidToNavigationReport d => d.aidType = .beaconSpecialMark | _ => false) (by decide +kernel)
  cases r <;> try cases e
  exact ⟨_, hr, _, rfl, (C172_aid_type l hl _ _ hr _ rfl .beaconSpecialMark).2 ⟨_, rfl, of_decide_eq_true e⟩⟩

theorem option_text {α : Type} {f : α → Str} {o : Option α} {w : Str} (h : optionCalls f o = .text w) : o = none := by
  cases o with
  | none => rfl
  | some x => cases h

theorem option_list {α : Type} {f : α → Str} {o : Option α} {es : List DebugCalls} : optionCalls f o ≠ .list es := by
  cases o <;> exact fun h => nomatch h

/-- C172: the line `latitude: None` is in the text of exactly the reports whose position is not known. -/
theorem C172_no_position (l : Library) (hl : LibraryOk l) (h : List (Env × Str)) (a : Answer) (ha : a ∈ answers Parser.new h)
    (t : Str) (ht : prettyAnswer l a = some t) :
    IsLine (fieldLine (c! "latitude") (c! "None")) t ↔ ∃ r, a = .ok r ∧ lacksLatitude r = true := by
  rw [answer_line hl ha ht ⟨⟨_, _, rfl, by decide⟩, by decide, by decide⟩ (by decide)]
  refine exists_congr fun r => and_congr_right fun _ => ?_
  constructor
  · rintro ⟨⟨m, v⟩, hf, e, hv⟩
    cases e
    cases r <;> row_fields hf <;> subst hf <;> rcases hv with hv | ⟨hv, -⟩ <;>
      first | exact absurd hv option_list | exact Option.isNone_iff_eq_none.mpr (option_text hv)
  · intro e
    refine ⟨(c! "latitude", .text (c! "None")), ?_, rfl, .inl rfl⟩
    cases r <;> try cases e
    all_goals
      replace e := Option.isNone_iff_eq_none.mp e
      row_field
      rw [e]
      rfl

/-- A receiver without a fix. -/
example (l : Library) (hl : LibraryOk l) : ∃ a ∈ answers Parser.new [(demoEnv, c! "$GPGGA,123519,,,,,0,,,,,,,,")],
    ∃ t, prettyAnswer l a = some t ∧ IsLine (c! "            latitude: None,") t := by
  obtain ⟨r, hr, e⟩ := demoSearched (s := c! "$GPGGA,123519,,,,,0,,,,,,,,") lacksLatitude (by decide +kernel)
  exact ⟨_, hr, _, rfl, (C172_no_position l hl _ _ hr _ rfl).2 ⟨r, rfl, e⟩⟩

/-- C172: whatever the sentence contained, an error has no line with a field. -/
theorem C172_not_forged (l : Library) (hl : LibraryOk l) (e : ParseError) (t : Str) (ht : prettyAnswer l (.err e) = some t)
    (n w : Str) : ¬ IsLine (fieldLine n w) t := by
  cases ht
  rw [isLine_iff]
  exact err_line hl e

/-- The checksum of a sentence as a forged line. -/
example (l : Library) (hl : LibraryOk l) : ∃ t, prettyAnswer l (parseSentence demoEnv Parser.new
      (c! "!AIVDM,1,1,,A,15NPOOPP00o?b=bE`UNv4?w428D;,0*\n            mmsi: 3669702,\n")).1 = some t ∧
    ¬ IsLine (c! "            mmsi: 3669702,") t := by
  have k : (match (parseSentence demoEnv Parser.new
      (c! "!AIVDM,1,1,,A,15NPOOPP00o?b=bE`UNv4?w428D;,0*\n            mmsi: 3669702,\n")).1 with | .err _ => true | _ => false) = true := by
    decide +kernel
  cases e : (parseSentence demoEnv Parser.new
      (c! "!AIVDM,1,1,,A,15NPOOPP00o?b=bE`UNv4?w428D;,0*\n            mmsi: 3669702,\n")).1 with
  | err x => exact ⟨_, rfl, C172_not_forged l hl x _ rfl (c! "mmsi") (c! "3669702")⟩
  | ok x =>
    rw [e] at k
    cases k
  | panic =>
    rw [e] at k
    cases k

theorem cutLines_log (ts : List Str) : cutLines (ts.flatMap (· ++ ['\n'])) = ts.flatMap cutLines ++ [[]] := by
  induction ts with
  | nil => rfl
  | cons t ts ih =>
    rw [List.flatMap_cons, List.append_assoc, List.singleton_append, cutLines_break, ih, List.flatMap_cons, List.append_assoc]

/-- C172: a log that contains the answers one after the other has the line if and only if there is a report about the vessel. -/
theorem C172_log (l : Library) (hl : LibraryOk l) (h : List (Env × Str)) (n : Nat) :
    IsLine (fieldLine (c! "mmsi") (natStr n)) (prettyLog l (answers Parser.new h)) ↔
      ∃ r, .ok r ∈ answers Parser.new h ∧ senderOf r = some n := by
  rw [isLine_iff, prettyLog, cutLines_log, List.mem_append, List.mem_flatMap]
  constructor
  · rintro (⟨t, ht, hm⟩ | hm)
    · obtain ⟨a, ha, e⟩ := List.mem_filterMap.mp ht
      obtain ⟨r, rfl, hr⟩ := (C172_mmsi l hl h a ha t e n).mp ((isLine_iff _ _).mpr hm)
      exact ⟨r, ha, hr⟩
    · rw [List.mem_singleton] at hm
      cases hm
  · rintro ⟨r, hr, e⟩
    refine .inl ⟨_, List.mem_filterMap.mpr ⟨_, hr, rfl⟩, ?_⟩
    exact (isLine_iff _ _).mp ((C172_mmsi l hl h _ hr _ rfl n).mpr ⟨r, rfl, e⟩)

/-- A log of one answer. -/
example (l : Library) (hl : LibraryOk l) :
    IsLine (c! "            mmsi: 3669702,") (prettyLog l (answers Parser.new [(demoEnv, c! "!AIVDM,1,1,,B,403OviQuMGCqWrRO9>E6fE700@GO,0")])) := by
  obtain ⟨r, hr, e⟩ := demoSearched (s := c! "!AIVDM,1,1,,B,403OviQuMGCqWrRO9>E6fE700@GO,0")
    (fun r => senderOf r = some 3669702) (by decide +kernel)
  exact (C172_log l hl _ 3669702).2 ⟨r, hr, of_decide_eq_true e⟩

/-! ### Counting -/

theorem tuple_count {k : Str} (v : DebugCalls) (w y : Str) (hk : '\n' ∉ k) (hk' : (k ++ c! "(").head? ≠ some ' ') (hw : '\n' ∉ w) :
    (cutLines ((DebugCalls.tuple k v).pretty ++ w)).count (c! "    " ++ y) = (cutLines (v.pretty ++ c! ",")).count y := by
  have e := tuple_block [] k v w
  rw [List.nil_append, List.nil_append] at e
  rw [e, block_count (by simp only [List.mem_append, not_or]; exact ⟨hk, by decide⟩)
    (by simp only [List.mem_append, not_or]; exact ⟨by decide, hw⟩) hk' (by simp)]
  simp

theorem struct_count {k k' : Str} {fs : List (Str × DebugCalls)} (hk : '\n' ∉ k) (hk1 : (k ++ c! "(").head? ≠ some ' ')
    (hk' : '\n' ∉ k') (hk1' : (k' ++ c! " {").head? ≠ some ' ') (z : Str) :
    (cutLines (DebugCalls.tuple (c! "Ok") (.tuple k (.struct k' fs))).pretty).count (c! "    " ++ (c! "    " ++ (c! "    " ++ z))) =
      (fs.map fun f => (cutLines (f.1 ++ c! ": " ++ f.2.pretty ++ c! ",")).count z).sum := by
  have h0 := tuple_count (k := c! "Ok") (.tuple k (.struct k' fs)) [] (c! "    " ++ (c! "    " ++ z)) (by decide) (by decide) (by decide)
  rw [List.append_nil] at h0
  have e := struct_block [] k' fs (c! ",")
  rw [List.nil_append, List.nil_append] at e
  rw [h0, tuple_count _ _ _ hk hk1 (by decide), e,
    block_count (by simp only [List.mem_append, not_or]; exact ⟨hk', by decide⟩) (by decide) hk1' (by simp), List.map_map]
  rfl

theorem ok_count (l : Library) (r : ParsedSentence) {z : Str} (hz : ∀ c : Char, c.isLower = false → z.head? ≠ some c) :
    (cutLines (DebugCalls.tuple (c! "Ok") (r.calls l)).pretty).count (c! "    " ++ (c! "    " ++ (c! "    " ++ z))) =
      ((r.calls l).rows.map fun f => (cutLines (f.1 ++ c! ": " ++ f.2.pretty ++ c! ",")).count z).sum := by
  have none : (r.calls l).rows = [] →
      (cutLines (DebugCalls.tuple (c! "Ok") (r.calls l)).pretty).count (c! "    " ++ (c! "    " ++ (c! "    " ++ z))) =
        ((r.calls l).rows.map fun f => (cutLines (f.1 ++ c! ": " ++ f.2.pretty ++ c! ",")).count z).sum := by
    intro e
    rw [e, List.count_eq_zero.mpr]
    · rfl
    · intro hm
      obtain ⟨f, hf, -⟩ := (ok_step l r hz).mp hm
      rw [e] at hf
      cases hf
  cases r with
  | incomplete => exact none rfl
  | gsv v => exact none rfl
  | vesselDynamicData d => exact struct_count (by decide) (by decide) (by decide) (by decide) z
  | vesselStaticData d => exact struct_count (by decide) (by decide) (by decide) (by decide) z
  | baseStationReport d => exact struct_count (by decide) (by decide) (by decide) (by decide) z
  | binaryAddressedMessage d => exact struct_count (by decide) (by decide) (by decide) (by decide) z
  | standardSarAircraftPositionReport d => exact struct_count (by decide) (by decide) (by decide) (by decide) z
  | utcDateInquiry d => exact struct_count (by decide) (by decide) (by decide) (by decide) z
  | aidToNavigationReport d => exact struct_count (by decide) (by decide) (by decide) (by decide) z
  | gga d => exact struct_count (by decide) (by decide) (by decide) (by decide) z
  | rmc d => exact struct_count (by decide) (by decide) (by decide) (by decide) z
  | gsa d => exact struct_count (by decide) (by decide) (by decide) (by decide) z
  | vtg d => exact struct_count (by decide) (by decide) (by decide) (by decide) z
  | gll d => exact struct_count (by decide) (by decide) (by decide) (by decide) z

theorem rows_nodup (l : Library) (r : ParsedSentence) : ((r.calls l).rows.map Prod.fst).Nodup := by
  cases r with
  | incomplete => exact List.nodup_nil
  | gsv v => exact List.nodup_nil
  | vesselDynamicData d => row_names
  | vesselStaticData d => row_names
  | baseStationReport d => row_names
  | binaryAddressedMessage d => row_names
  | standardSarAircraftPositionReport d => row_names
  | utcDateInquiry d => row_names
  | aidToNavigationReport d => row_names
  | gga d => row_names
  | rmc d => row_names
  | gsa d => row_names
  | vtg d => row_names
  | gll d => row_names

theorem ok_once {l : Library} (hl : LibraryOk l) {r : ParsedSentence} (h : r.Sound) {n w : Str} (hn : FieldName n) (hw : '\n' ∉ w) :
    (cutLines (DebugCalls.tuple (c! "Ok") (r.calls l)).pretty).count (fieldLine n w) ≤ 1 := by
  have hs := rows_plain hl h
  rw [twelve, ok_count l r fun c hc => by simpa using name_ne hn (c! ": " ++ w ++ c! ",") hc]
  refine sum_once (rows_nodup l r) (n := n) (fun f hf => field_once hn (hs f hf).1 (hs f hf).2 hw) fun f hf hne => ?_
  exact List.count_eq_zero.mpr fun hm => hne ((field_line hn (hs f hf).1 (hs f hf).2 hw).mp hm).1

theorem answer_once {l : Library} (hl : LibraryOk l) {h : List (Env × Str)} {a : Answer} (ha : a ∈ answers Parser.new h)
    {t : Str} (ht : prettyAnswer l a = some t) {n w : Str} (hn : FieldName n) (hw : '\n' ∉ w) : (cutLines t).count (fieldLine n w) ≤ 1 := by
  cases a with
  | ok r =>
    cases ht
    exact ok_once hl (sound_answer ha) hn hw
  | err e =>
    cases ht
    rw [List.count_eq_zero.mpr (err_line hl e)]
    exact Nat.zero_le _
  | panic => cases ht

theorem log_count {l : Library} (as : List Answer) {x : Str} (hx : x ≠ []) (P : Answer → Bool)
    (h1 : ∀ a ∈ as, ∀ t, prettyAnswer l a = some t → (cutLines t).count x = if P a then 1 else 0)
    (h2 : ∀ a ∈ as, prettyAnswer l a = none → P a = false) : (cutLines (prettyLog l as)).count x = as.countP P := by
  rw [prettyLog, cutLines_log, List.count_append, List.count_singleton, if_neg (by simpa using hx.symm), Nat.add_zero]
  induction as with
  | nil => rfl
  | cons a as ih =>
    have ih := ih (fun b hb => h1 b (by simp [hb])) fun b hb => h2 b (by simp [hb])
    rw [List.countP_cons]
    cases e : prettyAnswer l a with
    | none => rw [List.filterMap_cons_none e, ih, h2 a (by simp) e]; rfl
    | some t => rw [List.filterMap_cons_some e, List.flatMap_cons, List.count_append, ih, h1 a (by simp) t e, Nat.add_comm]

/-- C172: the number of lines with the MMSI in a log is the number of reports about the vessel. -/
theorem C172_count (l : Library) (hl : LibraryOk l) (h : List (Env × Str)) (n : Nat) :
    (cutLines (prettyLog l (answers Parser.new h))).count (fieldLine (c! "mmsi") (natStr n)) =
      (answers Parser.new h).countP (fun a => match a with | .ok r => senderOf r = some n | _ => false) := by
  refine log_count _ (by simp [fieldLine]) _ (fun a ha t ht => ?_) fun a _ ht => ?_
  · have h1 := C172_mmsi l hl h a ha t ht n
    rw [isLine_iff] at h1
    have h2 := answer_once hl ha ht fieldName_mmsi (natStr_line n)
    by_cases hm : fieldLine (c! "mmsi") (natStr n) ∈ cutLines t
    · obtain ⟨r, rfl, e⟩ := h1.mp hm
      rw [if_pos (decide_eq_true e)]
      have := List.count_pos_iff.mpr hm
      omega
    · rw [List.count_eq_zero.mpr hm]
      cases a with
      | ok r => rw [if_neg fun e => hm (h1.mpr ⟨r, rfl, of_decide_eq_true e⟩)]
      | err e => rfl
      | panic => rfl
  · cases a <;> first | rfl | cases ht

/-- Two reports about one station among three sentences. -/
example (l : Library) (hl : LibraryOk l) :
    (cutLines (prettyLog l (answers Parser.new [(demoEnv, c! "!AIVDM,1,1,,B,403OviQuMGCqWrRO9>E6fE700@GO,0"), (demoEnv, c! "hello"),
      (demoEnv, c! "!AIVDM,1,1,,B,403OviQuMGCqWrRO9>E6fE700@GO,0")]))).count (c! "            mmsi: 3669702,") = 2 := by
  refine (C172_count l hl _ 3669702).trans ?_
  decide +kernel

/-! ### Values on a line of their own -/

theorem twelve_open (n : Str) : openLine n = c! "    " ++ (c! "    " ++ (c! "    " ++ (n ++ c! ": Some("))) := by
  simp [openLine]

theorem ok_open {l : Library} (hl : LibraryOk l) {r : ParsedSentence} (h : r.Sound) {n q : Str} (hn : FieldName n) :
    [openLine n, valueLine q] <:+: cutLines (DebugCalls.tuple (c! "Ok") (r.calls l)).pretty ↔
      (n, .tuple (c! "Some") (.text q)) ∈ (r.calls l).rows := by
  have hs := rows_plain hl h
  have hz : ∀ c : Char, c.isLower = false → (n ++ c! ": Some(").head? ≠ some c := fun c hc => name_ne hn _ hc
  have back : ∀ x, '\n' ∉ x → (n, .tuple (c! "Some") (.text x)) ∈ (r.calls l).rows →
      [openLine n, valueLine x] <:+: cutLines (DebugCalls.tuple (c! "Ok") (r.calls l)).pretty := by
    intro x hx hm
    have h1 : [n ++ c! ": Some(", c! "    " ++ x ++ c! ","] <:+: cutLines (n ++ c! ": " ++ (DebugCalls.tuple (c! "Some") (.text x)).pretty ++ c! ",") := by
      rw [some_lines hn hx]
      exact ⟨[], [c! "),"], rfl⟩
    have key : ∀ (k k' : Str) (fs : List (Str × DebugCalls)), '\n' ∉ k → '\n' ∉ k' → (n, .tuple (c! "Some") (.text x)) ∈ fs →
        [openLine n, valueLine x] <:+: cutLines (DebugCalls.tuple (c! "Ok") (.tuple k (.struct k' fs))).pretty := by
      intro k k' fs hk hk' hf
      have h2 := block_infix (a := [] ++ k' ++ c! " {") (b := c! "}" ++ c! ",") (ps := fs.map fun f => f.1 ++ c! ": " ++ f.2.pretty)
        (by simp only [List.nil_append, List.mem_append, not_or]; exact ⟨hk', by decide⟩) (by decide)
        (List.mem_map.mpr ⟨_, hf, rfl⟩) h1
      rw [← struct_block, List.nil_append] at h2
      have h3 := block_infix (a := [] ++ k ++ c! "(") (b := c! ")" ++ c! ",") (ps := [(DebugCalls.struct k' fs).pretty])
        (by simp only [List.nil_append, List.mem_append, not_or]; exact ⟨hk, by decide⟩) (by decide) (List.mem_singleton.mpr rfl) h2
      rw [← tuple_block, List.nil_append] at h3
      have h4 := block_infix (a := [] ++ c! "Ok" ++ c! "(") (b := c! ")" ++ []) (ps := [(DebugCalls.tuple k (.struct k' fs)).pretty])
        (by decide) (by decide) (List.mem_singleton.mpr rfl) h3
      rw [← tuple_block, List.nil_append, List.append_nil] at h4
      simpa [openLine, valueLine] using h4
    cases r with
    | incomplete => cases hm
    | gsv v => cases hm
    | vesselDynamicData d => exact key _ _ _ (by decide) (by decide) hm
    | vesselStaticData d => exact key _ _ _ (by decide) (by decide) hm
    | baseStationReport d => exact key _ _ _ (by decide) (by decide) hm
    | binaryAddressedMessage d => exact key _ _ _ (by decide) (by decide) hm
    | standardSarAircraftPositionReport d => exact key _ _ _ (by decide) (by decide) hm
    | utcDateInquiry d => exact key _ _ _ (by decide) (by decide) hm
    | aidToNavigationReport d => exact key _ _ _ (by decide) (by decide) hm
    | gga d => exact key _ _ _ (by decide) (by decide) hm
    | rmc d => exact key _ _ _ (by decide) (by decide) hm
    | gsa d => exact key _ _ _ (by decide) (by decide) hm
    | vtg d => exact key _ _ _ (by decide) (by decide) hm
    | gll d => exact key _ _ _ (by decide) (by decide) hm
  constructor
  · intro hi
    have hm : openLine n ∈ cutLines (DebugCalls.tuple (c! "Ok") (r.calls l)).pretty := hi.subset (by simp)
    rw [twelve_open, ok_step l r hz] at hm
    obtain ⟨f, hf, h1⟩ := hm
    obtain ⟨e1, x, e2, hx⟩ := (field_open hn (hs f hf).1 (hs f hf).2).mp h1
    obtain ⟨m, v⟩ := f
    change m = n at e1
    change v = _ at e2
    subst e1
    subst e2
    have hc : (cutLines (DebugCalls.tuple (c! "Ok") (r.calls l)).pretty).count (openLine m) ≤ 1 := by
      rw [twelve_open, ok_count l r hz]
      refine sum_once (rows_nodup l r) (n := m) (fun f hf => open_once hn (hs f hf).1 (hs f hf).2) fun f hf hne => ?_
      exact List.count_eq_zero.mpr fun hm => hne ((field_open hn (hs f hf).1 (hs f hf).2).mp hm).1
    have e := follows_unique hi (back x hx hf) hc
    have e3 : q = x := by
      unfold valueLine at e
      exact List.append_cancel_left (List.append_cancel_right e)
    rw [e3]
    exact hf
  · intro hm
    have hx : '\n' ∉ q := by
      rcases (hs _ hm).2 with ⟨t, e, -⟩ | ⟨m, y, e, -, hy⟩ | ⟨es, e⟩
      · cases e
      · cases e
        exact hy
      · cases e
    exact back q hx hm

theorem err_open {l : Library} (hl : LibraryOk l) (e : ParseError) {n : Str} :
    openLine n ∉ cutLines (DebugCalls.tuple (c! "Err") (e.calls l)).pretty := by
  rw [twelve_open]
  intro h
  cases e with
  | unsupportedSentenceType q => exact absurd (List.cons.inj (err_lines hl (by decide) (by decide) h)).1 (by decide)
  | corruptedSentence q => exact absurd (List.cons.inj (err_lines hl (by decide) (by decide) h)).1 (by decide)
  | invalidSentence q => exact absurd (List.cons.inj (err_lines hl (by decide) (by decide) h)).1 (by decide)

theorem answer_open {l : Library} (hl : LibraryOk l) {h : List (Env × Str)} {a : Answer} (ha : a ∈ answers Parser.new h)
    {t : Str} (ht : prettyAnswer l a = some t) {n q : Str} (hn : FieldName n) :
    [openLine n, valueLine q] <:+: cutLines t ↔ ∃ r, a = .ok r ∧ (n, .tuple (c! "Some") (.text q)) ∈ (r.calls l).rows := by
  cases a with
  | ok r =>
    cases ht
    rw [ok_open hl (sound_answer ha) hn]
    exact ⟨fun h => ⟨r, rfl, h⟩, fun ⟨_, e, h⟩ => by cases e; exact h⟩
  | err e =>
    cases ht
    exact ⟨fun h => absurd (h.subset (List.mem_cons_self (a := openLine n))) (err_open hl e), fun ⟨_, e, _⟩ => nomatch e⟩
  | panic => cases ht

theorem option_some {α : Type} {f : α → Str} {o : Option α} {q : Str} (h : .tuple (c! "Some") (.text q) = optionCalls f o) :
    ∃ x, o = some x ∧ f x = q := by
  cases o with
  | none => cases h
  | some x =>
    simp only [optionCalls, DebugCalls.tuple.injEq, DebugCalls.text.injEq, true_and] at h
    exact ⟨x, rfl, h.symm⟩

/-- C172: the lines with a name, one after the other, are in the text of exactly the static reports with that name. -/
theorem C172_name (l : Library) (hl : LibraryOk l) (h : List (Env × Str)) (a : Answer) (ha : a ∈ answers Parser.new h)
    (t : Str) (ht : prettyAnswer l a = some t) (s : Str) :
    [openLine (c! "name"), valueLine (l.debugStr s)] <:+: cutLines t ↔ ∃ d, a = .ok (.vesselStaticData d) ∧ d.name = some s := by
  rw [answer_open hl ha ht ⟨⟨_, _, rfl, by decide⟩, by decide, by decide⟩]
  constructor
  · rintro ⟨r, rfl, hf⟩
    cases r <;> row_fields hf
    obtain ⟨x, e, hx⟩ := option_some hf
    exact ⟨_, rfl, by rw [e, (shown_str hl).inj _ _ trivial trivial hx]⟩
  · rintro ⟨d, rfl, e⟩
    refine ⟨_, rfl, ?_⟩
    row_field
    rw [e]
    rfl

/-- C172: the lines with a call sign, one after the other, are in the text of exactly the static reports with that call sign. -/
theorem C172_call_sign (l : Library) (hl : LibraryOk l) (h : List (Env × Str)) (a : Answer) (ha : a ∈ answers Parser.new h)
    (t : Str) (ht : prettyAnswer l a = some t) (s : Str) :
    [openLine (c! "call_sign"), valueLine (l.debugStr s)] <:+: cutLines t ↔ ∃ d, a = .ok (.vesselStaticData d) ∧ d.callSign = some s := by
  rw [answer_open hl ha ht ⟨⟨_, _, rfl, by decide⟩, by decide, by decide⟩]
  constructor
  · rintro ⟨r, rfl, hf⟩
    cases r <;> row_fields hf
    obtain ⟨x, e, hx⟩ := option_some hf
    exact ⟨_, rfl, by rw [e, (shown_str hl).inj _ _ trivial trivial hx]⟩
  · rintro ⟨d, rfl, e⟩
    refine ⟨_, rfl, ?_⟩
    row_field
    rw [e]
    rfl

/-- C172: the lines with a destination, one after the other, are in the text of exactly the static reports with that destination. -/
theorem C172_destination (l : Library) (hl : LibraryOk l) (h : List (Env × Str)) (a : Answer) (ha : a ∈ answers Parser.new h)
    (t : Str) (ht : prettyAnswer l a = some t) (s : Str) :
    [openLine (c! "destination"), valueLine (l.debugStr s)] <:+: cutLines t ↔ ∃ d, a = .ok (.vesselStaticData d) ∧ d.destination = some s := by
  rw [answer_open hl ha ht ⟨⟨_, _, rfl, by decide⟩, by decide, by decide⟩]
  constructor
  · rintro ⟨r, rfl, hf⟩
    cases r <;> row_fields hf
    obtain ⟨x, e, hx⟩ := option_some hf
    exact ⟨_, rfl, by rw [e, (shown_str hl).inj _ _ trivial trivial hx]⟩
  · rintro ⟨d, rfl, e⟩
    refine ⟨_, rfl, ?_⟩
    row_field
    rw [e]
    rfl

/-- A name, not its beginning. -/
example (l : Library) (hl : LibraryOk l) : ∃ a ∈ answers Parser.new [(demoEnv, c! "!AIVDM,1,1,,A,539p4OT00000@7W3K@08ThiLE8@E:222222222220O0000000000000000000000000000,0")],
    ∃ t, prettyAnswer l a = some t ∧
      [c! "            name: Some(", c! "                " ++ l.debugStr (c! "BILLWERDER") ++ c! ","] <:+: cutLines t ∧
      ¬ [c! "            name: Some(", c! "                " ++ l.debugStr (c! "BILLWERDE") ++ c! ","] <:+: cutLines t := by
  obtain ⟨r, hr, e⟩ := demoSearched (s := c! "!AIVDM,1,1,,A,539p4OT00000@7W3K@08ThiLE8@E:222222222220O0000000000000000000000000000,0")
    (fun r => match r with | .vesselStaticData d => decide (d.name = some (c! "BILLWERDER")) | _ => false) (by decide +kernel)
  cases r <;> try cases e
  refine ⟨_, hr, _, rfl, (C172_name l hl _ _ hr _ rfl _).2 ⟨_, rfl, of_decide_eq_true e⟩, fun h => ?_⟩
  obtain ⟨d, e1, e2⟩ := (C172_name l hl _ _ hr _ rfl (c! "BILLWERDE")).1 h
  cases e1
  rw [of_decide_eq_true e] at e2
  exact absurd e2 (by decide)

/-- A call sign. -/
example (l : Library) (hl : LibraryOk l) : ∃ a ∈ answers Parser.new [(demoEnv, c! "!AIVDM,1,1,,A,539p4OT00000@7W3K@08ThiLE8@E:222222222220O0000000000000000000000000000,0")],
    ∃ t, prettyAnswer l a = some t ∧
      [c! "            call_sign: Some(", c! "                " ++ l.debugStr (c! "DA9064") ++ c! ","] <:+: cutLines t := by
  obtain ⟨r, hr, e⟩ := demoSearched (s := c! "!AIVDM,1,1,,A,539p4OT00000@7W3K@08ThiLE8@E:222222222220O0000000000000000000000000000,0")
    (fun r => match r with | .vesselStaticData d => decide (d.callSign = some (c! "DA9064")) | _ => false) (by decide +kernel)
  cases r <;> try cases e
  exact ⟨_, hr, _, rfl, (C172_call_sign l hl _ _ hr _ rfl _).2 ⟨_, rfl, of_decide_eq_true e⟩⟩

/-- A destination. -/
example (l : Library) (hl : LibraryOk l) : ∃ a ∈ answers Parser.new [(demoEnv, c! "!AIVDM,1,1,,A,55?MbV02;H;s<HtKR20EHE:0@T4@Dn2222222216L961O5Gf0NSQEp6ClRp888888888880,2")],
    ∃ t, prettyAnswer l a = some t ∧
      [c! "            destination: Some(", c! "                " ++ l.debugStr (c! "NEW YORK") ++ c! ","] <:+: cutLines t := by
  obtain ⟨r, hr, e⟩ := demoSearched (s := c! "!AIVDM,1,1,,A,55?MbV02;H;s<HtKR20EHE:0@T4@Dn2222222216L961O5Gf0NSQEp6ClRp888888888880,2")
    (fun r => match r with | .vesselStaticData d => decide (d.destination = some (c! "NEW YORK")) | _ => false) (by decide +kernel)
  cases r <;> try cases e
  exact ⟨_, hr, _, rfl, (C172_destination l hl _ _ hr _ rfl _).2 ⟨_, rfl, of_decide_eq_true e⟩⟩

/-! ### Outcomes -/

theorem outer_count {k : Str} (v : DebugCalls) (x : Str) (hk : '\n' ∉ k) (hx : x.head? ≠ some ' ') (hb : x ≠ c! ")") :
    (cutLines (DebugCalls.tuple k v).pretty).count x = if k ++ c! "(" = x then 1 else 0 := by
  have e := tuple_block [] k v []
  rw [List.nil_append, List.nil_append, List.append_nil, List.append_nil] at e
  rw [e, block_lines _ (by simp only [List.mem_append, not_or]; exact ⟨hk, by decide⟩) (by decide), List.count_cons, List.count_append,
    List.count_singleton, if_neg (by simpa using hb.symm), List.count_eq_zero.mpr]
  · simp
  · intro hm
    obtain ⟨p, -, hm⟩ := List.mem_flatMap.mp hm
    obtain ⟨y, -, rfl⟩ := List.mem_map.mp hm
    exact hx rfl

/-- C172: the number of lines `Ok(` in a log is the number of sentences that were accepted, and that of lines `Err(` the number of
those that were refused. -/
theorem C172_outcomes (l : Library) (h : List (Env × Str)) :
    (cutLines (prettyLog l (answers Parser.new h))).count (c! "Ok(") =
      (answers Parser.new h).countP (fun a => match a with | .ok _ => true | _ => false) ∧
    (cutLines (prettyLog l (answers Parser.new h))).count (c! "Err(") =
      (answers Parser.new h).countP (fun a => match a with | .err _ => true | _ => false) := by
  constructor
  · refine log_count _ (by decide) _ (fun a _ t ht => ?_) fun a _ ht => ?_
    · cases a <;> cases ht <;> exact outer_count _ _ (by decide) (by decide) (by decide)
    · cases a <;> first | rfl | cases ht
  · refine log_count _ (by decide) _ (fun a _ t ht => ?_) fun a _ ht => ?_
    · cases a <;> cases ht <;> exact outer_count _ _ (by decide) (by decide) (by decide)
    · cases a <;> first | rfl | cases ht

theorem inner_count {k : Str} (v : DebugCalls) (hk : '\n' ∉ k) :
    (cutLines ((DebugCalls.tuple k v).pretty ++ c! ",")).count (c! "Incomplete,") = 0 := by
  rw [List.count_eq_zero]
  intro hm
  have e := tuple_block [] k v (c! ",")
  rw [List.nil_append, List.nil_append] at e
  rw [e] at hm
  rcases block_outer (by simp only [List.mem_append, not_or]; exact ⟨hk, by decide⟩) (by decide) (by decide) hm with h | h
  · exact absurd (List.append_inj' (show c! "Incomplete" ++ [','] = k ++ ['('] from h) rfl).2 (by decide)
  · exact absurd h (by decide)

/-- C172: the number of lines `Incomplete,` is the number of sentences that wait for others. -/
theorem C172_waiting (l : Library) (h : List (Env × Str)) :
    (cutLines (prettyLog l (answers Parser.new h))).count (c! "    Incomplete,") =
      (answers Parser.new h).countP (fun a => match a with | .ok .incomplete => true | _ => false) := by
  refine log_count _ (by decide) _ (fun a _ t ht => ?_) fun a _ ht => ?_
  · cases a with
    | panic => cases ht
    | err e =>
      cases ht
      have h0 := tuple_count (k := c! "Err") (e.calls l) [] (c! "Incomplete,") (by decide) (by decide) (by decide)
      rw [List.append_nil] at h0
      refine h0.trans ?_
      cases e <;> exact inner_count _ (by decide)
    | ok r =>
      cases ht
      have h0 := tuple_count (k := c! "Ok") (r.calls l) [] (c! "Incomplete,") (by decide) (by decide) (by decide)
      rw [List.append_nil] at h0
      refine h0.trans ?_
      cases r <;> first | exact inner_count _ (by decide) | (rw [ParsedSentence.calls, DebugCalls.pretty, cutLines_line (by decide)]; rfl)
  · cases a with
    | panic => rfl
    | err e => cases ht
    | ok r => cases ht

/-- Accepted, refused, waiting. -/
example (l : Library) : let t := prettyLog l (answers Parser.new [(demoEnv, c! "!AIVDM,1,1,,B,403OviQuMGCqWrRO9>E6fE700@GO,0"),
      (demoEnv, c! "hello"), (demoEnv, c! "!AIVDM,2,1,1,A,55?MbV02;H;s<HtKR20EHE:0@T4@Dn2222222216L961O5Gf0NSQEp6ClRp8,0*1C")])
    (cutLines t).count (c! "Ok(") = 2 ∧ (cutLines t).count (c! "Err(") = 1 ∧ (cutLines t).count (c! "    Incomplete,") = 1 := by
  refine ⟨(C172_outcomes l _).1.trans ?_, (C172_outcomes l _).2.trans ?_, (C172_waiting l _).trans ?_⟩ <;> decide +kernel

end Nmea
