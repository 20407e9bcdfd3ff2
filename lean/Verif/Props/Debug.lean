/-
C143: the text of an answer printed with `{:?}` identifies the answer. C144: it stays on one line.
-/
import Verif.Lemmas.DebugReports
import Verif.Props.Complete
import Verif.Props.Ranges
import Verif.Props.Doubles
import Verif.Props.Errors
import Verif.Spec.Demo

namespace Nmea
open Spec

/-! ### Reported numbers are doubles -/

theorem doubles_none {x : Option F64} (h : x = none) : Doubles x := by
  rintro d rfl
  cases h

theorem doubles_rounded {q : Rat} {x : Option F64} (h : Rounded q x) : Doubles x := by
  obtain ⟨d, rfl, hd⟩ := h
  rintro _ ⟨⟩
  exact roundsTo_isDouble hd

theorem doubles_degrees {na raw : Int} {x : Option F64} (h : Degrees na raw x) : Doubles x := by
  unfold Degrees at h
  split at h
  · exact doubles_none h
  · exact doubles_rounded h

theorem doubles_tenths {raw : Nat} {x : Option F64} (h : Tenths raw x) : Doubles x := by
  obtain ⟨_, _, h⟩ := h
  exact doubles_rounded h

theorem doubles_speed {raw : Nat} {x : Option F64} (h : Speed raw x) : Doubles x := by
  unfold Speed at h
  split at h
  · exact doubles_none h
  · exact doubles_tenths h

theorem doubles_course {raw : Nat} {x : Option F64} (h : Course raw x) : Doubles x := by
  unfold Course at h
  split at h
  · exact doubles_none h
  · exact doubles_tenths h

theorem doubles_heading {raw : Nat} {x : Option F64} (h : Heading raw x) : Doubles x := by
  unfold Heading at h
  split at h
  · exact doubles_none h
  · exact doubles_rounded h

theorem double_signed {neg : Bool} {q : Rat} (h : IsDouble (.fin false q)) : IsDouble (.fin neg q) := by
  cases h with | fin _ _ h1 h2 => exact .fin _ _ h1 h2

theorem doubles_turn {raw : Int} {x : Option F64} (h : Turn raw x) : Doubles x := by
  unfold Turn at h
  split at h
  · obtain ⟨mag, ⟨_, _, _, _, _, _, hm⟩, rfl⟩ := h
    rintro _ ⟨⟩
    exact double_signed (roundsTo_isDouble hm)
  · exact doubles_none h

theorem doubles_pos {k : Nat} {minus : Char} {s hemi : Str} {x : Option F64} (h : PosField k minus s hemi x) :
    Doubles x := by
  rcases h with ⟨-, h⟩ | ⟨_, _, r, -, hr, rfl⟩
  · exact doubles_none h
  · rintro _ ⟨⟩
    obtain ⟨_, _, -, -, hr⟩ := hr
    exact double_signed (roundsTo_isDouble hr)

theorem doubles_num {s : Str} {x : Option F64} (h : NumField s x) : Doubles x := by
  rintro d rfl
  exact numField_double h

theorem doubles_variation {s side : Str} {x : Option F64} (h : VariationField s side x) : Doubles x := by
  rintro d rfl
  exact variation_double h

theorem doubles_lenient {s : Str} {x : Option F64} (h : LenientField s x) : Doubles x := by
  rintro d rfl
  exact lenient_double h

/-- The numbers and dates of the report. -/
def ParsedSentence.Sound : ParsedSentence → Prop
  | .vesselDynamicData d => d.Sound
  | .vesselStaticData d => d.Sound
  | .baseStationReport d => d.Sound
  | .standardSarAircraftPositionReport d => d.Sound
  | .aidToNavigationReport d => d.Sound
  | .gga d => d.Sound
  | .rmc d => d.Sound
  | .gsa d => d.Sound
  | .vtg d => d.Sound
  | .gll d => d.Sound
  | _ => True

theorem shown_message {env : Env} {m m' : Memory} {talker payload : Str} {own : Bool} {r : ParsedSentence}
    (h : MessageReply env m talker own payload (.ok r) m') (hr : InRange r) : r.Sound := by
  generalize ha : (Out.ok r : Answer) = a at h
  cases h with
  | unreadable => cases ha
  | unsupportedType => cases ha
  | otherPart => cases ha
  | firstPart => cases ha; trivial
  | secondPart => cases ha; exact ⟨hr.eta⟩
  | report x a _ _ _ hx =>
    subst ha
    cases x with
    | positionA m =>
      obtain ⟨d, hd, -, -, -, -, -, h1, -, h2, -, h3, h4, h5, h6, -⟩ := hx
      cases hd
      exact ⟨doubles_turn h1, doubles_speed h2, doubles_degrees h3, doubles_degrees h4, doubles_course h5,
        doubles_heading h6⟩
    | base m =>
      simp only [AisMessage.Tells] at hx
      split at hx
      · obtain ⟨d, hd, -, -, -, h0, -, h1, h2, -⟩ := hx
        cases hd
        obtain ⟨t, ht, hv⟩ := hr.timestamp
        exact ⟨fun u hu => by rw [ht] at hu; cases hu; exact hv, doubles_degrees h1, doubles_degrees h2⟩
      · cases hx
    | voyage m =>
      simp only [AisMessage.Tells] at hx
      split at hx
      · cases hx
        exact ⟨hr.eta⟩
      · cases hx
    | addressed m => cases hx; trivial
    | aircraft m =>
      obtain ⟨d, hd, -, -, -, -, -, -, h1, h2, h3, -⟩ := hx
      cases hd
      exact ⟨doubles_degrees h1, doubles_degrees h2, doubles_course h3⟩
    | inquiry m => cases hx; trivial
    | positionB m =>
      obtain ⟨d, hd, -, -, -, -, h1, -, h2, h3, h4, h5, -, -, -, -, -, -, -, -, -, -, -, h6, -⟩ := hx
      cases hd
      exact ⟨doubles_none h6, doubles_speed h1, doubles_degrees h2, doubles_degrees h3, doubles_course h4,
        doubles_heading h5⟩
    | aid m =>
      obtain ⟨d, hd, -, -, -, -, -, -, h1, h2, -⟩ := hx
      cases hd
      exact ⟨doubles_degrees h1, doubles_degrees h2⟩
    | staticA m => cases hx
    | staticB m => cases hx
    | longRange m =>
      obtain ⟨d, hd, -, -, -, -, -, -, -, h1, h2, ⟨h3, h4⟩, -, h5, -, h6, -⟩ := hx
      cases hd
      refine ⟨doubles_none h5, ?_, doubles_rounded h1, doubles_rounded h2, ?_, doubles_none h6⟩
      · split at h3
        · exact doubles_none h3
        · exact doubles_rounded h3
      · split at h4
        · exact doubles_none h4
        · exact doubles_tenths h4

theorem sound_reply {env : Env} {m m' : Memory} {s : Str} {r : ParsedSentence} (h : Reply env m s (.ok r) m')
    (hr : InRange r) : r.Sound := by
  generalize ha : (Out.ok r : Answer) = a at h
  cases h with
  | gga _ _ d _ hd =>
    cases ha
    exact ⟨hr.1, doubles_pos hd.latitude, doubles_pos hd.longitude, doubles_num hd.hdop, doubles_num hd.altitude,
      doubles_num hd.geoid, doubles_num hd.age⟩
  | rmc _ _ d _ hd =>
    cases ha
    exact ⟨hr.1, doubles_pos hd.latitude, doubles_pos hd.longitude, doubles_num hd.speed, doubles_num hd.bearing,
      doubles_variation hd.variation⟩
  | gsa _ _ d _ hd => cases ha; exact ⟨doubles_num hd.pdop, doubles_num hd.hdop, doubles_num hd.vdop⟩
  | vtg _ _ d _ hd =>
    cases ha
    exact ⟨doubles_lenient hd.courseTrue, doubles_lenient hd.courseMagnetic, doubles_lenient hd.knots,
      doubles_lenient hd.kph⟩
  | gll _ _ d _ hd => cases ha; exact ⟨doubles_pos hd.latitude, doubles_pos hd.longitude, hr.1⟩
  | single _ _ _ _ _ _ hm => subst ha; exact shown_message hm hr
  | part1 _ _ _ _ _ _ _ _ _ _ hm => subst ha; exact shown_message hm hr
  | part2 _ _ _ _ _ _ _ _ _ _ hm => subst ha; exact shown_message hm hr
  | gsvHuge =>
    split at ha
    · cases ha
    · cases ha; trivial
  | countOnly =>
    split at ha
    · cases ha
    · cases ha; trivial
  | _ => first | (cases ha; done) | (cases ha; trivial)

theorem sound_dialogue {m m' : Memory} {h : List (Env × Str)} {as : List Answer} (hd : Dialogue m h as m')
    {a : Answer} (ha : a ∈ as) : ∃ env m s m', Reply env m s a m' := by
  induction hd with
  | nil => cases ha
  | cons h1 h2 ih =>
    rcases List.mem_cons.1 ha with rfl | ha
    · exact ⟨_, _, _, _, h1⟩
    · exact ih ha

theorem sound_answer {h : List (Env × Str)} {r : ParsedSentence} (hr : .ok r ∈ answers Parser.new h) : r.Sound := by
  obtain ⟨m, hm⟩ := (C141_complete h _).2 rfl
  obtain ⟨_, _, _, _, h1⟩ := sound_dialogue hm hr
  exact sound_reply h1 (C98_history h r hr)

/-! ### Reports, errors and answers -/

theorem shown_ParsedSentence {l : Library} (hl : LibraryOk l) : Shown (ParsedSentence.debug l) ParsedSentence.Sound := by
  have hv := (shown_GsvData hl).vec
  refine ⟨?_, ?_, ?_, ?_⟩
  · rintro (_ | d | d | d | d | d | d | d | d | d | d | d | d | d) h
    · exact passes_neutral (v := c! "Incomplete") (by decide)
    · exact passes_tuple (by decide) (((shown_VesselDynamicData hl).passes d h).mono (by omega))
    · exact passes_tuple (by decide) (((shown_VesselStaticData hl).passes d h).mono (by omega))
    · exact passes_tuple (by decide) (((shown_BaseStationReport hl).passes d h).mono (by omega))
    · exact passes_tuple (by decide) (((shown_BinaryAddressedMessage hl).passes d h).mono (by omega))
    · exact passes_tuple (by decide) (((shown_StandardSarAircraftPositionReport hl).passes d h).mono (by omega))
    · exact passes_tuple (by decide) (((shown_UtcDateInquiry hl).passes d h).mono (by omega))
    · exact passes_tuple (by decide) (((shown_AidToNavigationReport hl).passes d h).mono (by omega))
    · exact passes_tuple (by decide) (((shown_GgaData hl).passes d h).mono (by omega))
    · exact passes_tuple (by decide) (((shown_RmcData hl).passes d h).mono (by omega))
    · exact passes_tuple (by decide) (((shown_GsaData hl).passes d h).mono (by omega))
    · exact passes_tuple (by decide) ((hv.passes d fun _ _ => trivial).mono (by omega))
    · exact passes_tuple (by decide) (((shown_VtgData hl).passes d h).mono (by omega))
    · exact passes_tuple (by decide) (((shown_GllData hl).passes d h).mono (by omega))
  · rintro (_ | d | d | d | d | d | d | d | d | d | d | d | d | d) h <;> simp [ParsedSentence.debug, debugTuple]
  · rintro (_ | d | d | d | d | d | d | d | d | d | d | d | d | d) h
    · exact (by decide : OneLine (c! "Incomplete"))
    · exact line_tuple (by decide) ((shown_VesselDynamicData hl).line d h)
    · exact line_tuple (by decide) ((shown_VesselStaticData hl).line d h)
    · exact line_tuple (by decide) ((shown_BaseStationReport hl).line d h)
    · exact line_tuple (by decide) ((shown_BinaryAddressedMessage hl).line d h)
    · exact line_tuple (by decide) ((shown_StandardSarAircraftPositionReport hl).line d h)
    · exact line_tuple (by decide) ((shown_UtcDateInquiry hl).line d h)
    · exact line_tuple (by decide) ((shown_AidToNavigationReport hl).line d h)
    · exact line_tuple (by decide) ((shown_GgaData hl).line d h)
    · exact line_tuple (by decide) ((shown_RmcData hl).line d h)
    · exact line_tuple (by decide) ((shown_GsaData hl).line d h)
    · exact line_tuple (by decide) (hv.line d fun _ _ => trivial)
    · exact line_tuple (by decide) ((shown_VtgData hl).line d h)
    · exact line_tuple (by decide) ((shown_GllData hl).line d h)
  · intro x y hx hy e
    cases x <;> cases y <;> first
      | rfl
      | (exfalso; simp [ParsedSentence.debug, debugTuple] at e; done)
      | (congr 1
         first
          | exact (shown_VesselDynamicData hl).inj _ _ hx hy (tuple_inj e)
          | exact (shown_VesselStaticData hl).inj _ _ hx hy (tuple_inj e)
          | exact (shown_BaseStationReport hl).inj _ _ hx hy (tuple_inj e)
          | exact (shown_BinaryAddressedMessage hl).inj _ _ hx hy (tuple_inj e)
          | exact (shown_StandardSarAircraftPositionReport hl).inj _ _ hx hy (tuple_inj e)
          | exact (shown_UtcDateInquiry hl).inj _ _ hx hy (tuple_inj e)
          | exact (shown_AidToNavigationReport hl).inj _ _ hx hy (tuple_inj e)
          | exact (shown_GgaData hl).inj _ _ hx hy (tuple_inj e)
          | exact (shown_RmcData hl).inj _ _ hx hy (tuple_inj e)
          | exact (shown_GsaData hl).inj _ _ hx hy (tuple_inj e)
          | exact hv.inj _ _ (fun _ _ => trivial) (fun _ _ => trivial) (tuple_inj e)
          | exact (shown_VtgData hl).inj _ _ hx hy (tuple_inj e)
          | exact (shown_GllData hl).inj _ _ hx hy (tuple_inj e))

theorem shown_ParseError {l : Library} (hl : LibraryOk l) : Shown (ParseError.debug l) (fun _ => True) := by
  have hs := shown_str hl
  refine ⟨?_, ?_, ?_, ?_⟩
  · rintro (s | s | s) _ <;> exact passes_tuple (by decide) ((hs.passes s trivial).mono (by omega))
  · rintro (s | s | s) _ <;> simp [ParseError.debug, debugTuple]
  · rintro (s | s | s) _ <;> exact line_tuple (by decide) (hs.line s trivial)
  · rintro (s | s | s) (u | u | u) _ _ e <;> first
      | (congr 1; exact hs.inj _ _ trivial trivial (tuple_inj e))
      | (exfalso; simp [ParseError.debug, debugTuple] at e)


theorem shown_answer {l : Library} (hl : LibraryOk l) {h1 h2 : List (Env × Str)} {a b : Answer}
    (ha : a ∈ answers Parser.new h1) (hb : b ∈ answers Parser.new h2) (e : debugAnswer l a = debugAnswer l b) : a = b := by
  match a, b with
  | .ok r, .ok r' =>
    rw [(shown_ParsedSentence hl).inj r r' (sound_answer ha) (sound_answer hb) (tuple_inj (Option.some.inj e))]
  | .err x, .err y => rw [(shown_ParseError hl).inj x y trivial trivial (tuple_inj (Option.some.inj e))]
  | .panic, .panic => rfl
  | .ok _, .err _ => simp [debugAnswer, debugTuple] at e
  | .err _, .ok _ => simp [debugAnswer, debugTuple] at e
  | .ok _, .panic => cases e
  | .err _, .panic => cases e
  | .panic, .ok _ => cases e
  | .panic, .err _ => cases e

/-- C143: reports with the same text are the same: every field of every report, of any two histories, can be told from the
text that `{:?}` gives. -/
theorem C143_report (l : Library) (hl : LibraryOk l) (h1 h2 : List (Env × Str)) (r1 r2 : ParsedSentence)
    (hr1 : .ok r1 ∈ answers Parser.new h1) (hr2 : .ok r2 ∈ answers Parser.new h2) : r1.debug l = r2.debug l ↔ r1 = r2 :=
  ⟨(shown_ParsedSentence hl).inj r1 r2 (sound_answer hr1) (sound_answer hr2), fun h => by rw [h]⟩

/-- C143: so are answers, errors included. -/
theorem C143_answer (l : Library) (hl : LibraryOk l) (h1 h2 : List (Env × Str)) (a b : Answer)
    (ha : a ∈ answers Parser.new h1) (hb : b ∈ answers Parser.new h2) : debugAnswer l a = debugAnswer l b ↔ a = b :=
  ⟨shown_answer hl ha hb, fun h => by rw [h]⟩

/-- C144: the text of an answer stays on one line, whatever the sentences contained. -/
theorem C144_one_line (l : Library) (hl : LibraryOk l) (h : List (Env × Str)) (a : Answer) (ha : a ∈ answers Parser.new h)
    (t : Str) (ht : debugAnswer l a = some t) : OneLine t := by
  match a with
  | .ok r =>
    cases ht
    exact line_tuple (by decide) ((shown_ParsedSentence hl).line r (sound_answer ha))
  | .err e =>
    cases ht
    exact line_tuple (by decide) ((shown_ParseError hl).line e trivial)
  | .panic => cases ht

/-! ### Examples -/

/-- There is such a library. -/
theorem library_exists : ∃ l, LibraryOk l := by
  have h : ∀ x, ∃ t, IsDouble x → NumberText t x := by
    intro x
    by_cases hx : IsDouble x
    · obtain ⟨t, ht, -⟩ := double_text hx
      exact ⟨t, fun _ => ht⟩
    · exact ⟨[], fun h => absurd h hx⟩
  choose f hf using h
  exact ⟨⟨f, fun c => c! "\\u{" ++ Nat.toDigits 16 c.toNat ++ c! "}"⟩, hf, fun c _ => .inr (.inl rfl)⟩

/-- A date inquiry, a line break in a sentence that is no sentence, and a GNSS sentence. -/
def demoLines : List (Env × Str) :=
  [(demoEnv, c! "!AIVDM,1,1,,B,:5MlU41GMK6@,0*6C"), (demoEnv, c! "hel\nlo"), (demoEnv, c! "$GPVTG,1,T,,M,nan,N,,K,A")]

theorem demoLines_answers : answers Parser.new demoLines =
    [.ok (.utcDateInquiry ⟨false, .mobileStation, 366814480, 366832740⟩),
     .err (.invalidSentence (c! "Invalid NMEA sentence: hel\nlo")),
     .ok (.vtg ⟨.gps, some (.fin false 1), none, some .nan, none, some .autonomous⟩)] := by decide +kernel

theorem demoLines_debug (l : Library) : (answers Parser.new demoLines).map (debugAnswer l) =
    [some (c! "Ok(UtcDateInquiry(UtcDateInquiry { own_vessel: false, station: MobileStation, source_mmsi: 366814480, \
        destination_mmsi: 366832740 }))"),
     some (c! "Err(InvalidSentence(\"Invalid NMEA sentence: hel\\nlo\"))"),
     some (c! "Ok(Vtg(VtgData { source: Gps, cog_true: Some(" ++ l.double (.fin false 1) ++
       c! "), cog_magnetic: None, sog_knots: Some(" ++ l.double .nan ++
       c! "), sog_kph: None, faa_mode: Some(Autonomous) }))")] := by
  rw [demoLines_answers]
  simp only [List.map_cons, List.map_nil, List.cons.injEq, and_true]
  refine ⟨by rfl, by rfl, ?_⟩
  simp [debugAnswer, ParsedSentence.debug, VtgData.debug, debugTuple, debugStruct, debugEntries, debugOption,
    NavigationSystem.debug, FaaMode.debug]

example : ∃ l, LibraryOk l ∧ ∃ t, .ok t ∈ answers Parser.new demoLines ∧ ∃ u, .ok u ∈ answers Parser.new demoLines ∧
    t.debug l ≠ u.debug l := by
  obtain ⟨l, hl⟩ := library_exists
  have h1 : Out.ok (ParsedSentence.utcDateInquiry ⟨false, .mobileStation, 366814480, 366832740⟩) ∈
      answers Parser.new demoLines := by rw [demoLines_answers]; simp
  have h2 : Out.ok (ParsedSentence.vtg ⟨.gps, some (.fin false 1), none, some .nan, none, some .autonomous⟩) ∈
      answers Parser.new demoLines := by rw [demoLines_answers]; simp
  refine ⟨l, hl, _, h1, _, h2, fun e => ?_⟩
  have := (C143_report l hl _ _ _ _ h1 h2).1 e
  cases this

/-- Two reports of an aid to navigation that differ in the accuracy of the position only, ... -/
def demoMark (accurate : Bool) : AidToNavigationReport :=
  ⟨false, .mobileStation, 123456789, .cardinalMarkNorth, c! "CHINA ROSE MURPHY EXPRESS ALERT", accurate,
    some (.fin false (6744227464667617 / 140737488355328)), some (.fin true (8634145807951323 / 70368744177664)),
    some 5, some 5, some 5, some 5, some .gps, 50, false, 165, false, false, false⟩

def demoMarkLines (accurate : Bool) : List (Env × Str) :=
  [(demoEnv, c! "!AIVDM,2,1,5,B,E1mg=5J1T4W0h97aRh6ba84<h2d" ++ (if accurate then 'K' else ';') :: c! "W:Te=eLvH50```q,0"),
   (demoEnv, c! "!AIVDM,2,2,5,B,:D44QDlp0C1DU00,2")]

theorem demoMark_answers (b : Bool) :
    answers Parser.new (demoMarkLines b) = [.ok .incomplete, .ok (.aidToNavigationReport (demoMark b))] := by
  cases b <;> decide +kernel

/-- ... which is a private field: the texts of the reports show it, no method does. -/
example (l : Library) (hl : LibraryOk l) : (ParsedSentence.aidToNavigationReport (demoMark true)).debug l ≠
    (ParsedSentence.aidToNavigationReport (demoMark false)).debug l := by
  have h : ∀ b, .ok (.aidToNavigationReport (demoMark b)) ∈ answers Parser.new (demoMarkLines b) := by
    intro b
    rw [demoMark_answers]
    simp
  intro e
  have h1 := (C143_report l hl _ _ _ _ (h true) (h false)).1 e
  have h2 : ParsedSentence.aidToNavigationReport (demoMark true) ≠ .aidToNavigationReport (demoMark false) := by decide +kernel
  exact h2 h1

example (l : Library) (hl : LibraryOk l) : ∀ a ∈ answers Parser.new demoLines, ∃ t, debugAnswer l a = some t ∧ OneLine t := by
  intro a ha
  have h := C144_one_line l hl _ a ha
  have hs : ∃ t, debugAnswer l a = some t := by
    rw [demoLines_answers] at ha
    simp only [List.mem_cons, List.not_mem_nil, or_false] at ha
    rcases ha with rfl | rfl | rfl <;> exact ⟨_, rfl⟩
  obtain ⟨t, ht⟩ := hs
  exact ⟨t, ht, h t ht⟩

/-- C144: the text of an error without `{:?}` need not: a sentence without comma is quoted with its line breaks. -/
theorem C144_to_string (env : Env) (p : Parser) (body : Str) (e : Ending) (hf : Framed body e) (hc : ',' ∉ body) :
    ∃ x, (parseSentence env p (finish body e)).1 = .err x ∧ x.toStr = c! "Invalid NMEA sentence: " ++ body ∧
      (OneLine x.toStr ↔ OneLine body) := by
  refine ⟨_, C89_no_comma env p body e hf hc, rfl, fun h c hc => h c (List.mem_append_right _ hc), fun h => ?_⟩
  exact oneLine_append (s := c! "Invalid NMEA sentence: ") (by decide) h

example : Framed (c! "hel\nlo") .bare ∧ ',' ∉ c! "hel\nlo" ∧ ¬ OneLine (c! "hel\nlo") := by decide

end Nmea
