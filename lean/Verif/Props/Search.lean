/-
C170: searching logs of `{:?}` for the value of a field finds exactly the reports with that value; errors can be made to contain
any text.
-/
import Verif.Spec.Search
import Verif.Lemmas.Search
import Verif.Props.DebugWords

namespace Nmea
open Spec

/-! ### Occurrences -/

theorem last_blank {p q a b : Str} (e : p ++ ' ' :: a = q ++ ' ' :: b) (ha : ' ' ∉ a) (hb : ' ' ∉ b) : a = b := by
  rcases List.append_eq_append_iff.mp e with ⟨c, -, h⟩ | ⟨c, -, h⟩
  · match c, h with
    | [], h => exact (List.cons.inj h).2
    | x :: c, h => exact absurd (by rw [(List.cons.inj h).2]; simp) ha
  · match c, h with
    | [], h => exact (List.cons.inj h).2.symm
    | x :: c, h => exact absurd (by rw [(List.cons.inj h).2]; simp) hb

theorem word_unique {v w r r' : Str} {stop : Char} (hv : OneWord v) (hw : OneWord w) (hs : stop ∈ [',', ' '])
    (e : w ++ ',' :: r' = v ++ stop :: r) : w = v := by
  have hs' : stop = ',' ∨ stop = ' ' := by simpa using hs
  rcases List.append_eq_append_iff.mp e with ⟨c, h1, h⟩ | ⟨c, h1, h⟩
  · match c, h with
    | [], _ => simpa using h1.symm
    | x :: c, h =>
      obtain ⟨rfl, -⟩ := List.cons.inj h
      exact absurd (by rw [h1]; simp) hv.1
  · match c, h with
    | [], _ => simpa using h1
    | x :: c, h =>
      obtain ⟨rfl, -⟩ := List.cons.inj h
      have : stop ∈ w := by rw [h1]; simp
      rcases hs' with rfl | rfl
      · exact absurd this hw.1
      · exact absurd this hw.2

theorem found_marks {S : List (Str × Str)} {t name w : Str} (h : Marks S t) (hS : ∀ f ∈ S, ' ' ∉ f.1) (hn : EndsLow name)
    (hb : ' ' ∉ name) (hf : Found name w t) :
    ∃ f ∈ S, f.1 = name ∧ ∃ stop ∈ [',', ' '], ∃ r r', w ++ ',' :: r' = f.2 ++ stop :: r := by
  obtain ⟨x, y, rfl⟩ := hf
  have hne : name ≠ [] := by
    rintro rfl
    obtain ⟨b, c, e, -⟩ := hn
    simp at e
  obtain ⟨f, hf, pre, stop, rest, h1, h2, h3⟩ := h (x ++ ' ' :: name) (' ' :: (w ++ ',' :: y)) (by simp)
    (by
      rw [show x ++ ' ' :: name = (x ++ [' ']) ++ name by simp]
      exact (endsLow_append hne).mpr hn)
  exact ⟨f, hf, (last_blank h2 hb (hS f hf)).symm, stop, h1, rest, y, (List.cons.inj h3).2⟩

theorem found_entries (fs : List (Str × Str)) (f : Str × Str) (h : f ∈ fs.dropLast) :
    Found f.1 f.2 (' ' :: debugEntries (fs.map fun f => f.1 ++ c! ": " ++ f.2)) := by
  induction fs with
  | nil => cases h
  | cons a fs ih =>
    match fs, ih, h with
    | [], _, h => cases h
    | b :: fs, ih, h =>
      rw [List.dropLast_cons_cons] at h
      rcases List.mem_cons.mp h with rfl | h
      · exact ⟨[], ' ' :: debugEntries ((b :: fs).map fun f => f.1 ++ c! ": " ++ f.2), by simp [debugEntries]⟩
      · refine (ih h).trans ⟨' ' :: (a.1 ++ c! ": " ++ a.2 ++ c! ","), [], ?_⟩
        simp [debugEntries]

theorem found_struct {fs : List (Str × Str)} (k k' : Str) {n v : Str} (h : (n, v) ∈ fs.dropLast) :
    Found n v (debugTuple k (debugStruct k' fs)) := by
  refine (found_entries fs (n, v) h).trans (List.IsInfix.trans ?_ (tuple_infix k _))
  exact ⟨k' ++ c! " {", c! " }", by simp [debugStruct]⟩

theorem marks_gsv (l : Library) (v : List GsvData) : Marks (v.flatMap fun d => d.shownFields l) (debugVec (GsvData.debug l) v) := by
  have one : ∀ d ∈ v, Marks (v.flatMap fun d => d.shownFields l) (d.debug l) := fun d hd => by
    rw [GsvData.debug_eq]
    exact marks_struct (by decide) (by simp [GsvData.shownFields])
      (fun f hf => List.mem_flatMap.mpr ⟨d, hd, hf⟩) fun f hf => ⟨(GsvData.quiet f hf).1.1, (GsvData.quiet f hf).2⟩
  have key : ∀ (S : List (Str × Str)) (w : List GsvData), (∀ d ∈ w, Marks S (d.debug l)) →
      Marks S (debugEntries (w.map (GsvData.debug l)) ++ c! "]") := by
    intro S w hw
    induction w with
    | nil => exact marks_quiet (marks_none (t := c! "]") (by decide))
    | cons d w ih =>
      match w, ih with
      | [], _ => exact marks_append (hw d (by simp)) (marks_quiet (marks_none (by decide))) (.inr (by decide))
      | e :: w, ih =>
        have h1 := marks_append (marks_append (hw d (by simp)) (marks_quiet (marks_none (t := c! ", ") (by decide)))
          (.inr (by decide))) (ih fun x hx => hw x (List.mem_cons_of_mem _ hx))
          (.inl (by
            rw [show d.debug l ++ c! ", " = (d.debug l ++ c! ",") ++ [' '] by simp]
            exact not_endsLow (by decide)))
        simpa [debugEntries] using h1
  have h2 := marks_append (marks_quiet (S := v.flatMap fun d => d.shownFields l) (marks_none (t := c! "[") (by decide)))
    (key _ v one) (.inl (not_endsLow (a := []) (by decide)))
  simpa [debugVec] using h2

/-- The entries in the text of a report. -/
def ParsedSentence.shown (l : Library) : ParsedSentence → List (Str × Str)
  | .incomplete => []
  | .vesselDynamicData d => d.shownFields l
  | .vesselStaticData d => d.shownFields l
  | .baseStationReport d => d.shownFields l
  | .binaryAddressedMessage d => d.shownFields l
  | .standardSarAircraftPositionReport d => d.shownFields l
  | .utcDateInquiry d => d.shownFields l
  | .aidToNavigationReport d => d.shownFields l
  | .gga d => d.shownFields l
  | .rmc d => d.shownFields l
  | .gsa d => d.shownFields l
  | .gsv v => v.flatMap fun d => d.shownFields l
  | .vtg d => d.shownFields l
  | .gll d => d.shownFields l

theorem shown_quiet {l : Library} (hl : LibraryOk l) {r : ParsedSentence} (h : r.Sound) (h' : InRange r) :
    ∀ f ∈ r.shown l, QuietField f := by
  cases r with
  | incomplete => exact fun f hf => nomatch hf
  | vesselDynamicData d => exact VesselDynamicData.quiet hl h
  | vesselStaticData d => exact VesselStaticData.quiet hl h'
  | baseStationReport d => exact BaseStationReport.quiet hl h
  | binaryAddressedMessage d => exact BinaryAddressedMessage.quiet (l := l)
  | standardSarAircraftPositionReport d => exact StandardSarAircraftPositionReport.quiet hl h
  | utcDateInquiry d => exact UtcDateInquiry.quiet (l := l)
  | aidToNavigationReport d => exact AidToNavigationReport.quiet hl h h'
  | gga d => exact GgaData.quiet hl h
  | rmc d => exact RmcData.quiet hl h
  | gsa d => exact GsaData.quiet hl h
  | gsv v =>
    intro f hf
    obtain ⟨d, -, hd⟩ := List.mem_flatMap.mp hf
    exact GsvData.quiet f hd
  | vtg d => exact VtgData.quiet hl h
  | gll d => exact GllData.quiet hl h

theorem marks_report {k k' : Str} {fs : List (Str × Str)} (hk : ':' ∉ k) (hk' : ':' ∉ k') (h0 : fs ≠ [])
    (hS : ∀ f ∈ fs, QuietField f) : Marks fs (debugTuple k (debugStruct k' fs)) :=
  marks_tuple hk (marks_struct hk' h0 (List.Subset.refl fs) fun f hf => ⟨(hS f hf).1.1, (hS f hf).2⟩)

theorem shown_marks {l : Library} (hl : LibraryOk l) {r : ParsedSentence} (h : r.Sound) (h' : InRange r) :
    Marks (r.shown l) (r.debug l) := by
  have hq := shown_quiet hl h h'
  cases r with
  | incomplete => exact marks_none (t := c! "Incomplete") (by decide)
  | gsv v => exact marks_tuple (by decide) (marks_gsv l v)
  | vesselDynamicData d => exact marks_report (by decide) (by decide) (List.cons_ne_nil _ _) hq
  | vesselStaticData d => exact marks_report (by decide) (by decide) (List.cons_ne_nil _ _) hq
  | baseStationReport d => exact marks_report (by decide) (by decide) (List.cons_ne_nil _ _) hq
  | binaryAddressedMessage d => exact marks_report (by decide) (by decide) (List.cons_ne_nil _ _) hq
  | standardSarAircraftPositionReport d => exact marks_report (by decide) (by decide) (List.cons_ne_nil _ _) hq
  | utcDateInquiry d => exact marks_report (by decide) (by decide) (List.cons_ne_nil _ _) hq
  | aidToNavigationReport d => exact marks_report (by decide) (by decide) (List.cons_ne_nil _ _) hq
  | gga d => exact marks_report (by decide) (by decide) (List.cons_ne_nil _ _) hq
  | rmc d => exact marks_report (by decide) (by decide) (List.cons_ne_nil _ _) hq
  | gsa d => exact marks_report (by decide) (by decide) (List.cons_ne_nil _ _) hq
  | vtg d => exact marks_report (by decide) (by decide) (List.cons_ne_nil _ _) hq
  | gll d => exact marks_report (by decide) (by decide) (List.cons_ne_nil _ _) hq

/-- Whatever is found in the text of a report is an entry of the report. -/
theorem found_shown {l : Library} (hl : LibraryOk l) {h : List (Env × Str)} {r : ParsedSentence}
    (hr : .ok r ∈ answers Parser.new h) {name w : Str} (hn : EndsLow name) (hb : ' ' ∉ name) (hw : OneWord w)
    (hv : ∀ f ∈ r.shown l, f.1 = name → OneWord f.2) (hf : Found name w (r.debug l)) : (name, w) ∈ r.shown l := by
  have hq := shown_quiet hl (sound_answer hr) (C98_history h r hr)
  obtain ⟨f, hm, e, stop, hs, a, b, e'⟩ :=
    found_marks (shown_marks hl (sound_answer hr) (C98_history h r hr)) (fun f hf => (hq f hf).1.2) hn hb hf
  rw [word_unique (hv f hm e) hw hs e', ← e]
  exact hm

theorem found_incomplete {l : Library} {n w : Str} : ¬ Found n w (ParsedSentence.incomplete.debug l) := by
  rintro ⟨x, y, e⟩
  have : ' ' ∈ c! "Incomplete" := by
    rw [show c! "Incomplete" = _ from e.symm]
    simp
  exact absurd this (by decide)

theorem natStr_word (n : Nat) : OneWord (natStr n) :=
  ⟨fun h => absurd ((natStr_digits n).2 _ h) (by decide), fun h => absurd ((natStr_digits n).2 _ h) (by decide)⟩

/-- Quoted texts end with their closing quotation mark. -/
theorem quoted_unique {l : Library} (hl : LibraryOk l) {s u a b : Str} (e : l.debugStr s ++ a = l.debugStr u ++ b) : s = u := by
  have hd := charText_debug hl
  revert hd e
  unfold Library.debugStr Env.debugStr
  generalize Env.debugChar ⟨⟨1970, 1, 1, 0, 0, 0⟩, false, l.escape⟩ = t
  intro e hd
  have hq : ∀ (c : Char) (X Y : Str), t c ++ X ≠ '"' :: Y := by
    intro c X Y e
    have := hd c
    revert this e
    generalize t c = w
    intro e h
    cases h with
    | plain h1 => exact h1 (List.cons.inj e).1
    | slash => exact absurd (List.cons.inj e).1 (by decide)
    | code =>
      simp only [List.cons_append] at e
      exact absurd (List.cons.inj e).1 (by decide)
  have e1 : s.flatMap t ++ '"' :: a = u.flatMap t ++ '"' :: b := by simpa using e
  clear e
  induction s generalizing u with
  | nil =>
    cases u with
    | nil => rfl
    | cons d ds =>
      rw [List.flatMap_cons, List.append_assoc] at e1
      exact absurd e1.symm (hq _ _ _)
  | cons c cs ih =>
    cases u with
    | nil =>
      rw [List.flatMap_cons, List.append_assoc] at e1
      exact absurd e1 (hq _ _ _)
    | cons d ds =>
      rw [List.flatMap_cons, List.flatMap_cons, List.append_assoc, List.append_assoc] at e1
      obtain ⟨h1, h2⟩ := charText_inj (hd c) (hd d) e1
      rw [h1, ih h2]

/-- What is found in the text of a report begins the value of an entry of the report. -/
theorem found_begin {l : Library} (hl : LibraryOk l) {h : List (Env × Str)} {r : ParsedSentence}
    (hr : .ok r ∈ answers Parser.new h) {name w : Str} (hn : EndsLow name) (hb : ' ' ∉ name)
    (hf : Found name w (r.debug l)) : ∃ v, (name, v) ∈ r.shown l ∧ ∃ a b, w ++ a = v ++ b := by
  have hq := shown_quiet hl (sound_answer hr) (C98_history h r hr)
  obtain ⟨f, hm, e, stop, hs, a, b, e'⟩ :=
    found_marks (shown_marks hl (sound_answer hr) (C98_history h r hr)) (fun f hf => (hq f hf).1.2) hn hb hf
  refine ⟨f.2, ?_, _, _, e'⟩
  rw [← e]
  exact hm

theorem endsLow_of {n : Str} {c : Char} (h : n.getLast? = some c) (hc : c.isLower = true) : EndsLow n := by
  obtain ⟨x, d, rfl⟩ := (List.eq_nil_or_concat n).resolve_left (by rintro rfl; cases h)
  rw [List.concat_eq_append] at h ⊢
  rw [List.getLast?_append] at h
  exact ⟨x, d, rfl, by cases h; exact hc⟩

/-- Which entry it is, by its name. -/
macro "shown_entries " h:ident : tactic =>
  `(tactic| simp [ParsedSentence.shown, VesselDynamicData.shownFields, VesselStaticData.shownFields,
        BaseStationReport.shownFields, BinaryAddressedMessage.shownFields, StandardSarAircraftPositionReport.shownFields,
        UtcDateInquiry.shownFields, AidToNavigationReport.shownFields, GgaData.shownFields, RmcData.shownFields,
        GsaData.shownFields, GsvData.shownFields, VtgData.shownFields, GllData.shownFields] at $h:ident)

theorem demoSearched {s : Str} (P : ParsedSentence → Bool)
    (h : (match (parseSentence demoEnv Parser.new s).1 with | .ok r => P r | _ => false) = true) :
    ∃ r, .ok r ∈ answers Parser.new [(demoEnv, s)] ∧ P r = true := by
  cases e : (parseSentence demoEnv Parser.new s).1 with
  | ok r => rw [e] at h; exact ⟨r, by simp [answers, e], h⟩
  | err => rw [e] at h; cases h
  | panic => rw [e] at h; cases h

/-! ### The vessel -/

/-- C170: searching the texts of reports for ` mmsi: n,` finds the reports about `n` and no others. -/
theorem C170_mmsi (l : Library) (hl : LibraryOk l) (h : List (Env × Str)) (r : ParsedSentence)
    (hr : .ok r ∈ answers Parser.new h) (n : Nat) : Found (c! "mmsi") (natStr n) (r.debug l) ↔ senderOf r = some n := by
  constructor
  · intro hf
    have hm := found_shown hl hr (endsLow_of (c := 'i') rfl (by decide)) (by decide) (natStr_word n) (fun f hf e => ?_) hf
    · cases r <;> shown_entries hm <;>
        exact congrArg some (natStr_inj hm.symm)
    · obtain ⟨n, v⟩ := f
      subst e
      cases r <;> shown_entries hf <;>
        (rw [hf]; exact natStr_word _)
  · intro e
    cases r <;> cases e
    all_goals exact found_struct _ _ (by simp)

/-- A base station is found by its number, not by the beginning of its number. -/
example (l : Library) (hl : LibraryOk l) : ∃ r, .ok r ∈ answers Parser.new [(demoEnv, c! "!AIVDM,1,1,,B,403OviQuMGCqWrRO9>E6fE700@GO,0")] ∧
    Found (c! "mmsi") (natStr 3669702) (r.debug l) ∧ ¬ Found (c! "mmsi") (natStr 366970) (r.debug l) := by
  obtain ⟨r, hr, e⟩ := demoSearched (s := c! "!AIVDM,1,1,,B,403OviQuMGCqWrRO9>E6fE700@GO,0") (fun r => senderOf r = some 3669702) (by decide +kernel)
  refine ⟨r, hr, ?_, ?_⟩
  · exact (C170_mmsi l hl _ r hr _).2 (by simpa using e)
  · rw [C170_mmsi l hl _ r hr]
    rw [of_decide_eq_true e]
    decide

/-- C170: searching for `own_vessel: true` finds the reports about the own vessel. -/
theorem C170_own_vessel (l : Library) (hl : LibraryOk l) (h : List (Env × Str)) (r : ParsedSentence)
    (hr : .ok r ∈ answers Parser.new h) (b : Bool) : Found (c! "own_vessel") (debugBool b) (r.debug l) ↔ ownOf r = some b := by
  have word : ∀ b, OneWord (debugBool b) := by decide
  have inj : ∀ a b, debugBool a = debugBool b → b = a := by decide
  constructor
  · intro hf
    have hm := found_shown hl hr (endsLow_of (c := 'l') rfl (by decide)) (by decide) (word b) (fun f hf e => ?_) hf
    · cases r <;> shown_entries hm <;> exact congrArg some (inj _ _ hm)
    · obtain ⟨n, v⟩ := f
      subst e
      cases r <;> shown_entries hf <;> (rw [hf]; exact word _)
  · intro e
    cases r <;> cases e
    all_goals exact found_struct _ _ (by simp)

/-- A base station is not the own vessel. -/
example (l : Library) (hl : LibraryOk l) : ∃ r, .ok r ∈ answers Parser.new [(demoEnv, c! "!AIVDM,1,1,,B,403OviQuMGCqWrRO9>E6fE700@GO,0")] ∧
    ¬ Found (c! "own_vessel") (c! "true") (r.debug l) ∧ Found (c! "own_vessel") (c! "false") (r.debug l) := by
  obtain ⟨r, hr, e⟩ := demoSearched (s := c! "!AIVDM,1,1,,B,403OviQuMGCqWrRO9>E6fE700@GO,0") (fun r => ownOf r = some false) (by decide +kernel)
  refine ⟨r, hr, ?_, (C170_own_vessel l hl _ r hr false).2 (of_decide_eq_true e)⟩
  rw [show c! "true" = debugBool true from rfl, C170_own_vessel l hl _ r hr, of_decide_eq_true e]
  decide

/-- C170: searching for a type of ship finds the static reports of such ships. -/
theorem C170_ship_type (l : Library) (hl : LibraryOk l) (h : List (Env × Str)) (r : ParsedSentence)
    (hr : .ok r ∈ answers Parser.new h) (w : Str) (hw : OneWord w) :
    Found (c! "ship_type") w (r.debug l) ↔ ∃ d, r = .vesselStaticData d ∧ d.shipType.debug = w := by
  have word : ∀ x : ShipType, OneWord x.debug := by intro x; cases x <;> decide
  constructor
  · intro hf
    have hm := found_shown hl hr (endsLow_of (c := 'e') rfl (by decide)) (by decide) hw (fun f hf e => ?_) hf
    · cases r <;> shown_entries hm
      exact ⟨_, rfl, hm.symm⟩
    · obtain ⟨n, v⟩ := f
      subst e
      cases r <;> shown_entries hf
      rw [hf]
      exact word _
  · rintro ⟨d, rfl, rfl⟩
    exact found_struct _ _ (by simp)

/-- A ship of no known type. -/
example (l : Library) (hl : LibraryOk l) : ∃ r, .ok r ∈ answers Parser.new [(demoEnv, c! "!AIVDM,1,1,,A,539p4OT00000@7W3K@08ThiLE8@E:222222222220O0000000000000000000000000000,0")] ∧
    Found (c! "ship_type") (c! "NotAvailable") (r.debug l) ∧ ¬ Found (c! "ship_type") (c! "Tug") (r.debug l) := by
  obtain ⟨r, hr, e⟩ := demoSearched (s := c! "!AIVDM,1,1,,A,539p4OT00000@7W3K@08ThiLE8@E:222222222220O0000000000000000000000000000,0") (fun r => match r with | .vesselStaticData d => decide (d.shipType.debug = c! "NotAvailable") | _ => false) (by decide +kernel)
  refine ⟨r, hr, ?_, ?_⟩
  · rw [C170_ship_type l hl _ r hr _ (by decide)]
    cases r <;> first | cases e | exact ⟨_, rfl, of_decide_eq_true e⟩
  · rw [C170_ship_type l hl _ r hr _ (by decide)]
    rintro ⟨d, rfl, e'⟩
    exact absurd ((of_decide_eq_true e).symm.trans e') (by decide)

/-- C170: searching for a type of cargo finds the static reports of ships with such cargo. -/
theorem C170_cargo_type (l : Library) (hl : LibraryOk l) (h : List (Env × Str)) (r : ParsedSentence)
    (hr : .ok r ∈ answers Parser.new h) (w : Str) (hw : OneWord w) :
    Found (c! "cargo_type") w (r.debug l) ↔ ∃ d, r = .vesselStaticData d ∧ d.cargoType.debug = w := by
  have word : ∀ x : CargoType, OneWord x.debug := by intro x; cases x <;> decide
  constructor
  · intro hf
    have hm := found_shown hl hr (endsLow_of (c := 'e') rfl (by decide)) (by decide) hw (fun f hf e => ?_) hf
    · cases r <;> shown_entries hm
      exact ⟨_, rfl, hm.symm⟩
    · obtain ⟨n, v⟩ := f
      subst e
      cases r <;> shown_entries hf
      rw [hf]
      exact word _
  · rintro ⟨d, rfl, rfl⟩
    exact found_struct _ _ (by simp)

/-- No known cargo. -/
example (l : Library) (hl : LibraryOk l) : ∃ r, .ok r ∈ answers Parser.new [(demoEnv, c! "!AIVDM,1,1,,A,539p4OT00000@7W3K@08ThiLE8@E:222222222220O0000000000000000000000000000,0")] ∧
    Found (c! "cargo_type") (c! "Undefined") (r.debug l) ∧ ¬ Found (c! "cargo_type") (c! "HazardousCategoryA") (r.debug l) := by
  obtain ⟨r, hr, e⟩ := demoSearched (s := c! "!AIVDM,1,1,,A,539p4OT00000@7W3K@08ThiLE8@E:222222222220O0000000000000000000000000000,0") (fun r => match r with | .vesselStaticData d => decide (d.cargoType.debug = c! "Undefined") | _ => false) (by decide +kernel)
  refine ⟨r, hr, ?_, ?_⟩
  · rw [C170_cargo_type l hl _ r hr _ (by decide)]
    cases r <;> first | cases e | exact ⟨_, rfl, of_decide_eq_true e⟩
  · rw [C170_cargo_type l hl _ r hr _ (by decide)]
    rintro ⟨d, rfl, e'⟩
    exact absurd ((of_decide_eq_true e).symm.trans e') (by decide)

/-- C170: searching for a navigation status finds the position reports of vessels with that status. -/
theorem C170_nav_status (l : Library) (hl : LibraryOk l) (h : List (Env × Str)) (r : ParsedSentence)
    (hr : .ok r ∈ answers Parser.new h) (w : Str) (hw : OneWord w) :
    Found (c! "nav_status") w (r.debug l) ↔ ∃ d, r = .vesselDynamicData d ∧ d.navStatus.debug = w := by
  have word : ∀ x : NavigationStatus, OneWord x.debug := by intro x; cases x <;> decide
  constructor
  · intro hf
    have hm := found_shown hl hr (endsLow_of (c := 's') rfl (by decide)) (by decide) hw (fun f hf e => ?_) hf
    · cases r <;> shown_entries hm
      exact ⟨_, rfl, hm.symm⟩
    · obtain ⟨n, v⟩ := f
      subst e
      cases r <;> shown_entries hf
      rw [hf]
      exact word _
  · rintro ⟨d, rfl, rfl⟩
    exact found_struct _ _ (by simp)

/-- A vessel not under command. -/
example (l : Library) (hl : LibraryOk l) : ∃ r, .ok r ∈ answers Parser.new [(demoEnv, c! "!AIVDM,1,1,,B,KC5E2b@U19PFdLbMuc5=ROv62<7m,0*16")] ∧
    Found (c! "nav_status") (c! "NotUnderCommand") (r.debug l) ∧ ¬ Found (c! "nav_status") (c! "AtAnchor") (r.debug l) := by
  obtain ⟨r, hr, e⟩ := demoSearched (s := c! "!AIVDM,1,1,,B,KC5E2b@U19PFdLbMuc5=ROv62<7m,0*16") (fun r => match r with | .vesselDynamicData d => decide (d.navStatus.debug = c! "NotUnderCommand") | _ => false) (by decide +kernel)
  refine ⟨r, hr, ?_, ?_⟩
  · rw [C170_nav_status l hl _ r hr _ (by decide)]
    cases r <;> first | cases e | exact ⟨_, rfl, of_decide_eq_true e⟩
  · rw [C170_nav_status l hl _ r hr _ (by decide)]
    rintro ⟨d, rfl, e'⟩
    exact absurd ((of_decide_eq_true e).symm.trans e') (by decide)

/-- C170: searching for a type of aid finds the reports of such aids to navigation. -/
theorem C170_aid_type (l : Library) (hl : LibraryOk l) (h : List (Env × Str)) (r : ParsedSentence)
    (hr : .ok r ∈ answers Parser.new h) (w : Str) (hw : OneWord w) :
    Found (c! "aid_type") w (r.debug l) ↔ ∃ d, r = .aidToNavigationReport d ∧ d.aidType.debug = w := by
  have word : ∀ x : NavAidType, OneWord x.debug := by intro x; cases x <;> decide
  constructor
  · intro hf
    have hm := found_shown hl hr (endsLow_of (c := 'e') rfl (by decide)) (by decide) hw (fun f hf e => ?_) hf
    · cases r <;> shown_entries hm
      exact ⟨_, rfl, hm.symm⟩
    · obtain ⟨n, v⟩ := f
      subst e
      cases r <;> shown_entries hf
      rw [hf]
      exact word _
  · rintro ⟨d, rfl, rfl⟩
    exact found_struct _ _ (by simp)

/-- A special mark; the beginning of a word is not found. -/
example (l : Library) (hl : LibraryOk l) : ∃ r, .ok r ∈ answers Parser.new [(demoEnv, c! "!AIVDM,1,1,,B,E>kb9O9aS@7PUh10dh19@;0Tah2cWrfP:l?M`00003vP100,0")] ∧
    Found (c! "aid_type") (c! "BeaconSpecialMark") (r.debug l) ∧ ¬ Found (c! "aid_type") (c! "Beacon") (r.debug l) := by
  obtain ⟨r, hr, e⟩ := demoSearched (s := c! "!AIVDM,1,1,,B,E>kb9O9aS@7PUh10dh19@;0Tah2cWrfP:l?M`00003vP100,0") (fun r => match r with | .aidToNavigationReport d => decide (d.aidType.debug = c! "BeaconSpecialMark") | _ => false) (by decide +kernel)
  refine ⟨r, hr, ?_, ?_⟩
  · rw [C170_aid_type l hl _ r hr _ (by decide)]
    cases r <;> first | cases e | exact ⟨_, rfl, of_decide_eq_true e⟩
  · rw [C170_aid_type l hl _ r hr _ (by decide)]
    rintro ⟨d, rfl, e'⟩
    exact absurd ((of_decide_eq_true e).symm.trans e') (by decide)

/-- C170: searching for the quality of a fix finds the GGA reports of that quality. -/
theorem C170_quality (l : Library) (hl : LibraryOk l) (h : List (Env × Str)) (r : ParsedSentence)
    (hr : .ok r ∈ answers Parser.new h) (w : Str) (hw : OneWord w) :
    Found (c! "quality") w (r.debug l) ↔ ∃ d, r = .gga d ∧ d.quality.debug = w := by
  have word : ∀ x : GgaQualityIndicator, OneWord x.debug := by intro x; cases x <;> decide
  constructor
  · intro hf
    have hm := found_shown hl hr (endsLow_of (c := 'y') rfl (by decide)) (by decide) hw (fun f hf e => ?_) hf
    · cases r <;> shown_entries hm
      exact ⟨_, rfl, hm.symm⟩
    · obtain ⟨n, v⟩ := f
      subst e
      cases r <;> shown_entries hf
      rw [hf]
      exact word _
  · rintro ⟨d, rfl, rfl⟩
    exact found_struct _ _ (by simp)

/-- A fix by RTK. -/
example (l : Library) (hl : LibraryOk l) : ∃ r, .ok r ∈ answers Parser.new [(demoEnv, c! "$GPGGA,123519,,,,,4,,,,,,,,")] ∧
    Found (c! "quality") (c! "RealTimeKinematic") (r.debug l) ∧ ¬ Found (c! "quality") (c! "FloatRTK") (r.debug l) := by
  obtain ⟨r, hr, e⟩ := demoSearched (s := c! "$GPGGA,123519,,,,,4,,,,,,,,") (fun r => match r with | .gga d => decide (d.quality.debug = c! "RealTimeKinematic") | _ => false) (by decide +kernel)
  refine ⟨r, hr, ?_, ?_⟩
  · rw [C170_quality l hl _ r hr _ (by decide)]
    cases r <;> first | cases e | exact ⟨_, rfl, of_decide_eq_true e⟩
  · rw [C170_quality l hl _ r hr _ (by decide)]
    rintro ⟨d, rfl, e'⟩
    exact absurd ((of_decide_eq_true e).symm.trans e') (by decide)

/-! ### Texts -/

theorem some_quoted {l : Library} (hl : LibraryOk l) {s : Str} {o : Option Str} {a b : Str}
    (e : (c! "Some(" ++ l.debugStr s ++ c! ")") ++ a = debugOption l.debugStr o ++ b) : o = some s := by
  cases o with
  | none => exact absurd (List.cons.inj e).1 (by decide)
  | some u =>
    have e' : c! "Some(" ++ (l.debugStr s ++ (')' :: a)) = c! "Some(" ++ (l.debugStr u ++ (')' :: b)) := by
      simpa [debugOption, debugTuple] using e
    rw [quoted_unique hl (List.append_cancel_left e')]

/-- C170: searching for a call sign finds the static reports of vessels with that call sign, whatever its characters. -/
theorem C170_call_sign (l : Library) (hl : LibraryOk l) (h : List (Env × Str)) (r : ParsedSentence)
    (hr : .ok r ∈ answers Parser.new h) (s : Str) :
    Found (c! "call_sign") (c! "Some(" ++ l.debugStr s ++ c! ")") (r.debug l) ↔ ∃ d, r = .vesselStaticData d ∧ d.callSign = some s := by
  constructor
  · intro hf
    obtain ⟨v, hm, a, b, e⟩ := found_begin hl hr (endsLow_of (c := 'n') rfl (by decide)) (by decide) hf
    cases r <;> shown_entries hm
    rename_i d
    exact ⟨d, rfl, some_quoted hl (by rw [← hm]; exact e)⟩
  · rintro ⟨d, rfl, e⟩
    exact found_struct _ _ (by simp [e, debugOption])

/-- A call sign, not its beginning. -/
example (l : Library) (hl : LibraryOk l) : ∃ r, .ok r ∈ answers Parser.new [(demoEnv, c! "!AIVDM,1,1,,A,539p4OT00000@7W3K@08ThiLE8@E:222222222220O0000000000000000000000000000,0")] ∧
    Found (c! "call_sign") (c! "Some(" ++ l.debugStr (c! "DA9064") ++ c! ")") (r.debug l) ∧
    ¬ Found (c! "call_sign") (c! "Some(" ++ l.debugStr (c! "DA906") ++ c! ")") (r.debug l) := by
  obtain ⟨r, hr, e⟩ := demoSearched (s := c! "!AIVDM,1,1,,A,539p4OT00000@7W3K@08ThiLE8@E:222222222220O0000000000000000000000000000,0") (fun r => match r with | .vesselStaticData d => decide (d.callSign = some (c! "DA9064")) | _ => false) (by decide +kernel)
  refine ⟨r, hr, ?_, ?_⟩
  · rw [C170_call_sign l hl _ r hr]
    cases r <;> first | cases e | exact ⟨_, rfl, of_decide_eq_true e⟩
  · rw [C170_call_sign l hl _ r hr]
    rintro ⟨d, rfl, e'⟩
    exact absurd ((of_decide_eq_true e).symm.trans e') (by decide)

/-- C170: searching for a destination finds the static reports of vessels with that destination, whatever its characters. -/
theorem C170_destination (l : Library) (hl : LibraryOk l) (h : List (Env × Str)) (r : ParsedSentence)
    (hr : .ok r ∈ answers Parser.new h) (s : Str) :
    Found (c! "destination") (c! "Some(" ++ l.debugStr s ++ c! ")") (r.debug l) ↔ ∃ d, r = .vesselStaticData d ∧ d.destination = some s := by
  constructor
  · intro hf
    obtain ⟨v, hm, a, b, e⟩ := found_begin hl hr (endsLow_of (c := 'n') rfl (by decide)) (by decide) hf
    cases r <;> shown_entries hm
    rename_i d
    exact ⟨d, rfl, some_quoted hl (by rw [← hm]; exact e)⟩
  · rintro ⟨d, rfl, e⟩
    exact found_struct _ _ (by simp [e, debugOption])

/-- A destination, not its beginning. -/
example (l : Library) (hl : LibraryOk l) : ∃ r, .ok r ∈ answers Parser.new [(demoEnv, c! "!AIVDM,1,1,,A,55?MbV02;H;s<HtKR20EHE:0@T4@Dn2222222216L961O5Gf0NSQEp6ClRp888888888880,2")] ∧
    Found (c! "destination") (c! "Some(" ++ l.debugStr (c! "NEW YORK") ++ c! ")") (r.debug l) ∧
    ¬ Found (c! "destination") (c! "Some(" ++ l.debugStr (c! "NEW YOR") ++ c! ")") (r.debug l) := by
  obtain ⟨r, hr, e⟩ := demoSearched (s := c! "!AIVDM,1,1,,A,55?MbV02;H;s<HtKR20EHE:0@T4@Dn2222222216L961O5Gf0NSQEp6ClRp888888888880,2") (fun r => match r with | .vesselStaticData d => decide (d.destination = some (c! "NEW YORK")) | _ => false) (by decide +kernel)
  refine ⟨r, hr, ?_, ?_⟩
  · rw [C170_destination l hl _ r hr]
    cases r <;> first | cases e | exact ⟨_, rfl, of_decide_eq_true e⟩
  · rw [C170_destination l hl _ r hr]
    rintro ⟨d, rfl, e'⟩
    exact absurd ((of_decide_eq_true e).symm.trans e') (by decide)

/-- C170: searching for the name of a vessel finds the static reports of vessels with that name and no aid to navigation, whatever its characters. -/
theorem C170_name (l : Library) (hl : LibraryOk l) (h : List (Env × Str)) (r : ParsedSentence)
    (hr : .ok r ∈ answers Parser.new h) (s : Str) :
    Found (c! "name") (c! "Some(" ++ l.debugStr s ++ c! ")") (r.debug l) ↔ ∃ d, r = .vesselStaticData d ∧ d.name = some s := by
  constructor
  · intro hf
    obtain ⟨v, hm, a, b, e⟩ := found_begin hl hr (endsLow_of (c := 'e') rfl (by decide)) (by decide) hf
    cases r <;> shown_entries hm
    · rename_i d
      exact ⟨d, rfl, some_quoted hl (by rw [← hm]; exact e)⟩
    · rw [hm] at e
      exact absurd (List.cons.inj e).1 (by decide)
  · rintro ⟨d, rfl, e⟩
    exact found_struct _ _ (by simp [e, debugOption])

/-- A name, not its beginning. -/
example (l : Library) (hl : LibraryOk l) : ∃ r, .ok r ∈ answers Parser.new [(demoEnv, c! "!AIVDM,1,1,,A,539p4OT00000@7W3K@08ThiLE8@E:222222222220O0000000000000000000000000000,0")] ∧
    Found (c! "name") (c! "Some(" ++ l.debugStr (c! "BILLWERDER") ++ c! ")") (r.debug l) ∧
    ¬ Found (c! "name") (c! "Some(" ++ l.debugStr (c! "BILLWERDE") ++ c! ")") (r.debug l) := by
  obtain ⟨r, hr, e⟩ := demoSearched (s := c! "!AIVDM,1,1,,A,539p4OT00000@7W3K@08ThiLE8@E:222222222220O0000000000000000000000000000,0") (fun r => match r with | .vesselStaticData d => decide (d.name = some (c! "BILLWERDER")) | _ => false) (by decide +kernel)
  refine ⟨r, hr, ?_, ?_⟩
  · rw [C170_name l hl _ r hr]
    cases r <;> first | cases e | exact ⟨_, rfl, of_decide_eq_true e⟩
  · rw [C170_name l hl _ r hr]
    rintro ⟨d, rfl, e'⟩
    exact absurd ((of_decide_eq_true e).symm.trans e') (by decide)

/-- C170: searching for the name of an aid to navigation finds the reports of aids with that name and no vessel. -/
theorem C170_aid_name (l : Library) (hl : LibraryOk l) (h : List (Env × Str)) (r : ParsedSentence)
    (hr : .ok r ∈ answers Parser.new h) (s : Str) :
    Found (c! "name") (l.debugStr s) (r.debug l) ↔ ∃ d, r = .aidToNavigationReport d ∧ d.name = s := by
  constructor
  · intro hf
    obtain ⟨v, hm, a, b, e⟩ := found_begin hl hr (endsLow_of (c := 'e') rfl (by decide)) (by decide) hf
    cases r <;> shown_entries hm
    · rename_i d
      rw [hm] at e
      cases hd : d.name with
      | none => rw [hd] at e; exact absurd (List.cons.inj e).1 (by decide)
      | some u => rw [hd] at e; exact absurd (List.cons.inj e).1 (by decide)
    · rename_i d
      rw [hm] at e
      exact ⟨d, rfl, (quoted_unique hl e).symm⟩
  · rintro ⟨d, rfl, rfl⟩
    exact found_struct _ _ (by simp)

/-- A name, not its beginning. -/
example (l : Library) (hl : LibraryOk l) : ∃ r, .ok r ∈ answers Parser.new [(demoEnv, c! "!AIVDM,1,1,,B,E>kb9O9aS@7PUh10dh19@;0Tah2cWrfP:l?M`00003vP100,0")] ∧
    Found (c! "name") (l.debugStr (c! "SF OAK BAY BR VAIS E")) (r.debug l) ∧
    ¬ Found (c! "name") (l.debugStr (c! "SF OAK BAY BR VAIS")) (r.debug l) := by
  obtain ⟨r, hr, e⟩ := demoSearched (s := c! "!AIVDM,1,1,,B,E>kb9O9aS@7PUh10dh19@;0Tah2cWrfP:l?M`00003vP100,0") (fun r => match r with | .aidToNavigationReport d => decide (d.name = c! "SF OAK BAY BR VAIS E") | _ => false) (by decide +kernel)
  refine ⟨r, hr, ?_, ?_⟩
  · rw [C170_aid_name l hl _ r hr]
    cases r <;> first | cases e | exact ⟨_, rfl, of_decide_eq_true e⟩
  · rw [C170_aid_name l hl _ r hr]
    rintro ⟨d, rfl, e'⟩
    exact absurd ((of_decide_eq_true e).symm.trans e') (by decide)

/-! ### Logs -/

theorem infix_cons {p t : Str} {c : Char} (h : p <:+: c :: t) (hp : p.head? ≠ none ∧ p.head? ≠ some c) : p <:+: t := by
  obtain ⟨x, y, e⟩ := h
  match x, p, hp, e with
  | [], [], hp, _ => exact absurd rfl hp.1
  | [], a :: p, hp, e => exact absurd (congrArg some (List.cons.inj e).1) hp.2
  | _ :: x, p, _, e => exact ⟨x, y, (List.cons.inj e).2⟩

theorem infix_concat {p t : Str} {c : Char} (h : p <:+: t ++ [c]) (hp : p.getLast? ≠ none ∧ p.getLast? ≠ some c) : p <:+: t := by
  have h1 := infix_cons (p := p.reverse) (t := t.reverse) (c := c) (by
    have := List.reverse_infix.2 h
    simpa using this) (by simpa using hp)
  simpa using List.reverse_infix.2 h1

theorem found_ok {n w t : Str} : Found n w (debugTuple (c! "Ok") t) ↔ Found n w t := by
  constructor
  · intro h
    have h0 : Found n w ('O' :: 'k' :: '(' :: (t ++ [')'])) := by simpa [debugTuple] using h
    have hd : ∀ x : Char, x ≠ ' ' → (c! " " ++ n ++ c! ": " ++ w ++ c! ",").head? ≠ none ∧
        (c! " " ++ n ++ c! ": " ++ w ++ c! ",").head? ≠ some x := fun x hx => ⟨by simp, by simpa using Ne.symm hx⟩
    exact infix_concat (infix_cons (infix_cons (infix_cons h0 (hd _ (by decide))) (hd _ (by decide))) (hd _ (by decide)))
      (by rw [List.getLast?_concat]; exact ⟨by simp, by simp⟩)
  · intro h
    exact h.trans (tuple_infix _ _)

/-- C170: in a log of the answers, the lines that begin with `Ok(` and contain ` mmsi: n,` are those of the reports about `n`. -/
theorem C170_log (l : Library) (hl : LibraryOk l) (h : List (Env × Str)) (a : Answer) (ha : a ∈ answers Parser.new h)
    (t : Str) (ht : debugAnswer l a = some t) (n : Nat) :
    (c! "Ok(" <+: t ∧ Found (c! "mmsi") (natStr n) t) ↔ ∃ r, a = .ok r ∧ senderOf r = some n := by
  cases a with
  | ok r =>
    cases ht
    rw [found_ok, C170_mmsi l hl h r ha n]
    exact ⟨fun h => ⟨r, rfl, h.2⟩, fun ⟨_, e, h⟩ => by cases e; exact ⟨⟨r.debug l ++ c! ")", by simp [debugTuple]⟩, h⟩⟩
  | err e =>
    cases ht
    refine ⟨fun h => ?_, fun ⟨_, e, _⟩ => nomatch e⟩
    obtain ⟨⟨b, hb⟩, -⟩ := h
    exact absurd (List.cons.inj hb).1 (by decide)
  | panic => cases ht

/-- A base station in a log. -/
example (l : Library) (hl : LibraryOk l) : ∃ a ∈ answers Parser.new [(demoEnv, c! "!AIVDM,1,1,,B,403OviQuMGCqWrRO9>E6fE700@GO,0")],
    ∃ t, debugAnswer l a = some t ∧ c! "Ok(" <+: t ∧ Found (c! "mmsi") (natStr 3669702) t := by
  obtain ⟨r, hr, e⟩ := demoSearched (s := c! "!AIVDM,1,1,,B,403OviQuMGCqWrRO9>E6fE700@GO,0")
    (fun r => senderOf r = some 3669702) (by decide +kernel)
  exact ⟨_, hr, _, rfl, (C170_log l hl _ _ hr _ rfl 3669702).2 ⟨r, rfl, of_decide_eq_true e⟩⟩

/-- C170: without looking at the beginning of the line, the search also finds what is no report: any text of three or more
plain characters comes up in an error if it is sent as the checksum of a sentence. -/
theorem C170_forged (l : Library) (env : Env) (p : Parser) (body text : Str) (h : Plain text) (hs : '*' ∉ text)
    (h3 : 3 ≤ text.length) :
    ∃ t, debugAnswer l (parseSentence env p (body ++ '*' :: text)).1 = some t ∧ text <:+: t ∧ c! "Err(" <+: t := by
  obtain ⟨f, h1, h2, -⟩ := C89_checksum env p body text hs (by rintro rfl; cases h3) (by
    intro e
    rw [e] at h3
    exact absurd h3 (by simp [checksumText]))
  rw [h2 h] at h1
  rw [h1]
  refine ⟨_, rfl, ?_, ?_, by simp [debugTuple]; rfl⟩
  have h4 : text.flatMap (Env.debugChar ⟨⟨1970, 1, 1, 0, 0, 0⟩, false, l.escape⟩) = text := by
    have := debugStr_plain ⟨⟨1970, 1, 1, 0, 0, 0⟩, false, l.escape⟩ text h
    simpa [Env.debugStr] using this
  refine List.IsInfix.trans ?_ (tuple_infix _ _)
  refine List.IsInfix.trans ?_ (tuple_infix _ _)
  unfold Library.debugStr Env.debugStr
  simp only [List.flatMap_append, h4]
  exact List.infix_cons ((List.infix_append _ text _).trans (List.prefix_append _ _).isInfix)

/-- A vessel with the number 5 forged by `* mmsi: 5,`, which no report is about. -/
example (l : Library) (env : Env) (p : Parser) :
    ∃ t, debugAnswer l (parseSentence env p (c! "!AIVDM" ++ c! "* mmsi: 5,")).1 = some t ∧ Found (c! "mmsi") (natStr 5) t := by
  obtain ⟨t, h1, h2, -⟩ := C170_forged l env p (c! "!AIVDM") (c! " mmsi: 5,") (by decide) (by decide) (by decide)
  exact ⟨t, h1, h2⟩

end Nmea
