/-
Searching the texts of `{:?}`: where a small letter can be followed by a colon.
-/
import Verif.Lemmas.DebugReports
import Verif.Props.Debug

namespace Nmea
open Spec

/-- The text ends with a small letter. -/
def EndsLow (a : Str) : Prop := ∃ b c, a = b ++ [c] ∧ c.isLower = true

theorem endsLow_append {a b : Str} (hb : b ≠ []) : EndsLow (a ++ b) ↔ EndsLow b := by
  constructor
  · rintro ⟨x, c, e, hc⟩
    obtain ⟨y, d, rfl⟩ := (List.eq_nil_or_concat b).resolve_left hb
    rw [List.concat_eq_append] at e ⊢
    have h := (List.append_inj' (show (a ++ y) ++ [d] = x ++ [c] by rw [← e, List.append_assoc]) rfl).2
    simp only [List.cons.injEq, and_true] at h
    exact ⟨y, d, rfl, h ▸ hc⟩
  · rintro ⟨x, c, rfl, hc⟩
    exact ⟨a ++ x, c, by simp, hc⟩

/-- Wherever in the text a small letter is followed by a colon there is one of the entries. -/
def Marks (S : List (Str × Str)) (t : Str) : Prop :=
  ∀ a b, t = a ++ ':' :: b → EndsLow a →
    ∃ f ∈ S, ∃ pre stop rest, stop ∈ [',', ' '] ∧ a = pre ++ ' ' :: f.1 ∧ b = ' ' :: (f.2 ++ stop :: rest)

theorem Marks.mono {S S' : List (Str × Str)} {t : Str} (h : Marks S t) (hs : S ⊆ S') : Marks S' t := by
  intro a b e ha
  obtain ⟨f, hf, k⟩ := h a b e ha
  exact ⟨f, hs hf, k⟩

theorem marks_quiet {S : List (Str × Str)} {t : Str} (h : Marks [] t) : Marks S t := h.mono (by simp)

theorem marks_none {t : Str} (h : ':' ∉ t) : Marks [] t := by
  rintro a b rfl
  simp at h

theorem marks_upper {t : Str} (h : ∀ c ∈ t, c.isLower = false) : Marks [] t := by
  rintro a b rfl ⟨x, c, rfl, hc⟩
  have := h c (by simp)
  rw [hc] at this
  cases this

theorem marks_append {S : List (Str × Str)} {s t : Str} (hs : Marks S s) (ht : Marks S t)
    (hb : ¬ EndsLow s ∨ t.head? ≠ some ':') : Marks S (s ++ t) := by
  intro a b e ha
  rcases List.append_eq_append_iff.mp e with ⟨a', rfl, e'⟩ | ⟨c', rfl, e'⟩
  · by_cases hn : a' = []
    · subst hn
      exfalso
      rcases hb with hb | hb
      · exact hb (by simpa using ha)
      · exact hb (by rw [e']; rfl)
    · obtain ⟨f, hf, pre, stop, rest, h1, h2, h3⟩ := ht a' b e' ((endsLow_append hn).mp ha)
      exact ⟨f, hf, s ++ pre, stop, rest, h1, by rw [h2, List.append_assoc], h3⟩
  · match c', e' with
    | [], e' =>
      exfalso
      rcases hb with hb | hb
      · exact hb (by simpa using ha)
      · exact hb (by rw [show t = ':' :: b by simpa using e'.symm]; rfl)
    | c :: c', e' =>
      obtain ⟨rfl, rfl⟩ := List.cons.inj e'
      obtain ⟨f, hf, pre, stop, rest, h1, h2, h3⟩ := hs a c' rfl ha
      exact ⟨f, hf, pre, stop, rest ++ t, h1, h2, by rw [h3]; simp⟩

theorem not_endsLow {a : Str} {c : Char} (h : c.isLower = false) : ¬ EndsLow (a ++ [c]) := by
  rintro ⟨b, d, e, hd⟩
  have := (List.append_inj' e rfl).2
  simp only [List.cons.injEq, and_true] at this
  rw [this, hd] at h
  cases h

theorem marks_entry {S : List (Str × Str)} {n v : Str} {stop : Char} (hf : (n, v) ∈ S) (hn : ':' ∉ n) (hv : Marks [] v)
    (hs : stop ∈ [',', ' ']) : Marks S (' ' :: n ++ c! ": " ++ v ++ [stop]) := by
  have hq : Marks S (c! ": " ++ v ++ [stop]) → Marks S (' ' :: n ++ c! ": " ++ v ++ [stop]) := by
    intro h a b e ha
    have e1 : (' ' :: n) ++ ':' :: (' ' :: v ++ [stop]) = a ++ ':' :: b := by simpa using e
    rcases List.append_eq_append_iff.mp e1 with ⟨a', rfl, e'⟩ | ⟨c', e2, e'⟩
    · match a', e' with
      | [], e' =>
        obtain ⟨-, rfl⟩ := List.cons.inj e'
        exact ⟨_, hf, [], stop, [], hs, by simp, by simp⟩
      | c :: a', e' =>
        obtain ⟨f, hf, pre, st, rest, h1, h2, h3⟩ := h (c :: a') b (by simpa using e') ((endsLow_append (by simp)).mp ha)
        exact ⟨f, hf, (' ' :: n) ++ pre, st, rest, h1, by rw [h2, List.append_assoc], h3⟩
    · match c', e' with
      | [], e' =>
        obtain ⟨-, rfl⟩ := List.cons.inj e'
        exact ⟨_, hf, [], stop, [], hs, by simpa using e2.symm, by simp⟩
      | c :: c', e' =>
        obtain ⟨rfl, -⟩ := List.cons.inj e'
        exfalso
        have : ':' ∈ ' ' :: n := by rw [e2]; simp
        rcases List.mem_cons.mp this with h | h
        · exact absurd h (by decide)
        · exact hn h
  refine hq (marks_append (marks_append (marks_quiet (marks_upper (by decide))) (marks_quiet hv) (.inl ?_))
    (marks_quiet (marks_none ?_)) (.inr ?_))
  · exact not_endsLow (a := [':']) (by decide)
  · simp only [List.mem_cons, List.not_mem_nil, or_false] at hs ⊢
    rcases hs with rfl | rfl <;> decide
  · simp only [List.mem_cons, List.not_mem_nil, or_false] at hs
    rcases hs with rfl | rfl <;> decide

theorem marks_entries (S : List (Str × Str)) (fs : List (Str × Str)) (h0 : fs ≠ []) (hS : fs ⊆ S)
    (h : ∀ f ∈ fs, ':' ∉ f.1 ∧ Marks [] f.2) :
    Marks S (' ' :: (debugEntries (fs.map fun f => f.1 ++ c! ": " ++ f.2) ++ c! " }")) := by
  induction fs with
  | nil => exact absurd rfl h0
  | cons f fs ih =>
    match fs, ih with
    | [], _ =>
      have := marks_append (marks_entry (S := S) (n := f.1) (v := f.2) (stop := ' ') (hS (by simp)) (h f (by simp)).1
        (h f (by simp)).2 (by simp)) (marks_quiet (marks_none (t := c! "}") (by decide))) (.inr (by decide))
      simpa [debugEntries] using this
    | g :: fs, ih =>
      have := marks_append (marks_entry (S := S) (n := f.1) (v := f.2) (stop := ',') (hS (by simp)) (h f (by simp)).1
        (h f (by simp)).2 (by simp)) (ih (by simp) (fun x hx => hS (List.mem_cons_of_mem _ hx))
        (fun x hx => h x (List.mem_cons_of_mem _ hx))) (.inr (by simp))
      simpa [debugEntries] using this

theorem marks_struct {S : List (Str × Str)} {name : Str} {fs : List (Str × Str)} (hn : ':' ∉ name) (h0 : fs ≠ [])
    (hS : fs ⊆ S) (h : ∀ f ∈ fs, ':' ∉ f.1 ∧ Marks [] f.2) : Marks S (debugStruct name fs) := by
  have := marks_append (marks_quiet (marks_none (t := name ++ c! " {") (by simpa using hn))) (marks_entries S fs h0 hS h)
    (.inr (by simp))
  simpa [debugStruct] using this

theorem marks_tuple {S : List (Str × Str)} {name v : Str} (hn : ':' ∉ name) (h : Marks S v) : Marks S (debugTuple name v) := by
  have h1 : Marks S (name ++ c! "(") := marks_quiet (marks_none (by simpa using hn))
  exact marks_append (marks_append h1 h (.inl (not_endsLow (by decide)))) (marks_quiet (marks_none (by decide)))
    (.inr (by decide))

theorem quiet_option {α : Type} {f : α → Str} {x : Option α} (h : ∀ a, x = some a → Marks [] (f a)) :
    Marks [] (debugOption f x) := by
  cases x with
  | none => exact marks_none (by decide : ':' ∉ c! "None")
  | some a =>
    exact marks_append (marks_append (marks_none (by decide)) (h a rfl) (.inl (not_endsLow (a := c! "Some") (by decide))))
      (marks_none (by decide)) (.inr (by decide))

/-! ### Values -/

theorem quiet_bool (b : Bool) : Marks [] (debugBool b) := marks_none (by cases b <;> decide)

theorem quiet_nat (n : Nat) : Marks [] (natStr n) :=
  marks_none fun h => absurd ((natStr_digits n).2 _ h) (by decide)

theorem quiet_int (n : Int) : Marks [] (debugInt n) := by
  refine marks_none fun h => ?_
  unfold debugInt at h
  split at h
  · rcases List.mem_cons.mp h with h | h
    · exact absurd h (by decide)
    · exact absurd ((natStr_digits _).2 _ h) (by decide)
  · exact absurd ((natStr_digits _).2 _ h) (by decide)

theorem signed_noColon {s r : Str} {neg : Bool} (h : Signed s neg r) (hr : ':' ∉ r) : ':' ∉ s := by
  rcases h with ⟨rfl, -⟩ | ⟨rfl, -⟩ | ⟨rfl, -⟩
  · exact hr
  all_goals
    intro hc
    rcases List.mem_cons.1 hc with h | hc
    · exact absurd h (by decide)
    · exact hr hc

theorem digits_noColon {s : Str} (h : ∀ c ∈ s, c ∈ c! "0123456789") : ':' ∉ s := fun hc => absurd (h _ hc) (by decide)

theorem exponent_noColon {s : Str} {e : Int} (h : Exponent s e) : ':' ∉ s := by
  rcases h with ⟨rfl, -⟩ | ⟨c, t, neg, ds, rfl, h1, h2, h3, -⟩
  · simp
  · intro hd
    rcases List.mem_cons.1 hd with rfl | hd
    · rcases h1 with h1 | h1 <;> exact absurd h1 (by decide)
    · exact signed_noColon h2 (digits_noColon h3.2) hd

theorem decimal_noColon {s : Str} {q : Rat} (h : Decimal s q) : ':' ∉ s := by
  obtain ⟨ip, fp, ex, e, h1, h2, -, h3, h4, -⟩ := h
  have hi := digits_noColon h1
  have hf := digits_noColon h2
  have he := exponent_noColon h3
  rcases h4 with ⟨rfl, -⟩ | rfl
  · simp [hi, he]
  · simp [hi, hf, he]

theorem lower_noColon {r w : Str} (h : r.map Char.toLower = w) (hw : ':' ∉ w) : ':' ∉ r := by
  intro hc
  have := List.mem_map_of_mem (f := Char.toLower) hc
  rw [h] at this
  exact hw this

theorem quiet_double {l : Library} (hl : LibraryOk l) {x : F64} (hx : IsDouble x) : Marks [] (l.double x) := by
  refine marks_none ?_
  cases hl.double x hx with
  | decimal neg r q d h hd hr => exact signed_noColon h (decimal_noColon hd)
  | infinite neg r h hi =>
    rcases hi with hi | hi
    · exact signed_noColon h (lower_noColon hi (by decide))
    · exact signed_noColon h (lower_noColon hi (by decide))
  | nan neg r h hn => exact signed_noColon h (lower_noColon hn (by decide))

theorem quiet_doubles {l : Library} (hl : LibraryOk l) {x : Option F64} (hx : Doubles x) :
    Marks [] (debugOption l.double x) := quiet_option fun _ h => quiet_double hl (hx _ h)

theorem padded_upper (w n : Nat) : ∀ c ∈ zeroPadded w n, c.isLower = false := by
  intro c hc
  have := zeroPadded_digits w n c hc
  have k : ∀ c ∈ c! "0123456789", c.isLower = false := by decide
  exact k c this

theorem quiet_date (t : DateTime) : Marks [] (DateTime.debug t) := by
  refine marks_upper fun c hc => ?_
  unfold DateTime.debug at hc
  simp only [List.append_assoc, List.mem_append, List.mem_cons, List.cons_append, List.not_mem_nil, or_false] at hc
  rcases hc with hc | rfl | hc | rfl | hc | rfl | hc | rfl | hc | rfl | hc | rfl
  · split at hc
    · exact padded_upper _ _ c hc
    · rcases List.mem_cons.mp hc with rfl | hc
      · split <;> decide
      · exact padded_upper _ _ c hc
  all_goals first | decide | exact padded_upper _ _ c hc

theorem quiet_dates (x : Option DateTime) : Marks [] (debugOption DateTime.debug x) := quiet_option fun _ _ => quiet_date _

/-- The text of a character of the six-bit alphabet does not end with a small letter. -/
theorem char_quiet {l : Library} (hl : LibraryOk l) (c : Char) (hc : InAlphabet c) :
    Marks [] (Env.debugChar ⟨⟨1970, 1, 1, 0, 0, 0⟩, false, l.escape⟩ c) ∧
      ¬ EndsLow (Env.debugChar ⟨⟨1970, 1, 1, 0, 0, 0⟩, false, l.escape⟩ c) := by
  have hlow : c.isLower = false := by
    have k : ∀ n, 32 ≤ n → n ≤ 95 → (Char.ofNat n).isLower = false := by decide +kernel
    have := k c.toNat hc.1 hc.2
    rwa [Char.ofNat_toNat] at this
  have one : Marks [] [c] ∧ ¬ EndsLow [c] :=
    ⟨marks_upper fun d hd => by rw [List.mem_singleton.mp hd]; exact hlow, not_endsLow (a := []) hlow⟩
  have slash : Marks [] ['\\', c] ∧ ¬ EndsLow ['\\', c] :=
    ⟨marks_upper fun d hd => by
      rcases List.mem_cons.mp hd with rfl | hd
      · decide
      · rw [List.mem_singleton.mp hd]; exact hlow, not_endsLow (a := ['\\']) hlow⟩
  have code : ∀ n, Marks [] (c! "\\u{" ++ Nat.toDigits 16 n ++ c! "}") ∧ ¬ EndsLow (c! "\\u{" ++ Nat.toDigits 16 n ++ c! "}") := by
    intro n
    refine ⟨marks_none fun h => ?_, not_endsLow (by decide)⟩
    simp only [List.mem_append] at h
    rcases h with (h | h) | h
    · exact absurd h (by decide)
    · exact absurd (hex_chars n _ h) (by decide)
    · exact absurd h (by decide)
  unfold Env.debugChar
  split_ifs with h1 h2 h3 h4 h5 h6
  · exact slash
  · subst h2; exact absurd hc.1 (by decide)
  · subst h3; exact absurd hc.1 (by decide)
  · subst h4; exact absurd hc.1 (by decide)
  · exact one
  · exact code _
  · have hq : c = '\'' ∨ c.toNat = 0 ∨ 128 ≤ c.toNat := by
      by_contra hcon
      push Not at hcon
      exact h6 ⟨hcon.1, by omega, hcon.2.2⟩
    rcases hl.escape c hq with ⟨e, -⟩ | e | ⟨rfl, e⟩ | ⟨h0, e⟩
    · simp only [e]; exact one
    · simp only [e]; exact code _
    · simp only [e]; exact slash
    · exact absurd hc.1 (by omega)

theorem quiet_text {l : Library} (hl : LibraryOk l) {s : Str} (hs : ∀ c ∈ s, InAlphabet c) : Marks [] (l.debugStr s) := by
  have key : ∀ s : Str, (∀ c ∈ s, InAlphabet c) → Marks [] (s.flatMap
      (Env.debugChar ⟨⟨1970, 1, 1, 0, 0, 0⟩, false, l.escape⟩) ++ c! "\"") := by
    intro s hs
    induction s with
    | nil => exact marks_none (t := c! "\"") (by decide)
    | cons c s ih =>
      rw [List.flatMap_cons, List.append_assoc]
      obtain ⟨h1, h2⟩ := char_quiet hl c (hs c (by simp))
      exact marks_append h1 (ih fun d hd => hs d (List.mem_cons_of_mem _ hd)) (.inl h2)
  exact marks_append (s := c! "\"") (marks_none (by decide)) (key s hs) (.inl (not_endsLow (a := []) (by decide)))

theorem quiet_texts {l : Library} (hl : LibraryOk l) {x : Option Str} (hs : ∀ s, x = some s → ∀ c ∈ s, InAlphabet c) :
    Marks [] (debugOption l.debugStr x) := quiet_option fun s h => quiet_text hl (hs s h)

/-! ### Words -/

theorem quiet_NavigationSystem (x : NavigationSystem) : Marks [] x.debug := marks_none (by cases x <;> decide)

theorem quiet_FaaMode (x : FaaMode) : Marks [] x.debug := marks_none (by cases x <;> decide)

theorem quiet_Station (x : Station) : Marks [] x.debug := marks_none (by cases x <;> decide)

theorem quiet_AisClass (x : AisClass) : Marks [] x.debug := marks_none (by cases x <;> decide)

theorem quiet_NavigationStatus (x : NavigationStatus) : Marks [] x.debug := marks_none (by cases x <;> decide)

theorem quiet_PositioningSystemMeta (x : PositioningSystemMeta) : Marks [] x.debug := marks_none (by cases x <;> decide)

theorem quiet_ShipType (x : ShipType) : Marks [] x.debug := marks_none (by cases x <;> decide)

theorem quiet_CargoType (x : CargoType) : Marks [] x.debug := marks_none (by cases x <;> decide)

theorem quiet_PositionFixType (x : PositionFixType) : Marks [] x.debug := marks_none (by cases x <;> decide)

theorem quiet_NavAidType (x : NavAidType) : Marks [] x.debug := marks_none (by cases x <;> decide)

theorem quiet_GgaQualityIndicator (x : GgaQualityIndicator) : Marks [] x.debug := marks_none (by cases x <;> decide)

theorem quiet_GsaFixMode (x : GsaFixMode) : Marks [] x.debug := marks_none (by cases x <;> decide)

theorem quiet_opt {α : Type} {f : α → Str} (h : ∀ a, Marks [] (f a)) (x : Option α) : Marks [] (debugOption f x) :=
  quiet_option fun a _ => h a

theorem quiet_nats (xs : List Nat) : Marks [] (debugVec natStr xs) := by
  refine marks_none fun h => ?_
  have key : ∀ xs : List Nat, ':' ∉ debugEntries (xs.map natStr) := by
    intro xs
    induction xs with
    | nil => decide
    | cons x xs ih =>
      have hx : ':' ∉ natStr x := fun h => absurd ((natStr_digits x).2 _ h) (by decide)
      match xs, ih with
      | [], _ => exact hx
      | y :: ys, ih =>
        intro h
        simp only [List.map_cons, debugEntries, List.mem_append] at h ih
        rcases h with (h | h) | h
        · exact hx h
        · exact absurd h (by decide)
        · exact ih h
  unfold debugVec at h
  simp only [List.mem_append] at h
  rcases h with (h | h) | h
  · exact absurd h (by decide)
  · exact key xs h
  · exact absurd h (by decide)

/-! ### Fields -/

/-- The name of the entry has no colon or blank, and its value no colon after a small letter. -/
def QuietField (f : Str × Str) : Prop := (':' ∉ f.1 ∧ ' ' ∉ f.1) ∧ Marks [] f.2

theorem quietField {n v : Str} (hn : ':' ∉ n ∧ ' ' ∉ n) (hv : Marks [] v) : QuietField (n, v) := ⟨hn, hv⟩

/-- The entries of `VesselDynamicData`. -/
def VesselDynamicData.shownFields (l : Library) (d : VesselDynamicData) : List (Str × Str) :=
    [(c! "own_vessel", debugBool d.ownVessel),
     (c! "station", Station.debug d.station),
     (c! "ais_type", AisClass.debug d.aisType),
     (c! "mmsi", natStr d.mmsi),
     (c! "nav_status", NavigationStatus.debug d.navStatus),
     (c! "rot", debugOption l.double d.rot),
     (c! "rot_direction", debugOption debugInt d.rotDirection),
     (c! "sog_knots", debugOption l.double d.sogKnots),
     (c! "high_position_accuracy", debugBool d.highPositionAccuracy),
     (c! "latitude", debugOption l.double d.latitude),
     (c! "longitude", debugOption l.double d.longitude),
     (c! "cog", debugOption l.double d.cog),
     (c! "heading_true", debugOption l.double d.headingTrue),
     (c! "timestamp_seconds", natStr d.timestampSeconds),
     (c! "positioning_system_meta", debugOption PositioningSystemMeta.debug d.positioningSystemMeta),
     (c! "current_gnss_position", debugOption debugBool d.currentGnssPosition),
     (c! "special_manoeuvre", debugOption debugBool d.specialManoeuvre),
     (c! "raim_flag", debugBool d.raimFlag),
     (c! "class_b_unit_flag", debugOption debugBool d.classBUnitFlag),
     (c! "class_b_display", debugOption debugBool d.classBDisplay),
     (c! "class_b_dsc", debugOption debugBool d.classBDsc),
     (c! "class_b_band_flag", debugOption debugBool d.classBBandFlag),
     (c! "class_b_msg22_flag", debugOption debugBool d.classBMsg22Flag),
     (c! "class_b_mode_flag", debugOption debugBool d.classBModeFlag),
     (c! "class_b_css_flag", debugOption debugBool d.classBCssFlag),
     (c! "radio_status", debugOption natStr d.radioStatus)]

theorem VesselDynamicData.debug_eq (l : Library) (d : VesselDynamicData) : d.debug l = debugStruct (c! "VesselDynamicData") (d.shownFields l) := rfl

theorem VesselDynamicData.quiet {l : Library} (hl : LibraryOk l) {d : VesselDynamicData} (h : d.Sound) : ∀ f ∈ d.shownFields l, QuietField f := by
  unfold VesselDynamicData.shownFields
  simp only [List.forall_mem_cons]
  exact ⟨quietField (by decide) (quiet_bool _),
    quietField (by decide) (quiet_Station _),
    quietField (by decide) (quiet_AisClass _),
    quietField (by decide) (quiet_nat _),
    quietField (by decide) (quiet_NavigationStatus _),
    quietField (by decide) (quiet_doubles hl h.rot),
    quietField (by decide) (quiet_opt quiet_int _),
    quietField (by decide) (quiet_doubles hl h.sogKnots),
    quietField (by decide) (quiet_bool _),
    quietField (by decide) (quiet_doubles hl h.latitude),
    quietField (by decide) (quiet_doubles hl h.longitude),
    quietField (by decide) (quiet_doubles hl h.cog),
    quietField (by decide) (quiet_doubles hl h.headingTrue),
    quietField (by decide) (quiet_nat _),
    quietField (by decide) (quiet_opt quiet_PositioningSystemMeta _),
    quietField (by decide) (quiet_opt quiet_bool _),
    quietField (by decide) (quiet_opt quiet_bool _),
    quietField (by decide) (quiet_bool _),
    quietField (by decide) (quiet_opt quiet_bool _),
    quietField (by decide) (quiet_opt quiet_bool _),
    quietField (by decide) (quiet_opt quiet_bool _),
    quietField (by decide) (quiet_opt quiet_bool _),
    quietField (by decide) (quiet_opt quiet_bool _),
    quietField (by decide) (quiet_opt quiet_bool _),
    quietField (by decide) (quiet_opt quiet_bool _),
    quietField (by decide) (quiet_opt quiet_nat _),
    fun _ h => nomatch h⟩

/-- The entries of `VesselStaticData`. -/
def VesselStaticData.shownFields (l : Library) (d : VesselStaticData) : List (Str × Str) :=
    [(c! "own_vessel", debugBool d.ownVessel),
     (c! "ais_type", AisClass.debug d.aisType),
     (c! "mmsi", natStr d.mmsi),
     (c! "ais_version_indicator", natStr d.aisVersionIndicator),
     (c! "imo_number", debugOption natStr d.imoNumber),
     (c! "call_sign", debugOption l.debugStr d.callSign),
     (c! "name", debugOption l.debugStr d.name),
     (c! "ship_type", ShipType.debug d.shipType),
     (c! "cargo_type", CargoType.debug d.cargoType),
     (c! "equipment_vendor_id", debugOption l.debugStr d.equipmentVendorId),
     (c! "equipment_model", debugOption natStr d.equipmentModel),
     (c! "equipment_serial_number", debugOption natStr d.equipmentSerialNumber),
     (c! "dimension_to_bow", debugOption natStr d.dimensionToBow),
     (c! "dimension_to_stern", debugOption natStr d.dimensionToStern),
     (c! "dimension_to_port", debugOption natStr d.dimensionToPort),
     (c! "dimension_to_starboard", debugOption natStr d.dimensionToStarboard),
     (c! "position_fix_type", debugOption PositionFixType.debug d.positionFixType),
     (c! "eta", debugOption DateTime.debug d.eta),
     (c! "draught10", debugOption natStr d.draught10),
     (c! "destination", debugOption l.debugStr d.destination),
     (c! "mothership_mmsi", debugOption natStr d.mothershipMmsi)]

theorem VesselStaticData.debug_eq (l : Library) (d : VesselStaticData) : d.debug l = debugStruct (c! "VesselStaticData") (d.shownFields l) := rfl

theorem VesselStaticData.quiet {l : Library} (hl : LibraryOk l) {d : VesselStaticData} (h : StaticInRange d) : ∀ f ∈ d.shownFields l, QuietField f := by
  unfold VesselStaticData.shownFields
  simp only [List.forall_mem_cons]
  exact ⟨quietField (by decide) (quiet_bool _),
    quietField (by decide) (quiet_AisClass _),
    quietField (by decide) (quiet_nat _),
    quietField (by decide) (quiet_nat _),
    quietField (by decide) (quiet_opt quiet_nat _),
    quietField (by decide) (quiet_texts hl fun s e c hc => ((h.callSign s e).2.2.1 c hc).1),
    quietField (by decide) (quiet_texts hl fun s e c hc => ((h.name s e).2.2.1 c hc).1),
    quietField (by decide) (quiet_ShipType _),
    quietField (by decide) (quiet_CargoType _),
    quietField (by decide) (quiet_texts hl fun s e c hc => ((h.vendor s e).2.1 c hc).1),
    quietField (by decide) (quiet_opt quiet_nat _),
    quietField (by decide) (quiet_opt quiet_nat _),
    quietField (by decide) (quiet_opt quiet_nat _),
    quietField (by decide) (quiet_opt quiet_nat _),
    quietField (by decide) (quiet_opt quiet_nat _),
    quietField (by decide) (quiet_opt quiet_nat _),
    quietField (by decide) (quiet_opt quiet_PositionFixType _),
    quietField (by decide) (quiet_dates _),
    quietField (by decide) (quiet_opt quiet_nat _),
    quietField (by decide) (quiet_texts hl fun s e c hc => ((h.destination s e).2.2.1 c hc).1),
    quietField (by decide) (quiet_opt quiet_nat _),
    fun _ h => nomatch h⟩

/-- The entries of `AidToNavigationReport`. -/
def AidToNavigationReport.shownFields (l : Library) (d : AidToNavigationReport) : List (Str × Str) :=
    [(c! "own_vessel", debugBool d.ownVessel),
     (c! "station", Station.debug d.station),
     (c! "mmsi", natStr d.mmsi),
     (c! "aid_type", NavAidType.debug d.aidType),
     (c! "name", l.debugStr d.name),
     (c! "high_position_accuracy", debugBool d.highPositionAccuracy),
     (c! "latitude", debugOption l.double d.latitude),
     (c! "longitude", debugOption l.double d.longitude),
     (c! "dimension_to_bow", debugOption natStr d.dimensionToBow),
     (c! "dimension_to_stern", debugOption natStr d.dimensionToStern),
     (c! "dimension_to_port", debugOption natStr d.dimensionToPort),
     (c! "dimension_to_starboard", debugOption natStr d.dimensionToStarboard),
     (c! "position_fix_type", debugOption PositionFixType.debug d.positionFixType),
     (c! "timestamp_seconds", natStr d.timestampSeconds),
     (c! "off_position_indicator", debugBool d.offPositionIndicator),
     (c! "regional", natStr d.regional),
     (c! "raim_flag", debugBool d.raimFlag),
     (c! "virtual_aid_flag", debugBool d.virtualAidFlag),
     (c! "assigned_mode_flag", debugBool d.assignedModeFlag)]

theorem AidToNavigationReport.debug_eq (l : Library) (d : AidToNavigationReport) : d.debug l = debugStruct (c! "AidToNavigationReport") (d.shownFields l) := rfl

theorem AidToNavigationReport.quiet {l : Library} (hl : LibraryOk l) {d : AidToNavigationReport} (h : d.Sound) (h' : AidInRange d) : ∀ f ∈ d.shownFields l, QuietField f := by
  unfold AidToNavigationReport.shownFields
  simp only [List.forall_mem_cons]
  exact ⟨quietField (by decide) (quiet_bool _),
    quietField (by decide) (quiet_Station _),
    quietField (by decide) (quiet_nat _),
    quietField (by decide) (quiet_NavAidType _),
    quietField (by decide) (quiet_text hl (fun c hc => by
      obtain ⟨a, b, e, ha, hb⟩ := h'.name
      rw [e] at hc
      rcases List.mem_append.mp hc with hc | hc
      · exact (ha.2.1 c hc).1
      · exact (hb.2.1 c hc).1)),
    quietField (by decide) (quiet_bool _),
    quietField (by decide) (quiet_doubles hl h.latitude),
    quietField (by decide) (quiet_doubles hl h.longitude),
    quietField (by decide) (quiet_opt quiet_nat _),
    quietField (by decide) (quiet_opt quiet_nat _),
    quietField (by decide) (quiet_opt quiet_nat _),
    quietField (by decide) (quiet_opt quiet_nat _),
    quietField (by decide) (quiet_opt quiet_PositionFixType _),
    quietField (by decide) (quiet_nat _),
    quietField (by decide) (quiet_bool _),
    quietField (by decide) (quiet_nat _),
    quietField (by decide) (quiet_bool _),
    quietField (by decide) (quiet_bool _),
    quietField (by decide) (quiet_bool _),
    fun _ h => nomatch h⟩

/-- The entries of `BaseStationReport`. -/
def BaseStationReport.shownFields (l : Library) (d : BaseStationReport) : List (Str × Str) :=
    [(c! "own_vessel", debugBool d.ownVessel),
     (c! "station", Station.debug d.station),
     (c! "mmsi", natStr d.mmsi),
     (c! "timestamp", debugOption DateTime.debug d.timestamp),
     (c! "high_position_accuracy", debugBool d.highPositionAccuracy),
     (c! "latitude", debugOption l.double d.latitude),
     (c! "longitude", debugOption l.double d.longitude),
     (c! "position_fix_type", debugOption PositionFixType.debug d.positionFixType),
     (c! "raim_flag", debugBool d.raimFlag),
     (c! "radio_status", natStr d.radioStatus)]

theorem BaseStationReport.debug_eq (l : Library) (d : BaseStationReport) : d.debug l = debugStruct (c! "BaseStationReport") (d.shownFields l) := rfl

theorem BaseStationReport.quiet {l : Library} (hl : LibraryOk l) {d : BaseStationReport} (h : d.Sound) : ∀ f ∈ d.shownFields l, QuietField f := by
  unfold BaseStationReport.shownFields
  simp only [List.forall_mem_cons]
  exact ⟨quietField (by decide) (quiet_bool _),
    quietField (by decide) (quiet_Station _),
    quietField (by decide) (quiet_nat _),
    quietField (by decide) (quiet_dates _),
    quietField (by decide) (quiet_bool _),
    quietField (by decide) (quiet_doubles hl h.latitude),
    quietField (by decide) (quiet_doubles hl h.longitude),
    quietField (by decide) (quiet_opt quiet_PositionFixType _),
    quietField (by decide) (quiet_bool _),
    quietField (by decide) (quiet_nat _),
    fun _ h => nomatch h⟩

/-- The entries of `BinaryAddressedMessage`. -/
def BinaryAddressedMessage.shownFields (_l : Library) (d : BinaryAddressedMessage) : List (Str × Str) :=
    [(c! "own_vessel", debugBool d.ownVessel),
     (c! "station", Station.debug d.station),
     (c! "mmsi", natStr d.mmsi),
     (c! "sequence_number", natStr d.sequenceNumber),
     (c! "destination_mmsi", natStr d.destinationMmsi),
     (c! "retransmit_flag", debugBool d.retransmitFlag),
     (c! "dac", natStr d.dac),
     (c! "fid", natStr d.fid)]

theorem BinaryAddressedMessage.debug_eq (l : Library) (d : BinaryAddressedMessage) : d.debug l = debugStruct (c! "BinaryAddressedMessage") (d.shownFields l) := rfl

theorem BinaryAddressedMessage.quiet {l : Library} {d : BinaryAddressedMessage}  : ∀ f ∈ d.shownFields l, QuietField f := by
  unfold BinaryAddressedMessage.shownFields
  simp only [List.forall_mem_cons]
  exact ⟨quietField (by decide) (quiet_bool _),
    quietField (by decide) (quiet_Station _),
    quietField (by decide) (quiet_nat _),
    quietField (by decide) (quiet_nat _),
    quietField (by decide) (quiet_nat _),
    quietField (by decide) (quiet_bool _),
    quietField (by decide) (quiet_nat _),
    quietField (by decide) (quiet_nat _),
    fun _ h => nomatch h⟩

/-- The entries of `StandardSarAircraftPositionReport`. -/
def StandardSarAircraftPositionReport.shownFields (l : Library) (d : StandardSarAircraftPositionReport) : List (Str × Str) :=
    [(c! "own_vessel", debugBool d.ownVessel),
     (c! "station", Station.debug d.station),
     (c! "mmsi", natStr d.mmsi),
     (c! "altitude", debugOption natStr d.altitude),
     (c! "sog_knots", debugOption natStr d.sogKnots),
     (c! "high_position_accuracy", debugBool d.highPositionAccuracy),
     (c! "latitude", debugOption l.double d.latitude),
     (c! "longitude", debugOption l.double d.longitude),
     (c! "cog", debugOption l.double d.cog),
     (c! "timestamp_seconds", natStr d.timestampSeconds),
     (c! "regional", natStr d.regional),
     (c! "dte", debugBool d.dte),
     (c! "assigned", debugBool d.assigned),
     (c! "raim_flag", debugBool d.raimFlag),
     (c! "radio_status", natStr d.radioStatus)]

theorem StandardSarAircraftPositionReport.debug_eq (l : Library) (d : StandardSarAircraftPositionReport) : d.debug l = debugStruct (c! "StandardSarAircraftPositionReport") (d.shownFields l) := rfl

theorem StandardSarAircraftPositionReport.quiet {l : Library} (hl : LibraryOk l) {d : StandardSarAircraftPositionReport} (h : d.Sound) : ∀ f ∈ d.shownFields l, QuietField f := by
  unfold StandardSarAircraftPositionReport.shownFields
  simp only [List.forall_mem_cons]
  exact ⟨quietField (by decide) (quiet_bool _),
    quietField (by decide) (quiet_Station _),
    quietField (by decide) (quiet_nat _),
    quietField (by decide) (quiet_opt quiet_nat _),
    quietField (by decide) (quiet_opt quiet_nat _),
    quietField (by decide) (quiet_bool _),
    quietField (by decide) (quiet_doubles hl h.latitude),
    quietField (by decide) (quiet_doubles hl h.longitude),
    quietField (by decide) (quiet_doubles hl h.cog),
    quietField (by decide) (quiet_nat _),
    quietField (by decide) (quiet_nat _),
    quietField (by decide) (quiet_bool _),
    quietField (by decide) (quiet_bool _),
    quietField (by decide) (quiet_bool _),
    quietField (by decide) (quiet_nat _),
    fun _ h => nomatch h⟩

/-- The entries of `UtcDateInquiry`. -/
def UtcDateInquiry.shownFields (_l : Library) (d : UtcDateInquiry) : List (Str × Str) :=
    [(c! "own_vessel", debugBool d.ownVessel),
     (c! "station", Station.debug d.station),
     (c! "source_mmsi", natStr d.sourceMmsi),
     (c! "destination_mmsi", natStr d.destinationMmsi)]

theorem UtcDateInquiry.debug_eq (l : Library) (d : UtcDateInquiry) : d.debug l = debugStruct (c! "UtcDateInquiry") (d.shownFields l) := rfl

theorem UtcDateInquiry.quiet {l : Library} {d : UtcDateInquiry}  : ∀ f ∈ d.shownFields l, QuietField f := by
  unfold UtcDateInquiry.shownFields
  simp only [List.forall_mem_cons]
  exact ⟨quietField (by decide) (quiet_bool _),
    quietField (by decide) (quiet_Station _),
    quietField (by decide) (quiet_nat _),
    quietField (by decide) (quiet_nat _),
    fun _ h => nomatch h⟩

/-- The entries of `GgaData`. -/
def GgaData.shownFields (l : Library) (d : GgaData) : List (Str × Str) :=
    [(c! "source", NavigationSystem.debug d.source),
     (c! "timestamp", debugOption DateTime.debug d.timestamp),
     (c! "latitude", debugOption l.double d.latitude),
     (c! "longitude", debugOption l.double d.longitude),
     (c! "quality", GgaQualityIndicator.debug d.quality),
     (c! "satellite_count", debugOption natStr d.satelliteCount),
     (c! "hdop", debugOption l.double d.hdop),
     (c! "altitude", debugOption l.double d.altitude),
     (c! "geoid_separation", debugOption l.double d.geoidSeparation),
     (c! "age_of_dgps", debugOption l.double d.ageOfDgps),
     (c! "ref_station_id", debugOption natStr d.refStationId)]

theorem GgaData.debug_eq (l : Library) (d : GgaData) : d.debug l = debugStruct (c! "GgaData") (d.shownFields l) := rfl

theorem GgaData.quiet {l : Library} (hl : LibraryOk l) {d : GgaData} (h : d.Sound) : ∀ f ∈ d.shownFields l, QuietField f := by
  unfold GgaData.shownFields
  simp only [List.forall_mem_cons]
  exact ⟨quietField (by decide) (quiet_NavigationSystem _),
    quietField (by decide) (quiet_dates _),
    quietField (by decide) (quiet_doubles hl h.latitude),
    quietField (by decide) (quiet_doubles hl h.longitude),
    quietField (by decide) (quiet_GgaQualityIndicator _),
    quietField (by decide) (quiet_opt quiet_nat _),
    quietField (by decide) (quiet_doubles hl h.hdop),
    quietField (by decide) (quiet_doubles hl h.altitude),
    quietField (by decide) (quiet_doubles hl h.geoidSeparation),
    quietField (by decide) (quiet_doubles hl h.ageOfDgps),
    quietField (by decide) (quiet_opt quiet_nat _),
    fun _ h => nomatch h⟩

/-- The entries of `RmcData`. -/
def RmcData.shownFields (l : Library) (d : RmcData) : List (Str × Str) :=
    [(c! "source", NavigationSystem.debug d.source),
     (c! "timestamp", debugOption DateTime.debug d.timestamp),
     (c! "status_active", debugOption debugBool d.statusActive),
     (c! "latitude", debugOption l.double d.latitude),
     (c! "longitude", debugOption l.double d.longitude),
     (c! "sog_knots", debugOption l.double d.sogKnots),
     (c! "bearing", debugOption l.double d.bearing),
     (c! "variation", debugOption l.double d.variation)]

theorem RmcData.debug_eq (l : Library) (d : RmcData) : d.debug l = debugStruct (c! "RmcData") (d.shownFields l) := rfl

theorem RmcData.quiet {l : Library} (hl : LibraryOk l) {d : RmcData} (h : d.Sound) : ∀ f ∈ d.shownFields l, QuietField f := by
  unfold RmcData.shownFields
  simp only [List.forall_mem_cons]
  exact ⟨quietField (by decide) (quiet_NavigationSystem _),
    quietField (by decide) (quiet_dates _),
    quietField (by decide) (quiet_opt quiet_bool _),
    quietField (by decide) (quiet_doubles hl h.latitude),
    quietField (by decide) (quiet_doubles hl h.longitude),
    quietField (by decide) (quiet_doubles hl h.sogKnots),
    quietField (by decide) (quiet_doubles hl h.bearing),
    quietField (by decide) (quiet_doubles hl h.variation),
    fun _ h => nomatch h⟩

/-- The entries of `GsaData`. -/
def GsaData.shownFields (l : Library) (d : GsaData) : List (Str × Str) :=
    [(c! "source", NavigationSystem.debug d.source),
     (c! "mode1_automatic", debugOption debugBool d.mode1Automatic),
     (c! "mode2_3d", debugOption GsaFixMode.debug d.mode2_3d),
     (c! "prn_numbers", debugVec natStr d.prnNumbers),
     (c! "pdop", debugOption l.double d.pdop),
     (c! "hdop", debugOption l.double d.hdop),
     (c! "vdop", debugOption l.double d.vdop)]

theorem GsaData.debug_eq (l : Library) (d : GsaData) : d.debug l = debugStruct (c! "GsaData") (d.shownFields l) := rfl

theorem GsaData.quiet {l : Library} (hl : LibraryOk l) {d : GsaData} (h : d.Sound) : ∀ f ∈ d.shownFields l, QuietField f := by
  unfold GsaData.shownFields
  simp only [List.forall_mem_cons]
  exact ⟨quietField (by decide) (quiet_NavigationSystem _),
    quietField (by decide) (quiet_opt quiet_bool _),
    quietField (by decide) (quiet_opt quiet_GsaFixMode _),
    quietField (by decide) (quiet_nats _),
    quietField (by decide) (quiet_doubles hl h.pdop),
    quietField (by decide) (quiet_doubles hl h.hdop),
    quietField (by decide) (quiet_doubles hl h.vdop),
    fun _ h => nomatch h⟩

/-- The entries of `GsvData`. -/
def GsvData.shownFields (_l : Library) (d : GsvData) : List (Str × Str) :=
    [(c! "source", NavigationSystem.debug d.source),
     (c! "prn_number", natStr d.prnNumber),
     (c! "elevation", debugOption natStr d.elevation),
     (c! "azimuth", debugOption natStr d.azimuth),
     (c! "snr", debugOption natStr d.snr)]

theorem GsvData.debug_eq (l : Library) (d : GsvData) : d.debug l = debugStruct (c! "GsvData") (d.shownFields l) := rfl

theorem GsvData.quiet {l : Library} {d : GsvData}  : ∀ f ∈ d.shownFields l, QuietField f := by
  unfold GsvData.shownFields
  simp only [List.forall_mem_cons]
  exact ⟨quietField (by decide) (quiet_NavigationSystem _),
    quietField (by decide) (quiet_nat _),
    quietField (by decide) (quiet_opt quiet_nat _),
    quietField (by decide) (quiet_opt quiet_nat _),
    quietField (by decide) (quiet_opt quiet_nat _),
    fun _ h => nomatch h⟩

/-- The entries of `VtgData`. -/
def VtgData.shownFields (l : Library) (d : VtgData) : List (Str × Str) :=
    [(c! "source", NavigationSystem.debug d.source),
     (c! "cog_true", debugOption l.double d.cogTrue),
     (c! "cog_magnetic", debugOption l.double d.cogMagnetic),
     (c! "sog_knots", debugOption l.double d.sogKnots),
     (c! "sog_kph", debugOption l.double d.sogKph),
     (c! "faa_mode", debugOption FaaMode.debug d.faaMode)]

theorem VtgData.debug_eq (l : Library) (d : VtgData) : d.debug l = debugStruct (c! "VtgData") (d.shownFields l) := rfl

theorem VtgData.quiet {l : Library} (hl : LibraryOk l) {d : VtgData} (h : d.Sound) : ∀ f ∈ d.shownFields l, QuietField f := by
  unfold VtgData.shownFields
  simp only [List.forall_mem_cons]
  exact ⟨quietField (by decide) (quiet_NavigationSystem _),
    quietField (by decide) (quiet_doubles hl h.cogTrue),
    quietField (by decide) (quiet_doubles hl h.cogMagnetic),
    quietField (by decide) (quiet_doubles hl h.sogKnots),
    quietField (by decide) (quiet_doubles hl h.sogKph),
    quietField (by decide) (quiet_opt quiet_FaaMode _),
    fun _ h => nomatch h⟩

/-- The entries of `GllData`. -/
def GllData.shownFields (l : Library) (d : GllData) : List (Str × Str) :=
    [(c! "source", NavigationSystem.debug d.source),
     (c! "latitude", debugOption l.double d.latitude),
     (c! "longitude", debugOption l.double d.longitude),
     (c! "timestamp", debugOption DateTime.debug d.timestamp),
     (c! "data_valid", debugOption debugBool d.dataValid),
     (c! "faa_mode", debugOption FaaMode.debug d.faaMode)]

theorem GllData.debug_eq (l : Library) (d : GllData) : d.debug l = debugStruct (c! "GllData") (d.shownFields l) := rfl

theorem GllData.quiet {l : Library} (hl : LibraryOk l) {d : GllData} (h : d.Sound) : ∀ f ∈ d.shownFields l, QuietField f := by
  unfold GllData.shownFields
  simp only [List.forall_mem_cons]
  exact ⟨quietField (by decide) (quiet_NavigationSystem _),
    quietField (by decide) (quiet_doubles hl h.latitude),
    quietField (by decide) (quiet_doubles hl h.longitude),
    quietField (by decide) (quiet_dates _),
    quietField (by decide) (quiet_opt quiet_bool _),
    quietField (by decide) (quiet_opt quiet_FaaMode _),
    fun _ h => nomatch h⟩

end Nmea
