/-
C166: the text of an answer printed with `{:#?}` is that of `{:?}` on several lines, and identifies the answer.
-/
import Verif.Lemmas.Pretty
import Verif.Props.Debug
import Mathlib.Tactic.Ring

namespace Nmea
open Spec

/-! ### Reports -/

theorem key {k : Str} {v : DebugCalls} (h : Word k) : Word (k, v).1 := h

theorem joins_VesselDynamicData {l : Library} (hl : LibraryOk l) (d : VesselDynamicData) (h : VesselDynamicData.Sound d) :
    JoinsCalls (d.calls l) (d.debug l) :=
  joins_structCalls (by decide) (by simp) <|
    .cons ⟨key (by decide), rfl, joins_text (joins_bool _ trivial)⟩ <|
    .cons ⟨key (by decide), rfl, joins_text (joins_Station _ trivial)⟩ <|
    .cons ⟨key (by decide), rfl, joins_text (joins_AisClass _ trivial)⟩ <|
    .cons ⟨key (by decide), rfl, joins_text (joins_nat _ trivial)⟩ <|
    .cons ⟨key (by decide), rfl, joins_text (joins_NavigationStatus _ trivial)⟩ <|
    .cons ⟨key (by decide), rfl, joins_optionCalls (joins_double hl) _ h.rot⟩ <|
    .cons ⟨key (by decide), rfl, joins_optionCalls joins_int _ (fun _ _ => trivial)⟩ <|
    .cons ⟨key (by decide), rfl, joins_optionCalls (joins_double hl) _ h.sogKnots⟩ <|
    .cons ⟨key (by decide), rfl, joins_text (joins_bool _ trivial)⟩ <|
    .cons ⟨key (by decide), rfl, joins_optionCalls (joins_double hl) _ h.latitude⟩ <|
    .cons ⟨key (by decide), rfl, joins_optionCalls (joins_double hl) _ h.longitude⟩ <|
    .cons ⟨key (by decide), rfl, joins_optionCalls (joins_double hl) _ h.cog⟩ <|
    .cons ⟨key (by decide), rfl, joins_optionCalls (joins_double hl) _ h.headingTrue⟩ <|
    .cons ⟨key (by decide), rfl, joins_text (joins_nat _ trivial)⟩ <|
    .cons ⟨key (by decide), rfl, joins_optionCalls joins_PositioningSystemMeta _ (fun _ _ => trivial)⟩ <|
    .cons ⟨key (by decide), rfl, joins_optionCalls joins_bool _ (fun _ _ => trivial)⟩ <|
    .cons ⟨key (by decide), rfl, joins_optionCalls joins_bool _ (fun _ _ => trivial)⟩ <|
    .cons ⟨key (by decide), rfl, joins_text (joins_bool _ trivial)⟩ <|
    .cons ⟨key (by decide), rfl, joins_optionCalls joins_bool _ (fun _ _ => trivial)⟩ <|
    .cons ⟨key (by decide), rfl, joins_optionCalls joins_bool _ (fun _ _ => trivial)⟩ <|
    .cons ⟨key (by decide), rfl, joins_optionCalls joins_bool _ (fun _ _ => trivial)⟩ <|
    .cons ⟨key (by decide), rfl, joins_optionCalls joins_bool _ (fun _ _ => trivial)⟩ <|
    .cons ⟨key (by decide), rfl, joins_optionCalls joins_bool _ (fun _ _ => trivial)⟩ <|
    .cons ⟨key (by decide), rfl, joins_optionCalls joins_bool _ (fun _ _ => trivial)⟩ <|
    .cons ⟨key (by decide), rfl, joins_optionCalls joins_bool _ (fun _ _ => trivial)⟩ <|
    .cons ⟨key (by decide), rfl, joins_optionCalls joins_nat _ (fun _ _ => trivial)⟩ <| .nil

theorem joins_VesselStaticData {l : Library} (hl : LibraryOk l) (d : VesselStaticData) (h : VesselStaticData.Sound d) :
    JoinsCalls (d.calls l) (d.debug l) :=
  joins_structCalls (by decide) (by simp) <|
    .cons ⟨key (by decide), rfl, joins_text (joins_bool _ trivial)⟩ <|
    .cons ⟨key (by decide), rfl, joins_text (joins_AisClass _ trivial)⟩ <|
    .cons ⟨key (by decide), rfl, joins_text (joins_nat _ trivial)⟩ <|
    .cons ⟨key (by decide), rfl, joins_text (joins_nat _ trivial)⟩ <|
    .cons ⟨key (by decide), rfl, joins_optionCalls joins_nat _ (fun _ _ => trivial)⟩ <|
    .cons ⟨key (by decide), rfl, joins_optionCalls (fun s (_ : True) => joins_str hl s) _ (fun _ _ => trivial)⟩ <|
    .cons ⟨key (by decide), rfl, joins_optionCalls (fun s (_ : True) => joins_str hl s) _ (fun _ _ => trivial)⟩ <|
    .cons ⟨key (by decide), rfl, joins_text (joins_ShipType _ trivial)⟩ <|
    .cons ⟨key (by decide), rfl, joins_text (joins_CargoType _ trivial)⟩ <|
    .cons ⟨key (by decide), rfl, joins_optionCalls (fun s (_ : True) => joins_str hl s) _ (fun _ _ => trivial)⟩ <|
    .cons ⟨key (by decide), rfl, joins_optionCalls joins_nat _ (fun _ _ => trivial)⟩ <|
    .cons ⟨key (by decide), rfl, joins_optionCalls joins_nat _ (fun _ _ => trivial)⟩ <|
    .cons ⟨key (by decide), rfl, joins_optionCalls joins_nat _ (fun _ _ => trivial)⟩ <|
    .cons ⟨key (by decide), rfl, joins_optionCalls joins_nat _ (fun _ _ => trivial)⟩ <|
    .cons ⟨key (by decide), rfl, joins_optionCalls joins_nat _ (fun _ _ => trivial)⟩ <|
    .cons ⟨key (by decide), rfl, joins_optionCalls joins_nat _ (fun _ _ => trivial)⟩ <|
    .cons ⟨key (by decide), rfl, joins_optionCalls joins_PositionFixType _ (fun _ _ => trivial)⟩ <|
    .cons ⟨key (by decide), rfl, joins_optionCalls joins_date _ h.eta⟩ <|
    .cons ⟨key (by decide), rfl, joins_optionCalls joins_nat _ (fun _ _ => trivial)⟩ <|
    .cons ⟨key (by decide), rfl, joins_optionCalls (fun s (_ : True) => joins_str hl s) _ (fun _ _ => trivial)⟩ <|
    .cons ⟨key (by decide), rfl, joins_optionCalls joins_nat _ (fun _ _ => trivial)⟩ <| .nil

theorem joins_AidToNavigationReport {l : Library} (hl : LibraryOk l) (d : AidToNavigationReport) (h : AidToNavigationReport.Sound d) :
    JoinsCalls (d.calls l) (d.debug l) :=
  joins_structCalls (by decide) (by simp) <|
    .cons ⟨key (by decide), rfl, joins_text (joins_bool _ trivial)⟩ <|
    .cons ⟨key (by decide), rfl, joins_text (joins_Station _ trivial)⟩ <|
    .cons ⟨key (by decide), rfl, joins_text (joins_nat _ trivial)⟩ <|
    .cons ⟨key (by decide), rfl, joins_text (joins_NavAidType _ trivial)⟩ <|
    .cons ⟨key (by decide), rfl, joins_text ((fun s (_ : True) => joins_str hl s) _ trivial)⟩ <|
    .cons ⟨key (by decide), rfl, joins_text (joins_bool _ trivial)⟩ <|
    .cons ⟨key (by decide), rfl, joins_optionCalls (joins_double hl) _ h.latitude⟩ <|
    .cons ⟨key (by decide), rfl, joins_optionCalls (joins_double hl) _ h.longitude⟩ <|
    .cons ⟨key (by decide), rfl, joins_optionCalls joins_nat _ (fun _ _ => trivial)⟩ <|
    .cons ⟨key (by decide), rfl, joins_optionCalls joins_nat _ (fun _ _ => trivial)⟩ <|
    .cons ⟨key (by decide), rfl, joins_optionCalls joins_nat _ (fun _ _ => trivial)⟩ <|
    .cons ⟨key (by decide), rfl, joins_optionCalls joins_nat _ (fun _ _ => trivial)⟩ <|
    .cons ⟨key (by decide), rfl, joins_optionCalls joins_PositionFixType _ (fun _ _ => trivial)⟩ <|
    .cons ⟨key (by decide), rfl, joins_text (joins_nat _ trivial)⟩ <|
    .cons ⟨key (by decide), rfl, joins_text (joins_bool _ trivial)⟩ <|
    .cons ⟨key (by decide), rfl, joins_text (joins_nat _ trivial)⟩ <|
    .cons ⟨key (by decide), rfl, joins_text (joins_bool _ trivial)⟩ <|
    .cons ⟨key (by decide), rfl, joins_text (joins_bool _ trivial)⟩ <|
    .cons ⟨key (by decide), rfl, joins_text (joins_bool _ trivial)⟩ <| .nil

theorem joins_BaseStationReport {l : Library} (hl : LibraryOk l) (d : BaseStationReport) (h : BaseStationReport.Sound d) :
    JoinsCalls (d.calls l) (d.debug l) :=
  joins_structCalls (by decide) (by simp) <|
    .cons ⟨key (by decide), rfl, joins_text (joins_bool _ trivial)⟩ <|
    .cons ⟨key (by decide), rfl, joins_text (joins_Station _ trivial)⟩ <|
    .cons ⟨key (by decide), rfl, joins_text (joins_nat _ trivial)⟩ <|
    .cons ⟨key (by decide), rfl, joins_optionCalls joins_date _ h.timestamp⟩ <|
    .cons ⟨key (by decide), rfl, joins_text (joins_bool _ trivial)⟩ <|
    .cons ⟨key (by decide), rfl, joins_optionCalls (joins_double hl) _ h.latitude⟩ <|
    .cons ⟨key (by decide), rfl, joins_optionCalls (joins_double hl) _ h.longitude⟩ <|
    .cons ⟨key (by decide), rfl, joins_optionCalls joins_PositionFixType _ (fun _ _ => trivial)⟩ <|
    .cons ⟨key (by decide), rfl, joins_text (joins_bool _ trivial)⟩ <|
    .cons ⟨key (by decide), rfl, joins_text (joins_nat _ trivial)⟩ <| .nil

theorem joins_BinaryAddressedMessage {l : Library} (_hl : LibraryOk l) (d : BinaryAddressedMessage) :
    JoinsCalls (d.calls l) (d.debug l) :=
  joins_structCalls (by decide) (by simp) <|
    .cons ⟨key (by decide), rfl, joins_text (joins_bool _ trivial)⟩ <|
    .cons ⟨key (by decide), rfl, joins_text (joins_Station _ trivial)⟩ <|
    .cons ⟨key (by decide), rfl, joins_text (joins_nat _ trivial)⟩ <|
    .cons ⟨key (by decide), rfl, joins_text (joins_nat _ trivial)⟩ <|
    .cons ⟨key (by decide), rfl, joins_text (joins_nat _ trivial)⟩ <|
    .cons ⟨key (by decide), rfl, joins_text (joins_bool _ trivial)⟩ <|
    .cons ⟨key (by decide), rfl, joins_text (joins_nat _ trivial)⟩ <|
    .cons ⟨key (by decide), rfl, joins_text (joins_nat _ trivial)⟩ <| .nil

theorem joins_StandardSarAircraftPositionReport {l : Library} (hl : LibraryOk l) (d : StandardSarAircraftPositionReport) (h : StandardSarAircraftPositionReport.Sound d) :
    JoinsCalls (d.calls l) (d.debug l) :=
  joins_structCalls (by decide) (by simp) <|
    .cons ⟨key (by decide), rfl, joins_text (joins_bool _ trivial)⟩ <|
    .cons ⟨key (by decide), rfl, joins_text (joins_Station _ trivial)⟩ <|
    .cons ⟨key (by decide), rfl, joins_text (joins_nat _ trivial)⟩ <|
    .cons ⟨key (by decide), rfl, joins_optionCalls joins_nat _ (fun _ _ => trivial)⟩ <|
    .cons ⟨key (by decide), rfl, joins_optionCalls joins_nat _ (fun _ _ => trivial)⟩ <|
    .cons ⟨key (by decide), rfl, joins_text (joins_bool _ trivial)⟩ <|
    .cons ⟨key (by decide), rfl, joins_optionCalls (joins_double hl) _ h.latitude⟩ <|
    .cons ⟨key (by decide), rfl, joins_optionCalls (joins_double hl) _ h.longitude⟩ <|
    .cons ⟨key (by decide), rfl, joins_optionCalls (joins_double hl) _ h.cog⟩ <|
    .cons ⟨key (by decide), rfl, joins_text (joins_nat _ trivial)⟩ <|
    .cons ⟨key (by decide), rfl, joins_text (joins_nat _ trivial)⟩ <|
    .cons ⟨key (by decide), rfl, joins_text (joins_bool _ trivial)⟩ <|
    .cons ⟨key (by decide), rfl, joins_text (joins_bool _ trivial)⟩ <|
    .cons ⟨key (by decide), rfl, joins_text (joins_bool _ trivial)⟩ <|
    .cons ⟨key (by decide), rfl, joins_text (joins_nat _ trivial)⟩ <| .nil

theorem joins_UtcDateInquiry {l : Library} (_hl : LibraryOk l) (d : UtcDateInquiry) :
    JoinsCalls (d.calls l) (d.debug l) :=
  joins_structCalls (by decide) (by simp) <|
    .cons ⟨key (by decide), rfl, joins_text (joins_bool _ trivial)⟩ <|
    .cons ⟨key (by decide), rfl, joins_text (joins_Station _ trivial)⟩ <|
    .cons ⟨key (by decide), rfl, joins_text (joins_nat _ trivial)⟩ <|
    .cons ⟨key (by decide), rfl, joins_text (joins_nat _ trivial)⟩ <| .nil

theorem joins_GgaData {l : Library} (hl : LibraryOk l) (d : GgaData) (h : GgaData.Sound d) :
    JoinsCalls (d.calls l) (d.debug l) :=
  joins_structCalls (by decide) (by simp) <|
    .cons ⟨key (by decide), rfl, joins_text (joins_NavigationSystem _ trivial)⟩ <|
    .cons ⟨key (by decide), rfl, joins_optionCalls joins_date _ h.timestamp⟩ <|
    .cons ⟨key (by decide), rfl, joins_optionCalls (joins_double hl) _ h.latitude⟩ <|
    .cons ⟨key (by decide), rfl, joins_optionCalls (joins_double hl) _ h.longitude⟩ <|
    .cons ⟨key (by decide), rfl, joins_text (joins_GgaQualityIndicator _ trivial)⟩ <|
    .cons ⟨key (by decide), rfl, joins_optionCalls joins_nat _ (fun _ _ => trivial)⟩ <|
    .cons ⟨key (by decide), rfl, joins_optionCalls (joins_double hl) _ h.hdop⟩ <|
    .cons ⟨key (by decide), rfl, joins_optionCalls (joins_double hl) _ h.altitude⟩ <|
    .cons ⟨key (by decide), rfl, joins_optionCalls (joins_double hl) _ h.geoidSeparation⟩ <|
    .cons ⟨key (by decide), rfl, joins_optionCalls (joins_double hl) _ h.ageOfDgps⟩ <|
    .cons ⟨key (by decide), rfl, joins_optionCalls joins_nat _ (fun _ _ => trivial)⟩ <| .nil

theorem joins_RmcData {l : Library} (hl : LibraryOk l) (d : RmcData) (h : RmcData.Sound d) :
    JoinsCalls (d.calls l) (d.debug l) :=
  joins_structCalls (by decide) (by simp) <|
    .cons ⟨key (by decide), rfl, joins_text (joins_NavigationSystem _ trivial)⟩ <|
    .cons ⟨key (by decide), rfl, joins_optionCalls joins_date _ h.timestamp⟩ <|
    .cons ⟨key (by decide), rfl, joins_optionCalls joins_bool _ (fun _ _ => trivial)⟩ <|
    .cons ⟨key (by decide), rfl, joins_optionCalls (joins_double hl) _ h.latitude⟩ <|
    .cons ⟨key (by decide), rfl, joins_optionCalls (joins_double hl) _ h.longitude⟩ <|
    .cons ⟨key (by decide), rfl, joins_optionCalls (joins_double hl) _ h.sogKnots⟩ <|
    .cons ⟨key (by decide), rfl, joins_optionCalls (joins_double hl) _ h.bearing⟩ <|
    .cons ⟨key (by decide), rfl, joins_optionCalls (joins_double hl) _ h.variation⟩ <| .nil

theorem joins_GsaData {l : Library} (hl : LibraryOk l) (d : GsaData) (h : GsaData.Sound d) :
    JoinsCalls (d.calls l) (d.debug l) :=
  joins_structCalls (by decide) (by simp) <|
    .cons ⟨key (by decide), rfl, joins_text (joins_NavigationSystem _ trivial)⟩ <|
    .cons ⟨key (by decide), rfl, joins_optionCalls joins_bool _ (fun _ _ => trivial)⟩ <|
    .cons ⟨key (by decide), rfl, joins_optionCalls joins_GsaFixMode _ (fun _ _ => trivial)⟩ <|
    .cons ⟨key (by decide), rfl, joins_listCalls _ fun x _ => joins_text (joins_nat x trivial)⟩ <|
    .cons ⟨key (by decide), rfl, joins_optionCalls (joins_double hl) _ h.pdop⟩ <|
    .cons ⟨key (by decide), rfl, joins_optionCalls (joins_double hl) _ h.hdop⟩ <|
    .cons ⟨key (by decide), rfl, joins_optionCalls (joins_double hl) _ h.vdop⟩ <| .nil

theorem joins_GsvData {l : Library} (_hl : LibraryOk l) (d : GsvData) :
    JoinsCalls (d.calls l) (d.debug l) :=
  joins_structCalls (by decide) (by simp) <|
    .cons ⟨key (by decide), rfl, joins_text (joins_NavigationSystem _ trivial)⟩ <|
    .cons ⟨key (by decide), rfl, joins_text (joins_nat _ trivial)⟩ <|
    .cons ⟨key (by decide), rfl, joins_optionCalls joins_nat _ (fun _ _ => trivial)⟩ <|
    .cons ⟨key (by decide), rfl, joins_optionCalls joins_nat _ (fun _ _ => trivial)⟩ <|
    .cons ⟨key (by decide), rfl, joins_optionCalls joins_nat _ (fun _ _ => trivial)⟩ <| .nil

theorem joins_VtgData {l : Library} (hl : LibraryOk l) (d : VtgData) (h : VtgData.Sound d) :
    JoinsCalls (d.calls l) (d.debug l) :=
  joins_structCalls (by decide) (by simp) <|
    .cons ⟨key (by decide), rfl, joins_text (joins_NavigationSystem _ trivial)⟩ <|
    .cons ⟨key (by decide), rfl, joins_optionCalls (joins_double hl) _ h.cogTrue⟩ <|
    .cons ⟨key (by decide), rfl, joins_optionCalls (joins_double hl) _ h.cogMagnetic⟩ <|
    .cons ⟨key (by decide), rfl, joins_optionCalls (joins_double hl) _ h.sogKnots⟩ <|
    .cons ⟨key (by decide), rfl, joins_optionCalls (joins_double hl) _ h.sogKph⟩ <|
    .cons ⟨key (by decide), rfl, joins_optionCalls joins_FaaMode _ (fun _ _ => trivial)⟩ <| .nil

theorem joins_GllData {l : Library} (hl : LibraryOk l) (d : GllData) (h : GllData.Sound d) :
    JoinsCalls (d.calls l) (d.debug l) :=
  joins_structCalls (by decide) (by simp) <|
    .cons ⟨key (by decide), rfl, joins_text (joins_NavigationSystem _ trivial)⟩ <|
    .cons ⟨key (by decide), rfl, joins_optionCalls (joins_double hl) _ h.latitude⟩ <|
    .cons ⟨key (by decide), rfl, joins_optionCalls (joins_double hl) _ h.longitude⟩ <|
    .cons ⟨key (by decide), rfl, joins_optionCalls joins_date _ h.timestamp⟩ <|
    .cons ⟨key (by decide), rfl, joins_optionCalls joins_bool _ (fun _ _ => trivial)⟩ <|
    .cons ⟨key (by decide), rfl, joins_optionCalls joins_FaaMode _ (fun _ _ => trivial)⟩ <| .nil

theorem joins_ParsedSentence {l : Library} (hl : LibraryOk l) (r : ParsedSentence) (h : r.Sound) :
    JoinsCalls (r.calls l) (r.debug l) := by
  rcases r with _ | d | d | d | d | d | d | d | d | d | d | d | d | d
  · exact joins_text (leaf_word (by decide))
  · exact joins_tupleCalls (by decide) (joins_VesselDynamicData hl _ h)
  · exact joins_tupleCalls (by decide) (joins_VesselStaticData hl _ h)
  · exact joins_tupleCalls (by decide) (joins_BaseStationReport hl _ h)
  · exact joins_tupleCalls (by decide) (joins_BinaryAddressedMessage hl _)
  · exact joins_tupleCalls (by decide) (joins_StandardSarAircraftPositionReport hl _ h)
  · exact joins_tupleCalls (by decide) (joins_UtcDateInquiry hl _)
  · exact joins_tupleCalls (by decide) (joins_AidToNavigationReport hl _ h)
  · exact joins_tupleCalls (by decide) (joins_GgaData hl _ h)
  · exact joins_tupleCalls (by decide) (joins_RmcData hl _ h)
  · exact joins_tupleCalls (by decide) (joins_GsaData hl _ h)
  · exact joins_tupleCalls (by decide) (joins_listCalls _ fun x _ => joins_GsvData hl x)
  · exact joins_tupleCalls (by decide) (joins_VtgData hl _ h)
  · exact joins_tupleCalls (by decide) (joins_GllData hl _ h)

theorem joins_ParseError {l : Library} (hl : LibraryOk l) (e : ParseError) : JoinsCalls (e.calls l) (e.debug l) := by
  cases e <;> exact joins_tupleCalls (by decide) (joins_text (joins_str hl _))

theorem shifted_zero (p : Str) : shifted 0 p = p := by
  induction p with
  | nil => rfl
  | cons c cs ih =>
    have e : shifted 0 (c :: cs) = shifted 0 [c] ++ shifted 0 cs := shifted_append 0 [c] cs
    rw [e, ih]
    by_cases hc : c = '\n' <;> simp [shifted, hc]

theorem joinLines_joins {p d : Str} (h : Joins p d) : joinLines 0 p = d := by
  have h1 := h 0 0 [] (.inl rfl)
  rw [shifted_zero] at h1
  simpa [before, joinLines] using h1

/-- C166: the text of `{:#?}`, brought on one line, is that of `{:?}`. -/
theorem C166_one_line (l : Library) (hl : LibraryOk l) (h : List (Env × Str)) (a : Answer) (ha : a ∈ answers Parser.new h) :
    (prettyAnswer l a).map (joinLines 0) = debugAnswer l a := by
  match a with
  | .ok r => exact congrArg some (joinLines_joins (joins_tupleCalls (by decide) (joins_ParsedSentence hl r (sound_answer ha))).1)
  | .err e => exact congrArg some (joinLines_joins (joins_tupleCalls (by decide) (joins_ParseError hl e)).1)
  | .panic => rfl

/-- C166: so answers with the same text are the same. -/
theorem C166_answer (l : Library) (hl : LibraryOk l) (h1 h2 : List (Env × Str)) (a b : Answer)
    (ha : a ∈ answers Parser.new h1) (hb : b ∈ answers Parser.new h2) : prettyAnswer l a = prettyAnswer l b ↔ a = b := by
  refine ⟨fun e => (C143_answer l hl h1 h2 a b ha hb).1 ?_, fun e => by rw [e]⟩
  rw [← C166_one_line l hl h1 a ha, ← C166_one_line l hl h2 b hb, e]

/-! ### Lines -/

theorem lines_answer {l : Library} {hl : LibraryOk l} {h : List (Env × Str)} {r : ParsedSentence} (hr : .ok r ∈ answers Parser.new h)
    {t : Str} (ht : prettyAnswer l (.ok r) = some t) : lineBreaks t = 2 + (r.calls l).breaks := by
  have e : (DebugCalls.tuple (c! "Ok") (r.calls l)).pretty = t := Option.some.inj ht
  rw [← e, lineBreaks, (joins_tupleCalls (by decide) (joins_ParsedSentence hl r (sound_answer hr))).2.1, DebugCalls.breaks]

/-- Whether there are values. -/
def someOf {α : Type} (x : Option α) : Nat := if x.isSome then 2 else 0

theorem option_breaks {α : Type} (text : α → Str) (x : Option α) : (optionCalls text x).breaks = someOf x := by
  cases x <;> simp [optionCalls, DebugCalls.breaks, someOf]

/-- C166: the text of an error has five lines, whatever the sentence contained. -/
theorem C166_error_lines (l : Library) (hl : LibraryOk l) (e : ParseError) (t : Str) (ht : prettyAnswer l (.err e) = some t) :
    lineBreaks t = 4 := by
  cases ht
  rw [lineBreaks, (joins_tupleCalls (by decide) (joins_ParseError hl e)).2.1]
  cases e <;> simp [DebugCalls.breaks, ParseError.calls]

/-- C166: the text of a report of static data has 27 lines, and two more for each value that is present, whatever the texts in it are. -/
theorem C166_static_lines (l : Library) (hl : LibraryOk l) (h : List (Env × Str)) (d : VesselStaticData)
    (hd : .ok (.vesselStaticData d) ∈ answers Parser.new h) (t : Str) (ht : prettyAnswer l (.ok (.vesselStaticData d)) = some t) :
    lineBreaks t = 26 + 2 * [d.imoNumber.isSome, d.callSign.isSome, d.name.isSome, d.equipmentVendorId.isSome,
      d.equipmentModel.isSome, d.equipmentSerialNumber.isSome, d.dimensionToBow.isSome, d.dimensionToStern.isSome,
      d.dimensionToPort.isSome, d.dimensionToStarboard.isSome, d.positionFixType.isSome, d.eta.isSome, d.draught10.isSome,
      d.destination.isSome, d.mothershipMmsi.isSome].count true := by
  rw [lines_answer (hl := hl) hd ht]
  have h1 : ∀ {α : Type} (x : Option α) (bs : List Bool), 2 * (x.isSome :: bs).count true = someOf x + 2 * bs.count true := by
    intro α x bs
    cases x
    · simp [someOf]
    · simp [someOf]
      omega
  simp only [h1, List.count_nil]
  simp only [ParsedSentence.calls, VesselStaticData.calls, DebugCalls.breaks, fieldBreaks, option_breaks]
  ring

theorem indented_fits {p : Str} (h : Fits p) : Indented 0 0 p := by
  have h1 := h.2 0 []
  rw [Nat.mul_zero, shifted_zero, List.append_nil] at h1
  exact h1.2 trivial

/-- C166: each line is indented by four blanks for each bracket that is open. -/
theorem C166_indented (l : Library) (hl : LibraryOk l) (h : List (Env × Str)) (a : Answer) (ha : a ∈ answers Parser.new h)
    (t : Str) (ht : prettyAnswer l a = some t) : Indented 0 0 t := by
  match a with
  | .ok r =>
    rw [← Option.some.inj ht]
    exact indented_fits (joins_tupleCalls (by decide) (joins_ParsedSentence hl r (sound_answer ha))).2.2
  | .err e =>
    rw [← Option.some.inj ht]
    exact indented_fits (joins_tupleCalls (by decide) (joins_ParseError hl e)).2.2
  | .panic => cases ht

/-! ### Examples -/

/-- Indented by hand. -/
example : Indented 0 0 (c! "Ok(\n    Incomplete,\n)") ∧ ¬ Indented 0 0 (c! "Ok(\n  Incomplete,\n)") ∧
    ¬ Indented 0 0 (c! "Ok(\n    Incomplete,\n    )") ∧ Indented 0 0 (c! "Err(\n    \"a(\",\n)") := by
  refine ⟨?_, ?_, ?_, ?_⟩ <;> simp [Indented, closes]


/-- The first two answers of `demoLines`. -/
theorem demoLines_pretty (l : Library) : ((answers Parser.new demoLines).take 2).map (prettyAnswer l) =
    [some (c! "Ok(\n    UtcDateInquiry(\n        UtcDateInquiry {\n            own_vessel: false,\n            \
        station: MobileStation,\n            source_mmsi: 366814480,\n            destination_mmsi: 366832740,\n        },\n    ),\n)"),
     some (c! "Err(\n    InvalidSentence(\n        \"Invalid NMEA sentence: hel\\nlo\",\n    ),\n)")] := by
  rw [demoLines_answers]
  rfl

/-- The reports of the aid to navigation that differ in a private field are told apart. -/
example (l : Library) (hl : LibraryOk l) : prettyAnswer l (.ok (.aidToNavigationReport (demoMark true))) ≠
    prettyAnswer l (.ok (.aidToNavigationReport (demoMark false))) := by
  have h : ∀ b, .ok (.aidToNavigationReport (demoMark b)) ∈ answers Parser.new (demoMarkLines b) := by
    intro b
    rw [demoMark_answers]
    simp
  intro e
  have h1 := (C166_answer l hl _ _ _ _ (h true) (h false)).1 e
  have h2 : (.ok (.aidToNavigationReport (demoMark true)) : Answer) ≠ .ok (.aidToNavigationReport (demoMark false)) := by decide +kernel
  exact h2 h1

/-- Parts A and B of type 24. -/
example : ∃ d, answers Parser.new [(demoEnv, c! "!AIVDM,1,1,,A,H42O55i18tMET00000000000000,2*6D"),
    (demoEnv, c! "!AIVDM,1,1,,A,H42O55lt0000000D3nink000?0500,0*70")] = [.ok .incomplete, .ok (.vesselStaticData d)] := by
  have h : (match answers Parser.new [(demoEnv, c! "!AIVDM,1,1,,A,H42O55i18tMET00000000000000,2*6D"),
    (demoEnv, c! "!AIVDM,1,1,,A,H42O55lt0000000D3nink000?0500,0*70")] with
    | [.ok .incomplete, .ok (.vesselStaticData _)] => true
    | _ => false) = true := by decide +kernel
  split at h
  · rename_i e
    exact ⟨_, e⟩
  · cases h

end Nmea
