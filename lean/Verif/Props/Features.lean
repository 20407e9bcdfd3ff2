/-
C159: the tables of features and of plans in the README (README.md:92-96, 104-112).
-/
import Verif.Props.Waiting
import Verif.Props.Delivered
import Verif.Props.Dispatch
import Verif.Props.Gnss

namespace Nmea
open Spec

/-- README.md:94: "VDM/VDO types 1-5, 18-19, 21, 24 and 27". -/
def Spec.featureTypes : List Nat := [1, 2, 3, 4, 5, 18, 19, 21, 24, 27]

/-- README.md:95: "GGA, RMC, GSA, GSV, VTG, GLL". -/
def Spec.featureKinds : List Str := [c! "GGA", c! "RMC", c! "GSA", c! "GSV", c! "VTG", c! "GLL"]

/-- README.md:96: "GPS, GLONASS, Galileo, BeiDou, NavIC and QZSS". -/
def Spec.featureSystems : List NavigationSystem := [.gps, .glonass, .galileo, .beidou, .navic, .qzss]

/-- README.md:106, 108, 109: AIS message types planned for later versions: 9-17; 20, 22, 23, 25 and 26; 6-8. -/
def Spec.plannedTypes : List Nat := [9, 10, 11, 12, 13, 14, 15, 16, 17, 20, 22, 23, 25, 26, 6, 7, 8]

/-- README.md:107, 111, 112: sentences planned for later versions. -/
def Spec.plannedKinds : List Str :=
  [c! "ALM", c! "DTM", c! "GBS", c! "HDT", c! "ROT", c! "STN", c! "TRF", c! "VBW", c! "ZDA", c! "XTC", c! "XTE", c! "AAM",
   c! "BOD", c! "BWC", c! "R00", c! "RMB", c! "RTE", c! "WPL", c! "ZTG", c! "APB", c! "RMA", c! "GRS", c! "GST", c! "MSK",
   c! "MSS", c! "STN", c! "VBW"]

/-- C159: a completed message of one of the types of the list, other than 19, is reported, unless its timestamp is invalid or, for
type 24, it has no part A or B or no other part is pending. -/
theorem C159_types (env : Env) (p : Parser) (hp : Reachable p) (s talker : Str) (own : Bool) (bits : List Bool)
    (h : DeliversBits env p s talker own bits) (ht : typeOf bits ∈ featureTypes) (h19 : typeOf bits ≠ 19)
    (hb : ¬ BadMessage env.now bits) (h24 : typeOf bits = 24 → partOf bits < 2 ∧ pendingStatic p (mmsiOf bits) ≠ none) :
    ∃ r, (parseSentence env p s).1 = .ok r ∧ typeOf bits ∈ aisTypesOf r := by
  have key : ∀ types ∈ reportKinds, typeOf bits ∈ types →
      ∃ r, (parseSentence env p s).1 = .ok r ∧ typeOf bits ∈ aisTypesOf r := by
    intro types hk hm
    obtain ⟨r, hr, e⟩ := (C136_ais env p hp s types hk).mpr ⟨talker, own, bits, h, hm, hb, h24⟩
    exact ⟨r, hr, e ▸ hm⟩
  simp only [featureTypes, List.mem_cons, List.not_mem_nil, or_false] at ht
  rcases ht with e | e | e | e | e | e | e | e | e | e
  · exact key [1, 2, 3, 18, 27] (by decide) (by rw [e]; decide)
  · exact key [1, 2, 3, 18, 27] (by decide) (by rw [e]; decide)
  · exact key [1, 2, 3, 18, 27] (by decide) (by rw [e]; decide)
  · exact key [4] (by decide) (by rw [e]; decide)
  · exact key [5, 24] (by decide) (by rw [e]; decide)
  · exact key [1, 2, 3, 18, 27] (by decide) (by rw [e]; decide)
  · exact absurd e h19
  · exact key [21] (by decide) (by rw [e]; decide)
  · exact key [5, 24] (by decide) (by rw [e]; decide)
  · exact key [1, 2, 3, 18, 27] (by decide) (by rw [e]; decide)

/-- A position report of type 1. -/
def demoOne : Str := c! "15RTgt0PAso;90TKcjM8h6g208CQ"

theorem demoOne_single : Single (c! "AI") false demoOne (c! "!AIVDM,1,1,,A,15RTgt0PAso;90TKcjM8h6g208CQ,0*4A") :=
  demoAlone [c! "1", c! "1", [], c! "A", demoOne, c! "0"] .full (by decide) (by decide +kernel)

example : ∃ r, (parseSentence demoEnv Parser.new (c! "!AIVDM,1,1,,A,15RTgt0PAso;90TKcjM8h6g208CQ,0*4A")).1 = .ok r ∧
    typeOf (payloadBits demoOne) ∈ aisTypesOf r := by
  have ht : typeOf (payloadBits demoOne) = 1 := by decide +kernel
  exact C159_types demoEnv Parser.new ⟨[], rfl⟩ _ (c! "AI") false _ ⟨demoOne, .single _ demoOne_single, fun _ => by decide +kernel, rfl⟩
    (by rw [ht]; decide) (by rw [ht]; decide) (by simp [BadMessage, ht]) (by simp [ht])

/-- C159: every completed message of type 19, which is in the list, is refused as unsupported. -/
theorem C159_type_19 (env : Env) (p : Parser) (s talker : Str) (own : Bool) (bits : List Bool)
    (h : DeliversBits env p s talker own bits) (ht : typeOf bits = 19) :
    ∃ m, (parseSentence env p s).1 = .err (.unsupportedSentenceType m) :=
  (C11_complete_message env p s talker own bits h).1.mpr (by rw [ht]; decide)

/-- An extended class B position report. -/
def demoNineteen : Str := c! "C5N3SRgPEnJGEBT>NhWAwwo862PaLELTBJ:V00000000S0D:R220"

theorem demoNineteen_single : Single (c! "AI") false demoNineteen
    (c! "!AIVDM,1,1,,B,C5N3SRgPEnJGEBT>NhWAwwo862PaLELTBJ:V00000000S0D:R220,0*0B") :=
  demoAlone [c! "1", c! "1", [], c! "B", demoNineteen, c! "0"] .full (by decide +kernel) (by decide +kernel)

example (env : Env) (p : Parser) : ∃ m, (parseSentence env p
    (c! "!AIVDM,1,1,,B,C5N3SRgPEnJGEBT>NhWAwwo862PaLELTBJ:V00000000S0D:R220,0*0B")).1 = .err (.unsupportedSentenceType m) :=
  C159_type_19 env p _ _ _ _ ⟨demoNineteen, .single _ demoNineteen_single, fun _ => by decide +kernel, rfl⟩ (by decide +kernel)

/-- C159: so "messages of the types in the list of features are not refused as unsupported" is false. -/
theorem C159_counterexample : ¬ ∀ (env : Env) (s talker : Str) (own : Bool) (bits : List Bool) (m : Str),
    DeliversBits env Parser.new s talker own bits → typeOf bits ∈ featureTypes →
    (parseSentence env Parser.new s).1 ≠ .err (.unsupportedSentenceType m) := by
  intro hall
  have hd : DeliversBits demoEnv Parser.new (c! "!AIVDM,1,1,,B,C5N3SRgPEnJGEBT>NhWAwwo862PaLELTBJ:V00000000S0D:R220,0*0B")
      (c! "AI") false (payloadBits demoNineteen) := ⟨demoNineteen, .single _ demoNineteen_single, fun _ => by decide +kernel, rfl⟩
  obtain ⟨m, hm⟩ := C159_type_19 demoEnv Parser.new _ _ _ _ hd (by decide +kernel)
  exact hall _ _ _ _ _ m hd (by decide +kernel) hm

/-- C159: of the types planned for later versions, 6, 9 and 10 are supported already, and all others are refused. -/
theorem C159_planned_types (env : Env) (p : Parser) (s talker : Str) (own : Bool) (bits : List Bool)
    (h : DeliversBits env p s talker own bits) (ht : typeOf bits ∈ plannedTypes) :
    (∃ m, (parseSentence env p s).1 = .err (.unsupportedSentenceType m)) ↔ typeOf bits ≠ 6 ∧ typeOf bits ≠ 9 ∧ typeOf bits ≠ 10 := by
  rw [(C11_complete_message env p s talker own bits h).1]
  simp only [plannedTypes, List.mem_cons, List.not_mem_nil, or_false] at ht
  simp only [supportedTypes, List.mem_cons, List.not_mem_nil, or_false]
  omega

/-- A message of type 10, which is planned for version 0.5. -/
example : ¬ ∃ m, (parseSentence demoEnv (parseSentence demoEnv Parser.new (c! "!AIVDM,2,1,7,B,:5MlU41,0")).2
    (c! "!ABVDM,2,2,7,B,GMK6@,0")).1 = .err (.unsupportedSentenceType m) := fun hm =>
  ((C159_planned_types _ _ _ _ _ _ (demoInTwoParts demoEnv) (by decide +kernel)).mp hm).2.2 (by decide +kernel)

/-- C159: sentences of a kind planned for later versions are refused; those of the kinds in the list never are. -/
theorem C159_kinds (env : Env) (p : Parser) (talker kind : Str) (fs : List Str) (s : Str) (h : IsGnss talker kind fs s) :
    (kind ∈ plannedKinds → ∃ m, parseSentence env p s = (.err (.unsupportedSentenceType m), p)) ∧
    (kind ∈ featureKinds → ∀ m, (parseSentence env p s).1 ≠ .err (.unsupportedSentenceType m)) := by
  constructor
  · intro hk
    have h3 : byteLen kind = 3 ∧ ',' ∉ kind ∧ kind ∉ gnssKinds := by
      have : ∀ k ∈ plannedKinds, byteLen k = 3 ∧ ',' ∉ k ∧ k ∉ gnssKinds := by decide
      exact this kind hk
    exact C10_other_gnss_kind env p talker kind fs s h3.1 h3.2.1 h h3.2.2
  · intro hk m hm
    have h3 : byteLen kind = 3 ∧ ',' ∉ kind ∧ kind ∈ gnssKinds := by
      have : ∀ k ∈ featureKinds, byteLen k = 3 ∧ ',' ∉ k ∧ k ∈ gnssKinds := by decide
      exact this kind hk
    exact C10_supported_gnss_kind env p (parseSentence env p s).2 talker kind fs s m h3.1 h3.2.1 h (Prod.ext hm rfl) h3.2.2

/-- Date and time (`ZDA`), planned for version 0.6. -/
example (env : Env) (p : Parser) : ∃ m, parseSentence env p (c! "$GPZDA,201530.00,04,07,2002,00,00*60") =
    (.err (.unsupportedSentenceType m), p) :=
  (C159_kinds env p (c! "GP") (c! "ZDA") [c! "201530.00", c! "04", c! "07", c! "2002", c! "00", c! "00"] _
    (demoTagged .full (by decide +kernel))).1 (by decide)

/-- C159: for each system of the list there is a talker, of which every report has this system as its source, and a sentence of
which is reported. -/
theorem C159_systems (sys : NavigationSystem) (hs : sys ∈ featureSystems) : ∃ talker : Str, Talker talker ∧
    (∃ s, ∀ (env : Env) (p : Parser), ∃ d, parseSentence env p s = (.ok (.vtg d), p) ∧ d.source = sys) ∧
    (∀ (env : Env) (p : Parser) (kind : Str) (fs : List Str) (s : Str) (r : ParsedSentence), kind ∈ featureKinds →
      IsGnss talker kind fs s → (parseSentence env p s).1 = .ok r → ∀ x ∈ sources r, x = sys) := by
  have key : ∀ talker s : Str, Talker talker → talkerSystem talker = sys → IsGnss talker (c! "VTG") [[]] s → Talker talker ∧
      (∃ s, ∀ (env : Env) (p : Parser), ∃ d, parseSentence env p s = (.ok (.vtg d), p) ∧ d.source = sys) ∧
      (∀ (env : Env) (p : Parser) (kind : Str) (fs : List Str) (s : Str) (r : ParsedSentence), kind ∈ featureKinds →
        IsGnss talker kind fs s → (parseSentence env p s).1 = .ok r → ∀ x ∈ sources r, x = sys) := by
    intro talker sen ht hsys hsen
    refine ⟨ht, ⟨sen, fun env p => ?_⟩, ?_⟩
    · obtain ⟨d, hd, h⟩ := C68_contents env p talker [[]] sen hsen
      exact ⟨d, hd, ((h d).mpr rfl).source.trans hsys⟩
    intro env p kind fs s r hk h hr x hx
    have h3 : byteLen kind = 3 ∧ ',' ∉ kind := by
      have : ∀ k ∈ featureKinds, byteLen k = 3 ∧ ',' ∉ k := by decide
      exact this kind hk
    rw [← hsys]
    exact C07_source_is_talker env p (parseSentence env p s).2 talker kind fs s r h3.1 h3.2 h (Prod.ext hr rfl) x hx
  simp only [featureSystems, List.mem_cons, List.not_mem_nil, or_false] at hs
  rcases hs with rfl | rfl | rfl | rfl | rfl | rfl
  · exact ⟨c! "GP", key _ (c! "$GPVTG,") (by decide) rfl (demoTagged .bare (by decide))⟩
  · exact ⟨c! "GL", key _ (c! "$GLVTG,") (by decide) rfl (demoTagged .bare (by decide))⟩
  · exact ⟨c! "GA", key _ (c! "$GAVTG,") (by decide) rfl (demoTagged .bare (by decide))⟩
  · exact ⟨c! "BD", key _ (c! "$BDVTG,") (by decide) rfl (demoTagged .bare (by decide))⟩
  · exact ⟨c! "GI", key _ (c! "$GIVTG,") (by decide) rfl (demoTagged .bare (by decide))⟩
  · exact ⟨c! "QZ", key _ (c! "$QZVTG,") (by decide) rfl (demoTagged .bare (by decide))⟩

end Nmea
