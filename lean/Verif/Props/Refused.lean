/-
C135: exactly which sentences are refused, and why.
-/
import Verif.Spec.Refused
import Verif.Props.Errors
import Verif.Props.Delivered
import Verif.Props.Panics
import Verif.Props.Static

namespace Nmea
open Spec

/-! ### Where an error comes from -/

theorem messageErr {env : Env} {p : Parser} (hp : Reachable p) {s talker : Str} {own : Bool} {payload : Str}
    (hd : Delivers p s talker own payload) {e : ParseError} (h : (parseSentence env p s).1 = .err e) :
    (∃ m, e = .unsupportedSentenceType m ∧ NotSupported env p s m) ∨
    (∃ m, e = .invalidSentence m ∧ Malformed env p s m) := by
  by_cases hr : Readable env payload
  · have hb : DeliversBits env p s talker own (payloadBits payload) := ⟨payload, hd, hr, rfl⟩
    by_cases hn : typeOf (payloadBits payload) ∈ supportedTypes
    · obtain ⟨q, -, he⟩ := eval_bits env p s talker own _ hb
      have ht : pickU64 (payloadBits payload) 0 6 = typeOf (payloadBits payload) := pickU64_window _ _ _ (by decide)
      rw [he] at h
      rcases dispatchAis_err _ _ _ _ _ _ _ _ (Prod.ext h rfl) with ⟨h24, -⟩ | ⟨hu, -⟩
      · rw [ht] at h24
        have hpart := (C27_merge_never_fails env p hp s own _ ⟨payload, completes_of_delivers hd, hr, rfl, h24⟩).1.mp
          ⟨e, he ▸ h⟩
        rw [← he, C89_part_number env p talker own _ s hb h24 hpart] at h
        cases h
        exact .inr ⟨_, rfl, .part talker own _ hb h24 hpart⟩
      · rw [ht] at hu
        exact absurd hn hu
    · rw [C89_message_type env p talker own _ s hb hn] at h
      cases h
      exact .inl ⟨_, rfl, .message talker own _ hb hn⟩
  · rw [(C72_panics_iff env p s).mpr (.payload talker own payload hd hr)] at h
    cases h

theorem gnssErr {env : Env} {p : Parser} {talker kind : Str} {fs : List Str} {s : Str} {l : List (Prop × Str)}
    (hl : (kind, l) ∈ faults fs) (hs : IsGnss talker kind fs s) {e : ParseError} (h : (parseSentence env p s).1 = .err e) :
    ∃ m, e = .invalidSentence m ∧ Malformed env p s m := by
  obtain ⟨m, rfl, hm⟩ := (C89_gnss_fields env p talker kind fs s l hl hs (by rw [h]; simp) e).mp h
  refine ⟨m, rfl, .field talker kind fs l m hl hs ⟨?_, ?_⟩ hm⟩
  · rintro rfl
    by_contra ht
    rw [(gga_panic env p talker fs s hs).mpr ht] at h
    cases h
  · rintro rfl
    by_contra ht
    rw [(rmc_panic env p talker fs s hs).mpr ht] at h
    cases h

theorem refused_cases (env : Env) (p : Parser) (hp : Reachable p) (s : Str) (e : ParseError)
    (h : (parseSentence env p s).1 = .err e) :
    (∃ m, e = .corruptedSentence m) ∨ (∃ m, e = .unsupportedSentenceType m ∧ NotSupported env p s m) ∨
    (∃ m, e = .invalidSentence m ∧ Malformed env p s m) := by
  cases shape s with
  | corrupted a b hs h1 h2 h3 =>
    subst hs
    rw [parse_corrupted env p a b h1 h2 h3] at h
    cases h
    exact .inl ⟨_, rfl⟩
  | noComma body e' hf hs hc =>
    rw [hs, C89_no_comma env p body e' hf hc] at h
    cases h
    exact .inr (.inr ⟨_, rfl, .comma body e' hf hs hc⟩)
  | badTag ty rest e' hf hs h1 h2 =>
    rw [(C72_panics_iff env p s).mpr (.tag ty rest e' hf hs h1 h2)] at h
    cases h
  | oddTag ty rest e' hf hs h1 h2 =>
    have h' := h
    rw [hs, parse_finish _ _ _ _ hf, parseBody_oddTag _ _ _ _ h1 h2] at h
    cases h
    exact .inr (.inl ⟨_, rfl, .tag ty rest e' hf hs h1 h2⟩)
  | dollar talker kind fs hk hc hs =>
    by_cases hn : kind ∈ [c! "GGA", c! "RMC", c! "GSA", c! "GSV", c! "VTG", c! "GLL"]
    · refine .inr (.inr ?_)
      have : ∃ l, (kind, l) ∈ faults fs := by
        simp only [List.mem_cons, List.not_mem_nil, or_false] at hn
        rcases hn with rfl | rfl | rfl | rfl | rfl | rfl
        · exact ⟨_, .head _⟩
        · exact ⟨_, .tail _ (.head _)⟩
        · exact ⟨_, .tail _ (.tail _ (.head _))⟩
        · exact ⟨_, .tail _ (.tail _ (.tail _ (.head _)))⟩
        · exact ⟨_, .tail _ (.tail _ (.tail _ (.tail _ (.head _))))⟩
        · exact ⟨_, .tail _ (.tail _ (.tail _ (.tail _ (.tail _ (.head _)))))⟩
      obtain ⟨l, hl⟩ := this
      exact gnssErr hl hs h
    · rw [C89_gnss_kind env p talker kind fs s hk hc hs hn] at h
      cases h
      exact .inr (.inl ⟨_, rfl, .gnss talker kind fs hk hc hs hn⟩)
  | bang talker kind fs hk hc hs =>
    by_cases hn : kind ≠ c! "VDM" ∧ kind ≠ c! "VDO"
    · rw [C89_ais_kind env p talker kind fs s hk hc hs hn] at h
      cases h
      exact .inr (.inl ⟨_, rfl, .ais talker kind fs hk hc hs hn⟩)
    · have : ∃ own, kind = aisKind own := by
        by_cases h1 : kind = c! "VDM"
        · exact ⟨false, h1⟩
        · exact ⟨true, by_contra fun h2 => hn ⟨h1, h2⟩⟩
      obtain ⟨own, rfl⟩ := this
      have hs : IsAis talker own fs s := hs
      cases ais_case env p talker own fs s hs with
      | bad m hf h' =>
        have hx := C89_fragment_numbers env p talker own fs s hs
        by_cases h0 : ∃ n, Dec 255 (field fs 0) n
        · rcases hf with hf | hf
          · exact absurd h0 (by simpa using hf)
          · by_cases hlen : 2 ≤ fs.length
            · rw [hx.2 h0 hlen hf] at h
              cases h
              exact .inr (.inr ⟨_, rfl, .number talker own fs hs h0 hlen hf⟩)
            · obtain ⟨f, rfl⟩ : ∃ f, fs = [f] := by
                cases fs with
                | nil => exact absurd rfl hs.2.2.1
                | cons f r => cases r with
                  | nil => exact ⟨f, rfl⟩
                  | cons g r => simp at hlen
              obtain ⟨n, hn⟩ := h0
              rw [eval_countOnly env p talker f own s hs n hn] at h'
              split at h' <;> cases own <;> cases h'
        · rw [not_exists] at h0
          rw [hx.1 h0] at h
          cases h
          exact .inr (.inr ⟨_, rfl, .count talker own fs hs h0⟩)
      | odd n _ _ _ h' => rw [h'] at h; cases h
      | single pl h0 hpl h' =>
        by_cases hlen : 2 ≤ fs.length
        · by_cases h1 : ∃ k, Dec 255 (field fs 1) k
          · obtain ⟨k, h1⟩ := h1
            exact .inr (messageErr hp (.single _ ⟨fs, k, hs, h0, h1, rfl⟩) h)
          · rw [not_exists] at h1
            rw [(C89_fragment_numbers env p talker own fs s hs).2 ⟨1, h0⟩ hlen h1] at h
            cases h
            exact .inr (.inr ⟨_, rfl, .number talker own fs hs ⟨1, h0⟩ hlen h1⟩)
        · obtain ⟨f, rfl⟩ : ∃ f, fs = [f] := by
            cases fs with
            | nil => exact absurd rfl hs.2.2.1
            | cons f r => cases r with
              | nil => exact ⟨f, rfl⟩
              | cons g r => simp at hlen
          rw [C89_count_only env p talker f own s hs h0] at h
          cases h
          exact .inr (.inl ⟨_, rfl, .short talker f own hs h0⟩)
      | part1 id hpt h' =>
        cases hb : pendingPart p own 2 id (field fs 3) with
        | none => 
          rw [h', joinPart, show p.savedFragments.get (partKey own 2 id (field fs 3)) = none from hb] at h
          cases h
        | some b => exact .inr (messageErr hp (.first _ _ _ _ hpt hb) h)
      | part2 id hpt h' =>
        cases ha : pendingPart p own 1 id (field fs 3) with
        | none =>
          rw [h', joinPart, show p.savedFragments.get (partKey own 1 id (field fs 3)) = none from ha] at h
          cases h
        | some a => exact .inr (messageErr hp (.second _ _ _ _ hpt ha) h)

/-- C135: exactly which sentences are refused as unsupported, and with which text. -/
theorem C135_unsupported (env : Env) (p : Parser) (hp : Reachable p) (s m : Str) :
    (parseSentence env p s).1 = .err (.unsupportedSentenceType m) ↔ NotSupported env p s m := by
  constructor
  · intro h
    rcases refused_cases env p hp s _ h with ⟨_, he⟩ | ⟨_, he, hn⟩ | ⟨_, he, -⟩
    · cases he
    · cases he; exact hn
    · cases he
  · intro h
    cases h with
    | gnss talker kind fs hk hc h hn => exact C89_gnss_kind env p talker kind fs s hk hc h hn
    | ais talker kind fs hk hc h hn => exact C89_ais_kind env p talker kind fs s hk hc h hn
    | tag ty rest e hf hs hc ho => rw [hs, parse_finish _ _ _ _ hf, parseBody_oddTag _ _ _ _ hc ho]
    | message talker own bits h hn => exact C89_message_type env p talker own bits s h hn
    | short talker f own h hn => rw [C89_count_only env p talker f own s h hn]

/-- A tag of another form; and a message of type 8, of which part 2 completes part 1. -/
example : NotSupported demoEnv Parser.new (c! "PGRME,1") (c! "Unsupported sentence type: PGRME") ∧
    NotSupported demoEnv (run Parser.new [(demoEnv, c! "!AIVDO,2,1,3,A,80,0")]) (c! "!AIVDO,2,2,3,A,00,0")
      (c! "Unsupported !VDO message type: 8") :=
  ⟨(C135_unsupported _ _ ⟨[], rfl⟩ _ _).mp (by decide +kernel),
    (C135_unsupported _ _ ⟨_, rfl⟩ _ _).mp (by decide +kernel)⟩

theorem faults_not_panic (env : Env) (p : Parser) (talker kind : Str) (fs : List Str) (s : Str) (l : List (Prop × Str))
    (m : Str) (hl : (kind, l) ∈ faults fs) (h : IsGnss talker kind fs s) (ht : TimeReadable env.now kind fs)
    (hm : FirstFault l m) : (parseSentence env p s).1 ≠ .panic := by
  simp only [faults, List.mem_cons, Prod.mk.injEq, List.not_mem_nil, or_false] at hl
  rcases hl with ⟨rfl, rfl⟩ | ⟨rfl, rfl⟩ | ⟨rfl, rfl⟩ | ⟨rfl, rfl⟩ | ⟨rfl, rfl⟩ | ⟨rfl, rfl⟩
  · exact fun hx => (gga_panic env p talker fs s h).mp hx (ht.1 rfl)
  · exact fun hx => (rmc_panic env p talker fs s h).mp hx (ht.2 rfl)
  · exact gsa_not_panic env p talker fs s h
  · intro hx
    cases gsv_case env p talker fs s h with
    | bad m _ h' => rw [h'] at hx; cases hx
    | part n k hp _ =>
      have key : ∀ i v, Num0 (2 ^ 32 - 1) (field fs i) v → ∃ x, IntField (2 ^ 32 - 1) (field fs i) x := by
        rintro i v (⟨h0, -⟩ | hd)
        · exact ⟨none, .inl ⟨h0, rfl⟩⟩
        · exact ⟨some v, .inr ⟨v, hd, rfl⟩⟩
      simp only [intFault, firstFault_cons] at hm
      rcases hm with ⟨h1, -⟩ | ⟨-, ⟨h1, -⟩ | ⟨-, h1⟩⟩
      · exact h1 (key 0 n hp.2.1)
      · exact h1 (key 1 k hp.2.2)
      · exact firstFault_nil _ h1
  · exact absurd hm (firstFault_nil _)
  · intro hx
    obtain ⟨hr, -⟩ := (gll_panic env p talker fs s h).mp hx
    simp only [latFault, lonFault, firstFault_cons] at hm
    rcases hm with ⟨h1, -⟩ | ⟨-, ⟨h1, -⟩ | ⟨-, h1⟩⟩
    · exact h1 hr.1
    · exact h1 hr.2
    · exact firstFault_nil _ h1

/-- C135: exactly which sentences are refused as invalid, and with which text. -/
theorem C135_invalid (env : Env) (p : Parser) (hp : Reachable p) (s m : Str) :
    (parseSentence env p s).1 = .err (.invalidSentence m) ↔ Malformed env p s m := by
  constructor
  · intro h
    rcases refused_cases env p hp s _ h with ⟨_, he⟩ | ⟨_, he, -⟩ | ⟨_, he, hn⟩
    · cases he
    · cases he
    · cases he; exact hn
  · intro h
    cases h with
    | comma body e hf hs hc => rw [hs]; exact C89_no_comma env p body e hf hc
    | field talker kind fs l m hl h ht hm =>
      exact (C89_gnss_fields env p talker kind fs s l hl h (faults_not_panic env p talker kind fs s l m hl h ht hm) _).mpr
        ⟨m, rfl, hm⟩
    | count talker own fs h hn => rw [(C89_fragment_numbers env p talker own fs s h).1 hn]
    | number talker own fs h h0 hl hn => rw [(C89_fragment_numbers env p talker own fs s h).2 h0 hl hn]
    | part talker own bits h ht hp => exact C89_part_number env p talker own bits s h ht hp

/-- A mode that cannot be read (of GLONASS, though the text says GPGSA). -/
example : Malformed demoEnv Parser.new (c! "$GLGSA,x") (c! "Invalid GPGSA mode: x") :=
  (C135_invalid _ _ ⟨[], rfl⟩ _ _).mp (by decide +kernel)

/-- C135: so every sentence is either refused for one of these reasons (or for its checksum), or it makes the call panic
for one of the reasons of C72, or it is accepted. -/
theorem C135_accepted (env : Env) (p : Parser) (hp : Reachable p) (s : Str) :
    (∃ r, (parseSentence env p s).1 = .ok r) ↔
      (¬ ∃ a b, s = a ++ '*' :: b ∧ '*' ∉ b ∧ b ≠ [] ∧ b ≠ checksumText a) ∧ (¬ ∃ m, NotSupported env p s m) ∧
      (¬ ∃ m, Malformed env p s m) ∧ ¬ Panics env p s := by
  rw [← C02_corrupted_iff env p s, ← C72_panics_iff env p s]
  simp only [← C135_unsupported env p hp s, ← C135_invalid env p hp s]
  cases h : (parseSentence env p s).1 with
  | ok r => simp
  | panic => simp
  | err e => cases e <;> simp

/-- An accepted sentence. -/
example : (¬ ∃ m, NotSupported demoEnv Parser.new (c! "$GPVTG,") m) ∧ (¬ ∃ m, Malformed demoEnv Parser.new (c! "$GPVTG,") m) ∧
    ¬ Panics demoEnv Parser.new (c! "$GPVTG,") :=
  ((C135_accepted demoEnv Parser.new ⟨[], rfl⟩ (c! "$GPVTG,")).mp (by
    cases h : (parseSentence demoEnv Parser.new (c! "$GPVTG,")).1 with
    | ok r => exact ⟨r, rfl⟩
    | err e => exact absurd (by decide +kernel) (show ¬ ((parseSentence demoEnv Parser.new (c! "$GPVTG,")).1 matches .ok _) = true by simp [h])
    | panic => exact absurd (by decide +kernel) (show ¬ ((parseSentence demoEnv Parser.new (c! "$GPVTG,")).1 matches .ok _) = true by simp [h]))).2

/-! ### The text of an error -/

theorem fault_phrase (fs : List Str) (kind : Str) (l : List (Prop × Str)) (m : Str) (hl : (kind, l) ∈ faults fs)
    (hm : FirstFault l m) : ∃ ph ∈ errorPhrases (.invalidSentence m), ph <+: m := by
  obtain ⟨before, holds, after, rfl, -, -⟩ := hm
  have key : ∀ x ∈ (faults fs).flatMap (·.2), ∃ ph ∈ errorPhrases (.invalidSentence m), ph <+: x.2 := by
    have pre : ∀ (a : Str) (r : Str), a ∈ errorPhrases (.invalidSentence m) →
        ∃ ph ∈ errorPhrases (.invalidSentence m), ph <+: a ++ r := fun a r h => ⟨a, h, List.prefix_append _ _⟩
    have num : ∀ n r, ∃ ph ∈ errorPhrases (.invalidSentence m), ph <+: c! "Failed to parse field " ++ n ++ c! ": " ++ r := by
      intro n r
      rw [List.append_assoc, List.append_assoc]
      exact pre _ _ (by simp [errorPhrases])
    have hlat : ∀ r, ∃ ph ∈ errorPhrases (.invalidSentence m), ph <+: c! "Failed to parse latitude (DDMM.MMM) from " ++ r :=
      fun r => pre _ _ (by simp [errorPhrases])
    have hlon : ∀ r, ∃ ph ∈ errorPhrases (.invalidSentence m), ph <+: c! "Failed to parse longitude (DDDMM.MMM) from " ++ r :=
      fun r => pre _ _ (by simp [errorPhrases])
    intro x hx
    simp only [faults, List.flatMap_cons, List.flatMap_nil, List.append_nil, List.mem_append, List.mem_cons,
      List.not_mem_nil, or_false, false_or, List.mem_map] at hx
    rcases hx with (rfl | rfl | rfl | rfl | rfl | rfl | rfl | rfl | rfl) | (rfl | rfl | rfl | rfl | rfl | rfl | rfl) |
      (((rfl | rfl) | ⟨i, -, rfl⟩) | (rfl | rfl | rfl)) | (rfl | rfl) | (rfl | rfl)
    all_goals first
      | exact num _ _
      | exact hlat _
      | exact hlon _
      | exact pre (c! "Invalid RMC navigation receiver status: ") _ (by simp [errorPhrases])
      | exact pre (c! "Invalid RMC variation side: ") _ (by simp [errorPhrases])
      | exact pre (c! "Invalid GPGSA mode: ") _ (by simp [errorPhrases])
      | exact pre (c! "Invalid GPGSA fix type: ") _ (by simp [errorPhrases])
  exact key (holds, m) (List.mem_flatMap.mpr ⟨_, hl, by simp⟩)

/-- C135: the text of every error begins with one of the phrases listed for its kind. -/
theorem C135_phrases (env : Env) (p : Parser) (hp : Reachable p) (s : Str) (e : ParseError)
    (h : (parseSentence env p s).1 = .err e) : ∃ ph ∈ errorPhrases e, ph <+: e.toStr := by
  cases e with
  | corruptedSentence m =>
    obtain ⟨a, b, rfl, h1, h2, h3⟩ := (C02_corrupted_iff env p s).mp ⟨m, h⟩
    obtain ⟨found, he, -⟩ := C89_checksum env p a b h1 h2 h3
    rw [he] at h
    cases h
    refine ⟨_, .head _, ?_⟩
    simp only [ParseError.toStr, List.append_assoc]
    exact List.prefix_append _ _
  | invalidSentence m =>
    have pre : ∀ (a : Str) (r : Str), a ∈ errorPhrases (.invalidSentence (a ++ r)) →
        ∃ ph ∈ errorPhrases (.invalidSentence (a ++ r)), ph <+: a ++ r := fun a r h => ⟨a, h, List.prefix_append _ _⟩
    cases (C135_invalid env p hp s m).mp h with
    | comma body e hf hs hc => exact pre _ _ (by simp [errorPhrases])
    | field talker kind fs l m hl h ht hm => exact fault_phrase fs kind l m hl hm
    | count talker own fs h hn => exact pre _ _ (by simp [errorPhrases])
    | number talker own fs h h0 hl hn => exact pre _ _ (by simp [errorPhrases])
    | part talker own bits h ht hp => exact pre _ _ (by simp [errorPhrases])
  | unsupportedSentenceType m =>
    have pre : ∀ (a : Str) (r m' : Str), a ∈ errorPhrases (.unsupportedSentenceType m') →
        ∃ ph ∈ errorPhrases (.unsupportedSentenceType m'), ph <+: a ++ r := fun a r _ h => ⟨a, h, List.prefix_append _ _⟩
    cases (C135_unsupported env p hp s m).mp h with
    | gnss talker kind fs hk hc h hn =>
      simp only [ParseError.toStr, refuseKind]
      split
      · exact pre _ _ _ (by simp [errorPhrases])
      · exact pre (c! "Unsupported sentence type: ") ('$' :: kind) _ (by simp [errorPhrases])
    | ais talker kind fs hk hc h hn => exact pre (c! "Unsupported sentence type: ") ('!' :: kind) _ (by simp [errorPhrases])
    | tag ty rest e hf hs hc ho => exact pre _ _ _ (by simp [errorPhrases])
    | message talker own bits h hn =>
      simp only [ParseError.toStr]
      split
      · exact ⟨_, by simp [errorPhrases], List.prefix_rfl⟩
      · cases own
        · exact pre (c! "Unsupported !VDM message type: ") _ _ (by simp [errorPhrases])
        · exact pre (c! "Unsupported !VDO message type: ") _ _ (by simp [errorPhrases])
    | short talker f own h hn =>
      cases own
      · exact pre (c! "Unsupported !VDM message type: ") (c! "0") _ (by simp [errorPhrases])
      · exact pre (c! "Unsupported !VDO message type: ") (c! "0") _ (by simp [errorPhrases])

/-- One sentence for each phrase. -/
example : ∀ x ∈ [
    (c! "$GPXXX,1", ParseError.unsupportedSentenceType (c! "Unsupported sentence type: $XXX")),
    (c! "!AIABK,1", .unsupportedSentenceType (c! "Unsupported sentence type: !ABK")),
    (c! "PGRME,1", .unsupportedSentenceType (c! "Unsupported sentence type: PGRME")),
    (c! "$GPZDA,1", .unsupportedSentenceType (c! "Unimplemented NMEA sentence: $ZDA")),
    (c! "!AIVDM,1,1,,A,8,0", .unsupportedSentenceType (c! "Unsupported !VDM message type: 8")),
    (c! "!AIVDO,1", .unsupportedSentenceType (c! "Unsupported !VDO message type: 0")),
    (c! "!AIVDO,1,1,,A,C,0", .unsupportedSentenceType (c! "Unsupported AIVDM message type: 19")),
    (c! "$GPGGA,1*00", .corruptedSentence (c! "Corrupted NMEA sentence: \"4B\" != \"00\"")),
    (c! "hello", .invalidSentence (c! "Invalid NMEA sentence: hello")),
    (c! "!AIVDM,x,1", .invalidSentence (c! "Failed to parse fragment count: x")),
    (c! "$GPGSV,3,x", .invalidSentence (c! "Failed to parse field 2: x")),
    (c! "$GPGLL,x,N", .invalidSentence (c! "Failed to parse latitude (DDMM.MMM) from x")),
    (c! "$GPGLL,,,x,E", .invalidSentence (c! "Failed to parse longitude (DDDMM.MMM) from x")),
    (c! "$GPRMC,,x", .invalidSentence (c! "Invalid RMC navigation receiver status: x")),
    (c! "$GPRMC,,,,,,,,,,1.5,x", .invalidSentence (c! "Invalid RMC variation side: x")),
    (c! "$GLGSA,x", .invalidSentence (c! "Invalid GPGSA mode: x")),
    (c! "$GLGSA,A,x", .invalidSentence (c! "Invalid GPGSA fix type: x")),
    (c! "!AIVDM,1,1,,A,H000008,0", .invalidSentence (c! "AIVDM type 24 part number has unexpected value: 2"))],
    (parseSentence demoEnv Parser.new x.1).1 = .err x.2 ∧ ∃ ph ∈ errorPhrases x.2, ph <+: x.2.toStr := by
  decide +kernel

/-- C135: so the text alone (`to_string()`) identifies the error, the kind included. -/
theorem C135_text_identifies (env env' : Env) (p p' : Parser) (hp : Reachable p) (hp' : Reachable p') (s s' : Str)
    (e e' : ParseError) (h : (parseSentence env p s).1 = .err e) (h' : (parseSentence env' p' s').1 = .err e')
    (ht : e.toStr = e'.toStr) : e = e' := by
  obtain ⟨ph, h1, h2⟩ := C135_phrases env p hp s e h
  obtain ⟨ph', h1', h2'⟩ := C135_phrases env' p' hp' s' e' h'
  rw [ht] at h2
  have hc := List.prefix_or_prefix_of_prefix h2 h2'
  have no : ∀ x ∈ errorPhrases e, ∀ y ∈ errorPhrases e', (x <+: y ∨ y <+: x) →
      (∃ m m', e = .unsupportedSentenceType m ∧ e' = .unsupportedSentenceType m') ∨
      (∃ m m', e = .corruptedSentence m ∧ e' = .corruptedSentence m') ∨
      (∃ m m', e = .invalidSentence m ∧ e' = .invalidSentence m') := by
    cases e <;> cases e'
    all_goals first
      | exact fun _ _ _ _ _ => .inl ⟨_, _, rfl, rfl⟩
      | exact fun _ _ _ _ _ => .inr (.inl ⟨_, _, rfl, rfl⟩)
      | exact fun _ _ _ _ _ => .inr (.inr ⟨_, _, rfl, rfl⟩)
      | (intro x hx y hy hxy; exfalso; revert x y; simp only [errorPhrases]; decide +kernel)
  rcases no ph h1 ph' h1' hc with ⟨m, m', rfl, rfl⟩ | ⟨m, m', rfl, rfl⟩ | ⟨m, m', rfl, rfl⟩ <;> exact congrArg _ ht

/-- Two sentences with the same text: both fields that cannot be read are quoted in the same way. -/
example : ∃ m, (parseSentence demoEnv Parser.new (c! "$GPGSV,3,x")).1 = .err m ∧
    (parseSentence demoEnv Parser.new (c! "$GLGSV,9,x")).1 = .err m := ⟨.invalidSentence (c! "Failed to parse field 2: x"), by decide +kernel⟩

/-- C135: the first two characters of the text tell the kind. -/
theorem C135_first_letters (env : Env) (p : Parser) (hp : Reachable p) (s : Str) (e : ParseError)
    (h : (parseSentence env p s).1 = .err e) :
    ((∃ m, e = .unsupportedSentenceType m) ↔ c! "Un" <+: e.toStr) ∧
    ((∃ m, e = .corruptedSentence m) ↔ c! "Co" <+: e.toStr) := by
  obtain ⟨ph, h1, h2⟩ := C135_phrases env p hp s e h
  have hl : 2 ≤ ph.length := by
    clear h2
    cases e <;> (revert ph; simp only [errorPhrases]; decide)
  have key : ∀ w : Str, w.length = 2 → (w <+: e.toStr ↔ ph.take 2 = w) := by
    intro w hw
    constructor
    · intro h
      have := (List.prefix_of_prefix_length_le h h2 (by omega))
      rw [List.prefix_iff_eq_take, hw] at this
      exact this.symm
    · intro h
      exact h ▸ (List.take_prefix 2 ph).trans h2
  rw [key _ rfl, key _ rfl]
  clear key hl h2 h
  cases e <;> simp only [errorPhrases, List.mem_cons, List.not_mem_nil, or_false] at h1
  · rcases h1 with rfl | rfl | rfl | rfl | rfl <;> simp
  · subst h1; simp
  · rcases h1 with rfl | rfl | rfl | rfl | rfl | rfl | rfl | rfl | rfl | rfl <;> simp

/-- An unsupported and a corrupted sentence. -/
example : (∃ m, (parseSentence demoEnv Parser.new (c! "$GPZDA,1")).1 = .err (.unsupportedSentenceType m)) ∧
    ∃ m, (parseSentence demoEnv Parser.new (c! "$GPGGA,1*00")).1 = .err (.corruptedSentence m) :=
  ⟨⟨c! "Unimplemented NMEA sentence: $ZDA", by decide +kernel⟩,
    ⟨c! "Corrupted NMEA sentence: \"4B\" != \"00\"", by decide +kernel⟩⟩

end Nmea
