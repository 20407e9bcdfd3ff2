/-
C136: exactly which sentences are answered with `Incomplete`, and which ones with a report.
-/
import Verif.Spec.Waiting
import Verif.Props.Refused
import Verif.Props.Fragments
import Verif.Lemmas.GsvGroup

namespace Nmea
open Spec

/-! ### A complete message -/

theorem messageAnswer {env : Env} {p : Parser} (hp : Reachable p) {s talker : Str} {own : Bool} {bits : List Bool}
    (hd : DeliversBits env p s talker own bits) (hs : typeOf bits ∈ supportedTypes) (hb : ¬ BadMessage env.now bits)
    (h24 : typeOf bits = 24 → partOf bits < 2) :
    (typeOf bits = 24 ∧ pendingStatic p (mmsiOf bits) = none ∧ (parseSentence env p s).1 = .ok .incomplete) ∨
    ((typeOf bits = 24 → pendingStatic p (mmsiOf bits) ≠ none) ∧
      ∃ r, (parseSentence env p s).1 = .ok r ∧ typeOf bits ∈ aisTypesOf r) := by
  have hc : typeOf bits = 24 → Completes24 env p s own bits := by
    intro ht
    obtain ⟨payload, h1, h2, rfl⟩ := hd
    exact ⟨payload, completes_of_delivers h1, h2, rfl, ht⟩
  obtain ⟨h1, -, h3, h4⟩ := C11_complete_message env p s talker own bits hd
  by_cases ht : typeOf bits = 24
  · obtain ⟨-, e2, e3⟩ := eval_24 env p s own bits (hc ht)
    cases hw : pendingStatic p (mmsiOf bits) with
    | none => exact .inl ⟨ht, rfl, (e2 (h24 ht) hw).1⟩
    | some w =>
      obtain ⟨own', b', rfl, -, -, hb'⟩ := goodStatic_reachable p hp _ _ hw
      obtain ⟨m, hm, -⟩ := partData_merge own own' bits b' hb'.symm
      refine .inr ⟨by simp, _, (e3 (h24 ht) _ m hw hm).1, ?_⟩
      rw [ht]
      exact .tail _ (.head _)
  · refine .inr ⟨fun h => absurd h ht, ?_⟩
    cases hr : (parseSentence env p s).1 with
    | ok r =>
      refine ⟨r, rfl, h3 r hr ?_⟩
      rintro rfl
      exact ht (h4 hr)
    | err e =>
      obtain ⟨payload, hd', hr', rfl⟩ := hd
      rcases messageErr hp hd' hr with ⟨m, rfl, -⟩ | ⟨m, rfl, hm⟩
      · exact absurd hs (h1.mp ⟨m, hr⟩)
      · obtain ⟨q, -, he⟩ := eval_readable env p s talker own payload hd' hr'
        rw [he] at hr
        rcases dispatchAis_err _ _ _ _ _ _ _ _ (Prod.ext hr rfl) with ⟨h, -⟩ | ⟨-, ⟨_, h⟩, -⟩
        · rw [typeOf_eq] at h
          exact absurd h ht
        · cases h
    | panic =>
      obtain ⟨q, -, he⟩ := eval_bits env p s talker own bits hd
      rw [he, dispatchAis_panic] at hr
      exact absurd hr hb

theorem message_ok {env : Env} {p : Parser} (hp : Reachable p) {s talker : Str} {own : Bool} {payload : Str}
    (hd : Delivers p s talker own payload) {r : ParsedSentence} (h : (parseSentence env p s).1 = .ok r) :
    (r = .incomplete ∧ Waits env p s) ∨ (r ≠ .incomplete ∧ CompletesReport env p s (aisTypesOf r)) := by
  have hr : Readable env payload := by
    by_contra hr
    rw [(C72_panics_iff env p s).mpr (.payload talker own payload hd hr)] at h
    cases h
  have hb : ¬ BadMessage env.now (payloadBits payload) := by
    intro hb
    rw [(C72_panics_iff env p s).mpr (.message talker own payload hd hr hb)] at h
    cases h
  have hbits : DeliversBits env p s talker own (payloadBits payload) := ⟨payload, hd, hr, rfl⟩
  have hs : typeOf (payloadBits payload) ∈ supportedTypes := by
    by_contra hn
    obtain ⟨m, hm⟩ := (C11_complete_message env p s talker own _ hbits).1.mpr hn
    rw [hm] at h
    cases h
  have h24 : typeOf (payloadBits payload) = 24 → partOf (payloadBits payload) < 2 := by
    intro ht
    by_contra hn
    obtain ⟨m, hm⟩ := (C27_merge_never_fails env p hp s own _ ⟨payload, completes_of_delivers hd, hr, rfl, ht⟩).1.mpr
      (by omega)
    rw [hm] at h
    cases h
  rcases messageAnswer hp hbits hs hb h24 with ⟨ht, hn, he⟩ | ⟨hn, r', he, hty⟩
  · rw [h] at he
    cases he
    exact .inl ⟨rfl, .static talker own _ hbits ht (h24 ht) hn⟩
  · rw [h] at he
    cases he
    refine .inr ⟨?_, talker, own, _, hbits, hty, hb, fun ht => ⟨h24 ht, hn ht⟩⟩
    rintro rfl
    simp [aisTypesOf] at hty

/-! ### GNSS sentences -/

theorem gnss_readable {env : Env} {p : Parser} {talker kind : Str} {fs : List Str} {s : Str} {l : List (Prop × Str)}
    (hl : (kind, l) ∈ faults fs) (hs : IsGnss talker kind fs s) {r : ParsedSentence}
    (h : (parseSentence env p s).1 = .ok r) : ReadableGnss env.now kind s := by
  refine ⟨talker, fs, l, hs, hl, ?_, ⟨?_, ?_⟩, ?_⟩
  · rintro ⟨m, hm⟩
    rw [(C89_gnss_fields env p talker kind fs s l hl hs (by rw [h]; simp) _).mpr ⟨m, rfl, hm⟩] at h
    cases h
  · rintro rfl
    by_contra ht
    rw [(gga_panic env p talker fs s hs).mpr ht] at h
    cases h
  · rintro rfl
    by_contra ht
    rw [(rmc_panic env p talker fs s hs).mpr ht] at h
    cases h
  · rintro rfl
    obtain ⟨d, -, hd⟩ := (gll_ok env p talker fs s hs r).mp h
    exact ⟨_, hd.timestamp⟩

/-- The five kinds of GNSS sentences of which one is a report. -/
def soloKinds : List Str := [c! "GGA", c! "RMC", c! "GSA", c! "VTG", c! "GLL"]

theorem readable_ok {env : Env} {p : Parser} {kind s : Str} (hk : kind ∈ soloKinds) (h : ReadableGnss env.now kind s) :
    ∃ r, (parseSentence env p s).1 = .ok r := by
  obtain ⟨talker, fs, l, hs, hl, hf, ht, hg⟩ := h
  have hnp : (parseSentence env p s).1 ≠ .panic := by
    simp only [soloKinds, List.mem_cons, List.not_mem_nil, or_false] at hk
    rcases hk with rfl | rfl | rfl | rfl | rfl
    · exact fun hx => (gga_panic env p talker fs s hs).mp hx (ht.1 rfl)
    · exact fun hx => (rmc_panic env p talker fs s hs).mp hx (ht.2 rfl)
    · exact gsa_not_panic env p talker fs s hs
    · exact C72_gsa_vtg env p talker _ fs s (.inr rfl) hs
    · exact fun hx => ((gll_panic env p talker fs s hs).mp hx).2 (hg rfl)
  cases hr : (parseSentence env p s).1 with
  | ok r => exact ⟨r, rfl⟩
  | panic => exact absurd hr hnp
  | err e =>
    obtain ⟨m, -, hm⟩ := (C89_gnss_fields env p talker kind fs s l hl hs hnp e).mp hr
    exact absurd ⟨m, hm⟩ hf

theorem gnss_kind {env : Env} {p : Parser} {talker kind : Str} {fs : List Str} {s : Str} (hk : kind ∈ soloKinds)
    (hs : IsGnss talker kind fs s) {r : ParsedSentence} (h : (parseSentence env p s).1 = .ok r) :
    gnssKindOf r = some kind := by
  simp only [soloKinds, List.mem_cons, List.not_mem_nil, or_false] at hk
  rcases hk with rfl | rfl | rfl | rfl | rfl
  · obtain ⟨d, rfl, -⟩ := (gga_ok env p talker fs s hs r).mp h; rfl
  · obtain ⟨d, rfl, -⟩ := (rmc_ok env p talker fs s hs r).mp h; rfl
  · obtain ⟨d, rfl, -⟩ := (gsa_ok env p talker fs s hs r).mp h; rfl
  · obtain ⟨d, hd, -⟩ := vtg_ok env p talker fs s hs; rw [hd] at h; cases h; rfl
  · obtain ⟨d, rfl, -⟩ := (gll_ok env p talker fs s hs r).mp h; rfl

/-! ### Every accepted sentence -/

theorem accepted_cases (env : Env) (p : Parser) (hp : Reachable p) (s : Str) (r : ParsedSentence)
    (h : (parseSentence env p s).1 = .ok r) :
    (r = .incomplete ∧ Waits env p s) ∨ (aisTypesOf r ≠ [] ∧ CompletesReport env p s (aisTypesOf r)) ∨
    ((∃ l, r = .gsv l) ∧ CompletesGsv p s) ∨ ∃ kind ∈ soloKinds, gnssKindOf r = some kind ∧ ReadableGnss env.now kind s := by
  have msg : ∀ {talker own payload}, Delivers p s talker own payload →
      (r = .incomplete ∧ Waits env p s) ∨ (aisTypesOf r ≠ [] ∧ CompletesReport env p s (aisTypesOf r)) ∨
      ((∃ l, r = .gsv l) ∧ CompletesGsv p s) ∨
        ∃ kind ∈ soloKinds, gnssKindOf r = some kind ∧ ReadableGnss env.now kind s := by
    intro talker own payload hd
    rcases message_ok hp hd h with hx | ⟨hne, hx⟩
    · exact .inl hx
    · refine .inr (.inl ⟨?_, hx⟩)
      obtain ⟨_, _, _, _, hty, _⟩ := hx
      intro he
      rw [he] at hty
      cases hty
  cases shape s with
  | corrupted a b hs h1 h2 h3 =>
    subst hs
    rw [parse_corrupted env p a b h1 h2 h3] at h
    cases h
  | noComma body e' hf hs hc =>
    rw [hs, C89_no_comma env p body e' hf hc] at h
    cases h
  | badTag ty rest e' hf hs h1 h2 =>
    rw [(C72_panics_iff env p s).mpr (.tag ty rest e' hf hs h1 h2)] at h
    cases h
  | oddTag ty rest e' hf hs h1 h2 =>
    rw [hs, parse_finish _ _ _ _ hf, parseBody_oddTag _ _ _ _ h1 h2] at h
    cases h
  | dollar talker kind fs hk hc hs =>
    by_cases hn : kind ∈ gnssKinds
    · have hsolo : kind ∈ soloKinds ∨ kind = c! "GSV" := by
        simp only [gnssKinds, soloKinds, List.mem_cons, List.not_mem_nil, or_false] at hn ⊢
        tauto
      rcases hsolo with hk' | rfl
      · have : ∃ l, (kind, l) ∈ faults fs := by
          simp only [soloKinds, List.mem_cons, List.not_mem_nil, or_false] at hk'
          rcases hk' with rfl | rfl | rfl | rfl | rfl
          · exact ⟨_, .head _⟩
          · exact ⟨_, .tail _ (.head _)⟩
          · exact ⟨_, .tail _ (.tail _ (.head _))⟩
          · exact ⟨_, .tail _ (.tail _ (.tail _ (.tail _ (.head _))))⟩
          · exact ⟨_, .tail _ (.tail _ (.tail _ (.tail _ (.tail _ (.head _)))))⟩
        obtain ⟨l, hl⟩ := this
        exact .inr (.inr (.inr ⟨kind, hk', gnss_kind hk' hs h, gnss_readable hl hs h⟩))
      · cases gsv_case env p talker fs s hs with
        | bad m hf h' => rw [h'] at h; cases h
        | part n k hpt h' =>
          by_cases hbig : n = 2 ^ 32 - 1
          · subst hbig
            rw [h', gsvStep, if_pos rfl] at h
            cases ho : env.overflowChecks with
            | true => rw [ho] at h; cases h
            | false =>
              rw [ho] at h
              cases h
              exact .inl ⟨rfl, .biggest talker k fs hpt ho⟩
          · have hlt : n < 2 ^ 32 - 1 := by have := hpt.2.1.le; omega
            by_cases hall : ∀ j, 1 ≤ j → j ≤ n → j ≠ k → pendingGsv p talker n j ≠ none
            · have := (gsv_done env p s talker n k fs hpt hlt hall).1
              rw [this] at h
              cases h
              exact .inr (.inr (.inl ⟨⟨_, rfl⟩, talker, n, k, fs, hpt, hlt, hall⟩))
            · push Not at hall
              obtain ⟨j, j1, j2, j3, j4⟩ := hall
              rw [(gsv_wait env p s talker n k fs hpt hlt j ⟨j1, j2⟩ j3 j4).1] at h
              cases h
              exact .inl ⟨rfl, .gsv talker n k j fs hpt hlt ⟨j1, j2, j3⟩ j4⟩
    · rw [C89_gnss_kind env p talker kind fs s hk hc hs hn] at h
      cases h
  | bang talker kind fs hk hc hs =>
    by_cases hn : kind ≠ c! "VDM" ∧ kind ≠ c! "VDO"
    · rw [C89_ais_kind env p talker kind fs s hk hc hs hn] at h
      cases h
    · have : ∃ own, kind = aisKind own := by
        by_cases h1 : kind = c! "VDM"
        · exact ⟨false, h1⟩
        · exact ⟨true, by_contra fun h2 => hn ⟨h1, h2⟩⟩
      obtain ⟨own, rfl⟩ := this
      have hs : IsAis talker own fs s := hs
      have hfs : 2 ≤ fs.length ∨ ∃ f, fs = [f] := by
        cases fs with
        | nil => exact absurd rfl hs.2.2.1
        | cons f r => cases r with
          | nil => exact .inr ⟨f, rfl⟩
          | cons g r => exact .inl (by simp)
      have hx := C89_fragment_numbers env p talker own fs s hs
      cases ais_case env p talker own fs s hs with
      | bad m hf h' => rw [h'] at h; cases h
      | odd n h0 hn h2 h' =>
        rw [h'] at h
        cases h
        refine .inl ⟨rfl, ?_⟩
        rcases hfs with hlen | ⟨f, rfl⟩
        · by_cases h1 : ∃ k, Dec 255 (field fs 1) k
          · obtain ⟨k, h1⟩ := h1
            refine .other talker own fs n k hs h0 h1 ⟨hn, fun e => ?_⟩
            rcases h2 e with hid | ⟨k', hk', hne⟩
            · exact .inl hid
            · obtain rfl := hk'.unique h1
              exact .inr hne
          · rw [not_exists] at h1
            rw [hx.2 ⟨n, h0⟩ hlen h1] at h'
            cases h'
        · exact .count talker f own n hs h0 hn
      | single pl h0 hpl h' =>
        rcases hfs with hlen | ⟨f, rfl⟩
        · by_cases h1 : ∃ k, Dec 255 (field fs 1) k
          · obtain ⟨k, h1⟩ := h1
            exact msg (.single _ ⟨fs, k, hs, h0, h1, rfl⟩)
          · rw [not_exists] at h1
            rw [hx.2 ⟨1, h0⟩ hlen h1] at h
            cases h
        · rw [C89_count_only env p talker f own s hs h0] at h
          cases h
      | part1 id hpt h' =>
        cases hb : pendingPart p own 2 id (field fs 3) with
        | none =>
          rw [h', joinPart, show p.savedFragments.get (partKey own 2 id (field fs 3)) = none from hb] at h
          cases h
          exact .inl ⟨rfl, .part talker own 1 id _ _ hpt (.inl rfl) hb⟩
        | some b => exact msg (.first _ _ _ _ hpt hb)
      | part2 id hpt h' =>
        cases ha : pendingPart p own 1 id (field fs 3) with
        | none =>
          rw [h', joinPart, show p.savedFragments.get (partKey own 1 id (field fs 3)) = none from ha] at h
          cases h
          exact .inl ⟨rfl, .part talker own 2 id _ _ hpt (.inr rfl) ha⟩
        | some a => exact msg (.second _ _ _ _ hpt ha)

/-! ### The answers -/

/-- C136: exactly which sentences are answered with `Incomplete`. -/
theorem C136_incomplete (env : Env) (p : Parser) (hp : Reachable p) (s : Str) :
    (parseSentence env p s).1 = .ok .incomplete ↔ Waits env p s := by
  constructor
  · intro h
    rcases accepted_cases env p hp s _ h with ⟨-, hw⟩ | ⟨hne, -⟩ | ⟨⟨l, hl⟩, -⟩ | ⟨kind, -, hk, -⟩
    · exact hw
    · exact absurd rfl hne
    · cases hl
    · cases hk
  · intro h
    cases h with
    | part talker own num id chan payload h hn ho =>
      rcases hn with rfl | rfl
      · rw [eval_part1 env p talker own id chan payload s h, joinPart,
          show p.savedFragments.get (partKey own 2 id chan) = none from ho]
      · rw [eval_part2 env p talker own id chan payload s h, joinPart,
          show p.savedFragments.get (partKey own 1 id chan) = none from ho]
    | other talker own fs n k h h0 h1 hn =>
      rw [C22_unsupported_fragmentation env p talker own fs s h n k h0 h1 ?_]
      have := hn.1
      by_cases h2 : n = 2
      · exact .inr (.inr ⟨h2, hn.2 h2⟩)
      · omega
    | count talker f own n h h0 hn => rw [C22_count_only env p talker f own s h n h0 hn]
    | static talker own bits h ht hpt ho =>
      obtain ⟨payload, h1, h2, rfl⟩ := h
      exact ((eval_24 env p s own _ ⟨payload, completes_of_delivers h1, h2, rfl, ht⟩).2.1 hpt ho).1
    | gsv talker n k i fs h hn hi ho => exact (gsv_wait env p s talker n k fs h hn i ⟨hi.1, hi.2.1⟩ hi.2.2 ho).1
    | biggest talker k fs h ho => rw [eval_gsv env p talker _ k fs s h, gsvStep, if_pos rfl, ho]; rfl

/-- Part 2 of two whose part 1 is lost; and a satellite sentence of a group of which another one is missing. -/
example : Waits demoEnv Parser.new (c! "!AIVDM,2,2,3,A,00,0") ∧
    Waits demoEnv (run Parser.new [(demoEnv, c! "$GPGSV,3,2,,")]) (c! "$GPGSV,3,1,,") ∧
    ¬ Waits demoEnv (run Parser.new [(demoEnv, c! "$GPGSV,2,2,,")]) (c! "$GPGSV,2,1,,") :=
  ⟨(C136_incomplete _ _ ⟨[], rfl⟩ _).mp (by decide +kernel), (C136_incomplete _ _ ⟨_, rfl⟩ _).mp (by decide +kernel),
    fun h => absurd ((C136_incomplete _ _ ⟨_, rfl⟩ _).mpr h) (by decide +kernel)⟩

/-- C136: exactly which sentences are answered with an AIS report, and of which kind. -/
theorem C136_ais (env : Env) (p : Parser) (hp : Reachable p) (s : Str) (types : List Nat) (ht : types ∈ reportKinds) :
    (∃ r, (parseSentence env p s).1 = .ok r ∧ aisTypesOf r = types) ↔ CompletesReport env p s types := by
  have hne : types ≠ [] := by rintro rfl; revert ht; decide
  constructor
  · rintro ⟨r, h, rfl⟩
    rcases accepted_cases env p hp s _ h with ⟨rfl, -⟩ | ⟨-, hx⟩ | ⟨⟨l, rfl⟩, -⟩ | ⟨kind, -, hk, -⟩
    · exact absurd rfl hne
    · exact hx
    · exact absurd rfl hne
    · cases r <;> first | (exact absurd rfl hne) | cases hk
  · rintro ⟨talker, own, bits, hd, hty, hb, h24⟩
    have key : ∀ t ∈ reportKinds, ∀ x ∈ t, x ∈ supportedTypes := by decide
    rcases messageAnswer hp hd (key _ ht _ hty) hb (fun e => (h24 e).1) with ⟨e, hn, -⟩ | ⟨-, r, hr, hr'⟩
    · exact absurd hn (h24 e).2
    · refine ⟨r, hr, ?_⟩
      have k2 : ∀ t ∈ reportKinds, ∀ u ∈ reportKinds, ∀ x ∈ t, x ∈ u → u = t := by decide
      refine k2 _ ht _ ?_ _ hty hr'
      cases r <;> first | (exact absurd hr' List.not_mem_nil) | simp [aisTypesOf, reportKinds]

/-- Part B of a vessel of which part A is pending. -/
example : ∃ r, (parseSentence demoEnv (run Parser.new [(demoEnv, c! "!AIVDM,1,1,,A,H42O55i18tMET00000000000000,2")])
    (c! "!AIVDO,1,1,,A,H42O55lt0000000D3nink000?0500,0")).1 = .ok r ∧ aisTypesOf r = [5, 24] :=
  by
  refine (C136_ais _ _ ⟨_, rfl⟩ _ _ (by decide)).mpr ⟨c! "AI", true, _,
    ⟨demoB, .single _ demoSingleB, fun _ => by decide, rfl⟩,
    by decide +kernel, ?_, by decide +kernel⟩
  have ht : typeOf (payloadBits demoB) = 24 := by decide +kernel
  simp [BadMessage, ht]

/-- C136: exactly which sentences are answered with a list of satellites. -/
theorem C136_gsv (env : Env) (p : Parser) (hp : Reachable p) (s : Str) :
    (∃ l, (parseSentence env p s).1 = .ok (.gsv l)) ↔ CompletesGsv p s := by
  constructor
  · rintro ⟨l, h⟩
    rcases accepted_cases env p hp s _ h with ⟨he, -⟩ | ⟨hne, -⟩ | ⟨-, hx⟩ | ⟨kind, hs, hk, -⟩
    · cases he
    · exact absurd rfl hne
    · exact hx
    · cases hk; exact absurd hs (by decide)
  · rintro ⟨talker, n, k, fs, h, hn, hall⟩
    exact ⟨_, (gsv_done env p s talker n k fs h hn hall).1⟩

/-- The second sentence of two, after the first; and a group of no sentences. -/
example : CompletesGsv (run Parser.new [(demoEnv, c! "$GPGSV,2,1,,")]) (c! "$GPGSV,2,2,,") ∧
    CompletesGsv Parser.new (c! "$GPGSV,0") :=
  ⟨(C136_gsv demoEnv _ ⟨_, rfl⟩ _).mp ⟨[], by decide +kernel⟩, (C136_gsv demoEnv _ ⟨[], rfl⟩ _).mp ⟨[], by decide +kernel⟩⟩

/-- C136: exactly which sentences are answered with a report of the other GNSS kinds. -/
theorem C136_gnss (env : Env) (p : Parser) (hp : Reachable p) (s kind : Str)
    (hk : kind ∈ [c! "GGA", c! "RMC", c! "GSA", c! "VTG", c! "GLL"]) :
    (∃ r, (parseSentence env p s).1 = .ok r ∧ gnssKindOf r = some kind) ↔ ReadableGnss env.now kind s := by
  constructor
  · rintro ⟨r, h, hr⟩
    rcases accepted_cases env p hp s _ h with ⟨rfl, -⟩ | ⟨hne, -⟩ | ⟨⟨l, rfl⟩, -⟩ | ⟨kind', -, hk', hx⟩
    · cases hr
    · cases r <;> first | (exact absurd rfl hne) | cases hr
    · cases hr; exact absurd hk (by decide)
    · rw [hr] at hk'
      cases hk'
      exact hx
  · intro h
    obtain ⟨r, hr⟩ := readable_ok (p := p) hk h
    obtain ⟨talker, fs, l, hs, -⟩ := h
    exact ⟨r, hr, gnss_kind hk hs hr⟩

/-- A position without latitude and longitude; without time it makes the call panic. -/
example : (∃ r, (parseSentence demoEnv Parser.new (c! "$GPGLL,,,,,120000")).1 = .ok r ∧ gnssKindOf r = some (c! "GLL")) ∧
    ¬ ReadableGnss demoEnv.now (c! "GLL") (c! "$GPGLL,,,,,") := by
  constructor
  · refine ⟨_, rfl, by decide +kernel⟩
  · rw [← C136_gnss demoEnv Parser.new ⟨[], rfl⟩ _ _ (by decide)]
    rintro ⟨r, h, -⟩
    rw [show (parseSentence demoEnv Parser.new (c! "$GPGLL,,,,,")).1 = .panic by decide +kernel] at h
    cases h

/-- C136: every sentence is one of these, refused, or makes the call panic. -/
theorem C136_every_sentence (env : Env) (p : Parser) (hp : Reachable p) (s : Str) :
    (∃ a b, s = a ++ '*' :: b ∧ '*' ∉ b ∧ b ≠ [] ∧ b ≠ checksumText a) ∨ (∃ m, NotSupported env p s m) ∨
    (∃ m, Malformed env p s m) ∨ Panics env p s ∨ Waits env p s ∨ (∃ types ∈ reportKinds, CompletesReport env p s types) ∨
    CompletesGsv p s ∨ ∃ kind ∈ [c! "GGA", c! "RMC", c! "GSA", c! "VTG", c! "GLL"], ReadableGnss env.now kind s := by
  cases h : (parseSentence env p s).1 with
  | panic => exact .inr (.inr (.inr (.inl ((C72_panics_iff env p s).mp h))))
  | err e =>
    cases e with
    | corruptedSentence m => exact .inl ((C02_corrupted_iff env p s).mp ⟨m, h⟩)
    | unsupportedSentenceType m => exact .inr (.inl ⟨m, (C135_unsupported env p hp s m).mp h⟩)
    | invalidSentence m => exact .inr (.inr (.inl ⟨m, (C135_invalid env p hp s m).mp h⟩))
  | ok r =>
    refine .inr (.inr (.inr (.inr ?_)))
    rcases accepted_cases env p hp s _ h with ⟨-, hw⟩ | ⟨hne, hx⟩ | ⟨-, hx⟩ | ⟨kind, hk, -, hx⟩
    · exact .inl hw
    · refine .inr (.inl ⟨_, ?_, hx⟩)
      cases r <;> first | (exact absurd rfl hne) | simp [aisTypesOf, reportKinds]
    · exact .inr (.inr (.inl hx))
    · exact .inr (.inr (.inr ⟨kind, hk, hx⟩))

/-- A sentence of a new parser that waits. -/
example : Waits demoEnv Parser.new (c! "$GPGSV,2,2") ∨ ∃ m, Malformed demoEnv Parser.new (c! "$GPGSV,2,2") m := by
  rcases C136_every_sentence demoEnv Parser.new ⟨[], rfl⟩ (c! "$GPGSV,2,2") with _ | _ | h | _ | h | _
  · exact .inl ((C136_incomplete _ _ ⟨[], rfl⟩ _).mp (by decide +kernel))
  · exact .inl ((C136_incomplete _ _ ⟨[], rfl⟩ _).mp (by decide +kernel))
  · exact .inr h
  · exact .inl ((C136_incomplete _ _ ⟨[], rfl⟩ _).mp (by decide +kernel))
  · exact .inl h
  · exact .inl ((C136_incomplete _ _ ⟨[], rfl⟩ _).mp (by decide +kernel))

end Nmea
