/-
C02, C07-C11: which sentences lead to which results and errors.
-/
import Verif.Lemmas.Dispatch
import Verif.Props.Framing
import Verif.Spec.Demo

namespace Nmea
open Spec

theorem gnss_not_corrupted (env : Env) (p : Parser) (kind body : Str) (nav : NavigationSystem)
    (x : Out ParseError ParsedSentence × Parser) (h : DollarEval env p kind body nav x) (m : Str) :
    x.1 ≠ .err (.corruptedSentence m) := by
  intro hx
  have bad : ∀ y : Out ParseError ParsedSentence, OnlyInvalid y → y ≠ .err (.corruptedSentence m) := by
    intro y hy he
    obtain ⟨_, h⟩ := hy _ he
    cases h
  cases h with
  | gga _ h => rw [h] at hx; exact bad _ (handleGga_inv _ _ _) hx
  | rmc _ h => rw [h] at hx; exact bad _ (handleRmc_inv _ _ _) hx
  | gsa _ h => rw [h] at hx; exact bad _ (handleGsa_inv _ _) hx
  | gsv _ h => rw [h] at hx; exact bad _ (handleGsv_inv _ _ _ _) hx
  | vtg _ h => rw [h] at hx; cases hx
  | gll _ h => rw [h] at hx; exact bad _ (handleGll_inv _ _ _) hx
  | other _ h => obtain ⟨_, h⟩ := h; rw [h] at hx; cases hx

/-- C02: `CorruptedSentence` is reported exactly for a non-empty wrong text after the last `*`. -/
theorem C02_corrupted_iff (env : Env) (p : Parser) (s : Str) :
    (∃ m, (parseSentence env p s).1 = .err (.corruptedSentence m)) ↔
      ∃ a b, s = a ++ '*' :: b ∧ '*' ∉ b ∧ b ≠ [] ∧ b ≠ checksumText a := by
  constructor
  · rintro ⟨m, h⟩
    cases shape s with
    | corrupted a b h h1 h2 h3 => exact ⟨a, b, h, h1, h2, h3⟩
    | noComma body e hf hs hc =>
      rw [hs, parse_finish _ _ _ _ hf, parseBody_noComma _ _ _ hc] at h
      cases h
    | badTag ty rest e hf hs h1 h2 =>
      rw [hs, parse_finish _ _ _ _ hf, parseBody_badTag _ _ _ _ h1 h2] at h
      cases h
    | oddTag ty rest e hf hs h1 h2 =>
      rw [hs, parse_finish _ _ _ _ hf, parseBody_oddTag _ _ _ _ h1 h2] at h
      cases h
    | dollar talker kind fs hk hc hs =>
      exact absurd h (gnss_not_corrupted _ _ _ _ _ _ (eval_gnss env p talker kind fs s hk hc hs) m)
    | bang talker kind fs hk hc hs =>
      exfalso
      cases eval_ais_or_other env p talker kind fs s hk hc hs with
      | other _ h' => obtain ⟨_, h'⟩ := h'; rw [h'] at h; cases h
      | ais own hk' h' =>
        subst hk'
        cases eval_cases env p talker own fs s hs with
        | bad _ h' => rw [h'] at h; cases h
        | waiting _ _ _ _ h' => rw [h'] at h; cases h
        | complete _ _ payload p' _ h' =>
          rcases complete_err _ _ _ _ _ _ _ (Prod.ext (h' ▸ h) rfl) with ⟨_, he⟩ | ⟨⟨_, he⟩, -⟩ <;> cases he
  · rintro ⟨a, b, rfl, h1, h2, h3⟩
    exact ⟨_, by rw [parse_corrupted env p a b h1 h2 h3]⟩

/-- A wrong digit, and a sentence of one of the other errors that is not reported as corrupted. -/
example : (∃ a b, c! "$GPVTG,1*FF" = a ++ '*' :: b ∧ '*' ∉ b ∧ b ≠ [] ∧ b ≠ checksumText a) ∧
    ¬ ∃ m, (parseSentence demoEnv Parser.new (c! "no comma here")).1 = .err (.corruptedSentence m) := by
  refine ⟨⟨c! "$GPVTG,1", c! "FF", by decide, by decide, by decide, by decide +kernel⟩, ?_⟩
  rw [C02_corrupted_iff]
  rintro ⟨a, b, h, -⟩
  have : '*' ∈ c! "no comma here" := by rw [h]; simp
  revert this
  decide

/-- A body followed by its own checksum is never reported as corrupted. -/
theorem not_corrupted (env : Env) (p : Parser) (body : Str) :
    ¬ ∃ m, (parseSentence env p (body ++ '*' :: checksumText body)).1 = .err (.corruptedSentence m) := by
  rw [C02_corrupted_iff]
  rintro ⟨a, b, h, h1, -, h3⟩
  have hs := star_not_mem_checksumText body
  obtain ⟨rfl, rfl⟩ : a = body ∧ b = checksumText body := by
    rcases List.append_eq_append_iff.mp h with ⟨l, h4, h5⟩ | ⟨l, h4, h5⟩
    · cases l with
      | nil => simp at h4 h5; exact ⟨h4, h5.symm⟩
      | cons x l =>
        simp only [List.cons_append, List.cons.injEq] at h5
        exact absurd (by rw [h5.2]; simp) hs
    · cases l with
      | nil => simp at h4 h5; exact ⟨h4.symm, h5⟩
      | cons x l =>
        simp only [List.cons_append, List.cons.injEq] at h5
        exact absurd (by rw [h5.2]; simp) h1
  exact h3 rfl

/-- C04, limits: the first character is not covered: replacing it is never reported as a corruption. -/
theorem C04_first_char_uncovered (env : Env) (p : Parser) (body : Str) (c c' : Char) :
    ¬ ∃ m, (parseSentence env p ((c' :: body) ++ '*' :: checksumText (c :: body))).1 =
      .err (.corruptedSentence m) := by
  rw [checksumText_first body c c']
  exact not_corrupted env p _

/-- A `$` received as `!`. -/
example : ¬ ∃ m, (parseSentence demoEnv Parser.new (c! "!GPVTG,1*" ++ checksumText (c! "$GPVTG,1"))).1 =
    .err (.corruptedSentence m) :=
  C04_first_char_uncovered demoEnv Parser.new (c! "GPVTG,1") '$' '!'

/-- C04, limits: exchanging two characters after the first is never reported as a corruption. -/
theorem C04_transposition_undetected (env : Env) (p : Parser) (x y z : Str) (c d : Char) (hx : x ≠ []) :
    ¬ ∃ m, (parseSentence env p ((x ++ d :: y ++ c :: z) ++ '*' :: checksumText (x ++ c :: y ++ d :: z))).1 =
      .err (.corruptedSentence m) := by
  rw [checksumText_transposed x y z c d hx]
  exact not_corrupted env p _

/-- Two digits of a field exchanged: 12 for 21. -/
example : ¬ ∃ m, (parseSentence demoEnv Parser.new (c! "$GPVTG,012,T" ++ '*' ::
    checksumText (c! "$GPVTG,021,T"))).1 = .err (.corruptedSentence m) :=
  C04_transposition_undetected demoEnv Parser.new (c! "$GPVTG,0") [] (c! ",T") '2' '1' (by decide)

/-- C07: every navigation system in a result is the one of the talker of the sentence. -/
theorem C07_source_is_talker (env : Env) (p p' : Parser) (talker kind : Str) (fs : List Str) (s : Str)
    (r : ParsedSentence) (hk : byteLen kind = 3) (hc : ',' ∉ kind) (h : IsGnss talker kind fs s)
    (hr : parseSentence env p s = (.ok r, p')) : ∀ x ∈ sources r, x = talkerSystem talker := by
  have he := eval_gnss env p talker kind fs s hk hc h
  rw [hr] at he
  intro x hx
  cases he with
  | gga _ h =>
    obtain ⟨d, rfl, hd⟩ := handleGga_ok _ _ _ _ (Prod.mk.inj h).1.symm
    simp [sources] at hx; exact hx.trans hd
  | rmc _ h =>
    obtain ⟨d, rfl, hd⟩ := handleRmc_ok _ _ _ _ (Prod.mk.inj h).1.symm
    simp [sources] at hx; exact hx.trans hd
  | gsa _ h =>
    obtain ⟨d, rfl, hd⟩ := handleGsa_ok _ _ _ (Prod.mk.inj h).1.symm
    simp [sources] at hx; exact hx.trans hd
  | gsv _ h =>
    rcases handleGsv_ok _ _ _ _ _ _ h.symm with rfl | ⟨l, rfl, hl⟩
    · simp [sources] at hx
    · simp only [sources, List.mem_map] at hx
      obtain ⟨g, hg, rfl⟩ := hx
      exact hl g hg
  | vtg _ h =>
    obtain ⟨d, hd, hs⟩ := handleVtg_ok (join (tag '$' talker kind) fs) (talkerSystem talker)
    rw [hd] at h
    cases h
    simp [sources] at hx; exact hx.trans hs
  | gll _ h =>
    obtain ⟨d, rfl, hd⟩ := handleGll_ok _ _ _ _ (Prod.mk.inj h).1.symm
    simp [sources] at hx; exact hx.trans hd
  | other _ h => obtain ⟨_, h⟩ := h; cases h

/-- A Galileo speed sentence: its result is obtained, and it mentions a source. -/
example : IsGnss (c! "GA") (c! "VTG") [c! "054.7", c! "T"] (c! "$GAVTG,054.7,T*3F") ∧
    ∃ d, (parseSentence demoEnv Parser.new (c! "$GAVTG,054.7,T*3F")).1 = .ok (.vtg d) ∧
      sources (.vtg d) = [talkerSystem (c! "GA")] :=
  ⟨demoTagged .full (by decide +kernel),
   ⟨.galileo, F64.parse (c! "054.7"), none, none, none, none⟩, by decide +kernel, by decide⟩

/-- The talkers `GB` and `GQ`, which later versions of the standard give to BeiDou and QZSS, are not known. -/
example : talkerSystem (c! "GB") = .other ∧ talkerSystem (c! "GQ") = .other := by decide

theorem ais_result (env : Env) (p p' : Parser) (talker : Str) (own : Bool) (fs : List Str) (s : Str)
    (r : ParsedSentence) (h : IsAis talker own fs s) (hr : parseSentence env p s = (.ok r, p')) :
    r = .incomplete ∨ ∃ t, AisShape t (talkerStation talker) own r := by
  have he := eval_cases env p talker own fs s h
  rw [hr] at he
  cases he with
  | bad _ h => cases h
  | waiting _ _ _ _ h => cases h; exact .inl rfl
  | complete _ _ payload q _ h => exact complete_ok _ _ _ _ _ _ _ h.symm

/-- C08: station and own-vessel flag of a result are those of the tag of the sentence just parsed. -/
theorem C08_station_and_own (env : Env) (p p' : Parser) (talker : Str) (own : Bool) (fs : List Str)
    (s : Str) (r : ParsedSentence) (h : IsAis talker own fs s)
    (hr : parseSentence env p s = (.ok r, p')) :
    (∀ x, stationIn r = some x → x = talkerStation talker) ∧ (∀ b, ownIn r = some b → b = own) := by
  rcases ais_result env p p' talker own fs s r h hr with rfl | ⟨t, -, h1, h2⟩
  · exact ⟨by simp [stationIn], by simp [ownIn]⟩
  · exact ⟨h1, fun b hb => by rw [h2] at hb; simpa using hb.symm⟩

/-- An own-vessel report sent by a limited base station. -/
example : IsAis (c! "AS") true [c! "1", c! "1", [], c! "B", c! ":5MlU41GMK6@", c! "0"]
      (c! "!ASVDO,1,1,,B,:5MlU41GMK6@,0") ∧
    ∃ d, (parseSentence demoEnv Parser.new (c! "!ASVDO,1,1,,B,:5MlU41GMK6@,0")).1 = .ok (.utcDateInquiry d) ∧
      stationIn (.utcDateInquiry d) = some .limitedBaseStation ∧ ownIn (.utcDateInquiry d) = some true :=
  ⟨demoTagged .bare (by decide +kernel), ⟨true, .limitedBaseStation, 366814480, 366832740⟩,
   by decide +kernel, rfl, rfl⟩

/-- C09: a GNSS result comes only from a `$` sentence of its kind, an AIS result only from a VDM or VDO
sentence, and `Incomplete` only from GSV, VDM or VDO. -/
theorem C09_result_kind (env : Env) (p p' : Parser) (s : Str) (r : ParsedSentence)
    (hr : parseSentence env p s = (.ok r, p')) :
    (∀ kind, gnssKindOf r = some kind → ∃ talker fs, IsGnss talker kind fs s) ∧
    (aisTypesOf r ≠ [] → ∃ talker own fs, IsAis talker own fs s) ∧
    (r = .incomplete → (∃ talker fs, IsGnss talker (c! "GSV") fs s) ∨ ∃ talker own fs, IsAis talker own fs s) := by
  cases shape s with
  | corrupted a b h h1 h2 h3 => rw [h, parse_corrupted env p a b h1 h2 h3] at hr; cases hr
  | noComma body e hf hs hc =>
    rw [hs, parse_finish _ _ _ _ hf, parseBody_noComma _ _ _ hc] at hr
    cases hr
  | badTag ty rest e hf hs h1 h2 =>
    rw [hs, parse_finish _ _ _ _ hf, parseBody_badTag _ _ _ _ h1 h2] at hr
    cases hr
  | oddTag ty rest e hf hs h1 h2 =>
    rw [hs, parse_finish _ _ _ _ hf, parseBody_oddTag _ _ _ _ h1 h2] at hr
    cases hr
  | dollar talker kind fs hk hc hs =>
    have he := eval_gnss env p talker kind fs s hk hc hs
    rw [hr] at he
    have done : ∀ (r : ParsedSentence), gnssKindOf r = some kind → aisTypesOf r = [] → r ≠ .incomplete →
        (∀ kind, gnssKindOf r = some kind → ∃ talker fs, IsGnss talker kind fs s) ∧
        (aisTypesOf r ≠ [] → ∃ talker own fs, IsAis talker own fs s) ∧
        (r = .incomplete → (∃ talker fs, IsGnss talker (c! "GSV") fs s) ∨
          ∃ talker own fs, IsAis talker own fs s) := by
      intro r h1 h2 h3
      refine ⟨fun k hk => ?_, fun h => absurd h2 h, fun h => absurd h h3⟩
      rw [h1] at hk; cases hk
      exact ⟨talker, fs, hs⟩
    cases he with
    | gga hk h =>
      obtain ⟨d, rfl, hd⟩ := handleGga_ok _ _ _ _ (Prod.mk.inj h).1.symm
      exact done _ (by simp [gnssKindOf, hk]) rfl (by simp)
    | rmc hk h =>
      obtain ⟨d, rfl, hd⟩ := handleRmc_ok _ _ _ _ (Prod.mk.inj h).1.symm
      exact done _ (by simp [gnssKindOf, hk]) rfl (by simp)
    | gsa hk h =>
      obtain ⟨d, rfl, hd⟩ := handleGsa_ok _ _ _ (Prod.mk.inj h).1.symm
      exact done _ (by simp [gnssKindOf, hk]) rfl (by simp)
    | gsv hk h =>
      rcases handleGsv_ok _ _ _ _ _ _ h.symm with rfl | ⟨l, rfl, hl⟩
      · subst hk
        exact ⟨by simp [gnssKindOf], by simp [aisTypesOf], fun _ => .inl ⟨talker, fs, hs⟩⟩
      · exact done _ (by simp [gnssKindOf, hk]) rfl (by simp)
    | vtg hk h =>
      obtain ⟨d, hd, -⟩ := handleVtg_ok (join (tag '$' talker kind) fs) (talkerSystem talker)
      rw [hd] at h
      cases h
      exact done _ (by simp [gnssKindOf, hk]) rfl (by simp)
    | gll hk h =>
      obtain ⟨d, rfl, hd⟩ := handleGll_ok _ _ _ _ (Prod.mk.inj h).1.symm
      exact done _ (by simp [gnssKindOf, hk]) rfl (by simp)
    | other _ h => obtain ⟨_, h⟩ := h; cases h
  | bang talker kind fs hk hc hs =>
    have he := eval_ais_or_other env p talker kind fs s hk hc hs
    rw [hr] at he
    cases he with
    | other _ h => obtain ⟨_, h⟩ := h; cases h
    | ais own hk' _ =>
      subst hk'
      refine ⟨fun k hk => ?_, fun _ => ⟨talker, own, fs, hs⟩, fun _ => .inr ⟨talker, own, fs, hs⟩⟩
      exfalso
      rcases ais_result env p p' talker own fs s r hs hr with rfl | ⟨t, ht, -⟩
      · simp [gnssKindOf] at hk
      · cases r <;> simp_all [gnssKindOf, aisTypesOf]

/-- One result of each of the three sorts. -/
example : (∃ d p', parseSentence demoEnv Parser.new (c! "$GPVTG,1") = (.ok (.vtg d), p')) ∧
    (∃ d p', parseSentence demoEnv Parser.new (c! "!AIVDM,1,1,,B,:5MlU41GMK6@,0") = (.ok (.utcDateInquiry d), p')) ∧
    (∃ p', parseSentence demoEnv Parser.new (c! "$GPGSV,2,1,5") = (.ok .incomplete, p')) :=
  ⟨⟨⟨.gps, F64.parse (c! "1"), none, none, none, none⟩, Parser.new, by decide +kernel⟩,
   ⟨⟨false, .mobileStation, 366814480, 366832740⟩, Parser.new, by decide +kernel⟩,
   ⟨⟨⟨[(c! "$GPGSV,2,1", c! "$GPGSV,2,1,5")]⟩, ⟨[]⟩⟩, by decide +kernel⟩⟩

/-- C10: a readable tag that is none of the eight supported ones is refused, and nothing changes: a `$`
sentence of another three-byte kind, ... -/
theorem C10_other_gnss_kind (env : Env) (p : Parser) (talker kind : Str) (fs : List Str) (s : Str)
    (hk : byteLen kind = 3) (hc : ',' ∉ kind) (h : IsGnss talker kind fs s) (hn : kind ∉ gnssKinds) :
    ∃ m, parseSentence env p s = (.err (.unsupportedSentenceType m), p) := by
  cases eval_gnss env p talker kind fs s hk hc h with
  | other _ h => exact h
  | gga hk _ => exact absurd (by simp [gnssKinds, hk]) hn
  | rmc hk _ => exact absurd (by simp [gnssKinds, hk]) hn
  | gsa hk _ => exact absurd (by simp [gnssKinds, hk]) hn
  | gsv hk _ => exact absurd (by simp [gnssKinds, hk]) hn
  | vtg hk _ => exact absurd (by simp [gnssKinds, hk]) hn
  | gll hk _ => exact absurd (by simp [gnssKinds, hk]) hn

/-- A heading sentence. -/
example (env : Env) (p : Parser) :
    ∃ m, parseSentence env p (c! "$GPHDT,274.07,T*03") = (.err (.unsupportedSentenceType m), p) :=
  C10_other_gnss_kind env p (c! "GP") (c! "HDT") [c! "274.07", c! "T"] _ (by decide) (by decide)
    (demoTagged .full (by decide +kernel)) (by decide)

/-- C10: ... a `!` sentence of another three-byte kind, ... -/
theorem C10_other_ais_kind (env : Env) (p : Parser) (talker kind : Str) (fs : List Str) (s : Str)
    (hk : byteLen kind = 3) (hc : ',' ∉ kind) (h : IsTagged '!' talker kind fs s)
    (hn : kind ≠ c! "VDM" ∧ kind ≠ c! "VDO") :
    ∃ m, parseSentence env p s = (.err (.unsupportedSentenceType m), p) := by
  cases eval_ais_or_other env p talker kind fs s hk hc h with
  | other _ h => exact h
  | ais own hk _ =>
    cases own with
    | false => exact absurd hk hn.1
    | true => exact absurd hk hn.2

/-- An acknowledgement of a transponder. -/
example (env : Env) (p : Parser) :
    ∃ m, parseSentence env p (c! "!AIABK,,B,,3,3") = (.err (.unsupportedSentenceType m), p) :=
  C10_other_ais_kind env p (c! "AI") (c! "ABK") [[], c! "B", [], c! "3", c! "3"] _ (by decide) (by decide)
    (demoTagged .bare (by decide +kernel)) (by decide)

/-- C10: ... or a tag of another form (other lead character, or more than six bytes). -/
theorem C10_odd_tag (env : Env) (p : Parser) (ty rest : Str) (e : Ending)
    (hf : Framed (ty ++ ',' :: rest) e) (hc : ',' ∉ ty) (ho : OddTag ty) :
    ∃ m, parseSentence env p (finish (ty ++ ',' :: rest) e) = (.err (.unsupportedSentenceType m), p) := by
  rw [parse_finish _ _ _ _ hf, parseBody_oddTag _ _ _ _ hc ho]
  exact ⟨_, rfl⟩

/-- A proprietary sentence with a long tag, and a sentence with an unknown lead. -/
example (env : Env) (p : Parser) :
    (∃ m, parseSentence env p (c! "$PGRMZZ,246,f,3") = (.err (.unsupportedSentenceType m), p)) ∧
    ∃ m, parseSentence env p (c! "#GPGGA,123519") = (.err (.unsupportedSentenceType m), p) :=
  ⟨C10_odd_tag env p (c! "$PGRMZZ") (c! "246,f,3") .bare (by decide) (by decide)
    (.inr ⟨'$', _, rfl, .inl rfl, by decide, c! "PG", _, rfl, by decide⟩),
   C10_odd_tag env p (c! "#GPGGA") (c! "123519") .bare (by decide) (by decide)
    (.inl ⟨'#', _, rfl, by decide, by decide, by decide⟩)⟩

/-- C10: conversely `UnsupportedSentenceType` for a `$` sentence means one of the other kinds. -/
theorem C10_supported_gnss_kind (env : Env) (p p' : Parser) (talker kind : Str) (fs : List Str) (s m : Str)
    (hk : byteLen kind = 3) (hc : ',' ∉ kind) (h : IsGnss talker kind fs s)
    (hr : parseSentence env p s = (.err (.unsupportedSentenceType m), p')) : kind ∉ gnssKinds := by
  have he := eval_gnss env p talker kind fs s hk hc h
  rw [hr] at he
  have bad : ∀ y : Out ParseError ParsedSentence, OnlyInvalid y → y ≠ .err (.unsupportedSentenceType m) := by
    intro y hy he
    obtain ⟨_, h⟩ := hy _ he
    cases h
  cases he with
  | gga _ h => exact absurd (Prod.mk.inj h).1.symm (bad _ (handleGga_inv _ _ _))
  | rmc _ h => exact absurd (Prod.mk.inj h).1.symm (bad _ (handleRmc_inv _ _ _))
  | gsa _ h => exact absurd (Prod.mk.inj h).1.symm (bad _ (handleGsa_inv _ _))
  | gsv _ h => exact absurd (congrArg Prod.fst h.symm) (bad _ (handleGsv_inv _ _ _ _))
  | vtg _ h => cases h
  | gll _ h => exact absurd (Prod.mk.inj h).1.symm (bad _ (handleGll_inv _ _ _))
  | other hk _ => exact hk

/-- The heading sentence once more: the refusal is what the parser returns. -/
example : parseSentence demoEnv Parser.new (c! "$GPHDT,274.07,T*03") =
    (.err (.unsupportedSentenceType (c! "Unimplemented NMEA sentence: $HDT")), Parser.new) := by decide +kernel

/-- C11: the message type alone decides whether a complete message is refused as unsupported, and the kind
of the result. -/
theorem C11_message_type (env : Env) (p : Parser) (talker : Str) (own : Bool) (bits : List Bool)
    (s : Str) (h : Single talker own (armor bits) s) :
    ((∃ m, (parseSentence env p s).1 = .err (.unsupportedSentenceType m)) ↔ typeOf bits ∉ supportedTypes) ∧
    (typeOf bits ∉ supportedTypes → (parseSentence env p s).2 = p) ∧
    (∀ r, (parseSentence env p s).1 = .ok r → r ≠ .incomplete → typeOf bits ∈ aisTypesOf r) ∧
    ((parseSentence env p s).1 = .ok .incomplete → typeOf bits = 24) := by
  have ht : pickU64 bits 0 6 = typeOf bits := pickU64_window _ _ _ (by decide)
  rw [eval_armored env p talker own bits s h]
  refine ⟨⟨?_, ?_⟩, ?_, ?_, ?_⟩
  · rintro ⟨m, hm⟩
    rcases dispatchAis_err _ _ _ _ _ _ _ _ (Prod.ext hm rfl) with ⟨-, ⟨_, h⟩⟩ | ⟨h, -⟩
    · cases h
    · rwa [ht] at h
  · intro hn
    rw [← ht] at hn
    obtain ⟨m, hm⟩ := dispatchAis_unsupported env ('!' :: aisKind own) bits (stationOf talker) own p hn
    exact ⟨m, by rw [hm]⟩
  · intro hn
    rw [← ht] at hn
    obtain ⟨m, hm⟩ := dispatchAis_unsupported env ('!' :: aisKind own) bits (stationOf talker) own p hn
    rw [hm]
  · intro r hr hne
    rcases dispatchAis_ok _ _ _ _ _ _ _ _ (Prod.ext hr rfl) with ⟨h, -⟩ | ⟨h, -⟩
    · exact absurd h hne
    · rwa [ht] at h
  · intro hr
    rcases dispatchAis_ok _ _ _ _ _ _ _ _ (Prod.ext hr rfl) with ⟨-, h⟩ | ⟨h, -⟩
    · rwa [ht] at h
    · simp [aisTypesOf] at h

/-- A type 8 message is refused, a type 18 message is not. -/
example : typeOf (natBits 6 8) ∉ supportedTypes ∧ typeOf (natBits 6 18) ∈ supportedTypes := by decide

end Nmea
