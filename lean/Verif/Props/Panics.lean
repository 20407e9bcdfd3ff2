/-
Panics and timestamps (C72, C73, C74, C77, C78), and where pending data come from (C80, C81).
-/
import Verif.Lemmas.Times
import Verif.Props.Fragments
import Verif.Spec.Demo

namespace Nmea
open Spec

/-! ## C72: exactly which sentences panic -/

/-- C72: `parse_sentence` panics in the listed cases (`Panics`) and in no other. -/
theorem C72_panics_iff (env : Env) (p : Parser) (s : Str) : (parseSentence env p s).1 = .panic ↔ Panics env p s :=
  ⟨panics_of env p s, panic_of env p s⟩

example : Panics demoEnv Parser.new (c! "$GPGGA,1234") :=
  .gga (c! "GP") [c! "1234"] (demoTagged .bare (by decide)) (by
    rintro ⟨t, (⟨h, m, x, hr, -⟩ | ⟨hr, -⟩)⟩
    · cases hr with
      | time a b c rest h m x hs hl hp =>
        have := congrArg byteLen hs
        simp only [byteLen_append] at this
        rw [show byteLen (field [c! "1234"] 0) = 4 by decide] at this
        omega
    · have h1 := (gga_panic demoEnv Parser.new (c! "GP") [c! "1234"] _ (demoTagged .bare (by decide))).mp
        (show (parseSentence demoEnv Parser.new (c! "$GPGGA,1234")).1 = .panic by decide +kernel)
      exact h1 ⟨none, .inr ⟨hr, rfl⟩⟩)
example : Panics demoEnv Parser.new (c! "$GP,") :=
  .tag (c! "$GP") [] .bare (by decide) (by decide) (by decide) (.inr (.inr ⟨'$', c! "GP", rfl, .inl rfl, .inl (by decide)⟩))
example : Panics demoEnv Parser.new (c! "!AIVDM,1,1,,A,1!,0") :=
  .payload (c! "AI") false (c! "1!") (.single _ ⟨[c! "1", c! "1", [], c! "A", c! "1!", c! "0"], 1,
    demoTagged .bare (by decide), demoDec (by decide), demoDec (by decide), rfl⟩) (by unfold Readable; decide)
/-- The same sentence is harmless without overflow checks. -/
example : (parseSentence demoRelease Parser.new (c! "!AIVDM,1,1,,A,1!,0")).1 ≠ .panic := by decide +kernel

/-- C72: in particular a GGA sentence whose time has fewer than six characters, all digits (or is empty, as
receivers without a fix send it), panics in every state, whatever its other fields are. -/
theorem C72_short_time (env : Env) (p : Parser) (talker : Str) (fs : List Str) (s : Str)
    (hs : IsGnss talker (c! "GGA") fs s) (hd : AllDigits (field fs 0)) (hl : (field fs 0).length < 6) :
    (parseSentence env p s).1 = .panic := by
  rw [gga_panic env p talker fs s hs]
  generalize field fs 0 = t at hd hl
  have dl : ∀ l : Str, AllDigits l → byteLen l = l.length := by
    intro l
    induction l with
    | nil => intro _; rfl
    | cons c l ih =>
      intro h
      rw [byteLen_cons, ih (fun x hx => h x (List.mem_cons_of_mem _ hx)), List.length_cons]
      have : ∀ c ∈ c! "0123456789", c.utf8Size = 1 := by decide
      rw [this c (h c (List.mem_cons_self ..))]
      omega
  have part : ∀ l : Str, AllDigits l → byteLen l = 2 → ∃ n, TimePart l n := by
    intro l h1 h2
    rw [dl l h1] at h2
    refine ⟨decValue l, l, .inl rfl, ⟨fun e => (by rw [e] at h2; cases h2), h1⟩, rfl, ?_⟩
    have := decValue_lt l h1
    rw [h2] at this
    omega
  have sub : ∀ a b, AllDigits (a ++ b) → AllDigits a ∧ AllDigits b := fun a b h =>
    ⟨fun c hc => h c (List.mem_append_left _ hc), fun c hc => h c (List.mem_append_right _ hc)⟩
  have hl' : byteLen t < 6 := by rw [dl t hd]; exact hl
  have no : ∀ o, ¬ ReadTime t o := by
    intro o ho
    cases ho with
    | time a b c rest h m x e hl2 hp =>
      rw [e] at hl'
      simp only [byteLen_append] at hl'
      omega
    | noHour a rest e hl2 hp =>
      obtain ⟨n, hn⟩ := part a (sub a rest (e ▸ hd)).1 hl2
      exact hp n hn
    | noMinute a b rest h e hl2 hp =>
      obtain ⟨n, hn⟩ := part b (sub a b (sub (a ++ b) rest (e ▸ hd)).1).2 hl2.2
      exact hp.2 n hn
    | noSecond a b c rest h m e hl2 hp =>
      rw [e] at hl'
      simp only [byteLen_append] at hl'
      omega
  rintro ⟨x, (⟨_, _, _, h, -⟩ | ⟨h, -⟩)⟩
  · exact no _ h
  · exact no _ h

/-- An empty time, as sent before the first fix. -/
example : IsGnss (c! "GP") (c! "GGA") [[], [], [], [], [], c! "0", c! "00"] (c! "$GPGGA,,,,,,0,00") ∧
    AllDigits (field [[], [], [], [], [], c! "0", c! "00"] 0) :=
  ⟨demoTagged .bare (by decide), by intro c hc; cases hc⟩

/-- C72: GSA and VTG sentences never panic. -/
theorem C72_gsa_vtg (env : Env) (p : Parser) (talker kind : Str) (fs : List Str) (s : Str)
    (hk : kind = c! "GSA" ∨ kind = c! "VTG") (hs : IsGnss talker kind fs s) : (parseSentence env p s).1 ≠ .panic := by
  rcases hk with rfl | rfl
  · exact gsa_not_panic env p talker fs s hs
  · obtain ⟨d, hd, -⟩ := vtg_ok env p talker fs s hs
    rw [hd]
    simp

example : IsGnss (c! "GP") (c! "VTG") [c! "abc", c! "T"] (c! "$GPVTG,abc,T") := demoTagged .bare (by decide)

/-! ## C80: where pending data come from -/

/-- C80: a pending part of an AIS message is the payload of a sentence of the history with that number, message id
and channel. -/
theorem C80_parts (h : List (Env × Str)) (own : Bool) (num id : Nat) (chan b : Str)
    (hp : pendingPart (run Parser.new h) own num id chan = some b) :
    ∃ x ∈ h, ∃ talker, Part talker own num id chan b x.2 := by
  have key : ∀ h p, pendingPart (run p h) own num id chan = some b →
      pendingPart p own num id chan = some b ∨ ∃ x ∈ h, ∃ talker, Part talker own num id chan b x.2 := by
    intro h
    induction h with
    | nil => exact fun p hp => .inl hp
    | cons x h ih =>
      intro p hp
      rcases ih _ hp with hp | ⟨y, hy, hp⟩
      · rcases part_source _ _ _ _ _ _ _ _ hp with hp | hp
        · exact .inl hp
        · exact .inr ⟨x, List.mem_cons_self .., hp⟩
      · exact .inr ⟨y, List.mem_cons_of_mem _ hy, hp⟩
  rcases key h _ hp with hp | hp
  · cases hp
  · exact hp

example : pendingPart (run Parser.new [(demoEnv, c! "!AIVDM,2,1,5,A,13HOI,0"), (demoEnv, c! "$GPGSA,A,3")]) false 1 5 (c! "A") =
    some (c! "13HOI") := by decide +kernel

/-- C80: a pending GSV sentence is a sentence of the history with that talker, count and number. -/
theorem C80_gsv (h : List (Env × Str)) (talker : Str) (n k : Nat) (b : Str) (ht : ',' ∉ talker)
    (hp : pendingGsv (run Parser.new h) talker n k = some b) :
    ∃ x ∈ h, ∃ fs, GsvPart talker n k fs x.2 ∧ b = join (tag '$' talker (c! "GSV")) fs := by
  have key : ∀ h p, pendingGsv (run p h) talker n k = some b → pendingGsv p talker n k = some b ∨
      ∃ x ∈ h, ∃ fs, GsvPart talker n k fs x.2 ∧ b = join (tag '$' talker (c! "GSV")) fs := by
    intro h
    induction h with
    | nil => exact fun p hp => .inl hp
    | cons x h ih =>
      intro p hp
      rcases ih _ hp with hp | ⟨y, hy, hp⟩
      · rcases gsv_source _ _ _ _ _ _ _ ht hp with hp | hp
        · exact .inl hp
        · exact .inr ⟨x, List.mem_cons_self .., hp⟩
      · exact .inr ⟨y, List.mem_cons_of_mem _ hy, hp⟩
  rcases key h _ hp with hp | hp
  · cases hp
  · exact hp

example : pendingGsv (run Parser.new [(demoEnv, c! "$GPGSV,3,2,11,01"), (demoEnv, c! "$GPGSA,A,3")]) (c! "GP") 3 2 =
    some (c! "$GPGSV,3,2,11,01") := by decide +kernel

/-- C80: pending static data are the contents of a type 24 message that was completed at some point of the history
and had that MMSI. -/
theorem C80_static (h : List (Env × Str)) (m : Nat) (v : VesselStaticData)
    (hp : pendingStatic (run Parser.new h) m = some v) :
    ∃ h1 x h2 own bits, h = h1 ++ x :: h2 ∧ Completes24 x.1 (run Parser.new h1) x.2 own bits ∧ mmsiOf bits = m ∧
      partOf bits < 2 ∧ v = partData own bits := by
  induction h using List.reverseRecOn with
  | nil => cases hp
  | append_singleton h x ih =>
    rw [run_append] at hp
    rcases static_source x.1 _ x.2 (goodStatic_reachable _ ⟨h, rfl⟩) m v hp with hp | ⟨own, bits, h1, h2, h3, h4⟩
    · obtain ⟨h1, y, h2, own, bits, rfl, hr⟩ := ih hp
      exact ⟨h1, y, h2 ++ [x], own, bits, by simp, hr⟩
    · exact ⟨h, x, [], own, bits, rfl, h1, h2, h3, h4⟩

example : (pendingStatic (run Parser.new [(demoEnv, c! "!AIVDM,1,1,,A,H42O55i18tMET00000000000000,2")]) 271041815).isSome = true := by
  decide +kernel

/-! ## C81: completed messages are made of received payloads -/

/-- C81: on a parser with history `h`, the payload that a sentence completes is its own, or its own joined with the
payload of the other part, from a sentence of the history with the same kind, message id and channel. -/
theorem C81_no_invention (h : List (Env × Str)) (s talker : Str) (own : Bool) (payload : Str)
    (hd : Delivers (run Parser.new h) s talker own payload) :
    Single talker own payload s ∨
    ∃ id chan a b x talker', x ∈ h ∧ payload = a ++ b ∧
      ((Part talker own 1 id chan a s ∧ Part talker' own 2 id chan b x.2) ∨
       (Part talker own 2 id chan b s ∧ Part talker' own 1 id chan a x.2)) := by
  cases hd with
  | single _ h => exact .inl h
  | first id chan a b hs hb =>
    obtain ⟨x, hx, t, ht⟩ := C80_parts h own 2 id chan b hb
    exact .inr ⟨id, chan, a, b, x, t, hx, rfl, .inl ⟨hs, ht⟩⟩
  | second id chan a b hs ha =>
    obtain ⟨x, hx, t, ht⟩ := C80_parts h own 1 id chan a ha
    exact .inr ⟨id, chan, a, b, x, t, hx, rfl, .inr ⟨hs, ht⟩⟩

example : Delivers (run Parser.new [(demoEnv, c! "!AIVDM,2,1,5,A,13HOI,0")]) (c! "!AIVDM,2,2,5,A,0000,0") (c! "AI") false
    (c! "13HOI" ++ c! "0000") :=
  .second 5 (c! "A") _ _ ⟨[c! "2", c! "2", c! "5", c! "A", c! "0000", c! "0"], demoTagged .bare (by decide),
    demoDec (by decide), demoDec (by decide), demoDec (by decide), rfl, rfl⟩ (by decide +kernel)

/-! ## C73: well-formed sentences do not panic -/

theorem cleanText_readable (env : Env) (s : Str) (h : CleanText s) : Readable env s := by
  intro _ c hc
  obtain ⟨v, hv, rfl⟩ := h c hc
  have : ∀ v < 64, 48 ≤ (armorChar v).toNat % 256 := by decide
  exact this v hv

theorem wellFormed_part {now : DateTime} {s talker : Str} {own : Bool} {num id : Nat} {chan payload : Str}
    (h : WellFormed now s) (hp : Part talker own num id chan payload s) : CleanText payload := by
  have nog : ∀ t k fs, IsGnss t k fs s → ',' ∉ k → False := by
    intro t k fs hg hc
    obtain ⟨fs', hp, -⟩ := hp
    exact absurd (IsTagged.unique hg hp (by decide) (by decide) hc (aisKind_noComma _)).1 (by decide)
  cases h with
  | gga t fs _ _ _ _ hs => exact (nog _ _ _ hs (by decide)).elim
  | gll t fs _ _ _ _ hs => exact (nog _ _ _ hs (by decide)).elim
  | rmc t fs _ _ _ _ _ _ _ hs => exact (nog _ _ _ hs (by decide)).elim
  | gsv t fs hs => exact (nog _ _ _ hs (by decide)).elim
  | gnss t k fs hs _ hc => exact (nog _ _ _ hs hc).elim
  | single t o pl hs => exact (hs.not_part hp).elim
  | part t o n i c pl hs hc => obtain ⟨-, -, -, -, -, rfl⟩ := hs.unique hp; exact hc

/-- C73: on a parser that has only seen well-formed sentences, a well-formed sentence does not panic, provided the
clock is valid and the message that it completes as a part of two, if any, has valid times. -/
theorem C73_no_panic (env : Env) (h : List (Env × Str)) (s : Str) (hnow : IsDateTime env.now)
    (hh : ∀ x ∈ h, WellFormed x.1.now x.2) (hs : WellFormed env.now s)
    (hm : ∀ talker own payload, Delivers (run Parser.new h) s talker own payload → ¬ BadMessage env.now (payloadBits payload)) :
    (parseSentence env (run Parser.new h) s).1 ≠ .panic := by
  cases hs with
  | gga talker fs h m x rest hs ht hv =>
    rw [ne_eq, gga_panic _ _ talker fs s hs, not_not, ht]
    exact ⟨_, hms_time _ hnow h m x rest hv⟩
  | gll talker fs h m x rest hs ht hv =>
    rw [ne_eq, gll_panic _ _ talker fs s hs, ht]
    exact fun h' => h'.2 ⟨_, hms_time _ hnow h m x rest hv⟩
  | rmc talker fs d mo y h m x rest hs hd ht hy hv =>
    rw [ne_eq, rmc_panic _ _ talker fs s hs, not_not, ht, hd]
    exact ⟨_, rmc_time _ d mo y h m x rest hy hv⟩
  | gsv talker fs hs hn =>
    cases gsv_case env (run Parser.new h) talker fs s hs with
    | bad m _ h' => rw [h']; simp
    | part n k hp h' =>
      rw [h', ne_eq, gsvStep_panic]
      have := hn n hp.2.1
      omega
  | gnss talker kind fs hs hl hc hk =>
    simp only [List.mem_cons, List.not_mem_nil, or_false, not_or] at hk
    cases eval_gnss env (run Parser.new h) talker kind fs s hl hc hs with
    | gga hk' _ => exact absurd hk' hk.1
    | rmc hk' _ => exact absurd hk' hk.2.2.1
    | gsv hk' _ => exact absurd hk' hk.2.2.2
    | gll hk' _ => exact absurd hk' hk.2.1
    | gsa hk' _ => exact C72_gsa_vtg env _ talker kind fs s (.inl hk') hs
    | vtg hk' _ => exact C72_gsa_vtg env _ talker kind fs s (.inr hk') hs
    | other _ h' => obtain ⟨_, h'⟩ := h'; rw [h']; simp
  | single talker own payload hs hc hb =>
    rw [eval_Single env _ talker own payload s hs, ne_eq, complete_panic]
    rintro (h1 | ⟨-, h1⟩)
    · exact h1 (cleanText_readable _ _ hc)
    · exact hb h1
  | part talker own num id chan payload hs hc =>
    intro hp
    have both : ∀ a b, CleanText a → CleanText b → Readable env (a ++ b) := by
      intro a b ha hb
      refine cleanText_readable _ _ fun c hc => ?_
      rcases List.mem_append.mp hc with hc | hc
      · exact ha c hc
      · exact hb c hc
    have old : ∀ num b, pendingPart (run Parser.new h) own num id chan = some b → CleanText b := by
      intro num b hb
      obtain ⟨x, hx, t, ht⟩ := C80_parts h own num id chan b hb
      exact wellFormed_part (hh x hx) ht
    have hs0 := hs
    obtain ⟨fs, hs', h0, h1, h2, rfl, rfl⟩ := hs0
    cases ais_case env (run Parser.new h) talker own fs s hs' with
    | bad m _ h' => rw [h'] at hp; cases hp
    | odd n _ _ _ h' => rw [h'] at hp; cases hp
    | single pl h0' _ h' => exact absurd (h0.unique h0') (by decide)
    | part1 id' hp' h' =>
      obtain ⟨-, -, rfl, rfl, -⟩ := hs.unique hp'
      rw [h', joinPart] at hp
      split at hp
      · rename_i b hb
        rw [complete_panic] at hp
        rcases hp with hp | ⟨-, hp⟩
        · exact hp (both _ _ hc (old _ _ hb))
        · exact hm _ _ _ (.first _ _ _ _ hs hb) hp
      · cases hp
    | part2 id' hp' h' =>
      obtain ⟨-, -, rfl, rfl, -⟩ := hs.unique hp'
      rw [h', joinPart] at hp
      split at hp
      · rename_i b hb
        rw [complete_panic] at hp
        rcases hp with hp | ⟨-, hp⟩
        · exact hp (both _ _ (old _ _ hb) hc)
        · exact hm _ _ _ (.second _ _ _ _ hs hb) hp
      · cases hp

example : IsDateTime demoEnv.now ∧ WellFormed demoEnv.now (c! "$GPGGA,123519.00,4807.038,N") :=
  ⟨by decide, .gga (c! "GP") [c! "123519.00", c! "4807.038", c! "N"] 12 35 19 (c! ".00") (demoTagged .bare (by decide))
    (by decide) (by decide)⟩
example : WellFormed demoEnv.now (c! "!AIVDM,2,1,5,A,13HOI,0") :=
  .part (c! "AI") false 1 5 (c! "A") (c! "13HOI") ⟨[c! "2", c! "1", c! "5", c! "A", c! "13HOI", c! "0"],
    demoTagged .bare (by decide), demoDec (by decide), demoDec (by decide), demoDec (by decide), rfl, rfl⟩
    (by unfold CleanText; decide)

/-- C73, release builds: without overflow checks the payload characters and the GSV count do not matter; only tags,
times and dates can make a call panic. -/
theorem C73_release (env : Env) (p : Parser) (s : Str) (ho : env.overflowChecks = false)
    (hp : (parseSentence env p s).1 = .panic) :
    (∃ ty rest e, Framed (ty ++ ',' :: rest) e ∧ s = finish (ty ++ ',' :: rest) e ∧ ',' ∉ ty ∧ BadTag ty) ∨
    (∃ talker kind fs, kind ∈ [c! "GGA", c! "RMC", c! "GLL"] ∧ IsGnss talker kind fs s) ∨
    (∃ talker own payload, Delivers p s talker own payload ∧ typeOf (payloadBits payload) ∈ [4, 5]) := by
  rw [C72_panics_iff] at hp
  cases hp with
  | tag ty rest e hf hs hc hb => exact .inl ⟨ty, rest, e, hf, hs, hc, hb⟩
  | gga talker fs hs => exact .inr (.inl ⟨talker, _, fs, by simp, hs⟩)
  | rmc talker fs hs => exact .inr (.inl ⟨talker, _, fs, by simp, hs⟩)
  | gll talker fs hs => exact .inr (.inl ⟨talker, _, fs, by simp, hs⟩)
  | gsv talker k fs hs h => rw [ho] at h; cases h
  | payload talker own payload hd hr => exact absurd (fun h => by rw [ho] at h; cases h) hr
  | message talker own payload hd hr hb =>
    refine .inr (.inr ⟨talker, own, payload, hd, ?_⟩)
    rcases hb with ⟨h, -⟩ | ⟨h, -⟩ <;> simp [h]

example : demoRelease.overflowChecks = false ∧
    (parseSentence demoRelease Parser.new (c! "$GPGGA,")).1 = .panic := by decide +kernel

/-! ## C74: returned timestamps are valid -/

/-- C74: every timestamp of a result of a parser in any reachable state is a calendar date with a time of day. -/
theorem C74_valid_times (env : Env) (p : Parser) (hr : Reachable p) (s : Str) (r : ParsedSentence)
    (h : (parseSentence env p s).1 = .ok r) (t : DateTime) (ht : t ∈ timesOf r) : IsDateTime t :=
  times_valid env p (goodStatic_reachable p hr) s r h t ht

example : ∃ r, (parseSentence demoEnv Parser.new (c! "$GPRMC,235959,A,,,,,,,290224")).1 = .ok r ∧
    timesOf r = [⟨2024, 2, 29, 23, 59, 59⟩] := ⟨_, rfl, by decide +kernel⟩

/-! ## C77: the ETA of type 5 -/

/-- C77: for every type 5 message: no ETA exactly if it is marked absent (which here needs the top six draught bits to
be 60), otherwise the date of the bits in the current year with the top draught bits as seconds. -/
theorem C77_eta (env : Env) (p : Parser) (s talker : Str) (own : Bool) (bits : List Bool)
    (h : DeliversBits env p s talker own bits) (ht : typeOf bits = 5) :
    (EtaAbsent (arrivalAt bits) → ∃ d, (parseSentence env p s).1 = .ok (.vesselStaticData d) ∧ d.eta = none) ∧
    (¬ EtaAbsent (arrivalAt bits) → IsDateTime (etaCandidate env.now (arrivalAt bits)) →
      ∃ d, (parseSentence env p s).1 = .ok (.vesselStaticData d) ∧ d.eta = some (etaCandidate env.now (arrivalAt bits))) ∧
    (¬ EtaAbsent (arrivalAt bits) → ¬ IsDateTime (etaCandidate env.now (arrivalAt bits)) →
      (parseSentence env p s).1 = .panic) := by
  obtain ⟨q, -, he⟩ := eval_bits env p s talker own bits h
  rw [he, dispatch_5 (by rw [typeOf_eq, ht])]
  simp only [handleT5, liftErr_pickString, Out.ok_bind, eta_eval]
  refine ⟨fun ha => ?_, fun ha hv => ?_, fun ha hv => ?_⟩
  · rw [if_pos ha]; exact ⟨_, rfl, rfl⟩
  · rw [if_neg ha, if_pos hv]; exact ⟨_, rfl, rfl⟩
  · rw [if_neg ha, if_neg hv]; rfl

/-- A type 5 message in two parts, the second of them pending. -/
example : ∃ p s bits, DeliversBits demoEnv p s (c! "AI") false bits ∧ typeOf bits = 5 ∧ ¬ EtaAbsent (arrivalAt bits) ∧
    IsDateTime (etaCandidate demoEnv.now (arrivalAt bits)) := by
  refine ⟨Parser.new, c! "!AIVDM,1,1,,A,55?MbV02;H;s<HtKR20EHE:0@T4@Dn2222222216L961O5Gf0NSQEp6ClRp8,0",
    payloadBits (c! "55?MbV02;H;s<HtKR20EHE:0@T4@Dn2222222216L961O5Gf0NSQEp6ClRp8"), ⟨_, .single _ ⟨[c! "1", c! "1", [], c! "A",
      c! "55?MbV02;H;s<HtKR20EHE:0@T4@Dn2222222216L961O5Gf0NSQEp6ClRp8", c! "0"], 1, ?_, ?_, ?_, rfl⟩, ?_, rfl⟩, ?_, ?_, ?_⟩
  · exact demoTagged .bare (by decide)
  · exact demoDec (by decide)
  · exact demoDec (by decide)
  · unfold Readable; decide +kernel
  · decide +kernel
  · decide +kernel
  · decide +kernel

/-- C77: so whatever the date, the year is the current one, and no ETA is moved to the next year; the seconds are a
quarter of the draught. -/
theorem C77_current_year (env : Env) (p : Parser) (s talker : Str) (own : Bool) (bits : List Bool)
    (h : DeliversBits env p s talker own bits) (ht : typeOf bits = 5) (d : VesselStaticData) (t : DateTime)
    (hd : (parseSentence env p s).1 = .ok (.vesselStaticData d)) (he : d.eta = some t) :
    t.year = env.now.year ∧ (bitsVal (window bits 283 5) < 24 → bitsVal (window bits 288 6) < 60 →
      bitsVal (window bits 294 8) < 240 → t.second = bitsVal (window bits 294 8) / 4) := by
  obtain ⟨h1, h2, h3⟩ := C77_eta env p s talker own bits h ht
  by_cases ha : EtaAbsent (arrivalAt bits)
  · obtain ⟨d', e1, e2⟩ := h1 ha
    rw [hd] at e1; cases e1
    rw [he] at e2; cases e2
  · by_cases hv : IsDateTime (etaCandidate env.now (arrivalAt bits))
    · obtain ⟨d', e1, e2⟩ := h2 ha hv
      rw [hd] at e1; cases e1
      rw [he] at e2; cases e2
      refine ⟨rfl, fun a1 a2 a3 => ?_⟩
      exact if_neg (by
        show ¬ (bitsVal (window bits 283 5) = 24 ∨ bitsVal (window bits 288 6) = 60 ∨ bitsVal (window bits 294 8) / 4 = 60)
        omega)
    · rw [h3 ha hv] at hd; cases hd

/-- A voyage report with the arrival 15 May, 14:00, and the draught 12.2 metres. -/
example : ∃ d t, (parseSentence demoEnv Parser.new
      (c! "!AIVDM,1,1,,A,55?MbV02;H;s<HtKR20EHE:0@T4@Dn2222222216L961O5Gf0NSQEp6ClRp8,0")).1 = .ok (.vesselStaticData d) ∧
    d.eta = some t ∧ t.year = 2024 ∧ t.second = 122 / 4 := by
  have h : DeliversBits demoEnv Parser.new (c! "!AIVDM,1,1,,A,55?MbV02;H;s<HtKR20EHE:0@T4@Dn2222222216L961O5Gf0NSQEp6ClRp8,0")
      (c! "AI") false (payloadBits (c! "55?MbV02;H;s<HtKR20EHE:0@T4@Dn2222222216L961O5Gf0NSQEp6ClRp8")) :=
    ⟨_, .single _ ⟨[c! "1", c! "1", [], c! "A", c! "55?MbV02;H;s<HtKR20EHE:0@T4@Dn2222222216L961O5Gf0NSQEp6ClRp8", c! "0"], 1,
      demoTagged .bare (by decide), demoDec (by decide), demoDec (by decide), rfl⟩, by unfold Readable; decide +kernel, rfl⟩
  have ht : typeOf (payloadBits (c! "55?MbV02;H;s<HtKR20EHE:0@T4@Dn2222222216L961O5Gf0NSQEp6ClRp8")) = 5 := by decide +kernel
  obtain ⟨d, hd, he⟩ := (C77_eta _ _ _ _ _ _ h ht).2.1 (by decide +kernel) (by decide +kernel)
  obtain ⟨h1, h2⟩ := C77_current_year _ _ _ _ _ _ h ht d _ hd he
  exact ⟨d, _, hd, he, h1, (h2 (by decide +kernel) (by decide +kernel) (by decide +kernel)).trans (by decide +kernel)⟩

/-- C77: with the codes of the standard for "no ETA" (month 0, day 0, hour 24, minute 60) the ETA is absent only for a
draught of 24.0 to 24.3 m; otherwise it is the end of the current day. -/
theorem C77_not_available (env : Env) (p : Parser) (s talker : Str) (own : Bool) (bits : List Bool)
    (h : DeliversBits env p s talker own bits) (ht : typeOf bits = 5) (hnow : IsDateTime env.now)
    (hna : bitsVal (window bits 274 4) = 0 ∧ bitsVal (window bits 278 5) = 0 ∧ bitsVal (window bits 283 5) = 24 ∧
      bitsVal (window bits 288 6) = 60) :
    ∃ d, (parseSentence env p s).1 = .ok (.vesselStaticData d) ∧
      d.eta = if 240 ≤ bitsVal (window bits 294 8) ∧ bitsVal (window bits 294 8) < 244 then none
        else some ⟨env.now.year, env.now.month, env.now.day, 23, 59, 59⟩ := by
  obtain ⟨h1, h2, h3⟩ := C77_eta env p s talker own bits h ht
  obtain ⟨n1, n2, n3, n4⟩ := hna
  by_cases ha : EtaAbsent (arrivalAt bits)
  · obtain ⟨d, e1, e2⟩ := h1 ha
    have := ha.2.2.2.2
    simp only [arrivalAt] at this
    exact ⟨d, e1, by rw [e2, if_pos (by omega)]⟩
  · have ec : etaCandidate env.now (arrivalAt bits) = ⟨env.now.year, env.now.month, env.now.day, 23, 59, 59⟩ := by
      simp [etaCandidate, arrivalAt, n1, n2, n3]
    obtain ⟨d, e1, e2⟩ := h2 ha (by rw [ec]; exact ⟨hnow.1, hnow.2.1, show IsTime 23 59 59 by decide⟩)
    refine ⟨d, e1, ?_⟩
    rw [e2, ec, if_neg]
    intro hd
    exact ha ⟨n1, n2, n3, n4, by simp only [arrivalAt]; omega⟩

/-- The codes for "no ETA" with draught 12.2 m. -/
example : ∃ bits : List Bool, typeOf bits = 5 ∧ bitsVal (window bits 274 4) = 0 ∧ bitsVal (window bits 278 5) = 0 ∧
    bitsVal (window bits 283 5) = 24 ∧ bitsVal (window bits 288 6) = 60 ∧ bitsVal (window bits 294 8) = 122 :=
  ⟨natBits 6 5 ++ List.replicate 277 false ++ natBits 5 24 ++ natBits 6 60 ++ natBits 8 122, by decide +kernel⟩

/-! ## C78: clock independence -/

/-- C78: two calls with the same parser, sentence and build but different clocks leave the same pending data, and
their outcomes are equal up to the timestamps of GGA, RMC, GLL and type 5, unless one of them panics. -/
theorem C78_clock (env : Env) (n : DateTime) (p : Parser) (s : Str) :
    SameButClock (parseSentence env p s).1 (parseSentence { env with now := n } p s).1 ∧
    (parseSentence { env with now := n } p s).2 = (parseSentence env p s).2 :=
  ⟨(clock_case env n p s).1, (clock_case env n p s).2.1⟩

/-- A GGA sentence at another date: the same state. -/
example : (parseSentence { demoEnv with now := ⟨1999, 12, 31, 23, 59, 59⟩ } Parser.new (c! "$GPGGA,123519")).2 =
      (parseSentence demoEnv Parser.new (c! "$GPGGA,123519")).2 ∧
    SameButClock (parseSentence demoEnv Parser.new (c! "$GPGGA,123519")).1
      (parseSentence { demoEnv with now := ⟨1999, 12, 31, 23, 59, 59⟩ } Parser.new (c! "$GPGGA,123519")).1 :=
  ⟨(C78_clock demoEnv _ Parser.new _).2, (C78_clock demoEnv _ Parser.new _).1⟩

/-- C78: sentences other than GGA, RMC, GLL and those that complete a type 5 message do not depend on the clock. -/
theorem C78_no_clock (env : Env) (n : DateTime) (p : Parser) (s : Str) (h : ¬ UsesClock p s) :
    parseSentence { env with now := n } p s = parseSentence env p s := (clock_case env n p s).2.2 h

/-- Position reports do not use the clock. -/
example : ¬ UsesClock Parser.new (c! "!AIVDM,1,1,,A,13HOI:0,0") := by
  have hs : Single (c! "AI") false (c! "13HOI:0") (c! "!AIVDM,1,1,,A,13HOI:0,0") :=
    ⟨[c! "1", c! "1", [], c! "A", c! "13HOI:0", c! "0"], 1, demoTagged .bare (by decide), demoDec (by decide),
      demoDec (by decide), rfl⟩
  have nog : ∀ t k fs, IsGnss t k fs (c! "!AIVDM,1,1,,A,13HOI:0,0") → ',' ∉ k → False := by
    intro t k fs hg hc
    obtain ⟨fs', _, hp, -⟩ := hs
    exact absurd (IsTagged.unique hg hp (by decide) (by decide) hc (aisKind_noComma _)).1 (by decide)
  intro h
  cases h with
  | gga t fs h => exact nog _ _ _ h (by decide)
  | rmc t fs h => exact nog _ _ _ h (by decide)
  | gll t fs h => exact nog _ _ _ h (by decide)
  | voyage t own pl hd ht =>
    cases hd with
    | single _ h => obtain ⟨-, -, rfl⟩ := hs.unique h; exact absurd ht (by decide)
    | first _ _ _ _ h => exact hs.not_part h
    | second _ _ _ _ h => exact hs.not_part h

end Nmea
