/-
Timestamps of results, and where pending fragments come from.
-/
import Verif.Lemmas.Clock
import Verif.Lemmas.Format

namespace Nmea
open Spec

/-! ### Timestamps are valid -/

theorem timeField_valid {now : DateTime} {s : Str} {t : Option DateTime} (h : TimeField now s t) :
    ∀ x ∈ t.toList, IsDateTime x := by
  rcases h with ⟨a, b, c, -, hv, rfl⟩ | ⟨-, rfl⟩
  · simpa using hv
  · simp

theorem dateTimeField_valid {now : DateTime} {d s : Str} {t : Option DateTime} (h : DateTimeField now d s t) :
    ∀ x ∈ t.toList, IsDateTime x := by
  rcases h with ⟨a, b, c, _, _, _, -, hv, rfl⟩ | ⟨-, rfl⟩
  · simpa using hv
  · simp

theorem partData_eta (own : Bool) (bits : Bits) : (partData own bits).eta = none := by
  unfold partData; split <;> rfl

theorem handleT24_times (env : Env) (own : Bool) (st : Station) (payload : Str) (q : Parser) (hg : GoodStatic q)
    (hr : Readable env payload) (ht : typeOf (payloadBits payload) = 24) (r : ParsedSentence)
    (h : (complete env own st payload q).1 = .ok r) : timesOf r = [] := by
  rw [complete_24 env own st payload q hr ht] at h
  split at h
  · have hm := partData_mmsi own (payloadBits payload)
    cases hp : q.savedVsds.get (mmsiOf (payloadBits payload)) with
    | none =>
      rw [(t24Store_none _ _ (by rw [hm]; exact hp)).1] at h
      cases h; rfl
    | some w =>
      obtain ⟨own', b', rfl, -, -, hb'⟩ := hg _ w hp
      rw [(t24Store_some _ _ _ _ (by rw [hm]; exact hp) (merge_overlay own own' _ b' hb'.symm)).1] at h
      cases h
      simp [timesOf, overlay, partData_eta]
  · cases h

theorem dispatchAis_times (env : Env) (ty : Str) (bits : Bits) (st : Station) (own : Bool) (p : Parser)
    (ht : typeOf bits ≠ 24) (r : ParsedSentence) (h : (dispatchAis env ty bits st own p).1 = .ok r) :
    ∀ t ∈ timesOf r, IsDateTime t := by
  rw [← typeOf_eq] at ht
  simp only [dispatchAis] at h
  generalize pickU64 bits 0 6 = n at h ht
  have no : timesOf r = [] → ∀ t ∈ timesOf r, IsDateTime t := fun e => by rw [e]; simp
  split at h
  case h_4 =>
    unfold handleT4 at h
    rw [station_eval] at h
    by_cases hv : IsDateTime (stationTime bits)
    · rw [if_pos hv] at h
      cases h
      simpa [timesOf] using hv
    · rw [if_neg hv] at h
      cases h
  case h_5 =>
    simp only [handleT5, liftErr_pickString, Out.ok_bind, eta_eval] at h
    by_cases ha : EtaAbsent (arrivalAt bits)
    · rw [if_pos ha] at h
      cases h
      exact no rfl
    · rw [if_neg ha] at h
      by_cases hv : IsDateTime (etaCandidate env.now (arrivalAt bits))
      · rw [if_pos hv] at h
        cases h
        simpa [timesOf] using hv
      · rw [if_neg hv] at h
        cases h
  case h_11 =>
    simp only [handleT21, liftErr_pickString, Out.ok_bind] at h
    cases h
    exact no rfl
  case h_12 => exact absurd rfl ht
  all_goals first | (cases h; done) | (cases h; exact no rfl)

theorem complete_times (env : Env) (own : Bool) (st : Station) (payload : Str) (q : Parser) (hg : GoodStatic q)
    (r : ParsedSentence) (h : (complete env own st payload q).1 = .ok r) : ∀ t ∈ timesOf r, IsDateTime t := by
  by_cases hr : Readable env payload
  · by_cases ht : typeOf (payloadBits payload) = 24
    · rw [handleT24_times env own st payload q hg hr ht r h]; simp
    · simp only [complete, parsePayload_readable env payload hr] at h
      exact dispatchAis_times _ _ _ _ _ _ ht r h
  · have := (complete_panic env own st payload q).mpr (.inl hr)
    rw [this] at h
    cases h

theorem times_valid (env : Env) (p : Parser) (hg : GoodStatic p) (s : Str) (r : ParsedSentence)
    (h : (parseSentence env p s).1 = .ok r) : ∀ t ∈ timesOf r, IsDateTime t := by
  have no : timesOf r = [] → ∀ t ∈ timesOf r, IsDateTime t := fun e => by rw [e]; simp
  cases shape s with
  | corrupted a b h' h1 h2 h3 => rw [h', parse_corrupted env p a b h1 h2 h3] at h; cases h
  | noComma body e hf hs hc => rw [hs, parse_finish _ _ _ _ hf, parseBody_noComma _ _ _ hc] at h; cases h
  | badTag ty rest e hf hs h1 h2 => rw [hs, parse_finish _ _ _ _ hf, parseBody_badTag _ _ _ _ h1 h2] at h; cases h
  | oddTag ty rest e hf hs h1 h2 => rw [hs, parse_finish _ _ _ _ hf, parseBody_oddTag _ _ _ _ h1 h2] at h; cases h
  | dollar talker kind fs hk hc hs =>
    cases eval_gnss env p talker kind fs s hk hc hs with
    | gga hk _ =>
      subst hk
      obtain ⟨d, rfl, hd⟩ := (gga_ok env p talker fs s hs r).mp h
      exact timeField_valid hd.timestamp
    | rmc hk _ =>
      subst hk
      obtain ⟨d, rfl, hd⟩ := (rmc_ok env p talker fs s hs r).mp h
      exact dateTimeField_valid hd.timestamp
    | gsa hk _ =>
      subst hk
      obtain ⟨d, rfl, hd⟩ := (gsa_ok env p talker fs s hs r).mp h
      exact no rfl
    | vtg hk _ =>
      subst hk
      obtain ⟨d, hd, -⟩ := vtg_ok env p talker fs s hs
      rw [h] at hd
      cases hd
      exact no rfl
    | gll hk _ =>
      subst hk
      obtain ⟨d, rfl, hd⟩ := (gll_ok env p talker fs s hs r).mp h
      exact timeField_valid hd.timestamp
    | other _ h' => obtain ⟨_, h'⟩ := h'; rw [h'] at h; cases h
    | gsv hk h' =>
      subst hk
      cases gsv_case env p talker fs s hs with
      | bad m _ h' => rw [h'] at h; cases h
      | part n k hp h' =>
        rw [h', gsvStep] at h
        split at h
        · split at h
          · cases h
          · cases h; exact no rfl
        · split at h
          · cases h; exact no rfl
          · cases h; exact no rfl
  | bang talker kind fs hk hc hs =>
    cases eval_ais_or_other env p talker kind fs s hk hc hs with
    | other _ h' => obtain ⟨_, h'⟩ := h'; rw [h'] at h; cases h
    | ais own hk' _ =>
      subst hk'
      cases ais_case env p talker own fs s hs with
      | bad m _ h' => rw [h'] at h; cases h
      | odd n _ _ _ h' => rw [h'] at h; cases h; exact no rfl
      | single pl _ hp h' => rw [h'] at h; exact complete_times _ _ _ _ _ hg r h
      | part1 id hp h' =>
        rw [h', joinPart] at h
        split at h
        · exact complete_times _ _ _ _ { p with savedFragments := p.savedFragments.erase _ } hg r h
        · cases h; exact no rfl
      | part2 id hp h' =>
        rw [h', joinPart] at h
        split at h
        · exact complete_times _ _ _ _ { p with savedFragments := p.savedFragments.erase _ } hg r h
        · cases h; exact no rfl

/-! ### Where pending fragments come from -/

theorem joinPart_source (env : Env) (p : Parser) (own : Bool) (st : Station) (mine other pl : Str)
    (comb : Str → Str) (k b : Str)
    (h : (joinPart env p own st mine other pl comb).2.savedFragments.get k = some b) :
    p.savedFragments.get k = some b ∨ (k = mine ∧ b = pl) := by
  by_cases hk : k = mine
  · unfold joinPart at h
    split at h
    · rw [complete_frags] at h
      by_cases ho : k = other
      · subst ho
        rw [KV.get_erase_self] at h
        cases h
      · rw [KV.get_erase_ne _ _ _ ho] at h
        exact .inl h
    · subst hk
      rw [KV.get_insert_self] at h
      exact .inr ⟨rfl, (Option.some.inj h).symm⟩
  · unfold joinPart at h
    have e : ∀ {x : Option Str}, (p.savedFragments.erase other).get k = x → x = some b → p.savedFragments.get k = some b := by
      intro x hx hb
      by_cases ho : k = other
      · subst ho
        rw [KV.get_erase_self] at hx
        rw [← hx] at hb
        cases hb
      · rw [KV.get_erase_ne _ _ _ ho] at hx
        rw [hx, hb]
    split at h
    · rw [complete_frags] at h
      exact .inl (e rfl h)
    · rw [KV.get_insert_ne _ _ _ _ hk] at h
      exact .inl (e rfl h)

theorem part_source (env : Env) (p : Parser) (s : Str) (own : Bool) (num id : Nat) (chan b : Str)
    (h : pendingPart (parseSentence env p s).2 own num id chan = some b) :
    pendingPart p own num id chan = some b ∨ ∃ talker, Part talker own num id chan b s := by
  simp only [pendingPart] at h ⊢
  cases call_case env p s with
  | plain h' => rw [h'] at h; exact .inl h
  | gsv talker n k fs hs =>
    rw [eval_gsv env p talker n k fs s hs, gsvStep_frame _ _ _ _ _ _ _ _ (fun i => partKey_ne_gsvKey _ _ _ _ _ _ _)] at h
    exact .inl h
  | ais talker own' fs hs hc =>
    cases hc with
    | bad m _ h' => rw [h'] at h; exact .inl h
    | odd n _ _ _ h' => rw [h'] at h; exact .inl h
    | single pl _ hp h' => rw [h', complete_frags] at h; exact .inl h
    | part1 id' hp h' =>
      rw [h'] at h
      rcases joinPart_source _ _ _ _ _ _ _ _ _ _ h with h | ⟨hk, rfl⟩
      · exact .inl h
      · obtain ⟨rfl, rfl, rfl, rfl⟩ := partKey_inj hk
        exact .inr ⟨talker, hp⟩
    | part2 id' hp h' =>
      rw [h'] at h
      rcases joinPart_source _ _ _ _ _ _ _ _ _ _ h with h | ⟨hk, rfl⟩
      · exact .inl h
      · obtain ⟨rfl, rfl, rfl, rfl⟩ := partKey_inj hk
        exact .inr ⟨talker, hp⟩

theorem gsv_source (env : Env) (p : Parser) (s talker : Str) (n k : Nat) (b : Str) (ht : ',' ∉ talker)
    (h : pendingGsv (parseSentence env p s).2 talker n k = some b) :
    pendingGsv p talker n k = some b ∨
      ∃ fs, GsvPart talker n k fs s ∧ b = join (tag '$' talker (c! "GSV")) fs := by
  simp only [pendingGsv] at h ⊢
  have nopart : ∀ own st mine other pl comb, (∀ i, gsvKey talker n i ≠ mine) → (joinPart env p own st mine other pl comb).2.savedFragments.get (gsvKey talker n k) = some b →
      p.savedFragments.get (gsvKey talker n k) = some b := by
    intro own st mine other pl comb hne h
    rcases joinPart_source _ _ _ _ _ _ _ _ _ _ h with h | ⟨hk, -⟩
    · exact h
    · exact absurd hk (hne k)
  cases call_case env p s with
  | plain h' => rw [h'] at h; exact .inl h
  | gsv talker' n' k' fs hs =>
    by_cases hg : talker = talker' ∧ n = n'
    · obtain ⟨rfl, rfl⟩ := hg
      rw [eval_gsv env p talker n k' fs s hs, gsvStep] at h
      have ins : (p.savedFragments.insert (gsvKey talker n k') (join (tag '$' talker (c! "GSV")) fs)).get (gsvKey talker n k) = some b →
          p.savedFragments.get (gsvKey talker n k) = some b ∨
            ∃ fs, GsvPart talker n k fs s ∧ b = join (tag '$' talker (c! "GSV")) fs := by
        intro h
        by_cases hk : k = k'
        · subst hk
          rw [KV.get_insert_self] at h
          exact .inr ⟨fs, hs, (Option.some.inj h).symm⟩
        · rw [KV.get_insert_ne _ _ _ _ (fun e => hk (gsvKey_inj ht ht e).2.2)] at h
          exact .inl h
      split at h
      · exact ins h
      · split at h
        · rw [KV.get_eraseAll] at h
          split at h
          · cases h
          · exact ins h
        · exact ins h
    · rw [eval_gsv env p talker' n' k' fs s hs, gsvStep_frame] at h
      · exact .inl h
      · exact fun i e => hg ⟨(gsvKey_inj ht hs.1.1.2 e).1, (gsvKey_inj ht hs.1.1.2 e).2.1⟩
  | ais talker' own' fs hs hc =>
    cases hc with
    | bad m _ h' => rw [h'] at h; exact .inl h
    | odd n _ _ _ h' => rw [h'] at h; exact .inl h
    | single pl _ hp h' => rw [h', complete_frags] at h; exact .inl h
    | part1 id' hp h' =>
      rw [h'] at h
      exact .inl (nopart _ _ _ _ _ _ (fun i => (partKey_ne_gsvKey _ _ _ _ _ _ _).symm) h)
    | part2 id' hp h' =>
      rw [h'] at h
      exact .inl (nopart _ _ _ _ _ _ (fun i => (partKey_ne_gsvKey _ _ _ _ _ _ _).symm) h)

theorem static_source (env : Env) (p : Parser) (s : Str) (hg : GoodStatic p) (m : Nat) (v : VesselStaticData)
    (h : pendingStatic (parseSentence env p s).2 m = some v) :
    pendingStatic p m = some v ∨ ∃ own bits, Completes24 env p s own bits ∧ mmsiOf bits = m ∧ partOf bits < 2 ∧
      v = partData own bits := by
  by_cases hc : CompletesStatic p s m
  · obtain ⟨own, payload, hc, ht, rfl⟩ := hc
    by_cases hr : Readable env payload
    · have h24 : Completes24 env p s own (payloadBits payload) := ⟨payload, hc, hr, rfl, ht⟩
      obtain ⟨e1, e2, e3⟩ := eval_24 env p s own _ h24
      by_cases h2 : partOf (payloadBits payload) < 2
      · cases hp : pendingStatic p (mmsiOf (payloadBits payload)) with
        | none =>
          rw [(e2 h2 hp).2] at h
          exact .inr ⟨own, _, h24, rfl, h2, (Option.some.inj h).symm⟩
        | some w =>
          obtain ⟨own', b', rfl, -, -, hb'⟩ := hg _ w hp
          rw [(e3 h2 _ _ hp (merge_overlay own own' _ b' hb'.symm)).2] at h
          cases h
      · rw [(e1 (by omega)).2] at h
        exact .inl h
    · left
      obtain ⟨st, q, hq, he⟩ := eval_completes env p s own payload hc
      have : (complete env own st payload q).2 = q := by
        simp only [complete]
        cases hp : parsePayload env.overflowChecks payload with
        | err e => rfl
        | panic => rfl
        | ok bv => exact absurd (readable_of_ok env payload bv hp) hr
      rw [pendingStatic, he, this, hq] at h
      exact h
  · rw [static_frame env p s m hc] at h
    exact .inl h

theorem rmc_time (now : DateTime) (d mo y h m x : Nat) (rest : Str) (hy : y < 100)
    (hv : IsDateTime ⟨centuryOf now.year + y, mo, d, h, m, x⟩) :
    DateTimeField now (dateText d mo y) (timeText h m x ++ rest) (some ⟨centuryOf now.year + y, mo, d, h, m, x⟩) := by
  have hl : (timeText h m x).length = 6 := by simp [timeText, pad]
  have e : ∀ i, i ≤ 4 → pair (timeText h m x ++ rest) i = pair (timeText h m x) i := by
    intro i hi
    unfold pair
    rw [List.drop_append_of_le_length (by omega), List.take_append_of_le_length (by simp; omega)]
  have := (dateTime_field now d mo y h m x hy hv _).mpr rfl
  unfold DateTimeField ReadDateTime at this ⊢
  rw [e 0 (by decide), e 2 (by decide), e 4 (by decide)]
  exact this

theorem hms_time (now : DateTime) (hnow : IsDateTime now) (h m x : Nat) (rest : Str) (ht : IsTime h m x) :
    TimeField now (timeText h m x ++ rest) (some ⟨now.year, now.month, now.day, h, m, x⟩) := by
  refine .inl ⟨h, m, x, ?_, ⟨hnow.1, hnow.2.1, ht⟩, rfl⟩
  refine .time (pad 2 h) (pad 2 m) (pad 2 x) rest h m x (by simp [timeText]) ⟨pad_byteLen _ _, pad_byteLen _ _, pad_byteLen _ _⟩ ?_
  obtain ⟨h1, h2, h3⟩ := ht
  exact ⟨pad_dec 2 h _ (by decide) (by omega) (by omega), pad_dec 2 m _ (by decide) (by omega) (by omega),
    pad_dec 2 x _ (by decide) (by omega) (by omega)⟩

end Nmea
