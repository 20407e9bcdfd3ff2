/-
Which calls panic.
-/
import Verif.Spec.Panic
import Verif.Lemmas.GnssOutcome
import Verif.Lemmas.Values

namespace Nmea
open Spec

theorem window_append (bv : Bits) (i a b : Nat) : window bv i (a + b) = window bv i a ++ window bv (i + a) b := by
  rw [← bitsAt_range', ← bitsAt_range', ← bitsAt_range', bitsAt, bitsAt, bitsAt, ← List.map_append, List.range'_append_1]

theorem draught_top (bits : Bits) : pickU64 bits 294 6 = bitsVal (window bits 294 8) / 4 := by
  rw [pickU64_window _ _ _ (by decide), show (8 : Nat) = 6 + 2 from rfl, window_append, bitsVal_append]
  have h := bitsVal_lt (window bits (294 + 6) 2)
  simp only [length_window] at h ⊢
  omega

theorem eta_eval (now : DateTime) (bits : Bits) :
    pickEta now bits 274 = if EtaAbsent (arrivalAt bits) then .ok none
      else if IsDateTime (etaCandidate now (arrivalAt bits)) then .ok (some (etaCandidate now (arrivalAt bits)))
      else .panic := by
  refine eta_spec now bits (arrivalAt bits) ⟨num_lt bits 274 4, num_lt bits 278 5, num_lt bits 283 5, num_lt bits 288 6, num_lt bits 294 8⟩
    ?_ ?_ ?_ ?_ (draught_top bits) <;> exact pickU64_window _ _ _ (by decide)

theorem station_eval {ε : Type} (bits : Bits) :
    ymdHms (ε := ε) (asI32 (pickU64 bits 38 14 : Nat)) (asU32 (pickU64 bits 52 4)) (asU32 (pickU64 bits 56 5))
      (asU32 (pickU64 bits 61 5)) (asU32 (pickU64 bits 66 6)) (asU32 (pickU64 bits 72 6)) =
    if IsDateTime (stationTime bits) then .ok (stationTime bits) else .panic := by
  have h1 := pickU64_lt bits 38 14 (by decide)
  have h2 := pickU64_lt bits 52 4 (by decide)
  have h3 := pickU64_lt bits 56 5 (by decide)
  have h4 := pickU64_lt bits 61 5 (by decide)
  have h5 := pickU64_lt bits 66 6 (by decide)
  have h6 := pickU64_lt bits 72 6 (by decide)
  have e1 : asI32 (pickU64 bits 38 14 : Nat) = (pickU64 bits 38 14 : Nat) := by
    unfold asI32; exact Int.bmod_eq_of_le (by omega) (by omega)
  rw [e1, asU32_lt _ (by omega), asU32_lt _ (by omega), asU32_lt _ (by omega), asU32_lt _ (by omega), asU32_lt _ (by omega)]
  have e : stationTime bits = ⟨(pickU64 bits 38 14 : Nat), pickU64 bits 52 4, pickU64 bits 56 5, pickU64 bits 61 5,
      pickU64 bits 66 6, pickU64 bits 72 6⟩ := by
    unfold stationTime
    simp only [pickU64_window _ _ 14 (by decide), pickU64_window _ _ 4 (by decide), pickU64_window _ _ 5 (by decide),
      pickU64_window _ _ 6 (by decide)]
  rw [e]
  split
  · rename_i h; exact ymdHms_ok _ _ _ _ _ _ h
  · rename_i h; exact ymdHms_panic _ _ _ _ _ _ h

theorem handleT4_panic (bits : Bits) (st : Station) (own : Bool) :
    handleT4 bits st own = .panic ↔ ¬ IsDateTime (stationTime bits) := by
  unfold handleT4
  rw [station_eval]
  by_cases h : IsDateTime (stationTime bits)
  · rw [if_pos h]; simp [h]
  · rw [if_neg h]; simp [h]

theorem handleT5_panic (now : DateTime) (bits : Bits) (st : Station) (own : Bool) :
    handleT5 now bits st own = .panic ↔
      ¬ EtaAbsent (arrivalAt bits) ∧ ¬ IsDateTime (etaCandidate now (arrivalAt bits)) := by
  simp only [handleT5, liftErr_pickString, Out.ok_bind, eta_eval]
  by_cases h : EtaAbsent (arrivalAt bits)
  · rw [if_pos h]; simp [h, liftErr]
  · rw [if_neg h]
    by_cases h2 : IsDateTime (etaCandidate now (arrivalAt bits))
    · rw [if_pos h2]; simp [h2, liftErr]
    · rw [if_neg h2]; simp [h, h2, liftErr]

theorem handleT21_ne_panic (bits : Bits) (st : Station) (own : Bool) : handleT21 bits st own ≠ .panic := by
  simp [handleT21, liftErr_pickString, Out.ok_bind]

theorem handleT24_ne_panic (bits : Bits) (st : Station) (own : Bool) (p : Parser) :
    (handleT24 bits st p own).1 ≠ .panic := by
  have store : ∀ v, (t24Store v p).1 ≠ .panic := by
    intro v
    simp only [t24Store, Parser.pullVsd]
    cases p.savedVsds.get v.mmsi with
    | none => simp
    | some w =>
      simp only []
      cases hm : v.merge w with
      | ok m => simp [liftErr]
      | err e => simp [liftErr]
      | panic => exact absurd hm (merge_ne_panic _ _)
  have go : ∀ a b, (match t24Fields bits own a b with
      | .ok vsd => t24Store vsd p
      | .err e => (.err e, p)
      | .panic => (.panic, p)).1 ≠ .panic := by
    intro a b
    obtain ⟨v, hv, -⟩ := t24Fields_eq bits own a b
    rw [hv]
    exact store v
  simp only [handleT24]
  split
  · exact go _ _
  · exact go _ _
  · simp

theorem dispatchAis_panic (env : Env) (ty : Str) (bits : Bits) (st : Station) (own : Bool) (p : Parser) :
    (dispatchAis env ty bits st own p).1 = .panic ↔ BadMessage env.now bits := by
  unfold BadMessage
  rw [← typeOf_eq]
  simp only [dispatchAis]
  generalize pickU64 bits 0 6 = t
  split
  case h_4 => simp [handleT4_panic]
  case h_5 => simp [handleT5_panic]
  case h_11 => simp [handleT21_ne_panic]
  case h_12 => simp [handleT24_ne_panic]
  case h_14 => simp_all
  all_goals simp [handleT123, handleT6, handleT9, handleT10, handleT18, handleT19, handleT27]

theorem complete_panic (env : Env) (own : Bool) (st : Station) (payload : Str) (p : Parser) :
    (complete env own st payload p).1 = .panic ↔
      ¬ Readable env payload ∨ (Readable env payload ∧ BadMessage env.now (payloadBits payload)) := by
  by_cases hr : Readable env payload
  · simp only [complete, parsePayload_readable env payload hr, dispatchAis_panic]
    simp [hr]
  · simp only [hr, not_false_eq_true, true_or, iff_true]
    simp only [complete]
    cases hp : parsePayload env.overflowChecks payload with
    | err e => exact absurd hp (parsePayload_ne_err _ _ _)
    | panic => rfl
    | ok bv => exact absurd (readable_of_ok env payload bv hp) hr

theorem gsvStep_panic (oc : Bool) (nav : NavigationSystem) (talker : Str) (n k : Nat) (body : Str) (p : Parser) :
    (gsvStep oc nav talker n k body p).1 = .panic ↔ n = 2 ^ 32 - 1 ∧ oc = true := by
  unfold gsvStep
  by_cases h : n = 2 ^ 32 - 1
  · rw [if_pos h]
    cases oc <;> simp [h]
  · rw [if_neg h]
    split <;> exact iff_of_false (by simp) (fun h' => h h'.1)

theorem delivers_panic {env : Env} {p : Parser} {s talker : Str} {own : Bool} {payload : Str}
    (hd : Delivers p s talker own payload)
    (h : ¬ Readable env payload ∨ (Readable env payload ∧ BadMessage env.now (payloadBits payload))) :
    Panics env p s := by
  rcases h with h | ⟨h1, h2⟩
  · exact .payload talker own payload hd h
  · exact .message talker own payload hd h1 h2

theorem badMessage_nil (now : DateTime) : ¬ BadMessage now (payloadBits []) := by
  unfold BadMessage
  rw [show typeOf (payloadBits []) = 0 by decide]
  simp

theorem panics_of (env : Env) (p : Parser) (s : Str) (h : (parseSentence env p s).1 = .panic) : Panics env p s := by
  cases shape s with
  | corrupted a b h' h1 h2 h3 => rw [h', parse_corrupted env p a b h1 h2 h3] at h; cases h
  | noComma body e hf hs hc =>
    rw [hs, parse_finish _ _ _ _ hf, parseBody_noComma _ _ _ hc] at h; cases h
  | badTag ty rest e hf hs h1 h2 => exact .tag ty rest e hf hs h1 h2
  | oddTag ty rest e hf hs h1 h2 =>
    rw [hs, parse_finish _ _ _ _ hf, parseBody_oddTag _ _ _ _ h1 h2] at h; cases h
  | dollar talker kind fs hk hc hs =>
    cases eval_gnss env p talker kind fs s hk hc hs with
    | gga hk _ => subst hk; exact .gga talker fs hs ((gga_panic env p talker fs s hs).mp h)
    | rmc hk _ => subst hk; exact .rmc talker fs hs ((rmc_panic env p talker fs s hs).mp h)
    | gsa hk _ => subst hk; exact absurd h (gsa_not_panic env p talker fs s hs)
    | vtg _ h' => rw [h'] at h; cases h
    | gll hk _ =>
      subst hk
      obtain ⟨h1, h2⟩ := (gll_panic env p talker fs s hs).mp h
      exact .gll talker fs hs h1 h2
    | other _ h' => obtain ⟨_, h'⟩ := h'; rw [h'] at h; cases h
    | gsv hk h' =>
      subst hk
      cases gsv_case env p talker fs s hs with
      | bad m _ h' => rw [h'] at h; cases h
      | part n k hp h' =>
        rw [h', gsvStep_panic] at h
        obtain ⟨rfl, ho⟩ := h
        exact .gsv talker k fs hp ho
  | bang talker kind fs hk hc hs =>
    cases eval_ais_or_other env p talker kind fs s hk hc hs with
    | other _ h' => obtain ⟨_, h'⟩ := h'; rw [h'] at h; cases h
    | ais own hk' _ =>
      subst hk'
      cases ais_case env p talker own fs s hs with
      | bad m _ h' => rw [h'] at h; cases h
      | odd n _ _ _ h' => rw [h'] at h; cases h
      | single pl _ hp h' =>
        rw [h', complete_panic] at h
        rcases hp with hp | hp
        · exact delivers_panic (.single _ hp) h
        · subst hp
          rcases h with h | ⟨_, h⟩
          · exact absurd (fun _ c hc => by cases hc) h
          · exact absurd h (badMessage_nil _)
      | part1 id hp h' =>
        rw [h', joinPart] at h
        split at h
        · rename_i b hb
          exact delivers_panic (.first _ _ _ _ hp hb) ((complete_panic _ _ _ _ _).mp h)
        · cases h
      | part2 id hp h' =>
        rw [h', joinPart] at h
        split at h
        · rename_i a ha
          exact delivers_panic (.second _ _ _ _ hp ha) ((complete_panic _ _ _ _ _).mp h)
        · cases h

theorem panic_of (env : Env) (p : Parser) (s : Str) (h : Panics env p s) : (parseSentence env p s).1 = .panic := by
  cases h with
  | tag ty rest e hf hs hc hb => rw [hs, parse_finish _ _ _ _ hf, parseBody_badTag _ _ _ _ hc hb]
  | gga talker fs hs ht => exact (gga_panic env p talker fs s hs).mpr ht
  | rmc talker fs hs ht => exact (rmc_panic env p talker fs s hs).mpr ht
  | gll talker fs hs hr ht => exact (gll_panic env p talker fs s hs).mpr ⟨hr, ht⟩
  | gsv talker k fs hs ho =>
    rw [eval_gsv env p talker _ k fs s hs, gsvStep_panic]
    exact ⟨rfl, ho⟩
  | payload talker own payload hd hr =>
    obtain ⟨q, -, he⟩ := eval_payload env p s talker own payload hd
    rw [he, complete_panic]
    exact .inl hr
  | message talker own payload hd hr hb =>
    obtain ⟨q, -, he⟩ := eval_payload env p s talker own payload hd
    rw [he, complete_panic]
    exact .inr ⟨hr, hb⟩

end Nmea
