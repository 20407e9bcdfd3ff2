/-
Where successful results come from.
-/
import Verif.Lemmas.Fields

namespace Nmea
open Spec

theorem eval_payload (env : Env) (p : Parser) (s talker : Str) (own : Bool) (payload : Str)
    (h : Delivers p s talker own payload) : ∃ q, q.savedVsds = p.savedVsds ∧
      parseSentence env p s = complete env own (talkerStation talker) payload q := by
  cases h with
  | single _ h => exact ⟨p, rfl, by rw [← stationOf_eq]; exact eval_Single env p talker own _ s h⟩
  | first id chan a b h hb =>
    refine ⟨{ p with savedFragments := p.savedFragments.erase (partKey own 2 id chan) }, rfl, ?_⟩
    rw [eval_part1 env p talker own id chan a s h, joinPart,
      show p.savedFragments.get (partKey own 2 id chan) = some b from hb]
  | second id chan a b h ha =>
    refine ⟨{ p with savedFragments := p.savedFragments.erase (partKey own 1 id chan) }, rfl, ?_⟩
    rw [eval_part2 env p talker own id chan b s h, joinPart,
      show p.savedFragments.get (partKey own 1 id chan) = some a from ha]

theorem eval_readable (env : Env) (p : Parser) (s talker : Str) (own : Bool) (payload : Str)
    (h : Delivers p s talker own payload) (hr : Readable env payload) : ∃ q, q.savedVsds = p.savedVsds ∧
      parseSentence env p s =
        dispatchAis env ('!' :: aisKind own) (payloadBits payload) (talkerStation talker) own q := by
  obtain ⟨q, h1, h2⟩ := eval_payload env p s talker own payload h
  refine ⟨q, h1, ?_⟩
  rw [h2, complete, parsePayload_readable env payload hr]

theorem readable_of_ok (env : Env) (payload : Str) (bv : Bits)
    (h : parsePayload env.overflowChecks payload = .ok bv) : Readable env payload := by
  unfold Readable
  intro ho
  rw [ho] at h
  clear ho
  induction payload generalizing bv with
  | nil => simp
  | cons c cs ih =>
    simp only [parsePayload] at h
    intro x hx
    rcases List.mem_cons.mp hx with rfl | hx
    · by_contra hlt
      have hc : charAsU8 x = x.toNat % 256 := rfl
      have : armorValue true x = .panic := by
        simp only [armorValue, hc]
        rw [if_pos (by omega)]; exact if_pos trivial
      rw [this] at h
      cases h
    · cases hc : armorValue true c with
      | err e => rw [hc] at h; cases h
      | panic => rw [hc] at h; cases h
      | ok v =>
        rw [hc] at h
        cases hp : parsePayload true cs with
        | err e => rw [hp] at h; cases h
        | panic => rw [hp] at h; cases h
        | ok b => exact ih b hp x hx

/-- Results of GNSS sentences, and of sentences that complete nothing. -/
def NotAis : ParsedSentence → Prop
  | .incomplete => True
  | .gga _ | .rmc _ | .gsa _ | .gsv _ | .vtg _ | .gll _ => True
  | _ => False

/-- A successful result that is not of a GNSS kind comes from a readable AIS message. -/
theorem ais_origin (env : Env) (p : Parser) (s : Str) (r : ParsedSentence)
    (h : (parseSentence env p s).1 = .ok r) (hr : ¬ NotAis r) :
    ∃ talker own payload, Delivers p s talker own payload ∧ Readable env payload := by
  have key : ∀ own st payload q, (complete env own st payload q).1 = .ok r → Readable env payload ∧ payload ≠ [] := by
    intro own st payload q hc
    simp only [complete] at hc
    cases hp : parsePayload env.overflowChecks payload with
    | err e => rw [hp] at hc; cases hc; exact absurd trivial hr
    | panic => rw [hp] at hc; cases hc
    | ok bv =>
      refine ⟨readable_of_ok env payload bv hp, ?_⟩
      rintro rfl
      cases hp
      have e : parsePayload env.overflowChecks [] = .ok [] := rfl
      rw [e] at hc
      exact absurd hc (by simp [dispatchAis, pickU64, List.range'])
  cases shape s with
  | corrupted a b h' h1 h2 h3 => rw [h', parse_corrupted env p a b h1 h2 h3] at h; cases h
  | noComma body e hf hs hc =>
    rw [hs, parse_finish _ _ _ _ hf, parseBody_noComma _ _ _ hc] at h; cases h
  | badTag ty rest e hf hs h1 h2 =>
    rw [hs, parse_finish _ _ _ _ hf, parseBody_badTag _ _ _ _ h1 h2] at h; cases h
  | oddTag ty rest e hf hs h1 h2 =>
    rw [hs, parse_finish _ _ _ _ hf, parseBody_oddTag _ _ _ _ h1 h2] at h; cases h
  | dollar talker kind fs hk hc hs =>
    cases eval_gnss env p talker kind fs s hk hc hs with
    | gga _ h' => rw [h'] at h; obtain ⟨d, rfl, -⟩ := handleGga_ok _ _ _ _ h; exact absurd trivial hr
    | rmc _ h' => rw [h'] at h; obtain ⟨d, rfl, -⟩ := handleRmc_ok _ _ _ _ h; exact absurd trivial hr
    | gsa _ h' => rw [h'] at h; obtain ⟨d, rfl, -⟩ := handleGsa_ok _ _ _ h; exact absurd trivial hr
    | vtg _ h' => rw [h'] at h; cases h; exact absurd trivial hr
    | gll _ h' => rw [h'] at h; obtain ⟨d, rfl, -⟩ := handleGll_ok _ _ _ _ h; exact absurd trivial hr
    | other _ h' => obtain ⟨_, h'⟩ := h'; rw [h'] at h; cases h
    | gsv hk h' =>
      rw [h'] at h
      rcases handleGsv_ok _ _ _ _ _ _ (Prod.ext h rfl) with rfl | ⟨l, rfl, -⟩ <;> exact absurd trivial hr
  | bang talker kind fs hk hc hs =>
    cases eval_ais_or_other env p talker kind fs s hk hc hs with
    | other _ h' => obtain ⟨_, h'⟩ := h'; rw [h'] at h; cases h
    | ais own hk' _ =>
      subst hk'
      cases ais_case env p talker own fs s hs with
      | bad m _ h' => rw [h'] at h; cases h
      | odd n _ _ _ h' => rw [h'] at h; cases h; exact absurd trivial hr
      | single pl _ hp h' =>
        rw [h'] at h
        obtain ⟨k1, k2⟩ := key _ _ _ _ h
        rcases hp with hp | hp
        · exact ⟨_, _, _, .single _ hp, k1⟩
        · exact absurd hp k2
      | part1 id hp h' =>
        rw [h', joinPart] at h
        split at h
        · rename_i b hb
          exact ⟨_, _, _, .first _ _ _ _ hp hb, (key _ _ _ _ h).1⟩
        · cases h; exact absurd trivial hr
      | part2 id hp h' =>
        rw [h', joinPart] at h
        split at h
        · rename_i a ha
          exact ⟨_, _, _, .second _ _ _ _ hp ha, (key _ _ _ _ h).1⟩
        · cases h; exact absurd trivial hr

end Nmea
