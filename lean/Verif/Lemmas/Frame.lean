/-
Which pending data one call can change.
-/
import Verif.Lemmas.Gsv

namespace Nmea
open Spec

/-- One call, whatever the sentence. -/
inductive CallCase (env : Env) (p : Parser) (s : Str) : Prop where
  | plain (h : (parseSentence env p s).2 = p)
  | ais (talker : Str) (own : Bool) (fs : List Str) (hs : IsAis talker own fs s)
      (h : AisCase env p talker own fs s)
  | gsv (talker : Str) (n k : Nat) (fs : List Str) (hs : GsvPart talker n k fs s)

theorem call_case (env : Env) (p : Parser) (s : Str) : CallCase env p s := by
  cases shape s with
  | corrupted a b h h1 h2 h3 => exact .plain (by rw [h, parse_corrupted env p a b h1 h2 h3])
  | noComma body e hf hs hc =>
    exact .plain (by rw [hs, parse_finish _ _ _ _ hf, parseBody_noComma _ _ _ hc])
  | badTag ty rest e hf hs h1 h2 =>
    exact .plain (by rw [hs, parse_finish _ _ _ _ hf, parseBody_badTag _ _ _ _ h1 h2])
  | oddTag ty rest e hf hs h1 h2 =>
    exact .plain (by rw [hs, parse_finish _ _ _ _ hf, parseBody_oddTag _ _ _ _ h1 h2])
  | dollar talker kind fs hk hc hs =>
    cases eval_gnss env p talker kind fs s hk hc hs with
    | gga _ h => exact .plain (by rw [h])
    | rmc _ h => exact .plain (by rw [h])
    | gsa _ h => exact .plain (by rw [h])
    | vtg _ h => exact .plain (by rw [h])
    | gll _ h => exact .plain (by rw [h])
    | other _ h => obtain ⟨_, h⟩ := h; exact .plain (by rw [h])
    | gsv hk h =>
      subst hk
      cases gsv_case env p talker fs s hs with
      | bad m _ h => exact .plain (by rw [h])
      | part n k hp h => exact .gsv talker n k fs hp
  | bang talker kind fs hk hc hs =>
    cases eval_ais_or_other env p talker kind fs s hk hc hs with
    | other _ h => obtain ⟨_, h⟩ := h; exact .plain (by rw [h])
    | ais own hk' _ =>
      subst hk'
      exact .ais talker own fs hs (ais_case env p talker own fs s hs)

/-! ### Fragments -/

/-- `s` may change the pending fragment stored under `key`. -/
def Touches (s key : Str) : Prop :=
  (∃ talker own num id chan payload, Part talker own num id chan payload s ∧ (num = 1 ∨ num = 2) ∧
      (key = partKey own 1 id chan ∨ key = partKey own 2 id chan)) ∨
  (∃ talker n k fs, GsvPart talker n k fs s ∧ ∃ i, key = gsvKey talker n i)

theorem joinPart_frame (env : Env) (p : Parser) (own : Bool) (st : Station) (mine other pl : Str)
    (comb : Str → Str) (key : Str) (h1 : key ≠ mine) (h2 : key ≠ other) :
    (joinPart env p own st mine other pl comb).2.savedFragments.get key = p.savedFragments.get key := by
  unfold joinPart
  split
  · rw [complete_frags]
    exact KV.get_erase_ne _ _ _ h2
  · show ((p.savedFragments.erase other).insert mine pl).get key = _
    rw [KV.get_insert_ne _ _ _ _ h1, KV.get_erase_ne _ _ _ h2]

theorem frags_frame (env : Env) (p : Parser) (s key : Str) (h : ¬ Touches s key) :
    (parseSentence env p s).2.savedFragments.get key = p.savedFragments.get key := by
  simp only [Touches, not_or] at h
  cases call_case env p s with
  | plain h => rw [h]
  | gsv talker n k fs hs =>
    rw [eval_gsv env p talker n k fs s hs]
    exact gsvStep_frame _ _ _ _ _ _ _ _ (fun i hi => h.2 ⟨talker, n, k, fs, hs, i, hi⟩)
  | ais talker own fs hs hc =>
    cases hc with
    | bad m _ h => rw [h]
    | single pl _ _ h => rw [h, complete_frags]
    | odd n _ _ _ h => rw [h]
    | part1 id hp h' =>
      rw [h']
      refine joinPart_frame _ _ _ _ _ _ _ _ _ (fun e => h.1 ?_) (fun e => h.1 ?_)
      · exact ⟨_, _, _, _, _, _, hp, .inl rfl, .inl e⟩
      · exact ⟨_, _, _, _, _, _, hp, .inl rfl, .inr e⟩
    | part2 id hp h' =>
      rw [h']
      refine joinPart_frame _ _ _ _ _ _ _ _ _ (fun e => h.1 ?_) (fun e => h.1 ?_)
      · exact ⟨_, _, _, _, _, _, hp, .inr rfl, .inr e⟩
      · exact ⟨_, _, _, _, _, _, hp, .inr rfl, .inl e⟩

/-! ### Static data -/

theorem t24Store_frame (v : VesselStaticData) (p : Parser) (m : Nat) (h : m ≠ v.mmsi) :
    (t24Store v p).2.savedVsds.get m = p.savedVsds.get m := by
  simp only [t24Store, Parser.pullVsd, Parser.pushVsd]
  cases p.savedVsds.get v.mmsi with
  | none => simp only []; rw [KV.get_insert_ne _ _ _ _ h, KV.get_erase_ne _ _ _ h]
  | some v2 => simp only []; split <;> exact KV.get_erase_ne _ _ _ h

theorem handleT24_frame (bv : Bits) (st : Station) (own : Bool) (p : Parser) (m : Nat)
    (h : m ≠ pickU64 bv 8 30) : (handleT24 bv st p own).2.savedVsds.get m = p.savedVsds.get m := by
  simp only [handleT24]
  split
  · obtain ⟨v, hv, -, hm, -⟩ := t24Fields_eq bv own true false
    simp only [hv]; exact t24Store_frame _ _ _ (by rwa [hm])
  · obtain ⟨v, hv, -, hm, -⟩ := t24Fields_eq bv own false true
    simp only [hv]; exact t24Store_frame _ _ _ (by rwa [hm])
  · rfl

theorem typeOf_eq (bits : Bits) : pickU64 bits 0 6 = typeOf bits := pickU64_window _ _ _ (by decide)
theorem mmsiOf_eq (bits : Bits) : pickU64 bits 8 30 = mmsiOf bits := pickU64_window _ _ _ (by decide)
theorem partOf_eq (bits : Bits) : pickU64 bits 38 2 = partOf bits := pickU64_window _ _ _ (by decide)

theorem complete_static_frame (env : Env) (own : Bool) (st : Station) (payload : Str) (p : Parser) (m : Nat)
    (h : ¬ (typeOf (payloadBits payload) = 24 ∧ mmsiOf (payloadBits payload) = m)) :
    (complete env own st payload p).2.savedVsds.get m = p.savedVsds.get m := by
  simp only [complete]
  cases hp : parsePayload env.overflowChecks payload with
  | err e => rfl
  | panic => rfl
  | ok bv =>
    have hb := parsePayload_bits _ _ _ hp
    rw [← hb] at h
    rw [← typeOf_eq, ← mmsiOf_eq] at h
    simp only []
    by_cases ht : pickU64 bv 0 6 = 24
    · have e : dispatchAis env ('!' :: aisKind own) bv st own p = handleT24 bv st p own := by
        simp only [dispatchAis, ht]
      rw [e]
      exact handleT24_frame _ _ _ _ _ (fun hm => h ⟨ht, hm.symm⟩)
    · rw [dispatchAis_state _ _ _ _ _ p ht]

theorem complete_nil (env : Env) (own : Bool) (st : Station) (p : Parser) :
    (complete env own st [] p).2 = p := rfl

theorem static_frame (env : Env) (p : Parser) (s : Str) (m : Nat) (h : ¬ CompletesStatic p s m) :
    pendingStatic (parseSentence env p s).2 m = pendingStatic p m := by
  have key : ∀ own payload, Completes p s own payload →
      ¬ (typeOf (payloadBits payload) = 24 ∧ mmsiOf (payloadBits payload) = m) :=
    fun own payload hc ht => h ⟨own, payload, hc, ht⟩
  unfold pendingStatic
  cases call_case env p s with
  | plain h => rw [h]
  | gsv talker n k fs hs => rw [eval_gsv env p talker n k fs s hs, gsvStep_vsds]
  | ais talker own fs hs hc =>
    cases hc with
    | bad m _ h => rw [h]
    | odd n _ _ _ h => rw [h]
    | single pl _ hp h' =>
      rw [h']
      rcases hp with hp | rfl
      · exact complete_static_frame _ _ _ _ _ _ (key _ _ (.single _ _ hp))
      · rw [complete_nil]
    | part1 id hp h' =>
      rw [h', joinPart]
      split
      · rename_i b hb
        exact complete_static_frame _ _ _ _ _ _ (key _ _ (.first _ _ _ _ _ hp hb))
      · rfl
    | part2 id hp h' =>
      rw [h', joinPart]
      split
      · rename_i a ha
        exact complete_static_frame _ _ _ _ _ _ (key _ _ (.second _ _ _ _ _ hp ha))
      · rfl

/-! ### Counting -/

theorem t24Store_count (v : VesselStaticData) (p : Parser) :
    (t24Store v p).2.savedVsds.size ≤ p.savedVsds.size + 1 := by
  have h1 := KV.size_erase_le p.savedVsds v.mmsi
  have h2 := KV.size_insert_le (p.savedVsds.erase v.mmsi) v.mmsi v
  simp only [t24Store, Parser.pullVsd, Parser.pushVsd]
  cases p.savedVsds.get v.mmsi with
  | none => simp only []; omega
  | some v2 => simp only []; split <;> (simp only []; omega)

theorem complete_count (env : Env) (own : Bool) (st : Station) (payload : Str) (p : Parser) :
    (complete env own st payload p).2.savedVsds.size ≤ p.savedVsds.size + 1 := by
  simp only [complete]
  cases hp : parsePayload env.overflowChecks payload with
  | err e => exact Nat.le_succ _
  | panic => exact Nat.le_succ _
  | ok bv =>
    simp only []
    by_cases ht : pickU64 bv 0 6 = 24
    · have e : dispatchAis env ('!' :: aisKind own) bv st own p = handleT24 bv st p own := by
        simp only [dispatchAis, ht]
      rw [e]
      simp only [handleT24]
      split
      · obtain ⟨v, hv, -⟩ := t24Fields_eq bv own true false
        simp only [hv]; exact t24Store_count _ _
      · obtain ⟨v, hv, -⟩ := t24Fields_eq bv own false true
        simp only [hv]; exact t24Store_count _ _
      · exact Nat.le_succ _
    · rw [dispatchAis_state _ _ _ _ _ p ht]
      exact Nat.le_succ _

theorem joinPart_count (env : Env) (p : Parser) (own : Bool) (st : Station) (mine other pl : Str)
    (comb : Str → Str) : pendingCount (joinPart env p own st mine other pl comb).2 ≤ pendingCount p + 1 := by
  have h1 := KV.size_erase_le p.savedFragments other
  have h2 := KV.size_insert_le (p.savedFragments.erase other) mine pl
  unfold joinPart pendingCount Parser.stringsCount Parser.vsdsCount
  split
  · rw [complete_frags]
    have := complete_count env own st (comb (by assumption))
      { p with savedFragments := p.savedFragments.erase other }
    simp only [] at this ⊢
    omega
  · simp only []
    omega

theorem count_step (env : Env) (p : Parser) (s : Str) :
    pendingCount (parseSentence env p s).2 ≤ pendingCount p + 1 := by
  cases call_case env p s with
  | plain h => rw [h]; exact Nat.le_succ _
  | gsv talker n k fs hs =>
    rw [eval_gsv env p talker n k fs s hs]
    have h1 := KV.size_insert_le p.savedFragments (gsvKey talker n k) (join (tag '$' talker (c! "GSV")) fs)
    have h2 := KV.size_eraseAll_le (p.savedFragments.insert (gsvKey talker n k)
      (join (tag '$' talker (c! "GSV")) fs)) ((upTo n).map (gsvKey talker n))
    unfold gsvStep
    split
    · simp only [pendingCount, Parser.stringsCount, Parser.vsdsCount, Parser.pushString]; omega
    · split
      · simp only [pendingCount, Parser.stringsCount, Parser.vsdsCount]; omega
      · simp only [pendingCount, Parser.stringsCount, Parser.vsdsCount, Parser.pushString]; omega
  | ais talker own fs hs hc =>
    cases hc with
    | bad m _ h => rw [h]; exact Nat.le_succ _
    | odd n _ _ _ h => rw [h]; exact Nat.le_succ _
    | single pl _ _ h =>
      rw [h]
      have := complete_count env own (talkerStation talker) pl p
      simp only [pendingCount, Parser.stringsCount, Parser.vsdsCount, complete_frags]
      omega
    | part1 id hp h => rw [h]; exact joinPart_count _ _ _ _ _ _ _ _
    | part2 id hp h => rw [h]; exact joinPart_count _ _ _ _ _ _ _ _

end Nmea
