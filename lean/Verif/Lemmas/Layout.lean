/-
The handlers look only at a prefix of the message.
-/
import Verif.Lemmas.Text
import Verif.Lemmas.Armor
import Verif.Spec.Ais

namespace Nmea
open Spec

theorem window_sub (bv bv' : Bits) (L i len : Nat) (h : window bv 0 L = window bv' 0 L) (hi : i + len ≤ L) :
    window bv i len = window bv' i len := by
  have sub : ∀ (bv : Bits), window bv i len = ((window bv 0 L).drop i).take len := by
    intro bv
    rw [← bitsAt_range', ← bitsAt_range']
    simp only [bitsAt, ← List.map_drop, ← List.map_take]
    congr 1
    apply List.ext_getElem?
    intro j
    simp only [List.getElem?_take, List.getElem?_drop]
    by_cases hj : j < len
    · rw [if_pos hj, List.getElem?_range' hj, List.getElem?_range' (by omega)]
      simp
    · rw [if_neg hj, List.getElem?_eq_none (by simp; omega)]
  rw [sub, sub, h]

section
variable {bv bv' : Bits} {L : Nat} (h : window bv 0 L = window bv' 0 L)
include h

theorem u64_sub (i len : Nat) (hi : i + len ≤ L) : pickU64 bv i len = pickU64 bv' i len :=
  pickU64_congr _ _ _ _ _ (window_sub _ _ _ _ _ h hi)
theorem i64_sub (i len : Nat) (hi : i + len ≤ L) : pickI64 bv i len = pickI64 bv' i len :=
  pickI64_congr _ _ _ _ _ (window_sub _ _ _ _ _ h hi)
theorem text_sub (i n : Nat) (hi : i + 6 * n ≤ L) : textAt bv i n = textAt bv' i n :=
  textAt_congr _ _ _ _ _ (window_sub _ _ _ _ _ h hi)
end

theorem handleT123_congr (bv bv' : Bits) (st : Station) (own : Bool)
    (h : window bv 0 168 = window bv' 0 168) : handleT123 bv st own = handleT123 bv' st own := by
  simp (disch := omega) only [handleT123, rotBlock, rotDirBlock, sogBlock, pickFlag, latBlock, lonBlock,
    cogBlock, headingBlock, metaBlock, manoeuvreBlock, u64_sub h, i64_sub h]

theorem handleT4_congr (bv bv' : Bits) (st : Station) (own : Bool)
    (h : window bv 0 168 = window bv' 0 168) : handleT4 bv st own = handleT4 bv' st own := by
  simp (disch := omega) only [handleT4, pickFlag, latBlock, lonBlock, fixTypeBlock, u64_sub h, i64_sub h]

theorem pickEta_congr (now : DateTime) (bv bv' : Bits) (i L : Nat)
    (h : window bv 0 L = window bv' 0 L) (hi : i + 26 ≤ L) : pickEta now bv i = pickEta now bv' i := by
  simp (disch := omega) only [pickEta, u64_sub h]

theorem handleT5_congr (now : DateTime) (bv bv' : Bits) (st : Station) (own : Bool)
    (h : window bv 0 422 = window bv' 0 422) : handleT5 now bv st own = handleT5 now bv' st own := by
  simp (disch := omega) only [handleT5, fixTypeBlock, u64_sub h, liftErr_pickString, text_sub h,
    pickEta_congr now bv bv' 274 422 h]

theorem handleT6_congr (bv bv' : Bits) (st : Station) (own : Bool)
    (h : window bv 0 88 = window bv' 0 88) : handleT6 bv st own = handleT6 bv' st own := by
  simp (disch := omega) only [handleT6, pickFlag, u64_sub h]

theorem handleT9_congr (bv bv' : Bits) (st : Station) (own : Bool)
    (h : window bv 0 168 = window bv' 0 168) : handleT9 bv st own = handleT9 bv' st own := by
  simp (disch := omega) only [handleT9, pickFlag, latBlock, lonBlock, cogBlock, u64_sub h, i64_sub h]

theorem handleT10_congr (bv bv' : Bits) (st : Station) (own : Bool)
    (h : window bv 0 70 = window bv' 0 70) : handleT10 bv st own = handleT10 bv' st own := by
  simp (disch := omega) only [handleT10, u64_sub h]

theorem handleT18_congr (bv bv' : Bits) (st : Station) (own : Bool)
    (h : window bv 0 168 = window bv' 0 168) : handleT18 bv st own = handleT18 bv' st own := by
  simp (disch := omega) only [handleT18, sogBlock, pickFlag, latBlock, lonBlock, cogBlock, headingBlock,
    u64_sub h, i64_sub h]

theorem handleT21_congr (bv bv' : Bits) (st : Station) (own : Bool)
    (h : window bv 0 356 = window bv' 0 356) : handleT21 bv st own = handleT21 bv' st own := by
  simp (disch := omega) only [handleT21, pickFlag, latBlock, lonBlock, u64_sub h, i64_sub h,
    liftErr_pickString, text_sub h]

theorem handleT27_congr (bv bv' : Bits) (st : Station) (own : Bool)
    (h : window bv 0 79 = window bv' 0 79) : handleT27 bv st own = handleT27 bv' st own := by
  simp (disch := omega) only [handleT27, pickFlag, u64_sub h, i64_sub h]

theorem t24A_congr (bv bv' : Bits) (own : Bool) (h : window bv 0 760 = window bv' 0 760) :
    t24Fields bv own true false = t24Fields bv' own true false := by
  simp (disch := omega) only [t24Fields, u64_sub h, liftErr_pickString, text_sub h, if_true,
    Bool.false_eq_true, if_false]

theorem t24B_congr (bv bv' : Bits) (own : Bool) (h : window bv 0 162 = window bv' 0 162) :
    t24Fields bv own false true = t24Fields bv' own false true := by
  simp (disch := omega) only [t24Fields, u64_sub h, liftErr_pickString, text_sub h, if_true,
    Bool.false_eq_true, if_false]

theorem handleT24_congr (bv bv' : Bits) (st : Station) (p : Parser) (own : Bool) (L : Nat)
    (h : window bv 0 L = window bv' 0 L) (hL : 162 ≤ L) (hA : pickU64 bv 38 2 = 0 → 760 ≤ L) :
    handleT24 bv st p own = handleT24 bv' st p own := by
  have e : pickU64 bv 38 2 = pickU64 bv' 38 2 := u64_sub h 38 2 (by omega)
  have hB := t24B_congr bv bv' own (window_sub _ _ _ _ _ h (by omega))
  simp only [handleT24, ← e, hB]
  split
  · rename_i h0
    rw [t24A_congr bv bv' own (window_sub _ _ _ _ _ h (by have := hA h0; omega))]
  · rfl
  · rfl

theorem dispatchAis_congr (env : Env) (ty : Str) (bv bv' : Bits) (st : Station) (own : Bool) (p : Parser)
    (L : Nat) (h : window bv 0 L = window bv' 0 L) (h6 : 6 ≤ L)
    (hL : layoutBits (pickU64 bv 0 6) (pickU64 bv 38 2) ≤ L) :
    dispatchAis env ty bv st own p = dispatchAis env ty bv' st own p := by
  have e : pickU64 bv 0 6 = pickU64 bv' 0 6 := u64_sub h 0 6 (by omega)
  have w : ∀ n, n ≤ L → window bv 0 n = window bv' 0 n :=
    fun n hn => window_sub _ _ _ _ _ h (by omega)
  unfold dispatchAis
  rw [← e]
  generalize pickU64 bv 0 6 = t at hL
  simp only []
  split <;> simp only [layoutBits] at hL
  · rw [handleT123_congr _ _ _ _ (w _ hL)]
  · rw [handleT123_congr _ _ _ _ (w _ hL)]
  · rw [handleT123_congr _ _ _ _ (w _ hL)]
  · rw [handleT4_congr _ _ _ _ (w _ hL)]
  · rw [handleT5_congr _ _ _ _ _ (w _ hL)]
  · rw [handleT6_congr _ _ _ _ (w _ hL)]
  · rw [handleT9_congr _ _ _ _ (w _ hL)]
  · rw [handleT10_congr _ _ _ _ (w _ hL)]
  · rw [handleT18_congr _ _ _ _ (w _ hL)]
  · rfl
  · rw [handleT21_congr _ _ _ _ (w _ hL)]
  · refine handleT24_congr _ _ _ _ _ L h ?_ ?_
    · split at hL <;> omega
    · intro h0
      rw [if_pos h0] at hL
      exact hL
  · rw [handleT27_congr _ _ _ _ (w _ hL)]
  · rfl

theorem dispatchAis_zeros (env : Env) (ty : Str) (bv : Bits) (k : Nat) (st : Station) (own : Bool)
    (p : Parser) :
    dispatchAis env ty (bv ++ List.replicate k false) st own p = dispatchAis env ty bv st own p := by
  apply dispatchAis_congr _ _ _ _ _ _ _ 1000 (window_zeros bv k 0 1000) (by decide)
  unfold layoutBits
  split <;> (try split) <;> omega

/-- A complete payload that armors a bit string. -/
theorem complete_armor (env : Env) (own : Bool) (st : Station) (bits : Bits) (p : Parser) :
    complete env own st (armor bits) p = dispatchAis env ('!' :: aisKind own) bits st own p := by
  simp only [complete, parsePayload_armor, dispatchAis_zeros]

theorem eval_Single (env : Env) (p : Parser) (talker : Str) (own : Bool) (payload s : Str)
    (h : Single talker own payload s) :
    parseSentence env p s = complete env own (stationOf talker) payload p := by
  obtain ⟨fs, k, h, h0, h1, rfl⟩ := h
  exact eval_single env p talker own fs s h h0 k h1

/-- An unfragmented sentence that armors a bit string. -/
theorem eval_armored (env : Env) (p : Parser) (talker : Str) (own : Bool) (bits : Bits) (s : Str)
    (h : Single talker own (armor bits) s) :
    parseSentence env p s =
      dispatchAis env ('!' :: aisKind own) bits (stationOf talker) own p := by
  rw [eval_Single env p talker own _ s h, complete_armor]

theorem complete_append_zeros (env : Env) (own : Bool) (st : Station) (payload : Str) (k : Nat)
    (p : Parser) :
    complete env own st (payload ++ List.replicate k '0') p = complete env own st payload p := by
  simp only [complete]
  cases h : parsePayload env.overflowChecks payload with
  | ok bv =>
    rw [parsePayload_append _ _ _ _ _ h (parsePayload_zeros _ k)]
    simp only [dispatchAis_zeros]
  | err e => exact absurd h (parsePayload_ne_err _ _ _)
  | panic => rw [parsePayload_append_panic _ _ _ h]

end Nmea
