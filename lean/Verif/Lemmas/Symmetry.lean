/-
How the handlers depend on station, own-vessel flag, source and build profile.
-/
import Verif.Spec.Symmetry
import Verif.Lemmas.Vdm
import Verif.Lemmas.OutMonad
import Verif.Lemmas.Static

namespace Nmea
open Spec

theorem onReport_bind {α : Type} (f : ParsedSentence → ParsedSentence) (x : Out ParseError α)
    (g : α → Out ParseError ParsedSentence) : onReport f (x >>= g) = x >>= fun a => onReport f (g a) := by
  cases x <;> rfl

theorem onReport_ok (f : ParsedSentence → ParsedSentence) (r : ParsedSentence) : onReport f (.ok r) = .ok (f r) := rfl

theorem onReport_err (f : ParsedSentence → ParsedSentence) (e : ParseError) : onReport f (.err e) = .err e := rfl

theorem t24_station (bv : Bits) (st st' : Station) (own : Bool) (p : Parser) :
    handleT24 bv st' p own = (onReport (withStation st') (handleT24 bv st p own).1, (handleT24 bv st p own).2) := by
  have hs : ∀ v, onReport (withStation st') (t24Store v p).1 = (t24Store v p).1 := by
    intro v
    simp only [t24Store]
    split
    · rename_i w p' _
      cases liftErr (v.merge w) <;> rfl
    · rfl
  simp only [handleT24]
  split
  · cases t24Fields bv own true false with
    | ok v => exact Prod.ext (hs v).symm rfl
    | err e => rfl
    | panic => rfl
  · cases t24Fields bv own false true with
    | ok v => exact Prod.ext (hs v).symm rfl
    | err e => rfl
    | panic => rfl
  · rfl

theorem dispatch_station (env : Env) (ty : Str) (bv : Bits) (st st' : Station) (own : Bool) (p : Parser) :
    dispatchAis env ty bv st' own p =
      (onReport (withStation st') (dispatchAis env ty bv st own p).1, (dispatchAis env ty bv st own p).2) := by
  simp only [dispatchAis]
  split
  case h_12 => exact t24_station bv st st' own p
  all_goals
    refine Prod.ext ?_ rfl
    simp only [handleT123, handleT4, handleT5, handleT6, handleT9, handleT10, handleT18, handleT19, handleT21,
      handleT27, onReport_bind, onReport_ok, onReport_err, withStation]

theorem complete_station (env : Env) (st st' : Station) (own : Bool) (pl : Str) (p : Parser) :
    complete env own st' pl p =
      (onReport (withStation st') (complete env own st pl p).1, (complete env own st pl p).2) := by
  simp only [complete]
  cases parsePayload env.overflowChecks pl with
  | ok bv => exact dispatch_station env _ bv st st' own p
  | err e => rfl
  | panic => rfl

/-! ### Own vessel -/

theorem equalButOwn_bind {α : Type} (own : Bool) (x : Out ParseError α) (f g : α → Out ParseError ParsedSentence)
    (h : ∀ a, EqualButOwn own (f a) (g a)) : EqualButOwn own (x >>= f) (x >>= g) := by
  cases x with
  | ok a => exact h a
  | err e => exact .error e
  | panic => exact .panic

theorem merge_own (v w : VesselStaticData) (own : Bool) :
    VesselStaticData.merge { v with ownVessel := own } w =
      (match v.merge w with
        | .ok m => .ok { m with ownVessel := own }
        | .err e => .err e
        | .panic => .panic) := by
  simp only [VesselStaticData.merge]
  split
  · rfl
  · split
    · rfl
    · split
      · rfl
      · split <;> rfl

theorem t24_own (bv : Bits) (st : Station) (own own' : Bool) (p : Parser) :
    EqualButOwn own' (handleT24 bv st p own).1 (handleT24 bv st p own').1 := by
  have hs : ∀ v : VesselStaticData, EqualButOwn own' (t24Store v p).1 (t24Store { v with ownVessel := own' } p).1 := by
    intro v
    simp only [t24Store, merge_own]
    split
    · rename_i w p' _
      cases v.merge w with
      | ok m => exact .report (.vesselStaticData m)
      | err e => exact .error _
      | panic => exact .panic
    · exact .report .incomplete
  simp only [handleT24, t24A, t24B]
  split
  · exact hs (partAData own bv)
  · exact hs (partBData own bv)
  · exact .error _

theorem dispatch_own (env : Env) (ty ty' : Str) (bv : Bits) (st : Station) (own own' : Bool) (p : Parser) :
    EqualButOwn own' (dispatchAis env ty bv st own p).1 (dispatchAis env ty' bv st own' p).1 := by
  simp only [dispatchAis]
  split
  case h_12 => exact t24_own bv st own own' p
  case h_4 => exact equalButOwn_bind _ _ _ _ fun _ => .report _
  case h_5 =>
    iterate 4 refine equalButOwn_bind _ _ _ _ fun _ => ?_
    exact .report (.vesselStaticData _)
  case h_11 =>
    iterate 2 refine equalButOwn_bind _ _ _ _ fun _ => ?_
    exact .report (.aidToNavigationReport _)
  all_goals first
    | exact .refused _ _
    | exact .report (.vesselDynamicData _)
    | exact .report (.binaryAddressedMessage _)
    | exact .report (.standardSarAircraftPositionReport _)
    | exact .report (.utcDateInquiry _)

theorem complete_own (env : Env) (st : Station) (own own' : Bool) (pl : Str) (p q : Parser) (hp : p = q) :
    EqualButOwn own' (complete env own st pl p).1 (complete env own' st pl q).1 := by
  subst hp
  simp only [complete]
  cases parsePayload env.overflowChecks pl with
  | ok bv => exact dispatch_own env _ _ bv st own own' p
  | err e => exact .report .incomplete
  | panic => exact .panic

/-! ### Source -/

theorem gga_source (now : DateTime) (s : Str) (nav nav' : NavigationSystem) :
    handleGga now s nav' = onReport (withSource nav') (handleGga now s nav) := by
  simp only [handleGga, onReport_bind, onReport_ok, withSource]

theorem rmc_source (now : DateTime) (s : Str) (nav nav' : NavigationSystem) :
    handleRmc now s nav' = onReport (withSource nav') (handleRmc now s nav) := by
  simp only [handleRmc, onReport_bind, onReport_ok, withSource]

theorem gsa_source (s : Str) (nav nav' : NavigationSystem) :
    handleGsa s nav' = onReport (withSource nav') (handleGsa s nav) := by
  simp only [handleGsa, onReport_bind, onReport_ok, withSource]

theorem vtg_source (s : Str) (nav nav' : NavigationSystem) :
    handleVtg s nav' = onReport (withSource nav') (handleVtg s nav) := by
  simp only [handleVtg, onReport_ok, withSource]

theorem gll_source (now : DateTime) (s : Str) (nav nav' : NavigationSystem) :
    handleGll now s nav' = onReport (withSource nav') (handleGll now s nav) := by
  simp only [handleGll, onReport_bind, onReport_ok, withSource]

/-- The tag of a sentence counts only for the source. -/
theorem gnss_tag (now : DateTime) (t t' : Str) (fs : List Str) (s s' : Str) (nav : NavigationSystem)
    (h : splitChar ',' s = t :: fs) (h' : splitChar ',' s' = t' :: fs) :
    handleGga now s' nav = handleGga now s nav ∧ handleRmc now s' nav = handleRmc now s nav ∧
    handleGsa s' nav = handleGsa s nav ∧ handleVtg s' nav = handleVtg s nav ∧
    handleGll now s' nav = handleGll now s nav := by
  have hn : ∀ (α : Type) (parse : Str → Option α) (i : Nat),
      pickNumberField parse (t' :: fs) (i + 1) = pickNumberField parse (t :: fs) (i + 1) := by
    intro α parse i
    simp only [pickNumberField, fieldAt_cons_succ]
  have hr : ∀ l : List Nat, (∀ i ∈ l, 1 ≤ i) → gsaPrns (t' :: fs) l = gsaPrns (t :: fs) l := by
    intro l hl
    induction l with
    | nil => rfl
    | cons i l ih =>
      obtain ⟨j, rfl⟩ : ∃ j, i = j + 1 := ⟨i - 1, by have := hl i List.mem_cons_self; omega⟩
      simp only [gsaPrns, fieldAt_cons_succ, numField, hn, ih (fun k hk => hl k (List.mem_cons_of_mem _ hk))]
  have hp := hr (List.range' 3 12) (by decide)
  refine ⟨?_, ?_, ?_, ?_, ?_⟩
  · simp only [handleGga, h, h', numField, fieldAt_cons_succ, hn]
  · simp only [handleRmc, rmcVariation, h, h', numField, fieldAt_cons_succ, hn]
  · simp only [handleGsa, h, h', numField, fieldAt_cons_succ, hn, hp]
  · simp only [handleVtg, h, h', numFieldOrNone, fieldAt_cons_succ, hn]
  · simp only [handleGll, h, h', fieldAt_cons_succ]

/-! ### Build profile -/

theorem parsePayload_release (s : Str) (b : Bits) (h : parsePayload true s = .ok b) : parsePayload false s = .ok b := by
  induction s generalizing b with
  | nil => exact h
  | cons c cs ih =>
    simp only [parsePayload] at h ⊢
    have ha : ∀ v, armorValue true c = .ok v → armorValue false c = .ok v := by
      intro v hv
      simp only [armorValue] at hv ⊢
      split at hv
      · cases hv
      · rename_i hn; rw [if_neg hn]; exact hv
    cases hv : armorValue true c with
    | ok v =>
      rw [hv] at h
      rw [ha v hv]
      simp only [] at h ⊢
      cases hp : parsePayload true cs with
      | ok b' => rw [hp] at h; rw [ih b' hp]; exact h
      | err e => rw [hp] at h; cases h
      | panic => rw [hp] at h; cases h
    | err e => rw [hv] at h; cases h
    | panic => rw [hv] at h; cases h

theorem dispatchAis_env (env env' : Env) (ty : Str) (bv : Bits) (st : Station) (own : Bool) (p : Parser)
    (h : env.now = env'.now) : dispatchAis env ty bv st own p = dispatchAis env' ty bv st own p := by
  simp only [dispatchAis, h]

theorem handleVdm_release (env : Env) (ty body : Str) (st : Station) (p : Parser)
    (h : (handleVdm (build true env) ty body st p).1 ≠ .panic) :
    handleVdm (build false env) ty body st p = handleVdm (build true env) ty body st p := by
  simp only [handleVdm] at h ⊢
  cases hv : vdmLoop 0 VdmVars.init (splitChar ',' body) with
  | err e => rfl
  | panic => rfl
  | ok v =>
    rw [hv] at h
    simp only [] at h ⊢
    cases ha : assemble ty v p with
    | mk o q =>
      rw [ha] at h
      cases o with
      | none => rfl
      | some pl =>
        simp only [] at h ⊢
        cases hp : parsePayload (build true env).overflowChecks pl with
        | ok b =>
          rw [show parsePayload (build false env).overflowChecks pl = .ok b from parsePayload_release pl b hp]
          exact dispatchAis_env _ _ _ _ _ _ _ rfl
        | err e => exact absurd hp (parsePayload_ne_err _ _ _)
        | panic => rw [hp] at h; exact absurd rfl h

theorem handleGsv_release (s : Str) (nav : NavigationSystem) (p : Parser) (h : (handleGsv true s nav p).1 ≠ .panic) :
    handleGsv false s nav p = handleGsv true s nav p := by
  simp only [handleGsv] at h ⊢
  cases h1 : numField parseU32 (splitChar ',' s) 1 with
  | err e => rfl
  | panic => rfl
  | ok mc =>
    rw [h1] at h
    simp only [] at h ⊢
    cases h2 : numField parseU32 (splitChar ',' s) 2 with
    | err e => rfl
    | panic => rfl
    | ok mn =>
      rw [h2] at h
      simp only [] at h ⊢
      by_cases hc : mc.getD 0 + 1 = 2 ^ 32
      · simp [hc] at h
      · simp [hc]

theorem dispatch_release (env : Env) (p : Parser) (ty body : Str) (nav : Option NavigationSystem) (st : Option Station)
    (h : (dispatch (build true env) p ty body nav st).1 ≠ .panic) :
    dispatch (build false env) p ty body nav st = dispatch (build true env) p ty body nav st := by
  unfold dispatch at h ⊢
  split
  · rfl
  · rename_i n1; rw [if_neg n1] at h
    split
    · rfl
    · rename_i n2; rw [if_neg n2] at h
      split
      · rfl
      · rename_i n3; rw [if_neg n3] at h
        split
        · rename_i n4; rw [if_pos n4] at h; exact handleGsv_release _ _ _ h
        · rename_i n4; rw [if_neg n4] at h
          split
          · rfl
          · rename_i n5; rw [if_neg n5] at h
            split
            · rfl
            · rename_i n6; rw [if_neg n6] at h
              split
              · rfl
              · rename_i n7; rw [if_neg n7] at h
                split
                · rename_i n8; rw [if_pos n8] at h; exact handleVdm_release _ _ _ _ _ h
                · rfl

theorem parse_release (env : Env) (p : Parser) (s : Str)
    (h : (parseSentence (build true env) p s).1 ≠ .panic) :
    parseSentence (build false env) p s = parseSentence (build true env) p s := by
  unfold parseSentence at h ⊢
  generalize splitChecksum s = r at h ⊢
  cases r with
  | mk body given =>
    simp only [] at h ⊢
    split
    · rfl
    · rename_i hc
      rw [if_neg hc] at h
      unfold parseBody at h ⊢
      cases hb : beforeComma body with
      | none => rfl
      | some ty =>
        rw [hb] at h
        simp only [] at h ⊢
        cases h1 : recognize '$' navSystemOf ty with
        | err e => rfl
        | panic => rfl
        | ok r =>
          rw [h1] at h
          obtain ⟨nav, ty⟩ := r
          simp only [] at h ⊢
          cases h2 : recognize '!' stationOf ty with
          | err e => rfl
          | panic => rfl
          | ok r =>
            rw [h2] at h
            exact dispatch_release _ _ _ _ _ _ h

end Nmea
