/-
How results depend on the clock.
-/
import Verif.Lemmas.Panic

namespace Nmea
open Spec

/-! ### The completed payload does not depend on the clock -/

theorem ais_uniform (p : Parser) (talker : Str) (own : Bool) (fs : List Str) (s : Str) (hs : IsAis talker own fs s) :
    (∃ x, ∀ env, parseSentence env p s = x) ∨
    ∃ payload q, (payload = [] ∨ Delivers p s talker own payload) ∧
      ∀ env, parseSentence env p s = complete env own (talkerStation talker) payload q := by
  have he := fun env => eval_fields env p talker own fs s hs
  simp only [stationOf_eq] at he
  cases hv : vdmLoop 0 VdmVars.init (tag '!' talker (aisKind own) :: fs) with
  | err e => simp only [hv] at he; exact .inl ⟨_, he⟩
  | panic => simp only [hv] at he; exact .inl ⟨_, he⟩
  | ok v =>
    simp only [hv] at he
    cases ha : assemble ('!' :: aisKind own) v p with
    | mk o q =>
      cases o with
      | none => simp only [ha] at he; exact .inl ⟨_, he⟩
      | some payload =>
        simp only [ha] at he
        refine .inr ⟨payload, q, ?_, he⟩
        rw [vdmLoop_fields _ _ hs.2.2.1] at hv
        cases h0 : parseU8 (field fs 0) with
        | none => rw [h0] at hv; cases hv
        | some n =>
          have d0 := (parseU8_iff _ _).mp h0
          rw [h0] at hv
          simp only [] at hv
          by_cases hlen : fs.length = 1
          · rw [if_pos hlen] at hv
            obtain rfl := Out.ok.inj hv
            simp only [assemble] at ha
            by_cases h1 : n = 1
            · rw [if_pos h1] at ha
              exact .inl (Option.some.inj (Prod.mk.inj ha).1).symm
            · rw [if_neg h1] at ha
              by_cases h2 : n = 2
              · rw [if_pos h2] at ha; cases ha
              · rw [if_neg h2] at ha; cases ha
          · rw [if_neg hlen] at hv
            cases hk : parseU8 (field fs 1) with
            | none => rw [hk] at hv; cases hv
            | some k =>
              have d1 := (parseU8_iff _ _).mp hk
              rw [hk] at hv
              obtain rfl := Out.ok.inj hv
              simp only [assemble] at ha
              by_cases h1 : n = 1
              · subst h1
                rw [if_pos rfl] at ha
                obtain rfl := Option.some.inj (Prod.mk.inj ha).1
                exact .inr (.single _ ⟨fs, k, hs, d0, d1, rfl⟩)
              · rw [if_neg h1] at ha
                by_cases h2 : n = 2
                · subst h2
                  rw [if_pos rfl] at ha
                  cases hid : parseU64 (field fs 2) with
                  | none => rw [hid] at ha; cases ha
                  | some id =>
                    have d2 := (parseU64_iff _ _).mp hid
                    rw [hid] at ha
                    simp only [getD_field, makeFragmentKey_eq, Parser.pullString, Parser.pushString] at ha
                    by_cases k1 : k = 1
                    · subst k1
                      rw [if_pos rfl] at ha
                      cases hg : p.savedFragments.get (partKey own 2 id (field fs 3)) with
                      | none => rw [hg] at ha; cases ha
                      | some b =>
                        rw [hg] at ha
                        obtain rfl := Option.some.inj (Prod.mk.inj ha).1
                        exact .inr (.first id _ _ b ⟨fs, hs, d0, d1, d2, rfl, rfl⟩ hg)
                    · rw [if_neg k1] at ha
                      by_cases k2 : k = 2
                      · subst k2
                        rw [if_pos rfl] at ha
                        cases hg : p.savedFragments.get (partKey own 1 id (field fs 3)) with
                        | none => rw [hg] at ha; cases ha
                        | some b =>
                          rw [hg] at ha
                          obtain rfl := Option.some.inj (Prod.mk.inj ha).1
                          exact .inr (.second id _ b _ ⟨fs, hs, d0, d1, d2, rfl, rfl⟩ hg)
                      · rw [if_neg k2] at ha; cases ha
                · rw [if_neg h2] at ha; cases ha

/-! ### Equal up to the clock -/

theorem same_bind {α : Type} (x : Out ParseError α) (f g : α → Out ParseError ParsedSentence)
    (h : ∀ a, SameButClock (f a) (g a)) : SameButClock (x >>= f) (x >>= g) := by
  cases x with
  | ok a => exact h a
  | err e => exact .error e
  | panic => exact .panicLeft

theorem same_refl (x : Out ParseError ParsedSentence) : SameButClock x x := by
  cases x with
  | ok a => exact .ok a a rfl
  | err e => exact .error e
  | panic => exact .panicLeft

/-- A clock-dependent step whose outcome is never an error. -/
theorem same_time {α : Type} (x y : Out Str α) (f g : Option α → Out ParseError ParsedSentence)
    (h : ∀ a b, SameButClock (f a) (g b)) : SameButClock (Out.toOpt x >>= f) (Out.toOpt y >>= g) := by
  cases x with
  | panic => exact .panicLeft
  | ok a =>
    cases y with
    | panic => exact .panicRight
    | ok b => exact h _ _
    | err e => exact h _ _
  | err a =>
    cases y with
    | panic => exact .panicRight
    | ok b => exact h _ _
    | err e => exact h _ _

theorem gga_clock (n n' : DateTime) (body : Str) (nav : NavigationSystem) :
    SameButClock (handleGga n body nav) (handleGga n' body nav) := by
  refine same_time _ _ _ _ fun t t' => ?_
  iterate 9 refine same_bind _ _ _ fun _ => ?_
  exact .ok _ _ rfl

theorem rmc_clock (n n' : DateTime) (body : Str) (nav : NavigationSystem) :
    SameButClock (handleRmc n body nav) (handleRmc n' body nav) := by
  refine same_time _ _ _ _ fun t t' => ?_
  iterate 6 refine same_bind _ _ _ fun _ => ?_
  exact .ok _ _ rfl

theorem gll_clock (n n' : DateTime) (body : Str) (nav : NavigationSystem) :
    SameButClock (handleGll n body nav) (handleGll n' body nav) := by
  refine same_bind _ _ _ fun _ => same_bind _ _ _ fun _ => same_time _ _ _ _ fun t t' => ?_
  exact .ok _ _ rfl

theorem eta_same (n n' : DateTime) (bits : Bits) (f : Option DateTime → Out ParseError ParsedSentence)
    (h : ∀ a b, SameButClock (f a) (f b)) :
    SameButClock (liftErr (pickEta n bits 274) >>= f) (liftErr (pickEta n' bits 274) >>= f) := by
  rw [eta_eval, eta_eval]
  by_cases ha : EtaAbsent (arrivalAt bits)
  · rw [if_pos ha, if_pos ha]; exact same_refl _
  · rw [if_neg ha, if_neg ha]
    by_cases h1 : IsDateTime (etaCandidate n (arrivalAt bits))
    · rw [if_pos h1]
      by_cases h2 : IsDateTime (etaCandidate n' (arrivalAt bits))
      · rw [if_pos h2]; exact h _ _
      · rw [if_neg h2]; exact .panicRight
    · rw [if_neg h1]; exact .panicLeft

theorem t5_clock (n n' : DateTime) (bits : Bits) (st : Station) (own : Bool) :
    SameButClock (handleT5 n bits st own) (handleT5 n' bits st own) := by
  simp only [handleT5, liftErr_pickString, Out.ok_bind]
  exact eta_same n n' bits _ fun a b => .ok _ _ rfl

/-- The environment at another time. -/
theorem dispatchAis_clock (env : Env) (n : DateTime) (ty : Str) (bits : Bits) (st : Station) (own : Bool) (p : Parser) :
    SameButClock (dispatchAis env ty bits st own p).1 (dispatchAis { env with now := n } ty bits st own p).1 ∧
    (dispatchAis { env with now := n } ty bits st own p).2 = (dispatchAis env ty bits st own p).2 ∧
    (typeOf bits ≠ 5 → dispatchAis { env with now := n } ty bits st own p = dispatchAis env ty bits st own p) := by
  rw [← typeOf_eq]
  simp only [dispatchAis]
  generalize pickU64 bits 0 6 = t
  split
  case h_5 => exact ⟨t5_clock _ _ _ st _, rfl, fun h => absurd rfl h⟩
  all_goals exact ⟨same_refl _, rfl, fun _ => rfl⟩

theorem complete_clock (env : Env) (n : DateTime) (own : Bool) (st : Station) (payload : Str) (p : Parser) :
    SameButClock (complete env own st payload p).1 (complete { env with now := n } own st payload p).1 ∧
    (complete { env with now := n } own st payload p).2 = (complete env own st payload p).2 ∧
    (typeOf (payloadBits payload) ≠ 5 →
      complete { env with now := n } own st payload p = complete env own st payload p) := by
  simp only [complete]
  cases hp : parsePayload env.overflowChecks payload with
  | ok bv =>
    have hr := readable_of_ok env payload bv hp
    rw [parsePayload_readable env payload hr] at hp
    obtain rfl := Out.ok.inj hp
    exact dispatchAis_clock _ _ _ _ _ _ _
  | err e => exact ⟨same_refl _, rfl, fun _ => rfl⟩
  | panic => exact ⟨same_refl _, rfl, fun _ => rfl⟩

theorem clock_case (env : Env) (n : DateTime) (p : Parser) (s : Str) :
    SameButClock (parseSentence env p s).1 (parseSentence { env with now := n } p s).1 ∧
    (parseSentence { env with now := n } p s).2 = (parseSentence env p s).2 ∧
    (¬ UsesClock p s → parseSentence { env with now := n } p s = parseSentence env p s) := by
  have same : parseSentence { env with now := n } p s = parseSentence env p s →
      SameButClock (parseSentence env p s).1 (parseSentence { env with now := n } p s).1 ∧
      (parseSentence { env with now := n } p s).2 = (parseSentence env p s).2 ∧
      (¬ UsesClock p s → parseSentence { env with now := n } p s = parseSentence env p s) :=
    fun h => by rw [h]; exact ⟨same_refl _, rfl, fun _ => rfl⟩
  cases shape s with
  | corrupted a b h' h1 h2 h3 =>
    exact same (by rw [h', parse_corrupted _ p a b h1 h2 h3, parse_corrupted _ p a b h1 h2 h3]; rfl)
  | noComma body e hf hs hc =>
    exact same (by rw [hs, parse_finish _ _ _ _ hf, parse_finish _ _ _ _ hf, parseBody_noComma _ _ _ hc, parseBody_noComma _ _ _ hc])
  | badTag ty rest e hf hs h1 h2 =>
    exact same (by rw [hs, parse_finish _ _ _ _ hf, parse_finish _ _ _ _ hf, parseBody_badTag _ _ _ _ h1 h2, parseBody_badTag _ _ _ _ h1 h2])
  | oddTag ty rest e hf hs h1 h2 =>
    exact same (by rw [hs, parse_finish _ _ _ _ hf, parse_finish _ _ _ _ hf, parseBody_oddTag _ _ _ _ h1 h2, parseBody_oddTag _ _ _ _ h1 h2])
  | dollar talker kind fs hk hc hs =>
    by_cases k1 : kind = c! "GGA"
    · subst k1
      rw [eval_gga _ p talker fs s hs, eval_gga _ p talker fs s hs]
      exact ⟨gga_clock _ _ _ _, rfl, fun h => absurd (.gga talker fs hs) h⟩
    by_cases k2 : kind = c! "RMC"
    · subst k2
      rw [eval_rmc _ p talker fs s hs, eval_rmc _ p talker fs s hs]
      exact ⟨rmc_clock _ _ _ _, rfl, fun h => absurd (.rmc talker fs hs) h⟩
    by_cases k3 : kind = c! "GLL"
    · subst k3
      rw [eval_gll _ p talker fs s hs, eval_gll _ p talker fs s hs]
      exact ⟨gll_clock _ _ _ _, rfl, fun h => absurd (.gll talker fs hs) h⟩
    apply same
    rw [eval_dollar _ p talker kind fs s hk hc hs, eval_dollar _ p talker kind fs s hk hc hs]
    simp [dispatch, k1, k2, k3]
  | bang talker kind fs hk hc hs =>
    by_cases ha : ∃ own, kind = aisKind own
    · obtain ⟨own, rfl⟩ := ha
      rcases ais_uniform p talker own fs s hs with ⟨x, h⟩ | ⟨payload, q, hd, h⟩
      · exact same (by rw [h, h])
      · rw [h, h]
        obtain ⟨c1, c2, c3⟩ := complete_clock env n own (talkerStation talker) payload q
        refine ⟨c1, c2, fun hu => c3 fun ht => ?_⟩
        rcases hd with rfl | hd
        · exact absurd ht (by decide)
        · exact hu (.voyage talker own payload hd ht)
    · apply same
      have d : ∀ env : Env, dispatch env p ('!' :: kind) (join (tag '!' talker kind) fs) none (some (stationOf talker)) =
          (.err (.unsupportedSentenceType (c! "Unsupported sentence type: " ++ '!' :: kind)), p) := by
        intro env
        have k1 : ¬ kind = c! "VDM" := fun h => ha ⟨false, h⟩
        have k2 : ¬ kind = c! "VDO" := fun h => ha ⟨true, h⟩
        simp [dispatch, k1, k2, unimplementedTypes]
      rw [eval_bang _ p talker kind fs s hk hc hs, eval_bang _ p talker kind fs s hk hc hs, d, d]

end Nmea
