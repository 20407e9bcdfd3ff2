/-
Each value of a report depends on few bits.
-/
import Verif.Spec.Locality
import Verif.Lemmas.Layout
import Verif.Lemmas.Values
import Verif.Lemmas.GnssSays

namespace Nmea
open Spec

/-- All values of the list that come from agreeing bit fields agree. -/
def LocalBits (l : List (Value × List (Nat × Nat))) (bv bv' : Bits) (r r' : ParsedSentence) : Prop :=
  ∀ x ∈ l, (∀ w ∈ x.2, window bv w.1 w.2 = window bv' w.1 w.2) → x.1.read r = x.1.read r'

section
variable (bv bv' : Bits) (st : Station) (own : Bool) (r r' : ParsedSentence)

local macro "split_list" : tactic => `(tactic|
  (simp only [List.forall_mem_cons, List.not_mem_nil, false_implies, implies_true, and_true]
   and_intros))

local macro "one_field" : tactic => `(tactic| first
  | (intro ha
     have h1 := pickU64_congr _ _ _ _ _ ha
     simp only [dyn, stat, base, addr, sar, inq, aton, sogBlock, pickFlag, cogBlock, headingBlock, metaBlock,
       manoeuvreBlock, fixTypeBlock, h1]; done)
  | (intro ha
     have h1 := pickI64_congr _ _ _ _ _ ha
     simp only [dyn, base, sar, aton, rotBlock, rotDirBlock, latBlock, lonBlock, h1]; done)
  | (intro ha
     have h1 := textAt_congr _ _ _ _ _ ha
     simp only [stat, h1]; done)
  | (intro _
     simp only [dyn, stat, base, addr, sar, inq, aton]; done))

theorem local_T123 (t : Nat) (ht : t = 1 ∨ t = 2 ∨ t = 3) (hr : handleT123 bv st own = .ok r)
    (hr' : handleT123 bv' st own = .ok r') : LocalBits (bitSources t) bv bv' r r' := by
  cases hr
  cases hr'
  unfold LocalBits bitSources
  rw [if_pos ht]
  split_list
  all_goals one_field

theorem local_T4 (hr : handleT4 bv st own = .ok r)
    (hr' : handleT4 bv' st own = .ok r') : LocalBits (bitSources 4) bv bv' r r' := by
  unfold handleT4 at hr hr'
  rw [Out.bind_eq_ok] at hr hr'
  obtain ⟨t, h1, hr⟩ := hr
  obtain ⟨t', h1', hr'⟩ := hr'
  cases hr
  cases hr'
  unfold LocalBits bitSources
  rw [if_neg (by decide), if_pos rfl]
  split_list
  all_goals first
    | one_field
    | rintro ⟨a1, a2, a3, a4, a5, a6⟩
      rw [pickU64_congr _ _ _ _ _ a1, pickU64_congr _ _ _ _ _ a2, pickU64_congr _ _ _ _ _ a3,
        pickU64_congr _ _ _ _ _ a4, pickU64_congr _ _ _ _ _ a5, pickU64_congr _ _ _ _ _ a6, h1'] at h1
      cases h1
      rfl

theorem pickEta_local (now : DateTime) (i : Nat)
    (h : window bv i 4 = window bv' i 4 ∧ window bv (i + 4) 5 = window bv' (i + 4) 5 ∧
      window bv (i + 4 + 5) 5 = window bv' (i + 4 + 5) 5 ∧ window bv (i + 4 + 5 + 5) 6 = window bv' (i + 4 + 5 + 5) 6 ∧
      window bv (i + 4 + 5 + 5 + 6) 6 = window bv' (i + 4 + 5 + 5 + 6) 6) : pickEta now bv i = pickEta now bv' i := by
  obtain ⟨a1, a2, a3, a4, a5⟩ := h
  simp only [pickEta, pickU64_congr _ _ _ _ _ a1, pickU64_congr _ _ _ _ _ a2, pickU64_congr _ _ _ _ _ a3,
    pickU64_congr _ _ _ _ _ a4, pickU64_congr _ _ _ _ _ a5]

theorem local_T5 (now : DateTime) (hr : handleT5 now bv st own = .ok r)
    (hr' : handleT5 now bv' st own = .ok r') : LocalBits (bitSources 5) bv bv' r r' := by
  unfold handleT5 at hr hr'
  simp only [Out.bind_eq_ok, liftErr_pickString, Out.ok.injEq, exists_eq_left'] at hr hr'
  obtain ⟨t, h1, rfl⟩ := hr
  obtain ⟨t', h1', rfl⟩ := hr'
  unfold LocalBits bitSources
  rw [if_neg (by decide), if_neg (by decide), if_pos rfl]
  split_list
  all_goals first
    | one_field
    | intro ha
      rw [pickEta_local bv bv' now 274 ha, h1'] at h1
      cases h1
      rfl

theorem local_T21 (hr : handleT21 bv st own = .ok r)
    (hr' : handleT21 bv' st own = .ok r') : LocalBits (bitSources 21) bv bv' r r' := by
  unfold handleT21 at hr hr'
  simp only [Out.bind_eq_ok, liftErr_pickString, Out.ok.injEq, exists_eq_left'] at hr hr'
  subst hr
  subst hr'
  unfold LocalBits bitSources
  rw [if_neg (by decide), if_neg (by decide), if_neg (by decide), if_neg (by decide), if_neg (by decide),
    if_neg (by decide), if_neg (by decide), if_pos rfl]
  split_list
  all_goals first
    | one_field
    | rintro ⟨a1, a2⟩
      simp only [aton, textAt_congr _ _ _ _ _ a1, textAt_congr _ _ _ _ _ a2]

theorem local_T6 (hr : handleT6 bv st own = .ok r)
    (hr' : handleT6 bv' st own = .ok r') : LocalBits (bitSources 6) bv bv' r r' := by
  cases hr
  cases hr'
  unfold LocalBits bitSources
  rw [if_neg (by decide), if_neg (by decide), if_neg (by decide), if_pos rfl]
  split_list
  all_goals one_field

theorem local_T9 (hr : handleT9 bv st own = .ok r)
    (hr' : handleT9 bv' st own = .ok r') : LocalBits (bitSources 9) bv bv' r r' := by
  cases hr
  cases hr'
  unfold LocalBits bitSources
  rw [if_neg (by decide), if_neg (by decide), if_neg (by decide), if_neg (by decide), if_pos rfl]
  split_list
  all_goals one_field

theorem local_T10 (hr : handleT10 bv st own = .ok r)
    (hr' : handleT10 bv' st own = .ok r') : LocalBits (bitSources 10) bv bv' r r' := by
  cases hr
  cases hr'
  unfold LocalBits bitSources
  rw [if_neg (by decide), if_neg (by decide), if_neg (by decide), if_neg (by decide), if_neg (by decide), if_pos rfl]
  split_list
  all_goals one_field

theorem local_T18 (hr : handleT18 bv st own = .ok r)
    (hr' : handleT18 bv' st own = .ok r') : LocalBits (bitSources 18) bv bv' r r' := by
  cases hr
  cases hr'
  unfold LocalBits bitSources
  rw [if_neg (by decide), if_neg (by decide), if_neg (by decide), if_neg (by decide), if_neg (by decide), if_neg (by decide), if_pos rfl]
  split_list
  all_goals one_field

theorem local_T27 (hr : handleT27 bv st own = .ok r)
    (hr' : handleT27 bv' st own = .ok r') : LocalBits (bitSources 27) bv bv' r r' := by
  cases hr
  cases hr'
  unfold LocalBits bitSources
  rw [if_neg (by decide), if_neg (by decide), if_neg (by decide), if_neg (by decide), if_neg (by decide), if_neg (by decide), if_neg (by decide), if_neg (by decide), if_pos rfl]
  split_list
  all_goals one_field

end

/-- All values of the list that come from agreeing fields agree. -/
def LocalFields (l : List (Value × List Nat)) (fs fs' : List Str) (r r' : ParsedSentence) : Prop :=
  ∀ x ∈ l, (∀ i ∈ x.2, field fs i = field fs' i) → x.1.read r = x.1.read r'

theorem Out.same {ε α : Type} {x y : Out ε α} {a b : α} (hx : x = .ok a) (hy : y = .ok b) (h : x = y) : a = b := by
  rw [hx, hy] at h
  cases h
  rfl

theorem pickNumberField_local {α : Type} (parse : Str → Option α) (t : Str) (fs fs' : List Str) (i : Nat)
    (h : field fs i = field fs' i) :
    pickNumberField parse (t :: fs) (i + 1) = pickNumberField parse (t :: fs') (i + 1) := by
  unfold pickNumberField
  rw [fieldAt_cons_succ, fieldAt_cons_succ, h]

theorem numField_local {α : Type} (parse : Str → Option α) (t : Str) (fs fs' : List Str) (i : Nat)
    (h : field fs i = field fs' i) : numField parse (t :: fs) (i + 1) = numField parse (t :: fs') (i + 1) := by
  unfold numField
  rw [pickNumberField_local parse t fs fs' i h]

theorem gsaPrns_local (t : Str) (fs fs' : List Str) (is : List Nat) (h : ∀ i ∈ is, field fs i = field fs' i) :
    gsaPrns (t :: fs) (is.map (· + 1)) = gsaPrns (t :: fs') (is.map (· + 1)) := by
  induction is with
  | nil => rfl
  | cons i is ih =>
    simp only [List.map_cons, gsaPrns, fieldAt_cons_succ]
    rw [numField_local parseU8 t fs fs' i (h i (by simp)), h i (by simp), ih (fun j hj => h j (by simp [hj]))]

section
variable (env : Env) (p p' : Parser) (talker : Str) (fs fs' : List Str) (s s' : Str) (r r' : ParsedSentence)

theorem local_gga (h : IsGnss talker (c! "GGA") fs s) (h' : IsGnss talker (c! "GGA") fs' s')
    (hr : (parseSentence env p s).1 = .ok r) (hr' : (parseSentence env p' s').1 = .ok r') :
    LocalFields (fieldSources (c! "GGA")) fs fs' r r' := by
  rw [eval_gga env p talker fs s h] at hr
  rw [eval_gga env p' talker fs' s' h'] at hr'
  simp only [handleGga, gnss_split talker fs s _ (by decide) h, fieldAt_cons_succ, Out.bind_eq_ok] at hr
  simp only [handleGga, gnss_split talker fs' s' _ (by decide) h', fieldAt_cons_succ, Out.bind_eq_ok] at hr'
  obtain ⟨t, h1, la, h2, lo, h3, q, h4, n, h5, hd, h6, al, h7, ge, h8, ag, h9, st, h10, he⟩ := hr
  obtain ⟨t', h1', la', h2', lo', h3', q', h4', n', h5', hd', h6', al', h7', ge', h8', ag', h9', st', h10', he'⟩ := hr'
  cases he
  cases he'
  unfold LocalFields fieldSources
  rw [if_pos rfl]
  simp only [List.forall_mem_cons, List.not_mem_nil, false_implies, implies_true, and_true, ofGga, Option.some.injEq,
    true_and]
  refine ⟨fun a => Out.same h1 h1' (by rw [a]), fun a => Out.same h2 h2' (by rw [a.1, a.2]),
    fun a => Out.same h3 h3' (by rw [a.1, a.2]), fun a => ?_, fun a => Out.same h5 h5' (numField_local _ _ _ _ _ a),
    fun a => Out.same h6 h6' (numField_local _ _ _ _ _ a), fun a => Out.same h7 h7' (numField_local _ _ _ _ _ a),
    fun a => Out.same h8 h8' (numField_local _ _ _ _ _ a), fun a => Out.same h9 h9' (numField_local _ _ _ _ _ a),
    fun a => Out.same h10 h10' (numField_local _ _ _ _ _ a)⟩
  rw [Out.same h4 h4' (numField_local _ _ _ _ _ a)]

theorem local_rmc (h : IsGnss talker (c! "RMC") fs s) (h' : IsGnss talker (c! "RMC") fs' s')
    (hr : (parseSentence env p s).1 = .ok r) (hr' : (parseSentence env p' s').1 = .ok r') :
    LocalFields (fieldSources (c! "RMC")) fs fs' r r' := by
  rw [eval_rmc env p talker fs s h] at hr
  rw [eval_rmc env p' talker fs' s' h'] at hr'
  simp only [handleRmc, gnss_split talker fs s _ (by decide) h, fieldAt_cons_succ, Out.bind_eq_ok] at hr
  simp only [handleRmc, gnss_split talker fs' s' _ (by decide) h', fieldAt_cons_succ, Out.bind_eq_ok] at hr'
  obtain ⟨t, h1, st, h2, la, h3, lo, h4, so, h5, be, h6, va, h7, he⟩ := hr
  obtain ⟨t', h1', st', h2', la', h3', lo', h4', so', h5', be', h6', va', h7', he'⟩ := hr'
  cases he
  cases he'
  unfold LocalFields fieldSources
  rw [if_neg (by decide), if_pos rfl]
  simp only [List.forall_mem_cons, List.not_mem_nil, false_implies, implies_true, and_true, ofRmc, Option.some.injEq,
    true_and]
  refine ⟨fun a => Out.same h1 h1' (by rw [a.1, a.2]), fun a => Out.same h2 h2' (by rw [a]),
    fun a => Out.same h3 h3' (by rw [a.1, a.2]), fun a => Out.same h4 h4' (by rw [a.1, a.2]),
    fun a => Out.same h5 h5' (numField_local _ _ _ _ _ a), fun a => Out.same h6 h6' (numField_local _ _ _ _ _ a),
    fun a => Out.same h7 h7' ?_⟩
  unfold rmcVariation
  rw [numField_local _ _ _ _ _ a.1, fieldAt_cons_succ, fieldAt_cons_succ, a.2]

theorem local_gsa (h : IsGnss talker (c! "GSA") fs s) (h' : IsGnss talker (c! "GSA") fs' s')
    (hr : (parseSentence env p s).1 = .ok r) (hr' : (parseSentence env p' s').1 = .ok r') :
    LocalFields (fieldSources (c! "GSA")) fs fs' r r' := by
  rw [eval_gsa env p talker fs s h] at hr
  rw [eval_gsa env p' talker fs' s' h'] at hr'
  simp only [handleGsa, gnss_split talker fs s _ (by decide) h, fieldAt_cons_succ, Out.bind_eq_ok] at hr
  simp only [handleGsa, gnss_split talker fs' s' _ (by decide) h', fieldAt_cons_succ, Out.bind_eq_ok] at hr'
  obtain ⟨m1, h1, m2, h2, pr, h3, pd, h4, hd, h5, vd, h6, he⟩ := hr
  obtain ⟨m1', h1', m2', h2', pr', h3', pd', h4', hd', h5', vd', h6', he'⟩ := hr'
  cases he
  cases he'
  unfold LocalFields fieldSources
  rw [if_neg (by decide), if_neg (by decide), if_pos rfl]
  have e : List.range' 3 12 = [2, 3, 4, 5, 6, 7, 8, 9, 10, 11, 12, 13].map (· + 1) := by decide
  rw [e] at h3 h3'
  refine List.forall_mem_cons.mpr ⟨fun _ => rfl, List.forall_mem_cons.mpr ⟨fun a => ?_, List.forall_mem_cons.mpr ⟨fun a => ?_,
    List.forall_mem_cons.mpr ⟨fun a => ?_, ?_⟩⟩⟩⟩
  · exact congrArg some (Out.same h1 h1' (by rw [a 0 (by simp)]))
  · exact congrArg some (Out.same h2 h2' (by rw [a 1 (by simp)]))
  · exact congrArg some (Out.same h3 h3' (gsaPrns_local _ _ _ _ a))
  · simp only [List.forall_mem_cons, List.not_mem_nil, false_implies, implies_true, and_true, ofGsa, Option.some.injEq]
    exact ⟨fun a => Out.same h4 h4' (numField_local _ _ _ _ _ a), fun a => Out.same h5 h5' (numField_local _ _ _ _ _ a),
      fun a => Out.same h6 h6' (numField_local _ _ _ _ _ a)⟩

theorem local_vtg (h : IsGnss talker (c! "VTG") fs s) (h' : IsGnss talker (c! "VTG") fs' s')
    (hr : (parseSentence env p s).1 = .ok r) (hr' : (parseSentence env p' s').1 = .ok r') :
    LocalFields (fieldSources (c! "VTG")) fs fs' r r' := by
  rw [eval_vtg env p talker fs s h] at hr
  rw [eval_vtg env p' talker fs' s' h'] at hr'
  simp only [handleVtg, gnss_split talker fs s _ (by decide) h, fieldAt_cons_succ] at hr
  simp only [handleVtg, gnss_split talker fs' s' _ (by decide) h', fieldAt_cons_succ] at hr'
  cases hr
  cases hr'
  unfold LocalFields fieldSources
  rw [if_neg (by decide), if_neg (by decide), if_neg (by decide), if_pos rfl]
  simp only [List.forall_mem_cons, List.not_mem_nil, false_implies, implies_true, and_true, ofVtg, Option.some.injEq,
    true_and, numFieldOrNone]
  exact ⟨fun a => by rw [pickNumberField_local _ _ _ _ _ a], fun a => by rw [pickNumberField_local _ _ _ _ _ a],
    fun a => by rw [pickNumberField_local _ _ _ _ _ a], fun a => by rw [pickNumberField_local _ _ _ _ _ a],
    fun a => by rw [a]⟩

theorem local_gll (h : IsGnss talker (c! "GLL") fs s) (h' : IsGnss talker (c! "GLL") fs' s')
    (hr : (parseSentence env p s).1 = .ok r) (hr' : (parseSentence env p' s').1 = .ok r') :
    LocalFields (fieldSources (c! "GLL")) fs fs' r r' := by
  rw [eval_gll env p talker fs s h] at hr
  rw [eval_gll env p' talker fs' s' h'] at hr'
  simp only [handleGll, gnss_split talker fs s _ (by decide) h, fieldAt_cons_succ, Out.bind_eq_ok] at hr
  simp only [handleGll, gnss_split talker fs' s' _ (by decide) h', fieldAt_cons_succ, Out.bind_eq_ok] at hr'
  obtain ⟨la, h1, lo, h2, t, h3, he⟩ := hr
  obtain ⟨la', h1', lo', h2', t', h3', he'⟩ := hr'
  cases he
  cases he'
  unfold LocalFields fieldSources
  rw [if_neg (by decide), if_neg (by decide), if_neg (by decide), if_neg (by decide), if_pos rfl]
  simp only [List.forall_mem_cons, List.not_mem_nil, false_implies, implies_true, and_true, ofGll, Option.some.injEq,
    true_and]
  exact ⟨fun a => Out.same h1 h1' (by rw [a.1, a.2]), fun a => Out.same h2 h2' (by rw [a.1, a.2]),
    fun a => Out.same h3 h3' (by rw [a]), fun a => by rw [a], fun a => by rw [a]⟩

end

/-- The reports agree in all values of the list. -/
def AllValues {α : Type} (l : List (Value × α)) (r r' : ParsedSentence) : Prop := ∀ x ∈ l, x.1.read r = x.1.read r'

local macro "all_values" h:ident : tactic => `(tactic|
  (simp only [AllValues, bitSources, fieldSources, List.forall_mem_cons, List.not_mem_nil, false_implies, implies_true,
     and_true, dyn, stat, base, addr, sar, inq, aton, ofGga, ofRmc, ofGsa, ofVtg, ofGll, Option.some.injEq, Nat.reduceEqDiff,
     false_or, or_false, true_or, or_true, or_self, if_true, if_false, List.cons.injEq, Char.reduceEq, false_and, and_false,
     true_and, reduceCtorEq] at $h:ident))

theorem all_dyn (t : Nat) (ht : t = 1 ∨ t = 2 ∨ t = 3 ∨ t = 18 ∨ t = 27) (d d' : VesselDynamicData)
    (h : AllValues (bitSources t) (.vesselDynamicData d) (.vesselDynamicData d')) : d = d' := by
  cases d
  cases d'
  rcases ht with rfl | rfl | rfl | rfl | rfl <;> all_values h <;> simp only [h]

theorem all_stat (d d' : VesselStaticData)
    (h : AllValues (bitSources 5) (.vesselStaticData d) (.vesselStaticData d')) : d = d' := by
  cases d
  cases d'
  all_values h
  simp only [h]

theorem all_base (d d' : BaseStationReport)
    (h : AllValues (bitSources 4) (.baseStationReport d) (.baseStationReport d')) : d = d' := by
  cases d
  cases d'
  all_values h
  simp only [h]

theorem all_addr (d d' : BinaryAddressedMessage)
    (h : AllValues (bitSources 6) (.binaryAddressedMessage d) (.binaryAddressedMessage d')) : d = d' := by
  cases d
  cases d'
  all_values h
  simp only [h]

theorem all_sar (d d' : StandardSarAircraftPositionReport)
    (h : AllValues (bitSources 9) (.standardSarAircraftPositionReport d) (.standardSarAircraftPositionReport d')) :
    d = d' := by
  cases d
  cases d'
  all_values h
  simp only [h]

theorem all_inq (d d' : UtcDateInquiry)
    (h : AllValues (bitSources 10) (.utcDateInquiry d) (.utcDateInquiry d')) : d = d' := by
  cases d
  cases d'
  all_values h
  simp only [h]

theorem all_aton (d d' : AidToNavigationReport)
    (h : AllValues (bitSources 21) (.aidToNavigationReport d) (.aidToNavigationReport d')) : d = d' := by
  cases d
  cases d'
  all_values h
  simp only [h]

theorem all_gga (d d' : GgaData) (h : AllValues (fieldSources (c! "GGA")) (.gga d) (.gga d')) : d = d' := by
  cases d
  cases d'
  all_values h
  simp only [h]

theorem all_rmc (d d' : RmcData) (h : AllValues (fieldSources (c! "RMC")) (.rmc d) (.rmc d')) : d = d' := by
  cases d
  cases d'
  all_values h
  simp only [h]

theorem all_gsa (d d' : GsaData) (h : AllValues (fieldSources (c! "GSA")) (.gsa d) (.gsa d')) : d = d' := by
  cases d
  cases d'
  all_values h
  simp only [h]

theorem all_vtg (d d' : VtgData) (h : AllValues (fieldSources (c! "VTG")) (.vtg d) (.vtg d')) : d = d' := by
  cases d
  cases d'
  all_values h
  simp only [h]

theorem all_gll (d d' : GllData) (h : AllValues (fieldSources (c! "GLL")) (.gll d) (.gll d')) : d = d' := by
  cases d
  cases d'
  all_values h
  simp only [h]

end Nmea
