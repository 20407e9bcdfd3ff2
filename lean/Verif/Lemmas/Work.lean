/-
The counting functions of Model/Work compute what the model computes; numbers of calls.
-/
import Verif.Model.Work
import Verif.Lemmas.Gsv

namespace Nmea
open Spec

/-- Same answer, same parser. -/
def Erases {α : Type} (x : α × Counted) (y : α × Parser) : Prop := x.1 = y.1 ∧ x.2.parser = y.2

theorem erases_ite {α : Type} (P : Prop) [Decidable P] (x x' : α × Counted) (y y' : α × Parser) (h : Erases x y)
    (h' : Erases x' y') : Erases (if P then x else x') (if P then y else y') := by
  by_cases hp : P
  · simpa [hp] using h
  · simpa [hp] using h'

theorem erases_t24Store (v : VesselStaticData) (c : Counted) : Erases (t24StoreC v c) (t24Store v c.parser) := by
  unfold t24StoreC t24Store Counted.pullVsd
  rcases e : c.parser.pullVsd v.mmsi with ⟨x, p'⟩
  cases x with
  | none => exact ⟨rfl, rfl⟩
  | some y =>
    dsimp only
    cases liftErr (v.merge y) <;> exact ⟨rfl, rfl⟩

theorem erases_handleT24 (bv : Bits) (st : Station) (c : Counted) (own : Bool) :
    Erases (handleT24C bv st c own) (handleT24 bv st c.parser own) := by
  unfold handleT24C handleT24
  dsimp only
  rcases e : pickU64 bv 38 2 with _ | _ | n
  · cases t24Fields bv own true false <;> first | exact erases_t24Store _ _ | exact ⟨rfl, rfl⟩
  · cases t24Fields bv own false true <;> first | exact erases_t24Store _ _ | exact ⟨rfl, rfl⟩
  · exact ⟨rfl, rfl⟩

theorem erases_dispatchAis (env : Env) (ty : Str) (bv : Bits) (st : Station) (own : Bool) (c : Counted) :
    Erases (dispatchAisC env ty bv st own c) (dispatchAis env ty bv st own c.parser) := by
  unfold dispatchAisC dispatchAis
  dsimp only
  generalize pickU64 bv 0 6 = n
  split
  case h_12 => exact erases_handleT24 _ _ _ _
  case h_14 =>
    split
    case h_14 => exact ⟨rfl, rfl⟩
    all_goals exfalso
    case h_1 => exact ‹1 = 1 → False› rfl
    case h_2 => exact ‹2 = 2 → False› rfl
    case h_3 => exact ‹3 = 3 → False› rfl
    case h_4 => exact ‹4 = 4 → False› rfl
    case h_5 => exact ‹5 = 5 → False› rfl
    case h_6 => exact ‹6 = 6 → False› rfl
    case h_7 => exact ‹9 = 9 → False› rfl
    case h_8 => exact ‹10 = 10 → False› rfl
    case h_9 => exact ‹18 = 18 → False› rfl
    case h_10 => exact ‹19 = 19 → False› rfl
    case h_11 => exact ‹21 = 21 → False› rfl
    case h_12 => exact ‹24 = 24 → False› rfl
    case h_13 => exact ‹27 = 27 → False› rfl
  all_goals exact ⟨rfl, rfl⟩

theorem erases_assemble (ty : Str) (v : VdmVars) (c : Counted) :
    Erases (assembleC ty v c) (assemble ty v c.parser) := by
  have key : ∀ k k' (f : Str → Str) w,
      Erases (match c.pullString k with
        | (some q, p') => (some (f q), p')
        | (none, p') => (none, p'.pushString k' w))
        (match c.parser.pullString k with
        | (some q, p') => (some (f q), p')
        | (none, p') => (none, p'.pushString k' w)) := by
    intro k k' f w
    unfold Counted.pullString
    rcases e : c.parser.pullString k with ⟨x, p'⟩
    cases x with
    | none => exact ⟨rfl, rfl⟩
    | some y => exact ⟨rfl, rfl⟩
  unfold assembleC assemble
  refine erases_ite _ _ _ _ _ ⟨rfl, rfl⟩ (erases_ite _ _ _ _ _ ?_ ⟨rfl, rfl⟩)
  cases v.messageId with
  | none => exact ⟨rfl, rfl⟩
  | some i =>
    exact erases_ite _ _ _ _ _ (key _ _ (fun q => v.payload ++ q) _)
      (erases_ite _ _ _ _ _ (key _ _ (fun q => q ++ v.payload) _) ⟨rfl, rfl⟩)

theorem erases_handleVdm (env : Env) (ty body : Str) (st : Station) (c : Counted) :
    Erases (handleVdmC env ty body st c) (handleVdm env ty body st c.parser) := by
  unfold handleVdmC handleVdm
  dsimp only
  cases vdmLoop 0 VdmVars.init (splitChar ',' body) with
  | err e => exact ⟨rfl, rfl⟩
  | panic => exact ⟨rfl, rfl⟩
  | ok v =>
    dsimp only
    have hp := erases_assemble ty v c
    rcases e : assembleC ty v c with ⟨x, c'⟩
    rcases e' : assemble ty v c.parser with ⟨x', p'⟩
    rw [e, e'] at hp
    obtain ⟨rfl : x = x', rfl : c'.parser = p'⟩ := hp
    cases x with
    | none => exact ⟨rfl, rfl⟩
    | some y =>
      dsimp only
      cases parsePayload env.overflowChecks y with
      | ok bv => exact erases_dispatchAis _ _ _ _ _ _
      | err e => exact ⟨rfl, rfl⟩
      | panic => exact ⟨rfl, rfl⟩

theorem gsvFoundC_eq (t : Str) (n : Nat) (is : List Nat) (c : Counted) :
    gsvFoundC t n is c = (gsvFound c.parser t n is, ⟨c.parser, c.calls + is.length⟩) := by
  induction is generalizing c with
  | nil => rfl
  | cons i is ih =>
    simp only [gsvFoundC, Counted.containsKey, ih, gsvFound, List.length_cons]
    congr 2
    omega

theorem gsvCollectC_eq (nav : NavigationSystem) (t : Str) (n : Nat) (is : List Nat) (c : Counted) :
    gsvCollectC nav t n is c =
      ((gsvCollect nav t n is c.parser).1, ⟨(gsvCollect nav t n is c.parser).2, c.calls + is.length⟩) := by
  induction is generalizing c with
  | nil => rfl
  | cons i is ih =>
    simp only [gsvCollectC, Counted.pullString, gsvCollect]
    rcases e : c.parser.pullString (makeGsvKey t n i) with ⟨x, p'⟩
    cases x with
    | none =>
      dsimp only
      rw [ih]
      dsimp only
      congr 2
      simp only [List.length_cons]
      omega
    | some y =>
      dsimp only
      rw [ih]
      dsimp only
      congr 2
      simp only [List.length_cons]
      omega

theorem erases_handleGsv (oc : Bool) (body : Str) (nav : NavigationSystem) (c : Counted) :
    Erases (handleGsvC oc body nav c) (handleGsv oc body nav c.parser) := by
  unfold handleGsvC handleGsv
  dsimp only
  simp only [gsvFoundC_eq, gsvCollectC_eq, Counted.pushString]
  cases numField parseU32 (splitChar ',' body) 1 with
  | err e => exact ⟨rfl, rfl⟩
  | panic => exact ⟨rfl, rfl⟩
  | ok mc =>
    dsimp only
    cases numField parseU32 (splitChar ',' body) 2 with
    | err e => exact ⟨rfl, rfl⟩
    | panic => exact ⟨rfl, rfl⟩
    | ok mn =>
      dsimp only
      by_cases h : mc.getD 0 + 1 = 2 ^ 32 ∧ oc = true
      · simp only [if_pos h]
        exact ⟨rfl, rfl⟩
      · simp only [if_neg h]
        split <;> exact ⟨rfl, rfl⟩

theorem erases_dispatch (env : Env) (c : Counted) (ty body : Str) (nav : Option NavigationSystem) (st : Option Station) :
    Erases (dispatchC env c ty body nav st) (dispatch env c.parser ty body nav st) := by
  unfold dispatchC dispatch
  repeat' (refine erases_ite _ _ _ _ _ ?_ ?_)
  all_goals first | exact ⟨rfl, rfl⟩ | exact erases_handleGsv _ _ _ _ | exact erases_handleVdm _ _ _ _ _

/-- The counter does not change what is computed. -/
theorem erases_parseSentence (env : Env) (c : Counted) (s : Str) :
    Erases (parseSentenceC env c s) (parseSentence env c.parser s) := by
  unfold parseSentenceC parseSentence
  dsimp only
  refine erases_ite _ _ _ _ _ ⟨rfl, rfl⟩ ?_
  generalize (splitChecksum s).1 = body
  unfold parseBodyC parseBody
  cases beforeComma body with
  | none => exact ⟨rfl, rfl⟩
  | some ty =>
    dsimp only
    cases recognize '$' navSystemOf ty with
    | err e => exact ⟨rfl, rfl⟩
    | panic => exact ⟨rfl, rfl⟩
    | ok x =>
      obtain ⟨nav, ty⟩ := x
      dsimp only
      cases recognize '!' stationOf ty with
      | err e => exact ⟨rfl, rfl⟩
      | panic => exact ⟨rfl, rfl⟩
      | ok x => exact erases_dispatch _ _ _ _ _ _

/-! ### Numbers of calls -/

theorem calls_handleT24 (bv : Bits) (st : Station) (c : Counted) (own : Bool) :
    c.calls ≤ (handleT24C bv st c own).2.calls ∧ (handleT24C bv st c own).2.calls ≤ c.calls + 2 := by
  have key : ∀ v, c.calls ≤ (t24StoreC v c).2.calls ∧ (t24StoreC v c).2.calls ≤ c.calls + 2 := by
    intro v
    unfold t24StoreC Counted.pullVsd
    rcases e : c.parser.pullVsd v.mmsi with ⟨x, p'⟩
    cases x with
    | none => simp only [Counted.pushVsd]; omega
    | some y =>
      dsimp only
      split <;> (dsimp only; omega)
  unfold handleT24C
  dsimp only
  split
  · split <;> first | exact key _ | (dsimp only; omega)
  · split <;> first | exact key _ | (dsimp only; omega)
  · dsimp only; omega

theorem calls_dispatchAis (env : Env) (ty : Str) (bv : Bits) (st : Station) (own : Bool) (c : Counted) :
    c.calls ≤ (dispatchAisC env ty bv st own c).2.calls ∧
      (dispatchAisC env ty bv st own c).2.calls ≤ c.calls + 2 := by
  unfold dispatchAisC
  dsimp only
  split
  case h_12 => exact calls_handleT24 _ _ _ _
  all_goals (dsimp only; omega)

theorem calls_assemble (ty : Str) (v : VdmVars) (c : Counted) :
    c.calls ≤ (assembleC ty v c).2.calls ∧ (assembleC ty v c).2.calls ≤ c.calls + 2 ∧
      ((assembleC ty v c).1.isSome → (assembleC ty v c).2.calls ≤ c.calls + 1) := by
  have key : ∀ k k' (f : Str → Str) w,
      let x := (match c.pullString k with
        | (some q, p') => (some (f q), p')
        | (none, p') => (none, p'.pushString k' w) : Option Str × Counted)
      c.calls ≤ x.2.calls ∧ x.2.calls ≤ c.calls + 2 ∧ (x.1.isSome → x.2.calls ≤ c.calls + 1) := by
    intro k k' f w
    unfold Counted.pullString
    rcases e : c.parser.pullString k with ⟨x, p'⟩
    cases x with
    | none => simp [Counted.pushString]; omega
    | some y => simp
  unfold assembleC
  split
  · simp
  · split
    · split
      · dsimp only
        split
        · exact key _ _ (fun q => v.payload ++ q) _
        · split
          · exact key _ _ (fun q => q ++ v.payload) _
          · simp
      · simp
    · simp

theorem calls_handleVdm (env : Env) (ty body : Str) (st : Station) (c : Counted) :
    c.calls ≤ (handleVdmC env ty body st c).2.calls ∧ (handleVdmC env ty body st c).2.calls ≤ c.calls + 3 := by
  unfold handleVdmC
  dsimp only
  split
  · dsimp only; omega
  · dsimp only; omega
  · rename_i v _
    have hp := calls_assemble ty v c
    rcases e : assembleC ty v c with ⟨x, c'⟩
    rw [e] at hp
    cases x with
    | none => dsimp only at hp ⊢; omega
    | some y =>
      have h1 := hp.2.2 rfl
      have h0 := hp.1
      dsimp only at h0 h1 ⊢
      split
      · rename_i bv _
        have := calls_dispatchAis env ty bv st (decide (ty = c! "!VDO")) c'
        omega
      · dsimp only; omega
      · dsimp only; omega

theorem calls_gsv_err (oc : Bool) (body : Str) (nav : NavigationSystem) (c : Counted) :
    (handleGsvC oc body nav c).2.calls ≤ c.calls + 1 ∨ ∃ r, (handleGsvC oc body nav c).1 = .ok r := by
  unfold handleGsvC
  dsimp only
  simp only [gsvFoundC_eq, gsvCollectC_eq, Counted.pushString]
  split
  · left; dsimp only; omega
  · left; dsimp only; omega
  · split
    · left; dsimp only; omega
    · left; dsimp only; omega
    · split
      · left; dsimp only; omega
      · split <;> exact .inr ⟨_, rfl⟩

theorem calls_dispatch (env : Env) (c : Counted) (ty body : Str) (nav : Option NavigationSystem) (st : Option Station)
    (h : ty ≠ c! "$GSV") : (dispatchC env c ty body nav st).2.calls ≤ c.calls + 3 := by
  unfold dispatchC
  rw [if_neg h]
  repeat' split
  all_goals first | exact (calls_handleVdm _ _ _ _ _).2 | (dsimp only; omega)

theorem calls_or_ok (env : Env) (c : Counted) (s : Str) :
    (parseSentenceC env c s).2.calls ≤ c.calls + 3 ∨ ∃ r, (parseSentenceC env c s).1 = .ok r := by
  have key : ∀ ty body nav st, (dispatchC env c ty body nav st).2.calls ≤ c.calls + 3 ∨
      ∃ r, (dispatchC env c ty body nav st).1 = .ok r := by
    intro ty body nav st
    by_cases h : ty = c! "$GSV"
    · subst h
      simp only [dispatchC, show ¬ c! "$GSV" = c! "$GGA" by decide, show ¬ c! "$GSV" = c! "$RMC" by decide,
        show ¬ c! "$GSV" = c! "$GSA" by decide, if_false, if_true]
      rcases calls_gsv_err env.overflowChecks body (nav.getD .other) c with h | h
      · exact .inl (by omega)
      · exact .inr h
    · exact .inl (calls_dispatch env c ty body nav st h)
  unfold parseSentenceC parseBodyC
  dsimp only
  repeat' split
  all_goals first | exact key _ _ _ _ | (left; dsimp only; omega)

/-! ### Routes -/

theorem parseC_finish (env : Env) (c : Counted) (body : Str) (e : Ending) (h : Framed body e) :
    parseSentenceC env c (finish body e) = parseBodyC env c body := by
  cases e with
  | bare => simp [parseSentenceC, finish, splitChecksum_bare body (h rfl)]
  | star => simp [parseSentenceC, finish, splitChecksum_star body [] (by simp)]
  | full =>
    simp [parseSentenceC, finish, splitChecksum_star body _ (star_not_mem_checksumText body),
      hex2_checksum]

theorem evalC_dollar (env : Env) (c : Counted) (talker kind : Str) (fs : List Str) (s : Str)
    (hk : byteLen kind = 3) (hc : ',' ∉ kind) (h : IsGnss talker kind fs s) :
    parseSentenceC env c s =
      dispatchC env c ('$' :: kind) (join (tag '$' talker kind) fs) (some (navSystemOf talker)) none := by
  obtain ⟨ht, hcf, hne, e, hf, rfl⟩ := h
  rw [parseC_finish _ _ _ _ hf]
  have hc : ',' ∉ tag '$' talker kind := comma_not_mem_tag _ _ _ (by decide) ht.2 hc
  obtain ⟨f, fs, rfl⟩ := List.exists_cons_of_ne_nil hne
  rw [join_cons]
  simp only [parseBodyC, beforeComma_append _ _ hc]
  simp only [tag]
  rw [recognize_full '$' dollar_size navSystemOf talker kind ht.1 hk]
  simp only []
  rw [recognize_other '!' '$' dollar_size (by decide)]

theorem evalC_bang (env : Env) (c : Counted) (talker kind : Str) (fs : List Str) (s : Str)
    (hk : byteLen kind = 3) (hc : ',' ∉ kind) (h : IsTagged '!' talker kind fs s) :
    parseSentenceC env c s =
      dispatchC env c ('!' :: kind) (join (tag '!' talker kind) fs) none (some (stationOf talker)) := by
  obtain ⟨ht, hcf, hne, e, hf, rfl⟩ := h
  rw [parseC_finish _ _ _ _ hf]
  have hc : ',' ∉ tag '!' talker kind := comma_not_mem_tag _ _ _ (by decide) ht.2 hc
  obtain ⟨f, fs, rfl⟩ := List.exists_cons_of_ne_nil hne
  rw [join_cons]
  simp only [parseBodyC, beforeComma_append _ _ hc]
  have : recognize '$' navSystemOf (tag '!' talker kind) = .ok (none, tag '!' talker kind) :=
    recognize_other '$' '!' bang_size (by decide) _ _
  rw [this]
  simp only [tag]
  rw [recognize_full '!' bang_size stationOf talker kind ht.1 hk]

/-- All sentences but GSV sentences need at most three calls. -/
theorem calls_other (env : Env) (c : Counted) (s : Str) (h : ∀ talker fs, ¬ IsGnss talker (c! "GSV") fs s) :
    (parseSentenceC env c s).2.calls ≤ c.calls + 3 := by
  have er : ∀ a, (parseSentence env c.parser s).1 = a → (∀ r, a ≠ .ok r) →
      (parseSentenceC env c s).2.calls ≤ c.calls + 3 := by
    intro a ha hn
    rcases calls_or_ok env c s with h | ⟨r, h⟩
    · exact h
    · rw [(erases_parseSentence env c s).1, ha] at h
      exact absurd h (hn r)
  cases shape s with
  | corrupted a b h' h1 h2 h3 => exact er _ (by rw [h', parse_corrupted env _ a b h1 h2 h3]) (fun r e => by cases e)
  | noComma body e hf hs hc =>
    exact er _ (by rw [hs, parse_finish _ _ _ _ hf, parseBody_noComma _ _ _ hc]) (fun r e => by cases e)
  | badTag ty rest e hf hs h1 h2 =>
    exact er _ (by rw [hs, parse_finish _ _ _ _ hf, parseBody_badTag _ _ _ _ h1 h2]) (fun r e => by cases e)
  | oddTag ty rest e hf hs h1 h2 =>
    exact er _ (by rw [hs, parse_finish _ _ _ _ hf, parseBody_oddTag _ _ _ _ h1 h2]) (fun r e => by cases e)
  | dollar talker kind fs hk hc hs =>
    rw [evalC_dollar env c talker kind fs s hk hc hs]
    refine calls_dispatch _ _ _ _ _ _ (fun e => ?_)
    have : kind = c! "GSV" := (List.cons.inj e).2
    subst this
    exact h _ _ hs
  | bang talker kind fs hk hc hs =>
    rw [evalC_bang env c talker kind fs s hk hc hs]
    exact calls_dispatch _ _ _ _ _ _ (fun e => absurd (List.cons.inj e).1 (by decide))

/-- A GSV sentence: one call to store it, one for every announced sentence to count, and as many again to collect. -/
theorem calls_gsv (env : Env) (c : Counted) (talker : Str) (n k : Nat) (fs : List Str) (s : Str)
    (hs : GsvPart talker n k fs s) (hn : n ≠ 2 ^ 32 - 1) :
    ((∃ sats, (parseSentenceC env c s).1 = .ok (.gsv sats)) ∧
      (parseSentenceC env c s).2.calls = c.calls + 1 + 2 * n) ∨
    ((parseSentenceC env c s).1 = .ok .incomplete ∧ (parseSentenceC env c s).2.calls = c.calls + 1 + n) := by
  have hle := hs.2.1.le
  have hsp := splitChar_tag '$' talker (c! "GSV") fs (by decide) hs.1.1 (by decide) hs.1.2.1
  have e1 : ∃ o, numField parseU32 (tag '$' talker (c! "GSV") :: fs) 1 = .ok o ∧ o.getD 0 = n := by
    rcases numField_u32 (tag '$' talker (c! "GSV") :: fs) 1 with ⟨m, h1, h⟩ | ⟨o, h1, h⟩
    · exact absurd hs.2.1 (h n)
    · exact ⟨o, h1, h.unique hs.2.1⟩
  have e2 : ∃ o, numField parseU32 (tag '$' talker (c! "GSV") :: fs) 2 = .ok o ∧ o.getD 0 = k := by
    rcases numField_u32 (tag '$' talker (c! "GSV") :: fs) 2 with ⟨m, h1, h⟩ | ⟨o, h1, h⟩
    · exact absurd hs.2.2 (h k)
    · exact ⟨o, h1, h.unique hs.2.2⟩
  obtain ⟨o1, e1, rfl⟩ := e1
  obtain ⟨o2, e2, rfl⟩ := e2
  have hidx : asU32 (o1.getD 0 + 1) - 1 = o1.getD 0 := by unfold asU32; omega
  rw [evalC_dollar env c talker _ fs s (by decide) (by decide) hs.1]
  simp only [dispatchC, show ¬ '$' :: c! "GSV" = c! "$GGA" by decide, show ¬ '$' :: c! "GSV" = c! "$RMC" by decide,
    show ¬ '$' :: c! "GSV" = c! "$GSA" by decide, if_false, if_true,
    handleGsvC, hsp, e1, e2, gsvFoundC_eq, gsvCollectC_eq, Counted.pushString, hidx, List.length_range']
  rw [if_neg (by omega)]
  split
  · left
    exact ⟨⟨_, rfl⟩, by dsimp only; omega⟩
  · right
    exact ⟨rfl, rfl⟩

/-- A GSV sentence whose count is the largest number stores itself and counts nothing. -/
theorem calls_gsv_max (env : Env) (c : Counted) (talker : Str) (k : Nat) (fs : List Str) (s : Str)
    (hs : GsvPart talker (2 ^ 32 - 1) k fs s) : (parseSentenceC env c s).2.calls = c.calls + 1 := by
  have hsp := splitChar_tag '$' talker (c! "GSV") fs (by decide) hs.1.1 (by decide) hs.1.2.1
  have e1 : ∃ o, numField parseU32 (tag '$' talker (c! "GSV") :: fs) 1 = .ok o ∧ o.getD 0 = 2 ^ 32 - 1 := by
    rcases numField_u32 (tag '$' talker (c! "GSV") :: fs) 1 with ⟨m, h1, h⟩ | ⟨o, h1, h⟩
    · exact absurd hs.2.1 (h _)
    · exact ⟨o, h1, h.unique hs.2.1⟩
  have e2 : ∃ o, numField parseU32 (tag '$' talker (c! "GSV") :: fs) 2 = .ok o ∧ o.getD 0 = k := by
    rcases numField_u32 (tag '$' talker (c! "GSV") :: fs) 2 with ⟨m, h1, h⟩ | ⟨o, h1, h⟩
    · exact absurd hs.2.2 (h k)
    · exact ⟨o, h1, h.unique hs.2.2⟩
  obtain ⟨o1, e1, h1⟩ := e1
  obtain ⟨o2, e2, rfl⟩ := e2
  rw [evalC_dollar env c talker _ fs s (by decide) (by decide) hs.1]
  simp only [dispatchC, show ¬ '$' :: c! "GSV" = c! "$GGA" by decide, show ¬ '$' :: c! "GSV" = c! "$RMC" by decide,
    show ¬ '$' :: c! "GSV" = c! "$GSA" by decide, if_false, if_true,
    handleGsvC, hsp, e1, e2, gsvFoundC_eq, gsvCollectC_eq, Counted.pushString, h1]
  split
  · rfl
  · have : asU32 (2 ^ 32 - 1 + 1) - 1 = 0 := by decide
    simp only [this, List.range', List.length_nil]
    split <;> rfl

end Nmea
