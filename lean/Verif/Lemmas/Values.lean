/-
Positions and motions of arbitrary AIS payloads.
-/
import Verif.Lemmas.Outcome
import Verif.Spec.Values

namespace Nmea
open Spec

theorem eval_bits (env : Env) (p : Parser) (s talker : Str) (own : Bool) (bits : Bits)
    (h : DeliversBits env p s talker own bits) : ∃ q, q.savedVsds = p.savedVsds ∧
      parseSentence env p s = dispatchAis env ('!' :: aisKind own) bits (talkerStation talker) own q := by
  obtain ⟨payload, h1, h2, rfl⟩ := h
  exact eval_readable env p s talker own payload h1 h2

theorem snum_eq (bits : Bits) (i w : Nat) (h1 : 1 ≤ w) (h2 : w ≤ 63) : pickI64 bits i w = snum bits i w :=
  pickI64_window bits i w h1 h2

theorem snum_bounds (bits : Bits) (i w : Nat) (h : 1 ≤ w) :
    -(2 ^ (w - 1) : Int) ≤ snum bits i w ∧ snum bits i w < 2 ^ (w - 1) := by
  have := signedVal_bounds (window bits i w) (by
    intro h'
    have := congrArg List.length h'
    rw [length_window] at this
    simp at this
    omega)
  rw [length_window] at this
  exact this

theorem lat_at (bits : Bits) (i : Nat) : Degrees 91 (snum bits i 27) (latBlock bits i) :=
  lat_spec bits i _ (snum_eq bits i 27 (by decide) (by decide)) (snum_bounds bits i 27 (by decide)).1
    (snum_bounds bits i 27 (by decide)).2

theorem lon_at (bits : Bits) (i : Nat) : Degrees 181 (snum bits i 28) (lonBlock bits i) :=
  lon_spec bits i _ (snum_eq bits i 28 (by decide) (by decide)) (snum_bounds bits i 28 (by decide)).1
    (snum_bounds bits i 28 (by decide)).2

theorem handleT4_position (bv : Bits) (st : Station) (own : Bool) (r : ParsedSentence)
    (h : handleT4 bv st own = .ok r) : ∃ d, r = .baseStationReport d ∧ d.latitude = latBlock bv 107 ∧
      d.longitude = lonBlock bv 79 ∧ d.positionFixType = fixTypeBlock bv 134 := by
  simp only [handleT4, Out.bind_eq_ok] at h
  obtain ⟨_, -, h⟩ := h
  cases h
  exact ⟨_, rfl, rfl, rfl, rfl⟩

theorem handleT21_position (bv : Bits) (st : Station) (own : Bool) : ∃ d,
    handleT21 bv st own = .ok (.aidToNavigationReport d) ∧ d.latitude = latBlock bv 192 ∧
      d.longitude = lonBlock bv 164 ∧
      d.positionFixType = some (PositionFixType.new (asU8 (pickU64 bv 249 4))) ∧
      d.aidType = navAidOrDefault (NavAidType.new (asU8 (pickU64 bv 38 5))) := by
  simp only [handleT21, liftErr_pickString, Out.ok_bind]
  exact ⟨_, rfl, rfl, rfl, rfl, rfl⟩

theorem position_spec (env : Env) (p : Parser) (s talker : Str) (own : Bool) (bits : Bits)
    (h : DeliversBits env p s talker own bits) (lonAt latAt : Nat)
    (ht : (typeOf bits, lonAt, latAt) ∈ positionAt) (r : ParsedSentence)
    (hr : (parseSentence env p s).1 = .ok r) :
    ∃ lat lon, positionOf r = some (lat, lon) ∧ Degrees 91 (snum bits latAt 27) lat ∧
      Degrees 181 (snum bits lonAt 28) lon := by
  obtain ⟨q, -, he⟩ := eval_bits env p s talker own bits h
  rw [he] at hr
  simp only [positionAt, List.mem_cons, List.not_mem_nil, or_false, Prod.mk.injEq] at ht
  have key : ∀ a b : Nat, (latAt = a → lonAt = b → ∀ r', r = r' → positionOf r' = some (latBlock bits a, lonBlock bits b) →
      ∃ lat lon, positionOf r = some (lat, lon) ∧ Degrees 91 (snum bits latAt 27) lat ∧
      Degrees 181 (snum bits lonAt 28) lon) := by
    rintro a b rfl rfl r' rfl h
    exact ⟨_, _, h, lat_at _ _, lon_at _ _⟩
  rcases ht with ⟨ht, h1, h2⟩ | ⟨ht, h1, h2⟩ | ⟨ht, h1, h2⟩ | ⟨ht, h1, h2⟩ | ⟨ht, h1, h2⟩ | ⟨ht, h1, h2⟩ | ⟨ht, h1, h2⟩ <;>
    rw [← typeOf_eq] at ht
  · rw [dispatch_123 (by simp [ht])] at hr; cases hr; exact key _ _ h2 h1 _ rfl rfl
  · rw [dispatch_123 (by simp [ht])] at hr; cases hr; exact key _ _ h2 h1 _ rfl rfl
  · rw [dispatch_123 (by simp [ht])] at hr; cases hr; exact key _ _ h2 h1 _ rfl rfl
  · rw [dispatch_4 ht] at hr
    obtain ⟨d, rfl, e1, e2, -⟩ := handleT4_position _ _ _ _ hr
    exact key _ _ h2 h1 _ rfl (by rw [positionOf, e1, e2])
  · rw [dispatch_9 ht] at hr; cases hr; exact key _ _ h2 h1 _ rfl rfl
  · rw [dispatch_18 ht] at hr; cases hr; exact key _ _ h2 h1 _ rfl rfl
  · rw [dispatch_21 ht] at hr
    obtain ⟨d, hd, e1, e2, -⟩ := handleT21_position bits (talkerStation talker) own
    rw [hd] at hr
    cases hr
    exact key _ _ h2 h1 _ rfl (by rw [positionOf, e1, e2])

theorem position27_spec (env : Env) (p : Parser) (s talker : Str) (own : Bool) (bits : Bits)
    (h : DeliversBits env p s talker own bits) (ht : typeOf bits = 27) : ∃ d,
    (parseSentence env p s).1 = .ok (.vesselDynamicData d) ∧
      Rounded (snum bits 44 18 / 600) d.latitude ∧ Rounded (snum bits 62 17 / 600) d.longitude := by
  obtain ⟨q, -, he⟩ := eval_bits env p s talker own bits h
  rw [he, dispatch_27 (by rw [typeOf_eq, ht])]
  have b1 := snum_bounds bits 44 18 (by decide)
  have b2 := snum_bounds bits 62 17 (by decide)
  norm_num at b1 b2
  refine ⟨_, rfl, ?_, ?_⟩
  · simp only [snum_eq bits 44 18 (by decide) (by decide)]
    rw [asI32_small _ (by omega) (by omega), if_pos (by omega)]
    exact rounded_div _ 600 (by rw [abs_le]; constructor <;> omega) (by norm_num) (by norm_num)
  · simp only [snum_eq bits 62 17 (by decide) (by decide)]
    rw [asI32_small _ (by omega) (by omega), if_pos (by omega)]
    exact rounded_div _ 600 (by rw [abs_le]; constructor <;> omega) (by norm_num) (by norm_num)

/-- A result with a position comes from one of the position-bearing message types. -/
theorem position_types (env : Env) (p : Parser) (s talker : Str) (own : Bool) (bits : Bits)
    (h : DeliversBits env p s talker own bits) (r : ParsedSentence)
    (hr : (parseSentence env p s).1 = .ok r) (hp : positionOf r ≠ none) :
    typeOf bits = 27 ∨ ∃ lonAt latAt, (typeOf bits, lonAt, latAt) ∈ positionAt := by
  obtain ⟨q, -, he⟩ := eval_bits env p s talker own bits h
  rw [he] at hr
  rcases dispatchAis_ok _ _ _ _ _ _ _ _ (Prod.ext hr rfl) with ⟨rfl, -⟩ | ⟨h1, -, -⟩
  · exact absurd rfl hp
  · rw [typeOf_eq] at h1
    cases r <;> simp only [positionOf, ne_eq, not_true_eq_false, aisTypesOf, List.mem_cons, List.not_mem_nil, or_false] at hp h1
    · rcases h1 with h1 | h1 | h1 | h1 | h1 <;> rw [h1]
      · exact .inr ⟨61, 89, by decide⟩
      · exact .inr ⟨61, 89, by decide⟩
      · exact .inr ⟨61, 89, by decide⟩
      · exact .inr ⟨57, 85, by decide⟩
      · exact .inl rfl
    · exact .inr ⟨79, 107, by rw [h1]; decide⟩
    · exact .inr ⟨61, 89, by rw [h1]; decide⟩
    · exact .inr ⟨164, 192, by rw [h1]; decide⟩

theorem rounded_within (q B : Rat) (h : |q| ≤ B) (hB : 1 ≤ B) (hB' : B ≤ 2 ^ 64) (d : F64) (hd : RoundsTo q d) :
    Within q (B * 2 ^ (-53 : Int)) d := by
  rw [(F64.roundsTo_iff q d).mp hd]
  exact F64.ofRat_value q B h hB hB'

theorem within_bound {q eps : Rat} {d : F64} (hd : Within q eps d) (B : Rat) (hB : |q| + eps ≤ B) :
    ∃ v, valueOf d = some v ∧ |v| ≤ B := by
  obtain ⟨v, h1, h2⟩ := hd
  refine ⟨v, h1, ?_⟩
  have := abs_sub_abs_le_abs_sub v q
  linarith

/-- Different integers over the same denominator stay apart. -/
theorem rounded_strict (k : Nat) (hk : 0 < k) (hk' : k ≤ 600000) (a b : Int) (ha : |(a : Rat) / k| ≤ 224)
    (hb : |(b : Rat) / k| ≤ 224) (x y : F64) (hx : RoundsTo (a / k) x) (hy : RoundsTo (b / k) y) (h : a < b) :
    F64Lt x y := by
  obtain ⟨u, hu, hu'⟩ := rounded_within _ 224 ha (by norm_num) (by norm_num) x hx
  obtain ⟨v, hv, hv'⟩ := rounded_within _ 224 hb (by norm_num) (by norm_num) y hy
  refine ⟨u, v, hu, hv, ?_⟩
  have hk0 : (0 : Rat) < k := by exact_mod_cast hk
  have hk1 : (k : Rat) ≤ 600000 := by exact_mod_cast hk'
  have hab : (a : Rat) + 1 ≤ b := by exact_mod_cast h
  have h1 : (a : Rat) / k + 1 / 600000 ≤ b / k := by
    have : (1 : Rat) / 600000 ≤ 1 / k := by
      apply one_div_le_one_div_of_le hk0 hk1
    have h2 : (a : Rat) / k + 1 / k = (a + 1) / k := by ring
    have h3 : ((a : Rat) + 1) / k ≤ b / k := by
      apply div_le_div_of_nonneg_right hab hk0.le
    linarith
  have he : (224 : Rat) * 2 ^ (-53 : Int) < 1 / 1300000 := by norm_num
  rw [abs_le] at hu' hv'
  linarith [hu'.1, hu'.2, hv'.1, hv'.2]

theorem degrees_abs (raw : Int) (B : Nat) (h1 : -(B : Int) * 600000 ≤ raw) (h2 : raw ≤ B * 600000) :
    |(raw : Rat) / 600000| ≤ B := by
  have h1' : -(B : Rat) * 600000 ≤ raw := by exact_mod_cast h1
  have h2' : (raw : Rat) ≤ B * 600000 := by exact_mod_cast h2
  rw [abs_le]
  constructor
  · rw [le_div_iff₀ (by norm_num)]; exact h1'
  · rw [div_le_iff₀ (by norm_num)]; exact h2'

/-! ### Rate of turn as a function of the transmitted integer -/

/-- The rate of turn computed for an integer. -/
def rotOf (raw : Int) : Option F64 :=
  let f (n : Int) : F64 :=
    F64.powi2 (F64.div (F64.div (F64.mul (F64.ofInt n) (F64.ofInt 708)) (F64.ofInt 126))
      (F64.ofRat (mkRat 4733 1000)))
  if -126 ≤ raw ∧ raw < 0 then some (F64.neg (f (-raw)))
  else if 0 ≤ raw ∧ raw ≤ 126 then some (f raw)
  else none

theorem turnRate_unique (n : Int) (a b : Rat) (ha : TurnRate n a) (hb : TurnRate n b) : a = b := by
  obtain ⟨c, x, y, h1, h2, h3, h4⟩ := ha
  obtain ⟨c', x', y', h1', h2', h3', h4'⟩ := hb
  have u : ∀ q (s t : Rat), RoundsTo q (.fin false s) → RoundsTo q (.fin false t) → s = t := by
    intro q s t hs ht
    rw [F64.roundsTo_iff] at hs ht
    exact (F64.fin.inj (hs.trans ht.symm)).2
  obtain rfl := u _ _ _ h1 h1'
  obtain rfl := u _ _ _ h2 h2'
  obtain rfl := u _ _ _ h3 h3'
  exact u _ _ _ h4 h4'

theorem turn_rotOf (raw : Int) (d : F64) (h : Turn raw (some d)) : raw.natAbs ≤ 126 ∧ rotOf raw = some d := by
  unfold Turn at h
  split at h
  · rename_i hc
    refine ⟨hc, ?_⟩
    obtain ⟨mag, h1, h2⟩ := h
    obtain ⟨mag', h1', e⟩ := turnRate_spec raw.natAbs hc
    obtain rfl := turnRate_unique _ _ _ h1 h1'
    rw [h2]; simp only [rotOf]
    by_cases hn : raw < 0
    · rw [if_pos (by omega), show -raw = (raw.natAbs : Int) by omega, e, decide_eq_true hn]
      rfl
    · rw [if_neg (by omega), if_pos (by omega), show F64.ofInt raw = F64.ofInt (raw.natAbs : Int) by congr 1; omega,
        e, decide_eq_false hn]
  · cases h

/-- Its value. -/
def rotVal (raw : Int) : Option Rat := (rotOf raw).bind valueOf

def optLt : Option Rat → Option Rat → Bool
  | some x, some y => decide (x < y)
  | _, _ => false

theorem optLt_some {a b : Option Rat} (h : optLt a b = true) : ∃ x y, a = some x ∧ b = some y ∧ x < y := by
  cases a <;> cases b <;> simp only [optLt, decide_eq_true_eq, Bool.false_eq_true] at h
  exact ⟨_, _, rfl, rfl, h⟩

theorem rotVal_step : ∀ n : Fin 252, optLt (rotVal ((n.val : Int) - 126)) (rotVal ((n.val : Int) - 125)) = true := by
  decide +kernel

theorem rotVal_zero : rotVal 0 = some 0 := by decide +kernel

theorem rotVal_neg : ∀ n : Fin 127, rotVal (-(n.val : Int)) = (rotVal n.val).map (fun x => -x) := by
  decide +kernel

theorem rotVal_lt (a b : Int) (ha : -126 ≤ a) (hb : b ≤ 126) (h : a < b) :
    ∃ x y, rotVal a = some x ∧ rotVal b = some y ∧ x < y := by
  have step : ∀ n : Int, -126 ≤ n → n < 126 → ∃ u v, rotVal n = some u ∧ rotVal (n + 1) = some v ∧ u < v := by
    intro n h1 h2
    have := optLt_some (rotVal_step ⟨(n + 126).toNat, by omega⟩)
    simp only [show (((n + 126).toNat : Nat) : Int) - 126 = n by omega,
      show (((n + 126).toNat : Nat) : Int) - 125 = n + 1 by omega] at this
    exact this
  have chain : ∀ k : Nat, ∀ n : Int, -126 ≤ n → n + k + 1 ≤ 126 →
      ∃ u v, rotVal n = some u ∧ rotVal (n + k + 1) = some v ∧ u < v := by
    intro k
    induction k with
    | zero => intro n h1 h2; simpa using step n h1 (by push_cast at h2; omega)
    | succ k ih =>
      intro n h1 h2
      obtain ⟨u, v, e1, e2, e3⟩ := ih n h1 (by push_cast at h2; omega)
      obtain ⟨v', w, e4, e5, e6⟩ := step (n + k + 1) (by omega) (by push_cast at h2; omega)
      rw [e2] at e4
      cases e4
      exact ⟨u, w, e1, by push_cast; rw [show n + ((k : Int) + 1) + 1 = n + k + 1 + 1 by ring]; exact e5, e3.trans e6⟩
  have := chain (b - a - 1).toNat a (by omega) (by omega)
  rw [show a + ((b - a - 1).toNat : Int) + 1 = b by omega] at this
  exact this

theorem turn_rotVal (raw : Int) (d : F64) (h : Turn raw (some d)) : raw.natAbs ≤ 126 ∧ rotVal raw = valueOf d := by
  obtain ⟨h1, h2⟩ := turn_rotOf raw d h
  exact ⟨h1, by rw [rotVal, h2]; rfl⟩

theorem rotVal_126 : optLt (some 22375) (rotVal 126) = true := by decide +kernel

theorem navAid_new_err (n : Nat) (h : 32 ≤ n) : ∃ m, NavAidType.new n = .err (.invalidSentence m) := by
  unfold NavAidType.new
  split <;> first | exact ⟨_, rfl⟩ | omega

theorem merge_ship (a b m : VesselStaticData) (h : a.merge b = .ok m) :
    m.shipType = a.shipType ∨ m.shipType = b.shipType := by
  simp only [VesselStaticData.merge] at h
  split at h
  · cases h
  · split at h
    · cases h
    · split at h
      · cases h
      · split at h
        · cases h
        · cases h
          simp only
          split
          · exact .inl rfl
          · exact .inr rfl

theorem completes_of_delivers {p : Parser} {s talker : Str} {own : Bool} {payload : Str}
    (h : Delivers p s talker own payload) : Completes p s own payload := by
  cases h with
  | single _ h => exact .single _ _ h
  | first id chan a b h hb => exact .first _ id chan a b h hb
  | second id chan a b h ha => exact .second _ id chan a b h ha

end Nmea
