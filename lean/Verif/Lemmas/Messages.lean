/-
Reading the fields of encoded AIS messages.
-/
import Verif.Lemmas.Static
import Verif.Lemmas.Float
import Verif.Lemmas.Calendar
import Verif.Lemmas.Dispatch
import Verif.Spec.Messages

namespace Nmea
open Spec

theorem eval_delivers (env : Env) (p : Parser) (s talker : Str) (own : Bool) (bits : Bits)
    (h : Delivers p s talker own (armor bits)) : ∃ q, q.savedVsds = p.savedVsds ∧
      parseSentence env p s = dispatchAis env ('!' :: aisKind own) bits (talkerStation talker) own q := by
  have key : ∀ payload, Delivers p s talker own payload → ∃ q, q.savedVsds = p.savedVsds ∧
      parseSentence env p s = complete env own (talkerStation talker) payload q := by
    intro payload h
    cases h with
    | single _ h => exact ⟨p, rfl, by rw [← stationOf_eq]; exact eval_Single env p talker own _ s h⟩
    | first id chan a b h hb =>
      refine ⟨{ p with savedFragments := p.savedFragments.erase (partKey own 2 id chan) }, rfl, ?_⟩
      rw [eval_part1 env p talker own id chan a s h, joinPart,
        show p.savedFragments.get (partKey own 2 id chan) = some b from hb]
    | second id chan a b h ha =>
      refine ⟨{ p with savedFragments := p.savedFragments.erase (partKey own 1 id chan) }, rfl, ?_⟩
      rw [eval_part2 env p talker own id chan b s h, joinPart,
        show p.savedFragments.get (partKey own 1 id chan) = some a from ha]
  obtain ⟨q, h1, h2⟩ := key _ h
  exact ⟨q, h1, by rw [h2, complete_armor]⟩

/-! ### Reported values -/

theorem degrees_spec (na raw : Int) (hr : |raw| ≤ 2 ^ 53) :
    Degrees na raw (if raw ≠ na * 600000 then some (F64.div (F64.ofInt raw) (F64.ofInt 600000)) else none) := by
  unfold Degrees
  by_cases h : raw = na * 600000
  · rw [if_pos h, if_neg (not_not.mpr h)]
  · rw [if_neg h, if_pos h, F64.div_ofInt raw 600000 hr (by norm_num) (by norm_num)]
    exact ⟨_, rfl, by push_cast; exact F64.ofRat_roundsTo _⟩

theorem lat_spec (bv : Bits) (i : Nat) (raw : Int) (h : pickI64 bv i 27 = raw) (h1 : -2 ^ 26 ≤ raw) (h2 : raw < 2 ^ 26) :
    Degrees 91 raw (latBlock bv i) := by
  have := degrees_spec 91 raw (by rw [abs_le]; constructor <;> omega)
  simp only [latBlock, h]
  rwa [asI32_small raw (by omega) (by omega)]

theorem lon_spec (bv : Bits) (i : Nat) (raw : Int) (h : pickI64 bv i 28 = raw) (h1 : -2 ^ 27 ≤ raw) (h2 : raw < 2 ^ 27) :
    Degrees 181 raw (lonBlock bv i) := by
  have := degrees_spec 181 raw (by rw [abs_le]; constructor <;> omega)
  simp only [lonBlock, h]
  rwa [asI32_small raw (by omega) (by omega)]

/-- The double next to one tenth. -/
def tenth : Rat := 3602879701896397 / 36028797018963968

theorem f64Tenth_eq : f64Tenth = .fin false tenth := by decide +kernel

theorem natF64_small (n : Nat) (h : n ≤ 2 ^ 53) : natF64 n = .fin false (n : Rat) := by
  unfold natF64
  rw [F64.ofInt_exact _ (by rw [Nat.abs_cast]; exact_mod_cast h)]
  simp

theorem rounded_nat (n : Nat) : Rounded n (some (natF64 n)) := by
  refine ⟨_, rfl, ?_⟩
  have := F64.ofRat_roundsTo (n : Rat)
  unfold natF64 F64.ofInt
  push_cast
  exact this

theorem tenths_spec (n : Nat) (h : n ≤ 2 ^ 53) : Tenths n (some (F64.mul (natF64 n) f64Tenth)) := by
  refine ⟨tenth, ?_, _, rfl, ?_⟩
  · rw [← f64Tenth_eq]
    have := F64.ofRat_roundsTo (1 / 10)
    unfold f64Tenth
    rw [show mkRat 1 10 = (1 / 10 : Rat) by decide +kernel]
    exact this
  · rw [natF64_small n h, f64Tenth_eq, F64.mul_fin _ _ (by positivity) (by norm_num [tenth])]
    exact F64.ofRat_roundsTo _

theorem speed_spec (bv : Bits) (i raw : Nat) (h : pickU64 bv i 10 = raw) (hr : raw < 1024) :
    Speed raw (sogBlock bv i) := by
  simp only [sogBlock, h, Speed]
  by_cases hc : raw = 1023
  · rw [if_pos hc, if_neg (by omega)]
  · rw [if_neg hc, if_pos (by omega)]
    exact tenths_spec raw (by omega)

theorem course_spec (bv : Bits) (i raw : Nat) (h : pickU64 bv i 12 = raw) (hr : raw < 4096) :
    Course raw (cogBlock bv i) := by
  simp only [cogBlock, h, Course]
  by_cases hc : raw = 3600
  · rw [if_pos hc, if_neg (by omega)]
  · rw [if_neg hc, if_pos (by omega)]
    exact tenths_spec raw (by omega)

theorem heading_spec (bv : Bits) (i raw : Nat) (h : pickU64 bv i 9 = raw) : Heading raw (headingBlock bv i) := by
  simp only [headingBlock, h, Heading]
  by_cases hc : raw = 511
  · rw [if_pos hc, if_neg (by omega)]
  · rw [if_neg hc, if_pos (by omega)]
    exact rounded_nat raw

theorem nav_eq (n : Nat) (h : n < 16) : some (NavigationStatus.new n) = navStatusTable[n]? := by
  have : ∀ n : Fin 16, some (NavigationStatus.new n.val) = navStatusTable[n.val]? := by decide +kernel
  exact this ⟨n, h⟩

theorem meta_eq (n : Nat) (h : n < 64) (bv : Bits) (i : Nat) (hb : pickU64 bv i 6 = n) : metaBlock bv i = metaOf n := by
  have : ∀ n : Fin 64, (match asU16 n.val with
      | 60 => none
      | 61 => some PositioningSystemMeta.manualInputMode
      | 62 => some .deadReckoningMode
      | 63 => some .inoperative
      | _ => some .operative) = metaOf n.val := by decide +kernel
  unfold metaBlock
  rw [hb]
  exact this ⟨n, h⟩

theorem manoeuvre_eq (n : Nat) (h : n < 4) (bv : Bits) (i : Nat) (hb : pickU64 bv i 2 = n) :
    manoeuvreBlock bv i = reportedManoeuvre n := by
  unfold manoeuvreBlock
  rw [hb]
  rcases (by omega : n = 0 ∨ n = 1 ∨ n = 2 ∨ n = 3) with rfl | rfl | rfl | rfl <;> rfl

theorem fix_eq (n : Nat) (h : n < 16) : PositionFixType.new n = fixOf n := by
  have : ∀ n : Fin 16, PositionFixType.new n.val = fixOf n.val := by decide +kernel
  exact this ⟨n, h⟩

theorem optFix_eq (n : Nat) (h : n < 16) (bv : Bits) (i : Nat) (hb : pickU64 bv i 4 = n) :
    fixTypeBlock bv i = optFix n := by
  have : ∀ n : Fin 16, (match asU8 n.val with
      | 0 => none
      | raw => some (PositionFixType.new raw)) = optFix n.val := by decide +kernel
  unfold fixTypeBlock
  rw [hb]
  exact this ⟨n, h⟩

theorem rotDir_eq (bv : Bits) (raw : Int) (h : pickI64 bv 42 8 = raw) (h1 : -128 ≤ raw) (h2 : raw ≤ 127) :
    rotDirBlock bv = turnDirection raw := by
  simp only [rotDirBlock, turnDirection, h]
  repeat' split
  all_goals first | rfl | omega

/-- The double next to 4.733. -/
def turnConst : Rat := 5328884259086139 / 1125899906842624

theorem turnConst_eq : F64.ofRat (mkRat 4733 1000) = .fin false turnConst := by decide +kernel

theorem ofRat_nonneg_fin (q : Rat) (h0 : 0 ≤ q) (h : q ≤ 2 ^ 64) : F64.ofRat q = .fin false (F64.roundMag q) := by
  rw [F64.ofRat_fin q (F64.small_le _ (by rwa [abs_of_nonneg h0])), abs_of_nonneg h0,
    decide_eq_false (not_lt.mpr h0)]

theorem roundMag_le (q : Rat) (n : Nat) (h0 : 0 ≤ q) (h : q ≤ n) (hn : n ≤ 2 ^ 53) : F64.roundMag q ≤ n := by
  have := F64.roundMag_mono q n h0 h
  rwa [F64.roundMag_exact _ (F64.rep_nat n hn)] at this

theorem turnRate_spec (n : Nat) (hn : n ≤ 126) : ∃ mag, TurnRate n mag ∧
    F64.powi2 (F64.div (F64.div (F64.mul (F64.ofInt n) (F64.ofInt 708)) (F64.ofInt 126))
      (F64.ofRat (mkRat 4733 1000))) = .fin false mag := by
  have hn' : (n : Rat) ≤ 126 := by exact_mod_cast hn
  have h0 : (0 : Rat) ≤ n := by positivity
  -- the product is exact
  have e1 : F64.mul (F64.ofInt n) (F64.ofInt 708) = F64.ofInt (n * 708 : Int) := by
    rw [F64.ofInt_exact (n : Int) (by rw [Nat.abs_cast]; omega), F64.ofInt_exact 708 (by norm_num)]
    rw [decide_eq_false (by omega), show decide ((708 : Int) < 0) = false by decide,
      F64.mul_fin _ _ (abs_nonneg _) (abs_nonneg _)]
    unfold F64.ofInt
    congr 1
    push_cast
    rw [abs_of_nonneg h0, abs_of_nonneg (by norm_num)]
  have e2 : F64.div (F64.ofInt (n * 708 : Int)) (F64.ofInt 126) = F64.ofRat (n * 708 / 126) := by
    rw [F64.div_ofInt _ _ (by rw [abs_of_nonneg (by positivity)]; omega) (by norm_num) (by norm_num)]
    push_cast; rfl
  have ha0 : (0 : Rat) ≤ n * 708 / 126 := by positivity
  have ha1 : (n : Rat) * 708 / 126 ≤ (708 : Nat) := by push_cast; linarith
  have ea := ofRat_nonneg_fin _ ha0 (ha1.trans (by norm_num))
  generalize hA : F64.roundMag ((n : Rat) * 708 / 126) = a at ea
  have hra0 : 0 ≤ a := hA ▸ F64.roundMag_nonneg _ ha0
  have hra1 : a ≤ (708 : Nat) := hA ▸ roundMag_le _ 708 ha0 ha1 (by norm_num)
  have hc : (0 : Rat) < turnConst := by norm_num [turnConst]
  have hc1 : (1 : Rat) ≤ turnConst := by norm_num [turnConst]
  have hb0 : 0 ≤ a / turnConst := by positivity
  have hb1 : a / turnConst ≤ (708 : Nat) := by
    rw [div_le_iff₀ hc]
    push_cast at hra1 ⊢
    nlinarith
  have eb := ofRat_nonneg_fin _ hb0 (hb1.trans (by norm_num))
  generalize hB : F64.roundMag (a / turnConst) = b at eb
  have hrb0 : 0 ≤ b := hB ▸ F64.roundMag_nonneg _ hb0
  have hrb1 : b ≤ (708 : Nat) := hB ▸ roundMag_le _ 708 hb0 hb1 (by norm_num)
  have hm0 : 0 ≤ b * b := by positivity
  have hm1 : b * b ≤ (708 * 708 : Nat) := by push_cast at hrb1 ⊢; nlinarith
  have em := ofRat_nonneg_fin _ hm0 (hm1.trans (by norm_num))
  refine ⟨F64.roundMag (b * b), ⟨turnConst, a, b, ?_, ?_, ?_, ?_⟩, ?_⟩
  · rw [← turnConst_eq]
    have := F64.ofRat_roundsTo (4733 / 1000)
    rw [show mkRat 4733 1000 = (4733 / 1000 : Rat) by decide +kernel]
    exact this
  · rw [← ea]; push_cast; exact F64.ofRat_roundsTo _
  · rw [← eb]; exact F64.ofRat_roundsTo _
  · rw [← em]; exact F64.ofRat_roundsTo _
  · rw [e1, e2, ea, turnConst_eq]
    have : F64.div (.fin false a) (.fin false turnConst) = F64.ofRat (a / turnConst) := by
      simp only [F64.div]
      rw [if_neg hc.ne', F64.ofRat_abs, abs_of_nonneg hb0, decide_eq_false (not_lt.mpr hb0)]
      rfl
    rw [this, eb]
    simp only [F64.powi2]
    rw [F64.mul_fin _ _ hrb0 hrb0, em]

theorem turn_spec (bv : Bits) (raw : Int) (h : pickI64 bv 42 8 = raw) (h1 : -128 ≤ raw) (h2 : raw ≤ 127) :
    Turn raw (rotBlock bv) := by
  simp only [rotBlock, h, Turn]
  by_cases hc : raw.natAbs ≤ 126
  · rw [if_pos hc]
    obtain ⟨mag, hm, he⟩ := turnRate_spec raw.natAbs hc
    refine ⟨mag, hm, ?_⟩
    by_cases hn : raw < 0
    · rw [if_pos (by omega), show -raw = (raw.natAbs : Int) by omega, he, decide_eq_true hn]
      rfl
    · rw [if_neg (by omega), if_pos (by omega), show F64.ofInt raw = F64.ofInt (raw.natAbs : Int) by congr 1; omega,
        he, decide_eq_false hn]
  · rw [if_neg hc, if_neg (by omega), if_neg (by omega)]

end Nmea
