/-
C50, C52, C53: values that the reports give wrongly.
-/
import Verif.Props.Lossless

namespace Nmea
open Spec

/-! ### C50: class B flags -/

/-- C50: every class B report whose RAIM flag differs from the unit flag, or whose unit, display, DSC, band or
message 22 flag differs from the next, gets a flag wrong. -/
theorem C50_wrong_flags (env : Env) (p : Parser) (s talker : Str) (own : Bool) (m : PositionB) (x : List Bool)
    (hm : m.Fits) (h : Delivers p s talker own (armor (m.bits ++ x))) :
    ∃ d, (parseSentence env p s).1 = .ok (.vesselDynamicData d) ∧
      (d.raimFlag = m.raim ↔ m.raim = m.unit) ∧ d.classBUnitFlag ≠ some m.unit ∧
      (d.classBDisplay = some m.display ↔ m.display = m.unit) ∧ (d.classBDsc = some m.dsc ↔ m.dsc = m.display) ∧
      (d.classBBandFlag = some m.band ↔ m.band = m.dsc) ∧ (d.classBMsg22Flag = some m.msg22 ↔ m.msg22 = m.band) ∧
      (d.classBModeFlag = some m.mode ↔ m.mode = m.msg22) := by
  obtain ⟨d, e, -, -, -, -, -, -, -, -, -, -, -, u, a1, a2, a3, a4, a5, a6, -⟩ := C50_position_B env p s talker own m x hm h
  refine ⟨d, e, ?_, by rw [u]; simp, ?_, ?_, ?_, ?_, ?_⟩ <;> simp only [a1, a2, a3, a4, a5, a6, Option.some.injEq] <;>
    exact eq_comm

/-- A report with RAIM in use from an SOTDMA unit is said to have none. -/
example : ∃ d, (parseSentence demoEnv Parser.new (aisSentence (c! "AI") false (armor (PositionB.bits
      ⟨0, 338087471, 0, 1, false, -44443279, 24410724, 796, 511, 49, 0, false, true, true, true, true, false, true, 0⟩
      ++ [])))).1 = .ok (.vesselDynamicData d) ∧ d.raimFlag = false := by
  obtain ⟨d, e, h, -⟩ := C50_wrong_flags demoEnv Parser.new _ (c! "AI") false
    ⟨0, 338087471, 0, 1, false, -44443279, 24410724, 796, 511, 49, 0, false, true, true, true, true, false, true, 0⟩ []
    (by unfold PositionB.Fits; decide) (demoSingle _ _ _ _ (by decide +kernel))
  exact ⟨d, e, by simpa using h⟩

/-! ### C53: long-range position -/

/-- C53: the long-range report gives the right latitude, or the right longitude, only if both are the same integer. -/
theorem C53_wrong_position (env : Env) (p : Parser) (s talker : Str) (own : Bool) (m : LongRange) (x : List Bool)
    (hm : m.Fits) (h : Delivers p s talker own (armor (m.bits ++ x))) :
    ∃ d, (parseSentence env p s).1 = .ok (.vesselDynamicData d) ∧
      (Rounded (m.lat / 600) d.latitude ↔ m.lat = m.lon) ∧ (Rounded (m.lon / 600) d.longitude ↔ m.lat = m.lon) := by
  obtain ⟨d, e, -, -, -, -, -, -, -, a, b, -⟩ := C53_long_range env p s talker own m x hm h
  obtain ⟨-, -, -, hlon, hlat, -, -⟩ := hm
  norm_num at hlon hlat
  have k : ∀ n : Int, -131072 ≤ n → n < 131072 → |(n : Rat) / (600 : Nat)| ≤ 224 := by
    intro n h1 h2
    have h1' : (-131072 : Rat) ≤ n := by exact_mod_cast h1
    have h2' : (n : Rat) < 131072 := by exact_mod_cast h2
    rw [abs_le]
    constructor
    · rw [le_div_iff₀ (by norm_num)]; push_cast; linarith
    · rw [div_le_iff₀ (by norm_num)]; push_cast; linarith
  have l1 := k m.lon hlon.1 hlon.2
  have l2 := k m.lat (by omega) (by omega)
  refine ⟨d, e, ⟨fun h => ?_, fun h => h ▸ a⟩, ⟨fun h => ?_, fun h => h ▸ b⟩⟩
  · exact (degrees_inj 600 (by norm_num) (by norm_num) _ _ l2 l1 _ _ (by exact_mod_cast h) (by exact_mod_cast a)).mp rfl
  · exact (degrees_inj 600 (by norm_num) (by norm_num) _ _ l2 l1 _ _ (by exact_mod_cast b) (by exact_mod_cast h)).mp rfl

/-- The long-range report of a ship at 137.0233° W, 4.84° N. -/
example : ∃ d, (parseSentence demoEnv Parser.new (aisSentence (c! "AI") false (armor (LongRange.bits
      ⟨0, 206914217, false, false, 2, -82214, 2904, 57, 167, false, false⟩ ++ [])))).1 = .ok (.vesselDynamicData d) ∧
    ¬ Rounded (2904 / 600) d.latitude ∧ ¬ Rounded (-82214 / 600) d.longitude := by
  obtain ⟨d, e, h1, h2⟩ := C53_wrong_position demoEnv Parser.new _ (c! "AI") false
    ⟨0, 206914217, false, false, 2, -82214, 2904, 57, 167, false, false⟩ []
    (by unfold LongRange.Fits; decide) (demoSingle _ _ _ _ (by decide +kernel))
  refine ⟨d, e, fun h => ?_, fun h => ?_⟩
  · exact absurd (h1.mp (by norm_num at h ⊢; exact h)) (by decide)
  · exact absurd (h2.mp (by norm_num at h ⊢; exact h)) (by decide)

/-! ### C52: names of class B vessels -/

theorem flatten_map_append (f : Char → List Bool) (a b : Str) :
    ((a ++ b).map f).flatten = (a.map f).flatten ++ (b.map f).flatten := by
  rw [List.map_append, List.flatten_append]

/-- C52: a name that fills its twenty characters is continued with whatever characters follow the name field. -/
theorem C52_long_name (env : Env) (p : Parser) (s talker : Str) (own : Bool) (m : StaticA) (t : Str)
    (hm : m.Fits) (hl : m.name.length = 20) (hne : t ≠ []) (ht : PlainText 100 t)
    (h : Delivers p s talker own (armor (m.bits ++ textBits t.length t))) (hp : pendingStatic p m.mmsi = none) :
    (parseSentence env p s).1 = .ok .incomplete ∧
      pendingStatic (parseSentence env p s).2 m.mmsi = some { m.data own with name := some (m.name ++ t) } := by
  obtain ⟨q, hq, he⟩ := eval_delivers env p s talker own _ h
  obtain ⟨hrep, hmm, hna⟩ := hm
  have hbits : m.bits ++ textBits t.length t =
      [natBits 6 24, natBits 2 m.repeatInd, natBits 30 m.mmsi, natBits 2 0].flatten ++
        ((m.name ++ t).map (fun c => natBits 6 (textCode c))).flatten := by
    unfold StaticA.bits textBits
    rw [flatten_map_append, hl]
    simp
  have hplain : PlainText 120 (m.name ++ t) := by
    refine ⟨by rw [List.length_append]; have := ht.1; omega, fun c hc => ?_, ?_⟩
    · rcases List.mem_append.mp hc with hc | hc
      · exact hna.2.1 c hc
      · exact ht.2.1 c hc
    · rw [List.getLast?_append_of_ne_nil _ hne]; exact ht.2.2
  have hn : textAt (m.bits ++ textBits t.length t) 40 120 = m.name ++ t := by
    rw [hbits, textAt_append_right _ _ 40 120 (by simp)]
    simp only [List.flatten_cons, List.flatten_nil, List.length_append, length_natBits, List.length_nil]
    conv_rhs => rw [← textAt_textBits 120 _ hplain]
    unfold textBits
    rw [textAt_zeros]
  have f0 : pickU64 (m.bits ++ textBits t.length t) 0 6 = 24 := by
    unfold StaticA.bits; exact field_u 0 rfl (by simp) (by decide) (by decide)
  have f2 : pickU64 (m.bits ++ textBits t.length t) 8 30 = m.mmsi := by
    unfold StaticA.bits; exact field_u 2 rfl (by simp) (by decide) hmm
  have f3 : pickU64 (m.bits ++ textBits t.length t) 38 2 = 0 := by
    unfold StaticA.bits; exact field_u 3 rfl (by simp) (by decide) (by decide)
  have hopt : someIfNonEmpty (m.name ++ t) = some (m.name ++ t) := by
    unfold someIfNonEmpty; simp [hne]
  have : t24Fields (m.bits ++ textBits t.length t) own true false = .ok { m.data own with name := some (m.name ++ t) } := by
    simp only [t24Fields, liftErr_pickString, Out.ok_bind, if_true, Bool.false_eq_true, if_false, hn, f2, hopt]
    rw [asU32_lt _ (by omega)]
    rfl
  rw [he, dispatch_24 f0]
  simp only [handleT24, f3, this]
  exact t24Store_none { m.data own with name := some (m.name ++ t) } q (by rw [hq]; exact hp)

/-- A name of twenty characters with one character in the spare bits behind it. -/
example : (parseSentence demoEnv Parser.new (aisSentence (c! "AI") false (armor (StaticA.bits
      ⟨0, 271041815, c! "ABCDEFGHIJKLMNOPQRST"⟩ ++ textBits 1 (c! "U"))))).1 = .ok .incomplete ∧
    ∃ v, pendingStatic (parseSentence demoEnv Parser.new (aisSentence (c! "AI") false (armor (StaticA.bits
      ⟨0, 271041815, c! "ABCDEFGHIJKLMNOPQRST"⟩ ++ textBits 1 (c! "U"))))).2 271041815 = some v ∧
      v.name = some (c! "ABCDEFGHIJKLMNOPQRSTU") := by
  obtain ⟨h1, h2⟩ := C52_long_name demoEnv Parser.new _ (c! "AI") false ⟨0, 271041815, c! "ABCDEFGHIJKLMNOPQRST"⟩ (c! "U")
    (by unfold StaticA.Fits; decide) rfl (by decide) (by decide) (demoSingle _ _ _ _ (by decide +kernel)) rfl
  exact ⟨h1, _, h2, rfl⟩

end Nmea
