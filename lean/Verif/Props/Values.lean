/-
C54-C60: positions, motions and codes reported for arbitrary AIS payloads.
-/
import Verif.Lemmas.Values
import Verif.Lemmas.DemoReports

namespace Nmea
open Spec

/-! ### C54: availability of positions -/

/-- C54: in every result of a message of types 1-4, 9, 18, 21, latitude and longitude are absent exactly for the
"not available" integers and otherwise the double next to integer / 600000. -/
theorem C54_positions (env : Env) (p : Parser) (s talker : Str) (own : Bool) (bits : List Bool)
    (h : DeliversBits env p s talker own bits) (lonAt latAt : Nat)
    (ht : (typeOf bits, lonAt, latAt) ∈ positionAt) (r : ParsedSentence)
    (hr : (parseSentence env p s).1 = .ok r) :
    ∃ lat lon, positionOf r = some (lat, lon) ∧
      (lat = none ↔ snum bits latAt 27 = 91 * 600000) ∧
      (∀ d, lat = some d → RoundsTo (snum bits latAt 27 / 600000) d) ∧
      (lon = none ↔ snum bits lonAt 28 = 181 * 600000) ∧
      (∀ d, lon = some d → RoundsTo (snum bits lonAt 28 / 600000) d) := by
  obtain ⟨lat, lon, h1, h2, h3⟩ := position_spec env p s talker own bits h lonAt latAt ht r hr
  have key : ∀ na raw x, Degrees na raw x → (x = none ↔ raw = na * 600000) ∧
      (∀ d, x = some d → RoundsTo (raw / 600000) d) := by
    intro na raw x hx
    unfold Degrees at hx
    split at hx
    · rename_i hraw
      exact ⟨⟨fun _ => hraw, fun _ => hx⟩, fun d hd => by rw [hx] at hd; cases hd⟩
    · rename_i hraw
      obtain ⟨d, rfl, hd⟩ := hx
      exact ⟨⟨fun h => (by cases h), fun h => absurd h hraw⟩, fun d' hd' => by cases hd'; exact hd⟩
  exact ⟨lat, lon, h1, (key _ _ _ h2).1, (key _ _ _ h2).2, (key _ _ _ h3).1, (key _ _ _ h3).2⟩

/-- A class A report with latitude 29028980 and longitude -74037230 (in 1/10000 minute): both are present. -/
example : ∃ d x y, (parseSentence demoEnv Parser.new (c! "!AIVDM,1,1,,A,15RTgt0PAso;90TKcjM8h6g208CQ,0*4A")).1 =
      .ok (.vesselDynamicData d) ∧ d.latitude = some x ∧ d.longitude = some y ∧
    RoundsTo (29028980 / 600000) x ∧ RoundsTo (-74037230 / 600000) y := by
  obtain ⟨d, hd⟩ := demoType1_ok
  obtain ⟨lat, lon, hp, h1, h2, h3, h4⟩ := C54_positions _ _ _ _ _ _ demoType1 61 89 (by decide +kernel) _ hd
  rw [show snum (payloadBits (c! "15RTgt0PAso;90TKcjM8h6g208CQ")) 89 27 = 29028980 by decide +kernel] at h1 h2
  rw [show snum (payloadBits (c! "15RTgt0PAso;90TKcjM8h6g208CQ")) 61 28 = -74037230 by decide +kernel] at h3 h4
  obtain ⟨rfl, rfl⟩ : d.latitude = lat ∧ d.longitude = lon := by simpa [positionOf] using hp
  obtain ⟨x, hx⟩ := Option.ne_none_iff_exists'.mp (fun h => absurd (h1.mp h) (by decide))
  obtain ⟨y, hy⟩ := Option.ne_none_iff_exists'.mp (fun h => absurd (h3.mp h) (by decide))
  exact ⟨d, x, y, hd, hx, hy, by simpa using h2 x hx, by simpa using h4 y hy⟩

/-- C54: long-range reports (type 27) never lack a position. -/
theorem C54_long_range (env : Env) (p : Parser) (s talker : Str) (own : Bool) (bits : List Bool)
    (h : DeliversBits env p s talker own bits) (ht : typeOf bits = 27) :
    ∃ d lat lon, (parseSentence env p s).1 = .ok (.vesselDynamicData d) ∧ d.latitude = some lat ∧
      d.longitude = some lon ∧ RoundsTo (snum bits 44 18 / 600) lat ∧ RoundsTo (snum bits 62 17 / 600) lon := by
  obtain ⟨d, h1, ⟨x, hx, hx'⟩, ⟨y, hy, hy'⟩⟩ := position27_spec env p s talker own bits h ht
  exact ⟨d, x, y, h1, hx, hy, hx', hy'⟩

/-- A long-range report: the fields at 44 and 62 are 82214 and 2904. -/
example : ∃ d lat lon, (parseSentence demoEnv Parser.new (c! "!AIVDM,1,1,,B,KC5E2b@U19PFdLbMuc5=ROv62<7m,0*16")).1 =
      .ok (.vesselDynamicData d) ∧ d.latitude = some lat ∧ d.longitude = some lon ∧
    RoundsTo (82214 / 600) lat ∧ RoundsTo (2904 / 600) lon := by
  obtain ⟨d, x, y, h1, h2, h3, h4, h5⟩ := C54_long_range _ _ _ _ _ _ demoType27 (by decide +kernel)
  rw [show snum (payloadBits (c! "KC5E2b@U19PFdLbMuc5=ROv62<7m")) 44 18 = 82214 by decide +kernel] at h4
  rw [show snum (payloadBits (c! "KC5E2b@U19PFdLbMuc5=ROv62<7m")) 62 17 = 2904 by decide +kernel] at h5
  exact ⟨d, x, y, h1, h2, h3, by simpa using h4, by simpa using h5⟩

/-! ### C55: bounds of positions -/

/-- C55: except in long-range reports, latitudes are within ±111.85 and longitudes within ±223.70 degrees. -/
theorem C55_bounds (env : Env) (p : Parser) (s talker : Str) (own : Bool) (bits : List Bool)
    (h : DeliversBits env p s talker own bits) (ht : typeOf bits ≠ 27) (r : ParsedSentence)
    (hr : (parseSentence env p s).1 = .ok r) (lat lon : Option F64) (hp : positionOf r = some (lat, lon)) :
    (∀ d, lat = some d → ∃ v, valueOf d = some v ∧ |v| ≤ 111.85) ∧
    (∀ d, lon = some d → ∃ v, valueOf d = some v ∧ |v| ≤ 223.70) := by
  rcases position_types env p s talker own bits h r hr (by rw [hp]; simp) with h27 | ⟨i, j, hij⟩
  · exact absurd h27 ht
  · obtain ⟨lat', lon', h1, -, h2, -, h3⟩ := C54_positions env p s talker own bits h i j hij r hr
    rw [hp] at h1
    cases h1
    have b1 := snum_bounds bits j 27 (by decide)
    have b2 := snum_bounds bits i 28 (by decide)
    norm_num at b1 b2
    have hb : ∀ (raw B : Int), -B ≤ raw → raw ≤ B → |(raw : Rat) / 600000| ≤ B / 600000 := by
      intro raw B h1 h2
      have h1' : -(B : Rat) ≤ raw := by exact_mod_cast h1
      have h2' : (raw : Rat) ≤ B := by exact_mod_cast h2
      rw [abs_div, abs_of_pos (by norm_num : (0 : Rat) < 600000)]
      exact div_le_div_of_nonneg_right (abs_le.mpr ⟨h1', h2'⟩) (by norm_num)
    constructor
    · intro d hd
      have := hb _ 67108864 b1.1 (by omega)
      refine within_bound (rounded_within _ 112 (this.trans (by norm_num)) (by norm_num) (by norm_num) d (h2 d hd)) _ ?_
      refine (add_le_add_left this _).trans ?_
      norm_num
    · intro d hd
      have := hb _ 134217728 b2.1 (by omega)
      refine within_bound (rounded_within _ 224 (this.trans (by norm_num)) (by norm_num) (by norm_num) d (h3 d hd)) _ ?_
      refine (add_le_add_left this _).trans ?_
      norm_num

/-- The class A report. -/
example : ∃ d, (parseSentence demoEnv Parser.new (c! "!AIVDM,1,1,,A,15RTgt0PAso;90TKcjM8h6g208CQ,0*4A")).1 =
      .ok (.vesselDynamicData d) ∧ ∀ x, d.latitude = some x → ∃ v, valueOf x = some v ∧ |v| ≤ 111.85 := by
  obtain ⟨d, hd⟩ := demoType1_ok
  exact ⟨d, hd, (C55_bounds _ _ _ _ _ _ demoType1 (by decide +kernel) _ hd _ _ rfl).1⟩

/-- C55: bounds that hold for every AIS result of every call, long-range reports included. -/
theorem C55_bounds_all (env : Env) (p : Parser) (s : Str) (r : ParsedSentence)
    (hr : (parseSentence env p s).1 = .ok r) (lat lon : Option F64) (hp : positionOf r = some (lat, lon)) :
    (∀ d, lat = some d → ∃ v, valueOf d = some v ∧ |v| ≤ 218.46) ∧
    (∀ d, lon = some d → ∃ v, valueOf d = some v ∧ |v| ≤ 223.70) := by
  obtain ⟨talker, own, payload, h1, h2⟩ := ais_origin env p s r hr (by
    cases r <;> first | exact fun h => h | (simp [positionOf] at hp))
  have h : DeliversBits env p s talker own (payloadBits payload) := ⟨payload, h1, h2, rfl⟩
  by_cases ht : typeOf (payloadBits payload) = 27
  · obtain ⟨d, x, y, e1, e2, e3, e4, e5⟩ := C54_long_range env p s talker own _ h ht
    rw [hr] at e1
    cases e1
    cases hp
    have b1 := snum_bounds (payloadBits payload) 44 18 (by decide)
    have b2 := snum_bounds (payloadBits payload) 62 17 (by decide)
    norm_num at b1 b2
    have hb : ∀ (raw B : Int), -B ≤ raw → raw ≤ B → |(raw : Rat) / 600| ≤ B / 600 := by
      intro raw B h1 h2
      have h1' : -(B : Rat) ≤ raw := by exact_mod_cast h1
      have h2' : (raw : Rat) ≤ B := by exact_mod_cast h2
      rw [abs_div, abs_of_pos (by norm_num : (0 : Rat) < 600)]
      exact div_le_div_of_nonneg_right (abs_le.mpr ⟨h1', h2'⟩) (by norm_num)
    constructor
    · intro d' hd
      rw [e2] at hd
      cases hd
      have := hb _ 131072 b1.1 (by omega)
      refine within_bound (rounded_within _ 219 (this.trans (by norm_num)) (by norm_num) (by norm_num) x e4) _ ?_
      refine (add_le_add_left this _).trans ?_
      norm_num
    · intro d' hd
      rw [e3] at hd
      cases hd
      have := hb _ 65536 b2.1 (by omega)
      refine within_bound (rounded_within _ 110 (this.trans (by norm_num)) (by norm_num) (by norm_num) y e5) _ ?_
      refine (add_le_add_left this _).trans ?_
      norm_num
  · have := C55_bounds env p s talker own _ h ht r hr lat lon hp
    refine ⟨fun d hd => ?_, this.2⟩
    obtain ⟨v, hv, hv'⟩ := this.1 d hd
    exact ⟨v, hv, hv'.trans (by norm_num)⟩

/-- A long-range report can exceed the other bound: 82214 / 600 degrees is more than 137. -/
example : ∃ d, (parseSentence demoEnv Parser.new (c! "!AIVDM,1,1,,B,KC5E2b@U19PFdLbMuc5=ROv62<7m,0*16")).1 =
      .ok (.vesselDynamicData d) ∧ ∀ x, d.latitude = some x → ∃ v, valueOf x = some v ∧ |v| ≤ 218.46 := by
  obtain ⟨d, x, y, h1, -⟩ := C54_long_range _ _ _ _ _ _ demoType27 (by decide +kernel)
  exact ⟨d, h1, (C55_bounds_all _ _ _ _ h1 _ _ rfl).1⟩

/-- C55: "positions are on the globe" is false: this sentence is accepted, with latitude 111 degrees and
longitude 222 degrees. -/
theorem C55_off_the_globe :
    ∃ d, (parseSentence demoEnv Parser.new
      (aisSentence (c! "AI") false (armor (PositionA.bits ⟨1, 0, 227006760, 0, 0, 0, false, 222 * 600000, 111 * 600000, 0, 0, 0, 0, 0, false, 0⟩)))).1
        = .ok (.vesselDynamicData d) ∧
      d.latitude = some (.fin false 111) ∧ d.longitude = some (.fin false 222) := by
  obtain ⟨q, -, he⟩ := eval_delivers demoEnv Parser.new _ _ _ _
    (Delivers.single (p := Parser.new) _ (single_aisSentence (c! "AI") false (PositionA.bits ⟨1, 0, 227006760, 0, 0, 0, false, 222 * 600000, 111 * 600000, 0, 0, 0, 0, 0, false, 0⟩) (by decide)))
  rw [he, dispatch_123 (by decide +kernel)]
  exact ⟨_, rfl, by decide +kernel, by decide +kernel⟩

/-! ### C56: speed, course, heading -/

/-- C56: class A and class B position reports: speed, course and heading are absent exactly for 1023, 3600 and
511, and otherwise the transmitted tenths or degrees, whatever their size. -/
theorem C56_motion (env : Env) (p : Parser) (s talker : Str) (own : Bool) (bits : List Bool)
    (h : DeliversBits env p s talker own bits) (sogAt cogAt hdgAt : Nat)
    (ht : (typeOf bits, sogAt, cogAt, hdgAt) ∈ motionAt) :
    ∃ d, (parseSentence env p s).1 = .ok (.vesselDynamicData d) ∧
      Speed (num bits sogAt 10) d.sogKnots ∧ Course (num bits cogAt 12) d.cog ∧
      Heading (num bits hdgAt 9) d.headingTrue := by
  obtain ⟨q, -, he⟩ := eval_bits env p s talker own bits h
  rw [he]
  have k1 : ∀ i, Speed (num bits i 10) (sogBlock bits i) := fun i =>
    speed_spec _ _ _ (num_eq bits i 10 (by decide)) (num_lt bits i 10)
  have k2 : ∀ i, Course (num bits i 12) (cogBlock bits i) := fun i =>
    course_spec _ _ _ (num_eq bits i 12 (by decide)) (num_lt bits i 12)
  have k3 : ∀ i, Heading (num bits i 9) (headingBlock bits i) := fun i =>
    heading_spec _ _ _ (num_eq bits i 9 (by decide))
  simp only [motionAt, List.mem_cons, List.not_mem_nil, or_false, Prod.mk.injEq] at ht
  rcases ht with ⟨ht, rfl, rfl, rfl⟩ | ⟨ht, rfl, rfl, rfl⟩ | ⟨ht, rfl, rfl, rfl⟩ | ⟨ht, rfl, rfl, rfl⟩ <;>
    rw [← typeOf_eq] at ht
  · rw [dispatch_123 (by simp [ht])]; exact ⟨_, rfl, k1 _, k2 _, k3 _⟩
  · rw [dispatch_123 (by simp [ht])]; exact ⟨_, rfl, k1 _, k2 _, k3 _⟩
  · rw [dispatch_123 (by simp [ht])]; exact ⟨_, rfl, k1 _, k2 _, k3 _⟩
  · rw [dispatch_18 ht]; exact ⟨_, rfl, k1 _, k2 _, k3 _⟩

/-- The class A report has speed 123, course 2240 and heading 215; the class B report has speed 1, course 796 and no
heading. -/
example : (∃ d, (parseSentence demoEnv Parser.new (c! "!AIVDM,1,1,,A,15RTgt0PAso;90TKcjM8h6g208CQ,0*4A")).1 =
      .ok (.vesselDynamicData d) ∧ Tenths 123 d.sogKnots ∧ Tenths 2240 d.cog ∧ Rounded (215 : Nat) d.headingTrue) ∧
    ∃ d, (parseSentence demoEnv Parser.new (c! "!AIVDM,1,1,,A,B52K>;h00Fc>jpUlNV@ikwpUoP06,0*4C")).1 =
      .ok (.vesselDynamicData d) ∧ Tenths 1 d.sogKnots ∧ Tenths 796 d.cog ∧ d.headingTrue = none := by
  constructor
  · obtain ⟨d, h, h1, h2, h3⟩ := C56_motion _ _ _ _ _ _ demoType1 50 116 128 (by decide +kernel)
    rw [show num (payloadBits (c! "15RTgt0PAso;90TKcjM8h6g208CQ")) 50 10 = 123 by decide +kernel] at h1
    rw [show num (payloadBits (c! "15RTgt0PAso;90TKcjM8h6g208CQ")) 116 12 = 2240 by decide +kernel] at h2
    rw [show num (payloadBits (c! "15RTgt0PAso;90TKcjM8h6g208CQ")) 128 9 = 215 by decide +kernel] at h3
    exact ⟨d, h, h1, h2, h3⟩
  · obtain ⟨d, h, h1, h2, h3⟩ := C56_motion _ _ _ _ _ _ demoType18 46 112 124 (by decide +kernel)
    rw [show num (payloadBits (c! "B52K>;h00Fc>jpUlNV@ikwpUoP06")) 46 10 = 1 by decide +kernel] at h1
    rw [show num (payloadBits (c! "B52K>;h00Fc>jpUlNV@ikwpUoP06")) 112 12 = 796 by decide +kernel] at h2
    rw [show num (payloadBits (c! "B52K>;h00Fc>jpUlNV@ikwpUoP06")) 124 9 = 511 by decide +kernel] at h3
    exact ⟨d, h, h1, h2, h3⟩

/-- C56: SAR aircraft: the speed is an integer of knots, the course as for ships. -/
theorem C56_aircraft (env : Env) (p : Parser) (s talker : Str) (own : Bool) (bits : List Bool)
    (h : DeliversBits env p s talker own bits) (ht : typeOf bits = 9) :
    ∃ d, (parseSentence env p s).1 = .ok (.standardSarAircraftPositionReport d) ∧
      d.sogKnots = (if num bits 50 10 = 1023 then none else some (num bits 50 10)) ∧
      Course (num bits 116 12) d.cog := by
  obtain ⟨q, -, he⟩ := eval_bits env p s talker own bits h
  rw [he, dispatch_9 (by rw [typeOf_eq, ht])]
  refine ⟨_, rfl, ?_, course_spec _ _ _ (num_eq bits 116 12 (by decide)) (num_lt bits 116 12)⟩
  simp only [num_eq bits 50 10 (by decide), u16_num bits 50 10 (by decide)]
  by_cases hc : num bits 50 10 = 1023
  · rw [if_pos hc, if_neg (not_not.mpr hc)]
  · rw [if_neg hc, if_pos hc]

/-- An aircraft at 42 knots on course 154.5. -/
example : ∃ d, (parseSentence demoEnv Parser.new (c! "!AIVDM,1,1,,B,91b55wi;hbOS@OdQAC062Ch2089h,0*30")).1 =
      .ok (.standardSarAircraftPositionReport d) ∧ d.sogKnots = some 42 ∧ Tenths 1545 d.cog := by
  obtain ⟨d, h, h1, h2⟩ := C56_aircraft _ _ _ _ _ _ demoType9 (by decide +kernel)
  rw [show num (payloadBits (c! "91b55wi;hbOS@OdQAC062Ch2089h")) 50 10 = 42 by decide +kernel] at h1
  rw [show num (payloadBits (c! "91b55wi;hbOS@OdQAC062Ch2089h")) 116 12 = 1545 by decide +kernel] at h2
  exact ⟨d, h, h1, h2⟩

/-- C56: the reported speed (course) is within 10⁻¹² of a tenth of the transmitted integer. -/
theorem C56_tenths_error (raw : Nat) (h : raw < 4096) (x : Option F64) (hx : Tenths raw x) :
    ∃ d v, x = some d ∧ valueOf d = some v ∧ |v - raw / 10| ≤ 1 / 10 ^ 12 := by
  obtain ⟨t, h1, d, rfl, hd⟩ := hx
  have ht : t = tenth := by
    have := (F64.roundsTo_iff _ _).mp h1
    have e : F64.ofRat (1 / 10) = .fin false tenth := by decide +kernel
    rw [e] at this
    exact (F64.fin.inj this).2
  subst ht
  have hr : (raw : Rat) ≤ 4096 := by exact_mod_cast h.le
  have h0 : (0 : Rat) ≤ raw := by positivity
  have he : tenth - 1 / 10 = 1 / 180143985094819840 := by norm_num [tenth]
  have e1 : (raw : Rat) * tenth - raw / 10 = raw / 180143985094819840 := by
    rw [show (raw : Rat) * tenth - raw / 10 = raw * (tenth - 1 / 10) by ring, he]; ring
  have hn : |(raw : Rat) * tenth| ≤ 512 := by
    rw [abs_of_nonneg (mul_nonneg h0 (by norm_num [tenth])),
      show (raw : Rat) * tenth = raw / 10 + raw / 180143985094819840 by rw [← e1]; ring]
    linarith
  obtain ⟨v, hv, hv'⟩ := rounded_within _ 512 hn (by norm_num) (by norm_num) d hd
  refine ⟨d, v, rfl, hv, ?_⟩
  have e2 : (512 : Rat) * 2 ^ (-53 : Int) < 1 / (2 * 10 ^ 12) := by norm_num
  have e3 : (raw : Rat) / 180143985094819840 ≤ 1 / (2 * 10 ^ 12) := by
    rw [div_le_iff₀ (by norm_num)]
    refine hr.trans (by norm_num)
  have e4 : (0 : Rat) ≤ raw / 180143985094819840 := by positivity
  rw [abs_le] at hv' ⊢
  have e5 : (1 : Rat) / (2 * 10 ^ 12) + 1 / (2 * 10 ^ 12) = 1 / 10 ^ 12 := by norm_num
  generalize (512 : Rat) * 2 ^ (-53 : Int) = E at hv' e2
  generalize (1 : Rat) / (2 * 10 ^ 12) = F at e2 e3 e5
  generalize (raw : Rat) * tenth = R at e1 hv'
  generalize (1 : Rat) / 10 ^ 12 = G at e5 ⊢
  constructor <;> linarith [hv'.1, hv'.2]

/-- The course 224.0 of the class A report. -/
example : ∃ x d v, Tenths 2240 x ∧ x = some d ∧ valueOf d = some v ∧ |v - 224| ≤ 1 / 10 ^ 12 := by
  have h := tenths_spec 2240 (by norm_num)
  obtain ⟨d, v, h1, h2, h3⟩ := C56_tenths_error 2240 (by decide) _ h
  exact ⟨_, d, v, h, h1, h2, by norm_num at h3 ⊢; exact h3⟩

/-- C56: a course of 409.4 degrees and a heading of 510 degrees are passed through. -/
theorem C56_out_of_range :
    ∃ d v, (parseSentence demoEnv Parser.new
      (aisSentence (c! "AI") false (armor (PositionA.bits ⟨1, 0, 227006760, 0, 0, 0, false, 0, 0, 4095, 510, 0, 0, 0, false, 0⟩)))).1
        = .ok (.vesselDynamicData d) ∧
      d.headingTrue = some (.fin false 510) ∧ d.cog = some (.fin false v) ∧ 409 < v := by
  obtain ⟨q, -, he⟩ := eval_delivers demoEnv Parser.new _ _ _ _
    (Delivers.single (p := Parser.new) _ (single_aisSentence (c! "AI") false (PositionA.bits ⟨1, 0, 227006760, 0, 0, 0, false, 0, 0, 4095, 510, 0, 0, 0, false, 0⟩) (by decide)))
  rw [he, dispatch_123 (by decide +kernel)]
  exact ⟨_, 819 / 2, rfl, by decide +kernel, by decide +kernel, by norm_num⟩

/-! ### C58: no loss -/

/-- C58: a greater transmitted latitude gives a greater reported latitude; so does a greater longitude. -/
theorem C58_order_preserved (e1 e2 : Env) (p1 p2 : Parser) (s1 s2 t1 t2 : Str) (o1 o2 : Bool) (b1 b2 : List Bool)
    (h1 : DeliversBits e1 p1 s1 t1 o1 b1) (h2 : DeliversBits e2 p2 s2 t2 o2 b2) (lon1 lat1 lon2 lat2 : Nat)
    (ht1 : (typeOf b1, lon1, lat1) ∈ positionAt) (ht2 : (typeOf b2, lon2, lat2) ∈ positionAt)
    (r1 r2 : ParsedSentence) (hr1 : (parseSentence e1 p1 s1).1 = .ok r1) (hr2 : (parseSentence e2 p2 s2).1 = .ok r2)
    (x1 y1 x2 y2 : Option F64) (hp1 : positionOf r1 = some (x1, y1)) (hp2 : positionOf r2 = some (x2, y2)) :
    (∀ a b, x1 = some a → x2 = some b → snum b1 lat1 27 < snum b2 lat2 27 → F64Lt a b) ∧
    (∀ a b, y1 = some a → y2 = some b → snum b1 lon1 28 < snum b2 lon2 28 → F64Lt a b) := by
  obtain ⟨_, _, e, -, h1a, -, h1b⟩ := C54_positions e1 p1 s1 t1 o1 b1 h1 lon1 lat1 ht1 r1 hr1
  rw [hp1] at e; cases e
  obtain ⟨_, _, e, -, h2a, -, h2b⟩ := C54_positions e2 p2 s2 t2 o2 b2 h2 lon2 lat2 ht2 r2 hr2
  rw [hp2] at e; cases e
  have k : ∀ (bits : List Bool) (i w : Nat), 1 ≤ w → w ≤ 28 → |((snum bits i w : Int) : Rat) / 600000| ≤ (224 : Nat) := by
    intro bits i w hw1 hw2
    obtain ⟨b1, b2⟩ := snum_bounds bits i w hw1
    have : (2 : Int) ^ (w - 1) ≤ 2 ^ 27 := by
      have : (2 : Nat) ^ (w - 1) ≤ 2 ^ 27 := Nat.pow_le_pow_right (by norm_num) (by omega)
      exact_mod_cast this
    norm_num at this
    exact degrees_abs _ 224 (by omega) (by omega)
  constructor
  · rintro a b rfl rfl hlt
    exact rounded_strict 600000 (by norm_num) le_rfl _ _ (by exact_mod_cast k b1 lat1 27 (by decide) (by decide))
      (by exact_mod_cast k b2 lat2 27 (by decide) (by decide)) a b
      (by exact_mod_cast h1a a rfl) (by exact_mod_cast h2a b rfl) hlt
  · rintro a b rfl rfl hlt
    exact rounded_strict 600000 (by norm_num) le_rfl _ _ (by exact_mod_cast k b1 lon1 28 (by decide) (by decide))
      (by exact_mod_cast k b2 lon2 28 (by decide) (by decide)) a b
      (by exact_mod_cast h1b a rfl) (by exact_mod_cast h2b b rfl) hlt

/-- The class B report is further south than the class A report (24410724 and 29028980). -/
example : ∃ d1 d2, (parseSentence demoEnv Parser.new (c! "!AIVDM,1,1,,A,B52K>;h00Fc>jpUlNV@ikwpUoP06,0*4C")).1 =
      .ok (.vesselDynamicData d1) ∧
    (parseSentence demoEnv Parser.new (c! "!AIVDM,1,1,,A,15RTgt0PAso;90TKcjM8h6g208CQ,0*4A")).1 =
      .ok (.vesselDynamicData d2) ∧
    ∀ a b, d1.latitude = some a → d2.latitude = some b → F64Lt a b := by
  obtain ⟨d1, h1, -⟩ := C56_motion _ _ _ _ _ _ demoType18 46 112 124 (by decide +kernel)
  obtain ⟨d2, h2⟩ := demoType1_ok
  exact ⟨d1, d2, h1, h2, fun a b ha hb => (C58_order_preserved _ _ _ _ _ _ _ _ _ _ _ _ demoType18 demoType1 57 85 61 89
    (by decide +kernel) (by decide +kernel) _ _ h1 h2 _ _ _ _ rfl rfl).1 a b ha hb (by decide +kernel)⟩

/-- C58: equal reports come from equal integers. -/
theorem C58_injective (e1 e2 : Env) (p1 p2 : Parser) (s1 s2 t1 t2 : Str) (o1 o2 : Bool) (b1 b2 : List Bool)
    (h1 : DeliversBits e1 p1 s1 t1 o1 b1) (h2 : DeliversBits e2 p2 s2 t2 o2 b2) (lon1 lat1 lon2 lat2 : Nat)
    (ht1 : (typeOf b1, lon1, lat1) ∈ positionAt) (ht2 : (typeOf b2, lon2, lat2) ∈ positionAt)
    (r1 r2 : ParsedSentence) (hr1 : (parseSentence e1 p1 s1).1 = .ok r1) (hr2 : (parseSentence e2 p2 s2).1 = .ok r2)
    (hp : positionOf r1 = positionOf r2) :
    snum b1 lat1 27 = snum b2 lat2 27 ∧ snum b1 lon1 28 = snum b2 lon2 28 := by
  obtain ⟨x, y, e, hx, -, hy, -⟩ := C54_positions e1 p1 s1 t1 o1 b1 h1 lon1 lat1 ht1 r1 hr1
  obtain ⟨x', y', e', hx', -, hy', -⟩ := C54_positions e2 p2 s2 t2 o2 b2 h2 lon2 lat2 ht2 r2 hr2
  have ee := hp
  rw [e, e'] at ee
  cases ee
  have a := C58_order_preserved e1 e2 p1 p2 s1 s2 t1 t2 o1 o2 b1 b2 h1 h2 _ _ _ _ ht1 ht2 _ _ hr1 hr2 x y x y e e'
  have b := C58_order_preserved e2 e1 p2 p1 s2 s1 t2 t1 o2 o1 b2 b1 h2 h1 _ _ _ _ ht2 ht1 _ _ hr2 hr1 x y x y e' e
  have irr : ∀ d, ¬ F64Lt d d := by
    rintro d ⟨u, v, hu, hv, h⟩
    rw [hu] at hv
    cases hv
    exact lt_irrefl _ h
  constructor
  · cases x with
    | none => rw [hx.mp rfl, hx'.mp rfl]
    | some d =>
      by_contra hne
      rcases lt_or_gt_of_ne hne with h | h
      · exact irr d (a.1 d d rfl rfl h)
      · exact irr d (b.1 d d rfl rfl h)
  · cases y with
    | none => rw [hy.mp rfl, hy'.mp rfl]
    | some d =>
      by_contra hne
      rcases lt_or_gt_of_ne hne with h | h
      · exact irr d (a.2 d d rfl rfl h)
      · exact irr d (b.2 d d rfl rfl h)

/-- The two reports differ in their positions. -/
example : ∃ d1 d2, (parseSentence demoEnv Parser.new (c! "!AIVDM,1,1,,A,B52K>;h00Fc>jpUlNV@ikwpUoP06,0*4C")).1 =
      .ok (.vesselDynamicData d1) ∧
    (parseSentence demoEnv Parser.new (c! "!AIVDM,1,1,,A,15RTgt0PAso;90TKcjM8h6g208CQ,0*4A")).1 =
      .ok (.vesselDynamicData d2) ∧ (d1.latitude, d1.longitude) ≠ (d2.latitude, d2.longitude) := by
  obtain ⟨d1, h1, -⟩ := C56_motion _ _ _ _ _ _ demoType18 46 112 124 (by decide +kernel)
  obtain ⟨d2, h2⟩ := demoType1_ok
  refine ⟨d1, d2, h1, h2, fun h => ?_⟩
  have := (C58_injective _ _ _ _ _ _ _ _ _ _ _ _ demoType18 demoType1 57 85 61 89
    (by decide +kernel) (by decide +kernel) _ _ h1 h2 (congrArg some h)).1
  exact absurd this (by decide +kernel)

/-! ### C57: rate of turn -/

/-- C57: the rate of turn and its direction in every class A position report. -/
theorem C57_turn (env : Env) (p : Parser) (s talker : Str) (own : Bool) (bits : List Bool)
    (h : DeliversBits env p s talker own bits) (ht : typeOf bits ∈ [1, 2, 3]) :
    ∃ d, (parseSentence env p s).1 = .ok (.vesselDynamicData d) ∧
      Turn (snum bits 42 8) d.rot ∧ d.rotDirection = turnDirection (snum bits 42 8) := by
  obtain ⟨q, -, he⟩ := eval_bits env p s talker own bits h
  rw [he, dispatch_123 (by rw [typeOf_eq]; exact ht)]
  have b := snum_bounds bits 42 8 (by decide)
  norm_num at b
  exact ⟨_, rfl, turn_spec _ _ (snum_eq bits 42 8 (by decide) (by decide)) b.1 (by omega),
    rotDir_eq _ _ (snum_eq bits 42 8 (by decide) (by decide)) b.1 (by omega)⟩

/-- The class A report turns left at more than 5 degrees per 30 s (-127): a direction without a rate. -/
example : ∃ d, (parseSentence demoEnv Parser.new (c! "!AIVDM,1,1,,A,15RTgt0PAso;90TKcjM8h6g208CQ,0*4A")).1 =
      .ok (.vesselDynamicData d) ∧ d.rot = none ∧ d.rotDirection = some (-1) := by
  obtain ⟨d, h, h1, h2⟩ := C57_turn _ _ _ _ _ _ demoType1 (by decide +kernel)
  rw [show snum (payloadBits (c! "15RTgt0PAso;90TKcjM8h6g208CQ")) 42 8 = -127 by decide +kernel] at h1 h2
  exact ⟨d, h, h1, h2⟩

/-- C57: the direction agrees with the sign of the rate. -/
theorem C57_direction_agrees (raw : Int) (d : F64) (v : Rat) (k : Int) (ht : Turn raw (some d))
    (hv : valueOf d = some v) (hk : turnDirection raw = some k) : (k = 1 → 0 < v) ∧ (k = -1 → v < 0) := by
  obtain ⟨hr, hd⟩ := turn_rotVal raw d ht
  rw [hv] at hd
  unfold turnDirection at hk
  constructor
  · rintro rfl
    have : 2 ≤ raw := by
      split at hk
      · cases hk
      · split at hk
        · cases hk
        · split at hk
          · cases hk
          · omega
    obtain ⟨x, y, e1, e2, e3⟩ := rotVal_lt 0 raw (by omega) (by omega) (by omega)
    rw [rotVal_zero] at e1
    rw [hd] at e2
    cases e1; cases e2
    exact e3
  · rintro rfl
    have : raw < -1 := by
      split at hk
      · cases hk
      · split at hk
        · assumption
        · split at hk <;> cases hk
    obtain ⟨x, y, e1, e2, e3⟩ := rotVal_lt raw 0 (by omega) (by omega) (by omega)
    rw [rotVal_zero] at e2
    rw [hd] at e1
    cases e1; cases e2
    exact e3

/-- A rate of -57 is reported as a negative number. -/
example : ∃ x v, Turn (-57) (some x) ∧ valueOf x = some v ∧ v < 0 := by
  obtain ⟨m, h, -⟩ := turnRate_spec 57 (by decide)
  have ht : Turn (-57) (some (.fin true m)) := by unfold Turn; rw [if_pos (by decide)]; exact ⟨m, h, rfl⟩
  exact ⟨_, _, ht, rfl, (C57_direction_agrees (-57) _ _ (-1) ht rfl rfl).2 rfl⟩

/-- C57: a greater transmitted rate of turn gives a greater reported one. -/
theorem C57_monotone (a b : Int) (x y : F64) (hx : Turn a (some x)) (hy : Turn b (some y)) (h : a < b) :
    F64Lt x y := by
  obtain ⟨ha, hx⟩ := turn_rotVal a x hx
  obtain ⟨hb, hy⟩ := turn_rotVal b y hy
  obtain ⟨u, v, e1, e2, e3⟩ := rotVal_lt a b (by omega) (by omega) h
  exact ⟨u, v, hx.symm.trans e1, hy.symm.trans e2, e3⟩

/-- The rates -57 and 57. -/
example : ∃ x y, Turn (-57) (some x) ∧ Turn 57 (some y) ∧ F64Lt x y := by
  obtain ⟨m, h, -⟩ := turnRate_spec 57 (by decide)
  have hx : Turn (-57) (some (.fin true m)) := by unfold Turn; rw [if_pos (by decide)]; exact ⟨m, h, rfl⟩
  have hy : Turn 57 (some (.fin false m)) := by unfold Turn; rw [if_pos (by decide)]; exact ⟨m, h, rfl⟩
  exact ⟨_, _, hx, hy, C57_monotone _ _ _ _ hx hy (by decide)⟩

/-- C57: opposite transmitted rates give opposite reported rates. -/
theorem C57_odd (a : Int) (x y : F64) (u v : Rat) (hx : Turn a (some x)) (hy : Turn (-a) (some y))
    (hu : valueOf x = some u) (hv : valueOf y = some v) : v = -u := by
  obtain ⟨ha, hx⟩ := turn_rotVal a x hx
  obtain ⟨hb, hy⟩ := turn_rotVal (-a) y hy
  have := rotVal_neg ⟨a.natAbs, by omega⟩
  rw [hu] at hx
  rw [hv] at hy
  rcases (by omega : (a.natAbs : Int) = a ∨ (a.natAbs : Int) = -a) with e | e
  · simp only [e, hx, hy, Option.map_some, Option.some.injEq] at this
    exact this
  · simp only [e, neg_neg, hx, hy, Option.map_some, Option.some.injEq] at this
    rw [this, neg_neg]

/-- The same two rates are reported as opposite numbers. -/
example : ∃ x y u v, Turn (-57) (some x) ∧ Turn 57 (some y) ∧ valueOf x = some u ∧ valueOf y = some v ∧ v = -u := by
  obtain ⟨m, h, -⟩ := turnRate_spec 57 (by decide)
  have hx : Turn (-57) (some (.fin true m)) := by unfold Turn; rw [if_pos (by decide)]; exact ⟨m, h, rfl⟩
  have hy : Turn 57 (some (.fin false m)) := by unfold Turn; rw [if_pos (by decide)]; exact ⟨m, h, rfl⟩
  exact ⟨_, _, _, _, hx, hy, rfl, rfl, C57_odd (-57) _ _ _ _ hx hy rfl rfl⟩

/-- C57: the documented limit of 708 degrees per minute is exceeded: 126 is reported as more than 22375. -/
theorem C57_exceeds_limit (x : F64) (h : Turn 126 (some x)) : ∃ v, valueOf x = some v ∧ 22375 < v := by
  obtain ⟨-, hx⟩ := turn_rotVal 126 x h
  obtain ⟨u, v, e1, e2, e3⟩ := optLt_some rotVal_126
  cases e1
  exact ⟨v, hx.symm.trans e2, e3⟩

/-- The rate 126 is one that is reported. -/
example : ∃ x, Turn 126 (some x) := by
  obtain ⟨m, h, -⟩ := turnRate_spec 126 (by decide)
  exact ⟨.fin false m, by unfold Turn; rw [if_pos (by decide)]; exact ⟨m, h, rfl⟩⟩

/-! ### C59: codes -/

/-- C59: the constructors follow the tables of the standard for every byte. -/
theorem C59_constructors (n : Nat) (h : n < 256) :
    NavigationStatus.new n = navStatusTable.getD n .notDefined ∧ PositionFixType.new n = fixOf n ∧
    (∀ t, navAidTable[n]? = some t → NavAidType.new n = .ok t) ∧
    (navAidTable[n]? = none → ∃ m, NavAidType.new n = .err (.invalidSentence m)) := by
  have h1 : ∀ n : Fin 256, NavigationStatus.new n.val = navStatusTable.getD n.val .notDefined ∧
      PositionFixType.new n.val = fixOf n.val := by decide +kernel
  have h2 : ∀ n : Fin 32, ∀ t, navAidTable[n.val]? = some t → NavAidType.new n.val = .ok t := by
    have : ∀ n : Fin 32, (navAidTable[n.val]?).map Out.ok = some (NavAidType.new n.val) := by decide +kernel
    intro n t ht
    have := this n
    rw [ht] at this
    exact (Option.some.inj this).symm
  refine ⟨(h1 ⟨n, h⟩).1, (h1 ⟨n, h⟩).2, ?_, ?_⟩
  · intro t ht
    by_cases hn : n < 32
    · exact h2 ⟨n, hn⟩ t ht
    · rw [List.getElem?_eq_none (by show 32 ≤ n; omega)] at ht; cases ht
  · intro hn
    have hn : 32 ≤ n := by
      by_contra hc
      rw [List.getElem?_eq_getElem (show n < navAidTable.length by show n < 32; omega)] at hn
      cases hn
    exact navAid_new_err n hn

/-- Code 5 in the three tables. -/
example : NavigationStatus.new 5 = .moored ∧ PositionFixType.new 5 = .chayka ∧
    NavAidType.new 5 = .ok .lightWithoutSectors :=
  have h := C59_constructors 5 (by decide)
  ⟨h.1, h.2.1, h.2.2.1 _ rfl⟩

/-- C59: navigation status and positioning metadata of every class A report. -/
theorem C59_class_A (env : Env) (p : Parser) (s talker : Str) (own : Bool) (bits : List Bool)
    (h : DeliversBits env p s talker own bits) (ht : typeOf bits ∈ [1, 2, 3]) :
    ∃ d, (parseSentence env p s).1 = .ok (.vesselDynamicData d) ∧
      some d.navStatus = navStatusTable[num bits 38 4]? ∧ d.positioningSystemMeta = metaOf (num bits 137 6) := by
  obtain ⟨q, -, he⟩ := eval_bits env p s talker own bits h
  rw [he, dispatch_123 (by rw [typeOf_eq]; exact ht)]
  refine ⟨_, rfl, ?_, meta_eq _ (num_lt bits 137 6) _ _ (num_eq bits 137 6 (by decide))⟩
  simp only [num_eq bits 38 4 (by decide), u8_num bits 38 4 (by decide)]
  exact nav_eq _ (num_lt bits 38 4)

/-- The class A report: under way using engine, at second 33. -/
example : ∃ d, (parseSentence demoEnv Parser.new (c! "!AIVDM,1,1,,A,15RTgt0PAso;90TKcjM8h6g208CQ,0*4A")).1 =
      .ok (.vesselDynamicData d) ∧ d.navStatus = .underWayUsingEngine ∧
    d.positioningSystemMeta = some .operative := by
  obtain ⟨d, h, h1, h2⟩ := C59_class_A _ _ _ _ _ _ demoType1 (by decide +kernel)
  rw [show num (payloadBits (c! "15RTgt0PAso;90TKcjM8h6g208CQ")) 38 4 = 0 by decide +kernel] at h1
  rw [show num (payloadBits (c! "15RTgt0PAso;90TKcjM8h6g208CQ")) 137 6 = 33 by decide +kernel] at h2
  exact ⟨d, h, Option.some.inj h1, h2⟩

/-- C59: navigation status of long-range reports; class B reports have none. -/
theorem C59_other_status (env : Env) (p : Parser) (s talker : Str) (own : Bool) (bits : List Bool)
    (h : DeliversBits env p s talker own bits) (ht : typeOf bits = 27 ∨ typeOf bits = 18) :
    ∃ d, (parseSentence env p s).1 = .ok (.vesselDynamicData d) ∧ d.positioningSystemMeta = none ∧
      (typeOf bits = 27 → some d.navStatus = navStatusTable[num bits 40 4]?) ∧
      (typeOf bits = 18 → d.navStatus = .notDefined) := by
  obtain ⟨q, -, he⟩ := eval_bits env p s talker own bits h
  rw [he]
  rcases ht with ht | ht
  · rw [dispatch_27 (by rw [typeOf_eq, ht])]
    refine ⟨_, rfl, rfl, fun _ => ?_, fun h => by omega⟩
    simp only [num_eq bits 40 4 (by decide), u8_num bits 40 4 (by decide)]
    exact nav_eq _ (num_lt bits 40 4)
  · rw [dispatch_18 (by rw [typeOf_eq, ht])]
    exact ⟨_, rfl, rfl, fun h => by omega, fun _ => rfl⟩

/-- The long-range report: not under command. -/
example : ∃ d, (parseSentence demoEnv Parser.new (c! "!AIVDM,1,1,,B,KC5E2b@U19PFdLbMuc5=ROv62<7m,0*16")).1 =
      .ok (.vesselDynamicData d) ∧ d.positioningSystemMeta = none ∧ d.navStatus = .notUnderCommand := by
  obtain ⟨d, h, h1, h2, -⟩ := C59_other_status _ _ _ _ _ _ demoType27 (.inl (by decide +kernel))
  replace h2 := h2 (by decide +kernel)
  rw [show num (payloadBits (c! "KC5E2b@U19PFdLbMuc5=ROv62<7m")) 40 4 = 2 by decide +kernel] at h2
  exact ⟨d, h, h1, Option.some.inj h2⟩

/-- C59: position fix type of base station reports (0 is reported as absent). -/
theorem C59_base_station (env : Env) (p : Parser) (s talker : Str) (own : Bool) (bits : List Bool)
    (h : DeliversBits env p s talker own bits) (ht : typeOf bits = 4) (r : ParsedSentence)
    (hr : (parseSentence env p s).1 = .ok r) :
    ∃ d, r = .baseStationReport d ∧ d.positionFixType = optFix (num bits 134 4) := by
  obtain ⟨q, -, he⟩ := eval_bits env p s talker own bits h
  rw [he, dispatch_4 (by rw [typeOf_eq, ht])] at hr
  obtain ⟨d, rfl, -, -, hd⟩ := handleT4_position _ _ _ _ hr
  exact ⟨d, rfl, by rw [hd]; exact optFix_eq _ (num_lt bits 134 4) _ _ (num_eq bits 134 4 (by decide))⟩

/-- A base station with a surveyed position. -/
example : ∃ d, (parseSentence demoEnv Parser.new (c! "!AIVDM,1,1,,B,403OviQuMGCqWrRO9>E6fE700@GO,0")).1 =
    .ok (.baseStationReport d) ∧ d.positionFixType = some .surveyed := by
  obtain ⟨r, hr⟩ := demoOk (x := (parseSentence demoEnv Parser.new
    (c! "!AIVDM,1,1,,B,403OviQuMGCqWrRO9>E6fE700@GO,0")).1) (by decide +kernel)
  obtain ⟨d, h, h1⟩ := C59_base_station _ _ _ _ _ _ demoType4 (by decide +kernel) r hr
  rw [show num (payloadBits (c! "403OviQuMGCqWrRO9>E6fE700@GO")) 134 4 = 7 by decide +kernel] at h1
  exact ⟨d, hr.trans (congrArg _ h), h1⟩

/-- C59: position fix type and aid type of aid-to-navigation reports. -/
theorem C59_aid (env : Env) (p : Parser) (s talker : Str) (own : Bool) (bits : List Bool)
    (h : DeliversBits env p s talker own bits) (ht : typeOf bits = 21) :
    ∃ d, (parseSentence env p s).1 = .ok (.aidToNavigationReport d) ∧
      d.positionFixType = some (fixOf (num bits 249 4)) ∧ some d.aidType = navAidTable[num bits 38 5]? := by
  obtain ⟨q, -, he⟩ := eval_bits env p s talker own bits h
  rw [he, dispatch_21 (by rw [typeOf_eq, ht])]
  obtain ⟨d, hd, -, -, e1, e2⟩ := handleT21_position bits (talkerStation talker) own
  refine ⟨d, hd, ?_, ?_⟩
  · rw [e1, num_eq bits 249 4 (by decide), u8_num bits 249 4 (by decide), fix_eq _ (num_lt bits 249 4)]
  · rw [e2, num_eq bits 38 5 (by decide), u8_num bits 38 5 (by decide)]
    exact navAid_eq _ (num_lt bits 38 5)

/-- An aid to navigation of type 19 with a surveyed position. -/
example : ∃ d, (parseSentence demoEnv Parser.new
      (c! "!AIVDM,1,1,,B,E>kb9O9aS@7PUh10dh19@;0Tah2cWrfP:l?M`00003vP100,0")).1 = .ok (.aidToNavigationReport d) ∧
    d.positionFixType = some .surveyed ∧ some d.aidType = navAidTable[19]? := by
  obtain ⟨d, h, h1, h2⟩ := C59_aid _ _ _ _ _ _ demoType21 (by decide +kernel)
  rw [show num (payloadBits (c! "E>kb9O9aS@7PUh10dh19@;0Tah2cWrfP:l?M`00003vP100")) 249 4 = 7 by decide +kernel] at h1
  rw [show num (payloadBits (c! "E>kb9O9aS@7PUh10dh19@;0Tah2cWrfP:l?M`00003vP100")) 38 5 = 19 by decide +kernel] at h2
  exact ⟨d, h, h1, h2⟩

/-! ### C60: ship and cargo type -/

/-- C60: ship and cargo types as functions of the code; tankers and other ships are reported as cargo ships. -/
theorem C60_constructors (n : Nat) (h : n < 256) : ShipType.new n = reportedShip n ∧ CargoType.new n = cargoOf n :=
  ⟨ship_eq n h, cargo_eq n h⟩

/-- A passenger ship with dangerous goods of category B, and a tanker, which is reported as a cargo ship. -/
example : ShipType.new 62 = .passenger ∧ CargoType.new 62 = .hazardousCategoryB ∧ ShipType.new 80 = .cargo :=
  ⟨(C60_constructors 62 (by decide)).1, (C60_constructors 62 (by decide)).2, (C60_constructors 80 (by decide)).1⟩

/-- C60: ship and cargo type of every voyage report, and its position fix type. -/
theorem C60_voyage (env : Env) (p : Parser) (s talker : Str) (own : Bool) (bits : List Bool)
    (h : DeliversBits env p s talker own bits) (ht : typeOf bits = 5) (r : ParsedSentence)
    (hr : (parseSentence env p s).1 = .ok r) :
    ∃ d, r = .vesselStaticData d ∧ d.shipType = reportedShip (num bits 232 8) ∧
      d.cargoType = cargoOf (num bits 232 8) ∧ d.positionFixType = optFix (num bits 270 4) := by
  obtain ⟨q, -, he⟩ := eval_bits env p s talker own bits h
  rw [he, dispatch_5 (by rw [typeOf_eq, ht])] at hr
  simp only [handleT5, liftErr_pickString, Out.ok_bind, Out.bind_eq_ok] at hr
  obtain ⟨_, -, hr⟩ := hr
  cases hr
  refine ⟨_, rfl, ?_, ?_, optFix_eq _ (num_lt bits 270 4) _ _ (num_eq bits 270 4 (by decide))⟩
  · simp only [num_eq bits 232 8 (by decide), u8_num bits 232 8 (by decide)]
    exact ship_eq _ (num_lt bits 232 8)
  · simp only [num_eq bits 232 8 (by decide), u8_num bits 232 8 (by decide)]
    exact cargo_eq _ (num_lt bits 232 8)

/-- A voyage report with the code 130, which is not in the table. -/
example : ∃ d, (parseSentence demoEnv Parser.new
      (c! "!AIVDM,1,1,,A,539p4OT00000@7W3K@08ThiLE8@E:222222222220O0000000000000000000000000000,0")).1 =
    .ok (.vesselStaticData d) ∧ d.shipType = .notAvailable ∧ d.cargoType = .undefined := by
  obtain ⟨r, hr⟩ := demoOk (x := (parseSentence demoEnv Parser.new
    (c! "!AIVDM,1,1,,A,539p4OT00000@7W3K@08ThiLE8@E:222222222220O0000000000000000000000000000,0")).1) (by decide +kernel)
  obtain ⟨d, h, h1, h2, -⟩ := C60_voyage _ _ _ _ _ _ demoType5 (by decide +kernel) r hr
  rw [show num (payloadBits (c! "539p4OT00000@7W3K@08ThiLE8@E:222222222220O0000000000000000000000000000")) 232 8 = 130 by
    decide +kernel] at h1 h2
  exact ⟨d, hr.trans (congrArg _ h), h1, h2⟩

/-- C60: whatever was parsed before, no result says that a ship is a tanker or of the category "other". -/
theorem C60_never_tanker (env : Env) (p : Parser) (hp : Reachable p) (s : Str) (d : VesselStaticData)
    (hr : (parseSentence env p s).1 = .ok (.vesselStaticData d)) :
    d.shipType ≠ .tanker ∧ d.shipType ≠ .other := by
  have hrep : ∀ n, n < 256 → reportedShip n ≠ .tanker ∧ reportedShip n ≠ .other := by
    have : ∀ n : Fin 256, reportedShip n.val ≠ .tanker ∧ reportedShip n.val ≠ .other := by decide +kernel
    exact fun n h => this ⟨n, h⟩
  obtain ⟨talker, own, payload, h1, h2⟩ := ais_origin env p s _ hr (fun h => h)
  have h : DeliversBits env p s talker own (payloadBits payload) := ⟨payload, h1, h2, rfl⟩
  obtain ⟨q, hq, he⟩ := eval_bits env p s talker own _ h
  rw [he] at hr
  rcases dispatchAis_ok _ _ _ _ _ _ _ _ (Prod.ext hr rfl) with ⟨h', -⟩ | ⟨h', -, -⟩
  · cases h'
  · rw [typeOf_eq] at h'
    simp only [aisTypesOf, List.mem_cons, List.not_mem_nil, or_false] at h'
    rcases h' with h' | h'
    · obtain ⟨d', e, e1, -⟩ := C60_voyage env p s talker own _ h h' _ (by rw [he]; exact hr)
      cases e
      rw [e1]
      exact hrep _ (num_lt _ 232 8)
    · have hg := goodStatic_reachable p hp
      have hpart : ∀ o b, (partData o b).shipType ≠ .tanker ∧ (partData o b).shipType ≠ .other := by
        intro o b
        unfold partData
        split
        · exact ⟨by simp [partAData, blankStatic], by simp [partAData, blankStatic]⟩
        · exact hrep _ (num_lt b 40 8)
      have e24 := eval_24 env p s own (payloadBits payload) ⟨payload, completes_of_delivers h1, h2, rfl, h'⟩
      rw [← he] at hr
      obtain ⟨k1, k2, k3⟩ := e24
      by_cases hpart2 : partOf (payloadBits payload) < 2
      · cases hpend : pendingStatic p (mmsiOf (payloadBits payload)) with
        | none => rw [(k2 hpart2 hpend).1] at hr; cases hr
        | some w =>
          obtain ⟨own', b', rfl, -, -, hb'⟩ := hg _ w hpend
          obtain ⟨m, hm, -⟩ := partData_merge own own' (payloadBits payload) b' hb'.symm
          rw [(k3 hpart2 _ m hpend hm).1] at hr
          cases hr
          rcases merge_ship _ _ _ hm with e | e <;> rw [e]
          · exact hpart _ _
          · exact hpart _ _
      · obtain ⟨m, hm⟩ := (k1 (by omega)).1
        rw [hm] at hr; cases hr

/-- A part A and a part B with the code of a tanker (80) give a result that says cargo ship. -/
example : ∃ d, (parseSentence demoEnv (run Parser.new
      [(demoEnv, c! "!AIVDM,1,1,,A,H42O55i18tMET00000000000000,2")])
      (c! "!AIVDM,1,1,,A,H42O55m@0000000D3nink000?0500,0")).1 = .ok (.vesselStaticData d) ∧
    num (payloadBits (c! "H42O55m@0000000D3nink000?0500")) 40 8 = 80 ∧ d.shipType = .cargo :=
  ⟨_, rfl, by decide +kernel, by decide +kernel⟩

/-- C60: the standard says otherwise about code 80. -/
theorem C60_tanker_mismatch : standardShip 80 = .tanker ∧ ShipType.new 80 = .cargo ∧
    standardShip 90 = .other ∧ ShipType.new 90 = .cargo := by decide

end Nmea
