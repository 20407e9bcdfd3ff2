/-
C139: what a program shows that prints the reported numbers with `{}`.
-/
import Verif.Lemmas.Shortest
import Verif.Props.Print

namespace Nmea
open Spec

/-- C139: every number of a receiver's sentence is printed as it was sent, without zeros at its end. -/
theorem C139_reading (env : Env) (p : Parser) (talker : Str) (r : Reading) (s : Str)
    (hg : IsGnss talker r.kind r.fields s) (hr : r.Fits env.now) :
    ∃ rep, (parseSentence env p s).1 = .ok rep ∧ List.Forall₂ DisplaysNumber r.numbers (reportNumbers rep) := by
  have ht := Reading.tells_any env p talker r s hg hr
  cases r with
  | gga h m s lat lon q n hdop alt geoid age st =>
    obtain ⟨-, -, -, -, -, -, b1, b2, b3, b4, -⟩ := hr
    obtain ⟨d, e, -, -, -, -, -, -, a3, a4, a5, a6, -⟩ := ht
    exact ⟨_, e, .cons (display_number _ b1 _ a3) (.cons (display_number _ b2 _ a4) (.cons (display_number _ b3 _ a5)
      (.cons (display_number _ b4 _ a6) .nil)))⟩
  | rmc h m s active lat lon speed bearing day month year variation west =>
    obtain ⟨-, -, -, -, b1, b2, b3⟩ := hr
    obtain ⟨d, e, -, -, -, -, -, a3, a4, a5⟩ := ht
    exact ⟨_, e, .cons (display_number _ b1 _ a3) (.cons (display_number _ b2 _ a4)
      (.cons (display_number _ (show Number.Ok { variation with minus := variation.minus ^^ west } from b3) _ a5) .nil))⟩
  | gsa automatic fix prns pdop hdop vdop =>
    obtain ⟨-, -, -, b1, b2, b3⟩ := hr
    obtain ⟨d, e, -, -, -, -, a3, a4, a5⟩ := ht
    exact ⟨_, e, .cons (display_number _ b1 _ a3) (.cons (display_number _ b2 _ a4) (.cons (display_number _ b3 _ a5) .nil))⟩
  | vtg t m n k =>
    obtain ⟨b1, b2, b3, b4⟩ := hr
    obtain ⟨d, e, -, a3, a4, a5, a6, -⟩ := ht
    exact ⟨_, e, .cons (display_number _ b1 _ a3) (.cons (display_number _ b2 _ a4) (.cons (display_number _ b3 _ a5)
      (.cons (display_number _ b4 _ a6) .nil)))⟩
  | gll lat lon h m s valid mode =>
    obtain ⟨d, e, -⟩ := ht
    exact ⟨_, e, .nil⟩

/-- A course of `360.0`, a magnetic course of `348.70` and a speed of `-0.0`. -/
example (env : Env) (p : Parser) : ∃ s d x y z, (parseSentence env p s).1 = .ok (.vtg d) ∧
    d.cogTrue = some x ∧ d.cogMagnetic = some y ∧ d.sogKnots = some z ∧
    (∀ t, Displays x t ↔ t = c! "360") ∧ (∀ t, Displays y t ↔ t = c! "348.7") ∧ (∀ t, Displays z t ↔ t = c! "-0") := by
  have hr : (Reading.vtg ⟨false, 360, 1, 0⟩ ⟨false, 348, 2, 70⟩ ⟨true, 0, 1, 0⟩ ⟨false, 67, 1, 6⟩).Fits env.now := by
    refine ⟨?_, ?_, ?_, ?_⟩ <;> (unfold Number.Ok; decide)
  have hg := Reading.tagged (c! "GP") _ env.now (by decide) hr
  obtain ⟨d, e, h⟩ := Reading.tells_any env p _ _ _ hg hr
  obtain ⟨rep, e', a⟩ := C139_reading env p _ _ _ hg hr
  rw [e] at e'
  cases e'
  cases a with | cons a1 a => cases a with | cons a2 a => cases a with | cons a3 _ =>
    obtain ⟨x, e1, h1⟩ := a1 (by unfold Number.Short; decide)
    obtain ⟨y, e2, h2⟩ := a2 (by unfold Number.Short; decide)
    obtain ⟨z, e3, h3⟩ := a3 (by unfold Number.Short; decide)
    exact ⟨_, d, x, y, z, e, e1, e2, e3, h1, h2, h3⟩

/-- C139: the heading of class A vessels is printed as the integer that was sent. -/
theorem C139_heading_A (env : Env) (p : Parser) (s talker : Str) (own : Bool) (m : PositionA) (x : List Bool)
    (hm : m.Fits) (h : Delivers p s talker own (armor (m.bits ++ x))) :
    ∃ d, (parseSentence env p s).1 = .ok (.vesselDynamicData d) ∧ DisplaysHeading m.heading d.headingTrue := by
  obtain ⟨d, e, -, -, -, -, -, -, -, a1, -, a2, a3, a4, a5, -⟩ := C44_position_A env p s talker own m x hm h
  obtain ⟨-, -, -, -, -, h1, h2, h3, h4, h5, -⟩ := hm
  exact ⟨d, e, display_heading _ (by omega) _ a5⟩

/-- Any report of class A can be delivered. -/
example (env : Env) (p : Parser) (m : PositionA) (hm : m.Fits) :=
  C139_heading_A env p _ (c! "AI") false m [] hm (deliverable p (c! "AI") false (m.bits ++ []) (by decide))

/-- C139: the same for class B. -/
theorem C139_heading_B (env : Env) (p : Parser) (s talker : Str) (own : Bool) (m : PositionB) (x : List Bool)
    (hm : m.Fits) (h : Delivers p s talker own (armor (m.bits ++ x))) :
    ∃ d, (parseSentence env p s).1 = .ok (.vesselDynamicData d) ∧ DisplaysHeading m.heading d.headingTrue := by
  obtain ⟨d, e, -, -, -, -, a1, -, a2, a3, a4, a5, -⟩ := C50_position_B env p s talker own m x hm h
  obtain ⟨-, -, -, h1, h2, h3, h4, h5, -⟩ := hm
  exact ⟨d, e, display_heading _ (by omega) _ a5⟩

/-- Any report of class B can be delivered. -/
example (env : Env) (p : Parser) (m : PositionB) (hm : m.Fits) :=
  C139_heading_B env p _ (c! "AI") false m [] hm (deliverable p (c! "AI") false (m.bits ++ []) (by decide))

/-- C139: the speeds and courses of class A vessels are printed as they were sent if the reported double is the one next to
what was sent, and otherwise with at least sixteen digits. -/
theorem C139_tenths_A (env : Env) (p : Parser) (s talker : Str) (own : Bool) (m : PositionA) (x : List Bool)
    (hm : m.Fits) (h : Delivers p s talker own (armor (m.bits ++ x))) :
    ∃ d, (parseSentence env p s).1 = .ok (.vesselDynamicData d) ∧ DisplaysTenths 1023 m.speed d.sogKnots ∧
      DisplaysTenths 3600 m.course d.cog := by
  obtain ⟨d, e, -, -, -, -, -, -, -, a1, -, -, -, a2, -⟩ := C44_position_A env p s talker own m x hm h
  obtain ⟨-, -, -, -, -, hsp, -, -, hco, -⟩ := hm
  exact ⟨d, e, display_tenths _ _ (by omega) _ a1, display_tenths _ _ (by omega) _ a2⟩

/-- Every class A report, for example. -/
example (env : Env) (p : Parser) (m : PositionA) (hm : m.Fits) :=
  C139_tenths_A env p _ (c! "AI") false m [] hm (deliverable p (c! "AI") false (m.bits ++ []) (by decide))

/-- C139: the same for class B. -/
theorem C139_tenths_B (env : Env) (p : Parser) (s talker : Str) (own : Bool) (m : PositionB) (x : List Bool)
    (hm : m.Fits) (h : Delivers p s talker own (armor (m.bits ++ x))) :
    ∃ d, (parseSentence env p s).1 = .ok (.vesselDynamicData d) ∧ DisplaysTenths 1023 m.speed d.sogKnots ∧
      DisplaysTenths 3600 m.course d.cog := by
  obtain ⟨d, e, -, -, -, -, a1, -, -, -, a4, -⟩ := C50_position_B env p s talker own m x hm h
  obtain ⟨-, -, -, h1, h2, h3, h4, h5, -⟩ := hm
  exact ⟨d, e, display_tenths _ _ (by omega) _ a1, display_tenths _ _ (by omega) _ a4⟩

/-- Every class B report, for example. -/
example (env : Env) (p : Parser) (m : PositionB) (hm : m.Fits) :=
  C139_tenths_B env p _ (c! "AI") false m [] hm (deliverable p (c! "AI") false (m.bits ++ []) (by decide))

/-- The numbers of tenths below 1023 whose reported double is not the one next to them. -/
def inexact : List Nat := (List.range 1023).filter fun raw => F64.ofRat (raw * tenth) != F64.ofRat (raw / 10)

/-- C139: of the 1023 speeds of class A vessels 361 are not printed as they were sent. -/
theorem C139_speeds : ∃ l : List Nat, l.length = 361 ∧ l.Nodup ∧
    ∀ (env : Env) (p : Parser) (s talker : Str) (own : Bool) (m : PositionA) (x : List Bool), m.Fits → m.speed ≠ 1023 →
      Delivers p s talker own (armor (m.bits ++ x)) →
      ∃ d v, (parseSentence env p s).1 = .ok (.vesselDynamicData d) ∧ d.sogKnots = some v ∧
        (Displays v (trimText (decimalText 1 m.speed)) ↔ m.speed ∉ l) := by
  refine ⟨inexact, by decide +kernel, List.nodup_range.filter _, fun env p s talker own m x hm hs h => ?_⟩
  obtain ⟨d, e, -, -, -, -, -, -, -, a1, -⟩ := C44_position_A env p s talker own m x hm h
  obtain ⟨-, -, -, -, -, hsp, -⟩ := hm
  have hd := display_tenths _ _ (by omega) _ a1
  unfold Speed at a1
  unfold DisplaysTenths at hd
  rw [if_neg hs] at a1 hd
  obtain ⟨t, h1, v, e1, h2⟩ := a1
  obtain rfl := tenth_unique h1
  obtain ⟨v', e2, hv⟩ := hd
  obtain rfl : v' = v := Option.some.inj (e2.symm.trans e1)
  refine ⟨d, v', e, e1, ?_⟩
  have hl : m.speed ∈ inexact ↔ ¬ RoundsTo (m.speed / 10) v' := by
    have h2 := (F64.roundsTo_iff _ _).mp h2
    rw [F64.roundsTo_iff, h2, inexact, List.mem_filter, List.mem_range, bne_iff_ne]
    exact and_iff_right (by omega)
  have hshort : ∀ raw < 1023, ((trimText (decimalText 1 raw)).filter fun c => decide (c ≠ '.')).length < 16 := by decide +kernel
  rw [hl, not_not]
  rcases hv with ⟨hr, hd⟩ | ⟨hr, hd⟩
  · exact ⟨fun _ => hr, fun _ => (hd _).2 rfl⟩
  · refine ⟨fun hd' => ?_, fun hr' => absurd hr' hr⟩
    have := hd _ hd'
    have := hshort m.speed (by omega)
    omega

/-- The decimal numbers that are read as the double reported for a speed of 0.3 have at least seventeen digits. -/
theorem reads_third {k : Nat} {j : Int} (hr : ReadsAs k j (5404319552844596 / 2 ^ 54)) :
    10 ^ 16 ≤ k ∧ (k < 10 ^ 17 → j = -17) := by
  have hn : Nearest ((k : Rat) * 10 ^ j) (5404319552844596 / 2 ^ 54) := by
    have h0 : (0 : Rat) ≤ k * 10 ^ j := by positivity
    rw [readsAs_eq hr]
    exact F64.roundMag_nearest _ h0
  obtain ⟨b1, b2⟩ := between_of_nearest (r := 5404319552844595 / 2 ^ 54) (r' := 5404319552844597 / 2 ^ 54) hn
    ⟨5404319552844595, -54, by decide, by decide, by norm_num⟩ ⟨5404319552844597, -54, by decide, by decide, by norm_num⟩
    (by norm_num) (by norm_num)
  have hk16 : 10 ^ 16 ≤ k := by
    by_contra hk
    have hk' : (k : Rat) < 10 ^ 16 := by exact_mod_cast not_le.1 hk
    rcases le_or_gt (-16) j with hj | hj
    · obtain ⟨i, hi⟩ := Int.le.dest hj
      obtain rfl : j = -16 + (i : Int) := hi.symm
      rw [zpow_add₀ (by norm_num), zpow_natCast] at b1 b2
      rw [show (10 : Rat) ^ (-16 : Int) = 1 / 10 ^ 16 by norm_num] at b1 b2
      have e3 : (k : Rat) * (1 / 10 ^ 16 * 10 ^ i) = ((k * 10 ^ i : Nat) : Rat) / 10 ^ 16 := by push_cast; ring
      rw [e3] at b1 b2
      rw [le_div_iff₀ (by norm_num)] at b1
      rw [div_le_iff₀ (by norm_num)] at b2
      have c1 : (3000000000000000 : Rat) < ((k * 10 ^ i : Nat) : Rat) := lt_of_lt_of_le (by norm_num) b1
      have c2 : ((k * 10 ^ i : Nat) : Rat) < 3000000000000001 := lt_of_le_of_lt b2 (by norm_num)
      have c1 : 3000000000000000 < k * 10 ^ i := by exact_mod_cast c1
      have c2 : k * 10 ^ i < 3000000000000001 := by exact_mod_cast c2
      omega
    · have h17 : (10 : Rat) ^ j ≤ 10 ^ (-17 : Int) := zpow_le_zpow_right₀ (by norm_num) (by omega)
      have : (k : Rat) * 10 ^ j ≤ 10 ^ 16 * 10 ^ (-17 : Int) := mul_le_mul hk'.le h17 (by positivity) (by positivity)
      have : (k : Rat) * 10 ^ j ≤ 1 / 10 := this.trans (by norm_num)
      have := b1.trans this
      norm_num at this
  refine ⟨hk16, fun hk17 => ?_⟩
  have hk16' : (10 : Rat) ^ 16 ≤ k := by exact_mod_cast hk16
  have hk17' : (k : Rat) ≤ 10 ^ 17 := by exact_mod_cast hk17.le
  by_contra hj
  rcases Int.lt_or_gt_of_ne hj with hj | hj
  · have : (k : Rat) * 10 ^ j ≤ 10 ^ 17 * 10 ^ (-18 : Int) :=
      mul_le_mul hk17' (zpow_le_zpow_right₀ (by norm_num) (by omega)) (by positivity) (by positivity)
    have := b1.trans this
    norm_num at this
  · have : (10 : Rat) ^ 16 * 10 ^ (-16 : Int) ≤ k * 10 ^ j :=
      mul_le_mul hk16' (zpow_le_zpow_right₀ (by norm_num) (by omega)) (by positivity) (by positivity)
    have := this.trans b2
    norm_num at this

/-- C139: the speed 0.3 of a vessel is printed so. -/
theorem C139_speed (env : Env) (p : Parser) (s talker : Str) (own : Bool) (m : PositionA) (x : List Bool)
    (hm : m.Fits) (hs : m.speed = 3) (h : Delivers p s talker own (armor (m.bits ++ x))) :
    ∃ d v, (parseSentence env p s).1 = .ok (.vesselDynamicData d) ∧ d.sogKnots = some v ∧
      ∀ t, Displays v t ↔ t = c! "0.30000000000000004" := by
  obtain ⟨d, e, -, -, -, -, -, -, -, a1, -⟩ := C44_position_A env p s talker own m x hm h
  unfold Speed at a1
  rw [if_neg (by omega), hs] at a1
  obtain ⟨t, h1, v, e1, h2⟩ := a1
  obtain rfl := tenth_unique h1
  obtain rfl := (F64.roundsTo_iff _ _).mp h2
  refine ⟨d, _, e, e1, fun t => ?_⟩
  rw [show F64.ofRat ((3 : Nat) * tenth) = .fin false (5404319552844596 / 2 ^ 54) by decide +kernel]
  have hread : ReadsAs 30000000000000004 (-17) (5404319552844596 / 2 ^ 54) := by
    unfold ReadsAs
    rw [F64.roundsTo_iff, show (10 : Rat) ^ (-17 : Int) = 1 / 10 ^ 17 by norm_num]
    decide +kernel
  have hlen : (natStr 30000000000000004).length = 17 := by decide +kernel
  have htext : plainText 30000000000000004 (-17) = c! "0.30000000000000004" := by decide +kernel
  have hp : (10 : Rat) ^ (-17 : Int) = 1 / 10 ^ 17 := by norm_num
  have hdist : |((30000000000000004 : Nat) : Rat) * 10 ^ (-17 : Int) - 5404319552844596 / 2 ^ 54| < 1 / 2 / 10 ^ 17 := by
    rw [hp, abs_lt]; constructor <;> norm_num
  constructor
  · rintro (⟨h0, -⟩ | ⟨-, k, j, rfl, hr, hmin⟩)
    · norm_num at h0
    obtain ⟨c1, c2⟩ := reads_third hr
    obtain ⟨c3, c4⟩ := hmin _ _ hread
    have hk : k < 10 ^ 17 := (natStr_length_le (by decide)).1 (by omega)
    obtain rfl := c2 hk
    have hl : (natStr k).length = 17 := by
      refine le_antisymm (by omega) ?_
      by_contra hc
      have := (natStr_length_le (n := k) (k := 16) (by decide)).1 (by omega)
      omega
    have c5 := lt_of_le_of_lt (c4 (by omega)) hdist
    rw [hp, abs_lt] at c5
    have d1 : (30000000000000003 : Rat) < k := by linarith [c5.1]
    have d2 : (k : Rat) < 30000000000000005 := by linarith [c5.2]
    have d1 : 30000000000000003 < k := by exact_mod_cast d1
    have d2 : k < 30000000000000005 := by exact_mod_cast d2
    obtain rfl : k = 30000000000000004 := by omega
    rw [if_neg (by decide), List.nil_append, htext]
  · rintro rfl
    refine .inr ⟨by norm_num, _, _, by rw [if_neg (by decide), List.nil_append, htext], hread, fun k j hr => ?_⟩
    obtain ⟨c1, c2⟩ := reads_third hr
    have hl : 17 ≤ (natStr k).length := by
      by_contra hc
      have := (natStr_length_le (n := k) (k := 16) (by decide)).1 (by omega)
      omega
    refine ⟨by omega, fun heq => ?_⟩
    obtain rfl := c2 ((natStr_length_le (by decide)).1 (by omega))
    rcases Nat.lt_or_ge 30000000000000004 k with hk | hk
    · have hk' : (30000000000000005 : Rat) ≤ k := by exact_mod_cast hk
      refine hdist.le.trans (le_trans ?_ (le_abs_self _))
      rw [hp]
      linarith
    · have hk' : (k : Rat) ≤ (30000000000000004 : Nat) := by exact_mod_cast hk
      rw [hp, abs_of_nonpos (by norm_num), abs_of_nonpos (by push_cast at hk'; linarith)]
      push_cast at hk' ⊢
      linarith

/-- Any report with this speed, for example this one, is printed so. -/
example (env : Env) (p : Parser) := C139_speed env p _ (c! "AI") false
  ⟨1, 0, 227006760, 8, -57, 3, true, -70000000, 25000000, 3599, 359, 61, 1, 0, true, 34017⟩ []
  (by unfold PositionA.Fits; decide) rfl (deliverable p (c! "AI") false _ (by decide))

/-- C139, words: a VTG sentence may have a word in place of a number. Where the speed is `inf` or `infinity`, in capitals or
not, with a sign or without, a program shows `inf` or `-inf`; where it is `nan`, it shows `NaN`, however many decimals it
prints. -/
theorem C139_words (env : Env) (p : Parser) (talker : Str) (fs : List Str) (s : Str) (h : IsGnss talker (c! "VTG") fs s)
    (minus : Bool) (w shown : Str) (hs : Signed (field fs 4) minus w)
    (hw : (w.map Char.toLower ∈ [c! "inf", c! "infinity"] ∧ shown = (if minus then c! "-inf" else c! "inf")) ∨
      (w.map Char.toLower = c! "nan" ∧ shown = c! "NaN")) :
    ∃ d v, (parseSentence env p s).1 = .ok (.vtg d) ∧ d.sogKnots = some v ∧ (∀ t, Displays v t ↔ t = shown) ∧
      ∀ k t, Prints k v t ↔ t = shown := by
  obtain ⟨d, e, hd⟩ := C68_contents env p talker fs s h
  have hk := ((hd d).mpr rfl).knots
  have key : ∀ v, NumberText (field fs 4) v → d.sogKnots = some v := by
    intro v hv
    rcases hk with ⟨v', hv', e'⟩ | ⟨hn, -⟩
    · have := C63_unique (field fs 4) (some v) (some v') (.inr ⟨v, hv, rfl⟩) (.inr ⟨v', hv', rfl⟩)
      rw [e', this]
    · exact absurd hv (hn v)
  rcases hw with ⟨hw, rfl⟩ | ⟨hw, rfl⟩
  · refine ⟨d, .inf minus, by rw [e], key _ (.infinite minus w hs (by simpa using hw)), fun t => ?_, fun k t => ?_⟩ <;>
      cases minus <;> exact Iff.rfl
  · exact ⟨d, .nan, by rw [e], key _ (.nan minus w hs hw), fun t => Iff.rfl, fun k t => Iff.rfl⟩

/-- The speed `-Infinity` is shown as `-inf`, ... -/
example (env : Env) (p : Parser) := C139_words env p (c! "GP") [c! "nan", c! "T", c! "", c! "M", c! "-Infinity", c! "N"]
  (c! "$GPVTG,nan,T,,M,-Infinity,N") (demoTagged .bare (by decide)) true (c! "Infinity") (c! "-inf") (by simp [Signed, field])
  (.inl (by decide))

/-- ... and `+NAN` as `NaN`. -/
example (env : Env) (p : Parser) := C139_words env p (c! "GP") [c! "", c! "T", c! "", c! "M", c! "+NAN", c! "N"]
  (c! "$GPVTG,,T,,M,+NAN,N") (demoTagged .bare (by decide)) false (c! "NAN") (c! "NaN") (by simp [Signed, field])
  (.inr (by decide))

end Nmea
