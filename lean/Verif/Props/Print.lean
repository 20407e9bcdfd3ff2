/-
C138: what a program shows that prints the reported numbers with a fixed number of decimals.
-/
import Verif.Lemmas.Print
import Verif.Lemmas.Traffic
import Verif.Props.Messages
import Verif.Props.Gnss

namespace Nmea
open Spec

/-- C138: class A position reports: speed and course printed with one decimal, the heading with none, are what was
transmitted; latitude and longitude are printed to the nearest. -/
theorem C138_position_A (env : Env) (p : Parser) (s talker : Str) (own : Bool) (m : PositionA) (x : List Bool)
    (hm : m.Fits) (h : Delivers p s talker own (armor (m.bits ++ x))) :
    ∃ d, (parseSentence env p s).1 = .ok (.vesselDynamicData d) ∧ PrintsUnless 1023 1 m.speed d.sogKnots ∧
      PrintsUnless 3600 1 m.course d.cog ∧ PrintsUnless 511 0 m.heading d.headingTrue ∧
      PrintsDegrees 91 m.lat d.latitude ∧ PrintsDegrees 181 m.lon d.longitude := by
  obtain ⟨d, e, -, -, -, -, -, -, -, a1, -, a2, a3, a4, a5, -⟩ := C44_position_A env p s talker own m x hm h
  obtain ⟨-, -, -, -, -, h1, h2, h3, h4, h5, -⟩ := hm
  exact ⟨d, e, speed_print _ (by omega) _ a1, course_print _ (by omega) _ a4, heading_print' _ (by omega) _ a5,
    degrees_print _ _ (by omega) _ a2, degrees_print _ _ (by omega) _ a3⟩

/-- 12.3 knots, course 359.9, heading 359. -/
example (env : Env) (p : Parser) : ∃ s d, (parseSentence env p s).1 = .ok (.vesselDynamicData d) ∧
    PrintsExactly 1 123 d.sogKnots ∧ PrintsExactly 1 3599 d.cog ∧ PrintsExactly 0 359 d.headingTrue := by
  obtain ⟨d, e, a, b, c, -⟩ := C138_position_A env p _ (c! "AI") false
    ⟨1, 0, 227006760, 8, -57, 123, true, -70000000, 25000000, 3599, 359, 61, 1, 0, true, 34017⟩ []
    (by unfold PositionA.Fits; decide) (deliverable p (c! "AI") false _ (by decide))
  exact ⟨_, d, e, a, b, c⟩

/-- `12.3` is the text of 123 tenths. -/
example : decimalText 1 123 = c! "12.3" ∧ decimalText 1 3 = c! "0.3" ∧ decimalText 0 359 = c! "359" := by decide

/-- C138: class B position reports. -/
theorem C138_position_B (env : Env) (p : Parser) (s talker : Str) (own : Bool) (m : PositionB) (x : List Bool)
    (hm : m.Fits) (h : Delivers p s talker own (armor (m.bits ++ x))) :
    ∃ d, (parseSentence env p s).1 = .ok (.vesselDynamicData d) ∧ PrintsUnless 1023 1 m.speed d.sogKnots ∧
      PrintsUnless 3600 1 m.course d.cog ∧ PrintsUnless 511 0 m.heading d.headingTrue ∧
      PrintsDegrees 91 m.lat d.latitude ∧ PrintsDegrees 181 m.lon d.longitude := by
  obtain ⟨d, e, -, -, -, -, a1, -, a2, a3, a4, a5, -⟩ := C50_position_B env p s talker own m x hm h
  obtain ⟨-, -, -, h1, h2, h3, h4, h5, -⟩ := hm
  exact ⟨d, e, speed_print _ (by omega) _ a1, course_print _ (by omega) _ a4, heading_print' _ (by omega) _ a5,
    degrees_print _ _ (by omega) _ a2, degrees_print _ _ (by omega) _ a3⟩

/-- Any report of class B can be delivered. -/
example (env : Env) (p : Parser) (m : PositionB) (hm : m.Fits) :=
  C138_position_B env p _ (c! "AI") false m [] hm (deliverable p (c! "AI") false (m.bits ++ []) (by decide))

/-- C138: aircraft. -/
theorem C138_aircraft (env : Env) (p : Parser) (s talker : Str) (own : Bool) (m : Aircraft) (x : List Bool)
    (hm : m.Fits) (h : Delivers p s talker own (armor (m.bits ++ x))) :
    ∃ d, (parseSentence env p s).1 = .ok (.standardSarAircraftPositionReport d) ∧
      PrintsUnless 3600 1 m.course d.cog ∧ PrintsDegrees 91 m.lat d.latitude ∧ PrintsDegrees 181 m.lon d.longitude := by
  obtain ⟨d, e, -, -, -, -, -, -, a2, a3, a4, -⟩ := C48_aircraft env p s talker own m x hm h
  obtain ⟨-, -, -, -, h2, h3, h4, -⟩ := hm
  exact ⟨d, e, course_print _ (by omega) _ a4, degrees_print _ _ (by omega) _ a2, degrees_print _ _ (by omega) _ a3⟩

/-- Any report of an aircraft can be delivered. -/
example (env : Env) (p : Parser) (m : Aircraft) (hm : m.Fits) :=
  C138_aircraft env p _ (c! "AI") false m [] hm (deliverable p (c! "AI") false (m.bits ++ []) (by decide))

/-- C138: base stations. -/
theorem C138_base_station (env : Env) (p : Parser) (s talker : Str) (own : Bool) (m : BaseStation) (x : List Bool)
    (hm : m.Fits) (hd : IsDateTime m.time) (h : Delivers p s talker own (armor (m.bits ++ x))) :
    ∃ d, (parseSentence env p s).1 = .ok (.baseStationReport d) ∧
      PrintsDegrees 91 m.lat d.latitude ∧ PrintsDegrees 181 m.lon d.longitude := by
  obtain ⟨d, e, -, -, -, -, -, a2, a3, -⟩ := C45_base_station env p s talker own m x hm hd h
  obtain ⟨-, -, -, -, -, -, -, -, h2, h3, -⟩ := hm
  exact ⟨d, e, degrees_print _ _ (by omega) _ a2, degrees_print _ _ (by omega) _ a3⟩

/-- Any report of a base station can be delivered. -/
example (env : Env) (p : Parser) (m : BaseStation) (hm : m.Fits) (hd : IsDateTime m.time) :=
  C138_base_station env p _ (c! "AI") false m [] hm hd (deliverable p (c! "AI") false (m.bits ++ []) (by decide))

/-- C138: aids to navigation. -/
theorem C138_aid (env : Env) (p : Parser) (s talker : Str) (own : Bool) (m : Aid) (x : List Bool)
    (hm : m.Fits) (h : Delivers p s talker own (armor (m.bits ++ x))) :
    ∃ d, (parseSentence env p s).1 = .ok (.aidToNavigationReport d) ∧
      PrintsDegrees 91 m.lat d.latitude ∧ PrintsDegrees 181 m.lon d.longitude := by
  obtain ⟨d, e, -, -, -, -, -, -, a2, a3, -⟩ := C51_aid env p s talker own m x hm h
  obtain ⟨-, -, -, -, h2, h3, -⟩ := hm
  exact ⟨d, e, degrees_print _ _ (by omega) _ a2, degrees_print _ _ (by omega) _ a3⟩

/-- Any report of an aid to navigation can be delivered. -/
example (env : Env) (p : Parser) (m : Aid) (hm : m.Fits) :=
  C138_aid env p _ (c! "AI") false m [] hm (deliverable p (c! "AI") false (m.bits ++ []) (by decide))

/-- In any state of the parser, a sentence of a receiver is reported with what the reading tells. -/
theorem Reading.tells_any (env : Env) (p : Parser) (talker : Str) (r : Reading) (s : Str)
    (hg : IsGnss talker r.kind r.fields s) (hr : r.Fits env.now) :
    r.Tells env.now talker (parseSentence env p s).1 := by
  cases r with
  | gga h m s lat lon q n hdop alt geoid age st =>
    obtain ⟨a1, a2, a3, a4, a5, a6, a7, a8, a9, a10, a11⟩ := hr
    exact C65_round_trip env p talker h m s lat lon q n hdop alt geoid age st _ hg a1 a2 a3 a4 a5 a6 a7 a8 a9 a10 a11
  | rmc h m s active lat lon speed bearing day month year variation west =>
    obtain ⟨a1, a2, a3, a4, a5, a6, a7⟩ := hr
    exact C66_round_trip env p talker h m s active lat lon speed bearing day month year variation west _ hg
      a1 a2 a3 a4 a5 a6 a7
  | gsa automatic fix prns pdop hdop vdop =>
    obtain ⟨a1, a2, a3, a4, a5, a6⟩ := hr
    exact C67_round_trip env p talker automatic fix prns pdop hdop vdop _ hg a1 a2 a3 a4 a5 a6
  | vtg t m n k =>
    obtain ⟨a1, a2, a3, a4⟩ := hr
    obtain ⟨d, e, h⟩ := C68_round_trip env p talker t m n k _ hg a1 a2 a3 a4
    exact ⟨d, by rw [e], h⟩
  | gll lat lon h m s valid mode =>
    obtain ⟨a1, a2, a3, a4, a5⟩ := hr
    exact C69_round_trip env p talker lat lon h m s valid mode _ hg a1 a2 a3 a4

/-- C138: receivers: every number of a sentence that is printed with as many decimals as it was written with is printed as
the same decimal number, and positions to the nearest. -/
theorem C138_reading (env : Env) (p : Parser) (talker : Str) (r : Reading) (s : Str)
    (hg : IsGnss talker r.kind r.fields s) (hr : r.Fits env.now) :
    ∃ rep, (parseSentence env p s).1 = .ok rep ∧ List.Forall₂ PrintsNumber r.numbers (reportNumbers rep) ∧
      List.Forall₂ PrintsAngle r.angles (reportAngles rep) := by
  have ht := Reading.tells_any env p talker r s hg hr
  cases r with
  | gga h m s lat lon q n hdop alt geoid age st =>
    obtain ⟨-, -, -, -, -, -, b1, b2, b3, b4, -⟩ := hr
    obtain ⟨d, e, -, -, a1, a2, -, -, a3, a4, a5, a6, -⟩ := ht
    exact ⟨_, e, .cons (number_print _ b1 _ a3) (.cons (number_print _ b2 _ a4) (.cons (number_print _ b3 _ a5)
      (.cons (number_print _ b4 _ a6) .nil))), .cons (angle_print _ _ a1) (.cons (angle_print _ _ a2) .nil)⟩
  | rmc h m s active lat lon speed bearing day month year variation west =>
    obtain ⟨-, -, -, -, b1, b2, b3⟩ := hr
    obtain ⟨d, e, -, -, -, a1, a2, a3, a4, a5⟩ := ht
    exact ⟨_, e, .cons (number_print _ b1 _ a3) (.cons (number_print _ b2 _ a4) (.cons (number_print _ (show Number.Ok { variation with minus := variation.minus ^^ west } from b3) _ a5) .nil)),
      .cons (angle_print _ _ a1) (.cons (angle_print _ _ a2) .nil)⟩
  | gsa automatic fix prns pdop hdop vdop =>
    obtain ⟨-, -, -, b1, b2, b3⟩ := hr
    obtain ⟨d, e, -, -, -, -, a3, a4, a5⟩ := ht
    exact ⟨_, e, .cons (number_print _ b1 _ a3) (.cons (number_print _ b2 _ a4) (.cons (number_print _ b3 _ a5) .nil)), .nil⟩
  | vtg t m n k =>
    obtain ⟨b1, b2, b3, b4⟩ := hr
    obtain ⟨d, e, -, a3, a4, a5, a6, -⟩ := ht
    exact ⟨_, e, .cons (number_print _ b1 _ a3) (.cons (number_print _ b2 _ a4) (.cons (number_print _ b3 _ a5)
      (.cons (number_print _ b4 _ a6) .nil))), .nil⟩
  | gll lat lon h m s valid mode =>
    obtain ⟨d, e, -, a1, a2, -⟩ := ht
    exact ⟨_, e, .nil, .cons (angle_print _ _ a1) (.cons (angle_print _ _ a2) .nil)⟩

/-- A speed over ground of 36.5 knots, written `036.5`: all four numbers are short. -/
example (env : Env) (p : Parser) : ∃ s d, (parseSentence env p s).1 = .ok (.vtg d) ∧
    PrintsNumber ⟨false, 36, 1, 5⟩ d.sogKnots ∧ (⟨false, 36, 1, 5⟩ : Number).Short ∧
    (⟨false, 36, 1, 5⟩ : Number).text = c! "36.5" := by
  have hr : (Reading.vtg ⟨false, 360, 1, 0⟩ ⟨false, 348, 1, 7⟩ ⟨false, 36, 1, 5⟩ ⟨false, 67, 1, 6⟩).Fits env.now := by
    refine ⟨?_, ?_, ?_, ?_⟩ <;> (unfold Number.Ok; decide)
  have hg := Reading.tagged (c! "GP") _ env.now (by decide) hr
  obtain ⟨d, e, h⟩ := Reading.tells_any env p _ _ _ hg hr
  obtain ⟨rep, e', a, -⟩ := C138_reading env p _ _ _ hg hr
  rw [e] at e'
  cases e'
  cases a with | cons _ a => cases a with | cons _ a => cases a with | cons a _ =>
    exact ⟨_, d, e, a, by unfold Number.Short; decide, by decide⟩

/-- C138, the other side: with seventeen decimals the speed 0.3 is not printed as 0.3. The reported double is not the one
next to 0.3. -/
theorem C138_too_many_decimals (env : Env) (p : Parser) (s talker : Str) (own : Bool) (m : PositionA) (x : List Bool)
    (hm : m.Fits) (hs : m.speed = 3) (h : Delivers p s talker own (armor (m.bits ++ x))) :
    ∃ d v, (parseSentence env p s).1 = .ok (.vesselDynamicData d) ∧ d.sogKnots = some v ∧ ¬ RoundsTo (3 / 10) v ∧
      ∀ t, Prints 17 v t ↔ t = c! "0.30000000000000004" := by
  obtain ⟨d, e, -, -, -, -, -, -, -, a1, -⟩ := C44_position_A env p s talker own m x hm h
  unfold Speed at a1
  rw [if_neg (by omega), hs] at a1
  obtain ⟨t, h1, v, e1, h2⟩ := a1
  obtain rfl := tenth_unique h1
  obtain rfl := (F64.roundsTo_iff _ _).mp h2
  refine ⟨d, _, e, e1, fun hr => ?_, fun t => ?_⟩
  · have := (F64.roundsTo_iff _ _).mp hr
    revert this
    decide +kernel
  · rw [show F64.ofRat ((3 : Nat) * tenth) = .fin false (5404319552844596 / 2 ^ 54) by decide +kernel]
    refine (rounded_exact 17 30000000000000004 false _ t (by norm_num [abs_lt])).trans ?_
    rw [show (if false = true then ['-'] else []) ++ decimalText 17 30000000000000004 = c! "0.30000000000000004" by decide]

/-- Any report with this speed, for example this one, is printed so. -/
example (env : Env) (p : Parser) := C138_too_many_decimals env p _ (c! "AI") false
  ⟨1, 0, 227006760, 8, -57, 3, true, -70000000, 25000000, 3599, 359, 61, 1, 0, true, 34017⟩ []
  (by unfold PositionA.Fits; decide) rfl (deliverable p (c! "AI") false _ (by decide))

end Nmea
