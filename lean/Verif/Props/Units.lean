/-
C157: unit letters, old and new forms of sentences.
-/
import Verif.Props.Gnss
import Verif.Lemmas.Float

namespace Nmea
open Spec

/-- The fields with the letter of a unit or of a reference: metres twice in GGA; true, magnetic, knots and kilometres per
hour in VTG. -/
def Spec.unitFields (kind : Str) : List Nat :=
  ([(c! "GGA", [9, 11]), (c! "VTG", [1, 3, 5, 7])].lookup kind).getD []

/-- Metres in one unit of length: metres and feet. -/
def Spec.metresIn : Str → Option Rat := fun u => [(c! "M", 1), (c! "F", 381 / 1250)].lookup u

/-- C157: the letters of the units are not read. GGA and VTG sentences that agree in all other fields are answered the same, also
if they are refused or the call panics. -/
theorem C157_units (env : Env) (p : Parser) (talker kind : Str) (fs fs' : List Str) (s s' : Str)
    (hk : kind = c! "GGA" ∨ kind = c! "VTG") (h : IsGnss talker kind fs s) (h' : IsGnss talker kind fs' s')
    (hf : ∀ i, i ∉ unitFields kind → field fs i = field fs' i) : parseSentence env p s = parseSentence env p s' := by
  rcases hk with rfl | rfl
  · have hf : ∀ i, i ∉ [9, 11] → field fs i = field fs' i := hf
    have h1 := gnss_split talker fs s _ (by decide) h
    have h2 := gnss_split talker fs' s' _ (by decide) h'
    rw [eval_gga env p talker fs s h, eval_gga env p talker fs' s' h']
    simp only [handleGga, h1, h2, fieldAt_cons_succ, hf 0 (by decide), hf 1 (by decide), hf 2 (by decide), hf 3 (by decide),
      hf 4 (by decide), numField_congr _ _ fs fs' 5 (hf 5 (by decide)), numField_congr _ _ fs fs' 6 (hf 6 (by decide)),
      numField_congr _ _ fs fs' 7 (hf 7 (by decide)), numField_congr _ _ fs fs' 8 (hf 8 (by decide)),
      numField_congr _ _ fs fs' 10 (hf 10 (by decide)), numField_congr _ _ fs fs' 12 (hf 12 (by decide)),
      numField_congr _ _ fs fs' 13 (hf 13 (by decide))]
  · have hf : ∀ i, i ∉ [1, 3, 5, 7] → field fs i = field fs' i := hf
    have h1 := gnss_split talker fs s _ (by decide) h
    have h2 := gnss_split talker fs' s' _ (by decide) h'
    rw [eval_vtg env p talker fs s h, eval_vtg env p talker fs' s' h']
    simp only [handleVtg, h1, h2, fieldAt_cons_succ, hf 8 (by decide),
      numFieldOrNone_congr _ _ fs fs' 0 (hf 0 (by decide)), numFieldOrNone_congr _ _ fs fs' 2 (hf 2 (by decide)),
      numFieldOrNone_congr _ _ fs fs' 4 (hf 4 (by decide)), numFieldOrNone_congr _ _ fs fs' 6 (hf 6 (by decide))]

/-- Course and speed with the usual letters, and with the letters changed. -/
example (env : Env) (p : Parser) : parseSentence env p (c! "$GPVTG,10.0,T,20.0,M,5.0,N,9.3,K") =
    parseSentence env p (c! "$GPVTG,10.0,M,20.0,T,5.0,K,9.3,") :=
  C157_units env p (c! "GP") (c! "VTG") [c! "10.0", c! "T", c! "20.0", c! "M", c! "5.0", c! "N", c! "9.3", c! "K"]
    [c! "10.0", c! "M", c! "20.0", c! "T", c! "5.0", c! "K", c! "9.3", []] _ _ (.inr rfl)
    (demoTagged .bare (by decide +kernel)) (demoTagged .bare (by decide +kernel)) (by
      intro i hi
      have hi : i ∉ [1, 3, 5, 7] := hi
      match i with
      | 0 | 2 | 4 | 6 => rfl
      | 1 | 3 | 5 | 7 => simp at hi
      | i + 8 => rfl)

/-- A height of 100 feet. -/
theorem feet_report : ∃ d, (parseSentence demoEnv Parser.new (c! "$GPGGA,123519,,,,,,,,100.0,F")).1 = .ok (.gga d) ∧
    d.altitude = some (F64.ofRat 100) := by
  have hb : (match (parseSentence demoEnv Parser.new (c! "$GPGGA,123519,,,,,,,,100.0,F")).1 with
    | .ok (.gga d) => decide (d.altitude = some (F64.ofRat 100))
    | _ => false) = true := by decide +kernel
  split at hb
  · rename_i d hd
    exact ⟨d, hd, of_decide_eq_true hb⟩
  · cases hb

/-- C157: so the altitude of an accepted GGA sentence is the number sent, whatever its unit. -/
theorem C157_altitude (env : Env) (p : Parser) (talker : Str) (fs : List Str) (s : Str) (n : Number) (r : ParsedSentence)
    (h : IsGnss talker (c! "GGA") fs s) (hn : field fs 8 = n.text) (hp : n.frac < 10 ^ n.places)
    (hr : (parseSentence env p s).1 = .ok r) : ∃ d, r = .gga d ∧ n.Result d.altitude := by
  obtain ⟨d, rfl, hd⟩ := ((C65_contents env p talker fs s h).2.1 r).mp hr
  refine ⟨d, rfl, ?_⟩
  have ha := hd.altitude
  rw [hn] at ha
  rcases ha with ⟨h0, -⟩ | ⟨x, hx, he⟩
  · exfalso
    have := congrArg List.length h0
    simp [Number.text] at this
  · exact number_lenient n hp _ (.inl ⟨x, hx, he⟩)

example : ∃ d, (parseSentence demoEnv Parser.new (c! "$GPGGA,123519,,,,,,,,100.0,F")).1 = .ok (.gga d) ∧
    (⟨false, 100, 1, 0⟩ : Number).Result d.altitude := by
  obtain ⟨r, hr, -⟩ := feet_report
  obtain ⟨d, h, hd⟩ := C157_altitude demoEnv Parser.new (c! "GP") [c! "123519", [], [], [], [], [], [], [], c! "100.0", c! "F"]
    (c! "$GPGGA,123519,,,,,,,,100.0,F") ⟨false, 100, 1, 0⟩ _ (demoTagged .bare (by decide +kernel)) (by decide +kernel) (by decide) hr
  exact ⟨d, hr.trans (congrArg _ h), hd⟩

/-- C157: "the altitude of an accepted GGA sentence is the height in metres" is false: 100 feet are reported as 100. -/
theorem C157_feet_counterexample : ¬ ∀ (env : Env) (talker : Str) (fs : List Str) (s : Str) (n : Number) (u : Rat) (d : GgaData),
    IsGnss talker (c! "GGA") fs s → field fs 8 = n.text → n.minus = false → n.frac < 10 ^ n.places →
    metresIn (field fs 9) = some u → (parseSentence env Parser.new s).1 = .ok (.gga d) →
    ∃ x, RoundsTo (u * n.mag) x ∧ d.altitude = some x := by
  intro hall
  obtain ⟨d, hr, hd⟩ := feet_report
  obtain ⟨x, h1, h2⟩ := hall demoEnv (c! "GP") [c! "123519", [], [], [], [], [], [], [], c! "100.0", c! "F"]
    (c! "$GPGGA,123519,,,,,,,,100.0,F") ⟨false, 100, 1, 0⟩ (381 / 1250) d (demoTagged .bare (by decide +kernel)) (by decide +kernel) rfl
    (by decide) (by decide +kernel) hr
  have hx := Option.some.inj (hd.symm.trans h2)
  rw [← hx, F64.roundsTo_iff] at h1
  exact absurd h1 (by decide +kernel)

/-- C157: a VTG sentence of the form before NMEA 2.0, four numbers without letters (true course, magnetic course, knots, kilometres
per hour): the magnetic course is lost, the speed in knots is reported as the magnetic course, and no speed is reported. -/
theorem C157_old_vtg (env : Env) (p : Parser) (talker : Str) (t m n k : Number) (s : Str)
    (hs : IsGnss talker (c! "VTG") [t.text, m.text, n.text, k.text] s)
    (h1 : t.frac < 10 ^ t.places) (h3 : n.frac < 10 ^ n.places) :
    ∃ r, parseSentence env p s = (.ok (.vtg r), p) ∧ r.source = talkerSystem talker ∧ t.Result r.cogTrue ∧
      n.Result r.cogMagnetic ∧ r.sogKnots = none ∧ r.sogKph = none ∧ r.faaMode = none := by
  obtain ⟨d, he, hd⟩ := C68_contents env p talker _ s hs
  have hd := (hd d).mpr rfl
  have hnone : ∀ x, LenientField [] x → x = none := by
    rintro x (⟨d, h, -⟩ | ⟨-, h⟩)
    · exact absurd rfl (numberText_ne_nil h)
    · exact h
  exact ⟨d, he, hd.source, number_lenient _ h1 _ hd.courseTrue, number_lenient _ h3 _ hd.courseMagnetic, hnone _ hd.knots,
    hnone _ hd.kph, hd.faa⟩

example (env : Env) (p : Parser) : ∃ r, parseSentence env p (c! "$GPVTG,360.0,348.7,16.89,31.28") = (.ok (.vtg r), p) ∧
    (⟨false, 16, 2, 89⟩ : Number).Result r.cogMagnetic ∧ r.sogKnots = none := by
  obtain ⟨r, h, -, -, h1, h2, -⟩ := C157_old_vtg env p (c! "GP") ⟨false, 360, 1, 0⟩ ⟨false, 348, 1, 7⟩ ⟨false, 16, 2, 89⟩
    ⟨false, 31, 2, 28⟩ (c! "$GPVTG,360.0,348.7,16.89,31.28") (demoTagged .bare (by decide +kernel)) (by decide) (by decide)
  exact ⟨r, h, h1, h2⟩

/-- C157: the system id that ends a GSA sentence since NMEA 4.10 is not read: a receiver of several systems sends one GSA
sentence with talker `GN` for each, and their reports name no system. -/
theorem C157_system_id (env : Env) (p : Parser) (fs : List Str) (id id' : Str) (s s' : Str) (hl : fs.length = 17)
    (h : IsGnss (c! "GN") (c! "GSA") (fs ++ [id]) s) (h' : IsGnss (c! "GN") (c! "GSA") (fs ++ [id']) s') :
    parseSentence env p s = parseSentence env p s' ∧
      ∀ r, (parseSentence env p s).1 = .ok r → ∃ d, r = .gsa d ∧ d.source = .combination := by
  refine ⟨C71_extra_fields env p _ _ _ _ s s' 17 rfl h h' ?_, ?_⟩
  · intro i hi
    unfold field
    rw [List.getD_append _ _ _ _ (by omega), List.getD_append _ _ _ _ (by omega)]
  · intro r hr
    obtain ⟨d, rfl, hd⟩ := ((C67_contents env p _ _ s h).2.1 r).mp hr
    exact ⟨d, rfl, hd.source⟩

/-- The satellites used of GPS (1) and of GLONASS (2). -/
example (env : Env) (p : Parser) : parseSentence env p (c! "$GNGSA,A,3,65,66,,,,,,,,,,,2.0,1.0,1.7,1") =
    parseSentence env p (c! "$GNGSA,A,3,65,66,,,,,,,,,,,2.0,1.0,1.7,2") :=
  (C157_system_id env p [c! "A", c! "3", c! "65", c! "66", [], [], [], [], [], [], [], [], [], [], c! "2.0", c! "1.0", c! "1.7"]
    (c! "1") (c! "2") _ _ rfl (demoTagged .bare (by decide +kernel)) (demoTagged .bare (by decide +kernel))).1
example : ∃ d, (parseSentence demoEnv Parser.new (c! "$GNGSA,A,3,65,66,,,,,,,,,,,2.0,1.0,1.7,2")).1 = .ok (.gsa d) ∧
    d.source = .combination := ⟨_, rfl, by decide +kernel⟩

end Nmea
