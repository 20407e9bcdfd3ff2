/-
C150: the sentences about one fix agree.
-/
import Verif.Props.LeapSecond
import Verif.Props.Instants

namespace Nmea
open Spec

/-- Sentences of these kinds with these fields have the same texts for the position (latitude, hemisphere, longitude,
hemisphere). -/
def SamePosition (kind : Str) (fs : List Str) (kind' : Str) (fs' : List Str) : Prop :=
  ∃ i j, latitudeIndex kind = some i ∧ latitudeIndex kind' = some j ∧ ∀ n < 4, field fs (i + n) = field fs' (j + n)

/-- The field with the time in sentences without a date. -/
def timeIndex (kind : Str) : Option Nat := [(c! "GGA", 0), (c! "GLL", 4)].lookup kind

theorem posField_unique {k : Nat} {c : Char} {s h : Str} {x y : Option F64} (hx : PosField k c s h x) (hy : PosField k c s h y) :
    x = y := by
  have no : ∀ deg min, ¬ PosText k [] deg min := by
    rintro deg min ⟨d, m, f, rest, e, -⟩
    simp at e
  rcases hx with ⟨rfl, rfl⟩ | ⟨deg, min, r, h1, h2, rfl⟩
  · rcases hy with ⟨-, rfl⟩ | ⟨deg, min, r, h1, -⟩
    · rfl
    · exact absurd h1 (no _ _)
  · rcases hy with ⟨rfl, -⟩ | ⟨deg', min', r', h1', h2', rfl⟩
    · exact absurd h1 (no _ _)
    · obtain ⟨rfl, rfl⟩ := posText_unique h1 h1'
      rw [degreesOf_unique h2 h2']

theorem timeField_unique {now : DateTime} {s : Str} {x y : Option DateTime} (hx : TimeField now s x) (hy : TimeField now s y) :
    x = y := by
  rcases hx with ⟨h, m, z, h1, -, rfl⟩ | ⟨h1, rfl⟩ <;> rcases hy with ⟨h', m', z', h1', -, rfl⟩ | ⟨h1', rfl⟩ <;>
    cases readTime_unique h1 h1' <;> rfl

theorem lenient_of_num {s : Str} {x y : Option F64} (hx : NumField s x) (hy : LenientField s y) : x = y := by
  rcases hx with ⟨rfl, rfl⟩ | ⟨d, h1, rfl⟩
  · rcases hy with ⟨d, h2, rfl⟩ | ⟨-, rfl⟩
    · exact C63_unique [] none (some d) (.inl ⟨rfl, rfl⟩) (.inr ⟨d, h2, rfl⟩)
    · rfl
  · rcases hy with ⟨d', h2, rfl⟩ | ⟨h2, -⟩
    · rw [numberText_unique h1 h2]
    · exact absurd h1 (h2 d)

theorem timeIndex_cases {kind : Str} {i : Nat} (h : timeIndex kind = some i) :
    kind = c! "GGA" ∧ i = 0 ∨ kind = c! "GLL" ∧ i = 4 := by
  unfold timeIndex at h
  simp only [List.lookup_cons, List.lookup_nil] at h
  split at h
  · next e => simp only [Option.some.injEq] at h; exact .inl ⟨by simpa using e, h.symm⟩
  · split at h
    · next e => simp only [Option.some.injEq] at h; exact .inr ⟨by simpa using e, h.symm⟩
    · cases h

theorem fix_position {env : Env} {p : Parser} {talker kind : Str} {fs : List Str} {s : Str} {r : ParsedSentence} {i : Nat}
    (h : IsGnss talker kind fs s) (hi : latitudeIndex kind = some i) (hr : (parseSentence env p s).1 = .ok r) :
    ∃ x y, gnssPosition r = some (x, y) ∧ LatField (field fs (i + 0)) (field fs (i + 1)) x ∧
      LonField (field fs (i + 2)) (field fs (i + 3)) y := C64_positions env p talker kind fs s i h hi r hr

theorem fix_time {env : Env} {p : Parser} {talker kind : Str} {fs : List Str} {s : Str} {r : ParsedSentence} {i : Nat}
    (h : IsGnss talker kind fs s) (hi : timeIndex kind = some i) (hr : (parseSentence env p s).1 = .ok r) :
    ∃ t, gnssTime r = some t ∧ TimeField env.now (field fs i) t := by
  rcases timeIndex_cases hi with ⟨rfl, rfl⟩ | ⟨rfl, rfl⟩
  · obtain ⟨d, rfl, hd⟩ := (gga_ok env p talker fs s h r).mp hr
    exact ⟨_, rfl, hd.timestamp⟩
  · obtain ⟨d, rfl, hd⟩ := (gll_ok env p talker fs s h r).mp hr
    exact ⟨_, rfl, hd.timestamp⟩

/-- C150: GGA, RMC and GLL sentences with the same texts for the position are reported with the same position, in any states, on
any clocks, of whatever talkers, and whatever their other fields are. -/
theorem C150_position (env env' : Env) (p p' : Parser) (talker talker' kind kind' : Str) (fs fs' : List Str) (s s' : Str)
    (r r' : ParsedSentence) (h : IsGnss talker kind fs s) (h' : IsGnss talker' kind' fs' s') (hp : SamePosition kind fs kind' fs')
    (hr : (parseSentence env p s).1 = .ok r) (hr' : (parseSentence env' p' s').1 = .ok r') :
    gnssPosition r = gnssPosition r' ∧ gnssPosition r ≠ none := by
  obtain ⟨i, j, hi, hj, he⟩ := hp
  obtain ⟨x, y, e, h1, h2⟩ := fix_position h hi hr
  obtain ⟨x', y', e', h1', h2'⟩ := fix_position h' hj hr'
  rw [he 0 (by decide), he 1 (by decide)] at h1
  rw [he 2 (by decide), he 3 (by decide)] at h2
  rw [e, e', posField_unique h1 h1', posField_unique h2 h2']
  exact ⟨rfl, by simp⟩

/-- C150: and a position refused in a GLL sentence is accepted in none of them. -/
theorem C150_refused (env env' : Env) (p p' : Parser) (talker talker' kind : Str) (fs fs' : List Str) (s s' : Str) (e : ParseError)
    (h : IsGnss talker (c! "GLL") fs s) (h' : IsGnss talker' kind fs' s') (hp : SamePosition (c! "GLL") fs kind fs')
    (hr : (parseSentence env p s).1 = .err e) (r : ParsedSentence) : (parseSentence env' p' s').1 ≠ .ok r := by
  intro hr'
  refine (gll_refused env p talker fs s h).mp ⟨e, hr⟩ ?_
  obtain ⟨i, j, hi, hj, he⟩ := hp
  obtain ⟨x, y, -, h1, h2⟩ := fix_position h' hj hr'
  cases hi
  rw [← he 0 (by decide), ← he 1 (by decide)] at h1
  rw [← he 2 (by decide), ← he 3 (by decide)] at h2
  exact ⟨⟨x, h1⟩, y, h2⟩

/-- C150: GGA and GLL sentences with the same time text, received on the same day, are reported with the same timestamp. -/
theorem C150_time (env env' : Env) (p p' : Parser) (talker talker' kind kind' : Str) (fs fs' : List Str) (s s' : Str)
    (r r' : ParsedSentence) (i j : Nat) (h : IsGnss talker kind fs s) (h' : IsGnss talker' kind' fs' s')
    (hi : timeIndex kind = some i) (hj : timeIndex kind' = some j) (ht : field fs i = field fs' j) (hd : SameDay env.now env'.now)
    (hr : (parseSentence env p s).1 = .ok r) (hr' : (parseSentence env' p' s').1 = .ok r') :
    gnssTime r = gnssTime r' ∧ gnssTime r ≠ none := by
  obtain ⟨t, e, h1⟩ := fix_time h hi hr
  obtain ⟨t', e', h1'⟩ := fix_time h' hj hr'
  have h1'' : TimeField env.now (field fs i) t' := by
    obtain ⟨d1, d2, d3⟩ := hd
    unfold TimeField at h1' ⊢
    rw [ht, d1, d2, d3]
    exact h1'
  rw [e, e', timeField_unique h1 h1'']
  exact ⟨rfl, by simp⟩

/-- C150: an RMC sentence with the same time and a date has the timestamp of the GGA or GLL sentence exactly if the date (in
the century of the clock when it is received) is that of the clock when the other one is received. -/
theorem C150_rmc_time (env env' : Env) (p p' : Parser) (talker talker' kind : Str) (fs fs' : List Str) (s s' : Str)
    (r r' : ParsedSentence) (i : Nat) (d mo y h m x : Nat) (rest rest' rest'' : Str)
    (hs : IsGnss talker kind fs s) (hs' : IsGnss talker' (c! "RMC") fs' s') (hi : timeIndex kind = some i)
    (ht : field fs i = timeText h m x ++ rest) (ht' : field fs' 0 = timeText h m x ++ rest')
    (hd : field fs' 8 = dateText d mo y ++ rest'') (h1 : d < 100) (h2 : mo < 100) (h3 : y < 100) (h4 : h < 100) (h5 : m < 100)
    (h6 : x < 100) (hr : (parseSentence env p s).1 = .ok r) (hr' : (parseSentence env' p' s').1 = .ok r') :
    gnssTime r = gnssTime r' ↔ env.now.year = centuryOf env'.now.year + y ∧ env.now.month = mo ∧ env.now.day = d := by
  obtain ⟨t, e, h7⟩ := fix_time hs hi hr
  obtain ⟨d', rfl, h8⟩ := (rmc_ok env' p' talker' fs' s' hs' r').mp hr'
  have hv : IsTime h m x ∧ t = some ⟨env.now.year, env.now.month, env.now.day, h, m, x⟩ := by
    rw [ht] at h7
    have hread := timePrefix_read h m x rest h4 h5 h6
    rcases h7 with ⟨h', m', x', hr', hv, rfl⟩ | ⟨hr', rfl⟩
    · cases readTime_unique hread hr'
      exact ⟨hv.2.2, rfl⟩
    · cases readTime_unique hread hr'
  have hw : d'.timestamp = some ⟨centuryOf env'.now.year + y, mo, d, h, m, x⟩ := by
    have h9 := h8.timestamp
    rw [hd, ht'] at h9
    have hread := dateTimePrefix_read d mo y h m x rest' rest'' h1 h2 h3 h4 h5 h6
    rcases h9 with ⟨d2, m2, y2, h', mi', s', hr', hv, e⟩ | ⟨hr', -⟩
    · obtain ⟨rfl, rfl, rfl, rfl, rfl, rfl⟩ := readDateTime_unique hread hr'
      exact e
    · exact absurd hread (hr' _ _ _ _ _ _)
  rw [e, hv.2]
  show some _ = some d'.timestamp ↔ _
  rw [hw]
  simp

/-- C150: VTG and RMC sentences with the same texts for speed and course: if the RMC sentence is accepted, both are reported with
the same speed and course. -/
theorem C150_motion (env env' : Env) (p p' : Parser) (talker talker' : Str) (fs fs' : List Str) (s s' : Str)
    (h : IsGnss talker (c! "RMC") fs s) (h' : IsGnss talker' (c! "VTG") fs' s') (h1 : field fs 6 = field fs' 4)
    (h2 : field fs 7 = field fs' 0) (r : ParsedSentence) (hr : (parseSentence env p s).1 = .ok r) :
    ∃ d d', r = .rmc d ∧ (parseSentence env' p' s').1 = .ok (.vtg d') ∧ d.sogKnots = d'.sogKnots ∧ d.bearing = d'.cogTrue := by
  obtain ⟨d, rfl, hd⟩ := (rmc_ok env p talker fs s h r).mp hr
  obtain ⟨d', e, hd'⟩ := vtg_ok env' p' talker' fs' s' h'
  have hd' := (hd' d').mpr rfl
  exact ⟨d, d', rfl, e, lenient_of_num (h1 ▸ hd.speed) hd'.knots, lenient_of_num (h2 ▸ hd.bearing) hd'.courseTrue⟩

/-- C150: GGA and GSA sentences with the same text for the dilution of precision are reported with the same value. -/
theorem C150_hdop (env env' : Env) (p p' : Parser) (talker talker' : Str) (fs fs' : List Str) (s s' : Str)
    (r r' : ParsedSentence) (h : IsGnss talker (c! "GGA") fs s) (h' : IsGnss talker' (c! "GSA") fs' s')
    (h1 : field fs 7 = field fs' 15) (hr : (parseSentence env p s).1 = .ok r) (hr' : (parseSentence env' p' s').1 = .ok r') :
    ∃ d d', r = .gga d ∧ r' = .gsa d' ∧ d.hdop = d'.hdop := by
  obtain ⟨d, rfl, hd⟩ := (gga_ok env p talker fs s h r).mp hr
  obtain ⟨d', rfl, hd'⟩ := (gsa_ok env' p' talker' fs' s' h' r').mp hr'
  exact ⟨d, d', rfl, rfl, C63_unique _ _ _ (h1 ▸ hd.hdop) hd'.hdop⟩

/-- C150: RMC and GLL sentences with the same status letter are reported with the same status. -/
theorem C150_status (env env' : Env) (p p' : Parser) (talker talker' : Str) (fs fs' : List Str) (s s' : Str)
    (r r' : ParsedSentence) (h : IsGnss talker (c! "RMC") fs s) (h' : IsGnss talker' (c! "GLL") fs' s')
    (h1 : field fs 1 = field fs' 5) (hr : (parseSentence env p s).1 = .ok r) (hr' : (parseSentence env' p' s').1 = .ok r') :
    ∃ d d', r = .rmc d ∧ r' = .gll d' ∧ d.statusActive = d'.dataValid := by
  obtain ⟨d, rfl, hd⟩ := (rmc_ok env p talker fs s h r).mp hr
  obtain ⟨d', rfl, hd'⟩ := (gll_ok env' p' talker' fs' s' h' r').mp hr'
  refine ⟨d, d', rfl, rfl, ?_⟩
  rw [hd'.valid, ← h1]
  rcases hd.status with ⟨e, e'⟩ | ⟨a, e, e'⟩
  · rw [e, e']; rfl
  · rw [e']
    simp only [statusTable, List.mem_cons, Prod.mk.injEq, List.not_mem_nil, or_false] at e
    rcases e with ⟨e, rfl⟩ | ⟨e, rfl⟩ <;> rw [e] <;> decide

/-- The sentences of one second of a receiver. -/
example : let gga := [c! "123519", c! "4807.038", c! "N", c! "01131.000", c! "W", c! "1", c! "08", c! "0.9"]
    let rmc := [c! "123519", c! "A", c! "4807.038", c! "N", c! "01131.000", c! "W", c! "022.4", c! "084.4", c! "290224"]
    let gll := [c! "4807.038", c! "N", c! "01131.000", c! "W", c! "123519", c! "A"]
    let gsa := [c! "A", c! "3", c! "04", [], [], [], [], [], [], [], [], [], [], [], c! "2.5", c! "0.9", c! "2.1"]
    let vtg := [c! "084.4", c! "T", [], c! "M", c! "022.4", c! "N"]
    IsGnss (c! "GP") (c! "GGA") gga (c! "$GPGGA,123519,4807.038,N,01131.000,W,1,08,0.9") ∧
    IsGnss (c! "GP") (c! "RMC") rmc (c! "$GPRMC,123519,A,4807.038,N,01131.000,W,022.4,084.4,290224") ∧
    IsGnss (c! "GP") (c! "GLL") gll (c! "$GPGLL,4807.038,N,01131.000,W,123519,A") ∧
    IsGnss (c! "GP") (c! "GSA") gsa (c! "$GPGSA,A,3,04,,,,,,,,,,,,2.5,0.9,2.1") ∧
    IsGnss (c! "GP") (c! "VTG") vtg (c! "$GPVTG,084.4,T,,M,022.4,N") ∧
    SamePosition (c! "GGA") gga (c! "RMC") rmc ∧ SamePosition (c! "GLL") gll (c! "GGA") gga ∧
    field gga 7 = field gsa 15 ∧ field rmc 6 = field vtg 4 ∧ field rmc 7 = field vtg 0 ∧ field rmc 1 = field gll 5 ∧
    (answers Parser.new [(demoEnv, c! "$GPGGA,123519,4807.038,N,01131.000,W,1,08,0.9"),
      (demoEnv, c! "$GPRMC,123519,A,4807.038,N,01131.000,W,022.4,084.4,290224"),
      (demoEnv, c! "$GPGLL,4807.038,N,01131.000,W,123519,A"), (demoEnv, c! "$GPGSA,A,3,04,,,,,,,,,,,,2.5,0.9,2.1")]).all
        (fun a => match a with | .ok _ => true | _ => false) = true := by
  refine ⟨demoTagged .bare (by decide), demoTagged .bare (by decide), demoTagged .bare (by decide), demoTagged .bare (by decide),
    demoTagged .bare (by decide), ⟨1, 2, by decide, by decide, by decide⟩, ⟨0, 1, by decide, by decide, by decide⟩, by decide,
    by decide, by decide, by decide, by decide +kernel⟩

/-- C150: 'the sentences of one fix are reported with the same timestamp' is false: received just after midnight, the GGA and the
RMC sentence of a fix made just before differ by a day. -/
theorem C150_counterexample : ¬ ∀ (env : Env) (talker : Str) (fs fs' : List Str) (s s' : Str) (r r' : ParsedSentence),
    IsGnss talker (c! "GGA") fs s → IsGnss talker (c! "RMC") fs' s' → field fs 0 = field fs' 0 →
    (parseSentence env Parser.new s).1 = .ok r → (parseSentence env Parser.new s').1 = .ok r' →
    gnssTime r' ≠ some none → gnssTime r = gnssTime r' := by
  intro h
  have := h ⟨⟨2024, 3, 1, 0, 0, 0⟩, true, fun c => [c]⟩ (c! "GP") [c! "235959", [], [], [], [], c! "0"]
    [c! "235959", c! "A", [], [], [], [], [], [], c! "290224"] (c! "$GPGGA,235959,,,,,0") (c! "$GPRMC,235959,A,,,,,,,290224") _ _
    (demoTagged .bare (by decide)) (demoTagged .bare (by decide)) (by decide) rfl rfl (by decide +kernel)
  exact absurd this (by decide +kernel)

end Nmea
