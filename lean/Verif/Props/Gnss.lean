/-
C62 – C71, C75, C76, C79: contents of GGA, RMC, GSA, VTG and GLL sentences.
-/
import Verif.Lemmas.GnssOutcome
import Verif.Lemmas.Format
import Verif.Spec.Demo
import Mathlib.Data.List.GetD

namespace Nmea
open Spec

/-- The GGA fields of the examples. -/
def demoGga : List Str :=
  [c! "123519", c! "4807.038", c! "N", c! "01131.000", c! "W", c! "1", c! "08", c! "0.9", c! "-545.4", c! "M", c! "46.9",
    c! "M", c! "", c! "0042"]

theorem demoGga_tagged : IsGnss (c! "GP") (c! "GGA") demoGga
    (c! "$GPGGA,123519,4807.038,N,01131.000,W,1,08,0.9,-545.4,M,46.9,M,,0042*7E") :=
  demoTagged .full (by decide +kernel)

/-! ## C62: integer fields -/

/-- The integer fields of sentences are read as `u8`, `u16` or `u32`: exactly the empty text and the decimal
texts in range are accepted, and the result is the decimal value. -/
theorem C62_integer_fields (split : List Str) (i : Nat) (x : Option Nat) :
    (pickNumberField parseU8 split i = .ok x ↔ IntField 255 (fieldAt split i) x) ∧
    (pickNumberField parseU16 split i = .ok x ↔ IntField 65535 (fieldAt split i) x) ∧
    (pickNumberField parseU32 split i = .ok x ↔ IntField (2 ^ 32 - 1) (fieldAt split i) x) := by
  refine ⟨?_, ?_, ?_⟩
  · rw [← liftErr_ok]; exact numField_int parseU8_iff split i x
  · rw [← liftErr_ok]; exact numField_int parseU16_iff split i x
  · rw [← liftErr_ok]; exact numField_int parseU32_iff split i x

/-- The satellite count `08` and the out-of-range count `256`. -/
example : pickNumberField parseU8 demoGga 6 = .ok (some 8) ∧
    pickNumberField parseU8 [c! "256"] 0 = .err (c! "Failed to parse field 0: 256") :=
  ⟨(C62_integer_fields demoGga 6 _).1.mpr (.inr ⟨8, demoDec (by decide), rfl⟩), by decide +kernel⟩

/-- Observed on sentences: the satellite count (`u8`) and the station number (`u16`) of an accepted GGA
sentence are the values of their texts, and a GGA sentence where one of them is not an integer text in range
is not accepted. -/
theorem C62_sentences (env : Env) (p : Parser) (talker : Str) (fs : List Str) (s : Str)
    (h : IsGnss talker (c! "GGA") fs s) :
    (∀ d, (parseSentence env p s).1 = .ok (.gga d) →
      IntField 255 (field fs 6) d.satelliteCount ∧ IntField 65535 (field fs 13) d.refStationId) ∧
    ((∀ x, ¬ IntField 255 (field fs 6) x) ∨ (∀ x, ¬ IntField 65535 (field fs 13) x) →
      ∀ r, (parseSentence env p s).1 ≠ .ok r) := by
  constructor
  · intro d hd
    obtain ⟨d', e, hs⟩ := (gga_ok env p talker fs s h _).mp hd
    cases e
    exact ⟨hs.satellites, hs.station⟩
  · intro hn r hr
    obtain ⟨d, -, hs⟩ := (gga_ok env p talker fs s h _).mp hr
    rcases hn with hn | hn
    · exact hn _ hs.satellites
    · exact hn _ hs.station

/-- An accepted sentence with 8 satellites and station 42, and one that is refused for its 256 satellites. -/
example : (∃ d, (parseSentence demoEnv Parser.new
      (c! "$GPGGA,123519,4807.038,N,01131.000,W,1,08,0.9,-545.4,M,46.9,M,,0042*7E")).1 = .ok (.gga d) ∧
      d.satelliteCount = some 8 ∧ d.refStationId = some 42) ∧
    ∀ r, (parseSentence demoEnv Parser.new (c! "$GPGGA,123519,,,,,,256")).1 ≠ .ok r := by
  refine ⟨⟨_, rfl, by decide +kernel, by decide +kernel⟩, ?_⟩
  refine (C62_sentences demoEnv Parser.new (c! "GP") [c! "123519", [], [], [], [], [], c! "256"] (c! "$GPGGA,123519,,,,,,256")
    (demoTagged .bare (by decide +kernel))).2 (.inl ?_)
  intro x hx
  have h := (C62_integer_fields [c! "256"] 0 x).1.mpr hx
  rw [show pickNumberField parseU8 [c! "256"] 0 = .err (c! "Failed to parse field 0: 256") by decide +kernel] at h
  cases h

/-- Every number in range, written with any number of leading zeros, with or without `+`, is accepted. -/
theorem C62_leading_zeros (max n k : Nat) (h : n ≤ max) :
    IntField max (List.replicate k '0' ++ natStr n) (some n) ∧
    IntField max ('+' :: (List.replicate k '0' ++ natStr n)) (some n) := by
  have hz : decValue (List.replicate k '0') = 0 := by
    induction k with
    | zero => rfl
    | succ k ih => rw [List.replicate_succ, decValue_cons, ih]; simp
  have hd : Digits (List.replicate k '0' ++ natStr n) := by
    refine ⟨?_, ?_⟩
    · intro e
      exact (natStr_digits n).1 (List.append_eq_nil_iff.mp e).2
    · intro c hc
      rcases List.mem_append.mp hc with h | h
      · rw [(List.mem_replicate.mp h).2]; decide
      · exact (natStr_digits n).2 c h
  have hv : decValue (List.replicate k '0' ++ natStr n) = n := by
    rw [decValue_append, hz, decValue_natStr]; simp
  exact ⟨.inr ⟨n, ⟨_, .inl rfl, hd, hv, h⟩, rfl⟩, .inr ⟨n, ⟨_, .inr rfl, hd, hv, h⟩, rfl⟩⟩

/-- `0000008` and `+0000008` are 8. -/
example : IntField 255 (c! "0000008") (some 8) ∧ IntField 255 (c! "+0000008") (some 8) :=
  C62_leading_zeros 255 8 6 (by decide)

/-- A text of digits whose value is out of range is refused, as is a text with another character. -/
theorem C62_refused (max : Nat) (s : Str) (hs : s ≠ []) (x : Option Nat) :
    (Digits s → max < decValue s → ¬ IntField max s x) ∧
    (∀ c ∈ s, c ∉ c! "+0123456789" → ¬ IntField max s x) := by
  constructor
  · rintro hd hm (⟨h, -⟩ | ⟨n, ⟨ds, h1 | h1, h2, h3, h4⟩, -⟩)
    · exact hs h
    · rw [← h1] at h3; omega
    · subst h1
      exact plus_not_digit (hd.2 '+' (by simp))
  · rintro c hc hn (⟨h, -⟩ | ⟨n, ⟨ds, h1 | h1, h2, h3, h4⟩, -⟩)
    · exact hs h
    · subst h1
      exact hn (List.mem_cons_of_mem _ (h2.2 c hc))
    · subst h1
      rcases List.mem_cons.mp hc with rfl | hc
      · exact hn (by decide)
      · exact hn (List.mem_cons_of_mem _ (h2.2 c hc))

/-- `256` is out of range, `8.0` is no integer text. -/
example (x : Option Nat) : ¬ IntField 255 (c! "256") x ∧ ¬ IntField 255 (c! "8.0") x :=
  ⟨(C62_refused 255 _ (by decide) x).1 (by decide) (by decide), (C62_refused 255 _ (by decide) x).2 '.' (by decide) (by decide)⟩

/-! ## C63: decimal fields -/

/-- The decimal fields of sentences: exactly the empty text and the number texts are accepted, and the result
is the double that the exact value is rounded to. -/
theorem C63_decimal_fields (split : List Str) (i : Nat) (x : Option F64) :
    pickNumberField F64.parse split i = .ok x ↔ NumField (fieldAt split i) x := by
  rw [← liftErr_ok]; exact numField_f64 split i x

/-- `1.2.3` is no number text. -/
example : ∀ x, ¬ NumField (c! "1.2.3") x := by
  intro x hx
  have := (C63_decimal_fields [c! "1.2.3"] 0 x).mpr hx
  rw [show pickNumberField F64.parse [c! "1.2.3"] 0 = .err (c! "Failed to parse field 0: 1.2.3") by decide +kernel] at this
  cases this

/-- Observed on sentences: the dilution, altitude, geoid separation and age of an accepted GGA sentence are the
values of their texts; a GGA sentence where one of them is not a number text is not accepted. -/
theorem C63_sentences (env : Env) (p : Parser) (talker : Str) (fs : List Str) (s : Str)
    (h : IsGnss talker (c! "GGA") fs s) :
    (∀ d, (parseSentence env p s).1 = .ok (.gga d) → NumField (field fs 7) d.hdop ∧ NumField (field fs 8) d.altitude ∧
      NumField (field fs 10) d.geoidSeparation ∧ NumField (field fs 12) d.ageOfDgps) ∧
    ((∃ i ∈ [7, 8, 10, 12], ∀ x, ¬ NumField (field fs i) x) → ∀ r, (parseSentence env p s).1 ≠ .ok r) := by
  constructor
  · intro d hd
    obtain ⟨d', e, hs⟩ := (gga_ok env p talker fs s h _).mp hd
    cases e
    exact ⟨hs.hdop, hs.altitude, hs.geoid, hs.age⟩
  · rintro ⟨i, hi, hn⟩ r hr
    obtain ⟨d, -, hs⟩ := (gga_ok env p talker fs s h _).mp hr
    simp only [List.mem_cons, List.not_mem_nil, or_false] at hi
    rcases hi with rfl | rfl | rfl | rfl
    · exact hn _ hs.hdop
    · exact hn _ hs.altitude
    · exact hn _ hs.geoid
    · exact hn _ hs.age

/-- The altitude of the accepted sentence is the value of `-545.4`. -/
example : ∃ d, (parseSentence demoEnv Parser.new
      (c! "$GPGGA,123519,4807.038,N,01131.000,W,1,08,0.9,-545.4,M,46.9,M,,0042*7E")).1 = .ok (.gga d) ∧
    NumField (c! "-545.4") d.altitude ∧ NumField (c! "46.9") d.geoidSeparation :=
  ⟨_, rfl, ((C63_sentences demoEnv Parser.new (c! "GP") demoGga _ demoGga_tagged).1 _ rfl).2.1,
    ((C63_sentences demoEnv Parser.new (c! "GP") demoGga _ demoGga_tagged).1 _ rfl).2.2.1⟩

/-- A number written with a sign, a whole part and any number of decimals is read as the double next to it. -/
theorem C63_formatted (n : Number) (h : n.frac < 10 ^ n.places) (x : Option F64) :
    NumField n.text x ↔ n.Result x := by
  constructor
  · exact number_field n h x
  · rintro ⟨d, hr, rfl⟩
    exact .inr ⟨_, number_text n h d hr, rfl⟩

/-- `-545.4` has the value of 5454 / 10, negated. -/
example (x : Option F64) : NumField (c! "-545.4") x ↔ ∃ d, RoundsTo (5454 / 10) d ∧ x = some (signedF64 true d) := by
  have h := C63_formatted ⟨true, 545, 1, 4⟩ (by decide) x
  rw [show (⟨true, 545, 1, 4⟩ : Number).text = c! "-545.4" by decide] at h
  rw [h, Number.Result, show (⟨true, 545, 1, 4⟩ : Number).mag = 5454 / 10 by norm_num [Number.mag]]

/-- The value of a text is determined by the text. -/
theorem C63_unique (s : Str) (x y : Option F64) (hx : NumField s x) (hy : NumField s y) : x = y := by
  have h := fun x => (C63_decimal_fields [s] 0 x)
  have h1 := (h x).mpr hx
  rw [(h y).mpr hy] at h1
  exact (Out.ok.inj h1).symm

/-- There is one value of `-545.4`. -/
example : ∃ x, NumField (c! "-545.4") x ∧ ∀ y, NumField (c! "-545.4") y → y = x := by
  have h : ∃ x, NumField (c! "-545.4") x :=
    ⟨_, (C63_decimal_fields [c! "-545.4"] 0 (F64.parse (c! "-545.4"))).mp (by decide +kernel)⟩
  obtain ⟨x, hx⟩ := h
  exact ⟨x, hx, fun y hy => C63_unique _ y x hy hx⟩

/-- Not every accepted number is finite: `inf` and `nan` are number texts, and so is a number that is too big. -/
theorem C63_not_finite : NumField (c! "inf") (some (.inf false)) ∧ NumField (c! "-Infinity") (some (.inf true)) ∧
    NumField (c! "NaN") (some .nan) ∧ NumField (c! "1e999") (some (.inf false)) ∧
    (∀ env p, ∃ d, (parseSentence env p (c! "$GPVTG,nan,T,,M,inf,N")).1 = .ok (.vtg d) ∧
      d.cogTrue = some .nan ∧ d.sogKnots = some (.inf false)) := by
  refine ⟨?_, ?_, ?_, ?_, ?_⟩
  · exact (C63_decimal_fields [c! "inf"] 0 _).mp (by decide +kernel)
  · exact (C63_decimal_fields [c! "-Infinity"] 0 _).mp (by decide +kernel)
  · exact (C63_decimal_fields [c! "NaN"] 0 _).mp (by decide +kernel)
  · exact (C63_decimal_fields [c! "1e999"] 0 _).mp (by decide +kernel)
  · intro env p
    have ht : IsGnss (c! "GP") (c! "VTG") [c! "nan", c! "T", c! "", c! "M", c! "inf", c! "N"] (c! "$GPVTG,nan,T,,M,inf,N") :=
      demoTagged .bare (by decide +kernel)
    rw [eval_vtg env p _ _ _ ht]
    exact ⟨_, rfl, by decide +kernel, by decide +kernel⟩

/-! ## C64: latitude and longitude texts -/

/-- Number of the latitude field in GGA, RMC and GLL sentences. -/
def latitudeIndex (kind : Str) : Option Nat := [(c! "GGA", 1), (c! "RMC", 2), (c! "GLL", 0)].lookup kind

/-- Latitude and longitude of a GNSS result. -/
def gnssPosition : ParsedSentence → Option (Option F64 × Option F64)
  | .gga d => some (d.latitude, d.longitude)
  | .rmc d => some (d.latitude, d.longitude)
  | .gll d => some (d.latitude, d.longitude)
  | _ => none

/-- The position of an accepted sentence is the one of its four position fields. -/
theorem C64_positions (env : Env) (p : Parser) (talker kind : Str) (fs : List Str) (s : Str) (i : Nat)
    (h : IsGnss talker kind fs s) (hi : latitudeIndex kind = some i) (r : ParsedSentence)
    (hr : (parseSentence env p s).1 = .ok r) :
    ∃ lat lon, gnssPosition r = some (lat, lon) ∧ LatField (field fs i) (field fs (i + 1)) lat ∧
      LonField (field fs (i + 2)) (field fs (i + 3)) lon := by
  unfold latitudeIndex at hi
  simp only [List.lookup] at hi
  split at hi
  · rename_i hk
    have hk : kind = c! "GGA" := by simpa using hk
    cases hi; subst hk
    obtain ⟨d, rfl, hs⟩ := (gga_ok env p talker fs s h _).mp hr
    exact ⟨_, _, rfl, hs.latitude, hs.longitude⟩
  split at hi
  · rename_i hk
    have hk : kind = c! "RMC" := by simpa using hk
    cases hi; subst hk
    obtain ⟨d, rfl, hs⟩ := (rmc_ok env p talker fs s h _).mp hr
    exact ⟨_, _, rfl, hs.latitude, hs.longitude⟩
  split at hi
  · rename_i hk
    have hk : kind = c! "GLL" := by simpa using hk
    cases hi; subst hk
    obtain ⟨d, rfl, hs⟩ := (gll_ok env p talker fs s h _).mp hr
    exact ⟨_, _, rfl, hs.latitude, hs.longitude⟩
  · cases hi

/-- The latitude of the accepted GGA sentence is that of `4807.038` north. -/
example : ∃ d, (parseSentence demoEnv Parser.new
      (c! "$GPGGA,123519,4807.038,N,01131.000,W,1,08,0.9,-545.4,M,46.9,M,,0042*7E")).1 = .ok (.gga d) ∧
    LatField (c! "4807.038") (c! "N") d.latitude ∧ LonField (c! "01131.000") (c! "W") d.longitude := by
  obtain ⟨lat, lon, h, h1, h2⟩ := C64_positions demoEnv Parser.new _ _ _ _ 1 demoGga_tagged rfl _ rfl
  cases h
  exact ⟨_, rfl, h1, h2⟩

/-- A sentence whose latitude or longitude text is neither empty nor of the form `DDMM.m…` / `DDDMM.m…` is not
accepted. -/
theorem C64_refused (env : Env) (p : Parser) (talker kind : Str) (fs : List Str) (s : Str) (i : Nat)
    (h : IsGnss talker kind fs s) (hi : latitudeIndex kind = some i)
    (hn : (field fs i ≠ [] ∧ ∀ deg min, ¬ PosText 2 (field fs i) deg min) ∨
      (field fs (i + 2) ≠ [] ∧ ∀ deg min, ¬ PosText 3 (field fs (i + 2)) deg min)) (r : ParsedSentence) :
    (parseSentence env p s).1 ≠ .ok r := by
  intro hr
  obtain ⟨lat, lon, -, h1, h2⟩ := C64_positions env p talker kind fs s i h hi r hr
  rcases hn with ⟨a, b⟩ | ⟨a, b⟩
  · rcases h1 with ⟨e, -⟩ | ⟨deg, min, r, ht, -⟩
    · exact a e
    · exact b _ _ ht
  · rcases h2 with ⟨e, -⟩ | ⟨deg, min, r, ht, -⟩
    · exact a e
    · exact b _ _ ht

/-- A latitude without minutes. -/
example (r : ParsedSentence) : (parseSentence demoEnv Parser.new (c! "$GPGLL,91,N,,,123519,A")).1 ≠ .ok r := by
  refine C64_refused demoEnv Parser.new (c! "GP") (c! "GLL") [c! "91", c! "N", [], [], c! "123519", c! "A"] (c! "$GPGLL,91,N,,,123519,A") 0
    (demoTagged .bare (by decide +kernel)) rfl (.inl ⟨by decide, ?_⟩) r
  rintro deg min ⟨d, m, f, rest, h, -⟩
  have : '.' ∈ c! "91" := by rw [show c! "91" = d ++ m ++ '.' :: f ++ rest from h]; simp
  exact absurd this (by decide)

/-- The result for a position text is within `(degrees + 6) · 2^-53` degrees of degrees + minutes / 60, with a
minus sign exactly in the negative hemisphere; empty texts give nothing. -/
theorem C64_accuracy (k : Nat) (hk : k ≤ 3) (minus : Char) (s hemi : Str) (x : Option F64)
    (h : PosField k minus s hemi x) :
    (s = [] → x = none) ∧
    (∀ deg min, PosText k s deg min → ∃ v, x = some (.fin (decide (hemi = [minus])) v) ∧ 0 ≤ v ∧
      |v - (deg + min / 60)| ≤ (deg + 6) * 2 ^ (-53 : Int)) := by
  constructor
  · rintro rfl
    rcases h with ⟨-, h⟩ | ⟨deg, min, r, ht, -⟩
    · exact h
    · exact absurd rfl (posText_ne_nil ht)
  · intro deg min ht
    rcases h with ⟨h, -⟩ | ⟨deg', min', r, ht', hd, rfl⟩
    · exact absurd h (posText_ne_nil ht)
    · obtain ⟨rfl, rfl⟩ := posText_unique ht ht'
      obtain ⟨b1, b2, b3⟩ := posText_bounds ht
      have : deg < 1000 := lt_of_lt_of_le b1 (Nat.pow_le_pow_right (by decide) hk)
      obtain ⟨e1, e2⟩ := degrees_error deg min r b2 b3 (by omega) hd
      exact ⟨r, rfl, e2, e1⟩

/-- 48 degrees and 7.038 minutes south. -/
example (x : Option F64) (h : LatField (c! "4807.038") (c! "S") x) :
    ∃ v, x = some (.fin true v) ∧ 0 ≤ v ∧ |v - ((48 : Nat) + 7038 / 1000 / 60)| ≤ ((48 : Nat) + 6) * 2 ^ (-53 : Int) :=
  (C64_accuracy 2 (by decide) 'S' _ _ x h).2 48 (7038 / 1000)
    ⟨c! "48", c! "07", c! "038", [], by decide, by decide, by decide, by unfold AllDigits; decide, by unfold AllDigits; decide,
      by decide, (by intro c t h; cases h), by decide,
      by rw [show decValue (c! "07") = 7 by decide, show decValue (c! "038") = 38 by decide]; norm_num⟩

/-- That bound is below `1.2e-13` degrees, and below `2.1e-14` degrees for positions on the globe. -/
theorem C64_bound (deg : Nat) :
    (deg ≤ 999 → ((deg : Rat) + 6) * 2 ^ (-53 : Int) < 12 / 10 ^ 14) ∧
    (deg ≤ 180 → ((deg : Rat) + 6) * 2 ^ (-53 : Int) < 21 / 10 ^ 15) := by
  constructor
  · intro h
    have : (deg : Rat) ≤ 999 := by exact_mod_cast h
    have h2 : ((deg : Rat) + 6) * 2 ^ (-53 : Int) ≤ 1005 * 2 ^ (-53 : Int) :=
      mul_le_mul_of_nonneg_right (by linarith) (by positivity)
    exact lt_of_le_of_lt h2 (by norm_num)
  · intro h
    have : (deg : Rat) ≤ 180 := by exact_mod_cast h
    have h2 : ((deg : Rat) + 6) * 2 ^ (-53 : Int) ≤ 186 * 2 ^ (-53 : Int) :=
      mul_le_mul_of_nonneg_right (by linarith) (by positivity)
    exact lt_of_le_of_lt h2 (by norm_num)

/-- The longitude 180. -/
example : ((180 : Nat) + 6 : Rat) * 2 ^ (-53 : Int) < 21 / 10 ^ 15 := (C64_bound 180).2 (by decide)

/-! ## C65: GGA -/

/-- An accepted GGA sentence says what the result says, and conversely: the result is determined by the fields.
The state is not changed. -/
theorem C65_contents (env : Env) (p : Parser) (talker : Str) (fs : List Str) (s : Str)
    (h : IsGnss talker (c! "GGA") fs s) :
    (parseSentence env p s).2 = p ∧
    (∀ r, (parseSentence env p s).1 = .ok r ↔ ∃ d, r = .gga d ∧ GgaSays env.now talker fs d) ∧
    ((∃ e, (parseSentence env p s).1 = .err e) ↔ (∃ t, TimeField env.now (field fs 0) t) ∧ ¬ GgaReadable fs) ∧
    ((parseSentence env p s).1 = .panic ↔ ¬ ∃ t, TimeField env.now (field fs 0) t) :=
  ⟨by rw [eval_gga env p talker fs s h], gga_ok env p talker fs s h, gga_refused env p talker fs s h,
    gga_panic env p talker fs s h⟩

/-- The sentence of the examples is accepted; it says what its result says. -/
example : ∃ d, (parseSentence demoEnv Parser.new
      (c! "$GPGGA,123519,4807.038,N,01131.000,W,1,08,0.9,-545.4,M,46.9,M,,0042*7E")).1 = .ok (.gga d) ∧
    GgaSays demoEnv.now (c! "GP") demoGga d := by
  obtain ⟨d, h, hd⟩ := ((C65_contents demoEnv Parser.new _ _ _ demoGga_tagged).2.1 _).mp rfl
  cases h
  exact ⟨_, rfl, hd⟩

/-- The fields of a GGA sentence written by a device. -/
def ggaFields (h m s : Nat) (lat lon : Angle) (q n : Nat) (hdop alt geoid age : Number) (st : Nat) : List Str :=
  [timeText h m s, lat.text 2, lat.side 'N' 'S', lon.text 3, lon.side 'E' 'W', natStr q, natStr n, hdop.text, alt.text,
    c! "M", geoid.text, c! "M", age.text, natStr st]

/-- Round trip of a GGA sentence: time, position, quality, satellites, dilution, altitude, geoid separation, age
and station. -/
theorem C65_round_trip (env : Env) (p : Parser) (talker : Str) (h m s : Nat) (lat lon : Angle) (q n : Nat)
    (hdop alt geoid age : Number) (st : Nat) (sen : Str)
    (hs : IsGnss talker (c! "GGA") (ggaFields h m s lat lon q n hdop alt geoid age st) sen)
    (hnow : IsDateTime env.now) (ht : IsTime h m s) (hlat : lat.Ok 90) (hlon : lon.Ok 180) (hq : q ≤ 8) (hn : n ≤ 255)
    (h1 : hdop.frac < 10 ^ hdop.places) (h2 : alt.frac < 10 ^ alt.places) (h3 : geoid.frac < 10 ^ geoid.places)
    (h4 : age.frac < 10 ^ age.places) (hst : st ≤ 65535) :
    ∃ d, (parseSentence env p sen).1 = .ok (.gga d) ∧ d.source = talkerSystem talker ∧
      d.timestamp = some ⟨env.now.year, env.now.month, env.now.day, h, m, s⟩ ∧ lat.Result d.latitude ∧
      lon.Result d.longitude ∧ some d.quality = qualities[q]? ∧ d.satelliteCount = some n ∧ hdop.Result d.hdop ∧
      alt.Result d.altitude ∧ geoid.Result d.geoidSeparation ∧ age.Result d.ageOfDgps ∧ d.refStationId = some st := by
  obtain ⟨-, hok, herr, hpan⟩ := C65_contents env p talker _ sen hs
  have htime := (time_field env.now h m s ht hnow _).mpr rfl
  cases hr : (parseSentence env p sen).1 with
  | panic => exact absurd ⟨_, htime⟩ (hpan.mp hr)
  | err e =>
    refine absurd ?_ (herr.mp ⟨e, hr⟩).2
    exact ⟨angle_readable lat 2 90 _ _ hlat (by decide) (by decide), angle_readable lon 3 180 _ _ hlon (by decide) (by decide),
      ⟨_, nat_readable 255 q (by omega)⟩, ⟨_, nat_readable 255 n hn⟩, number_readable _ h1, number_readable _ h2,
      number_readable _ h3, number_readable _ h4, ⟨_, nat_readable 65535 st hst⟩⟩
  | ok r =>
    obtain ⟨d, rfl, hd⟩ := (hok r).mp hr
    refine ⟨d, rfl, hd.source, (time_field env.now h m s ht hnow _).mp hd.timestamp,
      angle_field lat 2 90 'N' 'S' (by decide) hlat (by decide) (by decide) _ hd.latitude,
      angle_field lon 3 180 'E' 'W' (by decide) hlon (by decide) (by decide) _ hd.longitude, ?_,
      nat_field 255 n hn _ hd.satellites, number_field _ h1 _ hd.hdop, number_field _ h2 _ hd.altitude,
      number_field _ h3 _ hd.geoid, number_field _ h4 _ hd.age, nat_field 65535 st hst _ hd.station⟩
    obtain ⟨q', hq', hqq⟩ := hd.quality
    rw [nat_field 255 q (by omega) _ hq'] at hqq
    rw [hqq]
    simp only [Option.getD_some]
    rw [List.getD_eq_getElem?_getD]
    have : q < qualities.length := by simp [qualities]; omega
    rw [List.getElem?_eq_getElem this]
    rfl

/-- A GGA sentence of given values. -/
example (p : Parser) : ∃ d, (parseSentence demoEnv p
      (c! "$GPGGA,123519,4807.038,N,01131.000,W,1,8,0.9,-545.4,M,46.9,M,0.0,42")).1 = .ok (.gga d) ∧
    d.timestamp = some ⟨2024, 2, 29, 12, 35, 19⟩ ∧ d.satelliteCount = some 8 ∧ d.refStationId = some 42 ∧
    (⟨true, 11, 31, 3, 0⟩ : Angle).Result d.longitude := by
  obtain ⟨d, h, -, h1, -, h2, -, h3, -, -, -, -, h4⟩ := C65_round_trip demoEnv p (c! "GP") 12 35 19 ⟨false, 48, 7, 3, 38⟩
    ⟨true, 11, 31, 3, 0⟩ 1 8 ⟨false, 0, 1, 9⟩ ⟨true, 545, 1, 4⟩ ⟨false, 46, 1, 9⟩ ⟨false, 0, 1, 0⟩ 42
    (c! "$GPGGA,123519,4807.038,N,01131.000,W,1,8,0.9,-545.4,M,46.9,M,0.0,42")
    (demoTagged .bare (by decide +kernel)) (by decide) (by decide) (by unfold Angle.Ok; decide) (by unfold Angle.Ok; decide)
    (by decide) (by decide) (by decide) (by decide) (by decide) (by decide) (by decide)
  exact ⟨d, h, h1, h3, h4, h2⟩

/-- Quality codes above 8 are reported as invalid, not refused. -/
theorem C65_unknown_quality (env : Env) (p : Parser) (talker : Str) (fs : List Str) (s : Str) (n : Nat) (d : GgaData)
    (h : IsGnss talker (c! "GGA") fs s) (hn : Dec 255 (field fs 5) n) (h8 : 8 < n)
    (hd : (parseSentence env p s).1 = .ok (.gga d)) : d.quality = .invalid := by
  obtain ⟨d', e, hs⟩ := (gga_ok env p talker fs s h _).mp hd
  cases e
  obtain ⟨q, hq, e⟩ := hs.quality
  rw [intField_unique hq (.inr ⟨n, hn, rfl⟩)] at e
  rw [e]
  simp only [Option.getD_some, List.getD_eq_getElem?_getD]
  rw [List.getElem?_eq_none (by simp [qualities]; omega)]
  rfl

/-- Quality 9. -/
example : ∃ d, (parseSentence demoEnv Parser.new (c! "$GPGGA,123519,,,,,9")).1 = .ok (.gga d) ∧ d.quality = .invalid :=
  ⟨_, rfl, C65_unknown_quality demoEnv Parser.new (c! "GP") [c! "123519", [], [], [], [], c! "9"] (c! "$GPGGA,123519,,,,,9") 9 _
    (demoTagged .bare (by decide +kernel)) (demoDec (by decide)) (by decide) rfl⟩

/-! ## C66: RMC -/

/-- An accepted RMC sentence says what the result says, and conversely. The state is not changed. -/
theorem C66_contents (env : Env) (p : Parser) (talker : Str) (fs : List Str) (s : Str)
    (h : IsGnss talker (c! "RMC") fs s) :
    (parseSentence env p s).2 = p ∧
    (∀ r, (parseSentence env p s).1 = .ok r ↔ ∃ d, r = .rmc d ∧ RmcSays env.now talker fs d) ∧
    ((∃ e, (parseSentence env p s).1 = .err e) ↔
      (∃ t, DateTimeField env.now (field fs 8) (field fs 0) t) ∧ ¬ RmcReadable fs) ∧
    ((parseSentence env p s).1 = .panic ↔ ¬ ∃ t, DateTimeField env.now (field fs 8) (field fs 0) t) :=
  ⟨by rw [eval_rmc env p talker fs s h], rmc_ok env p talker fs s h, rmc_refused env p talker fs s h,
    rmc_panic env p talker fs s h⟩

/-- An RMC sentence, accepted. -/
example : ∃ d, (parseSentence demoEnv Parser.new
      (c! "$GNRMC,225446,A,4916.45,N,12311.12,W,0.5,54.7,191124,20.3,W")).1 = .ok (.rmc d) ∧
    RmcSays demoEnv.now (c! "GN") [c! "225446", c! "A", c! "4916.45", c! "N", c! "12311.12", c! "W", c! "0.5", c! "54.7",
      c! "191124", c! "20.3", c! "W"] d := by
  obtain ⟨d, h, hd⟩ := ((C66_contents demoEnv Parser.new (c! "GN") [c! "225446", c! "A", c! "4916.45", c! "N",
    c! "12311.12", c! "W", c! "0.5", c! "54.7", c! "191124", c! "20.3", c! "W"] (c! "$GNRMC,225446,A,4916.45,N,12311.12,W,0.5,54.7,191124,20.3,W")
    (demoTagged .bare (by decide +kernel))).2.1 _).mp rfl
  cases h
  exact ⟨_, rfl, hd⟩

/-- The fields of an RMC sentence written by a device. -/
def rmcFields (h m s : Nat) (active : Bool) (lat lon : Angle) (sog cog : Number) (d mo y : Nat) (var : Number) (west : Bool) :
    List Str :=
  [timeText h m s, [if active then 'A' else 'V'], lat.text 2, lat.side 'N' 'S', lon.text 3, lon.side 'E' 'W', sog.text,
    cog.text, dateText d mo y, var.text, [if west then 'W' else 'E']]

/-- Round trip of an RMC sentence: date (in the current century) and time, status, position, speed, bearing and
variation (negated to the west). -/
theorem C66_round_trip (env : Env) (p : Parser) (talker : Str) (h m s : Nat) (active : Bool) (lat lon : Angle)
    (sog cog : Number) (d mo y : Nat) (var : Number) (west : Bool) (sen : Str)
    (hs : IsGnss talker (c! "RMC") (rmcFields h m s active lat lon sog cog d mo y var west) sen)
    (hy : y < 100) (hdt : IsDateTime ⟨centuryOf env.now.year + y, mo, d, h, m, s⟩) (hlat : lat.Ok 90) (hlon : lon.Ok 180)
    (h1 : sog.frac < 10 ^ sog.places) (h2 : cog.frac < 10 ^ cog.places) (h3 : var.frac < 10 ^ var.places) :
    ∃ r, (parseSentence env p sen).1 = .ok (.rmc r) ∧ r.source = talkerSystem talker ∧
      r.timestamp = some ⟨centuryOf env.now.year + y, mo, d, h, m, s⟩ ∧ r.statusActive = some active ∧
      lat.Result r.latitude ∧ lon.Result r.longitude ∧ sog.Result r.sogKnots ∧ cog.Result r.bearing ∧
      ({ var with minus := var.minus ^^ west } : Number).Result r.variation := by
  obtain ⟨-, hok, herr, hpan⟩ := C66_contents env p talker _ sen hs
  have htime := (dateTime_field env.now d mo y h m s hy hdt _).mpr rfl
  have hstat : LetterField statusTable [if active then 'A' else 'V'] (some active) := by
    refine .inr ⟨active, ?_, rfl⟩
    cases active <;> decide
  have hvar := number_text var h3 _ (F64.ofRat_roundsTo _)
  have hside : ∃ x, VariationField var.text [if west then 'W' else 'E'] x := by
    cases west
    · exact ⟨_, .inr ⟨_, hvar, .inl ⟨rfl, rfl⟩⟩⟩
    · exact ⟨_, .inr ⟨_, hvar, .inr ⟨rfl, rfl⟩⟩⟩
  cases hr : (parseSentence env p sen).1 with
  | panic => exact absurd ⟨_, htime⟩ (hpan.mp hr)
  | err e =>
    refine absurd ?_ (herr.mp ⟨e, hr⟩).2
    exact ⟨⟨_, hstat⟩, angle_readable lat 2 90 _ _ hlat (by decide) (by decide), angle_readable lon 3 180 _ _ hlon (by decide) (by decide),
      number_readable _ h1, number_readable _ h2, hside⟩
  | ok r =>
    obtain ⟨r, rfl, hd⟩ := (hok r).mp hr
    refine ⟨r, rfl, hd.source, (dateTime_field env.now d mo y h m s hy hdt _).mp hd.timestamp, ?_,
      angle_field lat 2 90 'N' 'S' (by decide) hlat (by decide) (by decide) _ hd.latitude,
      angle_field lon 3 180 'E' 'W' (by decide) hlon (by decide) (by decide) _ hd.longitude,
      number_field _ h1 _ hd.speed, number_field _ h2 _ hd.bearing, ?_⟩
    · rcases hd.status with ⟨he, -⟩ | ⟨a, ha, e⟩
      · cases he
      · rw [e]
        change (([if active then 'A' else 'V'], a) : Str × Bool) ∈ statusTable at ha
        revert ha
        cases active <;> cases a <;> decide
    · rcases hd.variation with ⟨he, -⟩ | ⟨x, hx, hside⟩
      · exact absurd he (numberText_ne_nil hvar)
      · change NumberText var.text x at hx
        cases numberText_unique hx hvar
        refine ⟨_, F64.ofRat_roundsTo _, ?_⟩
        rcases hside with ⟨hw, e⟩ | ⟨hw, e⟩
        all_goals
          change [if west then 'W' else 'E'] = _ at hw
          rw [e]
          cases west
          · first
              | exact absurd hw (by decide)
              | simp [Number.mag]
          · first
              | exact absurd hw (by decide)
              | (cases hq : F64.ofRat var.mag <;> simp_all [signedF64, Number.mag])

/-- An RMC sentence of given values. -/
example (p : Parser) : ∃ r, (parseSentence demoEnv p
      (c! "$GNRMC,225446,A,4916.45,N,12311.12,W,0.5,54.7,191124,20.3,W")).1 = .ok (.rmc r) ∧
    r.timestamp = some ⟨2024, 11, 19, 22, 54, 46⟩ ∧ r.statusActive = some true ∧
    (⟨true, 20, 1, 3⟩ : Number).Result r.variation := by
  obtain ⟨r, h, -, h1, h2, -, -, -, -, h3⟩ := C66_round_trip demoEnv p (c! "GN") 22 54 46 true ⟨false, 49, 16, 2, 45⟩
    ⟨true, 123, 11, 2, 12⟩ ⟨false, 0, 1, 5⟩ ⟨false, 54, 1, 7⟩ 19 11 24 ⟨false, 20, 1, 3⟩ true
    (c! "$GNRMC,225446,A,4916.45,N,12311.12,W,0.5,54.7,191124,20.3,W") (demoTagged .bare (by decide +kernel)) (by decide)
    (by decide) (by unfold Angle.Ok; decide) (by unfold Angle.Ok; decide) (by decide) (by decide) (by decide)
  exact ⟨r, h, h1, h2, h3⟩

/-- A variation is refused when its side is neither `E` nor `W`, and a status other than `A`, `V` or empty is
refused. -/
theorem C66_refused (env : Env) (p : Parser) (talker : Str) (fs : List Str) (s : Str)
    (h : IsGnss talker (c! "RMC") fs s)
    (hbad : (field fs 9 ≠ [] ∧ field fs 10 ≠ c! "E" ∧ field fs 10 ≠ c! "W") ∨
      field fs 1 ∉ [c! "A", c! "V", c! ""]) (r : ParsedSentence) : (parseSentence env p s).1 ≠ .ok r := by
  intro hr
  obtain ⟨d, -, hd⟩ := (rmc_ok env p talker fs s h _).mp hr
  rcases hbad with ⟨h1, h2, h3⟩ | h1
  · rcases hd.variation with ⟨he, -⟩ | ⟨x, hx, ⟨hs, -⟩ | ⟨hs, -⟩⟩
    · exact h1 he
    · exact h2 hs
    · exact h3 hs
  · rcases hd.status with ⟨he, -⟩ | ⟨a, ha, -⟩
    · rw [he] at h1; exact h1 (by decide)
    · simp only [statusTable, List.mem_cons, Prod.mk.injEq, List.not_mem_nil, or_false] at ha
      rcases ha with ⟨e, -⟩ | ⟨e, -⟩ <;> (rw [e] at h1; exact h1 (by decide))

/-- Status `X`. -/
example (r : ParsedSentence) : (parseSentence demoEnv Parser.new
    (c! "$GNRMC,225446,X,4916.45,N,12311.12,W,0.5,54.7,191124,20.3,W")).1 ≠ .ok r :=
  C66_refused demoEnv Parser.new (c! "GN") [c! "225446", c! "X", c! "4916.45", c! "N", c! "12311.12", c! "W", c! "0.5",
    c! "54.7", c! "191124", c! "20.3", c! "W"] (c! "$GNRMC,225446,X,4916.45,N,12311.12,W,0.5,54.7,191124,20.3,W") (demoTagged .bare (by decide +kernel)) (.inr (by decide)) r

/-! ## C67: GSA -/

/-- An accepted GSA sentence says what the result says, and conversely; it is refused exactly when a field cannot
be read, and it never panics. The state is not changed. -/
theorem C67_contents (env : Env) (p : Parser) (talker : Str) (fs : List Str) (s : Str)
    (h : IsGnss talker (c! "GSA") fs s) :
    (parseSentence env p s).2 = p ∧
    (∀ r, (parseSentence env p s).1 = .ok r ↔ ∃ d, r = .gsa d ∧ GsaSays talker fs d) ∧
    ((∃ e, (parseSentence env p s).1 = .err e) ↔ ¬ GsaReadable fs) ∧ (parseSentence env p s).1 ≠ .panic :=
  ⟨by rw [eval_gsa env p talker fs s h], gsa_ok env p talker fs s h, gsa_refused env p talker fs s h,
    gsa_not_panic env p talker fs s h⟩

/-- A satellite number out of range is refused. -/
example : (∃ e, (parseSentence demoEnv Parser.new (c! "$GPGSA,A,3,4,300")).1 = .err e) ∧
    ¬ GsaReadable [c! "A", c! "3", c! "4", c! "300"] :=
  have h : ∃ e, (parseSentence demoEnv Parser.new (c! "$GPGSA,A,3,4,300")).1 = .err e :=
    ⟨.invalidSentence (c! "Failed to parse field 4: 300"), by decide +kernel⟩
  ⟨h, (C67_contents demoEnv Parser.new (c! "GP") _ _ (demoTagged .bare (by decide +kernel))).2.2.1.mp h⟩

/-- There are at most twelve satellites, each below 256. -/
theorem C67_at_most_twelve (env : Env) (p : Parser) (talker : Str) (fs : List Str) (s : Str)
    (h : IsGnss talker (c! "GSA") fs s) (d : GsaData) (hd : (parseSentence env p s).1 = .ok (.gsa d)) :
    d.prnNumbers.length ≤ 12 ∧ ∀ n ∈ d.prnNumbers, n ≤ 255 := by
  obtain ⟨d', e, hs⟩ := (gsa_ok env p talker fs s h _).mp hd
  cases e
  constructor
  · rw [← hs.satellites.length_eq]
    exact (List.length_filter_le _ _).trans (by simp)
  · have : ∀ (l : List Str) (m : List Nat), List.Forall₂ (Dec 255) l m → ∀ n ∈ m, n ≤ 255 := by
      intro l m hf
      induction hf with
      | nil => intro n hn; cases hn
      | cons hd _ ih =>
        intro n hn
        rcases List.mem_cons.mp hn with rfl | hn
        · obtain ⟨_, _, _, _, hle⟩ := hd; exact hle
        · exact ih n hn
    exact this _ _ hs.satellites

/-- Thirteen satellite fields: the thirteenth is a dilution. -/
example : ∃ d, (parseSentence demoEnv Parser.new (c! "$GPGSA,A,3,1,2,3,4,5,6,7,8,9,10,11,12,13")).1 = .ok (.gsa d) ∧
    d.prnNumbers = [1, 2, 3, 4, 5, 6, 7, 8, 9, 10, 11, 12] ∧ d.prnNumbers.length ≤ 12 :=
  ⟨_, rfl, by decide +kernel, (C67_at_most_twelve demoEnv Parser.new (c! "GP") [c! "A", c! "3", c! "1", c! "2", c! "3",
    c! "4", c! "5", c! "6", c! "7", c! "8", c! "9", c! "10", c! "11", c! "12", c! "13"] (c! "$GPGSA,A,3,1,2,3,4,5,6,7,8,9,10,11,12,13")
    (demoTagged .bare (by decide +kernel)) _ rfl).1⟩

/-- The fields of a GSA sentence written by a device: up to twelve satellites, the rest of the twelve fields empty. -/
def gsaFields (auto : Bool) (fix : Nat) (prns : List Nat) (pdop hdop vdop : Number) : List Str :=
  [[if auto then 'A' else 'M'], natStr fix] ++ prns.map natStr ++ List.replicate (12 - prns.length) [] ++
    [pdop.text, hdop.text, vdop.text]

/-- Round trip of a GSA sentence. -/
theorem C67_round_trip (env : Env) (p : Parser) (talker : Str) (auto : Bool) (fix : Nat) (prns : List Nat)
    (pdop hdop vdop : Number) (sen : Str)
    (hs : IsGnss talker (c! "GSA") (gsaFields auto fix prns pdop hdop vdop) sen)
    (hf : 1 ≤ fix ∧ fix ≤ 3) (hp : prns.length ≤ 12) (hp' : ∀ n ∈ prns, n ≤ 255)
    (h1 : pdop.frac < 10 ^ pdop.places) (h2 : hdop.frac < 10 ^ hdop.places) (h3 : vdop.frac < 10 ^ vdop.places) :
    ∃ r, (parseSentence env p sen).1 = .ok (.gsa r) ∧ r.source = talkerSystem talker ∧ r.mode1Automatic = some auto ∧
      r.mode2_3d = [GsaFixMode.notAvailable, .fix2D, .fix3D][fix - 1]? ∧ r.prnNumbers = prns ∧ pdop.Result r.pdop ∧
      hdop.Result r.hdop ∧ vdop.Result r.vdop := by
  obtain ⟨-, hok, herr, hpan⟩ := C67_contents env p talker _ sen hs
  have f0 : field (gsaFields auto fix prns pdop hdop vdop) 0 = [if auto then 'A' else 'M'] := rfl
  have f1 : field (gsaFields auto fix prns pdop hdop vdop) 1 = natStr fix := rfl
  have fmid : ∀ i < 12, field (gsaFields auto fix prns pdop hdop vdop) (i + 2) =
      (prns.map natStr ++ List.replicate (12 - prns.length) []).getD i [] := by
    intro i hi
    unfold field gsaFields
    simp only [List.append_assoc, List.cons_append, List.nil_append, List.getD_cons_succ]
    rw [← List.append_assoc, List.getD_append _ _ _ _ (by simp; omega)]
  have flast : ∀ i < 3, field (gsaFields auto fix prns pdop hdop vdop) (i + 14) = [pdop.text, hdop.text, vdop.text].getD i [] := by
    intro i hi
    unfold field gsaFields
    simp only [List.append_assoc, List.cons_append, List.nil_append, List.getD_cons_succ]
    rw [← List.append_assoc, List.getD_append_right _ _ _ _ (by simp; omega)]
    congr 1
    simp
    omega
  have hmid : (List.range 12).map (fun i => field (gsaFields auto fix prns pdop hdop vdop) (i + 2)) =
      prns.map natStr ++ List.replicate (12 - prns.length) [] := by
    apply List.ext_getElem
    · simp; omega
    · intro i hi1 hi2
      simp only [List.getElem_map, List.getElem_range]
      rw [fmid i (by simpa using hi1), List.getD_eq_getElem?_getD, List.getElem?_eq_getElem hi2]
      rfl
  have hfil : (prns.map natStr ++ List.replicate (12 - prns.length) []).filter (fun s => decide (s ≠ [])) = prns.map natStr := by
    rw [List.filter_append, List.filter_eq_self.mpr, List.filter_eq_nil_iff.mpr, List.append_nil]
    · intro a ha
      rw [(List.mem_replicate.mp ha).2]
      simp
    · intro a ha
      obtain ⟨n, -, rfl⟩ := List.mem_map.mp ha
      simpa using (natStr_digits n).1
  have hdec : List.Forall₂ (Dec 255) (prns.map natStr) prns := by
    have : ∀ l : List Nat, (∀ n ∈ l, n ≤ 255) → List.Forall₂ (Dec 255) (l.map natStr) l := by
      intro l
      induction l with
      | nil => intro _; exact .nil
      | cons n l ih =>
        intro hl
        exact .cons (dec_natStr 255 n (hl n (by simp))) (ih (fun m hm => hl m (by simp [hm])))
    exact this prns hp'
  have hm1 : LetterField modeTable [if auto then 'A' else 'M'] (some auto) := by
    refine .inr ⟨auto, ?_, rfl⟩
    cases auto <;> decide
  have hfix : fix = 1 ∨ fix = 2 ∨ fix = 3 := by omega
  have hm2 : ∃ x, LetterField fixTypes (natStr fix) x := by
    rcases hfix with rfl | rfl | rfl
    · exact ⟨_, .inr ⟨.notAvailable, by decide, rfl⟩⟩
    · exact ⟨_, .inr ⟨.fix2D, by decide, rfl⟩⟩
    · exact ⟨_, .inr ⟨.fix3D, by decide, rfl⟩⟩
  cases hr : (parseSentence env p sen).1 with
  | panic => exact absurd hr hpan
  | err e =>
    refine absurd ?_ (herr.mp ⟨e, hr⟩)
    refine ⟨⟨_, hm1⟩, hm2, ?_, ?_, ?_, ?_⟩
    · intro i hi
      rw [fmid i hi]
      by_cases hl : i < prns.length
      · rw [List.getD_append _ _ _ _ (by simpa using hl), List.getD_eq_getElem?_getD, List.getElem?_map,
          List.getElem?_eq_getElem hl]
        exact ⟨_, nat_readable 255 _ (hp' _ (List.getElem_mem hl))⟩
      · refine ⟨none, .inl ⟨?_, rfl⟩⟩
        rw [List.getD_append_right _ _ _ _ (by simpa using hl), List.getD_eq_getElem?_getD, List.getElem?_replicate]
        split <;> rfl
    · rw [flast 0 (by decide)]; exact number_readable _ h1
    · rw [flast 1 (by decide)]; exact number_readable _ h2
    · rw [flast 2 (by decide)]; exact number_readable _ h3
  | ok r =>
    obtain ⟨r, rfl, hd⟩ := (hok r).mp hr
    refine ⟨r, rfl, hd.source, ?_, ?_, ?_, ?_, ?_, ?_⟩
    · rcases hd.mode with ⟨he, -⟩ | ⟨a, ha, e⟩
      · rw [f0] at he; cases he
      · rw [f0] at ha
        rw [e]
        revert ha
        cases auto <;> cases a <;> decide
    · rcases hd.fix with ⟨he, -⟩ | ⟨a, ha, e⟩
      · rw [f1] at he; exact absurd he (natStr_digits fix).1
      · rw [f1] at ha
        rw [e]
        rcases hfix with rfl | rfl | rfl <;> revert ha <;> cases a <;> decide
    · have h4 := hd.satellites
      rw [hmid, hfil] at h4
      have : ∀ (l : List Str) (m m' : List Nat), List.Forall₂ (Dec 255) l m → List.Forall₂ (Dec 255) l m' → m = m' := by
        intro l m m' hf
        induction hf generalizing m' with
        | nil => intro h; cases h; rfl
        | cons hd _ ih =>
          intro h
          cases h with
          | cons hd' h' => rw [Dec.unique hd hd', ih _ h']
      exact this _ _ _ h4 hdec
    · have := hd.pdop; rw [flast 0 (by decide)] at this; exact number_field _ h1 _ this
    · have := hd.hdop; rw [flast 1 (by decide)] at this; exact number_field _ h2 _ this
    · have := hd.vdop; rw [flast 2 (by decide)] at this; exact number_field _ h3 _ this

/-- Five satellites. -/
example (p : Parser) : ∃ r, (parseSentence demoEnv p (c! "$GPGSA,A,3,4,5,9,12,24,,,,,,,,2.5,1.3,2.1")).1 = .ok (.gsa r) ∧
    r.prnNumbers = [4, 5, 9, 12, 24] ∧ r.mode2_3d = some .fix3D := by
  obtain ⟨r, h, -, -, h2, h3, -⟩ := C67_round_trip demoEnv p (c! "GP") true 3 [4, 5, 9, 12, 24] ⟨false, 2, 1, 5⟩
    ⟨false, 1, 1, 3⟩ ⟨false, 2, 1, 1⟩ (c! "$GPGSA,A,3,4,5,9,12,24,,,,,,,,2.5,1.3,2.1") (demoTagged .bare (by decide +kernel))
    (by decide) (by decide) (by decide) (by decide) (by decide) (by decide)
  exact ⟨r, h, h3, h2⟩

/-! ## C68: VTG -/

/-- Every VTG sentence is accepted in every state; each number is the value of its text, or absent if the text is
not a number text. -/
theorem C68_contents (env : Env) (p : Parser) (talker : Str) (fs : List Str) (s : Str)
    (h : IsGnss talker (c! "VTG") fs s) :
    ∃ d, parseSentence env p s = (.ok (.vtg d), p) ∧ ∀ d', VtgSays talker fs d' ↔ d' = d := by
  obtain ⟨d, h1, h2⟩ := vtg_ok env p talker fs s h
  exact ⟨d, Prod.ext h1 (by rw [eval_vtg env p talker fs s h]), h2⟩

/-- A VTG sentence without a single number text. -/
example (env : Env) (p : Parser) : ∃ d, parseSentence env p (c! "$GPVTG,x,T,1.2.3") = (.ok (.vtg d), p) := by
  obtain ⟨d, h, -⟩ := C68_contents env p (c! "GP") [c! "x", c! "T", c! "1.2.3"] (c! "$GPVTG,x,T,1.2.3") (demoTagged .bare (by decide +kernel))
  exact ⟨d, h⟩

/-- Round trip of a VTG sentence. -/
theorem C68_round_trip (env : Env) (p : Parser) (talker : Str) (t m n k : Number) (sen : Str)
    (hs : IsGnss talker (c! "VTG") [t.text, c! "T", m.text, c! "M", n.text, c! "N", k.text, c! "K"] sen)
    (h1 : t.frac < 10 ^ t.places) (h2 : m.frac < 10 ^ m.places) (h3 : n.frac < 10 ^ n.places) (h4 : k.frac < 10 ^ k.places) :
    ∃ r, parseSentence env p sen = (.ok (.vtg r), p) ∧ r.source = talkerSystem talker ∧ t.Result r.cogTrue ∧
      m.Result r.cogMagnetic ∧ n.Result r.sogKnots ∧ k.Result r.sogKph ∧ r.faaMode = none := by
  obtain ⟨d, he, hd⟩ := C68_contents env p talker _ sen hs
  have hd := (hd d).mpr rfl
  exact ⟨d, he, hd.source, number_lenient _ h1 _ hd.courseTrue, number_lenient _ h2 _ hd.courseMagnetic,
    number_lenient _ h3 _ hd.knots, number_lenient _ h4 _ hd.kph, hd.faa⟩

/-- A VTG sentence of given values. -/
example (env : Env) (p : Parser) : ∃ r, parseSentence env p (c! "$GPVTG,360.0,T,348.7,M,16.89,N,31.28,K") = (.ok (.vtg r), p) ∧
    (⟨false, 16, 2, 89⟩ : Number).Result r.sogKnots := by
  obtain ⟨r, h, -, -, -, h1, -⟩ := C68_round_trip env p (c! "GP") ⟨false, 360, 1, 0⟩ ⟨false, 348, 1, 7⟩ ⟨false, 16, 2, 89⟩
    ⟨false, 31, 2, 28⟩ (c! "$GPVTG,360.0,T,348.7,M,16.89,N,31.28,K") (demoTagged .bare (by decide +kernel)) (by decide) (by decide) (by decide) (by decide)
  exact ⟨r, h, h1⟩

/-! ## C69: GLL -/

/-- An accepted GLL sentence says what the result says, and conversely; it is refused exactly when a position field
cannot be read. The state is not changed. -/
theorem C69_contents (env : Env) (p : Parser) (talker : Str) (fs : List Str) (s : Str)
    (h : IsGnss talker (c! "GLL") fs s) :
    (parseSentence env p s).2 = p ∧
    (∀ r, (parseSentence env p s).1 = .ok r ↔ ∃ d, r = .gll d ∧ GllSays env.now talker fs d) ∧
    ((∃ e, (parseSentence env p s).1 = .err e) ↔ ¬ GllReadable fs) ∧
    ((parseSentence env p s).1 = .panic ↔ GllReadable fs ∧ ¬ ∃ t, TimeField env.now (field fs 4) t) :=
  ⟨by rw [eval_gll env p talker fs s h], gll_ok env p talker fs s h, gll_refused env p talker fs s h,
    gll_panic env p talker fs s h⟩

/-- A GLL sentence without position, at 12:35:19. -/
example : ∃ d, (parseSentence demoEnv Parser.new (c! "$GPGLL,,,,,123519,A")).1 = .ok (.gll d) ∧
    GllSays demoEnv.now (c! "GP") [[], [], [], [], c! "123519", c! "A"] d := by
  obtain ⟨d, h, hd⟩ := ((C69_contents demoEnv Parser.new (c! "GP") [[], [], [], [], c! "123519", c! "A"] (c! "$GPGLL,,,,,123519,A")
    (demoTagged .bare (by decide +kernel))).2.1 _).mp rfl
  cases h
  exact ⟨_, rfl, hd⟩

/-- Round trip of a GLL sentence. -/
theorem C69_round_trip (env : Env) (p : Parser) (talker : Str) (lat lon : Angle) (h m s : Nat) (valid : Bool) (mode : Str)
    (sen : Str) (hs : IsGnss talker (c! "GLL") [lat.text 2, lat.side 'N' 'S', lon.text 3, lon.side 'E' 'W', timeText h m s,
      [if valid then 'A' else 'V'], mode] sen)
    (hnow : IsDateTime env.now) (ht : IsTime h m s) (hlat : lat.Ok 90) (hlon : lon.Ok 180) :
    ∃ d, (parseSentence env p sen).1 = .ok (.gll d) ∧ d.source = talkerSystem talker ∧ lat.Result d.latitude ∧
      lon.Result d.longitude ∧ d.timestamp = some ⟨env.now.year, env.now.month, env.now.day, h, m, s⟩ ∧
      d.dataValid = some valid ∧ d.faaMode = faaTable.lookup mode := by
  obtain ⟨-, hok, herr, hpan⟩ := C69_contents env p talker _ sen hs
  have htime := (time_field env.now h m s ht hnow _).mpr rfl
  cases hr : (parseSentence env p sen).1 with
  | panic => exact absurd ⟨_, htime⟩ (hpan.mp hr).2
  | err e =>
    refine absurd ?_ (herr.mp ⟨e, hr⟩)
    exact ⟨angle_readable lat 2 90 _ _ hlat (by decide) (by decide), angle_readable lon 3 180 _ _ hlon (by decide) (by decide)⟩
  | ok r =>
    obtain ⟨d, rfl, hd⟩ := (hok r).mp hr
    refine ⟨d, rfl, hd.source, angle_field lat 2 90 'N' 'S' (by decide) hlat (by decide) (by decide) _ hd.latitude,
      angle_field lon 3 180 'E' 'W' (by decide) hlon (by decide) (by decide) _ hd.longitude,
      (time_field env.now h m s ht hnow _).mp hd.timestamp, ?_, hd.faa⟩
    rw [hd.valid]
    change statusTable.lookup [if valid then 'A' else 'V'] = some valid
    cases valid <;> decide

/-- A GLL sentence of given values. -/
example (p : Parser) : ∃ d, (parseSentence demoEnv p (c! "$GAGLL,4916.45,N,12311.12,W,225444,A,D")).1 = .ok (.gll d) ∧
    d.source = .galileo ∧ (⟨true, 123, 11, 2, 12⟩ : Angle).Result d.longitude ∧ d.dataValid = some true ∧
    d.faaMode = some .differential := by
  obtain ⟨d, h, h1, -, h2, -, h3, h4⟩ := C69_round_trip demoEnv p (c! "GA") ⟨false, 49, 16, 2, 45⟩ ⟨true, 123, 11, 2, 12⟩
    22 54 44 true (c! "D") (c! "$GAGLL,4916.45,N,12311.12,W,225444,A,D") (demoTagged .bare (by decide +kernel)) (by decide)
    (by decide) (by unfold Angle.Ok; decide) (by unfold Angle.Ok; decide)
  exact ⟨d, h, h1, h2, h3, h4⟩

/-! ## C70, C71: missing and extra fields -/

/-- Two sentences of the same talker and kind that agree on the fields the kind uses have the same outcome,
error texts and panics included. -/
theorem C71_extra_fields (env : Env) (p : Parser) (talker kind : Str) (fs fs' : List Str) (s s' : Str) (n : Nat)
    (hn : usedFields kind = some n) (h : IsGnss talker kind fs s) (h' : IsGnss talker kind fs' s')
    (hf : ∀ i < n, field fs i = field fs' i) : parseSentence env p s = parseSentence env p s' := by
  unfold usedFields at hn
  simp only [List.lookup] at hn
  split at hn
  · rename_i hk
    have hk : kind = c! "GGA" := by simpa using hk
    cases hn; subst hk
    rw [eval_gga env p talker fs s h, eval_gga env p talker fs' s' h', congr_gga fs _ _ _ fs'
      (gnss_split talker fs s _ (by decide) h) (gnss_split talker fs' s' _ (by decide) h') hf]
  split at hn
  · rename_i hk
    have hk : kind = c! "RMC" := by simpa using hk
    cases hn; subst hk
    rw [eval_rmc env p talker fs s h, eval_rmc env p talker fs' s' h', congr_rmc fs _ _ _ fs'
      (gnss_split talker fs s _ (by decide) h) (gnss_split talker fs' s' _ (by decide) h') hf]
  split at hn
  · rename_i hk
    have hk : kind = c! "GSA" := by simpa using hk
    cases hn; subst hk
    rw [eval_gsa env p talker fs s h, eval_gsa env p talker fs' s' h', congr_gsa fs _ _ fs'
      (gnss_split talker fs s _ (by decide) h) (gnss_split talker fs' s' _ (by decide) h') hf]
  split at hn
  · rename_i hk
    have hk : kind = c! "VTG" := by simpa using hk
    cases hn; subst hk
    rw [eval_vtg env p talker fs s h, eval_vtg env p talker fs' s' h', congr_vtg fs _ _ fs'
      (gnss_split talker fs s _ (by decide) h) (gnss_split talker fs' s' _ (by decide) h') hf]
  split at hn
  · rename_i hk
    have hk : kind = c! "GLL" := by simpa using hk
    cases hn; subst hk
    rw [eval_gll env p talker fs s h, eval_gll env p talker fs' s' h', congr_gll fs _ _ _ fs'
      (gnss_split talker fs s _ (by decide) h) (gnss_split talker fs' s' _ (by decide) h') hf]
  · cases hn

/-- Two GLL sentences that differ in the eighth field. -/
example (env : Env) (p : Parser) : parseSentence env p (c! "$GPGLL,4916.45,N,12311.12,W,225444,A,D,x") =
    parseSentence env p (c! "$GPGLL,4916.45,N,12311.12,W,225444,A,D,y") :=
  C71_extra_fields env p (c! "GP") (c! "GLL") [c! "4916.45", c! "N", c! "12311.12", c! "W", c! "225444", c! "A", c! "D", c! "x"]
    [c! "4916.45", c! "N", c! "12311.12", c! "W", c! "225444", c! "A", c! "D", c! "y"] (c! "$GPGLL,4916.45,N,12311.12,W,225444,A,D,x") (c! "$GPGLL,4916.45,N,12311.12,W,225444,A,D,y") 7 rfl
    (demoTagged .bare (by decide +kernel)) (demoTagged .bare (by decide +kernel)) (by decide)

/-- Appending any fields after the used ones changes nothing. -/
theorem C71_appended (env : Env) (p : Parser) (talker kind : Str) (fs more : List Str) (s s' : Str) (n : Nat)
    (hn : usedFields kind = some n) (hl : n ≤ fs.length) (h : IsGnss talker kind fs s)
    (h' : IsGnss talker kind (fs ++ more) s') : parseSentence env p s' = parseSentence env p s := by
  refine C71_extra_fields env p talker kind _ _ s' s n hn h' h ?_
  intro i hi
  unfold field
  rw [List.getD_append _ _ _ _ (by omega)]

/-- One more field after the fourteen of GGA. -/
example (env : Env) (p : Parser) :
    parseSentence env p (c! "$GPGGA,123519,4807.038,N,01131.000,W,1,08,0.9,-545.4,M,46.9,M,,0042,more") =
      parseSentence env p (c! "$GPGGA,123519,4807.038,N,01131.000,W,1,08,0.9,-545.4,M,46.9,M,,0042*7E") :=
  C71_appended env p (c! "GP") (c! "GGA") demoGga [c! "more"] (c! "$GPGGA,123519,4807.038,N,01131.000,W,1,08,0.9,-545.4,M,46.9,M,,0042*7E") (c! "$GPGGA,123519,4807.038,N,01131.000,W,1,08,0.9,-545.4,M,46.9,M,,0042,more") 14 rfl (by decide) demoGga_tagged
    (demoTagged .bare (by decide +kernel))

/-- Appending empty fields changes nothing, wherever the sentence ends. -/
theorem C70_empty_fields (env : Env) (p : Parser) (talker kind : Str) (fs : List Str) (k : Nat) (s s' : Str) (n : Nat)
    (hn : usedFields kind = some n) (h : IsGnss talker kind fs s)
    (h' : IsGnss talker kind (fs ++ List.replicate k []) s') : parseSentence env p s' = parseSentence env p s := by
  refine C71_extra_fields env p talker kind _ _ s' s n hn h' h ?_
  intro i _
  unfold field
  by_cases hi : i < fs.length
  · rw [List.getD_append _ _ _ _ hi]
  · rw [List.getD_append_right _ _ _ _ (by omega), List.getD_eq_default fs _ (by omega), List.getD_eq_getElem?_getD,
      List.getElem?_replicate]
    split <;> rfl

/-- A GLL sentence that ends after the time, and with four empty fields. -/
example (env : Env) (p : Parser) : parseSentence env p (c! "$GPGLL,4916.45,N,12311.12,W,225444,,,,") =
    parseSentence env p (c! "$GPGLL,4916.45,N,12311.12,W,225444") :=
  C70_empty_fields env p (c! "GP") (c! "GLL") [c! "4916.45", c! "N", c! "12311.12", c! "W", c! "225444"] 4 (c! "$GPGLL,4916.45,N,12311.12,W,225444") (c! "$GPGLL,4916.45,N,12311.12,W,225444,,,,") 7 rfl
    (demoTagged .bare (by decide +kernel)) (demoTagged .bare (by decide +kernel))

/-! ## C75: GGA and GLL carry today's date -/

/-- Timestamp of a GGA, GLL or RMC result. -/
def gnssTime : ParsedSentence → Option (Option DateTime)
  | .gga d => some d.timestamp
  | .gll d => some d.timestamp
  | .rmc d => some d.timestamp
  | _ => none

/-- Whatever the time text: if a GGA or GLL result has a timestamp, its date is the current one and its hour,
minute and second are the numbers of the text. -/
theorem C75_today (env : Env) (p : Parser) (talker kind : Str) (fs : List Str) (s : Str) (r : ParsedSentence) (t : DateTime)
    (h : IsGnss talker kind fs s) (hk : kind = c! "GGA" ∨ kind = c! "GLL")
    (hr : (parseSentence env p s).1 = .ok r) (ht : gnssTime r = some (some t)) :
    t.year = env.now.year ∧ t.month = env.now.month ∧ t.day = env.now.day ∧
      ReadTime (field fs (if kind = c! "GGA" then 0 else 4)) (some (t.hour, t.minute, t.second)) := by
  rcases hk with rfl | rfl
  · obtain ⟨d, rfl, hd⟩ := (gga_ok env p talker fs s h _).mp hr
    rcases hd.timestamp with ⟨a, b, c, hr, -, e⟩ | ⟨-, e⟩
    · rw [gnssTime, e] at ht
      cases ht
      exact ⟨rfl, rfl, rfl, hr⟩
    · rw [gnssTime, e] at ht
      cases ht
  · obtain ⟨d, rfl, hd⟩ := (gll_ok env p talker fs s h _).mp hr
    rcases hd.timestamp with ⟨a, b, c, hr, -, e⟩ | ⟨-, e⟩
    · rw [gnssTime, e] at ht
      cases ht
      exact ⟨rfl, rfl, rfl, hr⟩
    · rw [gnssTime, e] at ht
      cases ht

/-- The timestamp of a GGA sentence has the date of the clock. -/
example : ∃ d t, (parseSentence demoEnv Parser.new (c! "$GPGGA,123519.75")).1 = .ok (.gga d) ∧ d.timestamp = some t ∧
    t.year = 2024 ∧ t.month = 2 ∧ t.day = 29 := by
  have h := C75_today demoEnv Parser.new (c! "GP") (c! "GGA") [c! "123519.75"] (c! "$GPGGA,123519.75") _
    ⟨2024, 2, 29, 12, 35, 19⟩ (demoTagged .bare (by decide +kernel)) (.inl rfl) rfl (by decide +kernel)
  exact ⟨_, _, rfl, by decide +kernel, h.1, h.2.1, h.2.2.1⟩

/-- For a valid time and a valid clock the timestamp is there (fractions of a second after it are ignored). -/
theorem C75_six_digits (env : Env) (p : Parser) (talker kind : Str) (fs : List Str) (s : Str) (r : ParsedSentence)
    (h m x : Nat) (rest : Str) (hs : IsGnss talker kind fs s) (hk : kind = c! "GGA" ∨ kind = c! "GLL")
    (ht : field fs (if kind = c! "GGA" then 0 else 4) = timeText h m x ++ rest) (htime : IsTime h m x)
    (hr : (parseSentence env p s).1 = .ok r) :
    gnssTime r = some (some ⟨env.now.year, env.now.month, env.now.day, h, m, x⟩) := by
  have hread : ReadTime (timeText h m x ++ rest) (some (h, m, x)) := by
    refine .time (pad 2 h) (pad 2 m) (pad 2 x) rest h m x (by simp [timeText]) ⟨pad_byteLen _ _, pad_byteLen _ _, pad_byteLen _ _⟩ ?_
    obtain ⟨h1, h2, h3⟩ := htime
    exact ⟨pad_dec 2 h _ (by decide) (by omega) (by omega), pad_dec 2 m _ (by decide) (by omega) (by omega),
      pad_dec 2 x _ (by decide) (by omega) (by omega)⟩
  have key : ∀ t, TimeField env.now (timeText h m x ++ rest) t → t = some ⟨env.now.year, env.now.month, env.now.day, h, m, x⟩ := by
    rintro t (⟨h', m', s', hr', -, rfl⟩ | ⟨hr', -⟩)
    · cases readTime_unique hread hr'
      rfl
    · cases readTime_unique hread hr'
  rcases hk with rfl | rfl
  · obtain ⟨d, rfl, hd⟩ := (gga_ok env p talker fs s hs _).mp hr
    have := hd.timestamp
    rw [if_pos rfl] at ht
    rw [ht] at this
    rw [gnssTime, key _ this]
  · obtain ⟨d, rfl, hd⟩ := (gll_ok env p talker fs s hs _).mp hr
    have := hd.timestamp
    rw [if_neg (by decide)] at ht
    rw [ht] at this
    rw [gnssTime, key _ this]

/-- `123519.75`: the fraction is ignored. -/
example : ∃ r, (parseSentence demoEnv Parser.new (c! "$GPGGA,123519.75")).1 = .ok r ∧
    gnssTime r = some (some ⟨2024, 2, 29, 12, 35, 19⟩) :=
  ⟨_, rfl, C75_six_digits demoEnv Parser.new (c! "GP") (c! "GGA") [c! "123519.75"] (c! "$GPGGA,123519.75") _ 12 35 19 (c! ".75")
    (demoTagged .bare (by decide +kernel)) (.inl rfl) (by decide) (by decide) rfl⟩

/-! ## C76: RMC timestamps use the current century -/

/-- For a date `DDMMYY` and a time `HHMMSS` an accepted RMC sentence has that date in the century of the clock. -/
theorem C76_century (env : Env) (p : Parser) (talker : Str) (fs : List Str) (s : Str) (r : ParsedSentence)
    (d mo y h m x : Nat) (hs : IsGnss talker (c! "RMC") fs s) (hd : field fs 8 = dateText d mo y)
    (ht : field fs 0 = timeText h m x) (hy : y < 100) (hdt : IsDateTime ⟨centuryOf env.now.year + y, mo, d, h, m, x⟩)
    (hr : (parseSentence env p s).1 = .ok r) :
    gnssTime r = some (some ⟨centuryOf env.now.year + y, mo, d, h, m, x⟩) := by
  obtain ⟨d', rfl, hd'⟩ := (rmc_ok env p talker fs s hs _).mp hr
  have := hd'.timestamp
  rw [hd, ht] at this
  rw [gnssTime, (dateTime_field env.now d mo y h m x hy hdt _).mp this]

/-- The last second of the year 99. -/
example : ∃ r, (parseSentence demoEnv Parser.new (c! "$GPRMC,235959,A,,,,,,,311299")).1 = .ok r ∧
    gnssTime r = some (some ⟨2099, 12, 31, 23, 59, 59⟩) :=
  ⟨_, rfl, C76_century demoEnv Parser.new (c! "GP") [c! "235959", c! "A", [], [], [], [], [], [], c! "311299"] (c! "$GPRMC,235959,A,,,,,,,311299") _
    31 12 99 23 59 59 (demoTagged .bare (by decide +kernel)) (by decide) (by decide) (by decide) (by decide) rfl⟩

/-- So a date of the previous century is reported one hundred years late: for the clock in year `Y` and a fix made
in year `F` of the century before, the reported year is `F + 100`. -/
theorem C76_previous_century (env : Env) (p : Parser) (talker : Str) (fs : List Str) (s : Str) (r : ParsedSentence)
    (F : Nat) (d mo h m x : Nat) (hs : IsGnss talker (c! "RMC") fs s) (hY : 0 ≤ env.now.year)
    (hF : (F : Int) / 100 + 1 = env.now.year / 100) (hd : field fs 8 = dateText d mo (F % 100))
    (ht : field fs 0 = timeText h m x) (hdt : IsDateTime ⟨F + 100, mo, d, h, m, x⟩)
    (hr : (parseSentence env p s).1 = .ok r) : gnssTime r = some (some ⟨F + 100, mo, d, h, m, x⟩) := by
  have e : centuryOf env.now.year + ((F % 100 : Nat) : Int) = (F : Int) + 100 := by
    unfold centuryOf
    rw [if_pos hY]
    omega
  have := C76_century env p talker fs s r d mo (F % 100) h m x hs hd ht (by omega) (by rw [e]; exact hdt) hr
  rwa [e] at this

/-- The last second of 1999 is reported as that of 2099. -/
example : ∃ r, (parseSentence demoEnv Parser.new (c! "$GPRMC,235959,A,,,,,,,311299")).1 = .ok r ∧
    gnssTime r = some (some ⟨(1999 : Nat) + 100, 12, 31, 23, 59, 59⟩) :=
  ⟨_, rfl, C76_previous_century demoEnv Parser.new (c! "GP") [c! "235959", c! "A", [], [], [], [], [], [], c! "311299"] (c! "$GPRMC,235959,A,,,,,,,311299") _
    1999 31 12 23 59 59 (demoTagged .bare (by decide +kernel)) (by decide) (by decide) (by decide) (by decide) (by decide) rfl⟩

/-! ## C79: FAA mode letters -/

/-- FAA mode of a VTG or GLL result. -/
def gnssFaa : ParsedSentence → Option (Option FaaMode)
  | .vtg d => some d.faaMode
  | .gll d => some d.faaMode
  | _ => none

/-- The FAA mode of a VTG or GLL sentence is the one whose printed letter is the text of its field; there is none for
every other text, and never the simulator mode. -/
theorem C79_letters (env : Env) (p : Parser) (talker kind : Str) (fs : List Str) (s : Str) (r : ParsedSentence)
    (h : IsGnss talker kind fs s) (hk : kind = c! "VTG" ∨ kind = c! "GLL") (hr : (parseSentence env p s).1 = .ok r) :
    ∃ o, gnssFaa r = some o ∧
      (∀ m, o = some m ↔ m ≠ .simulator ∧ m.display = field fs (if kind = c! "VTG" then 8 else 6)) ∧
      (o = none ↔ field fs (if kind = c! "VTG" then 8 else 6) ∉ [c! "A", c! "D", c! "E", c! "N"]) := by
  have key : ∀ t : Str, (∀ m, faaTable.lookup t = some m ↔ m ≠ .simulator ∧ m.display = t) ∧
      (faaTable.lookup t = none ↔ t ∉ [c! "A", c! "D", c! "E", c! "N"]) := by
    intro t
    by_cases h1 : t = c! "A"
    · subst h1; exact ⟨by intro m; cases m <;> decide, by decide⟩
    by_cases h2 : t = c! "D"
    · subst h2; exact ⟨by intro m; cases m <;> decide, by decide⟩
    by_cases h3 : t = c! "E"
    · subst h3; exact ⟨by intro m; cases m <;> decide, by decide⟩
    by_cases h4 : t = c! "N"
    · subst h4; exact ⟨by intro m; cases m <;> decide, by decide⟩
    have e : faaTable.lookup t = none := by
      have b : ∀ u : Str, t ≠ u → (t == u) = false := fun u hu => by simpa using hu
      simp only [faaTable, List.lookup, b _ h1, b _ h2, b _ h3, b _ h4]
    rw [e]
    constructor
    · intro m
      simp only [reduceCtorEq, false_iff, not_and]
      intro hm he
      cases m
      · exact h1 he.symm
      · exact h2 he.symm
      · exact h3 he.symm
      · exact h4 he.symm
      · exact hm rfl
    · simp [h1, h2, h3, h4]
  rcases hk with rfl | rfl
  · obtain ⟨d, he, hd⟩ := C68_contents env p talker fs s h
    rw [he] at hr
    cases hr
    refine ⟨_, rfl, ?_⟩
    rw [((hd d).mpr rfl).faa, if_pos rfl]
    exact key _
  · obtain ⟨d, rfl, hd⟩ := (gll_ok env p talker fs s h _).mp hr
    refine ⟨_, rfl, ?_⟩
    rw [hd.faa, if_neg (by decide)]
    exact key _

example : ∃ r, (parseSentence demoEnv Parser.new (c! "$GPVTG,,T,,M,,N,,K,E")).1 = .ok r ∧ gnssFaa r = some (some .estimated) :=
  ⟨_, rfl, by decide +kernel⟩
example : ∃ r, (parseSentence demoEnv Parser.new (c! "$GPVTG,,T,,M,,N,,K,S")).1 = .ok r ∧ gnssFaa r = some none :=
  ⟨_, rfl, by decide +kernel⟩

end Nmea
