/-
C128 continued: the decimal numbers of GNSS reports.
-/
import Verif.Props.Occurs
import Verif.Spec.Doubles

namespace Nmea
open Spec

theorem signed_double {d : F64} (h : IsDouble d) (neg : Bool) : IsDouble (signedF64 neg d) := by
  cases h with
  | fin s v h hlt => exact .fin _ _ h hlt
  | inf s => exact .inf _
  | nan => exact .nan

theorem signed_twice (neg : Bool) (d : F64) : signedF64 neg (signedF64 neg d) = d := by
  cases d <;> simp [signedF64]

/-- Only doubles are read. -/
theorem numberText_double {s : Str} {x : F64} (h : NumberText s x) : IsDouble x := by
  cases h with
  | decimal neg r q d _ _ hr =>
    refine signed_double ?_ neg
    cases hr with
    | fin v h hlt => exact .fin _ _ h.1 hlt
    | inf v h hge => exact .inf _
  | infinite neg r _ _ => exact .inf _
  | nan neg r _ _ => exact .nan

/-- Every double can be written. -/
theorem double_text {x : F64} (h : IsDouble x) : ∃ t, NumberText t x ∧ ',' ∉ t ∧ t ≠ [] := by
  cases h with
  | inf neg =>
    cases neg
    · exact ⟨c! "inf", .infinite false (c! "inf") (.inl ⟨rfl, rfl⟩) (.inl (by decide)), by decide, by decide⟩
    · exact ⟨c! "-inf", .infinite true (c! "inf") (.inr (.inr ⟨rfl, rfl⟩)) (.inl (by decide)), by decide, by decide⟩
  | nan => exact ⟨c! "nan", .nan false (c! "nan") (.inl ⟨rfl, rfl⟩) (by decide), by decide, by decide⟩
  | fin neg v h hlt =>
    obtain ⟨m, e, hm, he, hv⟩ := h
    have h0 : (0 : Rat) ≤ v := by rw [hv]; exact mul_nonneg (Nat.cast_nonneg _) (zpow_nonneg (by norm_num) _)
    have hr : RoundsTo v (.fin false v) := by
      rw [F64.roundsTo_iff, F64.ofRat, if_neg (not_lt.mpr h0), F64.ofMag,
        F64.roundMag_exact v ⟨m, e, hm, he, hv⟩]
      simp only [if_pos hlt]
    have hd : Decimal (natStr (m * 2 ^ e.toNat * 5 ^ (-e).toNat) ++ ('e' :: '-' :: natStr (-e).toNat)) v := by
      refine ⟨natStr (m * 2 ^ e.toNat * 5 ^ (-e).toNat), [], 'e' :: '-' :: natStr (-e).toNat, -((-e).toNat : Int),
        (natStr_digits _).2, by simp [AllDigits], .inl (natStr_digits _).1, .inr ⟨'e', _, true, natStr (-e).toNat, rfl,
          .inl rfl, .inr (.inr ⟨rfl, rfl⟩), natStr_digits _, by rw [decValue_natStr]; rfl⟩, .inl ⟨rfl, rfl⟩, ?_⟩
      rw [decValue_natStr, hv]
      have h10 : (10 : Rat) = 2 * 5 := by norm_num
      have he' : e = (e.toNat : Int) - ((-e).toNat : Int) := by omega
      conv_lhs => rw [he']
      rw [zpow_sub₀ (by norm_num), zpow_neg, zpow_natCast, zpow_natCast, zpow_natCast, h10, mul_pow]
      simp only [decValue, List.foldl_nil, Nat.cast_mul, Nat.cast_pow, Nat.cast_ofNat, Nat.cast_zero, List.length_nil,
        pow_zero, zero_div, add_zero]
      field_simp
      rw [mul_pow, mul_assoc]
    have hc : ',' ∉ natStr (m * 2 ^ e.toNat * 5 ^ (-e).toNat) ++ ('e' :: '-' :: natStr (-e).toNat) := by
      simp [natStr_comma]
    cases neg
    · exact ⟨_, .decimal false _ v _ (.inl ⟨rfl, rfl⟩) hd hr, hc, by simp⟩
    · exact ⟨_, .decimal true _ v _ (.inr (.inr ⟨rfl, rfl⟩)) hd hr, by simpa using hc, by simp⟩

theorem numField_double {s : Str} {x : F64} (h : NumField s (some x)) : IsDouble x := by
  rcases h with ⟨-, h⟩ | ⟨d, h, e⟩
  · cases h
  · cases e; exact numberText_double h

theorem variation_double {s side : Str} {x : F64} (h : VariationField s side (some x)) : IsDouble x := by
  rcases h with ⟨-, h⟩ | ⟨d, h, ⟨-, e⟩ | ⟨-, e⟩⟩
  · cases h
  · cases e; exact numberText_double h
  · cases e; exact signed_double (numberText_double h) _

theorem lenient_double {s : Str} {x : F64} (h : LenientField s (some x)) : IsDouble x := by
  rcases h with ⟨d, h, e⟩ | ⟨-, h⟩
  · cases e; exact numberText_double h
  · cases h

theorem occurs_of (s : Str) (r : ParsedSentence) (P : ParsedSentence → Prop)
    (h : (parseSentence demoEnv Parser.new s).1 = .ok r) (hp : P r) : Occurs P :=
  ⟨[(demoEnv, s)], r, by rw [← h]; exact List.mem_cons_self, hp⟩

theorem gnss_sentence (kind : Str) (fs : List Str) (h : CommaFree fs) (hne : fs ≠ []) :
    IsGnss (c! "GP") kind fs (finish (join (tag '$' (c! "GP") kind) fs) .star) :=
  ⟨by decide, h, hne, .star, by simp [Framed], rfl⟩

theorem from_gnss {P : ParsedSentence → Prop} (h : Occurs P) : ∃ e q s r, (parseSentence e q s).1 = .ok r ∧ P r ∧
    ∀ kind, gnssKindOf r = some kind → ∃ talker fs, IsGnss talker kind fs s := by
  obtain ⟨e, q, s, r, -, hr, hp⟩ := (occurs_iff P).mp h
  exact ⟨e, q, s, r, hr, hp, (C09_result_kind e q (parseSentence e q s).2 s r (Prod.ext hr rfl)).1⟩

theorem from_gga {P : GgaData → Prop} (h : Occurs (Fix P)) : ∃ now talker fs d, GgaSays now talker fs d ∧ P d := by
  obtain ⟨e, q, s, r, hr, hp, hk⟩ := from_gnss h
  cases r <;> try exact hp.elim
  obtain ⟨talker, fs, hs⟩ := hk _ rfl
  obtain ⟨d, e1, hd⟩ := ((C65_contents e q talker fs s hs).2.1 _).mp hr
  cases e1
  exact ⟨_, _, _, _, hd, hp⟩

theorem from_rmc {P : RmcData → Prop} (h : Occurs (Minimum P)) : ∃ now talker fs d, RmcSays now talker fs d ∧ P d := by
  obtain ⟨e, q, s, r, hr, hp, hk⟩ := from_gnss h
  cases r <;> try exact hp.elim
  obtain ⟨talker, fs, hs⟩ := hk _ rfl
  obtain ⟨d, e1, hd⟩ := ((C66_contents e q talker fs s hs).2.1 _).mp hr
  cases e1
  exact ⟨_, _, _, _, hd, hp⟩

theorem from_gsa {P : GsaData → Prop} (h : Occurs (Active P)) : ∃ talker fs d, GsaSays talker fs d ∧ P d := by
  obtain ⟨e, q, s, r, hr, hp, hk⟩ := from_gnss h
  cases r <;> try exact hp.elim
  obtain ⟨talker, fs, hs⟩ := hk _ rfl
  obtain ⟨d, e1, hd⟩ := ((C67_contents e q talker fs s hs).2.1 _).mp hr
  cases e1
  exact ⟨_, _, _, hd, hp⟩

theorem from_vtg {P : VtgData → Prop} (h : Occurs (Velocity P)) : ∃ talker fs d, VtgSays talker fs d ∧ P d := by
  obtain ⟨e, q, s, r, hr, hp, hk⟩ := from_gnss h
  cases r <;> try exact hp.elim
  obtain ⟨talker, fs, hs⟩ := hk _ rfl
  obtain ⟨d, e1, hd⟩ := C68_contents e q talker fs s hs
  rw [e1] at hr
  cases hr
  exact ⟨_, _, _, (hd _).mpr rfl, hp⟩

/-- A GGA sentence with four numbers. -/
theorem occurs_gga {a b c d : F64} (ha : IsDouble a) (hb : IsDouble b) (hc : IsDouble c) (hd : IsDouble d) :
    Occurs (Fix fun r => r.hdop = some a ∧ r.altitude = some b ∧ r.geoidSeparation = some c ∧ r.ageOfDgps = some d) := by
  obtain ⟨ta, ha, ca, na⟩ := double_text ha
  obtain ⟨tb, hb, cb, nb⟩ := double_text hb
  obtain ⟨tc, hc, cc, nc⟩ := double_text hc
  obtain ⟨td, hd, cd, nd⟩ := double_text hd
  have hs := gnss_sentence (c! "GGA") [c! "000000", [], [], [], [], [], [], ta, tb, [], tc, [], td] (by
    intro x hx
    simp only [List.mem_cons, List.not_mem_nil, or_false] at hx
    rcases hx with rfl | rfl | rfl | rfl | rfl | rfl | rfl | rfl | rfl | rfl | rfl | rfl | rfl <;> first | assumption | decide) (by simp)
  refine occurs_of _ (.gga ⟨.gps, some ⟨demoEnv.now.year, demoEnv.now.month, demoEnv.now.day, 0, 0, 0⟩, none, none, .invalid,
    none, some a, some b, some c, some d, none⟩) _ (((C65_contents demoEnv Parser.new _ _ _ hs).2.1 _).mpr ⟨_, rfl, ?_⟩) ⟨rfl, rfl, rfl, rfl⟩
  refine ⟨rfl, .inl ⟨0, 0, 0, .time (c! "00") (c! "00") (c! "00") [] 0 0 0 rfl (by decide)
    ⟨demoDec (by decide), demoDec (by decide), demoDec (by decide)⟩, by decide, rfl⟩, .inl ⟨rfl, rfl⟩, .inl ⟨rfl, rfl⟩,
    ⟨none, .inl ⟨rfl, rfl⟩, rfl⟩, .inl ⟨rfl, rfl⟩, .inr ⟨a, ha, rfl⟩, .inr ⟨b, hb, rfl⟩, .inr ⟨c, hc, rfl⟩, .inr ⟨d, hd, rfl⟩,
    .inl ⟨rfl, rfl⟩⟩

/-- An RMC sentence with three numbers, the last one being the variation to the east or to the west. -/
theorem occurs_rmc {a b c : F64} (ha : IsDouble a) (hb : IsDouble b) (hc : IsDouble c) :
    Occurs (Minimum fun r => r.sogKnots = some a ∧ r.bearing = some b ∧ r.variation = some c) := by
  obtain ⟨ta, ha, ca, na⟩ := double_text ha
  obtain ⟨tb, hb, cb, nb⟩ := double_text hb
  obtain ⟨tc, hc, cc, nc⟩ := double_text hc
  have hs := gnss_sentence (c! "RMC") [[], [], [], [], [], [], ta, tb, [], tc, c! "E"] (by
    intro x hx
    simp only [List.mem_cons, List.not_mem_nil, or_false] at hx
    rcases hx with rfl | rfl | rfl | rfl | rfl | rfl | rfl | rfl | rfl | rfl | rfl <;> first | assumption | decide) (by simp)
  refine occurs_of _ (.rmc ⟨.gps, none, none, none, none, some a, some b, some c⟩) _
    (((C66_contents demoEnv Parser.new _ _ _ hs).2.1 _).mpr ⟨_, rfl, ?_⟩) ⟨rfl, rfl, rfl⟩
  refine ⟨rfl, .inr ⟨?_, rfl⟩, .inl ⟨rfl, rfl⟩, .inl ⟨rfl, rfl⟩, .inl ⟨rfl, rfl⟩, .inr ⟨a, ha, rfl⟩, .inr ⟨b, hb, rfl⟩,
    .inr ⟨c, hc, .inl ⟨rfl, rfl⟩⟩⟩
  rintro d m y h mi s ⟨⟨ds, h1, h2, -⟩, -⟩
  have : pair (field [[], [], [], [], [], [], ta, tb, [], tc, c! "E"] 8) 0 = [] := rfl
  rw [this] at h1
  rcases h1 with rfl | h1
  · exact h2.1 rfl
  · cases h1

/-- A GSA sentence with three numbers. -/
theorem occurs_gsa {a b c : F64} (ha : IsDouble a) (hb : IsDouble b) (hc : IsDouble c) :
    Occurs (Active fun r => r.pdop = some a ∧ r.hdop = some b ∧ r.vdop = some c) := by
  obtain ⟨ta, ha, ca, na⟩ := double_text ha
  obtain ⟨tb, hb, cb, nb⟩ := double_text hb
  obtain ⟨tc, hc, cc, nc⟩ := double_text hc
  have hs := gnss_sentence (c! "GSA") (List.replicate 14 [] ++ [ta, tb, tc]) (by
    intro x hx
    simp only [List.mem_append, List.mem_replicate, List.mem_cons, List.not_mem_nil, or_false] at hx
    rcases hx with ⟨-, rfl⟩ | rfl | rfl | rfl <;> first | assumption | decide) (by simp)
  refine occurs_of _ (.gsa ⟨.gps, none, none, [], some a, some b, some c⟩) _
    (((C67_contents demoEnv Parser.new _ _ _ hs).2.1 _).mpr ⟨_, rfl, ?_⟩) ⟨rfl, rfl, rfl⟩
  exact ⟨rfl, .inl ⟨rfl, rfl⟩, .inl ⟨rfl, rfl⟩, List.Forall₂.nil, .inr ⟨a, ha, rfl⟩, .inr ⟨b, hb, rfl⟩, .inr ⟨c, hc, rfl⟩⟩

/-- A VTG sentence with four numbers. -/
theorem occurs_vtg {a b c d : F64} (ha : IsDouble a) (hb : IsDouble b) (hc : IsDouble c) (hd : IsDouble d) :
    Occurs (Velocity fun r => r.cogTrue = some a ∧ r.cogMagnetic = some b ∧ r.sogKnots = some c ∧ r.sogKph = some d) := by
  obtain ⟨ta, ha, ca, na⟩ := double_text ha
  obtain ⟨tb, hb, cb, nb⟩ := double_text hb
  obtain ⟨tc, hc, cc, nc⟩ := double_text hc
  obtain ⟨td, hd, cd, nd⟩ := double_text hd
  have hs := gnss_sentence (c! "VTG") [ta, [], tb, [], tc, [], td] (by
    intro x hx
    simp only [List.mem_cons, List.not_mem_nil, or_false] at hx
    rcases hx with rfl | rfl | rfl | rfl | rfl | rfl | rfl <;> first | assumption | decide) (by simp)
  obtain ⟨r, e, hr⟩ := C68_contents demoEnv Parser.new _ _ _ hs
  have := (hr ⟨.gps, some a, some b, some c, some d, none⟩).mp
    ⟨rfl, .inl ⟨a, ha, rfl⟩, .inl ⟨b, hb, rfl⟩, .inl ⟨c, hc, rfl⟩, .inl ⟨d, hd, rfl⟩, rfl⟩
  refine occurs_of _ (.vtg r) _ (by rw [e]) ?_
  rw [← this]
  exact ⟨rfl, rfl, rfl, rfl⟩

/-- C128: the numbers of GGA, RMC, GSA and VTG reports can be any binary64 numbers (infinities and "not a number" among them),
each of them whatever the others are, and nothing else. -/
theorem C128_doubles (a b c d : F64) :
    (Occurs (Fix fun r => r.hdop = some a ∧ r.altitude = some b ∧ r.geoidSeparation = some c ∧ r.ageOfDgps = some d) ↔
      IsDouble a ∧ IsDouble b ∧ IsDouble c ∧ IsDouble d) ∧
    (Occurs (Minimum fun r => r.sogKnots = some a ∧ r.bearing = some b ∧ r.variation = some c) ↔
      IsDouble a ∧ IsDouble b ∧ IsDouble c) ∧
    (Occurs (Active fun r => r.pdop = some a ∧ r.hdop = some b ∧ r.vdop = some c) ↔ IsDouble a ∧ IsDouble b ∧ IsDouble c) ∧
    (Occurs (Velocity fun r => r.cogTrue = some a ∧ r.cogMagnetic = some b ∧ r.sogKnots = some c ∧ r.sogKph = some d) ↔
      IsDouble a ∧ IsDouble b ∧ IsDouble c ∧ IsDouble d) := by
  refine ⟨⟨fun h => ?_, fun h => occurs_gga h.1 h.2.1 h.2.2.1 h.2.2.2⟩, ⟨fun h => ?_, fun h => occurs_rmc h.1 h.2.1 h.2.2⟩,
    ⟨fun h => ?_, fun h => occurs_gsa h.1 h.2.1 h.2.2⟩, ⟨fun h => ?_, fun h => occurs_vtg h.1 h.2.1 h.2.2.1 h.2.2.2⟩⟩
  · obtain ⟨now, talker, fs, r, hr, h1, h2, h3, h4⟩ := from_gga h
    exact ⟨numField_double (h1 ▸ hr.hdop), numField_double (h2 ▸ hr.altitude), numField_double (h3 ▸ hr.geoid),
      numField_double (h4 ▸ hr.age)⟩
  · obtain ⟨now, talker, fs, r, hr, h1, h2, h3⟩ := from_rmc h
    exact ⟨numField_double (h1 ▸ hr.speed), numField_double (h2 ▸ hr.bearing), variation_double (h3 ▸ hr.variation)⟩
  · obtain ⟨talker, fs, r, hr, h1, h2, h3⟩ := from_gsa h
    exact ⟨numField_double (h1 ▸ hr.pdop), numField_double (h2 ▸ hr.hdop), numField_double (h3 ▸ hr.vdop)⟩
  · obtain ⟨talker, fs, r, hr, h1, h2, h3, h4⟩ := from_vtg h
    exact ⟨lenient_double (h1 ▸ hr.courseTrue), lenient_double (h2 ▸ hr.courseMagnetic), lenient_double (h3 ▸ hr.knots),
      lenient_double (h4 ▸ hr.kph)⟩

/-- The smallest positive double, the largest one, and the negative zero. -/
example : IsDouble (.fin false (2 ^ (-1074 : Int))) ∧ IsDouble (.fin false ((2 ^ 53 - 1) * 2 ^ 971)) ∧ IsDouble (.fin true 0) :=
  ⟨.fin _ _ ⟨1, -1074, by norm_num, by norm_num, by norm_num⟩ (by decide +kernel),
    .fin _ _ ⟨2 ^ 53 - 1, 971, by norm_num, by norm_num, by norm_num⟩ (by decide +kernel),
    .fin _ _ ⟨0, 0, by norm_num, by norm_num, by norm_num⟩ (by norm_num)⟩

end Nmea
