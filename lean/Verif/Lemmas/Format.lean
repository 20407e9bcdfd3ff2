/-
Reading formatted texts.
-/
import Verif.Lemmas.GnssSays
import Verif.Lemmas.Keys
import Verif.Lemmas.Values
import Verif.Spec.Format

namespace Nmea
open Spec

theorem pad_digit (n : Nat) : (c! "0123456789").getD (n % 10) '0' ∈ c! "0123456789" ∧
    ((c! "0123456789").getD (n % 10) '0').toNat - '0'.toNat = n % 10 := by
  have key : ∀ k < 10, (c! "0123456789").getD k '0' ∈ c! "0123456789" ∧
    ((c! "0123456789").getD k '0').toNat - '0'.toNat = k := by decide
  exact key _ (Nat.mod_lt _ (by decide))

theorem pad_length (k n : Nat) : (pad k n).length = k := by
  induction k generalizing n with
  | zero => rfl
  | succ k ih => simp [pad, ih]

theorem pad_allDigits (k n : Nat) : AllDigits (pad k n) := by
  induction k generalizing n with
  | zero => intro c hc; cases hc
  | succ k ih =>
    intro c hc
    rcases List.mem_append.mp hc with h | h
    · exact ih _ c h
    · rw [List.mem_singleton.mp h]
      exact (pad_digit n).1

theorem decValue_pad (k n : Nat) (h : n < 10 ^ k) : decValue (pad k n) = n := by
  induction k generalizing n with
  | zero => have : n = 0 := by simpa using h
            subst this; rfl
  | succ k ih =>
    rw [pad, decValue_append, ih (n / 10) (by rw [Nat.pow_succ] at h; omega), decValue_cons, (pad_digit n).2]
    simp only [List.length_nil, List.length_cons, Nat.pow_zero, Nat.mul_one]
    have : decValue [] = 0 := rfl
    omega

theorem pad_byteLen (k n : Nat) : byteLen (pad k n) = k := by
  have : ∀ s : Str, AllDigits s → byteLen s = s.length := by
    intro s
    induction s with
    | nil => intro _; rfl
    | cons c s ih =>
      intro hs
      rw [byteLen_cons, ih (fun x hx => hs x (by simp [hx])), List.length_cons]
      have hc := hs c (by simp)
      have : c.utf8Size = 1 := by
        simp only [List.mem_cons, List.not_mem_nil, or_false] at hc
        rcases hc with rfl | rfl | rfl | rfl | rfl | rfl | rfl | rfl | rfl | rfl <;> decide
      omega
  rw [this _ (pad_allDigits k n), pad_length]

theorem pad_dec (k n max : Nat) (hk : 0 < k) (h : n < 10 ^ k) (hm : n ≤ max) : Dec max (pad k n) n := by
  refine ⟨pad k n, .inl rfl, ⟨?_, pad_allDigits k n⟩, decValue_pad k n h, hm⟩
  intro e
  have := pad_length k n
  rw [e] at this
  simp at this
  omega

theorem timeText_read (h m s : Nat) (hh : h < 100) (hm : m < 100) (hs : s < 100) :
    ReadTime (timeText h m s) (some (h, m, s)) := by
  refine .time (pad 2 h) (pad 2 m) (pad 2 s) [] h m s (by simp [timeText]) ⟨pad_byteLen _ _, pad_byteLen _ _, pad_byteLen _ _⟩ ?_
  exact ⟨pad_dec 2 h _ (by decide) hh (by omega), pad_dec 2 m _ (by decide) hm (by omega), pad_dec 2 s _ (by decide) hs (by omega)⟩

theorem timeText_pairs (h m s : Nat) : pair (timeText h m s) 0 = pad 2 h ∧ pair (timeText h m s) 2 = pad 2 m ∧
    pair (timeText h m s) 4 = pad 2 s := by
  simp [timeText, pair, pad]

theorem dateTimeText_read (d mo y h m s : Nat) (hd : d < 100) (hmo : mo < 100) (hy : y < 100) (hh : h < 100)
    (hm : m < 100) (hs : s < 100) : ReadDateTime (dateText d mo y) (timeText h m s) d mo y h m s := by
  obtain ⟨t1, t2, t3⟩ := timeText_pairs h m s
  obtain ⟨d1, d2, d3⟩ := timeText_pairs d mo y
  change pair (dateText d mo y) 0 = _ at d1
  change pair (dateText d mo y) 2 = _ at d2
  change pair (dateText d mo y) 4 = _ at d3
  unfold ReadDateTime
  rw [t1, t2, t3, d1, d2, d3]
  exact ⟨pad_dec 2 d _ (by decide) hd (by omega), pad_dec 2 mo _ (by decide) hmo (by omega),
    .inl ⟨y, pad_dec 2 y _ (by decide) hy (by omega), rfl⟩, pad_dec 2 h _ (by decide) hh (by omega),
    pad_dec 2 m _ (by decide) hm (by omega), pad_dec 2 s _ (by decide) hs (by omega)⟩

theorem number_text (n : Number) (h : n.frac < 10 ^ n.places) (d : F64) (hr : RoundsTo n.mag d) :
    NumberText n.text (signedF64 n.minus d) := by
  refine .decimal n.minus (natStr n.whole ++ '.' :: pad n.places n.frac) n.mag d ?_ ?_ hr
  · unfold Number.text
    cases n.minus
    · exact .inl ⟨by simp, rfl⟩
    · exact .inr (.inr ⟨by simp, rfl⟩)
  · refine ⟨natStr n.whole, pad n.places n.frac, [], 0, (natStr_digits _).2, pad_allDigits _ _, .inl (natStr_digits _).1,
      .inl ⟨rfl, rfl⟩, .inr (by simp), ?_⟩
    rw [decValue_natStr, decValue_pad _ _ h, pad_length]
    simp [Number.mag]

theorem numberText_unique {s : Str} {d d' : F64} (h : NumberText s d) (h' : NumberText s d') : d = d' := by
  rw [← f64_parse_iff] at h h'
  rw [h] at h'
  exact Option.some.inj h'

theorem number_field (n : Number) (h : n.frac < 10 ^ n.places) (x : Option F64) (hx : NumField n.text x) : n.Result x := by
  have ht := number_text n h _ (F64.ofRat_roundsTo _)
  rcases hx with ⟨he, -⟩ | ⟨d, hd, rfl⟩
  · exact absurd he (numberText_ne_nil ht)
  · exact ⟨_, F64.ofRat_roundsTo _, by rw [numberText_unique hd ht]⟩

theorem number_lenient (n : Number) (h : n.frac < 10 ^ n.places) (x : Option F64) (hx : LenientField n.text x) : n.Result x := by
  have ht := number_text n h _ (F64.ofRat_roundsTo _)
  rcases hx with ⟨d, hd, rfl⟩ | ⟨hn, -⟩
  · exact ⟨_, F64.ofRat_roundsTo _, by rw [numberText_unique hd ht]⟩
  · exact absurd ht (hn _)

/-- The error of the conversion of degrees and minutes. -/
theorem degrees_error (deg : Nat) (min r : Rat) (h0 : 0 ≤ min) (h1 : min ≤ 100) (h2 : deg ≤ 999) (h : DegreesOf deg min r) :
    |r - (deg + min / 60)| ≤ (deg + 6) * 2 ^ (-53 : Int) ∧ 0 ≤ r := by
  obtain ⟨a, b, ha, hb, hr⟩ := h
  rw [F64.roundsTo_iff] at ha hb hr
  have d0 : (0 : Rat) ≤ (deg : Rat) := by positivity
  have d1 : (deg : Rat) ≤ 999 := by exact_mod_cast h2
  rw [ofRat_nonneg min h0 (h1.trans (by norm_num))] at ha
  have ha : a = F64.roundMag min := by injection ha
  have a0 := F64.roundMag_nonneg min h0
  have a1 := roundMag_le min 100 h0 (by exact_mod_cast h1) (by norm_num)
  have ea := F64.roundMag_error_le min 100 h0 h1 (by norm_num)
  rw [← ha] at a0 a1 ea
  have a1 : a ≤ 100 := by exact_mod_cast a1
  have b0 : 0 ≤ a / 60 := by positivity
  have b1 : a / 60 ≤ 2 := by linarith
  rw [ofRat_nonneg _ b0 (b1.trans (by norm_num))] at hb
  have hb : b = F64.roundMag (a / 60) := by injection hb
  have c0 := F64.roundMag_nonneg _ b0
  have c1 := roundMag_le _ 2 b0 (by exact_mod_cast b1) (by norm_num)
  have eb := F64.roundMag_error_le _ 2 b0 b1 (by norm_num)
  rw [← hb] at c0 c1 eb
  have c1 : b ≤ 2 := by exact_mod_cast c1
  have s0 : 0 ≤ (deg : Rat) + b := add_nonneg d0 c0
  have s1 : (deg : Rat) + b ≤ deg + 2 := by linarith
  rw [ofRat_nonneg _ s0 ((s1.trans (by linarith : (deg : Rat) + 2 ≤ 1001)).trans (by norm_num))] at hr
  have hr : r = F64.roundMag (deg + b) := by injection hr
  have er := F64.roundMag_error_le _ (deg + 2) s0 s1 (by linarith)
  have r0 := F64.roundMag_nonneg _ s0
  rw [← hr] at er r0
  refine ⟨?_, r0⟩
  have hu : (0 : Rat) < 2 ^ (-53 : Int) := by positivity
  generalize (2 : Rat) ^ (-53 : Int) = u at *
  rw [abs_le] at *
  constructor <;> linarith [er.1, er.2, eb.1, eb.2, ea.1, ea.2]

theorem posText_bounds {k : Nat} {s : Str} {deg : Nat} {min : Rat} (h : PosText k s deg min) :
    deg < 10 ^ k ∧ 0 ≤ min ∧ min ≤ 100 := by
  obtain ⟨d, m, f, rest, -, h1, h2, h3, h4, h5, -, rfl, rfl⟩ := h
  have hd := decValue_lt d h3
  have hm := decValue_lt m h4
  have hf := decValue_lt f h5.2
  rw [h1] at hd
  rw [h2] at hm
  refine ⟨hd, by positivity, ?_⟩
  have e1 : (decValue f : Rat) / 10 ^ f.length ≤ 1 := by
    rw [div_le_one (by positivity)]
    exact_mod_cast hf.le
  have e2 : (decValue m : Rat) ≤ 99 := by exact_mod_cast Nat.le_of_lt_succ hm
  linarith

theorem angle_text (a : Angle) (k max : Nat) (h : a.Ok max) (hk : max < 10 ^ k) :
    PosText k (a.text k) a.deg (a.min + a.frac / 10 ^ a.places) := by
  obtain ⟨h1, h2, h3, h4⟩ := h
  refine ⟨pad k a.deg, pad 2 a.min, pad a.places a.frac, [], by simp [Angle.text], pad_length _ _, pad_length _ _,
    pad_allDigits _ _, pad_allDigits _ _, ⟨?_, pad_allDigits _ _⟩, (by intro c t h; cases h), ?_, ?_⟩
  · intro e
    have := pad_length a.places a.frac
    rw [e] at this
    simp at this
    omega
  · rw [decValue_pad _ _ (by omega)]
  · rw [decValue_pad _ _ (by omega), decValue_pad _ _ h4, pad_length]

theorem angle_field (a : Angle) (k max : Nat) (plus minus : Char) (hpm : plus ≠ minus) (h : a.Ok max) (hk : max < 10 ^ k)
    (hmax : max ≤ 180) (x : Option F64) (hx : PosField k minus (a.text k) (a.side plus minus) x) : a.Result x := by
  have ht := angle_text a k max h hk
  rcases hx with ⟨he, -⟩ | ⟨deg, min, r, hp, hd, rfl⟩
  · exact absurd he (posText_ne_nil ht)
  · obtain ⟨rfl, rfl⟩ := posText_unique hp ht
    obtain ⟨-, m0, m1⟩ := posText_bounds ht
    have hdeg : a.deg ≤ 180 := h.1.trans hmax
    obtain ⟨e1, r0⟩ := degrees_error a.deg _ r m0 m1 (by omega) hd
    have hside : decide (a.side plus minus = [minus]) = a.minus := by
      unfold Angle.side
      cases a.minus
      · simpa using hpm
      · simp
    rw [hside]
    refine ⟨r, hd, rfl, _, rfl, ?_⟩
    have hb : ((a.deg : Rat) + 6) * 2 ^ (-53 : Int) ≤ 3 / 10 ^ 14 := by
      have : (a.deg : Rat) ≤ 180 := by exact_mod_cast hdeg
      have h2 : ((a.deg : Rat) + 6) * 2 ^ (-53 : Int) ≤ 186 * 2 ^ (-53 : Int) :=
        mul_le_mul_of_nonneg_right (by linarith) (by positivity)
      exact h2.trans (by norm_num)
    have e2 := e1.trans hb
    unfold Angle.value
    cases a.minus
    · simp only [Bool.false_eq_true, if_false, one_mul]
      exact e2
    · simp only [if_true]
      rw [show -r - -1 * ((a.deg : Rat) + (a.min + a.frac / 10 ^ a.places) / 60) =
        -(r - (a.deg + (a.min + a.frac / 10 ^ a.places) / 60)) by ring, abs_neg]
      exact e2

theorem Spec.Angle.Result.unique {a : Angle} {x y : Option F64} (h : a.Result x) (h' : a.Result y) : x = y := by
  obtain ⟨r, h1, rfl, -⟩ := h
  obtain ⟨r', h1', rfl, -⟩ := h'
  rw [degreesOf_unique h1 h1']

theorem Spec.Number.Result.unique {a : Number} {x y : Option F64} (h : a.Result x) (h' : a.Result y) : x = y := by
  obtain ⟨d, h1, rfl⟩ := h
  obtain ⟨d', h1', rfl⟩ := h'
  rw [F64.roundsTo_iff] at h1 h1'
  rw [h1, h1']

theorem degreesOf_exists (deg : Nat) (min : Rat) (h0 : 0 ≤ min) (h1 : min ≤ 100) (h2 : deg ≤ 999) : ∃ r, DegreesOf deg min r := by
  have a0 := F64.roundMag_nonneg min h0
  have a1 := roundMag_le min 100 h0 (by exact_mod_cast h1) (by norm_num)
  have a1 : F64.roundMag min ≤ 100 := by exact_mod_cast a1
  have b0 : 0 ≤ F64.roundMag min / 60 := by positivity
  have b1 : F64.roundMag min / 60 ≤ 2 := by linarith
  have c0 := F64.roundMag_nonneg _ b0
  have c1 := roundMag_le _ 2 b0 (by exact_mod_cast b1) (by norm_num)
  have c1 : F64.roundMag (F64.roundMag min / 60) ≤ 2 := by exact_mod_cast c1
  have d0 : (0 : Rat) ≤ (deg : Rat) := by positivity
  have d1 : (deg : Rat) ≤ 999 := by exact_mod_cast h2
  have s0 : 0 ≤ (deg : Rat) + F64.roundMag (F64.roundMag min / 60) := add_nonneg d0 c0
  have s1 : (deg : Rat) + F64.roundMag (F64.roundMag min / 60) ≤ 1001 := by linarith
  refine ⟨_, _, _, (F64.roundsTo_iff _ _).mpr (ofRat_nonneg min h0 (h1.trans (by norm_num))).symm,
    (F64.roundsTo_iff _ _).mpr (ofRat_nonneg _ b0 (b1.trans (by norm_num))).symm,
    (F64.roundsTo_iff _ _).mpr (ofRat_nonneg _ s0 (s1.trans (by norm_num))).symm⟩

theorem angle_readable (a : Angle) (k max : Nat) (minus : Char) (side : Str) (h : a.Ok max) (hk : max < 10 ^ k)
    (hmax : max ≤ 180) : ∃ x, PosField k minus (a.text k) side x := by
  have ht := angle_text a k max h hk
  obtain ⟨-, m0, m1⟩ := posText_bounds ht
  have hdeg : a.deg ≤ 180 := h.1.trans hmax
  obtain ⟨r, hr⟩ := degreesOf_exists a.deg _ m0 m1 (by omega)
  exact ⟨_, .inr ⟨_, _, r, ht, hr, rfl⟩⟩

theorem number_readable (n : Number) (h : n.frac < 10 ^ n.places) : ∃ x, NumField n.text x :=
  ⟨_, .inr ⟨_, number_text n h _ (F64.ofRat_roundsTo _), rfl⟩⟩

theorem nat_readable (max n : Nat) (h : n ≤ max) : IntField max (natStr n) (some n) := .inr ⟨n, dec_natStr max n h, rfl⟩

theorem intField_unique {max : Nat} {s : Str} {x y : Option Nat} (h : IntField max s x) (h' : IntField max s y) : x = y := by
  rcases h with ⟨rfl, rfl⟩ | ⟨n, hn, rfl⟩
  · rcases h' with ⟨-, rfl⟩ | ⟨n, hn, -⟩
    · rfl
    · exact absurd rfl (dec_ne_nil hn)
  · rcases h' with ⟨rfl, -⟩ | ⟨m, hm, rfl⟩
    · exact absurd rfl (dec_ne_nil hn)
    · rw [Dec.unique hn hm]

theorem nat_field (max n : Nat) (h : n ≤ max) (x : Option Nat) (hx : IntField max (natStr n) x) : x = some n :=
  intField_unique hx (nat_readable max n h)

theorem time_field (now : DateTime) (h m s : Nat) (ht : IsTime h m s) (hnow : IsDateTime now) (t : Option DateTime) :
    TimeField now (timeText h m s) t ↔ t = some ⟨now.year, now.month, now.day, h, m, s⟩ := by
  have hr := timeText_read h m s (by have := ht.1; omega) (by have := ht.2.1; omega) (by have := ht.2.2; omega)
  constructor
  · rintro (⟨h', m', s', hr', -, rfl⟩ | ⟨hr', -⟩)
    · cases readTime_unique hr hr'
      rfl
    · cases readTime_unique hr hr'
  · rintro rfl
    exact .inl ⟨h, m, s, hr, ⟨hnow.1, hnow.2.1, ht⟩, rfl⟩

theorem dateTime_field (now : DateTime) (d mo y h m s : Nat) (hy : y < 100)
    (hdt : IsDateTime ⟨centuryOf now.year + y, mo, d, h, m, s⟩) (t : Option DateTime) :
    DateTimeField now (dateText d mo y) (timeText h m s) t ↔ t = some ⟨centuryOf now.year + y, mo, d, h, m, s⟩ := by
  have hd31 : d ≤ 31 := by
    have h1 := hdt.2.1.2.2.2
    have h2 := hdt.2.1.2.1
    have h3 : ∀ i, (monthDays (centuryOf now.year + y)).getD i 0 ≤ 31 := by
      intro i
      unfold monthDays
      match i with
      | 0 | 2 | 3 | 4 | 5 | 6 | 7 | 8 | 9 | 10 | 11 => simp
      | 1 => simp; split <;> omega
      | n + 12 => simp
    exact h1.trans (h3 _)
  have ht := hdt.2.2
  have hr := dateTimeText_read d mo y h m s (by omega) (by have := hdt.2.1.2.1; simp only at this; omega) hy
    (by have := ht.1; simp only at this; omega) (by have := ht.2.1; simp only at this; omega) (by have := ht.2.2; simp only at this; omega)
  constructor
  · rintro (⟨d', m', y', h', mi', s', hr', -, rfl⟩ | ⟨hn, -⟩)
    · obtain ⟨rfl, rfl, rfl, rfl, rfl, rfl⟩ := readDateTime_unique hr hr'
      rfl
    · exact absurd hr (hn _ _ _ _ _ _)
  · rintro rfl
    exact .inl ⟨d, mo, y, h, m, s, hr, hdt, rfl⟩

end Nmea
