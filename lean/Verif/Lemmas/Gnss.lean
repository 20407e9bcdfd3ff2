/-
The field readers of the GNSS sentences.
-/
import Verif.Lemmas.Numbers
import Verif.Lemmas.Calendar
import Verif.Lemmas.Dispatch
import Verif.Lemmas.OutMonad
import Verif.Spec.Gnss

namespace Nmea
open Spec

/-! ### Number fields -/

theorem pickNumber_ok {α : Type} (parse : Str → Option α) (split : List Str) (i : Nat) (x : Option α) :
    pickNumberField parse split i = .ok x ↔
      (fieldAt split i = [] ∧ x = none) ∨ ∃ a, fieldAt split i ≠ [] ∧ parse (fieldAt split i) = some a ∧ x = some a := by
  unfold pickNumberField
  simp only
  by_cases h : fieldAt split i = []
  · rw [if_neg (by simpa using h)]
    simp [h, eq_comm]
  · rw [if_pos h]
    cases hp : parse (fieldAt split i) <;> simp [h, eq_comm]

theorem dec_ne_nil {max : Nat} {s : Str} {n : Nat} (h : Dec max s n) : s ≠ [] := by
  rintro rfl
  obtain ⟨ds, h1 | h1, h2, -⟩ := h
  · exact h2.1 h1.symm
  · cases h1

theorem numberText_ne_nil {s : Str} {d : F64} (h : NumberText s d) : s ≠ [] := by
  rintro rfl
  rw [← f64_parse_iff] at h
  simp [F64.parse, F64.parseUnsigned, F64.parseMag, F64.spanDigits, F64.fracPart] at h

theorem numField_int {parse : Str → Option Nat} {max : Nat} (hp : ∀ s n, parse s = some n ↔ Dec max s n)
    (split : List Str) (i : Nat) (x : Option Nat) :
    numField parse split i = .ok x ↔ IntField max (fieldAt split i) x := by
  unfold numField IntField
  rw [liftErr_ok, pickNumber_ok]
  simp only [hp]
  constructor
  · rintro (h | ⟨a, -, h⟩)
    · exact .inl h
    · exact .inr ⟨a, h⟩
  · rintro (h | ⟨a, h⟩)
    · exact .inl h
    · exact .inr ⟨a, dec_ne_nil h.1, h⟩

theorem numField_f64 (split : List Str) (i : Nat) (x : Option F64) :
    numField F64.parse split i = .ok x ↔ NumField (fieldAt split i) x := by
  unfold numField NumField
  rw [liftErr_ok, pickNumber_ok]
  simp only [f64_parse_iff]
  constructor
  · rintro (h | ⟨a, -, h⟩)
    · exact .inl h
    · exact .inr ⟨a, h⟩
  · rintro (h | ⟨a, h⟩)
    · exact .inl h
    · exact .inr ⟨a, numberText_ne_nil h.1, h⟩

theorem numField_ne_panic {α : Type} (parse : Str → Option α) (split : List Str) (i : Nat) :
    numField parse split i ≠ .panic := by
  unfold numField pickNumberField
  simp only [ne_eq, liftErr_panic]
  split
  · split <;> simp
  · simp

theorem numField_err {α : Type} (parse : Str → Option α) (split : List Str) (i : Nat) (e : ParseError)
    (h : numField parse split i = .err e) : ∃ m, e = .invalidSentence m := by
  unfold numField at h
  obtain ⟨m, -, h⟩ := (liftErr_err _ _).mp h
  exact ⟨m, h⟩

theorem lenient_iff (split : List Str) (i : Nat) (x : Option F64) :
    numFieldOrNone F64.parse split i = x ↔ LenientField (fieldAt split i) x := by
  unfold numFieldOrNone pickNumberField LenientField
  simp only
  by_cases h : fieldAt split i = []
  · rw [if_neg (by simpa using h), h]
    constructor
    · intro hx
      exact .inr ⟨fun d hd => numberText_ne_nil hd rfl, hx.symm⟩
    · rintro (⟨d, hd, -⟩ | ⟨-, hx⟩)
      · exact absurd rfl (numberText_ne_nil hd)
      · exact hx.symm
  · rw [if_pos h]
    cases hp : F64.parse (fieldAt split i) with
    | none =>
      constructor
      · intro hx
        refine .inr ⟨fun d hd => ?_, hx.symm⟩
        rw [(f64_parse_iff _ _).mpr hd] at hp
        cases hp
      · rintro (⟨d, hd, -⟩ | ⟨-, hx⟩)
        · rw [(f64_parse_iff _ _).mpr hd] at hp
          cases hp
        · exact hx.symm
    | some d =>
      have hd := (f64_parse_iff _ _).mp hp
      constructor
      · intro hx
        exact .inl ⟨d, hd, hx.symm⟩
      · rintro (⟨d', hd', hx⟩ | ⟨hn, -⟩)
        · rw [(f64_parse_iff _ _).mpr hd'] at hp
          cases hp
          exact hx.symm
        · exact absurd hd (hn d)

/-! ### Positions -/

theorem isDig_all (s : Str) : s.all isDig = true ↔ AllDigits s := by
  simp only [List.all_eq_true, isDig, decide_eq_true_eq, AllDigits, digit_iff]

theorem matchDegMin_iff (k : Nat) (s d mf : Str) : matchDegMin k s = some (d, mf) ↔
    ∃ m f rest, s = d ++ m ++ '.' :: f ++ rest ∧ mf = m ++ '.' :: f ∧ d.length = k ∧ m.length = 2 ∧ AllDigits d ∧
      AllDigits m ∧ Digits f ∧ (∀ c t, rest = c :: t → c ∉ c! "0123456789") := by
  unfold matchDegMin
  simp only
  constructor
  · intro h
    split at h
    · rename_i hc
      obtain ⟨h1, h2, h3, h4⟩ := hc
      split at h
      · rename_i t ht
        obtain ⟨k1, k2, k3⟩ := spanDigits_spec t
        split at h
        · rename_i hne
          cases h
          refine ⟨_, _, (F64.spanDigits t).2, ?_, rfl, h1, h3, (isDig_all _).mp h2, (isDig_all _).mp h4, ⟨hne, k2⟩, k3⟩
          have e1 : s = s.take k ++ ((s.drop k).take 2 ++ s.drop (k + 2)) := by
            rw [← List.drop_drop, List.take_append_drop, List.take_append_drop]
          rw [ht] at e1
          conv => lhs; rw [e1, k1]
          simp
        · cases h
      · cases h
    · cases h
  · rintro ⟨m, f, rest, rfl, rfl, h1, h2, h3, h4, h5, h6⟩
    have e1 : (d ++ m ++ '.' :: f ++ rest).take k = d := by
      rw [List.append_assoc, List.append_assoc, ← h1, List.take_left]
    have e2 : ((d ++ m ++ '.' :: f ++ rest).drop k).take 2 = m := by
      rw [List.append_assoc, List.append_assoc, ← h1, List.drop_left, ← h2, List.take_left]
    have e3 : (d ++ m ++ '.' :: f ++ rest).drop (k + 2) = '.' :: (f ++ rest) := by
      rw [← List.drop_drop, List.append_assoc, List.append_assoc, ← h1, List.drop_left, ← h2, List.drop_left]
      rfl
    rw [e1, e2, e3, if_pos ⟨h1, (isDig_all _).mpr h3, h2, (isDig_all _).mpr h4⟩]
    simp only
    rw [spanDigits_append f rest h5.2 h6]
    simp only
    rw [if_pos h5.1]

theorem allDigits_append {a b : Str} (ha : AllDigits a) (hb : AllDigits b) : AllDigits (a ++ b) := by
  intro c hc
  rcases List.mem_append.mp hc with h | h
  · exact ha c h
  · exact hb c h

theorem digit_le (c : Char) (h : c ∈ c! "0123456789") : c.toNat - '0'.toNat ≤ 9 := by
  simp only [List.mem_cons, List.not_mem_nil, or_false] at h
  rcases h with rfl | rfl | rfl | rfl | rfl | rfl | rfl | rfl | rfl | rfl <;> decide

theorem decValue_cons (c : Char) (s : Str) :
    decValue (c :: s) = (c.toNat - '0'.toNat) * 10 ^ s.length + decValue s := by
  have := decValue_append [c] s
  rw [List.singleton_append] at this
  rw [this]
  congr 2
  show 10 * 0 + _ = _
  omega

theorem decValue_lt (s : Str) (h : AllDigits s) : decValue s < 10 ^ s.length := by
  induction s with
  | nil => decide
  | cons c s ih =>
    have h1 := digit_le c (h c (by simp))
    have h2 := ih (fun x hx => h x (by simp [hx]))
    rw [decValue_cons, List.length_cons, Nat.pow_succ]
    calc _ ≤ 9 * 10 ^ s.length + decValue s := Nat.add_le_add_right (Nat.mul_le_mul_right _ h1) _
      _ < _ := by omega

theorem parse_decimal (ip fp : Str) (hi : AllDigits ip) (hf : AllDigits fp) (hne : ip ≠ []) :
    F64.parse (ip ++ '.' :: fp) = some (F64.ofRat (decValue ip + decValue fp / 10 ^ fp.length)) ∧
    F64.parse ip = some (F64.ofRat (decValue ip)) := by
  have hs : ∀ d : F64, signedF64 false d = d := by
    intro d; cases d <;> simp [signedF64]
  constructor
  · rw [f64_parse_iff]
    have := NumberText.decimal false (ip ++ '.' :: fp) _ _ (s := ip ++ '.' :: fp) (.inl ⟨rfl, rfl⟩)
      ⟨ip, fp, [], 0, hi, hf, .inl hne, .inl ⟨rfl, rfl⟩, .inr (by simp), rfl⟩ (F64.ofRat_roundsTo _)
    rw [hs] at this
    simpa using this
  · rw [f64_parse_iff]
    have := NumberText.decimal false ip _ _ (s := ip) (.inl ⟨rfl, rfl⟩)
      ⟨ip, [], [], 0, hi, (by intro c hc; cases hc), .inl hne, .inl ⟨rfl, rfl⟩, .inl (by simp), rfl⟩ (F64.ofRat_roundsTo _)
    rw [hs] at this
    simpa [decValue] using this

theorem ofRat_nonneg (q : Rat) (h0 : 0 ≤ q) (h : q ≤ 2 ^ 64) : F64.ofRat q = .fin false (F64.roundMag q) := by
  rw [F64.ofRat_fin q (by rw [abs_of_nonneg h0]; exact F64.small_le _ h), abs_of_nonneg h0, decide_eq_false (not_lt.mpr h0)]

theorem roundMag_le (q : Rat) (n : Nat) (h0 : 0 ≤ q) (h : q ≤ n) (hn : n ≤ 2 ^ 53) : F64.roundMag q ≤ n := by
  have := F64.roundMag_mono q n h0 h
  rwa [F64.roundMag_exact _ (F64.rep_nat n hn)] at this

/-- The conversion of degrees and minutes: the three roundings. -/
theorem degMinVal_eq (d m f : Str) (hd : AllDigits d) (hd0 : d ≠ []) (hl : d.length ≤ 3) (hm : AllDigits m) (hm2 : m.length = 2)
    (hf : AllDigits f) :
    degMinVal d (m ++ '.' :: f) = .fin false (F64.roundMag (decValue d +
      F64.roundMag (F64.roundMag (decValue m + decValue f / 10 ^ f.length) / 60))) ∧
    DegreesOf (decValue d) (decValue m + decValue f / 10 ^ f.length) (F64.roundMag (decValue d +
      F64.roundMag (F64.roundMag (decValue m + decValue f / 10 ^ f.length) / 60))) := by
  have hm0 : m ≠ [] := by rintro rfl; cases hm2
  obtain ⟨pm, -⟩ := parse_decimal m f hm hf hm0
  obtain ⟨-, pd⟩ := parse_decimal d [] hd (by intro c hc; cases hc) hd0
  have bm : decValue m < 100 := by have := decValue_lt m hm; rwa [hm2] at this
  have bd : decValue d < 1000 := lt_of_lt_of_le (decValue_lt d hd) (Nat.pow_le_pow_right (by decide) hl)
  have bf := decValue_lt f hf
  generalize decValue d = dv at *
  have bfq : (decValue f : Rat) / 10 ^ f.length ≤ 1 := by
    rw [div_le_one (by positivity)]
    exact_mod_cast bf.le
  have bf0 : (0 : Rat) ≤ (decValue f : Rat) / 10 ^ f.length := by positivity
  have bmq : (decValue m : Rat) ≤ 99 := by exact_mod_cast Nat.le_of_lt_succ bm
  have bm0 : (0 : Rat) ≤ (decValue m : Rat) := by positivity
  have bdq : (dv : Rat) ≤ 999 := by exact_mod_cast Nat.le_of_lt_succ bd
  have bd0 : (0 : Rat) ≤ (dv : Rat) := by positivity
  generalize hq : (decValue m : Rat) + decValue f / 10 ^ f.length = q at *
  have q0 : 0 ≤ q := by rw [← hq]; exact add_nonneg bm0 bf0
  have q1 : q ≤ 100 := by rw [← hq]; linarith
  have a0 := F64.roundMag_nonneg q q0
  have a1 := roundMag_le q 100 q0 (by exact_mod_cast q1) (by norm_num)
  generalize ha : F64.roundMag q = a at *
  have b0 : 0 ≤ a / 60 := by positivity
  have b1 : a / 60 ≤ 2 := by
    have : a ≤ 100 := by exact_mod_cast a1
    linarith
  have c0 := F64.roundMag_nonneg _ b0
  have c1 := roundMag_le _ 2 b0 (by exact_mod_cast b1) (by norm_num)
  have e1 : F64.ofRat q = .fin false a := by
    rw [ofRat_nonneg q q0 (q1.trans (by norm_num)), ha]
  have e2 : F64.ofRat (a / 60) = .fin false (F64.roundMag (a / 60)) :=
    ofRat_nonneg _ b0 (b1.trans (by norm_num))
  generalize hb : F64.roundMag (a / 60) = b at *
  have s0 : 0 ≤ (dv : Rat) + b := add_nonneg bd0 c0
  have s1 : (dv : Rat) + b ≤ 1001 := by
    have : b ≤ 2 := by exact_mod_cast c1
    linarith
  have e3 : F64.ofRat (dv + b) = .fin false (F64.roundMag (dv + b)) :=
    ofRat_nonneg _ s0 (s1.trans (by norm_num))
  constructor
  · unfold degMinVal
    rw [pd, pm]
    simp only [Option.getD_some]
    rw [e1]
    have e60 : F64.ofInt 60 = .fin false 60 := by decide +kernel
    rw [e60]
    have ediv : F64.div (.fin false a) (.fin false 60) = .fin false b := by
      simp only [F64.div]
      rw [if_neg (by norm_num)]
      rw [← e2, F64.ofRat, if_neg (not_lt.mpr b0)]
      rfl
    rw [ediv]
    have edv : F64.ofRat (dv : Rat) = .fin false (dv : Rat) := by
      rw [ofRat_nonneg _ bd0 (bdq.trans (by norm_num)), F64.roundMag_exact _ (F64.rep_nat dv (by omega))]
    rw [edv]
    simp only [F64.add, F64.val, Bool.false_eq_true, if_false, Bool.and_self]
    split
    · rename_i hz
      rw [hz, F64.roundMag_zero]
    · exact e3
  · exact ⟨a, b, (F64.roundsTo_iff _ _).mpr e1.symm, (F64.roundsTo_iff _ _).mpr e2.symm, (F64.roundsTo_iff _ _).mpr e3.symm⟩

theorem degreesOf_unique {deg : Nat} {min r r' : Rat} (h : DegreesOf deg min r) (h' : DegreesOf deg min r') : r = r' := by
  obtain ⟨a, b, h1, h2, h3⟩ := h
  obtain ⟨a', b', h1', h2', h3'⟩ := h'
  rw [F64.roundsTo_iff] at *
  rw [← h1'] at h1
  cases h1
  rw [← h2'] at h2
  cases h2
  rw [← h3'] at h3
  cases h3
  rfl

theorem posText_unique {k : Nat} {s : Str} {deg deg' : Nat} {min min' : Rat} (h : PosText k s deg min)
    (h' : PosText k s deg' min') : deg = deg' ∧ min = min' := by
  obtain ⟨d, m, f, rest, h0, h1, h2, h3, h4, h5, h6, rfl, rfl⟩ := h
  obtain ⟨d', m', f', rest', h0', h1', h2', h3', h4', h5', h6', rfl, rfl⟩ := h'
  have e := (matchDegMin_iff k s d _).mpr ⟨m, f, rest, h0, rfl, h1, h2, h3, h4, h5, h6⟩
  rw [(matchDegMin_iff k s d' _).mpr ⟨m', f', rest', h0', rfl, h1', h2', h3', h4', h5', h6'⟩] at e
  obtain ⟨rfl, e1⟩ := Prod.mk.inj (Option.some.inj e)
  obtain ⟨rfl, e2⟩ := List.append_inj e1 (h2'.trans h2.symm)
  cases e2
  exact ⟨rfl, rfl⟩

/-- What `parse_latitude_ddmm_mmm` and `parse_longitude_dddmm_mmm` have in common. -/
def parsePos (k : Nat) (minus : Char) (msg s hemi : Str) : Out Str (Option F64) :=
  if s ≠ [] then
    match matchDegMin k s with
    | some (d, m) => .ok (some (if hemi = [minus] then (degMinVal d m).neg else degMinVal d m))
    | none => .err (msg ++ s)
  else .ok none

theorem parseLatitude_eq (s hemi : Str) :
    parseLatitude s hemi = parsePos 2 'S' (c! "Failed to parse latitude (DDMM.MMM) from ") s hemi := by
  unfold parseLatitude parsePos
  split
  · split
    · rename_i d m hm
      simp only [hm]
      by_cases h1 : hemi = c! "N"
      · subst h1; rfl
      · rw [if_neg h1]
    · rename_i hm
      rw [hm]
  · rfl

theorem parseLongitude_eq (s hemi : Str) :
    parseLongitude s hemi = parsePos 3 'W' (c! "Failed to parse longitude (DDDMM.MMM) from ") s hemi := by
  unfold parseLongitude parsePos
  split
  · split
    · rename_i d m hm
      simp only [hm]
      by_cases h1 : hemi = c! "E"
      · subst h1; rfl
      · rw [if_neg h1]
    · rename_i hm
      rw [hm]
  · rfl

theorem posText_ne_nil {k : Nat} {s : Str} {deg : Nat} {min : Rat} (h : PosText k s deg min) : s ≠ [] := by
  obtain ⟨d, m, f, rest, rfl, -⟩ := h
  simp

theorem parsePos_ok (k : Nat) (hk : k = 2 ∨ k = 3) (minus : Char) (msg s hemi : Str) (x : Option F64) :
    parsePos k minus msg s hemi = .ok x ↔ PosField k minus s hemi x := by
  have hval : ∀ (d m f rest : Str), s = d ++ m ++ '.' :: f ++ rest → d.length = k → m.length = 2 → AllDigits d →
      AllDigits m → Digits f → (∀ c t, rest = c :: t → c ∉ c! "0123456789") →
      ∃ r, DegreesOf (decValue d) (decValue m + decValue f / 10 ^ f.length) r ∧
        degMinVal d (m ++ '.' :: f) = .fin false r := by
    intro d m f rest h0 h1 h2 h3 h4 h5 h6
    obtain ⟨e1, e2⟩ := degMinVal_eq d m f h3 (by rintro rfl; simp at h1; omega) (by omega) h4 h2 h5.2
    exact ⟨_, e2, e1⟩
  unfold parsePos PosField
  by_cases hs : s = []
  · rw [if_neg (by simpa using hs)]
    constructor
    · intro h; cases h; exact .inl ⟨hs, rfl⟩
    · rintro (⟨-, rfl⟩ | ⟨deg, min, r, h, -⟩)
      · rfl
      · exact absurd hs (posText_ne_nil h)
  · rw [if_pos hs]
    constructor
    · intro h
      split at h
      · rename_i d mf hm
        obtain ⟨m, f, rest, h0, rfl, h1, h2, h3, h4, h5, h6⟩ := (matchDegMin_iff _ _ _ _).mp hm
        obtain ⟨r, hr, hv⟩ := hval d m f rest h0 h1 h2 h3 h4 h5 h6
        refine .inr ⟨_, _, r, ⟨d, m, f, rest, h0, h1, h2, h3, h4, h5, h6, rfl, rfl⟩, hr, ?_⟩
        cases h
        rw [hv]
        by_cases hh : hemi = [minus]
        · rw [if_pos hh, decide_eq_true hh]; rfl
        · rw [if_neg hh, decide_eq_false hh]
      · cases h
    · rintro (⟨h, -⟩ | ⟨deg, min, r, ⟨d, m, f, rest, h0, h1, h2, h3, h4, h5, h6, rfl, rfl⟩, hr, rfl⟩)
      · exact absurd h hs
      · obtain ⟨r', hr', hv⟩ := hval d m f rest h0 h1 h2 h3 h4 h5 h6
        rw [(matchDegMin_iff _ _ _ _).mpr ⟨m, f, rest, h0, rfl, h1, h2, h3, h4, h5, h6⟩]
        simp only
        rw [hv, degreesOf_unique hr hr']
        by_cases hh : hemi = [minus]
        · rw [if_pos hh, decide_eq_true hh]; rfl
        · rw [if_neg hh, decide_eq_false hh]

theorem parsePos_ne_panic (k : Nat) (minus : Char) (msg s hemi : Str) : parsePos k minus msg s hemi ≠ .panic := by
  unfold parsePos
  split
  · split <;> simp
  · simp

theorem lat_ok (s hemi : Str) (x : Option F64) : liftErr (parseLatitude s hemi) = .ok x ↔ LatField s hemi x := by
  rw [liftErr_ok, parseLatitude_eq]
  exact parsePos_ok 2 (.inl rfl) 'S' _ s hemi x

theorem lon_ok (s hemi : Str) (x : Option F64) : liftErr (parseLongitude s hemi) = .ok x ↔ LonField s hemi x := by
  rw [liftErr_ok, parseLongitude_eq]
  exact parsePos_ok 3 (.inr rfl) 'W' _ s hemi x

theorem lat_ne_panic (s hemi : Str) : liftErr (parseLatitude s hemi) ≠ .panic := by
  rw [ne_eq, liftErr_panic, parseLatitude_eq]
  exact parsePos_ne_panic _ _ _ _ _

theorem lon_ne_panic (s hemi : Str) : liftErr (parseLongitude s hemi) ≠ .panic := by
  rw [ne_eq, liftErr_panic, parseLongitude_eq]
  exact parsePos_ne_panic _ _ _ _ _

/-! ### Times and dates -/

theorem slice_part (a b c : Str) (i j : Nat) (ha : byteLen a = i) (hb : byteLen b = j - i) (hij : i ≤ j) :
    slice (a ++ b ++ c) i j = some b := (slice_some _ _ _ _ hij).mpr ⟨a, c, rfl, ha, hb⟩

theorem slice_02 (s h : Str) (hs : slice s 0 2 = some h) : ∃ r, s = h ++ r ∧ byteLen h = 2 := by
  obtain ⟨a, b, h1, h2, h3⟩ := (slice_some _ _ _ _ (by decide)).mp hs
  rw [(byteLen_eq_zero a).mp h2] at h1
  exact ⟨b, h1, h3⟩

theorem slice_24 (h r m : Str) (hl : byteLen h = 2) (hs : slice (h ++ r) 2 4 = some m) :
    ∃ r', r = m ++ r' ∧ byteLen m = 2 := by
  obtain ⟨a, b, h1, h2, h3⟩ := (slice_some _ _ _ _ (by decide)).mp hs
  rw [List.append_assoc] at h1
  obtain ⟨-, rfl⟩ := append_byteLen_inj h1 (hl.trans h2.symm)
  exact ⟨b, rfl, h3⟩

theorem slice_46 (h m r x : Str) (hl : byteLen h = 2) (hl' : byteLen m = 2) (hs : slice (h ++ (m ++ r)) 4 6 = some x) :
    ∃ r', r = x ++ r' ∧ byteLen x = 2 := by
  obtain ⟨a, b, h1, h2, h3⟩ := (slice_some _ _ _ _ (by decide)).mp hs
  rw [List.append_assoc, ← List.append_assoc] at h1
  obtain ⟨-, rfl⟩ := append_byteLen_inj h1 (by rw [byteLen_append]; omega)
  exact ⟨b, rfl, h3⟩

/-- The three outcomes of `parse_hhmmss`. -/
inductive HhmmssEval (s : Str) (now : DateTime) (x : Out Str DateTime) : Prop where
  | time (h m k : Nat) (hr : ReadTime s (some (h, m, k))) (hx : x = ymdHms now.year now.month now.day h m k)
  | none (hr : ReadTime s none) (hx : ∃ e, x = .err e)
  | short (hr : ∀ o, ¬ ReadTime s o) (hx : x = .panic)

theorem part_none (s : Str) : parseU32 s = none ↔ ∀ n, ¬ TimePart s n := parseUInt_none_iff _ s

theorem readTime_a {s : Str} {o : Option (Nat × Nat × Nat)} (h : ReadTime s o) : ∃ a r, s = a ++ r ∧ byteLen a = 2 := by
  cases h with
  | time a b c rest _ _ _ hs hl _ => exact ⟨a, b ++ c ++ rest, by simp [hs], hl.1⟩
  | noHour a rest hs hl _ => exact ⟨a, rest, hs, hl⟩
  | noMinute a b rest _ hs hl _ => exact ⟨a, b ++ rest, by simp [hs], hl.1⟩
  | noSecond a b c rest _ _ hs hl _ => exact ⟨a, b ++ c ++ rest, by simp [hs], hl.1⟩

theorem readTime_b {a r : Str} {o : Option (Nat × Nat × Nat)} (h : ReadTime (a ++ r) o) (hl : byteLen a = 2) (n : Nat)
    (hn : TimePart a n) : ∃ b r', r = b ++ r' ∧ byteLen b = 2 := by
  cases h with
  | time a' b c rest _ _ _ hs hl' _ =>
    rw [List.append_assoc, List.append_assoc] at hs
    obtain ⟨rfl, rfl⟩ := append_byteLen_inj hs (hl.trans hl'.1.symm)
    exact ⟨b, c ++ rest, rfl, hl'.2.1⟩
  | noHour a' rest hs hl' hp =>
    obtain ⟨rfl, rfl⟩ := append_byteLen_inj hs (hl.trans hl'.symm)
    exact absurd hn (hp n)
  | noMinute a' b rest _ hs hl' _ =>
    rw [List.append_assoc] at hs
    obtain ⟨rfl, rfl⟩ := append_byteLen_inj hs (hl.trans hl'.1.symm)
    exact ⟨b, rest, rfl, hl'.2⟩
  | noSecond a' b c rest _ _ hs hl' _ =>
    rw [List.append_assoc, List.append_assoc] at hs
    obtain ⟨rfl, rfl⟩ := append_byteLen_inj hs (hl.trans hl'.1.symm)
    exact ⟨b, c ++ rest, rfl, hl'.2.1⟩

theorem readTime_c {a b r : Str} {o : Option (Nat × Nat × Nat)} (h : ReadTime (a ++ (b ++ r)) o) (hl : byteLen a = 2)
    (hlb : byteLen b = 2) (n m : Nat) (hn : TimePart a n) (hm : TimePart b m) : ∃ c r', r = c ++ r' ∧ byteLen c = 2 := by
  cases h with
  | time a' b' c rest _ _ _ hs hl' _ =>
    rw [List.append_assoc, List.append_assoc] at hs
    obtain ⟨rfl, hs2⟩ := append_byteLen_inj hs (hl.trans hl'.1.symm)
    obtain ⟨rfl, rfl⟩ := append_byteLen_inj hs2 (hlb.trans hl'.2.1.symm)
    exact ⟨c, rest, rfl, hl'.2.2⟩
  | noHour a' rest hs hl' hp =>
    obtain ⟨rfl, rfl⟩ := append_byteLen_inj hs (hl.trans hl'.symm)
    exact absurd hn (hp n)
  | noMinute a' b' rest _ hs hl' hp =>
    rw [List.append_assoc] at hs
    obtain ⟨rfl, hs2⟩ := append_byteLen_inj hs (hl.trans hl'.1.symm)
    obtain ⟨rfl, rfl⟩ := append_byteLen_inj hs2 (hlb.trans hl'.2.symm)
    exact absurd hm (hp.2 m)
  | noSecond a' b' c rest _ _ hs hl' _ =>
    rw [List.append_assoc, List.append_assoc] at hs
    obtain ⟨rfl, hs2⟩ := append_byteLen_inj hs (hl.trans hl'.1.symm)
    obtain ⟨rfl, rfl⟩ := append_byteLen_inj hs2 (hlb.trans hl'.2.1.symm)
    exact ⟨c, rest, rfl, hl'.2.2⟩

theorem hhmmss_eval (s : Str) (now : DateTime) : HhmmssEval s now (parseHhmmss s now) := by
  cases h1 : slice s 0 2 with
  | none =>
    refine .short ?_ (by simp [parseHhmmss, h1])
    intro o ho
    obtain ⟨a, r, rfl, hl⟩ := readTime_a ho
    have := slice_part [] a r 0 2 rfl hl (by decide)
    rw [List.nil_append, h1] at this
    cases this
  | some a =>
    obtain ⟨r, rfl, hla⟩ := slice_02 _ _ h1
    cases p1 : parseU32 a with
    | none => exact .none (.noHour a r rfl hla ((part_none a).mp p1)) ⟨c! "Invalid time format: " ++ (a ++ r), by simp only [parseHhmmss, h1, p1]⟩
    | some h =>
      have q1 : TimePart a h := (parseU32_iff a h).mp p1
      cases h2 : slice (a ++ r) 2 4 with
      | none =>
        refine .short ?_ (by simp [parseHhmmss, h1, p1, h2])
        intro o ho
        obtain ⟨b, r', rfl, hl⟩ := readTime_b ho hla h q1
        have := slice_part a b r' 2 4 hla hl (by decide)
        rw [List.append_assoc, h2] at this
        cases this
      | some b =>
        obtain ⟨r', rfl, hlb⟩ := slice_24 _ _ _ hla h2
        cases p2 : parseU32 b with
        | none => exact .none (.noMinute a b r' h (by simp) ⟨hla, hlb⟩ ⟨q1, (part_none b).mp p2⟩)
                    ⟨c! "Invalid time format: " ++ (a ++ (b ++ r')), by simp only [parseHhmmss, h1, p1, h2, p2]⟩
        | some m =>
          have q2 : TimePart b m := (parseU32_iff b m).mp p2
          cases h3 : slice (a ++ (b ++ r')) 4 6 with
          | none =>
            refine .short ?_ (by simp [parseHhmmss, h1, p1, h2, p2, h3])
            intro o ho
            obtain ⟨c, r'', rfl, hl⟩ := readTime_c ho hla hlb h m q1 q2
            have := slice_part (a ++ b) c r'' 4 6 (by rw [byteLen_append]; omega) hl (by decide)
            rw [List.append_assoc, List.append_assoc, h3] at this
            cases this
          | some c =>
            obtain ⟨r'', rfl, hlc⟩ := slice_46 _ _ _ _ hla hlb h3
            cases p3 : parseU32 c with
            | none => exact .none (.noSecond a b c r'' h m (by simp) ⟨hla, hlb, hlc⟩ ⟨q1, q2, (part_none c).mp p3⟩)
                        ⟨c! "Invalid time format: " ++ (a ++ (b ++ (c ++ r''))), by simp only [parseHhmmss, h1, p1, h2, p2, h3, p3]⟩
            | some k =>
              have q3 : TimePart c k := (parseU32_iff c k).mp p3
              exact .time h m k (.time a b c r'' h m k (by simp) ⟨hla, hlb, hlc⟩ ⟨q1, q2, q3⟩)
                (by simp only [parseHhmmss, h1, p1, h2, p2, h3, p3])

theorem readTime_unique {s : Str} {o o' : Option (Nat × Nat × Nat)} (h : ReadTime s o) (h' : ReadTime s o') : o = o' := by
  obtain ⟨a, r, rfl, hla⟩ := readTime_a h
  have key : ∀ o, ReadTime (a ++ r) o →
      (o = none ∧ ∀ n, ¬ TimePart a n) ∨ ∃ n, TimePart a n ∧ ∃ b r', r = b ++ r' ∧ byteLen b = 2 ∧
        ((o = none ∧ ∀ n, ¬ TimePart b n) ∨ ∃ m, TimePart b m ∧ ∃ c r'', r' = c ++ r'' ∧ byteLen c = 2 ∧
          ((o = none ∧ ∀ n, ¬ TimePart c n) ∨ ∃ k, TimePart c k ∧ o = some (n, m, k))) := by
    intro o h0
    cases h0 with
    | time a' b c rest hh m x hs hl' hp =>
      rw [List.append_assoc, List.append_assoc] at hs
      obtain ⟨rfl, rfl⟩ := append_byteLen_inj hs (hla.trans hl'.1.symm)
      exact .inr ⟨hh, hp.1, b, c ++ rest, rfl, hl'.2.1, .inr ⟨m, hp.2.1, c, rest, rfl, hl'.2.2, .inr ⟨x, hp.2.2, rfl⟩⟩⟩
    | noHour a' rest hs hl' hp =>
      obtain ⟨rfl, rfl⟩ := append_byteLen_inj hs (hla.trans hl'.symm)
      exact .inl ⟨rfl, hp⟩
    | noMinute a' b rest hh hs hl' hp =>
      rw [List.append_assoc] at hs
      obtain ⟨rfl, rfl⟩ := append_byteLen_inj hs (hla.trans hl'.1.symm)
      exact .inr ⟨hh, hp.1, b, rest, rfl, hl'.2, .inl ⟨rfl, hp.2⟩⟩
    | noSecond a' b c rest hh m hs hl' hp =>
      rw [List.append_assoc, List.append_assoc] at hs
      obtain ⟨rfl, rfl⟩ := append_byteLen_inj hs (hla.trans hl'.1.symm)
      exact .inr ⟨hh, hp.1, b, c ++ rest, rfl, hl'.2.1, .inr ⟨m, hp.2.1, c, rest, rfl, hl'.2.2, .inl ⟨rfl, hp.2.2⟩⟩⟩
  rcases key o h with ⟨rfl, n1⟩ | ⟨n, p1, b, r1, rfl, lb, rest1⟩
  · rcases key o' h' with ⟨rfl, -⟩ | ⟨n, p1, -⟩
    · rfl
    · exact absurd p1 (n1 n)
  · rcases key o' h' with ⟨rfl, n1⟩ | ⟨n', p1', b', r1', e, lb', rest1'⟩
    · exact absurd p1 (n1 n)
    · cases Dec.unique p1 p1'
      obtain ⟨rfl, rfl⟩ := append_byteLen_inj e (lb.trans lb'.symm)
      rcases rest1 with ⟨rfl, n2⟩ | ⟨m, p2, c, r2, rfl, lc, rest2⟩
      · rcases rest1' with ⟨rfl, -⟩ | ⟨m, p2, -⟩
        · rfl
        · exact absurd p2 (n2 m)
      · rcases rest1' with ⟨rfl, n2⟩ | ⟨m', p2', c', r2', e, lc', rest2'⟩
        · exact absurd p2 (n2 m)
        · cases Dec.unique p2 p2'
          obtain ⟨rfl, rfl⟩ := append_byteLen_inj e (lc.trans lc'.symm)
          rcases rest2 with ⟨rfl, n3⟩ | ⟨k, p3, rfl⟩
          · rcases rest2' with ⟨rfl, -⟩ | ⟨k, p3, -⟩
            · rfl
            · exact absurd p3 (n3 k)
          · rcases rest2' with ⟨rfl, n3⟩ | ⟨k', p3', rfl⟩
            · exact absurd p3 (n3 k)
            · cases Dec.unique p3 p3'
              rfl

theorem time_ok (s : Str) (now : DateTime) (t : Option DateTime) :
    (Out.toOpt (parseHhmmss s now) : Out ParseError (Option DateTime)) = .ok t ↔ TimeField now s t := by
  rw [Out.toOpt_eq_ok]
  have he := hhmmss_eval s now
  constructor
  · rintro (⟨a, ha, rfl⟩ | ⟨⟨e, he'⟩, rfl⟩)
    · cases he with
      | time h m k hr hx =>
        rw [ha] at hx
        obtain ⟨rfl, hd⟩ := ymdHms_eq_ok _ _ _ _ _ _ _ hx.symm
        exact .inl ⟨h, m, k, hr, hd, rfl⟩
      | none hr hx => obtain ⟨e, hx⟩ := hx; rw [ha] at hx; cases hx
      | short hr hx => rw [ha] at hx; cases hx
    · cases he with
      | time h m k hr hx =>
        rw [he'] at hx
        by_cases hd : IsDateTime ⟨now.year, now.month, now.day, h, m, k⟩
        · rw [ymdHms_ok _ _ _ _ _ _ hd] at hx; cases hx
        · rw [ymdHms_panic _ _ _ _ _ _ hd] at hx; cases hx
      | none hr hx => exact .inr ⟨hr, rfl⟩
      | short hr hx => rw [he'] at hx; cases hx
  · rintro (⟨h, m, k, hr, hd, rfl⟩ | ⟨hr, rfl⟩)
    · cases he with
      | time h' m' k' hr' hx =>
        cases readTime_unique hr hr'
        rw [ymdHms_ok _ _ _ _ _ _ hd] at hx
        exact .inl ⟨_, hx, rfl⟩
      | none hr' hx => cases readTime_unique hr hr'
      | short hr' hx => exact absurd hr (hr' _)
    · cases he with
      | time h' m' k' hr' hx => cases readTime_unique hr hr'
      | none hr' hx => exact .inr ⟨hx, rfl⟩
      | short hr' hx => exact absurd hr (hr' _)

theorem time_ne_err (s : Str) (now : DateTime) (e : ParseError) :
    (Out.toOpt (parseHhmmss s now) : Out ParseError (Option DateTime)) ≠ .err e := Out.toOpt_ne_err _ _

theorem parseI32_iff (s : Str) (z : Int) : parseI32 s = some z ↔ YearPart s z := by
  have hu : ∀ (m : Nat) (n : Nat), parseUInt m s = some n ↔ Dec m s n := fun m n => parseUInt_iff m s n
  unfold YearPart
  rcases signed_cases s with ⟨r, rfl⟩ | ⟨r, rfl⟩ | ⟨hp, hm⟩
  · have e : parseI32 ('+' :: r) = (parseUInt (2 ^ 31 - 1) ('+' :: r)).map (fun n : Nat => (n : Int)) := by
      cases r with
      | nil => rfl
      | cons c r => rfl
    rw [e, Option.map_eq_some_iff]
    constructor
    · rintro ⟨n, h1, rfl⟩
      exact .inl ⟨n, (hu _ n).mp h1, rfl⟩
    · rintro (⟨n, h1, rfl⟩ | ⟨ds, h1, -⟩)
      · exact ⟨n, (hu _ n).mpr h1, rfl⟩
      · cases h1
  · have e : parseI32 ('-' :: r) = if r = [] then none else (accDigits (2 ^ 31) 0 r).map (fun n : Nat => -(n : Int)) := by
      cases r with
      | nil => rfl
      | cons c r => rfl
    rw [e]
    constructor
    · intro h
      split at h
      · cases h
      · rename_i hne
        obtain ⟨n, h1, rfl⟩ := Option.map_eq_some_iff.mp h
        obtain ⟨k1, k2, k3⟩ := (accDigits_iff _ r 0 n (by decide)).mp h1
        exact .inr ⟨r, rfl, ⟨hne, k1⟩, by unfold decValue; omega, by unfold decValue; rw [k2]⟩
    · rintro (⟨n, ⟨ds, h1 | h1, h2, -⟩, -⟩ | ⟨ds, h1, h2, h3, rfl⟩)
      · subst h1
        exact absurd (h2.2 '-' (by simp)) (by decide)
      · cases h1
      · cases h1
        rw [if_neg h2.1, Option.map_eq_some_iff]
        exact ⟨decValue r, (accDigits_iff _ r 0 _ (by decide)).mpr ⟨h2.2, rfl, h3⟩, rfl⟩
  · have e : parseI32 s = (parseUInt (2 ^ 31 - 1) s).map (fun n : Nat => (n : Int)) := by
      cases s with
      | nil => rfl
      | cons c r =>
        have h1 : c ≠ '+' := fun h => hp r (by rw [h])
        have h2 : c ≠ '-' := fun h => hm r (by rw [h])
        simp only [parseI32, parseUInt]
        split <;> simp_all
    rw [e, Option.map_eq_some_iff]
    constructor
    · rintro ⟨n, h1, rfl⟩
      exact .inl ⟨n, (hu _ n).mp h1, rfl⟩
    · rintro (⟨n, h1, rfl⟩ | ⟨ds, h1, -⟩)
      · exact ⟨n, (hu _ n).mpr h1, rfl⟩
      · exact absurd h1 (hm _)

theorem century_eq (y : Int) : (y.tdiv 100) * 100 = centuryOf y := by
  unfold centuryOf
  split
  · rename_i h
    rw [Int.tdiv_eq_ediv_of_nonneg h]
  · rename_i h
    obtain ⟨n, hn⟩ : ∃ n : Int, y = -n ∧ 0 ≤ n := ⟨-y, by omega, by omega⟩
    obtain ⟨rfl, h0⟩ := hn
    rw [Int.neg_tdiv, Int.tdiv_eq_ediv_of_nonneg h0, Int.neg_neg, Int.neg_mul]

/-- The two outcomes of `parse_yymmdd_hhmmss`. -/
theorem dateTime_eval (now : DateTime) (date time : Str) :
    (∃ d m y h mi s, ReadDateTime date time d m y h mi s ∧
      parseYymmddHhmmss now date time = ymdHms (centuryOf now.year + y) m d h mi s) ∨
    ((∀ d m y h mi s, ¬ ReadDateTime date time d m y h mi s) ∧ ∃ e, parseYymmddHhmmss now date time = .err e) := by
  unfold parseYymmddHhmmss
  simp only [century_eq]
  have e : ∀ s i, pickS2 s i = pair s i := fun _ _ => rfl
  simp only [e]
  split
  · rename_i h1
    exact .inr ⟨fun d m y h mi s hr => (part_none _).mp h1 _ hr.1, _, rfl⟩
  rename_i d h1
  split
  · rename_i h2
    exact .inr ⟨fun d m y h mi s hr => (part_none _).mp h2 _ hr.2.1, _, rfl⟩
  rename_i m h2
  split
  · rename_i h3
    refine .inr ⟨fun d m y h mi s hr => ?_, _, rfl⟩
    rw [(parseI32_iff _ _).mpr hr.2.2.1] at h3
    cases h3
  rename_i y h3
  split
  · rename_i h4
    exact .inr ⟨fun d m y h mi s hr => (part_none _).mp h4 _ hr.2.2.2.1, _, rfl⟩
  rename_i h h4
  split
  · rename_i h5
    exact .inr ⟨fun d m y h mi s hr => (part_none _).mp h5 _ hr.2.2.2.2.1, _, rfl⟩
  rename_i mi h5
  split
  · rename_i h6
    exact .inr ⟨fun d m y h mi s hr => (part_none _).mp h6 _ hr.2.2.2.2.2, _, rfl⟩
  rename_i s h6
  exact .inl ⟨d, m, y, h, mi, s, ⟨(parseU32_iff _ _).mp h1, (parseU32_iff _ _).mp h2, (parseI32_iff _ _).mp h3,
    (parseU32_iff _ _).mp h4, (parseU32_iff _ _).mp h5, (parseU32_iff _ _).mp h6⟩, rfl⟩

theorem readDateTime_unique {date time : Str} {d m : Nat} {y : Int} {h mi s d' m' : Nat} {y' : Int} {h' mi' s' : Nat}
    (a : ReadDateTime date time d m y h mi s) (b : ReadDateTime date time d' m' y' h' mi' s') :
    d = d' ∧ m = m' ∧ y = y' ∧ h = h' ∧ mi = mi' ∧ s = s' := by
  obtain ⟨a1, a2, a3, a4, a5, a6⟩ := a
  obtain ⟨b1, b2, b3, b4, b5, b6⟩ := b
  refine ⟨Dec.unique a1 b1, Dec.unique a2 b2, ?_, Dec.unique a4 b4, Dec.unique a5 b5, Dec.unique a6 b6⟩
  rw [← parseI32_iff] at a3 b3
  rw [a3] at b3
  exact Option.some.inj b3

theorem dateTime_ok (now : DateTime) (date time : Str) (t : Option DateTime) :
    (Out.toOpt (parseYymmddHhmmss now date time) : Out ParseError (Option DateTime)) = .ok t ↔
      DateTimeField now date time t := by
  rw [Out.toOpt_eq_ok]
  rcases dateTime_eval now date time with ⟨d, m, y, h, mi, s, hr, he⟩ | ⟨hn, e, he⟩
  · rw [he]
    by_cases hd : IsDateTime ⟨centuryOf now.year + y, m, d, h, mi, s⟩
    · rw [ymdHms_ok _ _ _ _ _ _ hd]
      constructor
      · rintro (⟨a, ha, rfl⟩ | ⟨⟨e, he'⟩, rfl⟩)
        · cases ha; exact .inl ⟨d, m, y, h, mi, s, hr, hd, rfl⟩
        · cases he'
      · rintro (⟨d', m', y', h', mi', s', hr', hd', rfl⟩ | ⟨hn, -⟩)
        · obtain ⟨rfl, rfl, rfl, rfl, rfl, rfl⟩ := readDateTime_unique hr hr'
          exact .inl ⟨_, rfl, rfl⟩
        · exact absurd hr (hn _ _ _ _ _ _)
    · rw [ymdHms_panic _ _ _ _ _ _ hd]
      constructor
      · rintro (⟨a, ha, -⟩ | ⟨⟨e, he'⟩, -⟩)
        · cases ha
        · cases he'
      · rintro (⟨d', m', y', h', mi', s', hr', hd', rfl⟩ | ⟨hn, -⟩)
        · obtain ⟨rfl, rfl, rfl, rfl, rfl, rfl⟩ := readDateTime_unique hr hr'
          exact absurd hd' hd
        · exact absurd hr (hn _ _ _ _ _ _)
  · rw [he]
    constructor
    · rintro (⟨a, ha, -⟩ | ⟨-, rfl⟩)
      · cases ha
      · exact .inr ⟨hn, rfl⟩
    · rintro (⟨d', m', y', h', mi', s', hr', -⟩ | ⟨-, rfl⟩)
      · exact absurd hr' (hn _ _ _ _ _ _)
      · exact .inr ⟨⟨e, rfl⟩, rfl⟩

end Nmea
