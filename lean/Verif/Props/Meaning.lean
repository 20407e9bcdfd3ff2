/-
C119: what a GNSS report tells about the sentence.
-/
import Verif.Spec.Meaning
import Verif.Props.Order

namespace Nmea
open Spec

/-! ### One field -/

theorem signed_bool_inj {a b : Bool} {x y : Rat} (h : a = b) : signed a x = signed b y → x = y := by
  subst h; cases a <;> simp [signed]

/-- A magnitude of at most 15 digits. -/
def ShortMag (a : Rat) : Prop := ∃ n f : Nat, n < 10 ^ 15 ∧ f ≤ 15 ∧ a = n / 10 ^ f

theorem short_fin (neg : Bool) {a : Rat} (h : ShortMag a) : F64.ofMag neg a = .fin neg (F64.roundMag a) := by
  obtain ⟨n, f, hn, -, rfl⟩ := h
  refine F64.ofMag_lt _ _ (by positivity) ?_
  have h1 : (n : Rat) ≤ 2 ^ 64 := by
    have : n ≤ 2 ^ 64 := by omega
    exact_mod_cast this
  exact F64.small_le _ (le_trans (div_le_self (by positivity) (one_le_pow₀ (by norm_num))) h1)

theorem short_inj {n1 n2 : Bool} {a b : Rat} (ha : ShortMag a) (hb : ShortMag b) :
    F64.ofMag n1 a = F64.ofMag n2 b ↔ n1 = n2 ∧ a = b := by
  rw [short_fin n1 ha, short_fin n2 hb]
  constructor
  · intro h
    obtain ⟨h1, h2⟩ := F64.fin.inj h
    refine ⟨h1, ?_⟩
    obtain ⟨n, f, hn, hf, rfl⟩ := ha
    obtain ⟨m, g, hm, hg, rfl⟩ := hb
    rcases lt_trichotomy ((n : Rat) / 10 ^ f) (m / 10 ^ g) with hlt | he | hlt
    · exact absurd h2 (roundMag_apart n m f g hn hm hf hg hlt).ne
    · exact he
    · exact absurd h2 (roundMag_apart m n g f hm hn hg hf hlt).ne'
  · rintro ⟨rfl, rfl⟩; rfl

/-- The double of a meaning. -/
theorem num_value {s : Str} {x : Option (Bool × Rat)} {d : Option F64} (hx : NumMeans s x) (hd : NumField s d) :
    d = x.map (fun y => F64.ofMag y.1 y.2) ∧ ∀ y ∈ x, ShortMag y.2 := by
  rcases hx with ⟨rfl, rfl⟩ | ⟨neg, r, ip, fp, h1, h2, h3, h4, h5, h6, rfl⟩
  · exact ⟨C63_unique [] _ _ hd (.inl ⟨rfl, rfl⟩), by simp⟩
  · obtain ⟨u, v⟩ := shortly_mag ip fp h3 h4 h6
    constructor
    · have h : NumField s (some (signedF64 neg (F64.ofRat (decValue ip + decValue fp / 10 ^ fp.length)))) :=
        .inr ⟨_, .decimal neg r _ _ h1 (shortly_says h2 h3 h4 h5 h1) (F64.ofRat_roundsTo _), rfl⟩
      rw [C63_unique s _ _ hd h]
      simp only [Option.map_some]
      rw [ofMag_signed neg _ (decimal_nonneg (shortly_says h2 h3 h4 h5 h1))]
    · intro y hy
      cases hy
      exact ⟨_, _, u, by omega, v⟩

theorem value_inj {x y : Option (Bool × Rat)} (hx : ∀ z ∈ x, ShortMag z.2) (hy : ∀ z ∈ y, ShortMag z.2) :
    x.map (fun y => F64.ofMag y.1 y.2) = y.map (fun y => F64.ofMag y.1 y.2) ↔ x = y := by
  cases x with
  | none => cases y <;> simp
  | some a =>
    cases y with
    | none => simp
    | some b =>
      simp only [Option.map_some, Option.some.injEq]
      rw [short_inj (hx a rfl) (hy b rfl)]
      exact Prod.ext_iff.symm

/-- Number fields of at most 15 digits have the same double exactly if they mean the same. -/
theorem num_same {s t : Str} {x y : Option (Bool × Rat)} {d e : Option F64} (hx : NumMeans s x) (hy : NumMeans t y)
    (hd : NumField s d) (he : NumField t e) : d = e ↔ x = y := by
  obtain ⟨rfl, h1⟩ := num_value hx hd
  obtain ⟨rfl, h2⟩ := num_value hy he
  exact value_inj h1 h2

/-- Position fields have the same double exactly if they mean the same. -/
theorem angle_same {k : Nat} (hk : k ≤ 3) {minus : Char} {s hs t ht : Str} {x y : Option (Bool × Nat × Rat)} {d e : Option F64}
    (hx : AngleMeans k minus s hs x) (hy : AngleMeans k minus t ht y) (hd : PosField k minus s hs d)
    (he : PosField k minus t ht e) : d = e ↔ x = y := by
  rcases hx with ⟨rfl, rfl⟩ | ⟨deg1, min1, p1, w1, l1, b1, rfl⟩ <;>
  rcases hy with ⟨rfl, rfl⟩ | ⟨deg2, min2, p2, w2, l2, b2, rfl⟩
  · rw [(C64_accuracy k hk minus _ _ _ hd).1 rfl, (C64_accuracy k hk minus _ _ _ he).1 rfl]; simp
  · obtain ⟨v, rfl, -⟩ := (C64_accuracy k hk minus _ _ _ he).2 _ _ p2
    rw [(C64_accuracy k hk minus _ _ _ hd).1 rfl]; simp
  · obtain ⟨v, rfl, -⟩ := (C64_accuracy k hk minus _ _ _ hd).2 _ _ p1
    rw [(C64_accuracy k hk minus _ _ _ he).1 rfl]; simp
  · obtain ⟨v, rfl, -⟩ := (C64_accuracy k hk minus _ _ _ hd).2 _ _ p1
    obtain ⟨w, rfl, -⟩ := (C64_accuracy k hk minus _ _ _ he).2 _ _ p2
    obtain ⟨-, m1, -⟩ := posText_bounds p1
    obtain ⟨-, m2, -⟩ := posText_bounds p2
    constructor
    · intro h
      have small : ∀ (hs : Str) (deg : Nat) (min : Rat), 0 ≤ min → (deg : Rat) + min / 60 ≤ 180 →
          |signed (decide (hs = [minus])) ((deg : Rat) + min / 60)| ≤ 180 := by
        intro hs deg min h0 hb
        unfold signed; split
        · rw [abs_neg, abs_of_nonneg (by positivity)]; exact hb
        · rw [abs_of_nonneg (by positivity)]; exact hb
      have a1 : SaysAngle k minus 11 s hs _ := ⟨deg1, min1, p1, w1, rfl⟩
      have a2 : SaysAngle k minus 11 t ht _ := ⟨deg2, min2, p2, w2, rfl⟩
      have irr : ∀ a : F64, ¬ F64Lt a a := by
        rintro a ⟨u, v, hu, hv, huv⟩
        rw [hu] at hv; cases hv; exact lt_irrefl _ huv
      have c1 := C108_angles k hk minus s hs t ht _ _ _ _ a1 a2 (small hs _ _ m1 b1) (small ht _ _ m2 b2) hd he
      have c2 := C108_angles k hk minus t ht s hs _ _ _ _ a2 a1 (small ht _ _ m2 b2) (small hs _ _ m1 b1) he hd
      have h := Option.some.inj h
      rw [h] at c1 c2
      have hq := le_antisymm (not_lt.mp (fun h => irr _ (c2 h))) (not_lt.mp (fun h => irr _ (c1 h)))
      have hn := (F64.fin.inj h).1
      have hq := signed_bool_inj hn hq
      have hdeg : deg1 = deg2 := by
        have u1 : min1 / 60 < 1 := by rw [div_lt_one (by norm_num)]; exact l1
        have u2 : min2 / 60 < 1 := by rw [div_lt_one (by norm_num)]; exact l2
        have v1 : 0 ≤ min1 / 60 := by positivity
        have v2 : 0 ≤ min2 / 60 := by positivity
        have x1 : (deg1 : Rat) < deg2 + 1 := by linarith
        have x2 : (deg2 : Rat) < deg1 + 1 := by linarith
        have x1 : deg1 < deg2 + 1 := by exact_mod_cast x1
        have x2 : deg2 < deg1 + 1 := by exact_mod_cast x2
        omega
      subst hdeg
      have : min1 = min2 := by linarith
      rw [hn, this]
    · intro h
      have h := Option.some.inj h
      have hn : decide (hs = [minus]) = decide (ht = [minus]) := congrArg (·.1) h
      have hdeg : deg1 = deg2 := congrArg (·.2.1) h
      have hmin : min1 = min2 := congrArg (·.2.2) h
      subst hdeg hmin
      have un : ∀ {s hs : Str} {v : Rat} {n : Bool}, PosText k s deg1 min1 → PosField k minus s hs (some (.fin n v)) → DegreesOf deg1 min1 v := by
        rintro s hs v n hp (⟨rfl, h⟩ | ⟨dg, mn, r, hp', hr, h⟩)
        · cases h
        · obtain ⟨rfl, rfl⟩ := posText_unique hp hp'
          cases h; exact hr
      rw [hn, degreesOf_unique (un p1 hd) (un p2 he)]

theorem int_same {max : Nat} {s t : Str} {x y d e : Option Nat} (hx : IntField max s x) (hy : IntField max t y)
    (hd : IntField max s d) (he : IntField max t e) : d = e ↔ x = y := by
  rw [intField_unique hx hd, intField_unique hy he]

theorem time_same {now : DateTime} {s t : Str} {x y : Option (Nat × Nat × Nat)} {d e : Option DateTime}
    (hx : ReadTime s x) (hy : ReadTime t y) (hd : TimeField now s d) (he : TimeField now t e) : d = e ↔ x = y := by
  rcases hd with ⟨h, m, k, hr, -, rfl⟩ | ⟨hr, rfl⟩ <;> rcases he with ⟨h', m', k', hr', -, rfl⟩ | ⟨hr', rfl⟩ <;>
    rw [readTime_unique hx hr, readTime_unique hy hr'] <;> simp

theorem dateTime_same {now : DateTime} {s t s' t' : Str} {x y : Option (Nat × Nat × Int × Nat × Nat × Nat)} {d e : Option DateTime}
    (hx : DateTimeMeans s t x) (hy : DateTimeMeans s' t' y) (hd : DateTimeField now s t d) (he : DateTimeField now s' t' e) :
    d = e ↔ x = y := by
  have key : ∀ {s t : Str} {x : Option (Nat × Nat × Int × Nat × Nat × Nat)} {d : Option DateTime}, DateTimeMeans s t x →
      DateTimeField now s t d → (x = none ∧ d = none) ∨ ∃ a b c h m k, x = some (a, b, c, h, m, k) ∧
        d = some ⟨centuryOf now.year + c, b, a, h, m, k⟩ := by
    rintro s t x d (⟨a, b, c, h, m, k, hr, rfl⟩ | ⟨hn, rfl⟩) (⟨a', b', c', h', m', k', hr', -, rfl⟩ | ⟨hn', rfl⟩)
    · obtain ⟨rfl, rfl, rfl, rfl, rfl, rfl⟩ := readDateTime_unique hr hr'
      exact .inr ⟨_, _, _, _, _, _, rfl, rfl⟩
    · exact absurd hr (hn' _ _ _ _ _ _)
    · exact absurd hr' (hn _ _ _ _ _ _)
    · exact .inl ⟨rfl, rfl⟩
  rcases key hx hd with ⟨rfl, rfl⟩ | ⟨a, b, c, h, m, k, rfl, rfl⟩ <;>
  rcases key hy he with ⟨rfl, rfl⟩ | ⟨a', b', c', h', m', k', rfl, rfl⟩
  · simp
  · simp
  · simp
  · simp only [Option.some.injEq, DateTime.mk.injEq, Prod.mk.injEq]
    constructor
    · rintro ⟨h1, h2, h3, h4, h5, h6⟩
      exact ⟨h3, h2, by omega, h4, h5, h6⟩
    · rintro ⟨h1, h2, h3, h4, h5, h6⟩
      exact ⟨by omega, h2, h1, h4, h5, h6⟩

theorem lenient_num {s : Str} {x : Option (Bool × Rat)} {d : Option F64} (hx : NumMeans s x) (hd : LenientField s d) :
    NumField s d := by
  rcases hd with ⟨d', h, rfl⟩ | ⟨hn, rfl⟩
  · exact .inr ⟨d', h, rfl⟩
  · rcases hx with ⟨rfl, -⟩ | ⟨neg, r, ip, fp, h1, h2, h3, h4, h5, -, -⟩
    · exact .inl ⟨rfl, rfl⟩
    · exact absurd (.decimal neg r _ _ h1 (shortly_says h2 h3 h4 h5 h1) (F64.ofRat_roundsTo _)) (hn _)

theorem letter_same {α : Type} {table : List (Str × α)} (ht : (table.map (·.1)).Nodup) (he : [] ∉ table.map (·.1))
    {s : Str} {x y : Option α} (hx : LetterField table s x) (hy : LetterField table s y) : x = y := by
  rcases hx with ⟨rfl, rfl⟩ | ⟨a, ha, rfl⟩ <;> rcases hy with ⟨h, rfl⟩ | ⟨b, hb, rfl⟩
  · rfl
  · exact absurd (List.mem_map.mpr ⟨_, hb, rfl⟩) he
  · subst h; exact absurd (List.mem_map.mpr ⟨_, ha, rfl⟩) he
  · have := List.inj_on_of_nodup_map ht ha hb rfl
    cases this; rfl

/-! ### Cases for the examples -/

theorem demoNum (s ip fp : Str) (neg : Bool) (q : Rat) (hs : s = (if neg then ['-'] else []) ++ ip ++ '.' :: fp)
    (h : AllDigits ip ∧ AllDigits fp) (hne : ip ≠ []) (hl : ip.length + fp.length ≤ 15)
    (hq : q = (decValue ip + decValue fp / 10 ^ fp.length : Rat)) : NumMeans s (some (neg, q)) := by
  refine .inr ⟨neg, ip ++ '.' :: fp, ip, fp, ?_, .inr rfl, h.1, h.2, .inl hne, hl, by rw [hq]⟩
  subst hs
  cases neg
  · exact .inl ⟨by simp, rfl⟩
  · exact .inr (.inr ⟨by simp, rfl⟩)

theorem demoAngle (k : Nat) (minus : Char) (s hemi d m f : Str) (deg : Nat) (min : Rat) (n : Nat) (hs : s = d ++ m ++ '.' :: f)
    (hl : d.length = k ∧ m.length = 2) (h : AllDigits d ∧ AllDigits m ∧ Digits f) (hd : deg = decValue d)
    (hm : min = decValue m + decValue f / 10 ^ f.length) (hn : min = n / 10 ^ 11) (h60 : min < 60)
    (h180 : (deg : Rat) + min / 60 ≤ 180) : AngleMeans k minus s hemi (some (decide (hemi = [minus]), deg, min)) :=
  .inr ⟨deg, min, ⟨d, m, f, [], by simp [hs], hl.1, hl.2, h.1, h.2.1, h.2.2, by simp, hd, hm⟩, ⟨n, hn⟩, h60, h180, rfl⟩

/-! ### Sentences -/

theorem quality_same (x y : Option Nat) :
    qualities.getD (x.getD 0) .invalid = qualities.getD (y.getD 0) .invalid ↔ qualityMeant x = qualityMeant y := by
  have key : ∀ n : Nat, qualities.getD n .invalid = qualities.getD (if n ≤ 8 then n else 0) .invalid := by
    intro n
    split
    · rfl
    · rw [List.getD_eq_default _ _ (by simp [qualities]; omega)]; rfl
  unfold qualityMeant
  rw [key, key (y.getD 0)]
  have h1 : (if x.getD 0 ≤ 8 then x.getD 0 else 0) < 9 := by split <;> omega
  have h2 : (if y.getD 0 ≤ 8 then y.getD 0 else 0) < 9 := by split <;> omega
  generalize (if x.getD 0 ≤ 8 then x.getD 0 else 0) = a at *
  generalize (if y.getD 0 ≤ 8 then y.getD 0 else 0) = b at *
  revert a b
  decide

/-- C119: two GGA sentences (numbers of at most 15 digits, at most 11 decimals of minutes) received at the same time are
answered with the same report exactly if they mean the same. -/
theorem C119_gga (env env' : Env) (p p' : Parser) (talker talker' : Str) (fs fs' : List Str) (s s' : Str)
    (h : IsGnss talker (c! "GGA") fs s) (h' : IsGnss talker' (c! "GGA") fs' s') (hn : env.now = env'.now)
    (m m' : GgaMeaning) (hm : GgaMeans fs m) (hm' : GgaMeans fs' m') (r r' : ParsedSentence)
    (hr : (parseSentence env p s).1 = .ok r) (hr' : (parseSentence env' p' s').1 = .ok r') :
    r = r' ↔ talkerSystem talker = talkerSystem talker' ∧ m.time = m'.time ∧ m.lat = m'.lat ∧ m.lon = m'.lon ∧
      qualityMeant m.quality = qualityMeant m'.quality ∧ m.satellites = m'.satellites ∧ m.hdop = m'.hdop ∧
      m.altitude = m'.altitude ∧ m.geoid = m'.geoid ∧ m.age = m'.age ∧ m.station = m'.station := by
  obtain ⟨d, rfl, hd⟩ := ((C65_contents env p talker fs s h).2.1 r).mp hr
  obtain ⟨e, rfl, he⟩ := ((C65_contents env' p' talker' fs' s' h').2.1 r').mp hr'
  rw [← hn] at he
  rw [← hd.source, ← he.source, ← time_same hm.time hm'.time hd.timestamp he.timestamp,
    ← angle_same (by decide) hm.lat hm'.lat hd.latitude he.latitude,
    ← angle_same (by decide) hm.lon hm'.lon hd.longitude he.longitude,
    ← int_same hm.satellites hm'.satellites hd.satellites he.satellites, ← num_same hm.hdop hm'.hdop hd.hdop he.hdop,
    ← num_same hm.altitude hm'.altitude hd.altitude he.altitude, ← num_same hm.geoid hm'.geoid hd.geoid he.geoid,
    ← num_same hm.age hm'.age hd.age he.age, ← int_same hm.station hm'.station hd.station he.station, ← quality_same]
  obtain ⟨q, hq, hqq⟩ := hd.quality
  obtain ⟨q', hq', hqq'⟩ := he.quality
  rw [intField_unique hm.quality hq, intField_unique hm'.quality hq', ← hqq, ← hqq']
  cases d; cases e; simp

/-- Leading zeros and an unknown quality do not matter. -/
example (r r' : ParsedSentence) (hr : (parseSentence demoEnv Parser.new (c! "$GPGGA,123519,,,,,9,08,0.9")).1 = .ok r)
    (hr' : (parseSentence demoEnv Parser.new (c! "$GPGGA,123519.5,,,,,,8,00.90")).1 = .ok r') : r = r' :=
  (C119_gga demoEnv demoEnv Parser.new Parser.new (c! "GP") (c! "GP") [c! "123519", [], [], [], [], c! "9", c! "08", c! "0.9"]
    [c! "123519.5", [], [], [], [], [], c! "8", c! "00.90"] _ _ (demoTagged .bare (by decide +kernel))
    (demoTagged .bare (by decide +kernel)) rfl ⟨some (12, 35, 19), none, none, some 9, some 8, some (false, 9 / 10), none, none, none, none⟩
    ⟨some (12, 35, 19), none, none, none, some 8, some (false, 9 / 10), none, none, none, none⟩
    ⟨timeText_read 12 35 19 (by decide) (by decide) (by decide), .inl ⟨rfl, rfl⟩, .inl ⟨rfl, rfl⟩, .inr ⟨9, demoDec (by decide), rfl⟩,
      .inr ⟨8, demoDec (by decide), rfl⟩, demoNum (c! "0.9") (c! "0") (c! "9") false (9 / 10) rfl (by unfold AllDigits; decide) (by decide) (by decide)
        (by norm_num [show decValue (c! "0") = 0 by decide, show decValue (c! "9") = 9 by decide]),
      .inl ⟨rfl, rfl⟩, .inl ⟨rfl, rfl⟩, .inl ⟨rfl, rfl⟩, .inl ⟨rfl, rfl⟩⟩
    ⟨.time (c! "12") (c! "35") (c! "19") (c! ".5") 12 35 19 rfl (by decide)
        ⟨demoDec (by decide), demoDec (by decide), demoDec (by decide)⟩, .inl ⟨rfl, rfl⟩, .inl ⟨rfl, rfl⟩, .inl ⟨rfl, rfl⟩,
      .inr ⟨8, demoDec (by decide), rfl⟩, demoNum (c! "00.90") (c! "00") (c! "90") false (9 / 10) rfl (by unfold AllDigits; decide) (by decide) (by decide)
        (by norm_num [show decValue (c! "00") = 0 by decide, show decValue (c! "90") = 90 by decide]),
      .inl ⟨rfl, rfl⟩, .inl ⟨rfl, rfl⟩, .inl ⟨rfl, rfl⟩, .inl ⟨rfl, rfl⟩⟩ r r' hr hr').mpr
    ⟨rfl, rfl, rfl, rfl, by decide, rfl, rfl, rfl, rfl, rfl, rfl⟩

/-- C119 for RMC. -/
theorem C119_rmc (env env' : Env) (p p' : Parser) (talker talker' : Str) (fs fs' : List Str) (s s' : Str)
    (h : IsGnss talker (c! "RMC") fs s) (h' : IsGnss talker' (c! "RMC") fs' s') (hn : env.now = env'.now)
    (m m' : RmcMeaning) (hm : RmcMeans fs m) (hm' : RmcMeans fs' m') (r r' : ParsedSentence)
    (hr : (parseSentence env p s).1 = .ok r) (hr' : (parseSentence env' p' s').1 = .ok r') :
    r = r' ↔ talkerSystem talker = talkerSystem talker' ∧ m.time = m'.time ∧ m.status = m'.status ∧ m.lat = m'.lat ∧
      m.lon = m'.lon ∧ m.speed = m'.speed ∧ m.bearing = m'.bearing ∧ m.variation = m'.variation := by
  obtain ⟨d, rfl, hd⟩ := ((C66_contents env p talker fs s h).2.1 r).mp hr
  obtain ⟨e, rfl, he⟩ := ((C66_contents env' p' talker' fs' s' h').2.1 r').mp hr'
  rw [← hn] at he
  have hv : d.variation = e.variation ↔ m.variation = m'.variation := by
    have key : ∀ {fs : List Str} {m : RmcMeaning} {x : Option F64}, RmcMeans fs m → VariationField (field fs 9) (field fs 10) x →
        ∃ y z, NumMeans (field fs 9) y ∧ NumField (field fs 9) z ∧
          m.variation = y.map (fun y => (y.1 ^^ decide (field fs 10 = c! "W"), y.2)) ∧
          x = z.map (signedF64 (decide (field fs 10 = c! "W"))) := by
      rintro fs m x hm hx
      obtain ⟨y, hy, e⟩ := hm.variation
      rcases hx with ⟨h1, rfl⟩ | ⟨d, hd, ⟨hs, rfl⟩ | ⟨hs, rfl⟩⟩
      · exact ⟨y, none, hy, .inl ⟨h1, rfl⟩, e, rfl⟩
      · refine ⟨y, some d, hy, .inr ⟨d, hd, rfl⟩, e, ?_⟩
        rw [hs]
        cases d <;> simp [signedF64]
      · exact ⟨y, some d, hy, .inr ⟨d, hd, rfl⟩, e, by rw [hs]; rfl⟩
    obtain ⟨y, z, hy, hz, e1, e2⟩ := key hm hd.variation
    obtain ⟨y', z', hy', hz', e1', e2'⟩ := key hm' he.variation
    have flip : ∀ {s : Str} {y : Option (Bool × Rat)} {z : Option F64} (w : Bool), NumMeans s y → NumField s z →
        z.map (signedF64 w) = (y.map fun y => (y.1 ^^ w, y.2)).map (fun y => F64.ofMag y.1 y.2) ∧
          ∀ u ∈ y.map (fun y => (y.1 ^^ w, y.2)), ShortMag u.2 := by
      intro s y z w hy hz
      obtain ⟨rfl, hs⟩ := num_value hy hz
      cases y with
      | none => simp
      | some y =>
        have := hs y rfl
        refine ⟨?_, fun u hu => by cases hu; exact this⟩
        simp only [Option.map_some]
        rw [short_fin _ this, short_fin _ this]
        rfl
    obtain ⟨f1, f2⟩ := flip (decide (field fs 10 = c! "W")) hy hz
    obtain ⟨f1', f2'⟩ := flip (decide (field fs' 10 = c! "W")) hy' hz'
    rw [e2, e2', f1, f1', e1, e1']
    exact value_inj f2 f2'
  rw [← hd.source, ← he.source, ← dateTime_same hm.time hm'.time hd.timestamp he.timestamp,
    letter_same (by decide) (by decide) hm.status hd.status, letter_same (by decide) (by decide) hm'.status he.status,
    ← angle_same (by decide) hm.lat hm'.lat hd.latitude he.latitude,
    ← angle_same (by decide) hm.lon hm'.lon hd.longitude he.longitude,
    ← num_same hm.speed hm'.speed hd.speed he.speed, ← num_same hm.bearing hm'.bearing hd.bearing he.bearing, ← hv]
  cases d; cases e; simp

/-- A variation of -20.3 to the east is one of 20.3 to the west. -/
example (r r' : ParsedSentence) (hr : (parseSentence demoEnv Parser.new (c! "$GPRMC,225446,A,,,,,0.5,,191124,20.3,W")).1 = .ok r)
    (hr' : (parseSentence demoEnv Parser.new (c! "$GPRMC,225446,A,,,,,0.50,,191124,-20.3,E")).1 = .ok r') : r = r' :=
  (C119_rmc demoEnv demoEnv Parser.new Parser.new (c! "GP") (c! "GP")
    [c! "225446", c! "A", [], [], [], [], c! "0.5", [], c! "191124", c! "20.3", c! "W"]
    [c! "225446", c! "A", [], [], [], [], c! "0.50", [], c! "191124", c! "-20.3", c! "E"] _ _ (demoTagged .bare (by decide +kernel))
    (demoTagged .bare (by decide +kernel)) rfl
    ⟨some (19, 11, 24, 22, 54, 46), some true, none, none, some (false, 5 / 10), none, some (true, 203 / 10)⟩
    ⟨some (19, 11, 24, 22, 54, 46), some true, none, none, some (false, 5 / 10), none, some (true, 203 / 10)⟩
    ⟨.inl ⟨19, 11, 24, 22, 54, 46, dateTimeText_read 19 11 24 22 54 46 (by decide) (by decide) (by decide) (by decide) (by decide) (by decide), rfl⟩, .inr ⟨true, by decide, rfl⟩,
      .inl ⟨rfl, rfl⟩, .inl ⟨rfl, rfl⟩, demoNum (c! "0.5") (c! "0") (c! "5") false (5 / 10) rfl (by unfold AllDigits; decide) (by decide) (by decide)
        (by norm_num [show decValue (c! "0") = 0 by decide, show decValue (c! "5") = 5 by decide]),
      .inl ⟨rfl, rfl⟩, some (false, 203 / 10), demoNum (c! "20.3") (c! "20") (c! "3") false (203 / 10) rfl (by unfold AllDigits; decide) (by decide) (by decide)
        (by norm_num [show decValue (c! "20") = 20 by decide, show decValue (c! "3") = 3 by decide]), by decide +kernel⟩
    ⟨.inl ⟨19, 11, 24, 22, 54, 46, dateTimeText_read 19 11 24 22 54 46 (by decide) (by decide) (by decide) (by decide) (by decide) (by decide), rfl⟩, .inr ⟨true, by decide, rfl⟩,
      .inl ⟨rfl, rfl⟩, .inl ⟨rfl, rfl⟩, demoNum (c! "0.50") (c! "0") (c! "50") false (5 / 10) rfl (by unfold AllDigits; decide) (by decide) (by decide)
        (by norm_num [show decValue (c! "0") = 0 by decide, show decValue (c! "50") = 50 by decide]),
      .inl ⟨rfl, rfl⟩, some (true, 203 / 10), demoNum (c! "-20.3") (c! "20") (c! "3") true (203 / 10) rfl (by unfold AllDigits; decide) (by decide) (by decide)
        (by norm_num [show decValue (c! "20") = 20 by decide, show decValue (c! "3") = 3 by decide]), by decide +kernel⟩ r r' hr hr').mpr
    ⟨rfl, rfl, rfl, rfl, rfl, rfl, rfl, rfl⟩

theorem num_exists {s : Str} {x : Option (Bool × Rat)} (h : NumMeans s x) : ∃ d, NumField s d := by
  rcases h with ⟨rfl, -⟩ | ⟨neg, r, ip, fp, h1, h2, h3, h4, h5, -, -⟩
  · exact ⟨none, .inl ⟨rfl, rfl⟩⟩
  · exact ⟨_, .inr ⟨_, .decimal neg r _ _ h1 (shortly_says h2 h3 h4 h5 h1) (F64.ofRat_roundsTo _), rfl⟩⟩

theorem forall_dec_unique {l : List Str} {a b : List Nat} (ha : List.Forall₂ (Dec 255) l a)
    (hb : List.Forall₂ (Dec 255) l b) : a = b := by
  induction ha generalizing b with
  | nil => cases hb; rfl
  | cons h _ ih =>
    cases hb with
    | cons h' t => rw [Dec.unique h h', ih t]

/-- C119 for GSA, which is always accepted. -/
theorem C119_gsa (env env' : Env) (p p' : Parser) (talker talker' : Str) (fs fs' : List Str) (s s' : Str)
    (h : IsGnss talker (c! "GSA") fs s) (h' : IsGnss talker' (c! "GSA") fs' s')
    (m m' : GsaMeaning) (hm : GsaMeans fs m) (hm' : GsaMeans fs' m') :
    (∃ r, (parseSentence env p s).1 = .ok r) ∧
    ((parseSentence env p s).1 = (parseSentence env' p' s').1 ↔ talkerSystem talker = talkerSystem talker' ∧
      m.mode = m'.mode ∧ m.fix = m'.fix ∧ m.satellites = m'.satellites ∧ m.pdop = m'.pdop ∧ m.hdop = m'.hdop ∧
      m.vdop = m'.vdop) := by
  have acc : ∀ {env : Env} {p : Parser} {talker : Str} {fs : List Str} {s : Str} {m : GsaMeaning},
      IsGnss talker (c! "GSA") fs s → GsaMeans fs m →
      ∃ d, (parseSentence env p s).1 = .ok (.gsa d) ∧ GsaSays talker fs d := by
    intro env p talker fs s m h hm
    obtain ⟨x, hx⟩ := num_exists hm.pdop
    obtain ⟨y, hy⟩ := num_exists hm.hdop
    obtain ⟨z, hz⟩ := num_exists hm.vdop
    have hd : GsaSays talker fs ⟨talkerSystem talker, m.mode, m.fix, m.satellites, x, y, z⟩ :=
      ⟨rfl, hm.mode, hm.fix, hm.satellites, hx, hy, hz⟩
    exact ⟨_, ((C67_contents env p talker fs s h).2.1 _).mpr ⟨_, rfl, hd⟩, hd⟩
  obtain ⟨d, hr, hd⟩ := acc (env := env) (p := p) h hm
  obtain ⟨e, hr', he⟩ := acc (env := env') (p := p') h' hm'
  refine ⟨⟨_, hr⟩, ?_⟩
  rw [hr, hr', ← hd.source, ← he.source,
    letter_same (by decide) (by decide) hm.mode hd.mode, letter_same (by decide) (by decide) hm'.mode he.mode,
    letter_same (by decide) (by decide) hm.fix hd.fix, letter_same (by decide) (by decide) hm'.fix he.fix,
    forall_dec_unique hm.satellites hd.satellites, forall_dec_unique hm'.satellites he.satellites,
    ← num_same hm.pdop hm'.pdop hd.pdop he.pdop, ← num_same hm.hdop hm'.hdop hd.hdop he.hdop,
    ← num_same hm.vdop hm'.vdop hd.vdop he.vdop]
  cases d; cases e; simp

/-- It does not matter which of the twelve fields a satellite is in. -/
example (env : Env) (p : Parser) : (parseSentence env p (c! "$GPGSA,A,3,04,,05,,,,,,,,,,2.5")).1 =
    (parseSentence env p (c! "$GPGSA,A,3,4,5,,,,,,,,,,,2.50")).1 :=
  (C119_gsa env env p p (c! "GP") (c! "GP") [c! "A", c! "3", c! "04", [], c! "05", [], [], [], [], [], [], [], [], [], c! "2.5"]
    [c! "A", c! "3", c! "4", c! "5", [], [], [], [], [], [], [], [], [], [], c! "2.50"] _ _ (demoTagged .bare (by decide +kernel))
    (demoTagged .bare (by decide +kernel)) ⟨some true, some .fix3D, [4, 5], some (false, 25 / 10), none, none⟩
    ⟨some true, some .fix3D, [4, 5], some (false, 25 / 10), none, none⟩
    ⟨.inr ⟨true, by decide, rfl⟩, .inr ⟨.fix3D, by decide, rfl⟩, .cons (demoDec (by decide)) (.cons (demoDec (by decide)) .nil),
      demoNum (c! "2.5") (c! "2") (c! "5") false (25 / 10) rfl (by unfold AllDigits; decide) (by decide) (by decide)
        (by norm_num [show decValue (c! "2") = 2 by decide, show decValue (c! "5") = 5 by decide]), .inl ⟨rfl, rfl⟩, .inl ⟨rfl, rfl⟩⟩
    ⟨.inr ⟨true, by decide, rfl⟩, .inr ⟨.fix3D, by decide, rfl⟩, .cons (demoDec (by decide)) (.cons (demoDec (by decide)) .nil),
      demoNum (c! "2.50") (c! "2") (c! "50") false (25 / 10) rfl (by unfold AllDigits; decide) (by decide) (by decide)
        (by norm_num [show decValue (c! "2") = 2 by decide, show decValue (c! "50") = 50 by decide]), .inl ⟨rfl, rfl⟩, .inl ⟨rfl, rfl⟩⟩).2.mpr
    ⟨rfl, rfl, rfl, rfl, rfl, rfl, rfl⟩

/-- C119 for VTG, which is always accepted. -/
theorem C119_vtg (env env' : Env) (p p' : Parser) (talker talker' : Str) (fs fs' : List Str) (s s' : Str)
    (h : IsGnss talker (c! "VTG") fs s) (h' : IsGnss talker' (c! "VTG") fs' s')
    (m m' : VtgMeaning) (hm : VtgMeans fs m) (hm' : VtgMeans fs' m') :
    (∃ r, (parseSentence env p s).1 = .ok r) ∧
    ((parseSentence env p s).1 = (parseSentence env' p' s').1 ↔ talkerSystem talker = talkerSystem talker' ∧
      m.courseTrue = m'.courseTrue ∧ m.courseMagnetic = m'.courseMagnetic ∧ m.knots = m'.knots ∧ m.kph = m'.kph ∧
      m.faa = m'.faa) := by
  obtain ⟨d, hr, hd⟩ := C68_contents env p talker fs s h
  obtain ⟨e, hr', he⟩ := C68_contents env' p' talker' fs' s' h'
  have hd := (hd d).mpr rfl
  have he := (he e).mpr rfl
  rw [hr, hr', ← hd.source, ← he.source, hm.faa, hm'.faa, ← hd.faa, ← he.faa,
    ← num_same hm.courseTrue hm'.courseTrue (lenient_num hm.courseTrue hd.courseTrue) (lenient_num hm'.courseTrue he.courseTrue),
    ← num_same hm.courseMagnetic hm'.courseMagnetic (lenient_num hm.courseMagnetic hd.courseMagnetic)
      (lenient_num hm'.courseMagnetic he.courseMagnetic),
    ← num_same hm.knots hm'.knots (lenient_num hm.knots hd.knots) (lenient_num hm'.knots he.knots),
    ← num_same hm.kph hm'.kph (lenient_num hm.kph hd.kph) (lenient_num hm'.kph he.kph)]
  refine ⟨⟨_, rfl⟩, ?_⟩
  cases d; cases e; simp

/-- Leading and trailing zeros do not matter. -/
example (env : Env) (p : Parser) : (parseSentence env p (c! "$GPVTG,54.7,T,,M,5.5,N")).1 =
    (parseSentence env p (c! "$GPVTG,054.70,T,,M,005.5,N")).1 :=
  (C119_vtg env env p p (c! "GP") (c! "GP") [c! "54.7", c! "T", [], c! "M", c! "5.5", c! "N"]
    [c! "054.70", c! "T", [], c! "M", c! "005.5", c! "N"] _ _ (demoTagged .bare (by decide +kernel))
    (demoTagged .bare (by decide +kernel)) ⟨some (false, 547 / 10), none, some (false, 55 / 10), none, none⟩
    ⟨some (false, 547 / 10), none, some (false, 55 / 10), none, none⟩
    ⟨demoNum (c! "54.7") (c! "54") (c! "7") false (547 / 10) rfl (by unfold AllDigits; decide) (by decide) (by decide)
        (by norm_num [show decValue (c! "54") = 54 by decide, show decValue (c! "7") = 7 by decide]), .inl ⟨rfl, rfl⟩,
      demoNum (c! "5.5") (c! "5") (c! "5") false (55 / 10) rfl (by unfold AllDigits; decide) (by decide) (by decide)
        (by norm_num [show decValue (c! "5") = 5 by decide, show decValue (c! "5") = 5 by decide]), .inl ⟨rfl, rfl⟩, by decide⟩
    ⟨demoNum (c! "054.70") (c! "054") (c! "70") false (547 / 10) rfl (by unfold AllDigits; decide) (by decide) (by decide)
        (by norm_num [show decValue (c! "054") = 54 by decide, show decValue (c! "70") = 70 by decide]), .inl ⟨rfl, rfl⟩,
      demoNum (c! "005.5") (c! "005") (c! "5") false (55 / 10) rfl (by unfold AllDigits; decide) (by decide) (by decide)
        (by norm_num [show decValue (c! "005") = 5 by decide, show decValue (c! "5") = 5 by decide]), .inl ⟨rfl, rfl⟩, by decide⟩).2.mpr
    ⟨rfl, rfl, rfl, rfl, rfl, rfl⟩

/-- C119 for GLL. -/
theorem C119_gll (env env' : Env) (p p' : Parser) (talker talker' : Str) (fs fs' : List Str) (s s' : Str)
    (h : IsGnss talker (c! "GLL") fs s) (h' : IsGnss talker' (c! "GLL") fs' s') (hn : env.now = env'.now)
    (m m' : GllMeaning) (hm : GllMeans fs m) (hm' : GllMeans fs' m') (r r' : ParsedSentence)
    (hr : (parseSentence env p s).1 = .ok r) (hr' : (parseSentence env' p' s').1 = .ok r') :
    r = r' ↔ talkerSystem talker = talkerSystem talker' ∧ m.lat = m'.lat ∧ m.lon = m'.lon ∧ m.time = m'.time ∧
      m.valid = m'.valid ∧ m.faa = m'.faa := by
  obtain ⟨d, rfl, hd⟩ := ((C69_contents env p talker fs s h).2.1 r).mp hr
  obtain ⟨e, rfl, he⟩ := ((C69_contents env' p' talker' fs' s' h').2.1 r').mp hr'
  rw [← hn] at he
  rw [← hd.source, ← he.source, ← time_same hm.time hm'.time hd.timestamp he.timestamp,
    ← angle_same (by decide) hm.lat hm'.lat hd.latitude he.latitude,
    ← angle_same (by decide) hm.lon hm'.lon hd.longitude he.longitude, hm.valid, hm'.valid, hm.faa, hm'.faa,
    ← hd.valid, ← he.valid, ← hd.faa, ← he.faa]
  cases d; cases e; simp

/-- A thousandth of a minute makes another report. -/
example : (parseSentence demoEnv Parser.new (c! "$GPGLL,4807.038,S,,,123519,A")).1 ≠
    (parseSentence demoEnv Parser.new (c! "$GPGLL,4807.039,S,,,123519,A")).1 := by
  obtain ⟨r, hr⟩ : ∃ r, (parseSentence demoEnv Parser.new (c! "$GPGLL,4807.038,S,,,123519,A")).1 = .ok r := ⟨_, rfl⟩
  obtain ⟨r', hr'⟩ : ∃ r, (parseSentence demoEnv Parser.new (c! "$GPGLL,4807.039,S,,,123519,A")).1 = .ok r := ⟨_, rfl⟩
  have := C119_gll demoEnv demoEnv Parser.new Parser.new (c! "GP") (c! "GP") [c! "4807.038", c! "S", [], [], c! "123519", c! "A"]
    [c! "4807.039", c! "S", [], [], c! "123519", c! "A"] _ _ (demoTagged .bare (by decide +kernel))
    (demoTagged .bare (by decide +kernel)) rfl ⟨some (true, 48, 7038 / 1000), none, some (12, 35, 19), some true, none⟩
    ⟨some (true, 48, 7039 / 1000), none, some (12, 35, 19), some true, none⟩
    ⟨demoAngle 2 'S' (c! "4807.038") (c! "S") (c! "48") (c! "07") (c! "038") 48 (7038 / 1000) 703800000000 rfl (by decide)
        (by unfold AllDigits; decide) (by decide) (by norm_num [show decValue (c! "07") = 7 by decide, show decValue (c! "038") = 38 by decide])
        (by norm_num) (by norm_num) (by norm_num),
      .inl ⟨rfl, rfl⟩, timeText_read 12 35 19 (by decide) (by decide) (by decide), by decide, by decide⟩
    ⟨demoAngle 2 'S' (c! "4807.039") (c! "S") (c! "48") (c! "07") (c! "039") 48 (7039 / 1000) 703900000000 rfl (by decide)
        (by unfold AllDigits; decide) (by decide) (by norm_num [show decValue (c! "07") = 7 by decide, show decValue (c! "039") = 39 by decide])
        (by norm_num) (by norm_num) (by norm_num),
      .inl ⟨rfl, rfl⟩, timeText_read 12 35 19 (by decide) (by decide) (by decide), by decide, by decide⟩ r r' hr hr'
  rw [hr, hr']
  intro h
  have := (this.mp (Out.ok.inj h)).2.1
  norm_num at this

/-- C119: 'Two sentences that say the same place give the same position' is false where minutes run over 60: 47°60.122′ and
48°00.122′ are the same latitude, but reported with different doubles. -/
theorem C119_sixty_minutes :
    (∃ min min', PosText 2 (c! "4760.122") 47 min ∧ PosText 2 (c! "4800.122") 48 min' ∧
      (47 : Rat) + min / 60 = 48 + min' / 60) ∧
    (parseSentence demoEnv Parser.new (c! "$GPGLL,4760.122,N,,,123519,A")).1 ≠
      (parseSentence demoEnv Parser.new (c! "$GPGLL,4800.122,N,,,123519,A")).1 := by
  refine ⟨⟨60122 / 1000, 122 / 1000, ?_, ?_, by norm_num⟩, by decide +kernel⟩
  · exact ⟨c! "47", c! "60", c! "122", [], rfl, rfl, rfl, by unfold AllDigits; decide, by unfold AllDigits; decide, by decide,
      by simp, by decide, by norm_num [show decValue (c! "60") = 60 by decide, show decValue (c! "122") = 122 by decide]⟩
  · exact ⟨c! "48", c! "00", c! "122", [], rfl, rfl, rfl, by unfold AllDigits; decide, by unfold AllDigits; decide, by decide,
      by simp, by decide, by norm_num [show decValue (c! "00") = 0 by decide, show decValue (c! "122") = 122 by decide]⟩

end Nmea
