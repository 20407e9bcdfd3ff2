/-
C140: the sample program of the README.
-/
import Verif.Spec.Sample
import Verif.Lemmas.Shortest
import Verif.Props.Print
import Verif.Props.Shortest
import Verif.Props.Country
import Mathlib.Algebra.Order.Archimedean.Basic

namespace Nmea
open Spec

/-! ### The assumptions on formatting can be met -/

theorem roundsTo_self {q : Rat} (h : Rep q) (hlt : q < 2 ^ 1024) : RoundsTo q (.fin false q) := by
  have h0 : 0 ≤ q := by
    obtain ⟨m, s, -, -, rfl⟩ := h
    exact mul_nonneg (Nat.cast_nonneg m) (zpow_nonneg (by norm_num) s)
  have hn : Nearest |q| q := by
    rw [abs_of_nonneg h0]
    refine ⟨h, fun r _ => ?_, fun r _ hr he => ?_⟩
    · rw [sub_self, abs_zero]; exact abs_nonneg _
    · rw [sub_self, abs_zero, abs_eq_zero, sub_eq_zero] at he
      exact absurd he hr
  have := RoundsTo.fin q hn hlt
  rwa [decide_eq_false (not_lt.2 h0)] at this

theorem displays_total (x : F64) (h : IsDouble x) : ∃ t, Displays x t := by
  cases h with
  | nan => exact ⟨_, rfl⟩
  | inf b => exact ⟨_, rfl⟩
  | fin b q hr hlt =>
    by_cases h0 : q = 0
    · exact ⟨_, .inl ⟨h0, rfl⟩⟩
    have hex : ∃ L m e, ReadsAs m e q ∧ (natStr m).length = L := by
      obtain ⟨m, s, -, -, e⟩ := id hr
      have hself := roundsTo_self hr hlt
      rcases le_or_gt 0 s with hs | hs
      · obtain ⟨j, rfl⟩ := Int.eq_ofNat_of_zero_le hs
        refine ⟨_, m * 2 ^ j, 0, ?_, rfl⟩
        unfold ReadsAs
        rw [zpow_zero, mul_one, show ((m * 2 ^ j : Nat) : Rat) = q by rw [e, zpow_natCast]; push_cast; rfl]
        exact hself
      · obtain ⟨j, hj⟩ := Int.eq_ofNat_of_zero_le (show 0 ≤ -s by omega)
        obtain rfl : s = -(j : Int) := by omega
        refine ⟨_, m * 5 ^ j, -(j : Int), ?_, rfl⟩
        unfold ReadsAs
        rw [show ((m * 5 ^ j : Nat) : Rat) * 10 ^ (-(j : Int)) = q by
          rw [e, zpow_neg, zpow_neg, zpow_natCast, zpow_natCast, show (10 : Rat) = 2 * 5 by norm_num, mul_pow]
          push_cast
          field_simp]
        exact hself
    clear hlt
    have hq : 0 < q := lt_of_le_of_ne (by
      obtain ⟨m, s, -, -, rfl⟩ := hr
      exact mul_nonneg (Nat.cast_nonneg m) (zpow_nonneg (by norm_num) s)) (Ne.symm h0)
    classical
    obtain ⟨m0, e0, hm0, hl⟩ := Nat.find_spec hex
    have hmin : ∀ m' e', ReadsAs m' e' q → Nat.find hex ≤ (natStr m').length := fun m' e' h' => Nat.find_min' hex ⟨m', e', h', rfl⟩
    generalize Nat.find hex = L at hl hmin
    -- the exponents are bounded from below, so the distances are multiples of one number
    obtain ⟨n, hn⟩ := exists_pow_lt_of_lt_one (half_pos hq) (show (1 / 10 : Rat) < 1 by norm_num)
    have hexp : ∀ m e, ReadsAs m e q → (natStr m).length = L → -((n + L : Nat) : Int) ≤ e := by
      intro m e h hL
      by_contra hc
      have hx0 : (0 : Rat) ≤ m * 10 ^ e := by positivity
      obtain ⟨-, h2, -⟩ := F64.roundMag_nearest _ hx0
      have h3 := h2 0 ⟨0, 0, by norm_num, by norm_num, by norm_num⟩
      rw [← readsAs_eq h, zero_sub, abs_neg, abs_of_nonneg hx0] at h3
      have h4 : q ≤ 2 * (m * 10 ^ e) := by linarith [(abs_le.mp h3).2]
      have hLp : 0 < L := hL ▸ Nat.length_toDigits_pos
      have hm : (m : Rat) ≤ 10 ^ L := by exact_mod_cast ((natStr_length_le hLp).1 hL.le).le
      have h5 : (m : Rat) * 10 ^ e ≤ 10 ^ L * 10 ^ (-((n + L : Nat) : Int)) :=
        mul_le_mul hm (zpow_le_zpow_right₀ (by norm_num) (by omega)) (by positivity) (by positivity)
      have h6 : (10 : Rat) ^ L * 10 ^ (-((n + L : Nat) : Int)) = (1 / 10) ^ n := by
        rw [zpow_neg, zpow_natCast, pow_add, one_div, inv_pow]; field_simp
      rw [h6] at h5
      linarith
    have hnat : ∀ m e, ReadsAs m e q → (natStr m).length = L →
        ∃ i : Nat, |(m : Rat) * 10 ^ e - q| * (10 ^ (n + L) * q.den) = i := by
      intro m e h hL
      obtain ⟨j, hj⟩ := Int.le.dest (hexp m e h hL)
      refine ⟨((m * 10 ^ j * q.den : Nat) - q.num * 10 ^ (n + L) : Int).natAbs, ?_⟩
      have hpos : (0 : Rat) < 10 ^ (n + L) * q.den := by have := q.den_pos; positivity
      rw [← abs_of_pos hpos, ← abs_mul, ← hj, zpow_add₀ (by norm_num), zpow_neg, zpow_natCast, zpow_natCast]
      rw [Nat.cast_natAbs, Int.cast_abs]
      congr 1
      push_cast
      have hd : (q.den : Rat) ≠ 0 := by exact_mod_cast q.den_pos.ne'
      have hqd : q * q.den = q.num := Rat.mul_den_eq_num q
      rw [← hqd]
      field_simp
    have hex2 : ∃ i : Nat, ∃ m e, ReadsAs m e q ∧ (natStr m).length = L ∧
        |(m : Rat) * 10 ^ e - q| * (10 ^ (n + L) * q.den) = i := by
      obtain ⟨i, hi⟩ := hnat m0 e0 hm0 hl
      exact ⟨i, m0, e0, hm0, hl, hi⟩
    obtain ⟨m, e, hm, hL, hi⟩ := Nat.find_spec hex2
    refine ⟨_, .inr ⟨h0, m, e, rfl, hm, fun m' e' h' => ⟨hL.le.trans (hmin m' e' h'), fun heq => ?_⟩⟩⟩
    obtain ⟨i', hi'⟩ := hnat m' e' h' (heq.trans hL)
    have := Nat.find_min' hex2 ⟨m', e', h', heq.trans hL, hi'⟩
    have hpos : (0 : Rat) < 10 ^ (n + L) * q.den := by have := q.den_pos; positivity
    refine le_of_mul_le_mul_right ?_ hpos
    rw [hi, hi']
    exact_mod_cast this

/-- There are texts as they are assumed. -/
theorem fmt_exists : ∃ f, FmtOk f := by
  classical
  have h1 : ∀ k x, ∃ t, IsDouble x → Prints k x t := by
    intro k x
    by_cases h : IsDouble x
    · obtain ⟨t, ht⟩ := prints_total k x (by
        rintro b q rfl
        cases h with | fin _ _ hr _ =>
        obtain ⟨m, s, -, -, rfl⟩ := hr
        exact mul_nonneg (Nat.cast_nonneg m) (zpow_nonneg (by norm_num) s))
      exact ⟨t, fun _ => ht⟩
    · exact ⟨[], fun h' => absurd h' h⟩
  have h2 : ∀ x, ∃ t, IsDouble x → Displays x t := by
    intro x
    by_cases h : IsDouble x
    · obtain ⟨t, ht⟩ := displays_total x h
      exact ⟨t, fun _ => ht⟩
    · exact ⟨[], fun h' => absurd h' h⟩
  exact ⟨⟨fun k x => (h1 k x).choose, fun x => (h2 x).choose⟩, fun k x => (h1 k x).choose_spec, fun x => (h2 x).choose_spec⟩

/-! ### The loop -/

theorem printLines_some (ls : List Str) : printLines (ls.map some) = (linesText ls, true) := by
  induction ls with
  | nil => rfl
  | cons l ls ih => simp [printLines, linesText, ih]

theorem printLines_none (ls : List Str) (r : List (Option Str)) : printLines (ls.map some ++ none :: r) = (linesText ls, false) := by
  induction ls with
  | nil => rfl
  | cons l ls ih => simp [printLines, linesText, ih]

theorem goesOn_of {f : Fmt} {env : Env} {p : Parser} {s : Str} {r : ParsedSentence} (h : (parseSentence env p s).1 = .ok r)
    (ls : List Str) (hl : sampleLines f r = ls.map some) : GoesOn f env p s (linesText ls) := by
  intro rest
  rw [sample]
  generalize hq : parseSentence env p s = q at h ⊢
  obtain ⟨a, p'⟩ := q
  subst h
  simp only [hl, printLines_some, if_true]

theorem endsWith_of {f : Fmt} {env : Env} {p : Parser} {s : Str} {r : ParsedSentence} (h : (parseSentence env p s).1 = .ok r)
    (ls : List Str) (t : List (Option Str)) (hl : sampleLines f r = ls.map some ++ none :: t) :
    EndsWith f env p s (linesText ls) .panicked := by
  intro rest
  rw [sample]
  generalize hq : parseSentence env p s = q at h ⊢
  obtain ⟨a, p'⟩ := q
  subst h
  simp only [hl, printLines_none, Bool.false_eq_true, if_false]

/-- C140: an error ends the program. -/
theorem C140_refused (f : Fmt) (env : Env) (p : Parser) (s : Str) (e : ParseError) (h : (parseSentence env p s).1 = .err e) :
    EndsWith f env p s [] (.failed e) := by
  intro rest
  rw [sample]
  generalize hq : parseSentence env p s = q at h ⊢
  obtain ⟨a, p'⟩ := q
  subst h
  rfl

/-- A sentence with a wrong checksum. -/
example (f : Fmt) (p : Parser) : ∃ e, EndsWith f demoEnv p (c! "!AIVDM,1,1,,A,38Id705000rRVJhE7cl9n;160000,0*41") [] (.failed e) :=
  ⟨.corruptedSentence (c! "Corrupted NMEA sentence: \"40\" != \"41\""), C140_refused _ _ _ _ _ rfl⟩

/-- C140: so does a panic. -/
theorem C140_panic (f : Fmt) (env : Env) (p : Parser) (s : Str) (h : (parseSentence env p s).1 = .panic) :
    EndsWith f env p s [] .panicked := by
  intro rest
  rw [sample]
  generalize hq : parseSentence env p s = q at h ⊢
  obtain ⟨a, p'⟩ := q
  subst h
  rfl

/-- A fix without time. -/
example (f : Fmt) (p : Parser) : EndsWith f demoEnv p (c! "$GPGGA,,,,,,0") [] .panicked := C140_panic _ _ _ _ rfl

/-- C140: nothing is printed for `Incomplete` and for other reports. -/
theorem C140_quiet (f : Fmt) (env : Env) (p : Parser) (s : Str) (r : ParsedSentence) (h : (parseSentence env p s).1 = .ok r)
    (hq : Quiet r) : GoesOn f env p s [] :=
  goesOn_of h [] (by cases r <;> first | rfl | exact hq.elim)

/-- Course and speed. -/
example (f : Fmt) (p : Parser) : GoesOn f demoEnv p (c! "$GPVTG,360.0,T,348.7,M") [] := C140_quiet _ _ _ _ _ rfl trivial

theorem printable_iff (f : Fmt) (r : ParsedSentence) : (printLines (sampleLines f r)).2 = true ↔ Printable r := by
  cases r with
  | vesselDynamicData d => cases h1 : d.sogKnots <;> cases h2 : d.headingTrue <;> simp [sampleLines, printLines, Printable, h1, h2]
  | vesselStaticData d => cases h1 : d.country <;> cases h2 : d.name <;> simp [sampleLines, printLines, Printable, h1, h2]
  | gga d => cases h1 : d.latitude <;> cases h2 : d.longitude <;> simp [sampleLines, printLines, Printable, h1, h2]
  | rmc d =>
    cases h1 : d.sogKnots <;> cases h2 : d.bearing <;> cases h3 : d.timestamp <;>
      simp [sampleLines, printLines, Printable, h1, h2, h3]
  | _ => simp [sampleLines, printLines, Printable]

/-- C140: the program gets to the end exactly if every sentence is accepted and the values it needs are there. -/
theorem C140_finishes (f : Fmt) (p : Parser) (h : List (Env × Str)) :
    (sample f p h).2 = .finished ↔ ∀ a ∈ answers p h, ∃ r, a = .ok r ∧ Printable r := by
  induction h generalizing p with
  | nil => simp [sample, answers]
  | cons x h ih =>
    obtain ⟨env, s⟩ := x
    rw [sample, answers]
    generalize parseSentence env p s = q
    obtain ⟨a, p'⟩ := q
    cases a with
    | panic => simp
    | err e => simp
    | ok r =>
      simp only [List.mem_cons, forall_eq_or_imp, Out.ok.injEq, exists_eq_left', ← printable_iff f r, ← ih p']
      split <;> simp [*]

/-- The program gets to the end of nothing but sentences about course and speed. -/
example (f : Fmt) (n : Nat) : (sample f Parser.new (List.replicate n (demoEnv, c! "$GPVTG,360.0,T,348.7,M"))).2 = .finished := by
  rw [C140_finishes]
  generalize Parser.new = p
  induction n with
  | zero => intro a ha; cases ha
  | succ n ih =>
    intro a ha
    rw [List.replicate_succ, answers] at ha
    rcases List.mem_cons.1 ha with rfl | ha
    · exact ⟨_, rfl, trivial⟩
    · exact ih a ha

/-- C140: a stream is treated as its first part and then the rest. -/
theorem C140_append (f : Fmt) (p : Parser) (a b : List (Env × Str)) (h : (sample f p a).2 = .finished) :
    sample f p (a ++ b) = ((sample f p a).1 ++ (sample f (run p a) b).1, (sample f (run p a) b).2) := by
  induction a generalizing p with
  | nil => simp [sample, run]
  | cons x a ih =>
    obtain ⟨env, s⟩ := x
    rw [List.cons_append]
    rw [sample] at h ⊢
    conv_rhs => rw [sample]
    rw [run]
    generalize parseSentence env p s = q at h ⊢
    obtain ⟨o, p'⟩ := q
    cases o with
    | panic => cases h
    | err e => cases h
    | ok r =>
      simp only at h ⊢
      split at h
      · rename_i hc
        rw [if_pos hc, if_pos hc, ih p' h, List.append_assoc]
      · cases h

/-- A panic after sentences about course and speed. -/
example (f : Fmt) : sample f Parser.new ([(demoEnv, c! "$GPVTG,360.0,T,348.7,M")] ++ [(demoEnv, c! "$GPGGA,,,,,,0")]) = ([], .panicked) :=
  C140_append f _ _ _ rfl

/-! ### Texts of values -/

theorem roundsTo_isDouble {q : Rat} {d : F64} (h : RoundsTo q d) : IsDouble d := by
  cases h with
  | fin v h hlt => exact .fin _ _ h.1 hlt
  | inf => exact .inf _

theorem speed_shown {f : Fmt} (hf : FmtOk f) {raw : Nat} (hr : raw < 2 ^ 20) (hn : raw ≠ 1023) {x : Option F64} (h : Speed raw x) :
    ∃ d, x = some d ∧ f.fixed 1 d = decimalText 1 raw := by
  have hp := speed_print raw hr x h
  unfold PrintsUnless at hp
  rw [if_neg hn] at hp
  obtain ⟨d, rfl, hd⟩ := hp
  unfold Speed at h
  rw [if_neg hn] at h
  obtain ⟨t, -, d', e, h2⟩ := h
  cases e
  exact ⟨d, rfl, (hd _).1 (hf.fixed 1 d (roundsTo_isDouble h2))⟩

theorem heading_shown {f : Fmt} (hf : FmtOk f) {raw : Nat} (hr : raw < 2 ^ 20) (hn : raw ≠ 511) {x : Option F64} (h : Heading raw x) :
    ∃ d, x = some d ∧ f.plain d = natStr raw := by
  have hp := display_heading raw hr x h
  unfold DisplaysHeading at hp
  rw [if_neg hn] at hp
  obtain ⟨d, rfl, hd⟩ := hp
  unfold Heading at h
  rw [if_neg hn] at h
  obtain ⟨d', e, h2⟩ := h
  cases e
  exact ⟨d, rfl, (hd _).1 (hf.plain d (roundsTo_isDouble h2))⟩

theorem result_isDouble {n : Number} {d : F64} (h : n.Result (some d)) : IsDouble d := by
  obtain ⟨v, hv, e⟩ := h
  cases e
  cases v with
  | fin b v => cases roundsTo_isDouble hv with | fin _ _ hr hlt => exact .fin _ _ hr hlt
  | inf b => exact .inf _
  | nan => exact .nan

/-- A number printed with `k` decimals, rounded. -/
theorem number_rounded (k : Nat) (n : Number) (hs : (n.whole * 10 ^ n.places + n.frac) * 10 ^ k < 10 ^ 15) (hp : n.places ≤ 15)
    {d : F64} (h : n.Result (some d)) (t : Str) (ht : Prints k d t) : RoundedText k n.minus n.mag t := by
  obtain ⟨d', hd, e⟩ := h
  cases e
  have p0 : (0 : Rat) < 10 ^ n.places := by positivity
  have k0 : (0 : Rat) < 10 ^ k := by positivity
  have hm : n.mag = ((n.whole * 10 ^ n.places + n.frac : Nat) : Rat) / ((10 ^ n.places : Nat) : Rat) := by
    unfold Number.mag; push_cast; field_simp
  generalize hz : n.whole * 10 ^ n.places + n.frac = z at hs hm
  have hq0 : 0 ≤ n.mag := by rw [hm]; positivity
  have hs' : (z : Rat) * 10 ^ k ≤ 10 ^ 15 := by exact_mod_cast hs.le
  have k1 : (1 : Rat) ≤ 10 ^ k := one_le_pow₀ (by norm_num)
  have hz15 : (z : Rat) ≤ 10 ^ 15 := le_trans (le_mul_of_one_le_right (by positivity) k1) hs'
  have hb : |n.mag| ≤ 10 ^ 15 := by
    rw [abs_of_nonneg hq0, hm]; push_cast; rw [div_le_iff₀ p0]
    have : (1 : Rat) ≤ 10 ^ n.places := one_le_pow₀ (by norm_num)
    nlinarith
  have he := (F64.roundsTo_iff _ _).mp hd
  rw [F64.ofRat_fin _ (F64.small_le _ (hb.trans (by norm_num))), abs_of_nonneg hq0, decide_eq_false (not_lt.2 hq0)] at he
  subst he
  rw [show signedF64 n.minus (.fin false (F64.roundMag n.mag)) = .fin n.minus (F64.roundMag n.mag) by simp [signedF64]] at ht
  rcases Nat.eq_zero_or_pos z with rfl | hz0
  · rw [hm] at ht ⊢
    rw [Nat.cast_zero, zero_div, F64.roundMag_zero] at ht
    rw [Nat.cast_zero, zero_div]
    exact ht
  have hbig : (2 : Rat) ^ (-1022 : Int) ≤ n.mag := by
    have h1 : (2 : Rat) ^ (-1022 : Int) ≤ 2 ^ (-64 : Int) := zpow_le_zpow_right₀ (by norm_num) (by norm_num)
    have h2 : (10 : Rat) ^ n.places ≤ 10 ^ 15 := pow_le_pow_right₀ (by norm_num) hp
    have h3 : (1 : Rat) ≤ z := by exact_mod_cast hz0
    refine h1.trans ?_
    rw [hm]; push_cast
    rw [le_div_iff₀ p0]
    have h4 : (2 : Rat) ^ (-64 : Int) * 10 ^ 15 ≤ 1 := by norm_num
    exact (mul_le_mul_of_nonneg_left h2 (by positivity)).trans (h4.trans h3)
  have herr := F64.roundMag_error n.mag hbig
  rw [hm] at ht herr ⊢
  refine rounded_grid k z _ (by positivity) _ _ t (lt_of_le_of_lt herr ?_) ht
  rw [lt_div_iff₀ (by positivity)]
  have h3 : (10 : Rat) ^ 15 * 2 ^ (-53 : Int) * 2 < 1 := by norm_num
  calc _ = (z : Rat) * 10 ^ k * (2 ^ (-53 : Int) * 2) := by push_cast; field_simp
    _ ≤ 10 ^ 15 * (2 ^ (-53 : Int) * 2) := mul_le_mul_of_nonneg_right hs' (by positivity)
    _ < 1 := by linarith

theorem number_shown {f : Fmt} (hf : FmtOk f) {n : Number} (hn : n.Ok) (hs : n.Short) {x : Option F64} (h : n.Result x) :
    ∃ d, x = some d ∧ f.plain d = trimText n.text := by
  obtain ⟨d, rfl, hd⟩ := display_number n hn x h hs
  exact ⟨d, rfl, (hd _).1 (hf.plain d (result_isDouble h))⟩

theorem angle_shown {f : Fmt} (hf : FmtOk f) {a : Angle} (ha : a.places ≤ 8) {x : Option F64} (h : a.Result x) :
    ∃ d, x = some d ∧ RoundedText 3 a.minus |a.value| (f.fixed 3 d) := by
  obtain ⟨d, rfl, hd⟩ := angle_print a x h
  obtain ⟨r, ⟨_, _, _, _, hr⟩, e, -⟩ := h
  cases e
  refine ⟨_, rfl, (hd 3 (by omega)).2 _ (hf.fixed 3 _ ?_)⟩
  cases roundsTo_isDouble hr with
  | fin _ _ hr hlt => exact .fin _ _ hr hlt

/-! ### Messages and readings -/

/-- C140: class A position reports. -/
theorem C140_position_A (f : Fmt) (hf : FmtOk f) (env : Env) (p : Parser) (s talker : Str) (own : Bool) (m : PositionA)
    (x : List Bool) (hm : m.Fits) (h : Delivers p s talker own (armor (m.bits ++ x))) :
    if m.speed = 1023 then EndsWith f env p s (linesText [c! "MMSI:    " ++ natStr m.mmsi]) .panicked
    else if m.heading = 511 then
      EndsWith f env p s (linesText [c! "MMSI:    " ++ natStr m.mmsi, c! "Speed:   " ++ decimalText 1 m.speed ++ c! " kts"])
        .panicked
    else
      GoesOn f env p s (linesText [c! "MMSI:    " ++ natStr m.mmsi, c! "Speed:   " ++ decimalText 1 m.speed ++ c! " kts",
        c! "Heading: " ++ natStr m.heading ++ c! "°", []]) := by
  obtain ⟨d, e, -, -, -, am, -, -, -, a1, -, a2, a3, a4, a5, -⟩ := C44_position_A env p s talker own m x hm h
  obtain ⟨-, -, -, -, -, h1, h2, h3, h4, h5, -⟩ := hm
  split
  · rename_i hs
    unfold Speed at a1
    rw [if_pos hs] at a1
    exact endsWith_of e [_] _ (by rw [sampleLines, a1, am]; rfl)
  · rename_i hs
    obtain ⟨v, e1, t1⟩ := speed_shown hf (by omega) hs a1
    split
    · rename_i hh
      unfold Heading at a5
      rw [if_pos hh] at a5
      exact endsWith_of e [_, _] _ (by rw [sampleLines, a5, e1, am, ← t1]; rfl)
    · rename_i hh
      obtain ⟨w, e2, t2⟩ := heading_shown hf (by omega) hh a5
      exact goesOn_of e [_, _, _, _] (by rw [sampleLines, e2, e1, am, ← t1, ← t2]; rfl)

/-- The formatting can be as assumed, and any report can be delivered. -/
example (env : Env) (p : Parser) (m : PositionA) (hm : m.Fits) : ∃ f, FmtOk f ∧
    (m.speed = 1023 → ∃ s, EndsWith f env p s (linesText [c! "MMSI:    " ++ natStr m.mmsi]) .panicked) := by
  obtain ⟨f, hf⟩ := fmt_exists
  refine ⟨f, hf, fun h => ?_⟩
  have := C140_position_A f hf env p _ (c! "AI") false m [] hm (deliverable p (c! "AI") false (m.bits ++ []) (by decide))
  rw [if_pos h] at this
  exact ⟨_, this⟩

/-- C140: class B position reports. -/
theorem C140_position_B (f : Fmt) (hf : FmtOk f) (env : Env) (p : Parser) (s talker : Str) (own : Bool) (m : PositionB)
    (x : List Bool) (hm : m.Fits) (h : Delivers p s talker own (armor (m.bits ++ x))) :
    if m.speed = 1023 then EndsWith f env p s (linesText [c! "MMSI:    " ++ natStr m.mmsi]) .panicked
    else if m.heading = 511 then
      EndsWith f env p s (linesText [c! "MMSI:    " ++ natStr m.mmsi, c! "Speed:   " ++ decimalText 1 m.speed ++ c! " kts"])
        .panicked
    else
      GoesOn f env p s (linesText [c! "MMSI:    " ++ natStr m.mmsi, c! "Speed:   " ++ decimalText 1 m.speed ++ c! " kts",
        c! "Heading: " ++ natStr m.heading ++ c! "°", []]) := by
  obtain ⟨d, e, -, -, -, am, a1, -, a2, a3, a4, a5, -⟩ := C50_position_B env p s talker own m x hm h
  obtain ⟨-, -, -, h1, h2, h3, h4, h5, -⟩ := hm
  split
  · rename_i hs
    unfold Speed at a1
    rw [if_pos hs] at a1
    exact endsWith_of e [_] _ (by rw [sampleLines, a1, am]; rfl)
  · rename_i hs
    obtain ⟨v, e1, t1⟩ := speed_shown hf (by omega) hs a1
    split
    · rename_i hh
      unfold Heading at a5
      rw [if_pos hh] at a5
      exact endsWith_of e [_, _] _ (by rw [sampleLines, a5, e1, am, ← t1]; rfl)
    · rename_i hh
      obtain ⟨w, e2, t2⟩ := heading_shown hf (by omega) hh a5
      exact goesOn_of e [_, _, _, _] (by rw [sampleLines, e2, e1, am, ← t1, ← t2]; rfl)

/-- The same for class B. -/
example (f : Fmt) (hf : FmtOk f) (env : Env) (p : Parser) (m : PositionB) (hm : m.Fits) :=
  C140_position_B f hf env p _ (c! "AI") false m [] hm (deliverable p (c! "AI") false (m.bits ++ []) (by decide))

/-- C140: every long-range report ends the program. -/
theorem C140_long_range (f : Fmt) (env : Env) (p : Parser) (s talker : Str) (own : Bool) (m : LongRange)
    (x : List Bool) (hm : m.Fits) (h : Delivers p s talker own (armor (m.bits ++ x))) :
    ∃ t, EndsWith f env p s t .panicked := by
  obtain ⟨d, e, -, -, -, am, -, -, -, -, -, -, -, -, -, a5, -⟩ := C53_long_range env p s talker own m x hm h
  cases h1 : d.sogKnots with
  | none => exact ⟨_, endsWith_of e [_] _ (by rw [sampleLines, h1]; rfl)⟩
  | some v => exact ⟨_, endsWith_of e [_, _] _ (by rw [sampleLines, h1, a5]; rfl)⟩

/-- Any long-range report can be delivered. -/
example (f : Fmt) (env : Env) (p : Parser) (m : LongRange) (hm : m.Fits) :=
  C140_long_range f env p _ (c! "AI") false m [] hm (deliverable p (c! "AI") false (m.bits ++ []) (by decide))

/-- The lines for static data. -/
def staticLines (mmsi : Nat) (flag name : Str) (ship : ShipType) : List Str :=
  [c! "MMSI:  " ++ natStr mmsi, c! "Flag:  " ++ flag, c! "Name:  " ++ name, c! "Type:  " ++ ship.label, []]

theorem static_text (f : Fmt) (env : Env) (p : Parser) (s : Str) (v : VesselStaticData)
    (e : (parseSentence env p s).1 = .ok (.vesselStaticData v)) :
    match v.country, v.name with
    | none, _ => EndsWith f env p s (linesText [c! "MMSI:  " ++ natStr v.mmsi]) .panicked
    | some c, none => EndsWith f env p s (linesText [c! "MMSI:  " ++ natStr v.mmsi, c! "Flag:  " ++ c]) .panicked
    | some c, some n => GoesOn f env p s (linesText (staticLines v.mmsi c n v.shipType)) := by
  cases h1 : v.country with
  | none => exact endsWith_of e [_] _ (by rw [sampleLines, h1]; rfl)
  | some c =>
    cases h2 : v.name with
    | none => exact endsWith_of e [_, _] _ (by rw [sampleLines, h1, h2]; rfl)
    | some n => exact goesOn_of e [_, _, _, _, _] (by rw [sampleLines, h1, h2]; rfl)

/-- C140: static and voyage data. (For the digits 445, 660 and 676 see C61.) -/
theorem C140_voyage (f : Fmt) (env : Env) (p : Parser) (s talker : Str) (own : Bool) (m : Voyage) (x : List Bool)
    (hm : m.Fits) (hd : EtaAbsent m.arrival ∨ IsDateTime (etaCandidate env.now m.arrival))
    (h : Delivers p s talker own (armor (m.bits ++ x))) (c : Str) (hc : Allocated (m.mmsi / 1000000) c)
    (hk : m.mmsi / 1000000 ∉ [445, 660, 676]) (hn : m.name ≠ []) :
    GoesOn f env p s (linesText (staticLines m.mmsi c m.name (reportedShip m.ship))) := by
  have e := C46_voyage env p s talker own m x hm hd h
  generalize hv : VesselStaticData.mk .. = v at e
  have h1 : v.mmsi = m.mmsi := by rw [← hv]
  have h2 : v.name = some m.name := by rw [← hv]; exact if_neg hn
  have h3 : v.shipType = reportedShip m.ship := by rw [← hv]
  have h4 := ((C61_country v c).1 (by rwa [h1])).2 (by rwa [h1])
  have := static_text f env p s v e
  rw [h2, h4, h1, h3] at this
  exact this

/-- A vessel of Panama. -/
example (f : Fmt) (p : Parser) := C140_voyage f demoEnv p _ (c! "AI") false
  ⟨0, 351759000, 0, 9134270, c! "3FOF8", c! "EVER DIADEM", 70, 225, 70, 1, 31, 1, 5, 15, 14, 0, 122, c! "NEW YORK", false, false⟩ []
  (by unfold Voyage.Fits; decide) (by decide) (deliverable p (c! "AI") false _ (by decide)) (c! "PA") (by decide +kernel)
  (by decide) (by decide)

/-- C140: they end the program if the vessel sends no name or its MMSI is not of a country. -/
theorem C140_voyage_ends (f : Fmt) (env : Env) (p : Parser) (s talker : Str) (own : Bool) (m : Voyage) (x : List Bool)
    (hm : m.Fits) (hd : EtaAbsent m.arrival ∨ IsDateTime (etaCandidate env.now m.arrival))
    (h : Delivers p s talker own (armor (m.bits ++ x))) (hc : m.name = [] ∨ ∀ c, ¬ Allocated (m.mmsi / 1000000) c) :
    ∃ t, EndsWith f env p s t .panicked := by
  have e := C46_voyage env p s talker own m x hm hd h
  generalize hv : VesselStaticData.mk .. = v at e
  have h1 : v.mmsi = m.mmsi := by rw [← hv]
  have h2 : v.name = nonEmpty m.name := by rw [← hv]
  have := static_text f env p s v e
  cases h4 : v.country with
  | none => rw [h4] at this; exact ⟨_, this⟩
  | some c =>
    rcases hc with hc | hc
    · rw [h4, h2, nonEmpty, if_pos hc] at this; exact ⟨_, this⟩
    · exfalso
      have hC := C61_country v c
      rw [h1] at hC
      by_cases hk : m.mmsi / 1000000 ∈ [445, 660, 676]
      · rcases List.mem_cons.1 hk with hk | hk
        · exact hc _ (by rw [hk]; exact (hC.2.1 hk).2)
        rcases List.mem_cons.1 hk with hk | hk
        · exact hc _ (by rw [hk]; exact (hC.2.2.1 hk).2)
        rcases List.mem_cons.1 hk with hk | hk
        · exact hc _ (by rw [hk]; exact (hC.2.2.2 hk).2)
        cases hk
      · exact hc c ((hC.1 hk).1 h4)

/-- A vessel without name. -/
example (f : Fmt) (p : Parser) := C140_voyage_ends f demoEnv p _ (c! "AI") false
  ⟨0, 351759000, 0, 9134270, c! "3FOF8", [], 70, 225, 70, 1, 31, 1, 5, 15, 14, 0, 122, c! "NEW YORK", false, false⟩ []
  (by unfold Voyage.Fits; decide) (by decide) (deliverable p (c! "AI") false _ (by decide)) (.inl rfl)

/-- C140: static data of class B, part B after part A. -/
theorem C140_static_B (f : Fmt) (env : Env) (p : Parser) (s talker : Str) (own own' : Bool) (m : StaticB) (a : StaticA)
    (x : List Bool) (hm : m.Fits) (h : Delivers p s talker own (armor (m.bits ++ x))) (ha : a.mmsi = m.mmsi)
    (hp : pendingStatic p m.mmsi = some (a.data own')) (c : Str) (hc : Allocated (m.mmsi / 1000000) c)
    (hk : m.mmsi / 1000000 ∉ [445, 660, 676]) (hn : a.name ≠ []) :
    GoesOn f env p s (linesText (staticLines m.mmsi c a.name (reportedShip m.ship))) := by
  have e := (C52_part_B_second env p s talker own own' m a x hm h ha hp).1
  generalize hv : VesselStaticData.mk .. = v at e
  have h1 : v.mmsi = m.mmsi := by rw [← hv]; rfl
  have h2 : v.name = some a.name := by rw [← hv]; exact if_neg hn
  have h3 : v.shipType = reportedShip m.ship := by rw [← hv]; rfl
  have h4 := ((C61_country v c).1 (by rwa [h1])).2 (by rwa [h1])
  have := static_text f env p s v e
  rw [h2, h4, h1, h3] at this
  exact this

/-- C140: fix data. The position is printed to the nearest. -/
theorem C140_gga (f : Fmt) (hf : FmtOk f) (env : Env) (p : Parser) (talker : Str) (h m s : Nat) (lat lon : Angle)
    (quality count : Nat) (hdop altitude geoid age : Number) (station : Nat) (sen : Str)
    (hg : IsGnss talker (c! "GGA") (Reading.gga h m s lat lon quality count hdop altitude geoid age station).fields sen)
    (hr : (Reading.gga h m s lat lon quality count hdop altitude geoid age station).Fits env.now)
    (h1 : lat.places ≤ 8) (h2 : lon.places ≤ 8) :
    ∃ t1 t2, RoundedText 3 lat.minus |lat.value| t1 ∧ RoundedText 3 lon.minus |lon.value| t2 ∧
      GoesOn f env p sen (linesText [c! "Source:    " ++ (talkerSystem talker).label, c! "Latitude:  " ++ t1 ++ c! "°",
        c! "Longitude: " ++ t2 ++ c! "°", []]) := by
  obtain ⟨d, e, hs, -, a1, a2, -⟩ := Reading.tells_any env p talker _ sen hg hr
  obtain ⟨v, e1, r1⟩ := angle_shown hf h1 a1
  obtain ⟨w, e2, r2⟩ := angle_shown hf h2 a2
  exact ⟨_, _, r1, r2, goesOn_of e [_, _, _, _] (by rw [sampleLines, e1, e2, hs]; rfl)⟩

/-- A fix at 48 degrees and 7.038 minutes north. -/
example (f : Fmt) (hf : FmtOk f) (p : Parser) : ∃ t1 t2 s, RoundedText 3 false |48 + 7038 / 1000 / 60| t1 ∧
    GoesOn f demoEnv p s (linesText [c! "Source:    GPS", c! "Latitude:  " ++ t1 ++ c! "°", c! "Longitude: " ++ t2 ++ c! "°", []]) := by
  have hr : (Reading.gga 12 35 19 ⟨false, 48, 7, 3, 38⟩ ⟨true, 11, 31, 3, 0⟩ 1 8 ⟨false, 0, 1, 9⟩ ⟨true, 545, 1, 4⟩ ⟨false, 46, 1, 9⟩
      ⟨false, 0, 1, 0⟩ 42).Fits demoEnv.now := by
    unfold Reading.Fits Angle.Ok Number.Ok; decide
  obtain ⟨t1, t2, r1, -, g⟩ := C140_gga f hf demoEnv p (c! "GP") _ _ _ _ _ _ _ _ _ _ _ _ _
    (Reading.tagged (c! "GP") _ demoEnv.now (by decide) hr) hr (by decide) (by decide)
  refine ⟨t1, t2, _, ?_, g⟩
  have e : (⟨false, 48, 7, 3, 38⟩ : Angle).value = 48 + 7038 / 1000 / 60 := by norm_num [Angle.value]
  rwa [e] at r1

/-! ### Dates -/

theorem digit_digitChar (d : Nat) (h : d < 10) : (c! "0123456789").getD d '0' = d.digitChar := by
  revert d; decide

theorem pad_padded (k n : Nat) (hk : 0 < k) (h : n < 10 ^ k) : pad k n = zeroPadded k n := by
  induction k generalizing n with
  | zero => omega
  | succ k ih =>
    unfold zeroPadded natStr
    rw [pad, digit_digitChar _ (Nat.mod_lt _ (by decide))]
    by_cases h10 : n < 10
    · rw [Nat.toDigits_of_lt_base h10, Nat.div_eq_of_lt h10, pad_zero, Nat.mod_eq_of_lt h10]
      rfl
    · rw [Nat.pow_succ] at h
      have hk' : 0 < k := by
        rcases Nat.eq_zero_or_pos k with rfl | hk'
        · simp at h; omega
        · exact hk'
      rw [Nat.toDigits_of_base_le (by decide) (by omega), ih (n / 10) hk' (by omega)]
      unfold zeroPadded natStr
      rw [List.append_assoc, List.length_append, List.length_singleton, Nat.add_sub_add_right]

theorem momentText_display (Y month day h m s : Nat) (hY : Y ≤ 9999) (hm : month < 100) (hd : day < 100) (hh : h < 100)
    (hi : m < 100) (hs : s < 100) : (DateTime.mk Y month day h m s).display = momentText Y month day h m s := by
  unfold DateTime.display momentText
  rw [if_pos ⟨Int.natCast_nonneg _, (by omega : (Y : Int) ≤ 9999)⟩, Int.toNat_natCast, pad_padded 4 Y (by decide) (by omega),
    pad_padded 2 month (by decide) (by omega), pad_padded 2 day (by decide) (by omega), pad_padded 2 h (by decide) (by omega),
    pad_padded 2 m (by decide) (by omega), pad_padded 2 s (by decide) (by omega)]
  simp [List.append_assoc]

theorem date_small {t : DateTime} (h : IsDateTime t) : t.month < 100 ∧ t.day < 100 ∧ t.hour < 100 ∧ t.minute < 100 ∧ t.second < 100 := by
  obtain ⟨-, ⟨h1, h2, h3, h4⟩, h5, h6, h7⟩ := h
  refine ⟨by omega, ?_, by omega, by omega, by omega⟩
  have : (monthDays t.year).getD (t.month - 1) 0 ≤ 31 := by
    have hk : t.month - 1 < 12 := by omega
    generalize t.month - 1 = k at hk
    unfold monthDays
    split <;> (revert k; decide)
  omega

/-- C140: minimum data. The speed is printed to the nearest, the bearing as it was sent. -/
theorem C140_rmc (f : Fmt) (hf : FmtOk f) (env : Env) (p : Parser) (talker : Str) (h m s : Nat) (active : Bool) (lat lon : Angle)
    (speed bearing : Number) (day month year : Nat) (variation : Number) (west : Bool) (sen : Str)
    (hg : IsGnss talker (c! "RMC") (Reading.rmc h m s active lat lon speed bearing day month year variation west).fields sen)
    (hr : (Reading.rmc h m s active lat lon speed bearing day month year variation west).Fits env.now)
    (Y : Nat) (hY : (Y : Int) = centuryOf env.now.year + year) (hY' : Y ≤ 9999)
    (h1 : (speed.whole * 10 ^ speed.places + speed.frac) * 10 < 10 ^ 15) (h2 : speed.places ≤ 15) (h3 : bearing.Short) :
    ∃ t, RoundedText 1 speed.minus speed.mag t ∧
      GoesOn f env p sen (linesText [c! "Source:  " ++ (talkerSystem talker).label, c! "Speed:   " ++ t ++ c! " kts",
        c! "Bearing: " ++ trimText bearing.text ++ c! "°", c! "Time:    " ++ momentText Y month day h m s, []]) := by
  obtain ⟨d, e, hs, ht, -, -, -, a1, a2, -⟩ := Reading.tells_any env p talker _ sen hg hr
  obtain ⟨-, hdt, -, -, -, hb, -⟩ := hr
  obtain ⟨w, e2, r2⟩ := number_shown hf hb h3 a2
  obtain ⟨v, e1⟩ : ∃ v, d.sogKnots = some v := by obtain ⟨v, -, hv⟩ := a1; exact ⟨_, hv⟩
  rw [e1] at a1
  refine ⟨_, number_rounded 1 speed (by simpa using h1) h2 a1 _ (hf.fixed 1 v (result_isDouble a1)), ?_⟩
  obtain ⟨s1, s2, s3, s4, s5⟩ := date_small hdt
  rw [← hY] at ht
  refine goesOn_of e [_, _, _, _, _] ?_
  rw [sampleLines, e1, e2, hs, ht, ← r2, ← momentText_display Y month day h m s hY' s1 s2 s3 s4 s5]
  rfl

/-- A bearing of `084.40` degrees is printed as 84.4. -/
example (f : Fmt) (hf : FmtOk f) (p : Parser) : ∃ t s, RoundedText 1 false (224 / 10) t ∧
    GoesOn f demoEnv p s (linesText [c! "Source:  GLONASS", c! "Speed:   " ++ t ++ c! " kts", c! "Bearing: 84.4°",
      c! "Time:    2024-02-29 22:54:46 UTC", []]) := by
  have hr : (Reading.rmc 22 54 46 true ⟨false, 49, 16, 2, 45⟩ ⟨true, 123, 11, 2, 12⟩ ⟨false, 22, 1, 4⟩ ⟨false, 84, 2, 40⟩ 29 2 24
      ⟨false, 3, 1, 1⟩ true).Fits demoEnv.now := by
    unfold Reading.Fits Angle.Ok Number.Ok; decide
  obtain ⟨t, r, g⟩ := C140_rmc f hf demoEnv p (c! "GL") _ _ _ _ _ _ _ _ _ _ _ _ _ _
    (Reading.tagged (c! "GL") _ demoEnv.now (by decide) hr) hr 2024 (by decide) (by decide) (by decide) (by decide)
    (by unfold Number.Short; decide)
  refine ⟨t, _, ?_, g⟩
  have e : (⟨false, 22, 1, 4⟩ : Number).mag = 224 / 10 := by norm_num [Number.mag]
  rwa [e] at r

/-! ### The sample itself -/

/-- C140: with the three sentences of the README the program prints the lines given there, whatever the clock shows. -/
theorem C140_readme (f : Fmt) (hf : FmtOk f) (e1 e2 e3 : Env) (h3 : IsDateTime e3.now) :
    sample f Parser.new
      [(e1, c! "!AIVDM,1,1,,A,H42O55i18tMET00000000000000,2*6D"), (e2, c! "!AIVDM,1,1,,A,H42O55lti4hhhilD3nink000?050,0*40"),
       (e3, c! "$GAGGA,123519,4807.038,N,01131.000,E,1,08,0.9,545.4,M,46.9,M,,*56")] =
    (c! "MMSI:  271041815\nFlag:  TR\nName:  PROGUY\nType:  passenger\n\nSource:    Galileo\nLatitude:  48.117°\nLongitude: 11.517°\n\n",
      .finished) := by
  have hA : StaticA.Fits ⟨0, 271041815, c! "PROGUY"⟩ := by unfold StaticA.Fits; decide
  have hB : StaticB.Fits ⟨0, 271041815, 60, c! "1D0", 12, 199796, c! "TC6163", 0, 15, 0, 5, 0⟩ := by unfold StaticB.Fits; decide
  have dA : Delivers Parser.new (c! "!AIVDM,1,1,,A,H42O55i18tMET00000000000000,2*6D") (c! "AI") false
      (armor (StaticA.bits ⟨0, 271041815, c! "PROGUY"⟩ ++ [false, false])) := by
    rw [show armor (StaticA.bits ⟨0, 271041815, c! "PROGUY"⟩ ++ [false, false]) = c! "H42O55i18tMET00000000000000" by
      decide +kernel]
    exact .single _ ⟨[c! "1", c! "1", [], c! "A", c! "H42O55i18tMET00000000000000", c! "2"], 1,
      demoTagged .full (by decide), demoDec (by decide), demoDec (by decide), rfl⟩
  have dB : ∀ p, Delivers p (c! "!AIVDM,1,1,,A,H42O55lti4hhhilD3nink000?050,0*40") (c! "AI") false
      (armor (StaticB.bits ⟨0, 271041815, 60, c! "1D0", 12, 199796, c! "TC6163", 0, 15, 0, 5, 0⟩ ++ [])) := by
    intro p
    rw [show armor (StaticB.bits ⟨0, 271041815, 60, c! "1D0", 12, 199796, c! "TC6163", 0, 15, 0, 5, 0⟩ ++ []) =
      c! "H42O55lti4hhhilD3nink000?050" by decide +kernel]
    exact .single _ ⟨[c! "1", c! "1", [], c! "A", c! "H42O55lti4hhhilD3nink000?050", c! "0"], 1,
      demoTagged .full (by decide), demoDec (by decide), demoDec (by decide), rfl⟩
  have hG : IsGnss (c! "GA") (c! "GGA") [c! "123519", c! "4807.038", c! "N", c! "01131.000", c! "E", c! "1", c! "08",
      c! "0.9", c! "545.4", c! "M", c! "46.9", c! "M", [], []]
      (c! "$GAGGA,123519,4807.038,N,01131.000,E,1,08,0.9,545.4,M,46.9,M,,*56") := demoTagged .full (by decide +kernel)
  obtain ⟨i1, w1⟩ := C52_part_A_first e1 Parser.new _ _ _ _ _ hA (.inl (by decide)) dA (by decide)
  have g1 := C140_quiet f e1 Parser.new _ _ i1 trivial
  have g2 := C140_static_B f e2 _ _ _ _ _ _ _ _ hB (dB _) (by rfl) w1 (c! "TR") (by decide +kernel) (by decide) (by decide)
  have g3 : ∀ p, GoesOn f e3 p (c! "$GAGGA,123519,4807.038,N,01131.000,E,1,08,0.9,545.4,M,46.9,M,,*56")
      (linesText [c! "Source:    Galileo", c! "Latitude:  48.117°", c! "Longitude: 11.517°", []]) := by
    intro p
    have a1 : (⟨false, 48, 7, 3, 38⟩ : Angle).Ok 90 := by unfold Angle.Ok; decide
    have a2 : (⟨false, 11, 31, 3, 0⟩ : Angle).Ok 180 := by unfold Angle.Ok; decide
    obtain ⟨-, hok, herr, hpan⟩ := C65_contents e3 p _ _ _ hG
    have htime := (time_field e3.now 12 35 19 (by decide) h3 _).mpr rfl
    generalize hr : (parseSentence e3 p _).1 = r at hok herr hpan
    cases r with
    | panic => exact absurd ⟨_, htime⟩ (hpan.mp rfl)
    | err e =>
      refine absurd ?_ (herr.mp ⟨e, rfl⟩).2
      exact ⟨angle_readable ⟨false, 48, 7, 3, 38⟩ 2 90 _ _ a1 (by decide) (by decide),
        angle_readable ⟨false, 11, 31, 3, 0⟩ 3 180 _ _ a2 (by decide) (by decide),
        ⟨_, nat_readable 255 1 (by decide)⟩, ⟨_, .inr ⟨8, demoDec (by decide), rfl⟩⟩,
        number_readable ⟨false, 0, 1, 9⟩ (by decide), number_readable ⟨false, 545, 1, 4⟩ (by decide),
        number_readable ⟨false, 46, 1, 9⟩ (by decide), ⟨none, .inl ⟨rfl, rfl⟩⟩, ⟨none, .inl ⟨rfl, rfl⟩⟩⟩
    | ok r =>
      obtain ⟨d, rfl, hd⟩ := (hok r).mp rfl
      obtain ⟨v, b1, r1⟩ := angle_shown hf (by decide)
        (angle_field ⟨false, 48, 7, 3, 38⟩ 2 90 'N' 'S' (by decide) a1 (by decide) (by decide) _ hd.latitude)
      obtain ⟨w, b2, r2⟩ := angle_shown hf (by decide)
        (angle_field ⟨false, 11, 31, 3, 0⟩ 3 180 'E' 'W' (by decide) a2 (by decide) (by decide) _ hd.longitude)
      have t1 := (rounded_exact 3 48117 false _ _ (by norm_num [Angle.value, abs_lt])).1 r1
      have t2 := (rounded_exact 3 11517 false _ _ (by norm_num [Angle.value, abs_lt])).1 r2
      refine goesOn_of hr [_, _, _, _] ?_
      rw [sampleLines, b1, b2, hd.source, Option.map_some, Option.map_some, t1, t2]
      decide
  rw [g1, g2, g3, sample]
  exact congrArg₂ Prod.mk (by decide +kernel) rfl

/-- The formatting can be as assumed; the second sentence is an example for C140_static_B. -/
example : ∃ f, FmtOk f ∧ (sample f Parser.new
      [(demoEnv, c! "!AIVDM,1,1,,A,H42O55i18tMET00000000000000,2*6D"), (demoEnv, c! "!AIVDM,1,1,,A,H42O55lti4hhhilD3nink000?050,0*40"),
       (demoEnv, c! "$GAGGA,123519,4807.038,N,01131.000,E,1,08,0.9,545.4,M,46.9,M,,*56")]).2 = .finished := by
  obtain ⟨f, hf⟩ := fmt_exists
  exact ⟨f, hf, by rw [C140_readme f hf demoEnv demoEnv demoEnv (by decide)]⟩

end Nmea
