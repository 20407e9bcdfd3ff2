/-
Outcomes of the GNSS sentences: accepted, refused or panicking.
-/
import Verif.Lemmas.GnssSays

namespace Nmea
open Spec

theorem not_panic_err {α : Type} (x : Out ParseError α) (hp : x ≠ .panic) : (∃ e, x = .err e) ↔ ¬ ∃ a, x = .ok a := by
  cases x with
  | ok a => simp
  | err e => simp
  | panic => exact absurd rfl hp

section
variable (env : Env) (p : Parser) (talker : Str) (fs : List Str) (s : Str)

theorem gga_panic (h : IsGnss talker (c! "GGA") fs s) :
    (parseSentence env p s).1 = .panic ↔ ¬ ∃ t, TimeField env.now (field fs 0) t := by
  rw [eval_gga env p talker fs s h]
  simp only [handleGga, gnss_split talker fs s _ (by decide) h, fieldAt_cons_succ, Out.bind_eq_panic]
  have hn : ∀ {α : Type} (x : Out ParseError α), x ≠ .panic → ∀ P : Prop, (x = .panic ∨ P) ↔ P := by
    intro α x hx P
    exact ⟨fun h => h.resolve_left hx, .inr⟩
  simp only [hn _ (lat_ne_panic _ _), hn _ (lon_ne_panic _ _), hn _ (numField_ne_panic _ _ _), reduceCtorEq, and_false, exists_false, or_false]
  simp only [← time_ok]
  cases ht : (Out.toOpt (parseHhmmss (field fs 0) env.now) : Out ParseError (Option DateTime)) with
  | ok a => simp
  | err e => exact absurd ht (time_ne_err _ _ _)
  | panic => simp

theorem rmc_panic (h : IsGnss talker (c! "RMC") fs s) :
    (parseSentence env p s).1 = .panic ↔ ¬ ∃ t, DateTimeField env.now (field fs 8) (field fs 0) t := by
  rw [eval_rmc env p talker fs s h]
  simp only [handleRmc, gnss_split talker fs s _ (by decide) h, fieldAt_cons_succ, Out.bind_eq_panic]
  have hn : ∀ {α : Type} (x : Out ParseError α), x ≠ .panic → ∀ P : Prop, (x = .panic ∨ P) ↔ P := by
    intro α x hx P
    exact ⟨fun h => h.resolve_left hx, .inr⟩
  simp only [hn _ (lat_ne_panic _ _), hn _ (lon_ne_panic _ _), hn _ (numField_ne_panic _ _ _), hn _ (letters_ne_panic _).1,
    hn _ (rmcVariation_ne_panic _), reduceCtorEq, and_false, exists_false, or_false]
  simp only [← dateTime_ok]
  cases ht : (Out.toOpt (parseYymmddHhmmss env.now (field fs 8) (field fs 0)) : Out ParseError (Option DateTime)) with
  | ok a => simp
  | err e => exact absurd ht (Out.toOpt_ne_err _ _)
  | panic => simp

theorem gsa_not_panic (h : IsGnss talker (c! "GSA") fs s) : (parseSentence env p s).1 ≠ .panic := by
  rw [eval_gsa env p talker fs s h]
  simp only [handleGsa, gnss_split talker fs s _ (by decide) h, fieldAt_cons_succ, ne_eq, Out.bind_eq_panic]
  have hn : ∀ {α : Type} (x : Out ParseError α), x ≠ .panic → ∀ P : Prop, (x = .panic ∨ P) ↔ P := by
    intro α x hx P
    exact ⟨fun h => h.resolve_left hx, .inr⟩
  simp only [hn _ (numField_ne_panic _ _ _), hn _ (letters_ne_panic _).2.1, hn _ (letters_ne_panic _).2.2,
    hn _ (gsaPrns_ne_panic _ _), reduceCtorEq, and_false, exists_false, not_false_eq_true]

theorem gll_panic (h : IsGnss talker (c! "GLL") fs s) :
    (parseSentence env p s).1 = .panic ↔ GllReadable fs ∧ ¬ ∃ t, TimeField env.now (field fs 4) t := by
  rw [eval_gll env p talker fs s h]
  simp only [handleGll, gnss_split talker fs s _ (by decide) h, fieldAt_cons_succ, Out.bind_eq_panic]
  have hn : ∀ {α : Type} (x : Out ParseError α), x ≠ .panic → ∀ P : Prop, (x = .panic ∨ P) ↔ P := by
    intro α x hx P
    exact ⟨fun h => h.resolve_left hx, .inr⟩
  simp only [hn _ (lat_ne_panic _ _), hn _ (lon_ne_panic _ _), reduceCtorEq, and_false, exists_false, or_false, lat_ok, lon_ok]
  simp only [← time_ok]
  cases ht : (Out.toOpt (parseHhmmss (field fs 4) env.now) : Out ParseError (Option DateTime)) with
  | ok a => simp
  | err e => exact absurd ht (time_ne_err _ _ _)
  | panic =>
    simp only [and_true, reduceCtorEq, exists_false, not_false_eq_true, GllReadable]
    constructor
    · rintro ⟨a, ha, b, hb⟩; exact ⟨⟨a, ha⟩, b, hb⟩
    · rintro ⟨⟨a, ha⟩, b, hb⟩; exact ⟨a, ha, b, hb⟩

theorem gga_refused (h : IsGnss talker (c! "GGA") fs s) :
    (∃ e, (parseSentence env p s).1 = .err e) ↔ (∃ t, TimeField env.now (field fs 0) t) ∧ ¬ GgaReadable fs := by
  by_cases ht : ∃ t, TimeField env.now (field fs 0) t
  · rw [not_panic_err _ (fun hp => (gga_panic env p talker fs s h).mp hp ht)]
    simp only [ht, true_and]
    apply not_congr
    simp only [gga_ok env p talker fs s h]
    constructor
    · rintro ⟨r, d, -, -, h1, h2, h3, ⟨q, h4, -⟩, h5, h6, h7, h8, h9, h10⟩
      exact ⟨⟨_, h2⟩, ⟨_, h3⟩, ⟨_, h4⟩, ⟨_, h5⟩, ⟨_, h6⟩, ⟨_, h7⟩, ⟨_, h8⟩, ⟨_, h9⟩, ⟨_, h10⟩⟩
    · rintro ⟨⟨_, h2⟩, ⟨_, h3⟩, ⟨q, h4⟩, ⟨_, h5⟩, ⟨_, h6⟩, ⟨_, h7⟩, ⟨_, h8⟩, ⟨_, h9⟩, ⟨_, h10⟩⟩
      obtain ⟨t, h1⟩ := ht
      exact ⟨_, ⟨talkerSystem talker, _, _, _, qualities.getD (q.getD 0) .invalid, _, _, _, _, _, _⟩, rfl,
        rfl, h1, h2, h3, ⟨q, h4, rfl⟩, h5, h6, h7, h8, h9, h10⟩
  · rw [(gga_panic env p talker fs s h).mpr ht]
    simp [ht]

theorem rmc_refused (h : IsGnss talker (c! "RMC") fs s) :
    (∃ e, (parseSentence env p s).1 = .err e) ↔
      (∃ t, DateTimeField env.now (field fs 8) (field fs 0) t) ∧ ¬ RmcReadable fs := by
  by_cases ht : ∃ t, DateTimeField env.now (field fs 8) (field fs 0) t
  · rw [not_panic_err _ (fun hp => (rmc_panic env p talker fs s h).mp hp ht)]
    simp only [ht, true_and]
    apply not_congr
    simp only [rmc_ok env p talker fs s h]
    constructor
    · rintro ⟨r, d, -, -, h1, h2, h3, h4, h5, h6, h7⟩
      exact ⟨⟨_, h2⟩, ⟨_, h3⟩, ⟨_, h4⟩, ⟨_, h5⟩, ⟨_, h6⟩, ⟨_, h7⟩⟩
    · rintro ⟨⟨_, h2⟩, ⟨_, h3⟩, ⟨_, h4⟩, ⟨_, h5⟩, ⟨_, h6⟩, ⟨_, h7⟩⟩
      obtain ⟨t, h1⟩ := ht
      exact ⟨_, ⟨talkerSystem talker, _, _, _, _, _, _, _⟩, rfl, rfl, h1, h2, h3, h4, h5, h6, h7⟩
  · rw [(rmc_panic env p talker fs s h).mpr ht]
    simp [ht]

theorem forall2_exists {α β : Type} {R : α → β → Prop} (l : List α) (h : ∀ a ∈ l, ∃ b, R a b) : ∃ m, List.Forall₂ R l m := by
  induction l with
  | nil => exact ⟨[], .nil⟩
  | cons a l ih =>
    obtain ⟨b, hb⟩ := h a (by simp)
    obtain ⟨m, hm⟩ := ih (fun x hx => h x (by simp [hx]))
    exact ⟨b :: m, .cons hb hm⟩

theorem forall2_left {α β : Type} {R : α → β → Prop} {l : List α} {m : List β} (h : List.Forall₂ R l m) :
    ∀ a ∈ l, ∃ b, R a b := by
  induction h with
  | nil => intro a ha; cases ha
  | cons hd _ ih =>
    intro a ha
    rcases List.mem_cons.mp ha with rfl | ha
    · exact ⟨_, hd⟩
    · exact ih a ha

theorem gsa_refused (h : IsGnss talker (c! "GSA") fs s) :
    (∃ e, (parseSentence env p s).1 = .err e) ↔ ¬ GsaReadable fs := by
  rw [not_panic_err _ (gsa_not_panic env p talker fs s h)]
  apply not_congr
  simp only [gsa_ok env p talker fs s h]
  constructor
  · rintro ⟨r, d, -, -, h1, h2, h3, h4, h5, h6⟩
    refine ⟨⟨_, h1⟩, ⟨_, h2⟩, ?_, ⟨_, h4⟩, ⟨_, h5⟩, ⟨_, h6⟩⟩
    intro i hi
    by_cases he : field fs (i + 2) = []
    · exact ⟨none, .inl ⟨he, rfl⟩⟩
    · obtain ⟨n, hn⟩ := forall2_left h3 (field fs (i + 2)) (by
        rw [List.mem_filter]
        exact ⟨List.mem_map.mpr ⟨i, List.mem_range.mpr hi, rfl⟩, by simpa using he⟩)
      exact ⟨some n, .inr ⟨n, hn, rfl⟩⟩
  · rintro ⟨⟨_, h1⟩, ⟨_, h2⟩, h3, ⟨_, h4⟩, ⟨_, h5⟩, ⟨_, h6⟩⟩
    obtain ⟨l, hl⟩ := forall2_exists (R := Dec 255)
      (((List.range 12).map (fun i => field fs (i + 2))).filter (fun s => s ≠ [])) (by
        intro a ha
        rw [List.mem_filter, List.mem_map] at ha
        obtain ⟨⟨i, hi, rfl⟩, hne⟩ := ha
        obtain ⟨x, ⟨he, -⟩ | ⟨n, hn, -⟩⟩ := h3 i (List.mem_range.mp hi)
        · exact absurd he (by simpa using hne)
        · exact ⟨n, hn⟩)
    exact ⟨_, ⟨talkerSystem talker, _, _, l, _, _, _⟩, rfl, rfl, h1, h2, hl, h4, h5, h6⟩

theorem gll_refused (h : IsGnss talker (c! "GLL") fs s) :
    (∃ e, (parseSentence env p s).1 = .err e) ↔ ¬ GllReadable fs := by
  by_cases hr : GllReadable fs
  · by_cases ht : ∃ t, TimeField env.now (field fs 4) t
    · rw [not_panic_err _ (fun hp => ((gll_panic env p talker fs s h).mp hp).2 ht)]
      apply not_congr
      simp only [hr, iff_true]
      obtain ⟨⟨_, h1⟩, _, h2⟩ := hr
      obtain ⟨t, h3⟩ := ht
      exact ⟨_, (gll_ok env p talker fs s h _).mpr ⟨⟨talkerSystem talker, _, _, t, statusTable.lookup (field fs 5), faaTable.lookup (field fs 6)⟩,
        rfl, rfl, h1, h2, h3, rfl, rfl⟩⟩
    · rw [(gll_panic env p talker fs s h).mpr ⟨hr, ht⟩]
      simp [hr]
  · rw [not_panic_err _ (fun hp => hr ((gll_panic env p talker fs s h).mp hp).1)]
    apply not_congr
    simp only [hr, iff_false]
    rintro ⟨r, hok⟩
    obtain ⟨d, -, -, h1, h2, -⟩ := (gll_ok env p talker fs s h _).mp hok
    exact hr ⟨⟨_, h1⟩, _, h2⟩

/-! ### Results depend only on the first fields -/

theorem numField_congr {α : Type} (parse : Str → Option α) (t : Str) (fs fs' : List Str) (i : Nat) (h : field fs i = field fs' i) :
    numField parse (t :: fs) (i + 1) = numField parse (t :: fs') (i + 1) := by
  simp only [numField, pickNumberField, fieldAt_cons_succ, h]

theorem numFieldOrNone_congr {α : Type} (parse : Str → Option α) (t : Str) (fs fs' : List Str) (i : Nat) (h : field fs i = field fs' i) :
    numFieldOrNone parse (t :: fs) (i + 1) = numFieldOrNone parse (t :: fs') (i + 1) := by
  simp only [numFieldOrNone, pickNumberField, fieldAt_cons_succ, h]

theorem gsaPrns_congr (t : Str) (fs fs' : List Str) (is : List Nat) (h : ∀ i ∈ is, 0 < i ∧ field fs (i - 1) = field fs' (i - 1)) :
    gsaPrns (t :: fs) is = gsaPrns (t :: fs') is := by
  induction is with
  | nil => rfl
  | cons i is ih =>
    obtain ⟨h0, h1⟩ := h i (by simp)
    obtain ⟨j, rfl⟩ : ∃ j, i = j + 1 := ⟨i - 1, by omega⟩
    simp only [Nat.add_sub_cancel] at h1
    simp only [gsaPrns, fieldAt_cons_succ, h1, numField_congr parseU8 t fs fs' j h1, ih (fun k hk => h k (by simp [hk]))]

theorem congr_gga (t : Str) (now : DateTime) (nav : NavigationSystem) (fs' : List Str)
    (h1 : splitChar ',' (join t fs) = t :: fs) (h2 : splitChar ',' (join t fs') = t :: fs') (hf : ∀ i < 14, field fs i = field fs' i) :
    handleGga now (join t fs) nav = handleGga now (join t fs') nav := by
  simp only [handleGga, h1, h2, fieldAt_cons_succ, hf 0 (by decide), hf 1 (by decide), hf 2 (by decide), hf 3 (by decide),
    hf 4 (by decide), numField_congr _ t fs fs' 5 (hf 5 (by decide)), numField_congr _ t fs fs' 6 (hf 6 (by decide)),
    numField_congr _ t fs fs' 7 (hf 7 (by decide)), numField_congr _ t fs fs' 8 (hf 8 (by decide)),
    numField_congr _ t fs fs' 10 (hf 10 (by decide)), numField_congr _ t fs fs' 12 (hf 12 (by decide)),
    numField_congr _ t fs fs' 13 (hf 13 (by decide))]

theorem congr_rmc (t : Str) (now : DateTime) (nav : NavigationSystem) (fs' : List Str)
    (h1 : splitChar ',' (join t fs) = t :: fs) (h2 : splitChar ',' (join t fs') = t :: fs') (hf : ∀ i < 11, field fs i = field fs' i) :
    handleRmc now (join t fs) nav = handleRmc now (join t fs') nav := by
  simp only [handleRmc, rmcVariation, h1, h2, fieldAt_cons_succ, hf 0 (by decide), hf 1 (by decide), hf 2 (by decide), hf 3 (by decide),
    hf 4 (by decide), hf 5 (by decide), hf 8 (by decide), hf 10 (by decide), numField_congr _ t fs fs' 6 (hf 6 (by decide)),
    numField_congr _ t fs fs' 7 (hf 7 (by decide)), numField_congr _ t fs fs' 9 (hf 9 (by decide))]

theorem congr_gsa (t : Str) (nav : NavigationSystem) (fs' : List Str)
    (h1 : splitChar ',' (join t fs) = t :: fs) (h2 : splitChar ',' (join t fs') = t :: fs') (hf : ∀ i < 17, field fs i = field fs' i) :
    handleGsa (join t fs) nav = handleGsa (join t fs') nav := by
  have hp : gsaPrns (t :: fs) (List.range' 3 12) = gsaPrns (t :: fs') (List.range' 3 12) := by
    apply gsaPrns_congr
    intro i hi
    have := List.mem_range'_1.mp hi
    exact ⟨by omega, hf _ (by omega)⟩
  simp only [handleGsa, h1, h2, fieldAt_cons_succ, hf 0 (by decide), hf 1 (by decide), hp,
    numField_congr _ t fs fs' 14 (hf 14 (by decide)), numField_congr _ t fs fs' 15 (hf 15 (by decide)),
    numField_congr _ t fs fs' 16 (hf 16 (by decide))]

theorem congr_vtg (t : Str) (nav : NavigationSystem) (fs' : List Str)
    (h1 : splitChar ',' (join t fs) = t :: fs) (h2 : splitChar ',' (join t fs') = t :: fs') (hf : ∀ i < 9, field fs i = field fs' i) :
    handleVtg (join t fs) nav = handleVtg (join t fs') nav := by
  simp only [handleVtg, h1, h2, fieldAt_cons_succ, hf 8 (by decide),
    numFieldOrNone_congr _ t fs fs' 0 (hf 0 (by decide)), numFieldOrNone_congr _ t fs fs' 2 (hf 2 (by decide)),
    numFieldOrNone_congr _ t fs fs' 4 (hf 4 (by decide)), numFieldOrNone_congr _ t fs fs' 6 (hf 6 (by decide))]

theorem congr_gll (t : Str) (now : DateTime) (nav : NavigationSystem) (fs' : List Str)
    (h1 : splitChar ',' (join t fs) = t :: fs) (h2 : splitChar ',' (join t fs') = t :: fs') (hf : ∀ i < 7, field fs i = field fs' i) :
    handleGll now (join t fs) nav = handleGll now (join t fs') nav := by
  simp only [handleGll, h1, h2, fieldAt_cons_succ, hf 0 (by decide), hf 1 (by decide), hf 2 (by decide), hf 3 (by decide),
    hf 4 (by decide), hf 5 (by decide), hf 6 (by decide)]

end

end Nmea
