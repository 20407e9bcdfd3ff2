/-
What the handlers of the GNSS sentences return, in terms of the fields.
-/
import Verif.Lemmas.Gnss

namespace Nmea
open Spec

theorem quality_eq (n : Nat) : GgaQualityIndicator.new n = qualities.getD n .invalid := by
  unfold GgaQualityIndicator.new qualities
  split <;> first | rfl | skip
  rename_i h0 h1 h2 h3 h4 h5 h6 h7 h8
  match n with
  | 0 | 1 | 2 | 3 | 4 | 5 | 6 | 7 | 8 => simp_all
  | n + 9 => rfl

theorem faaOrNone_eq (s : Str) : faaOrNone s = faaTable.lookup s := by
  unfold faaOrNone FaaMode.new faaTable
  simp only [List.lookup]
  repeat' split
  all_goals simp_all

theorem gllValid_eq (s : Str) : gllValid s = statusTable.lookup s := by
  unfold gllValid statusTable
  simp only [List.lookup]
  repeat' split
  all_goals simp_all

theorem rmcStatus_ok (s : Str) (x : Option Bool) : rmcStatus s = .ok x ↔ LetterField statusTable s x := by
  unfold rmcStatus LetterField statusTable
  by_cases h1 : s = c! "A"
  · subst h1; simp [eq_comm]
  by_cases h2 : s = c! "V"
  · subst h2; simp [eq_comm]
  by_cases h3 : s = []
  · subst h3; simp [eq_comm]
  simp [h1, h2, h3]

theorem gsaMode1_ok (s : Str) (x : Option Bool) : gsaMode1 s = .ok x ↔ LetterField modeTable s x := by
  unfold gsaMode1 LetterField modeTable
  by_cases h1 : s = c! "A"
  · subst h1; simp [eq_comm]
  by_cases h2 : s = c! "M"
  · subst h2; simp [eq_comm]
  by_cases h3 : s = []
  · subst h3; simp [eq_comm]
  simp [h1, h2, h3]

theorem gsaMode2_ok (s : Str) (x : Option GsaFixMode) : gsaMode2 s = .ok x ↔ LetterField fixTypes s x := by
  unfold gsaMode2 LetterField fixTypes
  by_cases h1 : s = c! "1"
  · subst h1; simp [eq_comm]
  by_cases h2 : s = c! "2"
  · subst h2; simp [eq_comm]
  by_cases h4 : s = c! "3"
  · subst h4; simp [eq_comm]
  by_cases h3 : s = []
  · subst h3; simp [eq_comm]
  simp [h1, h2, h3, h4]

theorem letters_ne_panic (s : Str) : rmcStatus s ≠ .panic ∧ gsaMode1 s ≠ .panic ∧ gsaMode2 s ≠ .panic := by
  unfold rmcStatus gsaMode1 gsaMode2
  refine ⟨?_, ?_, ?_⟩ <;> (repeat' split) <;> simp

theorem neg_eq (d : F64) : d.neg = signedF64 true d := by
  cases d <;> simp [F64.neg, signedF64]

theorem rmcVariation_ok (split : List Str) (x : Option F64) :
    rmcVariation split = .ok x ↔ VariationField (fieldAt split 10) (fieldAt split 11) x := by
  unfold rmcVariation VariationField
  simp only [Out.bind_eq_ok, numField_f64]
  constructor
  · rintro ⟨v, ⟨h, rfl⟩ | ⟨d, h, rfl⟩, hx⟩
    · cases hx; exact .inl ⟨h, rfl⟩
    · refine .inr ⟨d, h, ?_⟩
      simp only at hx
      split at hx
      · rename_i hs; cases hx; exact .inl ⟨hs, rfl⟩
      · split at hx
        · rename_i hs; cases hx; exact .inr ⟨hs, by rw [neg_eq]⟩
        · cases hx
  · rintro (⟨h, rfl⟩ | ⟨d, h, ⟨hs, rfl⟩ | ⟨hs, rfl⟩⟩)
    · exact ⟨none, .inl ⟨h, rfl⟩, rfl⟩
    · refine ⟨some d, .inr ⟨d, h, rfl⟩, ?_⟩
      simp only [hs, if_true]
    · refine ⟨some d, .inr ⟨d, h, rfl⟩, ?_⟩
      simp only [hs]
      rw [neg_eq]
      rfl

theorem rmcVariation_ne_panic (split : List Str) : rmcVariation split ≠ .panic := by
  unfold rmcVariation
  rw [ne_eq, Out.bind_eq_panic]
  rintro (h | ⟨v, -, h⟩)
  · exact numField_ne_panic _ _ _ h
  · split at h
    · simp only at h
      split at h
      · cases h
      · split at h <;> cases h
    · cases h

theorem gsaPrns_ok (split : List Str) (is : List Nat) (l : List Nat) :
    gsaPrns split is = .ok l ↔
      List.Forall₂ (Dec 255) ((is.map (fieldAt split)).filter (fun s => s ≠ [])) l := by
  induction is generalizing l with
  | nil =>
    simp only [gsaPrns, List.map_nil, List.filter_nil, List.forall₂_nil_left_iff, Out.ok.injEq, eq_comm]
  | cons i is ih =>
    simp only [gsaPrns, List.map_cons]
    by_cases h : fieldAt split i = []
    · rw [if_neg (by simpa using h), List.filter_cons_of_neg (by simpa using h)]
      exact ih l
    · rw [if_pos h, List.filter_cons_of_pos (by simpa using h)]
      cases hv : numField parseU8 split i with
      | err e =>
        simp only [reduceCtorEq, false_iff]
        intro hf
        cases hf with
        | cons hd _ =>
          rw [(numField_int parseU8_iff split i _).mpr (.inr ⟨_, hd, rfl⟩)] at hv
          cases hv
      | panic => exact absurd hv (numField_ne_panic _ _ _)
      | ok v =>
        rcases (numField_int parseU8_iff split i v).mp hv with ⟨h', -⟩ | ⟨n, hd, rfl⟩
        · exact absurd h' h
        · simp only
          cases hr : gsaPrns split is with
          | ok r =>
            simp only [Out.ok.injEq]
            constructor
            · rintro rfl
              exact .cons hd ((ih r).mp hr)
            · intro hf
              cases hf with
              | cons hd' hf' =>
                have := (ih _).mpr hf'
                rw [hr] at this
                cases this
                rw [Dec.unique hd hd']
          | err e =>
            simp only [reduceCtorEq, false_iff]
            intro hf
            cases hf with
            | cons hd' hf' =>
              have := (ih _).mpr hf'
              rw [hr] at this
              cases this
          | panic =>
            simp only [reduceCtorEq, false_iff]
            intro hf
            cases hf with
            | cons hd' hf' =>
              have := (ih _).mpr hf'
              rw [hr] at this
              cases this

theorem gsaPrns_ne_panic (split : List Str) (is : List Nat) : gsaPrns split is ≠ .panic := by
  induction is with
  | nil => simp [gsaPrns]
  | cons i is ih =>
    simp only [gsaPrns]
    split
    · cases hv : numField parseU8 split i with
      | err e => simp
      | panic => exact absurd hv (numField_ne_panic _ _ _)
      | ok v =>
        simp only
        cases hr : gsaPrns split is with
        | ok r => simp
        | err e => simp
        | panic => exact absurd hr ih
    · exact ih

section
variable (env : Env) (p : Parser) (talker : Str) (fs : List Str) (s : Str)

theorem gnss_split (kind : Str) (hc : ',' ∉ kind) (h : IsGnss talker kind fs s) :
    splitChar ',' (join (tag '$' talker kind) fs) = tag '$' talker kind :: fs :=
  splitChar_tag '$' talker kind fs (by decide) h.1 hc h.2.1

theorem eval_gga (h : IsGnss talker (c! "GGA") fs s) :
    parseSentence env p s = (handleGga env.now (join (tag '$' talker (c! "GGA")) fs) (talkerSystem talker), p) := by
  cases eval_gnss env p talker _ fs s (by decide) (by decide) h with
  | gga _ h => exact h
  | rmc hk _ => exact absurd hk (by decide)
  | gsa hk _ => exact absurd hk (by decide)
  | gsv hk _ => exact absurd hk (by decide)
  | vtg hk _ => exact absurd hk (by decide)
  | gll hk _ => exact absurd hk (by decide)
  | other hk _ => exact absurd (by decide) hk

theorem eval_rmc (h : IsGnss talker (c! "RMC") fs s) :
    parseSentence env p s = (handleRmc env.now (join (tag '$' talker (c! "RMC")) fs) (talkerSystem talker), p) := by
  cases eval_gnss env p talker _ fs s (by decide) (by decide) h with
  | gga hk _ => exact absurd hk (by decide)
  | rmc _ h => exact h
  | gsa hk _ => exact absurd hk (by decide)
  | gsv hk _ => exact absurd hk (by decide)
  | vtg hk _ => exact absurd hk (by decide)
  | gll hk _ => exact absurd hk (by decide)
  | other hk _ => exact absurd (by decide) hk

theorem eval_gsa (h : IsGnss talker (c! "GSA") fs s) :
    parseSentence env p s = (handleGsa (join (tag '$' talker (c! "GSA")) fs) (talkerSystem talker), p) := by
  cases eval_gnss env p talker _ fs s (by decide) (by decide) h with
  | gga hk _ => exact absurd hk (by decide)
  | rmc hk _ => exact absurd hk (by decide)
  | gsa _ h => exact h
  | gsv hk _ => exact absurd hk (by decide)
  | vtg hk _ => exact absurd hk (by decide)
  | gll hk _ => exact absurd hk (by decide)
  | other hk _ => exact absurd (by decide) hk

theorem eval_vtg (h : IsGnss talker (c! "VTG") fs s) :
    parseSentence env p s = (handleVtg (join (tag '$' talker (c! "VTG")) fs) (talkerSystem talker), p) := by
  cases eval_gnss env p talker _ fs s (by decide) (by decide) h with
  | gga hk _ => exact absurd hk (by decide)
  | rmc hk _ => exact absurd hk (by decide)
  | gsa hk _ => exact absurd hk (by decide)
  | gsv hk _ => exact absurd hk (by decide)
  | vtg _ h => exact h
  | gll hk _ => exact absurd hk (by decide)
  | other hk _ => exact absurd (by decide) hk

theorem eval_gll (h : IsGnss talker (c! "GLL") fs s) :
    parseSentence env p s = (handleGll env.now (join (tag '$' talker (c! "GLL")) fs) (talkerSystem talker), p) := by
  cases eval_gnss env p talker _ fs s (by decide) (by decide) h with
  | gga hk _ => exact absurd hk (by decide)
  | rmc hk _ => exact absurd hk (by decide)
  | gsa hk _ => exact absurd hk (by decide)
  | gsv hk _ => exact absurd hk (by decide)
  | vtg hk _ => exact absurd hk (by decide)
  | gll _ h => exact h
  | other hk _ => exact absurd (by decide) hk

theorem gga_ok (h : IsGnss talker (c! "GGA") fs s) (r : ParsedSentence) :
    (parseSentence env p s).1 = .ok r ↔ ∃ d, r = .gga d ∧ GgaSays env.now talker fs d := by
  rw [eval_gga env p talker fs s h]
  simp only [handleGga, gnss_split talker fs s _ (by decide) h, fieldAt_cons_succ, Out.bind_eq_ok, time_ok, lat_ok, lon_ok,
    numField_int parseU8_iff, numField_int parseU16_iff, numField_f64, quality_eq]
  constructor
  · rintro ⟨t, h1, la, h2, lo, h3, q, h4, n, h5, hd, h6, al, h7, ge, h8, ag, h9, st, h10, he⟩
    cases he
    exact ⟨_, rfl, rfl, h1, h2, h3, ⟨q, h4, rfl⟩, h5, h6, h7, h8, h9, h10⟩
  · rintro ⟨d, rfl, h0, h1, h2, h3, ⟨q, h4, h4'⟩, h5, h6, h7, h8, h9, h10⟩
    refine ⟨_, h1, _, h2, _, h3, _, h4, _, h5, _, h6, _, h7, _, h8, _, h9, _, h10, ?_⟩
    rw [← h0, ← h4']

theorem rmc_ok (h : IsGnss talker (c! "RMC") fs s) (r : ParsedSentence) :
    (parseSentence env p s).1 = .ok r ↔ ∃ d, r = .rmc d ∧ RmcSays env.now talker fs d := by
  rw [eval_rmc env p talker fs s h]
  simp only [handleRmc, gnss_split talker fs s _ (by decide) h, fieldAt_cons_succ, Out.bind_eq_ok, dateTime_ok, lat_ok, lon_ok,
    numField_f64, rmcStatus_ok, rmcVariation_ok]
  constructor
  · rintro ⟨t, h1, st, h2, la, h3, lo, h4, so, h5, be, h6, va, h7, he⟩
    cases he
    exact ⟨_, rfl, rfl, h1, h2, h3, h4, h5, h6, h7⟩
  · rintro ⟨d, rfl, h0, h1, h2, h3, h4, h5, h6, h7⟩
    refine ⟨_, h1, _, h2, _, h3, _, h4, _, h5, _, h6, _, h7, ?_⟩
    rw [← h0]

theorem prn_fields (t : Str) : (List.range' 3 12).map (fieldAt (t :: fs)) = (List.range 12).map (fun i => field fs (i + 2)) := by
  simp only [List.range', List.range, List.range.loop, List.map_cons, List.map_nil, fieldAt_cons_succ]

theorem gsa_ok (h : IsGnss talker (c! "GSA") fs s) (r : ParsedSentence) :
    (parseSentence env p s).1 = .ok r ↔ ∃ d, r = .gsa d ∧ GsaSays talker fs d := by
  rw [eval_gsa env p talker fs s h]
  simp only [handleGsa, gnss_split talker fs s _ (by decide) h, fieldAt_cons_succ, Out.bind_eq_ok,
    numField_f64, gsaMode1_ok, gsaMode2_ok, gsaPrns_ok, prn_fields]
  constructor
  · rintro ⟨m1, h1, m2, h2, pr, h3, pd, h4, hd, h5, vd, h6, he⟩
    cases he
    exact ⟨_, rfl, rfl, h1, h2, h3, h4, h5, h6⟩
  · rintro ⟨d, rfl, h0, h1, h2, h3, h4, h5, h6⟩
    refine ⟨_, h1, _, h2, _, h3, _, h4, _, h5, _, h6, ?_⟩
    rw [← h0]

theorem vtg_ok (h : IsGnss talker (c! "VTG") fs s) :
    ∃ d, (parseSentence env p s).1 = .ok (.vtg d) ∧ ∀ d', VtgSays talker fs d' ↔ d' = d := by
  rw [eval_vtg env p talker fs s h]
  refine ⟨_, rfl, ?_⟩
  simp only [gnss_split talker fs s _ (by decide) h, faaOrNone_eq, fieldAt_cons_succ]
  intro d'
  have e : ∀ i x, LenientField (field fs i) x ↔ numFieldOrNone F64.parse (tag '$' talker (c! "VTG") :: fs) (i + 1) = x := by
    intro i x
    rw [lenient_iff, fieldAt_cons_succ]
  constructor
  · rintro ⟨h0, h1, h2, h3, h4, h5⟩
    rw [e] at h1 h2 h3 h4
    obtain ⟨_, _, _, _, _, _⟩ := d'
    simp only at h0 h1 h2 h3 h4 h5
    rw [h0, ← h1, ← h2, ← h3, ← h4, h5]
  · rintro rfl
    exact ⟨rfl, (e _ _).mpr rfl, (e _ _).mpr rfl, (e _ _).mpr rfl, (e _ _).mpr rfl, rfl⟩

theorem gll_ok (h : IsGnss talker (c! "GLL") fs s) (r : ParsedSentence) :
    (parseSentence env p s).1 = .ok r ↔ ∃ d, r = .gll d ∧ GllSays env.now talker fs d := by
  rw [eval_gll env p talker fs s h]
  simp only [handleGll, gnss_split talker fs s _ (by decide) h, fieldAt_cons_succ, Out.bind_eq_ok, time_ok, lat_ok, lon_ok,
    gllValid_eq, faaOrNone_eq]
  constructor
  · rintro ⟨la, h1, lo, h2, t, h3, he⟩
    cases he
    exact ⟨_, rfl, rfl, h1, h2, h3, rfl, rfl⟩
  · rintro ⟨d, rfl, h0, h1, h2, h3, h4, h5⟩
    refine ⟨_, h1, _, h2, _, h3, ?_⟩
    rw [← h0, ← h4, ← h5]

end

end Nmea
