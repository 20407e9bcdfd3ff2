/-
C154: small letters.
-/
import Verif.Props.Hemisphere

namespace Nmea
open Spec

/-- The text has a small letter (a to z). -/
def HasSmall (s : Str) : Prop := ∃ c ∈ s, c.isLower = true

theorem no_small {s : Str} (h : HasSmall s) (t : Str) (ht : t.all (fun c => !c.isLower) = true) : s ≠ t := by
  rintro rfl
  obtain ⟨c, hc, hl⟩ := h
  have := List.all_eq_true.mp ht c hc
  simp [hl] at this

theorem checksum_capital (a : Str) : (checksumText a).all (fun c => !c.isLower) = true := by
  have key : ∀ n : Nat, (hexDigits.getD n '?').isLower = false := by
    intro n
    by_cases h : n < 16
    · have : ∀ n < 16, (hexDigits.getD n '?').isLower = false := by decide
      exact this n h
    · rw [List.getD_eq_default _ _ (by simpa [hexDigits] using h)]
      decide
  simp only [checksumText, List.all_cons, List.all_nil, key]
  decide

/-- C154: a checksum written with small letters is refused, also if it is the right one. -/
theorem C154_checksum (env : Env) (p : Parser) (a b : Str) (hb : b.map Char.toUpper = checksumText a) (hs : HasSmall b) :
    ∃ m, parseSentence env p (a ++ '*' :: b) = (.err (.corruptedSentence m), p) := by
  refine C01_wrong_checksum_rejected env p a b ?_ ?_ (no_small hs _ (checksum_capital a))
  · intro hm
    have h1 : Char.toUpper '*' ∈ checksumText a := hb ▸ List.mem_map_of_mem hm
    exact star_not_mem_checksumText a h1
  · rintro rfl
    obtain ⟨c, hc, -⟩ := hs
    cases hc

/-- A sentence whose checksum 4D is written 4d. -/
example (env : Env) (p : Parser) := C154_checksum env p (c! "$GPVTG,360.0,T,348.7,M,16.89,N,31.28,K") (c! "4d") (by decide)
  ⟨'d', by decide, by decide⟩

/-- C154: a sentence is unsupported if there is a small letter in the three letters of its kind. -/
theorem C154_kind (env : Env) (p : Parser) (lead : Char) (talker kind : Str) (fs : List Str) (s : Str)
    (hl : lead = '$' ∨ lead = '!') (hk : byteLen kind = 3) (hc : ',' ∉ kind) (hs : HasSmall kind)
    (h : IsTagged lead talker kind fs s) : ∃ m, parseSentence env p s = (.err (.unsupportedSentenceType m), p) := by
  rcases hl with rfl | rfl
  · refine C10_other_gnss_kind env p talker kind fs s hk hc h ?_
    intro hm
    simp only [gnssKinds, List.mem_cons, List.not_mem_nil, or_false] at hm
    rcases hm with e | e | e | e | e | e <;> exact no_small hs _ (by decide) e
  · exact C10_other_ais_kind env p talker kind fs s hk hc h ⟨no_small hs _ (by decide), no_small hs _ (by decide)⟩

/-- The kind GGA written `gga`. -/
example (env : Env) (p : Parser) := C154_kind env p '$' (c! "GP") (c! "gga") [c! "123519", c! "4807.038", c! "N"]
  (c! "$GPgga,123519,4807.038,N") (.inl rfl) (by decide) (by decide) ⟨'g', by decide, by decide⟩ (demoTagged .bare (by decide))

theorem small_system {t : Str} (hs : HasSmall t) : talkerSystem t = .other := by
  unfold talkerSystem systemTable
  simp only [List.lookup_cons, List.lookup_nil]
  repeat rw [beq_false_of_ne (no_small hs _ (by decide))]
  rfl

theorem small_station {t : Str} (hs : HasSmall t) : talkerStation t = .other := by
  unfold talkerStation stationTable
  simp only [List.lookup_cons, List.lookup_nil]
  repeat rw [beq_false_of_ne (no_small hs _ (by decide))]
  rfl

/-- C154: a talker written with a small letter is another system or another station, and nothing else is changed by it. -/
theorem C154_talker (env : Env) (p : Parser) (t t' : Str) (fs : List Str) (s s' : Str) (hs : HasSmall t') :
    (∀ kind ∈ [c! "GGA", c! "RMC", c! "GSA", c! "VTG", c! "GLL"], IsGnss t kind fs s → IsGnss t' kind fs s' →
      parseSentence env p s' = (onReport (withSource .other) (parseSentence env p s).1, (parseSentence env p s).2)) ∧
    (∀ own, IsAis t own fs s → IsAis t' own fs s' →
      parseSentence env p s' = (onReport (withStation .other) (parseSentence env p s).1, (parseSentence env p s).2)) := by
  refine ⟨fun kind hk h h' => ?_, fun own h h' => ?_⟩
  · rw [C95_source env p t t' kind fs s s' hk h h', small_system hs]
  · rw [C95_station env p t t' own fs s s' h h', small_station hs]

/-- GPS written `gp`, and a mobile station written `ai`. -/
example (env : Env) (p : Parser) :
    parseSentence env p (c! "$gpVTG,360.0,T") =
      (onReport (withSource .other) (parseSentence env p (c! "$GPVTG,360.0,T")).1, (parseSentence env p (c! "$GPVTG,360.0,T")).2) ∧
    parseSentence env p (c! "!aiVDM,1,1,,A,H42O55i18tMET00000000000000,2") =
      (onReport (withStation .other) (parseSentence env p (c! "!AIVDM,1,1,,A,H42O55i18tMET00000000000000,2")).1,
        (parseSentence env p (c! "!AIVDM,1,1,,A,H42O55i18tMET00000000000000,2")).2) :=
  ⟨(C154_talker env p (c! "GP") (c! "gp") [c! "360.0", c! "T"] _ _ ⟨'g', by decide, by decide⟩).1 (c! "VTG") (by decide)
      (demoTagged .bare (by decide)) (demoTagged .bare (by decide)),
    (C154_talker env p (c! "AI") (c! "ai") [c! "1", c! "1", c! "", c! "A", c! "H42O55i18tMET00000000000000", c! "2"] _ _
      ⟨'a', by decide, by decide⟩).2 false (demoTagged .bare (by decide)) (demoTagged .bare (by decide))⟩

/-- C154: RMC sentences with a small letter as status, or after the variation, and GSA sentences with a small letter as mode are
not accepted. -/
theorem C154_refused (env : Env) (p : Parser) (talker : Str) (fs : List Str) (s : Str)
    (h : (IsGnss talker (c! "RMC") fs s ∧ (HasSmall (field fs 1) ∨ (field fs 9 ≠ [] ∧ HasSmall (field fs 10)))) ∨
      (IsGnss talker (c! "GSA") fs s ∧ HasSmall (field fs 0))) (r : ParsedSentence) :
    (parseSentence env p s).1 ≠ .ok r := by
  rcases h with ⟨h, hb⟩ | ⟨h, hb⟩
  · refine C66_refused env p talker fs s h ?_ r
    rcases hb with hb | ⟨h1, hb⟩
    · refine .inr fun hm => ?_
      simp only [List.mem_cons, List.not_mem_nil, or_false] at hm
      rcases hm with e | e | e <;> exact no_small hb _ (by decide) e
    · exact .inl ⟨h1, no_small hb _ (by decide), no_small hb _ (by decide)⟩
  · intro hr
    obtain ⟨d, -, hd⟩ := (gsa_ok env p talker fs s h r).mp hr
    rcases hd.mode with ⟨e, -⟩ | ⟨a, hm, -⟩
    · exact no_small hb _ (by decide) e
    · simp only [modeTable, List.mem_cons, Prod.mk.injEq, List.not_mem_nil, or_false] at hm
      rcases hm with ⟨e, -⟩ | ⟨e, -⟩ <;> exact no_small hb _ (by decide) e

/-- An RMC sentence with the status `a`, one with a variation to the `w`, and a GSA sentence with the mode `a`. -/
example (env : Env) (p : Parser) (r : ParsedSentence) :
    (parseSentence env p (c! "$GPRMC,225446,a,4916.45,N,12311.12,W,000.5,054.7,191194,020.3,E")).1 ≠ .ok r ∧
    (parseSentence env p (c! "$GPRMC,225446,A,4916.45,N,12311.12,W,000.5,054.7,191194,020.3,w")).1 ≠ .ok r ∧
    (parseSentence env p (c! "$GPGSA,a,3,04,05")).1 ≠ .ok r :=
  ⟨C154_refused env p (c! "GP") [c! "225446", c! "a", c! "4916.45", c! "N", c! "12311.12", c! "W", c! "000.5", c! "054.7",
      c! "191194", c! "020.3", c! "E"] _ (.inl ⟨demoTagged .bare (by decide), .inl ⟨'a', by decide, by decide⟩⟩) r,
    C154_refused env p (c! "GP") [c! "225446", c! "A", c! "4916.45", c! "N", c! "12311.12", c! "W", c! "000.5", c! "054.7",
      c! "191194", c! "020.3", c! "w"] _
      (.inl ⟨demoTagged .bare (by decide), .inr ⟨by decide, ⟨'w', by decide, by decide⟩⟩⟩) r,
    C154_refused env p (c! "GP") [c! "a", c! "3", c! "04", c! "05"] _
      (.inr ⟨demoTagged .bare (by decide), ⟨'a', by decide, by decide⟩⟩) r⟩

/-- C154: the validity of a GLL sentence and the mode of a GLL or VTG sentence are absent if they have a small letter; the
sentence is not refused for it. -/
theorem C154_absent (env : Env) (p : Parser) (talker : Str) (fs : List Str) (s : Str) (r : ParsedSentence)
    (hr : (parseSentence env p s).1 = .ok r) :
    (IsGnss talker (c! "GLL") fs s → ∃ d, r = .gll d ∧ (HasSmall (field fs 5) → d.dataValid = none) ∧
      (HasSmall (field fs 6) → d.faaMode = none)) ∧
    (IsGnss talker (c! "VTG") fs s → ∃ d, r = .vtg d ∧ (HasSmall (field fs 8) → d.faaMode = none)) := by
  have faa : ∀ t, HasSmall t → faaTable.lookup t = none := by
    intro t hs
    unfold faaTable
    simp only [List.lookup_cons, List.lookup_nil]
    repeat rw [beq_false_of_ne (no_small hs _ (by decide))]
  have status : ∀ t, HasSmall t → statusTable.lookup t = none := by
    intro t hs
    unfold statusTable
    simp only [List.lookup_cons, List.lookup_nil]
    repeat rw [beq_false_of_ne (no_small hs _ (by decide))]
  refine ⟨fun h => ?_, fun h => ?_⟩
  · obtain ⟨d, rfl, hd⟩ := (gll_ok env p talker fs s h r).mp hr
    exact ⟨d, rfl, fun hs => hd.valid.trans (status _ hs), fun hs => hd.faa.trans (faa _ hs)⟩
  · obtain ⟨d, e, hd⟩ := C68_contents env p talker fs s h
    rw [e] at hr
    cases hr
    exact ⟨d, rfl, fun hs => ((hd d).mpr rfl).faa.trans (faa _ hs)⟩

/-- A GLL sentence that says `a` for valid and `d` for differential. -/
example (p : Parser) : ∃ d, (parseSentence demoEnv p (c! "$GPGLL,4916.45,N,12311.12,W,225444,a,d")).1 = .ok (.gll d) ∧
    d.dataValid = none ∧ d.faaMode = none ∧ d.latitude ≠ none := by
  have hs : IsGnss (c! "GP") (c! "GLL") [c! "4916.45", c! "N", c! "12311.12", c! "W", c! "225444", c! "a", c! "d"]
    (c! "$GPGLL,4916.45,N,12311.12,W,225444,a,d") := demoTagged .bare (by decide)
  have hb : (match handleGll demoEnv.now (join (tag '$' (c! "GP") (c! "GLL"))
      [c! "4916.45", c! "N", c! "12311.12", c! "W", c! "225444", c! "a", c! "d"]) (talkerSystem (c! "GP")) with
    | .ok (.gll d) => d.latitude.isSome
    | _ => false) = true := by decide +kernel
  split at hb
  · next d e =>
    have hr : (parseSentence demoEnv p (c! "$GPGLL,4916.45,N,12311.12,W,225444,a,d")).1 = .ok (.gll d) := by
      rw [eval_gll demoEnv p _ _ _ hs]; exact e
    obtain ⟨d', e', h1, h2⟩ := (C154_absent demoEnv p (c! "GP") _ _ _ hr).1 hs
    cases e'
    exact ⟨d, hr, h1 ⟨'a', by decide, by decide⟩, h2 ⟨'d', by decide, by decide⟩, by
      intro h0; rw [h0] at hb; cases hb⟩
  · cases hb

/-- C154: a small letter in place of a hemisphere means north or east: the answer is the one to the sentence with the letters `N`
and `E`. -/
theorem C154_hemispheres (env : Env) (p : Parser) (talker kind : Str) (fs fs' : List Str) (s s' : Str) (i : Nat)
    (hi : latitudeIndex kind = some i) (h : IsGnss talker kind fs s) (h' : IsGnss talker kind fs' s')
    (hf : ∀ j, j ≠ i + 1 → j ≠ i + 3 → field fs' j = field fs j)
    (hn : field fs (i + 1) = c! "N" ∧ field fs (i + 3) = c! "E")
    (hs : HasSmall (field fs' (i + 1)) ∧ HasSmall (field fs' (i + 3))) : parseSentence env p s' = parseSentence env p s :=
  C153_other_letters env p talker kind fs fs' s s' i hi h h' hf ⟨by rw [hn.1]; decide, no_small hs.1 _ (by decide)⟩
    ⟨by rw [hn.2]; decide, no_small hs.2 _ (by decide)⟩

/-- Rio de Janeiro with small letters is answered like a place in the Arabian Sea. -/
example (env : Env) (p : Parser) : parseSentence env p (c! "$GPGLL,2254.50,s,04310.50,w,225444,A") =
    parseSentence env p (c! "$GPGLL,2254.50,N,04310.50,E,225444,A") :=
  C154_hemispheres env p (c! "GP") (c! "GLL") [c! "2254.50", c! "N", c! "04310.50", c! "E", c! "225444", c! "A"]
    [c! "2254.50", c! "s", c! "04310.50", c! "w", c! "225444", c! "A"] _ _ 0 rfl (demoTagged .bare (by decide))
    (demoTagged .bare (by decide))
    (by rintro (_ | _ | _ | _ | j) h1 h2 <;> first | rfl | (exact absurd rfl h1) | (exact absurd rfl h2))
    ⟨rfl, rfl⟩ ⟨⟨'s', by decide, by decide⟩, ⟨'w', by decide, by decide⟩⟩

end Nmea
