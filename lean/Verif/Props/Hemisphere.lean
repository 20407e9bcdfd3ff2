/-
C153: the letters of the hemispheres.
-/
import Verif.Spec.Hemisphere
import Verif.Props.Fix
import Verif.Props.Symmetry

namespace Nmea
open Spec

theorem signed_false (x : F64) : signedF64 false x = x := by cases x <;> simp [signedF64]

theorem signed_neg (x : F64) : signedF64 true x = x.neg := by cases x <;> simp [signedF64, F64.neg]

theorem neg_neg (x : F64) : x.neg.neg = x := by cases x <;> simp [F64.neg]

/-- Change a value read. -/
def onValue {ε α β : Type} (f : α → β) : Out ε α → Out ε β
  | .ok a => .ok (f a)
  | .err e => .err e
  | .panic => .panic

theorem latitude_hemi (s h h' : Str) :
    liftErr (parseLatitude s h') = onValue (Option.map (signedF64 (oneIs 'S' h h'))) (liftErr (parseLatitude s h)) := by
  unfold parseLatitude
  split
  · split
    · by_cases a : h = c! "S"
      · subst a
        by_cases b : h' = c! "S"
        · subst b; simp [oneIs, liftErr, onValue, signed_false]
        · by_cases n : h' = c! "N"
          · subst n; simp [oneIs, liftErr, onValue, signed_neg, neg_neg]
          · simp [oneIs, liftErr, onValue, signed_neg, neg_neg, b, n]
      · by_cases b : h' = c! "S"
        · subst b
          by_cases n : h = c! "N"
          · subst n; simp [oneIs, liftErr, onValue, signed_neg]
          · simp [oneIs, liftErr, onValue, signed_neg, a, n]
        · simp [oneIs, liftErr, onValue, signed_false, a, b]
    · rfl
  · rfl

theorem longitude_hemi (s h h' : Str) :
    liftErr (parseLongitude s h') = onValue (Option.map (signedF64 (oneIs 'W' h h'))) (liftErr (parseLongitude s h)) := by
  unfold parseLongitude
  split
  · split
    · by_cases a : h = c! "W"
      · subst a
        by_cases b : h' = c! "W"
        · subst b; simp [oneIs, liftErr, onValue, signed_false]
        · by_cases n : h' = c! "E"
          · subst n; simp [oneIs, liftErr, onValue, signed_neg, neg_neg]
          · simp [oneIs, liftErr, onValue, signed_neg, neg_neg, b, n]
      · by_cases b : h' = c! "W"
        · subst b
          by_cases n : h = c! "E"
          · subst n; simp [oneIs, liftErr, onValue, signed_neg]
          · simp [oneIs, liftErr, onValue, signed_neg, a, n]
        · simp [oneIs, liftErr, onValue, signed_false, a, b]
    · rfl
  · rfl

theorem hemi_gga (t : Str) (now : DateTime) (nav : NavigationSystem) (fs fs' : List Str)
    (h1 : splitChar ',' (join t fs) = t :: fs) (h2 : splitChar ',' (join t fs') = t :: fs')
    (hf : ∀ j, j ≠ 2 → j ≠ 4 → field fs' j = field fs j) :
    handleGga now (join t fs') nav = onReport (mirrored (oneIs 'S' (field fs 2) (field fs' 2)) (oneIs 'W' (field fs 4) (field fs' 4)))
      (handleGga now (join t fs) nav) := by
  simp only [handleGga, h1, h2, fieldAt_cons_succ, hf 0 (by decide) (by decide), hf 1 (by decide) (by decide),
    hf 3 (by decide) (by decide), numField_congr _ t fs' fs 5 (hf 5 (by decide) (by decide)),
    numField_congr _ t fs' fs 6 (hf 6 (by decide) (by decide)), numField_congr _ t fs' fs 7 (hf 7 (by decide) (by decide)),
    numField_congr _ t fs' fs 8 (hf 8 (by decide) (by decide)), numField_congr _ t fs' fs 10 (hf 10 (by decide) (by decide)),
    numField_congr _ t fs' fs 12 (hf 12 (by decide) (by decide)), numField_congr _ t fs' fs 13 (hf 13 (by decide) (by decide)),
    latitude_hemi (field fs 1) (field fs 2) (field fs' 2), longitude_hemi (field fs 3) (field fs 4) (field fs' 4)]
  generalize Out.toOpt (parseHhmmss (field fs 0) now) = x1
  generalize liftErr (parseLatitude (field fs 1) (field fs 2)) = x2
  generalize liftErr (parseLongitude (field fs 3) (field fs 4)) = x3
  generalize numField parseU8 (t :: fs) 6 = x4
  generalize numField parseU8 (t :: fs) 7 = x5
  generalize numField F64.parse (t :: fs) 8 = x6
  generalize numField F64.parse (t :: fs) 9 = x7
  generalize numField F64.parse (t :: fs) 11 = x8
  generalize numField F64.parse (t :: fs) 13 = x9
  generalize numField parseU16 (t :: fs) 14 = x10
  cases x1 <;> try rfl
  cases x2 <;> try rfl
  cases x3 <;> try rfl
  cases x4 <;> try rfl
  cases x5 <;> try rfl
  cases x6 <;> try rfl
  cases x7 <;> try rfl
  cases x8 <;> try rfl
  cases x9 <;> try rfl
  cases x10 <;> rfl

theorem hemi_rmc (t : Str) (now : DateTime) (nav : NavigationSystem) (fs fs' : List Str)
    (h1 : splitChar ',' (join t fs) = t :: fs) (h2 : splitChar ',' (join t fs') = t :: fs')
    (hf : ∀ j, j ≠ 3 → j ≠ 5 → field fs' j = field fs j) :
    handleRmc now (join t fs') nav = onReport (mirrored (oneIs 'S' (field fs 3) (field fs' 3)) (oneIs 'W' (field fs 5) (field fs' 5)))
      (handleRmc now (join t fs) nav) := by
  have hv : rmcVariation (t :: fs') = rmcVariation (t :: fs) := by
    simp only [rmcVariation, fieldAt_cons_succ, hf 10 (by decide) (by decide),
      numField_congr _ t fs' fs 9 (hf 9 (by decide) (by decide))]
  simp only [handleRmc, h1, h2, hv, fieldAt_cons_succ, hf 0 (by decide) (by decide), hf 1 (by decide) (by decide),
    hf 2 (by decide) (by decide), hf 4 (by decide) (by decide), hf 8 (by decide) (by decide),
    numField_congr _ t fs' fs 6 (hf 6 (by decide) (by decide)), numField_congr _ t fs' fs 7 (hf 7 (by decide) (by decide)),
    latitude_hemi (field fs 2) (field fs 3) (field fs' 3), longitude_hemi (field fs 4) (field fs 5) (field fs' 5)]
  generalize Out.toOpt (parseYymmddHhmmss now (field fs 8) (field fs 0)) = x1
  generalize rmcStatus (field fs 1) = x0
  generalize liftErr (parseLatitude (field fs 2) (field fs 3)) = x2
  generalize liftErr (parseLongitude (field fs 4) (field fs 5)) = x3
  generalize numField F64.parse (t :: fs) 7 = x4
  generalize numField F64.parse (t :: fs) 8 = x5
  generalize rmcVariation (t :: fs) = x6
  cases x1 <;> try rfl
  cases x0 <;> try rfl
  cases x2 <;> try rfl
  cases x3 <;> try rfl
  cases x4 <;> try rfl
  cases x5 <;> try rfl
  cases x6 <;> rfl

theorem hemi_gll (t : Str) (now : DateTime) (nav : NavigationSystem) (fs fs' : List Str)
    (h1 : splitChar ',' (join t fs) = t :: fs) (h2 : splitChar ',' (join t fs') = t :: fs')
    (hf : ∀ j, j ≠ 1 → j ≠ 3 → field fs' j = field fs j) :
    handleGll now (join t fs') nav = onReport (mirrored (oneIs 'S' (field fs 1) (field fs' 1)) (oneIs 'W' (field fs 3) (field fs' 3)))
      (handleGll now (join t fs) nav) := by
  simp only [handleGll, h1, h2, fieldAt_cons_succ, hf 0 (by decide) (by decide), hf 2 (by decide) (by decide),
    hf 4 (by decide) (by decide), hf 5 (by decide) (by decide), hf 6 (by decide) (by decide),
    latitude_hemi (field fs 0) (field fs 1) (field fs' 1), longitude_hemi (field fs 2) (field fs 3) (field fs' 3)]
  generalize Out.toOpt (parseHhmmss (field fs 4) now) = x1
  generalize liftErr (parseLatitude (field fs 0) (field fs 1)) = x2
  generalize liftErr (parseLongitude (field fs 2) (field fs 3)) = x3
  cases x2 <;> try rfl
  cases x3 <;> try rfl
  cases x1 <;> rfl

/-- C153: of two sentences that differ in the letters of the hemispheres only, the second has the answer of the first, with the
latitude on the other side if exactly one of them has `S`, and the longitude on the other side if exactly one has `W`. -/
theorem C153_hemispheres (env : Env) (p : Parser) (talker kind : Str) (fs fs' : List Str) (s s' : Str) (i : Nat)
    (hi : latitudeIndex kind = some i) (h : IsGnss talker kind fs s) (h' : IsGnss talker kind fs' s')
    (hf : ∀ j, j ≠ i + 1 → j ≠ i + 3 → field fs' j = field fs j) :
    parseSentence env p s' =
      (onReport (mirrored (oneIs 'S' (field fs (i + 1)) (field fs' (i + 1))) (oneIs 'W' (field fs (i + 3)) (field fs' (i + 3))))
        (parseSentence env p s).1, (parseSentence env p s).2) := by
  unfold latitudeIndex at hi
  simp only [List.lookup] at hi
  split at hi
  · rename_i hk
    have hk : kind = c! "GGA" := by simpa using hk
    cases hi; subst hk
    rw [eval_gga env p talker fs s h, eval_gga env p talker fs' s' h', hemi_gga _ _ _ fs fs'
      (gnss_split talker fs s _ (by decide) h) (gnss_split talker fs' s' _ (by decide) h') hf]
  split at hi
  · rename_i hk
    have hk : kind = c! "RMC" := by simpa using hk
    cases hi; subst hk
    rw [eval_rmc env p talker fs s h, eval_rmc env p talker fs' s' h', hemi_rmc _ _ _ fs fs'
      (gnss_split talker fs s _ (by decide) h) (gnss_split talker fs' s' _ (by decide) h') hf]
  split at hi
  · rename_i hk
    have hk : kind = c! "GLL" := by simpa using hk
    cases hi; subst hk
    rw [eval_gll env p talker fs s h, eval_gll env p talker fs' s' h', hemi_gll _ _ _ fs fs'
      (gnss_split talker fs s _ (by decide) h) (gnss_split talker fs' s' _ (by decide) h') hf]
  · cases hi

/-- A position south of the equator, and what becomes of it if the letter is small: it is reported in the north. -/
example (env : Env) (p : Parser) := C153_hemispheres env p (c! "GP") (c! "GLL")
  [c! "3351.65", c! "S", c! "15112.37", c! "E", c! "225444", c! "A"]
  [c! "3351.65", c! "s", c! "15112.37", c! "E", c! "225444", c! "A"]
  (c! "$GPGLL,3351.65,S,15112.37,E,225444,A") (c! "$GPGLL,3351.65,s,15112.37,E,225444,A") 0 rfl
  (demoTagged .bare (by decide)) (demoTagged .bare (by decide))
  (by
    rintro (_ | _ | j) h1 h2 <;> first | rfl | (exact absurd rfl h1))

/-- C153: so texts other than `S` and `W` in the places of these letters are not told apart: an empty field, a small letter or
any other text stands for north or east, and the sentence is not refused for it. -/
theorem C153_other_letters (env : Env) (p : Parser) (talker kind : Str) (fs fs' : List Str) (s s' : Str) (i : Nat)
    (hi : latitudeIndex kind = some i) (h : IsGnss talker kind fs s) (h' : IsGnss talker kind fs' s')
    (hf : ∀ j, j ≠ i + 1 → j ≠ i + 3 → field fs' j = field fs j)
    (hs : field fs (i + 1) ≠ c! "S" ∧ field fs' (i + 1) ≠ c! "S") (hw : field fs (i + 3) ≠ c! "W" ∧ field fs' (i + 3) ≠ c! "W") :
    parseSentence env p s' = parseSentence env p s := by
  rw [C153_hemispheres env p talker kind fs fs' s s' i hi h h' hf]
  have e1 : oneIs 'S' (field fs (i + 1)) (field fs' (i + 1)) = false := by simp [oneIs, hs.1, hs.2]
  have e2 : oneIs 'W' (field fs (i + 3)) (field fs' (i + 3)) = false := by simp [oneIs, hw.1, hw.2]
  rw [e1, e2]
  refine Prod.ext ?_ rfl
  have hid : ∀ x : Option F64, x.map (signedF64 false) = x := by rintro (_ | x) <;> simp [signed_false]
  cases e : (parseSentence env p s).1 with
  | ok r => cases r <;> simp [onReport, mirrored, hid]
  | err m => rfl
  | panic => rfl

/-- Without the letter, with a small one, and with the letter of the other coordinate: always north. -/
example (env : Env) (p : Parser) (t : Str) (ht : t ∈ [c! "", c! "s", c! "W", c! "SOUTH"]) (s : Str)
    (h : IsGnss (c! "GP") (c! "GLL") [c! "3351.65", t, c! "15112.37", c! "E", c! "225444", c! "A"] s) :
    parseSentence env p s = parseSentence env p (c! "$GPGLL,3351.65,N,15112.37,E,225444,A") :=
  C153_other_letters env p (c! "GP") (c! "GLL") [c! "3351.65", c! "N", c! "15112.37", c! "E", c! "225444", c! "A"] _
    (c! "$GPGLL,3351.65,N,15112.37,E,225444,A") s 0 rfl (demoTagged .bare (by decide)) h
    (by
      rintro (_ | _ | j) h1 h2 <;> first | rfl | (exact absurd rfl h1))
    ⟨by decide, by
      simp only [List.mem_cons, List.not_mem_nil, or_false] at ht
      rcases ht with rfl | rfl | rfl | rfl <;> decide⟩ ⟨by decide, by show c! "E" ≠ c! "W"; decide⟩

/-- C153: a place is reported at its mirror image if the letter `S` is replaced
by any other text. -/
theorem C153_mirror (env : Env) (p : Parser) (talker kind : Str) (fs fs' : List Str) (s s' : Str) (i : Nat)
    (hi : latitudeIndex kind = some i) (h : IsGnss talker kind fs s) (h' : IsGnss talker kind fs' s')
    (hf : ∀ j, j ≠ i + 1 → field fs' j = field fs j) (hs : field fs (i + 1) = c! "S") (hs' : field fs' (i + 1) ≠ c! "S")
    (r : ParsedSentence) (hr : (parseSentence env p s).1 = .ok r) :
    ∃ r' lat lon, (parseSentence env p s').1 = .ok r' ∧ gnssPosition r = some (lat, lon) ∧
      gnssPosition r' = some (lat.map (signedF64 true), lon) := by
  rw [C153_hemispheres env p talker kind fs fs' s s' i hi h h' (fun j a _ => hf j a), hr]
  have e1 : oneIs 'S' (field fs (i + 1)) (field fs' (i + 1)) = true := by simp [oneIs, hs, hs']
  have e2 : oneIs 'W' (field fs (i + 3)) (field fs' (i + 3)) = false := by
    simp [oneIs, hf (i + 3) (by omega)]
  rw [e1, e2]
  obtain ⟨lat, lon, hp, -⟩ := C64_positions env p talker kind fs s i h hi r hr
  have hid : ∀ x : Option F64, x.map (signedF64 false) = x := by rintro (_ | x) <;> simp [signed_false]
  refine ⟨_, lat, lon, rfl, hp, ?_⟩
  cases r <;> simp only [gnssPosition, Option.some.injEq, Prod.mk.injEq, reduceCtorEq] at hp ⊢ <;>
    obtain ⟨rfl, rfl⟩ := hp <;> simp [mirrored, hid]

/-- Sydney is reported in the Pacific south of Japan. -/
example (p : Parser) : ∃ r' lat lon,
    (parseSentence demoEnv p (c! "$GPGLL,3351.65,s,15112.37,E,225444,A")).1 = .ok r' ∧
      gnssPosition r' = some (lat.map (signedF64 true), lon) ∧ lat ≠ none := by
  have hs : IsGnss (c! "GP") (c! "GLL") [c! "3351.65", c! "S", c! "15112.37", c! "E", c! "225444", c! "A"]
    (c! "$GPGLL,3351.65,S,15112.37,E,225444,A") := demoTagged .bare (by decide)
  have he : ∃ r, (parseSentence demoEnv p (c! "$GPGLL,3351.65,S,15112.37,E,225444,A")).1 = .ok r ∧
      ∃ lat lon, gnssPosition r = some (some lat, lon) := by
    have hb : (match handleGll demoEnv.now (join (tag '$' (c! "GP") (c! "GLL"))
        [c! "3351.65", c! "S", c! "15112.37", c! "E", c! "225444", c! "A"]) (talkerSystem (c! "GP")) with
      | .ok (.gll d) => d.latitude.isSome
      | _ => false) = true := by decide +kernel
    rw [eval_gll demoEnv p _ _ _ hs]
    split at hb
    · next d e =>
      obtain ⟨x, hx⟩ := Option.isSome_iff_exists.mp hb
      exact ⟨.gll d, e, x, d.longitude, by rw [← hx]; rfl⟩
    · cases hb
  obtain ⟨r, hr, la, lo, hl⟩ := he
  obtain ⟨r', lat, lon, h1, h2, h3⟩ := C153_mirror demoEnv p (c! "GP") (c! "GLL")
    [c! "3351.65", c! "S", c! "15112.37", c! "E", c! "225444", c! "A"]
    [c! "3351.65", c! "s", c! "15112.37", c! "E", c! "225444", c! "A"]
    (c! "$GPGLL,3351.65,S,15112.37,E,225444,A") (c! "$GPGLL,3351.65,s,15112.37,E,225444,A") 0 rfl hs
    (demoTagged .bare (by decide)) (by rintro (_ | _ | j) h <;> first | rfl | (exact absurd rfl h)) rfl (by decide) r hr
  rw [hl] at h2
  obtain ⟨rfl, rfl⟩ := Prod.mk.inj (Option.some.inj h2)
  exact ⟨r', _, _, h1, h3, by simp⟩

end Nmea
