/-
C155: fractions of a second.
-/
import Verif.Props.Hemisphere

namespace Nmea
open Spec

/-- The field with the time of day. -/
def clockIndex (kind : Str) : Option Nat := [(c! "GGA", 0), (c! "RMC", 0), (c! "GLL", 4)].lookup kind

theorem time_prefix (a r r' : Str) (now : DateTime) (hl : a.length = 6) (hb : byteLen a = 6) :
    (Out.toOpt (parseHhmmss (a ++ r) now) : Out ParseError _) = Out.toOpt (parseHhmmss (a ++ r') now) := by
  obtain ⟨c0, c1, c2, c3, c4, c5, rfl⟩ : ∃ c0 c1 c2 c3 c4 c5, a = [c0, c1, c2, c3, c4, c5] := by
    match a, hl with
    | [c0, c1, c2, c3, c4, c5], _ => exact ⟨c0, c1, c2, c3, c4, c5, rfl⟩
  have pos : ∀ c : Char, 1 ≤ c.utf8Size := fun c => Char.utf8Size_pos c
  simp only [byteLen, List.map_cons, List.map_nil, List.sum_cons, List.sum_nil] at hb
  have h0 := pos c0; have h1 := pos c1; have h2 := pos c2; have h3 := pos c3; have h4 := pos c4; have h5 := pos c5
  have e0 : c0.utf8Size = 1 := by omega
  have e1 : c1.utf8Size = 1 := by omega
  have e2 : c2.utf8Size = 1 := by omega
  have e3 : c3.utf8Size = 1 := by omega
  have e4 : c4.utf8Size = 1 := by omega
  have e5 : c5.utf8Size = 1 := by omega
  have s1 : ∀ r, slice ([c0, c1, c2, c3, c4, c5] ++ r) 0 2 = some [c0, c1] := by
    intro r; simp [slice, dropBytes, takeBytes, e0, e1]
  have s2 : ∀ r, slice ([c0, c1, c2, c3, c4, c5] ++ r) 2 4 = some [c2, c3] := by
    intro r; simp [slice, dropBytes, takeBytes, e0, e1, e2, e3]
  have s3 : ∀ r, slice ([c0, c1, c2, c3, c4, c5] ++ r) 4 6 = some [c4, c5] := by
    intro r; simp [slice, dropBytes, takeBytes, e0, e1, e2, e3, e4, e5]
  simp only [parseHhmmss, s1, s2, s3]
  generalize parseU32 [c0, c1] = x0
  generalize parseU32 [c2, c3] = x1
  generalize parseU32 [c4, c5] = x2
  cases x0 <;> try rfl
  cases x1 <;> try rfl
  cases x2 <;> rfl

theorem dateTime_prefix (date a r r' : Str) (now : DateTime) (hl : a.length = 6) :
    (Out.toOpt (parseYymmddHhmmss now date (a ++ r)) : Out ParseError _) = Out.toOpt (parseYymmddHhmmss now date (a ++ r')) := by
  obtain ⟨c0, c1, c2, c3, c4, c5, rfl⟩ : ∃ c0 c1 c2 c3 c4 c5, a = [c0, c1, c2, c3, c4, c5] := by
    match a, hl with
    | [c0, c1, c2, c3, c4, c5], _ => exact ⟨c0, c1, c2, c3, c4, c5, rfl⟩
  have s1 : ∀ r, pickS2 ([c0, c1, c2, c3, c4, c5] ++ r) 0 = [c0, c1] := fun r => by simp [pickS2]
  have s2 : ∀ r, pickS2 ([c0, c1, c2, c3, c4, c5] ++ r) 2 = [c2, c3] := fun r => by simp [pickS2]
  have s3 : ∀ r, pickS2 ([c0, c1, c2, c3, c4, c5] ++ r) 4 = [c4, c5] := fun r => by simp [pickS2]
  simp only [parseYymmddHhmmss, s1, s2, s3]
  generalize parseU32 [c0, c1] = x0
  generalize parseU32 [c2, c3] = x1
  generalize parseU32 [c4, c5] = x2
  generalize parseU32 (pickS2 date 0) = x3
  generalize parseU32 (pickS2 date 2) = x4
  generalize parseI32 (pickS2 date 4) = x5
  cases x3 <;> try rfl
  cases x4 <;> try rfl
  cases x5 <;> try rfl
  cases x0 <;> try rfl
  cases x1 <;> try rfl
  cases x2 <;> rfl

/-- C155: what follows the first six characters of a time has no influence on the answer: two GGA, RMC or GLL sentences that
differ in it only have the same answer. -/
theorem C155_after_seconds (env : Env) (p : Parser) (talker kind : Str) (fs fs' : List Str) (s s' : Str) (i : Nat) (a r r' : Str)
    (hi : clockIndex kind = some i) (h : IsGnss talker kind fs s) (h' : IsGnss talker kind fs' s')
    (hf : ∀ j, j ≠ i → field fs' j = field fs j) (ha : a.length = 6 ∧ byteLen a = 6)
    (ht : field fs i = a ++ r) (ht' : field fs' i = a ++ r') : parseSentence env p s' = parseSentence env p s := by
  unfold clockIndex at hi
  simp only [List.lookup] at hi
  split at hi
  · rename_i hk
    have hk : kind = c! "GGA" := by simpa using hk
    cases hi; subst hk
    have hf : ∀ j, field fs' (j + 1) = field fs (j + 1) := fun j => hf _ (by omega)
    rw [eval_gga env p talker fs s h, eval_gga env p talker fs' s' h']
    simp only [handleGga, gnss_split talker fs s _ (by decide) h, gnss_split talker fs' s' _ (by decide) h', fieldAt_cons_succ, ht, ht',
      time_prefix a r' r env.now ha.1 ha.2, hf 0, hf 1, hf 2, hf 3, numField_congr _ _ fs' fs 5 (hf 4),
      numField_congr _ _ fs' fs 6 (hf 5), numField_congr _ _ fs' fs 7 (hf 6), numField_congr _ _ fs' fs 8 (hf 7),
      numField_congr _ _ fs' fs 10 (hf 9), numField_congr _ _ fs' fs 12 (hf 11), numField_congr _ _ fs' fs 13 (hf 12)]
  split at hi
  · rename_i hk
    have hk : kind = c! "RMC" := by simpa using hk
    cases hi; subst hk
    have hf : ∀ j, field fs' (j + 1) = field fs (j + 1) := fun j => hf _ (by omega)
    rw [eval_rmc env p talker fs s h, eval_rmc env p talker fs' s' h']
    simp only [handleRmc, rmcVariation, gnss_split talker fs s _ (by decide) h, gnss_split talker fs' s' _ (by decide) h',
      fieldAt_cons_succ, ht, ht', dateTime_prefix _ a r' r env.now ha.1, hf 0, hf 1, hf 2, hf 3, hf 4, hf 7, hf 9,
      numField_congr _ _ fs' fs 6 (hf 5), numField_congr _ _ fs' fs 7 (hf 6), numField_congr _ _ fs' fs 9 (hf 8)]
  split at hi
  · rename_i hk
    have hk : kind = c! "GLL" := by simpa using hk
    cases hi; subst hk
    rw [eval_gll env p talker fs s h, eval_gll env p talker fs' s' h']
    simp only [handleGll, gnss_split talker fs s _ (by decide) h, gnss_split talker fs' s' _ (by decide) h', fieldAt_cons_succ, ht, ht',
      time_prefix a r' r env.now ha.1 ha.2, hf 0 (by decide), hf 1 (by decide), hf 2 (by decide), hf 3 (by decide),
      hf 5 (by decide), hf 6 (by decide)]
  · cases hi

/-- Two fixes of a receiver that sends five per second. -/
example (env : Env) (p : Parser) : parseSentence env p (c! "$GPGLL,4916.45,N,12311.12,W,225444.80,A") =
    parseSentence env p (c! "$GPGLL,4916.45,N,12311.12,W,225444.60,A") :=
  C155_after_seconds env p (c! "GP") (c! "GLL") [c! "4916.45", c! "N", c! "12311.12", c! "W", c! "225444.60", c! "A"]
    [c! "4916.45", c! "N", c! "12311.12", c! "W", c! "225444.80", c! "A"] _ _ 4 (c! "225444") (c! ".60") (c! ".80") rfl
    (demoTagged .bare (by decide)) (demoTagged .bare (by decide))
    (by rintro (_ | _ | _ | _ | _ | j) h <;> first | rfl | (exact absurd rfl h)) (by decide) rfl rfl

/-- The sentence tells the moment `T`: a GGA or GLL sentence with its time received on that day, or an RMC sentence with its date
and time received in that century. The text `rest` follows the seconds. -/
def TellsMoment (now T : DateTime) (rest s : Str) : Prop :=
  ∃ talker kind fs, IsGnss talker kind fs s ∧
    ((kind = c! "GGA" ∧ field fs 0 = timeText T.hour T.minute T.second ++ rest ∧ SameDay T now) ∨
      (kind = c! "GLL" ∧ field fs 4 = timeText T.hour T.minute T.second ++ rest ∧ SameDay T now) ∨
      (kind = c! "RMC" ∧ field fs 0 = timeText T.hour T.minute T.second ++ rest ∧
        field fs 8 = dateText T.day T.month (T.year.toNat % 100) ∧ 0 ≤ T.year ∧ T.year / 100 = now.year / 100))

theorem pair_time {h m x : Nat} (hx : IsTime h m x) (rest : Str) (i : Nat) (hi : i ∈ [0, 2, 4]) :
    pair (timeText h m x ++ rest) i = pair (timeText h m x) i := by
  have hl : ∀ n < 100, (pad 2 n).length = 2 := by decide
  obtain ⟨h1, h2, h3⟩ := hx
  have e1 := hl h (by omega)
  have e2 := hl m (by omega)
  have e3 := hl x (by omega)
  have e : (timeText h m x).length = 6 := by simp [timeText, e1, e2, e3]
  simp only [List.mem_cons, List.not_mem_nil, or_false] at hi
  unfold pair
  rw [List.drop_append_of_le_length (by omega), List.take_append_of_le_length (by rw [List.length_drop]; omega)]

/-- C155: the reported timestamp is the moment without its fraction of a second. -/
theorem C155_timestamp (env : Env) (p : Parser) (T : DateTime) (rest s : Str) (r : ParsedSentence) (hT : IsDateTime T)
    (hs : TellsMoment env.now T rest s) (hr : (parseSentence env p s).1 = .ok r) : gnssTime r = some (some T) := by
  obtain ⟨talker, kind, fs, hg, ⟨rfl, ht, hd⟩ | ⟨rfl, ht, hd⟩ | ⟨rfl, ht, hd, h0, hc⟩⟩ := hs
  · rw [C75_six_digits env p talker _ fs s r _ _ _ rest hg (.inl rfl) ht hT.2.2 hr, ← hd.1, ← hd.2.1, ← hd.2.2]
  · rw [C75_six_digits env p talker _ fs s r _ _ _ rest hg (.inr rfl) ht hT.2.2 hr, ← hd.1, ← hd.2.1, ← hd.2.2]
  · obtain ⟨d', rfl, hd'⟩ := (rmc_ok env p talker fs s hg _).mp hr
    have key := hd'.timestamp
    have hy : centuryOf env.now.year + ((T.year.toNat % 100 : Nat) : Int) = T.year := by
      unfold centuryOf
      rw [if_pos (by omega)]
      omega
    have hdt : IsDateTime ⟨centuryOf env.now.year + ((T.year.toNat % 100 : Nat) : Int), T.month, T.day, T.hour, T.minute, T.second⟩ := by
      rw [hy]; exact hT
    have := (dateTime_field env.now T.day T.month (T.year.toNat % 100) T.hour T.minute T.second (by omega) hdt d'.timestamp).mp (by
      unfold DateTimeField ReadDateTime at key ⊢
      rw [hd, ht] at key
      simpa only [pair_time hT.2.2 rest 0 (by decide), pair_time hT.2.2 rest 2 (by decide), pair_time hT.2.2 rest 4 (by decide)]
        using key)
    rw [gnssTime, this, hy]

/-- An RMC sentence of the 29th of February 2024, 12:35:19.75. -/
example (p : Parser) : ∃ r, (parseSentence demoEnv p (c! "$GPRMC,123519.75,A,,,,,,,290224")).1 = .ok r ∧
    gnssTime r = some (some ⟨2024, 2, 29, 12, 35, 19⟩) := by
  have hg : IsGnss (c! "GP") (c! "RMC") [c! "123519.75", c! "A", [], [], [], [], [], [], c! "290224"]
    (c! "$GPRMC,123519.75,A,,,,,,,290224") := demoTagged .bare (by decide)
  have hb : (match handleRmc demoEnv.now (join (tag '$' (c! "GP") (c! "RMC"))
      [c! "123519.75", c! "A", [], [], [], [], [], [], c! "290224"]) (talkerSystem (c! "GP")) with
    | .ok _ => true
    | _ => false) = true := by decide +kernel
  split at hb
  · next r e =>
    have hr : (parseSentence demoEnv p (c! "$GPRMC,123519.75,A,,,,,,,290224")).1 = .ok r := by
      rw [eval_rmc demoEnv p _ _ _ hg]; exact e
    exact ⟨r, hr, C155_timestamp demoEnv p ⟨2024, 2, 29, 12, 35, 19⟩ (c! ".75") _ r (by decide)
      ⟨_, _, _, hg, .inr (.inr ⟨rfl, by decide, by decide, by decide, by decide⟩)⟩ hr⟩
  · cases hb

/-- The moment `n / 10^k` seconds after `T`. -/
def moment (T : DateTime) (k n : Nat) : Rat := instant T + n / 10 ^ k

/-- C155: so the timestamp is at or less than a second before the moment, ... -/
theorem C155_late (env : Env) (p : Parser) (T : DateTime) (k n : Nat) (s : Str) (r : ParsedSentence) (hT : IsDateTime T)
    (hn : n < 10 ^ k) (hs : TellsMoment env.now T ('.' :: pad k n) s) (hr : (parseSentence env p s).1 = .ok r) :
    ∃ t, gnssTime r = some (some t) ∧ instant t ≤ moment T k n ∧ moment T k n < instant t + 1 := by
  refine ⟨T, C155_timestamp env p T _ s r hT hs hr, ?_, ?_⟩
  · unfold moment
    have : (0 : Rat) ≤ n / 10 ^ k := by positivity
    linarith
  · unfold moment
    have : (n : Rat) / 10 ^ k < 1 := by
      rw [div_lt_one (by positivity)]
      exact_mod_cast hn
    linarith

/-- ... and the timestamps of two moments are in the order of the moments, but those of moments in the same second are equal. -/
theorem C155_order (env env' : Env) (p p' : Parser) (T T' : DateTime) (k n k' n' : Nat) (s s' : Str) (r r' : ParsedSentence)
    (hT : IsDateTime T) (hT' : IsDateTime T') (hn' : n' < 10 ^ k')
    (hs : TellsMoment env.now T ('.' :: pad k n) s) (hs' : TellsMoment env'.now T' ('.' :: pad k' n') s')
    (hr : (parseSentence env p s).1 = .ok r) (hr' : (parseSentence env' p' s').1 = .ok r') :
    ∃ t t', gnssTime r = some (some t) ∧ gnssTime r' = some (some t') ∧
      (moment T k n ≤ moment T' k' n' → instant t ≤ instant t') ∧ (T = T' → t = t') := by
  refine ⟨T, T', C155_timestamp env p T _ s r hT hs hr, C155_timestamp env' p' T' _ s' r' hT' hs' hr', fun h => ?_, fun h => h⟩
  unfold moment at h
  have h1 : (0 : Rat) ≤ n / 10 ^ k := by positivity
  have h2 : (n' : Rat) / 10 ^ k' < 1 := by
    rw [div_lt_one (by positivity)]
    exact_mod_cast hn'
  have h3 : (instant T : Rat) < instant T' + 1 := by linarith
  have : instant T < instant T' + 1 := by exact_mod_cast h3
  omega

/-- Two fixes of one second, 200 ms apart. -/
example : TellsMoment demoEnv.now ⟨2024, 2, 29, 22, 54, 44⟩ ('.' :: pad 2 60) (c! "$GPGLL,4916.45,N,12311.12,W,225444.60,A") ∧
    TellsMoment demoEnv.now ⟨2024, 2, 29, 22, 54, 44⟩ ('.' :: pad 2 80) (c! "$GPGLL,4916.45,N,12311.12,W,225444.80,A") ∧
    IsDateTime ⟨2024, 2, 29, 22, 54, 44⟩ ∧ moment ⟨2024, 2, 29, 22, 54, 44⟩ 2 60 < moment ⟨2024, 2, 29, 22, 54, 44⟩ 2 80 := by
  refine ⟨⟨c! "GP", c! "GLL", [c! "4916.45", c! "N", c! "12311.12", c! "W", c! "225444.60", c! "A"], demoTagged .bare (by decide),
      .inr (.inl ⟨rfl, by decide, rfl, rfl, rfl⟩)⟩,
    ⟨c! "GP", c! "GLL", [c! "4916.45", c! "N", c! "12311.12", c! "W", c! "225444.80", c! "A"], demoTagged .bare (by decide),
      .inr (.inl ⟨rfl, by decide, rfl, rfl, rfl⟩)⟩, by decide, by unfold moment; norm_num⟩

end Nmea
