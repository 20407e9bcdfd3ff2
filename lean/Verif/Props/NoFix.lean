/-
C133: a GNSS receiver that has no position yet.
-/
import Verif.Props.Gnss
import Verif.Props.Gsv
import Verif.Props.LineEnd
import Verif.Spec.NoFix

namespace Nmea
open Spec

theorem not_timePart_nil (n : Nat) : ¬ TimePart [] n := by
  rintro ⟨ds, h | h, ⟨hne, -⟩, -⟩
  · exact hne h.symm
  · cases h

theorem not_readTime_nil (o : Option (Nat × Nat × Nat)) : ¬ ReadTime [] o := by
  intro h
  have key : ∀ a rest : Str, [] = a ++ rest → byteLen a ≠ 2 := by
    intro a rest e
    obtain ⟨rfl, -⟩ := List.append_eq_nil_iff.mp e.symm
    decide
  cases h with
  | time a b c rest _ _ _ hs hl => exact key a (b ++ (c ++ rest)) (by simpa using hs) hl.1
  | noHour a rest hs hl => exact key a rest hs hl
  | noMinute a b rest _ hs hl => exact key a (b ++ rest) (by simpa using hs) hl.1
  | noSecond a b c rest _ _ hs hl => exact key a (b ++ (c ++ rest)) (by simpa using hs) hl.1

theorem not_timeField_nil (now : DateTime) : ¬ ∃ t, TimeField now [] t := by
  rintro ⟨t, ⟨_, _, _, h, -⟩ | ⟨h, -⟩⟩
  · exact not_readTime_nil _ h
  · exact not_readTime_nil _ h

/-- C133: the answers to the sentences of a receiver without time and position, in every state: GGA and GLL make the call
panic, the others give a report without values. -/
theorem C133_no_fix (env : Env) (p : Parser) (s : Str) (a : Answer) (h : NoFix s a) : (parseSentence env p s).1 = a := by
  cases h with
  | gga talker fs _ h hb =>
    refine (C65_contents env p talker fs s h).2.2.2.mpr ?_
    rw [hb 0 (by simp)]
    exact not_timeField_nil _
  | gll talker fs _ h hb =>
    refine (C69_contents env p talker fs s h).2.2.2.mpr ⟨?_, ?_⟩
    · exact ⟨⟨none, .inl ⟨hb 0 (by simp), rfl⟩⟩, ⟨none, .inl ⟨hb 2 (by simp), rfl⟩⟩⟩
    · rw [hb 4 (by simp)]
      exact not_timeField_nil _
  | rmc talker fs _ h active hs hd hb =>
    refine ((C66_contents env p talker fs s h).2.1 _).mpr ⟨_, rfl, rfl, .inr ⟨?_, rfl⟩, .inr ⟨_, hs, rfl⟩,
      .inl ⟨hb 2 (by simp), rfl⟩, .inl ⟨hb 4 (by simp), rfl⟩, .inl ⟨hb 6 (by simp), rfl⟩, .inl ⟨hb 7 (by simp), rfl⟩,
      .inl ⟨hb 9 (by simp), rfl⟩⟩
    rintro d m y hh mi x ⟨h1, -, -, h4, -⟩
    rcases hd with hd | hd
    · rw [hd 0 (by simp)] at h4
      exact not_timePart_nil _ h4
    · rw [hd 8 (by simp)] at h1
      exact not_timePart_nil _ h1
  | gsa talker fs _ h auto fix hm hf hb =>
    refine ((C67_contents env p talker fs s h).2.1 _).mpr ⟨_, rfl, rfl, .inr ⟨_, hm, rfl⟩, .inr ⟨_, hf, rfl⟩, ?_,
      .inl ⟨hb 14 (by decide), rfl⟩, .inl ⟨hb 15 (by decide), rfl⟩, .inl ⟨hb 16 (by decide), rfl⟩⟩
    have : ((List.range 12).map (fun i => field fs (i + 2))).filter (fun s => s ≠ []) = [] := by
      rw [List.filter_eq_nil_iff]
      intro t ht
      obtain ⟨i, hi, rfl⟩ := List.mem_map.mp ht
      rw [List.mem_range] at hi
      rw [hb (i + 2) (by rw [List.mem_range'_1]; omega)]
      simp
    rw [this]
    exact .nil
  | vtg talker fs _ h hb =>
    obtain ⟨d, h1, h2⟩ := C68_contents env p talker fs s h
    have hl : ∀ i ∈ [0, 2, 4, 6], LenientField (field fs i) none := by
      intro i hi
      rw [hb i hi]
      exact .inr ⟨fun _ => numberText_nil, rfl⟩
    rw [h1, ← (h2 ⟨talkerSystem talker, none, none, none, none, faaTable.lookup (field fs 8)⟩).mp
      ⟨rfl, hl 0 (by simp), hl 2 (by simp), hl 4 (by simp), hl 6 (by simp), rfl⟩]
  | gsv talker fs _ h hb =>
    rw [C37_single env p s talker fs h]
    have : satellites (talkerSystem talker) fs = [] := by
      simp only [satellites, List.filterMap_eq_nil_iff, satellite, Option.map_eq_none_iff]
      intro j hj
      have : field fs (3 + 4 * j) = [] := by
        refine hb _ ?_
        simp only [List.mem_cons, List.not_mem_nil, or_false] at hj ⊢
        omega
      rw [this]
      rfl
    rw [this]

/-- The sentences of a receiver just switched on. -/
theorem demoNoFix : List.Forall₂ NoFix
    [c! "$GPGGA,,,,,,0,00,99.99,,,,,,*48", c! "$GPGLL,,,,,,V,N*64", c! "$GPRMC,,V,,,,,,,,,,N*53",
     c! "$GPGSA,A,1,,,,,,,,,,,,,,,", c! "$GPVTG,,,,,,,,,N*30", c! "$GPGSV,1,1,00*79"]
    [.panic, .panic, .ok (.rmc ⟨.gps, none, some false, none, none, none, none, none⟩),
     .ok (.gsa ⟨.gps, some true, some .notAvailable, [], none, none, none⟩),
     .ok (.vtg ⟨.gps, none, none, none, none, some .notValid⟩), .ok (.gsv [])] :=
  .cons (.gga (c! "GP") [[], [], [], [], [], c! "0", c! "00", c! "99.99", [], [], [], [], [], []] _
      (demoTagged .full (by decide +kernel)) (by decide)) <|
  .cons (.gll (c! "GP") [[], [], [], [], [], c! "V", c! "N"] _ (demoTagged .full (by decide +kernel)) (by decide)) <|
  .cons (.rmc (c! "GP") [[], c! "V", [], [], [], [], [], [], [], [], [], c! "N"] _ (demoTagged .full (by decide +kernel)) false
      (by decide) (.inl (by decide)) (by decide)) <|
  .cons (.gsa (c! "GP") (c! "A" :: c! "1" :: List.replicate 15 []) _ (demoTagged .bare (by decide +kernel)) true .notAvailable
      (by decide) (by decide) (by decide)) <|
  .cons (.vtg (c! "GP") [[], [], [], [], [], [], [], [], c! "N"] _ (demoTagged .full (by decide +kernel)) (by decide)) <|
  .cons (.gsv (c! "GP") [c! "1", c! "1", c! "00"] _
      ⟨demoTagged .full (by decide +kernel), .inr (demoDec (by decide)), .inr (demoDec (by decide))⟩ (by decide)) .nil

/-- The GGA sentence of a receiver just switched on. -/
example (env : Env) (p : Parser) : (parseSentence env p (c! "$GPGGA,,,,,,0,00,99.99,,,,,,*48")).1 = .panic := by
  cases demoNoFix with
  | cons h _ => exact C133_no_fix env p _ _ h

/-- C133: but for GSV, these sentences leave the parser as it was, the panics included. -/
theorem C133_no_trace (env : Env) (p : Parser) (s : Str) (a : Answer) (h : NoFix s a) (hg : a ≠ .ok (.gsv [])) :
    (parseSentence env p s).2 = p := by
  cases h with
  | gga talker fs _ h hb => exact (C65_contents env p talker fs s h).1
  | gll talker fs _ h hb => exact (C69_contents env p talker fs s h).1
  | rmc talker fs _ h active hs hd hb => exact (C66_contents env p talker fs s h).1
  | gsa talker fs _ h auto fix hm hf hb => exact (C67_contents env p talker fs s h).1
  | vtg talker fs _ h hb =>
    obtain ⟨d, h1, -⟩ := C68_contents env p talker fs s h
    rw [h1]
  | gsv talker fs _ h hb => exact absurd rfl hg

/-- The GGA sentence again. -/
example (env : Env) (p : Parser) : (parseSentence env p (c! "$GPGGA,,,,,,0,00,99.99,,,,,,*48")).2 = p := by
  cases demoNoFix with
  | cons h _ => exact C133_no_trace env p _ _ h (by decide)

/-- C133: as long as the receiver has no fix, its sentences are answered like this, one after the other and in whatever state
the parser was at first; a program that does not catch the panics ends at the first GGA or GLL. -/
theorem C133_stream (p : Parser) (h : List (Env × Str)) (l : List Answer) (hh : List.Forall₂ (fun x a => NoFix x.2 a) h l) :
    answers p h = l := by
  induction hh generalizing p with
  | nil => rfl
  | cons hx _ ih =>
    rw [answers, C133_no_fix _ p _ _ hx, ih]

/-- Two sentences of a receiver just switched on. -/
example (env : Env) (p : Parser) : answers p [(env, c! "$GPGGA,,,,,,0,00,99.99,,,,,,*48"), (env, c! "$GPGLL,,,,,,V,N*64")] =
    [.panic, .panic] := by
  cases demoNoFix with
  | cons h t =>
    cases t with
    | cons h' _ => exact C133_stream p [(env, _), (env, _)] _ (.cons h (.cons h' .nil))

/-- C133: once the receiver knows the time, GGA sentences without position are answered with a report. -/
theorem C133_time_known (env : Env) (p : Parser) (talker : Str) (fs : List Str) (s : Str) (hs : IsGnss talker (c! "GGA") fs s)
    (h m x quality n : Nat) (ht : ReadTime (field fs 0) (some (h, m, x)))
    (hd : IsDateTime ⟨env.now.year, env.now.month, env.now.day, h, m, x⟩)
    (hq : Dec 255 (field fs 5) quality) (hn : Dec 255 (field fs 6) n) (hb : Blank fs [1, 3, 7, 8, 10, 12, 13]) :
    (parseSentence env p s).1 = .ok (.gga ⟨talkerSystem talker, some ⟨env.now.year, env.now.month, env.now.day, h, m, x⟩, none,
      none, qualities.getD quality .invalid, some n, none, none, none, none, none⟩) :=
  ((C65_contents env p talker fs s hs).2.1 _).mpr ⟨_, rfl, rfl, .inl ⟨h, m, x, ht, hd, rfl⟩, .inl ⟨hb 1 (by simp), rfl⟩,
    .inl ⟨hb 3 (by simp), rfl⟩, ⟨_, .inr ⟨_, hq, rfl⟩, rfl⟩, .inr ⟨_, hn, rfl⟩, .inl ⟨hb 7 (by simp), rfl⟩,
    .inl ⟨hb 8 (by simp), rfl⟩, .inl ⟨hb 10 (by simp), rfl⟩, .inl ⟨hb 12 (by simp), rfl⟩, .inl ⟨hb 13 (by simp), rfl⟩⟩

/-- A quarter past midnight. -/
example : (parseSentence demoEnv Parser.new (c! "$GPGGA,001500,,,,,0,00,,,,,,,")).1 =
    .ok (.gga ⟨.gps, some ⟨demoEnv.now.year, demoEnv.now.month, demoEnv.now.day, 0, 15, 0⟩, none, none, .invalid, some 0, none,
      none, none, none, none⟩) :=
  C133_time_known demoEnv Parser.new (c! "GP") [c! "001500", [], [], [], [], c! "0", c! "00", [], [], [], [], [], [], []]
    (c! "$GPGGA,001500,,,,,0,00,,,,,,,") (demoTagged .bare (by decide +kernel)) 0 15 0 0 0
    (.time (c! "00") (c! "15") (c! "00") [] 0 15 0 (by decide) (by decide)
      ⟨demoDec (by decide), demoDec (by decide), demoDec (by decide)⟩)
    (by decide) (demoDec (by decide)) (demoDec (by decide)) (by decide)

end Nmea
