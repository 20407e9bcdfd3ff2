/-
C149: times that are on no clock, among them the leap second.
-/
import Verif.Lemmas.Times
import Verif.Props.Gnss
import Verif.Lemmas.Traffic

namespace Nmea
open Spec

theorem timePrefix_read (h m x : Nat) (rest : Str) (hh : h < 100) (hm : m < 100) (hx : x < 100) :
    ReadTime (timeText h m x ++ rest) (some (h, m, x)) := by
  refine .time (pad 2 h) (pad 2 m) (pad 2 x) rest h m x (by simp [timeText]) ⟨pad_byteLen _ _, pad_byteLen _ _, pad_byteLen _ _⟩ ?_
  exact ⟨pad_dec 2 h _ (by decide) (by omega) (by omega), pad_dec 2 m _ (by decide) (by omega) (by omega),
    pad_dec 2 x _ (by decide) (by omega) (by omega)⟩

theorem hms_field (now : DateTime) (hnow : IsDateTime now) (h m x : Nat) (rest : Str) (hh : h < 100) (hm : m < 100) (hx : x < 100) :
    (∃ t, TimeField now (timeText h m x ++ rest) t) ↔ IsTime h m x := by
  have hr := timePrefix_read h m x rest hh hm hx
  constructor
  · rintro ⟨t, ⟨h', m', x', hr', hd, -⟩ | ⟨hr', -⟩⟩
    · cases readTime_unique hr hr'
      exact hd.2.2
    · cases readTime_unique hr hr'
  · intro ht
    exact ⟨_, hms_time now hnow h m x rest ht⟩

theorem dateTimePrefix_read (d mo y h m x : Nat) (rest rest' : Str)
    (h1 : d < 100) (h2 : mo < 100) (h3 : y < 100) (h4 : h < 100) (h5 : m < 100) (h6 : x < 100) :
    ReadDateTime (dateText d mo y ++ rest') (timeText h m x ++ rest) d mo y h m x := by
  have e : ∀ a b c r, ∀ i, i ≤ 4 → pair (timeText a b c ++ r) i = pair (timeText a b c) i := by
    intro a b c r i hi
    have hl : (timeText a b c).length = 6 := by simp [timeText, pad]
    unfold pair
    rw [List.drop_append_of_le_length (by omega), List.take_append_of_le_length (by simp; omega)]
  have := dateTimeText_read d mo y h m x h1 h2 h3 h4 h5 h6
  unfold ReadDateTime at this ⊢
  have e' : ∀ i, i ≤ 4 → pair (dateText d mo y ++ rest') i = pair (dateText d mo y) i := e d mo y rest'
  rw [e h m x rest 0 (by decide), e h m x rest 2 (by decide), e h m x rest 4 (by decide), e' 0 (by decide), e' 2 (by decide),
    e' 4 (by decide)]
  exact this

/-- C149: a GGA sentence whose time begins with three numbers of two digits makes the call panic exactly if these are not an
hour up to 23, a minute up to 59 and a second up to 59. -/
theorem C149_gga (env : Env) (hnow : IsDateTime env.now) (p : Parser) (talker : Str) (fs : List Str) (s : Str) (h m x : Nat)
    (rest : Str) (hs : IsGnss talker (c! "GGA") fs s) (ht : field fs 0 = timeText h m x ++ rest)
    (hh : h < 100) (hm : m < 100) (hx : x < 100) : (parseSentence env p s).1 = .panic ↔ ¬ IsTime h m x := by
  rw [gga_panic env p talker fs s hs, ht, hms_field env.now hnow h m x rest hh hm hx]

/-- C149: a GLL sentence, too, unless its position is refused. -/
theorem C149_gll (env : Env) (hnow : IsDateTime env.now) (p : Parser) (talker : Str) (fs : List Str) (s : Str) (h m x : Nat)
    (rest : Str) (hs : IsGnss talker (c! "GLL") fs s) (ht : field fs 4 = timeText h m x ++ rest)
    (hh : h < 100) (hm : m < 100) (hx : x < 100) :
    (parseSentence env p s).1 = .panic ↔ GllReadable fs ∧ ¬ IsTime h m x := by
  rw [gll_panic env p talker fs s hs, ht, hms_field env.now hnow h m x rest hh hm hx]

/-- C149: an RMC sentence with date and time: exactly if these are no moment of the current century. -/
theorem C149_rmc (env : Env) (p : Parser) (talker : Str) (fs : List Str) (s : Str) (d mo y h m x : Nat) (rest rest' : Str)
    (hs : IsGnss talker (c! "RMC") fs s) (hd : field fs 8 = dateText d mo y ++ rest') (ht : field fs 0 = timeText h m x ++ rest)
    (h1 : d < 100) (h2 : mo < 100) (h3 : y < 100) (h4 : h < 100) (h5 : m < 100) (h6 : x < 100) :
    (parseSentence env p s).1 = .panic ↔ ¬ IsDateTime ⟨centuryOf env.now.year + y, mo, d, h, m, x⟩ := by
  have hr := dateTimePrefix_read d mo y h m x rest rest' h1 h2 h3 h4 h5 h6
  rw [rmc_panic env p talker fs s hs, hd, ht, not_iff_not]
  constructor
  · rintro ⟨t, ⟨d', m', y', h', mi', s', hr', hv, -⟩ | ⟨hr', -⟩⟩
    · obtain ⟨rfl, rfl, rfl, rfl, rfl, rfl⟩ := readDateTime_unique hr hr'
      exact hv
    · exact absurd hr (hr' _ _ _ _ _ _)
  · intro hv
    exact ⟨_, .inl ⟨d, mo, y, h, m, x, hr, hv, rfl⟩⟩

/-- C149: so in a leap second (the second after 23:59:59 at the end of some days, called 23:59:60) GGA sentences, GLL sentences with
a readable position and RMC sentences with a date make the call panic. -/
theorem C149_leap_second (env : Env) (hnow : IsDateTime env.now) (p : Parser) (talker : Str) (fs : List Str) (s rest rest' : Str)
    (d mo y : Nat) (h1 : d < 100) (h2 : mo < 100) (h3 : y < 100)
    (hs : (IsGnss talker (c! "GGA") fs s ∧ field fs 0 = c! "235960" ++ rest) ∨
      (IsGnss talker (c! "GLL") fs s ∧ GllReadable fs ∧ field fs 4 = c! "235960" ++ rest) ∨
      (IsGnss talker (c! "RMC") fs s ∧ field fs 0 = c! "235960" ++ rest ∧ field fs 8 = dateText d mo y ++ rest')) :
    (parseSentence env p s).1 = .panic := by
  have e : c! "235960" = timeText 23 59 60 := by decide
  rw [e] at hs
  have no : ¬ IsTime 23 59 60 := by decide
  rcases hs with ⟨hs, ht⟩ | ⟨hs, hr, ht⟩ | ⟨hs, ht, hd⟩
  · exact (C149_gga env hnow p talker fs s 23 59 60 rest hs ht (by decide) (by decide) (by decide)).2 no
  · exact (C149_gll env hnow p talker fs s 23 59 60 rest hs ht (by decide) (by decide) (by decide)).2 ⟨hr, no⟩
  · exact (C149_rmc env p talker fs s d mo y 23 59 60 rest rest' hs hd ht h1 h2 h3 (by decide) (by decide) (by decide)).2
      fun h => no h.2.2

/-- The seconds around the leap second at the end of 2016. -/
example : let env : Env := ⟨⟨2016, 12, 31, 23, 59, 59⟩, true, fun c => [c]⟩
    IsDateTime env.now ∧
    (answers Parser.new [(env, c! "$GPRMC,235959.00,A,,,,,,,311216,,"), (env, c! "$GPRMC,235960.00,A,,,,,,,311216,,"),
      (env, c! "$GPRMC,000000.00,A,,,,,,,010117,,")]).map (fun a => match a with | .ok (.rmc d) => some d.timestamp | _ => none) =
    [some (some ⟨2016, 12, 31, 23, 59, 59⟩), none, some (some ⟨2017, 1, 1, 0, 0, 0⟩)] := by decide +kernel

/-- The second of these, and a GGA sentence, meet the hypotheses. -/
example : IsGnss (c! "GP") (c! "RMC") [c! "235960.00", c! "A", [], [], [], [], [], [], c! "311216", [], []]
      (c! "$GPRMC,235960.00,A,,,,,,,311216,,") ∧ c! "235960.00" = c! "235960" ++ c! ".00" ∧
    c! "311216" = dateText 31 12 16 ++ [] ∧
    IsGnss (c! "GP") (c! "GGA") [c! "235960", [], [], [], [], c! "0"] (c! "$GPGGA,235960,,,,,0") ∧
    IsGnss (c! "GP") (c! "GLL") [[], [], [], [], c! "235960"] (c! "$GPGLL,,,,,235960") ∧
    GllReadable [[], [], [], [], c! "235960"] :=
  ⟨demoTagged .bare (by decide), by decide, by decide, demoTagged .bare (by decide), demoTagged .bare (by decide),
    ⟨none, .inl ⟨rfl, rfl⟩⟩, ⟨none, .inl ⟨rfl, rfl⟩⟩⟩

end Nmea
