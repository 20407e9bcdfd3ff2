/-
C113: reported timestamps and the moments that were meant.
-/
import Verif.Lemmas.Instant
import Verif.Props.Gnss
import Verif.Props.Panics
import Verif.Props.Messages

namespace Nmea
open Spec

/-- The sentence is a GGA or GLL sentence with the time of day of the moment `T`; decimals of seconds or anything else may
follow the seconds. -/
def FixAt (T : DateTime) (s : Str) : Prop :=
  ∃ talker kind fs rest, IsGnss talker kind fs s ∧ (kind = c! "GGA" ∨ kind = c! "GLL") ∧
    field fs (if kind = c! "GGA" then 0 else 4) = timeText T.hour T.minute T.second ++ rest

/-- The same date. -/
def SameDay (a b : DateTime) : Prop := a.year = b.year ∧ a.month = b.month ∧ a.day = b.day

theorem fixAt_time (env : Env) (p : Parser) (T : DateTime) (s : Str) (r : ParsedSentence) (hT : IsDateTime T)
    (hs : FixAt T s) (hr : (parseSentence env p s).1 = .ok r) :
    gnssTime r = some (some ⟨env.now.year, env.now.month, env.now.day, T.hour, T.minute, T.second⟩) := by
  obtain ⟨talker, kind, fs, rest, h, hk, ht⟩ := hs
  exact C75_six_digits env p talker kind fs s r T.hour T.minute T.second rest h hk ht hT.2.2 hr

/-- C113: a fix made at the moment `T` and received when the clock shows `now`: the reported timestamp differs from `T` by
the number of days from `T` to `now`, so it is `T` exactly if the fix is received on the day it was made. -/
theorem C113_whole_days (env : Env) (p : Parser) (T : DateTime) (s : Str) (r : ParsedSentence) (hT : IsDateTime T)
    (hs : FixAt T s) (hr : (parseSentence env p s).1 = .ok r) :
    ∃ t, gnssTime r = some (some t) ∧
      instant t = instant T + 86400 * (dayNumber env.now.year env.now.month env.now.day - dayNumber T.year T.month T.day) ∧
      (t = T ↔ SameDay T env.now) := by
  refine ⟨_, fixAt_time env p T s r hT hs hr, ?_, ?_⟩
  · simp only [instant]
    ring
  · cases T
    simp only [DateTime.mk.injEq, and_true, SameDay]
    constructor
    · rintro ⟨h1, h2, h3⟩; exact ⟨h1.symm, h2.symm, h3.symm⟩
    · rintro ⟨h1, h2, h3⟩; exact ⟨h1.symm, h2.symm, h3.symm⟩

/-- The time 12:35:19, with decimals, in a GGA sentence. -/
example : IsDateTime ⟨2024, 2, 29, 12, 35, 19⟩ ∧ FixAt ⟨2024, 2, 29, 12, 35, 19⟩ (c! "$GPGGA,123519.75,,,,,1,,,,,,,,") ∧
    ∃ d, (parseSentence demoEnv Parser.new (c! "$GPGGA,123519.75,,,,,1,,,,,,,,")).1 = .ok (.gga d) := by
  refine ⟨by decide, ⟨c! "GP", c! "GGA", [c! "123519.75", [], [], [], [], c! "1", [], [], [], [], [], [], [], []], c! ".75",
    demoTagged .bare (by decide), .inl rfl, by decide⟩, ?_⟩
  exact ⟨_, rfl⟩

/-- C113: fixes received on the day they were made are reported in the order they were made. -/
theorem C113_in_order (env env' : Env) (p p' : Parser) (T T' : DateTime) (s s' : Str) (r r' : ParsedSentence)
    (t t' : DateTime) (hT : IsDateTime T) (hT' : IsDateTime T') (hs : FixAt T s) (hs' : FixAt T' s')
    (hr : (parseSentence env p s).1 = .ok r) (hr' : (parseSentence env' p' s').1 = .ok r')
    (hd : SameDay T env.now) (hd' : SameDay T' env'.now)
    (ht : gnssTime r = some (some t)) (ht' : gnssTime r' = some (some t')) :
    instant t < instant t' ↔ instant T < instant T' := by
  obtain ⟨u, hu, -, e⟩ := C113_whole_days env p T s r hT hs hr
  obtain ⟨u', hu', -, e'⟩ := C113_whole_days env' p' T' s' r' hT' hs' hr'
  rw [ht] at hu
  rw [ht'] at hu'
  cases hu
  cases hu'
  rw [e.mpr hd, e'.mpr hd']

/-- Both hypotheses on the days hold for fixes of the day of the demo. -/
example : SameDay ⟨2024, 2, 29, 12, 35, 19⟩ demoEnv.now := ⟨rfl, rfl, rfl⟩

/-- C113: a fix made before midnight and received after it, less than a day later, is dated in the future: exactly one day
after it was made. -/
theorem C113_midnight (env : Env) (p : Parser) (T : DateTime) (s : Str) (r : ParsedSentence) (hT : IsDateTime T)
    (hs : FixAt T s) (hr : (parseSentence env p s).1 = .ok r)
    (hday : dayNumber env.now.year env.now.month env.now.day = dayNumber T.year T.month T.day + 1)
    (hage : instant env.now < instant T + 86400) :
    ∃ t, gnssTime r = some (some t) ∧ instant t = instant T + 86400 ∧ instant env.now < instant t := by
  obtain ⟨t, ht, e, -⟩ := C113_whole_days env p T s r hT hs hr
  refine ⟨t, ht, ?_, ?_⟩ <;> rw [e, hday] <;> linarith

/-- A fix made one second before midnight at the end of February of a leap year. -/
example : dayNumber 2024 3 1 = dayNumber 2024 2 29 + 1 ∧
    instant ⟨2024, 3, 1, 0, 0, 1⟩ < instant ⟨2024, 2, 29, 23, 59, 59⟩ + 86400 := by decide

/-- C113: 'fixes are reported in the order they were made' is false: received one second after midnight, a fix made one
second before midnight is reported almost a day after one made at midnight. -/
theorem C113_reversed :
    let env : Env := ⟨⟨2024, 3, 1, 0, 0, 1⟩, true, fun c => [c]⟩
    ∃ r r', (parseSentence env Parser.new (c! "$GPGLL,,,,,235959,A")).1 = .ok r ∧
      (parseSentence env Parser.new (c! "$GPGLL,,,,,000000,A")).1 = .ok r' ∧
      gnssTime r = some (some ⟨2024, 3, 1, 23, 59, 59⟩) ∧ gnssTime r' = some (some ⟨2024, 3, 1, 0, 0, 0⟩) :=
  ⟨_, _, rfl, rfl, by decide +kernel, by decide +kernel⟩

/-- C113: an RMC sentence with date and time of the moment `T`: the reported timestamp is `T` exactly if `T` is in the
century of the clock. -/
theorem C113_rmc (env : Env) (p : Parser) (talker : Str) (fs : List Str) (s : Str) (r : ParsedSentence) (T : DateTime)
    (hs : IsGnss talker (c! "RMC") fs s) (hT : 0 ≤ T.year) (hnow : 0 ≤ env.now.year)
    (hd : field fs 8 = dateText T.day T.month (T.year.toNat % 100))
    (ht : field fs 0 = timeText T.hour T.minute T.second)
    (hv : IsDateTime { T with year := env.now.year / 100 * 100 + T.year % 100 }) (hr : (parseSentence env p s).1 = .ok r) :
    ∃ t, gnssTime r = some (some t) ∧ (t = T ↔ T.year / 100 = env.now.year / 100) ∧
      t.year = T.year + 100 * (env.now.year / 100 - T.year / 100) := by
  have hc : centuryOf env.now.year + ((T.year.toNat % 100 : Nat) : Int) = env.now.year / 100 * 100 + T.year % 100 := by
    unfold centuryOf
    rw [if_pos hnow]
    omega
  have := C76_century env p talker fs s r T.day T.month (T.year.toNat % 100) T.hour T.minute T.second hs hd ht (by omega)
    (by rw [hc]; exact hv) hr
  rw [hc] at this
  refine ⟨_, this, ?_, ?_⟩
  · cases T
    simp only [DateTime.mk.injEq, and_true]
    omega
  · simp only []
    omega

/-- The last second of 1999, received in 2024. -/
example : IsDateTime { (⟨1999, 12, 31, 23, 59, 59⟩ : DateTime) with year := demoEnv.now.year / 100 * 100 + 1999 % 100 } ∧
    dateText 31 12 ((1999 : Int).toNat % 100) = c! "311299" ∧ timeText 23 59 59 = c! "235959" := by decide

/-- C113: an arrival announced for the next year, less than a year ahead by the calendar, is reported in the past: before
the clock. -/
theorem C113_eta_past (env : Env) (p : Parser) (s talker : Str) (own : Bool) (m : Voyage) (x : List Bool) (T : DateTime)
    (hm : m.Fits) (hnow : IsDateTime env.now) (hT : IsDateTime { T with year := env.now.year })
    (ha : m.month = T.month ∧ m.day = T.day ∧ m.hour = T.hour ∧ m.minute = T.minute) (hdr : m.draught < 240)
    (hlt : T.month < env.now.month ∨ T.month = env.now.month ∧ T.day < env.now.day)
    (h : Delivers p s talker own (armor (m.bits ++ x))) :
    ∃ d t, (parseSentence env p s).1 = .ok (.vesselStaticData d) ∧ d.eta = some t ∧ instant t < instant env.now := by
  obtain ⟨a1, a2, a3, a4⟩ := ha
  have hT' := hT
  obtain ⟨hy, ⟨d1, d2, d3, d4⟩, t1, t2, t3⟩ := hT'
  simp only [] at hy d1 d2 d3 d4 t1 t2 t3
  have hn : ¬ EtaAbsent m.arrival := by
    unfold EtaAbsent Voyage.arrival
    simp only []
    omega
  have e : etaCandidate env.now m.arrival = ⟨env.now.year, T.month, T.day, T.hour, T.minute, m.draught / 4⟩ := by
    unfold etaCandidate Voyage.arrival
    simp only [DateTime.mk.injEq, true_and]
    rw [if_neg (by omega), if_neg (by omega), if_neg (by omega), if_neg (by omega), if_neg (by omega)]
    exact ⟨a1, a2, a3, a4, rfl⟩
  have hdt : IsDateTime (etaCandidate env.now m.arrival) := by
    rw [e]
    exact ⟨hy, ⟨d1, d2, d3, d4⟩, t1, t2, by show m.draught / 4 ≤ 59; omega⟩
  refine ⟨_, _, C46_voyage env p s talker own m x hm (.inr hdt) h, if_neg hn, ?_⟩
  have hb := dayNumber_lt (y := env.now.year) (y' := env.now.year) ⟨d1, d2, d3, d4⟩ hnow.2.1 (.inr ⟨rfl, hlt⟩)
  rw [e]
  simp only [instant]
  obtain ⟨-, -, n1, n2, n3⟩ := hnow
  omega

/-- An arrival on 2 January announced on 29 February. -/
example : IsDateTime { (⟨2025, 1, 2, 14, 0, 0⟩ : DateTime) with year := demoEnv.now.year } ∧ IsDateTime demoEnv.now ∧
    Voyage.Fits ⟨0, 351759000, 0, 9134270, c! "3FOF8", c! "EVER DIADEM", 70, 225, 70, 1, 31, 1, 1, 2, 14, 0, 122,
      c! "NEW YORK", false, false⟩ := by
  refine ⟨by decide, by decide, ?_⟩
  unfold Voyage.Fits; decide

/-- C113: an arrival announced for 29 February makes the call panic in every year that is not a leap year, also if the next
year is one. -/
theorem C113_leap_day (env : Env) (p : Parser) (s talker : Str) (own : Bool) (m : Voyage) (x : List Bool)
    (hm : m.Fits) (hl : ¬ Leap env.now.year) (ha : m.month = 2 ∧ m.day = 29)
    (h : Delivers p s talker own (armor (m.bits ++ x))) : (parseSentence env p s).1 = .panic := by
  refine C46_bad_eta_panics env p s talker own m x hm ?_ ?_ h
  · unfold EtaAbsent Voyage.arrival
    simp only []
    omega
  · rintro ⟨-, ⟨-, -, -, hd⟩, -⟩
    unfold etaCandidate Voyage.arrival monthDays at hd
    simp only [ha.1, ha.2] at hd
    rw [if_neg hl] at hd
    simp at hd

/-- In December 2027 for February 2028. -/
example : ¬ Leap 2027 ∧ Leap 2028 ∧
    Voyage.Fits ⟨0, 351759000, 0, 9134270, c! "3FOF8", c! "EVER DIADEM", 70, 225, 70, 1, 31, 1, 2, 29, 14, 0, 122,
      c! "NEW YORK", false, false⟩ := by
  refine ⟨by decide, by decide, ?_⟩
  unfold Voyage.Fits; decide

/-- C113: the comparison of times that the ETA is subjected to is that of the moments (it has no effect: both candidates
are the same, see C77). -/
theorem C113_comparison (a b : DateTime) (ha : IsDateTime a) (hb : IsDateTime b) : a.le b = true ↔ instant a ≤ instant b := by
  have key : ∀ a b : DateTime, IsDateTime a → IsDateTime b → DayBefore a.year a.month a.day b.year b.month b.day →
      instant a < instant b := by
    rintro a b ⟨-, da, t1, t2, t3⟩ ⟨-, db, u1, u2, u3⟩ h
    have := dayNumber_lt da db h
    simp only [instant]
    omega
  by_cases h1 : DayBefore a.year a.month a.day b.year b.month b.day
  · have := key a b ha hb h1
    have hle : a.le b = true := by unfold DayBefore at h1; unfold DateTime.le; simp only [decide_eq_true_eq]; omega
    exact ⟨fun _ => this.le, fun _ => hle⟩
  by_cases h2 : DayBefore b.year b.month b.day a.year a.month a.day
  · have := key b a hb ha h2
    have hle : ¬ a.le b = true := by unfold DayBefore at h2; unfold DateTime.le; simp only [decide_eq_true_eq]; omega
    exact ⟨fun h => absurd h hle, fun h => by omega⟩
  obtain ⟨e1, e2, e3⟩ : a.year = b.year ∧ a.month = b.month ∧ a.day = b.day := by unfold DayBefore at h1 h2; omega
  obtain ⟨-, -, t1, t2, t3⟩ := ha
  obtain ⟨-, -, u1, u2, u3⟩ := hb
  simp only [instant, DateTime.le, decide_eq_true_eq, e1, e2, e3, lt_irrefl, false_or, true_and]
  omega

example : IsDateTime ⟨2023, 12, 31, 23, 59, 59⟩ ∧ IsDateTime ⟨2024, 1, 1, 0, 0, 0⟩ ∧
    DateTime.le ⟨2023, 12, 31, 23, 59, 59⟩ ⟨2024, 1, 1, 0, 0, 0⟩ = true := by decide +kernel

end Nmea
