/-
Specification: what the fields of a GNSS sentence mean, with numbers as exact signs and magnitudes (no doubles).
-/
import Verif.Spec.Order

namespace Nmea.Spec

/-- A number field of at most 15 digits, without exponent: absent, or sign and magnitude. -/
def NumMeans (s : Str) (x : Option (Bool × Rat)) : Prop :=
  (s = [] ∧ x = none) ∨
    ∃ neg r ip fp, Signed s neg r ∧ ((r = ip ∧ fp = []) ∨ r = ip ++ '.' :: fp) ∧ AllDigits ip ∧ AllDigits fp ∧
      (ip ≠ [] ∨ fp ≠ []) ∧ ip.length + fp.length ≤ 15 ∧ x = some (neg, (decValue ip + decValue fp / 10 ^ fp.length : Rat))

/-- A position field and its hemisphere: absent, or hemisphere (`true`: the negative one), degrees and minutes, with
at most 11 decimals of minutes, minutes below 60, at most 180 degrees in all. -/
def AngleMeans (k : Nat) (minus : Char) (s hemi : Str) (x : Option (Bool × Nat × Rat)) : Prop :=
  (s = [] ∧ x = none) ∨
    ∃ deg min, PosText k s deg min ∧ (∃ n : Nat, min = n / 10 ^ 11) ∧ min < 60 ∧ (deg : Rat) + min / 60 ≤ 180 ∧
      x = some (decide (hemi = [minus]), deg, min)

/-- A date field and a time field: day, month, two-digit year, hour, minute, second; absent if unreadable. -/
def DateTimeMeans (date time : Str) (x : Option (Nat × Nat × Int × Nat × Nat × Nat)) : Prop :=
  (∃ d m y h mi s, ReadDateTime date time d m y h mi s ∧ x = some (d, m, y, h, mi, s)) ∨
  ((∀ d m y h mi s, ¬ ReadDateTime date time d m y h mi s) ∧ x = none)

/-- What a quality field stands for: 0 (invalid) also for an absent and for an unknown code. -/
def qualityMeant (x : Option Nat) : Nat := if x.getD 0 ≤ 8 then x.getD 0 else 0

/-- Contents of a GGA sentence. -/
structure GgaMeaning where
  time : Option (Nat × Nat × Nat)
  lat : Option (Bool × Nat × Rat)
  lon : Option (Bool × Nat × Rat)
  quality : Option Nat
  satellites : Option Nat
  hdop : Option (Bool × Rat)
  altitude : Option (Bool × Rat)
  geoid : Option (Bool × Rat)
  age : Option (Bool × Rat)
  station : Option Nat

/-- The fields of a GGA sentence mean this. -/
structure GgaMeans (fs : List Str) (m : GgaMeaning) : Prop where
  time : ReadTime (field fs 0) m.time
  lat : AngleMeans 2 'S' (field fs 1) (field fs 2) m.lat
  lon : AngleMeans 3 'W' (field fs 3) (field fs 4) m.lon
  quality : IntField 255 (field fs 5) m.quality
  satellites : IntField 255 (field fs 6) m.satellites
  hdop : NumMeans (field fs 7) m.hdop
  altitude : NumMeans (field fs 8) m.altitude
  geoid : NumMeans (field fs 10) m.geoid
  age : NumMeans (field fs 12) m.age
  station : IntField 65535 (field fs 13) m.station

/-- Contents of an RMC sentence; the sign of the variation is negative to the west. -/
structure RmcMeaning where
  time : Option (Nat × Nat × Int × Nat × Nat × Nat)
  status : Option Bool
  lat : Option (Bool × Nat × Rat)
  lon : Option (Bool × Nat × Rat)
  speed : Option (Bool × Rat)
  bearing : Option (Bool × Rat)
  variation : Option (Bool × Rat)

/-- The fields of an RMC sentence mean this. -/
structure RmcMeans (fs : List Str) (m : RmcMeaning) : Prop where
  time : DateTimeMeans (field fs 8) (field fs 0) m.time
  status : LetterField statusTable (field fs 1) m.status
  lat : AngleMeans 2 'S' (field fs 2) (field fs 3) m.lat
  lon : AngleMeans 3 'W' (field fs 4) (field fs 5) m.lon
  speed : NumMeans (field fs 6) m.speed
  bearing : NumMeans (field fs 7) m.bearing
  variation : ∃ x, NumMeans (field fs 9) x ∧ m.variation = x.map fun y => (y.1 ^^ decide (field fs 10 = c! "W"), y.2)

/-- Contents of a GSA sentence. -/
structure GsaMeaning where
  mode : Option Bool
  fix : Option GsaFixMode
  satellites : List Nat
  pdop : Option (Bool × Rat)
  hdop : Option (Bool × Rat)
  vdop : Option (Bool × Rat)

/-- The fields of a GSA sentence mean this; empty satellite fields are skipped. -/
structure GsaMeans (fs : List Str) (m : GsaMeaning) : Prop where
  mode : LetterField modeTable (field fs 0) m.mode
  fix : LetterField fixTypes (field fs 1) m.fix
  satellites : List.Forall₂ (Dec 255)
    (((List.range 12).map (fun i => field fs (i + 2))).filter (fun s => s ≠ [])) m.satellites
  pdop : NumMeans (field fs 14) m.pdop
  hdop : NumMeans (field fs 15) m.hdop
  vdop : NumMeans (field fs 16) m.vdop

/-- Contents of a VTG sentence. -/
structure VtgMeaning where
  courseTrue : Option (Bool × Rat)
  courseMagnetic : Option (Bool × Rat)
  knots : Option (Bool × Rat)
  kph : Option (Bool × Rat)
  faa : Option FaaMode

/-- The fields of a VTG sentence mean this. -/
structure VtgMeans (fs : List Str) (m : VtgMeaning) : Prop where
  courseTrue : NumMeans (field fs 0) m.courseTrue
  courseMagnetic : NumMeans (field fs 2) m.courseMagnetic
  knots : NumMeans (field fs 4) m.knots
  kph : NumMeans (field fs 6) m.kph
  faa : m.faa = faaTable.lookup (field fs 8)

/-- Contents of a GLL sentence. -/
structure GllMeaning where
  lat : Option (Bool × Nat × Rat)
  lon : Option (Bool × Nat × Rat)
  time : Option (Nat × Nat × Nat)
  valid : Option Bool
  faa : Option FaaMode

/-- The fields of a GLL sentence mean this. -/
structure GllMeans (fs : List Str) (m : GllMeaning) : Prop where
  lat : AngleMeans 2 'S' (field fs 0) (field fs 1) m.lat
  lon : AngleMeans 3 'W' (field fs 2) (field fs 3) m.lon
  time : ReadTime (field fs 4) m.time
  valid : m.valid = statusTable.lookup (field fs 5)
  faa : m.faa = faaTable.lookup (field fs 6)

end Nmea.Spec
