/-
Specification of the contents of GNSS sentences: what the texts of the fields mean, as relations between
texts and values.
-/
import Verif.Spec.Numbers
import Verif.Spec.Calendar
import Verif.Spec.Tables

namespace Nmea.Spec

/-! ### Positions -/

/-- `s` begins with `k` digits of degrees, two digits of whole minutes, a point and the decimals of the
minutes (all of them). -/
def PosText (k : Nat) (s : Str) (deg : Nat) (min : Rat) : Prop :=
  ∃ d m f rest, s = d ++ m ++ '.' :: f ++ rest ∧ d.length = k ∧ m.length = 2 ∧ AllDigits d ∧ AllDigits m ∧
    Digits f ∧ (∀ c t, rest = c :: t → c ∉ c! "0123456789") ∧ deg = decValue d ∧
    min = decValue m + decValue f / 10 ^ f.length

/-- Degrees and minutes as a double: the minutes are rounded, divided by 60 and added to the degrees. -/
def DegreesOf (deg : Nat) (min r : Rat) : Prop :=
  ∃ a b, RoundsTo min (.fin false a) ∧ RoundsTo (a / 60) (.fin false b) ∧ RoundsTo (deg + b) (.fin false r)

/-- A position field and its hemisphere field; `minus` is the letter of the negative hemisphere. -/
def PosField (k : Nat) (minus : Char) (s hemi : Str) (x : Option F64) : Prop :=
  (s = [] ∧ x = none) ∨
    ∃ deg min r, PosText k s deg min ∧ DegreesOf deg min r ∧ x = some (.fin (decide (hemi = [minus])) r)

/-- A latitude field, `DDMM.mmm` and `N` or `S`. -/
def LatField := PosField 2 'S'
/-- A longitude field, `DDDMM.mmm` and `E` or `W`. -/
def LonField := PosField 3 'W'

/-! ### Times and dates -/

/-- A number of a date or time. -/
def TimePart (s : Str) (n : Nat) : Prop := Dec (2 ^ 32 - 1) s n

/-- A number of a date or time which may be negative. -/
def YearPart (s : Str) (z : Int) : Prop :=
  (∃ n, Dec (2 ^ 31 - 1) s n ∧ z = n) ∨
    (∃ ds, s = '-' :: ds ∧ Digits ds ∧ decValue ds ≤ 2 ^ 31 ∧ z = -(decValue ds : Int))

/-- Reading a time text as hour, minute and second of two bytes each, from the left; `none` once one of
them is not a number. (Nothing can be read if the text ends too early.) -/
inductive ReadTime (s : Str) : Option (Nat × Nat × Nat) → Prop where
  | time (a b c rest : Str) (h m x : Nat) (hs : s = a ++ b ++ c ++ rest)
      (hl : byteLen a = 2 ∧ byteLen b = 2 ∧ byteLen c = 2) (hp : TimePart a h ∧ TimePart b m ∧ TimePart c x) :
      ReadTime s (some (h, m, x))
  | noHour (a rest : Str) (hs : s = a ++ rest) (hl : byteLen a = 2) (hp : ∀ n, ¬ TimePart a n) : ReadTime s none
  | noMinute (a b rest : Str) (h : Nat) (hs : s = a ++ b ++ rest) (hl : byteLen a = 2 ∧ byteLen b = 2)
      (hp : TimePart a h ∧ ∀ n, ¬ TimePart b n) : ReadTime s none
  | noSecond (a b c rest : Str) (h m : Nat) (hs : s = a ++ b ++ c ++ rest)
      (hl : byteLen a = 2 ∧ byteLen b = 2 ∧ byteLen c = 2) (hp : TimePart a h ∧ TimePart b m ∧ ∀ n, ¬ TimePart c n) :
      ReadTime s none

/-- A time field: a time of the current day, or nothing if it is not a time text. -/
def TimeField (now : DateTime) (s : Str) (t : Option DateTime) : Prop :=
  (∃ h m x, ReadTime s (some (h, m, x)) ∧ IsDateTime ⟨now.year, now.month, now.day, h, m, x⟩ ∧
    t = some ⟨now.year, now.month, now.day, h, m, x⟩) ∨ (ReadTime s none ∧ t = none)

/-- Characters `i` and `i + 1` of a text. -/
def pair (s : Str) (i : Nat) : Str := (s.drop i).take 2

/-- Reading a date text `DDMMYY` and a time text `HHMMSS` (two characters each). -/
def ReadDateTime (date time : Str) (d m : Nat) (y : Int) (h mi s : Nat) : Prop :=
  TimePart (pair date 0) d ∧ TimePart (pair date 2) m ∧ YearPart (pair date 4) y ∧
    TimePart (pair time 0) h ∧ TimePart (pair time 2) mi ∧ TimePart (pair time 4) s

/-- The first year of the century of `y`, counted towards zero. -/
def centuryOf (y : Int) : Int := if 0 ≤ y then y / 100 * 100 else -(-y / 100 * 100)

/-- A date field and a time field: a date-time in the current century, or nothing if one of them is not
a date or time text. -/
def DateTimeField (now : DateTime) (date time : Str) (t : Option DateTime) : Prop :=
  (∃ d m y h mi s, ReadDateTime date time d m y h mi s ∧ IsDateTime ⟨centuryOf now.year + y, m, d, h, mi, s⟩ ∧
    t = some ⟨centuryOf now.year + y, m, d, h, mi, s⟩) ∨
  ((∀ d m y h mi s, ¬ ReadDateTime date time d m y h mi s) ∧ t = none)

/-! ### Letters -/

/-- A field with a fixed list of texts; empty means absent. -/
def LetterField {α : Type} (table : List (Str × α)) (s : Str) (x : Option α) : Prop :=
  (s = [] ∧ x = none) ∨ ∃ a, (s, a) ∈ table ∧ x = some a

/-- GGA quality codes, from 0 on. -/
def qualities : List GgaQualityIndicator :=
  [.invalid, .gpsFix, .dGpsFix, .ppsFix, .realTimeKinematic, .realTimeKinematicFloat, .deadReckoning,
    .manualInputMode, .simulationMode]

/-- Receiver status of RMC. -/
def statusTable : List (Str × Bool) := [(c! "A", true), (c! "V", false)]

/-- GSA mode: automatic or manual. -/
def modeTable : List (Str × Bool) := [(c! "A", true), (c! "M", false)]

/-- GSA fix type. -/
def fixTypes : List (Str × GsaFixMode) := [(c! "1", .notAvailable), (c! "2", .fix2D), (c! "3", .fix3D)]

/-- FAA mode letters. -/
def faaTable : List (Str × FaaMode) :=
  [(c! "A", .autonomous), (c! "D", .differential), (c! "E", .estimated), (c! "N", .notValid)]

/-- A magnetic variation and its side: negative to the west. -/
def VariationField (s side : Str) (x : Option F64) : Prop :=
  (s = [] ∧ x = none) ∨ ∃ d, NumberText s d ∧
    ((side = c! "E" ∧ x = some d) ∨ (side = c! "W" ∧ x = some (signedF64 true d)))

/-! ### Sentences -/

/-- Contents of a GGA sentence: time, latitude, hemisphere, longitude, hemisphere, quality, number of
satellites, HDOP, altitude, its unit, geoid separation, its unit, age of the correction, station. -/
structure GgaSays (now : DateTime) (talker : Str) (fs : List Str) (d : GgaData) : Prop where
  source : d.source = talkerSystem talker
  timestamp : TimeField now (field fs 0) d.timestamp
  latitude : LatField (field fs 1) (field fs 2) d.latitude
  longitude : LonField (field fs 3) (field fs 4) d.longitude
  quality : ∃ q, IntField 255 (field fs 5) q ∧ d.quality = qualities.getD (q.getD 0) .invalid
  satellites : IntField 255 (field fs 6) d.satelliteCount
  hdop : NumField (field fs 7) d.hdop
  altitude : NumField (field fs 8) d.altitude
  geoid : NumField (field fs 10) d.geoidSeparation
  age : NumField (field fs 12) d.ageOfDgps
  station : IntField 65535 (field fs 13) d.refStationId

/-- Contents of an RMC sentence: time, status, latitude, hemisphere, longitude, hemisphere, speed, bearing,
date, variation, side. -/
structure RmcSays (now : DateTime) (talker : Str) (fs : List Str) (d : RmcData) : Prop where
  source : d.source = talkerSystem talker
  timestamp : DateTimeField now (field fs 8) (field fs 0) d.timestamp
  status : LetterField statusTable (field fs 1) d.statusActive
  latitude : LatField (field fs 2) (field fs 3) d.latitude
  longitude : LonField (field fs 4) (field fs 5) d.longitude
  speed : NumField (field fs 6) d.sogKnots
  bearing : NumField (field fs 7) d.bearing
  variation : VariationField (field fs 9) (field fs 10) d.variation

/-- Contents of a GSA sentence: mode, fix type, twelve satellite numbers (the empty ones are skipped),
PDOP, HDOP, VDOP. -/
structure GsaSays (talker : Str) (fs : List Str) (d : GsaData) : Prop where
  source : d.source = talkerSystem talker
  mode : LetterField modeTable (field fs 0) d.mode1Automatic
  fix : LetterField fixTypes (field fs 1) d.mode2_3d
  satellites : List.Forall₂ (Dec 255)
    (((List.range 12).map (fun i => field fs (i + 2))).filter (fun s => s ≠ [])) d.prnNumbers
  pdop : NumField (field fs 14) d.pdop
  hdop : NumField (field fs 15) d.hdop
  vdop : NumField (field fs 16) d.vdop

/-- Contents of a VTG sentence: true course, `T`, magnetic course, `M`, knots, `N`, km/h, `K`, FAA mode. -/
structure VtgSays (talker : Str) (fs : List Str) (d : VtgData) : Prop where
  source : d.source = talkerSystem talker
  courseTrue : LenientField (field fs 0) d.cogTrue
  courseMagnetic : LenientField (field fs 2) d.cogMagnetic
  knots : LenientField (field fs 4) d.sogKnots
  kph : LenientField (field fs 6) d.sogKph
  faa : d.faaMode = faaTable.lookup (field fs 8)

/-- Contents of a GLL sentence: latitude, hemisphere, longitude, hemisphere, time, validity, FAA mode. -/
structure GllSays (now : DateTime) (talker : Str) (fs : List Str) (d : GllData) : Prop where
  source : d.source = talkerSystem talker
  latitude : LatField (field fs 0) (field fs 1) d.latitude
  longitude : LonField (field fs 2) (field fs 3) d.longitude
  timestamp : TimeField now (field fs 4) d.timestamp
  valid : d.dataValid = statusTable.lookup (field fs 5)
  faa : d.faaMode = faaTable.lookup (field fs 6)

/-! ### Readable fields -/

/-- All number and position fields of a GGA sentence can be read. -/
def GgaReadable (fs : List Str) : Prop :=
  (∃ x, LatField (field fs 1) (field fs 2) x) ∧ (∃ x, LonField (field fs 3) (field fs 4) x) ∧
  (∃ x, IntField 255 (field fs 5) x) ∧ (∃ x, IntField 255 (field fs 6) x) ∧ (∃ x, NumField (field fs 7) x) ∧
  (∃ x, NumField (field fs 8) x) ∧ (∃ x, NumField (field fs 10) x) ∧ (∃ x, NumField (field fs 12) x) ∧
  (∃ x, IntField 65535 (field fs 13) x)

/-- All letter, number and position fields of an RMC sentence can be read. -/
def RmcReadable (fs : List Str) : Prop :=
  (∃ x, LetterField statusTable (field fs 1) x) ∧ (∃ x, LatField (field fs 2) (field fs 3) x) ∧
  (∃ x, LonField (field fs 4) (field fs 5) x) ∧ (∃ x, NumField (field fs 6) x) ∧ (∃ x, NumField (field fs 7) x) ∧
  (∃ x, VariationField (field fs 9) (field fs 10) x)

/-- All fields of a GSA sentence can be read. -/
def GsaReadable (fs : List Str) : Prop :=
  (∃ x, LetterField modeTable (field fs 0) x) ∧ (∃ x, LetterField fixTypes (field fs 1) x) ∧
  (∀ i < 12, ∃ x, IntField 255 (field fs (i + 2)) x) ∧
  (∃ x, NumField (field fs 14) x) ∧ (∃ x, NumField (field fs 15) x) ∧ (∃ x, NumField (field fs 16) x)

/-- Both position fields of a GLL sentence can be read. -/
def GllReadable (fs : List Str) : Prop :=
  (∃ x, LatField (field fs 0) (field fs 1) x) ∧ (∃ x, LonField (field fs 2) (field fs 3) x)

/-- Number of fields that a sentence of this kind uses (GSV not included). -/
def usedFields (kind : Str) : Option Nat :=
  [(c! "GGA", 14), (c! "RMC", 11), (c! "GSA", 17), (c! "VTG", 9), (c! "GLL", 7)].lookup kind

end Nmea.Spec
