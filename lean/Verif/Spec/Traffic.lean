/-
Specification of the traffic on a ship's data link: AIS broadcasts, readings of GNSS receivers and their satellites in
view, any number of which are in transit at once.
-/
import Verif.Spec.Transmit
import Verif.Spec.Link
import Verif.Spec.Format

namespace Nmea.Spec

/-! ### Readings of a GNSS receiver -/

/-- What a GNSS receiver tells in a sentence other than GSV. Speeds are in knots and km/h; `west` is the side of the
magnetic variation; dates have two digits of the year. -/
inductive Reading where
  | gga (h m s : Nat) (lat lon : Angle) (quality count : Nat) (hdop altitude geoid age : Number) (station : Nat)
  | rmc (h m s : Nat) (active : Bool) (lat lon : Angle) (speed bearing : Number) (day month year : Nat)
      (variation : Number) (west : Bool)
  | gsa (automatic : Bool) (fix : Nat) (prns : List Nat) (pdop hdop vdop : Number)
  | vtg (course magnetic knots kph : Number)
  | gll (lat lon : Angle) (h m s : Nat) (valid : Bool) (mode : Str)

/-- The kind of sentence. -/
def Reading.kind : Reading → Str
  | .gga .. => c! "GGA"
  | .rmc .. => c! "RMC"
  | .gsa .. => c! "GSA"
  | .vtg .. => c! "VTG"
  | .gll .. => c! "GLL"

/-- Its fields. -/
def Reading.fields : Reading → List Str
  | .gga h m s lat lon quality count hdop altitude geoid age station =>
    [timeText h m s, lat.text 2, lat.side 'N' 'S', lon.text 3, lon.side 'E' 'W', Nat.toDigits 10 quality,
      Nat.toDigits 10 count, hdop.text, altitude.text, c! "M", geoid.text, c! "M", age.text, Nat.toDigits 10 station]
  | .rmc h m s active lat lon speed bearing day month year variation west =>
    [timeText h m s, [if active then 'A' else 'V'], lat.text 2, lat.side 'N' 'S', lon.text 3, lon.side 'E' 'W',
      speed.text, bearing.text, dateText day month year, variation.text, [if west then 'W' else 'E']]
  | .gsa automatic fix prns pdop hdop vdop =>
    [[if automatic then 'A' else 'M'], Nat.toDigits 10 fix] ++ prns.map (Nat.toDigits 10) ++
      List.replicate (12 - prns.length) [] ++ [pdop.text, hdop.text, vdop.text]
  | .vtg course magnetic knots kph =>
    [course.text, c! "T", magnetic.text, c! "M", knots.text, c! "N", kph.text, c! "K"]
  | .gll lat lon h m s valid mode =>
    [lat.text 2, lat.side 'N' 'S', lon.text 3, lon.side 'E' 'W', timeText h m s, [if valid then 'A' else 'V'], mode]

/-- The decimals are there. -/
def Number.Ok (n : Number) : Prop := n.frac < 10 ^ n.places

/-- Everything is in range; `now` is the clock of the listening program. -/
def Reading.Fits (now : DateTime) : Reading → Prop
  | .gga h m s lat lon quality count hdop altitude geoid age station =>
    IsDateTime now ∧ IsTime h m s ∧ lat.Ok 90 ∧ lon.Ok 180 ∧ quality ≤ 8 ∧ count ≤ 255 ∧ hdop.Ok ∧ altitude.Ok ∧
      geoid.Ok ∧ age.Ok ∧ station ≤ 65535
  | .rmc h m s _ lat lon speed bearing day month year variation _ =>
    year < 100 ∧ IsDateTime ⟨centuryOf now.year + year, month, day, h, m, s⟩ ∧ lat.Ok 90 ∧ lon.Ok 180 ∧ speed.Ok ∧
      bearing.Ok ∧ variation.Ok
  | .gsa _ fix prns pdop hdop vdop =>
    (1 ≤ fix ∧ fix ≤ 3) ∧ prns.length ≤ 12 ∧ (∀ n ∈ prns, n ≤ 255) ∧ pdop.Ok ∧ hdop.Ok ∧ vdop.Ok
  | .vtg course magnetic knots kph => course.Ok ∧ magnetic.Ok ∧ knots.Ok ∧ kph.Ok
  | .gll lat lon h m s _ mode => IsDateTime now ∧ IsTime h m s ∧ lat.Ok 90 ∧ lon.Ok 180 ∧ ',' ∉ mode

/-- What is to be reported. -/
def Reading.Tells (now : DateTime) (talker : Str) : Reading → Answer → Prop
  | .gga h m s lat lon quality count hdop altitude geoid age station, a =>
    ∃ d, a = .ok (.gga d) ∧ d.source = talkerSystem talker ∧
      d.timestamp = some ⟨now.year, now.month, now.day, h, m, s⟩ ∧ lat.Result d.latitude ∧ lon.Result d.longitude ∧
      some d.quality = qualities[quality]? ∧ d.satelliteCount = some count ∧ hdop.Result d.hdop ∧
      altitude.Result d.altitude ∧ geoid.Result d.geoidSeparation ∧ age.Result d.ageOfDgps ∧ d.refStationId = some station
  | .rmc h m s active lat lon speed bearing day month year variation west, a =>
    ∃ d, a = .ok (.rmc d) ∧ d.source = talkerSystem talker ∧
      d.timestamp = some ⟨centuryOf now.year + year, month, day, h, m, s⟩ ∧ d.statusActive = some active ∧
      lat.Result d.latitude ∧ lon.Result d.longitude ∧ speed.Result d.sogKnots ∧ bearing.Result d.bearing ∧
      ({ variation with minus := variation.minus ^^ west } : Number).Result d.variation
  | .gsa automatic fix prns pdop hdop vdop, a =>
    ∃ d, a = .ok (.gsa d) ∧ d.source = talkerSystem talker ∧ d.mode1Automatic = some automatic ∧
      d.mode2_3d = [GsaFixMode.notAvailable, .fix2D, .fix3D][fix - 1]? ∧ d.prnNumbers = prns ∧ pdop.Result d.pdop ∧
      hdop.Result d.hdop ∧ vdop.Result d.vdop
  | .vtg course magnetic knots kph, a =>
    ∃ d, a = .ok (.vtg d) ∧ d.source = talkerSystem talker ∧ course.Result d.cogTrue ∧ magnetic.Result d.cogMagnetic ∧
      knots.Result d.sogKnots ∧ kph.Result d.sogKph ∧ d.faaMode = none
  | .gll lat lon h m s valid mode, a =>
    ∃ d, a = .ok (.gll d) ∧ d.source = talkerSystem talker ∧ lat.Result d.latitude ∧ lon.Result d.longitude ∧
      d.timestamp = some ⟨now.year, now.month, now.day, h, m, s⟩ ∧ d.dataValid = some valid ∧
      d.faaMode = faaTable.lookup mode

/-! ### Satellites in view -/

/-- A satellite in view. -/
structure InView where
  prn : Nat
  elevation : Option Nat
  azimuth : Option Nat
  snr : Option Nat

/-- The numbers are in range. -/
def InView.Fits (v : InView) : Prop :=
  v.prn ≤ 255 ∧ (∀ n ∈ v.elevation, n ≤ 255) ∧ (∀ n ∈ v.azimuth, n ≤ 65535) ∧ (∀ n ∈ v.snr, n ≤ 255)

/-- A number, or nothing. -/
def optDigits : Option Nat → Str
  | none => []
  | some n => Nat.toDigits 10 n

/-- Its four fields. -/
def InView.fields (v : InView) : List Str :=
  [Nat.toDigits 10 v.prn, optDigits v.elevation, optDigits v.azimuth, optDigits v.snr]

/-- Its report. -/
def InView.data (nav : NavigationSystem) (v : InView) : GsvData := ⟨nav, v.prn, v.elevation, v.azimuth, v.snr⟩

/-- A sentence with these fields and its checksum. -/
def gnssSentence (talker kind : Str) (fs : List Str) : Str := finish (join (tag '$' talker kind) fs) .full

/-- The fields of sentence `k` of `n`, with the number of satellites of the group and up to four of them. -/
def viewFields (n k total : Nat) (row : List InView) : List Str :=
  [Nat.toDigits 10 n, Nat.toDigits 10 k, Nat.toDigits 10 total] ++ row.flatMap InView.fields

/-- The sentences of a group, one for each row of satellites. -/
def viewSentences (talker : Str) (rows : List (List InView)) : List Str :=
  (rows.zipIdx 1).map fun x => gnssSentence talker (c! "GSV") (viewFields rows.length x.2 rows.flatten.length x.1)

/-! ### Traffic -/

/-- What is sent on the link, with the clock of the listening program and the talker. -/
inductive Source where
  | ais (x : Broadcast)
  | gnss (env : Env) (talker : Str) (r : Reading)
  | view (env : Env) (talker : Str) (rows : List (List InView))

/-- Everything is in range. -/
def Source.Fits : Source → Prop
  | .ais x => x.Fits
  | .gnss env talker r => Talker talker ∧ r.Fits env.now
  | .view _ talker rows => Talker talker ∧ rows ≠ [] ∧ rows.length < 2 ^ 32 - 1 ∧
      ∀ row ∈ rows, row.length ≤ 4 ∧ ∀ v ∈ row, v.Fits

/-- The sentences. -/
def Source.sentences : Source → List (Env × Str)
  | .ais x => x.sentences
  | .gnss env talker r => [(env, gnssSentence talker r.kind r.fields)]
  | .view env talker rows => (viewSentences talker rows).map fun s => (env, s)

/-- What it occupies while it is in transit: a message in two parts its kind, message id and channel; a static data
report the MMSI; satellites in view the talker and the number of sentences; everything else nothing. -/
def Source.slot : Source → Option Slot
  | .ais x =>
    match x.content with
    | .message m => if (armor m.bits).length ≤ 60 then none else some (.part x.own x.id x.chan)
    | .static a _ => some (.static a.mmsi)
  | .gnss _ _ _ => none
  | .view _ talker rows => some (.gsv talker rows.length)

/-- What is to be reported. -/
def Source.Tells : Source → Answer → Prop
  | .ais x, a => x.Tells a
  | .gnss env talker r, a => r.Tells env.now talker a
  | .view _ talker rows, a => a = .ok (.gsv (rows.flatten.map (InView.data (talkerSystem talker))))

/-- Sentences arriving while some sources are in transit (each with the sentences that are still to come), and the
sources in the order in which their last sentences arrive. In the end nothing is in transit. No two sources occupy the
same slot at the same time; the sentences of different sources are mixed in any way. -/
inductive Traffic : (Slot → Option (List (Env × Str) × Source)) → List (Env × Str) → List Source → Prop where
  | done : Traffic (fun _ => none) [] []
  /-- a source of one sentence -/
  | one {o x s h l} (hx : x.Fits) (hs : x.sentences = [s]) (hf : ∀ k ∈ x.slot, o k = none) (ht : Traffic o h l) :
      Traffic o (s :: h) (x :: l)
  /-- the first sentence of a source of several -/
  | start {o x k s t rest h l} (hx : x.Fits) (hs : x.sentences = s :: t :: rest) (hk : x.slot = some k)
      (hf : o k = none) (ht : Traffic (fun j => if j = k then some (t :: rest, x) else o j) h l) : Traffic o (s :: h) l
  /-- another sentence of a source in transit -/
  | more {o x k s t rest h l} (ho : o k = some (s :: t :: rest, x))
      (ht : Traffic (fun j => if j = k then some (t :: rest, x) else o j) h l) : Traffic o (s :: h) l
  /-- the last sentence of a source in transit -/
  | last {o x k s h l} (ho : o k = some ([s], x)) (ht : Traffic (fun j => if j = k then none else o j) h l) :
      Traffic o (s :: h) (x :: l)

end Nmea.Spec
