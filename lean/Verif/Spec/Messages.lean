/-
Specification of AIS messages (ITU-R M.1371): for each message type the transmitted values, their ranges
and their bits, in the order of the standard; and how transmitted integers are to be reported.
-/
import Verif.Spec.History
import Verif.Spec.Codes
import Verif.Spec.Static
import Verif.Spec.Float
import Verif.Spec.Calendar

namespace Nmea.Spec

/-- Parsing `s` in state `p` completes a message with this own-vessel flag and payload; `talker` is the
talker of `s`. -/
inductive Delivers (p : Parser) (s : Str) (talker : Str) (own : Bool) : Str → Prop where
  | single (payload : Str) (h : Single talker own payload s) : Delivers p s talker own payload
  | first (id : Nat) (chan a b : Str) (h : Part talker own 1 id chan a s)
      (hb : pendingPart p own 2 id chan = some b) : Delivers p s talker own (a ++ b)
  | second (id : Nat) (chan a b : Str) (h : Part talker own 2 id chan b s)
      (ha : pendingPart p own 1 id chan = some a) : Delivers p s talker own (a ++ b)

/-! ### Reported values -/

/-- A number that is rounded to a double. -/
def Rounded (q : Rat) (x : Option F64) : Prop := ∃ d, x = some d ∧ RoundsTo q d

/-- Latitude or longitude in 1/10000 minute; `na` degrees stand for "not available". -/
def Degrees (na : Int) (raw : Int) (x : Option F64) : Prop :=
  if raw = na * 600000 then x = none else Rounded (raw / 600000) x

/-- A number of tenths: the integer times the double next to one tenth, rounded to a double. -/
def Tenths (raw : Nat) (x : Option F64) : Prop :=
  ∃ t, RoundsTo (1 / 10) (.fin false t) ∧ Rounded (raw * t) x

/-- Speed over ground in tenths of a knot, 1023 = not available. -/
def Speed (raw : Nat) (x : Option F64) : Prop := if raw = 1023 then x = none else Tenths raw x

/-- Course over ground in tenths of a degree, 3600 = not available. -/
def Course (raw : Nat) (x : Option F64) : Prop := if raw = 3600 then x = none else Tenths raw x

/-- True heading in degrees, 511 = not available. -/
def Heading (raw : Nat) (x : Option F64) : Prop := if raw = 511 then x = none else Rounded raw x

/-- The magnitude computed for the rate of turn `n`: `((n * 708 / 126) / 4.733)²`, each operation rounded. -/
def TurnRate (n : Int) (mag : Rat) : Prop :=
  ∃ c a b, RoundsTo (4733 / 1000) (.fin false c) ∧ RoundsTo (n * 708 / 126) (.fin false a) ∧
    RoundsTo (a / c) (.fin false b) ∧ RoundsTo (b * b) (.fin false mag)

/-- Rate of turn: absent beyond ±126, otherwise the signed square. -/
def Turn (raw : Int) (x : Option F64) : Prop :=
  if raw.natAbs ≤ 126 then ∃ mag, TurnRate raw.natAbs mag ∧ x = some (.fin (decide (raw < 0)) mag)
  else x = none

/-- Direction of turn: none for -128, left (-1) from -127 to -2, straight (0) from -1 to 1, right (1) from
2 to 127. -/
def turnDirection (raw : Int) : Option Int :=
  if raw = -128 then none else if raw < -1 then some (-1) else if raw ≤ 1 then some 0 else some 1

/-- Position fixing device: 0 = undefined is reported as absent. -/
def optFix (code : Nat) : Option PositionFixType := if code = 0 then none else some (fixOf code)

/-! ### Messages -/

/-- Types 1, 2, 3: class A position report. -/
structure PositionA where
  type : Nat
  repeatInd : Nat
  mmsi : Nat
  status : Nat
  turn : Int
  speed : Nat
  accuracy : Bool
  lon : Int
  lat : Int
  course : Nat
  heading : Nat
  second : Nat
  manoeuvre : Nat
  spare : Nat
  raim : Bool
  radio : Nat

def PositionA.Fits (m : PositionA) : Prop :=
  m.type ∈ [1, 2, 3] ∧ m.repeatInd < 4 ∧ m.mmsi < 2 ^ 30 ∧ m.status < 16 ∧ (-128 ≤ m.turn ∧ m.turn ≤ 127) ∧
  m.speed < 1024 ∧ (-2 ^ 27 ≤ m.lon ∧ m.lon < 2 ^ 27) ∧ (-2 ^ 26 ≤ m.lat ∧ m.lat < 2 ^ 26) ∧ m.course < 4096 ∧
  m.heading < 512 ∧ m.second < 64 ∧ m.manoeuvre < 4 ∧ m.spare < 8 ∧ m.radio < 2 ^ 19

def PositionA.bits (m : PositionA) : List Bool :=
  [natBits 6 m.type, natBits 2 m.repeatInd, natBits 30 m.mmsi, natBits 4 m.status, intBits 8 m.turn,
   natBits 10 m.speed, flagBit m.accuracy, intBits 28 m.lon, intBits 27 m.lat, natBits 12 m.course,
   natBits 9 m.heading, natBits 6 m.second, natBits 2 m.manoeuvre, natBits 3 m.spare, flagBit m.raim,
   natBits 19 m.radio].flatten

/-- The manoeuvre indicator as it is reported: 1 (not engaged in a special manoeuvre) and 2 (engaged) both as
true, 0 (not available) and 3 as absent. -/
def reportedManoeuvre (code : Nat) : Option Bool := if code = 1 ∨ code = 2 then some true else none

/-- Type 4: base station report. -/
structure BaseStation where
  repeatInd : Nat
  mmsi : Nat
  year : Nat
  month : Nat
  day : Nat
  hour : Nat
  minute : Nat
  second : Nat
  accuracy : Bool
  lon : Int
  lat : Int
  fix : Nat
  spare : Nat
  raim : Bool
  radio : Nat

def BaseStation.time (m : BaseStation) : DateTime := ⟨m.year, m.month, m.day, m.hour, m.minute, m.second⟩

def BaseStation.Fits (m : BaseStation) : Prop :=
  m.repeatInd < 4 ∧ m.mmsi < 2 ^ 30 ∧ m.year < 2 ^ 14 ∧ m.month < 16 ∧ m.day < 32 ∧ m.hour < 32 ∧
  m.minute < 64 ∧ m.second < 64 ∧ (-2 ^ 27 ≤ m.lon ∧ m.lon < 2 ^ 27) ∧ (-2 ^ 26 ≤ m.lat ∧ m.lat < 2 ^ 26) ∧
  m.fix < 16 ∧ m.spare < 2 ^ 10 ∧ m.radio < 2 ^ 19

def BaseStation.bits (m : BaseStation) : List Bool :=
  [natBits 6 4, natBits 2 m.repeatInd, natBits 30 m.mmsi, natBits 14 m.year, natBits 4 m.month,
   natBits 5 m.day, natBits 5 m.hour, natBits 6 m.minute, natBits 6 m.second, flagBit m.accuracy,
   intBits 28 m.lon, intBits 27 m.lat, natBits 4 m.fix, natBits 10 m.spare, flagBit m.raim,
   natBits 19 m.radio].flatten

/-- Type 5: static and voyage related data. -/
structure Voyage where
  repeatInd : Nat
  mmsi : Nat
  version : Nat
  imo : Nat
  callSign : Str
  name : Str
  ship : Nat
  bow : Nat
  stern : Nat
  port : Nat
  starboard : Nat
  fix : Nat
  month : Nat
  day : Nat
  hour : Nat
  minute : Nat
  draught : Nat
  destination : Str
  dte : Bool
  spare : Bool

def Voyage.Fits (m : Voyage) : Prop :=
  m.repeatInd < 4 ∧ m.mmsi < 2 ^ 30 ∧ m.version < 4 ∧ m.imo < 2 ^ 30 ∧ PlainText 7 m.callSign ∧
  PlainText 20 m.name ∧ m.ship < 256 ∧ m.bow < 512 ∧ m.stern < 512 ∧ m.port < 64 ∧ m.starboard < 64 ∧
  m.fix < 16 ∧ m.month < 16 ∧ m.day < 32 ∧ m.hour < 32 ∧ m.minute < 64 ∧ m.draught < 256 ∧
  PlainText 20 m.destination

def Voyage.bits (m : Voyage) : List Bool :=
  [natBits 6 5, natBits 2 m.repeatInd, natBits 30 m.mmsi, natBits 2 m.version, natBits 30 m.imo,
   textBits 7 m.callSign, textBits 20 m.name, natBits 8 m.ship, natBits 9 m.bow, natBits 9 m.stern,
   natBits 6 m.port, natBits 6 m.starboard, natBits 4 m.fix, natBits 4 m.month, natBits 5 m.day,
   natBits 5 m.hour, natBits 6 m.minute, natBits 8 m.draught, textBits 20 m.destination, flagBit m.dte,
   flagBit m.spare].flatten

/-- An empty text is reported as absent. -/
def nonEmpty (s : Str) : Option Str := if s = [] then none else some s

/-- The part of a type 5 message that its ETA is computed from. -/
structure Arrival where
  month : Nat
  day : Nat
  hour : Nat
  minute : Nat
  draught : Nat

def Voyage.arrival (m : Voyage) : Arrival := ⟨m.month, m.day, m.hour, m.minute, m.draught⟩

/-- The same, read from the bits of a message. -/
def arrivalAt (bits : List Bool) : Arrival :=
  ⟨bitsVal (window bits 274 4), bitsVal (window bits 278 5), bitsVal (window bits 283 5), bitsVal (window bits 288 6),
   bitsVal (window bits 294 8)⟩

/-- The ETA as it is reported at the time `now`: month and day of the current date where they are 0, year
always the current one; hour 24 as 23:59:59, minute 60 as 59:59, and the seconds (no seconds are
transmitted) are the draught divided by 4, with 60 read as 59. -/
def etaCandidate (now : DateTime) (m : Arrival) : DateTime :=
  ⟨now.year, if m.month = 0 then now.month else m.month, if m.day = 0 then now.day else m.day,
   if m.hour = 24 then 23 else m.hour,
   if m.hour = 24 ∨ m.minute = 60 then 59 else m.minute,
   if m.hour = 24 ∨ m.minute = 60 ∨ m.draught / 4 = 60 then 59 else m.draught / 4⟩

/-- The ETA is absent only if all its parts, and the draught bits taken for seconds, have their "not
available" value. -/
def EtaAbsent (m : Arrival) : Prop := m.month = 0 ∧ m.day = 0 ∧ m.hour = 24 ∧ m.minute = 60 ∧ m.draught / 4 = 60

instance (m : Arrival) : Decidable (EtaAbsent m) := by unfold EtaAbsent; infer_instance

/-- Type 6: addressed binary message, without its data. -/
structure Addressed where
  repeatInd : Nat
  mmsi : Nat
  sequence : Nat
  destination : Nat
  retransmit : Bool
  spare : Bool
  dac : Nat
  fid : Nat

def Addressed.Fits (m : Addressed) : Prop :=
  m.repeatInd < 4 ∧ m.mmsi < 2 ^ 30 ∧ m.sequence < 4 ∧ m.destination < 2 ^ 30 ∧ m.dac < 2 ^ 10 ∧ m.fid < 64

def Addressed.bits (m : Addressed) : List Bool :=
  [natBits 6 6, natBits 2 m.repeatInd, natBits 30 m.mmsi, natBits 2 m.sequence, natBits 30 m.destination,
   flagBit m.retransmit, flagBit m.spare, natBits 10 m.dac, natBits 6 m.fid].flatten

/-- Type 9: SAR aircraft position report. -/
structure Aircraft where
  repeatInd : Nat
  mmsi : Nat
  altitude : Nat
  speed : Nat
  accuracy : Bool
  lon : Int
  lat : Int
  course : Nat
  second : Nat
  regional : Nat
  dteOff : Bool
  spare : Nat
  assigned : Bool
  raim : Bool
  radio : Nat

def Aircraft.Fits (m : Aircraft) : Prop :=
  m.repeatInd < 4 ∧ m.mmsi < 2 ^ 30 ∧ m.altitude < 4096 ∧ m.speed < 1024 ∧
  (-2 ^ 27 ≤ m.lon ∧ m.lon < 2 ^ 27) ∧ (-2 ^ 26 ≤ m.lat ∧ m.lat < 2 ^ 26) ∧ m.course < 4096 ∧ m.second < 64 ∧
  m.regional < 256 ∧ m.spare < 8 ∧ m.radio < 2 ^ 20

def Aircraft.bits (m : Aircraft) : List Bool :=
  [natBits 6 9, natBits 2 m.repeatInd, natBits 30 m.mmsi, natBits 12 m.altitude, natBits 10 m.speed,
   flagBit m.accuracy, intBits 28 m.lon, intBits 27 m.lat, natBits 12 m.course, natBits 6 m.second,
   natBits 8 m.regional, flagBit m.dteOff, natBits 3 m.spare, flagBit m.assigned, flagBit m.raim,
   natBits 20 m.radio].flatten

/-- Type 10: UTC and date inquiry. -/
structure Inquiry where
  repeatInd : Nat
  mmsi : Nat
  spare : Nat
  destination : Nat
  spare2 : Nat

def Inquiry.Fits (m : Inquiry) : Prop :=
  m.repeatInd < 4 ∧ m.mmsi < 2 ^ 30 ∧ m.spare < 4 ∧ m.destination < 2 ^ 30 ∧ m.spare2 < 4

def Inquiry.bits (m : Inquiry) : List Bool :=
  [natBits 6 10, natBits 2 m.repeatInd, natBits 30 m.mmsi, natBits 2 m.spare, natBits 30 m.destination,
   natBits 2 m.spare2].flatten

/-- Type 18: class B position report. -/
structure PositionB where
  repeatInd : Nat
  mmsi : Nat
  regional : Nat
  speed : Nat
  accuracy : Bool
  lon : Int
  lat : Int
  course : Nat
  heading : Nat
  second : Nat
  regional2 : Nat
  unit : Bool
  display : Bool
  dsc : Bool
  band : Bool
  msg22 : Bool
  mode : Bool
  raim : Bool
  radio : Nat

def PositionB.Fits (m : PositionB) : Prop :=
  m.repeatInd < 4 ∧ m.mmsi < 2 ^ 30 ∧ m.regional < 256 ∧ m.speed < 1024 ∧
  (-2 ^ 27 ≤ m.lon ∧ m.lon < 2 ^ 27) ∧ (-2 ^ 26 ≤ m.lat ∧ m.lat < 2 ^ 26) ∧ m.course < 4096 ∧
  m.heading < 512 ∧ m.second < 64 ∧ m.regional2 < 4 ∧ m.radio < 2 ^ 20

def PositionB.bits (m : PositionB) : List Bool :=
  [natBits 6 18, natBits 2 m.repeatInd, natBits 30 m.mmsi, natBits 8 m.regional, natBits 10 m.speed,
   flagBit m.accuracy, intBits 28 m.lon, intBits 27 m.lat, natBits 12 m.course, natBits 9 m.heading,
   natBits 6 m.second, natBits 2 m.regional2, flagBit m.unit, flagBit m.display, flagBit m.dsc,
   flagBit m.band, flagBit m.msg22, flagBit m.mode, flagBit m.raim, natBits 20 m.radio].flatten

/-- Type 21: aid to navigation report. -/
structure Aid where
  repeatInd : Nat
  mmsi : Nat
  kind : Nat
  name : Str
  accuracy : Bool
  lon : Int
  lat : Int
  bow : Nat
  stern : Nat
  port : Nat
  starboard : Nat
  fix : Nat
  second : Nat
  offPosition : Bool
  regional : Nat
  raim : Bool
  virtual : Bool
  assigned : Bool
  spare : Bool
  extension : Str

def Aid.Fits (m : Aid) : Prop :=
  m.repeatInd < 4 ∧ m.mmsi < 2 ^ 30 ∧ m.kind < 32 ∧ PlainText 20 m.name ∧
  (-2 ^ 27 ≤ m.lon ∧ m.lon < 2 ^ 27) ∧ (-2 ^ 26 ≤ m.lat ∧ m.lat < 2 ^ 26) ∧ m.bow < 512 ∧ m.stern < 512 ∧
  m.port < 64 ∧ m.starboard < 64 ∧ m.fix < 16 ∧ m.second < 64 ∧ m.regional < 256 ∧ PlainText 14 m.extension

def Aid.bits (m : Aid) : List Bool :=
  [natBits 6 21, natBits 2 m.repeatInd, natBits 30 m.mmsi, natBits 5 m.kind, textBits 20 m.name,
   flagBit m.accuracy, intBits 28 m.lon, intBits 27 m.lat, natBits 9 m.bow, natBits 9 m.stern,
   natBits 6 m.port, natBits 6 m.starboard, natBits 4 m.fix, natBits 6 m.second, flagBit m.offPosition,
   natBits 8 m.regional, flagBit m.raim, flagBit m.virtual, flagBit m.assigned, flagBit m.spare,
   textBits 14 m.extension].flatten

/-- Type 24, part A. -/
structure StaticA where
  repeatInd : Nat
  mmsi : Nat
  name : Str

def StaticA.Fits (m : StaticA) : Prop := m.repeatInd < 4 ∧ m.mmsi < 2 ^ 30 ∧ PlainText 20 m.name

def StaticA.bits (m : StaticA) : List Bool :=
  [natBits 6 24, natBits 2 m.repeatInd, natBits 30 m.mmsi, natBits 2 0, textBits 20 m.name].flatten

/-- Type 24, part B. -/
structure StaticB where
  repeatInd : Nat
  mmsi : Nat
  ship : Nat
  vendor : Str
  model : Nat
  serial : Nat
  callSign : Str
  bow : Nat
  stern : Nat
  port : Nat
  starboard : Nat
  spare : Nat

def StaticB.Fits (m : StaticB) : Prop :=
  m.repeatInd < 4 ∧ m.mmsi < 2 ^ 30 ∧ m.ship < 256 ∧ PlainText 3 m.vendor ∧ m.model < 16 ∧ m.serial < 2 ^ 20 ∧
  PlainText 7 m.callSign ∧ m.bow < 512 ∧ m.stern < 512 ∧ m.port < 64 ∧ m.starboard < 64 ∧ m.spare < 64

def StaticB.bits (m : StaticB) : List Bool :=
  [natBits 6 24, natBits 2 m.repeatInd, natBits 30 m.mmsi, natBits 2 1, natBits 8 m.ship,
   textBits 3 m.vendor, natBits 4 m.model, natBits 20 m.serial, textBits 7 m.callSign, natBits 9 m.bow,
   natBits 9 m.stern, natBits 6 m.port, natBits 6 m.starboard, natBits 6 m.spare].flatten

/-- What part A tells: the name. -/
def StaticA.data (own : Bool) (m : StaticA) : VesselStaticData :=
  { blankStatic own m.mmsi with name := nonEmpty m.name }

/-- What part B tells. The 30 bits of the dimensions are reported as mothership MMSI too. -/
def StaticB.data (own : Bool) (m : StaticB) : VesselStaticData :=
  { blankStatic own m.mmsi with
    shipType := reportedShip m.ship
    cargoType := cargoOf m.ship
    equipmentVendorId := some m.vendor
    equipmentModel := some m.model
    equipmentSerialNumber := some m.serial
    callSign := nonEmpty m.callSign
    dimensionToBow := some m.bow
    dimensionToStern := some m.stern
    dimensionToPort := some m.port
    dimensionToStarboard := some m.starboard
    mothershipMmsi := some (m.bow * 2 ^ 21 + m.stern * 2 ^ 12 + m.port * 2 ^ 6 + m.starboard) }

/-- Type 27: long-range position report. -/
structure LongRange where
  repeatInd : Nat
  mmsi : Nat
  accuracy : Bool
  raim : Bool
  status : Nat
  lon : Int
  lat : Int
  speed : Nat
  course : Nat
  gnssOld : Bool
  spare : Bool

def LongRange.Fits (m : LongRange) : Prop :=
  m.repeatInd < 4 ∧ m.mmsi < 2 ^ 30 ∧ m.status < 16 ∧ (-2 ^ 17 ≤ m.lon ∧ m.lon < 2 ^ 17) ∧
  (-2 ^ 16 ≤ m.lat ∧ m.lat < 2 ^ 16) ∧ m.speed < 64 ∧ m.course < 512

def LongRange.bits (m : LongRange) : List Bool :=
  [natBits 6 27, natBits 2 m.repeatInd, natBits 30 m.mmsi, flagBit m.accuracy, flagBit m.raim,
   natBits 4 m.status, intBits 18 m.lon, intBits 17 m.lat, natBits 6 m.speed, natBits 9 m.course,
   flagBit m.gnssOld, flagBit m.spare].flatten

end Nmea.Spec
