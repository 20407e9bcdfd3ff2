/-
Specification of the AIS messages whose sender knows nothing: every field has the value that ITU-R M.1371 defines as
"not available" (or "undefined", or an empty text). What remains free are sender, repeat indicator, flags, version,
spare bits and radio status.
-/
import Verif.Spec.Messages

namespace Nmea.Spec

/-- Types 1, 2, 3: status 15, turn -128, speed 102.3 kn, position 181° E 91° N, course 360.0°, heading 511°, second 60,
manoeuvre 0. -/
def PositionA.Unknown (m : PositionA) : Prop :=
  m.status = 15 ∧ m.turn = -128 ∧ m.speed = 1023 ∧ m.lon = 181 * 600000 ∧ m.lat = 91 * 600000 ∧ m.course = 3600 ∧
  m.heading = 511 ∧ m.second = 60 ∧ m.manoeuvre = 0

/-- Type 4: a part of the date or of the time is not available (month 0, day 0, hour 24, minute 60, second 60; a year
that is not available, 0, is a year). -/
def BaseStation.NoTime (m : BaseStation) : Prop :=
  m.month = 0 ∨ m.day = 0 ∨ m.hour = 24 ∨ m.minute = 60 ∨ m.second = 60

/-- Type 5: no IMO number, call sign, name, ship type, dimensions, fixing device, ETA, draught, destination. -/
def Voyage.Unknown (m : Voyage) : Prop :=
  m.imo = 0 ∧ m.callSign = [] ∧ m.name = [] ∧ m.ship = 0 ∧ m.bow = 0 ∧ m.stern = 0 ∧ m.port = 0 ∧ m.starboard = 0 ∧
  m.fix = 0 ∧ m.month = 0 ∧ m.day = 0 ∧ m.hour = 24 ∧ m.minute = 60 ∧ m.draught = 0 ∧ m.destination = []

/-- Type 9: altitude 4095 m, speed 1023 kn, position 181° E 91° N, course 360.0°, second 60. -/
def Aircraft.Unknown (m : Aircraft) : Prop :=
  m.altitude = 4095 ∧ m.speed = 1023 ∧ m.lon = 181 * 600000 ∧ m.lat = 91 * 600000 ∧ m.course = 3600 ∧ m.second = 60

/-- Type 18: speed 102.3 kn, position 181° E 91° N, course 360.0°, heading 511°, second 60. -/
def PositionB.Unknown (m : PositionB) : Prop :=
  m.speed = 1023 ∧ m.lon = 181 * 600000 ∧ m.lat = 91 * 600000 ∧ m.course = 3600 ∧ m.heading = 511 ∧ m.second = 60

/-- Type 21: aid type 0, no name, position 181° E 91° N, no dimensions, no fixing device, second 60. -/
def Aid.Unknown (m : Aid) : Prop :=
  m.kind = 0 ∧ m.name = [] ∧ m.extension = [] ∧ m.lon = 181 * 600000 ∧ m.lat = 91 * 600000 ∧ m.bow = 0 ∧ m.stern = 0 ∧
  m.port = 0 ∧ m.starboard = 0 ∧ m.fix = 0 ∧ m.second = 60

/-- Type 24 A: no name. -/
def StaticA.Unknown (m : StaticA) : Prop := m.name = []

/-- Type 24 B: no ship type, vendor, model, serial number, call sign, dimensions. -/
def StaticB.Unknown (m : StaticB) : Prop :=
  m.ship = 0 ∧ m.vendor = [] ∧ m.model = 0 ∧ m.serial = 0 ∧ m.callSign = [] ∧ m.bow = 0 ∧ m.stern = 0 ∧ m.port = 0 ∧
  m.starboard = 0

/-- Type 27: status 15, position 181° E 91° N (in tenths of a minute), speed 63 kn, course 511°. -/
def LongRange.Unknown (m : LongRange) : Prop :=
  m.status = 15 ∧ m.lon = 181 * 600 ∧ m.lat = 91 * 600 ∧ m.speed = 63 ∧ m.course = 511

end Nmea.Spec
