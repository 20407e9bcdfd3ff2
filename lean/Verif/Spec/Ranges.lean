/-
Specification of the ranges of the values in reports.
-/
import Verif.Spec.Messages
import Verif.Spec.Static
import Verif.Spec.Calendar
import Verif.Model.Parse

namespace Nmea.Spec

/-- If present, the number is at most `hi`. -/
def UpTo (hi : Nat) (x : Option Nat) : Prop := ∀ n, x = some n → n ≤ hi

/-- If present, the number is finite and from `lo` to `hi`. -/
def Between (lo hi : Rat) (x : Option F64) : Prop := ∀ d, x = some d → ∃ v, valueOf d = some v ∧ lo ≤ v ∧ v ≤ hi

/-- If present, the text is not empty, has at most `n` characters of the six-bit alphabet without `@`, and no
trailing blank. -/
def TextUpTo (n : Nat) (x : Option Str) : Prop := ∀ s, x = some s → s ≠ [] ∧ PlainText n s

/-- If present, the date-time exists. -/
def ValidTime (x : Option DateTime) : Prop := ∀ t, x = some t → IsDateTime t

/-- An MMSI has at most 30 bits. -/
def IsMmsi (n : Nat) : Prop := n < 2 ^ 30

/-- Class A and B position reports. -/
structure DynamicInRange (d : VesselDynamicData) : Prop where
  mmsi : IsMmsi d.mmsi
  rot : Between (-22500) 22500 d.rot
  rotDirection : ∀ z, d.rotDirection = some z → z = -1 ∨ z = 0 ∨ z = 1
  sogKnots : Between 0 103 d.sogKnots
  latitude : Between (-219) 219 d.latitude
  longitude : Between (-224) 224 d.longitude
  cog : Between 0 13108 d.cog
  headingTrue : Between 0 510 d.headingTrue
  timestampSeconds : d.timestampSeconds ≤ 63
  radioStatus : UpTo (2 ^ 19 - 1) d.radioStatus

/-- Static data. The number of the ship in the IMO register is never zero; a name may have 120 characters. -/
structure StaticInRange (d : VesselStaticData) : Prop where
  mmsi : IsMmsi d.mmsi
  version : d.aisVersionIndicator ≤ 3
  imo : ∀ n, d.imoNumber = some n → 0 < n ∧ n < 2 ^ 30
  callSign : TextUpTo 7 d.callSign
  name : TextUpTo 120 d.name
  vendor : ∀ s, d.equipmentVendorId = some s → PlainText 3 s
  model : UpTo 15 d.equipmentModel
  serial : UpTo (2 ^ 20 - 1) d.equipmentSerialNumber
  bow : UpTo 511 d.dimensionToBow
  stern : UpTo 511 d.dimensionToStern
  port : UpTo 63 d.dimensionToPort
  starboard : UpTo 63 d.dimensionToStarboard
  eta : ValidTime d.eta
  draught : UpTo 255 d.draught10
  destination : TextUpTo 20 d.destination
  mothership : ∀ n, d.mothershipMmsi = some n → IsMmsi n

/-- Base station reports. -/
structure BaseInRange (d : BaseStationReport) : Prop where
  mmsi : IsMmsi d.mmsi
  timestamp : ∃ t, d.timestamp = some t ∧ IsDateTime t
  latitude : Between (-112) 112 d.latitude
  longitude : Between (-224) 224 d.longitude
  radioStatus : d.radioStatus ≤ 2 ^ 19 - 1

/-- Binary addressed messages. -/
structure BinaryInRange (d : BinaryAddressedMessage) : Prop where
  mmsi : IsMmsi d.mmsi
  sequence : d.sequenceNumber ≤ 3
  destination : IsMmsi d.destinationMmsi
  dac : d.dac ≤ 1023
  fid : d.fid ≤ 63

/-- Reports of search and rescue aircraft. -/
structure AircraftInRange (d : StandardSarAircraftPositionReport) : Prop where
  mmsi : IsMmsi d.mmsi
  altitude : UpTo 4094 d.altitude
  sogKnots : UpTo 1022 d.sogKnots
  latitude : Between (-112) 112 d.latitude
  longitude : Between (-224) 224 d.longitude
  cog : Between 0 410 d.cog
  timestampSeconds : d.timestampSeconds ≤ 63
  regional : d.regional ≤ 255
  radioStatus : d.radioStatus ≤ 2 ^ 20 - 1

/-- Aids to navigation. The name may be empty and may have blanks at the end of its first 20 characters only if
characters follow. -/
structure AidInRange (d : AidToNavigationReport) : Prop where
  mmsi : IsMmsi d.mmsi
  name : ∃ a b, d.name = a ++ b ∧ PlainText 20 a ∧ PlainText 14 b
  latitude : Between (-112) 112 d.latitude
  longitude : Between (-224) 224 d.longitude
  bow : UpTo 511 d.dimensionToBow
  stern : UpTo 511 d.dimensionToStern
  port : UpTo 63 d.dimensionToPort
  starboard : UpTo 63 d.dimensionToStarboard
  timestampSeconds : d.timestampSeconds ≤ 63
  regional : d.regional ≤ 255

/-- Every value of the report is within its range. (Numbers of GNSS sentences which are sent as decimals can be any
double, also infinite or NaN.) -/
def InRange : ParsedSentence → Prop
  | .incomplete => True
  | .vesselDynamicData d => DynamicInRange d
  | .vesselStaticData d => StaticInRange d
  | .baseStationReport d => BaseInRange d
  | .binaryAddressedMessage d => BinaryInRange d
  | .standardSarAircraftPositionReport d => AircraftInRange d
  | .utcDateInquiry d => IsMmsi d.sourceMmsi ∧ IsMmsi d.destinationMmsi
  | .aidToNavigationReport d => AidInRange d
  | .gga d => ValidTime d.timestamp ∧ Between (-101) 101 d.latitude ∧ Between (-1001) 1001 d.longitude ∧
      UpTo 255 d.satelliteCount ∧ UpTo 65535 d.refStationId
  | .rmc d => ValidTime d.timestamp ∧ Between (-101) 101 d.latitude ∧ Between (-1001) 1001 d.longitude
  | .gsa d => d.prnNumbers.length ≤ 12 ∧ ∀ n ∈ d.prnNumbers, n ≤ 255
  | .gsv l => ∀ d ∈ l, d.prnNumber ≤ 255 ∧ UpTo 255 d.elevation ∧ UpTo 65535 d.azimuth ∧ UpTo 255 d.snr
  | .vtg _ => True
  | .gll d => ValidTime d.timestamp ∧ Between (-101) 101 d.latitude ∧ Between (-1001) 1001 d.longitude

end Nmea.Spec
