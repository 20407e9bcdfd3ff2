/-
Specification of the way from a transmitter to the report: how a message is put into sentences, and what its report
tells.
-/
import Verif.Spec.WellFormed
import Verif.Spec.Link
import Batteries.Data.List.Basic

namespace Nmea.Spec

/-! ### What is told about a message -/

/-- Class A position report (types 1, 2, 3). -/
def PositionA.Tells (talker : Str) (own : Bool) (m : PositionA) (d : VesselDynamicData) : Prop :=
  d.ownVessel = own ∧ d.station = talkerStation talker ∧ d.aisType = .classA ∧ d.mmsi = m.mmsi ∧
  some d.navStatus = navStatusTable[m.status]? ∧
  Turn m.turn d.rot ∧ d.rotDirection = turnDirection m.turn ∧ Speed m.speed d.sogKnots ∧
  d.highPositionAccuracy = m.accuracy ∧ Degrees 91 m.lat d.latitude ∧ Degrees 181 m.lon d.longitude ∧
  Course m.course d.cog ∧ Heading m.heading d.headingTrue ∧ d.timestampSeconds = m.second ∧
  d.positioningSystemMeta = metaOf m.second ∧ d.specialManoeuvre = reportedManoeuvre m.manoeuvre ∧
  d.raimFlag = m.raim ∧ d.radioStatus = some m.radio ∧
  d.currentGnssPosition = none ∧ d.classBUnitFlag = none ∧ d.classBDisplay = none ∧ d.classBDsc = none ∧
  d.classBBandFlag = none ∧ d.classBMsg22Flag = none ∧ d.classBModeFlag = none ∧ d.classBCssFlag = none

/-- Base station report (type 4). -/
def BaseStation.Tells (talker : Str) (own : Bool) (m : BaseStation) (d : BaseStationReport) : Prop :=
  d.ownVessel = own ∧ d.station = talkerStation talker ∧ d.mmsi = m.mmsi ∧ d.timestamp = some m.time ∧
  d.highPositionAccuracy = m.accuracy ∧ Degrees 91 m.lat d.latitude ∧ Degrees 181 m.lon d.longitude ∧
  d.positionFixType = optFix m.fix ∧ d.raimFlag = m.raim ∧ d.radioStatus = m.radio

/-- Static and voyage data (type 5) as reported at the time `now`. -/
def Voyage.data (now : DateTime) (own : Bool) (m : Voyage) : VesselStaticData :=
  { ownVessel := own
    aisType := .classB
    mmsi := m.mmsi
    aisVersionIndicator := m.version
    imoNumber := if m.imo = 0 then none else some m.imo
    callSign := nonEmpty m.callSign
    name := nonEmpty m.name
    shipType := reportedShip m.ship
    cargoType := cargoOf m.ship
    equipmentVendorId := none
    equipmentModel := none
    equipmentSerialNumber := none
    dimensionToBow := some m.bow
    dimensionToStern := some m.stern
    dimensionToPort := some m.port
    dimensionToStarboard := some m.starboard
    positionFixType := optFix m.fix
    eta := if EtaAbsent m.arrival then none else some (etaCandidate now m.arrival)
    draught10 := some m.draught
    destination := nonEmpty m.destination
    mothershipMmsi := none }

/-- SAR aircraft position report (type 9). -/
def Aircraft.Tells (talker : Str) (own : Bool) (m : Aircraft) (d : StandardSarAircraftPositionReport) : Prop :=
  d.ownVessel = own ∧ d.station = talkerStation talker ∧ d.mmsi = m.mmsi ∧
  d.altitude = (if m.altitude = 4095 then none else some m.altitude) ∧
  d.sogKnots = (if m.speed = 1023 then none else some m.speed) ∧
  d.highPositionAccuracy = m.accuracy ∧ Degrees 91 m.lat d.latitude ∧ Degrees 181 m.lon d.longitude ∧
  Course m.course d.cog ∧ d.timestampSeconds = m.second ∧ d.regional = m.regional ∧ d.dte = !m.dteOff ∧
  d.assigned = m.assigned ∧ d.raimFlag = m.raim ∧ d.radioStatus = m.radio

/-- Class B position report (type 18); the flags are those of C50. -/
def PositionB.Tells (talker : Str) (own : Bool) (m : PositionB) (d : VesselDynamicData) : Prop :=
  d.ownVessel = own ∧ d.station = talkerStation talker ∧ d.aisType = .classB ∧ d.mmsi = m.mmsi ∧
  Speed m.speed d.sogKnots ∧ d.highPositionAccuracy = m.accuracy ∧ Degrees 91 m.lat d.latitude ∧
  Degrees 181 m.lon d.longitude ∧ Course m.course d.cog ∧ Heading m.heading d.headingTrue ∧
  d.timestampSeconds = m.second ∧ d.classBUnitFlag = none ∧ d.classBDisplay = some m.unit ∧
  d.classBDsc = some m.display ∧ d.classBBandFlag = some m.dsc ∧ d.classBMsg22Flag = some m.band ∧
  d.classBModeFlag = some m.msg22 ∧ d.raimFlag = m.unit ∧ d.classBCssFlag = none ∧
  d.radioStatus = some (m.radio % 2 ^ 19) ∧
  d.navStatus = .notDefined ∧ d.rot = none ∧ d.rotDirection = none ∧ d.positioningSystemMeta = none ∧
  d.currentGnssPosition = none ∧ d.specialManoeuvre = none

/-- Aid to navigation (type 21); the off-position flag is that of C51. -/
def Aid.Tells (talker : Str) (own : Bool) (m : Aid) (d : AidToNavigationReport) : Prop :=
  d.ownVessel = own ∧ d.station = talkerStation talker ∧ d.mmsi = m.mmsi ∧
  some d.aidType = navAidTable[m.kind]? ∧ d.name = m.name ++ m.extension ∧
  d.highPositionAccuracy = m.accuracy ∧ Degrees 91 m.lat d.latitude ∧ Degrees 181 m.lon d.longitude ∧
  d.dimensionToBow = some m.bow ∧ d.dimensionToStern = some m.stern ∧ d.dimensionToPort = some m.port ∧
  d.dimensionToStarboard = some m.starboard ∧ d.positionFixType = some (fixOf m.fix) ∧
  d.timestampSeconds = m.second ∧ d.offPositionIndicator = decide (32 ≤ m.starboard) ∧
  d.regional = m.regional ∧ d.raimFlag = m.raim ∧ d.virtualAidFlag = m.virtual ∧
  d.assignedModeFlag = m.assigned

/-- Long-range position report (type 27), with the confusion of C53. -/
def LongRange.Tells (talker : Str) (own : Bool) (m : LongRange) (d : VesselDynamicData) : Prop :=
  d.ownVessel = own ∧ d.station = talkerStation talker ∧ d.aisType = .classA ∧ d.mmsi = m.mmsi ∧
  d.highPositionAccuracy = m.accuracy ∧ d.raimFlag = m.raim ∧ some d.navStatus = navStatusTable[m.status]? ∧
  Rounded (m.lon / 600) d.latitude ∧ Rounded (m.lat / 600) d.longitude ∧
  (let bits := (m.lat % 2 ^ 17).toNat
   (if bits / 2 ^ 11 = 63 then d.sogKnots = none else Rounded (bits / 2 ^ 11 : Nat) d.sogKnots) ∧
   (if bits = 91000 then d.cog = none else Tenths bits d.cog)) ∧
  d.currentGnssPosition = some (decide (0 ≤ m.lat)) ∧
  d.rot = none ∧ d.rotDirection = none ∧ d.headingTrue = none ∧ d.timestampSeconds = 0 ∧
  d.positioningSystemMeta = none ∧ d.specialManoeuvre = none ∧ d.radioStatus = none ∧
  d.classBUnitFlag = none ∧ d.classBDisplay = none ∧ d.classBDsc = none ∧
  d.classBBandFlag = none ∧ d.classBMsg22Flag = none ∧ d.classBModeFlag = none ∧ d.classBCssFlag = none

/-- The answer to a message other than the parts of type 24. A base station that sends no date and time, and an
arrival that is none, make the call panic. -/
def AisMessage.Tells (now : DateTime) (talker : Str) (own : Bool) : AisMessage → Answer → Prop
  | .positionA m, a => ∃ d, a = .ok (.vesselDynamicData d) ∧ m.Tells talker own d
  | .base m, a => if IsDateTime m.time then ∃ d, a = .ok (.baseStationReport d) ∧ m.Tells talker own d else a = .panic
  | .voyage m, a =>
    a = if EtaAbsent m.arrival ∨ IsDateTime (etaCandidate now m.arrival) then .ok (.vesselStaticData (m.data now own))
      else .panic
  | .addressed m, a => a = .ok (.binaryAddressedMessage
      { ownVessel := own, station := talkerStation talker, mmsi := m.mmsi, sequenceNumber := m.sequence,
        destinationMmsi := m.destination, retransmitFlag := m.retransmit, dac := m.dac, fid := m.fid })
  | .aircraft m, a => ∃ d, a = .ok (.standardSarAircraftPositionReport d) ∧ m.Tells talker own d
  | .inquiry m, a => a = .ok (.utcDateInquiry
      { ownVessel := own, station := talkerStation talker, sourceMmsi := m.mmsi, destinationMmsi := m.destination })
  | .positionB m, a => ∃ d, a = .ok (.vesselDynamicData d) ∧ m.Tells talker own d
  | .aid m, a => ∃ d, a = .ok (.aidToNavigationReport d) ∧ m.Tells talker own d
  | .staticA _, _ => False
  | .staticB _, _ => False
  | .longRange m, a => ∃ d, a = .ok (.vesselDynamicData d) ∧ m.Tells talker own d

/-- A message that is not a part of type 24. -/
def AisMessage.IsWhole : AisMessage → Prop
  | .staticA _ => False
  | .staticB _ => False
  | _ => True

/-! ### Sentences -/

/-- Number of fill bits. -/
def fillCount (bits : List Bool) : Nat := (6 - bits.length % 6) % 6

/-- Part `num` of two. -/
def partSentence (talker : Str) (own : Bool) (num id : Nat) (chan payload : Str) (fill : Nat) : Str :=
  finish (join (tag '!' talker (aisKind own)) [c! "2", Nat.toDigits 10 num, Nat.toDigits 10 id, chan, payload,
    Nat.toDigits 10 fill]) .full

/-- An unfragmented message. -/
def wholeSentence (talker : Str) (own : Bool) (chan payload : Str) (fill : Nat) : Str :=
  finish (join (tag '!' talker (aisKind own)) [c! "1", c! "1", [], chan, payload, Nat.toDigits 10 fill]) .full

/-- The sentences of a message: one, or two if the payload has more than 60 characters. -/
def sentencesOf (talker : Str) (own : Bool) (id : Nat) (chan : Str) (bits : List Bool) : List Str :=
  let payload := armor bits
  if payload.length ≤ 60 then [wholeSentence talker own chan payload (fillCount bits)]
  else [partSentence talker own 1 id chan (payload.take 60) 0,
    partSentence talker own 2 id chan (payload.drop 60) (fillCount bits)]

/-- What is broadcast: a message, or a static data report of the parts A and B. -/
inductive Content where
  | message (m : AisMessage)
  | static (a : StaticA) (b : StaticB)

/-- A broadcast as a receiver passes it on: the clock of the listening program, the talker, VDO or VDM, the message
id and the channel that it is sent with, and the content. -/
structure Broadcast where
  env : Env
  talker : Str
  own : Bool
  id : Nat
  chan : Str
  content : Content

/-- Everything is in range. -/
def Broadcast.Fits (x : Broadcast) : Prop :=
  Talker x.talker ∧ x.id < 2 ^ 64 ∧ ',' ∉ x.chan ∧
  match x.content with
  | .message m => m.Fits ∧ m.IsWhole
  | .static a b => a.Fits ∧ b.Fits ∧ a.mmsi = b.mmsi

/-- The sentences. -/
def Broadcast.sentences (x : Broadcast) : List (Env × Str) :=
  (match x.content with
    | .message m => sentencesOf x.talker x.own x.id x.chan m.bits
    | .static a b => sentencesOf x.talker x.own x.id x.chan a.bits ++ sentencesOf x.talker x.own x.id x.chan b.bits).map
  fun s => (x.env, s)

/-- What is to be reported. -/
def Broadcast.Tells (x : Broadcast) (a : Answer) : Prop :=
  match x.content with
  | .message m => m.Tells x.env.now x.talker x.own a
  | .static p b => a = .ok (.vesselStaticData { b.data x.own with name := nonEmpty p.name })

end Nmea.Spec
