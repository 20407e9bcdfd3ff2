/-
Model of src/ais/vdm_t*.rs: from a message's bits to its report.
-/
import Verif.Model.Store

namespace Nmea

/-- `pick_u64(&bv, i, 1) != 0`. -/
def pickFlag (bv : Bits) (i : Nat) : Bool := pickU64 bv i 1 != 0

/-- `raw as f64` for an unsigned integer. -/
def natF64 (n : Nat) : F64 := F64.ofInt (n : Int)

/-- The literal `0.1_f64`. -/
def f64Tenth : F64 := F64.ofRat (mkRat 1 10)

/-- Latitude block shared by types 1-4, 9, 18, 21 (e.g. src/ais/vdm_t1t2t3.rs:71-78): 27 bits,
`0x3412140` (91 degrees) means not available. -/
def latBlock (bv : Bits) (i : Nat) : Option F64 :=
  let raw := asI32 (pickI64 bv i 27)
  if raw ≠ 0x3412140 then some (F64.div (F64.ofInt raw) (F64.ofInt 600000)) else none

/-- Longitude block shared by types 1-4, 9, 18, 21 (e.g. src/ais/vdm_t1t2t3.rs:79-86): 28 bits,
`0x6791AC0` (181 degrees) means not available. -/
def lonBlock (bv : Bits) (i : Nat) : Option F64 :=
  let raw := asI32 (pickI64 bv i 28)
  if raw ≠ 0x6791AC0 then some (F64.div (F64.ofInt raw) (F64.ofInt 600000)) else none

/-- Speed block of types 1-3 (src/ais/vdm_t1t2t3.rs:62-69) and 18 (src/ais/vdm_t18.rs:34-41). -/
def sogBlock (bv : Bits) (i : Nat) : Option F64 :=
  let raw := pickU64 bv i 10
  if raw < 1023 then some (F64.mul (natF64 raw) f64Tenth) else none

/-- Course block of types 1-3 (src/ais/vdm_t1t2t3.rs:87-94), 9 and 18. -/
def cogBlock (bv : Bits) (i : Nat) : Option F64 :=
  let raw := pickU64 bv i 12
  if raw ≠ 0xE10 then some (F64.mul (natF64 raw) f64Tenth) else none

/-- Heading block of types 1-3 (src/ais/vdm_t1t2t3.rs:95-102) and 18. -/
def headingBlock (bv : Bits) (i : Nat) : Option F64 :=
  let raw := pickU64 bv i 9
  if raw ≠ 511 then some (natF64 raw) else none

/-- `match raw.as_str() { "" => None, _ => Some(raw) }` (e.g. src/ais/vdm_t5.rs:32). -/
def someIfNonEmpty (s : Str) : Option Str := if s = [] then none else some s

/-- src/ais/vdm_t1t2t3.rs:38-47. `-raw as f64 * 708.0/126.0` is `(((-raw) as f64) * 708.0) / 126.0`. -/
def rotBlock (bv : Bits) : Option F64 :=
  let raw := pickI64 bv 42 8
  let f (n : Int) : F64 :=
    F64.powi2 (F64.div (F64.div (F64.mul (F64.ofInt n) (F64.ofInt 708)) (F64.ofInt 126))
      (F64.ofRat (mkRat 4733 1000)))
  if -126 ≤ raw ∧ raw < 0 then some (F64.neg (f (-raw)))
  else if 0 ≤ raw ∧ raw ≤ 126 then some (f raw)
  else none

/-- src/ais/vdm_t1t2t3.rs:48-61. -/
def rotDirBlock (bv : Bits) : Option Int :=
  let raw := pickI64 bv 42 8
  if raw = -128 then none
  else if raw ≤ -2 then some (-1)
  else if raw < 2 then some 0
  else if raw < 128 then some 1
  else none

/-- src/ais/vdm_t1t2t3.rs:104-114. -/
def metaBlock (bv : Bits) (i : Nat) : Option PositioningSystemMeta :=
  match asU16 (pickU64 bv i 6) with
  | 60 => none
  | 61 => some .manualInputMode
  | 62 => some .deadReckoningMode
  | 63 => some .inoperative
  | _ => some .operative

/-- src/ais/vdm_t1t2t3.rs:118-129. -/
def manoeuvreBlock (bv : Bits) (i : Nat) : Option Bool :=
  match pickU64 bv i 2 with
  | 0 => none
  | 1 => some true
  | 2 => some true
  | _ => none

/-- src/ais/vdm_t1t2t3.rs:21-142 `handle`. -/
def handleT123 (bv : Bits) (station : Station) (ownVessel : Bool) : Out ParseError ParsedSentence :=
  .ok (.vesselDynamicData {
    ownVessel := ownVessel
    station := station
    aisType := .classA
    mmsi := asU32 (pickU64 bv 8 30)
    navStatus := NavigationStatus.new (asU8 (pickU64 bv 38 4))
    rot := rotBlock bv
    rotDirection := rotDirBlock bv
    sogKnots := sogBlock bv 50
    highPositionAccuracy := pickFlag bv 60
    latitude := latBlock bv 89
    longitude := lonBlock bv 61
    cog := cogBlock bv 116
    headingTrue := headingBlock bv 128
    timestampSeconds := asU8 (pickU64 bv 137 6)
    positioningSystemMeta := metaBlock bv 137
    currentGnssPosition := none
    specialManoeuvre := manoeuvreBlock bv 143
    raimFlag := pickFlag bv 148
    classBUnitFlag := none
    classBDisplay := none
    classBDsc := none
    classBBandFlag := none
    classBMsg22Flag := none
    classBModeFlag := none
    classBCssFlag := none
    radioStatus := some (asU32 (pickU64 bv 149 19)) })

/-- Position fix block of types 4 and 5 (src/ais/vdm_t4.rs:111-117, src/ais/vdm_t5.rs:65-71). -/
def fixTypeBlock (bv : Bits) (i : Nat) : Option PositionFixType :=
  match asU8 (pickU64 bv i 4) with
  | 0 => none
  | raw => some (PositionFixType.new raw)

/-- src/ais/vdm_t4.rs:73-125 `handle`. `Utc.ymd(..).and_hms(..)` panics on an invalid date or time. -/
def handleT4 (bv : Bits) (station : Station) (ownVessel : Bool) : Out ParseError ParsedSentence := do
  let t ← ymdHms (asI32 (pickU64 bv 38 14 : Nat)) (asU32 (pickU64 bv 52 4)) (asU32 (pickU64 bv 56 5))
      (asU32 (pickU64 bv 61 5)) (asU32 (pickU64 bv 66 6)) (asU32 (pickU64 bv 72 6))
  .ok (.baseStationReport {
    ownVessel := ownVessel
    station := station
    mmsi := asU32 (pickU64 bv 8 30)
    timestamp := some t
    highPositionAccuracy := pickFlag bv 78
    latitude := latBlock bv 107
    longitude := lonBlock bv 79
    positionFixType := fixTypeBlock bv 134
    raimFlag := pickFlag bv 148
    radioStatus := asU32 (pickU64 bv 149 19) })

/-- src/ais/vdm_t5.rs:20-82 `handle`. The steps that can panic (`pick_string`, `pick_eta`) are sequenced
in source order. -/
def handleT5 (now : DateTime) (bv : Bits) (_station : Station) (ownVessel : Bool) :
    Out ParseError ParsedSentence := do
  let callSign ← liftErr (pickString bv 70 7)
  let name ← liftErr (pickString bv 112 20)
  let eta ← liftErr (pickEta now bv 274)
  let destination ← liftErr (pickString bv 302 20)
  .ok (.vesselStaticData {
    ownVessel := ownVessel
    aisType := .classB
    mmsi := asU32 (pickU64 bv 8 30)
    aisVersionIndicator := asU8 (pickU64 bv 38 2)
    imoNumber := match asU32 (pickU64 bv 40 30) with
      | 0 => none
      | raw => some raw
    callSign := someIfNonEmpty callSign
    name := someIfNonEmpty name
    shipType := ShipType.new (asU8 (pickU64 bv 232 8))
    cargoType := CargoType.new (asU8 (pickU64 bv 232 8))
    equipmentVendorId := none
    equipmentModel := none
    equipmentSerialNumber := none
    dimensionToBow := some (asU16 (pickU64 bv 240 9))
    dimensionToStern := some (asU16 (pickU64 bv 249 9))
    dimensionToPort := some (asU16 (pickU64 bv 258 6))
    dimensionToStarboard := some (asU16 (pickU64 bv 264 6))
    positionFixType := fixTypeBlock bv 270
    eta := eta
    draught10 := some (asU8 (pickU64 bv 294 8))
    destination := someIfNonEmpty destination
    mothershipMmsi := none })

/-- src/ais/vdm_t6.rs:66-95 `handle`. -/
def handleT6 (bv : Bits) (station : Station) (ownVessel : Bool) : Out ParseError ParsedSentence :=
  .ok (.binaryAddressedMessage {
    ownVessel := ownVessel
    station := station
    mmsi := asU32 (pickU64 bv 8 30)
    sequenceNumber := asU8 (pickU64 bv 38 2)
    destinationMmsi := asU32 (pickU64 bv 40 30)
    retransmitFlag := pickFlag bv 70
    dac := asU16 (pickU64 bv 72 10)
    fid := asU8 (pickU64 bv 82 6) })

/-- src/ais/vdm_t9.rs:88-159 `handle`. -/
def handleT9 (bv : Bits) (station : Station) (ownVessel : Bool) : Out ParseError ParsedSentence :=
  .ok (.standardSarAircraftPositionReport {
    ownVessel := ownVessel
    station := station
    mmsi := asU32 (pickU64 bv 8 30)
    altitude :=
      let raw := asU16 (pickU64 bv 38 12)
      if raw ≠ 4095 then some raw else none
    sogKnots :=
      let raw := asU16 (pickU64 bv 50 10)
      if raw ≠ 1023 then some raw else none
    highPositionAccuracy := pickFlag bv 60
    latitude := latBlock bv 89
    longitude := lonBlock bv 61
    cog := cogBlock bv 116
    timestampSeconds := asU8 (pickU64 bv 128 6)
    regional := asU8 (pickU64 bv 134 8)
    dte := pickU64 bv 142 1 == 0
    assigned := pickFlag bv 146
    raimFlag := pickFlag bv 147
    radioStatus := asU32 (pickU64 bv 148 20) })

/-- src/ais/vdm_t10.rs:42-57 `handle`. -/
def handleT10 (bv : Bits) (station : Station) (ownVessel : Bool) : Out ParseError ParsedSentence :=
  .ok (.utcDateInquiry {
    ownVessel := ownVessel
    station := station
    sourceMmsi := asU32 (pickU64 bv 8 30)
    destinationMmsi := asU32 (pickU64 bv 40 30) })

/-- src/ais/vdm_t18.rs:20-97 `handle` (`raim_flag` reads bit 141 and `radio_status` bits 149-167, as in
the code, lines 84 and 88). -/
def handleT18 (bv : Bits) (station : Station) (ownVessel : Bool) : Out ParseError ParsedSentence :=
  .ok (.vesselDynamicData {
    ownVessel := ownVessel
    station := station
    aisType := .classB
    mmsi := asU32 (pickU64 bv 8 30)
    sogKnots := sogBlock bv 46
    highPositionAccuracy := pickFlag bv 56
    longitude := lonBlock bv 57
    latitude := latBlock bv 85
    cog := cogBlock bv 112
    headingTrue := headingBlock bv 124
    timestampSeconds := asU8 (pickU64 bv 133 6)
    classBUnitFlag := none
    classBDisplay := some (pickFlag bv 141)
    classBDsc := some (pickFlag bv 142)
    classBBandFlag := some (pickFlag bv 143)
    classBMsg22Flag := some (pickFlag bv 144)
    classBModeFlag := some (pickFlag bv 145)
    raimFlag := pickFlag bv 141
    classBCssFlag := none
    radioStatus := some (asU32 (pickU64 bv 149 19))
    navStatus := .notDefined
    rot := none
    rotDirection := none
    positioningSystemMeta := none
    currentGnssPosition := none
    specialManoeuvre := none })

/-- src/ais/vdm_t19.rs:20-23 `handle`. -/
def handleT19 (_bv : Bits) (_station : Station) (_ownVessel : Bool) : Out ParseError ParsedSentence :=
  .err (.unsupportedSentenceType (c! "Unsupported AIVDM message type: 19"))

/-- src/ais/vdm_t21.rs:305 `NavAidType::new(..).ok().unwrap_or(NotSpecified)`. -/
def navAidOrDefault (x : Out ParseError NavAidType) : NavAidType :=
  match x with
  | .ok t => t
  | _ => .notSpecified

/-- src/ais/vdm_t21.rs:293-365 `handle` (`off_position_indicator` reads bit 243, as in the code, line
350). -/
def handleT21 (bv : Bits) (station : Station) (ownVessel : Bool) : Out ParseError ParsedSentence := do
  let name1 ← liftErr (pickString bv 43 20)
  let name2 ← liftErr (pickString bv 272 14)
  .ok (.aidToNavigationReport {
    ownVessel := ownVessel
    station := station
    mmsi := asU32 (pickU64 bv 8 30)
    aidType := navAidOrDefault (NavAidType.new (asU8 (pickU64 bv 38 5)))
    name := name1 ++ name2
    highPositionAccuracy := pickFlag bv 163
    latitude := latBlock bv 192
    longitude := lonBlock bv 164
    dimensionToBow := some (asU16 (pickU64 bv 219 9))
    dimensionToStern := some (asU16 (pickU64 bv 228 9))
    dimensionToPort := some (asU16 (pickU64 bv 237 6))
    dimensionToStarboard := some (asU16 (pickU64 bv 243 6))
    positionFixType := some (PositionFixType.new (asU8 (pickU64 bv 249 4)))
    timestampSeconds := asU8 (pickU64 bv 253 6)
    offPositionIndicator := pickFlag bv 243
    regional := asU8 (pickU64 bv 260 8)
    raimFlag := pickFlag bv 268
    virtualAidFlag := pickFlag bv 269
    assignedModeFlag := pickFlag bv 270 })

/-- src/ais/vdm_t24.rs:198-204 `choose_some` and 207-213 `choose_some_string`. -/
def chooseSome {α : Type} (a b : Option α) : Option α := if a.isSome then a else b

/-- src/ais/vdm_t24.rs:144-194 `VesselStaticData::merge`. -/
def VesselStaticData.merge (self other : VesselStaticData) : Out Str VesselStaticData :=
  if self.aisType ≠ other.aisType then
    .err (c! "Mismatching AIS types: " ++ self.aisType.display ++ c! " != " ++ other.aisType.display)
  else if self.mmsi ≠ other.mmsi then
    .err (c! "Mismatching MMSI numbers: " ++ natStr self.mmsi ++ c! " != " ++ natStr other.mmsi)
  else if self.imoNumber ≠ other.imoNumber then
    .err (c! "Mismatching MMSI numbers: " ++ natStr self.mmsi ++ c! " != " ++ natStr other.mmsi)
  else if self.aisVersionIndicator ≠ other.aisVersionIndicator then
    .err (c! "Mismatching AIS version indicators: " ++ natStr self.aisVersionIndicator ++ c! " != " ++
      natStr other.aisVersionIndicator)
  else .ok {
    ownVessel := self.ownVessel
    aisType := self.aisType
    mmsi := self.mmsi
    aisVersionIndicator := self.aisVersionIndicator
    imoNumber := chooseSome self.imoNumber other.imoNumber
    callSign := chooseSome self.callSign other.callSign
    name := chooseSome self.name other.name
    shipType := if self.shipType ≠ .notAvailable then self.shipType else other.shipType
    cargoType := if self.cargoType ≠ .undefined then self.cargoType else other.cargoType
    equipmentVendorId := chooseSome self.equipmentVendorId other.equipmentVendorId
    equipmentModel := chooseSome self.equipmentModel other.equipmentModel
    equipmentSerialNumber := chooseSome self.equipmentSerialNumber other.equipmentSerialNumber
    dimensionToBow := chooseSome self.dimensionToBow other.dimensionToBow
    dimensionToStern := chooseSome self.dimensionToStern other.dimensionToStern
    dimensionToPort := chooseSome self.dimensionToPort other.dimensionToPort
    dimensionToStarboard := chooseSome self.dimensionToStarboard other.dimensionToStarboard
    positionFixType := chooseSome self.positionFixType other.positionFixType
    eta := chooseSome self.eta other.eta
    draught10 := chooseSome self.draught10 other.draught10
    destination := chooseSome self.destination other.destination
    mothershipMmsi := chooseSome self.mothershipMmsi other.mothershipMmsi }

/-- src/ais/vdm_t24.rs:34-130: the fields of one part. `partA`/`partB` are the two complementary booleans
of lines 24-31. -/
def t24Fields (bv : Bits) (ownVessel partA partB : Bool) : Out ParseError VesselStaticData := do
  let callSign ← if partB then (do let r ← liftErr (pickString bv 90 7); Out.ok (someIfNonEmpty r))
    else Out.ok none
  let name ← if partA then (do let r ← liftErr (pickString bv 40 120); Out.ok (someIfNonEmpty r))
    else Out.ok none
  let vendor ← if partB then (do let r ← liftErr (pickString bv 48 3); Out.ok (some r))
    else Out.ok none
  .ok {
    ownVessel := ownVessel
    aisType := .classB
    mmsi := asU32 (pickU64 bv 8 30)
    aisVersionIndicator := 0
    imoNumber := none
    callSign := callSign
    name := name
    shipType := if partB then ShipType.new (asU8 (pickU64 bv 40 8)) else .notAvailable
    cargoType := if partB then CargoType.new (asU8 (pickU64 bv 40 8)) else .undefined
    equipmentVendorId := vendor
    equipmentModel := if partB then some (asU8 (pickU64 bv 66 4)) else none
    equipmentSerialNumber := if partB then some (asU32 (pickU64 bv 70 20)) else none
    dimensionToBow := if partB then some (asU16 (pickU64 bv 132 9)) else none
    dimensionToStern := if partB then some (asU16 (pickU64 bv 141 9)) else none
    dimensionToPort := if partB then some (asU16 (pickU64 bv 150 6)) else none
    dimensionToStarboard := if partB then some (asU16 (pickU64 bv 156 6)) else none
    positionFixType := none
    eta := none
    draught10 := none
    destination := none
    mothershipMmsi := if partB then some (asU32 (pickU64 bv 132 30)) else none }

/-- src/ais/vdm_t24.rs:133-138: combine with a stored part, or store this one. -/
def t24Store (vsd : VesselStaticData) (p : Parser) : Out ParseError ParsedSentence × Parser :=
  match p.pullVsd vsd.mmsi with
  | (some vsd2, p') =>
    match liftErr (vsd.merge vsd2) with
    | .ok m => (.ok (.vesselStaticData m), p')
    | .err e => (.err e, p')
    | .panic => (.panic, p')
  | (none, p') => (.ok .incomplete, p'.pushVsd vsd.mmsi vsd)

/-- src/ais/vdm_t24.rs:20-139 `handle`. -/
def handleT24 (bv : Bits) (_station : Station) (p : Parser) (ownVessel : Bool) :
    Out ParseError ParsedSentence × Parser :=
  let go (partA partB : Bool) : Out ParseError ParsedSentence × Parser :=
    match t24Fields bv ownVessel partA partB with
    | .ok vsd => t24Store vsd p
    | .err e => (.err e, p)
    | .panic => (.panic, p)
  match pickU64 bv 38 2 with
  | 0 => go true false
  | 1 => go false true
  | _ => (.err (.invalidSentence
      (c! "AIVDM type 24 part number has unexpected value: " ++ natStr (pickU64 bv 38 2))), p)

/-- src/ais/vdm_t27.rs:21-94 `handle`, with the bit offsets of the code (lines 45, 56, 64, 72, 82). -/
def handleT27 (bv : Bits) (station : Station) (ownVessel : Bool) : Out ParseError ParsedSentence :=
  .ok (.vesselDynamicData {
    ownVessel := ownVessel
    station := station
    aisType := .classA
    mmsi := asU32 (pickU64 bv 8 30)
    navStatus := NavigationStatus.new (asU8 (pickU64 bv 40 4))
    rot := none
    rotDirection := none
    sogKnots :=
      let raw := pickU64 bv 62 6
      if raw ≠ 63 then some (natF64 raw) else none
    highPositionAccuracy := pickFlag bv 38
    latitude :=
      let raw := asI32 (pickI64 bv 44 18)
      if raw ≠ 181000 then some (F64.div (F64.ofInt raw) (F64.ofInt 600)) else none
    longitude :=
      let raw := asI32 (pickI64 bv 62 17)
      if raw ≠ 181000 then some (F64.div (F64.ofInt raw) (F64.ofInt 600)) else none
    cog :=
      let raw := pickU64 bv 62 17
      if raw ≠ 91000 then some (F64.mul (natF64 raw) f64Tenth) else none
    headingTrue := none
    timestampSeconds := 0
    positioningSystemMeta := none
    currentGnssPosition := some (pickU64 bv 62 1 == 0)
    specialManoeuvre := none
    raimFlag := pickFlag bv 39
    classBUnitFlag := none
    classBDisplay := none
    classBDsc := none
    classBBandFlag := none
    classBMsg22Flag := none
    classBModeFlag := none
    classBCssFlag := none
    radioStatus := none })

end Nmea
