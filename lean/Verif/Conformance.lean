/-
Conformance of the model with the crate's own unit tests: every assertion of every `#[test]` in /repo, on
the same sentences, and the sample of the README, evaluated in the model by the kernel. These are tests of the model (there is no way to
run the crate here), not proofs of properties.
-/
import Verif.Model.Parse
import Verif.Model.Country
import Verif.Model.Display
import Verif.Spec.Demo

namespace Nmea.Conformance
open Nmea Nmea.Spec

/-- The `f64` nearest to the decimal text (a Rust literal). -/
def lit (s : Str) : Option F64 := F64.parse s

/-- `assert::close(x.unwrap_or(0.0), y, tol)`, on exact values. -/
def close (x : Option F64) (y tol : Rat) : Bool :=
  match x.getD (.fin false 0) with
  | .fin neg q => decide (-tol ≤ F64.val neg q - y ∧ F64.val neg q - y ≤ tol)
  | _ => false

/-- First result of the sentences parsed one after the other on a new parser: the last outcome and the
parser afterwards. -/
def feed (p : Parser) : List Str → Out ParseError ParsedSentence × Parser
  | [] => (.ok .incomplete, p)
  | [s] => parseSentence demoEnv p s
  | s :: rest => feed (parseSentence demoEnv p s).2 rest

/-- The last outcome on a new parser. -/
def result (ss : List Str) : Out ParseError ParsedSentence := (feed Parser.new ss).1

/-- A test on the expected kind of result. -/
def dyn (ss : List Str) (f : VesselDynamicData → Bool) : Bool :=
  match result ss with | .ok (.vesselDynamicData d) => f d | _ => false
def stat (ss : List Str) (f : VesselStaticData → Bool) : Bool :=
  match result ss with | .ok (.vesselStaticData d) => f d | _ => false
def base (ss : List Str) (f : BaseStationReport → Bool) : Bool :=
  match result ss with | .ok (.baseStationReport d) => f d | _ => false
def bin (ss : List Str) (f : BinaryAddressedMessage → Bool) : Bool :=
  match result ss with | .ok (.binaryAddressedMessage d) => f d | _ => false
def sar (ss : List Str) (f : StandardSarAircraftPositionReport → Bool) : Bool :=
  match result ss with | .ok (.standardSarAircraftPositionReport d) => f d | _ => false
def inq (ss : List Str) (f : UtcDateInquiry → Bool) : Bool :=
  match result ss with | .ok (.utcDateInquiry d) => f d | _ => false
def aid (ss : List Str) (f : AidToNavigationReport → Bool) : Bool :=
  match result ss with | .ok (.aidToNavigationReport d) => f d | _ => false
def gga (ss : List Str) (f : GgaData → Bool) : Bool := match result ss with | .ok (.gga d) => f d | _ => false
def rmc (ss : List Str) (f : RmcData → Bool) : Bool := match result ss with | .ok (.rmc d) => f d | _ => false
def gsa (ss : List Str) (f : GsaData → Bool) : Bool := match result ss with | .ok (.gsa d) => f d | _ => false
def gsv (ss : List Str) (f : List GsvData → Bool) : Bool :=
  match result ss with | .ok (.gsv d) => f d | _ => false
def vtg (ss : List Str) (f : VtgData → Bool) : Bool := match result ss with | .ok (.vtg d) => f d | _ => false
def gll (ss : List Str) (f : GllData → Bool) : Bool := match result ss with | .ok (.gll d) => f d | _ => false

/-- src/lib.rs:600-604. -/
example : ∃ e, result [c! "!AIVDM,1,1,,A,38Id705000rRVJhE7cl9n;160000,0*41"] = .err (.corruptedSentence e) :=
  ⟨c! "Corrupted NMEA sentence: \"40\" != \"41\"", by decide +kernel⟩

/-- src/lib.rs:607-611. -/
example : dyn [c! "!AIVDM,1,1,,A,38Id705000rRVJhE7cl9n;160000,0"] (fun _ => true) = true := by decide +kernel

/-- src/lib.rs:614-637. -/
example :
    let p := Parser.new.pushString (c! "a") (c! "b")
    let q := p.pushString (c! "c") (c! "d")
    p.stringsCount = 1 ∧ q.stringsCount = 2 ∧ (q.pullString (c! "a")).2.stringsCount = 1 ∧
      ((q.pullString (c! "a")).2.pullString (c! "c")).2.stringsCount = 0 := by decide +kernel

/-- src/lib.rs:640-659. -/
example : ([230992580, 276009860, 265803690, 273353180, 211805060, 257037270, 227232370, 248221000,
      374190000, 412511368, 512003200, 995126020, 2300049, 0].map (fun m =>
        VesselStaticData.country ⟨false, .unknown, m, 0, none, none, none, .notAvailable, .undefined, none, none,
          none, none, none, none, none, none, none, none, none, none⟩)) =
    [some (c! "FI"), some (c! "EE"), some (c! "SE"), some (c! "RU"), some (c! "DE"), some (c! "NO"),
     some (c! "FR"), some (c! "MT"), some (c! "PA"), some (c! "CN"), some (c! "NZ"), none, none, none] := by
  decide +kernel

/-- src/util.rs:222-238. -/
example : parsePayload true (c! "w7b0P1") = .ok ([1,1,1,1,1,1, 0,0,0,1,1,1, 1,0,1,0,1,0, 0,0,0,0,0,0,
    1,0,0,0,0,0, 0,0,0,0,0,1].map (fun n => n == 1)) := by decide +kernel

/-- src/util.rs:241-249. -/
example : let bv : Bits := [true, false, true, true, false, true]
    pickU64 bv 0 2 = 2 ∧ pickU64 bv 2 2 = 3 ∧ pickU64 bv 4 2 = 1 ∧ pickU64 bv 0 6 = 45 ∧
      pickU64 bv 4 4 = 4 ∧ pickU64 bv 6 2 = 0 := by decide +kernel

/-- src/util.rs:252-258. -/
example : pickI64 [false, true, true, true, true, true] 0 6 = 31 ∧
    pickI64 [false, false, false, false, false, true] 0 6 = 1 ∧
    pickI64 [false, false, false, false, false, false] 0 6 = 0 ∧
    pickI64 [true, true, true, true, true, true] 0 6 = -1 ∧
    pickI64 [true, false, false, false, false, false] 0 6 = -32 := by decide +kernel

/-- src/util.rs:261-274. -/
example : pickString ([1,1,1,1,1,1, 0,0,0,0,0,1, 0,0,0,1,1,1, 0,1,1,1,1,1, 1,1,0,1,0,0, 1,1,1,0,1,0,
    1,0,0,0,0,1, 0,0,0,0,0,0, 0,0,0,0,1,0].map (fun n => n == 1)) 0 9 = .ok (c! "?AG_4:!") := by decide +kernel

/-- src/ais/vdm_t1t2t3.rs, test_parse_vdm_type1. -/
example : dyn [c! "!AIVDM,1,1,,A,15RTgt0PAso;90TKcjM8h6g208CQ,0*4A"] (fun d =>
    d.mmsi = 371798000 ∧ d.navStatus = .underWayUsingEngine ∧ d.rot = none ∧ d.rotDirection = some (-1) ∧
    d.sogKnots = lit (c! "12.3") ∧ d.highPositionAccuracy = true ∧
    close d.latitude (mkRat 484 10) (mkRat 5 100) ∧ close d.longitude (mkRat (-1234) 10) (mkRat 5 100) ∧
    d.cog = lit (c! "224.0") ∧ d.headingTrue = lit (c! "215.0") ∧ d.timestampSeconds = 33 ∧
    d.positioningSystemMeta = some .operative ∧ d.specialManoeuvre = none ∧ d.raimFlag = false) = true := by
  decide +kernel

/-- src/ais/vdm_t1t2t3.rs, test_parse_vdm_type2. -/
example : dyn [c! "!AIVDM,1,1,,A,16SteH0P00Jt63hHaa6SagvJ087r,0*42"] (fun d =>
    d.mmsi = 440348000 ∧ d.navStatus = .underWayUsingEngine ∧ d.rot = none ∧ d.rotDirection = none ∧
    d.sogKnots = lit (c! "0.0") ∧ d.highPositionAccuracy = false ∧
    close d.latitude (mkRat 431 10) (mkRat 5 100) ∧ close d.longitude (mkRat (-708) 10) (mkRat 5 100) ∧
    d.cog = lit (c! "93.4") ∧ d.headingTrue = none ∧ d.timestampSeconds = 13 ∧
    d.positioningSystemMeta = some .operative ∧ d.specialManoeuvre = none ∧ d.raimFlag = false) = true := by
  decide +kernel

/-- src/ais/vdm_t1t2t3.rs, test_parse_vdm_type3. -/
example : dyn [c! "!AIVDM,1,1,,A,38Id705000rRVJhE7cl9n;160000,0*40"] (fun d =>
    d.mmsi = 563808000 ∧ d.navStatus = .moored ∧ d.rot = lit (c! "0.0") ∧ d.rotDirection = some 0 ∧
    d.sogKnots = lit (c! "0.0") ∧ d.highPositionAccuracy = true ∧
    close d.latitude (mkRat 3691 100) (mkRat 1 100) ∧ close d.longitude (mkRat (-7633) 100) (mkRat 1 100) ∧
    d.cog = lit (c! "252.0") ∧ d.headingTrue = lit (c! "352.0") ∧ d.timestampSeconds = 35 ∧
    d.positioningSystemMeta = some .operative ∧ d.specialManoeuvre = none ∧ d.raimFlag = false) = true := by
  decide +kernel

/-- src/ais/vdm_t4.rs. -/
example : base [c! "!AIVDM,1,1,,A,403OviQuMGCqWrRO9>E6fE700@GO,0*4D"] (fun d =>
    d.mmsi = 3669702 ∧ d.timestamp = some ⟨2007, 5, 14, 19, 57, 39⟩ ∧ d.highPositionAccuracy = true ∧
    close d.latitude (mkRat 36884 1000) (mkRat 1 1000) ∧
    close d.longitude (mkRat (-76352) 1000) (mkRat 1 1000) ∧ d.positionFixType = some .surveyed ∧
    d.raimFlag = false ∧ d.radioStatus = 67039) = true := by decide +kernel

/-- The assertions of src/ais/vdm_t5.rs. -/
def t5Ok (d : VesselStaticData) : Bool :=
  d.mmsi = 351759000 ∧ d.aisVersionIndicator = 0 ∧ d.imoNumber = some 9134270 ∧ d.callSign = some (c! "3FOF8") ∧
  d.name = some (c! "EVER DIADEM") ∧ d.shipType = .cargo ∧ d.cargoType = .undefined ∧
  d.dimensionToBow = some 225 ∧ d.dimensionToStern = some 70 ∧ d.dimensionToPort = some 1 ∧
  d.dimensionToStarboard = some 31 ∧ d.positionFixType = some .gps ∧
  d.eta = d.eta.map (fun t => ⟨t.year, 5, 15, 14, 0, 30⟩) ∧ d.draught10 = some 122 ∧
  d.destination = some (c! "NEW YORK")

/-- src/ais/vdm_t5.rs, in order and reversed on the same parser. -/
example :
    let s1 := c! "!AIVDM,2,1,1,A,55?MbV02;H;s<HtKR20EHE:0@T4@Dn2222222216L961O5Gf0NSQEp6ClRp8,0*1C"
    let s2 := c! "!AIVDM,2,2,1,A,88888888880,2*25"
    (feed Parser.new [s1]).2.stringsCount = 1 ∧ stat [s1, s2] t5Ok = true ∧
    (feed Parser.new [s1, s2, s2]).2.stringsCount = 1 ∧ stat [s1, s2, s2, s1] t5Ok = true := by decide +kernel

/-- src/ais/vdm_t6.rs. -/
example : bin [c! "!AIVDM,1,1,,B,6B?n;be:cbapalgc;i6?Ow4,2*4A"] (fun d =>
    d.mmsi = 150834090 ∧ d.sequenceNumber = 3 ∧ d.destinationMmsi = 313240222 ∧ d.retransmitFlag = false ∧
    d.dac = 669 ∧ d.fid = 11) = true := by decide +kernel

/-- src/ais/vdm_t9.rs. -/
example : sar [c! "!AIVDM,1,1,,B,91b55wi;hbOS@OdQAC062Ch2089h,0*30"] (fun d =>
    d.mmsi = 111232511 ∧ d.altitude = some 303 ∧ d.sogKnots = some 42 ∧ d.highPositionAccuracy = false ∧
    close d.longitude (mkRat (-627884) 100000) (mkRat 1 100000) ∧
    close d.latitude (mkRat 58144 1000) (mkRat 1 100000) ∧ d.cog = lit (c! "154.5") ∧ d.timestampSeconds = 15 ∧
    d.regional = 0 ∧ d.dte = false ∧ d.assigned = false ∧ d.raimFlag = false ∧ d.radioStatus = 33392) = true := by
  decide +kernel

/-- src/ais/vdm_t10.rs. -/
example : inq [c! "!AIVDM,1,1,,B,:5MlU41GMK6@,0*6C"] (fun d =>
    d.sourceMmsi = 366814480 ∧ d.destinationMmsi = 366832740) = true := by decide +kernel

/-- src/ais/vdm_t18.rs. -/
example : dyn [c! "!AIVDM,1,1,,A,B52K>;h00Fc>jpUlNV@ikwpUoP06,0*4C"] (fun d =>
    d.mmsi = 338087471 ∧ d.navStatus = .notDefined ∧ d.rot = none ∧ d.rotDirection = none ∧
    d.sogKnots = lit (c! "0.1") ∧ d.highPositionAccuracy = false ∧
    close d.latitude (mkRat 407 10) (mkRat 1 10) ∧ close d.longitude (mkRat (-741) 10) (mkRat 1 10) ∧
    close d.cog (mkRat 796 10) (mkRat 1 10) ∧ d.headingTrue = none ∧ d.timestampSeconds = 49 ∧
    d.positioningSystemMeta = none ∧ d.specialManoeuvre = none ∧ d.raimFlag = true) = true := by
  decide +kernel

/-- src/ais/vdm_t21.rs. -/
example :
    let s1 := c! "!AIVDM,2,1,5,B,E1mg=5J1T4W0h97aRh6ba84<h2d;W:Te=eLvH50```q,0*46"
    let s2 := c! "!AIVDM,2,2,5,B,:D44QDlp0C1DU00,2*36"
    result [s1] = .ok .incomplete ∧ aid [s1, s2] (fun d =>
      d.mmsi = 123456789 ∧ d.aidType = .cardinalMarkNorth ∧ d.name = c! "CHINA ROSE MURPHY EXPRESS ALERT" ∧
      d.highPositionAccuracy = false ∧
      close d.latitude (mkRat 479206183333 10000000000) (mkRat 1 100000000) ∧
      close d.longitude (mkRat (-122698591667) 1000000000) (mkRat 1 100000000) ∧
      d.dimensionToBow = some 5 ∧ d.dimensionToStern = some 5 ∧ d.dimensionToPort = some 5 ∧
      d.dimensionToStarboard = some 5 ∧ d.positionFixType = some .gps ∧ d.timestampSeconds = 50 ∧
      d.offPositionIndicator = false ∧ d.regional = 165 ∧ d.raimFlag = false ∧ d.virtualAidFlag = false ∧
      d.assignedModeFlag = false) = true := by decide +kernel

/-- src/ais/vdm_t24.rs. -/
example :
    let s1 := c! "!AIVDM,1,1,,A,H42O55i18tMET00000000000000,2*6D"
    let s2 := c! "!AIVDM,1,1,,A,H42O55lti4hhhilD3nink000?050,0*40"
    result [s1] = .ok .incomplete ∧ stat [s1, s2] (fun d =>
      d.mmsi = 271041815 ∧ d.aisVersionIndicator = 0 ∧ d.imoNumber = none ∧ d.callSign = some (c! "TC6163") ∧
      d.name = some (c! "PROGUY") ∧ d.shipType = .passenger ∧ d.cargoType = .undefined ∧
      d.equipmentVendorId = some (c! "1D0") ∧ d.dimensionToBow = some 0 ∧ d.dimensionToStern = some 15 ∧
      d.dimensionToPort = some 0 ∧ d.dimensionToStarboard = some 5 ∧ d.positionFixType = none ∧ d.eta = none ∧
      d.draught10 = none ∧ d.destination = none) = true := by decide +kernel

/-- src/ais/vdm_t27.rs. -/
example : dyn [c! "!AIVDM,1,1,,B,KC5E2b@U19PFdLbMuc5=ROv62<7m,0*16"] (fun d =>
    d.mmsi = 206914217 ∧ d.navStatus = .notUnderCommand ∧ d.rot = none ∧ d.rotDirection = none ∧
    d.sogKnots = lit (c! "1.0") ∧ d.highPositionAccuracy = false ∧ close d.latitude 137 (mkRat 1 10) ∧
    close d.longitude (mkRat 48 10) (mkRat 1 10) ∧ close d.cog 290 1 ∧ d.timestampSeconds = 0 ∧
    d.currentGnssPosition = some true ∧ d.raimFlag = false) = true := by decide +kernel

/-- src/gnss/gga.rs, test_parse_cpgga. -/
example : gga [c! "$GPGGA,123519,4807.038,N,01131.000,E,1,08,0.9,545.4,M,46.9,M,,*47"] (fun d =>
    d.timestamp = some ⟨2024, 2, 29, 12, 35, 19⟩ ∧ close d.latitude (mkRat 48117 1000) (mkRat 1 1000) ∧
    close d.longitude (mkRat 11517 1000) (mkRat 1 1000) ∧ d.quality = .gpsFix ∧ d.satelliteCount = some 8 ∧
    close d.hdop (mkRat 9 10) (mkRat 1 10) ∧ close d.altitude (mkRat 5454 10) (mkRat 1 10) ∧
    close d.geoidSeparation (mkRat 469 10) (mkRat 1 10) ∧ d.ageOfDgps = none ∧ d.refStationId = none) = true := by
  decide +kernel

/-- src/gnss/gga.rs, test_parse_cpgga_southwest. -/
example : gga [c! "$GPGGA,123519,4807.0,S,01131.0,W,1,08,0.9,545.4,M,46.9,M,,"] (fun d =>
    close d.latitude (mkRat (-48117) 1000) (mkRat 5 10000) ∧
    close d.longitude (mkRat (-11517) 1000) (mkRat 5 10000)) = true := by decide +kernel

/-- src/gnss/gga.rs, test_parse_cpgga_empty_fields. -/
example : gga [c! "$GPGGA,123519,,,,,,,,,,,,,*5B"] (fun d =>
    d.timestamp = some ⟨2024, 2, 29, 12, 35, 19⟩ ∧ d.latitude = none ∧ d.longitude = none ∧
    d.quality = .invalid ∧ d.satelliteCount = none ∧ d.hdop = none ∧ d.altitude = none ∧
    d.geoidSeparation = none ∧ d.ageOfDgps = none ∧ d.refStationId = none) = true := by decide +kernel

/-- src/gnss/rmc.rs, test_parse_cprmc. -/
example : rmc [c! "$GPRMC,225446,A,4916.45,N,12311.12,W,000.5,054.7,191120,020.3,E*67"] (fun d =>
    d.statusActive = some true ∧ d.timestamp = some ⟨2020, 11, 19, 22, 54, 46⟩ ∧
    d.sogKnots = lit (c! "0.5") ∧ close d.bearing (mkRat 547 10) (mkRat 1 10) ∧
    d.variation = lit (c! "20.3")) = true := by decide +kernel

/-- src/gnss/rmc.rs, test_parse_cprmc_empty_fields. -/
example : rmc [c! "$GPRMC,225446,A,,,,,,,070809,,*23"] (fun d =>
    d.statusActive = some true ∧ d.timestamp = some ⟨2009, 8, 7, 22, 54, 46⟩ ∧ d.sogKnots = none ∧
    d.bearing = none ∧ d.variation = none) = true := by decide +kernel

/-- src/gnss/gsa.rs. -/
example : gsa [c! "$GPGSA,A,3,19,28,14,18,27,22,31,39,,,,,1.7,1.0,1.3*34"] (fun d =>
    d.mode1Automatic = some true ∧ d.mode2_3d = some .fix3D ∧ d.prnNumbers = [19,28,14,18,27,22,31,39] ∧
    d.pdop = lit (c! "1.7") ∧ d.hdop = lit (c! "1.0") ∧ d.vdop = lit (c! "1.3")) = true := by decide +kernel

/-- src/gnss/gsv.rs. -/
example :
    let s1 := c! "$GPGSV,3,1,11,03,03,111,00,04,15,270,00,06,01,010,00,13,06,292,00*74"
    let s2 := c! "$GPGSV,3,2,11,14,25,170,00,16,57,208,39,18,67,296,40,19,40,246,00*74"
    let s3 := c! "$GPGSV,3,3,11,22,42,067,42,24,14,311,43,27,05,244,00,,,,*4D"
    result [s1] = .ok .incomplete ∧ (feed Parser.new [s1]).2.stringsCount = 1 ∧
    result [s1, s2] = .ok .incomplete ∧ (feed Parser.new [s1, s2]).2.stringsCount = 2 ∧
    (feed Parser.new [s1, s2, s3]).2.stringsCount = 0 ∧ gsv [s1, s2, s3] (fun v =>
      v.length = 11 ∧
      (v[1]?).map (fun s => (s.elevation, s.azimuth, s.snr)) = some (some 15, some 270, some 0) ∧
      (v[4]?).map (fun s => (s.elevation, s.azimuth, s.snr)) = some (some 25, some 170, some 0) ∧
      (v[10]?).map (fun s => (s.elevation, s.azimuth, s.snr)) = some (some 5, some 244, some 0)) = true := by
  decide +kernel

/-- src/gnss/vtg.rs. -/
example : vtg [c! "$BDVTG,054.7,T,034.4,M,005.5,N,010.2,K,D*31"] (fun d =>
    d.source = .beidou ∧ close d.cogTrue (mkRat 547 10) (mkRat 1 10) ∧
    close d.cogMagnetic (mkRat 344 10) (mkRat 1 10) ∧ close d.sogKnots (mkRat 55 10) (mkRat 1 10) ∧
    close d.sogKph (mkRat 102 10) (mkRat 1 10) ∧ d.faaMode = some .differential) = true := by decide +kernel

/-- src/gnss/gll.rs. -/
example : gll [c! "$GAGLL,4916.45,N,12311.12,W,225444,A,D*48"] (fun d =>
    d.source = .galileo ∧ close d.latitude (mkRat 493 10) (mkRat 1 10) ∧
    close d.longitude (mkRat (-1232) 10) (mkRat 1 10) ∧ d.timestamp = some ⟨2024, 2, 29, 22, 54, 44⟩ ∧
    d.dataValid = some true ∧ d.faaMode = some .differential) = true := by decide +kernel

/-- README.md:31-84: the sample program and the lines it prints (the position rounded to three decimals). -/
example :
    let a := c! "!AIVDM,1,1,,A,H42O55i18tMET00000000000000,2*6D"
    let b := c! "!AIVDM,1,1,,A,H42O55lti4hhhilD3nink000?050,0*40"
    let g := c! "$GAGGA,123519,4807.038,N,01131.000,E,1,08,0.9,545.4,M,46.9,M,,*56"
    result [a] = .ok .incomplete ∧
    stat [a, b] (fun d => d.mmsi = 271041815 ∧ d.country = some (c! "TR") ∧ d.name = some (c! "PROGUY") ∧
      d.shipType.label = c! "passenger") = true ∧
    gga [a, b, g] (fun d => d.source.label = c! "Galileo" ∧ close d.latitude (mkRat 48117 1000) (mkRat 1 2000) ∧
      close d.longitude (mkRat 11517 1000) (mkRat 1 2000)) = true := by decide +kernel

end Nmea.Conformance
