/-
Model of src/gnss/{gga,rmc,gsa,gsv,vtg,gll}.rs.
-/
import Verif.Model.Store

namespace Nmea

/-- `pick_number_field(..)?` in a function returning `ParseError`. -/
def numField {α : Type} (parse : Str → Option α) (split : List Str) (i : Nat) :
    Out ParseError (Option α) := liftErr (pickNumberField parse split i)

/-- `pick_number_field(..).ok().unwrap_or(None)`. -/
def numFieldOrNone {α : Type} (parse : Str → Option α) (split : List Str) (i : Nat) : Option α :=
  match pickNumberField parse split i with
  | .ok v => v
  | _ => none

/-- `FaaMode::new(..).ok()`. -/
def faaOrNone (s : Str) : Option FaaMode :=
  match FaaMode.new s with
  | .ok m => some m
  | _ => none

/-- src/gnss/gga.rs:118-137 `handle`; fields in source order. -/
def handleGga (now : DateTime) (sentence : Str) (nav : NavigationSystem) :
    Out ParseError ParsedSentence := do
  let split := splitChar ',' sentence
  let timestamp ← Out.toOpt (parseHhmmss (fieldAt split 1) now)
  let latitude ← liftErr (parseLatitude (fieldAt split 2) (fieldAt split 3))
  let longitude ← liftErr (parseLongitude (fieldAt split 4) (fieldAt split 5))
  let quality ← numField parseU8 split 6
  let satelliteCount ← numField parseU8 split 7
  let hdop ← numField F64.parse split 8
  let altitude ← numField F64.parse split 9
  let geoid ← numField F64.parse split 11
  let age ← numField F64.parse split 13
  let refStation ← numField parseU16 split 14
  .ok (.gga {
    source := nav
    timestamp := timestamp
    latitude := latitude
    longitude := longitude
    quality := GgaQualityIndicator.new (quality.getD 0)
    satelliteCount := satelliteCount
    hdop := hdop
    altitude := altitude
    geoidSeparation := geoid
    ageOfDgps := age
    refStationId := refStation })

/-- src/gnss/rmc.rs:67-75, the status field. -/
def rmcStatus (s : Str) : Out ParseError (Option Bool) :=
  if s = c! "A" then .ok (some true)
  else if s = c! "V" then .ok (some false)
  else if s = [] then .ok none
  else .err (.invalidSentence (c! "Invalid RMC navigation receiver status: " ++ s))

/-- src/gnss/rmc.rs:82-93, the variation field. -/
def rmcVariation (split : List Str) : Out ParseError (Option F64) := do
  let v ← numField F64.parse split 10
  match v with
  | some val =>
    let side := fieldAt split 11
    if side = c! "E" then .ok (some val)
    else if side = c! "W" then .ok (some val.neg)
    else .err (.invalidSentence (c! "Invalid RMC variation side: " ++ side))
  | none => .ok none

/-- src/gnss/rmc.rs:60-96 `handle`; fields in source order. -/
def handleRmc (now : DateTime) (sentence : Str) (nav : NavigationSystem) :
    Out ParseError ParsedSentence := do
  let split := splitChar ',' sentence
  let timestamp ← Out.toOpt (parseYymmddHhmmss now (fieldAt split 9) (fieldAt split 1))
  let status ← rmcStatus (fieldAt split 2)
  let latitude ← liftErr (parseLatitude (fieldAt split 3) (fieldAt split 4))
  let longitude ← liftErr (parseLongitude (fieldAt split 5) (fieldAt split 6))
  let sog ← numField F64.parse split 7
  let bearing ← numField F64.parse split 8
  let variation ← rmcVariation split
  .ok (.rmc {
    source := nav
    timestamp := timestamp
    statusActive := status
    latitude := latitude
    longitude := longitude
    sogKnots := sog
    bearing := bearing
    variation := variation })

/-- src/gnss/gsa.rs:75-81, mode 1. -/
def gsaMode1 (s : Str) : Out ParseError (Option Bool) :=
  if s = c! "M" then .ok (some false)
  else if s = c! "A" then .ok (some true)
  else if s = [] then .ok none
  else .err (.invalidSentence (c! "Invalid GPGSA mode: " ++ s))

/-- src/gnss/gsa.rs:82-91, mode 2. -/
def gsaMode2 (s : Str) : Out ParseError (Option GsaFixMode) :=
  if s = c! "1" then .ok (some .notAvailable)
  else if s = c! "2" then .ok (some .fix2D)
  else if s = c! "3" then .ok (some .fix3D)
  else if s = [] then .ok none
  else .err (.invalidSentence (c! "Invalid GPGSA fix type: " ++ s))

/-- src/gnss/gsa.rs:94-100, the loop over the PRN fields. -/
def gsaPrns (split : List Str) : List Nat → Out ParseError (List Nat)
  | [] => .ok []
  | i :: is =>
    if fieldAt split i ≠ [] then
      match numField parseU8 split i with
      | .ok v =>
        match gsaPrns split is with
        | .ok r => .ok (match v with | some x => x :: r | none => r)
        | .err e => .err e
        | .panic => .panic
      | .err e => .err e
      | .panic => .panic
    else gsaPrns split is

/-- src/gnss/gsa.rs:70-107 `handle`; fields in source order. -/
def handleGsa (sentence : Str) (nav : NavigationSystem) : Out ParseError ParsedSentence := do
  let split := splitChar ',' sentence
  let mode1 ← gsaMode1 (fieldAt split 1)
  let mode2 ← gsaMode2 (fieldAt split 2)
  let prns ← gsaPrns split (List.range' 3 12)
  let pdop ← numField F64.parse split 15
  let hdop ← numField F64.parse split 16
  let vdop ← numField F64.parse split 17
  .ok (.gsa {
    source := nav
    mode1Automatic := mode1
    mode2_3d := mode2
    prnNumbers := prns
    pdop := pdop
    hdop := hdop
    vdop := vdop })

/-- src/gnss/gsv.rs:83-85 `make_gsv_key`. -/
def makeGsvKey (sentenceType : Str) (msgCount msgNum : Nat) : Str :=
  sentenceType ++ ',' :: natStr msgCount ++ ',' :: natStr msgNum

/-- src/gnss/gsv.rs:62-72, the satellites of one stored sentence. -/
def gsvSats (nav : NavigationSystem) (sentence : Str) : List GsvData :=
  let split := splitChar ',' sentence
  (List.range 4).filterMap (fun j =>
    (numFieldOrNone parseU8 split (4 + 4 * j + 0)).map (fun prn =>
      { source := nav
        prnNumber := prn
        elevation := numFieldOrNone parseU8 split (4 + 4 * j + 1)
        azimuth := numFieldOrNone parseU16 split (4 + 4 * j + 2)
        snr := numFieldOrNone parseU8 split (4 + 4 * j + 3) }))

/-- src/gnss/gsv.rs:50-55, counting the stored sentences of the set. -/
def gsvFound (p : Parser) (tag : Str) (count : Nat) : List Nat → Nat
  | [] => 0
  | i :: is => (if p.containsKey (makeGsvKey tag count i) then 1 else 0) + gsvFound p tag count is

/-- src/gnss/gsv.rs:59-74, pulling the stored sentences in order. -/
def gsvCollect (nav : NavigationSystem) (tag : Str) (count : Nat) :
    List Nat → Parser → List GsvData × Parser
  | [], p => ([], p)
  | i :: is, p =>
    match p.pullString (makeGsvKey tag count i) with
    | (some s, p') =>
      let r := gsvCollect nav tag count is p'
      (gsvSats nav s ++ r.1, r.2)
    | (none, p') => gsvCollect nav tag count is p'

/-- src/gnss/gsv.rs:41-80 `handle`. `msg_count + 1` (line 51) overflows `u32` for the largest count:
panic with overflow checks (after the push at line 48), empty loop without. -/
def handleGsv (overflowChecks : Bool) (sentence : Str) (nav : NavigationSystem) (p : Parser) :
    Out ParseError ParsedSentence × Parser :=
  let split := splitChar ',' sentence
  let msgType := fieldAt split 0
  match numField parseU32 split 1 with
  | .err e => (.err e, p)
  | .panic => (.panic, p)
  | .ok mc =>
    match numField parseU32 split 2 with
    | .err e => (.err e, p)
    | .panic => (.panic, p)
    | .ok mn =>
      let msgCount := mc.getD 0
      let msgNum := mn.getD 0
      let p := p.pushString (makeGsvKey msgType msgCount msgNum) sentence
      if msgCount + 1 = 2 ^ 32 ∧ overflowChecks then (.panic, p)
      else
        let idx := List.range' 1 (asU32 (msgCount + 1) - 1)
        if gsvFound p msgType msgCount idx = msgCount then
          let r := gsvCollect nav msgType msgCount idx p
          (.ok (.gsv r.1), r.2)
        else (.ok .incomplete, p)

/-- src/gnss/vtg.rs:44-56 `handle`. -/
def handleVtg (sentence : Str) (nav : NavigationSystem) : Out ParseError ParsedSentence :=
  let split := splitChar ',' sentence
  .ok (.vtg {
    source := nav
    cogTrue := numFieldOrNone F64.parse split 1
    cogMagnetic := numFieldOrNone F64.parse split 3
    sogKnots := numFieldOrNone F64.parse split 5
    sogKph := numFieldOrNone F64.parse split 7
    faaMode := faaOrNone (fieldAt split 9) })

/-- src/gnss/gll.rs:66-78, the validity field. -/
def gllValid (s : Str) : Option Bool :=
  if s = c! "A" then some true else if s = c! "V" then some false else none

/-- src/gnss/gll.rs:54-81 `handle`; fields in source order. -/
def handleGll (now : DateTime) (sentence : Str) (nav : NavigationSystem) :
    Out ParseError ParsedSentence := do
  let split := splitChar ',' sentence
  let latitude ← liftErr (parseLatitude (fieldAt split 1) (fieldAt split 2))
  let longitude ← liftErr (parseLongitude (fieldAt split 3) (fieldAt split 4))
  let timestamp ← Out.toOpt (parseHhmmss (fieldAt split 5) now)
  .ok (.gll {
    source := nav
    latitude := latitude
    longitude := longitude
    timestamp := timestamp
    dataValid := gllValid (fieldAt split 6)
    faaMode := faaOrNone (fieldAt split 7) })

end Nmea
