/-
The functions of the model that use the parser's maps, with a counter of the calls of the store functions
(`push_string`, `pull_string`, `contains_key`, `push_vsd`, `pull_vsd`). `Lemmas/Work` proves that they compute what
the functions of the model compute.
-/
import Verif.Model.Parse

namespace Nmea

/-- A parser and the number of calls of store functions so far. -/
structure Counted where
  parser : Parser
  calls : Nat

namespace Counted

/-- src/lib.rs:129-131 `push_string`. -/
def pushString (c : Counted) (key value : Str) : Counted := ⟨c.parser.pushString key value, c.calls + 1⟩

/-- src/lib.rs:134-136 `pull_string`. -/
def pullString (c : Counted) (key : Str) : Option Str × Counted :=
  ((c.parser.pullString key).1, ⟨(c.parser.pullString key).2, c.calls + 1⟩)

/-- src/lib.rs:139-141 `contains_key`. -/
def containsKey (c : Counted) (key : Str) : Bool × Counted := (c.parser.containsKey key, ⟨c.parser, c.calls + 1⟩)

/-- src/lib.rs:149-151 `push_vsd`. -/
def pushVsd (c : Counted) (mmsi : Nat) (vsd : VesselStaticData) : Counted :=
  ⟨c.parser.pushVsd mmsi vsd, c.calls + 1⟩

/-- src/lib.rs:154-156 `pull_vsd`. -/
def pullVsd (c : Counted) (mmsi : Nat) : Option VesselStaticData × Counted :=
  ((c.parser.pullVsd mmsi).1, ⟨(c.parser.pullVsd mmsi).2, c.calls + 1⟩)

end Counted

/-- src/ais/vdm_t24.rs:133-138. -/
def t24StoreC (vsd : VesselStaticData) (p : Counted) : Out ParseError ParsedSentence × Counted :=
  match p.pullVsd vsd.mmsi with
  | (some vsd2, p') =>
    match liftErr (vsd.merge vsd2) with
    | .ok m => (.ok (.vesselStaticData m), p')
    | .err e => (.err e, p')
    | .panic => (.panic, p')
  | (none, p') => (.ok .incomplete, p'.pushVsd vsd.mmsi vsd)

/-- src/ais/vdm_t24.rs:20-139 `handle`. -/
def handleT24C (bv : Bits) (_station : Station) (p : Counted) (ownVessel : Bool) :
    Out ParseError ParsedSentence × Counted :=
  let go (partA partB : Bool) : Out ParseError ParsedSentence × Counted :=
    match t24Fields bv ownVessel partA partB with
    | .ok vsd => t24StoreC vsd p
    | .err e => (.err e, p)
    | .panic => (.panic, p)
  match pickU64 bv 38 2 with
  | 0 => go true false
  | 1 => go false true
  | _ => (.err (.invalidSentence
      (c! "AIVDM type 24 part number has unexpected value: " ++ natStr (pickU64 bv 38 2))), p)

/-- src/lib.rs:421-582. -/
def dispatchAisC (env : Env) (ty : Str) (bv : Bits) (station : Station) (ownVessel : Bool) (p : Counted) :
    Out ParseError ParsedSentence × Counted :=
  let messageType := pickU64 bv 0 6
  match messageType with
  | 1 | 2 | 3 => (handleT123 bv station ownVessel, p)
  | 4 => (handleT4 bv station ownVessel, p)
  | 5 => (handleT5 env.now bv station ownVessel, p)
  | 6 => (handleT6 bv station ownVessel, p)
  | 9 => (handleT9 bv station ownVessel, p)
  | 10 => (handleT10 bv station ownVessel, p)
  | 18 => (handleT18 bv station ownVessel, p)
  | 19 => (handleT19 bv station ownVessel, p)
  | 21 => (handleT21 bv station ownVessel, p)
  | 24 => handleT24C bv station p ownVessel
  | 27 => (handleT27 bv station ownVessel, p)
  | _ => (.err (.unsupportedSentenceType
      (c! "Unsupported " ++ ty ++ c! " message type: " ++ natStr messageType)), p)

/-- src/lib.rs:385-418. -/
def assembleC (ty : Str) (v : VdmVars) (p : Counted) : Option Str × Counted :=
  if v.fragmentCount = 1 then (some v.payload, p)
  else if v.fragmentCount = 2 then
    match v.messageId with
    | some msgId =>
      let key1 := makeFragmentKey ty msgId v.fragmentCount 1 (v.radioChannelCode.getD [])
      let key2 := makeFragmentKey ty msgId v.fragmentCount 2 (v.radioChannelCode.getD [])
      if v.fragmentNumber = 1 then
        match p.pullString key2 with
        | (some q, p') => (some (v.payload ++ q), p')
        | (none, p') => (none, p'.pushString key1 v.payload)
      else if v.fragmentNumber = 2 then
        match p.pullString key1 with
        | (some q, p') => (some (q ++ v.payload), p')
        | (none, p') => (none, p'.pushString key2 v.payload)
      else (none, p)
    | none => (none, p)
  else (none, p)

/-- src/lib.rs:337-586. -/
def handleVdmC (env : Env) (ty body : Str) (station : Station) (p : Counted) :
    Out ParseError ParsedSentence × Counted :=
  let ownVessel : Bool := decide (ty = c! "!VDO")
  match vdmLoop 0 VdmVars.init (splitChar ',' body) with
  | .err e => (.err e, p)
  | .panic => (.panic, p)
  | .ok v =>
    match assembleC ty v p with
    | (none, p') => (.ok .incomplete, p')
    | (some payload, p') =>
      match parsePayload env.overflowChecks payload with
      | .ok bv => dispatchAisC env ty bv station ownVessel p'
      | .err _ => (.ok .incomplete, p')
      | .panic => (.panic, p')

/-- src/gnss/gsv.rs:50-55. -/
def gsvFoundC (tag : Str) (count : Nat) : List Nat → Counted → Nat × Counted
  | [], p => (0, p)
  | i :: is, p =>
    let x := p.containsKey (makeGsvKey tag count i)
    let r := gsvFoundC tag count is x.2
    ((if x.1 then 1 else 0) + r.1, r.2)

/-- src/gnss/gsv.rs:59-74. -/
def gsvCollectC (nav : NavigationSystem) (tag : Str) (count : Nat) :
    List Nat → Counted → List GsvData × Counted
  | [], p => ([], p)
  | i :: is, p =>
    match p.pullString (makeGsvKey tag count i) with
    | (some s, p') =>
      let r := gsvCollectC nav tag count is p'
      (gsvSats nav s ++ r.1, r.2)
    | (none, p') => gsvCollectC nav tag count is p'

/-- src/gnss/gsv.rs:41-80 `handle`. -/
def handleGsvC (overflowChecks : Bool) (sentence : Str) (nav : NavigationSystem) (p : Counted) :
    Out ParseError ParsedSentence × Counted :=
  let split := splitChar ',' sentence
  let msgType := fieldAt split 0
  match numField parseU32 split 1 with
  | .err e => (.err e, p)
  | .panic => (.panic, p)
  | .ok mc =>
    match numField parseU32 split 2 with
    | .err e => (.err e, p)
    | .panic => (.panic, p)
    | .ok mn =>
      let msgCount := mc.getD 0
      let msgNum := mn.getD 0
      let p := p.pushString (makeGsvKey msgType msgCount msgNum) sentence
      if msgCount + 1 = 2 ^ 32 ∧ overflowChecks then (.panic, p)
      else
        let idx := List.range' 1 (asU32 (msgCount + 1) - 1)
        let f := gsvFoundC msgType msgCount idx p
        if f.1 = msgCount then
          let r := gsvCollectC nav msgType msgCount idx f.2
          (.ok (.gsv r.1), r.2)
        else (.ok .incomplete, f.2)

/-- src/lib.rs:247-591. -/
def dispatchC (env : Env) (p : Counted) (ty body : Str) (nav : Option NavigationSystem)
    (station : Option Station) : Out ParseError ParsedSentence × Counted :=
  if ty = c! "$GGA" then (handleGga env.now body (nav.getD .other), p)
  else if ty = c! "$RMC" then (handleRmc env.now body (nav.getD .other), p)
  else if ty = c! "$GSA" then (handleGsa body (nav.getD .other), p)
  else if ty = c! "$GSV" then handleGsvC env.overflowChecks body (nav.getD .other) p
  else if ty = c! "$VTG" then (handleVtg body (nav.getD .other), p)
  else if ty = c! "$GLL" then (handleGll env.now body (nav.getD .other), p)
  else if ty ∈ unimplementedTypes then
    (.err (.unsupportedSentenceType (c! "Unimplemented NMEA sentence: " ++ ty)), p)
  else if ty = c! "!VDM" ∨ ty = c! "!VDO" then handleVdmC env ty body (station.getD .other) p
  else (.err (.unsupportedSentenceType (c! "Unsupported sentence type: " ++ ty)), p)

/-- src/lib.rs:188-591. -/
def parseBodyC (env : Env) (p : Counted) (body : Str) : Out ParseError ParsedSentence × Counted :=
  match beforeComma body with
  | none => (.err (.invalidSentence (c! "Invalid NMEA sentence: " ++ body)), p)
  | some ty =>
    match recognize '$' navSystemOf ty with
    | .err e => (.err e, p)
    | .panic => (.panic, p)
    | .ok (nav, ty) =>
      match recognize '!' stationOf ty with
      | .err e => (.err e, p)
      | .panic => (.panic, p)
      | .ok (station, ty) => dispatchC env p ty body nav station

/-- src/lib.rs:166-592 `NmeaParser::parse_sentence`. -/
def parseSentenceC (env : Env) (p : Counted) (sentence : Str) : Out ParseError ParsedSentence × Counted :=
  let (body, given) := splitChecksum sentence
  let calculated := hex2 (checksum body)
  if calculated ≠ given ∧ given ≠ [] then
    (.err (.corruptedSentence (c! "Corrupted NMEA sentence: " ++ env.debugStr calculated ++ c! " != " ++
      env.debugStr given)), p)
  else parseBodyC env p body

end Nmea
