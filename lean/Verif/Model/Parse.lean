/-
Model of `NmeaParser::parse_sentence` (src/lib.rs:166-592).
-/
import Verif.Model.AisHandlers
import Verif.Model.GnssHandlers

namespace Nmea

/-- src/lib.rs:171-176: cut at the last `*`; without one the given checksum is empty. `none` from the
recursion means "no `*` in the rest". -/
def rsplitStar : Str → Option (Str × Str)
  | [] => none
  | c :: cs =>
    match rsplitStar cs with
    | some (a, b) => some (c :: a, b)
    | none => if c = '*' then some ([], cs) else none

/-- src/lib.rs:170-177: body and given checksum text. -/
def splitChecksum (sentence : Str) : Str × Str :=
  match rsplitStar sentence with
  | some r => r
  | none => (sentence, [])

/-- src/lib.rs:169, 178-180: XOR of the characters after the first, as `u8`. -/
def checksum (body : Str) : Nat := (body.drop 1).foldl (fun acc c => acc ^^^ charAsU8 c) 0

/-- One upper-case hexadecimal digit. -/
def hexDigit (n : Nat) : Char := if n < 10 then Char.ofNat (48 + n) else Char.ofNat (55 + n)

/-- src/lib.rs:181 `format!("{:02X?}", checksum)` for a `u8`. -/
def hex2 (n : Nat) : Str := [hexDigit (n / 16), hexDigit (n % 16)]

/-- src/lib.rs:189-195: text before the first comma; `none` without a comma. -/
def beforeComma : Str → Option Str
  | [] => none
  | c :: cs => if c = ',' then some [] else (beforeComma cs).map (c :: ·)

/-- src/lib.rs:200-209. -/
def navSystemOf (talker : Str) : NavigationSystem :=
  if talker = c! "GN" then .combination
  else if talker = c! "GP" then .gps
  else if talker = c! "GL" then .glonass
  else if talker = c! "GA" then .galileo
  else if talker = c! "BD" then .beidou
  else if talker = c! "GI" then .navic
  else if talker = c! "QZ" then .qzss
  else .other

/-- src/lib.rs:224-234. -/
def stationOf (talker : Str) : Station :=
  if talker = c! "AB" then .baseStation
  else if talker = c! "AD" then .dependentAisBaseStation
  else if talker = c! "AI" then .mobileStation
  else if talker = c! "AN" then .aidToNavigationStation
  else if talker = c! "AR" then .aisReceivingStation
  else if talker = c! "AS" then .limitedBaseStation
  else if talker = c! "AT" then .aisTransmittingStation
  else if talker = c! "AX" then .repeaterStation
  else .other

/-- src/lib.rs:198-219 (`lead = "$"`) and :222-244 (`lead = "!"`): recognise the talker when the type
starts with `lead`, and shorten a type of at most six bytes. `panic` models the slice-index panics. -/
def recognize {α : Type} (lead : Char) (table : Str → α) (ty : Str) :
    Out ParseError (Option α × Str) :=
  match slice ty 0 1 with
  | none => .panic
  | some h =>
    if h = [lead] then
      match slice ty 1 3 with
      | none => .panic
      | some talker =>
        if byteLen ty ≤ 6 then
          match slice ty 3 6 with
          | none => .panic
          | some t => .ok (some (table talker), lead :: t)
        else .ok (some (table talker), ty)
    else .ok (none, ty)

/-- Local variables of the VDM/VDO loop (src/lib.rs:339-344). -/
structure VdmVars where
  fragmentCount : Nat
  fragmentNumber : Nat
  messageId : Option Nat
  radioChannelCode : Option Str
  payload : Str
  deriving DecidableEq, Repr

/-- src/lib.rs:339-344, initial values. -/
def VdmVars.init : VdmVars := ⟨0, 0, none, none, []⟩

/-- src/lib.rs:345-382, the loop over the comma-separated parts, `num` being the loop counter.
Simplification: the `i32` counter cannot overflow below 2^31 fields. -/
def vdmLoop : Nat → VdmVars → List Str → Out ParseError VdmVars
  | _, v, [] => .ok v
  | num, v, s :: rest =>
    match num with
    | 1 =>
      match parseU8 s with
      | some i => vdmLoop (num + 1) { v with fragmentCount := i } rest
      | none => .err (.invalidSentence (c! "Failed to parse fragment count: " ++ s))
    | 2 =>
      match parseU8 s with
      | some i => vdmLoop (num + 1) { v with fragmentNumber := i } rest
      | none => .err (.invalidSentence (c! "Failed to parse fragment count: " ++ s))
    | 3 => vdmLoop (num + 1) { v with messageId := parseU64 s } rest
    | 4 => vdmLoop (num + 1) { v with radioChannelCode := some s } rest
    | 5 => vdmLoop (num + 1) { v with payload := s } rest
    | _ => vdmLoop (num + 1) v rest

/-- src/lib.rs:385-418: the complete payload if there is one, and the new parser state. The payload is
decoded by `parse_payload` right where it is found (lines 387, 398, 406), which is done by the caller
`handleVdm` here. -/
def assemble (ty : Str) (v : VdmVars) (p : Parser) : Option Str × Parser :=
  if v.fragmentCount = 1 then (some v.payload, p)
  else if v.fragmentCount = 2 then
    match v.messageId with
    | some msgId =>
      let key1 := makeFragmentKey ty msgId v.fragmentCount 1 (v.radioChannelCode.getD [])
      let key2 := makeFragmentKey ty msgId v.fragmentCount 2 (v.radioChannelCode.getD [])
      if v.fragmentNumber = 1 then
        match p.pullString key2 with
        | (some q, p') => (some (v.payload ++ q), p')
        | (none, p') => (none, p'.pushString key1 v.payload)
      else if v.fragmentNumber = 2 then
        match p.pullString key1 with
        | (some q, p') => (some (q ++ v.payload), p')
        | (none, p') => (none, p'.pushString key2 v.payload)
      else (none, p)
    | none => (none, p)
  else (none, p)

/-- src/lib.rs:421-582: dispatch on the message type of a complete message. -/
def dispatchAis (env : Env) (ty : Str) (bv : Bits) (station : Station) (ownVessel : Bool) (p : Parser) :
    Out ParseError ParsedSentence × Parser :=
  let messageType := pickU64 bv 0 6
  match messageType with
  | 1 | 2 | 3 => (handleT123 bv station ownVessel, p)
  | 4 => (handleT4 bv station ownVessel, p)
  | 5 => (handleT5 env.now bv station ownVessel, p)
  | 6 => (handleT6 bv station ownVessel, p)
  | 9 => (handleT9 bv station ownVessel, p)
  | 10 => (handleT10 bv station ownVessel, p)
  | 18 => (handleT18 bv station ownVessel, p)
  | 19 => (handleT19 bv station ownVessel, p)
  | 21 => (handleT21 bv station ownVessel, p)
  | 24 => handleT24 bv station p ownVessel
  | 27 => (handleT27 bv station ownVessel, p)
  | _ => (.err (.unsupportedSentenceType
      (c! "Unsupported " ++ ty ++ c! " message type: " ++ natStr messageType)), p)

/-- src/lib.rs:337-586, the VDM/VDO arm. -/
def handleVdm (env : Env) (ty body : Str) (station : Station) (p : Parser) :
    Out ParseError ParsedSentence × Parser :=
  let ownVessel : Bool := decide (ty = c! "!VDO")
  match vdmLoop 0 VdmVars.init (splitChar ',' body) with
  | .err e => (.err e, p)
  | .panic => (.panic, p)
  | .ok v =>
    match assemble ty v p with
    | (none, p') => (.ok .incomplete, p')
    | (some payload, p') =>
      match parsePayload env.overflowChecks payload with
      | .ok bv => dispatchAis env ty bv station ownVessel p'
      | .err _ => (.ok .incomplete, p')
      | .panic => (.panic, p')

/-- src/lib.rs:281-333: sentence types answered with "Unimplemented NMEA sentence". -/
def unimplementedTypes : List Str :=
  [c! "$ALM", c! "$HDT", c! "$TRF", c! "$STN", c! "$VBW", c! "$XTC", c! "$XTE", c! "$ZDA", c! "$BOD",
   c! "$RMA"]

/-- src/lib.rs:247-591: dispatch on the (shortened) sentence type. -/
def dispatch (env : Env) (p : Parser) (ty body : Str) (nav : Option NavigationSystem)
    (station : Option Station) : Out ParseError ParsedSentence × Parser :=
  if ty = c! "$GGA" then (handleGga env.now body (nav.getD .other), p)
  else if ty = c! "$RMC" then (handleRmc env.now body (nav.getD .other), p)
  else if ty = c! "$GSA" then (handleGsa body (nav.getD .other), p)
  else if ty = c! "$GSV" then handleGsv env.overflowChecks body (nav.getD .other) p
  else if ty = c! "$VTG" then (handleVtg body (nav.getD .other), p)
  else if ty = c! "$GLL" then (handleGll env.now body (nav.getD .other), p)
  else if ty ∈ unimplementedTypes then
    (.err (.unsupportedSentenceType (c! "Unimplemented NMEA sentence: " ++ ty)), p)
  else if ty = c! "!VDM" ∨ ty = c! "!VDO" then handleVdm env ty body (station.getD .other) p
  else (.err (.unsupportedSentenceType (c! "Unsupported sentence type: " ++ ty)), p)

/-- src/lib.rs:188-591: everything after the checksum test. -/
def parseBody (env : Env) (p : Parser) (body : Str) : Out ParseError ParsedSentence × Parser :=
  match beforeComma body with
  | none => (.err (.invalidSentence (c! "Invalid NMEA sentence: " ++ body)), p)
  | some ty =>
    match recognize '$' navSystemOf ty with
    | .err e => (.err e, p)
    | .panic => (.panic, p)
    | .ok (nav, ty) =>
      match recognize '!' stationOf ty with
      | .err e => (.err e, p)
      | .panic => (.panic, p)
      | .ok (station, ty) => dispatch env p ty body nav station

/-- src/lib.rs:166-592 `NmeaParser::parse_sentence`. The second component is the parser afterwards (also
at a panic, as an unwinding caller would find it). The `log` macros are left out here; Model/Log has them. -/
def parseSentence (env : Env) (p : Parser) (sentence : Str) :
    Out ParseError ParsedSentence × Parser :=
  let (body, given) := splitChecksum sentence
  let calculated := hex2 (checksum body)
  if calculated ≠ given ∧ given ≠ [] then
    (.err (.corruptedSentence (c! "Corrupted NMEA sentence: " ++ env.debugStr calculated ++ c! " != " ++
      env.debugStr given)), p)
  else parseBody env p body

end Nmea
