/-
Model of the log output: the records that a call hands to the `log` facade, in order. The functions follow the
control flow of `parseSentence` and the handlers (Model/Parse, Model/AisHandlers) and call the same steps; a record
written before a panic stays written. Whether a record is printed is the logger's business and not modelled.
-/
import Verif.Model.Parse

namespace Nmea

/-- The two levels in use (`debug!` and `warn!`). -/
inductive Level where
  | debug | warn
  deriving DecidableEq, Repr

/-- A log record: level and formatted text. -/
structure LogRecord where
  level : Level
  text : Str
  deriving DecidableEq, Repr

/-- src/ais/vdm_t1t2t3.rs:118-129: the record of the manoeuvre indicator (line 125). -/
def manoeuvreLog (bv : Bits) (i : Nat) : List LogRecord :=
  match pickU64 bv i 2 with
  | 0 => []
  | 1 => []
  | 2 => []
  | raw => [⟨.warn, c! "Unrecognized Maneuver Indicator value: " ++ natStr raw⟩]

/-- src/ais/mod.rs:410-466 `ShipType::new`: the record of the last arm (line 461). Simplification: the arms before
are those of `raw` up to 99, which are listed one by one in the code. -/
def ShipType.log (raw : Nat) : List LogRecord :=
  if raw ≤ 99 then [] else [⟨.warn, c! "Unexpected ship and cargo type: " ++ natStr raw⟩]

/-- src/ais/mod.rs:527-565 `CargoType::new`: the record of the last arm (line 560). -/
def CargoType.log (raw : Nat) : List LogRecord :=
  match raw with
  | 10 | 20 | 40 | 60 | 70 | 80 | 90 => []
  | 11 | 21 | 41 | 61 | 71 | 81 | 91 => []
  | 12 | 22 | 42 | 62 | 72 | 82 | 92 => []
  | 13 | 23 | 43 | 63 | 73 | 83 | 93 => []
  | 14 | 24 | 44 | 64 | 74 | 84 | 94 => []
  | 15 | 25 | 45 | 65 | 75 | 85 | 95 => []
  | 16 | 26 | 46 | 66 | 76 | 86 | 96 => []
  | 17 | 27 | 47 | 67 | 77 | 87 | 97 => []
  | 18 | 28 | 48 | 68 | 78 | 88 | 98 => []
  | 19 | 29 | 49 | 69 | 79 | 89 | 99 => []
  | raw => [⟨.warn, c! "Unexpected ship and cargo type: " ++ natStr raw⟩]

/-- src/ais/mod.rs:606-622 `PositionFixType::new`: the record of the last arm (line 618). -/
def PositionFixType.log (raw : Nat) : List LogRecord :=
  match raw with
  | 0 | 1 | 2 | 3 | 4 | 5 | 6 | 7 | 8 => []
  | raw => [⟨.warn, c! "Unrecognized position fix type: " ++ natStr raw⟩]

/-- src/ais/vdm_t4.rs:111-117, src/ais/vdm_t5.rs:65-71: `PositionFixType::new` is called unless the value is 0. -/
def fixTypeBlockLog (bv : Bits) (i : Nat) : List LogRecord :=
  match asU8 (pickU64 bv i 4) with
  | 0 => []
  | raw => PositionFixType.log raw

/-- src/ais/vdm_t4.rs:84-91, the timestamp. -/
def t4Time (bv : Bits) : Out ParseError DateTime :=
  ymdHms (asI32 (pickU64 bv 38 14 : Nat)) (asU32 (pickU64 bv 52 4)) (asU32 (pickU64 bv 56 5))
    (asU32 (pickU64 bv 61 5)) (asU32 (pickU64 bv 66 6)) (asU32 (pickU64 bv 72 6))

/-- `l` after a step that succeeded. -/
def afterOk {ε α : Type} (x : Out ε α) (l : List LogRecord) : List LogRecord :=
  match x with
  | .ok _ => l
  | _ => []

/-- src/ais/vdm_t4.rs:73-125 `handle`: the fix type is read after the timestamp, which may panic. -/
def logT4 (bv : Bits) : List LogRecord := afterOk (t4Time bv) (fixTypeBlockLog bv 134)

/-- src/ais/vdm_t5.rs:20-82 `handle`: call sign, name, ship type, cargo type, fix type, and only then the ETA, which
may panic. -/
def logT5 (bv : Bits) : List LogRecord :=
  match pickString bv 70 7 with
  | .ok _ =>
    match pickString bv 112 20 with
    | .ok _ =>
      ShipType.log (asU8 (pickU64 bv 232 8)) ++ CargoType.log (asU8 (pickU64 bv 232 8)) ++ fixTypeBlockLog bv 270
    | _ => []
  | _ => []

/-- src/ais/vdm_t21.rs:293-365 `handle`: the name, then (line 343) the fix type, 0 included. -/
def logT21 (bv : Bits) : List LogRecord :=
  match pickString bv 43 20 with
  | .ok _ =>
    match pickString bv 272 14 with
    | .ok _ => PositionFixType.log (asU8 (pickU64 bv 249 4))
    | _ => []
  | _ => []

/-- src/ais/vdm_t24.rs:20-139 `handle`: part B has a call sign, then (lines 57-70) ship and cargo type. -/
def logT24 (bv : Bits) : List LogRecord :=
  match pickU64 bv 38 2 with
  | 0 => []
  | 1 =>
    match pickString bv 90 7 with
    | .ok _ => ShipType.log (asU8 (pickU64 bv 40 8)) ++ CargoType.log (asU8 (pickU64 bv 40 8))
    | _ => []
  | _ => []

/-- src/lib.rs:421-582: the records of the handler chosen by the message type. The others write none. -/
def logAis (bv : Bits) : List LogRecord :=
  match pickU64 bv 0 6 with
  | 1 | 2 | 3 => manoeuvreLog bv 143
  | 4 => logT4 bv
  | 5 => logT5 bv
  | 21 => logT21 bv
  | 24 => logT24 bv
  | _ => []

/-- src/lib.rs:385-418: the records about fragments (lines 411, 414, 417). -/
def logAssemble (ty : Str) (v : VdmVars) : List LogRecord :=
  if v.fragmentCount = 1 then []
  else if v.fragmentCount = 2 then
    match v.messageId with
    | some _ =>
      if v.fragmentNumber = 1 then []
      else if v.fragmentNumber = 2 then []
      else [⟨.warn, c! "Unexpected NMEA fragment number: " ++ natStr v.fragmentNumber ++ '/' :: natStr v.fragmentCount⟩]
    | none => [⟨.warn, c! "NMEA message_id missing from " ++ ty ++ c! " than supported 2"⟩]
  else [⟨.warn, c! "NMEA sentence fragment count greater (" ++ natStr v.fragmentCount ++ c! ") than supported 2"⟩]

/-- src/lib.rs:337-586, the VDM/VDO arm. -/
def logVdm (env : Env) (ty body : Str) (p : Parser) : List LogRecord :=
  match vdmLoop 0 VdmVars.init (splitChar ',' body) with
  | .ok v =>
    logAssemble ty v ++
      match (assemble ty v p).1 with
      | none => []
      | some payload =>
        match parsePayload env.overflowChecks payload with
        | .ok bv => logAis bv
        | _ => []
  | _ => []

/-- src/lib.rs:188-591: only the VDM/VDO arm writes records. -/
def logBody (env : Env) (p : Parser) (body : Str) : List LogRecord :=
  match beforeComma body with
  | none => []
  | some ty =>
    match recognize '$' navSystemOf ty with
    | .ok (_, ty) =>
      match recognize '!' stationOf ty with
      | .ok (_, ty) => if ty = c! "!VDM" ∨ ty = c! "!VDO" then logVdm env ty body p else []
      | _ => []
    | _ => []

/-- src/lib.rs:171-176: the record about a missing checksum (line 174). -/
def checksumLog (sentence : Str) : List LogRecord :=
  match rsplitStar sentence with
  | some _ => []
  | none => [⟨.debug, c! "No checksum found for sentence: " ++ sentence⟩]

/-- src/lib.rs:166-592 `NmeaParser::parse_sentence`: the records of a call. -/
def logSentence (env : Env) (p : Parser) (sentence : Str) : List LogRecord :=
  checksumLog sentence ++
    (let (body, given) := splitChecksum sentence
     if hex2 (checksum body) ≠ given ∧ given ≠ [] then [] else logBody env p body)

end Nmea
