/-
Specification of the log output: which remarks a sentence gives rise to.
-/
import Verif.Model.Log
import Verif.Spec.Values
import Verif.Spec.Panic

namespace Nmea.Spec

/-- A warning that ends with a number. -/
def warningOf (text : Str) (n : Nat) : LogRecord := ⟨.warn, text ++ natStr n⟩

/-- The remark on a sentence without `*`. -/
def missingRemark (s : Str) : List LogRecord :=
  if '*' ∈ s then [] else [⟨.debug, c! "No checksum found for sentence: " ++ s⟩]

/-- The remarks on a ship type code: one if the code is above 99, and another one unless it is in a decade that
has a cargo digit. -/
def shipRemarks (code : Nat) : List LogRecord :=
  (if 99 < code then [warningOf (c! "Unexpected ship and cargo type: ") code] else []) ++
  (if code / 10 ∈ [1, 2, 4, 6, 7, 8, 9] then [] else [warningOf (c! "Unexpected ship and cargo type: ") code])

/-- The remark on a code of a position fixing device. -/
def fixRemarks (code : Nat) : List LogRecord :=
  if 8 < code then [warningOf (c! "Unrecognized position fix type: ") code] else []

/-- The remarks on the contents of a message. -/
def remarks (bits : List Bool) : List LogRecord :=
  if typeOf bits ∈ [1, 2, 3] then
    if num bits 143 2 = 3 then [⟨.warn, c! "Unrecognized Maneuver Indicator value: 3"⟩] else []
  else if typeOf bits = 4 then
    if IsDateTime (stationTime bits) then fixRemarks (num bits 134 4) else []
  else if typeOf bits = 5 then shipRemarks (num bits 232 8) ++ fixRemarks (num bits 270 4)
  else if typeOf bits = 21 then fixRemarks (num bits 249 4)
  else if typeOf bits = 24 ∧ partOf bits = 1 then shipRemarks (num bits 40 8)
  else []

/-- The fields of `s` that carry fragment count and fragment number are in order: `count` is in the first, and the
second is a number or missing. -/
def WithCount (fs : List Str) (count : Nat) : Prop :=
  Dec 255 (field fs 0) count ∧ (fs.length = 1 ∨ ∃ k, Dec 255 (field fs 1) k)

/-- Parsing `s` in state `p` gives rise to these warnings. -/
inductive Warns (env : Env) (p : Parser) (s : Str) : List LogRecord → Prop where
  | complete (talker : Str) (own : Bool) (bits : List Bool) (h : DeliversBits env p s talker own bits) :
      Warns env p s (remarks bits)
  | count (talker : Str) (own : Bool) (fs : List Str) (n : Nat) (h : IsAis talker own fs s) (hc : WithCount fs n)
      (hn : n ≠ 1 ∧ n ≠ 2) :
      Warns env p s [⟨.warn, c! "NMEA sentence fragment count greater (" ++ natStr n ++ c! ") than supported 2"⟩]
  | noId (talker : Str) (own : Bool) (fs : List Str) (h : IsAis talker own fs s) (hc : WithCount fs 2)
      (hi : ∀ id, ¬ Dec (2 ^ 64 - 1) (field fs 2) id) :
      Warns env p s [⟨.warn, c! "NMEA message_id missing from !" ++ aisKind own ++ c! " than supported 2"⟩]
  | number (talker : Str) (own : Bool) (num id : Nat) (chan payload : Str)
      (h : Part talker own num id chan payload s) (hn : num ≠ 1 ∧ num ≠ 2) :
      Warns env p s [⟨.warn, c! "Unexpected NMEA fragment number: " ++ natStr num ++ c! "/2"⟩]

/-- The warnings among some records. -/
def warnings (l : List LogRecord) : List LogRecord := l.filter (fun r => r.level = .warn)

/-- The sentence `s`, parsed in state `p`, is kept for later (in state `q`): as part of a two-part message, as a type 24 message or as a GSV sentence. -/
inductive Kept (q p : Parser) (s : Str) : Prop where
  | part (talker : Str) (own : Bool) (num id : Nat) (chan payload : Str)
      (h : Part talker own num id chan payload s) (hk : pendingPart q own num id chan = some payload)
  | static (talker : Str) (own : Bool) (payload : Str) (h : Delivers p s talker own payload)
      (ht : typeOf (payloadBits payload) = 24) (hk : (pendingStatic q (mmsiOf (payloadBits payload))).isSome)
  | gsv (talker : Str) (n k : Nat) (fs : List Str) (h : GsvPart talker n k fs s)
      (hk : (pendingGsv q talker n k).isSome)

end Nmea.Spec
