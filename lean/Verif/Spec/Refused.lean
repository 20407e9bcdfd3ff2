/-
Specification of the refusals: which sentences are answered with an error, and with which one.
-/
import Verif.Spec.Errors
import Verif.Spec.Values

namespace Nmea.Spec

/-- The time of a GGA sentence, and date and time of an RMC sentence, can be read (otherwise the call panics before any
field is tested). -/
def TimeReadable (now : DateTime) (kind : Str) (fs : List Str) : Prop :=
  (kind = c! "GGA" → ∃ t, TimeField now (field fs 0) t) ∧
  (kind = c! "RMC" → ∃ t, DateTimeField now (field fs 8) (field fs 0) t)

/-- The sentence `s` is of a kind, or completes a message of a type, that is not supported; with the text that says so. -/
inductive NotSupported (env : Env) (p : Parser) (s : Str) : Str → Prop where
  /-- A `$` sentence of another kind. -/
  | gnss (talker kind : Str) (fs : List Str) (hk : byteLen kind = 3) (hc : ',' ∉ kind) (h : IsGnss talker kind fs s)
      (hn : kind ∉ [c! "GGA", c! "RMC", c! "GSA", c! "GSV", c! "VTG", c! "GLL"]) : NotSupported env p s (refuseKind kind)
  /-- A `!` sentence of another kind. -/
  | ais (talker kind : Str) (fs : List Str) (hk : byteLen kind = 3) (hc : ',' ∉ kind) (h : IsTagged '!' talker kind fs s)
      (hn : kind ≠ c! "VDM" ∧ kind ≠ c! "VDO") : NotSupported env p s (c! "Unsupported sentence type: !" ++ kind)
  /-- A tag of another form. -/
  | tag (ty rest : Str) (e : Ending) (hf : Framed (ty ++ ',' :: rest) e) (hs : s = finish (ty ++ ',' :: rest) e)
      (hc : ',' ∉ ty) (ho : OddTag ty) : NotSupported env p s (c! "Unsupported sentence type: " ++ ty)
  /-- A completed message of another type. -/
  | message (talker : Str) (own : Bool) (bits : List Bool) (h : DeliversBits env p s talker own bits)
      (hn : typeOf bits ∉ supportedTypes) : NotSupported env p s
        (if typeOf bits = 19 then c! "Unsupported AIVDM message type: 19"
          else c! "Unsupported !" ++ aisKind own ++ c! " message type: " ++ natStr (typeOf bits))
  /-- An AIS sentence that ends after the fragment count 1. -/
  | short (talker f : Str) (own : Bool) (h : IsAis talker own [f] s) (hn : Dec 255 f 1) : NotSupported env p s
        (c! "Unsupported !" ++ aisKind own ++ c! " message type: 0")

/-- The sentence `s` is malformed, or completes a malformed message; with the text that says so. -/
inductive Malformed (env : Env) (p : Parser) (s : Str) : Str → Prop where
  /-- There is no comma. -/
  | comma (body : Str) (e : Ending) (hf : Framed body e) (hs : s = finish body e) (hc : ',' ∉ body) :
      Malformed env p s (c! "Invalid NMEA sentence: " ++ body)
  /-- A field of a GNSS sentence cannot be read. -/
  | field (talker kind : Str) (fs : List Str) (l : List (Prop × Str)) (m : Str) (hl : (kind, l) ∈ faults fs)
      (h : IsGnss talker kind fs s) (ht : TimeReadable env.now kind fs) (hm : FirstFault l m) : Malformed env p s m
  /-- The fragment count of an AIS sentence cannot be read. -/
  | count (talker : Str) (own : Bool) (fs : List Str) (h : IsAis talker own fs s) (hn : ∀ n, ¬ Dec 255 (field fs 0) n) :
      Malformed env p s (c! "Failed to parse fragment count: " ++ field fs 0)
  /-- The fragment number of an AIS sentence cannot be read. -/
  | number (talker : Str) (own : Bool) (fs : List Str) (h : IsAis talker own fs s) (h0 : ∃ n, Dec 255 (field fs 0) n)
      (hl : 2 ≤ fs.length) (hn : ∀ n, ¬ Dec 255 (field fs 1) n) :
      Malformed env p s (c! "Failed to parse fragment count: " ++ field fs 1)
  /-- A completed type 24 message has a part number above 1. -/
  | part (talker : Str) (own : Bool) (bits : List Bool) (h : DeliversBits env p s talker own bits)
      (ht : typeOf bits = 24) (hp : 2 ≤ partOf bits) :
      Malformed env p s (c! "AIVDM type 24 part number has unexpected value: " ++ natStr (partOf bits))

/-- How the text of each kind of error begins. -/
def errorPhrases : ParseError → List Str
  | .unsupportedSentenceType _ => [c! "Unsupported sentence type: ", c! "Unimplemented NMEA sentence: $",
      c! "Unsupported !VDM message type: ", c! "Unsupported !VDO message type: ", c! "Unsupported AIVDM message type: 19"]
  | .corruptedSentence _ => [c! "Corrupted NMEA sentence: \""]
  | .invalidSentence _ => [c! "Invalid NMEA sentence: ", c! "Failed to parse fragment count: ", c! "Failed to parse field ",
      c! "Failed to parse latitude (DDMM.MMM) from ", c! "Failed to parse longitude (DDDMM.MMM) from ",
      c! "Invalid RMC navigation receiver status: ", c! "Invalid RMC variation side: ", c! "Invalid GPGSA mode: ",
      c! "Invalid GPGSA fix type: ", c! "AIVDM type 24 part number has unexpected value: "]

end Nmea.Spec
