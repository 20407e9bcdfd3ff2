/-
Specification vocabulary for histories and pending data.
-/
import Verif.Model.Parse
import Verif.Spec.Ais

namespace Nmea.Spec

/-- The parser after parsing sentences one after the other, each with its own environment (clock). A call
that panics is included: the parser is what a caller that catches the panic finds. -/
def run (p : Parser) : List (Env × Str) → Parser
  | [] => p
  | (env, s) :: h => run (parseSentence env p s).2 h

/-- States that some history of a new parser leads to. -/
def Reachable (p : Parser) : Prop := ∃ h, p = run Parser.new h

/-- Name under which part `num` of a two-part AIS message is kept. -/
def partKey (own : Bool) (num id : Nat) (chan : Str) : Str :=
  join ('!' :: aisKind own) [c! "2", natStr num, natStr id, chan]

/-- Payload of the pending part `num` of a two-part AIS message, if it is pending. -/
def pendingPart (p : Parser) (own : Bool) (num id : Nat) (chan : Str) : Option Str :=
  p.savedFragments.get (partKey own num id chan)

/-- Name under which sentence `num` of a GSV group of `count` sentences is kept. -/
def gsvKey (talker : Str) (count num : Nat) : Str :=
  join (tag '$' talker (c! "GSV")) [natStr count, natStr num]

/-- The pending sentence `num` of a GSV group, if it is pending. -/
def pendingGsv (p : Parser) (talker : Str) (count num : Nat) : Option Str :=
  p.savedFragments.get (gsvKey talker count num)

/-- The pending static data (type 24) of an MMSI. -/
def pendingStatic (p : Parser) (mmsi : Nat) : Option VesselStaticData := p.savedVsds.get mmsi

/-- Number of pending fragments and pending static data parts. -/
def pendingCount (p : Parser) : Nat := p.stringsCount + p.vsdsCount

/-- A number field that counts as 0 when empty. -/
def Num0 (max : Nat) (s : Str) (n : Nat) : Prop := (s = [] ∧ n = 0) ∨ Dec max s n

/-- `s` is sentence `num` of a GSV group of `count` sentences, with these fields. -/
def GsvPart (talker : Str) (count num : Nat) (fs : List Str) (s : Str) : Prop :=
  IsGnss talker (c! "GSV") fs s ∧ Num0 (2 ^ 32 - 1) (field fs 0) count ∧ Num0 (2 ^ 32 - 1) (field fs 1) num

/-- The six bits of a payload character, for every character. -/
def charBits (c : Char) : List Bool :=
  natBits 6 (if (c.toNat + 208) % 256 ≤ 40 then (c.toNat + 208) % 256 else (c.toNat + 208) % 256 - 8)

/-- The bits of a payload text. -/
def payloadBits (s : Str) : List Bool := (s.map charBits).flatten

/-- Parsing `s` in state `p` completes a message with this own-vessel flag and payload: `s` is unfragmented,
or one part of two with the other part pending. -/
inductive Completes (p : Parser) (s : Str) (own : Bool) : Str → Prop where
  | single (talker payload : Str) (h : Single talker own payload s) : Completes p s own payload
  | first (talker : Str) (id : Nat) (chan a b : Str) (h : Part talker own 1 id chan a s)
      (hb : pendingPart p own 2 id chan = some b) : Completes p s own (a ++ b)
  | second (talker : Str) (id : Nat) (chan a b : Str) (h : Part talker own 2 id chan b s)
      (ha : pendingPart p own 1 id chan = some a) : Completes p s own (a ++ b)

/-- No character of the payload makes the decoding fail: with overflow checks, none is below `0`. -/
def Readable (env : Env) (payload : Str) : Prop :=
  env.overflowChecks = true → ∀ c ∈ payload, 48 ≤ c.toNat % 256

/-- Parsing `s` in state `p` completes a readable type 24 message with this own-vessel flag and bits. -/
def Completes24 (env : Env) (p : Parser) (s : Str) (own : Bool) (bits : List Bool) : Prop :=
  ∃ payload, Completes p s own payload ∧ Readable env payload ∧ bits = payloadBits payload ∧ typeOf bits = 24

/-- Parsing `s` in state `p` completes a type 24 message of this MMSI. -/
def CompletesStatic (p : Parser) (s : Str) (mmsi : Nat) : Prop :=
  ∃ own payload, Completes p s own payload ∧ typeOf (payloadBits payload) = 24 ∧
    mmsiOf (payloadBits payload) = mmsi

/-- `s` is a sentence of the group of two-part sentences with this tag, message id and channel. -/
def InGroup (own : Bool) (id : Nat) (chan s : Str) : Prop :=
  ∃ talker num payload, Part talker own num id chan payload s

/-- No sentence of the history, when its turn comes, satisfies `bad`. -/
def Avoids (bad : Parser → Str → Prop) (p : Parser) : List (Env × Str) → Prop
  | [] => True
  | (env, s) :: h => ¬ bad p s ∧ Avoids bad (parseSentence env p s).2 h

end Nmea.Spec
