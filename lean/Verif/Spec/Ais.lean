/-
Specification vocabulary for AIS sentences and messages.
-/
import Verif.Spec.Sentence
import Verif.Spec.Bits

namespace Nmea.Spec

/-- `s` is an unfragmented VDM (`own = false`) or VDO (`own = true`) sentence with this payload: fragment
count 1, any numeric fragment number, any message id, channel and fill-bit fields. -/
def Single (talker : Str) (own : Bool) (payload s : Str) : Prop :=
  ∃ fs k, IsAis talker own fs s ∧ Dec 255 (field fs 0) 1 ∧ Dec 255 (field fs 1) k ∧ field fs 4 = payload

/-- A sentence that carries a payload, on channel A, with checksum. -/
def aisSentence (talker : Str) (own : Bool) (payload : Str) : Str :=
  finish (join (tag '!' talker (aisKind own)) [c! "1", c! "1", [], c! "A", payload, c! "0"]) .full

/-- `s` is part `num` of a two-part VDM/VDO message with this message id, channel and payload part. -/
def Part (talker : Str) (own : Bool) (num id : Nat) (chan payload s : Str) : Prop :=
  ∃ fs, IsAis talker own fs s ∧ Dec 255 (field fs 0) 2 ∧ Dec 255 (field fs 1) num ∧
    Dec (2 ^ 64 - 1) (field fs 2) id ∧ field fs 3 = chan ∧ field fs 4 = payload

/-- Message type of a message: its first six bits. -/
def typeOf (bits : List Bool) : Nat := bitsVal (window bits 0 6)

/-- Part number of a type 24 message. -/
def partOf (bits : List Bool) : Nat := bitsVal (window bits 38 2)

/-- MMSI of the sender. -/
def mmsiOf (bits : List Bool) : Nat := bitsVal (window bits 8 30)

/-- Length in bits of what is read from a message of type `t` (`part` is the part number of type 24).
Part A of type 24 is read as 120 characters of name from bit 40 on. -/
def layoutBits (t part : Nat) : Nat :=
  match t with
  | 1 | 2 | 3 | 4 | 9 | 18 => 168
  | 5 => 422
  | 6 => 88
  | 10 => 70
  | 21 => 356
  | 24 => if part = 0 then 760 else 162
  | 27 => 79
  | _ => 6

/-- The message types that are decoded. -/
def supportedTypes : List Nat := [1, 2, 3, 4, 5, 6, 9, 10, 18, 21, 24, 27]

end Nmea.Spec
