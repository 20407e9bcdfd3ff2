/-
Specification of the memories that a parser can have: what may be remembered, whatever has been received.
-/
import Verif.Spec.Machine

namespace Nmea.Spec

/-- A part of a two-part message that can be remembered: it is part 1 or 2, its message id is a 64-bit number,
and neither channel nor payload contains a comma. -/
def CanWait (id num : Nat) (chan payload : Str) : Prop :=
  (num = 1 ∨ num = 2) ∧ id ≤ 2 ^ 64 - 1 ∧ ',' ∉ chan ∧ ',' ∉ payload

/-- A GSV sentence that can be remembered: a talker of two bytes, fields without commas, the first two of them
the count and the number. -/
def CanWaitGsv (talker : Str) (n k : Nat) (fs : List Str) : Prop :=
  Talker talker ∧ CommaFree fs ∧ fs ≠ [] ∧ Num0 (2 ^ 32 - 1) (field fs 0) n ∧ Num0 (2 ^ 32 - 1) (field fs 1) k

/-- A type 24 message that can be remembered for an MMSI: the bits of some readable part A or B of that MMSI. -/
def CanWaitStatic (mmsi : Nat) (bits : List Bool) : Prop :=
  ∃ env payload, ',' ∉ payload ∧ IsStaticPart env payload ∧ payloadBits payload = bits ∧ mmsiOf bits = mmsi

/-- A possible memory: every entry is one that can be remembered, there are finitely many of them, and no GSV
group of 1 to 4294967294 sentences is complete. -/
structure Possible (m : Memory) : Prop where
  parts : ∀ own id chan num payload, m.part own id chan = some (num, payload) → CanWait id num chan payload
  gsvs : ∀ talker n k fs, m.gsv talker n k = some fs → CanWaitGsv talker n k fs
  statics : ∀ mmsi own bits, m.static mmsi = some (own, bits) → CanWaitStatic mmsi bits
  incomplete : ∀ talker n, n ≠ 0 → n < 2 ^ 32 - 1 → ∃ j, 1 ≤ j ∧ j ≤ n ∧ m.gsv talker n j = none
  finitely : ∃ (ps : List (Bool × Nat × Str)) (gs : List (Str × Nat × Nat)) (ss : List Nat),
    (∀ own id chan, m.part own id chan ≠ none → (own, id, chan) ∈ ps) ∧
    (∀ talker n k, m.gsv talker n k ≠ none → (talker, n, k) ∈ gs) ∧
    (∀ mmsi, m.static mmsi ≠ none → mmsi ∈ ss)

end Nmea.Spec
