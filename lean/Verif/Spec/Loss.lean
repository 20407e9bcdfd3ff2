/-
Specification vocabulary for streams in which sentences were lost.
-/
import Verif.Spec.Machine

namespace Nmea.Spec

/-! ### Two-part messages -/

/-- A two-part message as sent: for each part the clock at its reception, its talker, payload and sentence. -/
structure TwoPart where
  env1 : Env
  talker1 : Str
  payload1 : Str
  sentence1 : Str
  env2 : Env
  talker2 : Str
  payload2 : Str
  sentence2 : Str

/-- The message belongs to this group and is not of type 24. -/
def TwoPart.Of (own : Bool) (id : Nat) (chan : Str) (x : TwoPart) : Prop :=
  Part x.talker1 own 1 id chan x.payload1 x.sentence1 ∧ Part x.talker2 own 2 id chan x.payload2 x.sentence2 ∧
    x.payload1 ≠ [] ∧ typeOf (payloadBits x.payload1) ≠ 24

/-- The stream of two-part messages, the second part of a message being lost where the flag is `false`. -/
def withoutSeconds : List (TwoPart × Bool) → List (Env × Str)
  | [] => []
  | (x, got) :: l => (x.env1, x.sentence1) :: (if got then [(x.env2, x.sentence2)] else []) ++ withoutSeconds l

/-- Answers to it: each message whose second part arrives is reported with its own two payloads. -/
def ownAnswers (own : Bool) : List (TwoPart × Bool) → List Answer
  | [] => []
  | (x, got) :: l =>
    .ok .incomplete :: (if got then [alone x.env2 (aisSentence x.talker2 own (x.payload1 ++ x.payload2))] else []) ++
      ownAnswers own l

/-- The stream of two-part messages, part 1 before part 2, nothing lost. -/
def bothParts : List TwoPart → List (Env × Str)
  | [] => []
  | x :: l => (x.env1, x.sentence1) :: (x.env2, x.sentence2) :: bothParts l

/-- Answers when part 2 of an earlier message, with payload `y`, is still waiting: each part 1 is reported
together with part 2 of the message before it, and each part 2 waits. -/
def shiftedAnswers (own : Bool) : Str → List TwoPart → List Answer
  | _, [] => []
  | y, x :: l =>
    alone x.env1 (aisSentence x.talker1 own (x.payload1 ++ y)) :: .ok .incomplete :: shiftedAnswers own x.payload2 l

/-! ### Type 24 -/

/-- A type 24 message received as one sentence: clock, talker, kind, payload and sentence. -/
structure StaticSentence where
  env : Env
  talker : Str
  own : Bool
  payload : Str
  sentence : Str

/-- Bits of the message. -/
def StaticSentence.bits (x : StaticSentence) : List Bool := payloadBits x.payload

/-- It is part A (`part = 0`) or part B (`part = 1`) of this MMSI. -/
def StaticSentence.Of (mmsi part : Nat) (x : StaticSentence) : Prop :=
  Single x.talker x.own x.payload x.sentence ∧ Readable x.env x.payload ∧ typeOf x.bits = 24 ∧
    mmsiOf x.bits = mmsi ∧ partOf x.bits = part

/-- `s` is an unfragmented type 24 message of this MMSI. -/
def StaticOf (mmsi : Nat) (s : Str) : Prop :=
  ∃ talker own payload, Single talker own payload s ∧ typeOf (payloadBits payload) = 24 ∧
    mmsiOf (payloadBits payload) = mmsi

/-- A stream of pairs part A, part B. -/
def staticPairs : List (StaticSentence × StaticSentence) → List (Env × Str)
  | [] => []
  | (a, b) :: l => (a.env, a.sentence) :: (b.env, b.sentence) :: staticPairs l

/-- Answers when part B `y` of an earlier pair is still waiting: each part A is reported together with the part B
before it. -/
def shiftedStatic : List Bool → List (StaticSentence × StaticSentence) → List Answer
  | _, [] => []
  | y, (a, b) :: l =>
    .ok (.vesselStaticData (fullStatic a.own a.bits y)) :: .ok .incomplete :: shiftedStatic b.bits l

/-- Answers when nothing is lost: each part B is reported together with the part A before it. -/
def pairedStatic : List (StaticSentence × StaticSentence) → List Answer
  | [] => []
  | (a, b) :: l => .ok .incomplete :: .ok (.vesselStaticData (fullStatic b.own a.bits b.bits)) :: pairedStatic l

/-! ### GSV groups -/

/-- Cycle after cycle of a GSV group of `n` sentences: sentence `j` of cycle `c` with the clock at its reception. -/
def cycle (src : Nat → Nat → Env × Str) (n c : Nat) : List (Env × Str) := (List.range' 1 n).map (src c)

/-- The cycle without its sentence `k`. -/
def cycleWithout (src : Nat → Nat → Env × Str) (n c k : Nat) : List (Env × Str) :=
  ((List.range' 1 n).filter (· ≠ k)).map (src c)

/-- Answers to cycle `c` when, in cycle 0, sentence `k` was lost: the report is given at sentence `k`, from the
sentences up to `k` of this cycle and those after `k` of the cycle before. -/
def shiftedCycle (nav : NavigationSystem) (fields : Nat → Nat → List Str) (n k c : Nat) : List Answer :=
  (List.range' 1 n).map fun j =>
    if j = k then
      .ok (.gsv ((List.range' 1 n).flatMap fun i => satellites nav (fields (if i ≤ k then c else c - 1) i)))
    else .ok .incomplete

end Nmea.Spec
