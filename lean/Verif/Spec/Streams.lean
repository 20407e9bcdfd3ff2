/-
Specification of the answers to the sentences of one group (two-part messages of a kind, message id and channel;
type 24 messages of an MMSI; GSV sentences of a talker and count), however they were lost, repeated or reordered.
-/
import Verif.Spec.Loss

namespace Nmea.Spec

/-! ### Two-part messages -/

/-- A part as received: clock, talker, number (1 or 2), payload and sentence. -/
structure PartIn where
  env : Env
  talker : Str
  num : Nat
  payload : Str
  sentence : Str

/-- The part belongs to this group; a first part does not begin a type 24 message. -/
def PartIn.Of (own : Bool) (id : Nat) (chan : Str) (x : PartIn) : Prop :=
  (x.num = 1 ∨ x.num = 2) ∧ Part x.talker own x.num id chan x.payload x.sentence ∧
    (x.num = 1 → x.payload ≠ [] ∧ typeOf (payloadBits x.payload) ≠ 24)

/-- Answers to the parts of a group while `w` waits: a part that meets its counterpart is answered with the message
of the two, and nothing waits any more; every other part is the one that waits from then on. -/
def partAnswers (own : Bool) : Option (Nat × Str) → List PartIn → List Answer
  | _, [] => []
  | none, x :: l => .ok .incomplete :: partAnswers own (some (x.num, x.payload)) l
  | some (num, payload), x :: l =>
    if num = x.num then .ok .incomplete :: partAnswers own (some (x.num, x.payload)) l
    else
      alone x.env (aisSentence x.talker own (if x.num = 1 then x.payload ++ payload else payload ++ x.payload)) ::
        partAnswers own none l

/-- Every message is received twice, sentence by sentence. -/
def doubledParts : List TwoPart → List PartIn
  | [] => []
  | x :: l =>
    ⟨x.env1, x.talker1, 1, x.payload1, x.sentence1⟩ :: ⟨x.env1, x.talker1, 1, x.payload1, x.sentence1⟩ ::
      ⟨x.env2, x.talker2, 2, x.payload2, x.sentence2⟩ :: ⟨x.env2, x.talker2, 2, x.payload2, x.sentence2⟩ ::
      doubledParts l

/-- Answers while the part 2 `y` of the message before waits: each message is reported twice, first with the part 2
of the message before it, then with its own. -/
def mixedAnswers (own : Bool) : Str → List TwoPart → List Answer
  | _, [] => []
  | y, x :: l =>
    alone x.env1 (aisSentence x.talker1 own (x.payload1 ++ y)) :: .ok .incomplete ::
      alone x.env2 (aisSentence x.talker2 own (x.payload1 ++ x.payload2)) :: .ok .incomplete ::
      mixedAnswers own x.payload2 l

/-! ### Type 24 -/

/-- Answers to the type 24 messages of an MMSI while `w` waits: every second message is answered with the two
together, whatever their part numbers. -/
def staticAnswers : Option (Bool × List Bool) → List StaticSentence → List Answer
  | _, [] => []
  | none, x :: l => .ok .incomplete :: staticAnswers (some (x.own, x.bits)) l
  | some (own, bits), x :: l =>
    .ok (.vesselStaticData (overlay (partData x.own x.bits) (partData own bits))) :: staticAnswers none l

/-- Every message is received twice. -/
def doubled {α : Type} : List α → List α
  | [] => []
  | x :: l => x :: x :: doubled l

/-- Answers: every message is reported by itself. -/
def singleAnswers : List StaticSentence → List Answer
  | [] => []
  | x :: l => .ok .incomplete :: .ok (.vesselStaticData (partData x.own x.bits)) :: singleAnswers l

/-! ### GSV -/

/-- Sentence of a GSV group as received: clock, number, fields and sentence. -/
structure GsvIn where
  env : Env
  num : Nat
  fields : List Str
  sentence : Str

/-- Replace the sentence that is kept under a number. -/
def keep (w : Nat → Option (List Str)) (x : GsvIn) : Nat → Option (List Str) :=
  fun k => if k = x.num then some x.fields else w k

/-- The sentences 1 to `n` are all kept. -/
def allKept (w : Nat → Option (List Str)) (n : Nat) : Bool := (List.range' 1 n).all fun k => (w k).isSome

/-- Forget the sentences 1 to `n`. -/
def forget (w : Nat → Option (List Str)) (n : Nat) : Nat → Option (List Str) :=
  fun k => if 1 ≤ k ∧ k ≤ n then none else w k

/-- Answers to the sentences of a GSV group while the sentences `w` are kept: once 1 to `n` are kept they are
reported in order and forgotten. -/
def gsvAnswers (nav : NavigationSystem) (n : Nat) : (Nat → Option (List Str)) → List GsvIn → List Answer
  | _, [] => []
  | w, x :: l =>
    if allKept (keep w x) n then
      .ok (.gsv ((List.range' 1 n).flatMap fun k => satellites nav ((keep w x k).getD []))) ::
        gsvAnswers nav n (forget (keep w x) n) l
    else .ok .incomplete :: gsvAnswers nav n (keep w x) l

/-! ### Counting -/

/-- Number of answers other than "incomplete". -/
def reports : List Answer → Nat
  | [] => 0
  | .ok .incomplete :: l => reports l
  | _ :: l => reports l + 1

end Nmea.Spec
