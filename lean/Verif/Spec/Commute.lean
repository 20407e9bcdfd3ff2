/-
Specification for the order of unrelated sentences.
-/
import Verif.Spec.Machine
import Verif.Spec.Messages
import Verif.Spec.Loss

namespace Nmea.Spec

/-- The sentence completes a type 24 message of this MMSI. -/
def Gives24 (p : Parser) (mmsi : Nat) (s : Str) : Prop :=
  ∃ talker own payload, Delivers p s talker own payload ∧ typeOf (payloadBits payload) = 24 ∧
    mmsiOf (payloadBits payload) = mmsi

/-- Two sentences, received next in either order, have nothing to do with each other: they do not belong to one
group of two-part messages or to one group of GSV sentences, and do not both complete a type 24 message of one
MMSI. -/
def Unrelated (p : Parser) (s s' : Str) : Prop :=
  (∀ own id chan, ¬ (InGroup own id chan s ∧ InGroup own id chan s')) ∧
  (∀ talker n, ¬ (GsvOfGroup talker n s ∧ GsvOfGroup talker n s')) ∧
  ∀ mmsi, ¬ (Gives24 p mmsi s ∧ Gives24 p mmsi s')

/-- One history arises from another by exchanging neighbours that are unrelated when their turn comes. -/
inductive Reordered : Parser → List (Env × Str) → List (Env × Str) → Prop where
  | refl (p : Parser) (h : List (Env × Str)) : Reordered p h h
  | swap (p : Parser) (x y : Env × Str) (h : List (Env × Str)) (hu : Unrelated p x.2 y.2) :
      Reordered p (x :: y :: h) (y :: x :: h)
  | cons (p : Parser) (x : Env × Str) (h h' : List (Env × Str)) (ht : Reordered (parseSentence x.1 p x.2).2 h h') :
      Reordered p (x :: h) (x :: h')
  | trans (p : Parser) (h h' h'' : List (Env × Str)) (h1 : Reordered p h h') (h2 : Reordered p h' h'') :
      Reordered p h h''

/-- A merge of two streams. -/
inductive Merge {α : Type} : List α → List α → List α → Prop where
  | nil : Merge [] [] []
  | left {x a b c} (h : Merge a b c) : Merge (x :: a) b (x :: c)
  | right {x a b c} (h : Merge a b c) : Merge a (x :: b) (x :: c)

/-- The stream, received by a new parser, completes a type 24 message of this MMSI (in one sentence or in two parts). -/
def Brings24 (h : List (Env × Str)) (mmsi : Nat) : Prop :=
  ∃ a x b, h = a ++ x :: b ∧ Gives24 (run Parser.new a) mmsi x.2

/-- Two streams without a common group: no group of two-part messages or of GSV sentences has sentences in both, and there
is no MMSI of which both, each received alone, complete a type 24 message. -/
def Separate (g h : List (Env × Str)) : Prop :=
  (∀ own id chan, ¬ ((∃ x ∈ g, InGroup own id chan x.2) ∧ ∃ x ∈ h, InGroup own id chan x.2)) ∧
  (∀ talker n, ¬ ((∃ x ∈ g, GsvOfGroup talker n x.2) ∧ ∃ x ∈ h, GsvOfGroup talker n x.2)) ∧
  ∀ mmsi, ¬ (Brings24 g mmsi ∧ Brings24 h mmsi)

/-- Of a stream whose sentences are divided among several parsers (each sentence with the name of its parser): what
parser `i` gets. -/
def shareOf {ι α : Type} [DecidableEq ι] (i : ι) (h : List (ι × α)) : List α :=
  (h.filter fun x => x.1 = i).map (·.2)

/-- The answers of one parser to the whole stream, each with the name of the parser to which the sentence belongs. -/
def namedAnswers {ι : Type} (h : List (ι × Env × Str)) : List (ι × Answer) :=
  (h.map (·.1)).zip (answers Parser.new (h.map (·.2)))

/-- The sentence is not the first part of a two-part message of type 24 (and no empty first part). -/
def NoSplitStatic (s : Str) : Prop :=
  ∀ talker own id chan payload, Part talker own 1 id chan payload s → payload ≠ [] ∧ typeOf (payloadBits payload) ≠ 24

end Nmea.Spec
