/-
Specification of a link without losses: messages of several sentences, any number of which are in transit at once.
-/
import Verif.Spec.Streams

namespace Nmea.Spec

/-- What a message of several sentences occupies while it is in transit: kind, message id and channel; the MMSI; or
talker and count. -/
inductive Slot where
  | part (own : Bool) (id : Nat) (chan : Str)
  | static (mmsi : Nat)
  | gsv (talker : Str) (n : Nat)
  deriving DecidableEq

/-- The fields of number `k` among the sentences of a GSV group. -/
def fieldsOf (l : List GsvIn) (k : Nat) : List Str := ((l.find? fun x => x.num = k).map (·.fields)).getD []

/-- The sentences of one message, each with the clock at its arrival and in the order of arrival, and the report. -/
inductive Sent : Slot → List (Env × Str) → Answer → Prop where
  /-- a two-part message, not of type 24 -/
  | inOrder {own : Bool} {id : Nat} {chan t1 t2 x y s1 s2 : Str} {e1 e2 : Env}
      (h1 : Part t1 own 1 id chan x s1) (h2 : Part t2 own 2 id chan y s2)
      (hx : x ≠ []) (ht : typeOf (payloadBits x) ≠ 24) :
      Sent (.part own id chan) [(e1, s1), (e2, s2)] (alone e2 (aisSentence t2 own (x ++ y)))
  /-- the same, part 2 first -/
  | reversed {own : Bool} {id : Nat} {chan t1 t2 x y s1 s2 : Str} {e1 e2 : Env}
      (h1 : Part t1 own 1 id chan x s1) (h2 : Part t2 own 2 id chan y s2)
      (hx : x ≠ []) (ht : typeOf (payloadBits x) ≠ 24) :
      Sent (.part own id chan) [(e2, s2), (e1, s1)] (alone e1 (aisSentence t1 own (x ++ y)))
  /-- part A and part B of a static data report -/
  | staticAB {mmsi : Nat} {a b : StaticSentence} (ha : a.Of mmsi 0) (hb : b.Of mmsi 1) :
      Sent (.static mmsi) [(a.env, a.sentence), (b.env, b.sentence)]
        (.ok (.vesselStaticData (fullStatic b.own a.bits b.bits)))
  /-- the same, part B first -/
  | staticBA {mmsi : Nat} {a b : StaticSentence} (ha : a.Of mmsi 0) (hb : b.Of mmsi 1) :
      Sent (.static mmsi) [(b.env, b.sentence), (a.env, a.sentence)]
        (.ok (.vesselStaticData (fullStatic a.own a.bits b.bits)))
  /-- the sentences 1 to `n` of a GSV group in any order -/
  | gsv {talker : Str} {n : Nat} {l : List GsvIn} (hn : n < 2 ^ 32 - 1) (h0 : 1 ≤ n)
      (hl : ∀ x ∈ l, GsvPart talker n x.num x.fields x.sentence) (hp : (l.map (·.num)).Perm (List.range' 1 n)) :
      Sent (.gsv talker n) (l.map fun x => (x.env, x.sentence))
        (.ok (.gsv ((List.range' 1 n).flatMap fun k => satellites (talkerSystem talker) (fieldsOf l k))))

/-- The sentence is a message of its own: an unfragmented AIS message other than a static data report, or a sentence
that is no AIS message, part of one or GSV sentence. -/
def Whole (env : Env) (s : Str) : Prop :=
  ¬ UsesMemory s ∨ ∃ talker own payload, Single talker own payload s ∧ ¬ IsStaticPart env payload

/-- The messages in transit: the sentences still to come and the report. -/
abbrev Transit := Slot → Option (List (Env × Str) × Answer)

/-- Occupy or free a slot. -/
def Transit.set (o : Transit) (slot : Slot) (v : Option (List (Env × Str) × Answer)) : Transit :=
  fun t => if t = slot then v else o t

/-- Sentences arriving while the messages `o` are in transit, and the answers: a message is reported with its last
sentence. In the end nothing is in transit. No two messages occupy the same slot at the same time. -/
inductive Link : Transit → List (Env × Str) → List Answer → Prop where
  | done : Link (fun _ => none) [] []
  | whole {o env s h as} (hs : Whole env s) (hl : Link o h as) : Link o ((env, s) :: h) (alone env s :: as)
  | only {o slot x a h as} (hf : o slot = none) (hm : Sent slot [x] a) (hl : Link o h as) : Link o (x :: h) (a :: as)
  | start {o slot x y xs a h as} (hf : o slot = none) (hm : Sent slot (x :: y :: xs) a)
      (hl : Link (o.set slot (some (y :: xs, a))) h as) : Link o (x :: h) (.ok .incomplete :: as)
  | more {o slot x y xs a h as} (ho : o slot = some (x :: y :: xs, a))
      (hl : Link (o.set slot (some (y :: xs, a))) h as) : Link o (x :: h) (.ok .incomplete :: as)
  | last {o slot x a h as} (ho : o slot = some ([x], a)) (hl : Link (o.set slot none) h as) : Link o (x :: h) (a :: as)

/-- A message with its report. -/
inductive Transmission : List (Env × Str) → Answer → Prop where
  | whole {env s} (h : Whole env s) : Transmission [(env, s)] (alone env s)
  | sent {slot xs a} (h : Sent slot xs a) : Transmission xs a

/-- The answers to the sentences of one message after another. -/
def oneByOne : List (List (Env × Str) × Answer) → List Answer
  | [] => []
  | (xs, a) :: l => List.replicate (xs.length - 1) (.ok .incomplete) ++ a :: oneByOne l

/-- The answers other than "incomplete". -/
def told : List Answer → List Answer
  | [] => []
  | .ok .incomplete :: l => told l
  | a :: l => a :: told l

end Nmea.Spec
