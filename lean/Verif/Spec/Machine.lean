/-
Specification of the parser as a machine: what is remembered between sentences, in terms of the sentences
received, and how one sentence is answered. It refers to the model only for the answer to a sentence that
stands alone (`alone`).
-/
import Verif.Spec.Gsv
import Verif.Spec.Static

namespace Nmea.Spec

/-- Answer to a sentence. -/
abbrev Answer := Out ParseError ParsedSentence

/-- The answer to a sentence that is the first one a new parser is given. -/
def alone (env : Env) (s : Str) : Answer := (parseSentence env Parser.new s).1

/-- What is remembered: at most one part of a two-part message for each kind, message id and channel (number
and payload); the GSV sentences by talker, count and number (fields); for each MMSI at most one type 24 message
(own-vessel flag and bits). -/
structure Memory where
  part : Bool → Nat → Str → Option (Nat × Str)
  gsv : Str → Nat → Nat → Option (List Str)
  static : Nat → Option (Bool × List Bool)

namespace Memory

/-- Nothing is remembered. -/
def empty : Memory := ⟨fun _ _ _ => none, fun _ _ _ => none, fun _ => none⟩

/-- Set or clear the part of a group. -/
def setPart (m : Memory) (own : Bool) (id : Nat) (chan : Str) (x : Option (Nat × Str)) : Memory :=
  { m with part := fun o i c => if o = own ∧ i = id ∧ c = chan then x else m.part o i c }

/-- Remember GSV sentence `k` of a group. -/
def setGsv (m : Memory) (talker : Str) (n k : Nat) (fs : List Str) : Memory :=
  { m with gsv := fun t n' k' => if t = talker ∧ n' = n ∧ k' = k then some fs else m.gsv t n' k' }

/-- Forget the sentences 1..n of a GSV group. -/
def clearGsv (m : Memory) (talker : Str) (n : Nat) : Memory :=
  { m with gsv := fun t n' k => if t = talker ∧ n' = n ∧ 1 ≤ k ∧ k ≤ n then none else m.gsv t n' k }

/-- Set or clear the type 24 message of an MMSI. -/
def setStatic (m : Memory) (mmsi : Nat) (x : Option (Bool × List Bool)) : Memory :=
  { m with static := fun i => if i = mmsi then x else m.static i }

end Memory

/-- A part A or part B of type 24. -/
def IsStaticPart (env : Env) (payload : Str) : Prop :=
  Readable env payload ∧ typeOf (payloadBits payload) = 24 ∧ partOf (payloadBits payload) < 2

/-- A complete AIS message is received: answer and memory afterwards. Everything but the parts A and B of type 24
is answered like an unfragmented sentence alone; the first part of an MMSI is remembered, the second one is
answered with the two together. -/
inductive Message (env : Env) (m : Memory) (talker : Str) (own : Bool) (payload : Str) : Answer → Memory → Prop where
  | plain (h : ¬ IsStaticPart env payload) :
      Message env m talker own payload (alone env (aisSentence talker own payload)) m
  | first (h : IsStaticPart env payload) (hm : m.static (mmsiOf (payloadBits payload)) = none) :
      Message env m talker own payload (.ok .incomplete)
        (m.setStatic (mmsiOf (payloadBits payload)) (some (own, payloadBits payload)))
  | second (own' : Bool) (bits' : List Bool) (h : IsStaticPart env payload)
      (hm : m.static (mmsiOf (payloadBits payload)) = some (own', bits')) :
      Message env m talker own payload
        (.ok (.vesselStaticData (overlay (partData own (payloadBits payload)) (partData own' bits'))))
        (m.setStatic (mmsiOf (payloadBits payload)) none)

/-- The sentence uses the memory: an unfragmented AIS message, part 1 or 2 of two, or a GSV sentence. -/
def UsesMemory (s : Str) : Prop :=
  (∃ talker own payload, Single talker own payload s) ∨
  (∃ talker own num id chan payload, Part talker own num id chan payload s ∧ (num = 1 ∨ num = 2)) ∨
  (∃ talker n k fs, GsvPart talker n k fs s)

/-- One sentence: answer and memory afterwards. -/
inductive Step (env : Env) (m : Memory) (s : Str) : Answer → Memory → Prop where
  /-- an unfragmented message is complete -/
  | single {talker own payload a m'} (h : Single talker own payload s)
      (hm : Message env m talker own payload a m') : Step env m s a m'
  /-- a part without its other part is remembered; it replaces an earlier copy of itself -/
  | waits {talker own num id chan payload} (h : Part talker own num id chan payload s) (hn : num = 1 ∨ num = 2)
      (hw : ∀ x, m.part own id chan ≠ some (3 - num, x)) :
      Step env m s (.ok .incomplete) (m.setPart own id chan (some (num, payload)))
  /-- part 1 with part 2 remembered: complete, part 2 is forgotten -/
  | first {talker own id chan x y a m'} (h : Part talker own 1 id chan x s)
      (hw : m.part own id chan = some (2, y))
      (hm : Message env (m.setPart own id chan none) talker own (x ++ y) a m') : Step env m s a m'
  /-- part 2 with part 1 remembered: complete, part 1 is forgotten -/
  | second {talker own id chan x y a m'} (h : Part talker own 2 id chan y s)
      (hw : m.part own id chan = some (1, x))
      (hm : Message env (m.setPart own id chan none) talker own (x ++ y) a m') : Step env m s a m'
  /-- a GSV sentence while another one of 1..n is missing is remembered -/
  | gsvWaits {talker n k fs} (h : GsvPart talker n k fs s) (hn : n < 2 ^ 32 - 1)
      (hw : ∃ j, 1 ≤ j ∧ j ≤ n ∧ j ≠ k ∧ m.gsv talker n j = none) :
      Step env m s (.ok .incomplete) (m.setGsv talker n k fs)
  /-- the GSV sentence that brings the last one of 1..n: all satellites in order, the group is forgotten -/
  | gsvDone {talker n k fs} (h : GsvPart talker n k fs s) (hn : n < 2 ^ 32 - 1)
      (hw : ∀ j, 1 ≤ j → j ≤ n → j ≠ k → m.gsv talker n j ≠ none) :
      Step env m s
        (.ok (.gsv ((List.range' 1 n).flatMap fun j =>
          satellites (talkerSystem talker) (((m.setGsv talker n k fs).gsv talker n j).getD []))))
        ((m.setGsv talker n k fs).clearGsv talker n)
  /-- a GSV sentence with the largest count is remembered (and panics with overflow checks) -/
  | gsvHuge {talker k fs} (h : GsvPart talker (2 ^ 32 - 1) k fs s) :
      Step env m s (if env.overflowChecks then .panic else .ok .incomplete) (m.setGsv talker (2 ^ 32 - 1) k fs)
  /-- every other sentence is answered as if it stood alone -/
  | other (h : ¬ UsesMemory s) : Step env m s (alone env s) m

/-- The answers to a history, from one memory to another. -/
inductive Trace : Memory → List (Env × Str) → List Answer → Memory → Prop where
  | nil (m : Memory) : Trace m [] [] m
  | cons {m m' m'' env s h a as} (h1 : Step env m s a m') (h2 : Trace m' h as m'') :
      Trace m ((env, s) :: h) (a :: as) m''

/-- The answers of the parser to a history. -/
def answers (p : Parser) : List (Env × Str) → List Answer
  | [] => []
  | (env, s) :: h => (parseSentence env p s).1 :: answers (parseSentence env p s).2 h

open Classical in
/-- The answers of the parser to those sentences of a history that satisfy `P`. -/
noncomputable def answersTo (P : Str → Prop) (p : Parser) : List (Env × Str) → List Answer
  | [] => []
  | (env, s) :: h =>
    if P s then (parseSentence env p s).1 :: answersTo P (parseSentence env p s).2 h
    else answersTo P (parseSentence env p s).2 h

open Classical in
/-- Those sentences of a history that satisfy `P`. -/
noncomputable def only (P : Str → Prop) (h : List (Env × Str)) : List (Env × Str) := h.filter fun x => decide (P x.2)

/-- The sentence starts with `!` (AIS). -/
def Bang (s : Str) : Prop := ∃ t, s = '!' :: t

/-- The sentence is a GSV sentence of this talker. -/
def GsvOf (talker : Str) (s : Str) : Prop := ∃ n k fs, GsvPart talker n k fs s

/-- The sentence is a GSV sentence of this talker and count. -/
def GsvOfGroup (talker : Str) (n : Nat) (s : Str) : Prop := ∃ k fs, GsvPart talker n k fs s

end Nmea.Spec
