/-
Specification: the type 24 messages that a parser hears of a vessel, in one sentence or in two parts.
-/
import Verif.Spec.Machine
import Verif.Spec.Loss

namespace Nmea.Spec

/-- Parsing `s` in state `p` completes part A or part B of the type 24 message of this vessel. -/
def Hears24 (mmsi : Nat) (env : Env) (p : Parser) (s : Str) (own : Bool) (bits : List Bool) : Prop :=
  Completes24 env p s own bits ∧ partOf bits < 2 ∧ mmsiOf bits = mmsi

/-- Of the history `h`, received in state `p`, the type 24 messages of the vessel (own-vessel flag and bits), and the answers
to the sentences that complete them. -/
inductive Heard24 (mmsi : Nat) : Parser → List (Env × Str) → List (Bool × List Bool) → List Answer → Prop where
  | nil (p : Parser) : Heard24 mmsi p [] [] []
  | hit {p : Parser} {env : Env} {s : Str} {h l as} (own : Bool) (bits : List Bool)
      (hx : Hears24 mmsi env p s own bits) (hh : Heard24 mmsi (parseSentence env p s).2 h l as) :
      Heard24 mmsi p ((env, s) :: h) ((own, bits) :: l) ((parseSentence env p s).1 :: as)
  | miss {p : Parser} {env : Env} {s : Str} {h l as} (hx : ¬ ∃ own bits, Hears24 mmsi env p s own bits)
      (hh : Heard24 mmsi (parseSentence env p s).2 h l as) : Heard24 mmsi p ((env, s) :: h) l as

/-- Answers to type 24 messages of a vessel while `w` waits: every second message is answered with the two together. -/
def pairAnswers : Option VesselStaticData → List (Bool × List Bool) → List Answer
  | _, [] => []
  | none, x :: l => .ok .incomplete :: pairAnswers (some (partData x.1 x.2)) l
  | some d, x :: l => .ok (.vesselStaticData (overlay (partData x.1 x.2) d)) :: pairAnswers none l

/-- A list of pairs, flat. -/
def flatPairs {α : Type} : List (α × α) → List α
  | [] => []
  | (a, b) :: l => a :: b :: flatPairs l

/-- Answers to pairs of part A and part B: each part B is answered with the report of the pair. -/
def ownPairs : List ((Bool × List Bool) × (Bool × List Bool)) → List Answer
  | [] => []
  | (a, b) :: l => .ok .incomplete :: .ok (.vesselStaticData (fullStatic b.1 a.2 b.2)) :: ownPairs l

/-- Answers to pairs of part A and part B while the part B `y` waits: each part A is answered with a report of it and the
part B before. -/
def shiftedPairs : List Bool → List ((Bool × List Bool) × (Bool × List Bool)) → List Answer
  | _, [] => []
  | y, (a, b) :: l => .ok (.vesselStaticData (fullStatic a.1 a.2 y)) :: .ok .incomplete :: shiftedPairs b.2 l

end Nmea.Spec
