/-
A semantics of regular expressions as documented for the `regex` crate: leftmost match, preferring the first
alternative of a backtracking search, `+` greedy, capture groups numbered by their opening parentheses. Only what
the patterns of the crate use: characters, escaped characters, one-range classes, `^`, groups and `+`.
-/
import Verif.Model.Basic

namespace Nmea.Spec

/-- Regular expressions. -/
inductive Re where
  | range (lo hi : Char)
  | start
  | empty
  | seq (a b : Re)
  | plus (r : Re)
  | group (i : Nat) (r : Re)
  deriving DecidableEq, Repr

/-- A position in a text (before, after) and the groups captured so far. -/
structure Pos where
  before : Str
  after : Str
  caps : List (Nat × Str)
  deriving DecidableEq, Repr

/-- One or more matches of a step, the longest chain first; `n` bounds the number of repetitions. -/
def plusSteps (step : Pos → List Pos) : Nat → Pos → List Pos
  | 0, _ => []
  | n + 1, x => (step x).flatMap fun y => (if y.after.length < x.after.length then plusSteps step n y else []) ++ [y]

/-- The ways in which a regular expression matches at a position, the preferred one first. -/
def Re.steps : Re → Pos → List Pos
  | .range lo hi, x =>
    match x.after with
    | [] => []
    | c :: t => if lo ≤ c ∧ c ≤ hi then [{ x with before := x.before ++ [c], after := t }] else []
  | .start, x => if x.before = [] then [x] else []
  | .empty, x => [x]
  | .seq a b, x => (a.steps x).flatMap b.steps
  | .plus r, x => plusSteps r.steps (x.after.length + 1) x
  | .group i r, x => (r.steps x).map fun y => { y with caps := (i, y.before.drop x.before.length) :: y.caps }

/-- The preferred match at the leftmost position where there is one: the captured groups. -/
def Re.captures (r : Re) (s : Str) : Option (List (Nat × Str)) :=
  (((List.range (s.length + 1)).flatMap fun i => r.steps ⟨s.take i, s.drop i, []⟩).head?).map (·.caps)

/-- Reading the text of a pattern: `open` holds the groups begun (number and what stood before), `cur` the items of
the current sequence (last first), `n` the number of the next group. -/
def Re.readFrom (opened : List (Nat × List Re)) (cur : List Re) (n : Nat) : Str → Option Re
  | [] => if opened = [] then some (cur.foldl (fun r a => .seq a r) .empty) else none
  | '[' :: lo :: '-' :: hi :: ']' :: t => readFrom opened (.range lo hi :: cur) n t
  | '\\' :: c :: t => readFrom opened (.range c c :: cur) n t
  | '(' :: t => readFrom ((n, cur) :: opened) [] (n + 1) t
  | ')' :: t =>
    match opened with
    | [] => none
    | (i, before) :: opened => readFrom opened (.group i (cur.foldl (fun r a => .seq a r) .empty) :: before) n t
  | '+' :: t =>
    match cur with
    | [] => none
    | a :: cur => readFrom opened (.plus a :: cur) n t
  | '^' :: t => readFrom opened (.start :: cur) n t
  | c :: t => readFrom opened (.range c c :: cur) n t

/-- The regular expression of a pattern text. -/
def Re.read (s : Str) : Option Re := Re.readFrom [] [] 1 s

end Nmea.Spec
