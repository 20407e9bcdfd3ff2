/-
Specification for GSV groups of which every sentence is received twice.
-/
import Verif.Spec.Streams

namespace Nmea.Spec

/-- Cycle `c` of a GSV group of `n` sentences, in order and every sentence twice; `g c j` is sentence `j` of the cycle. -/
def cycleTwice (g : Nat → Nat → GsvIn) (n c : Nat) : List GsvIn := (List.range' 1 n).flatMap fun j => [g c j, g c j]

/-- Report of the sentences up to `m` of cycle `c` and those after `m` of the cycle before. -/
def staleView (nav : NavigationSystem) (g : Nat → Nat → GsvIn) (n c m : Nat) : Answer :=
  .ok (.gsv ((List.range' 1 n).flatMap fun i => satellites nav (g (if i ≤ m then c else c - 1) i).fields))

/-- Answers to cycle `c`, two for each sentence, while the sentences after `m` of the cycle before are kept: sentence `m` is
answered with a report, and for `m = 1` the last sentence, too, with that of the cycle itself. -/
def twiceAnswers (nav : NavigationSystem) (g : Nat → Nat → GsvIn) (n c m : Nat) : List Answer :=
  (List.range' 1 n).flatMap fun j =>
    [if j = m then staleView nav g n c m else if m = 1 ∧ j = n then staleView nav g n c n else .ok .incomplete, .ok .incomplete]

/-- Answers to `r` cycles from cycle `c` on: from cycle to cycle one more sentence is kept, until only the first is not; then
it begins again with the last. -/
def allTwice (nav : NavigationSystem) (g : Nat → Nat → GsvIn) (n : Nat) : Nat → Nat → Nat → List Answer
  | 0, _, _ => []
  | r + 1, c, m => twiceAnswers nav g n c m ++ allTwice nav g n r (c + 1) (if m = 1 then n - 1 else m - 1)

end Nmea.Spec
