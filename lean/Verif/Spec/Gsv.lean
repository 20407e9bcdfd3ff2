/-
Specification of GSV sentences (satellites in view): contents of one sentence, and groups of sentences.
-/
import Verif.Spec.History
import Verif.Spec.Tables

namespace Nmea.Spec

/-- Without a leading `+`. -/
def dropPlus (s : Str) : Str := if s.head? = some '+' then s.tail else s

/-- Value of a decimal text (an optional `+` and digits) of at most `max`; `none` for every other text. -/
def readDec (max : Nat) (s : Str) : Option Nat :=
  if dropPlus s ≠ [] ∧ (∀ c ∈ dropPlus s, c ∈ c! "0123456789") ∧ decValue (dropPlus s) ≤ max then
    some (decValue (dropPlus s))
  else none

/-- Satellite number `j` (0..3) of a GSV sentence: four fields from field `3 + 4 j` on. It is present when the
first one is a number; each of the others is a number or absent. -/
def satellite (nav : NavigationSystem) (fs : List Str) (j : Nat) : Option GsvData :=
  (readDec 255 (field fs (3 + 4 * j))).map fun prn =>
    { source := nav
      prnNumber := prn
      elevation := readDec 255 (field fs (4 + 4 * j))
      azimuth := readDec 65535 (field fs (5 + 4 * j))
      snr := readDec 255 (field fs (6 + 4 * j)) }

/-- The satellites of a GSV sentence. -/
def satellites (nav : NavigationSystem) (fs : List Str) : List GsvData :=
  [0, 1, 2, 3].filterMap (satellite nav fs)

/-- The sentences of the group (talker, count) in a history: their numbers and fields, in order. -/
inductive GroupTrace (talker : Str) (n : Nat) : List (Env × Str) → List (Nat × List Str) → Prop where
  | nil : GroupTrace talker n [] []
  | part {e s k fs h l} (hs : GsvPart talker n k fs s) (ht : GroupTrace talker n h l) :
      GroupTrace talker n ((e, s) :: h) ((k, fs) :: l)
  | other {e s h l} (hs : ∀ k fs, ¬ GsvPart talker n k fs s) (ht : GroupTrace talker n h l) :
      GroupTrace talker n ((e, s) :: h) l

/-- The fields received last under number `k`. -/
def latest (l : List (Nat × List Str)) (k : Nat) : Option (List Str) := l.reverse.lookup k

/-- The group's number `k` has been received. -/
def Received (l : List (Nat × List Str)) (k : Nat) : Prop := k ∈ l.map (·.1)

/-- The satellites of a complete group: those of sentence 1, then those of sentence 2, ... -/
def groupSatellites (nav : NavigationSystem) (n : Nat) (l : List (Nat × List Str)) : List GsvData :=
  (List.range' 1 n).flatMap (fun k => satellites nav ((latest l k).getD []))

/-- No sentence 1..n of the group is pending. -/
def NonePending (p : Parser) (talker : Str) (n : Nat) : Prop :=
  ∀ k, 1 ≤ k → k ≤ n → pendingGsv p talker n k = none

end Nmea.Spec
