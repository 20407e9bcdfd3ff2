/-
Specification of GSV sentences since NMEA 4.10: the satellites of a group are those of one signal, whose number stands in
one more field at the end of each sentence.
-/
import Verif.Spec.Traffic

namespace Nmea.Spec

/-- The fields of sentence `k` of `n`, with the signal id. -/
def signalFields (n k total : Nat) (row : List InView) (signal : Str) : List Str := viewFields n k total row ++ [signal]

/-- The sentences of a group, one for each row of satellites. -/
def signalSentences (talker : Str) (rows : List (List InView)) (signal : Str) : List Str :=
  (rows.zipIdx 1).map fun x =>
    gnssSentence talker (c! "GSV") (signalFields rows.length x.2 rows.flatten.length x.1 signal)

/-- The satellite that the signal id is taken for. -/
def phantom (nav : NavigationSystem) (signal : Str) : List GsvData :=
  (readDec 255 signal).toList.map fun n => ⟨nav, n, none, none, none⟩

/-- What is reported of a row. -/
def rowReport (nav : NavigationSystem) (signal : Str) (row : List InView) : List GsvData :=
  row.map (InView.data nav) ++ if row.length < 4 then phantom nav signal else []

/-- Groups of GSV sentences sent one after another, each of one signal: signal of group `c`, satellites of row `j` of group `c`,
and the clock at the reception of its sentence. -/
structure SignalGroups where
  signal : Nat → Str
  row : Nat → Nat → List InView
  env : Nat → Nat → Env

/-- Fields of sentence `j` of group `c`, all groups having `n` sentences. -/
def SignalGroups.fields (g : SignalGroups) (n c j : Nat) : List Str :=
  signalFields n j ((List.range' 1 n).flatMap (g.row c)).length (g.row c j) (g.signal c)

/-- Sentence `j` of group `c`. -/
def SignalGroups.sentence (g : SignalGroups) (talker : Str) (n c j : Nat) : Env × Str :=
  (g.env c j, gnssSentence talker (c! "GSV") (g.fields n c j))

/-- Each row has up to four satellites, and the signals are texts without comma. -/
def SignalGroups.Fits (g : SignalGroups) : Prop :=
  ∀ c, ',' ∉ g.signal c ∧ ∀ j, (g.row c j).length ≤ 4 ∧ ∀ v ∈ g.row c j, v.Fits

/-- Answers to one group received in full while nothing was waiting. -/
def SignalGroups.answers (g : SignalGroups) (nav : NavigationSystem) (n c : Nat) : List (Out ParseError ParsedSentence) :=
  List.replicate (n - 1) (.ok .incomplete) ++
    [.ok (.gsv ((List.range' 1 n).flatMap fun j => rowReport nav (g.signal c) (g.row c j)))]

/-- Answers to group `c` if the sentences after `k` of the group before are waiting: at sentence `k` these are reported together
with the sentences up to `k` of this group. -/
def SignalGroups.mixedAnswers (g : SignalGroups) (nav : NavigationSystem) (n k c : Nat) : List (Out ParseError ParsedSentence) :=
  List.replicate (k - 1) (.ok .incomplete) ++
    [.ok (.gsv (((List.range' 1 k).flatMap fun j => rowReport nav (g.signal c) (g.row c j)) ++
      (List.range' (k + 1) (n - k)).flatMap fun j => rowReport nav (g.signal (c - 1)) (g.row (c - 1) j)))] ++
    List.replicate (n - k) (.ok .incomplete)

end Nmea.Spec
