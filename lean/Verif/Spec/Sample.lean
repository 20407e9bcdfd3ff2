/-
Specification of the sample program of the README: what it prints for messages and readings.
-/
import Verif.Model.Sample
import Verif.Spec.Shortest
import Verif.Spec.Doubles
import Verif.Spec.Machine

namespace Nmea.Spec

/-- What is assumed of the texts that the standard library gives for doubles. -/
structure FmtOk (f : Fmt) : Prop where
  fixed : ∀ k x, IsDouble x → Prints k x (f.fixed k x)
  plain : ∀ x, IsDouble x → Displays x (f.plain x)

/-- Lines of text. -/
def linesText (ls : List Str) : Str := (ls.map (· ++ ['\n'])).flatten

/-- `YYYY-MM-DD HH:MM:SS UTC`. -/
def momentText (year month day h m s : Nat) : Str :=
  pad 4 year ++ c! "-" ++ pad 2 month ++ c! "-" ++ pad 2 day ++ c! " " ++ pad 2 h ++ c! ":" ++ pad 2 m ++ c! ":" ++
    pad 2 s ++ c! " UTC"

/-- The values that the sample program needs are there. -/
def Printable : ParsedSentence → Prop
  | .vesselDynamicData d => d.sogKnots ≠ none ∧ d.headingTrue ≠ none
  | .vesselStaticData d => d.country ≠ none ∧ d.name ≠ none
  | .gga d => d.latitude ≠ none ∧ d.longitude ≠ none
  | .rmc d => d.sogKnots ≠ none ∧ d.bearing ≠ none ∧ d.timestamp ≠ none
  | _ => True

/-- The sample program prints nothing for these. -/
def Quiet : ParsedSentence → Prop
  | .vesselDynamicData _ => False
  | .vesselStaticData _ => False
  | .gga _ => False
  | .rmc _ => False
  | _ => True

/-- In state `p` the sentence makes the program print `t` and go on. -/
def GoesOn (f : Fmt) (env : Env) (p : Parser) (s t : Str) : Prop :=
  ∀ rest, sample f p ((env, s) :: rest) =
    (t ++ (sample f (parseSentence env p s).2 rest).1, (sample f (parseSentence env p s).2 rest).2)

/-- In state `p` the sentence makes the program print `t` and end so. -/
def EndsWith (f : Fmt) (env : Env) (p : Parser) (s t : Str) (e : SampleEnd) : Prop :=
  ∀ rest, sample f p ((env, s) :: rest) = (t, e)

end Nmea.Spec
