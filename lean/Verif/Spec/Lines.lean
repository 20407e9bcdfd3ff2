/-
Specification of searching logs of `{:#?}` line by line.
-/
import Verif.Spec.Search
import Verif.Model.Pretty

namespace Nmea.Spec

/-- The text `x` is one of the lines of the text `t`. -/
def IsLine (x t : Str) : Prop := '\n' ∉ x ∧ ('\n' :: x ++ ['\n']) <:+: ('\n' :: t ++ ['\n'])

instance (x t) : Decidable (IsLine x t) := by unfold IsLine; infer_instance

/-- The lines of a text. -/
def cutLines : Str → List Str
  | [] => [[]]
  | c :: cs => if c = '\n' then [] :: cutLines cs else (c :: (cutLines cs).headD []) :: (cutLines cs).tail

/-- The line for a field with a value in the text of an answer. -/
def fieldLine (name value : Str) : Str := c! "            " ++ name ++ c! ": " ++ value ++ c! ","

/-- The line before a value that is present. -/
def openLine (name : Str) : Str := c! "            " ++ name ++ c! ": Some("

/-- The line with a value that is present. -/
def valueLine (value : Str) : Str := c! "                " ++ value ++ c! ","

/-- The log of the answers to some sentences, printed with `{:#?}` each; nothing is printed after a panic. -/
def prettyLog (l : Library) (as : List (Out ParseError ParsedSentence)) : Str :=
  (as.filterMap (prettyAnswer l)).flatMap (· ++ ['\n'])

/-- A report that could have a position, but has no latitude. -/
def lacksLatitude : ParsedSentence → Bool
  | .vesselDynamicData d => d.latitude.isNone
  | .baseStationReport d => d.latitude.isNone
  | .standardSarAircraftPositionReport d => d.latitude.isNone
  | .aidToNavigationReport d => d.latitude.isNone
  | .gga d => d.latitude.isNone
  | .rmc d => d.latitude.isNone
  | .gll d => d.latitude.isNone
  | _ => false

end Nmea.Spec
