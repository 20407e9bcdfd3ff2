/-
Specification of the error texts.
-/
import Verif.Spec.Gnss

namespace Nmea.Spec

/-- The `$` sentence kinds that are answered as unimplemented instead of unsupported. -/
def announcedKinds : List Str :=
  [c! "ALM", c! "HDT", c! "TRF", c! "STN", c! "VBW", c! "XTC", c! "XTE", c! "ZDA", c! "BOD", c! "RMA"]

/-- The text that refuses a `$` sentence of an unsupported kind. -/
def refuseKind (kind : Str) : Str :=
  if kind ∈ announcedKinds then c! "Unimplemented NMEA sentence: $" ++ kind
  else c! "Unsupported sentence type: $" ++ kind

/-- `m` is the text of the first condition in the list that does not hold. -/
def FirstFault (l : List (Prop × Str)) (m : Str) : Prop :=
  ∃ before holds after, l = before ++ (holds, m) :: after ∧ (∀ x ∈ before, x.1) ∧ ¬ holds

/-- Field `i` (the tag not counted) is absent or an integer of at most `max`; the text gives its position (the tag being
number 0) and quotes it. -/
def intFault (max : Nat) (fs : List Str) (i : Nat) : Prop × Str :=
  (∃ x, IntField max (field fs i) x, c! "Failed to parse field " ++ natStr (i + 1) ++ c! ": " ++ field fs i)

/-- Field `i` is absent or a number. -/
def numFault (fs : List Str) (i : Nat) : Prop × Str :=
  (∃ x, NumField (field fs i) x, c! "Failed to parse field " ++ natStr (i + 1) ++ c! ": " ++ field fs i)

/-- Field `i` and the following one are a latitude. -/
def latFault (fs : List Str) (i : Nat) : Prop × Str :=
  (∃ x, LatField (field fs i) (field fs (i + 1)) x, c! "Failed to parse latitude (DDMM.MMM) from " ++ field fs i)

/-- Field `i` and the following one are a longitude. -/
def lonFault (fs : List Str) (i : Nat) : Prop × Str :=
  (∃ x, LonField (field fs i) (field fs (i + 1)) x, c! "Failed to parse longitude (DDDMM.MMM) from " ++ field fs i)

/-- What a sentence of the kind must fulfil to be accepted, in the order of its fields, and the text of the error if it does
not. -/
def faults (fs : List Str) : List (Str × List (Prop × Str)) :=
  [(c! "GGA", [latFault fs 1, lonFault fs 3, intFault 255 fs 5, intFault 255 fs 6, numFault fs 7, numFault fs 8,
      numFault fs 10, numFault fs 12, intFault 65535 fs 13]),
    (c! "RMC", [(∃ x, LetterField statusTable (field fs 1) x, c! "Invalid RMC navigation receiver status: " ++ field fs 1),
      latFault fs 2, lonFault fs 4, numFault fs 6, numFault fs 7, numFault fs 9,
      (field fs 9 = [] ∨ field fs 10 = c! "E" ∨ field fs 10 = c! "W", c! "Invalid RMC variation side: " ++ field fs 10)]),
    (c! "GSA", [(∃ x, LetterField modeTable (field fs 0) x, c! "Invalid GPGSA mode: " ++ field fs 0),
      (∃ x, LetterField fixTypes (field fs 1) x, c! "Invalid GPGSA fix type: " ++ field fs 1)] ++
      (List.range' 2 12).map (intFault 255 fs) ++ [numFault fs 14, numFault fs 15, numFault fs 16]),
    (c! "GSV", [intFault (2 ^ 32 - 1) fs 0, intFault (2 ^ 32 - 1) fs 1]),
    (c! "VTG", []),
    (c! "GLL", [latFault fs 0, lonFault fs 2])]

/-- A text of printable ASCII characters without quotation marks, apostrophes and backslashes. -/
def Plain (s : Str) : Prop := ∀ c ∈ s, ' ' ≤ c ∧ c ≤ '~' ∧ c ≠ '"' ∧ c ≠ '\'' ∧ c ≠ '\\'

instance (s : Str) : Decidable (Plain s) := by unfold Plain; infer_instance

/-- The number that lower-case hexadecimal digits say. -/
def hexNumber (ds : Str) : Nat :=
  ds.foldl (fun n c => 16 * n + (if '0' ≤ c ∧ c ≤ '9' then c.toNat - 48 else c.toNat - 87)) 0

/-- What stands between the quotation marks of a string literal, and the text it means: characters for themselves,
`\"`, `\\`, `\t`, `\r`, `\n`, and `\u{...}` with the hexadecimal code of the character. -/
inductive Literal : Str → Str → Prop where
  | nil : Literal [] []
  | plain (c : Char) {l s : Str} (h : c ≠ '"' ∧ c ≠ '\\') : Literal l s → Literal (c :: l) (c :: s)
  | short (x c : Char) {l s : Str} (h : (x, c) ∈ [('"', '"'), ('\\', '\\'), ('t', '\t'), ('r', '\r'), ('n', '\n')]) :
      Literal l s → Literal ('\\' :: x :: l) (c :: s)
  | code (ds : Str) (c : Char) {l s : Str} (h : ∀ d ∈ ds, d ≠ '}') (hc : hexNumber ds = c.toNat) :
      Literal l s → Literal (c! "\\u{" ++ ds ++ '}' :: l) (c :: s)

/-- A text of ASCII characters without NUL and the apostrophe. -/
def Ascii (s : Str) : Prop := ∀ c ∈ s, 0 < c.toNat ∧ c.toNat < 128 ∧ c ≠ '\''

instance (s : Str) : Decidable (Ascii s) := by unfold Ascii; infer_instance

end Nmea.Spec
