/-
The script that generates the country table: forms of the lines of its two tables, and what is to be printed for them.
-/
import Verif.Model.Basic

namespace Nmea.Spec

/-- Blanks and tabs (and the other ASCII white space). -/
def Blanks (s : Str) : Prop := ∀ c ∈ s, c ∈ [' ', '\t', '\n', '\r', Char.ofNat 11, Char.ofNat 12]

/-- Capital letters. -/
def Capitals (s : Str) : Prop := ∀ c ∈ s, 'A' ≤ c ∧ c ≤ 'Z'

/-- Figures. -/
def Figures (s : Str) : Prop := ∀ c ∈ s, '0' ≤ c ∧ c ≤ '9'

/-- What follows the name in a line of the ISO 3166 table: two-letter code, three-letter code, number. -/
def IsoCodes (code s : Str) : Prop :=
  ∃ b1 b2 three b3 number b4, s = b1 ++ code ++ b2 ++ three ++ b3 ++ number ++ b4 ∧
    Blanks b1 ∧ b1 ≠ [] ∧ Capitals code ∧ code.length = 2 ∧ Blanks b2 ∧ b2 ≠ [] ∧ Capitals three ∧ three.length = 3 ∧
    Blanks b3 ∧ b3 ≠ [] ∧ Figures number ∧ number ≠ [] ∧ Blanks b4

/-- A line of the ISO 3166 table: the shortest name that is followed by codes. -/
def IsoLine (name code l : Str) : Prop :=
  ∃ t, l = name ++ t ∧ IsoCodes code t ∧
    ∀ name' t' code', l = name' ++ t' → name'.length < name.length → ¬ IsoCodes code' t'

/-- The last line of the table with this name has this code. -/
def LastIso (iso : List Str) (name code : Str) : Prop :=
  ∃ pre l post, iso = pre ++ l :: post ∧ IsoLine name code l ∧ ∀ l' ∈ post, ∀ code', ¬ IsoLine name code' l'

/-- An arm of the `match`: the digits are answered with the code. -/
def armText (digits code name : Str) : Str :=
  c! "            " ++ digits ++ c! " => Some(\"" ++ code ++ c! "\"), // " ++ name

/-- The arms for a list of digits, codes and names: when the digits are those of the entry before, the arm is commented out. -/
def armTexts : Option Str → List (Str × Str × Str) → List Str
  | _, [] => []
  | before, (digits, code, name) :: es =>
    (if before = some digits then c! "//" ++ armText digits code name else armText digits code name) ::
      armTexts (some digits) es

/-- A line of the table of digits. -/
def MidLine (digits name l : Str) : Prop :=
  ∃ b, l = digits ++ b ++ name ∧ Figures digits ∧ digits.length = 3 ∧ Blanks b ∧ b ≠ [] ∧
    ∀ c ∈ name.head?, c ∉ [' ', '\t', '\n', '\r', Char.ofNat 11, Char.ofNat 12]

/-- What is printed for the lines of any table of digits, with any country table. The first argument are the digits before. -/
inductive Printed (iso : List Str) : Option Str → List Str → List Str → Prop where
  | done (before : Option Str) : Printed iso before [] []
  /-- lines of another form are passed over -/
  | skip {before l ls r} (h : ∀ digits name, ¬ MidLine digits name l) (hr : Printed iso before ls r) :
      Printed iso before (l :: ls) r
  | arm {before l ls r digits name code} (h : MidLine digits name l) (hc : LastIso iso name code)
      (hn : before ≠ some digits) (hr : Printed iso (some digits) ls r) :
      Printed iso before (l :: ls) (armText digits code name :: r)
  /-- the digits of the arm before: commented out -/
  | again {l ls r digits name code} (h : MidLine digits name l) (hc : LastIso iso name code)
      (hr : Printed iso (some digits) ls r) :
      Printed iso (some digits) (l :: ls) ((c! "//" ++ armText digits code name) :: r)
  /-- a country that is not in the table ends it -/
  | unknown {before l ls digits name} (h : MidLine digits name l) (hc : ∀ code, ¬ LastIso iso name code) :
      Printed iso before (l :: ls) [c! "Unmatching country: " ++ name]

open Classical in
/-- What is printed for the lines of the country table: those that have another form, except for empty ones. -/
noncomputable def complaints (iso : List Str) : List Str :=
  (iso.filter fun l => decide (l ≠ [] ∧ ∀ name code, ¬ IsoLine name code l)).map fun l => c! "Failed to parse: " ++ l

/-- The digits of an arm that is not commented out. -/
def activeDigits (l : Str) : Option Str := if l.take 12 = c! "            " then some ((l.drop 12).take 3) else none

/-- Equal entries stand next to each other. -/
def Adjacent (l : List Str) : Prop := ∀ a b c x, l = a ++ x :: b ++ x :: c → ∀ y ∈ b, y = x

/-- Replacing a text in a line: from left to right, without overlap. -/
inductive Replaced (old new : Str) : Str → Str → Prop where
  /-- It does not occur. -/
  | none (s : Str) (h : ∀ a b, s ≠ a ++ old ++ b) : Replaced old new s s
  /-- Its first occurrence is replaced; what follows is treated in the same way. -/
  | first (a b r : Str) (h : ∀ a' b', a ++ old ++ b = a' ++ old ++ b' → a.length ≤ a'.length) (hr : Replaced old new b r) :
      Replaced old new (a ++ old ++ b) (a ++ new ++ r)

/-- Removing from a line what stands in brackets, with a blank before them. -/
inductive Unbracketed : Str → Str → Prop where
  | none (s : Str) (h : ∀ a x b, s ≠ a ++ c! " (" ++ x ++ ')' :: b) : Unbracketed s s
  /-- The first opening bracket that is closed, up to the first closing one. -/
  | first (a x b r : Str) (h : ∀ a' x' b', a ++ c! " (" ++ x ++ ')' :: b = a' ++ c! " (" ++ x' ++ ')' :: b' → a.length ≤ a'.length)
      (hx : ')' ∉ x) (hr : Unbracketed b r) : Unbracketed (a ++ c! " (" ++ x ++ ')' :: b) (a ++ r)

end Nmea.Spec
