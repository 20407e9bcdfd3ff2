/-
Specification of the texts of `{:#?}`.
-/
import Verif.Model.Pretty
import Verif.Spec.Debug

namespace Nmea.Spec

/-- Brings a text on one line. Outside of quotation marks: blanks after an opening bracket and after a comma are left out, and so
is a comma before a closing bracket; one blank is written after `{` and other commas, and in place of a comma before `}`.
`m`: 0 outside of quotation marks, 1 inside, 2 after a backslash, 3 after a comma, 4 after an opening bracket. -/
def joinLines : Nat → Str → Str
  | _, [] => []
  | m, c :: cs =>
    if m = 2 then c :: joinLines 1 cs
    else if m = 1 then c :: joinLines (if c = '\\' then 2 else if c = '"' then 0 else 1) cs
    else if m ≠ 0 ∧ (c = ' ' ∨ c = '\n') then joinLines m cs
    else
      (if m = 3 then if c = '}' then c! " " else if c = ')' ∨ c = ']' then [] else c! ", " else []) ++
      if c = ',' then joinLines 3 cs
      else if c = '{' then c! "{ " ++ joinLines 4 cs
      else if c = '(' ∨ c = '[' then c :: joinLines 4 cs
      else if c = '"' then c :: joinLines 1 cs
      else c :: joinLines 0 cs

/-- The text goes on with a closing bracket. -/
def closes : Str → Bool
  | c :: _ => c = ')' ∨ c = ']' ∨ c = '}'
  | [] => false

/-- Each line has four blanks for each bracket, outside of quotation marks, that is open; one that starts with the closing bracket
has four less. `k`: open brackets; `m`: 0 outside of quotation marks, 1 inside, 2 after a backslash. -/
def Indented : Nat → Nat → Str → Prop
  | _, _, [] => True
  | k, m, c :: cs =>
    if m = 2 then Indented k 1 cs
    else if m = 1 then Indented k (if c = '\\' then 2 else if c = '"' then 0 else 1) cs
    else if c = '"' then Indented k 1 cs
    else if c = '(' ∨ c = '[' ∨ c = '{' then Indented (k + 1) 0 cs
    else if c = ')' ∨ c = ']' ∨ c = '}' then Indented (k - 1) 0 cs
    else if c = '\n' then
      (cs.takeWhile (· = ' ')).length = 4 * (if closes (cs.dropWhile (· = ' ')) then k - 1 else k) ∧ Indented k 0 cs
    else Indented k 0 cs

/-- The number of values that a text of `{:#?}` shows on lines of their own. -/
def lineBreaks (t : Str) : Nat := t.count '\n'

end Nmea.Spec
