/-
Specification vocabulary for NMEA 0183 sentences: how a sentence is put together. Nothing here refers to
the parsing functions of the model.
-/
import Verif.Model.Basic

namespace Nmea.Spec

/-- XOR of the low bytes of the characters. -/
def xorBytes : Str → Nat
  | [] => 0
  | c :: cs => (c.toNat % 256) ^^^ xorBytes cs

/-- The upper-case hexadecimal digits. -/
def hexDigits : Str := c! "0123456789ABCDEF"

/-- The checksum text of a sentence body: two upper-case hexadecimal digits of the XOR of all characters
after the first one. -/
def checksumText (body : Str) : Str :=
  [hexDigits.getD (xorBytes body.tail / 16) '?', hexDigits.getD (xorBytes body.tail % 16) '?']

/-- The three ways a body can be ended: nothing, a lone `*`, or `*` and the correct checksum. -/
inductive Ending where
  | bare | star | full
  deriving DecidableEq, Repr

/-- A body with its ending. -/
def finish (body : Str) : Ending → Str
  | .bare => body
  | .star => body ++ ['*']
  | .full => body ++ '*' :: checksumText body

/-- A body may contain `*` only if an ending with `*` follows. -/
def Framed (body : Str) (e : Ending) : Prop := e = .bare → '*' ∉ body

/-- A tag followed by comma-separated fields. -/
def join (tag : Str) (fs : List Str) : Str := tag ++ (fs.map (fun f => ',' :: f)).flatten

/-- None of the fields contains a comma. -/
def CommaFree (fs : List Str) : Prop := ∀ f ∈ fs, ',' ∉ f

/-- A talker id: two bytes, no comma. -/
def Talker (t : Str) : Prop := byteLen t = 2 ∧ ',' ∉ t

/-- A tag: lead character (`$` or `!`), talker and kind. -/
def tag (lead : Char) (talker kind : Str) : Str := lead :: talker ++ kind

/-- Kind of an AIS sentence: `VDM` (other vessels) or `VDO` (own vessel). -/
def aisKind (own : Bool) : Str := if own then c! "VDO" else c! "VDM"

/-- `s` is a sentence with this lead, talker, kind and comma-separated fields. -/
def IsTagged (lead : Char) (talker kind : Str) (fs : List Str) (s : Str) : Prop :=
  Talker talker ∧ CommaFree fs ∧ fs ≠ [] ∧
    ∃ e, Framed (join (tag lead talker kind) fs) e ∧ s = finish (join (tag lead talker kind) fs) e

/-- `s` is an AIS sentence with this talker, own-vessel flag and comma-separated fields. -/
def IsAis (talker : Str) (own : Bool) (fs : List Str) (s : Str) : Prop :=
  IsTagged '!' talker (aisKind own) fs s

/-- `s` is a GNSS sentence with this talker, kind and comma-separated fields. -/
def IsGnss (talker kind : Str) (fs : List Str) (s : Str) : Prop := IsTagged '$' talker kind fs s

/-- The tag cannot be read: it is empty, starts with a multi-byte character, or it starts with `$` or `!`
and has fewer than six bytes or no character boundary after the third byte. -/
def BadTag (ty : Str) : Prop :=
  ty = [] ∨ (∃ c r, ty = c :: r ∧ c.utf8Size ≠ 1) ∨
    (∃ c r, ty = c :: r ∧ (c = '$' ∨ c = '!') ∧
      (byteLen r < 5 ∨ ¬ ∃ a b, r = a ++ b ∧ byteLen a = 2))

/-- The tag is readable but not of the six-byte form: another lead character, or longer than six bytes. -/
def OddTag (ty : Str) : Prop :=
  (∃ c r, ty = c :: r ∧ c.utf8Size = 1 ∧ c ≠ '$' ∧ c ≠ '!') ∨
    (∃ c r, ty = c :: r ∧ (c = '$' ∨ c = '!') ∧ 5 < byteLen r ∧ ∃ a b, r = a ++ b ∧ byteLen a = 2)

/-- Field number `i` (counted from 0 after the tag); empty if missing. -/
def field (fs : List Str) (i : Nat) : Str := fs.getD i []

/-- Value of a digit text. -/
def decValue (ds : Str) : Nat := ds.foldl (fun a c => 10 * a + (c.toNat - '0'.toNat)) 0

/-- A non-empty text of decimal digits. -/
def Digits (ds : Str) : Prop := ds ≠ [] ∧ ∀ c ∈ ds, c ∈ c! "0123456789"

/-- `s` is a decimal text (an optional `+` and digits) of the value `n`, at most `max`. -/
def Dec (max : Nat) (s : Str) (n : Nat) : Prop :=
  ∃ ds, (s = ds ∨ s = '+' :: ds) ∧ Digits ds ∧ decValue ds = n ∧ n ≤ max

end Nmea.Spec
