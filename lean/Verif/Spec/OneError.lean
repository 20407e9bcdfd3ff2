/-
Specification for sentences of which one character arrives wrong, is lost or is added.
-/
import Verif.Spec.Gnss
import Verif.Spec.Machine

namespace Nmea.Spec

/-- A character of one byte without its highest bit, other than NUL. -/
def OneByte (c : Char) : Prop := 0 < c.toNat ∧ c.toNat < 128

/-- Exactly one character of the text is falsified, lost or added. -/
inductive OneError : Str → Str → Prop where
  | falsified (x y : Str) (c c' : Char) (h : OneByte c') (hn : c' ≠ c) : OneError (x ++ c :: y) (x ++ c' :: y)
  | lost (x y : Str) (c : Char) : OneError (x ++ c :: y) (x ++ y)
  | added (x y : Str) (c : Char) (h : OneByte c) : OneError (x ++ y) (x ++ c :: y)

/-- The first character, or something about the `*`: what a body with its checksum can become by one such error if it is
not to be noticed. -/
inductive Unnoticed (body : Str) : Str → Prop where
  /-- the first character is falsified -/
  | first (c : Char) (hc : OneByte c) (h : body.head? ≠ some c) : Unnoticed body (c :: body.tail ++ '*' :: checksumText body)
  /-- the `*` is falsified -/
  | star (c : Char) (h : c ≠ '*') : Unnoticed body (body ++ c :: checksumText body)
  /-- the `*` is lost -/
  | lost : Unnoticed body (body ++ checksumText body)
  /-- the last digit becomes a `*` -/
  | digit : Unnoticed body (body ++ '*' :: (checksumText body).take 1 ++ ['*'])
  /-- a `*` is added at the end -/
  | added : Unnoticed body (body ++ '*' :: checksumText body ++ ['*'])

/-- The last field is not used: an AIS sentence with fill bits, or a GNSS sentence with more fields than are used. -/
def SpareLast (lead : Char) (kind : Str) (fs : List Str) : Prop :=
  (lead = '!' ∧ (kind = c! "VDM" ∨ kind = c! "VDO") ∧ 5 < fs.length) ∨
    (lead = '$' ∧ ∃ n, usedFields kind = some n ∧ n < fs.length)

/-- A sentence of such characters with its checksum whose last field is not used. -/
def Protected (s : Str) : Prop :=
  ∃ lead talker kind fs, (∀ c ∈ join (tag lead talker kind) fs, OneByte c ∧ c ≠ '*') ∧ Talker talker ∧ CommaFree fs ∧
    SpareLast lead kind fs ∧ s = finish (join (tag lead talker kind) fs) .full

/-- A history, and what arrives of it: each sentence as sent, or with one error. -/
inductive Damaged : List (Env × Str) → List (Env × Str) → Prop where
  | done : Damaged [] []
  | intact (x : Env × Str) {h h' : List (Env × Str)} (hd : Damaged h h') : Damaged (x :: h) (x :: h')
  | hit (env : Env) {s s' : Str} {h h' : List (Env × Str)} (hp : Protected s) (he : OneError s s') (hd : Damaged h h') :
      Damaged ((env, s) :: h) ((env, s') :: h')

/-- The reports among the answers. -/
def reported : List Answer → List ParsedSentence
  | [] => []
  | .ok r :: l => r :: reported l
  | _ :: l => reported l

end Nmea.Spec
