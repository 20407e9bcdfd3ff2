/-
Concrete values used by the `example`s beside the theorems.
-/
import Verif.Model.Parse
import Verif.Spec.Sentence
import Verif.Spec.Bits
import Verif.Spec.Ais

namespace Nmea.Spec

/-- An environment: a debug build on 2024-02-29 12:30:15 UTC. -/
def demoEnv : Env := ⟨⟨2024, 2, 29, 12, 30, 15⟩, true, fun c => [c]⟩

/-- The same moment in a release build. -/
def demoRelease : Env := ⟨⟨2024, 2, 29, 12, 30, 15⟩, false, fun c => [c]⟩

instance (t : Str) : Decidable (Talker t) := inferInstanceAs (Decidable (_ ∧ _))
instance (fs : List Str) : Decidable (CommaFree fs) := inferInstanceAs (Decidable (∀ f ∈ fs, _))
instance (b : Str) (e : Ending) : Decidable (Framed b e) := inferInstanceAs (Decidable (_ → _))
instance (ds : Str) : Decidable (Digits ds) := inferInstanceAs (Decidable (_ ∧ _))

instance (c : Char) : Decidable (InAlphabet c) := inferInstanceAs (Decidable (_ ∧ _))
instance (n : Nat) (s : Str) : Decidable (PlainText n s) := inferInstanceAs (Decidable (_ ∧ _))

/-- A literal sentence is tagged. -/
theorem demoTagged (e : Ending) {lead : Char} {talker kind : Str} {fs : List Str} {s : Str}
    (h : Talker talker ∧ CommaFree fs ∧ fs ≠ [] ∧ Framed (join (tag lead talker kind) fs) e ∧
      s = finish (join (tag lead talker kind) fs) e) : IsTagged lead talker kind fs s :=
  ⟨h.1, h.2.1, h.2.2.1, e, h.2.2.2⟩

/-- A literal digit text. -/
theorem demoDec {max : Nat} {s : Str} {n : Nat} (h : Digits s ∧ decValue s = n ∧ n ≤ max) : Dec max s n :=
  ⟨s, .inl rfl, h⟩

/-- A call whose result can be computed and is not an error. -/
theorem demoOk {x : Out ParseError ParsedSentence} (h : (match x with | .ok _ => true | _ => false) = true) :
    ∃ r, x = .ok r := by
  cases x with
  | ok r => exact ⟨r, rfl⟩
  | err _ => cases h
  | panic => cases h

/-- A literal part of a two-part message. -/
theorem demoPart (fs : List Str) (e : Ending) {talker : Str} {own : Bool} {num id : Nat} {chan payload s : Str}
    (h : Talker talker ∧ CommaFree fs ∧ fs ≠ [] ∧ Framed (join (tag '!' talker (aisKind own)) fs) e ∧
      s = finish (join (tag '!' talker (aisKind own)) fs) e)
    (h' : (Digits (field fs 0) ∧ decValue (field fs 0) = 2 ∧ 2 ≤ 255) ∧
      (Digits (field fs 1) ∧ decValue (field fs 1) = num ∧ num ≤ 255) ∧
      (Digits (field fs 2) ∧ decValue (field fs 2) = id ∧ id ≤ 2 ^ 64 - 1) ∧ field fs 3 = chan ∧
      field fs 4 = payload) : Part talker own num id chan payload s :=
  ⟨fs, demoTagged e h, demoDec h'.1, demoDec h'.2.1, demoDec h'.2.2.1, h'.2.2.2⟩

/-- A literal unfragmented sentence. -/
theorem demoAlone (fs : List Str) (e : Ending) {talker : Str} {own : Bool} {payload s : Str}
    (h : Talker talker ∧ CommaFree fs ∧ fs ≠ [] ∧ Framed (join (tag '!' talker (aisKind own)) fs) e ∧
      s = finish (join (tag '!' talker (aisKind own)) fs) e)
    (h' : (Digits (field fs 0) ∧ decValue (field fs 0) = 1 ∧ 1 ≤ 255) ∧
      (Digits (field fs 1) ∧ decValue (field fs 1) = 1 ∧ 1 ≤ 255) ∧ field fs 4 = payload) :
    Single talker own payload s :=
  ⟨fs, 1, demoTagged e h, demoDec h'.1, demoDec h'.2.1, h'.2.2⟩

/-- The first part of a UTC inquiry (type 10). -/
theorem demoFirst : Part (c! "AI") false 1 7 (c! "B") (c! ":5MlU41") (c! "!AIVDM,2,1,7,B,:5MlU41,0") :=
  demoPart [c! "2", c! "1", c! "7", c! "B", c! ":5MlU41", c! "0"] .bare (by decide) (by decide)

/-- Its second part, from a base station. -/
theorem demoSecond : Part (c! "AB") false 2 7 (c! "B") (c! "GMK6@") (c! "!ABVDM,2,2,7,B,GMK6@,0") :=
  demoPart [c! "2", c! "2", c! "7", c! "B", c! "GMK6@", c! "0"] .bare (by decide) (by decide)

/-- The whole message in one sentence. -/
theorem demoWhole : Single (c! "AB") false (c! ":5MlU41" ++ c! "GMK6@") (c! "!ABVDM,1,1,,B,:5MlU41GMK6@,0") :=
  demoAlone [c! "1", c! "1", [], c! "B", c! ":5MlU41GMK6@", c! "0"] .bare (by decide) (by decide)

end Nmea.Spec
