/-
Specification of proprietary sentences: NMEA 0183 reserves the letter `P` after the `$` for sentences of a manufacturer, whose
three letters follow; what comes after these is up to the manufacturer.
-/
import Verif.Spec.Sentence

namespace Nmea.Spec

/-- `s` is a proprietary sentence of this manufacturer, with this message id (possibly empty) and these fields. -/
def Proprietary (maker id : Str) (fs : List Str) (s : Str) : Prop :=
  maker.length = 3 ∧ (∀ c ∈ maker, 'A' ≤ c ∧ c ≤ 'Z') ∧ ',' ∉ id ∧ CommaFree fs ∧ fs ≠ [] ∧
    ∃ e, Framed (join (c! "$P" ++ maker ++ id) fs) e ∧ s = finish (join (c! "$P" ++ maker ++ id) fs) e

/-- The last two letters of the manufacturer and the message id together are one of the kinds of standard sentences that are
reported. -/
def LooksStandard (maker id : Str) : Prop :=
  maker.drop 1 ++ id ∈ [c! "GGA", c! "RMC", c! "GSA", c! "GSV", c! "VTG", c! "GLL"]

end Nmea.Spec
