/-
Facts about literal sentences, shared by the examples beside the theorems.
-/
import Verif.Lemmas.Gsv
import Verif.Spec.Static
import Verif.Spec.Gsv
import Verif.Spec.Demo

namespace Nmea
open Spec

/-! ### A two-part group: `demoFirst`, `demoSecond` (message 7 on channel B) -/

/-- The first part of another group. -/
theorem demoOther : Part (c! "AI") false 1 8 (c! "B") (c! ":5MlU41") (c! "!AIVDM,2,1,8,B,:5MlU41,0") :=
  demoPart [c! "2", c! "1", c! "8", c! "B", c! ":5MlU41", c! "0"] .bare (by decide) (by decide)

/-- Another first part of the group of `demoFirst`, with another payload. -/
theorem demoFirst' : Part (c! "AI") false 1 7 (c! "B") (c! "15M67F0") (c! "!AIVDM,2,1,7,B,15M67F0,0") :=
  demoPart [c! "2", c! "1", c! "7", c! "B", c! "15M67F0", c! "0"] .bare (by decide) (by decide)

/-- Another second part of that group. -/
theorem demoSecond' : Part (c! "AI") false 2 7 (c! "B") (c! "000") (c! "!AIVDM,2,2,7,B,000,0") :=
  demoPart [c! "2", c! "2", c! "7", c! "B", c! "000", c! "0"] .bare (by decide) (by decide)

/-- The message of `demoFirst` and `demoSecond` in one sentence of the talker of `demoFirst`. -/
theorem demoWhole' : Single (c! "AI") false (c! ":5MlU41" ++ c! "GMK6@") (c! "!AIVDM,1,1,,B,:5MlU41GMK6@,0") :=
  demoAlone [c! "1", c! "1", [], c! "B", c! ":5MlU41GMK6@", c! "0"] .bare (by decide) (by decide)

/-! ### A GSV group -/

def demoGsvFields1 : List Str := [c! "2", c! "1", c! "05", c! "01", c! "40", c! "083", c! "46"]
def demoGsvFields2 : List Str := [c! "2", c! "2", c! "05", c! "02", c! "17", c! "x", []]

theorem demoGsv1 : GsvPart (c! "GP") 2 1 demoGsvFields1 (c! "$GPGSV,2,1,05,01,40,083,46") :=
  ⟨demoTagged .bare (by decide), .inr (demoDec (by decide)), .inr (demoDec (by decide))⟩

theorem demoGsv2 : GsvPart (c! "GP") 2 2 demoGsvFields2 (c! "$GPGSV,2,2,05,02,17,x,") :=
  ⟨demoTagged .bare (by decide), .inr (demoDec (by decide)), .inr (demoDec (by decide))⟩

/-- A part of an AIS message is no GSV sentence. -/
theorem demoPartNotGsv {t : Str} {own : Bool} {num id : Nat} {chan pl s : Str} (h : Part t own num id chan pl s)
    (talker : Str) (n k : Nat) (fs : List Str) : ¬ GsvPart talker n k fs s := by
  intro hg
  obtain ⟨fs', h', -⟩ := h
  exact absurd (IsTagged.unique h' hg.1 (by decide) (by decide) (aisKind_noComma _) (by decide)).1 (by decide)

/-! ### Sentences between -/

/-- Sentences outside the group of `demoFirst`: a part of another group, a GSV sentence and a whole message. -/
def demoBetween : List (Env × Str) :=
  [(demoEnv, c! "!AIVDM,2,1,8,B,:5MlU41,0"), (demoEnv, c! "$GPGSV,2,1,05,01,40,083,46"),
   (demoEnv, c! "!ABVDM,1,1,,B,:5MlU41GMK6@,0")]

theorem demoOutside : ∀ x ∈ demoBetween, ¬ InGroup false 7 (c! "B") x.2 := by
  simp only [demoBetween, List.forall_mem_cons, List.not_mem_nil, false_imp_iff, implies_true, and_true]
  refine ⟨?_, ?_, ?_⟩
  · rintro ⟨t, num, pl, h⟩
    exact absurd (demoOther.unique h).2.2.2.1 (by decide)
  · rintro ⟨t, num, pl, h⟩
    exact demoPartNotGsv h _ _ _ _ demoGsv1
  · rintro ⟨t, num, pl, h⟩
    exact demoWhole.not_part h

/-! ### Static data -/

/-- Part A of MMSI 271041815, name `PROGUY`; part B of the same MMSI. -/
def demoA : Str := c! "H42O55i18tMET00000000000000"
def demoB : Str := c! "H42O55lt0000000D3nink000?0500"

theorem demoSingleA : Single (c! "AI") false demoA (c! "!AIVDM,1,1,,A,H42O55i18tMET00000000000000,2") :=
  demoAlone [c! "1", c! "1", [], c! "A", demoA, c! "2"] .bare (by decide) (by decide)

theorem demoSingleB : Single (c! "AI") true demoB (c! "!AIVDO,1,1,,A,H42O55lt0000000D3nink000?0500,0") :=
  demoAlone [c! "1", c! "1", [], c! "A", demoB, c! "0"] .bare (by decide) (by decide)

/-- In every state, part A is a readable type 24 message ... -/
theorem demoCompletesA (p : Parser) : Completes24 demoEnv p (c! "!AIVDM,1,1,,A,H42O55i18tMET00000000000000,2") false
    (payloadBits demoA) :=
  ⟨demoA, .single (c! "AI") _ demoSingleA, fun _ => by decide, rfl, by decide +kernel⟩

/-- ... and so is part B, here of the own vessel. -/
theorem demoCompletesB (p : Parser) : Completes24 demoEnv p (c! "!AIVDO,1,1,,A,H42O55lt0000000D3nink000?0500,0") true
    (payloadBits demoB) :=
  ⟨demoB, .single (c! "AI") _ demoSingleB, fun _ => by decide, rfl, by decide +kernel⟩

theorem demoMmsiA : mmsiOf (payloadBits demoA) = 271041815 := by decide +kernel
theorem demoMmsiB : mmsiOf (payloadBits demoB) = 271041815 := by decide +kernel
theorem demoPartA : partOf (payloadBits demoA) = 0 := by decide +kernel
theorem demoPartB : partOf (payloadBits demoB) = 1 := by decide +kernel

/-- A message of another type completes no static data. -/
theorem demoNotStatic (q : Parser) (m : Nat) : ¬ CompletesStatic q (c! "!ABVDM,1,1,,B,:5MlU41GMK6@,0") m := by
  rintro ⟨own, payload, h, ht, -⟩
  cases h with
  | single t pl h =>
    obtain ⟨-, -, rfl⟩ := demoWhole.unique h
    exact absurd ht (by decide +kernel)
  | first t id ch a b h => exact demoWhole.not_part h
  | second t id ch a b h => exact demoWhole.not_part h

end Nmea
