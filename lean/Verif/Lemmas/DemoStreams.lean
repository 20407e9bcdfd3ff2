/-
Literal histories for the examples beside the theorems on streams.
-/
import Verif.Lemmas.Demo
import Verif.Spec.Streams
import Verif.Spec.Loss

namespace Nmea
open Spec

theorem demoOnly_in {P : Str → Prop} {x : Env × Str} {h l : List (Env × Str)} (hx : P x.2) (hl : only P h = l) :
    only P (x :: h) = x :: l := by
  simp only [only, List.filter_cons, hx, decide_true, if_true] at *
  rw [hl]

theorem demoOnly_out {P : Str → Prop} {x : Env × Str} {h l : List (Env × Str)} (hx : ¬ P x.2) (hl : only P h = l) :
    only P (x :: h) = l := by
  simp only [only, List.filter_cons, hx, decide_false] at *
  simpa using hl

theorem demoOnly_nil {P : Str → Prop} : only P [] = [] := rfl

/-! ### Two-part messages -/

/-- The message of `demoFirst` and `demoSecond`. -/
def demoX : TwoPart :=
  { env1 := demoEnv, talker1 := c! "AI", payload1 := c! ":5MlU41", sentence1 := c! "!AIVDM,2,1,7,B,:5MlU41,0"
    env2 := demoEnv, talker2 := c! "AB", payload2 := c! "GMK6@", sentence2 := c! "!ABVDM,2,2,7,B,GMK6@,0" }

/-- The message of `demoFirst'` and `demoSecond'`. -/
def demoY : TwoPart :=
  { env1 := demoEnv, talker1 := c! "AI", payload1 := c! "15M67F0", sentence1 := c! "!AIVDM,2,1,7,B,15M67F0,0"
    env2 := demoEnv, talker2 := c! "AI", payload2 := c! "000", sentence2 := c! "!AIVDM,2,2,7,B,000,0" }

theorem demoX_of : demoX.Of false 7 (c! "B") := ⟨demoFirst, demoSecond, by decide, by decide +kernel⟩
theorem demoY_of : demoY.Of false 7 (c! "B") := ⟨demoFirst', demoSecond', by decide, by decide +kernel⟩

theorem demoXY_of : ∀ y ∈ [demoX, demoY], y.Of false 7 (c! "B") := by
  simp only [List.forall_mem_cons, List.not_mem_nil, false_imp_iff, implies_true, and_true]
  exact ⟨demoX_of, demoY_of⟩

theorem demoIn1 : InGroup false 7 (c! "B") demoX.sentence1 := ⟨_, _, _, demoFirst⟩
theorem demoIn2 : InGroup false 7 (c! "B") demoX.sentence2 := ⟨_, _, _, demoSecond⟩
theorem demoIn1' : InGroup false 7 (c! "B") demoY.sentence1 := ⟨_, _, _, demoFirst'⟩
theorem demoIn2' : InGroup false 7 (c! "B") demoY.sentence2 := ⟨_, _, _, demoSecond'⟩

/-- A part of another group, and a GSV sentence: both outside the group. -/
theorem demoOut : ¬ InGroup false 7 (c! "B") (c! "!AIVDM,2,1,8,B,:5MlU41,0") := by
  rintro ⟨t, num, pl, h⟩
  exact absurd (demoOther.unique h).2.2.2.1 (by decide)

theorem demoOut' : ¬ InGroup false 7 (c! "B") (c! "$GPGSV,2,1,05,01,40,083,46") := by
  rintro ⟨t, num, pl, h⟩
  exact demoPartNotGsv h _ _ _ _ demoGsv1

/-! ### Type 24 messages of 271041815 -/

/-- Part A and part B. -/
def demoSA : StaticSentence := ⟨demoEnv, c! "AI", false, demoA, c! "!AIVDM,1,1,,A,H42O55i18tMET00000000000000,2"⟩
def demoSB : StaticSentence := ⟨demoEnv, c! "AI", true, demoB, c! "!AIVDO,1,1,,A,H42O55lt0000000D3nink000?0500,0"⟩

theorem demoSA_of : demoSA.Of 271041815 0 := ⟨demoSingleA, fun _ => by decide, by decide +kernel, demoMmsiA, demoPartA⟩
theorem demoSB_of : demoSB.Of 271041815 1 := ⟨demoSingleB, fun _ => by decide, by decide +kernel, demoMmsiB, demoPartB⟩

theorem demoSA_in : StaticOf 271041815 demoSA.sentence := ⟨_, _, _, demoSingleA, by decide +kernel, demoMmsiA⟩
theorem demoSB_in : StaticOf 271041815 demoSB.sentence := ⟨_, _, _, demoSingleB, by decide +kernel, demoMmsiB⟩

theorem demoS_out : ¬ StaticOf 271041815 (c! "!AIVDM,2,1,8,B,:5MlU41,0") := by
  rintro ⟨t, own, pl, h, -⟩
  exact h.not_part demoOther

/-- First parts of these sentences begin no type 24 message. -/
theorem demoNoSplit : ∀ x ∈ [(demoEnv, demoSA.sentence), (demoEnv, demoSB.sentence),
      (demoEnv, c! "!AIVDM,2,1,8,B,:5MlU41,0")], ∀ talker own id chan payload,
    Part talker own 1 id chan payload x.2 → payload ≠ [] ∧ typeOf (payloadBits payload) ≠ 24 := by
  simp only [List.forall_mem_cons, List.not_mem_nil, false_imp_iff, implies_true, and_true]
  refine ⟨fun _ _ _ _ _ h => (demoSingleA.not_part h).elim, fun _ _ _ _ _ h => (demoSingleB.not_part h).elim, ?_⟩
  intro t own id ch pl h
  obtain ⟨-, -, -, -, -, rfl⟩ := h.unique demoOther
  exact ⟨by decide, by decide +kernel⟩

/-! ### GSV sentences -/

def demoG1 : GsvIn := ⟨demoEnv, 1, demoGsvFields1, c! "$GPGSV,2,1,05,01,40,083,46"⟩
def demoG2 : GsvIn := ⟨demoEnv, 2, demoGsvFields2, c! "$GPGSV,2,2,05,02,17,x,"⟩

theorem demoG1_in : GsvOfGroup (c! "GP") 2 demoG1.sentence := ⟨_, _, demoGsv1⟩
theorem demoG2_in : GsvOfGroup (c! "GP") 2 demoG2.sentence := ⟨_, _, demoGsv2⟩

theorem demoG_out : ¬ GsvOfGroup (c! "GP") 2 (c! "!AIVDM,2,1,8,B,:5MlU41,0") := by
  rintro ⟨k, fs, h⟩
  exact demoPartNotGsv demoOther _ _ _ _ h

end Nmea
