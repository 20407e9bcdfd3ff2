/-
C103: the internal order of the pending data is never observed.
-/
import Verif.Lemmas.Extensional
import Verif.Props.Fragments
import Verif.Spec.Machine

namespace Nmea
open Spec

/-- Two GSV sentences received in one order. -/
def demoSameA : Parser := run Parser.new [(demoEnv, c! "$GPGSV,3,1,00"), (demoEnv, c! "$GPGSV,3,2,00")]

/-- And in the other order. -/
def demoSameB : Parser := run Parser.new [(demoEnv, c! "$GPGSV,3,2,00"), (demoEnv, c! "$GPGSV,3,1,00")]

/-- The two states have the same data. -/
theorem demoSameData : SameData demoSameA demoSameB := by
  refine ⟨fun k => ?_, fun k => ?_⟩
  · have e1 : (run Parser.new [(demoEnv, c! "$GPGSV,3,1,00"), (demoEnv, c! "$GPGSV,3,2,00")]).savedFragments =
        (KV.empty.insert (makeGsvKey (c! "$GPGSV") 3 1) (c! "$GPGSV,3,1,00")).insert
          (makeGsvKey (c! "$GPGSV") 3 2) (c! "$GPGSV,3,2,00") := by decide +kernel
    have e2 : (run Parser.new [(demoEnv, c! "$GPGSV,3,2,00"), (demoEnv, c! "$GPGSV,3,1,00")]).savedFragments =
        (KV.empty.insert (makeGsvKey (c! "$GPGSV") 3 2) (c! "$GPGSV,3,2,00")).insert
          (makeGsvKey (c! "$GPGSV") 3 1) (c! "$GPGSV,3,1,00") := by decide +kernel
    have hne : makeGsvKey (c! "$GPGSV") 3 1 ≠ makeGsvKey (c! "$GPGSV") 3 2 := by decide +kernel
    rw [demoSameA, demoSameB, e1, e2]
    simp only [KV.get_insert]
    by_cases h1 : k = makeGsvKey (c! "$GPGSV") 3 1
    · rw [if_pos h1, if_neg (by rw [h1]; exact hne), if_pos h1]
    · rw [if_neg h1, if_neg h1]
  · rfl

/-- C103: two parser states that hold the same data under the same keys, in whatever order and however they came
about, answer every sentence alike and hold the same data afterwards. -/
theorem C103_one_sentence (env : Env) (p q : Parser) (h : SameData p q) (s : Str) :
    (parseSentence env p s).1 = (parseSentence env q s).1 ∧
      SameData (parseSentence env p s).2 (parseSentence env q s).2 := same_parseSentence h env s

/-- Two GSV sentences received in either order: different states, and the same answer to the third. -/
example : (parseSentence demoEnv demoSameA (c! "$GPGSV,3,3,00")).1 = (parseSentence demoEnv demoSameB (c! "$GPGSV,3,3,00")).1 ∧
    demoSameA ≠ demoSameB := ⟨(C103_one_sentence demoEnv _ _ demoSameData _).1, by decide +kernel⟩

/-- C103: so for every further history. -/
theorem C103_history (p q : Parser) (h : SameData p q) (f : List (Env × Str)) :
    answers p f = answers q f ∧ SameData (run p f) (run q f) := by
  induction f generalizing p q with
  | nil => exact ⟨rfl, h⟩
  | cons x f ih =>
    obtain ⟨env, s⟩ := x
    obtain ⟨h1, h2⟩ := same_parseSentence h env s
    refine ⟨?_, (ih _ _ h2).2⟩
    rw [answers, answers, h1, (ih _ _ h2).1]

/-- The same answers forever after. -/
example (f : List (Env × Str)) : answers demoSameA f = answers demoSameB f := (C103_history _ _ demoSameData f).1

/-- C103: no key is ever held twice. -/
theorem C103_once_per_key (h : List (Env × Str)) : OncePerKey (run Parser.new h) := by
  have key : ∀ (h : List (Env × Str)) (p : Parser), OncePerKey p → OncePerKey (run p h) := by
    intro h
    induction h with
    | nil => exact fun p hp => hp
    | cons x h ih => exact fun p hp => ih _ (once_parseSentence hp x.1 x.2)
  exact key h Parser.new ⟨List.nodup_nil, List.nodup_nil⟩

/-- A first part received twice is there once. -/
example : OncePerKey (run Parser.new [(demoEnv, c! "!AIVDM,2,1,5,A,13HOI,0"), (demoEnv, c! "!AIVDM,2,1,5,A,1,0")]) ∧
    (run Parser.new [(demoEnv, c! "!AIVDM,2,1,5,A,13HOI,0"), (demoEnv, c! "!AIVDM,2,1,5,A,1,0")]).stringsCount = 1 :=
  ⟨C103_once_per_key _, by decide +kernel⟩

/-- C103: so the numbers of pending texts and of pending static data are determined by the data, too. -/
theorem C103_counts (h h' : List (Env × Str)) (hd : SameData (run Parser.new h) (run Parser.new h')) :
    (run Parser.new h).stringsCount = (run Parser.new h').stringsCount ∧
      (run Parser.new h).vsdsCount = (run Parser.new h').vsdsCount :=
  ⟨KV.size_eq _ _ (C103_once_per_key h).1 (C103_once_per_key h').1 hd.1,
    KV.size_eq _ _ (C103_once_per_key h).2 (C103_once_per_key h').2 hd.2⟩

/-- Two texts in both states. -/
example : demoSameA.stringsCount = demoSameB.stringsCount ∧ demoSameA.stringsCount = 2 :=
  ⟨(C103_counts _ _ demoSameData).1, by decide +kernel⟩

end Nmea
