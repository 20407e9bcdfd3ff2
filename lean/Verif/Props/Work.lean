/-
C105: how many accesses to the parser's tables one sentence costs.
-/
import Verif.Lemmas.Work
import Verif.Props.Gsv

namespace Nmea
open Spec

/-- **C105** (the counting is faithful). The counting copy of the parser gives the answer of the parser and leaves
the parser's state; only the counter is added. -/
theorem C105_same (env : Env) (c : Counted) (s : Str) :
    (parseSentenceC env c s).1 = (parseSentence env c.parser s).1 ∧
      (parseSentenceC env c s).2.parser = (parseSentence env c.parser s).2 :=
  erases_parseSentence env c s

/-- The answer and the state of the counting parser. -/
example : (parseSentenceC demoEnv ⟨Parser.new, 7⟩ (c! "$GPGSV,2,1,05,01,40,083,46")).1 = .ok .incomplete :=
  (C105_same demoEnv ⟨Parser.new, 7⟩ _).1.trans (by decide +kernel)

/-- **C105** (constant work). Every sentence that is not a GSV sentence, whatever its content and whatever the parser
has seen, costs at most three table accesses. -/
theorem C105_few (env : Env) (p : Parser) (s : Str) (h : ∀ talker fs, ¬ IsGnss talker (c! "GSV") fs s) :
    (parseSentenceC env ⟨p, 0⟩ s).2.calls ≤ 3 := by
  have := calls_other env ⟨p, 0⟩ s h
  simpa using this

/-- A static data part. -/
example : (parseSentenceC demoEnv ⟨Parser.new, 0⟩ (c! "!AIVDM,1,1,,A,H42O55i18tMET00000000000000,2")).2.calls ≤ 3 := by
  refine C105_few demoEnv Parser.new _ fun talker fs h => ?_
  obtain ⟨fs', -, h', -⟩ := demoSingleA
  exact absurd (IsTagged.unique h' h (by decide) (by decide) (aisKind_noComma _) (by decide)).1 (by decide)

/-- **C105** (GSV work is set by the sentence). A GSV sentence that announces `n` sentences costs exactly `1 + n`
accesses while the group is incomplete, and `1 + 2 n` when it completes the group: the work is proportional to a
number written in the sentence, not to its length. -/
theorem C105_gsv (env : Env) (p : Parser) (talker : Str) (n k : Nat) (fs : List Str) (s : Str)
    (hs : GsvPart talker n k fs s) (hn : n ≤ 2 ^ 32 - 2) :
    ((parseSentence env p s).1 = .ok .incomplete → (parseSentenceC env ⟨p, 0⟩ s).2.calls = 1 + n) ∧
    (∀ sats, (parseSentence env p s).1 = .ok (.gsv sats) → (parseSentenceC env ⟨p, 0⟩ s).2.calls = 1 + 2 * n) ∧
    ((parseSentence env p s).1 = .ok .incomplete ∨ ∃ sats, (parseSentence env p s).1 = .ok (.gsv sats)) := by
  have he : (parseSentenceC env ⟨p, 0⟩ s).1 = (parseSentence env p s).1 := (C105_same env ⟨p, 0⟩ s).1
  rw [← he]
  rcases calls_gsv env ⟨p, 0⟩ talker n k fs s hs (by omega) with ⟨⟨r, h1⟩, h2⟩ | ⟨h1, h2⟩
  · refine ⟨fun h => ?_, fun _ _ => by rw [h2, Nat.zero_add], .inr ⟨r, h1⟩⟩
    rw [h1] at h
    cases h
  · refine ⟨fun _ => by rw [h2, Nat.zero_add], fun r h => ?_, .inl h1⟩
    rw [h1] at h
    cases h

/-- The second of two GSV sentences. -/
example : (parseSentenceC demoEnv ⟨run Parser.new [(demoEnv, c! "$GPGSV,2,1,05,01,40,083,46")], 0⟩
    (c! "$GPGSV,2,2,05,02,17,x,")).2.calls = 5 :=
  (C105_gsv demoEnv _ (c! "GP") 2 2 demoGsvFields2 _ demoGsv2 (by decide)).2.1
    [⟨.gps, 1, some 40, some 83, some 46⟩, ⟨.gps, 2, some 17, none, none⟩] (by decide +kernel)

/-- **C105** (no bound by length). For every number up to `2 ^ 32 - 2` there is a sentence of at most
nineteen characters that costs a fresh parser more table accesses than that number. -/
theorem C105_unbounded (env : Env) (n : Nat) (hn : n ≤ 2 ^ 32 - 2) :
    ∃ s, s.length ≤ 19 ∧ n < (parseSentenceC env ⟨Parser.new, 0⟩ s).2.calls := by
  have hd : (natStr n).length ≤ 10 :=
    (Nat.length_toDigits_le_iff (by decide) (by decide)).mpr (by omega)
  have hs : GsvPart (c! "GP") n 1 [natStr n, c! "1"] (c! "$GPGSV," ++ natStr n ++ c! ",1") := by
    refine ⟨⟨by decide, fun f hf => ?_, by simp, .bare, fun _ hm => ?_, ?_⟩,
      .inr (dec_natStr _ _ (by omega)), .inr (show Dec _ (c! "1") 1 from demoDec (by decide))⟩
    · rcases List.mem_cons.mp hf with rfl | hf
      · exact natStr_comma n
      · rcases List.mem_cons.mp hf with rfl | hf
        · decide
        · cases hf
    · have := natStr_digits n
      simp only [join, tag, List.map_cons, List.map_nil, List.flatten_cons, List.flatten_nil, List.mem_append,
        List.mem_cons] at hm
      simp at hm
      have := this.2 _ hm
      revert this
      decide
    · simp [finish, join, tag]
  refine ⟨c! "$GPGSV," ++ natStr n ++ c! ",1", ?_, ?_⟩
  · simp only [List.length_append, List.length_cons, List.length_nil]
    omega
  · rcases calls_gsv env ⟨Parser.new, 0⟩ _ n 1 _ _ hs (by omega) with ⟨_, h⟩ | ⟨_, h⟩ <;> rw [h] <;> dsimp only <;> omega

/-- The hypotheses are satisfiable: a RMC sentence costs nothing, a static data part costs two accesses, and the
second of two GSV sentences five. -/
example :
    (parseSentenceC demoEnv ⟨Parser.new, 0⟩ (c! "$GPRMC,,V,,,,,,,,,,")).2.calls = 0 ∧
    (parseSentenceC demoEnv ⟨Parser.new, 0⟩ (c! "!AIVDM,1,1,,A,H42O55i18tMET00000000000000,2*6D")).2.calls = 2 ∧
    (parseSentenceC demoEnv (parseSentenceC demoEnv ⟨Parser.new, 0⟩ (c! "$GPGSV,2,1,05,01,40,083,46")).2
      (c! "$GPGSV,2,2,05,02,17,308,")).2.calls = 3 + 5 := by
  decide +kernel

end Nmea
