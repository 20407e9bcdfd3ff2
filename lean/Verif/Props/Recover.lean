/-
C126: what is left over from the sentences received so far, and how to get rid of it.
-/
import Verif.Lemmas.Recover
import Verif.Lemmas.Demo

namespace Nmea
open Spec

/-- C126: a parser answers everything that can follow like a new one exactly when nothing is pending that can be
completed. -/
theorem C126_as_new (p : Parser) (hp : Reachable p) :
    (∀ h, answers p h = answers Parser.new h) ↔ ¬ Unfinished p := by
  constructor
  · intro h hu
    obtain ⟨g, hg⟩ := unfinished_shows hp hu demoEnv
    exact hg (h _)
  · exact finished_as_new hp

/-- A parser that keeps a GSV sentence outside its group answers like a new one; one that keeps a first part does not. -/
example : (∀ h, answers (run Parser.new [(demoEnv, c! "$GPGSV,2,3,00")]) h = answers Parser.new h) ∧
    (run Parser.new [(demoEnv, c! "$GPGSV,2,3,00")]).stringsCount = 1 ∧
    ¬ ∀ h, answers (run Parser.new [(demoEnv, c! "!AIVDM,2,1,7,B,:5MlU41,0")]) h = answers Parser.new h := by
  refine ⟨(C126_as_new _ ⟨_, rfl⟩).2 ?_, by decide +kernel, fun h => (C126_as_new _ ⟨_, rfl⟩).1 h ?_⟩
  · have hs : GsvPart (c! "GP") 2 3 [c! "2", c! "3", c! "00"] (c! "$GPGSV,2,3,00") :=
      ⟨demoTagged .bare (by decide), .inr (demoDec (by decide)), .inr (demoDec (by decide))⟩
    have hr := (step_rel demoEnv _ _ _ _ _ rel_new (.gsvWaits hs (by decide) ⟨1, by decide, by decide, by decide, rfl⟩)).2
    have hm := sound_step (env := demoEnv) sound_empty (.gsvWaits hs (by decide) ⟨1, by decide, by decide, by decide, rfl⟩)
    refine fun hu => (unfinished_iff hr hm).1 hu ⟨fun _ _ _ => rfl, fun t n k h1 h2 h3 => ?_, fun _ => rfl⟩
    simp only [Memory.setGsv]
    rw [if_neg]
    · rfl
    · rintro ⟨-, rfl, rfl⟩
      omega
  · exact .inl ⟨false, 1, 7, c! "B", .inl rfl, by decide +kernel⟩

/-- C126: what is unfinished can be told from a new parser by some sentences, in every environment. -/
theorem C126_shows (env : Env) (p : Parser) (hp : Reachable p) (hu : Unfinished p) :
    ∃ f : List Str, answers p (f.map fun s => (env, s)) ≠ answers Parser.new (f.map fun s => (env, s)) :=
  unfinished_shows hp hu env

/-- A part A of type 24 is unfinished. -/
example : Unfinished (run Parser.new [(demoEnv, c! "!AIVDM,1,1,,A,H42O55i18tMET00000000000000,2")]) :=
  .inr (.inr ⟨271041815, by decide +kernel⟩)

/-- C126: no history spoils the parser for good: after it, in every environment, there are sentences after which
everything is answered as by a new parser. -/
theorem C126_flush (env : Env) (p : Parser) (hp : Reachable p) :
    ∃ f : List Str, ∀ h, answers (run p (f.map fun s => (env, s))) h = answers Parser.new h := flush env hp

/-- A parser that has to be brought back: it keeps a first part, a GSV sentence and a part of type 24. -/
example : (run Parser.new [(demoEnv, c! "!AIVDM,2,1,7,B,:5MlU41,0"), (demoEnv, c! "$GPGSV,2,1,00"),
      (demoEnv, c! "!AIVDM,1,1,,A,H42O55i18tMET00000000000000,2")]).stringsCount = 2 ∧
    (run Parser.new [(demoEnv, c! "!AIVDM,2,1,7,B,:5MlU41,0"), (demoEnv, c! "$GPGSV,2,1,00"),
      (demoEnv, c! "!AIVDM,1,1,,A,H42O55i18tMET00000000000000,2")]).vsdsCount = 1 := by decide +kernel

theorem field_length_le {lead : Char} {talker kind : Str} {fs : List Str} {s : Str} (h : IsTagged lead talker kind fs s)
    (i : Nat) : (field fs i).length ≤ s.length := by
  obtain ⟨-, -, -, e, -, rfl⟩ := h
  have h1 : (field fs i).length ≤ (fs.map (fun f => ',' :: f)).flatten.length := by
    rw [field, List.getD_eq_getElem?_getD]
    cases hi : fs[i]? with
    | none => simp
    | some f =>
      obtain ⟨a, b, rfl⟩ := List.append_of_mem (List.mem_of_getElem? hi)
      simp only [Option.getD_some, List.map_append, List.map_cons, List.flatten_append, List.flatten_cons, List.length_append,
        List.length_cons]
      omega
  cases e <;> simp only [finish, join, List.length_append] <;> omega

/-- C126: these sentences depend on the history: for every list of sentences there is a parser that is not as new after
them. -/
theorem C126_no_universal_flush (f : List (Env × Str)) :
    ∃ p, Reachable p ∧ ∃ h, answers (run p f) h ≠ answers Parser.new h := by
  obtain ⟨L, hL⟩ : ∃ L, ∀ x ∈ f, x.2.length ≤ L := by
    induction f with
    | nil => exact ⟨0, fun x h => absurd h List.not_mem_nil⟩
    | cons y f ih =>
      obtain ⟨L, hL⟩ := ih
      refine ⟨max y.2.length L, fun x hx => ?_⟩
      rcases List.mem_cons.1 hx with rfl | hx
      · exact Nat.le_max_left _ _
      · exact (hL x hx).trans (Nat.le_max_right _ _)
  -- a first part on a channel with a longer name than any of the sentences
  have hc : ',' ∉ List.replicate (L + 1) 'A' := fun h => absurd (List.eq_of_mem_replicate h) (by decide)
  have hs := part_sentence (c! "AI") false 1 0 (List.replicate (L + 1) 'A') (c! "1") 0 ⟨by decide, by decide⟩ (by decide)
    (by decide) hc (by decide)
  have st := new_waits demoEnv _ _ _ _ _ _ _ (.inl rfl) hs
  have hp : Reachable (run Parser.new [(demoEnv, partSentence (c! "AI") false 1 0 (List.replicate (L + 1) 'A') (c! "1") 0)]) :=
    ⟨_, rfl⟩
  have hr := (trace_rel _ _ _ _ _ rel_new (.cons st (.nil _))).2
  refine ⟨_, hp, ?_⟩
  obtain ⟨as, m', ht⟩ := trace_total (Memory.empty.setPart false 0 (List.replicate (L + 1) 'A') (some (1, c! "1"))) f
  have keep : m'.part false 0 (List.replicate (L + 1) 'A') = some (1, c! "1") := by
    have key : ∀ (f : List (Env × Str)) (m m' : Memory) (as : List Answer), (∀ x ∈ f, x.2.length ≤ L) → Trace m f as m' →
        simPart false 0 (List.replicate (L + 1) 'A')
          (Memory.empty.setPart false 0 (List.replicate (L + 1) 'A') (some (1, c! "1"))) m →
        simPart false 0 (List.replicate (L + 1) 'A')
          (Memory.empty.setPart false 0 (List.replicate (L + 1) 'A') (some (1, c! "1"))) m' := by
      intro f m m' as hf ht
      induction ht with
      | nil => exact id
      | @cons m m1 m2 env s h a as h1 h2 ih =>
        intro h0
        refine ih (fun x hx => hf x (List.mem_cons_of_mem _ hx)) (part_skip _ _ _ env _ s _ _ _ ?_ h0 h1)
        rintro ⟨t, num, pl, fs, h, -, -, -, h3, -⟩
        have h4 := hf _ List.mem_cons_self
        have h5 := field_length_le h 3
        rw [h3, List.length_replicate] at h5
        simp only at h4
        omega
    have := key f _ m' as hL ht ⟨rfl, fun x hx => ?_⟩
    · rw [← this.1]; simp [Memory.setPart]
    · simp only [Memory.setPart, and_self, if_true, Option.some.injEq, Prod.mk.injEq, true_and] at hx
      subst hx
      exact ⟨by decide, by decide⟩
  obtain ⟨g, hg⟩ := part_shows (trace_rel _ _ _ _ _ hr ht).2 (sound_trace (sound_step sound_empty st) ht) _ _ _ _ keep demoEnv
  exact ⟨_, hg⟩

/-- Even the other part of one group and the rest of one GSV group do not help every parser. -/
example : ∃ p, Reachable p ∧ ∃ h, answers (run p [(demoEnv, c! "!AIVDM,2,2,7,B,GMK6@,0"), (demoEnv, c! "$GPGSV,2,2,00")]) h ≠
    answers Parser.new h := C126_no_universal_flush _

end Nmea
