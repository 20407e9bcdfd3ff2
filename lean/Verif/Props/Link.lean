/-
C120: a link without losses.
-/
import Verif.Lemmas.Link
import Verif.Lemmas.DemoStreams

namespace Nmea
open Spec

/-- An RMC sentence is a message of its own. -/
theorem demoRmcWhole : Whole demoEnv (c! "$GPRMC,,V,,,,,,,,,") := by
  have hb : ¬ Bang (c! "$GPRMC,,V,,,,,,,,,") := fun ⟨t, e⟩ => absurd (List.cons.inj e).1 (by decide)
  refine .inl ?_
  rintro (⟨_, _, _, h⟩ | ⟨_, _, _, _, _, _, h, -⟩ | ⟨_, _, _, _, h, -⟩)
  · exact hb h.bang
  · exact hb h.bang
  · have h' : IsTagged '$' (c! "GP") (c! "RMC") [[], c! "V", [], [], [], [], [], [], [], [], []]
      (c! "$GPRMC,,V,,,,,,,,,") := demoTagged .bare (by decide)
    exact absurd (IsTagged.unique h h' (by decide) (by decide) (by decide) (by decide)).2.2.1 (by decide)

/-- The two GSV sentences, the second one first. -/
theorem demoGsvSent : Sent (.gsv (c! "GP") 2) [(demoEnv, demoG2.sentence), (demoEnv, demoG1.sentence)]
    (.ok (.gsv [⟨.gps, 1, some 40, some 83, some 46⟩, ⟨.gps, 2, some 17, none, none⟩])) :=
  Sent.gsv (talker := c! "GP") (n := 2) (l := [demoG2, demoG1]) (by decide) (by decide)
    (by
      simp only [List.forall_mem_cons, List.not_mem_nil, false_imp_iff, implies_true, and_true]
      exact ⟨demoGsv2, demoGsv1⟩) (by decide)

/-- Three messages in transit at once: a two-part message, a static data report (part B first) and a GSV group
(sentence 2 first); among them a sentence that is a message of its own. -/
theorem demoLink : Link (fun _ => none)
    [(demoEnv, demoX.sentence1), (demoEnv, demoG2.sentence), (demoEnv, demoSB.sentence), (demoEnv, c! "$GPRMC,,V,,,,,,,,,"),
      (demoEnv, demoX.sentence2), (demoEnv, demoSA.sentence), (demoEnv, demoG1.sentence)]
    [.ok .incomplete, .ok .incomplete, .ok .incomplete, alone demoEnv (c! "$GPRMC,,V,,,,,,,,,"),
      alone demoEnv (aisSentence (c! "AB") false (c! ":5MlU41" ++ c! "GMK6@")),
      .ok (.vesselStaticData (fullStatic false demoSA.bits demoSB.bits)),
      .ok (.gsv [⟨.gps, 1, some 40, some 83, some 46⟩, ⟨.gps, 2, some 17, none, none⟩])] := by
  have hd : ∀ o : Transit, (∀ t, o t = none) → Link o [] [] := fun o ho => by
    rw [show o = fun _ => none from funext ho]; exact .done
  refine .start rfl (.inOrder demoFirst demoSecond (by decide) (by decide +kernel))
    (.start rfl demoGsvSent (.start rfl (.staticBA demoSA_of demoSB_of) (.whole demoRmcWhole
      (.last (slot := .part false 7 (c! "B")) rfl
      (.last (slot := .static 271041815) rfl (.last (slot := .gsv (c! "GP") 2) rfl (hd _ fun t => ?_)))))))
  simp only [Transit.set]
  grind

/-- C120: any number of messages in transit at once, no two of them in the same slot: every message is reported with
its last sentence, every other sentence is answered with "incomplete". -/
theorem C120_link (h : List (Env × Str)) (as : List Answer) (hl : Link (fun _ => none) h as) :
    answers Parser.new h = as :=
  answers_of_trace (link_trace hl Memory.empty fitting_empty)

/-- The seven sentences of `demoLink`. -/
example : answers Parser.new
    [(demoEnv, demoX.sentence1), (demoEnv, demoG2.sentence), (demoEnv, demoSB.sentence), (demoEnv, c! "$GPRMC,,V,,,,,,,,,"),
      (demoEnv, demoX.sentence2), (demoEnv, demoSA.sentence), (demoEnv, demoG1.sentence)] =
    [.ok .incomplete, .ok .incomplete, .ok .incomplete, alone demoEnv (c! "$GPRMC,,V,,,,,,,,,"),
      alone demoEnv (aisSentence (c! "AB") false (c! ":5MlU41" ++ c! "GMK6@")),
      .ok (.vesselStaticData (fullStatic false demoSA.bits demoSB.bits)),
      .ok (.gsv [⟨.gps, 1, some 40, some 83, some 46⟩, ⟨.gps, 2, some 17, none, none⟩])] :=
  C120_link _ _ demoLink

/-- C120: afterwards the parser answers like a new one. -/
theorem C120_as_new (h : List (Env × Str)) (as : List Answer) (hl : Link (fun _ => none) h as) (f : List (Env × Str)) :
    answers (run Parser.new h) f = answers Parser.new f := by
  obtain ⟨bs, m', hf⟩ := trace_total Memory.empty f
  rw [(trace_rel _ _ _ _ _ (trace_rel _ _ _ _ _ rel_new (link_trace hl Memory.empty fitting_empty)).2 hf).1,
    (trace_rel _ _ _ _ _ rel_new hf).1]

/-- After these seven sentences a second part waits, as it does in a new parser. -/
example : answers (run Parser.new
    [(demoEnv, demoX.sentence1), (demoEnv, demoG2.sentence), (demoEnv, demoSB.sentence), (demoEnv, c! "$GPRMC,,V,,,,,,,,,"),
      (demoEnv, demoX.sentence2), (demoEnv, demoSA.sentence), (demoEnv, demoG1.sentence)])
    [(demoEnv, demoX.sentence2)] = answers Parser.new [(demoEnv, demoX.sentence2)] :=
  C120_as_new _ _ demoLink _

/-- C120: messages sent one after another: the answers other than "incomplete" are the reports of the messages, in the
order in which they were sent. -/
theorem C120_one_by_one (l : List (List (Env × Str) × Answer)) (hl : ∀ x ∈ l, Transmission x.1 x.2) :
    answers Parser.new (l.flatMap (·.1)) = oneByOne l ∧
    told (answers Parser.new (l.flatMap (·.1))) = told (l.map (·.2)) := by
  have h := C120_link _ _ (link_oneByOne l hl)
  refine ⟨h, ?_⟩
  rw [h]
  have key : ∀ (n : Nat) (as : List Answer), told (List.replicate n (.ok .incomplete) ++ as) = told as := by
    intro n as
    induction n with
    | zero => rfl
    | succ n ih => simpa [List.replicate_succ, told] using ih
  clear h hl
  induction l with
  | nil => rfl
  | cons x l ih =>
    obtain ⟨xs, a⟩ := x
    rw [oneByOne, key]
    show told (a :: oneByOne l) = told (a :: l.map (·.2))
    unfold told
    split <;> simp_all

/-- The GSV group, the RMC sentence and a two-part message of type 10: three reports. -/
example : told (answers Parser.new
    [(demoEnv, demoG2.sentence), (demoEnv, demoG1.sentence), (demoEnv, c! "$GPRMC,,V,,,,,,,,,"),
      (demoEnv, demoX.sentence1), (demoEnv, demoX.sentence2)]) =
    told [.ok (.gsv [⟨.gps, 1, some 40, some 83, some 46⟩, ⟨.gps, 2, some 17, none, none⟩]),
      alone demoEnv (c! "$GPRMC,,V,,,,,,,,,"),
      alone demoEnv (aisSentence (c! "AB") false (c! ":5MlU41" ++ c! "GMK6@"))] :=
  (C120_one_by_one [([_, _], _), ([_], _), ([_, _], _)] (by
    simp only [List.forall_mem_cons, List.not_mem_nil, false_imp_iff, implies_true, and_true]
    exact ⟨.sent demoGsvSent, .whole demoRmcWhole,
      .sent (.inOrder demoFirst demoSecond (by decide) (by decide +kernel))⟩)).2

end Nmea
