/-
C110: the order of unrelated sentences.
-/
import Verif.Lemmas.Divide
import Verif.Props.Panics
import Verif.Spec.Demo

namespace Nmea
open Spec

/-! ## C110: unrelated sentences may come in any order -/

/-- C110: two sentences in a row that have nothing to do with each other: exchanged, each of them has the same
answer, and no further sentence tells the difference. -/
theorem C110_swap (p : Parser) (hp : Reachable p) (x y : Env × Str) (hu : Unrelated p x.2 y.2) :
    (∃ a b, answers p [x, y] = [a, b] ∧ answers p [y, x] = [b, a]) ∧
    ∀ f, answers (run p [x, y]) f = answers (run p [y, x]) f := by
  obtain ⟨m, hr⟩ := rel_reachable hp
  obtain ⟨a, m1, h1⟩ := step_total x.1 m x.2
  obtain ⟨b, m2, h2⟩ := step_total y.1 m1 y.2
  have hd : Disjoint2 (cells x.1 m x.2) (cells y.1 m y.2) := by
    refine ⟨hu.1, hu.2.1, ?_⟩
    rintro i ⟨⟨pl, d1, t1, i1⟩, pl', d2, t2, i2⟩
    obtain ⟨_, _, g1⟩ := delivers_of_mdelivers hr d1
    obtain ⟨_, _, g2⟩ := delivers_of_mdelivers hr d2
    exact hu.2.2 i ⟨⟨_, _, _, g1, t1.2.1, i1⟩, _, _, _, g2, t2.2.1, i2⟩
  obtain ⟨m1', h3, h4⟩ := step_swap h1 h2 hd
  obtain ⟨e1, r1⟩ := trace_rel p m m2 [x, y] [a, b] hr (.cons h1 (.cons h2 (.nil _)))
  obtain ⟨e2, r2⟩ := trace_rel p m m2 [y, x] [b, a] hr (.cons h3 (.cons h4 (.nil _)))
  refine ⟨⟨a, b, e1, e2⟩, fun f => ?_⟩
  obtain ⟨as, m', hf⟩ := trace_total m2 f
  rw [(trace_rel _ _ _ _ _ r1 hf).1, (trace_rel _ _ _ _ _ r2 hf).1]

/-- Part 1 of a message and a GSV sentence, while part 2 is pending. -/
example : Reachable (run Parser.new [(demoEnv, c! "!AIVDM,2,2,7,B,GMK6@,0")]) ∧
    Unrelated (run Parser.new [(demoEnv, c! "!AIVDM,2,2,7,B,GMK6@,0")]) (c! "!AIVDM,2,1,7,B,:5MlU41,0")
      (c! "$GPGSV,2,1,00") := by
  have hb : ¬ Bang (c! "$GPGSV,2,1,00") := fun ⟨_, e⟩ => absurd (List.cons.inj e).1 (by decide)
  refine ⟨⟨_, rfl⟩, ?_, ?_, ?_⟩
  · rintro own id chan ⟨-, _, _, _, h⟩; exact hb h.bang
  · rintro talker n ⟨⟨_, _, h⟩, -⟩; exact h.notBang ⟨_, rfl⟩
  · rintro mmsi ⟨-, _, _, _, h, -⟩
    cases h with
    | single _ h => exact hb h.bang
    | first _ _ _ _ h _ => exact hb h.bang
    | second _ _ _ _ h _ => exact hb h.bang

theorem reachable_next {p : Parser} (hp : Reachable p) (x : Env × Str) : Reachable (parseSentence x.1 p x.2).2 := by
  obtain ⟨g, rfl⟩ := hp
  exact ⟨g ++ [x], by rw [run_append']; rfl⟩

/-- C110: so for every history and every reordering that exchanges unrelated neighbours: the sentences keep their
answers, and no further sentence tells the difference. -/
theorem C110_reordered (p : Parser) (hp : Reachable p) (h h' : List (Env × Str)) (hr : Reordered p h h') :
    (h.zip (answers p h)).Perm (h'.zip (answers p h')) ∧ ∀ f, answers (run p h) f = answers (run p h') f := by
  induction hr with
  | refl p h => exact ⟨.refl _, fun _ => rfl⟩
  | swap p x y h hu =>
    obtain ⟨⟨a, b, e1, e2⟩, e3⟩ := C110_swap p hp x y hu
    simp only [answers, List.cons.injEq, and_true] at e1 e2
    have e4 := e3 h
    refine ⟨?_, fun f => ?_⟩
    · simp only [answers]
      rw [e1.1, e1.2, e2.1, e2.2]
      simp only [List.zip_cons_cons]
      have e5 : answers (parseSentence y.1 (parseSentence x.1 p x.2).2 y.2).2 h =
        answers (parseSentence x.1 (parseSentence y.1 p y.2).2 x.2).2 h := e4
      rw [e5]
      exact .swap _ _ _
    · have happ : ∀ (q : Parser) (g k : List (Env × Str)), answers q (g ++ k) = answers q g ++ answers (run q g) k := by
        intro q g k
        induction g generalizing q with
        | nil => rfl
        | cons z g ih => simp only [List.cons_append, answers, run]; rw [ih]
      have e6 := e3 (h ++ f)
      rw [happ, happ, e4] at e6
      exact List.append_cancel_left e6
  | cons p x h h' _ ih =>
    obtain ⟨i1, i2⟩ := ih (reachable_next hp x)
    refine ⟨?_, i2⟩
    simp only [answers, List.zip_cons_cons]
    exact .cons _ i1
  | trans p h h' h'' _ _ ih1 ih2 =>
    exact ⟨(ih1 hp).1.trans (ih2 hp).1, fun f => ((ih1 hp).2 f).trans ((ih2 hp).2 f)⟩

/-- Three sentences: the last one moves to the front in two steps. -/
example (a b : Env × Str) (h1 : Unrelated (parseSentence a.1 Parser.new a.2).2 b.2 (c! "$GPGLL,,,,,,"))
    (h2 : Unrelated Parser.new a.2 (c! "$GPGLL,,,,,,")) (e : Env) :
    Reordered Parser.new [a, b, (e, c! "$GPGLL,,,,,,")] [(e, c! "$GPGLL,,,,,,"), a, b] :=
  .trans _ _ [a, (e, c! "$GPGLL,,,,,,"), b] _ (.cons _ _ _ _ (.swap _ b (e, _) [] h1)) (.swap _ a (e, _) [b] h2)

/-- C110: 'any two sentences may be exchanged' is false: the report goes with the sentence that comes last. -/
theorem C110_related : ∃ d, answers Parser.new [(demoEnv, c! "!AIVDM,2,1,7,B,:5MlU41,0"),
      (demoEnv, c! "!AIVDM,2,2,7,B,GMK6@,0")] = [.ok .incomplete, .ok (.utcDateInquiry d)] ∧
    answers Parser.new [(demoEnv, c! "!AIVDM,2,2,7,B,GMK6@,0"),
      (demoEnv, c! "!AIVDM,2,1,7,B,:5MlU41,0")] = [.ok .incomplete, .ok (.utcDateInquiry d)] :=
  ⟨{ ownVessel := false, station := .mobileStation, sourceMmsi := 366814480, destinationMmsi := 366832740 },
    by decide +kernel, by decide +kernel⟩

/-! ### Streams -/

theorem answers_length (p : Parser) (h : List (Env × Str)) : (answers p h).length = h.length := by
  induction h generalizing p with
  | nil => rfl
  | cons x h ih => rw [answers, List.length_cons, List.length_cons, ih]

/-- C127: the sentences of a stream are divided among several parsers in any way, but so that sentences of one group go to
one parser. Then every sentence is answered by its parser as by a single parser that receives all of them. -/
theorem C127_divided {ι : Type} [DecidableEq ι] (h : List (ι × Env × Str))
    (hs : ∀ i j, i ≠ j → Separate (shareOf i h) (shareOf j h)) (i : ι) :
    answers Parser.new (shareOf i h) = shareOf i (namedAnswers h) := by
  obtain ⟨as, m, ht, -, e⟩ := divided_trace h hs h [] Memory.empty rfl (divided_empty h)
  have := e i
  rw [namedAnswers, (trace_rel _ _ _ _ _ rel_new ht).1]
  exact this

/-- C127: in whatever order the sentences for different parsers come: everything that follows is answered alike (by the
single parser). -/
theorem C127_any_order {ι : Type} [DecidableEq ι] (h h' : List (ι × Env × Str))
    (hs : ∀ i j, i ≠ j → Separate (shareOf i h) (shareOf j h)) (he : ∀ i, shareOf i h = shareOf i h')
    (f : List (Env × Str)) :
    answers (run Parser.new (h.map (·.2))) f = answers (run Parser.new (h'.map (·.2))) f := by
  obtain ⟨m, hr, hd⟩ := divided_memory h hs
  obtain ⟨m', hr', hd'⟩ := divided_memory h' (fun i j hij => by rw [← he i, ← he j]; exact hs i j hij)
  obtain rfl := divided_eq h h' he m m' hd hd'
  obtain ⟨as, m'', hf⟩ := trace_total m f
  rw [(trace_rel _ _ _ _ _ hr hf).1, (trace_rel _ _ _ _ _ hr' hf).1]

/-- C110: two streams without a common group, merged in any way: every sentence is answered as in its own stream alone, and
no further sentence tells in which way they were merged. -/
theorem C110_merged_streams (h1 h2 h : List (Env × Str)) (hm : Merge h1 h2 h) (hs : Separate h1 h2) :
    Merge (h1.zip (answers Parser.new h1)) (h2.zip (answers Parser.new h2)) (h.zip (answers Parser.new h)) ∧
    ∀ f, answers (run Parser.new h) f = answers (run Parser.new (h1 ++ h2)) f := by
  obtain ⟨l, rfl, e1, e2⟩ := merge_labels hm
  have hd : ∀ i j, i ≠ j → Separate (shareOf i l) (shareOf j l) := by
    intro i j hij
    cases i <;> cases j <;> first | exact absurd rfl hij | skip
    · rw [e1, e2]; exact hs.symm
    · rw [e1, e2]; exact hs
  have hlen : (answers Parser.new (l.map (·.2))).length = l.length := by rw [answers_length, List.length_map]
  constructor
  · have := labels_merge ((l.map (·.1)).zip ((l.map (·.2)).zip (answers Parser.new (l.map (·.2)))))
    rw [shareOf_zip _ _ _ hlen, shareOf_zip _ _ _ hlen, zip_labels _ _ hlen] at this
    rw [← e1, ← e2, C127_divided l hd true, C127_divided l hd false]
    exact this
  · intro f
    have hmap : h1 ++ h2 = (h1.map (fun x => (true, x)) ++ h2.map (fun x => (false, x))).map (·.2) := by
      simp
    rw [hmap]
    refine C127_any_order l _ hd (fun i => ?_) f
    cases i
    · rw [e2, shareOf_append]; simp [shareOf, List.filter_map, Function.comp_def]
    · rw [e1, shareOf_append]; simp [shareOf, List.filter_map, Function.comp_def]

/-- A type 24 message in two parts and a GSV group. -/
def demoSplit : List (Env × Str) :=
  [(demoEnv, c! "!AIVDM,2,1,7,B,H42O55i18tMET,0"), (demoEnv, c! "!AIVDM,2,2,7,B,00000000000000,2")]

def demoGroup : List (Env × Str) := [(demoEnv, c! "$GPGSV,2,1,00"), (demoEnv, c! "$GPGSV,2,2,00")]

theorem demoSeparate : Separate demoSplit demoGroup := by
  have hb : ∀ x ∈ demoGroup, ¬ Bang x.2 := by
    intro x hx
    simp only [demoGroup, List.mem_cons, List.not_mem_nil, or_false] at hx
    rintro ⟨t, e⟩
    rcases hx with rfl | rfl <;> exact absurd (List.cons.inj e).1 (by decide)
  have hb' : ∀ x ∈ demoSplit, Bang x.2 := by
    intro x hx
    simp only [demoSplit, List.mem_cons, List.not_mem_nil, or_false] at hx
    rcases hx with rfl | rfl <;> exact ⟨_, rfl⟩
  refine ⟨?_, ?_, ?_⟩
  · rintro own id chan ⟨-, x, hx, _, _, _, h⟩; exact hb x hx h.bang
  · rintro talker n ⟨⟨x, hx, _, _, h⟩, -⟩; exact h.notBang (hb' x hx)
  · rintro mmsi ⟨-, a, x, b, e, _, _, _, h, -⟩
    have hx := hb x (by rw [e]; simp)
    cases h with
    | single _ h => exact hx h.bang
    | first _ _ _ _ h _ => exact hx h.bang
    | second _ _ _ _ h _ => exact hx h.bang

/-- They are merged: part 1, GSV 1, part 2, GSV 2. -/
example : ∃ h, Merge demoSplit demoGroup h ∧ Separate demoSplit demoGroup ∧ h.length = 4 :=
  ⟨_, .left (.right (.left (.right .nil))), demoSeparate, rfl⟩

/-- One parser for AIS (`true`) and one for GNSS. -/
example : ∀ i j : Bool, i ≠ j →
    Separate (shareOf i [(true, demoEnv, c! "!AIVDM,2,1,7,B,H42O55i18tMET,0"), (false, demoEnv, c! "$GPGSV,2,1,00"),
        (true, demoEnv, c! "!AIVDM,2,2,7,B,00000000000000,2"), (false, demoEnv, c! "$GPGSV,2,2,00")])
      (shareOf j [(true, demoEnv, c! "!AIVDM,2,1,7,B,H42O55i18tMET,0"), (false, demoEnv, c! "$GPGSV,2,1,00"),
        (true, demoEnv, c! "!AIVDM,2,2,7,B,00000000000000,2"), (false, demoEnv, c! "$GPGSV,2,2,00")]) := by
  intro i j hij
  cases i <;> cases j <;> first | exact absurd rfl hij | skip
  · exact demoSeparate.symm
  · exact demoSeparate

/-- C127: 'sentences may be handed to several parsers in turn' is false: two parsers with one part each report nothing. -/
theorem C127_in_turn : ∃ d, answers Parser.new [(demoEnv, c! "!AIVDM,2,1,7,B,:5MlU41,0"),
      (demoEnv, c! "!AIVDM,2,2,7,B,GMK6@,0")] = [.ok .incomplete, .ok (.utcDateInquiry d)] ∧
    answers Parser.new [(demoEnv, c! "!AIVDM,2,1,7,B,:5MlU41,0")] = [.ok .incomplete] ∧
    answers Parser.new [(demoEnv, c! "!AIVDM,2,2,7,B,GMK6@,0")] = [.ok .incomplete] :=
  ⟨{ ownVessel := false, station := .mobileStation, sourceMmsi := 366814480, destinationMmsi := 366832740 },
    by decide +kernel, by decide +kernel, by decide +kernel⟩

end Nmea
