/-
C99-C101: the answers to the sentences of one group, however they were lost, repeated or reordered.
-/
import Verif.Lemmas.Streams
import Verif.Props.Loss

namespace Nmea
open Spec

/-! ### Two-part messages -/

theorem parts_notStatic {own : Bool} {id : Nat} {chan : Str} {h : List (Env × Str)} {l : List PartIn}
    (hl : ∀ x ∈ l, x.Of own id chan) (hh : only (InGroup own id chan) h = l.map fun x => (x.env, x.sentence)) :
    ∀ x ∈ h, ∀ talker payload, Part talker own 1 id chan payload x.2 →
      payload ≠ [] ∧ typeOf (payloadBits payload) ≠ 24 := by
  intro x hx t pl hp
  have : x ∈ l.map fun x => (x.env, x.sentence) := hh ▸ mem_only.2 ⟨hx, ⟨_, _, _, hp⟩⟩
  obtain ⟨y, hy, rfl⟩ := List.mem_map.1 this
  obtain ⟨-, hp', h24⟩ := hl y hy
  obtain ⟨-, -, e, -, -, rfl⟩ := hp'.unique hp
  exact h24 e

/-- C99: whatever parts of a group are received in whatever order among whatever other sentences: a part that meets
its waiting counterpart is answered with the message of the two, every other part waits and replaces what waited. -/
theorem C99_any_stream (own : Bool) (id : Nat) (chan : Str) (l : List PartIn) (hl : ∀ x ∈ l, x.Of own id chan)
    (h : List (Env × Str)) (hh : only (InGroup own id chan) h = l.map fun x => (x.env, x.sentence)) :
    answersTo (InGroup own id chan) Parser.new h = partAnswers own none l := by
  rw [C88_groups_independent own id chan h (parts_notStatic hl hh), hh]
  obtain ⟨m, ht⟩ := trace_parts own id chan l hl none (fun _ _ e => by cases e) Memory.empty rfl
  exact answers_of_trace ht

/-- First part twice, second part, and another second part. -/
example : answersTo (InGroup false 7 (c! "B")) Parser.new
    [(demoEnv, demoX.sentence1), (demoEnv, demoX.sentence1), (demoEnv, c! "!AIVDM,2,1,8,B,:5MlU41,0"), (demoEnv, demoX.sentence2),
      (demoEnv, demoY.sentence2)] =
    [.ok .incomplete, .ok .incomplete, alone demoEnv (aisSentence (c! "AB") false (c! ":5MlU41" ++ c! "GMK6@")),
      .ok .incomplete] := by
  have h1 : PartIn.Of false 7 (c! "B") ⟨demoEnv, c! "AI", 1, c! ":5MlU41", demoX.sentence1⟩ :=
    ⟨.inl rfl, demoFirst, fun _ => ⟨by decide, by decide +kernel⟩⟩
  exact C99_any_stream false 7 (c! "B")
    [⟨demoEnv, c! "AI", 1, c! ":5MlU41", demoX.sentence1⟩, ⟨demoEnv, c! "AI", 1, c! ":5MlU41", demoX.sentence1⟩,
      ⟨demoEnv, c! "AB", 2, c! "GMK6@", demoX.sentence2⟩, ⟨demoEnv, c! "AI", 2, c! "000", demoY.sentence2⟩]
    (by
      simp only [List.forall_mem_cons, List.not_mem_nil, false_imp_iff, implies_true, and_true]
      exact ⟨h1, h1, ⟨.inr rfl, demoSecond, fun e => by cases e⟩, ⟨.inr rfl, demoSecond', fun e => by cases e⟩⟩) _
    (demoOnly_in demoIn1 (demoOnly_in demoIn1 (demoOnly_out demoOut (demoOnly_in demoIn2 (demoOnly_in demoIn2' demoOnly_nil)))))

/-- C99: if every sentence is received twice, every message but the first is reported twice: first with the part 2 of
the message before it, then with its own. -/
theorem C99_everything_twice (own : Bool) (id : Nat) (chan : Str) (x : TwoPart) (l : List TwoPart)
    (hx : x.Of own id chan) (hl : ∀ y ∈ l, y.Of own id chan) (h : List (Env × Str))
    (hh : only (InGroup own id chan) h = (doubledParts (x :: l)).map fun x => (x.env, x.sentence)) :
    answersTo (InGroup own id chan) Parser.new h =
      .ok .incomplete :: .ok .incomplete :: alone x.env2 (aisSentence x.talker2 own (x.payload1 ++ x.payload2)) ::
        .ok .incomplete :: mixedAnswers own x.payload2 l := by
  have key : ∀ l : List TwoPart, (∀ y ∈ l, y.Of own id chan) → ∀ z ∈ doubledParts l, z.Of own id chan := by
    intro l
    induction l with
    | nil => intro _ z hz; cases hz
    | cons y l ih =>
      intro hl z hz
      obtain ⟨h1, h2, h3⟩ := hl y List.mem_cons_self
      have a : PartIn.Of own id chan ⟨y.env1, y.talker1, 1, y.payload1, y.sentence1⟩ := ⟨.inl rfl, h1, fun _ => h3⟩
      have b : PartIn.Of own id chan ⟨y.env2, y.talker2, 2, y.payload2, y.sentence2⟩ :=
        ⟨.inr rfl, h2, fun e => by cases e⟩
      simp only [doubledParts, List.mem_cons] at hz
      rcases hz with rfl | rfl | rfl | rfl | hz
      · exact a
      · exact a
      · exact b
      · exact b
      · exact ih (fun w hw => hl w (List.mem_cons_of_mem _ hw)) z hz
  rw [C99_any_stream own id chan _ (key (x :: l) (by
    intro y hy
    rcases List.mem_cons.1 hy with rfl | hy
    · exact hx
    · exact hl y hy)) h hh]
  simp [doubledParts, partAnswers, partAnswers_doubled]

/-- Two messages, every sentence twice. -/
example : answersTo (InGroup false 7 (c! "B")) Parser.new
    [(demoEnv, demoX.sentence1), (demoEnv, demoX.sentence1), (demoEnv, demoX.sentence2), (demoEnv, demoX.sentence2),
      (demoEnv, demoY.sentence1), (demoEnv, demoY.sentence1), (demoEnv, demoY.sentence2), (demoEnv, demoY.sentence2)] =
    [.ok .incomplete, .ok .incomplete, alone demoEnv (aisSentence (c! "AB") false (c! ":5MlU41" ++ c! "GMK6@")), .ok .incomplete,
      alone demoEnv (aisSentence (c! "AI") false (c! "15M67F0" ++ c! "GMK6@")), .ok .incomplete,
      alone demoEnv (aisSentence (c! "AI") false (c! "15M67F0" ++ c! "000")), .ok .incomplete] :=
  C99_everything_twice false 7 (c! "B") demoX [demoY] demoX_of (fun y hy => demoXY_of y (List.mem_cons_of_mem _ hy)) _
    (demoOnly_in demoIn1 (demoOnly_in demoIn1 (demoOnly_in demoIn2 (demoOnly_in demoIn2
      (demoOnly_in demoIn1' (demoOnly_in demoIn1' (demoOnly_in demoIn2' (demoOnly_in demoIn2' demoOnly_nil))))))))

/-- C99: two messages of a group whose sentences overlap (1, 1, 2, 2) give one report, of the second part 1 and the
first part 2; the second part 2 waits. -/
theorem C99_overlapping (own : Bool) (id : Nat) (chan : Str) (x y : TwoPart) (hx : x.Of own id chan)
    (hy : y.Of own id chan) (h : List (Env × Str))
    (hh : only (InGroup own id chan) h =
      [(x.env1, x.sentence1), (y.env1, y.sentence1), (x.env2, x.sentence2), (y.env2, y.sentence2)]) :
    answersTo (InGroup own id chan) Parser.new h =
      [.ok .incomplete, .ok .incomplete, alone x.env2 (aisSentence x.talker2 own (y.payload1 ++ x.payload2)),
        .ok .incomplete] := by
  refine C99_any_stream own id chan
    [⟨x.env1, x.talker1, 1, x.payload1, x.sentence1⟩, ⟨y.env1, y.talker1, 1, y.payload1, y.sentence1⟩,
      ⟨x.env2, x.talker2, 2, x.payload2, x.sentence2⟩, ⟨y.env2, y.talker2, 2, y.payload2, y.sentence2⟩] ?_ h hh
  intro z hz
  simp only [List.mem_cons, List.not_mem_nil, or_false] at hz
  rcases hz with rfl | rfl | rfl | rfl
  · exact ⟨.inl rfl, hx.1, fun _ => hx.2.2⟩
  · exact ⟨.inl rfl, hy.1, fun _ => hy.2.2⟩
  · exact ⟨.inr rfl, hx.2.1, fun e => by cases e⟩
  · exact ⟨.inr rfl, hy.2.1, fun e => by cases e⟩

/-- The two messages of the examples. -/
example : answersTo (InGroup false 7 (c! "B")) Parser.new
    [(demoEnv, demoX.sentence1), (demoEnv, demoY.sentence1), (demoEnv, c! "!AIVDM,2,1,8,B,:5MlU41,0"), (demoEnv, demoX.sentence2),
      (demoEnv, demoY.sentence2)] =
    [.ok .incomplete, .ok .incomplete, alone demoEnv (aisSentence (c! "AB") false (c! "15M67F0" ++ c! "GMK6@")),
      .ok .incomplete] :=
  C99_overlapping false 7 (c! "B") demoX demoY demoX_of demoY_of _
    (demoOnly_in demoIn1 (demoOnly_in demoIn1' (demoOnly_out demoOut (demoOnly_in demoIn2 (demoOnly_in demoIn2' demoOnly_nil)))))

/-! ### Type 24 -/

/-- C100: whatever type 24 messages of an MMSI are received, in whatever order: every second one is answered with the
contents of the two together, whatever their part numbers. -/
theorem C100_any_stream (mmsi : Nat) (l : List StaticSentence) (hl : ∀ x ∈ l, x.Of mmsi 0 ∨ x.Of mmsi 1)
    (h : List (Env × Str))
    (hh : ∀ x ∈ h, ∀ talker own id chan payload, Part talker own 1 id chan payload x.2 →
      payload ≠ [] ∧ typeOf (payloadBits payload) ≠ 24)
    (he : only (StaticOf mmsi) h = l.map fun x => (x.env, x.sentence)) :
    answersTo (StaticOf mmsi) Parser.new h = staticAnswers none l := by
  rw [C92_vessels_independent mmsi h hh, he]
  obtain ⟨m, ht⟩ := trace_static mmsi l hl none Memory.empty rfl
  exact answers_of_trace ht

/-- Part B, a part of another message, part A. -/
example : answersTo (StaticOf 271041815) Parser.new
      [(demoEnv, demoSB.sentence), (demoEnv, c! "!AIVDM,2,1,8,B,:5MlU41,0"), (demoEnv, demoSA.sentence)] =
    [.ok .incomplete,
      .ok (.vesselStaticData (overlay (partData false (payloadBits demoA)) (partData true (payloadBits demoB))))] :=
  C100_any_stream 271041815 [demoSB, demoSA]
    (by
      simp only [List.forall_mem_cons, List.not_mem_nil, false_imp_iff, implies_true, and_true]
      exact ⟨.inr demoSB_of, .inl demoSA_of⟩) _
    (fun x hx => demoNoSplit x (by simp only [List.mem_cons, List.not_mem_nil, or_false] at hx ⊢; tauto))
    (demoOnly_in demoSB_in (demoOnly_out demoS_out (demoOnly_in demoSA_in demoOnly_nil)))

/-- C100: if every message is received twice, parts A and B are never combined: each is reported by itself, without
the data of the other. -/
theorem C100_everything_twice (mmsi : Nat) (l : List StaticSentence) (hl : ∀ x ∈ l, x.Of mmsi 0 ∨ x.Of mmsi 1)
    (h : List (Env × Str))
    (hh : ∀ x ∈ h, ∀ talker own id chan payload, Part talker own 1 id chan payload x.2 →
      payload ≠ [] ∧ typeOf (payloadBits payload) ≠ 24)
    (he : only (StaticOf mmsi) h = (doubled l).map fun x => (x.env, x.sentence)) :
    answersTo (StaticOf mmsi) Parser.new h = singleAnswers l := by
  rw [C100_any_stream mmsi (doubled l) ?_ h hh he, staticAnswers_doubled]
  have : ∀ l : List StaticSentence, ∀ x ∈ doubled l, x ∈ l := by
    intro l
    induction l with
    | nil => intro x hx; cases hx
    | cons y l ih =>
      intro x hx
      simp only [doubled, List.mem_cons] at hx
      rcases hx with rfl | rfl | hx
      · exact List.mem_cons_self
      · exact List.mem_cons_self
      · exact List.mem_cons_of_mem _ (ih x hx)
  exact fun x hx => hl x (this l x hx)

/-- Parts A and B, each twice. -/
example : answersTo (StaticOf 271041815) Parser.new
      [(demoEnv, demoSA.sentence), (demoEnv, demoSA.sentence), (demoEnv, demoSB.sentence), (demoEnv, demoSB.sentence)] =
    [.ok .incomplete, .ok (.vesselStaticData (partData false (payloadBits demoA))), .ok .incomplete,
      .ok (.vesselStaticData (partData true (payloadBits demoB)))] :=
  C100_everything_twice 271041815 [demoSA, demoSB]
    (by
      simp only [List.forall_mem_cons, List.not_mem_nil, false_imp_iff, implies_true, and_true]
      exact ⟨.inl demoSA_of, .inr demoSB_of⟩) _
    (fun x hx => demoNoSplit x (by simp only [List.mem_cons, List.not_mem_nil, or_false] at hx ⊢; tauto))
    (demoOnly_in demoSA_in (demoOnly_in demoSA_in (demoOnly_in demoSB_in (demoOnly_in demoSB_in demoOnly_nil))))

/-! ### GSV -/

/-- C101: whatever sentences of a GSV group are received, in whatever order: the last one of each number is kept;
once 1 to n are kept, they are reported in order and forgotten. -/
theorem C101_any_stream (talker : Str) (n : Nat) (hn : n < 2 ^ 32 - 1) (l : List GsvIn)
    (hl : ∀ x ∈ l, GsvPart talker n x.num x.fields x.sentence) (h : List (Env × Str))
    (hh : only (GsvOfGroup talker n) h = l.map fun x => (x.env, x.sentence)) :
    answersTo (GsvOfGroup talker n) Parser.new h = gsvAnswers (talkerSystem talker) n (fun _ => none) l := by
  rw [C87_groups_independent, hh]
  obtain ⟨m, ht⟩ := trace_gsv talker n hn l hl (fun _ => none) Memory.empty (fun _ => rfl)
  exact answers_of_trace ht

/-- Sentence 2 of a group, then sentence 1. -/
example : answersTo (GsvOfGroup (c! "GP") 2) Parser.new
    [(demoEnv, demoG2.sentence), (demoEnv, c! "!AIVDM,2,1,8,B,:5MlU41,0"), (demoEnv, demoG1.sentence)] =
    [.ok .incomplete, .ok (.gsv [⟨.gps, 1, some 40, some 83, some 46⟩, ⟨.gps, 2, some 17, none, none⟩])] := by
  rw [C101_any_stream (c! "GP") 2 (by decide) [demoG2, demoG1]
    (by
      simp only [List.forall_mem_cons, List.not_mem_nil, false_imp_iff, implies_true, and_true]
      exact ⟨demoGsv2, demoGsv1⟩)
    [(demoEnv, demoG2.sentence), (demoEnv, c! "!AIVDM,2,1,8,B,:5MlU41,0"), (demoEnv, demoG1.sentence)]
    (demoOnly_in demoG2_in (demoOnly_out demoG_out (demoOnly_in demoG1_in demoOnly_nil)))]
  decide +kernel

/-! ### Counting -/

/-- C102: no part of a two-part message is used for two reports: there are at most half as many reports as parts. -/
theorem C102_parts (own : Bool) (id : Nat) (chan : Str) (l : List PartIn) (hl : ∀ x ∈ l, x.Of own id chan)
    (h : List (Env × Str)) (hh : only (InGroup own id chan) h = l.map fun x => (x.env, x.sentence)) :
    2 * reports (answersTo (InGroup own id chan) Parser.new h) ≤ l.length := by
  rw [C99_any_stream own id chan l hl h hh]
  simpa using partAnswers_reports own none l

/-- Two second parts give at most one report. -/
example : 2 * reports (answersTo (InGroup false 7 (c! "B")) Parser.new
    [(demoEnv, demoX.sentence2), (demoEnv, c! "!AIVDM,2,1,8,B,:5MlU41,0"), (demoEnv, demoY.sentence2)]) ≤ 2 :=
  C102_parts false 7 (c! "B") [⟨demoEnv, c! "AB", 2, c! "GMK6@", demoX.sentence2⟩, ⟨demoEnv, c! "AI", 2, c! "000", demoY.sentence2⟩]
    (by
      simp only [List.forall_mem_cons, List.not_mem_nil, false_imp_iff, implies_true, and_true]
      exact ⟨⟨.inr rfl, demoSecond, fun e => by cases e⟩, ⟨.inr rfl, demoSecond', fun e => by cases e⟩⟩) _
    (demoOnly_in demoIn2 (demoOnly_out demoOut (demoOnly_in demoIn2' demoOnly_nil)))

/-- C102: of the type 24 messages of a vessel exactly every second one is answered with a report. -/
theorem C102_static (mmsi : Nat) (l : List StaticSentence) (hl : ∀ x ∈ l, x.Of mmsi 0 ∨ x.Of mmsi 1)
    (h : List (Env × Str))
    (hh : ∀ x ∈ h, ∀ talker own id chan payload, Part talker own 1 id chan payload x.2 →
      payload ≠ [] ∧ typeOf (payloadBits payload) ≠ 24)
    (he : only (StaticOf mmsi) h = l.map fun x => (x.env, x.sentence)) :
    reports (answersTo (StaticOf mmsi) Parser.new h) = l.length / 2 := by
  rw [C100_any_stream mmsi l hl h hh he]
  simpa using staticAnswers_reports none l

/-- Five messages of a vessel give two reports, whichever they are. -/
example : reports (answersTo (StaticOf 271041815) Parser.new
      [(demoEnv, demoSB.sentence), (demoEnv, demoSB.sentence), (demoEnv, c! "!AIVDM,2,1,8,B,:5MlU41,0"), (demoEnv, demoSA.sentence),
        (demoEnv, demoSB.sentence), (demoEnv, demoSA.sentence)]) = 2 :=
  C102_static 271041815 [demoSB, demoSB, demoSA, demoSB, demoSA]
    (by
      simp only [List.forall_mem_cons, List.not_mem_nil, false_imp_iff, implies_true, and_true]
      exact ⟨.inr demoSB_of, .inr demoSB_of, .inl demoSA_of, .inr demoSB_of, .inl demoSA_of⟩) _
    (fun x hx => demoNoSplit x (by simp only [List.mem_cons, List.not_mem_nil, or_false] at hx ⊢; tauto))
    (demoOnly_in demoSB_in (demoOnly_in demoSB_in (demoOnly_out demoS_out (demoOnly_in demoSA_in (demoOnly_in demoSB_in
      (demoOnly_in demoSA_in demoOnly_nil))))))

/-- C102: no GSV sentence is used for two reports: a group of n sentences is reported at most once for n sentences
received. -/
theorem C102_gsv (talker : Str) (n : Nat) (hn : n < 2 ^ 32 - 1) (l : List GsvIn)
    (hl : ∀ x ∈ l, GsvPart talker n x.num x.fields x.sentence) (h : List (Env × Str))
    (hh : only (GsvOfGroup talker n) h = l.map fun x => (x.env, x.sentence)) :
    n * reports (answersTo (GsvOfGroup talker n) Parser.new h) ≤ l.length := by
  rw [C101_any_stream talker n hn l hl h hh]
  have h0 : kept (fun _ => none) n = 0 := by simp [kept]
  simpa [h0] using gsvAnswers_reports (talkerSystem talker) n (fun _ => none) l

/-- Three sentences of a group of two give at most one report. -/
example : 2 * reports (answersTo (GsvOfGroup (c! "GP") 2) Parser.new
    [(demoEnv, demoG2.sentence), (demoEnv, c! "!AIVDM,2,1,8,B,:5MlU41,0"), (demoEnv, demoG1.sentence), (demoEnv, demoG1.sentence)]) ≤ 3 :=
  C102_gsv (c! "GP") 2 (by decide) [demoG2, demoG1, demoG1]
    (by
      simp only [List.forall_mem_cons, List.not_mem_nil, false_imp_iff, implies_true, and_true]
      exact ⟨demoGsv2, demoGsv1, demoGsv1⟩) _
    (demoOnly_in demoG2_in (demoOnly_out demoG_out (demoOnly_in demoG1_in (demoOnly_in demoG1_in demoOnly_nil))))

/-! ### Concrete streams -/

/-- Parts of two messages of type 10 to different addressees, every sentence received twice: the second message is
reported to the addressee of the first one, and then to its own. -/
example : (answers Parser.new
      [(demoEnv, c! "!AIVDM,2,1,7,B,:5MlU41,0"), (demoEnv, c! "!AIVDM,2,1,7,B,:5MlU41,0"),
       (demoEnv, c! "!AIVDM,2,2,7,B,001@@,0"), (demoEnv, c! "!AIVDM,2,2,7,B,001@@,0"),
       (demoEnv, c! "!AIVDM,2,1,7,B,:5MlU41,0"), (demoEnv, c! "!AIVDM,2,1,7,B,:5MlU41,0"),
       (demoEnv, c! "!AIVDM,2,2,7,B,GMK6@,0"), (demoEnv, c! "!AIVDM,2,2,7,B,GMK6@,0")]).map (fun a =>
        match a with
        | .ok (.utcDateInquiry d) => d.destinationMmsi
        | _ => 0) = [0, 0, 268436740, 0, 268436740, 0, 366832740, 0] := by decide +kernel

/-- They are parts of one group. -/
example : PartIn.Of false 7 (c! "B") ⟨demoEnv, c! "AI", 1, c! ":5MlU41", c! "!AIVDM,2,1,7,B,:5MlU41,0"⟩ ∧
    PartIn.Of false 7 (c! "B") ⟨demoEnv, c! "AI", 2, c! "GMK6@", c! "!AIVDM,2,2,7,B,GMK6@,0"⟩ :=
  ⟨⟨.inl rfl, ⟨[c! "2", c! "1", c! "7", c! "B", c! ":5MlU41", c! "0"], demoTagged .bare (by decide),
      demoDec (by decide), demoDec (by decide), demoDec (by decide), rfl, rfl⟩, fun _ => by decide⟩,
    ⟨.inr rfl, ⟨[c! "2", c! "2", c! "7", c! "B", c! "GMK6@", c! "0"], demoTagged .bare (by decide),
      demoDec (by decide), demoDec (by decide), demoDec (by decide), rfl, rfl⟩, fun e => by cases e⟩⟩

/-- A GSV group of two in which every sentence is received twice: the second copy of sentence 2 stays and is reported
with the next sentence 1. -/
example : answers Parser.new
      [(demoEnv, c! "$GPGSV,2,1,02,11,,,"), (demoEnv, c! "$GPGSV,2,1,02,11,,,"), (demoEnv, c! "$GPGSV,2,2,02,12,,,"),
       (demoEnv, c! "$GPGSV,2,2,02,12,,,"), (demoEnv, c! "$GPGSV,2,1,02,21,,,"), (demoEnv, c! "$GPGSV,2,1,02,21,,,")] =
    [.ok .incomplete, .ok .incomplete, .ok (.gsv [⟨.gps, 11, none, none, none⟩, ⟨.gps, 12, none, none, none⟩]),
     .ok .incomplete, .ok (.gsv [⟨.gps, 21, none, none, none⟩, ⟨.gps, 12, none, none, none⟩]), .ok .incomplete] := by
  decide +kernel

/-- Parts A and B of a vessel, each received twice (see the instances after C93): the first report has no call sign,
the second one no name. -/
example : (answers Parser.new
      [(demoEnv, c! "!AIVDM,1,1,,A,H42O55i18tMET00000000000000,2"), (demoEnv, c! "!AIVDM,1,1,,A,H42O55i18tMET00000000000000,2"),
       (demoEnv, c! "!AIVDM,1,1,,A,H42O55lti4hhhilD3nink000?050,0"),
       (demoEnv, c! "!AIVDM,1,1,,A,H42O55lti4hhhilD3nink000?050,0")]).map (fun a =>
        match a with
        | .ok (.vesselStaticData d) => (d.name, d.callSign)
        | _ => (none, none)) =
    [(none, none), (some (c! "PROGUY"), none), (none, none), (none, some (c! "TC6163"))] := by decide +kernel

end Nmea
