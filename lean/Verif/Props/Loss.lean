/-
C90-C93: streams in which sentences were lost, and the independence of vessels.
-/
import Verif.Lemmas.Loss
import Verif.Props.Machine
import Verif.Lemmas.DemoStreams

namespace Nmea
open Spec

/-! ### Two-part messages -/

theorem withoutSeconds_notStatic {own : Bool} {id : Nat} {chan : Str} {h : List (Env × Str)}
    {r : List (Env × Str)} (hr : only (InGroup own id chan) h = r)
    (hy : ∀ x ∈ r, ∃ y : TwoPart, y.Of own id chan ∧ (x = (y.env1, y.sentence1) ∨ x = (y.env2, y.sentence2))) :
    ∀ x ∈ h, ∀ talker payload, Part talker own 1 id chan payload x.2 →
      payload ≠ [] ∧ typeOf (payloadBits payload) ≠ 24 := by
  intro x hx t pl hp
  have : x ∈ r := hr ▸ mem_only.2 ⟨hx, ⟨_, _, _, hp⟩⟩
  obtain ⟨y, ho, he⟩ := hy x this
  exact ho.notStatic he t pl hp

/-- C90: if only second parts get lost, no message is mixed up: among any other sentences, every message whose two
parts arrive is reported with its own two payloads, and everything else of its group waits. -/
theorem C90_second_parts_lost (own : Bool) (id : Nat) (chan : Str) (l : List (TwoPart × Bool))
    (hl : ∀ x ∈ l, x.1.Of own id chan) (h : List (Env × Str))
    (hh : only (InGroup own id chan) h = withoutSeconds l) :
    answersTo (InGroup own id chan) Parser.new h = ownAnswers own l := by
  rw [C88_groups_independent own id chan h (withoutSeconds_notStatic hh (fun x hx => by
    obtain ⟨y, hy, e⟩ := mem_withoutSeconds hx
    exact ⟨y.1, hl y hy, e⟩)), hh]
  obtain ⟨m, ht⟩ := trace_withoutSeconds own id chan l hl Memory.empty (fun y e => by cases e)
  exact answers_of_trace ht

/-- Two messages, the second part of the first one lost, with a part of another group in between. -/
example : answersTo (InGroup false 7 (c! "B")) Parser.new
    [(demoEnv, demoX.sentence1), (demoEnv, c! "!AIVDM,2,1,8,B,:5MlU41,0"), (demoEnv, demoY.sentence1), (demoEnv, demoY.sentence2)] =
    [.ok .incomplete, .ok .incomplete, alone demoEnv (aisSentence (c! "AI") false (c! "15M67F0" ++ c! "000"))] :=
  C90_second_parts_lost false 7 (c! "B") [(demoX, false), (demoY, true)]
    (by
      simp only [List.forall_mem_cons, List.not_mem_nil, false_imp_iff, implies_true, and_true]
      exact ⟨demoX_of, demoY_of⟩) _
    (demoOnly_in demoIn1 (demoOnly_out demoOut (demoOnly_in demoIn1' (demoOnly_in demoIn2' demoOnly_nil))))

/-- C90: one lost first part spoils every later message of its group: each part 1 is reported at once, with the
part 2 of the message before it, and each part 2 waits for the part 1 of the message after it. -/
theorem C90_first_part_lost (own : Bool) (id : Nat) (chan : Str) (x : TwoPart) (l : List TwoPart)
    (hx : x.Of own id chan) (hl : ∀ y ∈ l, y.Of own id chan) (h : List (Env × Str))
    (hh : only (InGroup own id chan) h = (x.env2, x.sentence2) :: bothParts l) :
    answersTo (InGroup own id chan) Parser.new h = .ok .incomplete :: shiftedAnswers own x.payload2 l := by
  rw [C88_groups_independent own id chan h (withoutSeconds_notStatic hh (fun z hz => by
    rcases List.mem_cons.1 hz with rfl | hz
    · exact ⟨x, hx, .inr rfl⟩
    · obtain ⟨y, hy, e⟩ := mem_bothParts hz
      exact ⟨y, hl y hy, e⟩)), hh]
  obtain ⟨m, ht⟩ := trace_shifted own id chan l hl x.payload2 _
    (setPart_self Memory.empty own id chan (some (2, x.payload2)))
  exact answers_of_trace (.cons (.waits hx.2.1 (.inr rfl) (fun y e => by cases e)) ht)

/-- The first part of the first message is lost: both reports that follow are of parts of different messages. -/
example : answersTo (InGroup false 7 (c! "B")) Parser.new
    [(demoEnv, demoX.sentence2), (demoEnv, demoX.sentence1), (demoEnv, demoX.sentence2), (demoEnv, c! "!AIVDM,2,1,8,B,:5MlU41,0"),
      (demoEnv, demoY.sentence1), (demoEnv, demoY.sentence2)] =
    [.ok .incomplete, alone demoEnv (aisSentence (c! "AI") false (c! ":5MlU41" ++ c! "GMK6@")), .ok .incomplete,
      alone demoEnv (aisSentence (c! "AI") false (c! "15M67F0" ++ c! "GMK6@")), .ok .incomplete] :=
  C90_first_part_lost false 7 (c! "B") demoX [demoX, demoY] demoX_of demoXY_of _
    (demoOnly_in demoIn2 (demoOnly_in demoIn1 (demoOnly_in demoIn2 (demoOnly_out demoOut (demoOnly_in demoIn1'
      (demoOnly_in demoIn2' demoOnly_nil))))))

/-- Two messages of type 10 on one channel, from 366814480 to 366832740 and to 268436740. -/
def demoTwoPart (s2 p2 : Str) : TwoPart :=
  { env1 := demoEnv, talker1 := c! "AI", payload1 := c! ":5MlU41", sentence1 := c! "!AIVDM,2,1,7,B,:5MlU41,0"
    env2 := demoEnv, talker2 := c! "AI", payload2 := p2, sentence2 := s2 }

/-- They meet the hypotheses. -/
example : (demoTwoPart (c! "!AIVDM,2,2,7,B,GMK6@,0") (c! "GMK6@")).Of false 7 (c! "B") ∧
    (demoTwoPart (c! "!AIVDM,2,2,7,B,001@@,0") (c! "001@@")).Of false 7 (c! "B") := by
  have h1 : Part (c! "AI") false 1 7 (c! "B") (c! ":5MlU41") (c! "!AIVDM,2,1,7,B,:5MlU41,0") :=
    ⟨[c! "2", c! "1", c! "7", c! "B", c! ":5MlU41", c! "0"], demoTagged .bare (by decide),
      demoDec (by decide), demoDec (by decide), demoDec (by decide), rfl, rfl⟩
  exact ⟨⟨h1, ⟨[c! "2", c! "2", c! "7", c! "B", c! "GMK6@", c! "0"], demoTagged .bare (by decide),
      demoDec (by decide), demoDec (by decide), demoDec (by decide), rfl, rfl⟩, by decide⟩,
    ⟨h1, ⟨[c! "2", c! "2", c! "7", c! "B", c! "001@@", c! "0"], demoTagged .bare (by decide),
      demoDec (by decide), demoDec (by decide), demoDec (by decide), rfl, rfl⟩, by decide⟩⟩

/-- C90: 'a message is only ever reported with the data sent in it' is false: after the loss of a first part, the
message to 366832740 is reported as one to the addressee of the message before. -/
theorem C90_mixed_counterexample :
    ∃ d d', answers Parser.new [(demoEnv, c! "!AIVDM,2,2,7,B,001@@,0"), (demoEnv, c! "!AIVDM,2,1,7,B,:5MlU41,0"),
        (demoEnv, c! "!AIVDM,2,2,7,B,GMK6@,0")] =
      [.ok .incomplete, .ok (.utcDateInquiry d), .ok .incomplete] ∧
    answers Parser.new [(demoEnv, c! "!AIVDM,2,1,7,B,:5MlU41,0"), (demoEnv, c! "!AIVDM,2,2,7,B,GMK6@,0")] =
      [.ok .incomplete, .ok (.utcDateInquiry d')] ∧
    d.sourceMmsi = d'.sourceMmsi ∧ d'.destinationMmsi = 366832740 ∧ d.destinationMmsi ≠ 366832740 :=
  ⟨_, _, rfl, rfl, by decide +kernel⟩

/-! ### GSV groups -/

/-- C91: sentence `k` of the first cycle of a GSV group is lost. Each later cycle, though complete, is reported at
its sentence `k`, with the sentences after `k` taken from the cycle before: forever. For `k = n` (the last sentence
of the group) the reports are those of the cycles themselves: the loss is harmless. -/
theorem C91_sentence_lost (talker : Str) (n k : Nat) (src : Nat → Nat → Env × Str) (fields : Nat → Nat → List Str)
    (hk : 1 ≤ k ∧ k ≤ n) (hn : n < 2 ^ 32 - 1)
    (hs : ∀ c j, 1 ≤ j → j ≤ n → GsvPart talker n j (fields c j) (src c j).2)
    (cycles : Nat) (h : List (Env × Str))
    (hh : only (GsvOfGroup talker n) h = cycleWithout src n 0 k ++ (List.range' 1 cycles).flatMap (cycle src n)) :
    answersTo (GsvOfGroup talker n) Parser.new h =
      List.replicate (n - 1) (.ok .incomplete) ++
        (List.range' 1 cycles).flatMap (shiftedCycle (talkerSystem talker) fields n k) := by
  rw [C87_groups_independent, hh]
  obtain ⟨m1, h1, hm1⟩ := trace_lost talker n k src fields hk hn hs n 0 (by omega) Memory.empty
    ⟨rfl, fun i h1 h2 => by omega⟩
  obtain ⟨m2, h2⟩ := trace_cycles talker n k src fields hk hn hs cycles 0 m1
    ⟨fun _ => ⟨hm1.1, fun i h1 h2 => by omega, fun i h1 h2 => hm1.2 i (by omega) h2 (by omega)⟩, fun h => by omega⟩
  have hlen : ((List.range' 1 n).filter (· ≠ k)).length = n - 1 := by
    have e : (List.range' 1 n).filter (· ≠ k) = (List.range' 1 n).erase k := by
      rw [List.Nodup.erase_eq_filter List.nodup_range']
      exact List.filter_congr (fun x _ => by by_cases h : x = k <;> simp [h])
    rw [e, List.length_erase_of_mem (by rw [List.mem_range'_1]; omega), List.length_range']
  have h1' := h1
  rw [Nat.zero_add, hlen] at h1'
  exact answers_of_trace (h1'.append h2)

/-- The first sentence of cycle 0 is lost: the report of each later cycle is given at its first sentence. -/
example : answersTo (GsvOfGroup (c! "GP") 2) Parser.new
    [(demoEnv, demoG2.sentence), (demoEnv, demoG1.sentence), (demoEnv, c! "!AIVDM,2,1,8,B,:5MlU41,0"), (demoEnv, demoG2.sentence)] =
    [.ok .incomplete, .ok (.gsv (satellites .gps demoGsvFields1 ++ satellites .gps demoGsvFields2)), .ok .incomplete] := by
  have h := C91_sentence_lost (c! "GP") 2 1 (fun _ j => (demoEnv, if j = 1 then demoG1.sentence else demoG2.sentence))
    (fun _ j => if j = 1 then demoGsvFields1 else demoGsvFields2) (by decide) (by decide)
    (by
      intro c j h1 h2
      obtain rfl | rfl : j = 1 ∨ j = 2 := by omega
      · exact demoGsv1
      · exact demoGsv2) 1
    [(demoEnv, demoG2.sentence), (demoEnv, demoG1.sentence), (demoEnv, c! "!AIVDM,2,1,8,B,:5MlU41,0"), (demoEnv, demoG2.sentence)]
    (demoOnly_in demoG2_in (demoOnly_in demoG1_in (demoOnly_out demoG_out (demoOnly_in demoG2_in demoOnly_nil))))
  rw [h]
  decide +kernel

/-- C91: the last sentence being lost is harmless. -/
theorem C91_last_lost (talker : Str) (n : Nat) (src : Nat → Nat → Env × Str) (fields : Nat → Nat → List Str)
    (hk : 1 ≤ n) (hn : n < 2 ^ 32 - 1)
    (hs : ∀ c j, 1 ≤ j → j ≤ n → GsvPart talker n j (fields c j) (src c j).2)
    (cycles : Nat) (h : List (Env × Str))
    (hh : only (GsvOfGroup talker n) h = cycleWithout src n 0 n ++ (List.range' 1 cycles).flatMap (cycle src n)) :
    answersTo (GsvOfGroup talker n) Parser.new h =
      List.replicate (n - 1) (.ok .incomplete) ++
        (List.range' 1 cycles).flatMap fun c =>
          List.replicate (n - 1) (.ok .incomplete) ++
            [.ok (.gsv ((List.range' 1 n).flatMap fun j => satellites (talkerSystem talker) (fields c j)))] := by
  rw [C91_sentence_lost talker n n src fields ⟨hk, Nat.le_refl n⟩ hn hs cycles h hh]
  congr 1
  refine List.flatMap_congr (fun c _ => ?_)
  obtain ⟨r, rfl⟩ : ∃ r, n = r + 1 := ⟨n - 1, by omega⟩
  rw [shiftedCycle, List.range'_concat, List.map_append, Nat.add_sub_cancel]
  congr 1
  · rw [List.eq_replicate_iff]
    refine ⟨by simp, fun b hb => ?_⟩
    obtain ⟨j, hj, rfl⟩ := List.mem_map.1 hb
    rw [List.mem_range'_1] at hj
    exact if_neg (by omega)
  · rw [List.map_singleton, if_pos (by omega), ← List.range'_concat]
    congr 3
    refine List.flatMap_congr (fun i hi => ?_)
    rw [List.mem_range'_1] at hi
    rw [if_pos (by omega)]

/-- A two-sentence group with one satellite each, its number telling cycle and sentence; the first sentence of
cycle 0 is lost. -/
example : answers Parser.new
      [(demoEnv, c! "$GPGSV,2,2,02,02,,,"), (demoEnv, c! "$GPGSV,2,1,02,11,,,"), (demoEnv, c! "$GPGSV,2,2,02,12,,,"),
       (demoEnv, c! "$GPGSV,2,1,02,21,,,"), (demoEnv, c! "$GPGSV,2,2,02,22,,,")] =
    [.ok .incomplete,
     .ok (.gsv [⟨.gps, 11, none, none, none⟩, ⟨.gps, 2, none, none, none⟩]), .ok .incomplete,
     .ok (.gsv [⟨.gps, 21, none, none, none⟩, ⟨.gps, 12, none, none, none⟩]), .ok .incomplete] := by
  decide +kernel

/-- Sentences of a two-sentence group whose first sentence alternates from cycle to cycle. -/
example : ∀ c j, 1 ≤ j → j ≤ 2 →
    GsvPart (c! "GP") 2 j [c! "2", if j = 1 then c! "1" else c! "2", c! "02", if c % 2 = 0 then c! "11" else c! "12", [], [], []]
      (demoEnv, if j = 1 then if c % 2 = 0 then c! "$GPGSV,2,1,02,11,,," else c! "$GPGSV,2,1,02,12,,,"
        else if c % 2 = 0 then c! "$GPGSV,2,2,02,11,,," else c! "$GPGSV,2,2,02,12,,,").2 := by
  intro c j h1 h2
  obtain rfl | rfl : j = 1 ∨ j = 2 := by omega
  all_goals
    by_cases hc : c % 2 = 0
    all_goals
      simp only [hc, if_true, if_false, show ¬ (2 = 1) by decide]
      exact ⟨demoTagged .bare (by decide), .inr (demoDec (by decide)), .inr (demoDec (by decide))⟩

/-! ### Type 24 -/

/-- C92: the type 24 messages of a vessel are answered as if they were the only sentences, whatever other vessels
and streams send, if type 24 is not sent in two-part messages. -/
theorem C92_vessels_independent (mmsi : Nat) (h : List (Env × Str))
    (hh : ∀ x ∈ h, ∀ talker own id chan payload, Part talker own 1 id chan payload x.2 →
      payload ≠ [] ∧ typeOf (payloadBits payload) ≠ 24) :
    answersTo (StaticOf mmsi) Parser.new h = answers Parser.new (only (StaticOf mmsi) h) :=
  projection (StaticOf mmsi) (fun s => ∀ t own id chan x, Part t own 1 id chan x s → NotStatic x) (simStatic mmsi)
    (fun env m s a m' k => static_skip mmsi env m s a m' k)
    (fun env m s a m' k _ => static_step mmsi env m s a m' k)
    h hh _ _ _ _ rel_new rel_new ⟨rfl, fun _ _ _ _ e => by cases e⟩

/-- Part A, a part of another message, part B. -/
example : answersTo (StaticOf 271041815) Parser.new
      [(demoEnv, demoSA.sentence), (demoEnv, c! "!AIVDM,2,1,8,B,:5MlU41,0"), (demoEnv, demoSB.sentence)] =
    answers Parser.new [(demoEnv, demoSA.sentence), (demoEnv, demoSB.sentence)] := by
  rw [C92_vessels_independent 271041815 _ (fun x hx => demoNoSplit x (by
    simp only [List.mem_cons, List.not_mem_nil, or_false] at hx ⊢; tauto)),
    demoOnly_in demoSA_in (demoOnly_out demoS_out (demoOnly_in demoSB_in demoOnly_nil))]

/-- C93: nothing lost: each part B is reported with the part A before it. -/
theorem C93_nothing_lost (mmsi : Nat) (l : List (StaticSentence × StaticSentence))
    (hl : ∀ x ∈ l, x.1.Of mmsi 0 ∧ x.2.Of mmsi 1) (h : List (Env × Str))
    (hh : ∀ x ∈ h, ∀ talker own id chan payload, Part talker own 1 id chan payload x.2 →
      payload ≠ [] ∧ typeOf (payloadBits payload) ≠ 24)
    (he : only (StaticOf mmsi) h = staticPairs l) :
    answersTo (StaticOf mmsi) Parser.new h = pairedStatic l := by
  rw [C92_vessels_independent mmsi h hh, he]
  obtain ⟨m, ht⟩ := trace_pairedStatic mmsi l hl Memory.empty rfl
  exact answers_of_trace ht

/-- Part A, a part of another message, part B. -/
example : answersTo (StaticOf 271041815) Parser.new
      [(demoEnv, demoSA.sentence), (demoEnv, c! "!AIVDM,2,1,8,B,:5MlU41,0"), (demoEnv, demoSB.sentence)] =
    [.ok .incomplete, .ok (.vesselStaticData (fullStatic true (payloadBits demoA) (payloadBits demoB)))] :=
  C93_nothing_lost 271041815 [(demoSA, demoSB)]
    (by simp only [List.forall_mem_cons, List.not_mem_nil, false_imp_iff, implies_true, and_true]; exact ⟨demoSA_of, demoSB_of⟩) _
    (fun x hx => demoNoSplit x (by simp only [List.mem_cons, List.not_mem_nil, or_false] at hx ⊢; tauto))
    (demoOnly_in demoSA_in (demoOnly_out demoS_out (demoOnly_in demoSB_in demoOnly_nil)))

/-- C93: after the loss of a part A, every later part A is reported with the part B sent before it, forever. -/
theorem C93_part_A_lost (mmsi : Nat) (b : StaticSentence) (l : List (StaticSentence × StaticSentence))
    (hb : b.Of mmsi 1) (hl : ∀ x ∈ l, x.1.Of mmsi 0 ∧ x.2.Of mmsi 1) (h : List (Env × Str))
    (hh : ∀ x ∈ h, ∀ talker own id chan payload, Part talker own 1 id chan payload x.2 →
      payload ≠ [] ∧ typeOf (payloadBits payload) ≠ 24)
    (he : only (StaticOf mmsi) h = (b.env, b.sentence) :: staticPairs l) :
    answersTo (StaticOf mmsi) Parser.new h = .ok .incomplete :: shiftedStatic b.bits l := by
  rw [C92_vessels_independent mmsi h hh, he]
  obtain ⟨m, ht⟩ := trace_shiftedStatic mmsi l hl b.bits b.own ⟨hb.2.2.2.1, hb.2.2.2.2⟩ _
    (setStatic_self Memory.empty mmsi (some (b.own, b.bits)))
  exact answers_of_trace (.cons (static_waits hb (by decide) _ rfl) ht)

/-- Part B, then a pair. -/
example : answersTo (StaticOf 271041815) Parser.new
      [(demoEnv, demoSB.sentence), (demoEnv, demoSA.sentence), (demoEnv, c! "!AIVDM,2,1,8,B,:5MlU41,0"), (demoEnv, demoSB.sentence)] =
    .ok .incomplete :: shiftedStatic (payloadBits demoB) [(demoSA, demoSB)] :=
  C93_part_A_lost 271041815 demoSB [(demoSA, demoSB)] demoSB_of
    (by simp only [List.forall_mem_cons, List.not_mem_nil, false_imp_iff, implies_true, and_true]; exact ⟨demoSA_of, demoSB_of⟩) _
    (fun x hx => demoNoSplit x (by simp only [List.mem_cons, List.not_mem_nil, or_false] at hx ⊢; tauto))
    (demoOnly_in demoSB_in (demoOnly_in demoSA_in (demoOnly_out demoS_out (demoOnly_in demoSB_in demoOnly_nil))))

/-- C93: after the loss of a part B, the next part A is reported with nothing but a name, and every later part A
with the part B sent before it, forever. -/
theorem C93_part_B_lost (mmsi : Nat) (a a' b' : StaticSentence) (l : List (StaticSentence × StaticSentence))
    (ha : a.Of mmsi 0) (ha' : a'.Of mmsi 0) (hb' : b'.Of mmsi 1)
    (hl : ∀ x ∈ l, x.1.Of mmsi 0 ∧ x.2.Of mmsi 1) (h : List (Env × Str))
    (hh : ∀ x ∈ h, ∀ talker own id chan payload, Part talker own 1 id chan payload x.2 →
      payload ≠ [] ∧ typeOf (payloadBits payload) ≠ 24)
    (he : only (StaticOf mmsi) h = (a.env, a.sentence) :: staticPairs ((a', b') :: l)) :
    answersTo (StaticOf mmsi) Parser.new h =
      .ok .incomplete ::
      .ok (.vesselStaticData { blankStatic a'.own mmsi with name := (partAName a'.bits).or (partAName a.bits) }) ::
      .ok .incomplete :: shiftedStatic b'.bits l := by
  rw [C92_vessels_independent mmsi h hh, he]
  have s1 := static_waits ha (by decide) Memory.empty rfl
  have s2 := static_done ha' (by decide) _ (setStatic_self Memory.empty mmsi (some (a.own, a.bits)))
  have e : overlay (partData a'.own a'.bits) (partData a.own a.bits) =
      { blankStatic a'.own mmsi with name := (partAName a'.bits).or (partAName a.bits) } := by
    have h1 : partOf a.bits = 0 := ha.2.2.2.2
    have h2 : partOf a'.bits = 0 := ha'.2.2.2.2
    have h3 : mmsiOf a'.bits = mmsi := ha'.2.2.2.1
    simp [overlay, partData, h1, h2, partAData, blankStatic, h3]
  rw [e] at s2
  have s3 := static_waits hb' (by decide) _
    (setStatic_self (Memory.empty.setStatic mmsi (some (a.own, a.bits))) mmsi none)
  obtain ⟨m, ht⟩ := trace_shiftedStatic mmsi l hl b'.bits b'.own ⟨hb'.2.2.2.1, hb'.2.2.2.2⟩ _
    (setStatic_self ((Memory.empty.setStatic mmsi (some (a.own, a.bits))).setStatic mmsi none) mmsi
      (some (b'.own, b'.bits)))
  exact answers_of_trace (.cons s1 (.cons s2 (.cons s3 ht)))

/-- Part A twice, then part B, and a pair. -/
example : answersTo (StaticOf 271041815) Parser.new
      [(demoEnv, demoSA.sentence), (demoEnv, demoSA.sentence), (demoEnv, demoSB.sentence), (demoEnv, demoSA.sentence),
        (demoEnv, demoSB.sentence)] =
    .ok .incomplete ::
      .ok (.vesselStaticData { blankStatic false 271041815 with
        name := (partAName (payloadBits demoA)).or (partAName (payloadBits demoA)) }) ::
      .ok .incomplete :: shiftedStatic (payloadBits demoB) [(demoSA, demoSB)] :=
  C93_part_B_lost 271041815 demoSA demoSA demoSB [(demoSA, demoSB)] demoSA_of demoSA_of demoSB_of
    (by simp only [List.forall_mem_cons, List.not_mem_nil, false_imp_iff, implies_true, and_true]; exact ⟨demoSA_of, demoSB_of⟩) _
    (fun x hx => demoNoSplit x (by simp only [List.mem_cons, List.not_mem_nil, or_false] at hx ⊢; tauto))
    (demoOnly_in demoSA_in (demoOnly_in demoSA_in (demoOnly_in demoSB_in (demoOnly_in demoSA_in
      (demoOnly_in demoSB_in demoOnly_nil)))))

/-- A part A and a part B of 271041815. -/
example : (⟨demoEnv, c! "AI", false, c! "H42O55i18tMET00000000000000",
      c! "!AIVDM,1,1,,A,H42O55i18tMET00000000000000,2"⟩ : StaticSentence).Of 271041815 0 ∧
    (⟨demoEnv, c! "AI", false, c! "H42O55lti4hhhilD3nink000?050",
      c! "!AIVDM,1,1,,A,H42O55lti4hhhilD3nink000?050,0"⟩ : StaticSentence).Of 271041815 1 := by
  constructor
  · exact ⟨⟨[c! "1", c! "1", [], c! "A", c! "H42O55i18tMET00000000000000", c! "2"], 1, demoTagged .bare (by decide),
      demoDec (by decide), demoDec (by decide), rfl⟩, fun _ => by decide, by decide +kernel, by decide +kernel,
      by decide +kernel⟩
  · exact ⟨⟨[c! "1", c! "1", [], c! "A", c! "H42O55lti4hhhilD3nink000?050", c! "0"], 1, demoTagged .bare (by decide),
      demoDec (by decide), demoDec (by decide), rfl⟩, fun _ => by decide, by decide +kernel, by decide +kernel,
      by decide +kernel⟩

/-- C93: 'a report is about one and the same state of the vessel' is false: after a lost part B, the next part A
alone is reported as complete, without call sign, type and dimensions. -/
theorem C93_lost_counterexample :
    ∃ d, answers Parser.new [(demoEnv, c! "!AIVDM,1,1,,A,H42O55i18tMET00000000000000,2"),
        (demoEnv, c! "!AIVDM,1,1,,A,H42O55i18tMET00000000000000,2"),
        (demoEnv, c! "!AIVDM,1,1,,A,H42O55lti4hhhilD3nink000?050,0")] =
      [.ok .incomplete, .ok (.vesselStaticData d), .ok .incomplete] ∧
    d.name = some (c! "PROGUY") ∧ d.callSign = none ∧ d.dimensionToBow = none :=
  ⟨_, rfl, by decide +kernel⟩

end Nmea
