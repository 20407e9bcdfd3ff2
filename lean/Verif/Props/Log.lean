/-
C109: the log output.
-/
import Verif.Lemmas.Log
import Verif.Lemmas.Gsv
import Verif.Props.Values
import Verif.Props.Static
import Verif.Props.Dispatch

namespace Nmea
open Spec

/-! ## C109: the log -/

theorem log_warns (env : Env) (p : Parser) (s : Str) (w : List LogRecord) (h : Warns env p s w) :
    logSentence env p s = missingRemark s ++ w := by
  have uni : ∀ {talker own fs talker' own' fs'}, IsAis talker own fs s → IsAis talker' own' fs' s →
      talker = talker' ∧ own = own' ∧ fs = fs' := fun h h' => IsAis.unique h h'
  have dec : ∀ {m t a b}, Dec m t a → Dec m t b → a = b := fun h h' => h.unique h'
  cases h with
  | complete talker own bits h =>
    obtain ⟨payload, hd, hr, rfl⟩ := h
    rw [← payloadLog_readable env payload hr]
    cases hd with
    | single _ h =>
      obtain ⟨fs, k, hs, h0, h1, rfl⟩ := h
      cases log_case env p talker own fs s hs with
      | bad hf _ _ => exact absurd ⟨h0, .inr ⟨k, h1⟩⟩ (hf 1)
      | empty _ hl _ _ => have := field_ne_length h1.ne_nil; omega
      | single _ h => exact h
      | part1 id hp _ =>
        obtain ⟨fs', hs', h0', -⟩ := hp
        obtain ⟨-, -, rfl⟩ := uni hs hs'
        exact absurd (dec h0 h0') (by decide)
      | part2 id hp _ =>
        obtain ⟨fs', hs', h0', -⟩ := hp
        obtain ⟨-, -, rfl⟩ := uni hs hs'
        exact absurd (dec h0 h0') (by decide)
      | number num id hp _ _ _ =>
        obtain ⟨fs', hs', h0', -⟩ := hp
        obtain ⟨-, -, rfl⟩ := uni hs hs'
        exact absurd (dec h0 h0') (by decide)
      | noId hc _ _ _ => exact absurd (dec h0 hc.1) (by decide)
      | count n hc hn _ _ => exact absurd (dec h0 hc.1).symm hn.1
    | first id chan a b h hb =>
      have hu := h
      obtain ⟨fs, hs, h0, h1, h2, rfl, rfl⟩ := h
      cases log_case env p talker own fs s hs with
      | bad hf _ _ => exact absurd ⟨h0, .inr ⟨1, h1⟩⟩ (hf 2)
      | empty h _ _ _ => exact absurd (dec h0 h.1) (by decide)
      | single hp _ =>
        obtain ⟨fs', k, hs', h0', -⟩ := hp
        obtain ⟨-, -, rfl⟩ := uni hs hs'
        exact absurd (dec h0 h0') (by decide)
      | part1 id' hp h =>
        obtain ⟨fs', hs', -, -, h2', -⟩ := hp
        obtain ⟨-, -, rfl⟩ := uni hs hs'
        obtain rfl := dec h2 h2'
        rw [h, hb]
        rfl
      | part2 id' hp h =>
        obtain ⟨fs', hs', -, h1', -⟩ := hp
        obtain ⟨-, -, rfl⟩ := uni hs hs'
        exact absurd (dec h1 h1') (by decide)
      | number num id' hp hn _ _ =>
        obtain ⟨fs', hs', -, h1', -⟩ := hp
        obtain ⟨-, -, rfl⟩ := uni hs hs'
        exact absurd (dec h1 h1').symm hn.1
      | noId _ hi _ _ => exact absurd h2 (hi id)
      | count n hc hn _ _ => exact absurd (dec h0 hc.1).symm hn.2
    | second id chan a b h ha =>
      obtain ⟨fs, hs, h0, h1, h2, rfl, rfl⟩ := h
      cases log_case env p talker own fs s hs with
      | bad hf _ _ => exact absurd ⟨h0, .inr ⟨2, h1⟩⟩ (hf 2)
      | empty h _ _ _ => exact absurd (dec h0 h.1) (by decide)
      | single hp _ =>
        obtain ⟨fs', k, hs', h0', -⟩ := hp
        obtain ⟨-, -, rfl⟩ := uni hs hs'
        exact absurd (dec h0 h0') (by decide)
      | part1 id' hp h =>
        obtain ⟨fs', hs', -, h1', -⟩ := hp
        obtain ⟨-, -, rfl⟩ := uni hs hs'
        exact absurd (dec h1 h1') (by decide)
      | part2 id' hp h =>
        obtain ⟨fs', hs', -, -, h2', -⟩ := hp
        obtain ⟨-, -, rfl⟩ := uni hs hs'
        obtain rfl := dec h2 h2'
        rw [h, ha]
        rfl
      | number num id' hp hn _ _ =>
        obtain ⟨fs', hs', -, h1', -⟩ := hp
        obtain ⟨-, -, rfl⟩ := uni hs hs'
        exact absurd (dec h1 h1').symm hn.2
      | noId _ hi _ _ => exact absurd h2 (hi id)
      | count n hc hn _ _ => exact absurd (dec h0 hc.1).symm hn.2
  | count talker own fs n hs hc hn =>
    cases log_case env p talker own fs s hs with
    | bad hf _ _ => exact absurd hc (hf n)
    | empty h _ _ _ => exact absurd (dec hc.1 h.1) hn.1
    | single hp _ =>
      obtain ⟨fs', k, hs', h0', -⟩ := hp
      obtain ⟨-, -, rfl⟩ := uni hs hs'
      exact absurd (dec hc.1 h0') hn.1
    | part1 id' hp h =>
      obtain ⟨fs', hs', h0', -⟩ := hp
      obtain ⟨-, -, rfl⟩ := uni hs hs'
      exact absurd (dec hc.1 h0') hn.2
    | part2 id' hp h =>
      obtain ⟨fs', hs', h0', -⟩ := hp
      obtain ⟨-, -, rfl⟩ := uni hs hs'
      exact absurd (dec hc.1 h0') hn.2
    | number num id' hp _ _ _ =>
      obtain ⟨fs', hs', h0', -⟩ := hp
      obtain ⟨-, -, rfl⟩ := uni hs hs'
      exact absurd (dec hc.1 h0') hn.2
    | noId h _ _ _ => exact absurd (dec hc.1 h.1) hn.2
    | count n' hc' _ _ h =>
      obtain rfl := dec hc.1 hc'.1
      exact h
  | noId talker own fs hs hc hi =>
    cases log_case env p talker own fs s hs with
    | bad hf _ _ => exact absurd hc (hf 2)
    | empty h _ _ _ => exact absurd (dec hc.1 h.1) (by decide)
    | single hp _ =>
      obtain ⟨fs', k, hs', h0', -⟩ := hp
      obtain ⟨-, -, rfl⟩ := uni hs hs'
      exact absurd (dec hc.1 h0') (by decide)
    | part1 id' hp h =>
      obtain ⟨fs', hs', -, -, h2', -⟩ := hp
      obtain ⟨-, -, rfl⟩ := uni hs hs'
      exact absurd h2' (hi id')
    | part2 id' hp h =>
      obtain ⟨fs', hs', -, -, h2', -⟩ := hp
      obtain ⟨-, -, rfl⟩ := uni hs hs'
      exact absurd h2' (hi id')
    | number num id' hp _ _ _ =>
      obtain ⟨fs', hs', -, -, h2', -⟩ := hp
      obtain ⟨-, -, rfl⟩ := uni hs hs'
      exact absurd h2' (hi id')
    | noId _ _ _ h => exact h
    | count n' hc' hn _ _ => exact absurd (dec hc.1 hc'.1).symm hn.2
  | number talker own num id chan payload hp hn =>
    obtain ⟨fs, hs, h0, h1, h2, rfl, rfl⟩ := hp
    cases log_case env p talker own fs s hs with
    | bad hf _ _ => exact absurd ⟨h0, .inr ⟨num, h1⟩⟩ (hf 2)
    | empty h _ _ _ => exact absurd (dec h0 h.1) (by decide)
    | single hp _ =>
      obtain ⟨fs', k, hs', h0', -⟩ := hp
      obtain ⟨-, -, rfl⟩ := uni hs hs'
      exact absurd (dec h0 h0') (by decide)
    | part1 id' hp h =>
      obtain ⟨fs', hs', -, h1', -⟩ := hp
      obtain ⟨-, -, rfl⟩ := uni hs hs'
      exact absurd (dec h1 h1') hn.1
    | part2 id' hp h =>
      obtain ⟨fs', hs', -, h1', -⟩ := hp
      obtain ⟨-, -, rfl⟩ := uni hs hs'
      exact absurd (dec h1 h1') hn.2
    | number num' id' hp _ _ h =>
      obtain ⟨fs', hs', -, h1', -⟩ := hp
      obtain ⟨-, -, rfl⟩ := uni hs hs'
      obtain rfl := dec h1 h1'
      exact h
    | noId _ hi _ _ => exact absurd h2 (hi id)
    | count n hc hn _ _ => exact absurd (dec h0 hc.1).symm hn.2

theorem log_silent (env : Env) (p : Parser) (s : Str) (h : ∀ w, ¬ Warns env p s w) :
    logSentence env p s = missingRemark s := by
  have pay : ∀ talker own payload, Delivers p s talker own payload → payloadLog env payload = [] := by
    intro talker own payload hd
    exact payloadLog_not env payload fun hr => h _ (.complete talker own _ ⟨payload, hd, hr, rfl⟩)
  by_cases hs : ∃ talker own fs, IsAis talker own fs s
  · obtain ⟨talker, own, fs, hs⟩ := hs
    cases log_case env p talker own fs s hs with
    | bad _ _ h => exact h
    | empty _ _ _ h => exact h
    | single hp h => rw [h, pay talker own _ (.single _ hp), List.append_nil]
    | part1 id hp he =>
      rw [he]
      cases hb : pendingPart p own 2 id (field fs 3) with
      | none => exact List.append_nil _
      | some b =>
        show missingRemark s ++ payloadLog env (field fs 4 ++ b) = _
        rw [pay talker own _ (.first id _ _ b hp hb), List.append_nil]
    | part2 id hp he =>
      rw [he]
      cases ha : pendingPart p own 1 id (field fs 3) with
      | none => exact List.append_nil _
      | some a =>
        show missingRemark s ++ payloadLog env (a ++ field fs 4) = _
        rw [pay talker own _ (.second id _ a _ hp ha), List.append_nil]
    | number num id hp hn _ _ => exact absurd (.number talker own num id _ _ hp hn) (h _)
    | noId hc hi _ _ => exact absurd (.noId talker own fs hs hc hi) (h _)
    | count n hc hn _ _ => exact absurd (.count talker own fs n hs hc hn) (h _)
  · exact log_other env p s fun talker own fs hs' => hs ⟨talker, own, fs, hs'⟩

/-- C109: what a call logs, for every sentence and state: the remark on a missing checksum, then the warnings that
the specification lists for the sentence, and nothing else. -/
theorem C109_log (env : Env) (p : Parser) (s : Str) :
    (∀ w, Warns env p s w → logSentence env p s = missingRemark s ++ w) ∧
    ((∀ w, ¬ Warns env p s w) → logSentence env p s = missingRemark s) :=
  ⟨log_warns env p s, log_silent env p s⟩

/-- A fishing vessel (ship type 30) reports its voyage. -/
theorem demoFishing : DeliversBits demoEnv Parser.new
    (c! "!AIVDM,1,1,,A,539p4OT00000@7W3K@08ThiLE8@E:2222222220N0O0000000000000000000000000000,0") (c! "AI") false
    (payloadBits (c! "539p4OT00000@7W3K@08ThiLE8@E:2222222220N0O0000000000000000000000000000")) :=
  demoDelivers _ _ _ _ _ [c! "1", c! "1", [], c! "A",
    c! "539p4OT00000@7W3K@08ThiLE8@E:2222222220N0O0000000000000000000000000000", c! "0"] .bare
    ⟨by decide, by decide, by decide, by decide, by decide +kernel⟩ rfl rfl (by decide)

/-- Two remarks: no checksum, and the ship type. -/
example : Warns demoEnv Parser.new
      (c! "!AIVDM,1,1,,A,539p4OT00000@7W3K@08ThiLE8@E:2222222220N0O0000000000000000000000000000,0")
      [⟨.warn, c! "Unexpected ship and cargo type: 30"⟩] ∧
    missingRemark (c! "!AIVDM,1,1,,A,539p4OT00000@7W3K@08ThiLE8@E:2222222220N0O0000000000000000000000000000,0") ≠ [] := by
  constructor
  · have h := Warns.complete _ _ _ demoFishing
    have e : remarks (payloadBits (c! "539p4OT00000@7W3K@08ThiLE8@E:2222222220N0O0000000000000000000000000000")) =
        [⟨.warn, c! "Unexpected ship and cargo type: 30"⟩] := by decide +kernel
    rw [e] at h
    exact h
  · decide +kernel

theorem shipRemarks_warn (n : Nat) : ∀ r ∈ shipRemarks n, r.level = .warn := by
  intro r hr
  unfold shipRemarks at hr
  rcases List.mem_append.mp hr with h | h <;> split at h <;> simp at h <;> rw [h] <;> rfl

theorem fixRemarks_warn (n : Nat) : ∀ r ∈ fixRemarks n, r.level = .warn := by
  intro r hr
  unfold fixRemarks warningOf at hr
  split at hr <;> simp at hr
  rw [hr]

theorem remarks_warn (bits : List Bool) : ∀ r ∈ remarks bits, r.level = .warn := by
  intro r hr
  unfold remarks at hr
  repeat' split at hr
  all_goals first
    | exact shipRemarks_warn _ r hr
    | exact fixRemarks_warn _ r hr
    | (rcases List.mem_append.mp hr with h | h
       · exact shipRemarks_warn _ r h
       · exact fixRemarks_warn _ r h)
    | (simp at hr; try rw [hr])

theorem shipRemarks_length (n : Nat) : (shipRemarks n).length ≤ 2 := by
  unfold shipRemarks
  split <;> split <;> simp

theorem fixRemarks_length (n : Nat) : (fixRemarks n).length ≤ 1 := by
  unfold fixRemarks
  split <;> simp

theorem remarks_length (bits : List Bool) : (remarks bits).length ≤ 3 := by
  unfold remarks
  have h1 := fun n => shipRemarks_length n
  have h2 := fun n => fixRemarks_length n
  repeat' split
  all_goals try simp only [List.length_append, List.length_cons, List.length_nil]
  all_goals first
    | omega
    | exact Nat.le_trans (h2 _) (by decide)
    | exact Nat.le_trans (h1 _) (by decide)
    | (have a := h1 (num bits 232 8); have b := h2 (num bits 270 4); omega)

theorem warns_warn (env : Env) (p : Parser) (s : Str) (w : List LogRecord) (h : Warns env p s w) :
    (∀ r ∈ w, r.level = .warn) ∧ w.length ≤ 3 := by
  cases h with
  | complete talker own bits h => exact ⟨remarks_warn bits, remarks_length bits⟩
  | count => exact ⟨by simp, by simp⟩
  | noId => exact ⟨by simp, by simp⟩
  | number => exact ⟨by simp, by simp⟩

theorem warnings_append (s : Str) (w : List LogRecord) (h : ∀ r ∈ w, r.level = .warn) :
    warnings (missingRemark s ++ w) = w := by
  have hm : (missingRemark s).filter (fun r => r.level = .warn) = [] := by
    unfold missingRemark; split <;> simp
  rw [warnings, List.filter_append, hm, List.nil_append]
  exact List.filter_eq_self.mpr (by simpa using h)

/-- C109: the warnings of a call are those that the specification lists; if it lists none there are none. -/
theorem C109_warnings (env : Env) (p : Parser) (s : Str) (w : List LogRecord) :
    warnings (logSentence env p s) = w ↔ Warns env p s w ∨ w = [] ∧ ∀ w', ¬ Warns env p s w' := by
  by_cases h : ∃ w', Warns env p s w'
  · obtain ⟨w', h'⟩ := h
    rw [log_warns env p s w' h', warnings_append s w' (warns_warn env p s w' h').1]
    constructor
    · rintro rfl; exact .inl h'
    · rintro (h | ⟨-, h⟩)
      · have a := log_warns env p s w h
        rw [log_warns env p s w' h'] at a
        exact List.append_cancel_left a
      · exact absurd h' (h w')
  · have hn : ∀ w', ¬ Warns env p s w' := fun w' h' => h ⟨w', h'⟩
    have : warnings (logSentence env p s) = [] := by
      have := warnings_append s [] (by simp)
      rw [List.append_nil] at this
      rw [log_silent env p s hn, this]
    rw [this]
    constructor
    · rintro rfl; exact .inr ⟨rfl, hn⟩
    · rintro (h | ⟨h, -⟩)
      · exact absurd h (hn w)
      · exact h.symm

/-- The second of three parts. -/
example : Warns demoEnv Parser.new (c! "!AIVDM,3,2,7,B,0,0")
    [⟨.warn, c! "NMEA sentence fragment count greater (3) than supported 2"⟩] :=
  .count (c! "AI") false [c! "3", c! "2", c! "7", c! "B", c! "0", c! "0"] 3 (demoTagged .bare (by decide))
    ⟨demoDec (by decide), .inr ⟨2, demoDec (by decide)⟩⟩ (by decide)

/-- A part without a message number, and one with an impossible part number. -/
example : Warns demoEnv Parser.new (c! "!AIVDO,2,1,,B,0,0")
      [⟨.warn, c! "NMEA message_id missing from !VDO than supported 2"⟩] ∧
    Warns demoEnv Parser.new (c! "!AIVDM,2,3,7,B,0,0") [⟨.warn, c! "Unexpected NMEA fragment number: 3/2"⟩] :=
  ⟨.noId (c! "AI") true [c! "2", c! "1", [], c! "B", c! "0", c! "0"] (demoTagged .bare (by decide))
      ⟨demoDec (by decide), .inr ⟨1, demoDec (by decide)⟩⟩ (fun _ h => h.ne_nil rfl),
    .number (c! "AI") false 3 7 (c! "B") (c! "0")
      ⟨[c! "2", c! "3", c! "7", c! "B", c! "0", c! "0"], demoTagged .bare (by decide), demoDec (by decide),
        demoDec (by decide), demoDec (by decide), rfl, rfl⟩ (by decide)⟩

/-- C109: a call logs at most four records, whatever the sentence; below warning level it logs nothing but that a
checksum is missing, exactly for the sentences without `*`. -/
theorem C109_bounded (env : Env) (p : Parser) (s : Str) :
    (logSentence env p s).length ≤ 4 ∧
    (logSentence env p s).filter (fun r => r.level ≠ .warn) = missingRemark s := by
  have hm : (missingRemark s).length ≤ 1 := by unfold missingRemark; split <;> simp
  have hf : (missingRemark s).filter (fun r => r.level ≠ .warn) = missingRemark s := by
    unfold missingRemark; split <;> simp
  by_cases h : ∃ w', Warns env p s w'
  · obtain ⟨w, h⟩ := h
    obtain ⟨h1, h2⟩ := warns_warn env p s w h
    rw [log_warns env p s w h]
    refine ⟨by rw [List.length_append]; omega, ?_⟩
    rw [List.filter_append, hf, List.filter_eq_nil_iff.mpr (by intro r hr; simp [h1 r hr]), List.append_nil]
  · rw [log_silent env p s fun w' h' => h ⟨w', h'⟩]
    exact ⟨by omega, hf⟩

/-- Four records. -/
theorem demoStrange : DeliversBits demoEnv Parser.new
    (c! "!AIVDM,1,1,,A,539p4OT00000@7W3K@08ThiLE8@E:2222222222F00000w000000000000000000000000,0") (c! "AI") false
    (payloadBits (c! "539p4OT00000@7W3K@08ThiLE8@E:2222222222F00000w000000000000000000000000")) :=
  demoDelivers _ _ _ _ _ [c! "1", c! "1", [], c! "A",
    c! "539p4OT00000@7W3K@08ThiLE8@E:2222222222F00000w000000000000000000000000", c! "0"] .bare
    ⟨by decide, by decide, by decide, by decide, by decide +kernel⟩ rfl rfl (by decide)

example : (logSentence demoEnv Parser.new
    (c! "!AIVDM,1,1,,A,539p4OT00000@7W3K@08ThiLE8@E:2222222222F00000w000000000000000000000000,0")).length = 4 := by
  rw [(C109_log _ _ _).1 _ (.complete _ _ _ demoStrange)]
  decide +kernel

/-- The kept case of a message that is answered with `Incomplete`. -/
theorem incomplete_static (env : Env) (p : Parser) (s talker : Str) (own : Bool) (payload : Str)
    (h : Delivers p s talker own payload) (hr : (parseSentence env p s).1 = .ok .incomplete) :
    Kept (parseSentence env p s).2 p s := by
  have hread : Readable env payload := by
    obtain ⟨q, -, he⟩ := eval_payload env p s talker own payload h
    rw [he] at hr
    unfold complete at hr
    cases hp : parsePayload env.overflowChecks payload with
    | ok bv => exact readable_of_ok env payload bv hp
    | err e => exact absurd hp (parsePayload_ne_err _ _ _)
    | panic => rw [hp] at hr; cases hr
  obtain ⟨q, -, he⟩ := eval_bits env p s talker own _ ⟨payload, h, hread, rfl⟩
  have ht : typeOf (payloadBits payload) = 24 := by
    rw [he] at hr
    rcases dispatchAis_ok _ _ _ _ _ _ _ _ (Prod.ext hr rfl) with ⟨-, ht⟩ | ⟨hsh, -, -⟩
    · rwa [typeOf_eq] at ht
    · simp [aisTypesOf] at hsh
  refine .static talker own payload h ht ?_
  obtain ⟨q, -, he⟩ := eval_payload env p s talker own payload h
  rw [he, complete_24 env own _ payload q hread ht] at hr ⊢
  split
  · rename_i hp
    rw [if_pos hp] at hr
    unfold t24Store at hr ⊢
    simp only [Parser.pullVsd] at hr ⊢
    cases hq : q.savedVsds.get (partData own (payloadBits payload)).mmsi with
    | some w =>
      rw [hq] at hr
      simp only [] at hr
      cases hm : liftErr (α := VesselStaticData) ((partData own (payloadBits payload)).merge w) with
      | ok m => rw [hm] at hr; cases hr
      | err e => rw [hm] at hr; cases hr
      | panic => rw [hm] at hr; cases hr
    | none =>
      simp only [pendingStatic, Parser.pushVsd]
      rw [partData_mmsi, KV.get_insert_self]
      rfl
  · rename_i hp
    rw [if_neg hp] at hr
    cases hr

/-- C109: nothing is dropped silently: a sentence that is answered with `Incomplete` is kept for later, or a warning
says that it is not. -/
theorem C109_dropped_is_logged (env : Env) (p : Parser) (s : Str) (h : (parseSentence env p s).1 = .ok .incomplete) :
    Kept (parseSentence env p s).2 p s ∨ ∃ t, warnings (logSentence env p s) = [⟨.warn, t⟩] := by
  have one : ∀ t, logSentence env p s = missingRemark s ++ [⟨.warn, t⟩] →
      ∃ t, warnings (logSentence env p s) = [⟨.warn, t⟩] := by
    intro t ht
    exact ⟨t, by rw [ht, warnings_append s _ (by simp)]⟩
  rcases (C09_result_kind env p _ s _ (Prod.ext h rfl)).2.2 rfl with ⟨talker, fs, hs⟩ | ⟨talker, own, fs, hs⟩
  · left
    cases gsv_case env p talker fs s hs with
    | bad m _ he => rw [he] at h; cases h
    | part n k hp he =>
      refine .gsv talker n k fs hp ?_
      rw [he] at h ⊢
      unfold gsvStep at h ⊢
      split
      · simp [pendingGsv, Parser.pushString, KV.get_insert]
      · rename_i hn
        rw [if_neg hn] at h
        split
        · rename_i hall
          rw [if_pos hall] at h
          cases h
        · simp [pendingGsv, Parser.pushString, KV.get_insert]
  · cases log_case env p talker own fs s hs with
    | number num id hp hn _ he => exact .inr (one _ he)
    | noId hc hi _ he => exact .inr (one _ he)
    | count n hc hn _ he => exact .inr (one _ he)
    | bad hf hr _ => obtain ⟨e, he⟩ := hr; rw [he] at h; cases h
    | empty _ _ hr _ => obtain ⟨e, he⟩ := hr; rw [he] at h; cases h
    | single hp he => exact .inl (incomplete_static env p s talker own _ (.single _ hp) h)
    | part1 id hp he =>
      cases hb : pendingPart p own 2 id (field fs 3) with
      | some b => exact .inl (incomplete_static env p s talker own _ (.first id _ _ b hp hb) h)
      | none =>
        refine .inl (.part talker own 1 id _ _ hp ?_)
        rw [eval_part1 env p talker own id _ _ s hp, joinPart,
          show p.savedFragments.get (partKey own 2 id (field fs 3)) = none from hb]
        simp [pendingPart, KV.get_insert]
    | part2 id hp he =>
      cases hb : pendingPart p own 1 id (field fs 3) with
      | some b => exact .inl (incomplete_static env p s talker own _ (.second id _ b _ hp hb) h)
      | none =>
        refine .inl (.part talker own 2 id _ _ hp ?_)
        rw [eval_part2 env p talker own id _ _ s hp, joinPart,
          show p.savedFragments.get (partKey own 1 id (field fs 3)) = none from hb]
        simp [pendingPart, KV.get_insert]

/-- Both happen: a part that is kept, and one that is dropped. -/
example : (parseSentence demoEnv Parser.new (c! "!AIVDM,2,1,7,B,0,0")).1 = .ok .incomplete ∧
    warnings (logSentence demoEnv Parser.new (c! "!AIVDM,2,1,7,B,0,0")) = [] ∧
    (parseSentence demoEnv Parser.new (c! "!AIVDM,3,2,7,B,0,0")).1 = .ok .incomplete ∧
    (parseSentence demoEnv Parser.new (c! "!AIVDM,3,2,7,B,0,0")).2 = Parser.new := by
  refine ⟨by decide +kernel, by decide +kernel, by decide +kernel, by decide +kernel⟩

/-- C109: what is refused with an error is not logged as a warning in addition. -/
theorem C109_error_or_warning (env : Env) (p : Parser) (hp : Reachable p) (s : Str) (e : ParseError)
    (h : (parseSentence env p s).1 = .err e) : warnings (logSentence env p s) = [] := by
  have nil : warnings (missingRemark s) = [] := by
    have := warnings_append s [] (by simp)
    rwa [List.append_nil] at this
  have pay : ∀ talker own payload, Delivers p s talker own payload → payloadLog env payload = [] := by
    intro talker own payload hd
    by_cases hr : Readable env payload
    · rw [payloadLog_readable env payload hr]
      obtain ⟨q, -, he⟩ := eval_bits env p s talker own _ ⟨payload, hd, hr, rfl⟩
      have h' := h
      rw [he] at h'
      rcases dispatchAis_err _ _ _ _ _ _ _ _ (Prod.ext h' rfl) with ⟨ht, -⟩ | ⟨ht, -, -⟩
      · rw [typeOf_eq] at ht
        have := (C27_merge_never_fails env p hp s own _ ⟨payload, completes_of_delivers hd, hr, rfl, ht⟩).1.mp ⟨e, h⟩
        unfold remarks
        rw [ht]
        rw [if_neg (by decide), if_neg (by decide), if_neg (by decide), if_neg (by decide), if_neg]
        omega
      · rw [typeOf_eq] at ht
        unfold remarks
        simp only [supportedTypes, List.mem_cons, List.not_mem_nil, or_false, not_or] at ht
        rw [if_neg (by simp; exact ⟨ht.1, ht.2.1, ht.2.2.1⟩), if_neg ht.2.2.2.1, if_neg ht.2.2.2.2.1,
          if_neg (by tauto), if_neg (by tauto)]
    · exact payloadLog_not env payload hr
  by_cases hs : ∃ talker own fs, IsAis talker own fs s
  · obtain ⟨talker, own, fs, hs⟩ := hs
    cases log_case env p talker own fs s hs with
    | bad _ _ he => rw [he, nil]
    | empty _ _ _ he => rw [he, nil]
    | number _ _ _ _ hr _ => rw [hr] at h; cases h
    | noId _ _ hr _ => rw [hr] at h; cases h
    | count _ _ _ hr _ => rw [hr] at h; cases h
    | single hp he => rw [he, pay talker own _ (.single _ hp), List.append_nil, nil]
    | part1 id hp he =>
      rw [he]
      cases hb : pendingPart p own 2 id (field fs 3) with
      | none => exact (congrArg warnings (List.append_nil _)).trans nil
      | some b =>
        show warnings (missingRemark s ++ payloadLog env (field fs 4 ++ b)) = _
        rw [pay talker own _ (.first id _ _ b hp hb), List.append_nil, nil]
    | part2 id hp he =>
      rw [he]
      cases ha : pendingPart p own 1 id (field fs 3) with
      | none => exact (congrArg warnings (List.append_nil _)).trans nil
      | some a =>
        show warnings (missingRemark s ++ payloadLog env (a ++ field fs 4)) = _
        rw [pay talker own _ (.second id _ a _ hp ha), List.append_nil, nil]
  · rw [log_other env p s fun talker own fs hs' => hs ⟨talker, own, fs, hs'⟩, nil]

/-- An unsupported message type. -/
example : Reachable Parser.new ∧ ∃ e, (parseSentence demoEnv Parser.new (c! "!AIVDM,1,1,,A,800,0")).1 = .err e :=
  ⟨⟨[], rfl⟩, .unsupportedSentenceType (c! "Unsupported !VDM message type: 8"), by decide +kernel⟩

/-- C109: the warnings are no sign of a fault. Every voyage report (type 5) of a ship type that the standard defines
without cargo digit (30 to 39 and 50 to 59: fishing, towing, diving, sailing, pilot, tug, ...; also 0, not available)
is warned about as "unexpected" although the ship type is recognised. -/
theorem C109_false_alarm (env : Env) (p : Parser) (s talker : Str) (own : Bool) (bits : List Bool)
    (h : DeliversBits env p s talker own bits) (ht : typeOf bits = 5)
    (hc : num bits 232 8 / 10 ∈ [0, 3, 5]) :
    ⟨.warn, c! "Unexpected ship and cargo type: " ++ natStr (num bits 232 8)⟩ ∈ warnings (logSentence env p s) ∧
    ∀ r, (parseSentence env p s).1 = .ok r → ∃ d, r = .vesselStaticData d ∧ d.shipType = standardShip (num bits 232 8) := by
  constructor
  · rw [(C109_warnings env p s (remarks bits)).mpr (.inl (.complete talker own bits h))]
    unfold remarks
    rw [ht, if_neg (by decide), if_neg (by decide), if_pos rfl]
    have : num bits 232 8 / 10 ∉ [1, 2, 4, 6, 7, 8, 9] := by
      simp only [List.mem_cons, List.not_mem_nil, or_false] at hc ⊢
      omega
    unfold shipRemarks
    rw [if_neg this]
    simp [warningOf]
  · intro r hr
    obtain ⟨d, e1, e2, -⟩ := C60_voyage env p s talker own bits h ht r hr
    refine ⟨d, e1, ?_⟩
    rw [e2]
    unfold reportedShip
    rw [if_neg]
    simp only [List.mem_cons, List.not_mem_nil, or_false] at hc
    omega

/-- A fishing vessel. -/
example : typeOf (payloadBits (c! "539p4OT00000@7W3K@08ThiLE8@E:2222222220N0O0000000000000000000000000000")) = 5 ∧
    num (payloadBits (c! "539p4OT00000@7W3K@08ThiLE8@E:2222222220N0O0000000000000000000000000000")) 232 8 = 30 ∧
    standardShip 30 = .fishing := by decide +kernel

/-- C109: a ship type above 99 is warned about twice in the same words. -/
theorem C109_twice (env : Env) (p : Parser) (s talker : Str) (own : Bool) (bits : List Bool)
    (h : DeliversBits env p s talker own bits) (ht : typeOf bits = 5) (hc : 99 < num bits 232 8) :
    ∃ l, warnings (logSentence env p s) =
      ⟨.warn, c! "Unexpected ship and cargo type: " ++ natStr (num bits 232 8)⟩ ::
      ⟨.warn, c! "Unexpected ship and cargo type: " ++ natStr (num bits 232 8)⟩ :: l := by
  refine ⟨fixRemarks (num bits 270 4), ?_⟩
  rw [(C109_warnings env p s (remarks bits)).mpr (.inl (.complete talker own bits h))]
  unfold remarks
  rw [ht, if_neg (by decide), if_neg (by decide), if_pos rfl]
  have : num bits 232 8 / 10 ∉ [1, 2, 4, 6, 7, 8, 9] := by
    simp only [List.mem_cons, List.not_mem_nil, or_false]
    omega
  unfold shipRemarks
  rw [if_neg this, if_pos hc]
  rfl

/-- Ship type 150. -/
example : typeOf (payloadBits (c! "539p4OT00000@7W3K@08ThiLE8@E:2222222222F00000w000000000000000000000000")) = 5 ∧
    num (payloadBits (c! "539p4OT00000@7W3K@08ThiLE8@E:2222222222F00000w000000000000000000000000")) 232 8 = 150 := by
  decide +kernel

end Nmea
