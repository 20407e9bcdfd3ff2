/-
C31-C37: GSV sentences and their groups.
-/
import Verif.Lemmas.GsvGroup
import Verif.Props.Dispatch
import Verif.Lemmas.Demo
import Mathlib.Data.List.Perm.Subperm

namespace Nmea
open Spec

/-- C35: from a state with none of the group pending, the sentence that brings the last missing number
yields the satellites of sentence 1, 2, ..., n in this order, each taken from the sentence received last
under its number. Between them there may be any other sentences. -/
theorem C35_latest_wins (e : Env) (p : Parser) (talker : Str) (n k : Nat) (fs : List Str) (s : Str)
    (h : List (Env × Str)) (l : List (Nat × List Str)) (hn : n < 2 ^ 32 - 1)
    (hp : NonePending p talker n) (hs : GsvPart talker n k fs s) (htr : GroupTrace talker n h l)
    (hk : 1 ≤ k ∧ k ≤ n) (hmiss : ¬ Received l k)
    (hall : ∀ j, 1 ≤ j → j ≤ n → j ≠ k → Received l j) :
    (parseSentence e (run p h) s).1 =
      .ok (.gsv (groupSatellites (talkerSystem talker) n (l ++ [(k, fs)]))) := by
  have ht : ',' ∉ talker := hs.1.1.2
  have hpend := trace_pending talker ht n hn h l [] htr p
    (fun j h1 h2 => by rw [hp j h1 h2]; rfl) k hk hmiss
  simp only [List.nil_append] at hpend
  rw [(gsv_done e (run p h) s talker n k fs hs hn ?_).1]
  · congr 2
    simp only [groupSatellites, List.flatMap_def]
    congr 1
    refine List.map_congr_left (fun i hi => ?_)
    obtain ⟨h1, h2⟩ : 1 ≤ i ∧ i ≤ n := mem_upTo.mp hi
    rw [latest_concat]
    by_cases hik : i = k
    · rw [if_pos hik, if_pos hik]
      exact gsvSats_eq _ _ _ hs.1.1 hs.1.2.1
    · rw [if_neg hik, if_neg hik, hpend i h1 h2]
      have hr := (latest_isSome l i).mpr (hall i h1 h2 hik)
      cases hl : latest l i with
      | none => rw [hl] at hr; cases hr
      | some fs' =>
        exact gsvSats_eq _ _ _ hs.1.1 (trace_commafree htr _ (latest_mem hl))
  · intro j h1 h2 hjk
    rw [hpend j h1 h2]
    have hr := (latest_isSome l j).mpr (hall j h1 h2 hjk)
    cases hl : latest l j with
    | none => rw [hl] at hr; cases hr
    | some fs' => simp

/-- Sentence 1 of the group of two is received twice, the first time with another elevation, then sentence 2. -/
example : (parseSentence demoEnv (run Parser.new [(demoEnv, c! "$GPGSV,2,1,05,01,39,083,46"),
      (demoEnv, c! "!AIVDM,2,1,8,B,:5MlU41,0"), (demoEnv, c! "$GPGSV,2,1,05,01,40,083,46")])
      (c! "$GPGSV,2,2,05,02,17,x,")).1 =
    .ok (.gsv [⟨.gps, 1, some 40, some 83, some 46⟩, ⟨.gps, 2, some 17, none, none⟩]) :=
  (C35_latest_wins demoEnv Parser.new (c! "GP") 2 2 _ _ _
    [(1, [c! "2", c! "1", c! "05", c! "01", c! "39", c! "083", c! "46"]), (1, demoGsvFields1)] (by decide)
    (fun _ _ _ => rfl) demoGsv2
    (.part ⟨demoTagged .bare (by decide), .inr (demoDec (by decide)), .inr (demoDec (by decide))⟩
      (.other (fun k fs => demoPartNotGsv demoOther _ _ _ _) (.part demoGsv1 .nil)))
    (by decide) (by simp [Received]) (by intro j h1 h2 h3; simp [Received]; omega)).trans (by decide +kernel)

/-- C31: the sentences 1..n of a group, each once and in any order, with any other sentences between them:
the last one yields the satellites of sentence 1, 2, ..., n in this order. -/
theorem C31_any_order (e : Env) (p : Parser) (talker : Str) (n k : Nat) (fs : List Str) (s : Str)
    (h : List (Env × Str)) (l : List (Nat × List Str)) (hn : n < 2 ^ 32 - 1)
    (hp : NonePending p talker n) (hs : GsvPart talker n k fs s) (htr : GroupTrace talker n h l)
    (hperm : (l.map (·.1) ++ [k]).Perm (List.range' 1 n)) :
    (parseSentence e (run p h) s).1 =
      .ok (.gsv (groupSatellites (talkerSystem talker) n (l ++ [(k, fs)]))) := by
  have hk : k ∈ List.range' 1 n := hperm.mem_iff.mp (by simp)
  have hnd : (l.map (·.1) ++ [k]).Nodup := hperm.nodup_iff.mpr (upTo_nodup n)
  refine C35_latest_wins e p talker n k fs s h l hn hp hs htr (mem_upTo.mp hk) ?_ ?_
  · intro hr
    rw [List.nodup_append] at hnd
    exact hnd.2.2 k hr k (by simp) rfl
  · intro j h1 h2 hjk
    have := hperm.mem_iff.mpr (mem_upTo.mpr ⟨h1, h2⟩)
    simpa [Received, hjk] using this

/-- The two sentences of a group, in reverse order, with an AIS sentence between them. -/
example : (parseSentence demoEnv (run Parser.new [(demoEnv, c! "$GPGSV,2,2,05,02,17,x,"),
      (demoEnv, c! "!AIVDM,2,1,8,B,:5MlU41,0")]) (c! "$GPGSV,2,1,05,01,40,083,46")).1 =
    .ok (.gsv [⟨.gps, 1, some 40, some 83, some 46⟩, ⟨.gps, 2, some 17, none, none⟩]) :=
  (C31_any_order demoEnv Parser.new (c! "GP") 2 1 _ _ _ [(2, demoGsvFields2)] (by decide) (fun _ _ _ => rfl) demoGsv1
    (.part demoGsv2 (.other (fun k fs => demoPartNotGsv demoOther _ _ _ _) .nil)) (by decide)).trans
    (by decide +kernel)

/-- C32: as long as a sentence of the group is missing, its sentences yield `Incomplete`. -/
theorem C32_incomplete (e : Env) (p : Parser) (talker : Str) (n k : Nat) (fs : List Str) (s : Str)
    (h : List (Env × Str)) (l : List (Nat × List Str)) (hn : n < 2 ^ 32 - 1)
    (hp : NonePending p talker n) (hs : GsvPart talker n k fs s) (htr : GroupTrace talker n h l)
    (j : Nat) (hj : 1 ≤ j ∧ j ≤ n) (hmiss : ¬ Received (l ++ [(k, fs)]) j) :
    (parseSentence e (run p h) s).1 = .ok .incomplete := by
  have ht : ',' ∉ talker := hs.1.1.2
  have hjl : ¬ Received l j := fun hr => hmiss (by
    simp only [Received, List.map_append, List.mem_append] at hr ⊢; exact .inl hr)
  have hjk : j ≠ k := by
    rintro rfl
    exact hmiss (by simp [Received])
  have hpend := trace_pending talker ht n hn h l [] htr p
    (fun j h1 h2 => by rw [hp j h1 h2]; rfl) j hj hjl
  refine (gsv_wait e (run p h) s talker n k fs hs hn j hj hjk ?_).1
  rw [hpend j hj.1 hj.2]
  have : ¬ (latest l j).isSome := by rw [latest_isSome]; exact hjl
  simpa using this

/-- Sentence 2 of two, twice. -/
example : (parseSentence demoEnv (run Parser.new [(demoEnv, c! "$GPGSV,2,2,05,02,17,x,")])
    (c! "$GPGSV,2,2,05,02,17,x,")).1 = .ok .incomplete :=
  C32_incomplete demoEnv Parser.new (c! "GP") 2 2 _ _ _ [(2, demoGsvFields2)] (by decide) (fun _ _ _ => rfl) demoGsv2
    (.part demoGsv2 .nil) 1 (by decide) (by simp [Received])

/-- C33: after a GSV result none of the sentences 1..n of its group is pending, whatever the state was. -/
theorem C33_consumed (env : Env) (p : Parser) (s : Str) (talker : Str) (n k : Nat) (fs : List Str)
    (hs : GsvPart talker n k fs s) (l : List GsvData)
    (hr : (parseSentence env p s).1 = .ok (.gsv l)) : NonePending (parseSentence env p s).2 talker n := by
  intro i h1 h2
  rw [eval_gsv env p talker n k fs s hs] at hr ⊢
  unfold gsvStep at hr ⊢
  split
  · rename_i h
    rw [if_pos h] at hr
    simp only [] at hr
    split at hr <;> cases hr
  · rename_i h
    rw [if_neg h] at hr
    split
    · simp only [pendingGsv]
      rw [KV.get_eraseAll, if_pos]
      exact List.mem_map.mpr ⟨i, mem_upTo.mpr ⟨h1, h2⟩, rfl⟩
    · rename_i h'
      rw [if_neg h'] at hr
      cases hr

/-- After the complete group of `demoGsv1` and `demoGsv2`. -/
example : NonePending (parseSentence demoEnv (run Parser.new [(demoEnv, c! "$GPGSV,2,2,05,02,17,x,")])
    (c! "$GPGSV,2,1,05,01,40,083,46")).2 (c! "GP") 2 :=
  C33_consumed demoEnv _ _ _ _ _ _ demoGsv1
    [⟨.gps, 1, some 40, some 83, some 46⟩, ⟨.gps, 2, some 17, none, none⟩] (by decide +kernel)

/-- C34: a GSV sentence changes no pending sentence of another talker or count, no AIS part and no static
data. -/
theorem C34_others_untouched (env : Env) (p : Parser) (s : Str) (talker : Str) (n k : Nat) (fs : List Str)
    (hs : GsvPart talker n k fs s) :
    (∀ talker' n' i, ',' ∉ talker' → (talker', n') ≠ (talker, n) →
      pendingGsv (parseSentence env p s).2 talker' n' i = pendingGsv p talker' n' i) ∧
    (∀ own num id chan, pendingPart (parseSentence env p s).2 own num id chan = pendingPart p own num id chan) ∧
    (∀ m, pendingStatic (parseSentence env p s).2 m = pendingStatic p m) := by
  refine ⟨fun talker' n' i ht' hne => ?_, fun own num id chan => ?_, fun m => ?_⟩
  · refine gsv_frame env p s talker' ht' n' i (fun k' fs' h' => hne ?_)
    obtain ⟨rfl, rfl, -⟩ := hs.unique h'
    rfl
  · rw [eval_gsv env p talker n k fs s hs]
    exact gsvStep_frame _ _ _ _ _ _ _ _ (fun i => partKey_ne_gsvKey _ _ _ _ _ _ _)
  · rw [pendingStatic, eval_gsv env p talker n k fs s hs, gsvStep_vsds]
    rfl

/-- A pending GLONASS sentence and a pending AIS part stay when a GPS sentence is parsed. -/
example : let p := run Parser.new [(demoEnv, c! "$GLGSV,2,1,05,70,40,083,46"), (demoEnv, c! "!AIVDM,2,1,8,B,:5MlU41,0")]
    pendingGsv (parseSentence demoEnv p (c! "$GPGSV,2,1,05,01,40,083,46")).2 (c! "GL") 2 1 =
      some (c! "$GLGSV,2,1,05,70,40,083,46") ∧
    pendingPart (parseSentence demoEnv p (c! "$GPGSV,2,1,05,01,40,083,46")).2 false 1 8 (c! "B") =
      some (c! ":5MlU41") := by
  intro p
  have h := C34_others_untouched demoEnv p _ _ _ _ _ demoGsv1
  exact ⟨(h.1 _ _ _ (by decide) (by decide)).trans (by decide +kernel), (h.2.1 _ _ _ _).trans (by decide +kernel)⟩

/-- C34: the result depends on the pending data only through the sentences of the own group. -/
theorem C34_others_irrelevant (env : Env) (p q : Parser) (s : Str) (talker : Str) (n k : Nat) (fs : List Str)
    (hs : GsvPart talker n k fs s) (hpq : ∀ i, pendingGsv p talker n i = pendingGsv q talker n i) :
    (parseSentence env p s).1 = (parseSentence env q s).1 := by
  have key : ∀ body i, pendingGsv (p.pushString (gsvKey talker n k) body) talker n i =
      pendingGsv (q.pushString (gsvKey talker n k) body) talker n i := by
    intro body i
    have := hpq i
    simp only [pendingGsv, Parser.pushString, KV.get_insert] at this ⊢
    rw [this]
  rw [eval_gsv env p talker n k fs s hs, eval_gsv env q talker n k fs s hs]
  unfold gsvStep
  simp only [key]
  split
  · rfl
  · split <;> rfl

/-- The GPS sentence is answered alike whether or not the GLONASS sentence is pending. -/
example : (parseSentence demoEnv (run Parser.new [(demoEnv, c! "$GLGSV,2,1,05,70,40,083,46")])
      (c! "$GPGSV,2,1,05,01,40,083,46")).1 =
    (parseSentence demoEnv Parser.new (c! "$GPGSV,2,1,05,01,40,083,46")).1 := by
  have hg : GsvPart (c! "GL") 2 1 [c! "2", c! "1", c! "05", c! "70", c! "40", c! "083", c! "46"]
      (c! "$GLGSV,2,1,05,70,40,083,46") :=
    ⟨demoTagged .bare (by decide), .inr (demoDec (by decide)), .inr (demoDec (by decide))⟩
  exact C34_others_irrelevant demoEnv _ _ _ _ _ _ _ demoGsv1 fun i =>
    (C34_others_untouched demoEnv Parser.new _ _ _ _ _ hg).1 _ _ _ (by decide) (by decide)

/-! ### Residue -/

theorem gsv_residue_step (env : Env) (p : Parser) (s : Str) (talker : Str) (n k : Nat) (ht : ',' ∉ talker)
    (hk : k = 0 ∨ n < k) (h : pendingGsv p talker n k ≠ none) :
    pendingGsv (parseSentence env p s).2 talker n k ≠ none := by
  by_cases hg : ∃ k' fs, GsvPart talker n k' fs s
  · obtain ⟨k', fs, hs⟩ := hg
    rw [eval_gsv env p talker n k' fs s hs]
    have hi : ∀ body, (p.savedFragments.insert (gsvKey talker n k') body).get (gsvKey talker n k) ≠ none := by
      intro body
      rw [KV.get_insert]
      split
      · simp
      · exact h
    unfold gsvStep
    split
    · exact hi _
    · split
      · simp only [pendingGsv]
        rw [KV.get_eraseAll, if_neg]
        · exact hi _
        · intro hm
          obtain ⟨i, hmem, he⟩ := List.mem_map.mp hm
          obtain ⟨-, -, rfl⟩ := gsvKey_inj ht ht he
          obtain ⟨h1, h2⟩ := mem_upTo.mp hmem
          omega
      · exact hi _
  · rw [gsv_frame env p s talker ht n k (fun k' fs h => hg ⟨k', fs, h⟩)]
    exact h

/-- C36: a GSV sentence whose number is not one of 1..count is kept for ever: no later history removes it. -/
theorem C36_residue (env : Env) (p : Parser) (s : Str) (talker : Str) (n k : Nat) (fs : List Str)
    (hs : GsvPart talker n k fs s) (hk : k = 0 ∨ n < k) (h : List (Env × Str)) :
    pendingGsv (run (parseSentence env p s).2 h) talker n k ≠ none := by
  have ht : ',' ∉ talker := hs.1.1.2
  have h0 : pendingGsv (parseSentence env p s).2 talker n k ≠ none := by
    rw [eval_gsv env p talker n k fs s hs]
    have hi : ∀ body, (p.savedFragments.insert (gsvKey talker n k) body).get (gsvKey talker n k) ≠ none := by
      intro body; rw [KV.get_insert_self]; simp
    unfold gsvStep
    split
    · exact hi _
    · split
      · simp only [pendingGsv]
        rw [KV.get_eraseAll, if_neg]
        · exact hi _
        · intro hm
          obtain ⟨i, hmem, he⟩ := List.mem_map.mp hm
          obtain ⟨-, -, rfl⟩ := gsvKey_inj ht ht he
          obtain ⟨h1, h2⟩ := mem_upTo.mp hmem
          omega
      · exact hi _
  generalize (parseSentence env p s).2 = q at h0
  induction h generalizing q with
  | nil => exact h0
  | cons x h ih => exact ih _ (gsv_residue_step _ _ _ _ _ _ ht hk h0)

/-- Sentence 3 of two, and whatever follows. -/
example (h : List (Env × Str)) :
    pendingGsv (run (parseSentence demoEnv Parser.new (c! "$GPGSV,2,3,05")).2 h) (c! "GP") 2 3 ≠ none :=
  C36_residue demoEnv Parser.new _ _ _ _ [c! "2", c! "3", c! "05"]
    ⟨demoTagged .bare (by decide), .inr (demoDec (by decide)), .inr (demoDec (by decide))⟩ (.inr (by decide)) h

/-- C36: concretely, a GSV sentence with count 0 yields an empty result and stays pending. -/
theorem C36_count_zero : (parseSentence demoEnv Parser.new (c! "$GPGSV,0,1,00")).1 = .ok (.gsv []) ∧
    pendingCount (parseSentence demoEnv Parser.new (c! "$GPGSV,0,1,00")).2 = 1 := by decide

/-! ### Shape -/

/-- C37: a GSV sentence that is a group of its own yields exactly its satellites. -/
theorem C37_single (env : Env) (p : Parser) (s : Str) (talker : Str) (fs : List Str)
    (hs : GsvPart talker 1 1 fs s) :
    (parseSentence env p s).1 = .ok (.gsv (satellites (talkerSystem talker) fs)) := by
  rw [(gsv_done env p s talker 1 1 fs hs (by decide) (fun j h1 h2 h3 => by omega)).1]
  simp [satsOpt, gsvBody, gsvSats_eq _ _ _ hs.1.1 hs.1.2.1]

/-- A sentence with two satellites that is a group of its own. -/
example (env : Env) (p : Parser) : (parseSentence env p (c! "$GLGSV,1,1,02,70,40,083,46,71,,,")).1 =
    .ok (.gsv [⟨.glonass, 70, some 40, some 83, some 46⟩, ⟨.glonass, 71, none, none, none⟩]) :=
  (C37_single env p _ (c! "GL")
    [c! "1", c! "1", c! "02", c! "70", c! "40", c! "083", c! "46", c! "71", [], [], []]
    ⟨demoTagged .bare (by decide), .inr (demoDec (by decide)), .inr (demoDec (by decide))⟩).trans (by decide +kernel)

theorem gsvSats_length (nav : NavigationSystem) (s : Str) :
    (gsvSats nav s).length ≤ 4 ∧ ∀ d ∈ gsvSats nav s, d.source = nav ∧ d.prnNumber ≤ 255 := by
  constructor
  · exact Nat.le_trans (List.length_filterMap_le _ _) (by simp)
  · intro d hd
    simp only [gsvSats, List.mem_filterMap, Option.map_eq_some_iff] at hd
    obtain ⟨j, -, prn, h, rfl⟩ := hd
    refine ⟨rfl, ?_⟩
    rw [parseU8, numFieldOrNone_uint, readDec_iff] at h
    obtain ⟨_, _, _, _, h⟩ := h
    exact h

/-- C37: in every state, a GSV result comes from a GSV sentence, has at most four satellites for each
sentence of its group, all with the navigation system of the sentence that completed the group. -/
theorem C37_shape (env : Env) (p : Parser) (s : Str) (l : List GsvData)
    (hr : (parseSentence env p s).1 = .ok (.gsv l)) :
    ∃ talker n k fs, GsvPart talker n k fs s ∧ l.length ≤ 4 * n ∧
      ∀ d ∈ l, d.source = talkerSystem talker ∧ d.prnNumber ≤ 255 := by
  obtain ⟨talker, fs, hg⟩ := (C09_result_kind env p _ s _ (Prod.ext hr rfl)).1 (c! "GSV") rfl
  cases gsv_case env p talker fs s hg with
  | bad m _ h => rw [h] at hr; cases hr
  | part n k hp h =>
    refine ⟨talker, n, k, fs, hp, ?_⟩
    rw [h] at hr
    unfold gsvStep at hr
    split at hr
    · simp only [] at hr; split at hr <;> cases hr
    · split at hr
      · cases hr
        have one : ∀ o : Option Str, (satsOpt (talkerSystem talker) o).length ≤ 4 ∧
            ∀ d ∈ satsOpt (talkerSystem talker) o, d.source = talkerSystem talker ∧ d.prnNumber ≤ 255 := by
          intro o
          cases o with
          | none => exact ⟨by simp [satsOpt], by simp [satsOpt]⟩
          | some s => exact gsvSats_length _ _
        constructor
        · have : ∀ (f : Nat → List GsvData) (is : List Nat), (∀ i, (f i).length ≤ 4) →
              (is.flatMap f).length ≤ 4 * is.length := by
            intro f is hf
            induction is with
            | nil => simp
            | cons i is ih =>
              have := hf i
              simp only [List.flatMap_cons, List.length_append, List.length_cons]
              omega
          have h4 := this _ (upTo n) (fun i => (one (pendingGsv (p.pushString (gsvKey talker n k)
            (join (tag '$' talker (c! "GSV")) fs)) talker n i)).1)
          simpa [upTo] using h4
        · intro d hd
          obtain ⟨i, -, hd⟩ := List.mem_flatMap.mp hd
          exact (one _).2 d hd
      · cases hr

/-- The complete group of `demoGsv1` and `demoGsv2` is a GSV result. -/
example : (parseSentence demoEnv (run Parser.new [(demoEnv, c! "$GPGSV,2,2,05,02,17,x,")])
    (c! "$GPGSV,2,1,05,01,40,083,46")).1 =
      .ok (.gsv [⟨.gps, 1, some 40, some 83, some 46⟩, ⟨.gps, 2, some 17, none, none⟩]) := by decide +kernel

end Nmea
