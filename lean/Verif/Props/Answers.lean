/-
C165: exactly which answers a sentence can have.
-/
import Verif.Props.Repeating

namespace Nmea
open Spec

/-- The answers that a sentence can have are those of the machine of C84, from the possible memories of C160. -/
theorem canAnswer_iff (env : Env) (s : Str) (a : Answer) :
    (∃ p, Reachable p ∧ (parseSentence env p s).1 = a) ↔ ∃ m m', Possible m ∧ Step env m s a m' := by
  constructor
  · rintro ⟨p, hp, rfl⟩
    obtain ⟨m, hr, -, hm⟩ := possible_reachable hp
    obtain ⟨a, m', hs⟩ := step_total env m s
    rw [(step_rel _ _ _ _ _ _ hr hs).1]
    exact ⟨m, m', hm, hs⟩
  · rintro ⟨m, m', hm, hs⟩
    obtain ⟨p, hp, hr⟩ := reachable_possible hm
    exact ⟨p, hp, (step_rel _ _ _ _ _ _ hr hs).1⟩

/-- C165: part 1 or 2 of a two-part message is answered with Incomplete, or with an answer that the message joined from it and some
other part can have if it is sent in one sentence; all of these occur. -/
theorem C165_part (env : Env) (s talker : Str) (own : Bool) (num id : Nat) (chan x : Str) (hs : Part talker own num id chan x s)
    (hn : num = 1 ∨ num = 2) (a : Answer) :
    (∃ p, Reachable p ∧ (parseSentence env p s).1 = a) ↔
      a = .ok .incomplete ∨ ∃ y, ',' ∉ y ∧ ∃ p, Reachable p ∧ (parseSentence env p (aisSentence talker own (joined num x y))).1 = a := by
  have hw := part_canWait hs hn
  have nc := hs.noComma
  simp only [canAnswer_iff]
  have single := fun y hy => single_of_payload talker own (joined num x y) nc.1 (joined_comma num x y nc.2 hy)
  constructor
  · rintro ⟨m, m', hm, h⟩
    cases h with
    | single h _ => exact absurd ⟨_, _, _, hs⟩ h.notInGroup
    | waits h _ _ => exact .inl rfl
    | @first _ _ _ _ x' y _ _ h hp hmsg =>
      obtain ⟨rfl, rfl, rfl, rfl, rfl, rfl⟩ := hs.unique h
      have hy := (hm.parts _ _ _ _ _ hp).2.2.2
      refine .inr ⟨y, hy, _, m', hm.setPart own id chan none (fun _ _ e => by cases e), .single (single y hy) ?_⟩
      simpa [joined] using hmsg
    | @second _ _ _ _ y x' _ _ h hp hmsg =>
      obtain ⟨rfl, rfl, rfl, rfl, rfl, rfl⟩ := hs.unique h
      have hy := (hm.parts _ _ _ _ _ hp).2.2.2
      refine .inr ⟨y, hy, _, m', hm.setPart own id chan none (fun _ _ e => by cases e), .single (single y hy) ?_⟩
      simpa [joined] using hmsg
    | gsvWaits h _ _ => exact absurd hs.bang h.notBang
    | gsvDone h _ _ => exact absurd hs.bang h.notBang
    | gsvHuge h => exact absurd hs.bang h.notBang
    | other h => exact absurd (.inr (.inl ⟨_, _, _, _, _, _, hs, hn⟩)) h
  · rintro (rfl | ⟨y, hy, m, m', hm, h⟩)
    · exact ⟨Memory.empty, _, possible_empty, .waits hs hn (fun _ e => by cases e)⟩
    · have hms : ∃ m1, Message env m talker own (joined num x y) a m1 := by
        cases h with
        | single h hmsg =>
          obtain ⟨rfl, rfl, rfl⟩ := (single y hy).unique h
          exact ⟨_, hmsg⟩
        | waits h _ _ => exact absurd ⟨_, _, _, h⟩ (single y hy).notInGroup
        | first h _ _ => exact absurd ⟨_, _, _, h⟩ (single y hy).notInGroup
        | second h _ _ => exact absurd ⟨_, _, _, h⟩ (single y hy).notInGroup
        | gsvWaits h _ _ => exact absurd (single y hy).bang h.notBang
        | gsvDone h _ _ => exact absurd (single y hy).bang h.notBang
        | gsvHuge h => exact absurd (single y hy).bang h.notBang
        | other h => exact absurd (.inl ⟨_, _, _, single y hy⟩) h
      obtain ⟨m1, hmsg⟩ := hms
      obtain ⟨m2, h2⟩ : ∃ m2, Message env ((m.setPart own id chan (some (3 - num, y))).setPart own id chan none) talker own
          (joined num x y) a m2 := by
        cases hmsg with
        | plain h1 => exact ⟨_, .plain h1⟩
        | first h1 h2 => exact ⟨_, .first h1 h2⟩
        | second o b h1 h2 => exact ⟨_, .second o b h1 h2⟩
      refine ⟨m.setPart own id chan (some (3 - num, y)), m2, hm.setPart own id chan _ (fun n z e => by
        cases e
        exact ⟨by omega, hw.2.1, hw.2.2.1, hy⟩), ?_⟩
      rcases hn with rfl | rfl
      · exact .first hs (setPart_self _ _ _ _ _) (by simpa [joined] using h2)
      · exact .second hs (setPart_self _ _ _ _ _) (by simpa [joined] using h2)

/-- C165: a part A or B of type 24 in one sentence is answered with Incomplete, or with its data merged with those of some other part A
or B of the MMSI, of either own-vessel flag; all of these occur. -/
theorem C165_static (env : Env) (s talker : Str) (own : Bool) (payload : Str) (hs : Single talker own payload s)
    (hst : IsStaticPart env payload) (a : Answer) :
    (∃ p, Reachable p ∧ (parseSentence env p s).1 = a) ↔
      a = .ok .incomplete ∨ ∃ own' payload' env', ',' ∉ payload' ∧ IsStaticPart env' payload' ∧
        mmsiOf (payloadBits payload') = mmsiOf (payloadBits payload) ∧
        a = .ok (.vesselStaticData (overlay (partData own (payloadBits payload)) (partData own' (payloadBits payload')))) := by
  simp only [canAnswer_iff]
  constructor
  · rintro ⟨m, m', hm, h⟩
    cases h with
    | single h hmsg =>
      obtain ⟨rfl, rfl, rfl⟩ := hs.unique h
      cases hmsg with
      | plain h => exact absurd hst h
      | first _ _ => exact .inl rfl
      | second o b h hn =>
        obtain ⟨env', pl', h1, h2, rfl, h4⟩ := hm.statics _ _ _ hn
        exact .inr ⟨o, pl', env', h1, h2, h4, rfl⟩
    | waits h _ _ => exact absurd ⟨_, _, _, h⟩ hs.notInGroup
    | first h _ _ => exact absurd ⟨_, _, _, h⟩ hs.notInGroup
    | second h _ _ => exact absurd ⟨_, _, _, h⟩ hs.notInGroup
    | gsvWaits h _ _ => exact absurd hs.bang h.notBang
    | gsvDone h _ _ => exact absurd hs.bang h.notBang
    | gsvHuge h => exact absurd hs.bang h.notBang
    | other h => exact absurd (.inl ⟨_, _, _, hs⟩) h
  · rintro (rfl | ⟨own', pl', env', hc, h', hmm, rfl⟩)
    · exact ⟨Memory.empty, _, possible_empty, .single hs (.first hst rfl)⟩
    · refine ⟨Memory.empty.setStatic (mmsiOf (payloadBits payload)) (some (own', payloadBits pl')), _,
        possible_empty.setStatic _ _ (fun o b e => by cases e; exact ⟨env', pl', hc, h', rfl, hmm⟩), .single hs (.second own' _ hst ?_)⟩
      simp [Memory.setStatic]

/-- The sentences of a GSV group but one. -/
def gsvOthers (talker : Str) (n k : Nat) (g : Nat → List Str) : Memory :=
  { Memory.empty with gsv := fun t n' j => if t = talker ∧ n' = n ∧ 1 ≤ j ∧ j ≤ n ∧ j ≠ k then some (g j) else none }

theorem possible_gsvOthers (talker : Str) (n k : Nat) (g : Nat → List Str) (hk : 1 ≤ k ∧ k ≤ n)
    (hg : ∀ j, 1 ≤ j → j ≤ n → j ≠ k → CanWaitGsv talker n j (g j)) : Possible (gsvOthers talker n k g) where
  parts := fun _ _ _ _ _ h => (by cases h)
  gsvs := by
    intro t n' j fs h
    simp only [gsvOthers] at h
    split at h
    · rename_i e
      obtain ⟨rfl, rfl, e1, e2, e3⟩ := e
      cases h
      exact hg j e1 e2 e3
    · cases h
  statics := fun _ _ _ h => (by cases h)
  incomplete := by
    intro t n' h0 _
    by_cases e : n' = n
    · subst e
      exact ⟨k, hk.1, hk.2, if_neg (by rintro ⟨-, -, -, -, e⟩; exact e rfl)⟩
    · exact ⟨1, by omega, by omega, if_neg (by rintro ⟨-, e', -⟩; exact e e')⟩
  finitely := by
    refine ⟨[], (List.range' 1 n).map fun j => (talker, n, j), [], fun _ _ _ h => (h rfl).elim, fun t n' j h => ?_,
      fun _ h => (h rfl).elim⟩
    simp only [gsvOthers, ne_eq, ite_eq_right_iff, reduceCtorEq, imp_false, not_not] at h
    obtain ⟨rfl, rfl, h1, h2, -⟩ := h
    exact List.mem_map.mpr ⟨j, List.mem_range'_1.mpr ⟨h1, by omega⟩, rfl⟩

/-- C165: a sentence 1..n of a GSV group of two or more is answered with Incomplete, or with the satellites of a group that it makes
with some others; all of these occur. -/
theorem C165_gsv (env : Env) (s talker : Str) (n k : Nat) (fs : List Str) (hs : GsvPart talker n k fs s) (h2 : 2 ≤ n)
    (hn : n < 2 ^ 32 - 1) (hk : 1 ≤ k ∧ k ≤ n) (a : Answer) :
    (∃ p, Reachable p ∧ (parseSentence env p s).1 = a) ↔
      a = .ok .incomplete ∨ ∃ g : Nat → List Str, g k = fs ∧ (∀ j, 1 ≤ j → j ≤ n → CanWaitGsv talker n j (g j)) ∧
        a = .ok (.gsv ((List.range' 1 n).flatMap fun j => satellites (talkerSystem talker) (g j))) := by
  have hcan : CanWaitGsv talker n k fs := (canWaitGsv_iff _ _ _ _).mpr ⟨s, hs⟩
  simp only [canAnswer_iff]
  constructor
  · rintro ⟨m, m', hm, h⟩
    cases h with
    | single h _ => exact absurd h.bang hs.notBang
    | waits h _ _ => exact absurd h.bang hs.notBang
    | first h _ _ => exact absurd h.bang hs.notBang
    | second h _ _ => exact absurd h.bang hs.notBang
    | gsvWaits h _ _ => exact .inl rfl
    | gsvDone h _ hd =>
      obtain ⟨rfl, rfl, rfl, rfl⟩ := hs.unique h
      refine .inr ⟨fun j => ((m.setGsv talker n k fs).gsv talker n j).getD [], by simp [Memory.setGsv], fun j j1 j2 => ?_, rfl⟩
      by_cases e : j = k
      · subst e
        simpa [Memory.setGsv] using hcan
      · obtain ⟨gs, hgs⟩ := Option.ne_none_iff_exists'.mp (hd j j1 j2 e)
        simpa [Memory.setGsv, e, hgs] using hm.gsvs _ _ _ _ hgs
    | gsvHuge h =>
      have := (hs.unique h).2.1
      omega
    | other h => exact absurd (.inr (.inr ⟨_, _, _, _, hs⟩)) h
  · rintro (rfl | ⟨g, hg, hj, rfl⟩)
    · exact ⟨Memory.empty, _, possible_empty, .gsvWaits hs hn ⟨if k = 1 then 2 else 1, by split <;> omega, by split <;> omega,
        by split <;> omega, rfl⟩⟩
    · have hd := Step.gsvDone (env := env) (m := gsvOthers talker n k g) hs hn (fun j j1 j2 j3 => by simp [gsvOthers, j1, j2, j3])
      refine ⟨gsvOthers talker n k g, ((gsvOthers talker n k g).setGsv talker n k fs).clearGsv talker n, possible_gsvOthers talker n k g hk (fun j j1 j2 _ => hj j j1 j2), ?_⟩
      have e : ((List.range' 1 n).flatMap fun j => satellites (talkerSystem talker) (g j)) =
          (List.range' 1 n).flatMap fun j =>
            satellites (talkerSystem talker) ((((gsvOthers talker n k g).setGsv talker n k fs).gsv talker n j).getD []) := by
        refine List.flatMap_congr fun j hj => ?_
        rw [List.mem_range'_1] at hj
        by_cases e : j = k
        · subst e
          simp [Memory.setGsv, hg]
        · simp [Memory.setGsv, gsvOthers, e, hj.1, show j ≤ n by omega]
      rw [e]
      exact hd

/-- C165: every other sentence has one answer. -/
theorem C165_others (x : Env × Str) (h : ¬ Related x x) (a : Answer) :
    (∃ p, Reachable p ∧ (parseSentence x.1 p x.2).1 = a) ↔ a = alone x.1 x.2 := by
  obtain ⟨b, hb⟩ := (C163_no_trace x).2.1.mpr h
  have hn : alone x.1 x.2 = b := (hb Parser.new ⟨[], rfl⟩).1
  constructor
  · rintro ⟨p, hp, rfl⟩
    rw [(hb p hp).1, hn]
  · rintro rfl
    exact ⟨Parser.new, ⟨[], rfl⟩, rfl⟩

/-- Sentence 1 of 2 of a GSV group is never answered with an error; with no satellites it can be answered if sentence 2 has none. -/
example : (¬ ∃ p, Reachable p ∧ ∃ e, (parseSentence demoEnv p (emptyGsv (c! "GP") 2 1)).1 = .err e) ∧
    ∃ p, Reachable p ∧ ∃ l, (parseSentence demoEnv p (emptyGsv (c! "GP") 2 1)).1 = .ok (.gsv l) := by
  have g := fun j hj => emptyGsv_part (c! "GP") 2 j ⟨by decide, by decide⟩ (by decide) hj
  constructor
  · rintro ⟨p, hp, e, h⟩
    rcases (C165_gsv _ _ _ _ _ _ (g 1 (by decide)) (by decide) (by decide) (by decide) _).mp ⟨p, hp, h⟩ with h | ⟨_, _, _, h⟩ <;> cases h
  · obtain ⟨p, hp, h⟩ := (C165_gsv demoEnv _ _ _ _ _ (g 1 (by decide)) (by decide) (by decide) (by decide) _).mpr
      (.inr ⟨fun j => [natStr 2, natStr j], rfl, fun j _ hj => (canWaitGsv_iff _ _ _ _).mpr ⟨_, g j (by omega)⟩, rfl⟩)
    exact ⟨p, hp, _, h⟩

/-- A part A of type 24 with nothing but the MMSI can complete a report, and so can a sentence that is a part of it. -/
example : (∃ p, Reachable p ∧ ∃ v, (parseSentence demoEnv p (emptyStatic 211000000)).1 = .ok (.vesselStaticData v)) ∧
    ∃ p, Reachable p ∧ ∃ v, (parseSentence demoEnv p (c! "!AIVDM,2,1,5,A,H,0")).1 = .ok (.vesselStaticData v) := by
  obtain ⟨h1, h2⟩ := emptyStatic_part demoEnv 211000000 (by decide)
  have done := (C165_static demoEnv _ _ _ _ (emptyStatic_single 211000000) h1 _).mpr
    (.inr ⟨false, _, demoEnv, armor_no_comma _, h1, rfl, rfl⟩)
  have hp : Part (c! "AI") false 1 5 (c! "A") (c! "H") (c! "!AIVDM,2,1,5,A,H,0") :=
    ⟨[c! "2", c! "1", c! "5", c! "A", c! "H", c! "0"], demoTagged .bare (by decide), demoDec (by decide),
      demoDec (by decide), demoDec (by decide), rfl, rfl⟩
  refine ⟨?_, ?_⟩
  · obtain ⟨p, hp, h⟩ := done
    exact ⟨p, hp, _, h⟩
  · have e : joined 1 (c! "H") ((armor (emptyStaticBits 211000000)).drop 1) = armor (emptyStaticBits 211000000) := by decide +kernel
    obtain ⟨p, hp, h⟩ := (C165_part demoEnv _ _ _ _ _ _ _ hp (.inl rfl) _).mpr (.inr ⟨(armor (emptyStaticBits 211000000)).drop 1,
      fun h => armor_no_comma _ (List.mem_of_mem_drop h), by rw [e]; exact done⟩)
    exact ⟨p, hp, _, h⟩

end Nmea
