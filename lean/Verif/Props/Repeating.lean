/-
C164: exactly which sentences may be left out or repeated.
-/
import Verif.Props.Exchanging

namespace Nmea
open Spec

/-- After a sentence and after it and its repetition, the same is pending, if a repetition does no harm. -/
theorem repeated_same {x : Env × Str} (h : ∀ p, Reachable p → ∀ f, answers (run p [x, x]) f = answers (run p [x]) f)
    {m m1 m2 : Memory} {a a' : Answer} (hm : Possible m) (h1 : Step x.1 m x.2 a m1) (h2 : Step x.1 m1 x.2 a' m2) :
    (∀ own num id chan, (num = 1 ∨ num = 2) → (partOfMemory (m2.part own id chan) num = none ↔ partOfMemory (m1.part own id chan) num = none)) ∧
    (∀ talker n k, Talker talker → 1 ≤ k → k ≤ n → n < 2 ^ 32 - 1 → (m2.gsv talker n k = none ↔ m1.gsv talker n k = none)) ∧
    ∀ i, m2.static i = none ↔ m1.static i = none := by
  obtain ⟨p, hp, hr⟩ := reachable_possible hm
  have r1 := (step_rel _ _ _ _ _ _ hr h1).2
  have r2 := (step_rel _ _ _ _ _ _ r1 h2).2
  have p1 := reachable_next hp x
  have p2 := reachable_next p1 x
  obtain ⟨e1, e2, e3⟩ := C161_same_pending demoEnv _ _ p2 p1 (fun f => h p hp _)
  refine ⟨fun own num id chan hn => ?_, fun t n k ht k1 k2 hn => ?_, fun i => ?_⟩
  · rw [← r2.part own num id chan hn, ← r1.part own num id chan hn]
    exact e1 own num id chan hn
  · have := e2 t n k ht k1 k2 hn
    rwa [r2.gsv t n k ht.2, r1.gsv t n k ht.2, Option.map_eq_none_iff, Option.map_eq_none_iff] at this
  · have := e3 i
    rwa [r2.static, r1.static, Option.map_eq_none_iff, Option.map_eq_none_iff] at this

/-- C164: a sentence may be left out without a later answer being different, in every state, exactly if it leaves no trace; so for
a sentence whose answer is the same in all states, and for one that may be received twice in place of once. -/
theorem C164_exact (x : Env × Str) :
    ((∀ p, Reachable p → ∀ f, answers (run p [x]) f = answers p f) ↔ NoTrace x) ∧
    ((∃ a, ∀ p, Reachable p → (parseSentence x.1 p x.2).1 = a) ↔ NoTrace x) ∧
    ((∀ p, Reachable p → ∀ f, answers (run p [x, x]) f = answers (run p [x]) f) ↔ NoTrace x) := by
  have nt := (C163_no_trace x).2.1
  refine ⟨⟨fun h => ?_, fun ⟨a, h⟩ p hp => (h p hp).2⟩, ⟨fun ⟨a, h⟩ => ?_, fun ⟨a, h⟩ => ⟨a, fun p hp => (h p hp).1⟩⟩,
    ⟨fun h => ?_, fun ⟨a, h⟩ p hp f => (h _ (reachable_next hp x)).2 f⟩⟩
  · refine nt.mpr fun hr => ?_
    obtain ⟨p, hp, hne⟩ := hr.conflict.answers
    exact hne (List.cons.inj (h p hp [x])).1.symm
  · refine nt.mpr fun hr => ?_
    obtain ⟨p, hp, hne⟩ := hr.conflict.answers
    exact hne ((h p hp).trans (h _ (reachable_next hp x)).symm)
  · refine nt.mpr fun hr => ?_
    rw [(C163_no_trace x).2.2] at hr
    rcases hr with ⟨own, id, chan, t, num, pl, hx, hn⟩ | ⟨t, n, n2, hn, k, fs, hx, k1, k2⟩ | ⟨t, own, pl, hx, hs⟩
    · have hw := part_canWait hx hn
      have hm := possible_empty.setPart own id chan (some (3 - num, [])) (fun n z e => by
        cases e
        exact ⟨by omega, hw.2.1, hw.2.2.1, by simp⟩)
      obtain ⟨a, m1, h1⟩ := message_total x.1 ((Memory.empty.setPart own id chan (some (3 - num, []))).setPart own id chan none) t own
        (joined num pl [])
      have hp : m1.part own id chan = none := by rw [message_part h1, setPart_self]
      have step : Step x.1 (Memory.empty.setPart own id chan (some (3 - num, []))) x.2 a m1 := by
        rcases hn with rfl | rfl
        · exact .first hx (setPart_self _ _ _ _ _) (by simpa [joined] using h1)
        · exact .second hx (setPart_self _ _ _ _ _) (by simpa [joined] using h1)
      have := (repeated_same h hm step (.waits hx hn (by rw [hp]; simp))).1 own num id chan hn
      rw [setPart_self, hp] at this
      simp [partOfMemory] at this
    · have hd : ∀ j, 1 ≤ j → j ≤ n → j ≠ k → (gsvBut t n k k).gsv t n j ≠ .none := by
        intro j a b c
        simp [gsvBut, a, b, c]
      have hc : ∀ j, 1 ≤ j → j ≤ n → (((gsvBut t n k k).setGsv t n k fs).clearGsv t n).gsv t n j = .none :=
        fun j j1 j2 => if_pos ⟨rfl, rfl, j1, j2⟩
      have := (repeated_same h (possible_gsvBut t n k k hx.1.1 hn ⟨k1, k2⟩) (.gsvDone hx hn hd) (.gsvWaits hx hn
        ⟨if k = 1 then 2 else 1, by split <;> omega, by split <;> omega, by split <;> omega,
          hc _ (by split <;> omega) (by split <;> omega)⟩)).2.1 t n k hx.1.1 k1 k2 hn
      rw [hc k k1 k2] at this
      simp [Memory.setGsv] at this
    · have := (repeated_same h possible_empty (.single hx (.first hs rfl)) (.single hx (.second own (payloadBits pl) hs
        (by simp [Memory.setStatic])))).2.2 (mmsiOf (payloadBits pl))
      simp [Memory.setStatic] at this

/-- A GSV sentence 1 of 1 may be received any number of times; sentence 1 of 2 may not, for every state. -/
example : (∀ p, Reachable p → ∀ f, answers (run p [(demoEnv, emptyGsv (c! "GP") 1 1)]) f = answers p f) ∧
    ¬ ∀ p, Reachable p → ∀ f, answers (run p [(demoEnv, emptyGsv (c! "GP") 2 1), (demoEnv, emptyGsv (c! "GP") 2 1)]) f =
      answers (run p [(demoEnv, emptyGsv (c! "GP") 2 1)]) f := by
  have ht : Talker (c! "GP") := ⟨by decide, by decide⟩
  constructor
  · rw [(C164_exact _).1, (C163_no_trace _).2.1, (C163_no_trace _).2.2]
    have g := emptyGsv_part (c! "GP") 1 1 ht (by decide) (by decide)
    rintro (⟨_, _, _, _, _, _, h, -⟩ | ⟨t, n, h2, -, _, _, h, -⟩ | ⟨_, _, _, h, -⟩)
    · exact g.notBang h.bang
    · have := (h.unique g).2.1
      omega
    · exact g.notBang h.bang
  · rw [(C164_exact _).2.2, (C163_no_trace _).2.1, not_not, (C163_no_trace _).2.2]
    exact .inr (.inl ⟨_, 2, by decide, by decide, 1, _, emptyGsv_part (c! "GP") 2 1 ht (by decide) (by decide), by decide, by decide⟩)

end Nmea
