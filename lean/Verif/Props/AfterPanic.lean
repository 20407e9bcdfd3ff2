/-
C112: the parser after a panic that the caller has caught.
-/
import Verif.Props.Panics
import Verif.Props.Machine
import Verif.Props.Commute
import Verif.Props.Extensional
import Verif.Spec.AfterPanic

namespace Nmea
open Spec

theorem complete_panic_state (env : Env) (own : Bool) (st : Station) (payload : Str) (p : Parser)
    (h : (complete env own st payload p).1 = .panic) : (complete env own st payload p).2 = p := by
  have hs : ¬ IsStaticPart env payload := by
    rintro ⟨hr, ht, -⟩
    rcases (complete_panic _ _ _ _ _).mp h with h | ⟨-, h | h⟩
    · exact h hr
    · exact absurd (ht.symm.trans h.1) (by decide)
    · exact absurd (ht.symm.trans h.1) (by decide)
  rw [complete_alone env own st payload p hs]

/-- C112: after a panic the parser is unchanged; or the sentence was a part of a two-part message, and the other part,
which was pending, is not pending any more, and nothing else has changed; or it was a GSV sentence with the largest count,
which is now pending, and nothing else has changed. -/
theorem C112_state (env : Env) (p : Parser) (s : Str) (h : (parseSentence env p s).1 = .panic) :
    (parseSentence env p s).2 = p ∨
    (∃ talker own num id chan payload, Part talker own num id chan payload s ∧ (num = 1 ∨ num = 2) ∧
      pendingPart p own (3 - num) id chan ≠ none ∧ LostText p (parseSentence env p s).2 (partKey own (3 - num) id chan)) ∨
    (∃ talker k fs, GsvPart talker (2 ^ 32 - 1) k fs s ∧ env.overflowChecks = true ∧
      GainedText p (parseSentence env p s).2 (gsvKey talker (2 ^ 32 - 1) k) (join (tag '$' talker (c! "GSV")) fs)) := by
  by_cases hu : UsesMemory s
  · rcases hu with ⟨talker, own, payload, hs⟩ | ⟨talker, own, num, id, chan, payload, hs, hn⟩ | ⟨talker, n, k, fs, hs⟩
    · left
      obtain ⟨fs, k, hf, h0, h1, rfl⟩ := hs
      rw [eval_single env p talker own fs s hf h0 k h1] at h ⊢
      exact complete_panic_state _ _ _ _ _ h
    · right; left
      refine ⟨talker, own, num, id, chan, payload, hs, hn, ?_⟩
      have lost : ∀ k, LostText p { p with savedFragments := p.savedFragments.erase k } k := fun k =>
        ⟨KV.get_erase_self _ _, fun k' hk => KV.get_erase_ne _ _ _ hk, fun _ => rfl⟩
      rcases hn with rfl | rfl
      · rw [eval_part1 env p talker own id chan payload s hs] at h ⊢
        unfold joinPart at h ⊢
        cases hg : p.savedFragments.get (partKey own 2 id chan) with
        | none => simp [hg] at h
        | some b =>
          rw [hg] at h
          simp only [] at h ⊢
          rw [complete_panic_state _ _ _ _ _ h]
          exact ⟨by rw [pendingPart, hg]; simp, lost _⟩
      · rw [eval_part2 env p talker own id chan payload s hs] at h ⊢
        unfold joinPart at h ⊢
        cases hg : p.savedFragments.get (partKey own 1 id chan) with
        | none => simp [hg] at h
        | some b =>
          rw [hg] at h
          simp only [] at h ⊢
          rw [complete_panic_state _ _ _ _ _ h]
          exact ⟨by rw [pendingPart, hg]; simp, lost _⟩
    · right; right
      rw [eval_gsv env p talker n k fs s hs] at h ⊢
      unfold gsvStep at h ⊢
      by_cases hn : n = 2 ^ 32 - 1
      · subst hn
        rw [if_pos rfl] at h ⊢
        refine ⟨talker, k, fs, hs, ?_, KV.get_insert_self _ _ _, fun k' hk => KV.get_insert_ne _ _ _ _ hk, fun _ => rfl⟩
        cases ho : env.overflowChecks with
        | true => rfl
        | false => simp [ho] at h
      · rw [if_neg hn] at h
        split at h <;> simp at h
  · left
    rw [eval_alone env p s hu]

/-- A base station report without a date, in two parts: the second part panics. -/
example : (parseSentence demoEnv (run Parser.new [(demoEnv, c! "!AIVDM,2,1,3,A,4028jI,0")])
    (c! "!AIVDM,2,2,3,A,P00Htt<n,0")).1 = .panic := by decide +kernel

/-- C112: so, but for these two cases, the call that panicked may be left out: no later answer changes. -/
theorem C112_left_out (env : Env) (p : Parser) (s : Str) (h : (parseSentence env p s).1 = .panic)
    (hp : ∀ own id chan, ¬ InGroup own id chan s) (hg : ∀ talker k fs, ¬ GsvPart talker (2 ^ 32 - 1) k fs s)
    (f : List (Env × Str)) : answers p ((env, s) :: f) = .panic :: answers p f := by
  rw [answers, h]
  rcases C112_state env p s h with h' | ⟨talker, own, num, id, chan, payload, hs, -⟩ | ⟨talker, k, fs, hs, -⟩
  · rw [h']
  · exact absurd ⟨talker, num, payload, hs⟩ (hp own id chan)
  · exact absurd hs (hg talker k fs)

/-- A GGA sentence without a time. -/
example : (parseSentence demoEnv Parser.new (c! "$GPGGA,,,,,,0,,,,,,,,")).1 = .panic ∧
    (∀ own id chan, ¬ InGroup own id chan (c! "$GPGGA,,,,,,0,,,,,,,,")) ∧
    ∀ talker k fs, ¬ GsvPart talker (2 ^ 32 - 1) k fs (c! "$GPGGA,,,,,,0,,,,,,,,") := by
  refine ⟨by decide +kernel, ?_, ?_⟩
  · rintro own id chan ⟨_, _, _, h⟩
    obtain ⟨_, e⟩ := h.bang
    exact absurd (List.cons.inj e).1 (by decide)
  · rintro talker k fs ⟨h, -⟩
    have h' : IsGnss (c! "GP") (c! "GGA") [[], [], [], [], [], c! "0", [], [], [], [], [], [], [], []]
        (c! "$GPGGA,,,,,,0,,,,,,,,") := demoTagged .bare (by decide)
    exact absurd (IsTagged.unique h h' (by decide) (by decide) (by decide) (by decide)).2.2.1 (by decide)

theorem eval_part (talker : Str) (own : Bool) (num id : Nat) (chan pl s : Str)
    (hp : Part talker own num id chan pl s) (hn : num = 1 ∨ num = 2) :
    ∃ comb : Str → Str, ∀ env p, parseSentence env p s =
      joinPart env p own (talkerStation talker) (partKey own num id chan) (partKey own (3 - num) id chan) pl comb := by
  rcases hn with rfl | rfl
  · exact ⟨_, fun env p => eval_part1 env p talker own id chan pl s hp⟩
  · exact ⟨_, fun env p => eval_part2 env p talker own id chan pl s hp⟩

/-- C112: a part whose call panicked, given again, is answered `Incomplete` and kept as if it belonged to a message still
to come. -/
theorem C112_retry (env env' : Env) (p : Parser) (talker : Str) (own : Bool) (num id : Nat)
    (chan payload s : Str) (hs : Part talker own num id chan payload s) (hn : num = 1 ∨ num = 2)
    (h : (parseSentence env p s).1 = .panic) :
    (parseSentence env' (parseSentence env p s).2 s).1 = .ok .incomplete ∧
    pendingPart (parseSentence env' (parseSentence env p s).2 s).2 own num id chan = some payload := by
  obtain ⟨comb, ev⟩ := eval_part talker own num id chan payload s hs hn
  have hl : (parseSentence env p s).2.savedFragments.get (partKey own (3 - num) id chan) = none := by
    rw [ev] at h ⊢
    unfold joinPart at h ⊢
    cases hg : p.savedFragments.get (partKey own (3 - num) id chan) with
    | none => simp [hg] at h
    | some b =>
      rw [hg] at h
      simp only [] at h ⊢
      rw [complete_panic_state _ _ _ _ _ h]
      exact KV.get_erase_self _ _
  rw [ev env']
  simp only [joinPart, hl]
  exact ⟨trivial, KV.get_insert_self _ _ _⟩

/-- The second part of the report above. -/
example : Part (c! "AI") false 2 3 (c! "A") (c! "P00Htt<n") (c! "!AIVDM,2,2,3,A,P00Htt<n,0") :=
  ⟨[c! "2", c! "2", c! "3", c! "A", c! "P00Htt<n", c! "0"], demoTagged .bare (by decide), demoDec (by decide),
    demoDec (by decide), demoDec (by decide), rfl, rfl⟩

/-- C112: the two parts of a message whose decoding panics, with any sentences outside their group in between, on a parser
with nothing of the group pending: what follows is answered as if the two parts had not been received. -/
theorem C112_message_left_out (e1 e2 : Env) (p : Parser) (hp : Reachable p) (t1 t2 : Str) (own : Bool) (num id : Nat)
    (chan a b s1 s2 : Str) (h : List (Env × Str)) (hn : num = 1 ∨ num = 2)
    (h1 : Part t1 own num id chan a s1) (h2 : Part t2 own (3 - num) id chan b s2)
    (hno : ∀ n, n = 1 ∨ n = 2 → pendingPart p own n id chan = none)
    (hh : ∀ x ∈ h, ¬ InGroup own id chan x.2)
    (hpan : (parseSentence e2 (run p ((e1, s1) :: h)) s2).1 = .panic) (f : List (Env × Str)) :
    answers (run p ((e1, s1) :: h ++ [(e2, s2)])) f = answers (run p h) f := by
  have happ : ∀ (q : Parser) (g k : List (Env × Str)), answers q (g ++ k) = answers q g ++ answers (run q g) k := by
    intro q g k
    induction g generalizing q with
    | nil => rfl
    | cons z g ih => simp only [List.cons_append, answers, run]; rw [ih]
  have hlen : ∀ (q : Parser) (g : List (Env × Str)), (answers q g).length = g.length := by
    intro q g
    induction g generalizing q with
    | nil => rfl
    | cons z g ih => simp only [List.length_cons, answers]; rw [ih]
  induction h generalizing p with
  | nil =>
    obtain ⟨c1, ev1⟩ := eval_part t1 own num id chan a s1 h1 hn
    obtain ⟨c2, ev2⟩ := eval_part t2 own (3 - num) id chan b s2 h2 (by omega)
    have h3 : 3 - (3 - num) = num := by omega
    rw [h3] at ev2
    have hne : partKey own (3 - num) id chan ≠ partKey own num id chan := by
      intro he
      have := partKey_inj he
      omega
    have ho : p.savedFragments.get (partKey own (3 - num) id chan) = none := hno _ (by omega)
    have ho' : p.savedFragments.get (partKey own num id chan) = none := hno _ hn
    refine (C103_history _ _ ?_ f).1
    simp only [List.cons_append, List.nil_append, run] at hpan ⊢
    rw [ev1] at hpan ⊢
    simp only [joinPart, ho] at hpan ⊢
    rw [ev2] at hpan ⊢
    simp only [joinPart, KV.get_insert_self] at hpan ⊢
    rw [complete_panic_state _ _ _ _ _ hpan]
    refine ⟨fun k => ?_, fun _ => rfl⟩
    simp only []
    rw [KV.get_erase]
    by_cases hk : k = partKey own num id chan
    · rw [if_pos hk, hk, ho']
    · rw [if_neg hk, KV.get_insert_ne _ _ _ _ hk, KV.get_erase]
      by_cases hk' : k = partKey own (3 - num) id chan
      · rw [if_pos hk', hk', ho]
      · rw [if_neg hk']
  | cons x h ih =>
    have hu : Unrelated p s1 x.2 := by
      refine ⟨?_, ?_, ?_⟩
      · rintro own' id' chan' ⟨⟨t', n', pl', hq⟩, hx⟩
        obtain ⟨-, rfl, -, rfl, rfl, -⟩ := h1.unique hq
        exact hh x (by simp) hx
      · rintro talker n ⟨⟨_, _, hg⟩, -⟩
        exact hg.notBang h1.bang
      · rintro mmsi ⟨⟨t', own', pl', hd, -⟩, -⟩
        cases hd with
        | single _ hs => exact hs.not_part h1
        | first id' chan' a' b' hq hw =>
          obtain ⟨-, rfl, rfl, rfl, rfl, -⟩ := h1.unique hq
          rw [hno 2 (by simp)] at hw; cases hw
        | second id' chan' a' b' hq hw =>
          obtain ⟨-, rfl, rfl, rfl, rfl, -⟩ := h1.unique hq
          rw [hno 1 (by simp)] at hw; cases hw
    obtain ⟨-, sw⟩ := C110_swap p hp (e1, s1) x hu
    have key := sw (h ++ [(e2, s2)])
    rw [happ, happ] at key
    have key' := List.append_inj_right key (by rw [hlen, hlen])
    simp only [answers, List.cons.injEq, and_true] at key'
    have hpan' : (parseSentence e2 (run (parseSentence x.1 p x.2).2 ((e1, s1) :: h)) s2).1 = .panic := by
      rw [← hpan]
      exact key'.symm
    have i := ih (parseSentence x.1 p x.2).2 (reachable_next hp x)
      (fun n hn => by
        rw [← hno n hn]
        exact C16_never_expires p [x] own n id chan (fun y hy => by
          simp only [List.mem_singleton] at hy
          rw [hy]
          exact hh x (by simp)))
      (fun y hy => hh y (by simp [hy])) hpan'
    have key2 := sw (h ++ [(e2, s2)] ++ f)
    rw [happ, happ _ _ f] at key2
    have key3 := List.append_inj_right key2 (by rw [hlen, hlen])
    refine Eq.trans ?_ (key3.trans (Eq.trans ?_ i))
    · simp only [List.cons_append, run, run_append']
    · simp only [List.cons_append, run, run_append']

/-- The report above on a new parser, with a GLL sentence in between. -/
example : Part (c! "AI") false 1 3 (c! "A") (c! "4028jI") (c! "!AIVDM,2,1,3,A,4028jI,0") ∧
    (∀ n, n = 1 ∨ n = 2 → pendingPart Parser.new false n 3 (c! "A") = none) ∧
    ¬ InGroup false 3 (c! "A") (c! "$GPGLL,,,,,,") ∧
    (parseSentence demoEnv (run Parser.new [(demoEnv, c! "!AIVDM,2,1,3,A,4028jI,0"), (demoEnv, c! "$GPGLL,,,,,,")])
      (c! "!AIVDM,2,2,3,A,P00Htt<n,0")).1 = .panic := by
  refine ⟨⟨[c! "2", c! "1", c! "3", c! "A", c! "4028jI", c! "0"], demoTagged .bare (by decide), demoDec (by decide),
    demoDec (by decide), demoDec (by decide), rfl, rfl⟩, fun _ _ => rfl, ?_, by decide +kernel⟩
  rintro ⟨_, _, _, h⟩
  obtain ⟨_, e⟩ := h.bang
  exact absurd (List.cons.inj e).1 (by decide)

end Nmea
