/-
C161: what two parsers that answer everything alike have in common.
-/
import Verif.Lemmas.Recover
import Verif.Lemmas.Divide
import Verif.Lemmas.Demo

namespace Nmea
open Spec

/-! ### Sentences that leave no trace -/

theorem alike_answers {p q : Parser} {k m : Memory} (hp : Rel p k) (hq : Rel q m) (ha : Alike k m)
    (f : List (Env × Str)) : answers p f = answers q f := by
  obtain ⟨as, m', ht⟩ := trace_total m f
  obtain ⟨k', ht', -⟩ := alike_trace ha ht
  rw [(trace_rel _ _ _ _ _ hp ht').1, (trace_rel _ _ _ _ _ hq ht).1]

/-- C161: a GSV sentence whose number is not one of 1..count, or whose count is 4294967295, changes no later
answer (although it is kept for ever, C36). -/
theorem C161_no_trace (env : Env) (p : Parser) (hp : Reachable p) (s talker : Str) (n k : Nat) (fs : List Str)
    (hs : GsvPart talker n k fs s) (hk : k = 0 ∨ n < k ∨ n = 2 ^ 32 - 1) (f : List (Env × Str)) :
    answers (parseSentence env p s).2 f = answers p f := by
  obtain ⟨m, hr, hm⟩ := sound_reachable hp
  by_cases hn : n = 2 ^ 32 - 1
  · subst hn
    refine alike_answers (step_rel _ _ _ _ _ _ hr (.gsvHuge (env := env) hs)).2 hr ⟨rfl, fun t n' j h1 h2 h3 => ?_, rfl⟩ f
    exact if_neg (by rintro ⟨-, rfl, -⟩; omega)
  · have hlt : n < 2 ^ 32 - 1 := by
      have := hs.2.1.le
      omega
    by_cases h0 : n = 0
    · refine alike_answers (step_rel _ _ _ _ _ _ hr (.gsvDone (env := env) hs hlt (fun j _ _ => by omega))).2 hr
        ⟨rfl, fun t n' j h1 h2 h3 => ?_, rfl⟩ f
      simp only [Memory.clearGsv, Memory.setGsv]
      rw [if_neg (by rintro ⟨-, rfl, -⟩; omega), if_neg (by rintro ⟨-, rfl, -⟩; omega)]
    · obtain ⟨j, h1, h2, h3⟩ := hm.missing talker n (by omega) hlt
      refine alike_answers (step_rel _ _ _ _ _ _ hr (.gsvWaits (env := env) hs hlt ⟨j, h1, h2, by omega, h3⟩)).2 hr
        ⟨rfl, fun t n' j h1 h2 h3 => ?_, rfl⟩ f
      exact if_neg (by rintro ⟨-, rfl, rfl⟩; omega)

/-- Sentence 3 of 2, while sentence 1 of 2 is pending: sentence 2 is answered with the satellites of the group, with and
without it. -/
example : let p := run Parser.new [(demoEnv, c! "$GPGSV,2,1,05,01,40,083,46")]
    answers (parseSentence demoEnv p (c! "$GPGSV,2,3,05,09,40,083,46")).2 [(demoEnv, c! "$GPGSV,2,2,05,02,17,x,")] =
      answers p [(demoEnv, c! "$GPGSV,2,2,05,02,17,x,")] :=
  C161_no_trace _ _ ⟨_, rfl⟩ _ (c! "GP") 2 3 [c! "2", c! "3", c! "05", c! "09", c! "40", c! "083", c! "46"]
    ⟨demoTagged .bare (by decide), .inr (demoDec (by decide)), .inr (demoDec (by decide))⟩ (.inr (.inl (by decide))) _

open Classical in
/-- C161: such sentences may be left out of a history: everything afterwards is answered alike. -/
theorem C161_left_out (h f : List (Env × Str)) :
    answers (run Parser.new (h.filter fun x => decide (¬ ∃ talker n k fs, GsvPart talker n k fs x.2 ∧
      (k = 0 ∨ n < k ∨ n = 2 ^ 32 - 1)))) f = answers (run Parser.new h) f := by
  have key : ∀ h p q, Reachable p → Reachable q → (∀ f, answers p f = answers q f) →
      ∀ f, answers (run p (h.filter fun x => decide (¬ ∃ talker n k fs, GsvPart talker n k fs x.2 ∧
        (k = 0 ∨ n < k ∨ n = 2 ^ 32 - 1)))) f = answers (run q h) f := by
    intro h
    induction h with
    | nil => exact fun p q _ _ e f => e f
    | cons x h ih =>
      intro p q hp hq e f
      have next : ∀ {p : Parser}, Reachable p → Reachable (parseSentence x.1 p x.2).2 := by
        rintro p ⟨g, rfl⟩
        exact ⟨g ++ [x], by rw [run_append']; rfl⟩
      by_cases hx : ∃ talker n k fs, GsvPart talker n k fs x.2 ∧ (k = 0 ∨ n < k ∨ n = 2 ^ 32 - 1)
      · rw [List.filter_cons_of_neg (by rw [decide_eq_true_eq]; exact fun h => h hx)]
        obtain ⟨t, n, k, fs, hs, hk⟩ := hx
        exact ih p _ hp (next hq) (fun g => (e g).trans (C161_no_trace x.1 q hq x.2 t n k fs hs hk g).symm) f
      · rw [List.filter_cons_of_pos (by rw [decide_eq_true_eq]; exact hx)]
        exact ih _ _ (next hp) (next hq) (fun g => (List.cons.inj (e (x :: g))).2) f
  exact key h _ _ ⟨[], rfl⟩ ⟨[], rfl⟩ (fun _ => rfl) f

/-- The history of the example above without sentence 3 of 2. -/
example (f : List (Env × Str)) :
    answers (run Parser.new [(demoEnv, c! "$GPGSV,2,1,05,01,40,083,46"), (demoEnv, c! "$GPGSV,2,3,05,09,40,083,46")]) f =
      answers (run Parser.new [(demoEnv, c! "$GPGSV,2,1,05,01,40,083,46")]) f := by
  have hb : ∃ talker n k fs, GsvPart talker n k fs (c! "$GPGSV,2,3,05,09,40,083,46") ∧ (k = 0 ∨ n < k ∨ n = 2 ^ 32 - 1) :=
    ⟨c! "GP", 2, 3, [c! "2", c! "3", c! "05", c! "09", c! "40", c! "083", c! "46"],
      ⟨demoTagged .bare (by decide), .inr (demoDec (by decide)), .inr (demoDec (by decide))⟩, .inr (.inl (by decide))⟩
  have hg : ¬ ∃ talker n k fs, GsvPart talker n k fs (c! "$GPGSV,2,1,05,01,40,083,46") ∧ (k = 0 ∨ n < k ∨ n = 2 ^ 32 - 1) := by
    rintro ⟨t, n, k, fs, h, hk⟩
    obtain ⟨-, rfl, rfl, -⟩ := demoGsv1.unique h
    omega
  rw [← C161_left_out]
  simp only [List.filter, hb, hg, not_true_eq_false, not_false_eq_true, decide_true, decide_false]

/-! ### What tells two parsers apart -/

theorem static_tells {p q : Parser} {m k : Memory} (hp : Rel p m) (hq : Rel q k) (hm : Sound m) (i : Nat)
    (x : Bool × List Bool) (hx : m.static i = some x) (hk : k.static i = none) (env : Env) :
    ∃ h : List Str, answers p (h.map fun s => (env, s)) ≠ answers q (h.map fun s => (env, s)) := by
  obtain ⟨e1, e2⟩ := emptyStatic_part env i (hm.static i x hx)
  refine ⟨[emptyStatic i], fun e => ?_⟩
  rw [List.map_singleton,
    (trace_rel _ _ _ _ _ hp (.cons (.single (emptyStatic_single _) (.second x.1 x.2 e1 (by rw [e2, hx]))) (.nil _))).1,
    (trace_rel _ _ _ _ _ hq (.cons (.single (emptyStatic_single _) (.first e1 (by rw [e2, hk]))) (.nil _))).1] at e
  exact absurd (List.cons.inj e).1 (by simp)

theorem part_tells {p q : Parser} {m k : Memory} (hp : Rel p m) (hq : Rel q k) (hm : Sound m) (hmk : Sound k) (own : Bool)
    (id : Nat) (chan : Str) (num : Nat) (x : Str) (hx : m.part own id chan = some (num, x))
    (hk : ∀ y, k.part own id chan ≠ some (num, y)) (env : Env) :
    ∃ h : List Str, answers p (h.map fun s => (env, s)) ≠ answers q (h.map fun s => (env, s)) := by
  obtain ⟨hn, hi, hc⟩ := hm.part own id chan _ hx
  have hxc := hp.partOk own id chan _ hx
  -- the other part, and what it makes of the memories
  have step : ∃ num' s pl, (num' = 1 ∨ num' = 2) ∧ 3 - num' = num ∧ Part (c! "AI") own num' id chan [] s ∧ ',' ∉ pl ∧
      ∀ a m1, Message env (m.setPart own id chan none) (c! "AI") own pl a m1 → Step env m s a m1 := by
    rcases hn with hn | hn <;> simp only at hn <;> subst hn
    · have h2 := part_sentence (c! "AI") own 2 id chan [] 0 ⟨by decide, by decide⟩ (by decide) (by omega) hc (by simp)
      exact ⟨2, _, x ++ [], .inr rfl, rfl, h2, by simpa using hxc, fun a m1 h => .second h2 hx h⟩
    · have h1 := part_sentence (c! "AI") own 1 id chan [] 0 ⟨by decide, by decide⟩ (by decide) (by omega) hc (by simp)
      exact ⟨1, _, [] ++ x, .inl rfl, rfl, h1, by simpa using hxc, fun a m1 h => .first h1 hx h⟩
  obtain ⟨num', s, pl, hn', hnn, hs, hpl, hstep⟩ := step
  have hwait : Step env k s (.ok .incomplete) (k.setPart own id chan (some (num', []))) :=
    .waits hs hn' (fun y => by rw [hnn]; exact hk y)
  obtain ⟨a, m1, hm1⟩ := message_total env (m.setPart own id chan none) (c! "AI") own pl
  have one : a ≠ .ok .incomplete → answers p ([s].map fun s => (env, s)) ≠ answers q ([s].map fun s => (env, s)) := by
    intro ha e
    rw [List.map_singleton, (trace_rel _ _ _ _ _ hp (.cons (hstep a m1 hm1) (.nil _))).1,
      (trace_rel _ _ _ _ _ hq (.cons hwait (.nil _))).1] at e
    exact ha (List.cons.inj e).1
  cases hm1 with
  | plain h => exact ⟨[s], one (fun e => h (alone_incomplete env _ own pl ⟨by decide, by decide⟩ hpl e))⟩
  | second o b h h2 => exact ⟨[s], one (fun e => by cases e)⟩
  | first h h2 =>
    cases hks : k.static (mmsiOf (payloadBits pl)) with
    | some y =>
      obtain ⟨f, hf⟩ := static_tells hq hp hmk _ y hks h2 env
      exact ⟨f, fun e => hf e.symm⟩
    | none =>
      have hlt : mmsiOf (payloadBits pl) < 2 ^ 30 := by
        have := bitsVal_lt (window (payloadBits pl) 8 30)
        rwa [length_window] at this
      obtain ⟨e1, e2⟩ := emptyStatic_part env _ hlt
      refine ⟨[s, emptyStatic (mmsiOf (payloadBits pl))], fun e => ?_⟩
      rw [List.map_cons, List.map_singleton,
        (trace_rel _ _ _ _ _ hp (.cons (hstep _ _ (.first h h2)) (.cons (.single (emptyStatic_single _)
          (.second own (payloadBits pl) e1 (by rw [e2]; simp [Memory.setStatic]))) (.nil _)))).1,
        (trace_rel _ _ _ _ _ hq (.cons hwait (.cons (.single (emptyStatic_single _)
          (.first e1 (by rw [e2]; exact hks))) (.nil _)))).1] at e
      exact absurd (List.cons.inj (List.cons.inj e).2).1 (by simp)

theorem gsv_tells {p q : Parser} {m k : Memory} (hp : Rel p m) (hq : Rel q k) (hm : Sound m) (t : Str) (n i : Nat)
    (hi : 1 ≤ i ∧ i ≤ n) (hn : n < 2 ^ 32 - 1) (hx : m.gsv t n i ≠ none) (hk : k.gsv t n i = none) (env : Env) :
    ∃ h : List Str, answers p (h.map fun s => (env, s)) ≠ answers q (h.map fun s => (env, s)) := by
  obtain ⟨fs, hfs⟩ := Option.ne_none_iff_exists'.1 hx
  have ht := hm.gsv t n i fs hfs
  have mem : ∀ j, j ∈ (List.range' 1 n).filter (fun j => decide (j ≠ i)) ↔ (1 ≤ j ∧ j ≤ n) ∧ j ≠ i := by
    intro j
    rw [List.mem_filter, List.mem_range'_1, decide_eq_true_eq]
    omega
  generalize (List.range' 1 n).filter (fun j => decide (j ≠ i)) = J at mem
  obtain ⟨as, m', h1, h2⟩ := gsv_kept env t ht n hn J (fun j hj => ((mem j).1 hj).1.2) m
  obtain ⟨bs, k', g1, g2⟩ := gsv_new env t ht n i hn hi J (fun j hj => ⟨((mem j).1 hj).1.2, ((mem j).1 hj).2⟩) k hk
  refine ⟨J.map (emptyGsv t n), fun e => ?_⟩
  rw [(trace_rel _ _ _ _ _ hp h1).1, (trace_rel _ _ _ _ _ hq g1).1] at e
  rcases h2 with ⟨a, ha, hb⟩ | h2
  · exact hb (g2 a (e ▸ ha))
  · obtain ⟨j, a, b, c⟩ := (sound_trace hm h1).missing t n (by omega) hn
    refine h2 j ?_ c
    by_cases ek : j = i
    · exact .inr (ek ▸ hx)
    · exact .inl ((mem j).2 ⟨⟨a, b⟩, ek⟩)

/-- C161: two parsers that answer everything alike, in one environment, are waiting for the same things: the same parts
of two-part messages, the same sentences of GSV groups and the same vessels' type 24 messages. -/
theorem C161_same_pending (env : Env) (p q : Parser) (hp : Reachable p) (hq : Reachable q)
    (h : ∀ f : List Str, answers p (f.map fun s => (env, s)) = answers q (f.map fun s => (env, s))) :
    (∀ own num id chan, (num = 1 ∨ num = 2) →
      (pendingPart p own num id chan = none ↔ pendingPart q own num id chan = none)) ∧
    (∀ talker n k, Talker talker → 1 ≤ k → k ≤ n → n < 2 ^ 32 - 1 →
      (pendingGsv p talker n k = none ↔ pendingGsv q talker n k = none)) ∧
    ∀ mmsi, pendingStatic p mmsi = none ↔ pendingStatic q mmsi = none := by
  obtain ⟨m, rp, sm⟩ := sound_reachable hp
  obtain ⟨k, rq, sk⟩ := sound_reachable hq
  have parts : ∀ {p q : Parser} {m k : Memory}, Rel p m → Rel q k → Sound m → Sound k →
      (∀ f : List Str, answers p (f.map fun s => (env, s)) = answers q (f.map fun s => (env, s))) →
      ∀ own num id chan, (num = 1 ∨ num = 2) → pendingPart q own num id chan = none → pendingPart p own num id chan = none := by
    intro p q m k rp rq sm sk h own num id chan hn hz
    rw [rq.part own num id chan hn] at hz
    rw [rp.part own num id chan hn]
    cases hx : m.part own id chan with
    | none => rfl
    | some x =>
      obtain ⟨num', x⟩ := x
      simp only [partOfMemory, Option.bind_some]
      by_cases e : num' = num
      · subst e
        obtain ⟨f, hf⟩ := part_tells rp rq sm sk own id chan num' x hx (fun y hy => by
          rw [hy] at hz; simp [partOfMemory] at hz) env
        exact absurd (h f) hf
      · rw [if_neg e]
  have gsvs : ∀ {p q : Parser} {m k : Memory}, Rel p m → Rel q k → Sound m →
      (∀ f : List Str, answers p (f.map fun s => (env, s)) = answers q (f.map fun s => (env, s))) →
      ∀ talker n j, Talker talker → 1 ≤ j → j ≤ n → n < 2 ^ 32 - 1 → pendingGsv q talker n j = none →
        pendingGsv p talker n j = none := by
    intro p q m k rp rq sm h t n j ht h1 h2 h3 hz
    rw [rq.gsv t n j ht.2, Option.map_eq_none_iff] at hz
    rw [rp.gsv t n j ht.2, Option.map_eq_none_iff]
    by_contra hx
    obtain ⟨f, hf⟩ := gsv_tells rp rq sm t n j ⟨h1, h2⟩ h3 hx hz env
    exact hf (h f)
  have stats : ∀ {p q : Parser} {m k : Memory}, Rel p m → Rel q k → Sound m →
      (∀ f : List Str, answers p (f.map fun s => (env, s)) = answers q (f.map fun s => (env, s))) →
      ∀ i, pendingStatic q i = none → pendingStatic p i = none := by
    intro p q m k rp rq sm h i hz
    rw [rq.static i, Option.map_eq_none_iff] at hz
    rw [rp.static i, Option.map_eq_none_iff]
    cases hx : m.static i with
    | none => rfl
    | some x =>
      obtain ⟨f, hf⟩ := static_tells rp rq sm i x hx hz env
      exact absurd (h f) hf
  have h' := fun f => (h f).symm
  exact ⟨fun own num id chan hn => ⟨parts rq rp sk sm h' own num id chan hn, parts rp rq sm sk h own num id chan hn⟩,
    fun t n j ht h1 h2 h3 => ⟨gsvs rq rp sk h' t n j ht h1 h2 h3, gsvs rp rq sm h t n j ht h1 h2 h3⟩,
    fun i => ⟨stats rq rp sk h' i, stats rp rq sm h i⟩⟩

/-- Part 1 and part 2 of one message are not the same thing to wait for: some sentences are answered differently. -/
example : ∃ f : List Str, answers (run Parser.new [(demoEnv, c! "!AIVDM,2,1,7,B,:5MlU41,0")]) (f.map fun s => (demoEnv, s)) ≠
    answers (run Parser.new [(demoEnv, c! "!AIVDM,2,2,7,B,GMK6@,0")]) (f.map fun s => (demoEnv, s)) := by
  by_contra hno
  have h := (C161_same_pending demoEnv _ _ ⟨_, rfl⟩ ⟨_, rfl⟩ (fun f => by_contra fun e => hno ⟨f, e⟩)).1 false 1 7 (c! "B") (.inl rfl)
  exact absurd (h.mpr (by decide +kernel)) (by decide +kernel)

/-! ### The satellites that are pending -/

theorem satellites_emptyGsv (nav : NavigationSystem) (n k : Nat) : satellites nav [natStr n, natStr k] = [] := by
  have : readDec 255 [] = none := by decide
  simp [satellites, satellite, field, this]

theorem flatMap_one {β : Type} (g : Nat → List β) (n k : Nat) (h1 : 1 ≤ k) (h2 : k ≤ n)
    (h : ∀ j, 1 ≤ j → j ≤ n → j ≠ k → g j = []) : (List.range' 1 n).flatMap g = g k := by
  have key : ∀ (a l : Nat), 1 ≤ a → a + l ≤ n + 1 →
      (List.range' a l).flatMap g = if a ≤ k ∧ k < a + l then g k else [] := by
    intro a l
    induction l generalizing a with
    | zero => intro _ _; rw [if_neg (by omega)]; rfl
    | succ l ih =>
      intro ha hl
      rw [List.range'_succ, List.flatMap_cons, ih (a + 1) (by omega) (by omega)]
      by_cases e : a = k
      · subst e
        rw [if_neg (by omega), if_pos (by omega), List.append_nil]
      · rw [h a ha (by omega) e, List.nil_append]
        by_cases e' : a ≤ k ∧ k < a + (l + 1)
        · rw [if_pos e', if_pos (by omega)]
        · rw [if_neg e', if_neg (by omega)]
  rw [key 1 n (by omega) (by omega), if_pos (by omega)]

/-- The sentences that are pending are replaced by empty ones. -/
theorem gsv_replace (env : Env) (t : Str) (ht : Talker t) (n : Nat) (hn : n < 2 ^ 32 - 1) (i : Nat) (hi : 1 ≤ i ∧ i ≤ n)
    (J : List Nat) (hJ : ∀ j ∈ J, j ≤ n ∧ j ≠ i) (m : Memory) (hm : m.gsv t n i = none) :
    ∃ as m', Trace m ((J.map (emptyGsv t n)).map fun s => (env, s)) as m' ∧ as.length = J.length ∧
      ∀ j, m'.gsv t n j = if j ∈ J then some [natStr n, natStr j] else m.gsv t n j := by
  induction J generalizing m with
  | nil => exact ⟨[], m, .nil m, rfl, fun j => by simp⟩
  | cons a J ih =>
    have ha := hJ a List.mem_cons_self
    have hg := emptyGsv_part t n a ht (by omega) (by omega)
    obtain ⟨as, m', h1, hl, h2⟩ := ih (fun j hj => hJ j (List.mem_cons_of_mem _ hj)) (m.setGsv t n a [natStr n, natStr a])
      (by rw [setGsv_ne _ _ _ _ _ _ ha.2.symm, hm])
    refine ⟨_ :: as, m', .cons (.gsvWaits hg hn ⟨i, hi.1, hi.2, ha.2.symm, hm⟩) h1, by simp [hl], fun j => ?_⟩
    rw [h2]
    by_cases hj : j ∈ J
    · rw [if_pos hj, if_pos (List.mem_cons_of_mem _ hj)]
    · rw [if_neg hj]
      by_cases e : j = a
      · subst e
        rw [setGsv_self, if_pos List.mem_cons_self]
      · rw [setGsv_ne _ _ _ _ _ _ e, if_neg (by simp [e, hj])]

/-- The sentences that are missing are brought, all of them empty: the answer to the last one has the satellites of the
only sentence that is not empty. -/
theorem gsv_bring (env : Env) (t : Str) (ht : Talker t) (n : Nat) (hn : n < 2 ^ 32 - 1) (k : Nat) (hk : 1 ≤ k ∧ k ≤ n)
    (fs : List Str) (J : List Nat) (h0 : J ≠ []) (hd : J.Nodup) (m : Memory)
    (hJ : ∀ j ∈ J, 1 ≤ j ∧ j ≤ n ∧ j ≠ k ∧ m.gsv t n j = none) (hm : m.gsv t n k = some fs)
    (hE : ∀ j, 1 ≤ j → j ≤ n → j ≠ k → j ∉ J → m.gsv t n j = some [natStr n, natStr j]) :
    ∃ as m', Trace m ((J.map (emptyGsv t n)).map fun s => (env, s)) as m' ∧
      as.getLast? = some (.ok (.gsv (satellites (talkerSystem t) fs))) := by
  induction J generalizing m with
  | nil => exact absurd rfl h0
  | cons a J ih =>
    obtain ⟨a1, a2, a3, a4⟩ := hJ a List.mem_cons_self
    have hg := emptyGsv_part t n a ht (by omega) (by omega)
    obtain ⟨hd1, hd2⟩ := List.nodup_cons.mp hd
    cases J with
    | nil =>
      refine ⟨_, _, .cons (.gsvDone hg hn (fun j h1 h2 h3 => ?_)) (.nil _), ?_⟩
      · by_cases e : j = k
        · rw [e, hm]; simp
        · rw [hE j h1 h2 e (by simp [h3])]; simp
      · rw [List.getLast?_singleton, flatMap_one _ n k hk.1 hk.2, setGsv_ne _ _ _ _ _ _ a3.symm, hm]
        · rfl
        · intro j h1 h2 h3
          by_cases e : j = a
          · rw [e, setGsv_self]
            exact satellites_emptyGsv _ _ _
          · rw [setGsv_ne _ _ _ _ _ _ e, hE j h1 h2 h3 (by simp [e])]
            exact satellites_emptyGsv _ _ _
    | cons b J =>
      obtain ⟨b1, b2, b3, b4⟩ := hJ b (List.mem_cons_of_mem _ List.mem_cons_self)
      have hab : b ≠ a := fun e => hd1 (by rw [← e]; exact List.mem_cons_self)
      obtain ⟨as, m', h1, h2⟩ := ih (by simp) hd2 (m.setGsv t n a [natStr n, natStr a]) (by
          intro j hj
          obtain ⟨j1, j2, j3, j4⟩ := hJ j (List.mem_cons_of_mem _ hj)
          have hja : j ≠ a := fun e => hd1 (e ▸ hj)
          exact ⟨j1, j2, j3, by rw [setGsv_ne _ _ _ _ _ _ hja, j4]⟩)
        (by rw [setGsv_ne _ _ _ _ _ _ a3.symm, hm]) (by
          intro j j1 j2 j3 j4
          by_cases e : j = a
          · rw [e, setGsv_self]
          · rw [setGsv_ne _ _ _ _ _ _ e]
            exact hE j j1 j2 j3 (by simp only [List.mem_cons, not_or] at j4 ⊢; exact ⟨e, j4⟩))
      refine ⟨_ :: as, m', .cons (.gsvWaits hg hn ⟨b, b1, b2, hab, b4⟩) h1, ?_⟩
      cases as with
      | nil => cases h2
      | cons x as => rw [List.getLast?_cons_cons]; exact h2

theorem gsv_contents_trace (env : Env) (t : Str) (ht : Talker t) (n : Nat) (hn : n < 2 ^ 32 - 1) (k : Nat) (hk : 1 ≤ k ∧ k ≤ n)
    (fs : List Str) (m : Memory) (hs : Sound m) (hm : m.gsv t n k = some fs) (P M : List Nat)
    (hP : ∀ j, j ∈ P ↔ 1 ≤ j ∧ j ≤ n ∧ j ≠ k ∧ m.gsv t n j ≠ none)
    (hM : ∀ j, j ∈ M ↔ 1 ≤ j ∧ j ≤ n ∧ j ≠ k ∧ m.gsv t n j = none) (hd : M.Nodup) :
    ∃ as m', Trace m (((P ++ M).map (emptyGsv t n)).map fun s => (env, s)) as m' ∧
      as.getLast? = some (.ok (.gsv (satellites (talkerSystem t) fs))) := by
  obtain ⟨i, i1, i2, i3⟩ := hs.missing t n (by omega) hn
  have hik : i ≠ k := by rintro rfl; rw [i3] at hm; cases hm
  obtain ⟨as, m1, t1, -, g1⟩ := gsv_replace env t ht n hn i ⟨i1, i2⟩ P
    (fun j hj => by
      obtain ⟨a, b, c, d⟩ := (hP j).mp hj
      exact ⟨b, fun e => d (e ▸ i3)⟩) m i3
  have nP : ∀ j, m.gsv t n j = none → j ∉ P := fun j h hj => ((hP j).mp hj).2.2.2 h
  obtain ⟨bs, m2, t2, g2⟩ := gsv_bring env t ht n hn k hk fs M
    (List.ne_nil_of_mem ((hM i).mpr ⟨i1, i2, hik, i3⟩)) hd m1
    (fun j hj => by
      obtain ⟨a, b, c, d⟩ := (hM j).mp hj
      exact ⟨a, b, c, by rw [g1, if_neg (nP j d), d]⟩)
    (by rw [g1, if_neg (fun h => ((hP k).mp h).2.2.1 rfl), hm])
    (fun j a b c d => by
      rw [g1, if_pos ((hP j).mpr ⟨a, b, c, fun e => d ((hM j).mpr ⟨a, b, c, e⟩)⟩)])
  refine ⟨as ++ bs, m2, ?_, ?_⟩
  · rw [List.map_append, List.map_append]
    exact t1.append t2
  · rw [List.getLast?_append, g2]
    rfl

/-- C161: two parsers that answer everything alike, in one environment, keep the same satellites in each sentence of a
GSV group that both keep. -/
theorem C161_same_satellites (env : Env) (p q : Parser) (hp : Reachable p) (hq : Reachable q)
    (h : ∀ f : List Str, answers p (f.map fun s => (env, s)) = answers q (f.map fun s => (env, s)))
    (talker : Str) (n k : Nat) (ht : Talker talker) (hk : 1 ≤ k ∧ k ≤ n) (hn : n < 2 ^ 32 - 1) (fs gs : List Str)
    (hf : CommaFree fs ∧ fs ≠ []) (hg : CommaFree gs ∧ gs ≠ [])
    (h1 : pendingGsv p talker n k = some (join (tag '$' talker (c! "GSV")) fs))
    (h2 : pendingGsv q talker n k = some (join (tag '$' talker (c! "GSV")) gs)) :
    satellites (talkerSystem talker) fs = satellites (talkerSystem talker) gs := by
  have same := (C161_same_pending env p q hp hq h).2.1
  obtain ⟨m, rp, sm⟩ := sound_reachable hp
  obtain ⟨m', rq, sk⟩ := sound_reachable hq
  have uniq : ∀ {x y : List Str}, CommaFree x → CommaFree y → x ≠ [] → y ≠ [] →
      join (tag '$' talker (c! "GSV")) x = join (tag '$' talker (c! "GSV")) y → x = y := by
    intro x y hx hy x0 y0 e
    have a : IsGnss talker (c! "GSV") x (finish (join (tag '$' talker (c! "GSV")) x) .full) :=
      ⟨ht, hx, x0, .full, fun e => (by cases e), rfl⟩
    have b : IsGnss talker (c! "GSV") y (finish (join (tag '$' talker (c! "GSV")) x) .full) :=
      ⟨ht, hy, y0, .full, fun e => (by cases e), by rw [e]⟩
    exact (IsTagged.unique a b (by decide) (by decide) (by decide) (by decide)).2.2.2
  have entry : ∀ {p : Parser} {m : Memory} {x : List Str}, Rel p m → CommaFree x → x ≠ [] →
      pendingGsv p talker n k = some (join (tag '$' talker (c! "GSV")) x) → m.gsv talker n k = some x := by
    intro p m x r hx x0 e
    rw [r.gsv talker n k ht.2, Option.map_eq_some_iff] at e
    obtain ⟨y, hy, e⟩ := e
    have y0 : y ≠ [] := by
      rintro rfl
      have := congrArg List.length e
      cases x with
      | nil => exact x0 rfl
      | cons a x =>
        simp only [gsvBody, join, List.map_nil, List.flatten_nil, List.append_nil, List.map_cons, List.flatten_cons,
          List.length_append, List.length_cons] at this
        omega
    rw [hy, uniq (r.gsvOk _ _ _ _ hy).2 hx y0 x0 e]
  have e1 := entry rp hf.1 hf.2 h1
  have e2 := entry rq hg.1 hg.2 h2
  have same' : ∀ j, 1 ≤ j → j ≤ n → (m.gsv talker n j = none ↔ m'.gsv talker n j = none) := by
    intro j j1 j2
    have := same talker n j ht j1 j2 hn
    rwa [rp.gsv talker n j ht.2, rq.gsv talker n j ht.2, Option.map_eq_none_iff, Option.map_eq_none_iff] at this
  have hP : ∀ j, j ∈ (List.range' 1 n).filter (fun j => decide (j ≠ k ∧ m.gsv talker n j ≠ none)) ↔
      1 ≤ j ∧ j ≤ n ∧ j ≠ k ∧ m.gsv talker n j ≠ none := by
    intro j
    rw [List.mem_filter, List.mem_range'_1, decide_eq_true_eq]
    exact ⟨fun ⟨⟨a, b⟩, c⟩ => ⟨a, by omega, c⟩, fun ⟨a, b, c⟩ => ⟨⟨a, by omega⟩, c⟩⟩
  have hM : ∀ j, j ∈ (List.range' 1 n).filter (fun j => decide (j ≠ k ∧ m.gsv talker n j = none)) ↔
      1 ≤ j ∧ j ≤ n ∧ j ≠ k ∧ m.gsv talker n j = none := by
    intro j
    rw [List.mem_filter, List.mem_range'_1, decide_eq_true_eq]
    exact ⟨fun ⟨⟨a, b⟩, c⟩ => ⟨a, by omega, c⟩, fun ⟨a, b, c⟩ => ⟨⟨a, by omega⟩, c⟩⟩
  have hd : ((List.range' 1 n).filter (fun j => decide (j ≠ k ∧ m.gsv talker n j = none))).Nodup :=
    List.Nodup.filter _ List.nodup_range'
  generalize (List.range' 1 n).filter (fun j => decide (j ≠ k ∧ m.gsv talker n j ≠ none)) = P at hP
  generalize (List.range' 1 n).filter (fun j => decide (j ≠ k ∧ m.gsv talker n j = none)) = M at hM hd
  obtain ⟨as, _, t1, l1⟩ := gsv_contents_trace env talker ht n hn k hk fs m sm e1 P M hP hM hd
  obtain ⟨bs, _, t2, l2⟩ := gsv_contents_trace env talker ht n hn k hk gs m' sk e2 P M
    (fun j => by
      rw [hP]
      exact ⟨fun ⟨a, b, c, d⟩ => ⟨a, b, c, fun e => d ((same' j a b).mpr e)⟩,
        fun ⟨a, b, c, d⟩ => ⟨a, b, c, fun e => d ((same' j a b).mp e)⟩⟩)
    (fun j => by
      rw [hM]
      exact ⟨fun ⟨a, b, c, d⟩ => ⟨a, b, c, (same' j a b).mp d⟩, fun ⟨a, b, c, d⟩ => ⟨a, b, c, (same' j a b).mpr d⟩⟩) hd
  have := h ((P ++ M).map (emptyGsv talker n))
  rw [(trace_rel _ _ _ _ _ rp t1).1, (trace_rel _ _ _ _ _ rq t2).1] at this
  rw [this, l2] at l1
  simpa using l1.symm

/-- Two parsers that keep sentence 1 of 2 with different satellites are told apart by some sentences. -/
example : ∃ f : List Str, answers (run Parser.new [(demoEnv, c! "$GPGSV,2,1,05,01,40,083,46")]) (f.map fun s => (demoEnv, s)) ≠
    answers (run Parser.new [(demoEnv, c! "$GPGSV,2,1,05,02,17,x,")]) (f.map fun s => (demoEnv, s)) := by
  by_contra hno
  have h := C161_same_satellites demoEnv _ _ ⟨_, rfl⟩ ⟨_, rfl⟩ (fun f => by_contra fun e => hno ⟨f, e⟩) (c! "GP") 2 1
    ⟨by decide, by decide⟩ (by decide) (by decide) demoGsvFields1 [c! "2", c! "1", c! "05", c! "02", c! "17", c! "x", []]
    (by unfold CommaFree; decide) (by unfold CommaFree; decide) (by decide +kernel) (by decide +kernel)
  exact absurd h (by decide +kernel)

end Nmea
