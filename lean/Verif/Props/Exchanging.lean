/-
C163: exactly which sentences may be exchanged.
-/
import Verif.Spec.Exchanging
import Verif.Props.Equivalent
import Verif.Props.Commute

namespace Nmea
open Spec

/-! ### Sentences without a trace -/

theorem Spec.NoTrace.exchange {x y : Env × Str} (h : NoTrace x) (p : Parser) (hp : Reachable p) :
    (∃ a b, answers p [x, y] = [a, b] ∧ answers p [y, x] = [b, a]) ∧
      ∀ f, answers (run p [x, y]) f = answers (run p [y, x]) f := by
  obtain ⟨a, ha⟩ := h
  obtain ⟨h1, h2⟩ := ha p hp
  obtain ⟨h3, h4⟩ := ha _ (reachable_next hp y)
  have e := fun f => List.cons.inj (h2 (y :: f))
  refine ⟨⟨a, (parseSentence y.1 p y.2).1, ?_, ?_⟩, fun f => ?_⟩
  · simp only [answers, h1, (e []).1]
  · simp only [answers, h3]
  · exact (e f).2.trans (h4 f).symm

theorem noTrace_of {x : Env × Str} {a : Answer}
    (h : ∀ m, Sound m → ∃ m', Step x.1 m x.2 a m' ∧ Alike m' m) : NoTrace x := by
  refine ⟨a, fun p hp => ?_⟩
  obtain ⟨m, hr, hm⟩ := sound_reachable hp
  obtain ⟨m', hs, hal⟩ := h m hm
  obtain ⟨h1, h2⟩ := step_rel _ _ _ _ _ _ hr hs
  exact ⟨h1, alike_answers h2 hr hal⟩

theorem alike_refl (m : Memory) : Alike m m := ⟨rfl, fun _ _ _ _ _ _ => rfl, rfl⟩

/-- What a sentence that leaves a trace is. -/
theorem trace_kinds (x : Env × Str) : NoTrace x ∨
    (∃ talker own payload, Single talker own payload x.2 ∧ IsStaticPart x.1 payload) ∨
    (∃ own id chan, IsPartOf own id chan x.2) ∨
    ∃ talker n, 2 ≤ n ∧ n < 2 ^ 32 - 1 ∧ IsGsvOf talker n x.2 := by
  by_cases hu : UsesMemory x.2
  · rcases hu with ⟨talker, own, payload, h⟩ | ⟨talker, own, num, id, chan, payload, h, hn⟩ | ⟨talker, n, k, fs, h⟩
    · by_cases hs : IsStaticPart x.1 payload
      · exact .inr (.inl ⟨_, _, _, h, hs⟩)
      · exact .inl (noTrace_of fun m _ => ⟨m, .single h (.plain hs), alike_refl m⟩)
    · exact .inr (.inr (.inl ⟨_, _, _, _, _, _, h, hn⟩))
    · by_cases hk : 2 ≤ n ∧ n < 2 ^ 32 - 1 ∧ 1 ≤ k ∧ k ≤ n
      · exact .inr (.inr (.inr ⟨_, _, hk.1, hk.2.1, _, _, h, hk.2.2⟩))
      · left
        by_cases hh : n = 2 ^ 32 - 1
        · subst hh
          refine noTrace_of fun m _ => ⟨_, .gsvHuge h, rfl, fun t n' j h1 h2 h3 => ?_, rfl⟩
          exact if_neg (by rintro ⟨-, rfl, -⟩; omega)
        · have hlt : n < 2 ^ 32 - 1 := by
            have := h.2.1.le
            omega
          by_cases h0 : n = 0
          · subst h0
            refine noTrace_of (a := .ok (.gsv [])) fun m _ => ⟨_, .gsvDone h hlt (fun j _ _ => by omega), rfl, fun t n' j h1 h2 h3 => ?_, rfl⟩
            simp only [Memory.clearGsv, Memory.setGsv]
            rw [if_neg (by rintro ⟨-, rfl, -⟩; omega), if_neg (by rintro ⟨-, rfl, -⟩; omega)]
          · by_cases h1 : n = 1 ∧ k = 1
            · obtain ⟨rfl, rfl⟩ := h1
              refine noTrace_of (a := .ok (.gsv (satellites (talkerSystem talker) fs))) fun m hm =>
                ⟨(m.setGsv talker 1 1 fs).clearGsv talker 1, ?_, rfl, fun t n' j h1 h2 h3 => ?_, rfl⟩
              · have := Step.gsvDone (env := x.1) (m := m) h hlt (fun j _ _ => by omega)
                simpa [Memory.setGsv] using this
              · obtain ⟨i, i1, i2, i3⟩ := hm.missing talker 1 (by omega) hlt
                obtain rfl : i = 1 := by omega
                simp only [Memory.clearGsv, Memory.setGsv]
                split
                · rename_i e
                  obtain ⟨rfl, rfl, e1, e2⟩ := e
                  obtain rfl : j = 1 := by omega
                  exact i3.symm
                · rename_i e
                  exact if_neg (by rintro ⟨rfl, rfl, rfl⟩; exact e ⟨rfl, rfl, h1, h2⟩)
            · refine noTrace_of (a := .ok .incomplete) fun m hm => ?_
              obtain ⟨j, j1, j2, j3⟩ := hm.missing talker n (by omega) hlt
              refine ⟨_, .gsvWaits h hlt ⟨j, j1, j2, by omega, j3⟩, rfl, fun t n' j h1 h2 h3 => ?_, rfl⟩
              exact if_neg (by rintro ⟨-, rfl, rfl⟩; omega)
  · exact .inl (noTrace_of fun m _ => ⟨m, .other hu, alike_refl m⟩)

/-! ### Unrelated sentences -/

theorem exchangeable_of_not_related {x y : Env × Str} (h : ¬ Related x y) : Exchangeable x y := by
  intro p hp
  rcases trace_kinds x with hx | hx
  · exact hx.exchange p hp
  rcases trace_kinds y with hy | hy
  · obtain ⟨⟨a, b, h1, h2⟩, h3⟩ := hy.exchange (y := x) p hp
    exact ⟨⟨b, a, h2, h1⟩, fun f => (h3 f).symm⟩
  obtain ⟨m, hr⟩ := rel_reachable hp
  -- the cells of each
  have part : ∀ {x : Env × Str}, ((∃ talker own payload, Single talker own payload x.2 ∧ IsStaticPart x.1 payload) ∨
      (∃ own id chan, IsPartOf own id chan x.2) ∨ ∃ talker n, 2 ≤ n ∧ n < 2 ^ 32 - 1 ∧ IsGsvOf talker n x.2) →
      ∀ o i c, InGroup o i c x.2 → IsPartOf o i c x.2 := by
    rintro x (⟨_, _, _, hx, -⟩ | ⟨_, _, _, _, _, _, hx, hn⟩ | ⟨_, _, -, -, _, _, hx, -⟩) o i c ⟨t', num', pl', hi⟩
    · exact absurd ⟨_, _, _, hi⟩ hx.notInGroup
    · obtain ⟨-, -, rfl, -⟩ := hx.unique hi
      exact ⟨_, _, _, hi, hn⟩
    · exact absurd hi.bang hx.notBang
  have gsv : ∀ {x : Env × Str}, ((∃ talker own payload, Single talker own payload x.2 ∧ IsStaticPart x.1 payload) ∨
      (∃ own id chan, IsPartOf own id chan x.2) ∨ ∃ talker n, 2 ≤ n ∧ n < 2 ^ 32 - 1 ∧ IsGsvOf talker n x.2) →
      ∀ t n, GsvOfGroup t n x.2 → 2 ≤ n ∧ n < 2 ^ 32 - 1 ∧ IsGsvOf t n x.2 := by
    rintro x (⟨_, _, _, hx, -⟩ | ⟨_, _, _, _, _, _, hx, hn⟩ | ⟨_, _, h1, h2, _, _, hx, h3⟩) t n ⟨k', fs', hi⟩
    · exact absurd hx.bang hi.notBang
    · exact absurd hx.bang hi.notBang
    · obtain ⟨rfl, rfl, rfl, rfl⟩ := hx.unique hi
      exact ⟨h1, h2, _, _, hx, h3⟩
  have static : ∀ (x : Env × Str) i, (cells x.1 m x.2).static i → CanBring24 x i := by
    rintro x i ⟨pl, hd, hs, hi⟩
    cases hd with
    | single hd => exact .inl ⟨_, _, _, hd, hs, hi⟩
    | @first talker own id chan a b hd hw =>
      exact .inr ⟨_, _, 1, _, _, a, b, hd, .inl rfl, hr.partOk _ _ _ _ hw, by simpa [joined] using hs, by simpa [joined] using hi⟩
    | @second talker own id chan a b hd hw =>
      exact .inr ⟨_, _, 2, _, _, b, a, hd, .inr rfl, hr.partOk _ _ _ _ hw, by simpa [joined] using hs, by simpa [joined] using hi⟩
  obtain ⟨a, m1, h1⟩ := step_total x.1 m x.2
  obtain ⟨b, m2, h2⟩ := step_total y.1 m1 y.2
  obtain ⟨m1', h3, h4⟩ := step_swap h1 h2 ⟨fun o i c hc => h (.inl ⟨o, i, c, part hx _ _ _ hc.1, part hy _ _ _ hc.2⟩),
    fun t n hc => h (.inr (.inl ⟨t, n, (gsv hx t n hc.1).1, (gsv hx t n hc.1).2.1, (gsv hx t n hc.1).2.2, (gsv hy t n hc.2).2.2⟩)),
    fun i hc => h (.inr (.inr ⟨i, static x i hc.1, static y i hc.2⟩))⟩
  obtain ⟨e1, r1⟩ := trace_rel p m m2 [x, y] [a, b] hr (.cons h1 (.cons h2 (.nil _)))
  obtain ⟨e2, r2⟩ := trace_rel p m m2 [y, x] [b, a] hr (.cons h3 (.cons h4 (.nil _)))
  refine ⟨⟨a, b, e1, e2⟩, fun f => ?_⟩
  obtain ⟨as, m', hf⟩ := trace_total m2 f
  rw [(trace_rel _ _ _ _ _ r1 hf).1, (trace_rel _ _ _ _ _ r2 hf).1]

/-! ### Related sentences -/

theorem reachable_possible {m : Memory} (h : Possible m) : ∃ p, Reachable p ∧ Rel p m := by
  obtain ⟨g, as, ht⟩ := (C160_exact m).mpr h
  exact ⟨run Parser.new g, ⟨g, rfl⟩, (trace_rel _ _ _ _ _ rel_new ht).2⟩

/-- A memory for which the answer to `x` depends on whether `y` came before. -/
def Conflict (x y : Env × Str) : Prop :=
  ∃ m m1 m2 m3 a b a', Possible m ∧ Step x.1 m x.2 a m1 ∧ Step y.1 m y.2 b m2 ∧ Step x.1 m2 x.2 a' m3 ∧ a ≠ a'

theorem conflict_of {x y : Env × Str} {m m1 m2 m3 : Memory} {a b a' : Answer} (hm : Possible m) (h1 : Step x.1 m x.2 a m1)
    (h2 : Step y.1 m y.2 b m2) (h3 : Step x.1 m2 x.2 a' m3) (hne : a ≠ a') : Conflict x y :=
  ⟨_, _, _, _, _, _, _, hm, h1, h2, h3, hne⟩

theorem Conflict.answers {x y : Env × Str} (h : Conflict x y) :
    ∃ p, Reachable p ∧ (parseSentence x.1 p x.2).1 ≠ (parseSentence x.1 (parseSentence y.1 p y.2).2 x.2).1 := by
  obtain ⟨m, m1, m2, m3, a, b, a', hm, h1, h2, h3, hne⟩ := h
  obtain ⟨p, hp, hr⟩ := reachable_possible hm
  refine ⟨p, hp, ?_⟩
  rw [(step_rel _ _ _ _ _ _ hr h1).1, (step_rel _ _ _ _ _ _ (step_rel _ _ _ _ _ _ hr h2).2 h3).1]
  exact hne

theorem Conflict.not_exchangeable {x y : Env × Str} (h : Conflict x y) : ¬ Exchangeable x y := by
  intro he
  obtain ⟨p, hp, hne⟩ := h.answers
  obtain ⟨⟨c, d, e1, e2⟩, -⟩ := he p hp
  simp only [Spec.answers, List.cons.injEq] at e1 e2
  exact hne (e1.1.trans e2.2.1.symm)

/-- While type 24 data of the vessel are pending, every message is answered. -/
theorem message_answered {env : Env} {m m' : Memory} {talker : Str} {own : Bool} {pl : Str} {a : Answer} (ht : Talker talker)
    (hc : ',' ∉ pl) (hs : m.static (mmsiOf (payloadBits pl)) ≠ none) (h : Message env m talker own pl a m') :
    a ≠ .ok .incomplete := by
  cases h with
  | plain h => exact fun e => h (alone_incomplete env talker own pl ht hc e)
  | first h hn => exact absurd hn hs
  | second o b h hn => exact fun e => by cases e

theorem message_part {env : Env} {m m' : Memory} {talker : Str} {own : Bool} {pl : Str} {a : Answer}
    (h : Message env m talker own pl a m') : m'.part = m.part := by
  cases h <;> rfl

theorem possible_static (i : Nat) (hi : i < 2 ^ 30) :
    Possible (Memory.empty.setStatic i (some (false, payloadBits (armor (emptyStaticBits i))))) := by
  obtain ⟨e1, e2⟩ := emptyStatic_part demoEnv i hi
  refine possible_empty.setStatic i _ fun own bits e => ?_
  cases e
  exact ⟨demoEnv, armor (emptyStaticBits i), (emptyStatic_single i).noComma.2, e1, rfl, e2⟩

theorem related_parts {x y : Env × Str} {own : Bool} {id : Nat} {chan : Str} (hx : IsPartOf own id chan x.2)
    (hy : IsPartOf own id chan y.2) : Conflict x y := by
  obtain ⟨t, num, pl, hx, hn⟩ := hx
  obtain ⟨t', num', pl', hy, hn'⟩ := hy
  have cx := hx.noComma
  have cy := hy.noComma
  by_cases e : num = num'
  · subst e
    -- the other part is pending
    have hw := part_canWait hx hn
    have hm := (possible_static (mmsiOf (payloadBits (joined num pl []))) (mmsiOf_lt _)).setPart own id chan (some (3 - num, []))
      (fun n z e => by cases e; exact ⟨by omega, hw.2.1, hw.2.2.1, by simp⟩)
    generalize hM : (Memory.empty.setStatic _ _).setPart own id chan _ = m at hm
    have hp : m.part own id chan = some (3 - num, []) := by rw [← hM]; exact setPart_self _ _ _ _ _
    have hs : m.static (mmsiOf (payloadBits (joined num pl []))) ≠ none := by
      rw [← hM]
      simp [Memory.setStatic, Memory.setPart]
    obtain ⟨a, m1, h1⟩ := message_total x.1 (m.setPart own id chan none) t own (joined num pl [])
    obtain ⟨b, m2, h2⟩ := message_total y.1 (m.setPart own id chan none) t' own (joined num pl' [])
    have step : ∀ {env : Env} {m m1 : Memory} {t pl s a}, Part t own num id chan pl s → m.part own id chan = some (3 - num, []) →
        Message env (m.setPart own id chan none) t own (joined num pl []) a m1 → Step env m s a m1 := by
      intro env m m1 t pl s a hs hp hm
      rcases hn with rfl | rfl
      · exact .first hs hp (by simpa [joined] using hm)
      · exact .second hs hp (by simpa [joined] using hm)
    refine conflict_of hm (step hx hp h1) (step hy hp h2) (.waits hx hn ?_)
      (message_answered (m := m.setPart own id chan none) cx.1 (joined_comma num pl [] cx.2 (by simp)) hs h1)
    intro z e
    rw [message_part h2, setPart_self] at e
    cases e
  · have hm := possible_static (mmsiOf (payloadBits (joined num pl pl'))) (mmsiOf_lt _)
    generalize hM : Memory.empty.setStatic _ _ = m at hm
    have hp : m.part own id chan = none := by rw [← hM]; rfl
    have hs : m.static (mmsiOf (payloadBits (joined num pl pl'))) ≠ none := by
      rw [← hM]
      simp [Memory.setStatic]
    obtain rfl : num' = 3 - num := by omega
    obtain ⟨a, m1, h1⟩ := message_total x.1 ((m.setPart own id chan (some (3 - num, pl'))).setPart own id chan none) t own
      (joined num pl pl')
    refine conflict_of hm (.waits hx hn (by rw [hp]; simp)) (.waits hy hn' (by rw [hp]; simp)) (m3 := m1) (a' := a) ?_
      (message_answered (m := (m.setPart own id chan (some (3 - num, pl'))).setPart own id chan none) cx.1
        (joined_comma num pl pl' cx.2 cy.2) hs h1).symm
    rcases hn with rfl | rfl
    · exact .first hx (setPart_self _ _ _ _ _) (by simpa [joined] using h1)
    · exact .second hx (setPart_self _ _ _ _ _) (by simpa [joined] using h1)

/-- All sentences of a GSV group but two (or one, if these are the same). -/
def gsvBut (talker : Str) (n k k' : Nat) : Memory :=
  { Memory.empty with
    gsv := fun t n' j => if t = talker ∧ n' = n ∧ 1 ≤ j ∧ j ≤ n ∧ j ≠ k ∧ j ≠ k' then some [natStr n, natStr j] else none }

theorem possible_gsvBut (talker : Str) (n k k' : Nat) (ht : Talker talker) (hn : n < 2 ^ 32 - 1) (hk : 1 ≤ k ∧ k ≤ n) :
    Possible (gsvBut talker n k k') where
  parts := fun _ _ _ _ _ h => (by cases h)
  gsvs := by
    intro t n' j fs h
    simp only [gsvBut] at h
    split at h
    · rename_i e
      obtain ⟨rfl, rfl, e⟩ := e
      cases h
      exact (canWaitGsv_iff _ _ _ _).mpr ⟨_, emptyGsv_part t n' j ht (by omega) (by omega)⟩
    · cases h
  statics := fun _ _ _ h => (by cases h)
  incomplete := by
    intro t n' h0 _
    by_cases e : n' = n
    · subst e
      exact ⟨k, hk.1, hk.2, if_neg (by rintro ⟨-, -, -, -, e, -⟩; exact e rfl)⟩
    · exact ⟨1, by omega, by omega, if_neg (by rintro ⟨-, e', -⟩; exact e e')⟩
  finitely := by
    refine ⟨[], (List.range' 1 n).map fun j => (talker, n, j), [], fun _ _ _ h => (h rfl).elim, fun t n' j h => ?_,
      fun _ h => (h rfl).elim⟩
    simp only [gsvBut, ne_eq, ite_eq_right_iff, reduceCtorEq, imp_false, not_not] at h
    obtain ⟨rfl, rfl, h1, h2, -⟩ := h
    exact List.mem_map.mpr ⟨j, List.mem_range'_1.mpr ⟨h1, by omega⟩, rfl⟩

theorem related_gsv {x y : Env × Str} {talker : Str} {n : Nat} (h2 : 2 ≤ n) (hn : n < 2 ^ 32 - 1) (hx : IsGsvOf talker n x.2)
    (hy : IsGsvOf talker n y.2) : Conflict x y := by
  obtain ⟨k, fs, hx, k1, k2⟩ := hx
  obtain ⟨k', fs', hy, k1', k2'⟩ := hy
  have hm := possible_gsvBut talker n k k' hx.1.1 hn ⟨k1, k2⟩
  have some : ∀ j, 1 ≤ j → j ≤ n → j ≠ k → j ≠ k' → (gsvBut talker n k k').gsv talker n j ≠ none := by
    intro j a b c d
    simp [gsvBut, a, b, c, d]
  by_cases e : k = k'
  · subst e
    have hd := fun j a b c => some j a b c c
    refine conflict_of hm (.gsvDone hx hn hd) (.gsvDone hy hn hd)
      (.gsvWaits hx hn ⟨if k = 1 then 2 else 1, ?_, ?_, ?_, ?_⟩) (by simp)
    · split <;> omega
    · split <;> omega
    · split <;> omega
    · refine if_pos ⟨rfl, rfl, ?_⟩
      split <;> omega
  · have none : ∀ j, j = k ∨ j = k' → (gsvBut talker n k k').gsv talker n j = none := by
      rintro j (rfl | rfl) <;> simp [gsvBut]
    refine conflict_of hm (.gsvWaits hx hn ⟨k', k1', k2', fun h => e h.symm, none k' (.inr rfl)⟩)
      (.gsvWaits hy hn ⟨k, k1, k2, e, none k (.inl rfl)⟩) (.gsvDone hx hn ?_) (by simp)
    intro j a b c
    simp only [Memory.setGsv]
    split
    · simp
    · rename_i h
      exact some j a b c (fun d => h (by simp [d]))

/-- What it takes for a sentence to bring type 24 data: the other part, if it is a part. -/
theorem canBring24_steps {x : Env × Str} {i : Nat} (h : CanBring24 x i) :
    ∃ (key : Option (Bool × Nat × Str)) (z : Nat × Str),
      (∀ o id c, key = some (o, id, c) → IsPartOf o id c x.2 ∧ CanWait id z.1 c z.2) ∧
      (∀ m, (∀ o id c, key = some (o, id, c) → m.part o id c = some z) → m.static i = none →
        ∃ m', Step x.1 m x.2 (.ok .incomplete) m' ∧ m'.static i ≠ none ∧
          ∀ o id c, key ≠ some (o, id, c) → m'.part o id c = m.part o id c) ∧
      (∀ m, (∀ o id c, key = some (o, id, c) → m.part o id c = some z) → m.static i ≠ none →
        ∃ a m', Step x.1 m x.2 a m' ∧ a ≠ .ok .incomplete) := by
  rcases h with ⟨talker, own, pl, h, hs, rfl⟩ | ⟨talker, own, num, id, chan, pl, other, h, hn, ho, hs, rfl⟩
  · refine ⟨none, (0, []), fun _ _ _ e => (by cases e), fun m _ hm => ?_, fun m _ hm => ?_⟩
    · exact ⟨_, .single h (.first hs hm), by simp [Memory.setStatic], fun _ _ _ _ => rfl⟩
    · obtain ⟨⟨o, b⟩, e⟩ := Option.ne_none_iff_exists'.mp hm
      exact ⟨_, _, .single h (.second o b hs e), fun e => by cases e⟩
  · have hw := part_canWait h hn
    refine ⟨some (own, id, chan), (3 - num, other), ?_, fun m hp hm => ?_, fun m hp hm => ?_⟩
    · rintro o i c e
      cases e
      exact ⟨⟨_, _, _, h, hn⟩, by simp only; omega, hw.2.1, hw.2.2.1, ho⟩
    all_goals
      have hp := hp _ _ _ rfl
      have step : ∀ {a m1}, Message x.1 (m.setPart own id chan none) talker own (joined num pl other) a m1 → Step x.1 m x.2 a m1 := by
        intro a m1 h1
        rcases hn with rfl | rfl
        · exact .first h hp (by simpa [joined] using h1)
        · exact .second h hp (by simpa [joined] using h1)
    · refine ⟨_, step (.first hs hm), by simp [Memory.setStatic], fun o i c e => if_neg ?_⟩
      rintro ⟨rfl, rfl, rfl⟩
      exact e rfl
    · obtain ⟨⟨o, b⟩, e⟩ := Option.ne_none_iff_exists'.mp hm
      exact ⟨_, _, step (.second o b hs e), fun e => by cases e⟩

theorem related_static {x y : Env × Str} {i : Nat} (hx : CanBring24 x i) (hy : CanBring24 y i) : Conflict x y := by
  obtain ⟨key, z, x1, x2, x3⟩ := canBring24_steps hx
  obtain ⟨key', z', y1, y2, -⟩ := canBring24_steps hy
  by_cases hk : ∃ o id c, key = some (o, id, c) ∧ key' = some (o, id, c)
  · obtain ⟨o, id, c, e1, e2⟩ := hk
    exact related_parts (x1 o id c e1).1 (y1 o id c e2).1
  · have set : ∀ (key : Option (Bool × Nat × Str)) (z : Nat × Str) (m : Memory), Possible m →
        (∀ o id c, key = some (o, id, c) → CanWait id z.1 c z.2) →
        ∃ m', Possible m' ∧ m'.static = m.static ∧ (∀ o id c, key = some (o, id, c) → m'.part o id c = some z) ∧
          ∀ o id c, key ≠ some (o, id, c) → m'.part o id c = m.part o id c := by
      intro key z m hm hz
      cases key with
      | none => exact ⟨m, hm, rfl, fun _ _ _ e => (by cases e), fun _ _ _ _ => rfl⟩
      | some k =>
        obtain ⟨o, id, c⟩ := k
        refine ⟨m.setPart o id c (some z), hm.setPart o id c _ (fun n pl e => by cases e; exact hz o id c rfl), rfl, ?_, ?_⟩
        · rintro _ _ _ e
          cases e
          exact setPart_self _ _ _ _ _
        · intro o' id' c' e
          refine if_neg ?_
          rintro ⟨rfl, rfl, rfl⟩
          exact e rfl
    obtain ⟨m0, p0, s0, a0, -⟩ := set key z Memory.empty possible_empty (fun o id c e => (x1 o id c e).2)
    obtain ⟨m, pm, s1, a1, b1⟩ := set key' z' m0 p0 (fun o id c e => (y1 o id c e).2)
    have hstat : m.static i = none := by rw [s1, s0]; rfl
    have other : ∀ o id c, key = some (o, id, c) → key' ≠ some (o, id, c) := fun o id c e e' => hk ⟨o, id, c, e, e'⟩
    have hpx : ∀ o id c, key = some (o, id, c) → m.part o id c = some z := fun o id c e => by
      rw [b1 o id c (other o id c e), a0 o id c e]
    obtain ⟨m1, t1, -, -⟩ := x2 m hpx hstat
    obtain ⟨m2, t2, g2, f2⟩ := y2 m a1 hstat
    obtain ⟨a, m3, t3, ha⟩ := x3 m2 (fun o id c e => by rw [f2 o id c (other o id c e), hpx o id c e]) g2
    exact conflict_of pm t1 t2 t3 ha.symm

/-! ### C163 -/

theorem Spec.Related.conflict {x y : Env × Str} (h : Related x y) : Conflict x y := by
  rcases h with ⟨own, id, chan, hx, hy⟩ | ⟨talker, n, h2, hn, hx, hy⟩ | ⟨i, hx, hy⟩
  · exact related_parts hx hy
  · exact related_gsv h2 hn hx hy
  · exact related_static hx hy

/-- C163: two sentences may be exchanged, in every state, exactly if they are not related. -/
theorem C163_exact (x y : Env × Str) : Exchangeable x y ↔ ¬ Related x y :=
  ⟨fun h hr => hr.conflict.not_exchangeable h, exchangeable_of_not_related⟩

/-- Sentences 1 and 2 of a GSV group are related, those of groups of different size are not. -/
example : ¬ Exchangeable (demoEnv, c! "$GPGSV,2,1,05,01,40,083,46") (demoEnv, emptyGsv (c! "GP") 2 2) ∧
    Exchangeable (demoEnv, emptyGsv (c! "GP") 3 2) (demoEnv, emptyGsv (c! "GP") 2 2) := by
  have g : ∀ n k, n ≤ 2 ^ 32 - 1 → k ≤ 2 ^ 32 - 1 → GsvPart (c! "GP") n k [natStr n, natStr k] (emptyGsv (c! "GP") n k) :=
    fun n k => emptyGsv_part (c! "GP") n k ⟨by decide, by decide⟩
  have nb : ∀ n k, ¬ Bang (emptyGsv (c! "GP") n k) := fun n k ⟨_, e⟩ => absurd (List.cons.inj e).1 (by decide)
  constructor
  · rw [C163_exact, not_not]
    exact .inr (.inl ⟨_, 2, by decide, by decide, ⟨1, _, demoGsv1, by decide, by decide⟩, ⟨2, _, g 2 2 (by decide) (by decide), by decide, by decide⟩⟩)
  · rw [C163_exact]
    rintro (⟨_, _, _, ⟨_, _, _, h, -⟩, -⟩ | ⟨t, n, -, -, ⟨_, _, h1, -⟩, _, _, h2, -⟩ | ⟨_, h | h, -⟩)
    · exact nb _ _ h.bang
    · have e1 := (h1.unique (g 3 2 (by decide) (by decide))).2.1
      have e2 := (h2.unique (g 2 2 (by decide) (by decide))).2.1
      omega
    · obtain ⟨_, _, _, h, -⟩ := h
      exact nb _ _ h.bang
    · obtain ⟨_, _, _, _, _, _, _, h, -⟩ := h
      exact nb _ _ h.bang

/-- Two messages of type 24 of one vessel, in different environments. -/
example (e e' : Env) (i : Nat) (hi : i < 2 ^ 30) : ¬ Exchangeable (e, emptyStatic i) (e', emptyStatic i) := by
  rw [C163_exact, not_not]
  have b : ∀ e, CanBring24 (e, emptyStatic i) i := fun e =>
    .inl ⟨_, _, _, emptyStatic_single i, (emptyStatic_part e i hi).1, (emptyStatic_part e i hi).2⟩
  exact .inr (.inr ⟨i, b e, b e'⟩)

theorem Spec.Related.symm {x y : Env × Str} (h : Related x y) : Related y x := by
  rcases h with ⟨o, i, c, h1, h2⟩ | ⟨t, n, a, b, h1, h2⟩ | ⟨i, h1, h2⟩
  · exact .inl ⟨o, i, c, h2, h1⟩
  · exact .inr (.inl ⟨t, n, a, b, h2, h1⟩)
  · exact .inr (.inr ⟨i, h2, h1⟩)

/-- C163: a sentence may be exchanged with every other one exactly if it leaves no trace, and that is exactly if it is neither part 1
or 2 of a two-part message, nor a sentence of a GSV group of two or more, nor a part A or B of type 24. -/
theorem C163_no_trace (x : Env × Str) :
    ((∀ y, Exchangeable x y) ↔ NoTrace x) ∧ (NoTrace x ↔ ¬ Related x x) ∧
    (Related x x ↔ (∃ own id chan, IsPartOf own id chan x.2) ∨ (∃ talker n, 2 ≤ n ∧ n < 2 ^ 32 - 1 ∧ IsGsvOf talker n x.2) ∨
      ∃ talker own payload, Single talker own payload x.2 ∧ IsStaticPart x.1 payload) := by
  have kinds : Related x x ↔ (∃ own id chan, IsPartOf own id chan x.2) ∨ (∃ talker n, 2 ≤ n ∧ n < 2 ^ 32 - 1 ∧ IsGsvOf talker n x.2) ∨
      ∃ talker own payload, Single talker own payload x.2 ∧ IsStaticPart x.1 payload := by
    constructor
    · rintro (⟨o, i, c, h, -⟩ | ⟨t, n, a, b, h, -⟩ | ⟨i, h | h, -⟩)
      · exact .inl ⟨o, i, c, h⟩
      · exact .inr (.inl ⟨t, n, a, b, h⟩)
      · obtain ⟨t, o, pl, h, hs, -⟩ := h
        exact .inr (.inr ⟨t, o, pl, h, hs⟩)
      · obtain ⟨t, o, num, id, c, pl, -, h, hn, -⟩ := h
        exact .inl ⟨o, id, c, t, num, pl, h, hn⟩
    · rintro (⟨o, i, c, h⟩ | ⟨t, n, a, b, h⟩ | ⟨t, o, pl, h, hs⟩)
      · exact .inl ⟨o, i, c, h, h⟩
      · exact .inr (.inl ⟨t, n, a, b, h, h⟩)
      · exact .inr (.inr ⟨_, .inl ⟨t, o, pl, h, hs, rfl⟩, .inl ⟨t, o, pl, h, hs, rfl⟩⟩)
  have none : NoTrace x ↔ ¬ Related x x := by
    constructor
    · exact fun h => (C163_exact x x).mp (fun p hp => h.exchange p hp)
    · intro h
      rw [kinds] at h
      rcases trace_kinds x with hx | hx | hx | hx
      · exact hx
      · exact absurd (.inr (.inr hx)) h
      · exact absurd (.inl hx) h
      · exact absurd (.inr (.inl hx)) h
  exact ⟨⟨fun h => none.mpr ((C163_exact x x).mp (h x)), fun h y p hp => h.exchange p hp⟩, none, kinds⟩

/-- A part of a message leaves a trace; a sentence of another kind does not. -/
example : ¬ NoTrace (demoEnv, partSentence (c! "AI") false 1 7 (c! "B") (c! "5X1") 0) ∧ NoTrace (demoEnv, emptyGsv (c! "GP") 1 1) := by
  have g := emptyGsv_part (c! "GP") 1 1 ⟨by decide, by decide⟩ (by decide) (by decide)
  have nb : ¬ Bang (emptyGsv (c! "GP") 1 1) := fun ⟨_, e⟩ => absurd (List.cons.inj e).1 (by decide)
  constructor
  · rw [(C163_no_trace _).2.1, not_not, (C163_no_trace _).2.2]
    exact .inl ⟨false, 7, c! "B", c! "AI", 1, _, part_sentence (c! "AI") false 1 7 (c! "B") (c! "5X1") 0 ⟨by decide, by decide⟩
      (by decide) (by decide) (by decide) (by decide), .inl rfl⟩
  · rw [(C163_no_trace _).2.1, (C163_no_trace _).2.2]
    rintro (⟨_, _, _, _, _, _, h, -⟩ | ⟨t, n, h2, -, _, _, h, -⟩ | ⟨_, _, _, h, -⟩)
    · exact nb h.bang
    · have := (h.unique g).2.1
      omega
    · exact nb h.bang

/-- C163: so sentences of which no two are related may come in any order at all. -/
theorem C163_permuted (h h' : List (Env × Str)) (hp : h.Perm h') (hr : h.Pairwise fun x y => ¬ Related x y) (p : Parser)
    (hq : Reachable p) :
    (h.zip (answers p h)).Perm (h'.zip (answers p h')) ∧ ∀ f, answers (run p h) f = answers (run p h') f := by
  induction hp generalizing p with
  | nil => exact ⟨.refl _, fun _ => rfl⟩
  | cons x _ ih =>
    obtain ⟨h1, h2⟩ := ih (List.pairwise_cons.mp hr).2 _ (reachable_next hq x)
    exact ⟨h1.cons _, h2⟩
  | swap x y l =>
    have hxy := (List.pairwise_cons.mp hr).1 x (by simp)
    obtain ⟨⟨a, b, e1, e2⟩, e3⟩ := (C163_exact y x).mpr hxy p hq
    simp only [answers, List.cons.injEq, and_true] at e1 e2
    have e4 := e3 l
    refine ⟨?_, fun f => ?_⟩
    · simp only [answers]
      rw [e1.1, e1.2, e2.1, e2.2]
      simp only [run] at e4
      rw [List.zip_cons_cons, List.zip_cons_cons, List.zip_cons_cons, List.zip_cons_cons, e4]
      exact .swap _ _ _
    · have happ : ∀ (q : Parser) (g k : List (Env × Str)), answers q (g ++ k) = answers q g ++ answers (run q g) k := by
        intro q g k
        induction g generalizing q with
        | nil => rfl
        | cons z g ih => simp only [List.cons_append, answers, run]; rw [ih]
      have e6 := e3 (l ++ f)
      rw [happ, happ, e4] at e6
      exact List.append_cancel_left e6
  | trans h1 h2 ih1 ih2 =>
    obtain ⟨a1, b1⟩ := ih1 hr p hq
    obtain ⟨a2, b2⟩ := ih2 ((h1.pairwise_iff fun h e => h e.symm).mp hr) p hq
    exact ⟨a1.trans a2, fun f => (b1 f).trans (b2 f)⟩

/-- The GSV sentences of three systems, in the order in which they were sent and reversed. -/
example (p : Parser) (hp : Reachable p) :
    let h := [(demoEnv, emptyGsv (c! "GP") 2 2), (demoEnv, emptyGsv (c! "GL") 2 2), (demoEnv, emptyGsv (c! "GA") 2 2)]
    (h.zip (answers p h)).Perm (h.reverse.zip (answers p h.reverse)) := by
  have g : ∀ t, Talker t → GsvPart t 2 2 [natStr 2, natStr 2] (emptyGsv t 2 2) :=
    fun t ht => emptyGsv_part t 2 2 ht (by decide) (by decide)
  have nr : ∀ t t', Talker t → Talker t' → t ≠ t' → ¬ Related (demoEnv, emptyGsv t 2 2) (demoEnv, emptyGsv t' 2 2) := by
    rintro t t' ht ht' ne (⟨_, _, _, ⟨_, _, _, h, -⟩, -⟩ | ⟨t'', n, -, -, ⟨_, _, h1, -⟩, _, _, h2, -⟩ | ⟨_, h | h, -⟩)
    · exact (g t ht).notBang h.bang
    · exact ne ((((g t ht).unique h1).1).trans (((g t' ht').unique h2).1).symm)
    · obtain ⟨_, _, _, h, -⟩ := h
      exact (g t ht).notBang h.bang
    · obtain ⟨_, _, _, _, _, _, _, h, -⟩ := h
      exact (g t ht).notBang h.bang
  have t1 : Talker (c! "GP") := ⟨by decide, by decide⟩
  have t2 : Talker (c! "GL") := ⟨by decide, by decide⟩
  have t3 : Talker (c! "GA") := ⟨by decide, by decide⟩
  refine (C163_permuted _ _ (List.reverse_perm _).symm ?_ p hp).1
  simp only [List.pairwise_cons, List.mem_cons, List.not_mem_nil, or_false, forall_eq_or_imp, forall_eq, List.Pairwise.nil, and_true,
    IsEmpty.forall_iff, implies_true]
  exact ⟨⟨nr _ _ t1 t2 (by decide), nr _ _ t1 t3 (by decide)⟩, nr _ _ t2 t3 (by decide)⟩

end Nmea
