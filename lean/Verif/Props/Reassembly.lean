/-
C145: the reassembly of two-part messages is a stage of its own.
-/
import Verif.Spec.Reassembly
import Verif.Props.Streams
import Verif.Lemmas.Resync
import Verif.Props.Heard

namespace Nmea
open Spec

theorem joins_unique {w w1 w2 : Waiting} {s : Str} {o1 o2 : Option Str} (h1 : Joins w s o1 w1) (h2 : Joins w s o2 w2) :
    o1 = o2 ∧ w1 = w2 := by
  cases h1 with
  | waits h hn hw =>
    cases h2 with
    | waits h' hn' hw' => obtain ⟨rfl, rfl, rfl, rfl, rfl, rfl⟩ := h.unique h'; exact ⟨rfl, rfl⟩
    | first h' hw' => obtain ⟨rfl, rfl, rfl, rfl, rfl, rfl⟩ := h.unique h'; exact absurd hw' (hw _)
    | second h' hw' => obtain ⟨rfl, rfl, rfl, rfl, rfl, rfl⟩ := h.unique h'; exact absurd hw' (hw _)
    | other h' => exact absurd ⟨_, _, _, _, _, _, h, hn⟩ h'
  | first h hw =>
    cases h2 with
    | waits h' hn' hw' => obtain ⟨rfl, rfl, rfl, rfl, rfl, rfl⟩ := h.unique h'; exact absurd hw (hw' _)
    | first h' hw' =>
      obtain ⟨rfl, rfl, -, rfl, rfl, rfl⟩ := h.unique h'
      cases hw.symm.trans hw'
      exact ⟨rfl, rfl⟩
    | second h' hw' => obtain ⟨rfl, rfl, e, rfl, rfl, rfl⟩ := h.unique h'; cases e
    | other h' => exact absurd ⟨_, _, _, _, _, _, h, .inl rfl⟩ h'
  | second h hw =>
    cases h2 with
    | waits h' hn' hw' => obtain ⟨rfl, rfl, rfl, rfl, rfl, rfl⟩ := h.unique h'; exact absurd hw (hw' _)
    | first h' hw' => obtain ⟨rfl, rfl, e, rfl, rfl, rfl⟩ := h.unique h'; cases e
    | second h' hw' =>
      obtain ⟨rfl, rfl, -, rfl, rfl, rfl⟩ := h.unique h'
      cases hw.symm.trans hw'
      exact ⟨rfl, rfl⟩
    | other h' => exact absurd ⟨_, _, _, _, _, _, h, .inr rfl⟩ h'
  | other h =>
    cases h2 with
    | waits h' hn' hw' => exact absurd ⟨_, _, _, _, _, _, h', hn'⟩ h
    | first h' hw' => exact absurd ⟨_, _, _, _, _, _, h', .inl rfl⟩ h
    | second h' hw' => exact absurd ⟨_, _, _, _, _, _, h', .inr rfl⟩ h
    | other h' => exact ⟨rfl, rfl⟩

theorem joins_total (w : Waiting) (s : Str) : ∃ o w', Joins w s o w' := by
  by_cases h : IsPart s
  · obtain ⟨t, own, num, id, chan, pl, hp, hn⟩ := h
    by_cases hw : ∃ y, w own id chan = some (3 - num, y)
    · obtain ⟨y, hy⟩ := hw
      rcases hn with rfl | rfl
      · exact ⟨_, _, .first hp hy⟩
      · exact ⟨_, _, .second hp hy⟩
    · exact ⟨_, _, .waits hp hn fun x hx => hw ⟨x, hx⟩⟩
  · exact ⟨_, _, .other h⟩

theorem reassembled_total (h : List (Env × Str)) (w : Waiting) : ∃ out w', Reassembled w h out w' := by
  induction h generalizing w with
  | nil => exact ⟨_, _, .nil w⟩
  | cons x h ih =>
    obtain ⟨o, w1, h1⟩ := joins_total w x.2
    obtain ⟨out, w2, h2⟩ := ih w1
    exact ⟨_, _, .cons h1 h2⟩

theorem reassembled_unique {w w1 w2 : Waiting} {h : List (Env × Str)} {o1 o2 : List (Env × Option Str)}
    (h1 : Reassembled w h o1 w1) (h2 : Reassembled w h o2 w2) : o1 = o2 ∧ w1 = w2 := by
  induction h1 generalizing o2 with
  | nil w => cases h2; exact ⟨rfl, rfl⟩
  | cons j _ ih =>
    cases h2 with
    | cons j' t' =>
      obtain ⟨rfl, rfl⟩ := joins_unique j j'
      obtain ⟨rfl, rfl⟩ := ih t'
      exact ⟨rfl, rfl⟩

/-- The same memory but for the parts. -/
def SameRest (m k : Memory) : Prop := m.gsv = k.gsv ∧ m.static = k.static

theorem sameRest_setPart {m k : Memory} (h : SameRest m k) (own : Bool) (id : Nat) (chan : Str) (x : Option (Nat × Str)) :
    SameRest (m.setPart own id chan x) k := h

theorem message_rest {env : Env} {m m' k : Memory} {t : Str} {own : Bool} {pl : Str} {a : Answer}
    (hm : Message env m t own pl a m') (h : SameRest m k) :
    ∃ k', Message env k t own pl a k' ∧ k'.part = k.part ∧ m'.part = m.part ∧ SameRest m' k' := by
  obtain ⟨hg, hs⟩ := h
  cases hm with
  | plain h => exact ⟨_, .plain h, rfl, rfl, hg, hs⟩
  | first h hm =>
    refine ⟨_, .first h (by rw [← hs]; exact hm), rfl, rfl, hg, ?_⟩
    simp only [Memory.setStatic, hs]
  | second o b h hm =>
    refine ⟨_, .second o b h (by rw [← hs]; exact hm), rfl, rfl, hg, ?_⟩
    simp only [Memory.setStatic, hs]

theorem step_rest {env : Env} {m m' k : Memory} {s : Str} {a : Answer} (hs : Step env m s a m') (hp : ¬ IsPart s)
    (h : SameRest m k) : ∃ k', Step env k s a k' ∧ k'.part = k.part ∧ m'.part = m.part ∧ SameRest m' k' := by
  cases hs with
  | single h1 hm =>
    obtain ⟨k', h2, h3, h4, h5⟩ := message_rest hm h
    exact ⟨k', .single h1 h2, h3, h4, h5⟩
  | waits h1 hn _ => exact absurd ⟨_, _, _, _, _, _, h1, hn⟩ hp
  | first h1 _ _ => exact absurd ⟨_, _, _, _, _, _, h1, .inl rfl⟩ hp
  | second h1 _ _ => exact absurd ⟨_, _, _, _, _, _, h1, .inr rfl⟩ hp
  | gsvWaits h1 hn hw =>
    refine ⟨_, .gsvWaits h1 hn (by rw [← h.1]; exact hw), rfl, rfl, ?_, h.2⟩
    simp only [Memory.setGsv, h.1]
  | @gsvDone talker n j fs h1 hn hw =>
    have e : (m.setGsv talker n j fs).gsv = (k.setGsv talker n j fs).gsv := by simp only [Memory.setGsv, h.1]
    rw [e]
    refine ⟨_, .gsvDone h1 hn (by rw [← h.1]; exact hw), rfl, rfl, ?_, h.2⟩
    simp only [Memory.clearGsv, e]
  | gsvHuge h1 =>
    refine ⟨_, .gsvHuge h1, rfl, rfl, ?_, h.2⟩
    simp only [Memory.setGsv, h.1]
  | other h1 => exact ⟨k, .other h1, rfl, rfl, h⟩

theorem stages {w w' : Waiting} {h : List (Env × Str)} {out : List (Env × Option Str)} (hr : Reassembled w h out w')
    (hw : ∀ own id chan x, w own id chan = some x → ',' ∉ x.2) (m k : Memory) (hm : m.part = w)
    (hs : SameRest m k) :
    ∃ bs k1 m1, Trace k (passedOn out) bs k1 ∧ Trace m h (withWaits out bs) m1 := by
  induction hr generalizing m k with
  | nil w => exact ⟨[], k, m, .nil k, .nil m⟩
  | @cons w w1 w2 env s h o out j _ ih =>
    have keep : ∀ own id chan y, (∀ x, y = some x → ',' ∉ x.2) →
        ∀ o i c x, w.set own id chan y o i c = some x → ',' ∉ x.2 := by
      intro own id chan y hy o i c x hx
      simp only [Waiting.set] at hx
      split at hx
      · exact hy x hx
      · exact hw o i c x hx
    cases j with
    | waits hp hn hwait =>
      obtain ⟨bs, k1, m1, t1, t2⟩ := ih (keep _ _ _ _ (by rintro x ⟨⟩; exact hp.noComma.2)) (m.setPart _ _ _ (some (_, _))) k
        (by rw [← hm]; rfl) hs
      exact ⟨bs, k1, m1, t1, .cons (.waits hp hn (by rw [hm]; exact hwait)) t2⟩
    | @first talker own id chan x y hp hwait =>
      obtain ⟨a, m', hmes⟩ := message_total env (m.setPart own id chan none) talker own (x ++ y)
      obtain ⟨k', h2, h3, h4, h5⟩ := message_rest hmes (k := k) hs
      obtain ⟨bs, k1, m1, t1, t2⟩ := ih (keep _ _ _ _ (by rintro x ⟨⟩)) m' k' (by rw [h4, ← hm]; rfl) h5
      have hc : ',' ∉ x ++ y := by
        rw [List.mem_append]; exact fun h => h.elim hp.noComma.2 (hw _ _ _ _ hwait)
      exact ⟨a :: bs, k1, m1, .cons (.single (single_of_payload _ _ _ hp.noComma.1 hc) h2) t1,
        .cons (.first hp (by rw [hm]; exact hwait) hmes) t2⟩
    | @second talker own id chan x y hp hwait =>
      obtain ⟨a, m', hmes⟩ := message_total env (m.setPart own id chan none) talker own (x ++ y)
      obtain ⟨k', h2, h3, h4, h5⟩ := message_rest hmes (k := k) hs
      obtain ⟨bs, k1, m1, t1, t2⟩ := ih (keep _ _ _ _ (by rintro x ⟨⟩)) m' k' (by rw [h4, ← hm]; rfl) h5
      have hc : ',' ∉ x ++ y := by
        rw [List.mem_append]; exact fun h => h.elim (hw _ _ _ _ hwait) hp.noComma.2
      exact ⟨a :: bs, k1, m1, .cons (.single (single_of_payload _ _ _ hp.noComma.1 hc) h2) t1,
        .cons (.second hp (by rw [hm]; exact hwait) hmes) t2⟩
    | other hp =>
      obtain ⟨a, m', hst⟩ := step_total env m s
      obtain ⟨k', h2, h3, h4, h5⟩ := step_rest hst hp hs
      obtain ⟨bs, k1, m1, t1, t2⟩ := ih hw m' k' (by rw [h4, hm]) h5
      exact ⟨a :: bs, k1, m1, .cons h2 t1, .cons hst t2⟩

/-- What comes out of the demonstration history: part A of a type 24 message is put together, a GSV sentence in between and
part B are passed on. -/
def demoPassed : List (Env × Option Str) :=
  [(demoEnv, none), (demoEnv, some (c! "$GPGSV,2,1,00")), (demoEnv, some (aisSentence (c! "AI") false demoA)),
    (demoEnv, some (c! "!AIVDO,1,1,,A,H42O55lt0000000D3nink000?0500,0"))]

theorem demoPart1 : Part (c! "AI") false 1 7 (c! "B") (c! "H42O55i18tMET") (c! "!AIVDM,2,1,7,B,H42O55i18tMET,0") :=
  ⟨[c! "2", c! "1", c! "7", c! "B", c! "H42O55i18tMET", c! "0"], demoTagged .bare (by decide),
    demoDec (by decide), demoDec (by decide), demoDec (by decide), rfl, rfl⟩

theorem demoPart2 : Part (c! "AI") false 2 7 (c! "B") (c! "00000000000000") (c! "!AIVDM,2,2,7,B,00000000000000,2") :=
  ⟨[c! "2", c! "2", c! "7", c! "B", c! "00000000000000", c! "2"], demoTagged .bare (by decide),
    demoDec (by decide), demoDec (by decide), demoDec (by decide), rfl, rfl⟩

theorem demoReassembled : ∃ w, Reassembled .empty demoHistory demoPassed w := by
  refine ⟨_, .cons (.waits demoPart1 (.inl rfl) (by rintro x ⟨⟩)) (.cons (.other ?_)
    (.cons (.second demoPart2 (x := c! "H42O55i18tMET") rfl) (.cons (.other ?_) (.nil _))))⟩
  · rintro ⟨t, own, num, id, chan, pl, hp, -⟩
    exact hp.bang.elim fun _ e => absurd (List.cons.inj e).1 (by decide)
  · rintro ⟨t, own, num, id, chan, pl, hp, -⟩
    exact demoSingleB.notPart hp

/-- C145: every history has exactly one reassembly. -/
theorem C145_total (h : List (Env × Str)) : ∃ out w, Reassembled .empty h out w ∧
    ∀ out' w', Reassembled .empty h out' w' → out' = out := by
  obtain ⟨out, w, hr⟩ := reassembled_total h .empty
  exact ⟨out, w, hr, fun _ _ hr' => (reassembled_unique hr' hr).1⟩

example : ∃ w, Reassembled .empty demoHistory demoPassed w := demoReassembled

/-- C145: a new parser answers a history like another new parser answers what comes out of the reassembly, and Incomplete to the
parts that wait; also to type 24, panics and errors, on both kinds of builds. -/
theorem C145_stages (h : List (Env × Str)) (out : List (Env × Option Str)) (w : Waiting) (hr : Reassembled .empty h out w) :
    answers Parser.new h = withWaits out (answers Parser.new (passedOn out)) := by
  obtain ⟨bs, k1, m1, t1, t2⟩ := stages hr (by rintro _ _ _ _ ⟨⟩) Memory.empty Memory.empty rfl ⟨rfl, rfl⟩
  rw [answers_of_trace t1, answers_of_trace t2]

example : ∃ d, answers Parser.new demoHistory = [.ok .incomplete, .ok .incomplete, .ok .incomplete, .ok (.vesselStaticData d)] ∧
    answers Parser.new (passedOn demoPassed) = [.ok .incomplete, .ok .incomplete, .ok (.vesselStaticData d)] := by
  obtain ⟨w, hr⟩ := demoReassembled
  obtain ⟨d, hd⟩ : ∃ d, answers Parser.new (passedOn demoPassed) = [.ok .incomplete, .ok .incomplete, .ok (.vesselStaticData d)] :=
    ⟨_, by rfl⟩
  exact ⟨d, by rw [C145_stages _ _ _ hr, hd]; rfl, hd⟩

/-- C145: the second parser sees no parts. -/
theorem C145_no_parts (h : List (Env × Str)) (out : List (Env × Option Str)) (w : Waiting) (hr : Reassembled .empty h out w) :
    ∀ x ∈ passedOn out, ¬ IsPart x.2 := by
  have main : ∀ {w w' h out}, Reassembled w h out w' → (∀ own id chan x, w own id chan = some x → ',' ∉ x.2) →
      ∀ x ∈ passedOn out, ¬ IsPart x.2 := by
    intro w w' h out hr
    induction hr with
    | nil w => intro _ x hx; cases hx
    | @cons w w1 w2 env s h o out j _ ih =>
      intro hw
      have keep : ∀ own id chan y, (∀ x, y = some x → ',' ∉ x.2) →
          ∀ o i c x, w.set own id chan y o i c = some x → ',' ∉ x.2 := by
        intro own id chan y hy o i c x hx
        simp only [Waiting.set] at hx
        split at hx
        · exact hy x hx
        · exact hw o i c x hx
      have single : ∀ {t own x y}, Talker t → ',' ∉ x ++ y → ¬ IsPart (aisSentence t own (x ++ y)) := by
        rintro t own x y ht hc ⟨t', own', num, id, chan, pl, hp, -⟩
        exact (single_of_payload t own _ ht hc).notPart hp
      cases j with
      | waits hp hn hwait => exact ih (keep _ _ _ _ (by rintro x ⟨⟩; exact hp.noComma.2))
      | first hp hwait =>
        intro x hx
        rcases List.mem_cons.1 hx with rfl | hx
        · exact single hp.noComma.1
            (by rw [List.mem_append]; exact fun h => h.elim hp.noComma.2 (hw _ _ _ _ hwait))
        · exact ih (keep _ _ _ _ (by rintro x ⟨⟩)) x hx
      | second hp hwait =>
        intro x hx
        rcases List.mem_cons.1 hx with rfl | hx
        · exact single hp.noComma.1
            (by rw [List.mem_append]; exact fun h => h.elim (hw _ _ _ _ hwait) hp.noComma.2)
        · exact ih (keep _ _ _ _ (by rintro x ⟨⟩)) x hx
      | other hp =>
        intro x hx
        rcases List.mem_cons.1 hx with rfl | hx
        · exact hp
        · exact ih hw x hx
  exact main hr (by rintro _ _ _ _ ⟨⟩)

example : ∃ w, Reassembled .empty demoHistory demoPassed w ∧ (passedOn demoPassed).length = 3 ∧ ∀ x ∈ passedOn demoPassed, ¬ IsPart x.2 := by
  obtain ⟨w, hr⟩ := demoReassembled
  exact ⟨w, hr, rfl, C145_no_parts _ _ _ hr⟩

theorem joins_at {own : Bool} {id : Nat} {chan : Str} {w w1 v v1 : Waiting} {s : Str} {o o' : Option Str}
    (hs : InGroup own id chan s) (hv : v own id chan = w own id chan) (h1 : Joins w s o w1) (h2 : Joins v s o' v1) :
    o' = o ∧ v1 own id chan = w1 own id chan := by
  obtain ⟨t, num, pl, hp⟩ := hs
  have self : ∀ (u : Waiting) x, u.set own id chan x own id chan = x := fun u x => if_pos ⟨rfl, rfl, rfl⟩
  cases h1 with
  | waits h hn hw =>
    obtain ⟨-, rfl, -, rfl, rfl, -⟩ := h.unique hp
    cases h2 with
    | waits h' hn' hw' => obtain ⟨rfl, rfl, rfl, rfl, rfl, rfl⟩ := h.unique h'; exact ⟨rfl, by rw [self, self]⟩
    | first h' hw' => obtain ⟨rfl, rfl, rfl, rfl, rfl, rfl⟩ := h.unique h'; exact absurd (hv ▸ hw') (hw _)
    | second h' hw' => obtain ⟨rfl, rfl, rfl, rfl, rfl, rfl⟩ := h.unique h'; exact absurd (hv ▸ hw') (hw _)
    | other h' => exact absurd ⟨_, _, _, _, _, _, h, hn⟩ h'
  | first h hw =>
    obtain ⟨-, rfl, -, rfl, rfl, -⟩ := h.unique hp
    cases h2 with
    | waits h' hn' hw' => obtain ⟨rfl, rfl, rfl, rfl, rfl, rfl⟩ := h.unique h'; exact absurd (hv.trans hw) (hw' _)
    | first h' hw' =>
      obtain ⟨rfl, rfl, -, rfl, rfl, rfl⟩ := h.unique h'
      cases (hv.trans hw).symm.trans hw'
      exact ⟨rfl, by rw [self, self]⟩
    | second h' hw' => obtain ⟨rfl, rfl, e, rfl, rfl, rfl⟩ := h.unique h'; cases e
    | other h' => exact absurd ⟨_, _, _, _, _, _, h, .inl rfl⟩ h'
  | second h hw =>
    obtain ⟨-, rfl, -, rfl, rfl, -⟩ := h.unique hp
    cases h2 with
    | waits h' hn' hw' => obtain ⟨rfl, rfl, rfl, rfl, rfl, rfl⟩ := h.unique h'; exact absurd (hv.trans hw) (hw' _)
    | first h' hw' => obtain ⟨rfl, rfl, e, rfl, rfl, rfl⟩ := h.unique h'; cases e
    | second h' hw' =>
      obtain ⟨rfl, rfl, -, rfl, rfl, rfl⟩ := h.unique h'
      cases (hv.trans hw).symm.trans hw'
      exact ⟨rfl, by rw [self, self]⟩
    | other h' => exact absurd ⟨_, _, _, _, _, _, h, .inr rfl⟩ h'
  | other h =>
    cases h2 with
    | waits h' hn' hw' => exact absurd ⟨_, _, _, _, _, _, h', hn'⟩ h
    | first h' hw' => exact absurd ⟨_, _, _, _, _, _, h', .inl rfl⟩ h
    | second h' hw' => exact absurd ⟨_, _, _, _, _, _, h', .inr rfl⟩ h
    | other h' => exact ⟨rfl, hv⟩

theorem joins_away {own : Bool} {id : Nat} {chan : Str} {w w1 : Waiting} {s : Str} {o : Option Str}
    (hs : ¬ InGroup own id chan s) (h : Joins w s o w1) : w1 own id chan = w own id chan := by
  have other : ∀ {own' : Bool} {id' : Nat} {chan' : Str} (x : Option (Nat × Str)), (∃ t num pl, Part t own' num id' chan' pl s) →
      w.set own' id' chan' x own id chan = w own id chan := by
    rintro own' id' chan' x ⟨t, num, pl, hp⟩
    exact if_neg (fun e : own = own' ∧ id = id' ∧ chan = chan' => by
      obtain ⟨rfl, rfl, rfl⟩ := e; exact hs ⟨_, _, _, hp⟩)
  cases h with
  | waits h _ _ => exact other _ ⟨_, _, _, h⟩
  | first h _ => exact other _ ⟨_, _, _, h⟩
  | second h _ => exact other _ ⟨_, _, _, h⟩
  | other _ => rfl

theorem outAt_group {own : Bool} {id : Nat} {chan : Str} {w w' : Waiting} {h : List (Env × Str)} {out : List (Env × Option Str)}
    (hr : Reassembled w h out w') {v v' : Waiting} {out' : List (Env × Option Str)} (hv : v own id chan = w own id chan)
    (hr' : Reassembled v (only (InGroup own id chan) h) out' v') :
    outAt (InGroup own id chan) h out = out' ∧ v' own id chan = w' own id chan := by
  induction hr generalizing v out' with
  | nil w => cases hr'; exact ⟨rfl, hv⟩
  | @cons w w1 w2 env s h o out j _ ih =>
    by_cases hs : InGroup own id chan s
    · rw [only_cons_pos (x := (env, s)) hs] at hr'
      cases hr' with
      | cons j' t' =>
        obtain ⟨rfl, e⟩ := joins_at hs hv j j'
        obtain ⟨rfl, e'⟩ := ih e t'
        refine ⟨?_, e'⟩
        simp only [outAt, List.zip_cons_cons]
        rw [List.filter_cons_of_pos (by simpa using hs)]
        rfl
    · rw [only_cons_neg (x := (env, s)) hs] at hr'
      obtain ⟨rfl, e'⟩ := ih (hv.trans (joins_away hs j).symm) hr'
      refine ⟨?_, e'⟩
      simp only [outAt, List.zip_cons_cons]
      rw [List.filter_cons_of_neg (by simpa using hs)]

/-- C145: what comes out at the sentences of a group (kind, message id and channel) depends on the sentences of this group only,
whatever types the messages have. -/
theorem C145_group (own : Bool) (id : Nat) (chan : Str) (h : List (Env × Str)) (out out' : List (Env × Option Str)) (w w' : Waiting)
    (hr : Reassembled .empty h out w) (hr' : Reassembled .empty (only (InGroup own id chan) h) out' w') :
    outAt (InGroup own id chan) h out = out' :=
  (outAt_group hr rfl hr').1

example : ∃ w w', Reassembled .empty demoHistory demoPassed w ∧
    Reassembled .empty (only (InGroup false 7 (c! "B")) demoHistory)
      [(demoEnv, none), (demoEnv, some (aisSentence (c! "AI") false demoA))] w' := by
  obtain ⟨w, hr⟩ := demoReassembled
  refine ⟨w, ?_⟩
  have h3 : ¬ InGroup false 7 (c! "B") (c! "$GPGSV,2,1,00") := by
    rintro ⟨t, num, pl, hp⟩
    exact hp.bang.elim fun _ e => absurd (List.cons.inj e).1 (by decide)
  have h4 : ¬ InGroup false 7 (c! "B") (c! "!AIVDO,1,1,,A,H42O55lt0000000D3nink000?0500,0") := by
    rintro ⟨t, num, pl, hp⟩
    exact demoSingleB.notPart hp
  have e : only (InGroup false 7 (c! "B")) demoHistory =
      [(demoEnv, c! "!AIVDM,2,1,7,B,H42O55i18tMET,0"), (demoEnv, c! "!AIVDM,2,2,7,B,00000000000000,2")] := by
    unfold demoHistory
    rw [only_cons_pos (by exact ⟨_, _, _, demoPart1⟩), only_cons_neg (by exact h3),
      only_cons_pos (by exact ⟨_, _, _, demoPart2⟩), only_cons_neg (by exact h4)]
    rfl
  rw [e]
  exact ⟨_, hr, .cons (.waits demoPart1 (.inl rfl) (by rintro x ⟨⟩))
    (.cons (.second demoPart2 (x := c! "H42O55i18tMET") rfl) (.nil _))⟩

end Nmea
