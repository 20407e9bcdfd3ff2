/-
Two receivers of one stream: when their memories of a group agree.
-/
import Verif.Lemmas.Streams
import Verif.Lemmas.Commute
import Verif.Spec.Commute

namespace Nmea
open Spec

theorem only_cons_pos {P : Str → Prop} {x : Env × Str} {h : List (Env × Str)} (hx : P x.2) :
    only P (x :: h) = x :: only P h := by simp [only, hx]

theorem only_cons_neg {P : Str → Prop} {x : Env × Str} {h : List (Env × Str)} (hx : ¬ P x.2) :
    only P (x :: h) = only P h := by simp [only, hx]

/-! ### Two-part messages -/

theorem step_part {own : Bool} {id : Nat} {chan : Str} {env : Env} {m m' : Memory} {x : PartIn} {a : Answer}
    (hx : x.num = 1 ∨ x.num = 2) (hp : Part x.talker own x.num id chan x.payload x.sentence)
    (h : Step env m x.sentence a m') : ((∃ y, m.part own id chan = some (3 - x.num, y)) ∧ m'.part own id chan = none) ∨
      ((¬ ∃ y, m.part own id chan = some (3 - x.num, y)) ∧ m'.part own id chan = some (x.num, x.payload)) := by
  cases h with
  | single h _ => exact absurd ⟨_, _, _, hp⟩ h.notInGroup
  | waits h hn hw =>
    obtain ⟨rfl, rfl, e, rfl, rfl, e'⟩ := h.unique hp
    rw [← e, ← e']
    exact .inr ⟨fun ⟨y, hy⟩ => hw y hy, setPart_self _ _ _ _ _⟩
  | first h hw hm =>
    obtain ⟨rfl, rfl, e, rfl, rfl, e'⟩ := h.unique hp
    rw [← e]
    exact .inl ⟨⟨_, hw⟩, by rw [(message_frame hm).1]; exact setPart_self _ _ _ _ _⟩
  | second h hw hm =>
    obtain ⟨rfl, rfl, e, rfl, rfl, e'⟩ := h.unique hp
    rw [← e]
    exact .inl ⟨⟨_, hw⟩, by rw [(message_frame hm).1]; exact setPart_self _ _ _ _ _⟩
  | gsvWaits h _ _ => exact absurd hp.bang h.notBang
  | gsvDone h _ _ => exact absurd hp.bang h.notBang
  | gsvHuge h => exact absurd hp.bang h.notBang
  | other h => exact absurd (.inr (.inl ⟨_, _, _, _, _, _, hp, hx⟩)) h

theorem part_unchanged (own : Bool) (id : Nat) (chan : Str) (env : Env) (m : Memory) (s : Str) (a : Answer) (m' : Memory)
    (hP : ¬ InGroup own id chan s) (h : Step env m s a m') : m'.part own id chan = m.part own id chan := by
  have other : ∀ {own' : Bool} {id' : Nat} {chan' : Str} (x : Option (Nat × Str)), (∃ t num pl, Part t own' num id' chan' pl s) →
      (m.setPart own' id' chan' x).part own id chan = m.part own id chan := by
    rintro own' id' chan' x ⟨t, num, pl, hp⟩
    exact if_neg (fun e : own = own' ∧ id = id' ∧ chan = chan' => by
      obtain ⟨rfl, rfl, rfl⟩ := e; exact hP ⟨_, _, _, hp⟩)
  cases h with
  | single h hm => rw [(message_frame hm).1]
  | waits h _ _ => exact other _ ⟨_, _, _, h⟩
  | first h _ hm => rw [(message_frame hm).1]; exact other _ ⟨_, _, _, h⟩
  | second h _ hm => rw [(message_frame hm).1]; exact other _ ⟨_, _, _, h⟩
  | gsvWaits _ _ _ => rfl
  | gsvDone _ _ _ => rfl
  | gsvHuge _ => rfl
  | other _ => rfl

/-- No part of the group in the history: what waits is unchanged. -/
theorem trace_none (own : Bool) (id : Nat) (chan : Str) (h : List (Env × Str)) (m m' : Memory) (as : List Answer)
    (ht : Trace m h as m') (ho : only (InGroup own id chan) h = []) : m'.part own id chan = m.part own id chan := by
  induction ht with
  | nil => rfl
  | @cons m0 m1 m2 env s h a as h1 _ ih =>
    have hs : ¬ InGroup own id chan s := fun hs => by rw [only_cons_pos (x := (env, s)) hs] at ho; cases ho
    rw [only_cons_neg (x := (env, s)) hs] at ho
    rw [ih ho, part_unchanged own id chan _ _ _ _ _ hs h1]

/-- One part of the group in the history, after which nothing or this part waits; if nothing or a part of its number
waited before, it waits. -/
theorem trace_one (own : Bool) (id : Nat) (chan : Str) (x : PartIn) (r : List (Env × Str)) (h : List (Env × Str))
    (m m' : Memory) (as : List Answer)
    (hx : x.num = 1 ∨ x.num = 2) (hp : Part x.talker own x.num id chan x.payload x.sentence)
    (ht : Trace m h as m') (ho : only (InGroup own id chan) h = (x.env, x.sentence) :: r) :
    ∃ m1 h' as', Trace m1 h' as' m' ∧ only (InGroup own id chan) h' = r ∧
      (m1.part own id chan = none ∨ m1.part own id chan = some (x.num, x.payload)) ∧
      ((m.part own id chan = none ∨ ∃ pl, m.part own id chan = some (x.num, pl)) →
        m1.part own id chan = some (x.num, x.payload)) := by
  induction ht with
  | nil => cases ho
  | @cons m0 m1 m2 env s h a as h1 ht ih =>
    by_cases hs : InGroup own id chan s
    · rw [only_cons_pos (x := (env, s)) hs] at ho
      injection ho with e1 e2
      injection e1 with e3 e4
      subst e4
      refine ⟨m1, h, as, ht, e2, ?_, ?_⟩
      · rcases step_part hx hp h1 with ⟨-, e⟩ | ⟨-, e⟩
        · exact .inl e
        · exact .inr e
      · intro hw
        rcases step_part hx hp h1 with ⟨⟨y, hy⟩, -⟩ | ⟨-, e⟩
        · rcases hw with hw | ⟨pl, hw⟩
          · rw [hw] at hy; cases hy
          · rw [hw] at hy
            injection hy with hy
            injection hy with hy _
            omega
        · exact e
    · rw [only_cons_neg (x := (env, s)) hs] at ho
      obtain ⟨m3, h', as', q1, q2, q3, q4⟩ := ih ho
      refine ⟨m3, h', as', q1, q2, q3, fun hw => q4 ?_⟩
      rwa [part_unchanged own id chan _ _ _ _ _ hs h1]

/-- After two parts with the same number, the last one waits. -/
theorem trace_two (own : Bool) (id : Nat) (chan : Str) (x y : PartIn) (h : List (Env × Str))
    (m m' : Memory) (as : List Answer) (hn : x.num = y.num)
    (hx : x.num = 1 ∨ x.num = 2) (hpx : Part x.talker own x.num id chan x.payload x.sentence)
    (hpy : Part y.talker own y.num id chan y.payload y.sentence)
    (ht : Trace m h as m') (ho : only (InGroup own id chan) h = [(x.env, x.sentence), (y.env, y.sentence)]) :
    m'.part own id chan = some (y.num, y.payload) := by
  obtain ⟨m1, h1, as1, q1, q2, q3, -⟩ := trace_one own id chan x _ h m m' as hx hpx ht ho
  obtain ⟨m2, h2, as2, r1, r2, -, r4⟩ := trace_one own id chan y _ h1 m1 m' as1 (by omega) hpy q1 q2
  rw [trace_none own id chan h2 m2 m' as2 r1 r2]
  refine r4 ?_
  rcases q3 with q3 | q3
  · exact .inl q3
  · exact .inr ⟨_, by rw [q3, hn]⟩

/-! ### Type 24 -/

/-- No first part of a two-part type 24 message waits. -/
theorem noSplit_rel (g : List (Env × Str)) (hg : ∀ x ∈ g, NoSplitStatic x.2) :
    ∃ m, Rel (run Parser.new g) m ∧ ∀ own id chan x, m.part own id chan = some (1, x) → NotStatic x := by
  obtain ⟨as, m, ht⟩ := trace_total Memory.empty g
  refine ⟨m, (trace_rel _ _ _ _ _ rel_new ht).2, ?_⟩
  have key : ∀ (m m' : Memory) (g : List (Env × Str)) (as : List Answer), Trace m g as m' → (∀ x ∈ g, NoSplitStatic x.2) →
      (∀ own id chan x, m.part own id chan = some (1, x) → NotStatic x) →
      ∀ own id chan x, m'.part own id chan = some (1, x) → NotStatic x := by
    intro m m' g as ht
    induction ht with
    | nil => exact fun _ h => h
    | @cons m0 m1 m2 env s h a as h1 ht ih =>
      intro hg hm
      refine ih (fun x hx => hg x (List.mem_cons_of_mem _ hx)) ?_
      by_cases hs : StaticOf 0 s
      · obtain ⟨_, _, h2⟩ := static_step 0 env m0 s a m1 m0 hs ⟨rfl, hm⟩ h1
        exact h2.2
      · exact (static_skip 0 env m0 s a m1 m0 (hg (env, s) List.mem_cons_self) hs ⟨rfl, hm⟩ h1).2
  exact key _ _ _ _ ht hg (fun _ _ _ _ e => by cases e)

theorem static_from (mmsi : Nat) (l : List StaticSentence) (hl : ∀ x ∈ l, x.Of mmsi 0 ∨ x.Of mmsi 1)
    (g h : List (Env × Str)) (hg : ∀ x ∈ g, NoSplitStatic x.2) (hh : ∀ x ∈ h, NoSplitStatic x.2)
    (he : only (StaticOf mmsi) h = l.map fun x => (x.env, x.sentence)) :
    ∃ w, answersTo (StaticOf mmsi) (run Parser.new g) h = staticAnswers w l := by
  obtain ⟨m, hr, hm⟩ := noSplit_rel g hg
  refine ⟨m.static mmsi, ?_⟩
  rw [projection (StaticOf mmsi) (fun s => ∀ t own id chan x, Part t own 1 id chan x s → NotStatic x) (simStatic mmsi)
    (fun env m s a m' k => static_skip mmsi env m s a m' k)
    (fun env m s a m' k _ => static_step mmsi env m s a m' k) h hh _ _ m m hr hr ⟨rfl, hm⟩, he]
  obtain ⟨m', ht⟩ := trace_static mmsi l hl _ m rfl
  exact (trace_rel _ _ _ _ _ hr ht).1

theorem staticAnswers_opposite (own : Bool) (bits : List Bool) (l : List StaticSentence) (i : Nat) (hi : i < l.length) :
    (staticAnswers none l)[i]? = some (.ok .incomplete) ↔
      ¬ (staticAnswers (some (own, bits)) l)[i]? = some (.ok .incomplete) := by
  induction l generalizing own bits i with
  | nil => cases hi
  | cons x l ih =>
    cases i with
    | zero => simp [staticAnswers]
    | succ i =>
      simp only [List.length_cons, Nat.add_lt_add_iff_right] at hi
      simp only [staticAnswers, List.getElem?_cons_succ]
      rw [ih x.own x.bits i hi, not_not]

/-! ### GSV -/

/-- What is kept after a sentence of the group. -/
def gsvAfter (n : Nat) (w : Nat → Option (List Str)) (x : GsvIn) : Nat → Option (List Str) :=
  if allKept (keep w x) n then forget (keep w x) n else keep w x

theorem setGsv_keep (m : Memory) (talker : Str) (n : Nat) (x : GsvIn) :
    (fun k => (m.setGsv talker n x.num x.fields).gsv talker n k) = keep (m.gsv talker n) x := by
  funext k
  by_cases h : k = x.num
  · subst h
    rw [setGsv_self, keep, if_pos rfl]
  · rw [setGsv_ne _ _ _ _ _ _ h, keep, if_neg h]

theorem step_gsv {talker : Str} {n : Nat} (hn : n < 2 ^ 32 - 1) {env : Env} {m m' : Memory} {x : GsvIn} {a : Answer}
    (hp : GsvPart talker n x.num x.fields x.sentence) (h : Step env m x.sentence a m') :
    m'.gsv talker n = gsvAfter n (m.gsv talker n) x := by
  have hk := setGsv_keep m talker n x
  cases h with
  | single h _ => exact absurd h.bang hp.notBang
  | waits h _ _ => exact absurd h.bang hp.notBang
  | first h _ _ => exact absurd h.bang hp.notBang
  | second h _ _ => exact absurd h.bang hp.notBang
  | gsvWaits h _ hw =>
    obtain ⟨rfl, rfl, rfl, rfl⟩ := hp.unique h
    rw [gsvAfter, if_neg]
    · exact hk
    · rw [allKept_iff]
      obtain ⟨j, h1, h2, h3, h4⟩ := hw
      exact fun ha => ha j h1 h2 (by rw [keep, if_neg h3]; exact h4)
  | gsvDone h _ hw =>
    obtain ⟨rfl, rfl, rfl, rfl⟩ := hp.unique h
    rw [gsvAfter, if_pos]
    · rw [← hk]
      funext k
      by_cases h : 1 ≤ k ∧ k ≤ n
      · rw [clearGsv_in _ _ _ _ h.1 h.2, forget, if_pos h]
      · rw [forget, if_neg h]
        exact if_neg (fun e => h e.2.2)
    · rw [allKept_iff]
      intro j h1 h2
      by_cases h : j = x.num
      · rw [keep, if_pos h]; simp
      · rw [keep, if_neg h]; exact hw j h1 h2 h
  | gsvHuge h => exact absurd (h.unique hp).2.1 (by omega)
  | other h => exact absurd (.inr (.inr ⟨_, _, _, _, hp⟩)) h

theorem gsv_unchanged (talker : Str) (n : Nat) (env : Env) (m : Memory) (s : Str) (a : Answer) (m' : Memory)
    (hP : ¬ GsvOfGroup talker n s) (h : Step env m s a m') : m'.gsv talker n = m.gsv talker n := by
  have := gsv_skip (GsvOfGroup talker n) (fun t k => t = talker ∧ k = n)
    (fun _ _ _ _ _ h e => ⟨_, _, e.1 ▸ e.2 ▸ h⟩) env m s a m' m hP (fun _ _ _ _ => rfl) h
  funext j
  exact (this talker n j ⟨rfl, rfl⟩).symm

theorem trace_gsvAfter (talker : Str) (n : Nat) (hn : n < 2 ^ 32 - 1) (l : List GsvIn)
    (hl : ∀ x ∈ l, GsvPart talker n x.num x.fields x.sentence) (h : List (Env × Str)) (m m' : Memory) (as : List Answer)
    (ht : Trace m h as m') (ho : only (GsvOfGroup talker n) h = l.map fun x => (x.env, x.sentence)) :
    m'.gsv talker n = l.foldl (gsvAfter n) (m.gsv talker n) := by
  induction ht generalizing l with
  | nil =>
    cases l with
    | nil => rfl
    | cons _ _ => cases ho
  | @cons m0 m1 m2 env s h a as h1 ht ih =>
    by_cases hs : GsvOfGroup talker n s
    · rw [only_cons_pos (x := (env, s)) hs] at ho
      cases l with
      | nil => cases ho
      | cons x l =>
        injection ho with e1 e2
        injection e1 with e3 e4
        subst e4
        rw [ih l (fun y hy => hl y (List.mem_cons_of_mem _ hy)) e2, step_gsv hn (hl x List.mem_cons_self) h1, List.foldl_cons]
    · rw [only_cons_neg (x := (env, s)) hs] at ho
      rw [ih l hl ho, gsv_unchanged _ _ _ _ _ _ _ hs h1]

theorem foldl_missing (n : Nat) (hn : 1 ≤ n) (l : List GsvIn) (w : Nat → Option (List Str))
    (hw : ∃ j, 1 ≤ j ∧ j ≤ n ∧ w j = none) : ∃ j, 1 ≤ j ∧ j ≤ n ∧ (l.foldl (gsvAfter n) w) j = none := by
  induction l generalizing w with
  | nil => exact hw
  | cons x l ih =>
    refine ih _ ?_
    unfold gsvAfter
    split
    · exact ⟨1, Nat.le_refl 1, hn, by rw [forget, if_pos ⟨Nat.le_refl 1, hn⟩]⟩
    · rename_i ha
      rw [allKept_iff] at ha
      by_contra hc
      exact ha (fun j h1 h2 e => hc ⟨j, h1, h2, e⟩)

/-- Every history of sentences of the group is a list of sentences of the group. -/
theorem gsv_list (talker : Str) (n : Nat) (h : List (Env × Str)) :
    ∃ l : List GsvIn, only (GsvOfGroup talker n) h = l.map (fun x => (x.env, x.sentence)) ∧
      ∀ x ∈ l, GsvPart talker n x.num x.fields x.sentence := by
  induction h with
  | nil => exact ⟨[], rfl, fun _ h => by cases h⟩
  | cons y h ih =>
    obtain ⟨l, h1, h2⟩ := ih
    by_cases hs : GsvOfGroup talker n y.2
    · obtain ⟨k, fs, hp⟩ := hs
      refine ⟨⟨y.1, k, fs, y.2⟩ :: l, by rw [only_cons_pos ⟨k, fs, hp⟩, h1]; rfl, ?_⟩
      intro x hx
      rcases List.mem_cons.1 hx with rfl | hx
      · exact hp
      · exact h2 x hx
    · exact ⟨l, by rw [only_cons_neg hs, h1], h2⟩

theorem keep_congr {w w' : Nat → Option (List Str)} {x : GsvIn} {n : Nat} (h : ∀ j, 1 ≤ j → j ≤ n → w j = w' j) :
    ∀ j, 1 ≤ j → j ≤ n → keep w x j = keep w' x j := by
  intro j h1 h2
  unfold keep
  split
  · rfl
  · exact h j h1 h2

theorem allKept_congr {w w' : Nat → Option (List Str)} {n : Nat} (h : ∀ j, 1 ≤ j → j ≤ n → w j = w' j) :
    allKept w n = allKept w' n := by
  rw [Bool.eq_iff_iff, allKept_iff, allKept_iff]
  exact forall_congr' fun j => forall_congr' fun h1 => forall_congr' fun h2 => by rw [h j h1 h2]

theorem gsvAnswers_congr (nav : NavigationSystem) (n : Nat) (l : List GsvIn) (w w' : Nat → Option (List Str))
    (h : ∀ j, 1 ≤ j → j ≤ n → w j = w' j) : gsvAnswers nav n w l = gsvAnswers nav n w' l := by
  induction l generalizing w w' with
  | nil => rfl
  | cons x l ih =>
    have hk := keep_congr (x := x) h
    simp only [gsvAnswers, allKept_congr hk]
    split
    · rw [ih (forget (keep w x) n) (forget (keep w' x) n) (fun j h1 h2 => by rw [forget, forget, if_pos ⟨h1, h2⟩, if_pos ⟨h1, h2⟩])]
      congr 3
      refine List.flatMap_congr fun j hj => ?_
      rw [List.mem_range'_1] at hj
      rw [hk j hj.1 (by omega)]
    · rw [ih _ _ hk]

/-- After the group without `k`, sentence `k` is not kept. -/
theorem after_pass (n k : Nat) (hk : 1 ≤ k ∧ k ≤ n) (l : List GsvIn) (hne : ∀ x ∈ l, x.num ≠ k)
    (w : Nat → Option (List Str)) :
    (w k = none → (l.foldl (gsvAfter n) w) k = none) ∧
    ((∀ j, 1 ≤ j → j ≤ n → j ≠ k → w j ≠ none ∨ ∃ x ∈ l, x.num = j) → (∃ j, 1 ≤ j ∧ j ≤ n ∧ w j = none) →
      (l.foldl (gsvAfter n) w) k = none) := by
  induction l generalizing w with
  | nil =>
    refine ⟨fun h => h, fun h => ?_⟩
    rintro ⟨j, h1, h2, hj⟩
    by_cases e : j = k
    · rw [← e]; exact hj
    · rcases h j h1 h2 e with h | ⟨_, h, _⟩
      · exact absurd hj h
      · cases h
  | cons x l ih =>
    have hx := hne x List.mem_cons_self
    obtain ⟨i1, i2⟩ := ih (fun y hy => hne y (List.mem_cons_of_mem _ hy)) (gsvAfter n w x)
    have a1 : w k = none → gsvAfter n w x k = none := by
      intro h
      unfold gsvAfter
      split
      · rw [forget, if_pos hk]
      · rw [keep, if_neg (fun e => hx e.symm), h]
    refine ⟨fun h => i1 (a1 h), fun h hn => ?_⟩
    rw [List.foldl_cons]
    by_cases ha : allKept (keep w x) n = true
    · refine i1 ?_
      rw [gsvAfter, if_pos ha, forget, if_pos hk]
    · refine i2 ?_ ?_
      · intro j h1 h2 h3
        rw [gsvAfter, if_neg ha, keep]
        rcases h j h1 h2 h3 with h | ⟨y, hy, e⟩
        · left
          split
          · simp
          · exact h
        · rcases List.mem_cons.1 hy with rfl | hy
          · left; rw [if_pos e.symm]; simp
          · exact .inr ⟨y, hy, e⟩
      · rw [allKept_iff] at ha
        rw [gsvAfter, if_neg (by rw [allKept_iff]; exact ha)]
        by_contra hc
        exact ha (fun j h1 h2 e => hc ⟨j, h1, h2, e⟩)

/-- While sentence `k` is not kept and not received, two memories come to agree. -/
theorem pass_agree (n k : Nat) (hk : 1 ≤ k ∧ k ≤ n) (l : List GsvIn) (hne : ∀ x ∈ l, x.num ≠ k)
    (w w' : Nat → Option (List Str)) (hw : w k = none) (hw' : w' k = none)
    (h : ∀ j, 1 ≤ j → j ≤ n → w j = w' j ∨ ∃ x ∈ l, x.num = j) :
    ∀ j, 1 ≤ j → j ≤ n → (l.foldl (gsvAfter n) w) j = (l.foldl (gsvAfter n) w') j := by
  induction l generalizing w w' with
  | nil =>
    intro j h1 h2
    rcases h j h1 h2 with h | ⟨_, h, _⟩
    · exact h
    · cases h
  | cons x l ih =>
    have hx := hne x List.mem_cons_self
    have e : ∀ v : Nat → Option (List Str), v k = none → gsvAfter n v x = keep v x := by
      intro v hv
      rw [gsvAfter, if_neg]
      rw [allKept_iff]
      exact fun ha => ha k hk.1 hk.2 (by rw [keep, if_neg (fun e => hx e.symm), hv])
    have e' : ∀ v : Nat → Option (List Str), v k = none → keep v x k = none := by
      intro v hv
      rw [keep, if_neg (fun e => hx e.symm), hv]
    rw [List.foldl_cons, List.foldl_cons, e w hw, e w' hw']
    refine ih (fun y hy => hne y (List.mem_cons_of_mem _ hy)) _ _ (e' w hw) (e' w' hw') ?_
    intro j h1 h2
    unfold keep
    split
    · exact .inl rfl
    · rename_i hj
      rcases h j h1 h2 with h | ⟨y, hy, ey⟩
      · exact .inl h
      · rcases List.mem_cons.1 hy with rfl | hy
        · exact absurd ey.symm hj
        · exact .inr ⟨y, hy, ey⟩

/-- In a reachable state a sentence of the group is missing. -/
theorem gsv_reachable {p : Parser} (hp : Reachable p) (talker : Str) (n : Nat) (h1 : 1 ≤ n) (hn : n < 2 ^ 32 - 1) :
    ∃ m, Rel p m ∧ ∃ j, 1 ≤ j ∧ j ≤ n ∧ m.gsv talker n j = none := by
  obtain ⟨g, rfl⟩ := hp
  obtain ⟨as, m, ht⟩ := trace_total Memory.empty g
  refine ⟨m, (trace_rel _ _ _ _ _ rel_new ht).2, ?_⟩
  obtain ⟨l, ho, hl⟩ := gsv_list talker n g
  rw [trace_gsvAfter talker n hn l hl g _ m as ht ho]
  exact foldl_missing n h1 l _ ⟨1, Nat.le_refl 1, h1, rfl⟩

end Nmea
