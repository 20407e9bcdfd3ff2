/-
Unrelated sentences touch different cells of the memory.
-/
import Verif.Lemmas.Interleave
import Verif.Spec.Commute

namespace Nmea
open Spec

/-- The message that a sentence completes, in terms of the memory. -/
inductive MDelivers (m : Memory) (s : Str) : Str → Prop where
  | single {talker own payload} (h : Single talker own payload s) : MDelivers m s payload
  | first {talker own id chan x y} (h : Part talker own 1 id chan x s) (hw : m.part own id chan = some (2, y)) :
      MDelivers m s (x ++ y)
  | second {talker own id chan x y} (h : Part talker own 2 id chan y s) (hw : m.part own id chan = some (1, x)) :
      MDelivers m s (x ++ y)

/-- The cells that a sentence reads or writes. -/
structure Cells where
  part : Bool → Nat → Str → Prop
  gsv : Str → Nat → Prop
  static : Nat → Prop

def cells (env : Env) (m : Memory) (s : Str) : Cells :=
  ⟨fun o i c => InGroup o i c s, fun t n => GsvOfGroup t n s,
    fun i => ∃ pl, MDelivers m s pl ∧ IsStaticPart env pl ∧ mmsiOf (payloadBits pl) = i⟩

/-- Equal at these cells. -/
def Within (f : Cells) (k m : Memory) : Prop :=
  (∀ o i c, f.part o i c → k.part o i c = m.part o i c) ∧
  (∀ t n j, f.gsv t n → k.gsv t n j = m.gsv t n j) ∧
  ∀ i, f.static i → k.static i = m.static i

/-- Equal at all other cells. -/
def Outside (f : Cells) (k m : Memory) : Prop :=
  (∀ o i c, ¬ f.part o i c → k.part o i c = m.part o i c) ∧
  (∀ t n j, ¬ f.gsv t n → k.gsv t n j = m.gsv t n j) ∧
  ∀ i, ¬ f.static i → k.static i = m.static i

theorem message_local {env : Env} {m m' k : Memory} {t : Str} {own : Bool} {pl : Str} {a : Answer}
    (h : Message env m t own pl a m')
    (hk : IsStaticPart env pl → k.static (mmsiOf (payloadBits pl)) = m.static (mmsiOf (payloadBits pl))) :
    ∃ k', Message env k t own pl a k' ∧ k'.part = k.part ∧ k'.gsv = k.gsv ∧ m'.part = m.part ∧ m'.gsv = m.gsv ∧
      (IsStaticPart env pl → k'.static (mmsiOf (payloadBits pl)) = m'.static (mmsiOf (payloadBits pl))) ∧
      (∀ i, (IsStaticPart env pl → mmsiOf (payloadBits pl) ≠ i) →
        k'.static i = k.static i ∧ m'.static i = m.static i) := by
  cases h with
  | plain h => exact ⟨_, .plain h, rfl, rfl, rfl, rfl, hk, fun _ _ => ⟨rfl, rfl⟩⟩
  | first h hm =>
    refine ⟨_, .first h (by rw [hk h]; exact hm), rfl, rfl, rfl, rfl, fun _ => ?_, fun i hi => ⟨?_, ?_⟩⟩
    · simp [Memory.setStatic]
    · exact if_neg (fun e => hi h e.symm)
    · exact if_neg (fun e => hi h e.symm)
  | second o b h hm =>
    refine ⟨_, .second o b h (by rw [hk h]; exact hm), rfl, rfl, rfl, rfl, fun _ => ?_, fun i hi => ⟨?_, ?_⟩⟩
    · simp [Memory.setStatic]
    · exact if_neg (fun e => hi h e.symm)
    · exact if_neg (fun e => hi h e.symm)

theorem mdelivers_unique {m : Memory} {s x y : Str} (h : MDelivers m s x) (h' : MDelivers m s y) : x = y := by
  cases h with
  | single h =>
    cases h' with
    | single h' => exact (h.unique h').2.2
    | first h' _ => exact absurd ⟨_, _, _, h'⟩ h.notInGroup
    | second h' _ => exact absurd ⟨_, _, _, h'⟩ h.notInGroup
  | first h hw =>
    cases h' with
    | single h' => exact absurd ⟨_, _, _, h⟩ h'.notInGroup
    | first h' hw' =>
      obtain ⟨-, rfl, -, rfl, rfl, rfl⟩ := h.unique h'
      rw [hw] at hw'; cases hw'; rfl
    | second h' _ => exact absurd (h.unique h').2.2.1 (by decide)
  | second h hw =>
    cases h' with
    | single h' => exact absurd ⟨_, _, _, h⟩ h'.notInGroup
    | first h' _ => exact absurd (h.unique h').2.2.1 (by decide)
    | second h' hw' =>
      obtain ⟨-, rfl, -, rfl, rfl, rfl⟩ := h.unique h'
      rw [hw] at hw'; cases hw'; rfl

/-- A step depends on its cells only, and changes nothing else. -/
theorem step_local {env : Env} {m m' k : Memory} {s : Str} {a : Answer} (h : Step env m s a m')
    (hk : Within (cells env m s) k m) :
    ∃ k', Step env k s a k' ∧ Within (cells env m s) k' m' ∧ Outside (cells env m s) k' k ∧ Outside (cells env m s) m' m := by
  have noPart : ∀ {t own pl}, Single t own pl s → ∀ o i c, ¬ (cells env m s).part o i c := fun h o i c => h.notInGroup
  have noGsv : Bang s → ∀ t n, ¬ (cells env m s).gsv t n := fun h t n ⟨j, fs, h'⟩ => h'.notBang h
  have noStatic : ¬ Bang s → ∀ i, ¬ (cells env m s).static i := by
    rintro h i ⟨pl, hd, -⟩
    cases hd with
    | single hd => exact h hd.bang
    | first hd _ => exact h hd.bang
    | second hd _ => exact h hd.bang
  have static : ∀ {pl}, MDelivers m s pl → ∀ i, (cells env m s).static i ↔
      IsStaticPart env pl ∧ mmsiOf (payloadBits pl) = i := by
    intro pl hd i
    constructor
    · rintro ⟨pl', hd', h1, h2⟩
      obtain rfl := mdelivers_unique hd hd'
      exact ⟨h1, h2⟩
    · rintro ⟨h1, h2⟩
      exact ⟨pl, hd, h1, h2⟩
  have partOnly : ∀ {t own num id chan pl}, Part t own num id chan pl s → ∀ o i c, (cells env m s).part o i c →
      o = own ∧ i = id ∧ c = chan := by
    rintro t own num id chan pl h o i c ⟨_, _, _, h'⟩
    obtain ⟨-, rfl, -, rfl, rfl, -⟩ := h.unique h'
    exact ⟨rfl, rfl, rfl⟩
  have gsvOnly : ∀ {t n j fs}, GsvPart t n j fs s → ∀ t' n', (cells env m s).gsv t' n' → t' = t ∧ n' = n := by
    rintro t n j fs h t' n' ⟨_, _, h'⟩
    exact ⟨(h.unique h').1.symm, (h.unique h').2.1.symm⟩
  have stat : ∀ {pl}, MDelivers m s pl → ∀ {m1 m2 k1 k2 : Memory}, m1.static = m.static → k1.static = k.static →
      ((IsStaticPart env pl → k2.static (mmsiOf (payloadBits pl)) = m2.static (mmsiOf (payloadBits pl))) ∧
      (∀ i, (IsStaticPart env pl → mmsiOf (payloadBits pl) ≠ i) →
        k2.static i = k1.static i ∧ m2.static i = m1.static i)) →
      (∀ i, (cells env m s).static i → k2.static i = m2.static i) ∧
      (∀ i, ¬ (cells env m s).static i → k2.static i = k.static i) ∧
      (∀ i, ¬ (cells env m s).static i → m2.static i = m.static i) := by
    intro pl hd m1 m2 k1 k2 e1 e2 ⟨h1, h2⟩
    refine ⟨fun i hi => ?_, fun i hi => ?_, fun i hi => ?_⟩
    · obtain ⟨h3, rfl⟩ := (static hd i).mp hi
      exact h1 h3
    · rw [(h2 i fun h3 h4 => hi ((static hd i).mpr ⟨h3, h4⟩)).1, e2]
    · rw [(h2 i fun h3 h4 => hi ((static hd i).mpr ⟨h3, h4⟩)).2, e1]
  cases h with
  | single h hm =>
    have hd := MDelivers.single (m := m) h
    obtain ⟨k', h1, h2, h3, h4, h5, h6⟩ := message_local (k := k) hm
      (fun ht => hk.2.2 _ ((static hd _).mpr ⟨ht, rfl⟩))
    obtain ⟨s1, s2, s3⟩ := stat hd rfl rfl h6
    exact ⟨k', .single h h1, ⟨fun o i c hc => absurd hc (noPart h o i c), fun t n j hc => absurd hc (noGsv h.bang t n), s1⟩,
      ⟨fun _ _ _ _ => by rw [h2], fun _ _ _ _ => by rw [h3], s2⟩,
      ⟨fun _ _ _ _ => by rw [h4], fun _ _ _ _ => by rw [h5], s3⟩⟩
  | @waits talker own num id chan payload h hn hw =>
    have hg : InGroup own id chan s := ⟨_, _, _, h⟩
    have hno : ∀ i, ¬ (cells env m s).static i := by
      rintro i ⟨pl, hd, -⟩
      cases hd with
      | single hd => exact hd.notInGroup hg
      | first hd hw' => obtain ⟨-, rfl, rfl, rfl, rfl, -⟩ := h.unique hd; exact hw _ hw'
      | second hd hw' => obtain ⟨-, rfl, rfl, rfl, rfl, -⟩ := h.unique hd; exact hw _ hw'
    refine ⟨k.setPart own id chan (some (num, payload)), .waits h hn (by rw [hk.1 _ _ _ hg]; exact hw),
      ⟨?_, fun t n j hc => absurd hc (noGsv h.bang t n), fun i hi => absurd hi (hno i)⟩,
      ⟨?_, fun _ _ _ _ => rfl, fun _ _ => rfl⟩, ⟨?_, fun _ _ _ _ => rfl, fun _ _ => rfl⟩⟩
    · intro o i c hc
      obtain ⟨rfl, rfl, rfl⟩ := partOnly h o i c hc
      rw [setPart_self, setPart_self]
    · intro o i c hc
      exact if_neg fun e => hc (by obtain ⟨rfl, rfl, rfl⟩ := e; exact hg)
    · intro o i c hc
      exact if_neg fun e => hc (by obtain ⟨rfl, rfl, rfl⟩ := e; exact hg)
  | @first talker own id chan x y _ _ h hw hm =>
    have hg : InGroup own id chan s := ⟨_, _, _, h⟩
    have hd := MDelivers.first h hw
    obtain ⟨k', h1, h2, h3, h4, h5, h6⟩ := message_local (k := k.setPart own id chan none) hm
      (fun ht => hk.2.2 _ ((static hd _).mpr ⟨ht, rfl⟩))
    obtain ⟨s1, s2, s3⟩ := stat (m1 := m.setPart own id chan none) (k1 := k.setPart own id chan none) hd rfl rfl h6
    refine ⟨k', .first h (by rw [hk.1 _ _ _ hg]; exact hw) h1,
      ⟨?_, fun t n j hc => absurd hc (noGsv h.bang t n), s1⟩, ⟨?_, fun _ _ _ _ => by rw [h3]; rfl, s2⟩,
      ⟨?_, fun _ _ _ _ => by rw [h5]; rfl, s3⟩⟩
    · intro o i c hc
      obtain ⟨rfl, rfl, rfl⟩ := partOnly h o i c hc
      rw [h2, h4, setPart_self, setPart_self]
    · intro o i c hc
      rw [h2]
      exact if_neg fun e => hc (by obtain ⟨rfl, rfl, rfl⟩ := e; exact hg)
    · intro o i c hc
      rw [h4]
      exact if_neg fun e => hc (by obtain ⟨rfl, rfl, rfl⟩ := e; exact hg)
  | @second talker own id chan x y _ _ h hw hm =>
    have hg : InGroup own id chan s := ⟨_, _, _, h⟩
    have hd := MDelivers.second h hw
    obtain ⟨k', h1, h2, h3, h4, h5, h6⟩ := message_local (k := k.setPart own id chan none) hm
      (fun ht => hk.2.2 _ ((static hd _).mpr ⟨ht, rfl⟩))
    obtain ⟨s1, s2, s3⟩ := stat (m1 := m.setPart own id chan none) (k1 := k.setPart own id chan none) hd rfl rfl h6
    refine ⟨k', .second h (by rw [hk.1 _ _ _ hg]; exact hw) h1,
      ⟨?_, fun t n j hc => absurd hc (noGsv h.bang t n), s1⟩, ⟨?_, fun _ _ _ _ => by rw [h3]; rfl, s2⟩,
      ⟨?_, fun _ _ _ _ => by rw [h5]; rfl, s3⟩⟩
    · intro o i c hc
      obtain ⟨rfl, rfl, rfl⟩ := partOnly h o i c hc
      rw [h2, h4, setPart_self, setPart_self]
    · intro o i c hc
      rw [h2]
      exact if_neg fun e => hc (by obtain ⟨rfl, rfl, rfl⟩ := e; exact hg)
    · intro o i c hc
      rw [h4]
      exact if_neg fun e => hc (by obtain ⟨rfl, rfl, rfl⟩ := e; exact hg)
  | @gsvWaits talker n j fs h hn hw =>
    have hg : GsvOfGroup talker n s := ⟨_, _, h⟩
    have hs : simGsv (cells env m s).gsv k m := fun t n j => hk.2.1 t n j
    obtain ⟨i, h1, h2, h3, h4⟩ := hw
    refine ⟨_, .gsvWaits h hn ⟨i, h1, h2, h3, by rw [hk.2.1 _ _ _ hg]; exact h4⟩,
      ⟨fun o i c ⟨_, _, _, hc⟩ => absurd hc.bang h.notBang, simGsv_set hs _ _ _ _, fun i hi => absurd hi (noStatic h.notBang i)⟩,
      ⟨fun _ _ _ _ => rfl, ?_, fun _ _ => rfl⟩, ⟨fun _ _ _ _ => rfl, ?_, fun _ _ => rfl⟩⟩
    · intro t n' j' hc
      exact if_neg fun e => hc (by obtain ⟨rfl, rfl, -⟩ := e; exact hg)
    · intro t n' j' hc
      exact if_neg fun e => hc (by obtain ⟨rfl, rfl, -⟩ := e; exact hg)
  | @gsvDone talker n j fs h hn hw =>
    have hg : GsvOfGroup talker n s := ⟨_, _, h⟩
    have hs : simGsv (cells env m s).gsv k m := fun t n j => hk.2.1 t n j
    have hs' := simGsv_set hs talker n j fs
    have off : ∀ (q : Memory) t n' j', ¬ (cells env m s).gsv t n' →
        ((q.setGsv talker n j fs).clearGsv talker n).gsv t n' j' = q.gsv t n' j' := by
      intro q t n' j' hc
      simp only [Memory.clearGsv, Memory.setGsv]
      rw [if_neg fun e => hc (by obtain ⟨rfl, rfl, -⟩ := e; exact hg),
        if_neg fun e => hc (by obtain ⟨rfl, rfl, -⟩ := e; exact hg)]
    refine ⟨(k.setGsv talker n j fs).clearGsv talker n, ?_,
      ⟨fun o i c ⟨_, _, _, hc⟩ => absurd hc.bang h.notBang, ?_, fun i hi => absurd hi (noStatic h.notBang i)⟩,
      ⟨fun _ _ _ _ => rfl, off k, fun _ _ => rfl⟩, ⟨fun _ _ _ _ => rfl, off m, fun _ _ => rfl⟩⟩
    · have hd := Step.gsvDone (env := env) (m := k) h hn (fun i h1 h2 h3 => by rw [hk.2.1 _ _ _ hg]; exact hw i h1 h2 h3)
      rw [show ((List.range' 1 n).flatMap fun j' =>
          satellites (talkerSystem talker) (((m.setGsv talker n j fs).gsv talker n j').getD [])) =
        ((List.range' 1 n).flatMap fun j' =>
          satellites (talkerSystem talker) (((k.setGsv talker n j fs).gsv talker n j').getD [])) from
        List.flatMap_congr (fun i _ => by rw [hs' talker n i hg])]
      exact hd
    · intro t n' j' hG'
      simp only [Memory.clearGsv]
      split
      · rfl
      · exact hs' t n' j' hG'
  | @gsvHuge talker j fs h =>
    have hg : GsvOfGroup talker (2 ^ 32 - 1) s := ⟨_, _, h⟩
    have hs : simGsv (cells env m s).gsv k m := fun t n j => hk.2.1 t n j
    refine ⟨_, .gsvHuge h,
      ⟨fun o i c ⟨_, _, _, hc⟩ => absurd hc.bang h.notBang, simGsv_set hs _ _ _ _, fun i hi => absurd hi (noStatic h.notBang i)⟩,
      ⟨fun _ _ _ _ => rfl, ?_, fun _ _ => rfl⟩, ⟨fun _ _ _ _ => rfl, ?_, fun _ _ => rfl⟩⟩
    · intro t n' j' hc
      exact if_neg fun e => hc (by obtain ⟨rfl, rfl, -⟩ := e; exact hg)
    · intro t n' j' hc
      exact if_neg fun e => hc (by obtain ⟨rfl, rfl, -⟩ := e; exact hg)
  | other h =>
    exact ⟨k, .other h, hk, ⟨fun _ _ _ _ => rfl, fun _ _ _ _ => rfl, fun _ _ => rfl⟩,
      ⟨fun _ _ _ _ => rfl, fun _ _ _ _ => rfl, fun _ _ => rfl⟩⟩

/-- Two sentences without a common cell. -/
def Disjoint2 (f g : Cells) : Prop :=
  (∀ o i c, ¬ (f.part o i c ∧ g.part o i c)) ∧ (∀ t n, ¬ (f.gsv t n ∧ g.gsv t n)) ∧ ∀ i, ¬ (f.static i ∧ g.static i)

theorem mdelivers_congr {m k : Memory} {s pl : Str} (h : ∀ o i c, InGroup o i c s → k.part o i c = m.part o i c)
    (hd : MDelivers m s pl) : MDelivers k s pl := by
  cases hd with
  | single h' => exact .single h'
  | first h' hw => exact .first h' (by rw [h _ _ _ ⟨_, _, _, h'⟩]; exact hw)
  | second h' hw => exact .second h' (by rw [h _ _ _ ⟨_, _, _, h'⟩]; exact hw)

theorem step_swap {e e' : Env} {m m1 m2 : Memory} {s s' : Str} {a b : Answer} (h : Step e m s a m1)
    (h' : Step e' m1 s' b m2) (hd : Disjoint2 (cells e m s) (cells e' m s')) :
    ∃ m1', Step e' m s' b m1' ∧ Step e m1' s a m2 := by
  obtain ⟨-, -, -, -, o1⟩ := step_local h (k := m) ⟨fun _ _ _ _ => rfl, fun _ _ _ _ => rfl, fun _ _ => rfl⟩
  have same : ∀ o i c, InGroup o i c s' → m1.part o i c = m.part o i c :=
    fun o i c hc => o1.1 o i c fun hc' => hd.1 o i c ⟨hc', hc⟩
  have ec : cells e' m1 s' = cells e' m s' := by
    unfold cells
    congr 1
    funext i
    apply propext
    constructor
    · rintro ⟨pl, h1, h2⟩
      exact ⟨pl, mdelivers_congr (fun o i c hc => (same o i c hc).symm) h1, h2⟩
    · rintro ⟨pl, h1, h2⟩
      exact ⟨pl, mdelivers_congr same h1, h2⟩
  obtain ⟨m1', g1, g2, g3, g4⟩ := step_local h' (k := m) (by
    rw [ec]
    exact ⟨fun o i c hc => (same o i c hc).symm,
      fun t n j hc => (o1.2.1 t n j fun hc' => hd.2.1 t n ⟨hc', hc⟩).symm,
      fun i hc => (o1.2.2 i fun hc' => hd.2.2 i ⟨hc', hc⟩).symm⟩)
  rw [ec] at g2 g3 g4
  obtain ⟨m2', f1, f2, f3, f4⟩ := step_local h (k := m1')
    ⟨fun o i c hc => g3.1 o i c fun hc' => hd.1 o i c ⟨hc, hc'⟩,
      fun t n j hc => g3.2.1 t n j fun hc' => hd.2.1 t n ⟨hc, hc'⟩,
      fun i hc => g3.2.2 i fun hc' => hd.2.2 i ⟨hc, hc'⟩⟩
  refine ⟨m1', g1, ?_⟩
  have : m2' = m2 := by
    have e1 : m2'.part = m2.part := by
      funext o i c
      by_cases hc : (cells e m s).part o i c
      · rw [f2.1 _ _ _ hc, g4.1 _ _ _ fun hc' => hd.1 o i c ⟨hc, hc'⟩]
      · rw [f3.1 _ _ _ hc]
        by_cases hc' : (cells e' m s').part o i c
        · exact g2.1 _ _ _ hc'
        · rw [g3.1 _ _ _ hc', g4.1 _ _ _ hc', o1.1 _ _ _ hc]
    have e2 : m2'.gsv = m2.gsv := by
      funext t n j
      by_cases hc : (cells e m s).gsv t n
      · rw [f2.2.1 _ _ _ hc, g4.2.1 _ _ _ fun hc' => hd.2.1 t n ⟨hc, hc'⟩]
      · rw [f3.2.1 _ _ _ hc]
        by_cases hc' : (cells e' m s').gsv t n
        · exact g2.2.1 _ _ _ hc'
        · rw [g3.2.1 _ _ _ hc', g4.2.1 _ _ _ hc', o1.2.1 _ _ _ hc]
    have e3 : m2'.static = m2.static := by
      funext i
      by_cases hc : (cells e m s).static i
      · rw [f2.2.2 _ hc, g4.2.2 _ fun hc' => hd.2.2 i ⟨hc, hc'⟩]
      · rw [f3.2.2 _ hc]
        by_cases hc' : (cells e' m s').static i
        · exact g2.2.2 _ hc'
        · rw [g3.2.2 _ hc', g4.2.2 _ hc', o1.2.2 _ hc]
    cases m2'; cases m2
    simp only at e1 e2 e3
    subst e1 e2 e3
    rfl
  rw [← this]
  exact f1

/-- What the memory says is what the parser says. -/
theorem delivers_of_mdelivers {p : Parser} {m : Memory} (hr : Rel p m) {s pl : Str} (h : MDelivers m s pl) :
    ∃ talker own, Delivers p s talker own pl := by
  cases h with
  | single h => exact ⟨_, _, .single _ h⟩
  | first h hw =>
    refine ⟨_, _, .first _ _ _ _ h ?_⟩
    rw [hr.part _ _ _ _ (.inr rfl), hw]
    rfl
  | second h hw =>
    refine ⟨_, _, .second _ _ _ _ h ?_⟩
    rw [hr.part _ _ _ _ (.inl rfl), hw]
    rfl

theorem rel_reachable {p : Parser} (h : Reachable p) : ∃ m, Rel p m := by
  obtain ⟨g, rfl⟩ := h
  obtain ⟨as, m, ht⟩ := trace_total Memory.empty g
  exact ⟨m, (trace_rel _ _ _ _ _ rel_new ht).2⟩

end Nmea
