/-
C96: whole streams with VDM and VDO exchanged.
-/
import Verif.Props.Symmetry

namespace Nmea
open Spec

/-- The memories agree but for the own-vessel flags, which are exchanged. -/
def Exchanged (m m' : Memory) : Prop :=
  (∀ o i c, m'.part (!o) i c = m.part o i c) ∧ ∀ i, m'.static i = (m.static i).map fun x => (!x.1, x.2)

theorem overlay_own (own own' o o' : Bool) (b b' : List Bool) :
    overlay (partData own' b) (partData o' b') = { overlay (partData own b) (partData o b') with ownVessel := own' } := by
  unfold partData
  split <;> split <;> rfl

theorem message_exchanged (env : Env) (m m' m1 : Memory) (t : Str) (own : Bool) (pl : Str) (a : Answer)
    (ht : Talker t) (hp : ',' ∉ pl) (he : Exchanged m m') (h : Message env m t own pl a m1) :
    ∃ a' m1', Message env m' t (!own) pl a' m1' ∧ EqualButOwn (!own) a a' ∧ Exchanged m1 m1' := by
  have hset : ∀ k o b, Exchanged (m.setStatic k (some (o, b))) (m'.setStatic k (some (!o, b))) := by
    intro k o b
    refine ⟨he.1, fun i => ?_⟩
    simp only [Memory.setStatic]
    split
    · rfl
    · exact he.2 i
  have hclr : ∀ k, Exchanged (m.setStatic k none) (m'.setStatic k none) := by
    intro k
    refine ⟨he.1, fun i => ?_⟩
    simp only [Memory.setStatic]
    split
    · rfl
    · exact he.2 i
  cases h with
  | plain h =>
    exact ⟨_, _, .plain h, C96_own_vessel env _ t own (!own) pl _ _ (single_of_payload t own pl ht hp)
      (single_of_payload t (!own) pl ht hp), he⟩
  | first h hm =>
    exact ⟨_, _, .first h (by rw [he.2, hm]; rfl), .report .incomplete, hset _ _ _⟩
  | second o b h hm =>
    refine ⟨_, _, .second (!o) b h (by rw [he.2, hm]; rfl), ?_, hclr _⟩
    rw [overlay_own own (!own) o (!o)]
    exact .report (.vesselStaticData _)

theorem alone_exchanged (env : Env) (t : Str) (own own' : Bool) (fs : List Str) (s s' : Str)
    (h : IsAis t own fs s) (h' : IsAis t own' fs s') : EqualButOwn own' (alone env s) (alone env s') := by
  have hv : ∀ v, (assemble ('!' :: aisKind own') v Parser.new).1 = (assemble ('!' :: aisKind own) v Parser.new).1 ∧
      ∀ own pl, (assemble ('!' :: aisKind own) v Parser.new).1 = some pl →
        (assemble ('!' :: aisKind own) v Parser.new).2 = Parser.new := by
    intro v
    have e : ∀ k, Parser.new.pullString k = (none, Parser.new) := fun k => rfl
    unfold assemble
    by_cases h1 : v.fragmentCount = 1
    · simp [h1]
    · by_cases h2 : v.fragmentCount = 2
      · simp only [h2, e]
        cases v.messageId with
        | none => simp
        | some i =>
          by_cases k1 : v.fragmentNumber = 1
          · simp [k1]
          · by_cases k2 : v.fragmentNumber = 2 <;> simp [k1, k2]
      · simp [h1, h2]
  unfold alone
  rw [eval_fields env _ t own fs s h, eval_fields env _ t own' fs s' h', vdmLoop_fields _ _ h.2.2.1,
    vdmLoop_fields _ _ h.2.2.1]
  have fin : ∀ v, EqualButOwn own'
      (match assemble ('!' :: aisKind own) v Parser.new with
        | (none, p') => (Out.ok ParsedSentence.incomplete, p')
        | (some payload, p') => complete env own (stationOf t) payload p').1
      (match assemble ('!' :: aisKind own') v Parser.new with
        | (none, p') => (Out.ok ParsedSentence.incomplete, p')
        | (some payload, p') => complete env own' (stationOf t) payload p').1 := by
    intro v
    obtain ⟨h1, h2⟩ := hv v
    have a1 := h2 own
    have a2 := h2 own'
    rcases e1 : assemble ('!' :: aisKind own) v Parser.new with ⟨_ | pl, p1⟩
    · rw [e1] at h1
      rcases e2 : assemble ('!' :: aisKind own') v Parser.new with ⟨_ | pl', p2⟩
      · exact .report .incomplete
      · rw [e2] at h1; cases h1
    · rw [e1] at h1
      rcases e2 : assemble ('!' :: aisKind own') v Parser.new with ⟨_ | pl', p2⟩
      · rw [e2] at h1; cases h1
      · rw [e2] at h1
        cases h1
        rw [e1] at a1
        rw [e2] at a2
        exact complete_own env _ own own' pl _ _ ((a1 pl rfl).trans (a2 pl rfl).symm)
  split
  · exact .error _
  · exact .panic
  · exact fin _

theorem step_exchanged (env : Env) (m m' m1 : Memory) (t : Str) (own : Bool) (fs : List Str) (s s' : Str) (a : Answer)
    (h : IsAis t own fs s) (h' : IsAis t (!own) fs s') (he : Exchanged m m')
    (hok : ∀ own id chan x, m.part own id chan = some x → ',' ∉ x.2) (hs : Step env m s a m1) :
    ∃ a' m1', Step env m' s' a' m1' ∧ EqualButOwn (!own) a a' ∧ Exchanged m1 m1' := by
  have hset : ∀ i c x, Exchanged (m.setPart own i c x) (m'.setPart (!own) i c x) := by
    intro i c x
    refine ⟨fun o i' c' => ?_, he.2⟩
    simp only [Memory.setPart, Bool.not_eq_eq_eq_not, Bool.not_not]
    split
    · rfl
    · exact he.1 o i' c'
  have toSingle : ∀ t1 o1 pl, Single t1 o1 pl s → t1 = t ∧ o1 = own ∧ Single t (!own) pl s' := by
    rintro t1 o1 pl ⟨fs1, k, g, d0, d1, d2⟩
    obtain ⟨rfl, rfl, rfl⟩ := g.unique h
    exact ⟨rfl, rfl, _, k, h', d0, d1, d2⟩
  have toPart : ∀ t1 o1 num id chan pl, Part t1 o1 num id chan pl s →
      t1 = t ∧ o1 = own ∧ Part t (!own) num id chan pl s' := by
    rintro t1 o1 num id chan pl ⟨fs1, g, d⟩
    obtain ⟨rfl, rfl, rfl⟩ := g.unique h
    exact ⟨rfl, rfl, _, h', d⟩
  have bang : Bang s := IsTagged.lead h
  have bang' : Bang s' := IsTagged.lead h'
  cases hs with
  | @single t1 o1 pl _ _ g hm =>
    obtain ⟨rfl, rfl, g'⟩ := toSingle _ _ _ g
    obtain ⟨a', m1', x, y, z⟩ := message_exchanged env m m' m1 _ _ _ _ g.noComma.1 g.noComma.2 he hm
    exact ⟨a', m1', .single g' x, y, z⟩
  | @waits t1 o1 num id chan pl g hn hw =>
    obtain ⟨rfl, rfl, g'⟩ := toPart _ _ _ _ _ _ g
    exact ⟨_, _, .waits g' hn (fun x => by rw [he.1]; exact hw x), .report .incomplete, hset _ _ _⟩
  | @first t1 o1 id chan x y _ _ g hw hm =>
    obtain ⟨rfl, rfl, g'⟩ := toPart _ _ _ _ _ _ g
    obtain ⟨a', m1', i1, i2, i3⟩ := message_exchanged env _ _ m1 _ _ _ _ h.1 (by
      rw [List.mem_append, not_or]; exact ⟨g.noComma.2, hok _ _ _ _ hw⟩) (hset id chan none) hm
    exact ⟨a', m1', .first g' (by rw [he.1]; exact hw) i1, i2, i3⟩
  | @second t1 o1 id chan x y _ _ g hw hm =>
    obtain ⟨rfl, rfl, g'⟩ := toPart _ _ _ _ _ _ g
    obtain ⟨a', m1', i1, i2, i3⟩ := message_exchanged env _ _ m1 _ _ _ _ h.1 (by
      rw [List.mem_append, not_or]; exact ⟨hok _ _ _ _ hw, g.noComma.2⟩) (hset id chan none) hm
    exact ⟨a', m1', .second g' (by rw [he.1]; exact hw) i1, i2, i3⟩
  | gsvWaits g _ _ => exact absurd bang g.notBang
  | gsvDone g _ _ => exact absurd bang g.notBang
  | gsvHuge g => exact absurd bang g.notBang
  | other g =>
    refine ⟨_, _, .other (fun g' => g ?_), alone_exchanged env t own (!own) fs s s' h h', he⟩
    rcases g' with ⟨t1, o1, pl, fs1, k, g', d⟩ | ⟨t1, o1, num, id, chan, pl, ⟨fs1, g', d⟩, hn⟩ | ⟨t1, n, k, fs1, g'⟩
    · obtain ⟨rfl, rfl, rfl⟩ := g'.unique h'
      exact .inl ⟨_, _, pl, _, k, h, d⟩
    · obtain ⟨rfl, rfl, rfl⟩ := g'.unique h'
      exact .inr (.inl ⟨_, _, num, id, chan, pl, ⟨_, h, d⟩, hn⟩)
    · exact absurd bang' g'.notBang

/-- C96: if VDM and VDO are exchanged in a whole stream of AIS sentences (two-part messages and type 24 among them), each
answer is the same but for the own-vessel flag, which is exchanged. -/
theorem C96_exchanged (l : List Twin) (hl : ∀ x ∈ l, IsAis x.talker x.own x.fields x.sentence ∧
      IsAis x.talker (!x.own) x.fields x.exchanged) (i : Nat) (x : Twin) (hx : l[i]? = some x) :
    ∃ a a', (answers Parser.new (l.map fun x => (x.env, x.sentence)))[i]? = some a ∧
      (answers Parser.new (l.map fun x => (x.env, x.exchanged)))[i]? = some a' ∧ EqualButOwn (!x.own) a a' := by
  suffices H : ∀ m m' p p', Rel p m → Rel p' m' → Exchanged m m' → ∃ a a',
      (answers p (l.map fun x => (x.env, x.sentence)))[i]? = some a ∧
      (answers p' (l.map fun x => (x.env, x.exchanged)))[i]? = some a' ∧ EqualButOwn (!x.own) a a' from
    H _ _ _ _ rel_new rel_new ⟨fun _ _ _ => rfl, fun _ => rfl⟩
  induction l generalizing i with
  | nil => cases hx
  | cons y l ih =>
    intro m m' p p' hp hp' he
    obtain ⟨h1, h2⟩ := hl y (by simp)
    obtain ⟨a, m1, hs⟩ := step_total y.env m y.sentence
    obtain ⟨a', m1', hs', hb, he'⟩ := step_exchanged y.env m m' m1 _ _ _ _ _ a h1 h2 he hp.partOk hs
    obtain ⟨e1, r1⟩ := step_rel _ p m m1 _ a hp hs
    obtain ⟨e2, r2⟩ := step_rel _ p' m' m1' _ a' hp' hs'
    cases i with
    | zero =>
      cases hx
      exact ⟨a, a', congrArg some e1, congrArg some e2, hb⟩
    | succ i => exact ih (fun z hz => hl z (by simp [hz])) i hx _ _ _ _ r1 r2 he'

/-- A type 24 message of which part A is sent as VDM and part B as VDO, and the other way round. -/
example : ∃ a a', (answers Parser.new [(demoEnv, c! "!AIVDM,1,1,,A,H42O55i18tMET00000000000000,2"),
        (demoEnv, c! "!AIVDO,1,1,,A,H42O55lti4hhhilD3nink000?050,0")])[1]? = some a ∧
      (answers Parser.new [(demoEnv, c! "!AIVDO,1,1,,A,H42O55i18tMET00000000000000,2"),
        (demoEnv, c! "!AIVDM,1,1,,A,H42O55lti4hhhilD3nink000?050,0")])[1]? = some a' ∧ EqualButOwn false a a' :=
  C96_exchanged
    [⟨demoEnv, c! "AI", false, [c! "1", c! "1", [], c! "A", c! "H42O55i18tMET00000000000000", c! "2"],
      c! "!AIVDM,1,1,,A,H42O55i18tMET00000000000000,2", c! "!AIVDO,1,1,,A,H42O55i18tMET00000000000000,2"⟩,
    ⟨demoEnv, c! "AI", true, [c! "1", c! "1", [], c! "A", c! "H42O55lti4hhhilD3nink000?050", c! "0"],
      c! "!AIVDO,1,1,,A,H42O55lti4hhhilD3nink000?050,0", c! "!AIVDM,1,1,,A,H42O55lti4hhhilD3nink000?050,0"⟩]
    (by
      intro x hx
      simp only [List.mem_cons, List.not_mem_nil, or_false] at hx
      rcases hx with rfl | rfl <;> exact ⟨demoTagged .bare (by decide), demoTagged .bare (by decide)⟩)
    1 _ rfl

end Nmea
