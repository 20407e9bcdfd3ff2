/-
C162: exactly which parsers cannot be told apart.
-/
import Verif.Spec.Equivalent
import Verif.Props.Distinguish
import Verif.Props.Possible

namespace Nmea
open Spec

/-! ### Type 24 messages -/

/-- The contents of the type 24 message with nothing but an MMSI. -/
theorem emptyStatic_data (mmsi : Nat) (h : mmsi < 2 ^ 30) :
    partData false (payloadBits (armor (emptyStaticBits mmsi))) = blankStatic false mmsi := by
  have hp : partOf (payloadBits (armor (emptyStaticBits mmsi))) = 0 := by
    rw [payloadBits_armor, partOf, emptyStaticBits, window_field _ 3 _ (natBits 2 0) 38 2 rfl (by simp) (by simp)]
    decide
  have hl : (emptyStaticBits mmsi).length = 40 := by simp [emptyStaticBits]
  have hz : num (payloadBits (armor (emptyStaticBits mmsi))) 40 6 = 0 := by
    rw [num, window, payloadBits_armor, hl, List.append_assoc, List.drop_append_of_le_length (by omega),
      List.drop_eq_nil_of_le (by omega), List.nil_append]
    decide
  have hn : partAName (payloadBits (armor (emptyStaticBits mmsi))) = none := by
    rw [partAName, fieldText, show List.range 120 = 0 :: (List.range 119).map (· + 1) from List.range_succ_eq_map, List.map_cons,
      List.takeWhile_cons_of_neg (by simp [hz])]
    rfl
  rw [partData, if_pos hp, partAData, hn, (emptyStatic_part demoEnv mmsi h).2]
  rfl

theorem overlay_blank (own : Bool) (bits : List Bool) :
    overlay (blankStatic false (mmsiOf bits)) (partData own bits) = { partData own bits with ownVessel := false } := by
  unfold partData
  split <;> rfl

theorem partData_own (own : Bool) (bits : List Bool) :
    { partData own bits with ownVessel := false } = partData false bits := by
  unfold partData
  split <;> rfl

theorem overlay_ownFlag (v w : VesselStaticData) : overlay v w = overlay v { w with ownVessel := false } := rfl

theorem partData_of_false {own : Bool} {b b' : List Bool} (h : partData false b = partData false b') :
    partData own b = partData own b' := by
  have key : ∀ b, partData own b = { partData false b with ownVessel := own } := by
    intro b
    unfold partData
    split <;> rfl
  rw [key b, key b', h]

/-! ### Messages that cannot be told apart -/

/-- The same answer, and the same to remember. -/
structure MsgAlike (own : Bool) (pl pl' : Str) : Prop where
  alone : ∀ env talker, Talker talker → Spec.alone env (aisSentence talker own pl) = Spec.alone env (aisSentence talker own pl')
  kind : ∀ env, IsStaticPart env pl ↔ IsStaticPart env pl'
  mmsi : ∀ env, IsStaticPart env pl → mmsiOf (payloadBits pl) = mmsiOf (payloadBits pl')
  data : ∀ env, IsStaticPart env pl → partData false (payloadBits pl) = partData false (payloadBits pl')

theorem MsgAlike.refl (own : Bool) (pl : Str) : MsgAlike own pl pl :=
  ⟨fun _ _ _ => rfl, fun _ => Iff.rfl, fun _ _ => rfl, fun _ _ => rfl⟩

/-- The memories agree in everything that an answer can depend on. -/
structure Same (m k : Memory) : Prop where
  part : ∀ o i c, (m.part o i c = none ∧ k.part o i c = none) ∨ ∃ num x x', m.part o i c = some (num, x) ∧
    k.part o i c = some (num, x') ∧ (num = 1 ∨ num = 2) ∧ ∀ y, ',' ∉ y → MsgAlike o (joined num x y) (joined num x' y)
  gsv : ∀ t n j, 1 ≤ j → j ≤ n → n < 2 ^ 32 - 1 →
    (m.gsv t n j).map (satellites (talkerSystem t)) = (k.gsv t n j).map (satellites (talkerSystem t))
  static : ∀ i, (m.static i).map (fun x => partData false x.2) = (k.static i).map (fun x => partData false x.2)

theorem Same.symm {m k : Memory} (h : Same m k) : Same k m where
  part := fun o i c => (h.part o i c).imp And.symm fun ⟨num, x, x', a, b, c, d⟩ =>
    ⟨num, x', x, b, a, c, fun y hy => ⟨fun e t ht => ((d y hy).alone e t ht).symm, fun e => ((d y hy).kind e).symm,
      fun e he => ((d y hy).mmsi e (((d y hy).kind e).mpr he)).symm,
      fun e he => ((d y hy).data e (((d y hy).kind e).mpr he)).symm⟩⟩
  gsv := fun t n j a b c => (h.gsv t n j a b c).symm
  static := fun i => (h.static i).symm

theorem Same.setStatic {m k : Memory} (h : Same m k) (i : Nat) (x y : Option (Bool × List Bool))
    (hx : x.map (fun x => partData false x.2) = y.map (fun x => partData false x.2)) :
    Same (m.setStatic i x) (k.setStatic i y) where
  part := h.part
  gsv := h.gsv
  static := by
    intro j
    simp only [Memory.setStatic]
    split
    · exact hx
    · exact h.static j

theorem Same.setPart {m k : Memory} (h : Same m k) (own : Bool) (id : Nat) (chan : Str) (x : Option (Nat × Str))
    (hx : ∀ y, x = some y → y.1 = 1 ∨ y.1 = 2) : Same (m.setPart own id chan x) (k.setPart own id chan x) where
  part := by
    intro o i c
    simp only [Memory.setPart]
    split
    · cases x with
      | none => exact .inl ⟨rfl, rfl⟩
      | some y => exact .inr ⟨y.1, y.2, y.2, rfl, rfl, hx y rfl, fun _ _ => MsgAlike.refl _ _⟩
    · exact h.part o i c
  gsv := h.gsv
  static := h.static

theorem Same.message {env : Env} {m k m' : Memory} {talker : Str} {own : Bool} {pl pl' : Str} {a : Answer} (h : Same m k)
    (ht : Talker talker) (ha : MsgAlike own pl pl') (hm : Message env m talker own pl a m') :
    ∃ k', Message env k talker own pl' a k' ∧ Same m' k' := by
  cases hm with
  | plain hs =>
    refine ⟨k, ?_, h⟩
    rw [ha.alone env talker ht]
    exact .plain fun e => hs ((ha.kind env).mpr e)
  | first hs hn =>
    have e := h.static (mmsiOf (payloadBits pl))
    rw [hn, Option.map_none, eq_comm, Option.map_eq_none_iff] at e
    refine ⟨_, .first ((ha.kind env).mp hs) (by rw [← ha.mmsi env hs, e]), ?_⟩
    rw [← ha.mmsi env hs]
    exact h.setStatic _ _ _ (by simp only [Option.map_some, ha.data env hs])
  | second o b hs hn =>
    have e := h.static (mmsiOf (payloadBits pl))
    rw [hn, Option.map_some, eq_comm, Option.map_eq_some_iff] at e
    obtain ⟨⟨o', b'⟩, e1, e2⟩ := e
    refine ⟨k.setStatic (mmsiOf (payloadBits pl')) none, ?_, ?_⟩
    · have := Message.second (talker := talker) (own := own) o' b' ((ha.kind env).mp hs)
        (m := k) (by rw [← ha.mmsi env hs, e1])
      rw [overlay_ownFlag, partData_own] at this ⊢
      rw [← e2, partData_of_false (ha.data env hs)]
      exact this
    · rw [← ha.mmsi env hs]
      exact h.setStatic _ _ _ rfl

theorem Same.setGsv {m k : Memory} (h : Same m k) (t : Str) (n j : Nat) (fs : List Str) :
    Same (m.setGsv t n j fs) (k.setGsv t n j fs) where
  part := h.part
  gsv := by
    intro t' n' j' h1 h2 h3
    simp only [Memory.setGsv]
    split
    · rfl
    · exact h.gsv t' n' j' h1 h2 h3
  static := h.static

theorem Same.clearGsv {m k : Memory} (h : Same m k) (t : Str) (n : Nat) : Same (m.clearGsv t n) (k.clearGsv t n) where
  part := h.part
  gsv := by
    intro t' n' j' h1 h2 h3
    simp only [Memory.clearGsv]
    split
    · rfl
    · exact h.gsv t' n' j' h1 h2 h3
  static := h.static

theorem Same.gsv_none {m k : Memory} (h : Same m k) (t : Str) (n j : Nat) (h1 : 1 ≤ j) (h2 : j ≤ n) (h3 : n < 2 ^ 32 - 1) :
    m.gsv t n j = none ↔ k.gsv t n j = none := by
  have := h.gsv t n j h1 h2 h3
  constructor
  · intro e
    rwa [e, Option.map_none, eq_comm, Option.map_eq_none_iff] at this
  · intro e
    rwa [e, Option.map_none, Option.map_eq_none_iff] at this

theorem getD_satellites (nav : NavigationSystem) (x y : Option (List Str)) (h : x.map (satellites nav) = y.map (satellites nav)) :
    satellites nav (x.getD []) = satellites nav (y.getD []) := by
  cases x with
  | none =>
    rw [Option.map_none, eq_comm, Option.map_eq_none_iff] at h
    rw [h]
  | some a =>
    rw [Option.map_some, eq_comm, Option.map_eq_some_iff] at h
    obtain ⟨b, rfl, hb⟩ := h
    exact hb.symm

theorem Same.step {env : Env} {m k m' : Memory} {s : Str} {a : Answer} (h : Same m k) (hs : Step env m s a m') :
    ∃ k', Step env k s a k' ∧ Same m' k' := by
  cases hs with
  | single h1 hm =>
    obtain ⟨k', h2, h3⟩ := h.message h1.noComma.1 (MsgAlike.refl _ _) hm
    exact ⟨k', .single h1 h2, h3⟩
  | @waits talker own num id chan payload h1 hn hw =>
    refine ⟨_, .waits h1 hn ?_, h.setPart _ _ _ _ (fun y hy => by cases hy; exact hn)⟩
    intro y e
    rcases h.part own id chan with ⟨-, e'⟩ | ⟨num', x, x', e1, e2, -⟩
    · rw [e'] at e
      cases e
    · rw [e2] at e
      cases e
      exact hw x e1
  | @first talker own id chan x y _ _ h1 hw hm =>
    rcases h.part own id chan with ⟨e, -⟩ | ⟨num', z, z', e1, e2, -, e4⟩
    · rw [e] at hw
      cases hw
    · rw [e1] at hw
      cases hw
      have hc := h.setPart own id chan none (fun _ e => by cases e)
      obtain ⟨k', h2, h3⟩ := hc.message (pl' := x ++ z') h1.noComma.1
        (by simpa [joined] using e4 x h1.noComma.2) hm
      exact ⟨k', .first h1 e2 h2, h3⟩
  | @second talker own id chan x y _ _ h1 hw hm =>
    rcases h.part own id chan with ⟨e, -⟩ | ⟨num', z, z', e1, e2, -, e4⟩
    · rw [e] at hw
      cases hw
    · rw [e1] at hw
      cases hw
      have hc := h.setPart own id chan none (fun _ e => by cases e)
      obtain ⟨k', h2, h3⟩ := hc.message (pl' := z' ++ y) h1.noComma.1
        (by simpa [joined] using e4 y h1.noComma.2) hm
      exact ⟨k', .second h1 e2 h2, h3⟩
  | @gsvWaits talker n j fs h1 hn hw =>
    obtain ⟨i, i1, i2, i3, i4⟩ := hw
    exact ⟨_, .gsvWaits h1 hn ⟨i, i1, i2, i3, (h.gsv_none talker n i i1 i2 hn).mp i4⟩, h.setGsv _ _ _ _⟩
  | @gsvDone talker n j fs h1 hn hw =>
    refine ⟨(k.setGsv talker n j fs).clearGsv talker n, ?_, (h.setGsv _ _ _ _).clearGsv _ _⟩
    have := Step.gsvDone (env := env) (m := k) h1 hn
      (fun i i1 i2 i3 i4 => hw i i1 i2 i3 ((h.gsv_none talker n i i1 i2 hn).mpr i4))
    have e : ((List.range' 1 n).flatMap fun j_1 =>
          satellites (talkerSystem talker) (((m.setGsv talker n j fs).gsv talker n j_1).getD [])) =
        (List.range' 1 n).flatMap fun j_1 =>
          satellites (talkerSystem talker) (((k.setGsv talker n j fs).gsv talker n j_1).getD []) := by
      refine List.flatMap_congr fun i hi => ?_
      rw [List.mem_range'_1] at hi
      exact getD_satellites _ _ _ ((h.setGsv talker n j fs).gsv talker n i hi.1 (by omega) hn)
    rw [e]
    exact this
  | gsvHuge h1 => exact ⟨_, .gsvHuge h1, h.setGsv _ _ _ _⟩
  | other h1 => exact ⟨k, .other h1, h⟩

theorem Same.answers {p q : Parser} {m k : Memory} (h : Same m k) (hp : Rel p m) (hq : Rel q k) (f : List (Env × Str)) :
    answers p f = answers q f := by
  obtain ⟨as, m', ht⟩ := trace_total m f
  have : ∃ k', Trace k f as k' := by
    clear hp hq
    induction ht generalizing k with
    | nil => exact ⟨k, .nil k⟩
    | cons h1 _ ih =>
      obtain ⟨k1, s1, e1⟩ := h.step h1
      obtain ⟨k', t⟩ := ih e1
      exact ⟨k', .cons s1 t⟩
  obtain ⟨k', ht'⟩ := this
  rw [(trace_rel _ _ _ _ _ hp ht).1, (trace_rel _ _ _ _ _ hq ht').1]

/-! ### Messages to a new parser -/

theorem blank_pair {own : Bool} {b b' : List Bool} (hm : mmsiOf b = mmsiOf b')
    (h : overlay (blankStatic false (mmsiOf b)) (partData own b) = overlay (blankStatic false (mmsiOf b)) (partData own b')) :
    partData false b = partData false b' := by
  rwa [overlay_blank, hm, overlay_blank, partData_own, partData_own] at h

theorem mmsiOf_lt (b : List Bool) : mmsiOf b < 2 ^ 30 := by
  have := bitsVal_lt (window b 8 30)
  rwa [length_window] at this

/-- Messages that a new parser and everything after it cannot tell apart. -/
theorem msgAlike_iff (own : Bool) (pl pl' : Str) (hc : ',' ∉ pl) (hc' : ',' ∉ pl') :
    MsgAlike own pl pl' ↔ ∀ env talker, Talker talker → ∀ f : List (Env × Str),
      answers Parser.new ((env, aisSentence talker own pl) :: f) = answers Parser.new ((env, aisSentence talker own pl') :: f) := by
  constructor
  · intro h env talker ht f
    obtain ⟨a, m1, hm⟩ := message_total env Memory.empty talker own pl
    have hs : Same Memory.empty Memory.empty := ⟨fun _ _ _ => .inl ⟨rfl, rfl⟩, fun _ _ _ _ _ _ => rfl, fun _ => rfl⟩
    obtain ⟨k1, hk, hsk⟩ := hs.message ht h hm
    have r1 := step_rel _ _ _ _ _ _ rel_new (.single (single_of_payload talker own pl ht hc) hm)
    have r2 := step_rel _ _ _ _ _ _ rel_new (.single (single_of_payload talker own pl' ht hc') hk)
    rw [answers, answers, r1.1, r2.1, hsk.answers r1.2 r2.2]
  · intro h
    have ht : Talker (c! "AI") := ⟨by decide, by decide⟩
    have hal : ∀ env talker, Talker talker → alone env (aisSentence talker own pl) = alone env (aisSentence talker own pl') :=
      fun env talker ht => (List.cons.inj (h env talker ht [])).1
    have inc : ∀ env pl, ',' ∉ pl → (IsStaticPart env pl ↔ alone env (aisSentence (c! "AI") own pl) = .ok .incomplete) := by
      intro env pl hc
      refine ⟨fun hs => ?_, alone_incomplete env _ own pl ht hc⟩
      exact (step_rel _ _ _ _ _ _ rel_new (.single (single_of_payload _ own pl ht hc) (.first hs rfl))).1
    have kind : ∀ env, IsStaticPart env pl ↔ IsStaticPart env pl' := fun env => by
      rw [inc env pl hc, inc env pl' hc', hal env _ ht]
    have both : ∀ env, IsStaticPart env pl → mmsiOf (payloadBits pl) = mmsiOf (payloadBits pl') ∧
        partData false (payloadBits pl) = partData false (payloadBits pl') := by
      intro env hs
      have hs' := (kind env).mp hs
      obtain ⟨e1, e2⟩ := emptyStatic_part env _ (mmsiOf_lt (payloadBits pl))
      have h1 := Trace.cons (.single (single_of_payload _ own pl ht hc) (Message.first (m := Memory.empty) hs rfl))
        (.cons (.single (emptyStatic_single _) (.second own (payloadBits pl) e1
          (by rw [e2]; simp [Memory.setStatic]))) (.nil _))
      have := h env _ ht [(env, emptyStatic (mmsiOf (payloadBits pl)))]
      by_cases hm : mmsiOf (payloadBits pl) = mmsiOf (payloadBits pl')
      · have h2 := Trace.cons (.single (single_of_payload _ own pl' ht hc') (Message.first (m := Memory.empty) hs' rfl))
          (.cons (.single (emptyStatic_single (mmsiOf (payloadBits pl))) (.second own (payloadBits pl') e1
            (by rw [e2, hm]; simp [Memory.setStatic]))) (.nil _))
        rw [(trace_rel _ _ _ _ _ rel_new h1).1, (trace_rel _ _ _ _ _ rel_new h2).1, emptyStatic_data _ (mmsiOf_lt _)] at this
        refine ⟨hm, blank_pair (own := own) hm ?_⟩
        simpa using this
      · have h2 := Trace.cons (.single (single_of_payload _ own pl' ht hc') (Message.first (m := Memory.empty) hs' rfl))
          (.cons (.single (emptyStatic_single (mmsiOf (payloadBits pl))) (.first e1
            (by rw [e2]; simp [Memory.setStatic, hm, Memory.empty]))) (.nil _))
        rw [(trace_rel _ _ _ _ _ rel_new h1).1, (trace_rel _ _ _ _ _ rel_new h2).1] at this
        simp at this
    exact ⟨hal, kind, fun env hs => (both env hs).1, fun env hs => (both env hs).2⟩

theorem joined_comma (num : Nat) (x y : Str) (hx : ',' ∉ x) (hy : ',' ∉ y) : ',' ∉ joined num x y := by
  unfold joined
  split <;> simp [hx, hy]

theorem interchangeable_iff (own : Bool) (num : Nat) (x x' : Str) (hx : ',' ∉ x) (hx' : ',' ∉ x') :
    Interchangeable own num x x' ↔ ∀ y, ',' ∉ y → MsgAlike own (joined num x y) (joined num x' y) :=
  ⟨fun h y hy => (msgAlike_iff own _ _ (joined_comma num x y hx hy) (joined_comma num x' y hx' hy)).mpr (h y hy),
    fun h y hy => (msgAlike_iff own _ _ (joined_comma num x y hx hy) (joined_comma num x' y hx' hy)).mp (h y hy)⟩

/-! ### What parsers that answer everything alike remember -/

/-- The other part completes the message. -/
theorem joined_step {env : Env} {m m1 : Memory} {talker : Str} {own : Bool} {num id : Nat} {chan x y s : Str} {a : Answer}
    (hn : num = 1 ∨ num = 2) (hs : Part talker own (3 - num) id chan y s) (hx : m.part own id chan = some (num, x))
    (hm : Message env (m.setPart own id chan none) talker own (joined num x y) a m1) : Step env m s a m1 := by
  rcases hn with rfl | rfl
  · exact .second hs hx (by simpa [joined] using hm)
  · exact .first hs hx (by simpa [joined] using hm)

/-- Two parsers and their memories that answer everything alike and wait for type 24 messages of the same vessels. -/
structure Pair (p q : Parser) (m k : Memory) : Prop where
  left : Rel p m
  right : Rel q k
  same : ∀ f, answers p f = answers q f
  static : ∀ i, m.static i = none ↔ k.static i = none

theorem Pair.next {p q : Parser} {m k m' k' : Memory} {env : Env} {s : Str} {a a' : Answer} (h : Pair p q m k)
    (h1 : Step env m s a m') (h2 : Step env k s a' k') (hst : ∀ i, m'.static i = none ↔ k'.static i = none) :
    a = a' ∧ Pair (parseSentence env p s).2 (parseSentence env q s).2 m' k' := by
  have r1 := step_rel _ _ _ _ _ _ h.left h1
  have r2 := step_rel _ _ _ _ _ _ h.right h2
  have e : ∀ f, (parseSentence env p s).1 = (parseSentence env q s).1 ∧
      answers (parseSentence env p s).2 f = answers (parseSentence env q s).2 f :=
    fun f => List.cons.inj (h.same ((env, s) :: f))
  exact ⟨by rw [← r1.1, ← r2.1]; exact (e []).1, r1.2, r2.2, fun f => (e f).2, hst⟩

/-- What is pending for one vessel is got rid of. -/
theorem Pair.clear {p q : Parser} {m k : Memory} (h : Pair p q m k) (i : Nat) (hi : i < 2 ^ 30) :
    ∃ p' q' m' k', Pair p' q' m' k' ∧ m'.part = m.part ∧ k'.part = k.part ∧ m'.static i = none ∧
      ∀ j, m.static j = none → m'.static j = none := by
  cases hm : m.static i with
  | none => exact ⟨p, q, m, k, h, rfl, rfl, hm, fun _ e => e⟩
  | some x =>
    cases hk : k.static i with
    | none => rw [(h.static i).mpr hk] at hm; cases hm
    | some y =>
      obtain ⟨e1, e2⟩ := emptyStatic_part demoEnv i hi
      refine ⟨_, _, m.setStatic i none, k.setStatic i none, (h.next (env := demoEnv) (s := emptyStatic i)
        (m' := m.setStatic i none) (k' := k.setStatic i none)
        (.single (emptyStatic_single _) (by
          have := Message.second (m := m) (talker := c! "AI") (own := false) x.1 x.2 e1 (by rw [e2, hm])
          rw [e2] at this
          exact this))
        (.single (emptyStatic_single _) (by
          have := Message.second (m := k) (talker := c! "AI") (own := false) y.1 y.2 e1 (by rw [e2, hk])
          rw [e2] at this
          exact this)) ?_).2, rfl, rfl, by simp [Memory.setStatic], ?_⟩
      · intro j
        simp only [Memory.setStatic]
        split
        · exact Iff.rfl
        · exact h.static j
      · intro j e
        simp only [Memory.setStatic]
        split
        · rfl
        · exact e

theorem alone_static (env : Env) (talker : Str) (own : Bool) (pl : Str) (ht : Talker talker) (hc : ',' ∉ pl)
    (hs : IsStaticPart env pl) : alone env (aisSentence talker own pl) = .ok .incomplete :=
  (step_rel _ _ _ _ _ _ rel_new (.single (single_of_payload _ own pl ht hc) (.first hs rfl))).1

theorem Pair.parts {p q : Parser} {m k : Memory} (h : Pair p q m k) (own : Bool) (id num : Nat) (chan x x' y : Str)
    (hn : num = 1 ∨ num = 2) (hi : id < 2 ^ 64) (hch : ',' ∉ chan) (hx : m.part own id chan = some (num, x))
    (hx' : k.part own id chan = some (num, x')) (hy : ',' ∉ y) : MsgAlike own (joined num x y) (joined num x' y) := by
  have c1 := joined_comma num x y (h.left.partOk _ _ _ _ hx) hy
  have c2 := joined_comma num x' y (h.right.partOk _ _ _ _ hx') hy
  obtain ⟨p1, q1, m1, k1, P1, a1, b1, s1, -⟩ := h.clear _ (mmsiOf_lt (payloadBits (joined num x y)))
  obtain ⟨p2, q2, m2, k2, P2, a2, b2, s2, t2⟩ := P1.clear _ (mmsiOf_lt (payloadBits (joined num x' y)))
  rw [a1] at a2
  rw [b1] at b2
  rw [← a2] at hx
  rw [← b2] at hx'
  have s1 := t2 _ s1
  have s2' := (P2.static _).mp s2
  have s1' := (P2.static _).mp s1
  have m2p : ∀ j, (m2.setPart own id chan none).static j = m2.static j := fun _ => rfl
  -- the part that completes the message
  have hs := fun talker ht => part_sentence talker own (3 - num) id chan y 0 ht (by omega) hi hch hy
  have M1 := fun env talker ht a m1 => joined_step (env := env) (m1 := m1) (a := a) hn (hs talker ht) hx
  have K1 := fun env talker ht a m1 => joined_step (env := env) (m1 := m1) (a := a) hn (hs talker ht) hx'
  generalize joined num x y = pl at *
  generalize joined num x' y = pl' at *
  have plain : ∀ env talker, Talker talker → ¬ IsStaticPart env pl → ¬ IsStaticPart env pl' →
      alone env (aisSentence talker own pl) = alone env (aisSentence talker own pl') := fun env talker ht n1 n2 =>
    (P2.next (M1 env talker ht _ _ (.plain n1)) (K1 env talker ht _ _ (.plain n2)) P2.static).1
  have ht : Talker (c! "AI") := ⟨by decide, by decide⟩
  have kind : ∀ env, IsStaticPart env pl ↔ IsStaticPart env pl' := by
    intro env
    have r1 := fun a m1 h => (step_rel _ _ _ _ _ _ P2.left (M1 env _ ht a m1 h)).1
    have r2 := fun a m1 h => (step_rel _ _ _ _ _ _ P2.right (K1 env _ ht a m1 h)).1
    have e := (List.cons.inj (P2.same [(env, partSentence (c! "AI") own (3 - num) id chan y 0)])).1
    by_cases n1 : IsStaticPart env pl <;> by_cases n2 : IsStaticPart env pl'
    · simp [n1, n2]
    · rw [r1 _ _ (.first n1 s1), r2 _ _ (.plain n2)] at e
      exact absurd (alone_incomplete env _ own pl' ht c2 e.symm) n2
    · rw [r1 _ _ (.plain n1), r2 _ _ (.first n2 s2')] at e
      exact absurd (alone_incomplete env _ own pl ht c1 e) n1
    · simp [n1, n2]
  have both : ∀ env, IsStaticPart env pl → mmsiOf (payloadBits pl) = mmsiOf (payloadBits pl') ∧
      partData false (payloadBits pl) = partData false (payloadBits pl') := by
    intro env n1
    have n2 := (kind env).mp n1
    obtain ⟨e1, e2⟩ := emptyStatic_part env _ (mmsiOf_lt (payloadBits pl))
    have h1 := Trace.cons (M1 env _ ht _ _ (.first n1 s1))
      (.cons (.single (emptyStatic_single _) (.second own (payloadBits pl) e1 (by rw [e2]; simp [Memory.setStatic]))) (.nil _))
    have := P2.same [(env, partSentence (c! "AI") own (3 - num) id chan y 0), (env, emptyStatic (mmsiOf (payloadBits pl)))]
    by_cases hm : mmsiOf (payloadBits pl) = mmsiOf (payloadBits pl')
    · have h2 := Trace.cons (K1 env _ ht _ _ (.first n2 s2'))
        (.cons (.single (emptyStatic_single (mmsiOf (payloadBits pl))) (.second own (payloadBits pl') e1
          (by rw [e2, hm]; simp [Memory.setStatic]))) (.nil _))
      rw [(trace_rel _ _ _ _ _ P2.left h1).1, (trace_rel _ _ _ _ _ P2.right h2).1, emptyStatic_data _ (mmsiOf_lt _)] at this
      refine ⟨hm, blank_pair (own := own) hm ?_⟩
      simpa using this
    · have h2 := Trace.cons (K1 env _ ht _ _ (.first n2 s2'))
        (.cons (.single (emptyStatic_single (mmsiOf (payloadBits pl))) (.first e1
          (by
            rw [e2]
            simp only [Memory.setStatic, hm, if_false]
            exact s1'))) (.nil _))
      rw [(trace_rel _ _ _ _ _ P2.left h1).1, (trace_rel _ _ _ _ _ P2.right h2).1] at this
      simp at this
  refine ⟨fun env talker ht => ?_, kind, fun env n => (both env n).1, fun env n => (both env n).2⟩
  by_cases n : IsStaticPart env pl
  · rw [alone_static env talker own pl ht c1 n, alone_static env talker own pl' ht c2 ((kind env).mp n)]
  · exact plain env talker ht n (fun e => n ((kind env).mpr e))

/-! ### C162 -/

theorem possible_reachable {p : Parser} (h : Reachable p) : ∃ m, Rel p m ∧ Sound m ∧ Possible m := by
  obtain ⟨g, rfl⟩ := h
  obtain ⟨as, m, ht⟩ := trace_total Memory.empty g
  exact ⟨m, (trace_rel _ _ _ _ _ rel_new ht).2, sound_trace sound_empty ht, possible_empty.trace ht⟩

theorem partOfMemory_some {y : Option (Nat × Str)} {num : Nat} {z : Str} (h : partOfMemory y num = some z) :
    y = some (num, z) := by
  cases y with
  | none => cases h
  | some y =>
    simp only [partOfMemory, Option.bind_some] at h
    split at h
    · rename_i e
      cases h
      rw [← e]
    · cases h

theorem gsv_entry {p : Parser} {m : Memory} {talker : Str} {n k : Nat} {x : List Str} (r : Rel p m) (hp : Possible m)
    (ht : Talker talker) (hx : CommaFree x) (x0 : x ≠ [])
    (e : pendingGsv p talker n k = some (join (tag '$' talker (c! "GSV")) x)) : m.gsv talker n k = some x := by
  rw [r.gsv talker n k ht.2, Option.map_eq_some_iff] at e
  obtain ⟨y, hy, e⟩ := e
  obtain ⟨-, hc, y0, -⟩ := hp.gsvs _ _ _ _ hy
  have a : IsGnss talker (c! "GSV") y (finish (join (tag '$' talker (c! "GSV")) x) .full) :=
    ⟨ht, hc, y0, .full, fun e => (by cases e), by rw [← e]; rfl⟩
  have b : IsGnss talker (c! "GSV") x (finish (join (tag '$' talker (c! "GSV")) x) .full) :=
    ⟨ht, hx, x0, .full, fun e => (by cases e), rfl⟩
  rw [hy, (IsTagged.unique a b (by decide) (by decide) (by decide) (by decide)).2.2.2]

theorem pendingStatic_own {p : Parser} {m : Memory} (r : Rel p m) (i : Nat) :
    (pendingStatic p i).map (fun v => { v with ownVessel := false }) = (m.static i).map (fun x => partData false x.2) := by
  rw [r.static, Option.map_map]
  exact congrArg (fun g => (m.static i).map g) (funext fun x => partData_own x.1 x.2)

/-- The same type 24 data: shown by a message with nothing but the MMSI. -/
theorem Pair.statics {p q : Parser} {m k : Memory} (h : Pair p q m k) (i : Nat) (hm : ∀ i x, m.static i = some x → i < 2 ^ 30) :
    (m.static i).map (fun x => partData false x.2) = (k.static i).map (fun x => partData false x.2) := by
  cases e : m.static i with
  | none => rw [(h.static i).mp e]
  | some x =>
    cases e' : k.static i with
    | none => rw [(h.static i).mpr e'] at e; cases e
    | some y =>
      have hi := hm i x e
      obtain ⟨e1, e2⟩ := emptyStatic_part demoEnv i hi
      have a1 := Message.second (m := m) (talker := c! "AI") (own := false) x.1 x.2 e1 (by rw [e2, e])
      have a2 := Message.second (m := k) (talker := c! "AI") (own := false) y.1 y.2 e1 (by rw [e2, e'])
      have r1 := (step_rel _ _ _ _ _ _ h.left (.single (emptyStatic_single i) a1)).1
      have r2 := (step_rel _ _ _ _ _ _ h.right (.single (emptyStatic_single i) a2)).1
      have := (List.cons.inj (h.same [(demoEnv, emptyStatic i)])).1
      rw [r1, r2, emptyStatic_data i hi] at this
      have j1 := h.left.staticOk i x e
      have j2 := h.right.staticOk i y e'
      simp only [Option.map_some, Option.some.injEq]
      refine blank_pair (own := false) (j1.trans j2.symm) ?_
      rw [j1, ← partData_own x.1, ← partData_own y.1, ← overlay_ownFlag, ← overlay_ownFlag]
      simpa using this

/-- C162: two parsers answer everything that can follow alike exactly if they wait for the same parts of two-part messages, with
interchangeable payloads, for the same sentences of GSV groups, with the same satellites, and keep the same type 24 data. -/
theorem C162_exact (p q : Parser) (hp : Reachable p) (hq : Reachable q) :
    (∀ f, answers p f = answers q f) ↔ SameParts p q ∧ SameGsv p q ∧ SameStatic p q := by
  obtain ⟨m, rp, sm, pm⟩ := possible_reachable hp
  obtain ⟨k, rq, sk, pk⟩ := possible_reachable hq
  constructor
  · intro h
    obtain ⟨h1, h2, h3⟩ := C161_same_pending demoEnv p q hp hq (fun f => h _)
    have hst : ∀ i, m.static i = none ↔ k.static i = none := by
      intro i
      have := h3 i
      rwa [rp.static, rq.static, Option.map_eq_none_iff, Option.map_eq_none_iff] at this
    refine ⟨?_, ?_, ?_⟩
    · intro own num id chan hn
      cases e : pendingPart p own num id chan with
      | none => exact .inl ⟨rfl, (h1 own num id chan hn).mp e⟩
      | some x =>
        cases e' : pendingPart q own num id chan with
        | none => rw [(h1 own num id chan hn).mpr e'] at e; cases e
        | some x' =>
          refine .inr ⟨x, x', rfl, rfl, ?_⟩
          rw [rp.part own num id chan hn] at e
          rw [rq.part own num id chan hn] at e'
          have e := partOfMemory_some e
          have e' := partOfMemory_some e'
          rw [interchangeable_iff own num x x' (rp.partOk _ _ _ _ e) (rq.partOk _ _ _ _ e')]
          obtain ⟨-, b1, b2⟩ := sm.part _ _ _ _ e
          exact fun y hy => Pair.parts ⟨rp, rq, h, hst⟩ own id num chan x x' y hn (by omega) b2 e e' hy
    · intro t n j ht j1 j2 hn
      cases e : m.gsv t n j with
      | none =>
        have e1 : pendingGsv p t n j = none := by rw [rp.gsv t n j ht.2, e]; rfl
        exact .inl ⟨e1, (h2 t n j ht j1 j2 hn).mp e1⟩
      | some fs =>
        cases e' : k.gsv t n j with
        | none =>
          have e1 : pendingGsv q t n j = none := by rw [rq.gsv t n j ht.2, e']; rfl
          have e2 := (h2 t n j ht j1 j2 hn).mpr e1
          rw [rp.gsv t n j ht.2, e] at e2
          cases e2
        | some gs =>
          obtain ⟨-, c1, z1, -⟩ := pm.gsvs _ _ _ _ e
          obtain ⟨-, c2, z2, -⟩ := pk.gsvs _ _ _ _ e'
          have a1 : pendingGsv p t n j = some (join (tag '$' t (c! "GSV")) fs) := by rw [rp.gsv t n j ht.2, e]; rfl
          have a2 : pendingGsv q t n j = some (join (tag '$' t (c! "GSV")) gs) := by rw [rq.gsv t n j ht.2, e']; rfl
          exact .inr ⟨fs, gs, c1, z1, c2, z2, a1, a2, C161_same_satellites demoEnv p q hp hq (fun f => h _) t n j ht ⟨j1, j2⟩ hn
            fs gs ⟨c1, z1⟩ ⟨c2, z2⟩ a1 a2⟩
    · intro i
      rw [pendingStatic_own rp, pendingStatic_own rq]
      exact Pair.statics ⟨rp, rq, h, hst⟩ i sm.static
  · rintro ⟨h1, h2, h3⟩ f
    refine Same.answers ⟨?_, ?_, ?_⟩ rp rq f
    · intro o i c
      cases e : m.part o i c with
      | none =>
        refine .inl ⟨rfl, ?_⟩
        cases e' : k.part o i c with
        | none => rfl
        | some x =>
          have hn := (sk.part _ _ _ _ e').1
          rcases h1 o x.1 i c hn with ⟨-, a⟩ | ⟨y, y', a, -⟩
          · rw [rq.part o x.1 i c hn, e'] at a
            simp [partOfMemory] at a
          · rw [rp.part o x.1 i c hn, e] at a
            cases a
      | some x =>
        have hn := (sm.part _ _ _ _ e).1
        have e1 : pendingPart p o x.1 i c = some x.2 := by rw [rp.part o x.1 i c hn, e]; simp [partOfMemory]
        rcases h1 o x.1 i c hn with ⟨a, -⟩ | ⟨y, y', a, b, d⟩
        · rw [a] at e1
          cases e1
        · rw [e1] at a
          cases a
          rw [rq.part o x.1 i c hn] at b
          have b := partOfMemory_some b
          exact .inr ⟨x.1, x.2, y', rfl, b, hn, (interchangeable_iff o x.1 _ _ (rp.partOk _ _ _ _ e) (rq.partOk _ _ _ _ b)).mp d⟩
    · intro t n j j1 j2 hn
      by_cases ht : Talker t
      · rcases h2 t n j ht j1 j2 hn with ⟨a, b⟩ | ⟨fs, gs, c1, z1, c2, z2, a, b, d⟩
        · rw [rp.gsv t n j ht.2, Option.map_eq_none_iff] at a
          rw [rq.gsv t n j ht.2, Option.map_eq_none_iff] at b
          rw [a, b]
        · rw [gsv_entry rp pm ht c1 z1 a, gsv_entry rq pk ht c2 z2 b, Option.map_some, Option.map_some, d]
      · have none : ∀ {p m}, Rel p m → m.gsv t n j = none := by
          intro p m r
          cases e : m.gsv t n j with
          | none => rfl
          | some fs => exact absurd (r.gsvOk _ _ _ _ e).1 ht
        rw [none rp, none rq]
    · intro i
      rw [← pendingStatic_own rp, ← pendingStatic_own rq]
      exact h3 i

/-- C162: payloads of different characters but of the same bits are interchangeable (`X` and `` ` `` both stand for 40), unless only
one of them makes a build with overflow checks panic. -/
theorem C162_same_bits (own : Bool) (num : Nat) (x x' : Str) (hx : ',' ∉ x) (hx' : ',' ∉ x')
    (hb : payloadBits x = payloadBits x') (hr : ∀ env, Readable env x ↔ Readable env x') : Interchangeable own num x x' := by
  intro y hy
  have read : ∀ (env : Env) (a b : Str), Readable env (a ++ b) ↔ Readable env a ∧ Readable env b := by
    intro env a b
    simp only [Readable, List.mem_append, or_imp, forall_and]
  have hj : payloadBits (joined num x y) = payloadBits (joined num x' y) := by
    unfold joined
    split <;> simp only [payloadBits, List.map_append, List.flatten_append] at hb ⊢ <;> rw [hb]
  have hj' : ∀ env, Readable env (joined num x y) ↔ Readable env (joined num x' y) := by
    intro env
    unfold joined
    split <;> rw [read, read, hr env]
  have c := joined_comma num x y hx hy
  have c' := joined_comma num x' y hx' hy
  generalize joined num x y = pl at *
  generalize joined num x' y = pl' at *
  have key : ∀ env : Env, parsePayload env.overflowChecks pl = parsePayload env.overflowChecks pl' := by
    intro env
    by_cases h : Readable env pl
    · rw [parsePayload_readable env pl h, parsePayload_readable env pl' ((hj' env).mp h), hj]
    · have panic : ∀ z, ¬ Readable env z → parsePayload env.overflowChecks z = .panic := by
        intro z hz
        cases e : parsePayload env.overflowChecks z with
        | ok bv => exact absurd (readable_of_ok env z bv e) hz
        | err m => exact absurd e (parsePayload_ne_err _ _ _)
        | panic => rfl
      rw [panic pl h, panic pl' (fun e => h ((hj' env).mpr e))]
  intro env talker ht f
  have s1 := eval_Single env Parser.new talker own pl _ (single_of_payload talker own pl ht c)
  have s2 := eval_Single env Parser.new talker own pl' _ (single_of_payload talker own pl' ht c')
  rw [answers, answers, s1, s2]
  simp only [complete, key]

/-- A parser that waits for the second part of a message. -/
theorem demoWaits (x : Str) (hx : ',' ∉ x) :
    Rel (run Parser.new [(demoEnv, partSentence (c! "AI") false 1 7 (c! "B") x 0)])
      (Memory.empty.setPart false 7 (c! "B") (some (1, x))) :=
  (trace_rel _ _ _ _ _ rel_new (.cons (new_waits demoEnv _ _ 1 7 _ _ _ (.inl rfl)
    (part_sentence (c! "AI") false 1 7 (c! "B") x 0 ⟨by decide, by decide⟩ (by decide) (by decide) (by decide) hx)) (.nil _))).2

example (f : List (Env × Str)) :
    answers (run Parser.new [(demoEnv, partSentence (c! "AI") false 1 7 (c! "B") (c! "5X1") 0)]) f =
      answers (run Parser.new [(demoEnv, partSentence (c! "AI") false 1 7 (c! "B") (c! "5`1") 0)]) f := by
  have r1 := demoWaits (c! "5X1") (by decide)
  have r2 := demoWaits (c! "5`1") (by decide)
  refine (C162_exact _ _ ⟨_, rfl⟩ ⟨_, rfl⟩).mpr ⟨?_, ?_, ?_⟩ f
  · intro own num id chan hn
    rw [r1.part own num id chan hn, r2.part own num id chan hn]
    by_cases h : own = false ∧ id = 7 ∧ chan = c! "B"
    · obtain ⟨rfl, rfl, rfl⟩ := h
      rcases hn with rfl | rfl
      · exact .inr ⟨c! "5X1", c! "5`1", rfl, rfl, C162_same_bits _ _ _ _ (by decide) (by decide) (by decide)
          fun env => by simp [Readable]⟩
      · exact .inl ⟨rfl, rfl⟩
    · left
      simp [Memory.setPart, h, Memory.empty, partOfMemory]
  · intro t n k ht _ _ _
    rw [r1.gsv t n k ht.2, r2.gsv t n k ht.2]
    exact .inl ⟨rfl, rfl⟩
  · intro mmsi
    rw [r1.static, r2.static]
    rfl

/-- A part A of type 24, received as of the own vessel or of another one. -/
theorem demoKeeps (own : Bool) (i : Nat) (hi : i < 2 ^ 30) :
    Rel (run Parser.new [(demoEnv, aisSentence (c! "AI") own (armor (emptyStaticBits i)))])
      (Memory.empty.setStatic i (some (own, payloadBits (armor (emptyStaticBits i))))) := by
  obtain ⟨e1, e2⟩ := emptyStatic_part demoEnv i hi
  have := (trace_rel _ _ _ _ _ rel_new (.cons (.single (single_aisSentence (c! "AI") own (emptyStaticBits i) ⟨by decide, by decide⟩)
    (.first e1 rfl)) (.nil _))).2
  rwa [e2] at this

/-- Whether the first part of type 24 was of the own vessel cannot be told from any answer. -/
example (f : List (Env × Str)) :
    answers (run Parser.new [(demoEnv, aisSentence (c! "AI") false (armor (emptyStaticBits 230016000)))]) f =
      answers (run Parser.new [(demoEnv, aisSentence (c! "AI") true (armor (emptyStaticBits 230016000)))]) f := by
  have r1 := demoKeeps false 230016000 (by decide)
  have r2 := demoKeeps true 230016000 (by decide)
  refine (C162_exact _ _ ⟨_, rfl⟩ ⟨_, rfl⟩).mpr ⟨?_, ?_, ?_⟩ f
  · intro own num id chan hn
    rw [r1.part own num id chan hn, r2.part own num id chan hn]
    exact .inl ⟨rfl, rfl⟩
  · intro t n k ht _ _ _
    rw [r1.gsv t n k ht.2, r2.gsv t n k ht.2]
    exact .inl ⟨rfl, rfl⟩
  · intro mmsi
    rw [pendingStatic_own r1, pendingStatic_own r2]
    simp only [Memory.setStatic]
    split <;> rfl

/-- Of which vessel it was can. -/
example : ∃ f : List (Env × Str),
    answers (run Parser.new [(demoEnv, aisSentence (c! "AI") false (armor (emptyStaticBits 230016000)))]) f ≠
      answers (run Parser.new [(demoEnv, aisSentence (c! "AI") false (armor (emptyStaticBits 230016001)))]) f := by
  by_contra h
  push Not at h
  have h3 := ((C162_exact _ _ ⟨_, rfl⟩ ⟨_, rfl⟩).mp h).2.2 230016000
  rw [pendingStatic_own (demoKeeps false 230016000 (by decide)), pendingStatic_own (demoKeeps false 230016001 (by decide))] at h3
  simp [Memory.setStatic, Memory.empty] at h3

end Nmea
