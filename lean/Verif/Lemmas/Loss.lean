/-
Traces of the memory machine over streams in which sentences were lost.
-/
import Verif.Spec.Loss
import Verif.Lemmas.Interleave

namespace Nmea
open Spec

theorem mem_only {P : Str → Prop} {h : List (Env × Str)} {x : Env × Str} : x ∈ only P h ↔ x ∈ h ∧ P x.2 := by
  simp [only, List.mem_filter]

theorem Spec.Trace.append {m m' m'' : Memory} {h h' : List (Env × Str)} {as bs : List Answer}
    (h1 : Trace m h as m') (h2 : Trace m' h' bs m'') : Trace m (h ++ h') (as ++ bs) m'' := by
  induction h1 with
  | nil _ => exact h2
  | cons hs _ ih => exact .cons hs (ih h2)

/-- Answers of a new parser from a trace. -/
theorem answers_of_trace {h : List (Env × Str)} {as : List Answer} {m : Memory} (ht : Trace Memory.empty h as m) :
    answers Parser.new h = as := (trace_rel _ _ _ _ _ rel_new ht).1

/-! ### Two-part messages -/

theorem trace_withoutSeconds (own : Bool) (id : Nat) (chan : Str) (l : List (TwoPart × Bool))
    (hl : ∀ x ∈ l, x.1.Of own id chan) (m : Memory) (hm : ∀ y, m.part own id chan ≠ some (2, y)) :
    ∃ m', Trace m (withoutSeconds l) (ownAnswers own l) m' := by
  induction l generalizing m with
  | nil => exact ⟨m, .nil m⟩
  | cons x l ih =>
    obtain ⟨x, got⟩ := x
    obtain ⟨h1, h2, h3, h4⟩ := hl _ List.mem_cons_self
    have hl' := fun y hy => hl y (List.mem_cons_of_mem _ hy)
    have s1 : Step x.env1 m x.sentence1 (.ok .incomplete) (m.setPart own id chan (some (1, x.payload1))) :=
      .waits h1 (.inl rfl) hm
    cases got with
    | false =>
      obtain ⟨m', ht⟩ := ih hl' (m.setPart own id chan (some (1, x.payload1)))
        (fun y => by rw [setPart_self]; intro e; cases e)
      exact ⟨m', .cons s1 ht⟩
    | true =>
      have s2 : Step x.env2 (m.setPart own id chan (some (1, x.payload1))) x.sentence2
          (alone x.env2 (aisSentence x.talker2 own (x.payload1 ++ x.payload2)))
          ((m.setPart own id chan (some (1, x.payload1))).setPart own id chan none) :=
        .second h2 (setPart_self _ _ _ _ _) (.plain (NotStatic.plain ⟨h3, h4⟩ _ _))
      obtain ⟨m', ht⟩ := ih hl' ((m.setPart own id chan (some (1, x.payload1))).setPart own id chan none)
        (fun y => by rw [setPart_self]; intro e; cases e)
      exact ⟨m', .cons s1 (.cons s2 ht)⟩

theorem trace_shifted (own : Bool) (id : Nat) (chan : Str) (l : List TwoPart)
    (hl : ∀ x ∈ l, x.Of own id chan) (y : Str) (m : Memory) (hm : m.part own id chan = some (2, y)) :
    ∃ m', Trace m (bothParts l) (shiftedAnswers own y l) m' := by
  induction l generalizing m y with
  | nil => exact ⟨m, .nil m⟩
  | cons x l ih =>
    obtain ⟨h1, h2, h3, h4⟩ := hl _ List.mem_cons_self
    have s1 : Step x.env1 m x.sentence1 (alone x.env1 (aisSentence x.talker1 own (x.payload1 ++ y)))
        (m.setPart own id chan none) := .first h1 hm (.plain (NotStatic.plain ⟨h3, h4⟩ _ _))
    have s2 : Step x.env2 (m.setPart own id chan none) x.sentence2 (.ok .incomplete)
        ((m.setPart own id chan none).setPart own id chan (some (2, x.payload2))) :=
      .waits h2 (.inr rfl) (fun z => by rw [setPart_self]; intro e; cases e)
    obtain ⟨m', ht⟩ := ih (fun y hy => hl y (List.mem_cons_of_mem _ hy)) x.payload2 _ (setPart_self (m.setPart own id chan none) own id chan (some (2, x.payload2)))
    exact ⟨m', .cons s1 (.cons s2 ht)⟩

theorem mem_withoutSeconds {l : List (TwoPart × Bool)} {x : Env × Str} (h : x ∈ withoutSeconds l) :
    ∃ y ∈ l, x = (y.1.env1, y.1.sentence1) ∨ x = (y.1.env2, y.1.sentence2) := by
  induction l with
  | nil => cases h
  | cons y l ih =>
    obtain ⟨y, got⟩ := y
    cases got <;> simp only [withoutSeconds, List.mem_cons, List.cons_append, List.nil_append, if_true, if_false,
      Bool.false_eq_true] at h
    · rcases h with h | h
      · exact ⟨_, List.mem_cons_self, .inl h⟩
      · obtain ⟨z, hz, e⟩ := ih h
        exact ⟨z, List.mem_cons_of_mem _ hz, e⟩
    · rcases h with h | h | h
      · exact ⟨_, List.mem_cons_self, .inl h⟩
      · exact ⟨_, List.mem_cons_self, .inr h⟩
      · obtain ⟨z, hz, e⟩ := ih h
        exact ⟨z, List.mem_cons_of_mem _ hz, e⟩

theorem mem_bothParts {l : List TwoPart} {x : Env × Str} (h : x ∈ bothParts l) :
    ∃ y ∈ l, x = (y.env1, y.sentence1) ∨ x = (y.env2, y.sentence2) := by
  induction l with
  | nil => cases h
  | cons y l ih =>
    simp only [bothParts, List.mem_cons] at h
    rcases h with h | h | h
    · exact ⟨_, List.mem_cons_self, .inl h⟩
    · exact ⟨_, List.mem_cons_self, .inr h⟩
    · obtain ⟨z, hz, e⟩ := ih h
      exact ⟨z, List.mem_cons_of_mem _ hz, e⟩

theorem Spec.TwoPart.Of.notStatic {own : Bool} {id : Nat} {chan : Str} {y : TwoPart} (hy : y.Of own id chan)
    {x : Env × Str} (hx : x = (y.env1, y.sentence1) ∨ x = (y.env2, y.sentence2)) (t pl : Str)
    (h : Part t own 1 id chan pl x.2) : NotStatic pl := by
  obtain ⟨h1, h2, h3, h4⟩ := hy
  rcases hx with rfl | rfl
  · obtain ⟨-, -, -, -, -, rfl⟩ := h1.unique h
    exact ⟨h3, h4⟩
  · have := (h2.unique h).2.2.1
    omega

/-! ### Type 24 -/

/-- The static data of one MMSI, no pending first part being of type 24. -/
def simStatic (mmsi : Nat) (k m : Memory) : Prop :=
  k.static mmsi = m.static mmsi ∧ ∀ own id chan x, m.part own id chan = some (1, x) → NotStatic x

theorem simStatic_setPart {mmsi : Nat} {k m : Memory} (hs : simStatic mmsi k m) (own : Bool) (id : Nat) (chan : Str)
    (v : Option (Nat × Str)) (hv : ∀ x, v = some (1, x) → NotStatic x) :
    simStatic mmsi k (m.setPart own id chan v) := by
  refine ⟨hs.1, fun o i c x hx => ?_⟩
  simp only [Memory.setPart] at hx
  split at hx
  · exact hv x hx
  · exact hs.2 o i c x hx

theorem static_skip (mmsi : Nat) (env : Env) (m : Memory) (s : Str) (a : Answer) (m' k : Memory)
    (hH : ∀ t own id chan x, Part t own 1 id chan x s → NotStatic x)
    (hP : ¬ StaticOf mmsi s) (hs : simStatic mmsi k m) (h : Step env m s a m') : simStatic mmsi k m' := by
  cases h with
  | @single t own pl _ _ h hm =>
    have hne : IsStaticPart env pl → ¬ mmsi = mmsiOf (payloadBits pl) := fun hst e => hP ⟨_, _, _, h, hst.2.1, e.symm⟩
    cases hm with
    | plain _ => exact hs
    | first hst _ => exact ⟨by rw [hs.1]; exact (if_neg (hne hst)).symm, hs.2⟩
    | second _ _ hst _ => exact ⟨by rw [hs.1]; exact (if_neg (hne hst)).symm, hs.2⟩
  | waits h hn hw =>
    refine simStatic_setPart hs _ _ _ _ (fun x e => ?_)
    cases e
    exact hH _ _ _ _ _ h
  | @first _ _ _ _ x y _ _ h hw hm =>
    have hpl := (hH _ _ _ _ _ h).plain env y
    cases hm with
    | plain _ => exact simStatic_setPart hs _ _ _ _ (fun x e => by cases e)
    | first hst _ => exact absurd hst hpl
    | second _ _ hst _ => exact absurd hst hpl
  | @second _ _ _ _ x y _ _ h hw hm =>
    have hpl := (hs.2 _ _ _ _ hw).plain env y
    cases hm with
    | plain _ => exact simStatic_setPart hs _ _ _ _ (fun x e => by cases e)
    | first hst _ => exact absurd hst hpl
    | second _ _ hst _ => exact absurd hst hpl
  | gsvWaits _ _ _ => exact hs
  | gsvDone _ _ _ => exact hs
  | gsvHuge _ => exact hs
  | other _ => exact hs

theorem Spec.Single.notPart {t : Str} {own : Bool} {pl s : Str} (h : Single t own pl s) {t' : Str} {own' : Bool}
    {num id : Nat} {chan pl' : Str} : ¬ Part t' own' num id chan pl' s :=
  fun h' => h.notInGroup ⟨_, _, _, h'⟩

theorem static_step (mmsi : Nat) (env : Env) (m : Memory) (s : Str) (a : Answer) (m' k : Memory)
    (hP : StaticOf mmsi s) (hs : simStatic mmsi k m) (h : Step env m s a m') :
    ∃ k', Step env k s a k' ∧ simStatic mmsi k' m' := by
  obtain ⟨t0, own0, pl0, hP', h24, rfl⟩ := hP
  cases h with
  | @single t own pl _ _ h hm =>
    obtain ⟨rfl, rfl, rfl⟩ := h.unique hP'
    cases hm with
    | plain hn => exact ⟨_, .single h (.plain hn), hs⟩
    | first hst hm =>
      exact ⟨_, .single h (.first hst (hs.1.trans hm)), by simp only [Memory.setStatic, if_true], hs.2⟩
    | second o b hst hm =>
      exact ⟨_, .single h (.second o b hst (hs.1.trans hm)), by simp only [Memory.setStatic, if_true], hs.2⟩
  | waits h _ _ => exact absurd h hP'.notPart
  | first h _ _ => exact absurd h hP'.notPart
  | second h _ _ => exact absurd h hP'.notPart
  | gsvWaits h _ _ => exact absurd hP'.bang h.notBang
  | gsvDone h _ _ => exact absurd hP'.bang h.notBang
  | gsvHuge h => exact absurd hP'.bang h.notBang
  | other h => exact absurd (.inl ⟨_, _, _, hP'⟩) h

theorem Spec.StaticSentence.Of.staticOf {mmsi part : Nat} {x : StaticSentence} (h : x.Of mmsi part) :
    StaticOf mmsi x.sentence := ⟨_, _, _, h.1, h.2.2.1, h.2.2.2.1⟩

theorem Spec.StaticSentence.Of.isPart {mmsi part : Nat} {x : StaticSentence} (h : x.Of mmsi part) (hp : part < 2) :
    IsStaticPart x.env x.payload := ⟨h.2.1, h.2.2.1, by have := h.2.2.2.2; rw [StaticSentence.bits] at this; omega⟩

/-- With nothing waiting the message waits. -/
theorem static_waits {mmsi part : Nat} {x : StaticSentence} (h : x.Of mmsi part) (hp : part < 2) (m : Memory)
    (hm : m.static mmsi = none) :
    Step x.env m x.sentence (.ok .incomplete) (m.setStatic mmsi (some (x.own, x.bits))) := by
  have e : mmsiOf (payloadBits x.payload) = mmsi := h.2.2.2.1
  have := Step.single (env := x.env) (m := m) h.1 (.first (h.isPart hp) (by rw [e]; exact hm))
  rw [e] at this
  exact this

/-- With a message waiting the two are reported. -/
theorem static_done {mmsi part : Nat} {x : StaticSentence} (h : x.Of mmsi part) (hp : part < 2) (m : Memory)
    {own : Bool} {bits : List Bool} (hm : m.static mmsi = some (own, bits)) :
    Step x.env m x.sentence (.ok (.vesselStaticData (overlay (partData x.own x.bits) (partData own bits))))
      (m.setStatic mmsi none) := by
  have e : mmsiOf (payloadBits x.payload) = mmsi := h.2.2.2.1
  have := Step.single (env := x.env) (m := m) h.1 (.second own bits (h.isPart hp) (by rw [e]; exact hm))
  rw [e] at this
  exact this

theorem setStatic_self (m : Memory) (mmsi : Nat) (v : Option (Bool × List Bool)) :
    (m.setStatic mmsi v).static mmsi = v := if_pos rfl

theorem overlay_BA (own own' : Bool) (a b : List Bool) (ha : partOf a = 0) (hb : partOf b = 1) :
    overlay (partData own b) (partData own' a) = fullStatic own a b := by
  simp [overlay, partData, ha, hb, partAData, partBData, fullStatic, blankStatic]
  exact ⟨fun h => h.symm, fun h => h.symm⟩

theorem overlay_AB (own own' : Bool) (a b : List Bool) (ha : partOf a = 0) (hb : partOf b = 1)
    (hm : mmsiOf a = mmsiOf b) : overlay (partData own a) (partData own' b) = fullStatic own a b := by
  simp [overlay, partData, ha, hb, partAData, partBData, fullStatic, blankStatic, hm]

theorem trace_shiftedStatic (mmsi : Nat) (l : List (StaticSentence × StaticSentence))
    (hl : ∀ x ∈ l, x.1.Of mmsi 0 ∧ x.2.Of mmsi 1) (y : List Bool) (own : Bool) (hy : mmsiOf y = mmsi ∧ partOf y = 1)
    (m : Memory) (hm : m.static mmsi = some (own, y)) :
    ∃ m', Trace m (staticPairs l) (shiftedStatic y l) m' := by
  induction l generalizing m y own with
  | nil => exact ⟨m, .nil m⟩
  | cons x l ih =>
    obtain ⟨a, b⟩ := x
    obtain ⟨ha, hb⟩ := hl _ List.mem_cons_self
    have s1 := static_done ha (by decide) m hm
    rw [overlay_AB _ _ _ _ ha.2.2.2.2 hy.2 (ha.2.2.2.1.trans hy.1.symm)] at s1
    have s2 := static_waits hb (by decide) _ (setStatic_self m mmsi none)
    obtain ⟨m', ht⟩ := ih (fun z hz => hl z (List.mem_cons_of_mem _ hz)) b.bits b.own
      ⟨hb.2.2.2.1, hb.2.2.2.2⟩ _ (setStatic_self _ mmsi (some (b.own, b.bits)))
    exact ⟨m', .cons s1 (.cons s2 ht)⟩

theorem trace_pairedStatic (mmsi : Nat) (l : List (StaticSentence × StaticSentence))
    (hl : ∀ x ∈ l, x.1.Of mmsi 0 ∧ x.2.Of mmsi 1) (m : Memory) (hm : m.static mmsi = none) :
    ∃ m', Trace m (staticPairs l) (pairedStatic l) m' := by
  induction l generalizing m with
  | nil => exact ⟨m, .nil m⟩
  | cons x l ih =>
    obtain ⟨a, b⟩ := x
    obtain ⟨ha, hb⟩ := hl _ List.mem_cons_self
    have s1 := static_waits ha (by decide) m hm
    have s2 := static_done hb (by decide) _ (setStatic_self m mmsi (some (a.own, a.bits)))
    rw [overlay_BA _ _ _ _ ha.2.2.2.2 hb.2.2.2.2] at s2
    obtain ⟨m', ht⟩ := ih (fun z hz => hl z (List.mem_cons_of_mem _ hz)) _ (setStatic_self _ mmsi none)
    exact ⟨m', .cons s1 (.cons s2 ht)⟩

/-! ### GSV groups -/

theorem setGsv_self (m : Memory) (t : Str) (n k : Nat) (fs : List Str) : (m.setGsv t n k fs).gsv t n k = some fs :=
  if_pos ⟨rfl, rfl, rfl⟩

theorem setGsv_ne (m : Memory) (t : Str) (n k i : Nat) (fs : List Str) (h : i ≠ k) :
    (m.setGsv t n k fs).gsv t n i = m.gsv t n i := if_neg (fun e => h e.2.2)

theorem clearGsv_in (m : Memory) (t : Str) (n i : Nat) (h1 : 1 ≤ i) (h2 : i ≤ n) :
    (m.clearGsv t n).gsv t n i = none := if_pos ⟨rfl, rfl, h1, h2⟩

section
variable (talker : Str) (n k : Nat) (src : Nat → Nat → Env × Str) (fields : Nat → Nat → List Str)

/-- State of the group before sentence `j + 1` of the cycle in which sentence `k` was lost. -/
def LostInv (j : Nat) (m : Memory) : Prop :=
  m.gsv talker n k = none ∧ ∀ i, 1 ≤ i → i ≤ j → i ≠ k → m.gsv talker n i = some (fields 0 i)

/-- State of the group before sentence `j + 1` of a later cycle `c`. -/
def CycleInv (c j : Nat) (m : Memory) : Prop :=
  (j < k → m.gsv talker n k = none ∧ (∀ i, 1 ≤ i → i ≤ j → m.gsv talker n i = some (fields c i)) ∧
    ∀ i, k < i → i ≤ n → m.gsv talker n i = some (fields (c - 1) i)) ∧
  (k ≤ j → (∀ i, 1 ≤ i → i ≤ k → m.gsv talker n i = none) ∧
    ∀ i, k < i → i ≤ j → m.gsv talker n i = some (fields c i))

variable (hk : 1 ≤ k ∧ k ≤ n) (hn : n < 2 ^ 32 - 1)
  (hs : ∀ c j, 1 ≤ j → j ≤ n → GsvPart talker n j (fields c j) (src c j).2)
include hk hn hs

theorem trace_lost (r j : Nat) (hj : j + r = n) (m : Memory) (hm : LostInv talker n k fields j m) :
    ∃ m', Trace m (((List.range' (j + 1) r).filter (· ≠ k)).map (src 0))
        (List.replicate ((List.range' (j + 1) r).filter (· ≠ k)).length (.ok .incomplete)) m' ∧
      LostInv talker n k fields n m' := by
  induction r generalizing j m with
  | zero => obtain rfl : j = n := by omega
            exact ⟨m, .nil m, hm⟩
  | succ r ih =>
    rw [List.range'_succ]
    by_cases e : j + 1 = k
    · rw [List.filter_cons_of_neg (by simpa using e)]
      refine ih (j + 1) (by omega) m ⟨hm.1, fun i h1 h2 h3 => hm.2 i h1 (by omega) h3⟩
    · rw [List.filter_cons_of_pos (by simpa using e)]
      have s1 : Step (src 0 (j + 1)).1 m (src 0 (j + 1)).2 (.ok .incomplete)
          (m.setGsv talker n (j + 1) (fields 0 (j + 1))) :=
        .gsvWaits (hs 0 (j + 1) (by omega) (by omega)) hn ⟨k, hk.1, hk.2, fun h => e h.symm, hm.1⟩
      obtain ⟨m', ht, hm'⟩ := ih (j + 1) (by omega) (m.setGsv talker n (j + 1) (fields 0 (j + 1)))
        ⟨by rw [setGsv_ne _ _ _ _ _ _ (fun h => e h.symm)]; exact hm.1, fun i h1 h2 h3 => by
          by_cases hi : i = j + 1
          · subst hi; exact setGsv_self _ _ _ _ _
          · rw [setGsv_ne _ _ _ _ _ _ hi]; exact hm.2 i h1 (by omega) h3⟩
      exact ⟨m', .cons s1 ht, hm'⟩

theorem trace_cycle (c r j : Nat) (hj : j + r = n) (m : Memory)
    (hm : CycleInv talker n k fields c j m) :
    ∃ m', Trace m ((List.range' (j + 1) r).map (src c))
        ((List.range' (j + 1) r).map fun j => if j = k then
          .ok (.gsv ((List.range' 1 n).flatMap fun i =>
            satellites (talkerSystem talker) (fields (if i ≤ k then c else c - 1) i)))
          else .ok .incomplete) m' ∧
      CycleInv talker n k fields c n m' := by
  induction r generalizing j m with
  | zero => obtain rfl : j = n := by omega
            exact ⟨m, .nil m, hm⟩
  | succ r ih =>
    rw [List.range'_succ, List.map_cons, List.map_cons]
    have hp := hs c (j + 1) (by omega) (by omega)
    rcases Nat.lt_trichotomy (j + 1) k with hlt | heq | hgt
    · obtain ⟨i1, i2, i3⟩ := hm.1 (by omega)
      rw [if_neg (by omega)]
      have s1 : Step (src c (j + 1)).1 m (src c (j + 1)).2 (.ok .incomplete)
          (m.setGsv talker n (j + 1) (fields c (j + 1))) :=
        .gsvWaits hp hn ⟨k, hk.1, hk.2, by omega, i1⟩
      obtain ⟨m', ht, hm'⟩ := ih (j + 1) (by omega) (m.setGsv talker n (j + 1) (fields c (j + 1)))
        ⟨fun _ => ⟨by rw [setGsv_ne _ _ _ _ _ _ (by omega)]; exact i1, fun i h1 h2 => by
          by_cases hi : i = j + 1
          · subst hi; exact setGsv_self _ _ _ _ _
          · rw [setGsv_ne _ _ _ _ _ _ hi]; exact i2 i h1 (by omega),
          fun i h1 h2 => by rw [setGsv_ne _ _ _ _ _ _ (by omega)]; exact i3 i h1 h2⟩, fun h => by omega⟩
      exact ⟨m', .cons s1 ht, hm'⟩
    · obtain ⟨i1, i2, i3⟩ := hm.1 (by omega)
      rw [if_pos heq]
      have hall : ∀ i, 1 ≤ i → i ≤ n → (m.setGsv talker n (j + 1) (fields c (j + 1))).gsv talker n i =
          some (fields (if i ≤ k then c else c - 1) i) := by
        intro i h1 h2
        by_cases hi : i = j + 1
        · subst hi; rw [if_pos (by omega)]; exact setGsv_self _ _ _ _ _
        · rw [setGsv_ne _ _ _ _ _ _ hi]
          by_cases hik : i ≤ k
          · rw [if_pos hik]; exact i2 i h1 (by omega)
          · rw [if_neg hik]; exact i3 i (by omega) h2
      have s1 := Step.gsvDone (env := (src c (j + 1)).1) (m := m) hp hn (fun i h1 h2 h3 => by
        have := hall i h1 h2
        rw [setGsv_ne _ _ _ _ _ _ h3] at this
        rw [this]; intro e; cases e)
      rw [List.flatMap_congr (g := fun i => satellites (talkerSystem talker) (fields (if i ≤ k then c else c - 1) i))
        (fun i hi => by rw [List.mem_range'_1] at hi; rw [hall i (by omega) (by omega), Option.getD_some])] at s1
      obtain ⟨m', ht, hm'⟩ := ih (j + 1) (by omega) ((m.setGsv talker n (j + 1) (fields c (j + 1))).clearGsv talker n)
        ⟨fun h => by omega, fun _ => ⟨fun i h1 h2 => clearGsv_in _ _ _ _ h1 (by omega), fun i h1 h2 => by omega⟩⟩
      exact ⟨m', .cons s1 ht, hm'⟩
    · obtain ⟨i1, i2⟩ := hm.2 (by omega)
      rw [if_neg (by omega)]
      have s1 : Step (src c (j + 1)).1 m (src c (j + 1)).2 (.ok .incomplete)
          (m.setGsv talker n (j + 1) (fields c (j + 1))) :=
        .gsvWaits hp hn ⟨k, hk.1, hk.2, by omega, i1 k hk.1 (Nat.le_refl _)⟩
      obtain ⟨m', ht, hm'⟩ := ih (j + 1) (by omega) (m.setGsv talker n (j + 1) (fields c (j + 1)))
        ⟨fun h => by omega, fun _ => ⟨fun i h1 h2 => by rw [setGsv_ne _ _ _ _ _ _ (by omega)]; exact i1 i h1 h2,
          fun i h1 h2 => by
            by_cases hi : i = j + 1
            · subst hi; exact setGsv_self _ _ _ _ _
            · rw [setGsv_ne _ _ _ _ _ _ hi]; exact i2 i h1 (by omega)⟩⟩
      exact ⟨m', .cons s1 ht, hm'⟩

theorem trace_cycles (r c : Nat) (m : Memory) (hm : CycleInv talker n k fields (c + 1) 0 m) :
    ∃ m', Trace m ((List.range' (c + 1) r).flatMap (cycle src n))
        ((List.range' (c + 1) r).flatMap (shiftedCycle (talkerSystem talker) fields n k)) m' := by
  induction r generalizing c m with
  | zero => exact ⟨m, .nil m⟩
  | succ r ih =>
    rw [List.range'_succ, List.flatMap_cons, List.flatMap_cons]
    obtain ⟨m1, h1, hm1⟩ := trace_cycle talker n k src fields hk hn hs (c + 1) n 0 (by omega) m hm
    obtain ⟨i1, i2⟩ := hm1.2 hk.2
    obtain ⟨m2, h2⟩ := ih (c + 1) m1 ⟨fun _ => ⟨i1 k hk.1 (Nat.le_refl _), fun i h1 h2 => by omega,
      fun i h1 h2 => i2 i h1 h2⟩, fun h => by omega⟩
    exact ⟨m2, h1.append h2⟩

end

end Nmea
