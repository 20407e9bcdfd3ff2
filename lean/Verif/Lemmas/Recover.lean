/-
Finite memories, and sentences that empty them.
-/
import Verif.Spec.Recover
import Verif.Lemmas.Resync
import Verif.Lemmas.Transmit

namespace Nmea
open Spec

/-! ### Memories of reachable parsers -/

/-- A memory as it arises from sentences: finitely many entries, and what is known about them. -/
structure Sound (m : Memory) : Prop where
  parts : ∃ P : List (Bool × Nat × Str), ∀ o i c, m.part o i c ≠ none → (o, i, c) ∈ P
  part : ∀ o i c x, m.part o i c = some x → (x.1 = 1 ∨ x.1 = 2) ∧ i ≤ 2 ^ 64 - 1 ∧ ',' ∉ c
  groups : ∃ G : List (Str × Nat), ∀ t n k, m.gsv t n k ≠ none → (t, n) ∈ G
  gsv : ∀ t n k fs, m.gsv t n k = some fs → Talker t
  missing : ∀ t n, 1 ≤ n → n < 2 ^ 32 - 1 → ∃ j, 1 ≤ j ∧ j ≤ n ∧ m.gsv t n j = none
  statics : ∃ S : List Nat, ∀ i, m.static i ≠ none → i ∈ S
  static : ∀ i x, m.static i = some x → i < 2 ^ 30

theorem sound_empty : Sound Memory.empty :=
  ⟨⟨[], fun _ _ _ h => absurd rfl h⟩, fun _ _ _ _ h => (nomatch h), ⟨[], fun _ _ _ h => absurd rfl h⟩,
    fun _ _ _ _ h => (nomatch h), fun _ _ h1 _ => ⟨1, Nat.le_refl 1, h1, rfl⟩, ⟨[], fun _ h => absurd rfl h⟩,
    fun _ _ h => (nomatch h)⟩

theorem sound_setPart {m : Memory} (h : Sound m) (own : Bool) (id : Nat) (chan : Str) (x : Option (Nat × Str))
    (hx : ∀ y, x = some y → (y.1 = 1 ∨ y.1 = 2) ∧ id ≤ 2 ^ 64 - 1 ∧ ',' ∉ chan) : Sound (m.setPart own id chan x) where
  parts := by
    obtain ⟨P, hP⟩ := h.parts
    refine ⟨(own, id, chan) :: P, fun o i c hc => ?_⟩
    simp only [Memory.setPart] at hc
    split at hc
    · rename_i e
      obtain ⟨rfl, rfl, rfl⟩ := e
      exact List.mem_cons_self
    · exact List.mem_cons_of_mem _ (hP o i c hc)
  part := by
    intro o i c y hy
    simp only [Memory.setPart] at hy
    split at hy
    · rename_i e
      obtain ⟨rfl, rfl, rfl⟩ := e
      exact hx y hy
    · exact h.part o i c y hy
  groups := h.groups
  gsv := h.gsv
  missing := h.missing
  statics := h.statics
  static := h.static

theorem sound_setStatic {m : Memory} (h : Sound m) (i : Nat) (hi : i < 2 ^ 30) (x : Option (Bool × List Bool)) :
    Sound (m.setStatic i x) where
  parts := h.parts
  part := h.part
  groups := h.groups
  gsv := h.gsv
  missing := h.missing
  statics := by
    obtain ⟨S, hS⟩ := h.statics
    refine ⟨i :: S, fun j hj => ?_⟩
    simp only [Memory.setStatic] at hj
    split at hj
    · rename_i e
      exact e ▸ List.mem_cons_self
    · exact List.mem_cons_of_mem _ (hS j hj)
  static := by
    intro j y hy
    simp only [Memory.setStatic] at hy
    split at hy
    · rename_i e
      exact e ▸ hi
    · exact h.static j y hy

theorem sound_message {env : Env} {m m' : Memory} {talker : Str} {own : Bool} {payload : Str} {a : Answer}
    (h : Sound m) (hm : Message env m talker own payload a m') : Sound m' := by
  have hlt : mmsiOf (payloadBits payload) < 2 ^ 30 := by
    have := bitsVal_lt (window (payloadBits payload) 8 30)
    rwa [length_window] at this
  cases hm with
  | plain => exact h
  | first h1 h2 => exact sound_setStatic h _ hlt _
  | second o b h1 h2 => exact sound_setStatic h _ hlt _

theorem sound_gsv {m m' : Memory} (h : Sound m) (talker : Str) (ht : Talker talker) (n : Nat)
    (hp : m'.part = m.part) (hs : m'.static = m.static)
    (hg : ∀ t k j, ¬ (t = talker ∧ k = n) → m'.gsv t k j = m.gsv t k j)
    (hm : 1 ≤ n → n < 2 ^ 32 - 1 → ∃ j, 1 ≤ j ∧ j ≤ n ∧ m'.gsv talker n j = none) : Sound m' where
  parts := by rw [hp]; exact h.parts
  part := by rw [hp]; exact h.part
  groups := by
    obtain ⟨G, hG⟩ := h.groups
    refine ⟨(talker, n) :: G, fun t k j hj => ?_⟩
    by_cases e : t = talker ∧ k = n
    · obtain ⟨rfl, rfl⟩ := e
      exact List.mem_cons_self
    · rw [hg t k j e] at hj
      exact List.mem_cons_of_mem _ (hG t k j hj)
  gsv := by
    intro t k j fs hj
    by_cases e : t = talker ∧ k = n
    · exact e.1 ▸ ht
    · rw [hg t k j e] at hj
      exact h.gsv t k j fs hj
  missing := by
    intro t k h1 h2
    by_cases e : t = talker ∧ k = n
    · obtain ⟨rfl, rfl⟩ := e
      exact hm h1 h2
    · obtain ⟨j, a, b, c⟩ := h.missing t k h1 h2
      exact ⟨j, a, b, by rw [hg t k j e, c]⟩
  statics := by rw [hs]; exact h.statics
  static := by rw [hs]; exact h.static

theorem setGsv_other (m : Memory) (talker : Str) (n k : Nat) (fs : List Str) (t : Str) (n' j : Nat)
    (h : ¬ (t = talker ∧ n' = n)) : (m.setGsv talker n k fs).gsv t n' j = m.gsv t n' j := by
  simp only [Memory.setGsv]
  rw [if_neg]
  rintro ⟨a, b, -⟩
  exact h ⟨a, b⟩

theorem clearGsv_other (m : Memory) (talker : Str) (n : Nat) (t : Str) (n' j : Nat)
    (h : ¬ (t = talker ∧ n' = n)) : (m.clearGsv talker n).gsv t n' j = m.gsv t n' j := by
  simp only [Memory.clearGsv]
  rw [if_neg]
  rintro ⟨a, b, -⟩
  exact h ⟨a, b⟩

theorem Spec.Part.valid {talker : Str} {own : Bool} {num id : Nat} {chan payload s : Str}
    (h : Part talker own num id chan payload s) : id ≤ 2 ^ 64 - 1 ∧ ',' ∉ chan := by
  obtain ⟨fs, h0, -, -, ⟨_, _, _, _, h3⟩, rfl, -⟩ := h
  exact ⟨h3, field_noComma h0.2.1 3⟩

theorem sound_step {env : Env} {m m' : Memory} {s : Str} {a : Answer} (h : Sound m) (hs : Step env m s a m') : Sound m' := by
  cases hs with
  | single h1 hm => exact sound_message h hm
  | waits h1 hn hw =>
    refine sound_setPart h _ _ _ _ (fun y hy => ?_)
    cases hy
    exact ⟨hn, h1.valid⟩
  | first h1 hw hm => exact sound_message (sound_setPart h _ _ _ none (fun y hy => nomatch hy)) hm
  | second h1 hw hm => exact sound_message (sound_setPart h _ _ _ none (fun y hy => nomatch hy)) hm
  | gsvWaits h1 hn hw =>
    obtain ⟨j, a, b, c, d⟩ := hw
    exact sound_gsv h _ h1.1.1 _ rfl rfl (setGsv_other _ _ _ _ _) (fun _ _ => ⟨j, a, b, by rw [setGsv_ne _ _ _ _ _ _ c, d]⟩)
  | gsvDone h1 hn hw =>
    refine sound_gsv h _ h1.1.1 _ rfl rfl (fun t k j e => ?_) (fun h1 _ => ⟨1, Nat.le_refl 1, h1, clearGsv_in _ _ _ _ (Nat.le_refl 1) h1⟩)
    rw [clearGsv_other _ _ _ _ _ _ e, setGsv_other _ _ _ _ _ _ _ _ e]
  | gsvHuge h1 =>
    exact sound_gsv h _ h1.1.1 _ rfl rfl (setGsv_other _ _ _ _ _) (fun _ h => absurd h (Nat.lt_irrefl _))
  | other h1 => exact h

theorem sound_trace {m m' : Memory} {h : List (Env × Str)} {as : List Answer} (hm : Sound m) (ht : Trace m h as m') : Sound m' := by
  induction ht with
  | nil => exact hm
  | cons h1 _ ih => exact ih (sound_step hm h1)

theorem sound_reachable {p : Parser} (h : Reachable p) : ∃ m, Rel p m ∧ Sound m := by
  obtain ⟨g, rfl⟩ := h
  obtain ⟨as, m, ht⟩ := trace_total Memory.empty g
  exact ⟨m, (trace_rel _ _ _ _ _ rel_new ht).2, sound_trace sound_empty ht⟩

/-! ### Memories that differ only in sentences that are never read -/

/-- Nothing can be completed. -/
structure Spec.Memory.Done (m : Memory) : Prop where
  part : ∀ o i c, m.part o i c = none
  gsv : ∀ t n k, 1 ≤ k → k ≤ n → n < 2 ^ 32 - 1 → m.gsv t n k = none
  static : ∀ i, m.static i = none

/-- The two memories are the same but for GSV sentences that are never read. -/
structure Alike (k m : Memory) : Prop where
  part : k.part = m.part
  gsv : ∀ t n j, 1 ≤ j → j ≤ n → n < 2 ^ 32 - 1 → k.gsv t n j = m.gsv t n j
  static : k.static = m.static

theorem alike_done {m : Memory} (h : m.Done) : Alike m Memory.empty :=
  ⟨by funext o i c; exact h.part o i c, fun t n j a b c => h.gsv t n j a b c, by funext i; exact h.static i⟩

theorem alike_setPart {k m : Memory} (h : Alike k m) (own : Bool) (id : Nat) (chan : Str) (x : Option (Nat × Str)) :
    Alike (k.setPart own id chan x) (m.setPart own id chan x) :=
  ⟨by simp only [Memory.setPart, h.part], h.gsv, h.static⟩

theorem alike_setStatic {k m : Memory} (h : Alike k m) (i : Nat) (x : Option (Bool × List Bool)) :
    Alike (k.setStatic i x) (m.setStatic i x) :=
  ⟨h.part, h.gsv, by simp only [Memory.setStatic, h.static]⟩

theorem alike_setGsv {k m : Memory} (h : Alike k m) (t : Str) (n i : Nat) (fs : List Str) :
    Alike (k.setGsv t n i fs) (m.setGsv t n i fs) := by
  refine ⟨h.part, fun t' n' j a b c => ?_, h.static⟩
  simp only [Memory.setGsv, h.gsv t' n' j a b c]

theorem alike_clearGsv {k m : Memory} (h : Alike k m) (t : Str) (n : Nat) : Alike (k.clearGsv t n) (m.clearGsv t n) := by
  refine ⟨h.part, fun t' n' j a b c => ?_, h.static⟩
  simp only [Memory.clearGsv, h.gsv t' n' j a b c]

theorem alike_message {env : Env} {k m m' : Memory} {talker : Str} {own : Bool} {payload : Str} {a : Answer}
    (h : Alike k m) (hm : Message env m talker own payload a m') :
    ∃ k', Message env k talker own payload a k' ∧ Alike k' m' := by
  cases hm with
  | plain h1 => exact ⟨k, .plain h1, h⟩
  | first h1 h2 => exact ⟨_, .first h1 (by rw [h.static]; exact h2), alike_setStatic h _ _⟩
  | second o b h1 h2 => exact ⟨_, .second o b h1 (by rw [h.static]; exact h2), alike_setStatic h _ _⟩

theorem alike_step {env : Env} {k m m' : Memory} {s : Str} {a : Answer} (h : Alike k m) (hs : Step env m s a m') :
    ∃ k', Step env k s a k' ∧ Alike k' m' := by
  cases hs with
  | single h1 hm =>
    obtain ⟨k', h2, h3⟩ := alike_message h hm
    exact ⟨k', .single h1 h2, h3⟩
  | waits h1 hn hw => exact ⟨_, .waits h1 hn (by rw [h.part]; exact hw), alike_setPart h _ _ _ _⟩
  | first h1 hw hm =>
    obtain ⟨k', h2, h3⟩ := alike_message (alike_setPart h _ _ _ none) hm
    exact ⟨k', .first h1 (by rw [h.part]; exact hw) h2, h3⟩
  | second h1 hw hm =>
    obtain ⟨k', h2, h3⟩ := alike_message (alike_setPart h _ _ _ none) hm
    exact ⟨k', .second h1 (by rw [h.part]; exact hw) h2, h3⟩
  | gsvWaits h1 hn hw =>
    obtain ⟨j, a, b, c, d⟩ := hw
    exact ⟨_, .gsvWaits h1 hn ⟨j, a, b, c, by rw [h.gsv _ _ _ a b hn]; exact d⟩, alike_setGsv h _ _ _ _⟩
  | @gsvDone talker n i fs h1 hn hw =>
    refine ⟨((k.setGsv talker n i fs).clearGsv talker n), ?_, alike_clearGsv (alike_setGsv h _ _ _ _) _ _⟩
    have e : (List.range' 1 n).flatMap (fun j =>
          satellites (talkerSystem talker) (((m.setGsv talker n i fs).gsv talker n j).getD [])) =
        (List.range' 1 n).flatMap (fun j =>
          satellites (talkerSystem talker) (((k.setGsv talker n i fs).gsv talker n j).getD [])) := by
      refine List.flatMap_congr fun j hj => ?_
      rw [List.mem_range'_1] at hj
      rw [(alike_setGsv h talker n i fs).gsv _ _ _ hj.1 (by omega) hn]
    rw [e]
    exact .gsvDone h1 hn (fun j a b c => by rw [h.gsv _ _ _ a b hn]; exact hw j a b c)
  | gsvHuge h1 => exact ⟨_, .gsvHuge h1, alike_setGsv h _ _ _ _⟩
  | other h1 => exact ⟨k, .other h1, h⟩

theorem alike_trace {k m m' : Memory} {h : List (Env × Str)} {as : List Answer} (ha : Alike k m) (ht : Trace m h as m') :
    ∃ k', Trace k h as k' ∧ Alike k' m' := by
  induction ht generalizing k with
  | nil => exact ⟨k, .nil k, ha⟩
  | cons h1 _ ih =>
    obtain ⟨k1, s1, a1⟩ := alike_step ha h1
    obtain ⟨k', t, a⟩ := ih a1
    exact ⟨k', .cons s1 t, a⟩

theorem done_as_new {p : Parser} {m : Memory} (hr : Rel p m) (hd : m.Done) (h : List (Env × Str)) :
    answers p h = answers Parser.new h := by
  obtain ⟨as, m', ht⟩ := trace_total Memory.empty h
  obtain ⟨k', ht', -⟩ := alike_trace (alike_done hd) ht
  rw [(trace_rel _ _ _ _ _ hr ht').1, (trace_rel _ _ _ _ _ rel_new ht).1]

/-! ### Sentences for a given slot -/

/-- GSV sentence `k` of `n` without satellites. -/
def emptyGsv (talker : Str) (n k : Nat) : Str :=
  finish (join (tag '$' talker (c! "GSV")) [natStr n, natStr k]) .full

theorem emptyGsv_part (talker : Str) (n k : Nat) (ht : Talker talker) (hn : n ≤ 2 ^ 32 - 1) (hk : k ≤ 2 ^ 32 - 1) :
    GsvPart talker n k [natStr n, natStr k] (emptyGsv talker n k) := by
  refine ⟨⟨ht, ?_, by simp, .full, fun e => (nomatch e), rfl⟩, .inr (dec_natStr _ _ hn), .inr (dec_natStr _ _ hk)⟩
  intro f hf
  simp only [List.mem_cons, List.not_mem_nil, or_false] at hf
  rcases hf with rfl | rfl
  · exact natStr_comma _
  · exact natStr_comma _

/-- Bits of a part A of type 24 with nothing but the MMSI. -/
def emptyStaticBits (mmsi : Nat) : List Bool := [natBits 6 24, natBits 2 0, natBits 30 mmsi, natBits 2 0].flatten

/-- The unfragmented sentence of it. -/
def emptyStatic (mmsi : Nat) : Str := aisSentence (c! "AI") false (armor (emptyStaticBits mmsi))

theorem emptyStatic_single (mmsi : Nat) : Single (c! "AI") false (armor (emptyStaticBits mmsi)) (emptyStatic mmsi) :=
  single_of_payload _ _ _ ⟨by decide, by decide⟩ (armor_no_comma _)

theorem emptyStatic_part (env : Env) (mmsi : Nat) (h : mmsi < 2 ^ 30) :
    IsStaticPart env (armor (emptyStaticBits mmsi)) ∧ mmsiOf (payloadBits (armor (emptyStaticBits mmsi))) = mmsi := by
  rw [IsStaticPart, payloadBits_armor]
  refine ⟨⟨readable_armor env _, typeOf_flatten 24 _ _ (by decide), ?_⟩, ?_⟩
  · rw [partOf, emptyStaticBits, window_field _ 3 _ (natBits 2 0) 38 2 rfl (by simp) (by simp)]
    decide
  · rw [mmsiOf, emptyStaticBits, window_field _ 2 _ (natBits 30 mmsi) 8 30 rfl (by simp) (by simp), bitsVal_natBits_lt 30 _ h]

/-! ### Emptying the memory -/

theorem flush_parts (env : Env) (P : List (Bool × Nat × Str)) (m : Memory) (hm : Sound m)
    (hP : ∀ o i c, m.part o i c ≠ none → (o, i, c) ∈ P) :
    ∃ (f : List Str) (as : List Answer) (m' : Memory), Trace m (f.map fun s => (env, s)) as m' ∧ Sound m' ∧
      ∀ o i c, m'.part o i c = none := by
  induction P generalizing m with
  | nil =>
    refine ⟨[], [], m, .nil m, hm, fun o i c => ?_⟩
    by_contra h
    exact absurd (hP o i c h) List.not_mem_nil
  | cons g P ih =>
    obtain ⟨o, i, c⟩ := g
    have next : ∀ m1 : Memory, Sound m1 → m1.part = (m.setPart o i c none).part →
        ∃ (f : List Str) (as : List Answer) (m' : Memory), Trace m1 (f.map fun s => (env, s)) as m' ∧ Sound m' ∧
          ∀ o i c, m'.part o i c = none := by
      intro m1 s1 e1
      refine ih m1 s1 (fun o' i' c' h => ?_)
      rw [e1] at h
      simp only [Memory.setPart] at h
      split at h
      · exact absurd rfl h
      · rename_i ne
        rcases List.mem_cons.1 (hP o' i' c' h) with e | e
        · injection e with e2 e3
          injection e3 with e3 e4
          exact absurd ⟨e2, e3, e4⟩ ne
        · exact e
    cases hp : m.part o i c with
    | none =>
      refine next m hm ?_
      funext o' i' c'
      simp only [Memory.setPart]
      split
      · rename_i e
        obtain ⟨rfl, rfl, rfl⟩ := e
        exact hp
      · rfl
    | some x =>
      obtain ⟨num, x⟩ := x
      obtain ⟨hn, hi, hc⟩ := hm.part o i c _ hp
      have step : ∃ s a m1, Step env m s a m1 ∧ m1.part = (m.setPart o i c none).part := by
        rcases hn with hn | hn <;> simp only at hn <;> subst hn
        · obtain ⟨a, m1, hm1⟩ := message_total env (m.setPart o i c none) (c! "AI") o (x ++ [])
          exact ⟨_, a, m1, .second (part_sentence _ o 2 i c [] 0 ⟨by decide, by decide⟩ (by decide) (by omega) hc (by simp)) hp hm1,
            (message_frame hm1).1⟩
        · obtain ⟨a, m1, hm1⟩ := message_total env (m.setPart o i c none) (c! "AI") o ([] ++ x)
          exact ⟨_, a, m1, .first (part_sentence _ o 1 i c [] 0 ⟨by decide, by decide⟩ (by decide) (by omega) hc (by simp)) hp hm1,
            (message_frame hm1).1⟩
      obtain ⟨s, a, m1, hs, e1⟩ := step
      obtain ⟨f, as, m', ht, h1, h2⟩ := next m1 (sound_step hm hs) e1
      exact ⟨s :: f, a :: as, m', .cons hs ht, h1, h2⟩

theorem flush_static (env : Env) (S : List Nat) (m : Memory) (hm : Sound m) (hS : ∀ i, m.static i ≠ none → i ∈ S) :
    ∃ (f : List Str) (as : List Answer) (m' : Memory), Trace m (f.map fun s => (env, s)) as m' ∧ Sound m' ∧
      m'.part = m.part ∧ ∀ i, m'.static i = none := by
  induction S generalizing m with
  | nil =>
    refine ⟨[], [], m, .nil m, hm, rfl, fun i => ?_⟩
    by_contra h
    exact absurd (hS i h) List.not_mem_nil
  | cons i S ih =>
    cases hp : m.static i with
    | none =>
      refine ih m hm (fun j hj => ?_)
      rcases List.mem_cons.1 (hS j hj) with rfl | e
      · exact absurd hp hj
      · exact e
    | some x =>
      obtain ⟨h1, h2⟩ := emptyStatic_part env i (hm.static i x hp)
      have hs : Step env m (emptyStatic i) _ (m.setStatic (mmsiOf (payloadBits (armor (emptyStaticBits i)))) none) :=
        .single (emptyStatic_single i) (.second x.1 x.2 h1 (by rw [h2, hp]))
      rw [h2] at hs
      obtain ⟨f, as, m', ht, a1, a2, a3⟩ := ih _ (sound_step hm hs) (fun j hj => by
        simp only [Memory.setStatic] at hj
        split at hj
        · exact absurd rfl hj
        · rename_i ne
          rcases List.mem_cons.1 (hS j hj) with e | e
          · exact absurd e ne
          · exact e)
      exact ⟨emptyStatic i :: f, _ :: as, m', .cons hs ht, a1, a2, a3⟩

theorem fill_gsv (env : Env) (t : Str) (ht : Talker t) (n : Nat) (hn : n < 2 ^ 32 - 1) (J : List Nat) (m : Memory)
    (h0 : J ≠ []) (hd : J.Nodup) (hJ : ∀ j, 1 ≤ j → j ≤ n → (m.gsv t n j = none ↔ j ∈ J)) (hr : ∀ j ∈ J, 1 ≤ j ∧ j ≤ n) :
    ∃ (f : List Str) (as : List Answer) (m' : Memory), Trace m (f.map fun s => (env, s)) as m' ∧
      m'.part = m.part ∧ m'.static = m.static ∧ (∀ t' n' j, ¬ (t' = t ∧ n' = n) → m'.gsv t' n' j = m.gsv t' n' j) ∧
      ∀ j, 1 ≤ j → j ≤ n → m'.gsv t n j = none := by
  induction J generalizing m with
  | nil => exact absurd rfl h0
  | cons i J ih =>
    have hi := hr i List.mem_cons_self
    have hg := emptyGsv_part t n i ht (by omega) (by omega)
    obtain ⟨d1, d2⟩ := List.nodup_cons.1 hd
    cases J with
    | nil =>
      refine ⟨[emptyGsv t n i], _, _, .cons (.gsvDone hg hn (fun j a b c e => c ?_)) (.nil _), rfl, rfl, fun t' n' j e => ?_,
        fun j a b => clearGsv_in _ _ _ _ a b⟩
      · exact List.mem_singleton.1 ((hJ j a b).1 e)
      · rw [clearGsv_other _ _ _ _ _ _ e, setGsv_other _ _ _ _ _ _ _ _ e]
    | cons i' J =>
      have hi' := hr i' (List.mem_cons_of_mem _ List.mem_cons_self)
      have ne : i' ≠ i := fun e => d1 (e ▸ List.mem_cons_self)
      obtain ⟨f, as, m', h1, h2, h3, h4, h5⟩ := ih (m.setGsv t n i [natStr n, natStr i]) (by simp) d2 (fun j a b => by
        by_cases e : j = i
        · subst e
          rw [setGsv_self]
          exact ⟨fun h => (nomatch h), fun h => absurd h d1⟩
        · rw [setGsv_ne _ _ _ _ _ _ e, hJ j a b]
          exact ⟨fun h => (List.mem_cons.1 h).resolve_left e, List.mem_cons_of_mem _⟩)
        (fun j hj => hr j (List.mem_cons_of_mem _ hj))
      refine ⟨emptyGsv t n i :: f, _ :: as, m', .cons (.gsvWaits hg hn ⟨i', hi'.1, hi'.2, ne, ?_⟩) h1, h2, h3, ?_, h5⟩
      · exact (hJ i' hi'.1 hi'.2).2 (List.mem_cons_of_mem _ List.mem_cons_self)
      · intro t' n' j e
        rw [h4 t' n' j e, setGsv_other _ _ _ _ _ _ _ _ e]

theorem flush_gsv (env : Env) (G : List (Str × Nat)) (m : Memory) (hm : Sound m)
    (hG : ∀ t n k, 1 ≤ k → k ≤ n → n < 2 ^ 32 - 1 → m.gsv t n k ≠ none → (t, n) ∈ G) :
    ∃ (f : List Str) (as : List Answer) (m' : Memory), Trace m (f.map fun s => (env, s)) as m' ∧
      m'.part = m.part ∧ m'.static = m.static ∧ ∀ t n k, 1 ≤ k → k ≤ n → n < 2 ^ 32 - 1 → m'.gsv t n k = none := by
  induction G generalizing m with
  | nil =>
    refine ⟨[], [], m, .nil m, rfl, rfl, fun t n k a b c => ?_⟩
    by_contra h
    exact absurd (hG t n k a b c h) List.not_mem_nil
  | cons g G ih =>
    obtain ⟨t, n⟩ := g
    by_cases hu : ∃ k, 1 ≤ k ∧ k ≤ n ∧ n < 2 ^ 32 - 1 ∧ m.gsv t n k ≠ none
    · obtain ⟨k, hk1, hk2, hn, hk⟩ := hu
      obtain ⟨fs, hfs⟩ := Option.ne_none_iff_exists'.1 hk
      obtain ⟨j0, a0, b0, e0⟩ := hm.missing t n (by omega) hn
      have mem : ∀ j, j ∈ (List.range' 1 n).filter (fun j => (m.gsv t n j).isNone) ↔ (1 ≤ j ∧ j ≤ n) ∧ m.gsv t n j = none := by
        intro j
        rw [List.mem_filter, List.mem_range'_1, Option.isNone_iff_eq_none]
        constructor
        · rintro ⟨⟨a, b⟩, c⟩; exact ⟨⟨a, by omega⟩, c⟩
        · rintro ⟨⟨a, b⟩, c⟩; exact ⟨⟨a, by omega⟩, c⟩
      obtain ⟨f, as, m1, h1, h2, h3, h4, h5⟩ := fill_gsv env t (hm.gsv t n k fs hfs) n hn
        ((List.range' 1 n).filter (fun j => (m.gsv t n j).isNone)) m
        (List.ne_nil_of_mem ((mem j0).2 ⟨⟨a0, b0⟩, e0⟩)) ((List.nodup_range' ..).filter _)
        (fun j a b => by rw [mem]; exact ⟨fun e => ⟨⟨a, b⟩, e⟩, fun e => e.2⟩) (fun j hj => ((mem j).1 hj).1)
      obtain ⟨f', as', m', g1, g2, g3, g4⟩ := ih m1 (sound_trace hm h1) (fun t' n' k' a b c h => by
        by_cases e : t' = t ∧ n' = n
        · obtain ⟨rfl, rfl⟩ := e
          exact absurd (h5 k' a b) h
        · rw [h4 _ _ _ e] at h
          rcases List.mem_cons.1 (hG t' n' k' a b c h) with e' | e'
          · injection e' with e1 e2
            exact absurd ⟨e1, e2⟩ e
          · exact e')
      refine ⟨f ++ f', as ++ as', m', ?_, g2.trans h2, g3.trans h3, g4⟩
      rw [List.map_append]
      exact h1.append g1
    · refine ih m hm (fun t' n' k' a b c h => ?_)
      rcases List.mem_cons.1 (hG t' n' k' a b c h) with e' | e'
      · injection e' with e1 e2
        subst e1 e2
        exact absurd ⟨k', a, b, c, h⟩ hu
      · exact e'

theorem flush (env : Env) {p : Parser} (hp : Reachable p) :
    ∃ f : List Str, ∀ h, answers (run p (f.map fun s => (env, s))) h = answers Parser.new h := by
  obtain ⟨m, hr, hm⟩ := sound_reachable hp
  obtain ⟨P, hP⟩ := hm.parts
  obtain ⟨f1, as1, m1, t1, s1, p1⟩ := flush_parts env P m hm hP
  obtain ⟨S, hS⟩ := s1.statics
  obtain ⟨f2, as2, m2, t2, s2, p2, q2⟩ := flush_static env S m1 s1 hS
  obtain ⟨G, hG⟩ := s2.groups
  obtain ⟨f3, as3, m3, t3, p3, q3, r3⟩ := flush_gsv env G m2 s2 (fun t n k _ _ _ h => hG t n k h)
  refine ⟨f1 ++ (f2 ++ f3), fun h => ?_⟩
  rw [List.map_append, List.map_append]
  exact done_as_new (trace_rel _ _ _ _ _ hr (t1.append (t2.append t3))).2
    ⟨by rw [p3, p2]; exact p1, r3, by rw [q3]; exact q2⟩ h

/-! ### Telling an unfinished parser from a new one -/

theorem alone_incomplete (env : Env) (talker : Str) (own : Bool) (payload : Str) (ht : Talker talker) (hp : ',' ∉ payload)
    (h : alone env (aisSentence talker own payload) = .ok .incomplete) : IsStaticPart env payload := by
  rw [alone, eval_Single env _ talker own payload _ (single_of_payload talker own payload ht hp)] at h
  have hread : Readable env payload := by
    unfold complete at h
    cases hp : parsePayload env.overflowChecks payload with
    | ok bv => exact readable_of_ok env payload bv hp
    | err e => exact absurd hp (parsePayload_ne_err _ _ _)
    | panic => rw [hp] at h; cases h
  have ht : typeOf (payloadBits payload) = 24 := by
    simp only [complete, parsePayload_readable env payload hread] at h
    rcases dispatchAis_ok _ _ _ _ _ _ _ _ (Prod.ext h rfl) with ⟨-, ht⟩ | ⟨hsh, -, -⟩
    · rwa [typeOf_eq] at ht
    · simp [aisTypesOf] at hsh
  refine ⟨hread, ht, ?_⟩
  by_contra hpt
  rw [complete_24 _ _ _ _ _ hread ht, if_neg hpt] at h
  cases h

theorem new_waits (env : Env) (talker : Str) (own : Bool) (num id : Nat) (chan payload s : Str) (hn : num = 1 ∨ num = 2)
    (h : Part talker own num id chan payload s) :
    Step env Memory.empty s (.ok .incomplete) (Memory.empty.setPart own id chan (some (num, payload))) :=
  .waits h hn (fun _ e => by cases e)

/-- A pending part shows. -/
theorem part_shows {p : Parser} {m : Memory} (hr : Rel p m) (hm : Sound m) (own : Bool) (id : Nat) (chan : Str)
    (x : Nat × Str) (hx : m.part own id chan = some x) (env : Env) :
    ∃ h : List Str, answers p (h.map fun s => (env, s)) ≠ answers Parser.new (h.map fun s => (env, s)) := by
  obtain ⟨num, x⟩ := x
  obtain ⟨hn, hi, hc⟩ := hm.part own id chan _ hx
  have hxc := hr.partOk own id chan _ hx
  -- the other part, and what it makes of the memory
  have step : ∃ num' s pl, (num' = 1 ∨ num' = 2) ∧ Part (c! "AI") own num' id chan [] s ∧ ',' ∉ pl ∧
      ∀ a m1, Message env (m.setPart own id chan none) (c! "AI") own pl a m1 → Step env m s a m1 := by
    rcases hn with hn | hn <;> simp only at hn <;> subst hn
    · have h2 := part_sentence (c! "AI") own 2 id chan [] 0 ⟨by decide, by decide⟩ (by decide) (by omega) hc (by simp)
      exact ⟨2, _, x ++ [], .inr rfl, h2, by simpa using hxc, fun a m1 h => .second h2 hx h⟩
    · have h1 := part_sentence (c! "AI") own 1 id chan [] 0 ⟨by decide, by decide⟩ (by decide) (by omega) hc (by simp)
      exact ⟨1, _, [] ++ x, .inl rfl, h1, by simpa using hxc, fun a m1 h => .first h1 hx h⟩
  obtain ⟨num', s, pl, hn', hs, hpl, hstep⟩ := step
  have hnew := new_waits env _ own num' id chan [] s hn' hs
  obtain ⟨a, m1, hm1⟩ := message_total env (m.setPart own id chan none) (c! "AI") own pl
  have one : a ≠ .ok .incomplete → answers p ([s].map fun s => (env, s)) ≠ answers Parser.new ([s].map fun s => (env, s)) := by
    intro ha e
    rw [List.map_singleton, (trace_rel _ _ _ _ _ hr (.cons (hstep a m1 hm1) (.nil _))).1,
      (trace_rel _ _ _ _ _ rel_new (.cons hnew (.nil _))).1] at e
    exact ha (List.cons.inj e).1
  cases hm1 with
  | plain h => exact ⟨[s], one (fun e => h (alone_incomplete env _ own pl ⟨by decide, by decide⟩ hpl e))⟩
  | second o b h h2 => exact ⟨[s], one (fun e => by cases e)⟩
  | first h h2 =>
    have hlt : mmsiOf (payloadBits pl) < 2 ^ 30 := by
      have := bitsVal_lt (window (payloadBits pl) 8 30)
      rwa [length_window] at this
    obtain ⟨e1, e2⟩ := emptyStatic_part env _ hlt
    refine ⟨[s, emptyStatic (mmsiOf (payloadBits pl))], fun e => ?_⟩
    rw [List.map_cons, List.map_singleton,
      (trace_rel _ _ _ _ _ hr (.cons (hstep _ _ (.first h h2)) (.cons (.single (emptyStatic_single _)
        (.second own (payloadBits pl) e1 (by rw [e2]; simp [Memory.setStatic]))) (.nil _)))).1,
      (trace_rel _ _ _ _ _ rel_new (.cons hnew (.cons (.single (emptyStatic_single _) (.first e1 rfl)) (.nil _)))).1] at e
    exact absurd (List.cons.inj (List.cons.inj e).2).1 (by simp)

/-- A pending part of type 24 shows. -/
theorem static_shows {p : Parser} {m : Memory} (hr : Rel p m) (hm : Sound m) (i : Nat) (x : Bool × List Bool)
    (hx : m.static i = some x) (env : Env) :
    ∃ h : List Str, answers p (h.map fun s => (env, s)) ≠ answers Parser.new (h.map fun s => (env, s)) := by
  obtain ⟨e1, e2⟩ := emptyStatic_part env i (hm.static i x hx)
  refine ⟨[emptyStatic i], fun e => ?_⟩
  rw [List.map_singleton,
    (trace_rel _ _ _ _ _ hr (.cons (.single (emptyStatic_single _) (.second x.1 x.2 e1 (by rw [e2, hx]))) (.nil _))).1,
    (trace_rel _ _ _ _ _ rel_new (.cons (.single (emptyStatic_single _) (.first e1 rfl)) (.nil _))).1] at e
  exact absurd (List.cons.inj e).1 (by simp)

theorem gsv_kept (env : Env) (t : Str) (ht : Talker t) (n : Nat) (hn : n < 2 ^ 32 - 1) (J : List Nat) (hJ : ∀ j ∈ J, j ≤ n)
    (m : Memory) : ∃ as m', Trace m ((J.map (emptyGsv t n)).map fun s => (env, s)) as m' ∧
      ((∃ a ∈ as, a ≠ .ok .incomplete) ∨ ∀ j, j ∈ J ∨ m.gsv t n j ≠ none → m'.gsv t n j ≠ none) := by
  induction J generalizing m with
  | nil => exact ⟨[], m, .nil m, .inr fun j h => h.resolve_left List.not_mem_nil⟩
  | cons i J ih =>
    have hi := hJ i List.mem_cons_self
    have hg := emptyGsv_part t n i ht (by omega) (by omega)
    have ih' := ih (fun j hj => hJ j (List.mem_cons_of_mem _ hj))
    by_cases hw : ∃ j, 1 ≤ j ∧ j ≤ n ∧ j ≠ i ∧ m.gsv t n j = none
    · obtain ⟨as, m', h1, h2⟩ := ih' (m.setGsv t n i [natStr n, natStr i])
      refine ⟨_ :: as, m', .cons (.gsvWaits hg hn hw) h1, ?_⟩
      rcases h2 with ⟨a, ha, hb⟩ | h2
      · exact .inl ⟨a, List.mem_cons_of_mem _ ha, hb⟩
      · refine .inr fun j hj => h2 j ?_
        by_cases e : j = i
        · exact .inr (by rw [e, setGsv_self]; simp)
        · rw [setGsv_ne _ _ _ _ _ _ e]
          rcases hj with hj | hj
          · exact .inl ((List.mem_cons.1 hj).resolve_left e)
          · exact .inr hj
    · obtain ⟨as, m', h1, -⟩ := ih' ((m.setGsv t n i [natStr n, natStr i]).clearGsv t n)
      exact ⟨_ :: as, m', .cons (.gsvDone hg hn (fun j a b c d => hw ⟨j, a, b, c, d⟩)) h1,
        .inl ⟨_, List.mem_cons_self, by simp⟩⟩

theorem gsv_new (env : Env) (t : Str) (ht : Talker t) (n k : Nat) (hn : n < 2 ^ 32 - 1) (hk : 1 ≤ k ∧ k ≤ n) (J : List Nat)
    (hJ : ∀ j ∈ J, j ≤ n ∧ j ≠ k) (m : Memory) (hm : m.gsv t n k = none) :
    ∃ as m', Trace m ((J.map (emptyGsv t n)).map fun s => (env, s)) as m' ∧ ∀ a ∈ as, a = .ok .incomplete := by
  induction J generalizing m with
  | nil => exact ⟨[], m, .nil m, fun a h => absurd h List.not_mem_nil⟩
  | cons i J ih =>
    have hi := hJ i List.mem_cons_self
    have hg := emptyGsv_part t n i ht (by omega) (by omega)
    obtain ⟨as, m', h1, h2⟩ := ih (fun j hj => hJ j (List.mem_cons_of_mem _ hj)) (m.setGsv t n i [natStr n, natStr i])
      (by rw [setGsv_ne _ _ _ _ _ _ hi.2.symm, hm])
    refine ⟨_ :: as, m', .cons (.gsvWaits hg hn ⟨k, hk.1, hk.2, hi.2.symm, hm⟩) h1, ?_⟩
    intro a ha
    rcases List.mem_cons.1 ha with rfl | ha
    · rfl
    · exact h2 a ha

/-- A pending GSV sentence shows. -/
theorem gsv_shows {p : Parser} {m : Memory} (hr : Rel p m) (hm : Sound m) (t : Str) (n k : Nat) (hk : 1 ≤ k ∧ k ≤ n)
    (hn : n < 2 ^ 32 - 1) (hx : m.gsv t n k ≠ none) (env : Env) :
    ∃ h : List Str, answers p (h.map fun s => (env, s)) ≠ answers Parser.new (h.map fun s => (env, s)) := by
  obtain ⟨fs, hfs⟩ := Option.ne_none_iff_exists'.1 hx
  have ht := hm.gsv t n k fs hfs
  have mem : ∀ j, j ∈ (List.range' 1 n).filter (fun j => decide (j ≠ k)) ↔ (1 ≤ j ∧ j ≤ n) ∧ j ≠ k := by
    intro j
    rw [List.mem_filter, List.mem_range'_1, decide_eq_true_eq]
    constructor
    · rintro ⟨⟨a, b⟩, c⟩; exact ⟨⟨a, by omega⟩, c⟩
    · rintro ⟨⟨a, b⟩, c⟩; exact ⟨⟨a, by omega⟩, c⟩
  generalize (List.range' 1 n).filter (fun j => decide (j ≠ k)) = J at mem
  obtain ⟨as, m', h1, h2⟩ := gsv_kept env t ht n hn J (fun j hj => ((mem j).1 hj).1.2) m
  obtain ⟨bs, k', g1, g2⟩ := gsv_new env t ht n k hn hk J (fun j hj => ⟨((mem j).1 hj).1.2, ((mem j).1 hj).2⟩) Memory.empty rfl
  refine ⟨J.map (emptyGsv t n), fun e => ?_⟩
  rw [(trace_rel _ _ _ _ _ hr h1).1, (trace_rel _ _ _ _ _ rel_new g1).1] at e
  rcases h2 with ⟨a, ha, hb⟩ | h2
  · exact hb (g2 a (e ▸ ha))
  · obtain ⟨j, a, b, c⟩ := (sound_trace hm h1).missing t n (by omega) hn
    refine h2 j ?_ c
    by_cases ek : j = k
    · exact .inr (ek ▸ hx)
    · exact .inl ((mem j).2 ⟨⟨a, b⟩, ek⟩)

theorem unfinished_iff {p : Parser} {m : Memory} (hr : Rel p m) (hm : Sound m) : Unfinished p ↔ ¬ m.Done := by
  constructor
  · rintro (⟨own, num, id, chan, hn, h⟩ | ⟨t, n, k, ht, h1, h2, h3, h⟩ | ⟨i, h⟩) hd
    · rw [hr.part own num id chan hn, hd.part] at h
      exact h rfl
    · rw [hr.gsv t n k ht.2, hd.gsv t n k h1 h2 h3] at h
      exact h rfl
    · rw [hr.static i, hd.static] at h
      exact h rfl
  · intro hd
    by_contra hu
    refine hd ⟨fun o i c => ?_, fun t n k h1 h2 h3 => ?_, fun i => ?_⟩
    · cases hx : m.part o i c with
      | none => rfl
      | some x =>
        exact absurd (.inl ⟨o, x.1, i, c, (hm.part o i c x hx).1, by
          rw [hr.part o x.1 i c (hm.part o i c x hx).1, hx]; simp [partOfMemory]⟩) hu
    · cases hx : m.gsv t n k with
      | none => rfl
      | some fs =>
        have ht := hm.gsv t n k fs hx
        exact absurd (.inr (.inl ⟨t, n, k, ht, h1, h2, h3, by rw [hr.gsv t n k ht.2, hx]; simp⟩)) hu
    · cases hx : m.static i with
      | none => rfl
      | some x => exact absurd (.inr (.inr ⟨i, by rw [hr.static i, hx]; simp⟩)) hu

theorem unfinished_shows {p : Parser} (hp : Reachable p) (h : Unfinished p) (env : Env) :
    ∃ h : List Str, answers p (h.map fun s => (env, s)) ≠ answers Parser.new (h.map fun s => (env, s)) := by
  obtain ⟨m, hr, hm⟩ := sound_reachable hp
  by_contra hno
  refine (unfinished_iff hr hm).1 h ⟨fun o i c => ?_, fun t n k h1 h2 h3 => ?_, fun i => ?_⟩
  · by_contra hx
    obtain ⟨x, hx⟩ := Option.ne_none_iff_exists'.1 hx
    exact hno (part_shows hr hm o i c x hx env)
  · by_contra hx
    exact hno (gsv_shows hr hm t n k ⟨h1, h2⟩ h3 hx env)
  · by_contra hx
    obtain ⟨x, hx⟩ := Option.ne_none_iff_exists'.1 hx
    exact hno (static_shows hr hm i x hx env)

theorem finished_as_new {p : Parser} (hp : Reachable p) (h : ¬ Unfinished p) (g : List (Env × Str)) :
    answers p g = answers Parser.new g := by
  obtain ⟨m, hr, hm⟩ := sound_reachable hp
  exact done_as_new hr (by by_contra hd; exact h ((unfinished_iff hr hm).2 hd)) g

end Nmea
