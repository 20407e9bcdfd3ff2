/-
Independence of parts of the memory: projections of histories.
-/
import Verif.Lemmas.Machine

namespace Nmea
open Spec

/-- If skipped sentences keep `sim` and the others give the same answer from related memories, then the
answers to the sentences of `P` are those of the history of these sentences only. -/
theorem projection (P H : Str → Prop) (sim : Memory → Memory → Prop)
    (hskip : ∀ env m s a m' k, H s → ¬ P s → sim k m → Step env m s a m' → sim k m')
    (hstep : ∀ env m s a m' k, H s → P s → sim k m → Step env m s a m' → ∃ k', Step env k s a k' ∧ sim k' m')
    (h : List (Env × Str)) (hH : ∀ x ∈ h, H x.2) (p q : Parser) (m k : Memory) (hp : Rel p m) (hq : Rel q k)
    (hs : sim k m) : answersTo P p h = answers q (only P h) := by
  induction h generalizing p q m k with
  | nil => rfl
  | cons x h ih =>
    obtain ⟨env, s⟩ := x
    obtain ⟨a, m', hst⟩ := step_total env m s
    obtain ⟨ha, hp'⟩ := step_rel env p m m' s a hp hst
    have hx := hH _ List.mem_cons_self
    have hH' := fun y hy => hH y (List.mem_cons_of_mem _ hy)
    by_cases hP : P s
    · obtain ⟨k', hst', hs'⟩ := hstep env m s a m' k hx hP hs hst
      obtain ⟨ha', hq'⟩ := step_rel env q k k' s a hq hst'
      rw [answersTo, if_pos hP, only, List.filter_cons, if_pos (by simpa using hP), answers, ha, ha']
      exact congrArg _ (ih hH' _ _ _ _ hp' hq' hs')
    · rw [answersTo, if_neg hP, only, List.filter_cons, if_neg (by simpa using hP)]
      exact ih hH' _ _ _ _ hp' hq (hskip env m s a m' k hx hP hs hst)

theorem Spec.IsTagged.lead {l : Char} {t k : Str} {fs : List Str} {s : Str} (h : IsTagged l t k fs s) :
    ∃ r, s = l :: r := by
  obtain ⟨-, -, -, e, -, rfl⟩ := h
  cases fs <;> cases e <;> exact ⟨_, rfl⟩

theorem Spec.Single.bang {t : Str} {own : Bool} {pl s : Str} (h : Single t own pl s) : Bang s := by
  obtain ⟨_, _, h, -⟩ := h
  exact IsTagged.lead h

theorem Spec.Part.bang {t : Str} {own : Bool} {num id : Nat} {chan pl s : Str} (h : Part t own num id chan pl s) :
    Bang s := by
  obtain ⟨_, h, -⟩ := h
  exact IsTagged.lead h

theorem Spec.GsvPart.notBang {t : Str} {n k : Nat} {fs : List Str} {s : Str} (h : GsvPart t n k fs s) : ¬ Bang s := by
  rintro ⟨r, e⟩
  obtain ⟨r', e'⟩ := IsTagged.lead (l := '$') h.1
  rw [e] at e'
  exact absurd (List.cons.inj e').1 (by decide)

/-- A message touches the static data only, and depends on them only. -/
theorem message_frame {env : Env} {m m' : Memory} {t : Str} {own : Bool} {pl : Str} {a : Answer}
    (h : Message env m t own pl a m') : m'.part = m.part ∧ m'.gsv = m.gsv := by
  cases h <;> exact ⟨rfl, rfl⟩

theorem message_transfer {env : Env} {m m' k : Memory} {t : Str} {own : Bool} {pl : Str} {a : Answer}
    (h : Message env m t own pl a m') (hk : k.static = m.static) :
    ∃ k', Message env k t own pl a k' ∧ k'.static = m'.static ∧ k'.part = k.part := by
  cases h with
  | plain h => exact ⟨_, .plain h, hk, rfl⟩
  | first h hm =>
    exact ⟨_, .first h (by rw [hk]; exact hm), by funext i; simp only [Memory.setStatic, hk], rfl⟩
  | second o b h hm =>
    exact ⟨_, .second o b h (by rw [hk]; exact hm), by funext i; simp only [Memory.setStatic, hk], rfl⟩

/-- The AIS part of the memory. -/
def simAis (k m : Memory) : Prop := k.part = m.part ∧ k.static = m.static

theorem bang_skip (env : Env) (m : Memory) (s : Str) (a : Answer) (m' k : Memory) (hP : ¬ Bang s) (hs : simAis k m)
    (h : Step env m s a m') : simAis k m' := by
  cases h with
  | single h _ => exact absurd h.bang hP
  | waits h _ _ => exact absurd h.bang hP
  | first h _ _ => exact absurd h.bang hP
  | second h _ _ => exact absurd h.bang hP
  | gsvWaits _ _ _ => exact hs
  | gsvDone _ _ _ => exact hs
  | gsvHuge _ => exact hs
  | other _ => exact hs

theorem setPart_sim {k m : Memory} (own : Bool) (id : Nat) (chan : Str) (x : Option (Nat × Str)) (h : k.part = m.part) :
    (k.setPart own id chan x).part = (m.setPart own id chan x).part := by
  funext o i c
  simp only [Memory.setPart, h]

theorem bang_step (env : Env) (m : Memory) (s : Str) (a : Answer) (m' k : Memory) (hP : Bang s) (hs : simAis k m)
    (h : Step env m s a m') : ∃ k', Step env k s a k' ∧ simAis k' m' := by
  cases h with
  | single h hm =>
    obtain ⟨k', h1, h2, h3⟩ := message_transfer hm hs.2
    exact ⟨k', .single h h1, by rw [h3, hs.1, (message_frame hm).1], h2⟩
  | waits h hn hw =>
    exact ⟨_, .waits h hn (by rw [hs.1]; exact hw), setPart_sim _ _ _ _ hs.1, hs.2⟩
  | @first talker own id chan x y _ _ h hw hm =>
    obtain ⟨k', h1, h2, h3⟩ := message_transfer (k := k.setPart own id chan none) hm hs.2
    exact ⟨k', .first h (by rw [hs.1]; exact hw) h1,
      by rw [h3, setPart_sim _ _ _ _ hs.1, (message_frame hm).1], h2⟩
  | @second talker own id chan x y _ _ h hw hm =>
    obtain ⟨k', h1, h2, h3⟩ := message_transfer (k := k.setPart own id chan none) hm hs.2
    exact ⟨k', .second h (by rw [hs.1]; exact hw) h1,
      by rw [h3, setPart_sim _ _ _ _ hs.1, (message_frame hm).1], h2⟩
  | gsvWaits h _ _ => exact absurd hP h.notBang
  | gsvDone h _ _ => exact absurd hP h.notBang
  | gsvHuge h => exact absurd hP h.notBang
  | other h => exact ⟨_, .other h, hs⟩

/-- The GSV memory of the groups `G`. -/
def simGsv (G : Str → Nat → Prop) (k m : Memory) : Prop := ∀ t n j, G t n → k.gsv t n j = m.gsv t n j

theorem gsv_skip (P : Str → Prop) (G : Str → Nat → Prop)
    (hPG : ∀ t n k fs s, GsvPart t n k fs s → G t n → P s)
    (env : Env) (m : Memory) (s : Str) (a : Answer) (m' k : Memory)
    (hP : ¬ P s) (hs : simGsv G k m) (h : Step env m s a m') : simGsv G k m' := by
  cases h with
  | single _ hm => rw [simGsv, (message_frame hm).2]; exact hs
  | waits _ _ _ => exact hs
  | first _ _ hm => rw [simGsv, (message_frame hm).2]; exact hs
  | second _ _ hm => rw [simGsv, (message_frame hm).2]; exact hs
  | @gsvWaits talker n j fs h _ _ =>
    intro t n' j' hG
    rw [hs t n' j' hG]
    exact (if_neg (fun e : t = talker ∧ n' = n ∧ j' = j => by
      obtain ⟨rfl, rfl, -⟩ := e; exact hP (hPG _ _ _ _ _ h hG))).symm
  | @gsvDone talker n j fs h _ _ =>
    intro t n' j' hG
    have hne : ¬ (t = talker ∧ n' = n) := fun e => by
      obtain ⟨rfl, rfl⟩ := e; exact hP (hPG _ _ _ _ _ h hG)
    rw [hs t n' j' hG]
    simp only [Memory.clearGsv, Memory.setGsv]
    rw [if_neg (fun e => hne ⟨e.1, e.2.1⟩), if_neg (fun e => hne ⟨e.1, e.2.1⟩)]
  | @gsvHuge talker j fs h =>
    intro t n' j' hG
    rw [hs t n' j' hG]
    exact (if_neg (fun e : t = talker ∧ n' = 2 ^ 32 - 1 ∧ j' = j => by
      obtain ⟨rfl, rfl, -⟩ := e; exact hP (hPG _ _ _ _ _ h hG))).symm
  | other _ => exact hs

theorem simGsv_set {G : Str → Nat → Prop} {k m : Memory} (hs : simGsv G k m) (talker : Str) (n j : Nat) (fs : List Str) :
    simGsv G (k.setGsv talker n j fs) (m.setGsv talker n j fs) := by
  intro t n' j' hG
  simp only [Memory.setGsv]
  split
  · rfl
  · exact hs t n' j' hG

theorem gsv_step (P : Str → Prop) (G : Str → Nat → Prop) (hP1 : ∀ s, P s → ¬ Bang s)
    (hPG : ∀ t n k fs s, GsvPart t n k fs s → P s → G t n)
    (env : Env) (m : Memory) (s : Str) (a : Answer) (m' k : Memory) (hP : P s) (hs : simGsv G k m)
    (h : Step env m s a m') : ∃ k', Step env k s a k' ∧ simGsv G k' m' := by
  cases h with
  | single h _ => exact absurd h.bang (hP1 s hP)
  | waits h _ _ => exact absurd h.bang (hP1 s hP)
  | first h _ _ => exact absurd h.bang (hP1 s hP)
  | second h _ _ => exact absurd h.bang (hP1 s hP)
  | @gsvWaits talker n j fs h hn hw =>
    have hG := hPG _ _ _ _ _ h hP
    obtain ⟨i, h1, h2, h3, h4⟩ := hw
    exact ⟨_, .gsvWaits h hn ⟨i, h1, h2, h3, by rw [hs _ _ _ hG]; exact h4⟩, simGsv_set hs _ _ _ _⟩
  | @gsvDone talker n j fs h hn hw =>
    have hG := hPG _ _ _ _ _ h hP
    have hs' := simGsv_set hs talker n j fs
    refine ⟨(k.setGsv talker n j fs).clearGsv talker n, ?_, ?_⟩
    · have hd := Step.gsvDone (env := env) (m := k) h hn (fun i h1 h2 h3 => by rw [hs _ _ _ hG]; exact hw i h1 h2 h3)
      rw [show ((List.range' 1 n).flatMap fun j' =>
          satellites (talkerSystem talker) (((m.setGsv talker n j fs).gsv talker n j').getD [])) =
        ((List.range' 1 n).flatMap fun j' =>
          satellites (talkerSystem talker) (((k.setGsv talker n j fs).gsv talker n j').getD [])) from
        List.flatMap_congr (fun i _ => by rw [hs' talker n i hG])]
      exact hd
    · intro t n' j' hG'
      simp only [Memory.clearGsv]
      split
      · rfl
      · exact hs' t n' j' hG'
  | @gsvHuge talker j fs h => exact ⟨_, .gsvHuge h, simGsv_set hs _ _ _ _⟩
  | other h => exact ⟨_, .other h, hs⟩

/-! ### Two-part groups -/

theorem natBits_charBits (c : Char) : (charBits c).length = 6 := length_natBits _ _

theorem typeOf_append (x y : Str) (hx : x ≠ []) : typeOf (payloadBits (x ++ y)) = typeOf (payloadBits x) := by
  cases x with
  | nil => exact absurd rfl hx
  | cons c x =>
    have h6 := natBits_charBits c
    have hw : ∀ z : List Bool, window (charBits c ++ z) 0 6 = charBits c := by
      intro z
      rw [window_append_left _ _ _ _ (by omega), window]
      simp [h6]
    simp only [typeOf, payloadBits, List.cons_append, List.map_cons, List.flatten_cons, hw]

/-- A first part whose message is not of type 24. -/
def NotStatic (x : Str) : Prop := x ≠ [] ∧ typeOf (payloadBits x) ≠ 24

theorem NotStatic.plain {x : Str} (h : NotStatic x) (env : Env) (y : Str) : ¬ IsStaticPart env (x ++ y) :=
  fun hs => h.2 (by rw [← typeOf_append x y h.1]; exact hs.2.1)

/-- The memory of a group. -/
def simPart (own : Bool) (id : Nat) (chan : Str) (k m : Memory) : Prop :=
  k.part own id chan = m.part own id chan ∧ ∀ x, m.part own id chan = some (1, x) → NotStatic x

theorem part_skip (own : Bool) (id : Nat) (chan : Str) (env : Env) (m : Memory) (s : Str) (a : Answer) (m' k : Memory)
    (hP : ¬ InGroup own id chan s) (hs : simPart own id chan k m) (h : Step env m s a m') :
    simPart own id chan k m' := by
  have other : ∀ {own' : Bool} {id' : Nat} {chan' : Str} (x : Option (Nat × Str)), (∃ t num pl, Part t own' num id' chan' pl s) →
      (m.setPart own' id' chan' x).part own id chan = m.part own id chan := by
    rintro own' id' chan' x ⟨t, num, pl, hp⟩
    exact if_neg (fun e : own = own' ∧ id = id' ∧ chan = chan' => by
      obtain ⟨rfl, rfl, rfl⟩ := e; exact hP ⟨_, _, _, hp⟩)
  cases h with
  | single _ hm => rw [simPart, (message_frame hm).1]; exact hs
  | waits h _ _ => rw [simPart, other _ ⟨_, _, _, h⟩]; exact hs
  | first h _ hm => rw [simPart, (message_frame hm).1, other _ ⟨_, _, _, h⟩]; exact hs
  | second h _ hm => rw [simPart, (message_frame hm).1, other _ ⟨_, _, _, h⟩]; exact hs
  | gsvWaits _ _ _ => exact hs
  | gsvDone _ _ _ => exact hs
  | gsvHuge _ => exact hs
  | other _ => exact hs

theorem Spec.Single.notInGroup {t : Str} {own own' : Bool} {pl s : Str} {id : Nat} {chan : Str}
    (h : Single t own pl s) : ¬ InGroup own' id chan s := by
  rintro ⟨t', num, pl', fs', h', d', -⟩
  obtain ⟨fs, k, hf, d, -⟩ := h
  obtain ⟨-, -, rfl⟩ := hf.unique h'
  exact absurd (d.unique d') (by decide)

theorem setPart_self (m : Memory) (own : Bool) (id : Nat) (chan : Str) (x : Option (Nat × Str)) :
    (m.setPart own id chan x).part own id chan = x := if_pos ⟨rfl, rfl, rfl⟩

theorem part_step (own : Bool) (id : Nat) (chan : Str) (env : Env) (m : Memory) (s : Str) (a : Answer) (m' k : Memory)
    (hH : ∀ t x, Part t own 1 id chan x s → NotStatic x)
    (hP : InGroup own id chan s) (hs : simPart own id chan k m) (h : Step env m s a m') :
    ∃ k', Step env k s a k' ∧ simPart own id chan k' m' := by
  obtain ⟨t0, num0, pl0, hP'⟩ := hP
  cases h with
  | single h _ => exact absurd ⟨_, _, _, hP'⟩ h.notInGroup
  | waits h hn hw =>
    obtain ⟨rfl, rfl, rfl, rfl, rfl, rfl⟩ := h.unique hP'
    refine ⟨_, .waits h hn (by rw [hs.1]; exact hw), by rw [setPart_self, setPart_self], ?_⟩
    intro x hx
    rw [setPart_self] at hx
    cases hx
    exact hH _ _ h
  | @first _ _ _ _ x y _ _ h hw hm =>
    obtain ⟨rfl, rfl, rfl, rfl, rfl, rfl⟩ := h.unique hP'
    have hpl := (hH _ _ h).plain env y
    cases hm with
    | plain _ =>
      refine ⟨_, .first h (by rw [hs.1]; exact hw) (.plain hpl), by rw [setPart_self, setPart_self], ?_⟩
      intro x hx
      rw [setPart_self] at hx
      cases hx
    | first hst _ => exact absurd hst hpl
    | second _ _ hst _ => exact absurd hst hpl
  | @second _ _ _ _ x y _ _ h hw hm =>
    obtain ⟨rfl, rfl, rfl, rfl, rfl, rfl⟩ := h.unique hP'
    have hpl := (hs.2 _ hw).plain env y
    cases hm with
    | plain _ =>
      refine ⟨_, .second h (by rw [hs.1]; exact hw) (.plain hpl), by rw [setPart_self, setPart_self], ?_⟩
      intro x hx
      rw [setPart_self] at hx
      cases hx
    | first hst _ => exact absurd hst hpl
    | second _ _ hst _ => exact absurd hst hpl
  | gsvWaits h _ _ => exact absurd hP'.bang h.notBang
  | gsvDone h _ _ => exact absurd hP'.bang h.notBang
  | gsvHuge h => exact absurd hP'.bang h.notBang
  | other h => exact ⟨_, .other h, hs⟩

end Nmea
