/-
The texts of `{:?}`: cutting entries apart.
-/
import Verif.Spec.Debug
import Verif.Lemmas.Keys

namespace Nmea
open Spec

/-- Cuts the text before the first comma or closing bracket that does not belong to brackets or quotation marks opened in
the text. `m`: 0 outside of quotation marks, 1 inside, 2 after a backslash. `k`: number of open brackets. -/
def scan : Nat → Nat → Str → Str × Str
  | _, _, [] => ([], [])
  | m, k, c :: cs =>
    if m = 2 then (c :: (scan 1 k cs).1, (scan 1 k cs).2)
    else if m = 1 then
      if c = '\\' then (c :: (scan 2 k cs).1, (scan 2 k cs).2)
      else if c = '"' then (c :: (scan 0 k cs).1, (scan 0 k cs).2)
      else (c :: (scan 1 k cs).1, (scan 1 k cs).2)
    else if c = '"' then (c :: (scan 1 k cs).1, (scan 1 k cs).2)
    else if c = '(' ∨ c = '[' ∨ c = '{' then (c :: (scan 0 (k + 1) cs).1, (scan 0 (k + 1) cs).2)
    else if c = ')' ∨ c = ']' ∨ c = '}' then
      if k = 0 then ([], c :: cs) else (c :: (scan 0 (k - 1) cs).1, (scan 0 (k - 1) cs).2)
    else if c = ',' ∧ k = 0 then ([], c :: cs)
    else (c :: (scan 0 k cs).1, (scan 0 k cs).2)

/-- With at least `d` open brackets the text is not cut. -/
def PassesAt (d : Nat) (v : Str) : Prop := ∀ k r, d ≤ k → scan 0 k (v ++ r) = (v ++ (scan 0 k r).1, (scan 0 k r).2)

theorem PassesAt.mono {d d' : Nat} {v : Str} (h : PassesAt d v) (hd : d ≤ d') : PassesAt d' v :=
  fun k r hk => h k r (hd.trans hk)

theorem passes_nil (d : Nat) : PassesAt d [] := fun _ _ _ => rfl

theorem PassesAt.append {d : Nat} {v w : Str} (hv : PassesAt d v) (hw : PassesAt d w) : PassesAt d (v ++ w) := by
  intro k r hk
  rw [List.append_assoc, hv k _ hk, hw k r hk]
  simp

/-- A character that is not a bracket, comma or quotation mark. -/
def Neutral (c : Char) : Prop := c ∉ c! "\"()[]{},"

instance (c) : Decidable (Neutral c) := by unfold Neutral; infer_instance

theorem passes_neutral {v : Str} (h : ∀ c ∈ v, Neutral c) : PassesAt 0 v := by
  induction v with
  | nil => exact passes_nil 0
  | cons c cs ih =>
    intro k r hk
    have hc := h c (by simp)
    simp only [Neutral, List.mem_cons, List.not_mem_nil, or_false, not_or] at hc
    obtain ⟨h1, h2, h3, h4, h5, h6, h7, h8⟩ := hc
    rw [List.cons_append, scan]
    simp [h1, h2, h3, h4, h5, h6, h7, h8, ih (fun c hc => h c (by simp [hc])) k r hk]

theorem passes_enclosed {v : Str} {a b : Char} (ha : a = '(' ∨ a = '[' ∨ a = '{') (hb : b = ')' ∨ b = ']' ∨ b = '}')
    (h : PassesAt 1 v) : PassesAt 0 (a :: (v ++ [b])) := by
  intro k r _
  have h1 : a ≠ '"' := by rcases ha with rfl | rfl | rfl <;> decide
  have h2 : b ≠ '"' := by rcases hb with rfl | rfl | rfl <;> decide
  have h3 : ¬ (b = '(' ∨ b = '[' ∨ b = '{') := by rcases hb with rfl | rfl | rfl <;> decide
  rw [List.cons_append, scan, List.append_assoc, h (k + 1) _ (by omega), List.cons_append, List.nil_append, scan]
  simp only [h1, h2, h3, ha, hb, if_true, if_false]
  simp

theorem passes_comma : PassesAt 1 (c! ", ") := by
  intro k r hk
  have h0 : k ≠ 0 := by omega
  simp [scan, h0]

theorem passes_entries {ts : List Str} (h : ∀ t ∈ ts, PassesAt 0 t) : PassesAt 1 (debugEntries ts) := by
  induction ts with
  | nil => exact passes_nil 1
  | cons t ts ih =>
    cases ts with
    | nil => exact (h t (by simp)).mono (by omega)
    | cons u us =>
      exact (((h t (by simp)).mono (by omega)).append passes_comma).append (ih fun x hx => h x (by simp [hx]))

theorem scan_entries {t : Str} {ts : List Str} (h : PassesAt 0 t) :
    scan 0 0 (debugEntries (t :: ts)) = (t, if ts = [] then [] else c! ", " ++ debugEntries ts) := by
  cases ts with
  | nil =>
    have := h 0 [] (by omega)
    simpa [debugEntries, scan] using this
  | cons u us =>
    rw [debugEntries, List.append_assoc, h 0 _ (by omega)]
    simp [scan]
    simp

theorem entries_inj {ts us : List Str} (ht : ∀ t ∈ ts, PassesAt 0 t ∧ t ≠ []) (hu : ∀ t ∈ us, PassesAt 0 t ∧ t ≠ [])
    (e : debugEntries ts = debugEntries us) : ts = us := by
  have hnil : ∀ {t : Str} {ts : List Str}, t ≠ [] → debugEntries (t :: ts) ≠ [] := by
    intro t ts h e
    cases ts <;> simp [debugEntries, h] at e
  induction ts generalizing us with
  | nil =>
    cases us with
    | nil => rfl
    | cons u us => exact absurd e.symm (hnil (hu u (by simp)).2)
  | cons t ts ih =>
    cases us with
    | nil => exact absurd e (hnil (ht t (by simp)).2)
    | cons u us =>
      have h := congrArg (scan 0 0) e
      rw [scan_entries (ht t (by simp)).1, scan_entries (hu u (by simp)).1, Prod.mk.injEq] at h
      obtain ⟨rfl, h2⟩ := h
      congr 1
      by_cases h3 : ts = []
      · by_cases h4 : us = []
        · rw [h3, h4]
        · rw [if_pos h3, if_neg h4] at h2
          cases h2
      · by_cases h4 : us = []
        · rw [if_neg h3, if_pos h4] at h2
          cases h2
        · rw [if_neg h3, if_neg h4] at h2
          exact ih (fun x hx => ht x (by simp [hx])) (fun x hx => hu x (by simp [hx])) (List.append_cancel_left h2)

/-- The texts of the values with `P` are not empty, are not cut, stay on one line, and identify the values. -/
structure Shown {α : Type} (text : α → Str) (P : α → Prop) : Prop where
  passes : ∀ x, P x → PassesAt 0 (text x)
  ne : ∀ x, P x → text x ≠ []
  line : ∀ x, P x → OneLine (text x)
  inj : ∀ x y, P x → P y → text x = text y → x = y

/-- Characters of plain texts. -/
def PlainChar (c : Char) : Prop := Neutral c ∧ ¬ Breaks c ∧ c ≠ ' '

instance (c) : Decidable (PlainChar c) := by unfold PlainChar; infer_instance

theorem shown_plain {α : Type} {text : α → Str} {P : α → Prop} (h : ∀ x, P x → text x ≠ [] ∧ ∀ c ∈ text x, PlainChar c)
    (hi : ∀ x y, P x → P y → text x = text y → x = y) : Shown text P :=
  ⟨fun x hx => passes_neutral fun c hc => ((h x hx).2 c hc).1, fun x hx => (h x hx).1,
    fun x hx c hc => ((h x hx).2 c hc).2.1, hi⟩

theorem oneLine_append {s t : Str} (hs : OneLine s) (ht : OneLine t) : OneLine (s ++ t) := by
  intro c hc
  rcases List.mem_append.1 hc with h | h
  · exact hs c h
  · exact ht c h

theorem passes_tuple {name t : Str} (hn : ∀ c ∈ name, PlainChar c) (h : PassesAt 1 t) : PassesAt 0 (debugTuple name t) := by
  have h1 : debugTuple name t = name ++ '(' :: (t ++ [')']) := by simp [debugTuple]
  rw [h1]
  exact (passes_neutral fun c hc => (hn c hc).1).append (passes_enclosed (by simp) (by simp) h)

theorem line_tuple {name t : Str} (hn : ∀ c ∈ name, PlainChar c) (h : OneLine t) : OneLine (debugTuple name t) :=
  oneLine_append (oneLine_append (oneLine_append (fun c hc => (hn c hc).2.1) (by decide)) h) (by decide)

theorem tuple_inj {name t u : Str} (h : debugTuple name t = debugTuple name u) : t = u := by
  simpa [debugTuple] using h

theorem Shown.option {α : Type} {text : α → Str} {P : α → Prop} (h : Shown text P) :
    Shown (debugOption text) (fun o => ∀ x, o = some x → P x) := by
  refine ⟨?_, ?_, ?_, ?_⟩
  · rintro (_ | x) hx
    · exact passes_neutral (v := c! "None") (by decide)
    · exact passes_tuple (name := c! "Some") (by decide) ((h.passes x (hx x rfl)).mono (by omega))
  · rintro (_ | x) hx <;> simp [debugOption]
  · rintro (_ | x) hx
    · exact (by decide : OneLine (c! "None"))
    · exact line_tuple (name := c! "Some") (by decide) (h.line x (hx x rfl))
  · rintro (_ | x) (_ | y) hx hy e
    · rfl
    · simp [debugOption] at e
    · simp [debugOption] at e
    · rw [h.inj x y (hx x rfl) (hy y rfl) (tuple_inj (name := c! "Some") e)]

theorem line_entries {ts : List Str} (h : ∀ t ∈ ts, OneLine t) : OneLine (debugEntries ts) := by
  induction ts with
  | nil => exact (by decide : OneLine [])
  | cons t ts ih =>
    cases ts with
    | nil => exact h t (by simp)
    | cons u us =>
      exact oneLine_append (oneLine_append (h t (by simp)) (by decide)) (ih fun x hx => h x (by simp [hx]))

theorem Shown.vec {α : Type} {text : α → Str} {P : α → Prop} (h : Shown text P) :
    Shown (debugVec text) (fun xs => ∀ x ∈ xs, P x) := by
  have hm : ∀ {Q : Str → Prop} {xs : List α}, (∀ x ∈ xs, Q (text x)) → ∀ t ∈ xs.map text, Q t := by
    intro Q xs h t ht
    obtain ⟨x, hx, rfl⟩ := List.mem_map.1 ht
    exact h x hx
  refine ⟨?_, ?_, ?_, ?_⟩
  · intro xs hx
    exact passes_enclosed (.inr (.inl rfl)) (.inr (.inl rfl)) (passes_entries (hm fun x hxs => h.passes x (hx x hxs)))
  · intro xs _
    simp [debugVec]
  · intro xs hx
    exact oneLine_append (oneLine_append (by decide) (line_entries (hm fun x hxs => h.line x (hx x hxs)))) (by decide)
  · intro xs ys hx hy e
    have e1 : debugEntries (xs.map text) = debugEntries (ys.map text) := by simpa [debugVec] using e
    have e2 := entries_inj (hm fun x hxs => ⟨h.passes x (hx x hxs), h.ne x (hx x hxs)⟩)
      (hm fun x hxs => ⟨h.passes x (hy x hxs), h.ne x (hy x hxs)⟩) e1
    clear e e1
    induction xs generalizing ys with
    | nil => cases ys with
      | nil => rfl
      | cons y ys => cases e2
    | cons x xs ih => cases ys with
      | nil => cases e2
      | cons y ys =>
        simp only [List.map_cons, List.cons.injEq] at e2
        rw [h.inj x y (hx x (by simp)) (hy y (by simp)) e2.1,
          ih ys (fun x hx' => hx x (by simp [hx'])) (fun x hx' => hy x (by simp [hx'])) e2.2]

/-- The text of a field: it may be cut nowhere and stays on one line. -/
def FieldOk (f : Str × Str) : Prop := (∀ c ∈ f.1, PlainChar c) ∧ PassesAt 0 f.2 ∧ OneLine f.2

theorem passes_field {f : Str × Str} (h : FieldOk f) : PassesAt 0 (f.1 ++ c! ": " ++ f.2) :=
  ((passes_neutral fun c hc => (h.1 c hc).1).append (passes_neutral (by decide))).append h.2.1

theorem line_field {f : Str × Str} (h : FieldOk f) : OneLine (f.1 ++ c! ": " ++ f.2) :=
  oneLine_append (oneLine_append (fun c hc => (h.1 c hc).2.1) (by decide)) h.2.2

theorem passes_struct {name : Str} {fs : List (Str × Str)} (hn : ∀ c ∈ name, PlainChar c) (h : ∀ f ∈ fs, FieldOk f) :
    PassesAt 0 (debugStruct name fs) := by
  have h1 : debugStruct name fs =
      name ++ c! " " ++ '{' :: ((c! " " ++ debugEntries (fs.map fun f => f.1 ++ c! ": " ++ f.2) ++ c! " ") ++ ['}']) := by
    simp [debugStruct]
  rw [h1]
  refine ((passes_neutral fun c hc => (hn c hc).1).append (passes_neutral (by decide))).append
    (passes_enclosed (by simp) (by simp) ((PassesAt.append ?_ (passes_entries ?_)).append ?_))
  · exact (passes_neutral (by decide)).mono (by omega)
  · intro t ht
    obtain ⟨f, hf, rfl⟩ := List.mem_map.1 ht
    exact passes_field (h f hf)
  · exact (passes_neutral (by decide)).mono (by omega)

theorem line_struct {name : Str} {fs : List (Str × Str)} (hn : ∀ c ∈ name, PlainChar c) (h : ∀ f ∈ fs, FieldOk f) :
    OneLine (debugStruct name fs) := by
  refine oneLine_append (oneLine_append (oneLine_append (fun c hc => (hn c hc).2.1) (by decide)) (line_entries ?_)) (by decide)
  intro t ht
  obtain ⟨f, hf, rfl⟩ := List.mem_map.1 ht
  exact line_field (h f hf)

theorem struct_inj {name : Str} {fs gs : List (Str × Str)} (hk : fs.map Prod.fst = gs.map Prod.fst)
    (hf : ∀ f ∈ fs, FieldOk f) (hg : ∀ f ∈ gs, FieldOk f) (e : debugStruct name fs = debugStruct name gs) :
    fs.map Prod.snd = gs.map Prod.snd := by
  have e1 : debugEntries (fs.map fun f => f.1 ++ c! ": " ++ f.2) = debugEntries (gs.map fun f => f.1 ++ c! ": " ++ f.2) := by
    simpa [debugStruct] using e
  have hp : ∀ {l : List (Str × Str)}, (∀ f ∈ l, FieldOk f) → ∀ t ∈ l.map (fun f => f.1 ++ c! ": " ++ f.2),
      PassesAt 0 t ∧ t ≠ [] := by
    intro l hl t ht
    obtain ⟨f, hf, rfl⟩ := List.mem_map.1 ht
    exact ⟨passes_field (hl f hf), by simp⟩
  have e2 := entries_inj (hp hf) (hp hg) e1
  clear e e1 hf hg hp
  induction fs generalizing gs with
  | nil => cases gs with
    | nil => rfl
    | cons g gs => cases e2
  | cons f fs ih => cases gs with
    | nil => cases e2
    | cons g gs =>
      simp only [List.map_cons, List.cons.injEq] at e2 hk ⊢
      refine ⟨?_, ih hk.2 e2.2⟩
      have := e2.1
      rw [hk.1] at this
      exact List.append_cancel_left this

end Nmea
