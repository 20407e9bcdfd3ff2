/-
The texts of `{:#?}`: bringing them on one line.
-/
import Verif.Spec.Pretty
import Verif.Lemmas.DebugLeaves

namespace Nmea
open Spec

/-- The text with `k` spaces after each line break. -/
def shifted (k : Nat) (s : Str) : Str := s.flatMap fun c => if c = '\n' then '\n' :: List.replicate k ' ' else [c]

theorem shifted_append (k : Nat) (s t : Str) : shifted k (s ++ t) = shifted k s ++ shifted k t := by
  simp [shifted]

theorem shifted_line {s : Str} (k : Nat) (h : '\n' ∉ s) : shifted k s = s := by
  induction s with
  | nil => rfl
  | cons c cs ih =>
    have h1 : c ≠ '\n' := fun e => h (by simp [e])
    have h2 := ih fun h' => h (by simp [h'])
    simp only [shifted, List.flatMap_cons, h1, if_false] at h2 ⊢
    rw [h2]
    rfl

theorem shifted_break (k : Nat) : shifted k ['\n'] = '\n' :: List.replicate k ' ' := by simp [shifted]

theorem shifted_shifted (k j : Nat) (s : Str) : shifted k (shifted j s) = shifted (j + k) s := by
  induction s with
  | nil => rfl
  | cons c cs ih =>
    have e : shifted j (c :: cs) = shifted j [c] ++ shifted j cs := shifted_append j [c] cs
    have e' : shifted (j + k) (c :: cs) = shifted (j + k) [c] ++ shifted (j + k) cs := shifted_append _ [c] cs
    rw [e, e', shifted_append, ih]
    congr 1
    by_cases h : c = '\n'
    · subst h
      rw [shifted_break, shifted_break, ← List.singleton_append, shifted_append, shifted_break,
        shifted_line k (by simp), List.cons_append, ← List.replicate_add, Nat.add_comm]
    · rw [shifted_line j (by simpa using fun e => h e.symm), shifted_line k (by simpa using fun e => h e.symm),
        shifted_line _ (by simpa using fun e => h e.symm)]

theorem padded_line (on : Bool) (s : Str) : padded on (s ++ c! "\n") = (if on then c! "    " else []) ++ shifted 4 s ++ c! "\n" := by
  induction s generalizing on with
  | nil => simp [padded, shifted]
  | cons c cs ih =>
    rw [List.cons_append, padded, ih]
    have e : shifted 4 (c :: cs) = shifted 4 [c] ++ shifted 4 cs := shifted_append 4 [c] cs
    rw [e]
    by_cases h : c = '\n'
    · subst h
      simp [shifted, List.replicate]
    · simp [shifted, h]

/-- What is written before a value after a comma. -/
def before (m : Nat) : Str := if m = 3 then c! ", " else []

/-- The text `p`, shifted in any way, is brought on one line as `d`. -/
def Joins (p d : Str) : Prop := ∀ k m r, m = 0 ∨ m = 3 ∨ m = 4 → joinLines m (shifted k p ++ r) = before m ++ (d ++ joinLines 0 r)

theorem join_blanks {m : Nat} (hm : m = 3 ∨ m = 4) {s : Str} (h : ∀ c ∈ s, c = ' ' ∨ c = '\n') (r : Str) :
    joinLines m (s ++ r) = joinLines m r := by
  induction s with
  | nil => rfl
  | cons c cs ih =>
    have h1 := h c (by simp)
    rw [List.cons_append, joinLines, if_neg (by omega), if_neg (by omega), if_pos ⟨by omega, h1⟩]
    exact ih fun d hd => h d (by simp [hd])

theorem join_plain0 {s : Str} (h : ∀ c ∈ s, Neutral c) (r : Str) : joinLines 0 (s ++ r) = s ++ joinLines 0 r := by
  induction s with
  | nil => rfl
  | cons c cs ih =>
    have h1 := h c (by simp)
    simp only [Neutral, List.mem_cons, List.not_mem_nil, or_false, not_or] at h1
    obtain ⟨a1, a2, -, a4, -, a6, -, a8⟩ := h1
    rw [List.cons_append, joinLines, ih fun d hd => h d (by simp [hd])]
    simp [a1, a2, a4, a6, a8]

/-- A text without brackets, commas, quotation marks, blanks and line breaks. -/
def Word (s : Str) : Prop := s ≠ [] ∧ ∀ c ∈ s, PlainChar c

instance (s) : Decidable (Word s) := by unfold Word; infer_instance

theorem plainChar_break {c : Char} (h : PlainChar c) : c ≠ '\n' := by
  rintro rfl
  exact h.2.1 (by decide)

theorem Word.line {s : Str} (h : Word s) : '\n' ∉ s := fun hc => plainChar_break (h.2 _ hc) rfl

theorem join_word {s : Str} (h : Word s) (m : Nat) (hm : m = 0 ∨ m = 3 ∨ m = 4) (r : Str) :
    joinLines m (s ++ r) = before m ++ (s ++ joinLines 0 r) := by
  obtain ⟨h0, h⟩ := h
  cases s with
  | nil => exact absurd rfl h0
  | cons c cs =>
    have h1 := (h c (by simp)).1
    have hb := plainChar_break (h c (by simp))
    have hs := (h c (by simp)).2.2
    simp only [Neutral, List.mem_cons, List.not_mem_nil, or_false, not_or] at h1
    obtain ⟨a1, a2, a3, a4, a5, a6, a7, a8⟩ := h1
    rw [List.cons_append, joinLines, join_plain0 fun d hd => (h d (by simp [hd])).1]
    rcases hm with rfl | rfl | rfl <;> simp [before, a1, a2, a3, a4, a5, a6, a7, a8, hb, hs]

theorem joins_word {s : Str} (h : Word s) : Joins s s := by
  intro k m r hm
  rw [shifted_line k h.line]
  exact join_word h m hm r

theorem join_quoted {v : Str} (h : ∀ c ∈ v, c ≠ '\\' ∧ c ≠ '"') (r : Str) : joinLines 1 (v ++ r) = v ++ joinLines 1 r := by
  induction v with
  | nil => rfl
  | cons c cs ih =>
    have h1 := h c (by simp)
    rw [List.cons_append, joinLines]
    simp [h1.1, h1.2, ih fun d hd => h d (by simp [hd])]

theorem charText_join {c : Char} {s : Str} (h : CharText c s) (r : Str) : joinLines 1 (s ++ r) = s ++ joinLines 1 r := by
  cases h with
  | plain h1 h2 _ => exact join_quoted (by simpa using ⟨h2, h1⟩) r
  | slash x _ => simp [joinLines]
  | code =>
    have h1 : ∀ d ∈ Nat.toDigits 16 c.toNat, d ≠ '\\' ∧ d ≠ '"' := by
      have : ∀ d ∈ c! "0123456789abcdef", d ≠ '\\' ∧ d ≠ '"' := by decide
      exact fun d hd => this d (hex_chars _ d hd)
    have h2 := join_quoted (v := '{' :: (Nat.toDigits 16 c.toNat ++ ['}'])) (by
      intro d hd
      rcases List.mem_cons.1 hd with rfl | hd
      · decide
      · rcases List.mem_append.1 hd with hd | hd
        · exact h1 d hd
        · rw [List.mem_singleton.1 hd]; decide) r
    have h3 : c! "\\u{" ++ Nat.toDigits 16 c.toNat ++ c! "}" ++ r =
        '\\' :: 'u' :: ('{' :: (Nat.toDigits 16 c.toNat ++ ['}']) ++ r) := by simp
    have h4 : ∀ X : Str, joinLines 1 ('\\' :: 'u' :: X) = '\\' :: 'u' :: joinLines 1 X := by
      intro X
      simp [joinLines]
    rw [h3, h4, h2]
    simp

theorem joins_quoted {l : Library} (hl : LibraryOk l) (s : Str) : Joins (l.debugStr s) (l.debugStr s) := by
  have hd := charText_debug hl
  have hline := (shown_str hl).line s trivial
  intro k m r hm
  rw [shifted_line k fun hc => hline _ hc (by decide)]
  clear hline
  revert hd
  unfold Library.debugStr Env.debugStr
  generalize Env.debugChar ⟨⟨1970, 1, 1, 0, 0, 0⟩, false, l.escape⟩ = t
  intro hd
  have h : ∀ r, joinLines 1 (s.flatMap t ++ r) = s.flatMap t ++ joinLines 1 r := by
    intro r
    induction s with
    | nil => rfl
    | cons c cs ih => rw [List.flatMap_cons, List.append_assoc, charText_join (hd c), ih, List.append_assoc]
  have h1 : ∀ X, joinLines m ('"' :: X) = before m ++ '"' :: joinLines 1 X := by
    intro X
    rw [joinLines]
    rcases hm with rfl | rfl | rfl <;> simp [before]
  rw [List.cons_append, List.cons_append, h1, List.append_assoc, h]
  simp [joinLines]

/-! ### Brackets -/

theorem join_open {m : Nat} (hm : m = 0 ∨ m = 3 ∨ m = 4) {c : Char} (hc : c = '(' ∨ c = '[') (r : Str) :
    joinLines m (c :: r) = before m ++ c :: joinLines 4 r := by
  rw [joinLines]
  rcases hm with rfl | rfl | rfl <;> rcases hc with rfl | rfl <;> simp [before]

theorem join_brace (r : Str) : joinLines 0 ('{' :: r) = c! "{ " ++ joinLines 4 r := by
  simp [joinLines]

theorem join_comma (r : Str) : joinLines 0 (',' :: r) = joinLines 3 r := by
  simp [joinLines]

theorem join_close {c : Char} (hc : c = ')' ∨ c = ']') (r : Str) : joinLines 3 (c :: r) = c :: joinLines 0 r := by
  rw [joinLines]
  rcases hc with rfl | rfl <;> simp

theorem join_close_brace (r : Str) : joinLines 3 ('}' :: r) = c! " }" ++ joinLines 0 r := by
  simp [joinLines]

/-- Entries on lines of their own. -/
def onLines (ps : List Str) : Str := (ps.map fun p => padded true (p ++ c! ",\n")).flatten

theorem blanks_shift (k : Nat) : ∀ c ∈ shifted k ['\n'], c = ' ' ∨ c = '\n' := by
  rw [shifted_break]
  intro c hc
  rcases List.mem_cons.1 hc with rfl | hc
  · exact .inr rfl
  · exact .inl (List.eq_of_mem_replicate hc)

/-- One entry. -/
theorem join_line {p d : Str} (h : Joins p d) (k m : Nat) (hm : m = 3 ∨ m = 4) (r : Str) :
    joinLines m (shifted k (padded true (p ++ c! ",\n")) ++ r) = before m ++ (d ++ joinLines 3 r) := by
  have e : p ++ c! ",\n" = (p ++ c! ",") ++ c! "\n" := by simp
  rw [e, padded_line, if_pos rfl, shifted_append, shifted_append, shifted_append, shifted_line k (s := c! "    ") (by decide),
    shifted_append, shifted_shifted, List.append_assoc, List.append_assoc, List.append_assoc, join_blanks hm (by decide),
    h _ m _ (.inr hm), shifted_line _ (s := c! ",") (by decide), shifted_line _ (s := c! ",") (by decide)]
  rw [List.cons_append, List.nil_append, join_comma, join_blanks (.inl rfl) (blanks_shift k)]

theorem join_onLines {ps ds : List Str} (h : List.Forall₂ Joins ps ds) (hne : ps ≠ []) (k m : Nat) (hm : m = 3 ∨ m = 4) (r : Str) :
    joinLines m (shifted k (onLines ps) ++ r) = before m ++ (debugEntries ds ++ joinLines 3 r) := by
  induction h generalizing m with
  | nil => exact absurd rfl hne
  | @cons p d ps ds hp hps ih =>
    have e : onLines (p :: ps) = padded true (p ++ c! ",\n") ++ onLines ps := by simp [onLines]
    rw [e, shifted_append, List.append_assoc, join_line hp k m hm]
    cases hps with
    | nil => simp [onLines, shifted, debugEntries]
    | @cons p' d' ps ds hp' hps =>
      have e' : debugEntries (d :: d' :: ds) = d ++ c! ", " ++ debugEntries (d' :: ds) := rfl
      rw [ih (by simp) 3 (.inl rfl), e']
      simp [before]

theorem joins_tuple {name p d : Str} (hn : Word name) (h : Joins p d) :
    Joins (name ++ c! "(\n" ++ padded true (p ++ c! ",\n") ++ c! ")") (debugTuple name d) := by
  intro k m r hm
  have e : c! "(\n" = c! "(" ++ c! "\n" := rfl
  rw [e, shifted_append, shifted_append, shifted_append, shifted_append, shifted_line k hn.line, shifted_line k (s := c! "(") (by decide),
    shifted_line k (s := c! ")") (by decide), List.append_assoc, List.append_assoc, List.append_assoc, join_word hn m hm,
    List.append_assoc, List.cons_append, List.nil_append, join_open (.inl rfl) (.inl rfl), join_blanks (.inr rfl) (blanks_shift k),
    join_line h k 4 (.inr rfl), List.cons_append, List.nil_append, join_close (.inl rfl)]
  simp [before, debugTuple]

theorem joins_list {ps ds : List Str} (h : List.Forall₂ Joins ps ds) :
    Joins (match ps with | [] => c! "[]" | _ :: _ => c! "[\n" ++ onLines ps ++ c! "]") (c! "[" ++ debugEntries ds ++ c! "]") := by
  intro k m r hm
  cases h with
  | nil =>
    rw [shifted_line k (by decide), List.cons_append, join_open hm (.inr rfl)]
    simp [joinLines, debugEntries]
  | @cons p d ps ds hp hps =>
    have e : c! "[\n" = c! "[" ++ c! "\n" := rfl
    simp only
    rw [e, shifted_append, shifted_append, shifted_append, shifted_line k (s := c! "[") (by decide),
      shifted_line k (s := c! "]") (by decide), List.append_assoc, List.append_assoc, List.append_assoc, List.cons_append, List.nil_append,
      join_open hm (.inr rfl), join_blanks (.inr rfl) (blanks_shift k), join_onLines (.cons hp hps) (by simp) k 4 (.inr rfl),
      List.cons_append, List.nil_append, join_close (.inr rfl)]
    simp [before]

theorem joins_field {name p d : Str} (hn : Word name) (h : Joins p d) : Joins (name ++ c! ": " ++ p) (name ++ c! ": " ++ d) := by
  intro k m r hm
  rw [shifted_append, shifted_append, shifted_line k hn.line, shifted_line k (s := c! ": ") (by decide), List.append_assoc,
    List.append_assoc, join_word hn m hm, join_plain0 (by decide), h k 0 r (.inl rfl)]
  simp [before]

theorem joins_struct {name : Str} {ps ds : List Str} (hn : Word name) (hne : ps ≠ []) (h : List.Forall₂ Joins ps ds) :
    Joins (name ++ c! " {\n" ++ onLines ps ++ c! "}") (name ++ c! " { " ++ debugEntries ds ++ c! " }") := by
  intro k m r hm
  have e : c! " {\n" = c! " " ++ (c! "{" ++ c! "\n") := rfl
  rw [e, shifted_append, shifted_append, shifted_append, shifted_append, shifted_append, shifted_line k hn.line,
    shifted_line k (s := c! " ") (by decide), shifted_line k (s := c! "{") (by decide), shifted_line k (s := c! "}") (by decide),
    List.append_assoc, List.append_assoc, List.append_assoc, List.append_assoc, List.append_assoc, join_word hn m hm,
    join_plain0 (s := c! " ") (by decide), List.singleton_append (x := '{'), join_brace, join_blanks (.inr rfl) (blanks_shift k),
    join_onLines h hne k 4 (.inr rfl), List.singleton_append (x := '}'), join_close_brace]
  simp [before]

/-! ### Indentation -/

/-- A text that starts a value. -/
def Starts (p : Str) : Prop := ∃ c cs, p = c :: cs ∧ c ≠ ' ' ∧ c ≠ '\n' ∧ c ≠ ')' ∧ c ≠ ']' ∧ c ≠ '}'

/-- The text, with `k` brackets open before it, is indented as it should be. -/
def Fits (p : Str) : Prop := Starts p ∧ ∀ k r, Indented k 0 (shifted (4 * k) p ++ r) ↔ Indented k 0 r

theorem indented_plain {s : Str} (h : ∀ c ∈ s, Neutral c ∧ c ≠ '\n') (k : Nat) (r : Str) :
    Indented k 0 (s ++ r) ↔ Indented k 0 r := by
  induction s with
  | nil => rfl
  | cons c cs ih =>
    obtain ⟨h1, h2⟩ := h c (by simp)
    simp only [Neutral, List.mem_cons, List.not_mem_nil, or_false, not_or] at h1
    obtain ⟨a1, a2, a3, a4, a5, a6, a7, a8⟩ := h1
    rw [List.cons_append, Indented, ← ih fun d hd => h d (by simp [hd])]
    simp [a1, a2, a3, a4, a5, a6, a7, h2]

theorem word_starts {s : Str} (h : Word s) (t : Str) : Starts (s ++ t) := by
  obtain ⟨h0, h⟩ := h
  cases s with
  | nil => exact absurd rfl h0
  | cons c cs =>
    have h1 := h c (by simp)
    have h2 := h1.1
    simp only [Neutral, List.mem_cons, List.not_mem_nil, or_false, not_or] at h2
    exact ⟨c, cs ++ t, rfl, h1.2.2, plainChar_break h1, h2.2.2.1, h2.2.2.2.2.1, h2.2.2.2.2.2.2.1⟩

theorem indented_word {s : Str} (h : Word s) (k : Nat) (r : Str) : Indented k 0 (s ++ r) ↔ Indented k 0 r :=
  indented_plain (fun c hc => ⟨(h.2 c hc).1, plainChar_break (h.2 c hc)⟩) k r

theorem fits_word {s : Str} (h : Word s) : Fits s := by
  refine ⟨by simpa using word_starts h [], fun k r => ?_⟩
  rw [shifted_line _ h.line, indented_word h]

theorem indented_quoted {v : Str} (h : ∀ c ∈ v, c ≠ '\\' ∧ c ≠ '"') (k : Nat) (r : Str) : Indented k 1 (v ++ r) ↔ Indented k 1 r := by
  induction v with
  | nil => rfl
  | cons c cs ih =>
    have h1 := h c (by simp)
    rw [List.cons_append, Indented, ← ih fun d hd => h d (by simp [hd])]
    simp [h1.1, h1.2]

theorem charText_indented {c : Char} {s : Str} (h : CharText c s) (k : Nat) (r : Str) : Indented k 1 (s ++ r) ↔ Indented k 1 r := by
  cases h with
  | plain h1 h2 _ => exact indented_quoted (by simpa using ⟨h2, h1⟩) k r
  | slash x _ => simp [Indented]
  | code =>
    have h1 : ∀ d ∈ Nat.toDigits 16 c.toNat, d ≠ '\\' ∧ d ≠ '"' := by
      have : ∀ d ∈ c! "0123456789abcdef", d ≠ '\\' ∧ d ≠ '"' := by decide
      exact fun d hd => this d (hex_chars _ d hd)
    have h2 := indented_quoted (v := '{' :: (Nat.toDigits 16 c.toNat ++ ['}'])) (by
      intro d hd
      rcases List.mem_cons.1 hd with rfl | hd
      · decide
      · rcases List.mem_append.1 hd with hd | hd
        · exact h1 d hd
        · rw [List.mem_singleton.1 hd]; decide) k r
    have h3 : c! "\\u{" ++ Nat.toDigits 16 c.toNat ++ c! "}" ++ r =
        '\\' :: 'u' :: ('{' :: (Nat.toDigits 16 c.toNat ++ ['}']) ++ r) := by simp
    have h4 : ∀ X : Str, Indented k 1 ('\\' :: 'u' :: X) ↔ Indented k 1 X := by
      intro X
      simp [Indented]
    rw [h3, h4, h2]

theorem fits_quoted {l : Library} (hl : LibraryOk l) (s : Str) : Fits (l.debugStr s) := by
  have hd := charText_debug hl
  have hline := (shown_str hl).line s trivial
  refine ⟨⟨'"', _, rfl, by decide, by decide, by decide, by decide, by decide⟩, fun k r => ?_⟩
  rw [shifted_line _ fun hc => hline _ hc (by decide)]
  clear hline
  revert hd
  unfold Library.debugStr Env.debugStr
  generalize Env.debugChar ⟨⟨1970, 1, 1, 0, 0, 0⟩, false, l.escape⟩ = t
  intro hd
  have h : ∀ r, Indented k 1 (s.flatMap t ++ r) ↔ Indented k 1 r := by
    intro r
    induction s with
    | nil => rfl
    | cons c cs ih => rw [List.flatMap_cons, List.append_assoc, charText_indented (hd c), ih]
  have h1 : ∀ X, Indented k 0 ('"' :: X) ↔ Indented k 1 X := by
    intro X
    simp [Indented]
  rw [List.cons_append, List.cons_append, h1, List.append_assoc, h]
  simp [Indented]

theorem takeWhile_blanks (n : Nat) {c : Char} (hc : c ≠ ' ') (r : Str) :
    ((List.replicate n ' ' ++ c :: r).takeWhile (· = ' ')).length = n ∧ (List.replicate n ' ' ++ c :: r).dropWhile (· = ' ') = c :: r := by
  induction n with
  | zero => simp [hc]
  | succ n ih => simpa [List.replicate_succ] using ih

theorem indented_blanks (n k : Nat) (r : Str) : Indented k 0 (List.replicate n ' ' ++ r) ↔ Indented k 0 r :=
  indented_plain (fun c hc => by rw [List.eq_of_mem_replicate hc]; decide) k r

/-- A line with a value. -/
theorem indented_next {p : Str} (hp : Starts p) (k : Nat) (r : Str) :
    Indented (k + 1) 0 (shifted (4 * k) ['\n'] ++ (c! "    " ++ (p ++ r))) ↔ Indented (k + 1) 0 (p ++ r) := by
  obtain ⟨c, cs, rfl, h1, h2, h3, h4, h5⟩ := hp
  have e : shifted (4 * k) ['\n'] ++ (c! "    " ++ (c :: cs ++ r)) = '\n' :: (List.replicate (4 * (k + 1)) ' ' ++ c :: (cs ++ r)) := by
    rw [shifted_break, show c! "    " = List.replicate 4 ' ' from rfl, List.cons_append, ← List.append_assoc, ← List.replicate_add,
      List.cons_append]
    rfl
  obtain ⟨e1, e2⟩ := takeWhile_blanks (4 * (k + 1)) h1 (cs ++ r)
  rw [e, Indented]
  simp only [e1, e2]
  have hc : closes (c :: (cs ++ r)) = false := by simp [closes, h3, h4, h5]
  simp [hc, indented_blanks]

/-- The line with the closing bracket. -/
theorem indented_end {c : Char} (hc : c = ')' ∨ c = ']' ∨ c = '}') (k : Nat) (r : Str) :
    Indented (k + 1) 0 (shifted (4 * k) ['\n'] ++ c :: r) ↔ Indented k 0 r := by
  have hb : c ≠ ' ' := by rcases hc with rfl | rfl | rfl <;> decide
  obtain ⟨e1, e2⟩ := takeWhile_blanks (4 * k) hb r
  rw [shifted_break, List.cons_append, Indented]
  simp only [e1, e2]
  have h1 : closes (c :: r) = true := by simp [closes, hc]
  have h2 : Indented (k + 1) 0 (c :: r) ↔ Indented k 0 r := by
    rcases hc with rfl | rfl | rfl <;> simp [Indented]
  simp [h1, indented_blanks, h2]

theorem indented_open {c : Char} (hc : c = '(' ∨ c = '[' ∨ c = '{') (k : Nat) (r : Str) :
    Indented k 0 (c :: r) ↔ Indented (k + 1) 0 r := by
  rcases hc with rfl | rfl | rfl <;> simp [Indented]

theorem indented_comma (k : Nat) (r : Str) : Indented k 0 (',' :: r) ↔ Indented k 0 r := by
  simp [Indented]

theorem indented_onLines {ps : List Str} (h : ∀ p ∈ ps, Fits p) {c : Char} (hc : c = ')' ∨ c = ']' ∨ c = '}') (k : Nat) (r : Str) :
    Indented (k + 1) 0 (shifted (4 * k) ['\n'] ++ (shifted (4 * k) (onLines ps) ++ c :: r)) ↔ Indented k 0 r := by
  induction ps with
  | nil => exact indented_end hc k r
  | cons p ps ih =>
    have hp := h p (by simp)
    have e : onLines (p :: ps) = padded true ((p ++ c! ",") ++ c! "\n") ++ onLines ps := by simp [onLines]
    have e4 : 4 + 4 * k = 4 * (k + 1) := by omega
    have hs : Starts (shifted (4 * (k + 1)) p) := by
      obtain ⟨c, cs, rfl, h1, h2, h3⟩ := hp.1
      exact ⟨c, shifted (4 * (k + 1)) cs, by simp [shifted, h2], h1, h2, h3⟩
    rw [e, padded_line, if_pos rfl, shifted_append, shifted_append, shifted_append, shifted_append, shifted_append, shifted_shifted,
      shifted_line _ (s := c! "    ") (by decide), shifted_line _ (s := c! ",") (by decide), shifted_line _ (s := c! ",") (by decide),
      e4, List.append_assoc, List.append_assoc, List.append_assoc, List.append_assoc, indented_next hs, hp.2,
      List.singleton_append (x := ','), indented_comma]
    simpa using ih fun q hq => h q (by simp [hq])

theorem fits_tuple {name p : Str} (hn : Word name) (h : Fits p) :
    Fits (name ++ c! "(\n" ++ padded true (p ++ c! ",\n") ++ c! ")") := by
  refine ⟨by simpa using word_starts hn _, fun k r => ?_⟩
  have e : name ++ c! "(\n" ++ padded true (p ++ c! ",\n") ++ c! ")" = name ++ (c! "(" ++ (c! "\n" ++ (onLines [p] ++ c! ")"))) := by
    simp [onLines]
  rw [e, shifted_append, shifted_append, shifted_append, shifted_append, shifted_line _ hn.line, shifted_line _ (s := c! "(") (by decide),
    shifted_line _ (s := c! ")") (by decide), List.append_assoc, indented_word hn, List.append_assoc, List.singleton_append (x := '('),
    indented_open (.inl rfl), List.append_assoc, List.append_assoc]
  exact indented_onLines (ps := [p]) (by simpa using h) (.inl rfl) k r

theorem fits_list {ps : List Str} (h : ∀ p ∈ ps, Fits p) :
    Fits (match ps with | [] => c! "[]" | _ :: _ => c! "[\n" ++ onLines ps ++ c! "]") := by
  cases ps with
  | nil =>
    refine ⟨⟨'[', _, rfl, by decide, by decide, by decide, by decide, by decide⟩, fun k r => ?_⟩
    simp only
    rw [shifted_line _ (by decide)]
    simp [Indented]
  | cons p ps =>
    refine ⟨⟨'[', _, rfl, by decide, by decide, by decide, by decide, by decide⟩, fun k r => ?_⟩
    have e : c! "[\n" ++ onLines (p :: ps) ++ c! "]" = c! "[" ++ (c! "\n" ++ (onLines (p :: ps) ++ c! "]")) := by simp
    simp only
    rw [e, shifted_append, shifted_append, shifted_append, shifted_line _ (s := c! "[") (by decide),
      shifted_line _ (s := c! "]") (by decide), List.append_assoc, List.singleton_append (x := '['),
      indented_open (.inr (.inl rfl)), List.append_assoc, List.append_assoc]
    exact indented_onLines h (.inr (.inl rfl)) k r

theorem fits_field {name p : Str} (hn : Word name) (h : Fits p) : Fits (name ++ c! ": " ++ p) := by
  refine ⟨by simpa using word_starts hn _, fun k r => ?_⟩
  rw [shifted_append, shifted_append, shifted_line _ hn.line, shifted_line _ (s := c! ": ") (by decide), List.append_assoc,
    List.append_assoc, indented_word hn, indented_plain (by decide), h.2]

theorem fits_struct {name : Str} {ps : List Str} (hn : Word name) (h : ∀ p ∈ ps, Fits p) :
    Fits (name ++ c! " {\n" ++ onLines ps ++ c! "}") := by
  refine ⟨by simpa using word_starts hn _, fun k r => ?_⟩
  have e : name ++ c! " {\n" ++ onLines ps ++ c! "}" = name ++ (c! " " ++ (c! "{" ++ (c! "\n" ++ (onLines ps ++ c! "}")))) := by simp
  rw [e, shifted_append, shifted_append, shifted_append, shifted_append, shifted_append, shifted_line _ hn.line,
    shifted_line _ (s := c! " ") (by decide), shifted_line _ (s := c! "{") (by decide), shifted_line _ (s := c! "}") (by decide),
    List.append_assoc, indented_word hn, List.append_assoc, indented_plain (s := c! " ") (by decide), List.append_assoc,
    List.singleton_append (x := '{'), indented_open (.inr (.inr rfl)), List.append_assoc, List.append_assoc]
  exact indented_onLines h (.inr (.inr rfl)) k r

/-! ### The calls of the formatter -/

theorem count_padded (on : Bool) (s : Str) : (padded on s).count '\n' = s.count '\n' := by
  induction s generalizing on with
  | nil => rfl
  | cons c cs ih =>
    rw [padded, List.count_append, List.count_cons, List.count_cons, ih]
    cases on <;> simp

mutual

/-- The line breaks of the text of `{:#?}`, if the parts that are written directly have none. -/
def DebugCalls.breaks : DebugCalls → Nat
  | .text _ => 0
  | .struct _ fields => 1 + fieldBreaks fields
  | .tuple _ value => 2 + value.breaks
  | .list [] => 0
  | .list (e :: es) => 2 + e.breaks + entryBreaks es

def fieldBreaks : List (Str × DebugCalls) → Nat
  | [] => 0
  | (_, value) :: fs => 1 + value.breaks + fieldBreaks fs

def entryBreaks : List DebugCalls → Nat
  | [] => 0
  | e :: es => 1 + e.breaks + entryBreaks es

end

/-- The text that the calls give with the alternate flag is brought on one line as `d`, has so many line breaks, and is
indented. -/
def JoinsCalls (t : DebugCalls) (d : Str) : Prop := Joins t.pretty d ∧ t.pretty.count '\n' = t.breaks ∧ Fits t.pretty

/-- A text that is written directly. -/
def Leaf (t : Str) : Prop := Joins t t ∧ '\n' ∉ t ∧ Fits t

theorem leaf_word {t : Str} (h : Word t) : Leaf t := ⟨joins_word h, h.line, fits_word h⟩

theorem joins_text {t : Str} (h : Leaf t) : JoinsCalls (.text t) t := by
  rw [JoinsCalls, DebugCalls.pretty, DebugCalls.breaks, List.count_eq_zero]
  exact h

theorem joins_tupleCalls {name : Str} {t : DebugCalls} {d : Str} (hn : Word name) (h : JoinsCalls t d) :
    JoinsCalls (.tuple name t) (debugTuple name d) := by
  rw [JoinsCalls, DebugCalls.pretty, DebugCalls.breaks]
  refine ⟨joins_tuple hn h.1, ?_, fits_tuple hn h.2.2⟩
  rw [List.count_append, List.count_append, List.count_append, count_padded, List.count_append, h.2.1, List.count_eq_zero.2 hn.line]
  simp +decide
  omega

theorem prettyEntries_eq (es : List DebugCalls) : prettyEntries es = onLines (es.map DebugCalls.pretty) := by
  induction es with
  | nil => simp [prettyEntries, onLines]
  | cons e es ih =>
    rw [prettyEntries, ih]
    simp [onLines]

theorem prettyFields_eq (fs : List (Str × DebugCalls)) :
    prettyFields fs = onLines (fs.map fun f => f.1 ++ c! ": " ++ f.2.pretty) := by
  induction fs with
  | nil => simp [prettyFields, onLines]
  | cons f fs ih =>
    obtain ⟨n, v⟩ := f
    rw [prettyFields, ih]
    simp [onLines]

theorem joins_structCalls {name : Str} {fs : List (Str × DebugCalls)} {gs : List (Str × Str)} (hn : Word name) (hne : fs ≠ [])
    (h : List.Forall₂ (fun f g => Word f.1 ∧ f.1 = g.1 ∧ JoinsCalls f.2 g.2) fs gs) :
    JoinsCalls (.struct name fs) (debugStruct name gs) := by
  rw [JoinsCalls, DebugCalls.pretty, DebugCalls.breaks]
  refine ⟨?_, ?_, ?_⟩
  · rw [prettyFields_eq]
    refine joins_struct hn (by simpa using hne) ?_
    clear hne
    induction h with
    | nil => exact .nil
    | @cons f g fs gs hf _ ih =>
      obtain ⟨n, v⟩ := f
      obtain ⟨n', w⟩ := g
      obtain ⟨h1, h2, h3⟩ := hf
      cases h2
      exact .cons (joins_field h1 h3.1) ih
  · have h1 : (prettyFields fs).count '\n' = fieldBreaks fs := by
      clear hne
      induction h with
      | nil => simp [prettyFields, fieldBreaks]
      | @cons f g fs gs hf _ ih =>
        obtain ⟨n, v⟩ := f
        rw [prettyFields, fieldBreaks, List.count_append, count_padded, List.count_append, List.count_append, List.count_append,
          hf.2.2.2.1, List.count_eq_zero.2 hf.1.line, ih]
        simp +decide
        omega
    rw [List.count_append, List.count_append, List.count_append, h1, List.count_eq_zero.2 hn.line]
    simp +decide
  · rw [prettyFields_eq]
    refine fits_struct hn ?_
    clear hne
    induction h with
    | nil => simp
    | @cons f g fs gs hf _ ih =>
      rw [List.map_cons, List.forall_mem_cons]
      exact ⟨fits_field hf.1 hf.2.2.2.2, ih⟩

theorem joins_listCalls {α : Type} {calls : α → DebugCalls} {text : α → Str} (xs : List α) (h : ∀ x ∈ xs, JoinsCalls (calls x) (text x)) :
    JoinsCalls (.list (xs.map calls)) (debugVec text xs) := by
  have h1 : List.Forall₂ Joins ((xs.map calls).map DebugCalls.pretty) (xs.map text) := by
    induction xs with
    | nil => exact .nil
    | cons x xs ih => exact .cons (h x (by simp)).1 (ih fun y hy => h y (by simp [hy]))
  have h2 := joins_list h1
  have hf := fits_list (ps := (xs.map calls).map DebugCalls.pretty) (by
    intro p hp
    obtain ⟨t, ht, rfl⟩ := List.mem_map.1 hp
    obtain ⟨x, hx, rfl⟩ := List.mem_map.1 ht
    exact (h x hx).2.2)
  cases xs with
  | nil =>
    rw [JoinsCalls, List.map_nil, DebugCalls.pretty, DebugCalls.breaks]
    exact ⟨h2, by decide, hf⟩
  | cons x xs =>
    have e := prettyEntries_eq (calls x :: xs.map calls)
    rw [prettyEntries] at e
    rw [JoinsCalls, List.map_cons, DebugCalls.pretty, DebugCalls.breaks]
    refine ⟨?_, ?_, ?_⟩
    · rw [e]
      exact h2
    · have h3 : ∀ ys : List α, (∀ y ∈ ys, JoinsCalls (calls y) (text y)) → (prettyEntries (ys.map calls)).count '\n' = entryBreaks (ys.map calls) := by
        intro ys hys
        induction ys with
        | nil => simp [prettyEntries, entryBreaks]
        | cons y ys ih =>
          rw [List.map_cons, prettyEntries, entryBreaks, List.count_append, count_padded, List.count_append, (hys y (by simp)).2.1,
            ih fun z hz => hys z (by simp [hz])]
          simp +decide
          omega
      rw [List.count_append, List.count_append, List.count_append, count_padded, List.count_append, (h x (by simp)).2.1,
        h3 xs fun y hy => h y (by simp [hy])]
      simp +decide
      omega
    · rw [e]
      exact hf

theorem joins_optionCalls {α : Type} {text : α → Str} {P : α → Prop} (h : ∀ x, P x → Leaf (text x)) (o : Option α)
    (ho : ∀ x, o = some x → P x) : JoinsCalls (optionCalls text o) (debugOption text o) := by
  cases o with
  | none => exact joins_text (leaf_word (by decide))
  | some x => exact joins_tupleCalls (name := c! "Some") (by decide) (joins_text (h x (ho x rfl)))

/-! ### Numbers, texts, dates, names -/

theorem joins_str {l : Library} (hl : LibraryOk l) (s : Str) : Leaf (l.debugStr s) :=
  ⟨joins_quoted hl s, fun hc => (shown_str hl).line s trivial _ hc (by decide), fits_quoted hl s⟩

theorem joins_bool (x : Bool) (_ : True) : Leaf (debugBool x) := leaf_word (by cases x <;> decide)

theorem joins_nat (n : Nat) (_ : True) : Leaf (natStr n) := leaf_word ⟨shown_nat.ne n trivial, natStr_plain n⟩

theorem joins_int (n : Int) (_ : True) : Leaf (debugInt n) := by
  refine leaf_word ⟨shown_int.ne n trivial, ?_⟩
  unfold debugInt
  split
  · intro c hc
    rcases List.mem_cons.1 hc with rfl | hc
    · decide
    · exact natStr_plain _ c hc
  · exact natStr_plain _

theorem joins_double {l : Library} (hl : LibraryOk l) (x : F64) (hx : IsDouble x) : Leaf (l.double x) :=
  leaf_word ⟨numberText_ne (hl.double x hx), numberText_plain (hl.double x hx)⟩

theorem joins_date (t : DateTime) (_ : IsDateTime t) : Leaf t.debug := leaf_word (date_plain t)

theorem joins_NavigationSystem (x : NavigationSystem) (_ : True) : Leaf x.debug := leaf_word (by cases x <;> decide)

theorem joins_FaaMode (x : FaaMode) (_ : True) : Leaf x.debug := leaf_word (by cases x <;> decide)

theorem joins_Station (x : Station) (_ : True) : Leaf x.debug := leaf_word (by cases x <;> decide)

theorem joins_AisClass (x : AisClass) (_ : True) : Leaf x.debug := leaf_word (by cases x <;> decide)

theorem joins_NavigationStatus (x : NavigationStatus) (_ : True) : Leaf x.debug := leaf_word (by cases x <;> decide)

theorem joins_PositioningSystemMeta (x : PositioningSystemMeta) (_ : True) : Leaf x.debug := leaf_word (by cases x <;> decide)

theorem joins_ShipType (x : ShipType) (_ : True) : Leaf x.debug := leaf_word (by cases x <;> decide)

theorem joins_CargoType (x : CargoType) (_ : True) : Leaf x.debug := leaf_word (by cases x <;> decide)

theorem joins_PositionFixType (x : PositionFixType) (_ : True) : Leaf x.debug := leaf_word (by cases x <;> decide)

theorem joins_NavAidType (x : NavAidType) (_ : True) : Leaf x.debug := leaf_word (by cases x <;> decide)

theorem joins_GgaQualityIndicator (x : GgaQualityIndicator) (_ : True) : Leaf x.debug := leaf_word (by cases x <;> decide)

theorem joins_GsaFixMode (x : GsaFixMode) (_ : True) : Leaf x.debug := leaf_word (by cases x <;> decide)

end Nmea
