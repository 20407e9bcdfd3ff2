/-
The lines of the texts of `{:#?}`.
-/
import Verif.Spec.Lines
import Verif.Props.Pretty

namespace Nmea
open Spec

theorem cutLines_ne (s : Str) : cutLines s ≠ [] := by
  cases s with
  | nil => simp [cutLines]
  | cons c cs =>
    rw [cutLines]
    split <;> simp

theorem cutLines_break (a b : Str) : cutLines (a ++ '\n' :: b) = cutLines a ++ cutLines b := by
  induction a with
  | nil => simp [cutLines]
  | cons c cs ih =>
    rw [List.cons_append, cutLines, cutLines, ih]
    obtain ⟨x, xs, e⟩ := List.exists_cons_of_ne_nil (cutLines_ne cs)
    rw [e]
    split <;> simp

theorem cutLines_line {s : Str} (h : '\n' ∉ s) : cutLines s = [s] := by
  induction s with
  | nil => rfl
  | cons c cs ih =>
    simp only [List.mem_cons, not_or] at h
    rw [cutLines, ih h.2, if_neg fun e => h.1 e.symm]
    rfl

theorem cutLines_join (s : Str) : (cutLines s).flatMap (· ++ ['\n']) = s ++ ['\n'] := by
  induction s with
  | nil => rfl
  | cons c cs ih =>
    obtain ⟨x, xs, e⟩ := List.exists_cons_of_ne_nil (cutLines_ne cs)
    rw [e] at ih
    rw [cutLines, e]
    split
    · rename_i hc
      simp only [List.flatMap_cons] at ih ⊢
      rw [ih, hc]
      simp
    · simp only [List.flatMap_cons, List.headD_cons, List.tail_cons, List.cons_append] at ih ⊢
      rw [ih]

theorem cutLines_clean {s x : Str} (h : x ∈ cutLines s) : '\n' ∉ x := by
  induction s generalizing x with
  | nil =>
    simp only [cutLines, List.mem_singleton] at h
    simp [h]
  | cons c cs ih =>
    obtain ⟨y, ys, e⟩ := List.exists_cons_of_ne_nil (cutLines_ne cs)
    rw [cutLines, e] at h
    rw [e] at ih
    split at h
    · rcases List.mem_cons.mp h with rfl | h
      · simp
      · exact ih h
    · rename_i hc
      rcases List.mem_cons.mp h with rfl | h
      · simp only [List.headD_cons, List.mem_cons, not_or]
        exact ⟨fun e => hc e.symm, ih (by simp)⟩
      · exact ih (by simpa using Or.inr h)

theorem isLine_iff (x t : Str) : IsLine x t ↔ x ∈ cutLines t := by
  constructor
  · rintro ⟨hx, p, q, e⟩
    have e1 : p ++ '\n' :: (x ++ '\n' :: q) = [] ++ '\n' :: (t ++ '\n' :: []) := by simpa using e
    have e2 := congrArg cutLines e1
    rw [cutLines_break, cutLines_break, cutLines_break, cutLines_break, cutLines_line hx] at e2
    obtain ⟨y, ys, ep⟩ := List.exists_cons_of_ne_nil (cutLines_ne p)
    obtain ⟨zs, z, eq⟩ := (List.eq_nil_or_concat (cutLines q)).resolve_left (cutLines_ne q)
    rw [ep, eq, List.concat_eq_append] at e2
    have e3 := (List.cons.inj (show y :: (ys ++ ([x] ++ (zs ++ [z]))) = [] :: (cutLines t ++ [[]]) from e2)).2
    have e4 : (ys ++ ([x] ++ zs)) ++ [z] = cutLines t ++ [[]] := by simpa using e3
    rw [← (List.append_inj' e4 rfl).1]
    simp
  · intro h
    refine ⟨cutLines_clean h, ?_⟩
    obtain ⟨a, b, e⟩ := List.append_of_mem h
    have e1 := cutLines_join t
    rw [e, List.flatMap_append, List.flatMap_cons] at e1
    change _ <:+: '\n' :: (t ++ ['\n'])
    rw [← e1]
    rcases List.eq_nil_or_concat a with rfl | ⟨a', w, rfl⟩
    · exact ⟨[], b.flatMap (· ++ ['\n']), by simp⟩
    · exact ⟨'\n' :: (a'.flatMap (· ++ ['\n']) ++ w), b.flatMap (· ++ ['\n']), by simp⟩

theorem cutLines_shifted (s : Str) (k : Nat) (u : Str) :
    cutLines (u ++ shifted k s) = ((cutLines s).tail.map (List.replicate k ' ' ++ ·)).cons (u ++ (cutLines s).headD []) ∨ '\n' ∈ u := by
  induction s generalizing u with
  | nil =>
    by_cases h : '\n' ∈ u
    · exact .inr h
    · left
      simp [shifted, cutLines, cutLines_line h]
  | cons c cs ih =>
    by_cases h : '\n' ∈ u
    · exact .inr h
    · left
      have e : shifted k (c :: cs) = shifted k [c] ++ shifted k cs := shifted_append k [c] cs
      obtain ⟨y, ys, ey⟩ := List.exists_cons_of_ne_nil (cutLines_ne cs)
      rw [e]
      by_cases hc : c = '\n'
      · subst hc
        rw [shifted_break, List.cons_append, cutLines_break, cutLines_line h,
          (ih (List.replicate k ' ')).resolve_right (by simp), cutLines, if_pos rfl, ey]
        simp
      · rw [shifted_line k (by simpa using fun e => hc e.symm), ← List.append_assoc,
          (ih (u ++ [c])).resolve_right (by simpa using ⟨h, fun e => hc e.symm⟩), cutLines, if_neg hc, ey]
        simp

theorem cutLines_indent (s : Str) : cutLines (c! "    " ++ shifted 4 s) = (cutLines s).map (c! "    " ++ ·) := by
  rw [(cutLines_shifted s 4 (c! "    ")).resolve_right (by decide)]
  obtain ⟨y, ys, ey⟩ := List.exists_cons_of_ne_nil (cutLines_ne s)
  rw [ey]
  rfl

/-- An opening line, indented entries and a closing line. -/
def block (a : Str) (ps : List Str) (b : Str) : Str := a ++ '\n' :: (onLines ps ++ b)

theorem cutLines_onLines (ps : List Str) (b : Str) :
    cutLines (onLines ps ++ b) = (ps.flatMap fun p => (cutLines (p ++ c! ",")).map (c! "    " ++ ·)) ++ cutLines b := by
  induction ps with
  | nil => simp [onLines]
  | cons p ps ih =>
    have e : onLines (p :: ps) ++ b = (c! "    " ++ shifted 4 (p ++ c! ",")) ++ '\n' :: (onLines ps ++ b) := by
      have h1 := padded_line true (p ++ c! ",")
      rw [List.append_assoc] at h1
      simp only [onLines, List.map_cons, List.flatten_cons]
      rw [show c! ",\n" = c! "," ++ c! "\n" from rfl, h1]
      simp
    rw [e, cutLines_break, ih, cutLines_indent]
    simp

theorem block_lines {a b : Str} (ps : List Str) (ha : '\n' ∉ a) (hb : '\n' ∉ b) :
    cutLines (block a ps b) = a :: ((ps.flatMap fun p => (cutLines (p ++ c! ",")).map (c! "    " ++ ·)) ++ [b]) := by
  rw [block, cutLines_break, cutLines_line ha, cutLines_onLines, cutLines_line hb]
  rfl

/-- A line that is indented is within one of the entries. -/
theorem block_step {a b : Str} {ps : List Str} (ha : '\n' ∉ a) (hb : '\n' ∉ b) (ha' : a.head? ≠ some ' ') (hb' : b.head? ≠ some ' ')
    (y : Str) : c! "    " ++ y ∈ cutLines (block a ps b) ↔ ∃ p ∈ ps, y ∈ cutLines (p ++ c! ",") := by
  rw [block_lines ps ha hb]
  constructor
  · intro h
    rcases List.mem_cons.mp h with e | h
    · rw [← e] at ha'
      exact absurd rfl ha'
    · rcases List.mem_append.mp h with h | h
      · obtain ⟨p, hp, h⟩ := List.mem_flatMap.mp h
        obtain ⟨z, hz, e⟩ := List.mem_map.mp h
        exact ⟨p, hp, List.append_cancel_left e ▸ hz⟩
      · rw [← List.mem_singleton.mp h] at hb'
        exact absurd rfl hb'
  · rintro ⟨p, hp, hy⟩
    exact List.mem_cons_of_mem _ (List.mem_append_left _ (List.mem_flatMap.mpr ⟨p, hp, List.mem_map.mpr ⟨y, hy, rfl⟩⟩))

/-- How often an indented line comes up. -/
theorem block_count {a b : Str} {ps : List Str} (ha : '\n' ∉ a) (hb : '\n' ∉ b) (ha' : a.head? ≠ some ' ') (hb' : b.head? ≠ some ' ')
    (y : Str) : (cutLines (block a ps b)).count (c! "    " ++ y) = (ps.map fun p => (cutLines (p ++ c! ",")).count y).sum := by
  rw [block_lines ps ha hb, List.count_cons_of_ne (by rintro rfl; exact ha' rfl), List.count_append,
    List.count_singleton, if_neg (by
      intro e
      rw [beq_iff_eq] at e
      rw [e] at hb'
      exact hb' rfl), Nat.add_zero]
  induction ps with
  | nil => rfl
  | cons p ps ih =>
    rw [List.flatMap_cons, List.count_append, ih, List.map_cons, List.sum_cons,
      List.count_map_of_injective _ _ (fun _ _ e => List.append_cancel_left e)]

/-- A line that is not indented is the first or the last. -/
theorem block_outer {a b : Str} {ps : List Str} (ha : '\n' ∉ a) (hb : '\n' ∉ b) {y : Str} (hy : y.head? ≠ some ' ')
    (h : y ∈ cutLines (block a ps b)) : y = a ∨ y = b := by
  rw [block_lines ps ha hb] at h
  rcases List.mem_cons.mp h with e | h
  · exact .inl e
  · rcases List.mem_append.mp h with h | h
    · obtain ⟨p, -, h⟩ := List.mem_flatMap.mp h
      obtain ⟨z, -, rfl⟩ := List.mem_map.mp h
      exact absurd rfl hy
    · exact .inr (List.mem_singleton.mp h)

theorem tuple_block (u name : Str) (v : DebugCalls) (w : Str) :
    u ++ (DebugCalls.tuple name v).pretty ++ w = block (u ++ name ++ c! "(") [v.pretty] (c! ")" ++ w) := by
  simp [DebugCalls.pretty, block, onLines]

theorem struct_block (u name : Str) (fs : List (Str × DebugCalls)) (w : Str) :
    u ++ (DebugCalls.struct name fs).pretty ++ w =
      block (u ++ name ++ c! " {") (fs.map fun f => f.1 ++ c! ": " ++ f.2.pretty) (c! "}" ++ w) := by
  simp [DebugCalls.pretty, block, prettyFields_eq]

theorem list_block (u : Str) (e : DebugCalls) (es : List DebugCalls) (w : Str) :
    u ++ (DebugCalls.list (e :: es)).pretty ++ w = block (u ++ c! "[") ((e :: es).map DebugCalls.pretty) (c! "]" ++ w) := by
  have h := prettyEntries_eq (e :: es)
  rw [prettyEntries] at h
  rw [DebugCalls.pretty, h]
  simp [block]

/-! ### Fields -/

/-- The value of a field: a word or a text, nothing or something, or a list. -/
def PlainValue (v : DebugCalls) : Prop :=
  (∃ t, v = .text t ∧ '\n' ∉ t) ∨ (∃ m x, v = .tuple m (.text x) ∧ '\n' ∉ m ∧ '\n' ∉ x) ∨ ∃ es, v = .list es

/-- The name of a field begins with a small letter. -/
def FieldName (n : Str) : Prop := (∃ c cs, n = c :: cs ∧ c.isLower = true) ∧ ':' ∉ n ∧ '\n' ∉ n

theorem plain_text {t : Str} (h : Leaf t) : PlainValue (.text t) := .inl ⟨t, rfl, h.2.1⟩

theorem plain_option {α : Type} {text : α → Str} {P : α → Prop} (h : ∀ x, P x → Leaf (text x)) (o : Option α)
    (ho : ∀ x, o = some x → P x) : PlainValue (optionCalls text o) := by
  cases o with
  | none => exact .inl ⟨_, rfl, by decide⟩
  | some x => exact .inr (.inl ⟨_, _, rfl, by decide, (h x (ho x rfl)).2.1⟩)

theorem first_colon {a b x y : Str} (ha : ':' ∉ a) (hb : ':' ∉ b) (e : a ++ ':' :: x = b ++ ':' :: y) : a = b ∧ x = y := by
  rcases List.append_eq_append_iff.mp e with ⟨c, h1, h⟩ | ⟨c, h1, h⟩
  · match c, h with
    | [], h => exact ⟨by simpa using h1.symm, (List.cons.inj h).2⟩
    | z :: c, h =>
      obtain ⟨rfl, -⟩ := List.cons.inj h
      exact absurd (by rw [h1]; simp) hb
  · match c, h with
    | [], h => exact ⟨by simpa using h1, (List.cons.inj h).2.symm⟩
    | z :: c, h =>
      obtain ⟨rfl, -⟩ := List.cons.inj h
      exact absurd (by rw [h1]; simp) ha

theorem name_head {n : Str} (h : FieldName n) (t : Str) : ∃ c cs, n ++ t = c :: cs ∧ c.isLower = true := by
  obtain ⟨⟨c, cs, rfl, hc⟩, -⟩ := h
  exact ⟨c, cs ++ t, rfl, hc⟩

theorem name_ne {n : Str} (h : FieldName n) (t : Str) {c : Char} (hc : c.isLower = false) : (n ++ t).head? ≠ some c := by
  obtain ⟨d, ds, e, hd⟩ := name_head h t
  rw [e]
  intro he
  rw [Option.some.inj he, hc] at hd
  cases hd

/-- The lines of a field that have the form of a field. -/
theorem field_line {n w : Str} {f : Str × DebugCalls} (hn : FieldName n) (hf : FieldName f.1) (hv : PlainValue f.2) (hw : '\n' ∉ w) :
    n ++ c! ": " ++ w ++ c! "," ∈ cutLines (f.1 ++ c! ": " ++ f.2.pretty ++ c! ",") ↔
      f.1 = n ∧ (f.2 = .text w ∨ f.2 = .list [] ∧ w = c! "[]") := by
  have comma : ∀ a b : Str, n ++ c! ": " ++ a ++ c! "," = f.1 ++ c! ": " ++ b ++ c! "," → f.1 = n ∧ a = b := by
    intro a b e
    obtain ⟨h1, h2⟩ := first_colon hn.2.1 hf.2.1 (show n ++ ':' :: (' ' :: (a ++ c! ",")) = f.1 ++ ':' :: (' ' :: (b ++ c! ",")) by simpa using e)
    exact ⟨h1.symm, List.append_cancel_right (List.cons.inj h2).2⟩
  have last : ∀ b : Str, ∀ c : Char, c ≠ ',' → n ++ c! ": " ++ w ++ c! "," ≠ b ++ [c] := by
    intro b c hc e
    exact hc (by simpa using (List.append_inj' e rfl).2.symm)
  have head : ∀ (c : Char) (cs : Str), c.isLower = false → n ++ c! ": " ++ w ++ c! "," ≠ c :: cs := by
    intro c cs hc e
    have := name_ne hn (c! ": " ++ w ++ c! ",") hc
    rw [show n ++ (c! ": " ++ w ++ c! ",") = n ++ c! ": " ++ w ++ c! "," by simp, e] at this
    exact this rfl
  have hblank : (n ++ c! ": " ++ w ++ c! ",").head? ≠ some ' ' := by
    have := name_ne hn (c! ": " ++ w ++ c! ",") (c := ' ') (by decide)
    simpa using this
  have hclean : '\n' ∉ f.1 ++ c! ": " := by
    simp only [List.mem_append, not_or]
    exact ⟨hf.2.2, by decide⟩
  rcases hv with ⟨t, e, ht⟩ | ⟨m, x, e, hm, -⟩ | ⟨es, e⟩
  · rw [e, DebugCalls.pretty, cutLines_line (by
      simp only [List.mem_append, not_or] at hclean ⊢
      exact ⟨⟨hclean, ht⟩, by decide⟩), List.mem_singleton]
    constructor
    · intro he
      obtain ⟨h1, h2⟩ := comma _ _ he
      exact ⟨h1, .inl (by rw [h2])⟩
    · rintro ⟨rfl, h | ⟨h, -⟩⟩
      · rw [DebugCalls.text.inj h]
      · cases h
  · rw [e]
    constructor
    · intro he
      rw [tuple_block] at he
      rcases block_outer (by
        simp only [List.mem_append, not_or] at hclean ⊢
        exact ⟨⟨hclean, hm⟩, by decide⟩) (by decide) hblank he with he | he
      · exact absurd he (last _ '(' (by decide))
      · exact absurd he (head ')' _ (by decide))
    · rintro ⟨-, h | ⟨h, -⟩⟩ <;> cases h
  · rw [e]
    match es with
    | [] =>
      rw [DebugCalls.pretty, cutLines_line (by
        simp only [List.mem_append, not_or] at hclean ⊢
        exact ⟨⟨hclean, by decide⟩, by decide⟩), List.mem_singleton]
      constructor
      · intro he
        obtain ⟨h1, h2⟩ := comma _ _ he
        exact ⟨h1, .inr ⟨rfl, h2⟩⟩
      · rintro ⟨rfl, h | ⟨-, rfl⟩⟩
        · cases h
        · rfl
    | x :: xs =>
      constructor
      · intro he
        rw [list_block] at he
        rcases block_outer (by
          simp only [List.mem_append, not_or] at hclean ⊢
          exact ⟨hclean, by decide⟩) (by decide) hblank he with he | he
        · exact absurd he (last _ '[' (by decide))
        · exact absurd he (head ']' _ (by decide))
      · rintro ⟨-, h | ⟨h, -⟩⟩ <;> cases h

theorem field_once {n w : Str} {f : Str × DebugCalls} (hn : FieldName n) (hf : FieldName f.1) (hv : PlainValue f.2) (hw : '\n' ∉ w) :
    (cutLines (f.1 ++ c! ": " ++ f.2.pretty ++ c! ",")).count (n ++ c! ": " ++ w ++ c! ",") ≤ 1 := by
  by_cases hm : n ++ c! ": " ++ w ++ c! "," ∈ cutLines (f.1 ++ c! ": " ++ f.2.pretty ++ c! ",")
  · obtain ⟨-, e | ⟨e, -⟩⟩ := (field_line hn hf hv hw).mp hm
    · rw [e, DebugCalls.pretty, cutLines_line (by
        simp only [List.mem_append, not_or]
        exact ⟨⟨⟨hf.2.2, by decide⟩, hw⟩, by decide⟩)]
      exact List.count_le_length
    · rw [e, DebugCalls.pretty, cutLines_line (by
        simp only [List.mem_append, not_or]
        exact ⟨⟨⟨hf.2.2, by decide⟩, by decide⟩, by decide⟩)]
      exact List.count_le_length
  · rw [List.count_eq_zero.mpr hm]
    exact Nat.zero_le _

/-- The lines of a field that have the form of the opening line of a value that is present. -/
theorem field_open {n : Str} {f : Str × DebugCalls} (hn : FieldName n) (hf : FieldName f.1) (hv : PlainValue f.2) :
    n ++ c! ": Some(" ∈ cutLines (f.1 ++ c! ": " ++ f.2.pretty ++ c! ",") ↔ f.1 = n ∧ ∃ x, f.2 = .tuple (c! "Some") (.text x) ∧ '\n' ∉ x := by
  have last : ∀ b : Str, ∀ c : Char, c ≠ '(' → n ++ c! ": Some(" ≠ b ++ [c] := by
    intro b c hc e
    rw [show n ++ c! ": Some(" = (n ++ c! ": Some") ++ ['('] by simp] at e
    exact hc (by simpa using (List.append_inj' e rfl).2.symm)
  have hhead : ∀ c : Char, c.isLower = false → (n ++ c! ": Some(").head? ≠ some c := fun c hc => name_ne hn _ hc
  have hclean : '\n' ∉ f.1 ++ c! ": " := by
    simp only [List.mem_append, not_or]
    exact ⟨hf.2.2, by decide⟩
  rcases hv with ⟨t, e, ht⟩ | ⟨m, x, e, hm, hx⟩ | ⟨es, e⟩
  · rw [e, DebugCalls.pretty, cutLines_line (by
      simp only [List.mem_append, not_or] at hclean ⊢
      exact ⟨⟨hclean, ht⟩, by decide⟩), List.mem_singleton]
    constructor
    · intro he
      exact absurd he (last _ ',' (by decide))
    · rintro ⟨-, x, h, -⟩
      cases h
  · have ha : '\n' ∉ f.1 ++ c! ": " ++ m ++ c! "(" := by
      simp only [List.mem_append, not_or] at hclean ⊢
      exact ⟨⟨hclean, hm⟩, by decide⟩
    rw [e]
    constructor
    · intro he
      rw [tuple_block] at he
      rcases block_outer ha (by decide) (hhead ' ' (by decide)) he with he | he
      · obtain ⟨h1, h2⟩ := first_colon hn.2.1 hf.2.1
          (show n ++ ':' :: (' ' :: (c! "Some" ++ c! "(")) = f.1 ++ ':' :: (' ' :: (m ++ c! "(")) by simpa using he)
        refine ⟨h1.symm, x, ?_, hx⟩
        rw [← List.append_cancel_right (List.cons.inj h2).2]
      · exact (hhead ')' (by decide) (by rw [he]; rfl)).elim
    · rintro ⟨rfl, y, h, -⟩
      cases h
      rw [tuple_block, block_lines _ ha (by decide)]
      exact List.mem_cons.mpr (.inl (by simp))
  · rw [e]
    match es with
    | [] =>
      rw [DebugCalls.pretty, cutLines_line (by
        simp only [List.mem_append, not_or] at hclean ⊢
        exact ⟨⟨hclean, by decide⟩, by decide⟩), List.mem_singleton]
      constructor
      · intro he
        exact absurd he (last _ ',' (by decide))
      · rintro ⟨-, x, h, -⟩
        cases h
    | x :: xs =>
      constructor
      · intro he
        rw [list_block] at he
        rcases block_outer (by
          simp only [List.mem_append, not_or] at hclean ⊢
          exact ⟨hclean, by decide⟩) (by decide) (hhead ' ' (by decide)) he with he | he
        · exact absurd he (last _ '[' (by decide))
        · exact (hhead ']' (by decide) (by rw [he]; rfl)).elim
      · rintro ⟨-, x, h, -⟩
        cases h

/-- The three lines of a value that is present. -/
theorem some_lines {n x : Str} (hn : FieldName n) (hx : '\n' ∉ x) :
    cutLines (n ++ c! ": " ++ (DebugCalls.tuple (c! "Some") (.text x)).pretty ++ c! ",") =
      [n ++ c! ": Some(", c! "    " ++ x ++ c! ",", c! "),"] := by
  rw [tuple_block, block_lines _ (by
    simp only [List.mem_append, not_or]
    exact ⟨⟨⟨hn.2.2, by decide⟩, by decide⟩, by decide⟩) (by decide)]
  rw [List.flatMap_singleton, DebugCalls.pretty, cutLines_line (by
    simp only [List.mem_append, not_or]
    exact ⟨hx, by decide⟩)]
  simp

theorem open_once {n : Str} {f : Str × DebugCalls} (hn : FieldName n) (hf : FieldName f.1) (hv : PlainValue f.2) :
    (cutLines (f.1 ++ c! ": " ++ f.2.pretty ++ c! ",")).count (n ++ c! ": Some(") ≤ 1 := by
  by_cases hm : n ++ c! ": Some(" ∈ cutLines (f.1 ++ c! ": " ++ f.2.pretty ++ c! ",")
  · obtain ⟨e1, x, e, hx⟩ := (field_open hn hf hv).mp hm
    rw [e1, e, some_lines hn hx]
    have hhead : ∀ c : Char, c.isLower = false → (n ++ c! ": Some(").head? ≠ some c := fun c hc => name_ne hn _ hc
    rw [List.count_cons_self, List.count_cons_of_ne (by
      intro e
      exact hhead ' ' (by decide) (by rw [← e]; rfl)), List.count_cons_of_ne (by
      intro e
      exact hhead ')' (by decide) (by rw [← e]; rfl))]
    simp
  · rw [List.count_eq_zero.mpr hm]
    exact Nat.zero_le _

/-- Lines that follow one another in an entry follow one another in the text. -/
theorem block_infix {a b p : Str} {ps L : List Str} (ha : '\n' ∉ a) (hb : '\n' ∉ b) (hp : p ∈ ps) (h : L <:+: cutLines (p ++ c! ",")) :
    L.map (c! "    " ++ ·) <:+: cutLines (block a ps b) := by
  rw [block_lines ps ha hb]
  obtain ⟨us, vs, rfl⟩ := List.append_of_mem hp
  obtain ⟨x, y, e⟩ := h
  rw [List.flatMap_append, List.flatMap_cons, ← e]
  simp only [List.map_append]
  refine ⟨a :: (us.flatMap (fun p => (cutLines (p ++ c! ",")).map (c! "    " ++ ·)) ++ x.map (c! "    " ++ ·)),
    y.map (c! "    " ++ ·) ++ vs.flatMap (fun p => (cutLines (p ++ c! ",")).map (c! "    " ++ ·)) ++ [b], ?_⟩
  simp only [List.append_assoc, List.cons_append]

theorem follows_unique {x y z : Str} {L : List Str} (h1 : [x, y] <:+: L) (h2 : [x, z] <:+: L) (hc : L.count x ≤ 1) : y = z := by
  obtain ⟨a, b, rfl⟩ := h1
  obtain ⟨a', b', e⟩ := h2
  have e' : a' ++ x :: (z :: b') = a ++ x :: (y :: b) := by simpa using e
  have hc' : (a ++ x :: (y :: b)).count x ≤ 1 := by simpa using hc
  rcases List.append_eq_append_iff.mp e' with ⟨c, h1, h2⟩ | ⟨c, h1, h2⟩
  · match c, h2 with
    | [], h2 => exact ((List.cons.inj (List.cons.inj h2).2).1).symm
    | w :: c, h2 =>
      exfalso
      obtain ⟨rfl, h3⟩ := List.cons.inj h2
      rw [h1, List.count_append, List.count_append, List.count_cons_self, List.count_cons_self] at hc'
      omega
  · match c, h2 with
    | [], h2 => exact (List.cons.inj (List.cons.inj h2).2).1
    | w :: c, h2 =>
      exfalso
      obtain ⟨rfl, h3⟩ := List.cons.inj h2
      have : (y :: b).count x ≥ 1 := by
        rw [show y :: b = c ++ x :: z :: b' from h3, List.count_append, List.count_cons_self]
        omega
      rw [List.count_append, List.count_cons_self] at hc'
      omega

theorem sum_once {fs : List (Str × DebugCalls)} {g : Str × DebugCalls → Nat} {n : Str} (hd : (fs.map Prod.fst).Nodup)
    (h1 : ∀ f ∈ fs, g f ≤ 1) (h2 : ∀ f ∈ fs, f.1 ≠ n → g f = 0) : (fs.map g).sum ≤ 1 := by
  induction fs with
  | nil => simp
  | cons f fs ih =>
    rw [List.map_cons, List.nodup_cons] at hd
    rw [List.map_cons, List.sum_cons]
    by_cases e : f.1 = n
    · have h0 : (fs.map g).sum = 0 := by
        have : ∀ x ∈ fs, g x = 0 := fun x hx => h2 x (by simp [hx]) fun ex =>
          hd.1 (List.mem_map.mpr ⟨x, hx, ex.trans e.symm⟩)
        clear hd ih h1 h2
        induction fs with
        | nil => rfl
        | cons y ys ih => rw [List.map_cons, List.sum_cons, this y (by simp), ih fun x hx => this x (by simp [hx])]
      rw [h0]
      exact h1 f (by simp)
    · rw [h2 f (by simp) e, Nat.zero_add]
      exact ih hd.2 (fun x hx => h1 x (by simp [hx])) fun x hx => h2 x (by simp [hx])

/-- The fields of a report that is a structure. -/
def DebugCalls.rows : DebugCalls → List (Str × DebugCalls)
  | .tuple _ (.struct _ fs) => fs
  | _ => []

def PlainRow (f : Str × DebugCalls) : Prop := FieldName f.1 ∧ PlainValue f.2

theorem row {n : Str} {v : DebugCalls} {fs : List (Str × DebugCalls)} (hn : FieldName n) (hv : PlainValue v) (h : ∀ f ∈ fs, PlainRow f) :
    ∀ f ∈ (n, v) :: fs, PlainRow f := by
  intro f hf
  rcases List.mem_cons.mp hf with rfl | hf
  · exact ⟨hn, hv⟩
  · exact h f hf

theorem row_nil : ∀ f ∈ ([] : List (Str × DebugCalls)), PlainRow f := fun _ h => nomatch h

theorem rows_VesselDynamicData {l : Library} (hl : LibraryOk l) (d : VesselDynamicData) (h : VesselDynamicData.Sound d) :
    ∀ f ∈ (DebugCalls.tuple (c! "") (d.calls l)).rows, PlainRow f :=
    row ⟨⟨_, _, rfl, by decide⟩, by decide, by decide⟩ (plain_text (joins_bool _ trivial)) <|
    row ⟨⟨_, _, rfl, by decide⟩, by decide, by decide⟩ (plain_text (joins_Station _ trivial)) <|
    row ⟨⟨_, _, rfl, by decide⟩, by decide, by decide⟩ (plain_text (joins_AisClass _ trivial)) <|
    row ⟨⟨_, _, rfl, by decide⟩, by decide, by decide⟩ (plain_text (joins_nat _ trivial)) <|
    row ⟨⟨_, _, rfl, by decide⟩, by decide, by decide⟩ (plain_text (joins_NavigationStatus _ trivial)) <|
    row ⟨⟨_, _, rfl, by decide⟩, by decide, by decide⟩ (plain_option (joins_double hl) _ h.rot) <|
    row ⟨⟨_, _, rfl, by decide⟩, by decide, by decide⟩ (plain_option joins_int _ (fun _ _ => trivial)) <|
    row ⟨⟨_, _, rfl, by decide⟩, by decide, by decide⟩ (plain_option (joins_double hl) _ h.sogKnots) <|
    row ⟨⟨_, _, rfl, by decide⟩, by decide, by decide⟩ (plain_text (joins_bool _ trivial)) <|
    row ⟨⟨_, _, rfl, by decide⟩, by decide, by decide⟩ (plain_option (joins_double hl) _ h.latitude) <|
    row ⟨⟨_, _, rfl, by decide⟩, by decide, by decide⟩ (plain_option (joins_double hl) _ h.longitude) <|
    row ⟨⟨_, _, rfl, by decide⟩, by decide, by decide⟩ (plain_option (joins_double hl) _ h.cog) <|
    row ⟨⟨_, _, rfl, by decide⟩, by decide, by decide⟩ (plain_option (joins_double hl) _ h.headingTrue) <|
    row ⟨⟨_, _, rfl, by decide⟩, by decide, by decide⟩ (plain_text (joins_nat _ trivial)) <|
    row ⟨⟨_, _, rfl, by decide⟩, by decide, by decide⟩ (plain_option joins_PositioningSystemMeta _ (fun _ _ => trivial)) <|
    row ⟨⟨_, _, rfl, by decide⟩, by decide, by decide⟩ (plain_option joins_bool _ (fun _ _ => trivial)) <|
    row ⟨⟨_, _, rfl, by decide⟩, by decide, by decide⟩ (plain_option joins_bool _ (fun _ _ => trivial)) <|
    row ⟨⟨_, _, rfl, by decide⟩, by decide, by decide⟩ (plain_text (joins_bool _ trivial)) <|
    row ⟨⟨_, _, rfl, by decide⟩, by decide, by decide⟩ (plain_option joins_bool _ (fun _ _ => trivial)) <|
    row ⟨⟨_, _, rfl, by decide⟩, by decide, by decide⟩ (plain_option joins_bool _ (fun _ _ => trivial)) <|
    row ⟨⟨_, _, rfl, by decide⟩, by decide, by decide⟩ (plain_option joins_bool _ (fun _ _ => trivial)) <|
    row ⟨⟨_, _, rfl, by decide⟩, by decide, by decide⟩ (plain_option joins_bool _ (fun _ _ => trivial)) <|
    row ⟨⟨_, _, rfl, by decide⟩, by decide, by decide⟩ (plain_option joins_bool _ (fun _ _ => trivial)) <|
    row ⟨⟨_, _, rfl, by decide⟩, by decide, by decide⟩ (plain_option joins_bool _ (fun _ _ => trivial)) <|
    row ⟨⟨_, _, rfl, by decide⟩, by decide, by decide⟩ (plain_option joins_bool _ (fun _ _ => trivial)) <|
    row ⟨⟨_, _, rfl, by decide⟩, by decide, by decide⟩ (plain_option joins_nat _ (fun _ _ => trivial)) row_nil

theorem rows_VesselStaticData {l : Library} (hl : LibraryOk l) (d : VesselStaticData) (h : VesselStaticData.Sound d) :
    ∀ f ∈ (DebugCalls.tuple (c! "") (d.calls l)).rows, PlainRow f :=
    row ⟨⟨_, _, rfl, by decide⟩, by decide, by decide⟩ (plain_text (joins_bool _ trivial)) <|
    row ⟨⟨_, _, rfl, by decide⟩, by decide, by decide⟩ (plain_text (joins_AisClass _ trivial)) <|
    row ⟨⟨_, _, rfl, by decide⟩, by decide, by decide⟩ (plain_text (joins_nat _ trivial)) <|
    row ⟨⟨_, _, rfl, by decide⟩, by decide, by decide⟩ (plain_text (joins_nat _ trivial)) <|
    row ⟨⟨_, _, rfl, by decide⟩, by decide, by decide⟩ (plain_option joins_nat _ (fun _ _ => trivial)) <|
    row ⟨⟨_, _, rfl, by decide⟩, by decide, by decide⟩ (plain_option (fun s (_ : True) => joins_str hl s) _ (fun _ _ => trivial)) <|
    row ⟨⟨_, _, rfl, by decide⟩, by decide, by decide⟩ (plain_option (fun s (_ : True) => joins_str hl s) _ (fun _ _ => trivial)) <|
    row ⟨⟨_, _, rfl, by decide⟩, by decide, by decide⟩ (plain_text (joins_ShipType _ trivial)) <|
    row ⟨⟨_, _, rfl, by decide⟩, by decide, by decide⟩ (plain_text (joins_CargoType _ trivial)) <|
    row ⟨⟨_, _, rfl, by decide⟩, by decide, by decide⟩ (plain_option (fun s (_ : True) => joins_str hl s) _ (fun _ _ => trivial)) <|
    row ⟨⟨_, _, rfl, by decide⟩, by decide, by decide⟩ (plain_option joins_nat _ (fun _ _ => trivial)) <|
    row ⟨⟨_, _, rfl, by decide⟩, by decide, by decide⟩ (plain_option joins_nat _ (fun _ _ => trivial)) <|
    row ⟨⟨_, _, rfl, by decide⟩, by decide, by decide⟩ (plain_option joins_nat _ (fun _ _ => trivial)) <|
    row ⟨⟨_, _, rfl, by decide⟩, by decide, by decide⟩ (plain_option joins_nat _ (fun _ _ => trivial)) <|
    row ⟨⟨_, _, rfl, by decide⟩, by decide, by decide⟩ (plain_option joins_nat _ (fun _ _ => trivial)) <|
    row ⟨⟨_, _, rfl, by decide⟩, by decide, by decide⟩ (plain_option joins_nat _ (fun _ _ => trivial)) <|
    row ⟨⟨_, _, rfl, by decide⟩, by decide, by decide⟩ (plain_option joins_PositionFixType _ (fun _ _ => trivial)) <|
    row ⟨⟨_, _, rfl, by decide⟩, by decide, by decide⟩ (plain_option joins_date _ h.eta) <|
    row ⟨⟨_, _, rfl, by decide⟩, by decide, by decide⟩ (plain_option joins_nat _ (fun _ _ => trivial)) <|
    row ⟨⟨_, _, rfl, by decide⟩, by decide, by decide⟩ (plain_option (fun s (_ : True) => joins_str hl s) _ (fun _ _ => trivial)) <|
    row ⟨⟨_, _, rfl, by decide⟩, by decide, by decide⟩ (plain_option joins_nat _ (fun _ _ => trivial)) row_nil

theorem rows_AidToNavigationReport {l : Library} (hl : LibraryOk l) (d : AidToNavigationReport) (h : AidToNavigationReport.Sound d) :
    ∀ f ∈ (DebugCalls.tuple (c! "") (d.calls l)).rows, PlainRow f :=
    row ⟨⟨_, _, rfl, by decide⟩, by decide, by decide⟩ (plain_text (joins_bool _ trivial)) <|
    row ⟨⟨_, _, rfl, by decide⟩, by decide, by decide⟩ (plain_text (joins_Station _ trivial)) <|
    row ⟨⟨_, _, rfl, by decide⟩, by decide, by decide⟩ (plain_text (joins_nat _ trivial)) <|
    row ⟨⟨_, _, rfl, by decide⟩, by decide, by decide⟩ (plain_text (joins_NavAidType _ trivial)) <|
    row ⟨⟨_, _, rfl, by decide⟩, by decide, by decide⟩ (plain_text ((fun s (_ : True) => joins_str hl s) _ trivial)) <|
    row ⟨⟨_, _, rfl, by decide⟩, by decide, by decide⟩ (plain_text (joins_bool _ trivial)) <|
    row ⟨⟨_, _, rfl, by decide⟩, by decide, by decide⟩ (plain_option (joins_double hl) _ h.latitude) <|
    row ⟨⟨_, _, rfl, by decide⟩, by decide, by decide⟩ (plain_option (joins_double hl) _ h.longitude) <|
    row ⟨⟨_, _, rfl, by decide⟩, by decide, by decide⟩ (plain_option joins_nat _ (fun _ _ => trivial)) <|
    row ⟨⟨_, _, rfl, by decide⟩, by decide, by decide⟩ (plain_option joins_nat _ (fun _ _ => trivial)) <|
    row ⟨⟨_, _, rfl, by decide⟩, by decide, by decide⟩ (plain_option joins_nat _ (fun _ _ => trivial)) <|
    row ⟨⟨_, _, rfl, by decide⟩, by decide, by decide⟩ (plain_option joins_nat _ (fun _ _ => trivial)) <|
    row ⟨⟨_, _, rfl, by decide⟩, by decide, by decide⟩ (plain_option joins_PositionFixType _ (fun _ _ => trivial)) <|
    row ⟨⟨_, _, rfl, by decide⟩, by decide, by decide⟩ (plain_text (joins_nat _ trivial)) <|
    row ⟨⟨_, _, rfl, by decide⟩, by decide, by decide⟩ (plain_text (joins_bool _ trivial)) <|
    row ⟨⟨_, _, rfl, by decide⟩, by decide, by decide⟩ (plain_text (joins_nat _ trivial)) <|
    row ⟨⟨_, _, rfl, by decide⟩, by decide, by decide⟩ (plain_text (joins_bool _ trivial)) <|
    row ⟨⟨_, _, rfl, by decide⟩, by decide, by decide⟩ (plain_text (joins_bool _ trivial)) <|
    row ⟨⟨_, _, rfl, by decide⟩, by decide, by decide⟩ (plain_text (joins_bool _ trivial)) row_nil

theorem rows_BaseStationReport {l : Library} (hl : LibraryOk l) (d : BaseStationReport) (h : BaseStationReport.Sound d) :
    ∀ f ∈ (DebugCalls.tuple (c! "") (d.calls l)).rows, PlainRow f :=
    row ⟨⟨_, _, rfl, by decide⟩, by decide, by decide⟩ (plain_text (joins_bool _ trivial)) <|
    row ⟨⟨_, _, rfl, by decide⟩, by decide, by decide⟩ (plain_text (joins_Station _ trivial)) <|
    row ⟨⟨_, _, rfl, by decide⟩, by decide, by decide⟩ (plain_text (joins_nat _ trivial)) <|
    row ⟨⟨_, _, rfl, by decide⟩, by decide, by decide⟩ (plain_option joins_date _ h.timestamp) <|
    row ⟨⟨_, _, rfl, by decide⟩, by decide, by decide⟩ (plain_text (joins_bool _ trivial)) <|
    row ⟨⟨_, _, rfl, by decide⟩, by decide, by decide⟩ (plain_option (joins_double hl) _ h.latitude) <|
    row ⟨⟨_, _, rfl, by decide⟩, by decide, by decide⟩ (plain_option (joins_double hl) _ h.longitude) <|
    row ⟨⟨_, _, rfl, by decide⟩, by decide, by decide⟩ (plain_option joins_PositionFixType _ (fun _ _ => trivial)) <|
    row ⟨⟨_, _, rfl, by decide⟩, by decide, by decide⟩ (plain_text (joins_bool _ trivial)) <|
    row ⟨⟨_, _, rfl, by decide⟩, by decide, by decide⟩ (plain_text (joins_nat _ trivial)) row_nil

theorem rows_BinaryAddressedMessage {l : Library} (_hl : LibraryOk l) (d : BinaryAddressedMessage) :
    ∀ f ∈ (DebugCalls.tuple (c! "") (d.calls l)).rows, PlainRow f :=
    row ⟨⟨_, _, rfl, by decide⟩, by decide, by decide⟩ (plain_text (joins_bool _ trivial)) <|
    row ⟨⟨_, _, rfl, by decide⟩, by decide, by decide⟩ (plain_text (joins_Station _ trivial)) <|
    row ⟨⟨_, _, rfl, by decide⟩, by decide, by decide⟩ (plain_text (joins_nat _ trivial)) <|
    row ⟨⟨_, _, rfl, by decide⟩, by decide, by decide⟩ (plain_text (joins_nat _ trivial)) <|
    row ⟨⟨_, _, rfl, by decide⟩, by decide, by decide⟩ (plain_text (joins_nat _ trivial)) <|
    row ⟨⟨_, _, rfl, by decide⟩, by decide, by decide⟩ (plain_text (joins_bool _ trivial)) <|
    row ⟨⟨_, _, rfl, by decide⟩, by decide, by decide⟩ (plain_text (joins_nat _ trivial)) <|
    row ⟨⟨_, _, rfl, by decide⟩, by decide, by decide⟩ (plain_text (joins_nat _ trivial)) row_nil

theorem rows_StandardSarAircraftPositionReport {l : Library} (hl : LibraryOk l) (d : StandardSarAircraftPositionReport) (h : StandardSarAircraftPositionReport.Sound d) :
    ∀ f ∈ (DebugCalls.tuple (c! "") (d.calls l)).rows, PlainRow f :=
    row ⟨⟨_, _, rfl, by decide⟩, by decide, by decide⟩ (plain_text (joins_bool _ trivial)) <|
    row ⟨⟨_, _, rfl, by decide⟩, by decide, by decide⟩ (plain_text (joins_Station _ trivial)) <|
    row ⟨⟨_, _, rfl, by decide⟩, by decide, by decide⟩ (plain_text (joins_nat _ trivial)) <|
    row ⟨⟨_, _, rfl, by decide⟩, by decide, by decide⟩ (plain_option joins_nat _ (fun _ _ => trivial)) <|
    row ⟨⟨_, _, rfl, by decide⟩, by decide, by decide⟩ (plain_option joins_nat _ (fun _ _ => trivial)) <|
    row ⟨⟨_, _, rfl, by decide⟩, by decide, by decide⟩ (plain_text (joins_bool _ trivial)) <|
    row ⟨⟨_, _, rfl, by decide⟩, by decide, by decide⟩ (plain_option (joins_double hl) _ h.latitude) <|
    row ⟨⟨_, _, rfl, by decide⟩, by decide, by decide⟩ (plain_option (joins_double hl) _ h.longitude) <|
    row ⟨⟨_, _, rfl, by decide⟩, by decide, by decide⟩ (plain_option (joins_double hl) _ h.cog) <|
    row ⟨⟨_, _, rfl, by decide⟩, by decide, by decide⟩ (plain_text (joins_nat _ trivial)) <|
    row ⟨⟨_, _, rfl, by decide⟩, by decide, by decide⟩ (plain_text (joins_nat _ trivial)) <|
    row ⟨⟨_, _, rfl, by decide⟩, by decide, by decide⟩ (plain_text (joins_bool _ trivial)) <|
    row ⟨⟨_, _, rfl, by decide⟩, by decide, by decide⟩ (plain_text (joins_bool _ trivial)) <|
    row ⟨⟨_, _, rfl, by decide⟩, by decide, by decide⟩ (plain_text (joins_bool _ trivial)) <|
    row ⟨⟨_, _, rfl, by decide⟩, by decide, by decide⟩ (plain_text (joins_nat _ trivial)) row_nil

theorem rows_UtcDateInquiry {l : Library} (_hl : LibraryOk l) (d : UtcDateInquiry) :
    ∀ f ∈ (DebugCalls.tuple (c! "") (d.calls l)).rows, PlainRow f :=
    row ⟨⟨_, _, rfl, by decide⟩, by decide, by decide⟩ (plain_text (joins_bool _ trivial)) <|
    row ⟨⟨_, _, rfl, by decide⟩, by decide, by decide⟩ (plain_text (joins_Station _ trivial)) <|
    row ⟨⟨_, _, rfl, by decide⟩, by decide, by decide⟩ (plain_text (joins_nat _ trivial)) <|
    row ⟨⟨_, _, rfl, by decide⟩, by decide, by decide⟩ (plain_text (joins_nat _ trivial)) row_nil

theorem rows_GgaData {l : Library} (hl : LibraryOk l) (d : GgaData) (h : GgaData.Sound d) :
    ∀ f ∈ (DebugCalls.tuple (c! "") (d.calls l)).rows, PlainRow f :=
    row ⟨⟨_, _, rfl, by decide⟩, by decide, by decide⟩ (plain_text (joins_NavigationSystem _ trivial)) <|
    row ⟨⟨_, _, rfl, by decide⟩, by decide, by decide⟩ (plain_option joins_date _ h.timestamp) <|
    row ⟨⟨_, _, rfl, by decide⟩, by decide, by decide⟩ (plain_option (joins_double hl) _ h.latitude) <|
    row ⟨⟨_, _, rfl, by decide⟩, by decide, by decide⟩ (plain_option (joins_double hl) _ h.longitude) <|
    row ⟨⟨_, _, rfl, by decide⟩, by decide, by decide⟩ (plain_text (joins_GgaQualityIndicator _ trivial)) <|
    row ⟨⟨_, _, rfl, by decide⟩, by decide, by decide⟩ (plain_option joins_nat _ (fun _ _ => trivial)) <|
    row ⟨⟨_, _, rfl, by decide⟩, by decide, by decide⟩ (plain_option (joins_double hl) _ h.hdop) <|
    row ⟨⟨_, _, rfl, by decide⟩, by decide, by decide⟩ (plain_option (joins_double hl) _ h.altitude) <|
    row ⟨⟨_, _, rfl, by decide⟩, by decide, by decide⟩ (plain_option (joins_double hl) _ h.geoidSeparation) <|
    row ⟨⟨_, _, rfl, by decide⟩, by decide, by decide⟩ (plain_option (joins_double hl) _ h.ageOfDgps) <|
    row ⟨⟨_, _, rfl, by decide⟩, by decide, by decide⟩ (plain_option joins_nat _ (fun _ _ => trivial)) row_nil

theorem rows_RmcData {l : Library} (hl : LibraryOk l) (d : RmcData) (h : RmcData.Sound d) :
    ∀ f ∈ (DebugCalls.tuple (c! "") (d.calls l)).rows, PlainRow f :=
    row ⟨⟨_, _, rfl, by decide⟩, by decide, by decide⟩ (plain_text (joins_NavigationSystem _ trivial)) <|
    row ⟨⟨_, _, rfl, by decide⟩, by decide, by decide⟩ (plain_option joins_date _ h.timestamp) <|
    row ⟨⟨_, _, rfl, by decide⟩, by decide, by decide⟩ (plain_option joins_bool _ (fun _ _ => trivial)) <|
    row ⟨⟨_, _, rfl, by decide⟩, by decide, by decide⟩ (plain_option (joins_double hl) _ h.latitude) <|
    row ⟨⟨_, _, rfl, by decide⟩, by decide, by decide⟩ (plain_option (joins_double hl) _ h.longitude) <|
    row ⟨⟨_, _, rfl, by decide⟩, by decide, by decide⟩ (plain_option (joins_double hl) _ h.sogKnots) <|
    row ⟨⟨_, _, rfl, by decide⟩, by decide, by decide⟩ (plain_option (joins_double hl) _ h.bearing) <|
    row ⟨⟨_, _, rfl, by decide⟩, by decide, by decide⟩ (plain_option (joins_double hl) _ h.variation) row_nil

theorem rows_GsaData {l : Library} (hl : LibraryOk l) (d : GsaData) (h : GsaData.Sound d) :
    ∀ f ∈ (DebugCalls.tuple (c! "") (d.calls l)).rows, PlainRow f :=
    row ⟨⟨_, _, rfl, by decide⟩, by decide, by decide⟩ (plain_text (joins_NavigationSystem _ trivial)) <|
    row ⟨⟨_, _, rfl, by decide⟩, by decide, by decide⟩ (plain_option joins_bool _ (fun _ _ => trivial)) <|
    row ⟨⟨_, _, rfl, by decide⟩, by decide, by decide⟩ (plain_option joins_GsaFixMode _ (fun _ _ => trivial)) <|
    row ⟨⟨_, _, rfl, by decide⟩, by decide, by decide⟩ (.inr (.inr ⟨_, rfl⟩)) <|
    row ⟨⟨_, _, rfl, by decide⟩, by decide, by decide⟩ (plain_option (joins_double hl) _ h.pdop) <|
    row ⟨⟨_, _, rfl, by decide⟩, by decide, by decide⟩ (plain_option (joins_double hl) _ h.hdop) <|
    row ⟨⟨_, _, rfl, by decide⟩, by decide, by decide⟩ (plain_option (joins_double hl) _ h.vdop) row_nil

theorem rows_VtgData {l : Library} (hl : LibraryOk l) (d : VtgData) (h : VtgData.Sound d) :
    ∀ f ∈ (DebugCalls.tuple (c! "") (d.calls l)).rows, PlainRow f :=
    row ⟨⟨_, _, rfl, by decide⟩, by decide, by decide⟩ (plain_text (joins_NavigationSystem _ trivial)) <|
    row ⟨⟨_, _, rfl, by decide⟩, by decide, by decide⟩ (plain_option (joins_double hl) _ h.cogTrue) <|
    row ⟨⟨_, _, rfl, by decide⟩, by decide, by decide⟩ (plain_option (joins_double hl) _ h.cogMagnetic) <|
    row ⟨⟨_, _, rfl, by decide⟩, by decide, by decide⟩ (plain_option (joins_double hl) _ h.sogKnots) <|
    row ⟨⟨_, _, rfl, by decide⟩, by decide, by decide⟩ (plain_option (joins_double hl) _ h.sogKph) <|
    row ⟨⟨_, _, rfl, by decide⟩, by decide, by decide⟩ (plain_option joins_FaaMode _ (fun _ _ => trivial)) row_nil

theorem rows_GllData {l : Library} (hl : LibraryOk l) (d : GllData) (h : GllData.Sound d) :
    ∀ f ∈ (DebugCalls.tuple (c! "") (d.calls l)).rows, PlainRow f :=
    row ⟨⟨_, _, rfl, by decide⟩, by decide, by decide⟩ (plain_text (joins_NavigationSystem _ trivial)) <|
    row ⟨⟨_, _, rfl, by decide⟩, by decide, by decide⟩ (plain_option (joins_double hl) _ h.latitude) <|
    row ⟨⟨_, _, rfl, by decide⟩, by decide, by decide⟩ (plain_option (joins_double hl) _ h.longitude) <|
    row ⟨⟨_, _, rfl, by decide⟩, by decide, by decide⟩ (plain_option joins_date _ h.timestamp) <|
    row ⟨⟨_, _, rfl, by decide⟩, by decide, by decide⟩ (plain_option joins_bool _ (fun _ _ => trivial)) <|
    row ⟨⟨_, _, rfl, by decide⟩, by decide, by decide⟩ (plain_option joins_FaaMode _ (fun _ _ => trivial)) row_nil

end Nmea
