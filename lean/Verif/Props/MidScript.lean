/-
C142: the script that generated the table of countries.
-/
import Verif.Model.MidScript
import Verif.Spec.MidScript
import Verif.Spec.Country
import Verif.Props.Country
import Verif.Lemmas.Keys

namespace Nmea
open Spec MidScript

theorem replaceFrom_skip (old new : Str) (k : Nat) (s : Str) : replaceFrom old new k s = replaceFrom old new 0 (s.drop k) := by
  induction s generalizing k with
  | nil => cases k <;> simp [replaceFrom]
  | cons c t ih =>
    cases k with
    | zero => rfl
    | succ k => rw [replaceFrom, ih, List.drop_succ_cons]

theorem replaceFrom_spec (old new : Str) (ho : old ≠ []) (n : Nat) (s : Str) (hn : s.length ≤ n) :
    Replaced old new s (replaceFrom old new 0 s) := by
  induction n generalizing s with
  | zero =>
    have : s = [] := List.length_eq_zero_iff.mp (by omega)
    subst this
    refine .none _ ?_
    intro a b h
    simp [ho] at h
  | succ n ih =>
    cases s with
    | nil =>
      refine .none _ ?_
      intro a b h
      simp [ho] at h
    | cons c t =>
      rw [replaceFrom]
      by_cases hp : old.isPrefixOf (c :: t) = true
      · rw [if_pos hp]
        obtain ⟨b, hb⟩ := List.isPrefixOf_iff_prefix.mp hp
        obtain ⟨x, old', rfl⟩ := List.exists_cons_of_ne_nil ho
        rw [List.cons_append, List.cons.injEq] at hb
        obtain ⟨rfl, rfl⟩ := hb
        rw [replaceFrom_skip]
        have e : (old' ++ b).drop ((x :: old').length - 1) = b := by simp
        rw [e]
        have := Replaced.first (old := x :: old') (new := new) [] b _ (by simp) (ih b (by simp at hn; omega))
        simpa using this
      · rw [if_neg hp]
        have hn0 : ∀ b, c :: t ≠ old ++ b := fun b hb => hp (List.isPrefixOf_iff_prefix.mpr ⟨b, hb.symm⟩)
        have h := ih t (by simpa using hn)
        generalize replaceFrom old new 0 t = r at h
        cases h with
        | none _ h =>
          refine .none _ ?_
          intro a b hab
          cases a with
          | nil => exact hn0 b hab
          | cons y a =>
            simp only [List.cons_append, List.cons.injEq] at hab
            exact h a b hab.2
        | first a b r h hr =>
          have := Replaced.first (old := old) (new := new) (c :: a) b r (by
            intro a' b' hab
            cases a' with
            | nil => exact absurd (by simpa using hab) (hn0 b')
            | cons y a' =>
              simp only [List.cons_append, List.cons.injEq] at hab
              have := h a' b' hab.2
              simpa using this) hr
          simpa using this

theorem replaced_unique {old new s r r' : Str} (h : Replaced old new s r) (h' : Replaced old new s r') : r = r' := by
  induction h generalizing r' with
  | none s hn =>
    cases h' with
    | none => rfl
    | first a b r h hr => exact absurd rfl (hn a b)
  | first a b r hmin hr ih =>
    generalize hs : a ++ old ++ b = s at h'
    cases h' with
    | none _ hn => exact absurd hs.symm (hn a b)
    | first a' b' r' hmin' hr' =>
      have h1 := hmin a' b' hs
      have h2 := hmin' a b hs.symm
      simp only [List.append_assoc] at hs
      obtain ⟨rfl, hs'⟩ := List.append_inj hs (by omega)
      have := List.append_cancel_left hs'
      subst this
      rw [ih hr']

/-- C142: the fixes replace texts from left to right, without overlap. -/
theorem C142_replace (s old new r : Str) (ho : old ≠ []) : replace s (old, new) = r ↔ Replaced old new s r := by
  have := replaceFrom_spec old new ho s.length s (by omega)
  constructor
  · rintro rfl; exact this
  · exact fun h => replaced_unique this h

/-- A text that occurs twice. -/
example : Replaced (c! "ab") (c! "x") (c! "aabcabab") (c! "axcxx") :=
  (C142_replace _ _ _ _ (by decide)).mp (by decide +kernel)

theorem cut_char {x : Char} {a b a' b' : Str} (ha : x ∉ a) (ha' : x ∉ a') (h : a ++ x :: b = a' ++ x :: b') :
    a = a' ∧ b = b' := by
  induction a generalizing a' with
  | nil =>
    cases a' with
    | nil => simpa using h
    | cons y a' =>
      simp only [List.nil_append, List.cons_append, List.cons.injEq] at h
      exact absurd (by simp [h.1]) ha'
  | cons y a ih =>
    cases a' with
    | nil =>
      simp only [List.nil_append, List.cons_append, List.cons.injEq] at h
      exact absurd (by simp [h.1]) ha
    | cons z a' =>
      simp only [List.cons_append, List.cons.injEq] at h
      obtain ⟨rfl, h⟩ := h
      obtain ⟨rfl, rfl⟩ := ih (fun hm => ha (by simp [hm])) (fun hm => ha' (by simp [hm])) h
      exact ⟨rfl, rfl⟩

theorem dropFrom_true {x b : Str} (hx : ')' ∉ x) : dropFrom true (x ++ ')' :: b) = dropFrom false b := by
  induction x with
  | nil => rfl
  | cons c x ih =>
    have hc : c ≠ ')' := fun h => hx (by simp [h])
    rw [List.cons_append, dropFrom, show (c != ')') = true by simpa using hc]
    exact ih (fun h => hx (by simp [h]))

theorem dropFrom_spec (n : Nat) (s : Str) (hn : s.length ≤ n) : Unbracketed s (dropFrom false s) := by
  induction n generalizing s with
  | zero =>
    have : s = [] := List.length_eq_zero_iff.mp (by omega)
    subst this
    refine .none _ ?_
    intro a x b h
    have := congrArg List.length h
    simp at this
  | succ n ih =>
    cases s with
    | nil =>
      refine .none _ ?_
      intro a x b h
      have := congrArg List.length h
      simp at this
    | cons c t =>
      rw [dropFrom]
      by_cases hp : c = ' ' ∧ t.head? = some '(' ∧ ')' ∈ t
      · rw [if_pos hp]
        obtain ⟨rfl, hh, hm⟩ := hp
        obtain ⟨x, b, rfl, hx⟩ := List.eq_append_cons_of_mem hm
        cases x with
        | nil => simp at hh
        | cons y x =>
          simp only [List.cons_append, List.head?_cons, Option.some.injEq] at hh
          subst hh
          rw [dropFrom_true hx]
          have := Unbracketed.first [] x b _ (by simp) (fun h => hx (by simp [h]))
            (ih b (by simp at hn; omega))
          simpa using this
      · rw [if_neg hp]
        have hn0 : ∀ x b, c :: t ≠ c! " (" ++ x ++ ')' :: b := by
          intro x b hb
          simp only [List.cons_append, List.nil_append, List.cons.injEq] at hb
          exact hp ⟨hb.1, by simp [hb.2], by simp [hb.2]⟩
        have h := ih t (by simpa using hn)
        generalize dropFrom false t = r at h
        cases h with
        | none _ h =>
          refine .none _ ?_
          intro a x b hab
          cases a with
          | nil => exact hn0 x b hab
          | cons y a =>
            simp only [List.cons_append, List.cons.injEq] at hab
            exact h a x b hab.2
        | first a x b r h hx hr =>
          have := Unbracketed.first (c :: a) x b r (by
            intro a' x' b' hab
            cases a' with
            | nil => exact absurd (by simpa using hab) (hn0 x' b')
            | cons y a' =>
              simp only [List.cons_append, List.cons.injEq] at hab
              have := h a' x' b' hab.2
              simpa using this) hx hr
          simpa using this

theorem unbracketed_unique {s r r' : Str} (h : Unbracketed s r) (h' : Unbracketed s r') : r = r' := by
  induction h generalizing r' with
  | none s hn =>
    cases h' with
    | none => rfl
    | first a x b r h hx hr => exact absurd rfl (hn a x b)
  | first a x b r hmin hx hr ih =>
    generalize hs : a ++ c! " (" ++ x ++ ')' :: b = s at h'
    cases h' with
    | none _ hn => exact absurd hs.symm (hn a x b)
    | first a' x' b' r' hmin' hx' hr' =>
      have h1 := hmin a' x' b' hs
      have h2 := hmin' a x b hs.symm
      simp only [List.append_assoc] at hs
      obtain ⟨rfl, hs'⟩ := List.append_inj hs (by omega)
      obtain ⟨-, rfl⟩ := cut_char hx hx' (List.append_cancel_left hs')
      rw [ih hr']

/-- C142: what stands in brackets is removed, from the first bracket that is closed up to the next closing one, with the blank
before. -/
theorem C142_brackets (s r : Str) : dropBrackets s = r ↔ Unbracketed s r := by
  have := dropFrom_spec s.length s (by omega)
  constructor
  · rintro rfl; exact this
  · exact fun h => unbracketed_unique this h

/-- Two pairs of brackets, and one that is not closed. -/
example : Unbracketed (c! "A (b (c) d) e (f") (c! "A d) e (f") := (C142_brackets _ _).mp (by decide +kernel)

theorem isBlank_iff (c : Char) : isBlank c = true ↔ c ∈ [' ', '\t', '\n', '\r', Char.ofNat 11, Char.ofNat 12] := by
  have h : ∀ n, c.toNat = (Char.ofNat n).toNat ↔ c = Char.ofNat n := by
    intro n
    exact ⟨fun h => Char.toNat_inj.mp h, fun h => by rw [h]⟩
  have h11 := h 11
  have h12 := h 12
  simp only [show (Char.ofNat 11).toNat = 11 from rfl, show (Char.ofNat 12).toNat = 12 from rfl] at h11 h12
  simp [isBlank, h11, h12, or_assoc]

theorem isCapital_iff (c : Char) : isCapital c = true ↔ 'A' ≤ c ∧ c ≤ 'Z' := by
  simp only [isCapital, Bool.and_eq_true, decide_eq_true_eq, Char.le_def, UInt32.le_iff_toNat_le]
  exact Iff.rfl

theorem isFigure_iff (c : Char) : isFigure c = true ↔ '0' ≤ c ∧ c ≤ '9' := by
  simp only [isFigure, Bool.and_eq_true, decide_eq_true_eq, Char.le_def, UInt32.le_iff_toNat_le]
  exact Iff.rfl

theorem capital_not_blank {c : Char} (h : isCapital c = true) : isBlank c = false := by
  simp only [isCapital, Bool.and_eq_true, decide_eq_true_eq] at h
  rw [← Bool.not_eq_true, isBlank_iff]
  intro hc
  simp only [List.mem_cons, List.not_mem_nil, or_false] at hc
  rcases hc with rfl | rfl | rfl | rfl | rfl | rfl <;> exact absurd h (by decide)

theorem figure_not_blank {c : Char} (h : isFigure c = true) : isBlank c = false := by
  simp only [isFigure, Bool.and_eq_true, decide_eq_true_eq] at h
  rw [← Bool.not_eq_true, isBlank_iff]
  intro hc
  simp only [List.mem_cons, List.not_mem_nil, or_false] at hc
  rcases hc with rfl | rfl | rfl | rfl | rfl | rfl <;> exact absurd h (by decide)

theorem blanks_some {s r : Str} (h : blanks s = some r) : ∃ b, s = b ++ r ∧ Blanks b ∧ b ≠ [] := by
  cases s with
  | nil => simp [blanks] at h
  | cons c t =>
    simp only [blanks] at h
    split at h
    · rename_i hc
      simp only [Option.some.injEq] at h
      refine ⟨c :: t.takeWhile isBlank, ?_, ?_, by simp⟩
      · rw [List.cons_append, ← h, List.takeWhile_append_dropWhile]
      · intro x hx
        rcases List.mem_cons.mp hx with rfl | hx
        · exact (isBlank_iff _).mp hc
        · exact (isBlank_iff _).mp (List.all_eq_true.mp List.all_takeWhile _ hx)
    · cases h

theorem blanks_of {b r : Str} (hb : Blanks b) (hne : b ≠ []) (hr : ∀ c ∈ r.head?, isBlank c = false) :
    blanks (b ++ r) = some r := by
  obtain ⟨c, b', rfl⟩ := List.exists_cons_of_ne_nil hne
  rw [List.cons_append, blanks, if_pos ((isBlank_iff c).mpr (hb c (by simp)))]
  congr 1
  rw [List.dropWhile_append_of_pos (fun x hx => (isBlank_iff x).mpr (hb x (by simp [hx])))]
  cases r with
  | nil => rfl
  | cons x r => rw [List.dropWhile_cons_of_neg (by simpa using hr x (by simp))]

theorem isoTail_iff (s code : Str) : isoTail s = some code ↔ IsoCodes code s := by
  constructor
  · intro h
    unfold isoTail at h
    cases h1 : blanks s with
    | none => simp [h1] at h
    | some r =>
      obtain ⟨b1, rfl, hb1, hb1'⟩ := blanks_some h1
      match r, h1 with
      | [], h1 => rw [h1] at h; cases h
      | [_], h1 => rw [h1] at h; cases h
      | a :: b :: r, h1 =>
        simp only [h1, Option.bind_eq_bind, Option.bind_some] at h
        by_cases hg : (isCapital a && isCapital b) = true
        · simp only [hg, guard, if_true, Option.pure_def, Option.bind_some] at h
          cases h2 : blanks r with
          | none => simp [h2] at h
          | some q =>
            obtain ⟨b2, rfl, hb2, hb2'⟩ := blanks_some h2
            match q, h2 with
            | [], h2 => rw [h2] at h; cases h
            | [_], h2 => rw [h2] at h; cases h
            | [_, _], h2 => rw [h2] at h; cases h
            | x :: y :: z :: q, h2 =>
              simp only [h2, Option.bind_some] at h
              by_cases hg2 : (isCapital x && isCapital y && isCapital z) = true
              · simp only [hg2, if_true, Option.bind_some] at h
                cases h3 : blanks q with
                | none => simp [h3] at h
                | some u =>
                  obtain ⟨b3, rfl, hb3, hb3'⟩ := blanks_some h3
                  simp only [h3, Option.bind_some] at h
                  by_cases hg3 : isFigure (u.headD ' ') = true
                  · simp only [hg3, if_true, Option.bind_some] at h
                    by_cases hg4 : (u.dropWhile isFigure).all isBlank = true
                    · simp only [hg4, if_true, Option.bind_some, Option.some.injEq] at h
                      subst h
                      simp only [Bool.and_eq_true] at hg hg2
                      refine ⟨b1, b2, [x, y, z], b3, u.takeWhile isFigure, u.dropWhile isFigure, ?_, hb1, hb1', ?_, rfl, hb2, hb2',
                        ?_, rfl, hb3, hb3', ?_, ?_, ?_⟩
                      · simp [List.takeWhile_append_dropWhile]
                      · intro c hc
                        simp only [List.mem_cons, List.not_mem_nil, or_false] at hc
                        rcases hc with rfl | rfl
                        · exact (isCapital_iff _).mp hg.1
                        · exact (isCapital_iff _).mp hg.2
                      · intro c hc
                        simp only [List.mem_cons, List.not_mem_nil, or_false] at hc
                        rcases hc with rfl | rfl | rfl
                        · exact (isCapital_iff _).mp hg2.1.1
                        · exact (isCapital_iff _).mp hg2.1.2
                        · exact (isCapital_iff _).mp hg2.2
                      · intro c hc
                        exact (isFigure_iff _).mp (List.all_eq_true.mp List.all_takeWhile _ hc)
                      · cases u with
                        | nil => simp [isFigure] at hg3
                        | cons c u => simp only [List.headD_cons] at hg3; simp [hg3]
                      · intro c hc
                        exact (isBlank_iff _).mp (List.all_eq_true.mp hg4 c hc)
                    · rw [if_neg hg4] at h
                      cases h
                  · rw [if_neg hg3] at h
                    cases h
              · rw [if_neg hg2] at h
                cases h
        · rw [guard, if_neg hg] at h
          cases h
  · rintro ⟨b1, b2, three, b3, number, b4, rfl, hb1, hb1', hc, hl, hb2, hb2', ht, htl, hb3, hb3', hn, hn', hb4⟩
    obtain ⟨a, b, rfl⟩ : ∃ a b, code = [a, b] := by
      match code, hl with
      | [a, b], _ => exact ⟨a, b, rfl⟩
    obtain ⟨x, y, z, rfl⟩ : ∃ x y z, three = [x, y, z] := by
      match three, htl with
      | [x, y, z], _ => exact ⟨x, y, z, rfl⟩
    have ca := (isCapital_iff a).mpr (hc a (by simp))
    have cb := (isCapital_iff b).mpr (hc b (by simp))
    have cx := (isCapital_iff x).mpr (ht x (by simp))
    have cy := (isCapital_iff y).mpr (ht y (by simp))
    have cz := (isCapital_iff z).mpr (ht z (by simp))
    obtain ⟨n, ns, rfl⟩ := List.exists_cons_of_ne_nil hn'
    have cn := (isFigure_iff n).mpr (hn n (by simp))
    have e1 : blanks (b1 ++ (a :: b :: (b2 ++ (x :: y :: z :: (b3 ++ (n :: (ns ++ b4))))))) = _ :=
      blanks_of hb1 hb1' (by simp [capital_not_blank ca])
    have e2 : blanks (b2 ++ (x :: y :: z :: (b3 ++ (n :: (ns ++ b4))))) = _ :=
      blanks_of hb2 hb2' (by simp [capital_not_blank cx])
    have e3 : blanks (b3 ++ (n :: (ns ++ b4))) = _ := blanks_of hb3 hb3' (by simp [figure_not_blank cn])
    have e4 : ((n :: (ns ++ b4)).dropWhile isFigure).all isBlank = true := by
      rw [show n :: (ns ++ b4) = (n :: ns) ++ b4 from rfl,
        List.dropWhile_append_of_pos (fun x hx => (isFigure_iff x).mpr (hn x hx))]
      rw [List.all_eq_true]
      intro c hc
      exact (isBlank_iff c).mpr (hb4 c ((List.dropWhile_sublist _).subset hc))
    unfold isoTail
    simp only [List.append_assoc, List.cons_append, List.nil_append, e1, e2, e3, Option.bind_eq_bind, Option.bind_some, ca, cb,
      cx, cy, cz, Bool.and_self, guard, if_true, Option.pure_def, List.headD_cons, cn, e4]

theorem isoCodes_ne_nil {code s : Str} (h : IsoCodes code s) : s ≠ [] := by
  obtain ⟨b1, b2, three, b3, number, b4, rfl, -, hb1', -⟩ := h
  simp [hb1']

theorem isoEntry_iff (l name code : Str) : isoEntry l = some (name, code) ↔ IsoLine name code l := by
  induction l generalizing name code with
  | nil =>
    constructor
    · intro h; simp [isoEntry] at h
    · rintro ⟨t, h, hc, -⟩
      simp only [List.nil_eq, List.append_eq_nil_iff] at h
      exact absurd h.2 (isoCodes_ne_nil hc)
  | cons c t ih =>
    rw [isoEntry]
    cases h : isoTail (c :: t) with
    | some code' =>
      have hc' := (isoTail_iff _ _).mp h
      simp only [Option.some.injEq, Prod.mk.injEq]
      constructor
      · rintro ⟨rfl, rfl⟩
        exact ⟨c :: t, rfl, hc', by simp⟩
      · rintro ⟨u, hu, hc, hmin⟩
        cases name with
        | nil =>
          refine ⟨rfl, ?_⟩
          rw [List.nil_append] at hu
          subst hu
          have := (isoTail_iff _ _).mpr hc
          rw [h] at this
          exact Option.some.inj this
        | cons x name => exact absurd hc' (hmin [] (c :: t) code' rfl (by simp))
    | none =>
      simp only [Option.map_eq_some_iff, Prod.exists, Prod.mk.injEq]
      constructor
      · rintro ⟨n, k, hk, rfl, rfl⟩
        obtain ⟨u, rfl, hu, hmin⟩ := (ih n k).mp hk
        refine ⟨u, rfl, hu, ?_⟩
        intro n' t' k' he hl
        cases n' with
        | nil =>
          rw [List.nil_append] at he
          subst he
          intro hk'
          rw [(isoTail_iff _ _).mpr hk'] at h
          cases h
        | cons x n' =>
          rw [List.cons_append, List.cons.injEq] at he
          exact hmin n' t' k' he.2 (by simpa using hl)
      · rintro ⟨u, hu, hc, hmin⟩
        cases name with
        | nil =>
          rw [List.nil_append] at hu
          subst hu
          rw [(isoTail_iff _ _).mpr hc] at h
          cases h
        | cons x name =>
          rw [List.cons_append, List.cons.injEq] at hu
          obtain ⟨rfl, rfl⟩ := hu
          refine ⟨name, code, (ih _ _).mpr ⟨u, rfl, hc, ?_⟩, rfl, rfl⟩
          intro n' t' k' he hl
          exact hmin (c :: n') t' k' (by rw [he]; rfl) (by simpa using hl)

theorem codeOf_last {iso : List Str} {name code : Str} (h : LastIso iso name code) :
    codeOf (iso.filterMap isoEntry) name = some code := by
  obtain ⟨pre, l, post, rfl, hl, hpost⟩ := h
  have hl' := (isoEntry_iff _ _ _).mpr hl
  have hn : ((post.filterMap isoEntry).reverse.find? fun e => e.1 == name) = none := by
    rw [List.find?_eq_none]
    rintro ⟨n, k⟩ he
    simp only [List.mem_reverse, List.mem_filterMap] at he
    obtain ⟨l', hm, hk⟩ := he
    intro hne
    have : n = name := by simpa using hne
    subst this
    exact hpost l' hm k ((isoEntry_iff _ _ _).mp hk)
  rw [codeOf, List.filterMap_append, List.filterMap_cons, hl']
  simp only [List.reverse_append, List.reverse_cons, List.append_assoc, List.find?_append, hn, Option.none_or]
  simp


theorem midEntry_of {digits name : Str} (hd : Figures digits) (hl : digits.length = 3)
    (hn : ∀ c ∈ name.head?, c ∉ [' ', '\t', '\n', '\r', Char.ofNat 11, Char.ofNat 12]) :
    midEntry (digits ++ '\t' :: name) = some (digits, name) := by
  match digits, hl with
  | [a, b, c], _ =>
    have ca := (isFigure_iff a).mpr (hd a (by simp))
    have cb := (isFigure_iff b).mpr (hd b (by simp))
    have cc := (isFigure_iff c).mpr (hd c (by simp))
    have hb : blanks (['\t'] ++ name) = some name := by
      refine blanks_of (by intro c hc; simp at hc; simp [hc]) (by simp) ?_
      intro c hc
      rw [← Bool.not_eq_true, isBlank_iff]
      exact hn c hc
    rw [List.cons_append, List.cons_append, List.cons_append, List.nil_append, midEntry]
    simp only [ca, cb, cc, Bool.and_self, if_true]
    rw [show '\t' :: name = ['\t'] ++ name from rfl, hb]
    rfl

/-- C142: what the script prints for any two tables whose lines have the right form: one arm for each line of the first table,
with the code of the last line of the second table that has the name; arms whose digits are those of the line before are
commented out. -/
theorem C142_script (iso : List Str) (hiso : ∀ l ∈ iso, l = [] ∨ ∃ name code, IsoLine name code l)
    (es : List (Str × Str × Str))
    (hes : ∀ e ∈ es, Figures e.1 ∧ e.1.length = 3 ∧ LastIso iso e.2.2 e.2.1 ∧
      ∀ c ∈ e.2.2.head?, c ∉ [' ', '\t', '\n', '\r', Char.ofNat 11, Char.ofNat 12]) :
    script (es.map fun e => e.1 ++ '\t' :: e.2.2) iso = armTexts none es := by
  have hf : (readIso iso).2 = [] := by
    simp only [readIso, List.map_eq_nil_iff, List.filter_eq_nil_iff]
    intro l hl
    rcases hiso l hl with rfl | ⟨n, c, h⟩
    · simp
    · simp [(isoEntry_iff _ _ _).mpr h]
  have : ∀ prev, arms (iso.filterMap isoEntry) prev (es.map fun e => e.1 ++ '\t' :: e.2.2) = armTexts prev es := by
    clear hf
    induction es with
    | nil => intro prev; rfl
    | cons e es ih =>
      intro prev
      obtain ⟨digits, code, name⟩ := e
      obtain ⟨h1, h2, h3, h4⟩ := hes _ List.mem_cons_self
      rw [List.map_cons, arms, midEntry_of h1 h2 h4]
      simp only [codeOf_last h3]
      rw [armTexts, ih (fun e he => hes e (List.mem_cons_of_mem _ he))]
      congr 1
      by_cases hp : prev = some digits
      · subst hp; simp [armLine, armText]
      · simp [armLine, armText, hp]
  rw [script]
  simp only [hf, List.nil_append]
  exact this none

/-- A small table in which a name occurs twice. -/
def demoIso : List Str := [c! "Aland AX ALA 248", [], c! "Korea KP PRK 408", c! "Korea KR KOR 410"]

theorem demoIso_lines : ∀ l ∈ demoIso, l = [] ∨ ∃ name code, IsoLine name code l := by
  intro l hl
  simp only [demoIso, List.mem_cons, List.not_mem_nil, or_false] at hl
  rcases hl with rfl | rfl | rfl | rfl
  · exact .inr ⟨c! "Aland", c! "AX", (isoEntry_iff _ _ _).mp (by decide +kernel)⟩
  · exact .inl rfl
  · exact .inr ⟨c! "Korea", c! "KP", (isoEntry_iff _ _ _).mp (by decide +kernel)⟩
  · exact .inr ⟨c! "Korea", c! "KR", (isoEntry_iff _ _ _).mp (by decide +kernel)⟩

theorem demoMid_lines (e : Str × Str × Str)
    (he : e ∈ [(c! "230", c! "AX", c! "Aland"), (c! "440", c! "KR", c! "Korea"), (c! "440", c! "AX", c! "Aland")]) :
    Figures e.1 ∧ e.1.length = 3 ∧ LastIso demoIso e.2.2 e.2.1 ∧
      ∀ c ∈ e.2.2.head?, c ∉ [' ', '\t', '\n', '\r', Char.ofNat 11, Char.ofNat 12] := by
  simp only [List.mem_cons, List.not_mem_nil, or_false] at he
  have hA : LastIso demoIso (c! "Aland") (c! "AX") := by
    refine ⟨[], _, _, rfl, (isoEntry_iff _ _ _).mp (by decide +kernel), ?_⟩
    intro l hl code h
    have := (isoEntry_iff _ _ _).mpr h
    simp only [List.mem_cons, List.not_mem_nil, or_false] at hl
    rcases hl with rfl | rfl | rfl <;> revert this
    · simp [isoEntry]
    · rw [show isoEntry (c! "Korea KP PRK 408") = some (c! "Korea", c! "KP") by decide +kernel]; simp
    · rw [show isoEntry (c! "Korea KR KOR 410") = some (c! "Korea", c! "KR") by decide +kernel]; simp
  have hK : LastIso demoIso (c! "Korea") (c! "KR") :=
    ⟨[_, _, _], _, [], rfl, (isoEntry_iff _ _ _).mp (by decide +kernel), by simp⟩
  rcases he with rfl | rfl | rfl
  · exact ⟨by unfold Figures; decide, rfl, hA, by decide⟩
  · exact ⟨by unfold Figures; decide, rfl, hK, by decide⟩
  · exact ⟨by unfold Figures; decide, rfl, hA, by decide⟩

/-- Two lines with the same digits: the second arm is commented out. -/
example : script [c! "230\tAland", c! "440\tKorea", c! "440\tAland"] demoIso =
    [c! "            230 => Some(\"AX\"), // Aland", c! "            440 => Some(\"KR\"), // Korea",
      c! "//            440 => Some(\"AX\"), // Aland"] :=
  C142_script demoIso demoIso_lines
    [(c! "230", c! "AX", c! "Aland"), (c! "440", c! "KR", c! "Korea"), (c! "440", c! "AX", c! "Aland")] demoMid_lines

theorem midEntry_iff (l digits name : Str) : midEntry l = some (digits, name) ↔ MidLine digits name l := by
  constructor
  · intro h
    match l, h with
    | a :: b :: c :: t, h =>
      rw [midEntry] at h
      split at h
      · rename_i hf
        simp only [Bool.and_eq_true] at hf
        obtain ⟨⟨ha, hb⟩, hc⟩ := hf
        rw [Option.map_eq_some_iff] at h
        obtain ⟨n, hn, e⟩ := h
        cases e
        obtain ⟨bl, rfl, hbl, hne⟩ := blanks_some hn
        refine ⟨bl, by simp, ?_, rfl, hbl, hne, ?_⟩
        · intro x hx
          simp only [List.mem_cons, List.not_mem_nil, or_false] at hx
          rcases hx with rfl | rfl | rfl
          · exact (isFigure_iff _).mp ha
          · exact (isFigure_iff _).mp hb
          · exact (isFigure_iff _).mp hc
        · intro x hx hm
          have hbx := (isBlank_iff x).mpr hm
          match bl, hne with
          | y :: bl, _ =>
            have hy := (isBlank_iff y).mpr (hbl y List.mem_cons_self)
            simp only [List.cons_append, blanks, hy, if_true, Option.some.injEq] at hn
            have := List.head?_dropWhile_not isBlank (bl ++ name)
            rw [hn, hx] at this
            simp [hbx] at this
      · cases h
    | [], h => cases h
    | [_], h => cases h
    | [_, _], h => cases h
  · rintro ⟨bl, rfl, hd, hl, hbl, hne, hn⟩
    match digits, hl with
    | [a, b, c], _ =>
      have ca := (isFigure_iff a).mpr (hd a (by simp))
      have cb := (isFigure_iff b).mpr (hd b (by simp))
      have cc := (isFigure_iff c).mpr (hd c (by simp))
      have hb : blanks (bl ++ name) = some name := by
        refine blanks_of hbl hne ?_
        intro c hc
        rw [← Bool.not_eq_true, isBlank_iff]
        exact hn c hc
      simp only [List.cons_append, List.nil_append]
      rw [midEntry]
      simp only [ca, cb, cc, Bool.and_self, if_true]
      rw [hb]
      rfl

theorem codeOf_iff (iso : List Str) (name code : Str) :
    codeOf (iso.filterMap isoEntry) name = some code ↔ LastIso iso name code := by
  refine ⟨?_, codeOf_last⟩
  intro h
  by_cases he : ∃ code', LastIso iso name code'
  · obtain ⟨c', hc'⟩ := he
    rw [codeOf_last hc'] at h
    cases h
    exact hc'
  · exfalso
    have hno : ∀ l ∈ iso, ∀ c, ¬ IsoLine name c l := by
      have main : ∀ is : List Str, (¬ ∃ c, LastIso is name c) → ∀ l ∈ is, ∀ c, ¬ IsoLine name c l := by
        intro is
        induction is with
        | nil => intro _ l hl; cases hl
        | cons x is ih =>
          intro hx
          have hrest := ih (by
            rintro ⟨c, pre, l, post, rfl, h1, h2⟩
            exact hx ⟨c, x :: pre, l, post, rfl, h1, h2⟩)
          intro l hl c hc
          rcases List.mem_cons.1 hl with rfl | hl
          · exact hx ⟨c, [], l, is, rfl, hc, hrest⟩
          · exact hrest l hl c hc
      exact main iso he
    rw [codeOf, Option.map_eq_some_iff] at h
    obtain ⟨⟨n, c⟩, hf, -⟩ := h
    have h1 := List.find?_some hf
    have h2 := List.mem_of_find?_eq_some hf
    simp only [beq_iff_eq] at h1
    subst h1
    rw [List.mem_reverse, List.mem_filterMap] at h2
    obtain ⟨l, hl, hl'⟩ := h2
    exact hno l hl c ((isoEntry_iff _ _ _).mp hl')

theorem arms_iff (iso : List Str) (mid : List Str) (before : Option Str) (r : List Str) :
    arms (iso.filterMap isoEntry) before mid = r ↔ Printed iso before mid r := by
  constructor
  · rintro rfl
    induction mid generalizing before with
    | nil => exact .done _
    | cons l ls ih =>
      rw [arms]
      split
      · rename_i h
        exact .skip (fun d n hm => by rw [(midEntry_iff _ _ _).mpr hm] at h; cases h) (ih _)
      · rename_i d n h
        have hm := (midEntry_iff _ _ _).mp h
        split
        · rename_i c hc
          have hc' := (codeOf_iff _ _ _).mp hc
          by_cases hb : before = some d
          · subst hb
            have := Printed.again hm hc' (ih (some d))
            simpa [armLine, armText] using this
          · have := Printed.arm hm hc' hb (ih (some d))
            simpa [armLine, armText, hb] using this
        · rename_i hc
          exact .unknown hm fun c hl => by rw [(codeOf_iff _ _ _).mpr hl] at hc; cases hc
  · intro h
    induction h with
    | done => rfl
    | @skip before l ls r h hr ih =>
      have : midEntry l = none := by
        cases hm : midEntry l with
        | none => rfl
        | some e => exact absurd ((midEntry_iff _ _ _).mp hm) (h e.1 e.2)
      rw [arms, this]; exact ih
    | arm h hc hn hr ih =>
      rw [arms, (midEntry_iff _ _ _).mpr h]
      simp only [(codeOf_iff _ _ _).mpr hc, ih]
      simp [armLine, armText, hn]
    | again h hc hr ih =>
      rw [arms, (midEntry_iff _ _ _).mpr h]
      simp only [(codeOf_iff _ _ _).mpr hc, ih]
      simp [armLine, armText]
    | @unknown before l ls d n h hc =>
      have : codeOf (iso.filterMap isoEntry) n = none := by
        cases hm : codeOf (iso.filterMap isoEntry) n with
        | none => rfl
        | some c => exact absurd ((codeOf_iff _ _ _).mp hm) (hc c)
      rw [arms, (midEntry_iff _ _ _).mpr h]
      simp only [this]

/-- C142: what the script prints for any two tables: complaints about lines of the country table, then the arms, up to the first
country that is not in the table. -/
theorem C142_any_tables (mid iso p : List Str) : script mid iso = p ↔ ∃ r, Printed iso none mid r ∧ p = complaints iso ++ r := by
  have hf : (readIso iso).2 = complaints iso := by
    simp only [readIso, complaints]
    congr 1
    refine List.filter_congr fun l _ => ?_
    rw [Bool.eq_iff_iff]
    simp only [Bool.and_eq_true, Bool.not_eq_true', decide_eq_true_eq, List.isEmpty_eq_false_iff, Option.isNone_iff_eq_none]
    refine ⟨fun ⟨h1, h2⟩ => ⟨h2, fun n c hl => by rw [(isoEntry_iff _ _ _).mpr hl] at h1; cases h1⟩, fun ⟨h1, h2⟩ => ⟨?_, h1⟩⟩
    cases hm : isoEntry l with
    | none => rfl
    | some e => exact absurd ((isoEntry_iff _ _ _).mp hm) (h2 e.1 e.2)
  have hs : script mid iso = complaints iso ++ arms (iso.filterMap isoEntry) none mid := by rw [← hf]; rfl
  rw [hs]
  constructor
  · rintro rfl
    exact ⟨_, (arms_iff _ _ _ _).mp rfl, rfl⟩
  · rintro ⟨r, hr, rfl⟩
    rw [(arms_iff _ _ _ _).mpr hr]

example : script [c! "230\tAland", c! "23x Korea", c! "440  Korea", c! "", c! "441 Atlantis", c! "230 Aland"] (c! "Atlantis XXX" :: demoIso) =
    [c! "Failed to parse: Atlantis XXX", c! "            230 => Some(\"AX\"), // Aland",
      c! "            440 => Some(\"KR\"), // Korea", c! "Unmatching country: Atlantis"] := by decide +kernel

theorem activeDigits_arm (digits code name : Str) (h : digits.length = 3) :
    activeDigits (armText digits code name) = some digits ∧ activeDigits (c! "//" ++ armText digits code name) = none := by
  match digits, h with
  | [a, b, c], _ => exact ⟨rfl, rfl⟩

theorem adjacent_tail {x : Str} {l : List Str} (h : Adjacent (x :: l)) : Adjacent l := by
  intro a b c y e
  exact h (x :: a) b c y (by rw [e]; rfl)

theorem active_arms (es : List (Str × Str × Str)) (hl : ∀ e ∈ es, e.1.length = 3) (before : Option Str)
    (ha : Adjacent (before.toList ++ es.map (·.1))) :
    ((armTexts before es).filterMap activeDigits).Nodup ∧
    ∀ x, x ∈ (armTexts before es).filterMap activeDigits ↔ x ∈ es.map (·.1) ∧ before ≠ some x := by
  induction es generalizing before with
  | nil => simp [armTexts]
  | cons e es ih =>
    obtain ⟨digits, code, name⟩ := e
    have h3 : digits.length = 3 := hl _ List.mem_cons_self
    have hl' : ∀ e ∈ es, e.1.length = 3 := fun e he => hl e (List.mem_cons_of_mem _ he)
    have ha' : Adjacent ((some digits).toList ++ es.map (·.1)) := by
      cases before with
      | none => simpa using ha
      | some b => exact adjacent_tail (by simpa using ha)
    obtain ⟨i1, i2⟩ := ih hl' (some digits) ha'
    rw [armTexts]
    by_cases hb : before = some digits
    · rw [if_pos hb, List.filterMap_cons, (activeDigits_arm digits code name h3).2]
      refine ⟨i1, fun x => ?_⟩
      rw [i2 x, List.map_cons, List.mem_cons, hb]
      constructor
      · rintro ⟨h, hne⟩; exact ⟨.inr h, hne⟩
      · rintro ⟨h, hne⟩
        exact ⟨h.resolve_left (fun h => hne (by rw [h])), hne⟩
    · rw [if_neg hb, List.filterMap_cons, (activeDigits_arm digits code name h3).1]
      refine ⟨List.nodup_cons.mpr ⟨fun h => ((i2 _).mp h).2 rfl, i1⟩, fun x => ?_⟩
      rw [List.mem_cons, i2 x, List.map_cons, List.mem_cons]
      constructor
      · rintro (rfl | ⟨h, hne⟩)
        · exact ⟨.inl rfl, hb⟩
        · refine ⟨.inr h, ?_⟩
          intro hx
          subst hx
          obtain ⟨s, t, ht⟩ := List.append_of_mem h
          have := ha [] (digits :: s) t x (by simp [ht]) digits (by simp)
          exact hne (by rw [this])
      · rintro ⟨h, hne⟩
        by_cases hx : x = digits
        · exact .inl hx
        · exact .inr ⟨h.resolve_left hx, fun h => hx (Option.some.inj h).symm⟩

/-- C142: if the lines of the first table with equal digits stand next to each other, every digits get exactly one arm that is
not commented out, so that no arm of the `match` is unreachable. -/
theorem C142_one_arm (iso : List Str) (hiso : ∀ l ∈ iso, l = [] ∨ ∃ name code, IsoLine name code l)
    (es : List (Str × Str × Str))
    (hes : ∀ e ∈ es, Figures e.1 ∧ e.1.length = 3 ∧ LastIso iso e.2.2 e.2.1 ∧
      ∀ c ∈ e.2.2.head?, c ∉ [' ', '\t', '\n', '\r', Char.ofNat 11, Char.ofNat 12])
    (ha : Adjacent (es.map (·.1))) :
    ((script (es.map fun e => e.1 ++ '\t' :: e.2.2) iso).filterMap activeDigits).Nodup ∧
    ∀ x, x ∈ (script (es.map fun e => e.1 ++ '\t' :: e.2.2) iso).filterMap activeDigits ↔ x ∈ es.map (·.1) := by
  rw [C142_script iso hiso es hes]
  obtain ⟨h1, h2⟩ := active_arms es (fun e he => (hes e he).2.1) none ha
  exact ⟨h1, fun x => by rw [h2 x]; simp⟩


/-- The digits of the same tables. -/
example : ((script [c! "230\tAland", c! "440\tKorea", c! "440\tAland"] demoIso).filterMap activeDigits).Nodup :=
  (C142_one_arm demoIso demoIso_lines
    [(c! "230", c! "AX", c! "Aland"), (c! "440", c! "KR", c! "Korea"), (c! "440", c! "AX", c! "Aland")] demoMid_lines
    (by
      intro a b c x h
      match a, b, h with
      | [], [], h => simp
      | [], [_], h => simp at h; exact absurd h.1 (by rw [← h.2.2.1]; decide)
      | [_], [], h => simp
      | [], _ :: _ :: b, h => simp at h
      | [_], _ :: b, h => simp at h
      | _ :: _ :: a, b, h => have := congrArg List.length h; simp at this; omega)).1

/-- If the lines are not next to each other, an arm is printed twice, and the second one is unreachable. -/
example : script [c! "440\tKorea", c! "230\tAland", c! "440\tAland"] demoIso =
    [c! "            440 => Some(\"KR\"), // Korea", c! "            230 => Some(\"AX\"), // Aland",
      c! "            440 => Some(\"AX\"), // Aland"] := by decide +kernel

set_option maxRecDepth 20000 in
/-- C142: with the tables given in it the script prints exactly the lines of the `match` in `country`. -/
theorem C142_output : output = countrySource := by decide +kernel

/-- The part of an arm before the name. -/
def armHead (r : Nat × Str) : Str := armText (natStr r.1) r.2 []

set_option maxRecDepth 20000 in
theorem source_table : (countrySource.filter fun l => l.head? = some ' ').length = countryTable.length ∧
    (((countrySource.filter fun l => l.head? = some ' ').zip countryTable).all fun x => (armHead x.2).isPrefixOf x.1) = true := by
  decide +kernel

theorem natStr_no_blank (n : Nat) : ' ' ∉ natStr n := by
  intro h
  exact absurd ((natStr_digits n).2 ' ' h) (by decide)

theorem armText_head (d : Nat) (c name : Str) : armText (natStr d) c name = armHead (d, c) ++ name := by
  simp [armHead, armText]

theorem armText_inj {d d' : Nat} {c c' name name' : Str} (hc : '"' ∉ c) (hc' : '"' ∉ c')
    (h : armText (natStr d) c name = armText (natStr d') c' name') : d = d' ∧ c = c' := by
  have h1 : natStr d ++ ' ' :: (c! "=> Some(" ++ '"' :: (c ++ '"' :: (c! "), // " ++ name))) =
      natStr d' ++ ' ' :: (c! "=> Some(" ++ '"' :: (c' ++ '"' :: (c! "), // " ++ name'))) := by
    simpa [armText] using h
  obtain ⟨h2, h3⟩ := cut_char (natStr_no_blank d) (natStr_no_blank d') h1
  obtain ⟨-, h4⟩ := cut_char (by decide) (by decide) h3
  exact ⟨natStr_inj h2, (cut_char hc hc' h4).1⟩

theorem zip_arms (L : List Str) (T : List (Nat × Str)) (hlen : L.length = T.length)
    (hall : ∀ x ∈ L.zip T, (armHead x.2).isPrefixOf x.1 = true) (hq : ∀ r ∈ T, '"' ∉ r.2) (d : Nat) (c : Str) :
    (d, c) ∈ T ↔ '"' ∉ c ∧ ∃ name, armText (natStr d) c name ∈ L := by
  have hz : ∀ i (h1 : i < L.length) (h2 : i < T.length), ∃ name, armText (natStr T[i].1) T[i].2 name = L[i] := by
    intro i h1 h2
    have := hall (L[i], T[i])
      (List.mem_iff_getElem.mpr ⟨i, by rw [List.length_zip, hlen, Nat.min_self]; exact h2, by rw [List.getElem_zip]⟩)
    rw [List.isPrefixOf_iff_prefix] at this
    obtain ⟨name, hn⟩ := this
    exact ⟨name, by rw [armText_head]; exact hn⟩
  constructor
  · intro h
    refine ⟨hq _ h, ?_⟩
    obtain ⟨i, h2, he⟩ := List.mem_iff_getElem.mp h
    obtain ⟨name, hn⟩ := hz i (by rw [hlen]; exact h2) h2
    rw [he] at hn
    exact ⟨name, hn ▸ List.getElem_mem _⟩
  · rintro ⟨hc, name, hm⟩
    obtain ⟨i, h1, he⟩ := List.mem_iff_getElem.mp hm
    have h2 : i < T.length := hlen ▸ h1
    obtain ⟨name', hn⟩ := hz i h1 h2
    rw [he] at hn
    have hmem := List.getElem_mem h2
    obtain ⟨e1, e2⟩ := armText_inj (hq _ hmem) hc hn
    rw [← e1, ← e2]
    exact hmem

/-- C142: so `country` answers the digits with the code exactly if the script prints this arm for them (not commented out). -/
theorem C142_country (v : VesselStaticData) (c : Str) :
    v.country = some c ↔ '"' ∉ c ∧ ∃ name, armText (natStr (v.mmsi / 1000000)) c name ∈ output := by
  rw [country_mem, C142_output]
  have hq : ∀ r ∈ countryTable, '"' ∉ r.2 := by decide +kernel
  obtain ⟨hlen, hall⟩ := source_table
  rw [List.all_eq_true] at hall
  generalize countryTable = T at *
  generalize countrySource = S at *
  rw [zip_arms _ T hlen hall hq]
  refine and_congr_right fun _ => exists_congr fun name => ?_
  rw [List.mem_filter]
  exact ⟨fun h => h.1, fun h => ⟨h, rfl⟩⟩

/-- The arm for Finland. -/
example (v : VesselStaticData) (h : v.mmsi = 230123456) : ∃ name, armText (c! "230") (c! "FI") name ∈ output := by
  have := ((C142_country v (c! "FI")).mp (((C61_country v _).1 (by rw [h]; decide)).mpr (by rw [h]; decide +kernel))).2
  rw [h] at this
  exact this

/-! What becomes of a name that two lines share. -/

theorem arms_mem {dict : List (Str × Str)} {prev : Option Str} {mid : List Str} {l : Str} (h : l ∈ arms dict prev mid)
    (hl : l.head? = some ' ') : ∃ m ∈ mid, ∃ digits name code, midEntry m = some (digits, name) ∧
      codeOf dict name = some code ∧ l = armText digits code name := by
  induction mid generalizing prev with
  | nil => simp [arms] at h
  | cons m mid ih =>
    rw [arms] at h
    split at h
    · obtain ⟨m', hm, r⟩ := ih h
      exact ⟨m', List.mem_cons_of_mem _ hm, r⟩
    · rename_i digits name hd
      split at h
      · rename_i code hc
        rcases List.mem_cons.mp h with rfl | h
        · refine ⟨m, List.mem_cons_self, digits, name, code, hd, hc, ?_⟩
          rw [armLine] at hl ⊢
          split at hl
          · simp at hl
          · rename_i hne; rw [if_neg hne]; rfl
        · obtain ⟨m', hm, r⟩ := ih h
          exact ⟨m', List.mem_cons_of_mem _ hm, r⟩
      · rw [List.mem_singleton] at h
        subst h
        simp at hl

theorem midEntry_length {m digits name : Str} (h : midEntry m = some (digits, name)) : digits.length = 3 := by
  match m, h with
  | a :: b :: c :: t, h =>
    rw [midEntry] at h
    split at h
    · simp only [Option.map_eq_some_iff, Prod.mk.injEq] at h
      obtain ⟨n, -, h, -⟩ := h
      rw [← h]; rfl
    · cases h

theorem codeOf_length {iso : List Str} {name code : Str} (h : codeOf (iso.filterMap isoEntry) name = some code) :
    code.length = 2 := by
  rw [codeOf, Option.map_eq_some_iff] at h
  obtain ⟨⟨n, k⟩, he, rfl⟩ := h
  have := List.mem_of_find?_eq_some he
  simp only [List.mem_reverse, List.mem_filterMap] at this
  obtain ⟨l, -, hl⟩ := this
  obtain ⟨t, -, hc, -⟩ := (isoEntry_iff _ _ _).mp hl
  obtain ⟨b1, b2, three, b3, number, b4, -, -, -, -, h2, -⟩ := hc
  exact h2

/-- In the table after the fixes, the names of these digits. -/
theorem fixed_names : ∀ m ∈ fixedMid, ∀ e ∈ midEntry m,
    (e.1 ∈ [c! "440", c! "441", c! "445"] → e.2 = c! "Korea") ∧ (e.1 ∈ [c! "615", c! "676"] → e.2 = c! "Congo") ∧
    (e.1 ∈ [c! "501", c! "607", c! "618", c! "635", c! "660"] → e.2 = c! "French Southern Territories") := by
  decide +kernel

/-- C142: whatever table of country codes the script is given, in whatever order, it gives North Korea (445) the code it gives
South Korea (440, 441), the Democratic Republic of the Congo (676) that of Congo (615), and Réunion (660) that of the
French Southern Territories: the fixes have given them the same name. -/
theorem C142_same_code (iso : List Str) (ds : List Str)
    (hds : ds ∈ [[c! "440", c! "441", c! "445"], [c! "615", c! "676"], [c! "501", c! "607", c! "618", c! "635", c! "660"]])
    (d d' : Str) (hd : d ∈ ds) (hd' : d' ∈ ds) (c c' name name' : Str) (hc : c.length = 2) (hc' : c'.length = 2)
    (h : armText d c name ∈ script fixedMid iso) (h' : armText d' c' name' ∈ script fixedMid iso) : c = c' := by
  have key : ∀ d ∈ ds, ∀ c name, c.length = 2 → armText d c name ∈ script fixedMid iso →
      ∃ n, codeOf (iso.filterMap isoEntry) n = some c ∧
        n = (if ds = [c! "440", c! "441", c! "445"] then c! "Korea" else if ds = [c! "615", c! "676"] then c! "Congo"
          else c! "French Southern Territories") := by
    intro d hd c name hc h
    have hd3 : d.length = 3 := by
      have : ∀ ds ∈ [[c! "440", c! "441", c! "445"], [c! "615", c! "676"], [c! "501", c! "607", c! "618", c! "635", c! "660"]],
          ∀ d ∈ ds, d.length = 3 := by decide
      exact this ds hds d hd
    rw [script] at h
    have h : armText d c name ∈ (readIso iso).2 ++ arms (iso.filterMap isoEntry) none fixedMid := h
    rw [List.mem_append] at h
    rcases h with h | h
    · simp only [readIso, List.mem_map] at h
      obtain ⟨l, -, hl⟩ := h
      have := congrArg List.head? hl
      simp [armText] at this
    · obtain ⟨m, hm, digits, n, code, h1, h2, h3⟩ := arms_mem h rfl
      have e3 := midEntry_length h1
      have e2 := codeOf_length h2
      simp only [armText, List.append_assoc] at h3
      have h4 := List.append_cancel_left h3
      obtain ⟨rfl, h5⟩ := List.append_inj h4 (by rw [hd3, e3])
      have h6 := List.append_cancel_left h5
      obtain ⟨rfl, -⟩ := List.append_inj h6 (by rw [hc, e2])
      refine ⟨n, h2, ?_⟩
      obtain ⟨f1, f2, f3⟩ := fixed_names m hm _ h1
      simp only [List.mem_cons, List.not_mem_nil, or_false] at hds
      rcases hds with rfl | rfl | rfl
      · rw [if_pos rfl]; exact f1 hd
      · rw [if_neg (by decide), if_pos rfl]; exact f2 hd
      · rw [if_neg (by decide), if_neg (by decide)]; exact f3 hd
  obtain ⟨n, h1, h2⟩ := key d hd c name hc h
  obtain ⟨n', h1', h2'⟩ := key d' hd' c' name' hc' h'
  rw [h2'.trans h2.symm, h1] at h1'
  exact Option.some.inj h1'

/-- With the table of the script, South and North Korea. -/
example : armText (c! "440") (c! "KR") (c! "Korea") ∈ script fixedMid fixedIso ∧
    armText (c! "445") (c! "KR") (c! "Korea") ∈ script fixedMid fixedIso := by
  change _ ∈ output ∧ _ ∈ output
  rw [C142_output]
  decide +kernel

/-- No two entries with one name and different codes, but for two names. -/
def noClash : List (Str × Str) → Bool
  | [] => true
  | e :: es => (e.1 == c! "Korea" || e.1 == c! "Congo" || es.all fun e' => !(e.1 == e'.1) || e.2 == e'.2) && noClash es

set_option maxRecDepth 20000 in
theorem iso_noClash : noClash (fixedIso.filterMap isoEntry) = true := by decide +kernel

theorem noClash_iff (l : List (Str × Str)) (h : noClash l = true) (e e' : Str × Str) (he : e ∈ l) (he' : e' ∈ l)
    (hn : e.1 = e'.1) : e.1 = c! "Korea" ∨ e.1 = c! "Congo" ∨ e.2 = e'.2 := by
  induction l with
  | nil => cases he
  | cons x l ih =>
    simp only [noClash, Bool.and_eq_true, Bool.or_eq_true, beq_iff_eq, List.all_eq_true, Bool.not_eq_true',
      beq_eq_false_iff_ne, ne_eq] at h
    obtain ⟨h1, h2⟩ := h
    have h2 := ih h2
    have key : ∀ y ∈ l, x.1 = y.1 → x.1 = c! "Korea" ∨ x.1 = c! "Congo" ∨ x.2 = y.2 := by
      intro y hy hxy
      rcases h1 with (h1 | h1) | h1
      · exact .inl h1
      · exact .inr (.inl h1)
      · exact .inr (.inr ((h1 y hy).resolve_left (fun h => h hxy)))
    rcases List.mem_cons.mp he with rfl | he1 <;> rcases List.mem_cons.mp he' with rfl | he2
    · exact .inr (.inr rfl)
    · exact key _ he2 hn
    · have := key _ he1 hn.symm
      rw [hn]
      rcases this with h | h | h
      · exact .inl h
      · exact .inr (.inl h)
      · exact .inr (.inr h.symm)
    · exact h2 he1 he2

/-- C142: in the table of country codes after the fixes two lines with one name and different codes exist only for Korea and
for Congo. -/
theorem C142_ambiguous (name c c' l l' : Str) (hl : l ∈ fixedIso) (hl' : l' ∈ fixedIso) (h : IsoLine name c l)
    (h' : IsoLine name c' l') (hne : c ≠ c') : name = c! "Korea" ∨ name = c! "Congo" := by
  rcases noClash_iff _ iso_noClash (name, c) (name, c') (List.mem_filterMap.mpr ⟨l, hl, (isoEntry_iff _ _ _).mpr h⟩)
    (List.mem_filterMap.mpr ⟨l', hl', (isoEntry_iff _ _ _).mpr h'⟩) rfl with h | h | h
  · exact .inl h
  · exact .inr h
  · exact absurd h hne

/-- The lines of the two Koreas. -/
example : c! "Korea \tKP \tPRK \t408" ∈ fixedIso ∧ c! "Korea \tKR \tKOR \t410" ∈ fixedIso ∧
    IsoLine (c! "Korea") (c! "KP") (c! "Korea \tKP \tPRK \t408") ∧
    IsoLine (c! "Korea") (c! "KR") (c! "Korea \tKR \tKOR \t410") :=
  ⟨by decide +kernel, by decide +kernel, (isoEntry_iff _ _ _).mp (by decide +kernel), (isoEntry_iff _ _ _).mp (by decide +kernel)⟩

end Nmea
