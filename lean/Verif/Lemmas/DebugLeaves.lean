/-
The texts of `{:?}`: numbers, dates, texts and names of variants.
-/
import Verif.Lemmas.Debug
import Verif.Lemmas.Format
import Verif.Props.Sample

namespace Nmea
open Spec

theorem shown_bool : Shown debugBool (fun _ => True) := by
  refine shown_plain (fun x _ => ?_) (fun x y _ _ e => ?_)
  · cases x <;> decide
  · cases x <;> cases y <;> first | rfl | (exfalso; revert e; decide)

theorem digit_plain {c : Char} (h : c ∈ c! "0123456789") : PlainChar c := by
  simp only [List.mem_cons, List.not_mem_nil, or_false] at h
  rcases h with rfl | rfl | rfl | rfl | rfl | rfl | rfl | rfl | rfl | rfl <;> decide

theorem digit_ne {c d : Char} (h : c ∈ c! "0123456789") (hd : d ∉ c! "0123456789") : c ≠ d := fun e => hd (e ▸ h)

theorem natStr_plain (n : Nat) : ∀ c ∈ natStr n, PlainChar c := fun c hc => digit_plain ((natStr_digits n).2 c hc)

theorem shown_nat : Shown natStr (fun _ => True) :=
  shown_plain (fun n _ => ⟨(natStr_digits n).1, natStr_plain n⟩) (fun _ _ _ _ e => natStr_inj e)

theorem natStr_head (n : Nat) : ∃ c cs, natStr n = c :: cs ∧ c ∈ c! "0123456789" := by
  have h := natStr_digits n
  match hn : natStr n with
  | [] => exact absurd hn h.1
  | c :: cs => exact ⟨c, cs, rfl, h.2 c (by rw [hn]; simp)⟩

theorem shown_int : Shown debugInt (fun _ => True) := by
  refine shown_plain (fun n _ => ?_) (fun n m _ _ e => ?_)
  · unfold debugInt
    split
    · refine ⟨by simp, fun c hc => ?_⟩
      rcases List.mem_cons.1 hc with rfl | hc
      · decide
      · exact natStr_plain _ c hc
    · exact ⟨(natStr_digits _).1, natStr_plain _⟩
  · obtain ⟨c, cs, h1, h2⟩ := natStr_head n.natAbs
    obtain ⟨d, ds, h3, h4⟩ := natStr_head m.natAbs
    have h5 := digit_ne h2 (d := '-') (by decide)
    have h6 := digit_ne h4 (d := '-') (by decide)
    unfold debugInt at e
    split at e <;> split at e
    · have := natStr_inj (List.cons.inj e).2
      omega
    · rw [h3] at e
      exact absurd (List.cons.inj e).1.symm h6
    · rw [h1] at e
      exact absurd (List.cons.inj e).1 h5
    · have := natStr_inj e
      omega

/-! ### Doubles -/

theorem signed_plain {s r : Str} {neg : Bool} (h : Signed s neg r) (hr : ∀ c ∈ r, PlainChar c) : ∀ c ∈ s, PlainChar c := by
  rcases h with ⟨rfl, -⟩ | ⟨rfl, -⟩ | ⟨rfl, -⟩
  · exact hr
  all_goals
    intro c hc
    rcases List.mem_cons.1 hc with rfl | hc
    · decide
    · exact hr c hc

theorem plain_append {s t : Str} (hs : ∀ c ∈ s, PlainChar c) (ht : ∀ c ∈ t, PlainChar c) : ∀ c ∈ s ++ t, PlainChar c := by
  intro c hc
  rcases List.mem_append.1 hc with h | h
  · exact hs c h
  · exact ht c h

theorem exponent_plain {s : Str} {e : Int} (h : Exponent s e) : ∀ c ∈ s, PlainChar c := by
  rcases h with ⟨rfl, -⟩ | ⟨c, t, neg, ds, rfl, h1, h2, h3, -⟩
  · simp
  · intro d hd
    rcases List.mem_cons.1 hd with rfl | hd
    · rcases h1 with rfl | rfl <;> decide
    · exact signed_plain h2 (fun c hc => digit_plain (h3.2 c hc)) d hd

theorem decimal_plain {s : Str} {q : Rat} (h : Decimal s q) : ∀ c ∈ s, PlainChar c := by
  obtain ⟨ip, fp, ex, e, h1, h2, -, h3, h4, -⟩ := h
  have hi := fun c hc => digit_plain (h1 c hc)
  have hf := fun c hc => digit_plain (h2 c hc)
  rcases h4 with ⟨rfl, -⟩ | rfl
  · exact plain_append hi (exponent_plain h3)
  · refine plain_append (plain_append hi ?_) (exponent_plain h3)
    intro c hc
    rcases List.mem_cons.1 hc with rfl | hc
    · decide
    · exact hf c hc

theorem lower_plain {c : Char} (h : c.toLower ∈ c! "abcdefghijklmnopqrstuvwxyz") : PlainChar c := by
  by_cases hu : c.toNat < 256
  · have hall : ∀ n < 256, (Char.ofNat n).toLower ∈ c! "abcdefghijklmnopqrstuvwxyz" → PlainChar (Char.ofNat n) := by
      decide +kernel
    have := hall c.toNat hu
    rw [Char.ofNat_toNat] at this
    exact this h
  · exfalso
    have h1 : c.toLower = c := by
      unfold Char.toLower
      rw [dif_neg]
      intro hh
      have : c.toNat ≤ 90 := hh.2
      omega
    rw [h1] at h
    have : ∀ d ∈ c! "abcdefghijklmnopqrstuvwxyz", d.toNat < 256 := by decide
    exact hu (this c h)

theorem lower_word_plain {r w : Str} (h : r.map Char.toLower = w) (hw : ∀ d ∈ w, d ∈ c! "abcdefghijklmnopqrstuvwxyz") :
    ∀ c ∈ r, PlainChar c :=
  fun _ hc => lower_plain (hw _ (h ▸ List.mem_map_of_mem hc))

theorem numberText_plain {s : Str} {x : F64} (h : NumberText s x) : ∀ c ∈ s, PlainChar c := by
  cases h with
  | decimal neg r q d h hd hr => exact signed_plain h (decimal_plain hd)
  | infinite neg r h hi =>
    rcases hi with hi | hi
    · exact signed_plain h (lower_word_plain hi (by decide))
    · exact signed_plain h (lower_word_plain hi (by decide))
  | nan neg r h hn => exact signed_plain h (lower_word_plain hn (by decide))

theorem numberText_ne {s : Str} {x : F64} (h : NumberText s x) : s ≠ [] := by
  rintro rfl
  have := (f64_parse_iff [] x).2 h
  revert this
  have : F64.parse [] = none := by decide
  simp [this]

theorem shown_double {l : Library} (hl : LibraryOk l) : Shown l.double IsDouble :=
  shown_plain (fun x hx => ⟨numberText_ne (hl.double x hx), numberText_plain (hl.double x hx)⟩)
    (fun x y hx hy e => numberText_unique (hl.double x hx) (e ▸ hl.double y hy))

/-! ### Dates -/

theorem zeroPadded_digits (w n : Nat) : ∀ c ∈ zeroPadded w n, c ∈ c! "0123456789" := by
  intro c hc
  rcases List.mem_append.1 hc with h | h
  · rw [(List.mem_replicate.1 h).2]
    decide
  · exact (natStr_digits n).2 c h

theorem decValue_zeros (k : Nat) (s : Str) : decValue (List.replicate k '0' ++ s) = decValue s := by
  induction k with
  | zero => simp
  | succ k ih =>
    rw [List.replicate_succ, List.cons_append]
    have h : ∀ t : Str, decValue ('0' :: t) = decValue t := fun t => rfl
    rw [h, ih]

theorem zeroPadded_inj {w n m : Nat} (h : zeroPadded w n = zeroPadded w m) : n = m := by
  have := congrArg decValue h
  unfold zeroPadded at this
  rwa [decValue_zeros, decValue_zeros, decValue_natStr, decValue_natStr] at this

theorem zeroPadded_two {n : Nat} (h : n < 100) : (zeroPadded 2 n).length = 2 := by
  rw [← pad_padded 2 n (by decide) (by simpa using h), pad_length]

/-- The year in a date text. -/
def yearText (y : Int) : Str :=
  if 0 ≤ y ∧ y ≤ 9999 then zeroPadded 4 y.toNat else (if y < 0 then '-' else '+') :: zeroPadded 4 y.natAbs

theorem yearText_inj {y z : Int} (h : yearText y = yearText z) : y = z := by
  have hd : ∀ n c r, zeroPadded 4 n = c :: r → c ∈ c! "0123456789" := by
    intro n c r e
    exact zeroPadded_digits 4 n c (by rw [e]; simp)
  unfold yearText at h
  by_cases h1 : 0 ≤ y ∧ y ≤ 9999 <;> by_cases h2 : 0 ≤ z ∧ z ≤ 9999
  · rw [if_pos h1, if_pos h2] at h
    have := zeroPadded_inj h
    omega
  · rw [if_pos h1, if_neg h2] at h
    have := hd _ _ _ h
    split at this <;> exact absurd this (by decide)
  · rw [if_neg h1, if_pos h2] at h
    have := hd _ _ _ h.symm
    split at this <;> exact absurd this (by decide)
  · rw [if_neg h1, if_neg h2] at h
    obtain ⟨h3, h4⟩ := List.cons.inj h
    have := zeroPadded_inj h4
    by_cases h5 : y < 0 <;> by_cases h6 : z < 0
    · omega
    · rw [if_pos h5, if_neg h6] at h3
      exact absurd h3 (by decide)
    · rw [if_neg h5, if_pos h6] at h3
      exact absurd h3 (by decide)
    · omega

theorem yearText_plain (y : Int) : ∀ c ∈ yearText y, PlainChar c := by
  have h0 : ∀ n, ∀ c ∈ zeroPadded 4 n, PlainChar c := fun n c hc => digit_plain (zeroPadded_digits 4 n c hc)
  unfold yearText
  split
  · exact h0 _
  · intro c hc
    rcases List.mem_cons.1 hc with rfl | hc
    · split <;> decide
    · exact h0 _ c hc

theorem dateTime_debug (t : DateTime) : t.debug = yearText t.year ++ ('-' :: (zeroPadded 2 t.month ++ ('-' ::
    (zeroPadded 2 t.day ++ ('T' :: (zeroPadded 2 t.hour ++ (':' :: (zeroPadded 2 t.minute ++ (':' ::
    (zeroPadded 2 t.second ++ ['Z'])))))))))) := by
  simp [DateTime.debug, yearText]

theorem isDateTime_small {t : DateTime} (h : IsDateTime t) :
    t.month < 100 ∧ t.day < 100 ∧ t.hour < 100 ∧ t.minute < 100 ∧ t.second < 100 := by
  obtain ⟨-, h2, h3⟩ := h
  obtain ⟨-, h4, -, h6⟩ := h2
  obtain ⟨h7, h8, h9⟩ := h3
  refine ⟨by omega, ?_, by omega, by omega, by omega⟩
  have h10 : ∀ x ∈ monthDays t.year, x < 100 := by
    intro x hx
    unfold monthDays at hx
    simp only [List.mem_cons, List.not_mem_nil, or_false] at hx
    split at hx <;> omega
  rw [List.getD_eq_getElem?_getD] at h6
  match hg : (monthDays t.year)[t.month - 1]? with
  | none => rw [hg] at h6; simp at h6; omega
  | some x =>
    rw [hg] at h6
    have := h10 x (List.mem_of_getElem? hg)
    simp at h6
    omega

theorem date_plain (t : DateTime) : t.debug ≠ [] ∧ ∀ c ∈ t.debug, PlainChar c := by
  have hz : ∀ n, ∀ c ∈ zeroPadded 2 n, PlainChar c := fun n c hc => digit_plain (zeroPadded_digits 2 n c hc)
  have hcons : ∀ {a : Char} {s : Str}, PlainChar a → (∀ c ∈ s, PlainChar c) → ∀ c ∈ a :: s, PlainChar c := by
    intro a s ha hs c hc
    rcases List.mem_cons.1 hc with rfl | hc
    · exact ha
    · exact hs c hc
  refine ⟨by rw [dateTime_debug]; simp, ?_⟩
  rw [dateTime_debug]
  exact plain_append (yearText_plain _) (hcons (by decide) (plain_append (hz _) (hcons (by decide) (plain_append (hz _)
    (hcons (by decide) (plain_append (hz _) (hcons (by decide) (plain_append (hz _) (hcons (by decide)
    (plain_append (hz _) (by decide)))))))))))

theorem shown_date : Shown DateTime.debug IsDateTime := by
  refine shown_plain (fun t _ => date_plain t) (fun t u ht hu e => ?_)
  obtain ⟨a1, a2, a3, a4, a5⟩ := isDateTime_small ht
  obtain ⟨b1, b2, b3, b4, b5⟩ := isDateTime_small hu
  have la1 := zeroPadded_two a1
  have la2 := zeroPadded_two a2
  have la3 := zeroPadded_two a3
  have la4 := zeroPadded_two a4
  have la5 := zeroPadded_two a5
  have lb1 := zeroPadded_two b1
  have lb2 := zeroPadded_two b2
  have lb3 := zeroPadded_two b3
  have lb4 := zeroPadded_two b4
  have lb5 := zeroPadded_two b5
  rw [dateTime_debug, dateTime_debug] at e
  obtain ⟨e1, e⟩ := List.append_inj' e (by simp [la1, la2, la3, la4, la5, lb1, lb2, lb3, lb4, lb5])
  obtain ⟨e2, e⟩ := List.append_inj (List.cons.inj e).2 (by rw [la1, lb1])
  obtain ⟨e3, e⟩ := List.append_inj (List.cons.inj e).2 (by rw [la2, lb2])
  obtain ⟨e4, e⟩ := List.append_inj (List.cons.inj e).2 (by rw [la3, lb3])
  obtain ⟨e5, e⟩ := List.append_inj (List.cons.inj e).2 (by rw [la4, lb4])
  obtain ⟨e6, e⟩ := List.append_inj (List.cons.inj e).2 (by rw [la5, lb5])
  cases t
  cases u
  simp only [DateTime.mk.injEq]
  exact ⟨yearText_inj e1, zeroPadded_inj e2, zeroPadded_inj e3, zeroPadded_inj e4, zeroPadded_inj e5, zeroPadded_inj e6⟩

/-! ### Texts -/

/-- A character in a text: as it is, with a backslash, or by its hexadecimal code. -/
inductive CharText : Char → Str → Prop where
  | plain (c : Char) (h1 : c ≠ '"') (h2 : c ≠ '\\') (h3 : ¬ Breaks c) : CharText c [c]
  | slash (c d : Char) (h : (c, d) ∈ [('"', '"'), ('\\', '\\'), ('\t', 't'), ('\r', 'r'), ('\n', 'n'), ('\'', '\''),
      (Char.ofNat 0, '0')]) : CharText c ['\\', d]
  | code (c : Char) : CharText c (c! "\\u{" ++ Nat.toDigits 16 c.toNat ++ c! "}")

theorem charText_debug {l : Library} (hl : LibraryOk l) (c : Char) :
    CharText c (Env.debugChar ⟨⟨1970, 1, 1, 0, 0, 0⟩, false, l.escape⟩ c) := by
  have hlib : (c = '\'' ∨ c.toNat = 0 ∨ 128 ≤ c.toNat) → c ≠ '"' → c ≠ '\\' → CharText c (l.escape c) := by
    intro h h1 h2
    rcases hl.escape c h with ⟨e, hb⟩ | e | ⟨rfl, e⟩ | ⟨h0, e⟩
    · rw [e]
      exact .plain c h1 h2 hb
    · rw [e]
      exact .code c
    · rw [e]
      exact .slash _ _ (by decide)
    · rw [e]
      refine .slash _ _ ?_
      have : c = Char.ofNat 0 := by rw [← Char.ofNat_toNat c, h0]
      rw [this]
      decide
  unfold Env.debugChar
  split_ifs with h1 h2 h3 h4 h5 h6
  · rcases h1 with rfl | rfl
    · exact .slash _ _ (by decide)
    · exact .slash _ _ (by decide)
  · subst h2
    exact .slash _ _ (by decide)
  · subst h3
    exact .slash _ _ (by decide)
  · subst h4
    exact .slash _ _ (by decide)
  · refine .plain c (fun h => h1 (.inl h)) (fun h => h1 (.inr h)) ?_
    have h7 : 32 ≤ c.toNat := h5.1
    have h8 : c.toNat ≤ 126 := h5.2.1
    unfold Breaks
    omega
  · exact .code c
  · refine hlib ?_ (fun h => h1 (.inl h)) (fun h => h1 (.inr h))
    by_cases h7 : c = '\''
    · exact .inl h7
    · by_cases h8 : 0 < c.toNat
      · right; right
        by_contra h9
        exact h6 ⟨h7, h8, by omega⟩
      · right; left; omega

theorem hex_digit_inj : ∀ a < 16, ∀ b < 16, Nat.digitChar a = Nat.digitChar b → a = b := by decide

theorem hex_inj {n m : Nat} (h : Nat.toDigits 16 n = Nat.toDigits 16 m) : n = m := by
  induction n using Nat.strongRecOn generalizing m with
  | ind n ih =>
    rw [Nat.toDigits_eq_if (by decide), Nat.toDigits_eq_if (n := m) (by decide)] at h
    have hne : ∀ k, Nat.toDigits 16 k ≠ [] := fun k => Nat.toDigits_ne_nil
    split_ifs at h with h1 h2 h2
    · exact hex_digit_inj n h1 m h2 (List.cons.inj h).1
    · exfalso
      have := congrArg List.length h
      have := List.length_pos_iff.2 (hne (m / 16))
      simp at *
    · exfalso
      have := congrArg List.length h
      have := List.length_pos_iff.2 (hne (n / 16))
      simp at *
    · obtain ⟨h3, h4⟩ := List.append_inj' h rfl
      have h5 := ih (n / 16) (by omega) h3
      have h6 := hex_digit_inj _ (Nat.mod_lt n (by decide)) _ (Nat.mod_lt m (by decide)) (List.cons.inj h4).1
      omega

theorem hex_digit_mem : ∀ a < 16, Nat.digitChar a ∈ c! "0123456789abcdef" := by decide

theorem hex_chars (n : Nat) : ∀ c ∈ Nat.toDigits 16 n, c ∈ c! "0123456789abcdef" := by
  induction n using Nat.strongRecOn with
  | ind n ih =>
    intro c hc
    rw [Nat.toDigits_eq_if (by decide)] at hc
    split_ifs at hc with h1
    · rw [List.mem_singleton.1 hc]
      exact hex_digit_mem n h1
    · rcases List.mem_append.1 hc with h | h
      · exact ih (n / 16) (by omega) c h
      · rw [List.mem_singleton.1 h]
        exact hex_digit_mem _ (Nat.mod_lt n (by decide))

theorem before_char {x : Char} {a b r r' : Str} (ha : x ∉ a) (hb : x ∉ b) (e : a ++ x :: r = b ++ x :: r') :
    a = b ∧ r = r' := by
  induction a generalizing b with
  | nil =>
    cases b with
    | nil => exact ⟨rfl, (List.cons.inj e).2⟩
    | cons c cs => exact absurd (by rw [(List.cons.inj e).1]; simp) hb
  | cons c cs ih =>
    cases b with
    | nil => exact absurd (by rw [← (List.cons.inj e).1]; simp) ha
    | cons d ds =>
      obtain ⟨h1, h2⟩ := List.cons.inj e
      obtain ⟨h3, h4⟩ := ih (fun h => ha (by simp [h])) (fun h => hb (by simp [h])) h2
      exact ⟨by rw [h1, h3], h4⟩

theorem charText_inj {c d : Char} {s t r r' : Str} (hc : CharText c s) (hd : CharText d t) (e : s ++ r = t ++ r') :
    c = d ∧ r = r' := by
  have hcode : ∀ n : Nat, ∀ u : Str, c! "\\u{" ++ Nat.toDigits 16 n ++ c! "}" ++ u =
      '\\' :: 'u' :: '{' :: (Nat.toDigits 16 n ++ '}' :: u) := by
    intro n u
    simp
  have hbrace : ∀ n : Nat, '}' ∉ Nat.toDigits 16 n := fun n h => absurd (hex_chars n _ h) (by decide)
  have hu : ∀ c, (c, 'u') ∉ [('"', '"'), ('\\', '\\'), ('\t', 't'), ('\r', 'r'), ('\n', 'n'), ('\'', '\''),
      (Char.ofNat 0, '0')] := by
    intro c h
    simp at h
  cases hc with
  | plain h1 h2 h3 =>
    cases hd with
    | plain h4 h5 h6 => exact List.cons.inj e
    | slash x h4 => exact absurd (List.cons.inj e).1 h2
    | code => rw [hcode] at e; exact absurd (List.cons.inj e).1 h2
  | slash x h1 =>
    cases hd with
    | plain h4 h5 h6 => exact absurd (List.cons.inj e).1.symm h5
    | slash y h4 =>
      obtain ⟨h5, h6⟩ := List.cons.inj (List.cons.inj e).2
      refine ⟨?_, h6⟩
      subst h5
      simp only [List.mem_cons, Prod.mk.injEq, List.not_mem_nil, or_false] at h1 h4
      rcases h1 with ⟨rfl, rfl⟩ | ⟨rfl, rfl⟩ | ⟨rfl, rfl⟩ | ⟨rfl, rfl⟩ | ⟨rfl, rfl⟩ | ⟨rfl, rfl⟩ | ⟨rfl, rfl⟩ <;>
        (symm; simpa using h4)
    | code =>
      rw [hcode] at e
      rw [(List.cons.inj (List.cons.inj e).2).1] at h1
      exact absurd h1 (hu _)
  | code =>
    rw [hcode] at e
    cases hd with
    | plain h4 h5 h6 => exact absurd (List.cons.inj e).1.symm h5
    | slash y h4 =>
      rw [← (List.cons.inj (List.cons.inj e).2).1] at h4
      exact absurd h4 (hu _)
    | code =>
      rw [hcode] at e
      obtain ⟨h1, h2⟩ := before_char (hbrace _) (hbrace _) (List.cons.inj (List.cons.inj (List.cons.inj e).2).2).2
      exact ⟨Char.toNat_inj.1 (hex_inj h1), h2⟩

theorem charText_ne {c : Char} {s : Str} (h : CharText c s) : s ≠ [] := by
  cases h <;> simp

theorem charText_line {c : Char} {s : Str} (h : CharText c s) : OneLine s := by
  cases h with
  | plain _ _ h3 => intro d hd; rwa [List.mem_singleton.1 hd]
  | slash x h =>
    simp only [List.mem_cons, Prod.mk.injEq, List.not_mem_nil, or_false] at h
    rcases h with ⟨-, rfl⟩ | ⟨-, rfl⟩ | ⟨-, rfl⟩ | ⟨-, rfl⟩ | ⟨-, rfl⟩ | ⟨-, rfl⟩ | ⟨-, rfl⟩ <;> decide
  | code =>
    refine oneLine_append (oneLine_append (by decide) fun d hd => ?_) (by decide)
    have : ∀ d ∈ c! "0123456789abcdef", ¬ Breaks d := by decide
    exact this d (hex_chars _ d hd)

theorem scan_quoted {v : Str} (h : ∀ c ∈ v, c ≠ '\\' ∧ c ≠ '"') (k : Nat) (r : Str) :
    scan 1 k (v ++ r) = (v ++ (scan 1 k r).1, (scan 1 k r).2) := by
  induction v with
  | nil => rfl
  | cons c cs ih =>
    have h1 := h c (by simp)
    rw [List.cons_append, scan, ih fun d hd => h d (by simp [hd])]
    simp [h1.1, h1.2]

theorem charText_scan {c : Char} {s : Str} (h : CharText c s) (k : Nat) (r : Str) :
    scan 1 k (s ++ r) = (s ++ (scan 1 k r).1, (scan 1 k r).2) := by
  cases h with
  | plain h1 h2 _ => exact scan_quoted (by simpa using ⟨h2, h1⟩) k r
  | slash x _ => simp [scan]
  | code =>
    have h1 : ∀ d ∈ Nat.toDigits 16 c.toNat, d ≠ '\\' ∧ d ≠ '"' := by
      have : ∀ d ∈ c! "0123456789abcdef", d ≠ '\\' ∧ d ≠ '"' := by decide
      exact fun d hd => this d (hex_chars _ d hd)
    have h2 := scan_quoted (v := '{' :: (Nat.toDigits 16 c.toNat ++ ['}'])) (by
      intro d hd
      rcases List.mem_cons.1 hd with rfl | hd
      · decide
      · rcases List.mem_append.1 hd with hd | hd
        · exact h1 d hd
        · rw [List.mem_singleton.1 hd]; decide) k r
    have h3 : c! "\\u{" ++ Nat.toDigits 16 c.toNat ++ c! "}" ++ r =
        '\\' :: 'u' :: ('{' :: (Nat.toDigits 16 c.toNat ++ ['}']) ++ r) := by simp
    have h4 : ∀ X : Str, scan 1 k ('\\' :: 'u' :: X) = ('\\' :: 'u' :: (scan 1 k X).1, (scan 1 k X).2) := by
      intro X
      simp [scan]
    rw [h3, h4, h2]
    simp

theorem shown_str {l : Library} (hl : LibraryOk l) : Shown l.debugStr (fun _ => True) := by
  have hd := charText_debug hl
  revert hd
  unfold Library.debugStr Env.debugStr
  generalize Env.debugChar ⟨⟨1970, 1, 1, 0, 0, 0⟩, false, l.escape⟩ = t
  intro hd
  refine ⟨fun s _ k r _ => ?_, fun s _ => by simp, fun s _ => ?_, fun s u _ _ e => ?_⟩
  · have h : ∀ r, scan 1 k (s.flatMap t ++ r) = (s.flatMap t ++ (scan 1 k r).1, (scan 1 k r).2) := by
      intro r
      induction s with
      | nil => rfl
      | cons c cs ih =>
        rw [List.flatMap_cons, List.append_assoc, charText_scan (hd c), ih]
        simp
    rw [List.cons_append, List.cons_append, scan, List.append_assoc, h, List.cons_append, List.nil_append, scan]
    simp
  · refine oneLine_append (s := '"' :: s.flatMap t) ?_ (by decide)
    intro c hc
    rcases List.mem_cons.1 hc with rfl | hc
    · decide
    · obtain ⟨d, -, h⟩ := List.mem_flatMap.1 hc
      exact charText_line (hd d) c h
  · have e1 : s.flatMap t = u.flatMap t := by simpa using e
    clear e
    induction s generalizing u with
    | nil =>
      cases u with
      | nil => rfl
      | cons d ds =>
        rw [List.flatMap_nil, List.flatMap_cons] at e1
        exact absurd (List.append_eq_nil_iff.1 e1.symm).1 (charText_ne (hd d))
    | cons c cs ih =>
      cases u with
      | nil =>
        rw [List.flatMap_nil, List.flatMap_cons] at e1
        exact absurd (List.append_eq_nil_iff.1 e1).1 (charText_ne (hd c))
      | cons d ds =>
        rw [List.flatMap_cons, List.flatMap_cons] at e1
        obtain ⟨h1, h2⟩ := charText_inj (hd c) (hd d) e1
        rw [h1, ih ds h2]

/-! ### Names of variants -/

theorem shown_NavigationSystem : Shown NavigationSystem.debug (fun _ => True) := by
  refine shown_plain (fun x _ => ?_) (fun x y _ _ e => ?_)
  · cases x <;> decide
  · cases x <;> cases y <;> first | rfl | (exfalso; revert e; decide)

theorem shown_FaaMode : Shown FaaMode.debug (fun _ => True) := by
  refine shown_plain (fun x _ => ?_) (fun x y _ _ e => ?_)
  · cases x <;> decide
  · cases x <;> cases y <;> first | rfl | (exfalso; revert e; decide)

theorem shown_Station : Shown Station.debug (fun _ => True) := by
  refine shown_plain (fun x _ => ?_) (fun x y _ _ e => ?_)
  · cases x <;> decide
  · cases x <;> cases y <;> first | rfl | (exfalso; revert e; decide)

theorem shown_AisClass : Shown AisClass.debug (fun _ => True) := by
  refine shown_plain (fun x _ => ?_) (fun x y _ _ e => ?_)
  · cases x <;> decide
  · cases x <;> cases y <;> first | rfl | (exfalso; revert e; decide)

theorem shown_NavigationStatus : Shown NavigationStatus.debug (fun _ => True) := by
  refine shown_plain (fun x _ => ?_) (fun x y _ _ e => ?_)
  · cases x <;> decide
  · cases x <;> cases y <;> first | rfl | (exfalso; revert e; decide)

theorem shown_PositioningSystemMeta : Shown PositioningSystemMeta.debug (fun _ => True) := by
  refine shown_plain (fun x _ => ?_) (fun x y _ _ e => ?_)
  · cases x <;> decide
  · cases x <;> cases y <;> first | rfl | (exfalso; revert e; decide)

theorem shown_ShipType : Shown ShipType.debug (fun _ => True) := by
  refine shown_plain (fun x _ => ?_) (fun x y _ _ e => ?_)
  · cases x <;> decide
  · cases x <;> cases y <;> first | rfl | (exfalso; revert e; decide)

theorem shown_CargoType : Shown CargoType.debug (fun _ => True) := by
  refine shown_plain (fun x _ => ?_) (fun x y _ _ e => ?_)
  · cases x <;> decide
  · cases x <;> cases y <;> first | rfl | (exfalso; revert e; decide)

theorem shown_PositionFixType : Shown PositionFixType.debug (fun _ => True) := by
  refine shown_plain (fun x _ => ?_) (fun x y _ _ e => ?_)
  · cases x <;> decide
  · cases x <;> cases y <;> first | rfl | (exfalso; revert e; decide)

theorem shown_NavAidType : Shown NavAidType.debug (fun _ => True) := by
  refine shown_plain (fun x _ => ?_) (fun x y _ _ e => ?_)
  · cases x <;> decide
  · cases x <;> cases y <;> first | rfl | (exfalso; revert e; decide)

theorem shown_GgaQualityIndicator : Shown GgaQualityIndicator.debug (fun _ => True) := by
  refine shown_plain (fun x _ => ?_) (fun x y _ _ e => ?_)
  · cases x <;> decide
  · cases x <;> cases y <;> first | rfl | (exfalso; revert e; decide)

theorem shown_GsaFixMode : Shown GsaFixMode.debug (fun _ => True) := by
  refine shown_plain (fun x _ => ?_) (fun x y _ _ e => ?_)
  · cases x <;> decide
  · cases x <;> cases y <;> first | rfl | (exfalso; revert e; decide)
end Nmea
