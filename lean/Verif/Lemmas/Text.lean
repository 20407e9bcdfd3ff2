/-
Six-bit text fields.
-/
import Verif.Lemmas.Bits
import Verif.Lemmas.OutMonad

namespace Nmea
open Spec

/-- Characters of a list of six-bit codes, up to the first zero. -/
def textOf : List Nat → Str
  | [] => []
  | n :: ns => if n = 0 then [] else Char.ofNat (if n < 32 then 64 + n else n) :: textOf ns

theorem pickChars_eq (bv : Bits) (i : Nat) (ks : List Nat) :
    pickChars bv i ks = .ok (textOf (ks.map (fun k => pickU64 bv (i + k * 6) 6))) := by
  induction ks with
  | nil => rfl
  | cons k ks ih =>
    have hlt : pickU64 bv (i + k * 6) 6 < 64 := pickU64_lt bv _ 6 (by decide)
    have hu : asU32 (pickU64 bv (i + k * 6) 6) = pickU64 bv (i + k * 6) 6 := by
      unfold asU32; omega
    simp only [pickChars, hu, hlt, if_true, ih, List.map_cons, textOf]
    split
    · rfl
    · split <;> rfl

theorem pickString_eq (bv : Bits) (i n : Nat) :
    pickString bv i n =
      .ok (trimEnd (textOf ((List.range n).map (fun k => pickU64 bv (i + k * 6) 6)))) := by
  simp only [pickString, pickChars_eq]

/-- The text of a field, as a plain function. -/
def textAt (bv : Bits) (i n : Nat) : Str :=
  trimEnd (textOf ((List.range n).map (fun k => pickU64 bv (i + k * 6) 6)))

theorem pickString_textAt (bv : Bits) (i n : Nat) : pickString bv i n = .ok (textAt bv i n) :=
  pickString_eq bv i n

@[simp] theorem liftErr_pickString (bv : Bits) (i n : Nat) :
    liftErr (pickString bv i n) = .ok (textAt bv i n) := by
  rw [pickString_textAt]; rfl

theorem textAt_congr (bv bv' : Bits) (i i' n : Nat)
    (h : window bv i (6 * n) = window bv' i' (6 * n)) : textAt bv i n = textAt bv' i' n := by
  simp only [textAt]
  congr 2
  apply List.map_congr_left
  intro k hk
  rw [List.mem_range] at hk
  apply pickU64_congr
  have sub : ∀ (bv : Bits) (i : Nat), window bv (i + k * 6) 6 = ((window bv i (6 * n)).drop (k * 6)).take 6 := by
    intro bv i
    rw [← bitsAt_range', ← bitsAt_range']
    simp only [bitsAt, ← List.map_drop, ← List.map_take]
    congr 1
    apply List.ext_getElem?
    intro j
    simp only [List.getElem?_take, List.getElem?_drop]
    by_cases hj : j < 6
    · rw [if_pos hj, List.getElem?_range' hj, List.getElem?_range' (by omega)]
      simp; omega
    · rw [if_neg hj, List.getElem?_eq_none (by simp; omega)]
  rw [sub, sub, h]

theorem textAt_append_right (a b : Bits) (i n : Nat) (h : a.length ≤ i) :
    textAt (a ++ b) i n = textAt b (i - a.length) n :=
  textAt_congr _ _ _ _ _ (window_append_right a b i _ h)

theorem textAt_append_left (a b : Bits) (i n : Nat) (h : i + 6 * n ≤ a.length) :
    textAt (a ++ b) i n = textAt a i n :=
  textAt_congr _ _ _ _ _ (window_append_left a b i _ h)

theorem textAt_zeros (a : Bits) (k i n : Nat) :
    textAt (a ++ List.replicate k false) i n = textAt a i n :=
  textAt_congr _ _ _ _ _ (window_zeros a k i _)

/-! ### Trimming -/

theorem trimEnd_of_getLast (s : Str) (h : ∀ c, s.getLast? = some c → isWhite c = false) : trimEnd s = s := by
  rcases List.eq_nil_or_concat s with rfl | ⟨t, c, rfl⟩
  · rfl
  · have := h c (by simp)
    simp [trimEnd, this]

theorem trimEnd_getLast (s : Str) : ∀ c, (trimEnd s).getLast? = some c → isWhite c = false := by
  intro c hc
  simp only [trimEnd, List.getLast?_reverse] at hc
  generalize s.reverse = r at hc
  induction r with
  | nil => simp at hc
  | cons x xs ih =>
    rw [List.dropWhile_cons] at hc
    split at hc
    · exact ih hc
    · rename_i hx
      simp at hc
      subst hc
      simpa using hx

theorem trimEnd_prefix (s : Str) : ∃ t, s = trimEnd s ++ t := by
  refine ⟨(s.reverse.takeWhile isWhite).reverse, ?_⟩
  rw [trimEnd, ← List.reverse_append, List.takeWhile_append_dropWhile, List.reverse_reverse]

theorem trimEnd_length (s : Str) : (trimEnd s).length ≤ s.length := by
  obtain ⟨t, h⟩ := trimEnd_prefix s
  have := congrArg List.length h
  rw [List.length_append] at this
  omega

theorem textOf_length (ns : List Nat) : (textOf ns).length ≤ ns.length := by
  induction ns with
  | nil => simp [textOf]
  | cons n ns ih =>
    simp only [textOf]
    split
    · simp
    · simp; exact ih

theorem textOf_alphabet (ns : List Nat) (h : ∀ n ∈ ns, n < 64) :
    ∀ c ∈ textOf ns, InAlphabet c ∧ c ≠ '@' := by
  induction ns with
  | nil => simp [textOf]
  | cons n ns ih =>
    intro c hc
    simp only [textOf] at hc
    split at hc
    · simp at hc
    · rename_i h0
      rcases List.mem_cons.mp hc with rfl | hc
      · have hn := h n (by simp)
        have key : ∀ k : Fin 64, k.val ≠ 0 →
            (32 ≤ (Char.ofNat (if k.val < 32 then 64 + k.val else k.val)).toNat ∧
              (Char.ofNat (if k.val < 32 then 64 + k.val else k.val)).toNat ≤ 95) ∧
            Char.ofNat (if k.val < 32 then 64 + k.val else k.val) ≠ '@' := by decide
        exact key ⟨n, hn⟩ h0
      · exact ih (fun n hn => h n (by simp [hn])) c hc

theorem textOf_codes (s : Str) (hs : ∀ c ∈ s, InAlphabet c ∧ c ≠ '@') (k : Nat) :
    textOf (s.map textCode ++ List.replicate k 0) = s := by
  induction s with
  | nil =>
    cases k with
    | zero => rfl
    | succ k => simp [List.replicate_succ, textOf]
  | cons c cs ih =>
    have hc := hs c (by simp)
    have hn : textCode c ≠ 0 := by
      intro h0
      apply hc.2
      simp only [textCode] at h0
      obtain ⟨h1, h2⟩ := hc.1
      split at h0
      · omega
      · have : c.toNat = 64 := by omega
        rw [← Char.ofNat_toNat c, this]
    have hv : Char.ofNat (if textCode c < 32 then 64 + textCode c else textCode c) = c := by
      have : (if textCode c < 32 then 64 + textCode c else textCode c) = c.toNat := by
        obtain ⟨h1, h2⟩ := hc.1
        simp only [textCode]
        split <;> split <;> omega
      rw [this, Char.ofNat_toNat]
    simp only [List.map_cons, List.cons_append, textOf, if_neg hn, hv]
    rw [ih (fun c hc => hs c (by simp [hc]))]

theorem textCode_lt (c : Char) (h : InAlphabet c) : textCode c < 64 := by
  obtain ⟨h1, h2⟩ := h
  simp only [textCode]
  split <;> omega

theorem length_textBits (n : Nat) (s : Str) (h : s.length ≤ n) : (textBits n s).length = 6 * n := by
  have : ∀ s : Str, ((s.map (fun c => natBits 6 (textCode c))).flatten).length = 6 * s.length := by
    intro s
    induction s with
    | nil => rfl
    | cons c cs ih => simp only [List.map_cons, List.flatten_cons, List.length_append, length_natBits, ih,
        List.length_cons]; omega
  rw [textBits, List.length_append, this, List.length_replicate]
  omega

theorem codes_textBits (s : Str) (hs : ∀ c ∈ s, InAlphabet c) (m k : Nat) :
    (List.range (s.length + k)).map
      (fun j => pickU64 ((s.map (fun c => natBits 6 (textCode c))).flatten ++ List.replicate m false)
        (0 + j * 6) 6) = s.map textCode ++ List.replicate k 0 := by
  induction s with
  | nil =>
    simp only [List.map_nil, List.flatten_nil, List.length_nil, Nat.zero_add, List.nil_append]
    apply List.ext_getElem?
    intro j
    simp only [List.getElem?_map, List.getElem?_replicate]
    by_cases hj : j < k
    · rw [List.getElem?_range hj, if_pos hj]
      simp only [Option.map_some]
      have := pickU64_zeros [] m (j * 6) 6
      rw [List.nil_append] at this
      rw [this, pickU64_window _ _ _ (by decide)]
      simp [window]; rfl
    · rw [List.getElem?_eq_none (by simp; omega), if_neg hj]; rfl
  | cons c cs ih =>
    have hc := textCode_lt c (hs c (by simp))
    have ih := ih (fun c hc => hs c (by simp [hc]))
    simp only [List.map_cons, List.flatten_cons, List.length_cons, List.append_assoc, List.cons_append]
    rw [show cs.length + 1 + k = (cs.length + k) + 1 by omega, List.range_succ_eq_map, List.map_cons,
      List.map_map]
    congr 1
    · rw [pickU64_append_left _ _ _ _ (by simp)]
      have := pickU64_natBits 6 (textCode c) (by decide)
      simpa [Nat.mod_eq_of_lt hc] using this
    · rw [← ih]
      apply List.map_congr_left
      intro j _
      simp only [Function.comp]
      rw [pickU64_append_right _ _ _ _ (by simp; omega)]
      congr 1
      simp; omega

theorem isWhite_alphabet (c : Char) (h : InAlphabet c) : isWhite c = true ↔ c = ' ' := by
  obtain ⟨h1, h2⟩ := h
  constructor
  · intro hw
    simp only [isWhite, Bool.or_eq_true, Bool.and_eq_true, decide_eq_true_eq, beq_iff_eq] at hw
    have : c.toNat = 32 := by omega
    rw [← Char.ofNat_toNat c, this]
  · rintro rfl; decide

/-- Decoding the encoding of a plain text. -/
theorem textAt_textBits (n : Nat) (s : Str) (h : PlainText n s) : textAt (textBits n s) 0 n = s := by
  obtain ⟨hl, ha, hlast⟩ := h
  have hk : n = s.length + (n - s.length) := by omega
  simp only [textAt, textBits]
  have := codes_textBits s (fun c hc => (ha c hc).1) (6 * (n - s.length)) (n - s.length)
  rw [← hk] at this
  rw [this, textOf_codes s ha]
  apply trimEnd_of_getLast
  intro c hc
  cases hw : isWhite c with
  | false => rfl
  | true =>
    have hmem : c ∈ s := List.mem_of_getLast? hc
    rw [(isWhite_alphabet c (ha c hmem).1).mp hw] at hc
    exact absurd hc hlast

/-- What every decoded text looks like. -/
theorem textAt_plain (bv : Bits) (i n : Nat) : PlainText n (textAt bv i n) := by
  have hc : ∀ m ∈ (List.range n).map (fun k => pickU64 bv (i + k * 6) 6), m < 64 := by
    intro m hm
    simp only [List.mem_map] at hm
    obtain ⟨k, -, rfl⟩ := hm
    exact pickU64_lt bv _ 6 (by decide)
  refine ⟨?_, ?_, ?_⟩
  · refine Nat.le_trans (trimEnd_length _) (Nat.le_trans (textOf_length _) (by simp))
  · intro c hcm
    obtain ⟨t, ht⟩ := trimEnd_prefix (textOf ((List.range n).map (fun k => pickU64 bv (i + k * 6) 6)))
    apply textOf_alphabet _ hc c
    rw [ht]
    exact List.mem_append_left _ hcm
  · intro h
    have := trimEnd_getLast _ _ h
    exact absurd this (by decide)

end Nmea
