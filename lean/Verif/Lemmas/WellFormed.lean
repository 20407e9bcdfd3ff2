/-
Every bit string is answered like the encoding of a well-formed message.
-/
import Verif.Lemmas.Panic
import Verif.Lemmas.Layout
import Verif.Lemmas.Static
import Verif.Lemmas.Messages
import Verif.Lemmas.Values
import Verif.Lemmas.Outcome
import Verif.Lemmas.Fields
import Verif.Spec.WellFormed

namespace Nmea
open Spec

theorem natBits_num (b : Bits) (i w : Nat) : natBits w (num b i w) = window b i w := by
  have := natBits_bitsVal (window b i w)
  rwa [length_window] at this

theorem flagBit_flagAt (b : Bits) (i : Nat) : flagBit (flagAt b i) = window b i 1 := by
  have h := length_window b i 1
  unfold flagAt flagBit
  match window b i 1, h with
  | [x], _ => rfl

theorem intBits_snum (b : Bits) (i w : Nat) : intBits w (snum b i w) = window b i w := by
  have h := length_window b i w
  have hlt := bitsVal_lt (window b i w)
  rw [h] at hlt
  have e : (snum b i w % 2 ^ w).toNat = bitsVal (window b i w) := by
    unfold snum signedVal
    rw [h]
    have hz : ((bitsVal (window b i w) : Int) % 2 ^ w) = bitsVal (window b i w) :=
      Int.emod_eq_of_lt (by omega) (by exact_mod_cast hlt)
    split
    · rw [Int.sub_emod_right, hz]; rfl
    · rw [hz]; rfl
  rw [intBits, e]
  exact natBits_num b i w

theorem text_plain (b : Bits) (i n : Nat) : PlainText n (fieldText b i n) := by
  rw [← textAt_fieldText]
  exact textAt_plain b i n

theorem window_join {b : Bits} {i a j c : Nat} (h : i + a = j) : window b i a ++ window b j c = window b i (a + c) := by
  subst h; exact (window_append b i a c).symm

theorem window_join' {b x : Bits} {i a j c : Nat} (h : i + a = j) :
    window b i a ++ (window b j c ++ x) = window b i (a + c) ++ x := by
  rw [← List.append_assoc, window_join h]

/-- A header field with its known value. -/
theorem head_bits {b : Bits} {i w v : Nat} (h : num b i w = v) : natBits w v = window b i w := by
  rw [← h, natBits_num]

theorem window_prefix (a b : Bits) (n : Nat) (h : a.length = n) : window (a ++ b) 0 n = a := by
  subst h
  rw [window_append_left _ _ _ _ (by omega), window_full]

theorem window_self (b : Bits) (n : Nat) : window (window b 0 n) 0 n = window b 0 n := by
  have := window_full (window b 0 n)
  rwa [length_window] at this

set_option linter.unusedSimpArgs false

/-! ### Their values are in range -/

local macro "nl" : term => `(num_lt _ _ _)
local macro "sl" : term => `(snum_bounds _ _ _ (by decide))
local macro "tp" : term => `(text_plain _ _ _)

theorem PositionA.read_fits (b : Bits) (h : num b 0 6 ∈ [1, 2, 3]) : (PositionA.read b).Fits := by
  have h1 := snum_bounds b 42 8 (by decide)
  norm_num at h1
  exact ⟨h, nl, nl, nl, ⟨h1.1, by show snum b 42 8 ≤ 127; omega⟩, nl, sl, sl, nl, nl, nl, nl, nl, nl⟩

theorem BaseStation.read_fits (b : Bits) : (BaseStation.read b).Fits :=
  ⟨nl, nl, nl, nl, nl, nl, nl, nl, sl, sl, nl, nl, nl⟩

theorem Voyage.read_fits (b : Bits) : (Voyage.read b).Fits :=
  ⟨nl, nl, nl, nl, tp, tp, nl, nl, nl, nl, nl, nl, nl, nl, nl, nl, nl, tp⟩

theorem Addressed.read_fits (b : Bits) : (Addressed.read b).Fits := ⟨nl, nl, nl, nl, nl, nl⟩

theorem Aircraft.read_fits (b : Bits) : (Aircraft.read b).Fits :=
  ⟨nl, nl, nl, nl, sl, sl, nl, nl, nl, nl, nl⟩

theorem Inquiry.read_fits (b : Bits) : (Inquiry.read b).Fits := ⟨nl, nl, nl, nl, nl⟩

theorem PositionB.read_fits (b : Bits) : (PositionB.read b).Fits :=
  ⟨nl, nl, nl, nl, sl, sl, nl, nl, nl, nl, nl⟩

theorem Aid.read_fits (b : Bits) : (Aid.read b).Fits :=
  ⟨nl, nl, nl, tp, sl, sl, nl, nl, nl, nl, nl, nl, nl, tp⟩

theorem StaticA.read_fits (b : Bits) (h : (fieldText b 40 120).length ≤ 20) : (StaticA.read b).Fits :=
  ⟨nl, nl, h, (text_plain b 40 120).2⟩

theorem StaticB.read_fits (b : Bits) : (StaticB.read b).Fits :=
  ⟨nl, nl, nl, tp, nl, nl, tp, nl, nl, nl, nl, nl⟩

theorem LongRange.read_fits (b : Bits) : (LongRange.read b).Fits := ⟨nl, nl, nl, sl, sl, nl, nl⟩

/-! ### Types without text: the bits are a prefix of the bit string -/

theorem PositionA.read_bits (b : Bits) : (PositionA.read b).bits = window b 0 168 := by
  simp (disch := omega) only [PositionA.bits, PositionA.read, natBits_num, intBits_snum, flagBit_flagAt, List.flatten_cons,
    List.flatten_nil, List.append_nil, window_join, window_join', Nat.reduceAdd]

theorem BaseStation.read_bits (b : Bits) (h : num b 0 6 = 4) : (BaseStation.read b).bits = window b 0 168 := by
  simp (disch := omega) only [BaseStation.bits, BaseStation.read, head_bits h, natBits_num, intBits_snum, flagBit_flagAt,
    List.flatten_cons, List.flatten_nil, List.append_nil, window_join, window_join', Nat.reduceAdd]

theorem Addressed.read_bits (b : Bits) (h : num b 0 6 = 6) : (Addressed.read b).bits = window b 0 88 := by
  simp (disch := omega) only [Addressed.bits, Addressed.read, head_bits h, natBits_num, intBits_snum, flagBit_flagAt,
    List.flatten_cons, List.flatten_nil, List.append_nil, window_join, window_join', Nat.reduceAdd]

theorem Aircraft.read_bits (b : Bits) (h : num b 0 6 = 9) : (Aircraft.read b).bits = window b 0 168 := by
  simp (disch := omega) only [Aircraft.bits, Aircraft.read, head_bits h, natBits_num, intBits_snum, flagBit_flagAt,
    List.flatten_cons, List.flatten_nil, List.append_nil, window_join, window_join', Nat.reduceAdd]

theorem Inquiry.read_bits (b : Bits) (h : num b 0 6 = 10) : (Inquiry.read b).bits = window b 0 72 := by
  simp (disch := omega) only [Inquiry.bits, Inquiry.read, head_bits h, natBits_num, intBits_snum, flagBit_flagAt,
    List.flatten_cons, List.flatten_nil, List.append_nil, window_join, window_join', Nat.reduceAdd]

theorem PositionB.read_bits (b : Bits) (h : num b 0 6 = 18) : (PositionB.read b).bits = window b 0 168 := by
  simp (disch := omega) only [PositionB.bits, PositionB.read, head_bits h, natBits_num, intBits_snum, flagBit_flagAt,
    List.flatten_cons, List.flatten_nil, List.append_nil, window_join, window_join', Nat.reduceAdd]

theorem LongRange.read_bits (b : Bits) (h : num b 0 6 = 27) : (LongRange.read b).bits = window b 0 96 := by
  simp (disch := omega) only [LongRange.bits, LongRange.read, head_bits h, natBits_num, intBits_snum, flagBit_flagAt,
    List.flatten_cons, List.flatten_nil, List.append_nil, window_join, window_join', Nat.reduceAdd]

/-! ### Types with text -/

theorem window_subAt (bv bv' : Bits) (a L i len : Nat) (h : window bv a L = window bv' a L) (h1 : a ≤ i)
    (h2 : i + len ≤ a + L) : window bv i len = window bv' i len := by
  have sub : ∀ bv : Bits, window bv i len = ((window bv a L).drop (i - a)).take len := by
    intro bv
    rw [show window bv a L = window bv a (i - a) ++ (window bv i len ++ window bv (i + len) (a + L - (i + len))) by
      rw [← window_append, window_join (by omega)]; congr 1; omega]
    rw [List.drop_left' (by simp), List.take_left' (by simp)]
  rw [sub, sub, h]

theorem textAt_of (a x : Bits) (n i : Nat) (b c : Bits) (h : c = a ++ (textBits n (fieldText b i n) ++ x))
    (ha : a.length = i) : textAt c i n = textAt b i n := by
  subst h ha
  rw [textAt_append_right _ _ _ _ (Nat.le_refl _), Nat.sub_self,
    textAt_congr _ (textBits n (fieldText b a.length n)) _ _ _ (window_append_left _ _ _ _
      (by rw [length_textBits _ _ (text_plain _ _ _).1]; omega)),
    textAt_textBits _ _ (text_plain _ _ _), textAt_fieldText]

theorem window_of (a x w c : Bits) (i n : Nat) (h : c = a ++ (w ++ x)) (ha : a.length = i) (hw : w.length = n) :
    window c i n = w := by
  subst h ha hw
  rw [window_append_right _ _ _ _ (Nat.le_refl _), Nat.sub_self, window_append_left _ _ _ _ (by omega), window_full]

theorem length_text (b : Bits) (i n : Nat) : (textBits n (fieldText b i n)).length = 6 * n :=
  length_textBits _ _ (text_plain _ _ _).1

theorem Voyage.read_bits (b : Bits) (h : num b 0 6 = 5) : (Voyage.read b).bits =
    window b 0 70 ++ (textBits 7 (fieldText b 70 7) ++ (textBits 20 (fieldText b 112 20) ++ (window b 232 70 ++
      (textBits 20 (fieldText b 302 20) ++ window b 422 2)))) := by
  simp (disch := omega) only [Voyage.bits, Voyage.read, head_bits h, natBits_num, intBits_snum, flagBit_flagAt,
    List.flatten_cons, List.flatten_nil, List.append_nil, window_join, window_join', Nat.reduceAdd]

theorem Aid.read_bits (b : Bits) (h : num b 0 6 = 21) : (Aid.read b).bits =
    window b 0 43 ++ (textBits 20 (fieldText b 43 20) ++ (window b 163 109 ++ textBits 14 (fieldText b 272 14))) := by
  simp (disch := omega) only [Aid.bits, Aid.read, head_bits h, natBits_num, intBits_snum, flagBit_flagAt,
    List.flatten_cons, List.flatten_nil, List.append_nil, window_join, window_join', Nat.reduceAdd]

theorem StaticA.read_bits (b : Bits) (h : num b 0 6 = 24) (h0 : num b 38 2 = 0) : (StaticA.read b).bits =
    window b 0 40 ++ textBits 20 (fieldText b 40 120) := by
  simp (disch := omega) only [StaticA.bits, StaticA.read, head_bits h, head_bits h0, natBits_num, intBits_snum, flagBit_flagAt,
    List.flatten_cons, List.flatten_nil, List.append_nil, window_join, window_join', Nat.reduceAdd]

theorem StaticB.read_bits (b : Bits) (h : num b 0 6 = 24) (h0 : num b 38 2 = 1) : (StaticB.read b).bits =
    window b 0 48 ++ (textBits 3 (fieldText b 48 3) ++ (window b 66 24 ++ (textBits 7 (fieldText b 90 7) ++
      window b 132 36))) := by
  simp (disch := omega) only [StaticB.bits, StaticB.read, head_bits h, head_bits h0, natBits_num, intBits_snum, flagBit_flagAt,
    List.flatten_cons, List.flatten_nil, List.append_nil, window_join, window_join', Nat.reduceAdd]

section
variable {bv bv' : Bits} {a L : Nat} (h : window bv a L = window bv' a L)
include h

theorem u64_at (i len : Nat) (h1 : a ≤ i) (h2 : i + len ≤ a + L) : pickU64 bv i len = pickU64 bv' i len :=
  pickU64_congr _ _ _ _ _ (window_subAt _ _ _ _ _ _ h h1 h2)
theorem i64_at (i len : Nat) (h1 : a ≤ i) (h2 : i + len ≤ a + L) : pickI64 bv i len = pickI64 bv' i len :=
  pickI64_congr _ _ _ _ _ (window_subAt _ _ _ _ _ _ h h1 h2)
end

theorem Voyage.read_handle (now : DateTime) (b : Bits) (st : Station) (own : Bool) (h : num b 0 6 = 5) :
    handleT5 now (Voyage.read b).bits st own = handleT5 now b st own := by
  have e := Voyage.read_bits b h
  generalize (Voyage.read b).bits = c at e
  have w1 : window c 0 70 = window b 0 70 := window_of [] _ _ _ _ _ e rfl (by simp)
  have w2 : window c 232 70 = window b 232 70 := window_of (window b 0 70 ++ (textBits 7 (fieldText b 70 7) ++
    textBits 20 (fieldText b 112 20))) _ _ _ _ _ (by rw [e]; simp only [List.append_assoc]; rfl) (by simp [length_text]) (by simp)
  have t1 : textAt c 70 7 = textAt b 70 7 := textAt_of (window b 0 70) _ _ _ _ _ e (by simp)
  have t2 : textAt c 112 20 = textAt b 112 20 := textAt_of (window b 0 70 ++ textBits 7 (fieldText b 70 7)) _ _ _ _ _
    (by rw [e]; simp only [List.append_assoc]; rfl) (by simp [length_text])
  have t3 : textAt c 302 20 = textAt b 302 20 := textAt_of (window b 0 70 ++ (textBits 7 (fieldText b 70 7) ++
    (textBits 20 (fieldText b 112 20) ++ window b 232 70))) _ _ _ _ _
    (by rw [e]; simp only [List.append_assoc]; rfl) (by simp [length_text])
  clear e
  simp (disch := omega) only [handleT5, fixTypeBlock, pickEta, u64_at w1, u64_at w2, liftErr_pickString, t1, t2, t3]

theorem Aid.read_handle (b : Bits) (st : Station) (own : Bool) (h : num b 0 6 = 21) :
    handleT21 (Aid.read b).bits st own = handleT21 b st own := by
  have e := Aid.read_bits b h
  generalize (Aid.read b).bits = c at e
  have w1 : window c 0 43 = window b 0 43 := window_of [] _ _ _ _ _ e rfl (by simp)
  have w2 : window c 163 109 = window b 163 109 := window_of (window b 0 43 ++ textBits 20 (fieldText b 43 20))
    _ _ _ _ _ (by rw [e]; simp only [List.append_assoc]; rfl) (by simp [length_text]) (by simp)
  have t1 : textAt c 43 20 = textAt b 43 20 := textAt_of (window b 0 43) _ _ _ _ _ e (by simp)
  have t2 : textAt c 272 14 = textAt b 272 14 := textAt_of (window b 0 43 ++ (textBits 20 (fieldText b 43 20) ++
    window b 163 109)) [] _ _ _ _
    (by rw [e]; simp only [List.append_assoc, List.append_nil]) (by simp [length_text])
  clear e
  simp (disch := omega) only [handleT21, pickFlag, latBlock, lonBlock, u64_at w1, u64_at w2, i64_at w2, liftErr_pickString, t1, t2]

theorem StaticB.read_handle (b : Bits) (st : Station) (own : Bool) (q : Parser) (h : num b 0 6 = 24) (h1 : num b 38 2 = 1) :
    handleT24 (StaticB.read b).bits st q own = handleT24 b st q own := by
  have e := StaticB.read_bits b h h1
  generalize (StaticB.read b).bits = c at e
  have w1 : window c 0 48 = window b 0 48 := window_of [] _ _ _ _ _ e rfl (by simp)
  have w2 : window c 66 24 = window b 66 24 := window_of (window b 0 48 ++ textBits 3 (fieldText b 48 3))
    _ _ _ _ _ (by rw [e]; simp only [List.append_assoc]; rfl) (by simp [length_text]) (by simp)
  have w3 : window c 132 36 = window b 132 36 := window_of (window b 0 48 ++ (textBits 3 (fieldText b 48 3) ++
    (window b 66 24 ++ textBits 7 (fieldText b 90 7)))) [] _ _ _ _
    (by rw [e]; simp only [List.append_assoc, List.append_nil]) (by simp [length_text]) (by simp)
  have t1 : textAt c 48 3 = textAt b 48 3 := textAt_of (window b 0 48) _ _ _ _ _ e (by simp)
  have t2 : textAt c 90 7 = textAt b 90 7 := textAt_of (window b 0 48 ++ (textBits 3 (fieldText b 48 3) ++
    window b 66 24)) _ _ _ _ _
    (by rw [e]; simp only [List.append_assoc]; rfl) (by simp [length_text])
  clear e
  have hp : pickU64 b 38 2 = 1 := by rw [num_eq _ _ _ (by decide)]; exact h1
  have hp' : pickU64 c 38 2 = 1 := by rw [u64_at w1 38 2 (by omega) (by omega)]; exact hp
  simp only [handleT24, hp, hp']
  simp (disch := omega) only [t24Fields, u64_at w1, u64_at w2, u64_at w3, liftErr_pickString, t1, t2, if_true,
    Bool.false_eq_true, if_false]

theorem StaticA.read_handle (b : Bits) (st : Station) (own : Bool) (q : Parser) (h : num b 0 6 = 24) (h0 : num b 38 2 = 0)
    (hz : (fieldText b 40 120).length ≤ 20) :
    handleT24 (StaticA.read b).bits st q own = handleT24 b st q own := by
  have hb : ∀ m : StaticA, m.Fits → textAt m.bits 40 120 = m.name := by
    intro m hm
    have := StaticA.name_eq m hm [] (.inr ⟨0, rfl⟩)
    rwa [List.append_nil] at this
  have hn : textAt (StaticA.read b).bits 40 120 = textAt b 40 120 := by
    rw [hb _ (StaticA.read_fits b hz), textAt_fieldText]; rfl
  have e := StaticA.read_bits b h h0
  have w1 : window (StaticA.read b).bits 0 40 = window b 0 40 := window_of [] _ _ _ _ _ e rfl (by simp)
  have hp : pickU64 b 38 2 = 0 := by rw [num_eq _ _ _ (by decide)]; exact h0
  have hp' : pickU64 (StaticA.read b).bits 38 2 = 0 := by rw [u64_at w1 38 2 (by omega) (by omega)]; exact hp
  simp only [handleT24, hp, hp']
  simp (disch := omega) only [t24Fields, u64_at w1, liftErr_pickString, hn, if_true,
    Bool.false_eq_true, if_false]

/-! ### Every message -/

theorem num_bits_type {b c : Bits} (h : window c 0 6 = window b 0 6) (t : Nat) (ht : num b 0 6 = t) :
    pickU64 c 0 6 = t ∧ pickU64 b 0 6 = t := by
  rw [num_eq _ _ _ (by decide), num_eq _ _ _ (by decide)]
  exact ⟨by rw [← ht]; unfold num; rw [h], ht⟩

/-- The message that a bit string stands for is answered like the bit string. -/
theorem wellFormed_of (b : Bits) (hr : Reported b) : ∃ m : AisMessage, messageOf b = some m ∧ m.Fits ∧ typeOf m.bits = typeOf b ∧
    mmsiOf m.bits = mmsiOf b ∧
    ∀ (env : Env) (ty : Str) (st : Station) (own : Bool) (q : Parser),
      dispatchAis env ty m.bits st own q = dispatchAis env ty b st own q := by
  obtain ⟨ht, h24⟩ := hr
  have plain : ∀ (c : Bits) (L : Nat), c = window b 0 L → 38 ≤ L → layoutBits (typeOf b) (partOf b) ≤ L →
      typeOf c = typeOf b ∧ mmsiOf c = mmsiOf b ∧ ∀ (env : Env) (ty : Str) (st : Station) (own : Bool) (q : Parser),
      dispatchAis env ty c st own q = dispatchAis env ty b st own q := by
    intro c L hc h6 hL
    have hw : window b 0 L = window c 0 L := by rw [hc, window_self]
    refine ⟨by unfold typeOf; rw [window_sub _ _ _ _ _ hw (by omega)],
      by unfold mmsiOf; rw [window_sub _ _ _ _ _ hw (by omega)], fun env ty st own q => ?_⟩
    refine (dispatchAis_congr env ty b c st own q L hw (by omega) ?_).symm
    rw [pickU64_window _ _ _ (by decide), pickU64_window _ _ _ (by decide)]
    exact hL
  have text : ∀ (c : Bits) (L : Nat), window c 0 L = window b 0 L → 38 ≤ L → typeOf c = typeOf b ∧ mmsiOf c = mmsiOf b := by
    intro c L hw h6
    exact ⟨by unfold typeOf; rw [window_sub _ _ _ _ _ hw (by omega)],
      by unfold mmsiOf; rw [window_sub _ _ _ _ _ hw (by omega)]⟩
  have he : typeOf b = num b 0 6 := rfl
  simp only [supportedTypes, List.mem_cons, List.not_mem_nil, or_false] at ht
  rcases ht with h | h | h | h | h | h | h | h | h | h | h | h
  · exact ⟨.positionA (PositionA.read b), by simp [messageOf, h], PositionA.read_fits b (by rw [← he, h]; decide), plain _ 168 (PositionA.read_bits b) (by decide) (by rw [h]; simp [layoutBits])⟩
  · exact ⟨.positionA (PositionA.read b), by simp [messageOf, h], PositionA.read_fits b (by rw [← he, h]; decide), plain _ 168 (PositionA.read_bits b) (by decide) (by rw [h]; simp [layoutBits])⟩
  · exact ⟨.positionA (PositionA.read b), by simp [messageOf, h], PositionA.read_fits b (by rw [← he, h]; decide), plain _ 168 (PositionA.read_bits b) (by decide) (by rw [h]; simp [layoutBits])⟩
  · exact ⟨.base (BaseStation.read b), by simp [messageOf, h], BaseStation.read_fits b, plain _ 168 (BaseStation.read_bits b h) (by decide) (by rw [h]; simp [layoutBits])⟩
  · have e := Voyage.read_bits b h
    have w : window (Voyage.read b).bits 0 70 = window b 0 70 := window_of [] _ _ _ _ _ e rfl (by simp)
    obtain ⟨t1, t2⟩ := text _ _ w (by decide)
    refine ⟨.voyage (Voyage.read b), by simp [messageOf, h], Voyage.read_fits b, t1, t2, fun env ty st own q => ?_⟩
    obtain ⟨p1, p2⟩ := num_bits_type (window_sub _ _ _ _ _ w (by omega)) 5 h
    show dispatchAis env ty (Voyage.read b).bits st own q = _
    rw [dispatch_5 p1, dispatch_5 p2, Voyage.read_handle _ _ _ _ h]
  · exact ⟨.addressed (Addressed.read b), by simp [messageOf, h], Addressed.read_fits b, plain _ 88 (Addressed.read_bits b h) (by decide) (by rw [h]; simp [layoutBits])⟩
  · exact ⟨.aircraft (Aircraft.read b), by simp [messageOf, h], Aircraft.read_fits b, plain _ 168 (Aircraft.read_bits b h) (by decide) (by rw [h]; simp [layoutBits])⟩
  · exact ⟨.inquiry (Inquiry.read b), by simp [messageOf, h], Inquiry.read_fits b, plain _ 72 (Inquiry.read_bits b h) (by decide) (by rw [h]; simp [layoutBits])⟩
  · exact ⟨.positionB (PositionB.read b), by simp [messageOf, h], PositionB.read_fits b, plain _ 168 (PositionB.read_bits b h) (by decide) (by rw [h]; simp [layoutBits])⟩
  · have e := Aid.read_bits b h
    have w : window (Aid.read b).bits 0 43 = window b 0 43 := window_of [] _ _ _ _ _ e rfl (by simp)
    obtain ⟨t1, t2⟩ := text _ _ w (by decide)
    refine ⟨.aid (Aid.read b), by simp [messageOf, h], Aid.read_fits b, t1, t2, fun env ty st own q => ?_⟩
    obtain ⟨p1, p2⟩ := num_bits_type (window_sub _ _ _ _ _ w (by omega)) 21 h
    show dispatchAis env ty (Aid.read b).bits st own q = _
    rw [dispatch_21 p1, dispatch_21 p2, Aid.read_handle _ _ _ h]
  · obtain ⟨hp, hA⟩ := h24 h
    have hc : partOf b = 0 ∨ partOf b = 1 := by omega
    rcases hc with h0 | h1
    · have e := StaticA.read_bits b h h0
      have w : window (StaticA.read b).bits 0 40 = window b 0 40 := window_of [] _ _ _ _ _ e rfl (by simp)
      obtain ⟨t1, t2⟩ := text _ _ w (by decide)
      refine ⟨.staticA (StaticA.read b), by simp [messageOf, h, h0], StaticA.read_fits b (hA h0), t1, t2, fun env ty st own q => ?_⟩
      obtain ⟨p1, p2⟩ := num_bits_type (window_sub _ _ _ _ _ w (by omega)) 24 h
      show dispatchAis env ty (StaticA.read b).bits st own q = _
      rw [dispatch_24 p1, dispatch_24 p2, StaticA.read_handle _ _ _ _ h h0 (hA h0)]
    · have e := StaticB.read_bits b h h1
      have w : window (StaticB.read b).bits 0 48 = window b 0 48 := window_of [] _ _ _ _ _ e rfl (by simp)
      obtain ⟨t1, t2⟩ := text _ _ w (by decide)
      refine ⟨.staticB (StaticB.read b), by simp [messageOf, h, h1], StaticB.read_fits b, t1, t2, fun env ty st own q => ?_⟩
      obtain ⟨p1, p2⟩ := num_bits_type (window_sub _ _ _ _ _ w (by omega)) 24 h
      show dispatchAis env ty (StaticB.read b).bits st own q = _
      rw [dispatch_24 p1, dispatch_24 p2, StaticB.read_handle _ _ _ _ h h1]
  · exact ⟨.longRange (LongRange.read b), by simp [messageOf, h], LongRange.read_fits b, plain _ 96 (LongRange.read_bits b h) (by decide) (by rw [h]; simp [layoutBits])⟩

theorem exists_wellFormed (b : Bits) (hr : Reported b) : ∃ m : AisMessage, m.Fits ∧ typeOf m.bits = typeOf b ∧
    mmsiOf m.bits = mmsiOf b ∧
    ∀ (env : Env) (ty : Str) (st : Station) (own : Bool) (q : Parser),
      dispatchAis env ty m.bits st own q = dispatchAis env ty b st own q := by
  obtain ⟨m, -, h⟩ := wellFormed_of b hr
  exact ⟨m, h⟩

/-- Only the remembered static data matter for a complete message. -/
theorem dispatchAis_vsds (env : Env) (ty : Str) (b : Bits) (st : Station) (own : Bool) (p q : Parser)
    (h : q.savedVsds = p.savedVsds) :
    (dispatchAis env ty b st own q).1 = (dispatchAis env ty b st own p).1 ∧
      (dispatchAis env ty b st own q).2.savedVsds = (dispatchAis env ty b st own p).2.savedVsds := by
  have store : ∀ v : VesselStaticData, (t24Store v q).1 = (t24Store v p).1 ∧
      (t24Store v q).2.savedVsds = (t24Store v p).2.savedVsds := by
    intro v
    simp only [t24Store, Parser.pullVsd, Parser.pushVsd, h]
    cases p.savedVsds.get v.mmsi with
    | none => exact ⟨rfl, rfl⟩
    | some w => dsimp only; cases liftErr (v.merge w) <;> exact ⟨rfl, rfl⟩
  have t24 : (handleT24 b st q own).1 = (handleT24 b st p own).1 ∧
      (handleT24 b st q own).2.savedVsds = (handleT24 b st p own).2.savedVsds := by
    simp only [handleT24]
    split
    · cases t24Fields b own true false <;> first | exact store _ | exact ⟨rfl, h⟩
    · cases t24Fields b own false true <;> first | exact store _ | exact ⟨rfl, h⟩
    · exact ⟨rfl, h⟩
  unfold dispatchAis
  simp only []
  split
  case h_12 => exact t24
  all_goals exact ⟨rfl, h⟩

end Nmea
