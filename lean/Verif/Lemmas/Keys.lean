/-
The keys of pending fragments.
-/
import Verif.Spec.History
import Verif.Lemmas.Framing
import Verif.Lemmas.Ints

namespace Nmea
open Spec

theorem natStr_inj {n m : Nat} (h : natStr n = natStr m) : n = m := by
  rw [← Nat.ofDigitChars_ten_toDigits (n := n), ← Nat.ofDigitChars_ten_toDigits (n := m)]
  exact congrArg (fun x => Nat.ofDigitChars 10 x 0) h

theorem natStr_digits (n : Nat) : Digits (natStr n) := by
  refine ⟨Nat.toDigits_ne_nil, fun c hc => ?_⟩
  have := Nat.isDigit_of_mem_toDigits (by decide) (by decide) hc
  rw [← digit_iff]
  simp only [Char.isDigit, Bool.and_eq_true, decide_eq_true_eq] at this
  exact this

theorem natStr_comma (n : Nat) : ',' ∉ natStr n := by
  intro h
  have := (natStr_digits n).2 _ h
  revert this
  decide

theorem decValue_natStr (n : Nat) : decValue (natStr n) = n := by
  have h := Nat.ofDigitChars_ten_toDigits (n := n)
  rw [Nat.ofDigitChars_eq_foldl] at h
  exact h

theorem dec_natStr (max n : Nat) (h : n ≤ max) : Dec max (natStr n) n :=
  ⟨natStr n, .inl rfl, natStr_digits n, decValue_natStr n, h⟩

theorem makeFragmentKey_eq (own : Bool) (id num : Nat) (chan : Str) :
    makeFragmentKey ('!' :: aisKind own) id 2 num chan = partKey own num id chan := by
  have h2 : natStr 2 = c! "2" := by decide
  simp [makeFragmentKey, partKey, join, h2]

theorem makeGsvKey_eq (talker : Str) (n i : Nat) :
    makeGsvKey (tag '$' talker (c! "GSV")) n i = gsvKey talker n i := by
  simp [makeGsvKey, gsvKey, join]

theorem cut_comma {a b a' b' : Str} (ha : ',' ∉ a) (ha' : ',' ∉ a') (h : a ++ ',' :: b = a' ++ ',' :: b') :
    a = a' ∧ b = b' := by
  have h1 := beforeComma_append a b ha
  rw [h, beforeComma_append a' b' ha'] at h1
  cases h1
  simpa using h

theorem partKey_inj {own own' : Bool} {num num' id id' : Nat} {chan chan' : Str}
    (h : partKey own num id chan = partKey own' num' id' chan') :
    own = own' ∧ num = num' ∧ id = id' ∧ chan = chan' := by
  simp only [partKey, join, List.map_cons, List.map_nil, List.flatten_cons, List.flatten_nil,
    List.append_nil, List.cons_append, List.cons.injEq, true_and, List.nil_append] at h
  have h1 : aisKind own = aisKind own' := (cut_comma (aisKind_noComma _) (aisKind_noComma _) h).1
  rw [h1, List.append_cancel_left_eq] at h
  simp only [List.cons.injEq, true_and] at h
  obtain ⟨h2, h⟩ := cut_comma (natStr_comma _) (natStr_comma _) h
  obtain ⟨h3, rfl⟩ := cut_comma (natStr_comma _) (natStr_comma _) h
  refine ⟨?_, natStr_inj h2, natStr_inj h3, rfl⟩
  revert h1
  cases own <;> cases own' <;> decide

theorem gsvKey_inj {talker talker' : Str} {n n' i i' : Nat} (ht : ',' ∉ talker) (ht' : ',' ∉ talker')
    (h : gsvKey talker n i = gsvKey talker' n' i') : talker = talker' ∧ n = n' ∧ i = i' := by
  simp only [gsvKey, join, List.map_cons, List.map_nil, List.flatten_cons, List.flatten_nil,
    List.append_nil, List.cons_append] at h
  have c1 : ∀ t : Str, ',' ∉ t → ',' ∉ tag '$' t (c! "GSV") := by
    intro t ht
    simp [tag, ht]
  obtain ⟨h1, h⟩ := cut_comma (c1 _ ht) (c1 _ ht') h
  obtain ⟨h2, h3⟩ := cut_comma (natStr_comma _) (natStr_comma _) h
  simp only [tag, List.cons_append, List.cons.injEq, true_and, List.append_cancel_right_eq] at h1
  exact ⟨h1, natStr_inj h2, natStr_inj h3⟩

theorem partKey_ne_gsvKey (own : Bool) (num id : Nat) (chan talker : Str) (n i : Nat) :
    partKey own num id chan ≠ gsvKey talker n i := by
  simp [partKey, gsvKey, join, tag]

end Nmea
