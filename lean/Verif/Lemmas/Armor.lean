/-
Six-bit ASCII armoring.
-/
import Verif.Lemmas.Bits
import Verif.Lemmas.Vdm

namespace Nmea
open Spec

theorem armorValue_armorChar (oc : Bool) (v : Nat) (h : v < 64) : armorValue oc (armorChar v) = .ok v := by
  have : ∀ (oc : Bool) (v : Fin 64), armorValue oc (armorChar v) = .ok v.val := by decide +kernel
  exact this oc ⟨v, h⟩

theorem sixBits_eq (v : Nat) : sixBits v = natBits 6 v := by
  simp only [sixBits, natBits]
  apply List.map_congr_left
  intro i _
  simp only [Nat.testBit, show 6 - 1 - i = 5 - i by omega, Nat.and_comm]

theorem parsePayload_cons_ok (oc : Bool) (c : Char) (cs : Str) (v : Nat) (bs : Bits)
    (hv : armorValue oc c = .ok v) (hb : parsePayload oc cs = .ok bs) :
    parsePayload oc (c :: cs) = .ok (natBits 6 v ++ bs) := by
  simp only [parsePayload, hv, hb, sixBits_eq]

/-- Number of fill bits. -/
def fillBits (n : Nat) : Nat := (6 - n % 6) % 6

theorem parsePayload_armor (oc : Bool) (bs : Bits) :
    parsePayload oc (armor bs) = .ok (bs ++ List.replicate (fillBits bs.length) false) := by
  fun_induction armor bs with
  | case1 b0 b1 b2 b3 b4 b5 rest ih =>
    have hlt : bitsVal [b0, b1, b2, b3, b4, b5] < 64 := bitsVal_lt [b0, b1, b2, b3, b4, b5]
    rw [parsePayload_cons_ok oc _ _ _ _ (armorValue_armorChar oc _ hlt) ih]
    have := natBits_bitsVal [b0, b1, b2, b3, b4, b5]
    rw [show [b0, b1, b2, b3, b4, b5].length = 6 from rfl] at this
    rw [this]
    simp [fillBits]
    omega
  | case2 => rfl
  | case3 short hne hlt =>
    have hlen : short.length < 6 := by
      rcases short with _ | ⟨b0, _ | ⟨b1, _ | ⟨b2, _ | ⟨b3, _ | ⟨b4, _ | ⟨b5, r⟩⟩⟩⟩⟩⟩ <;> simp
      exact (hne _ _ _ _ _ _ _ rfl).elim
    have hpos : 0 < short.length := by
      cases short with
      | nil => exact absurd rfl hlt
      | cons => simp
    let t := short ++ List.replicate (6 - short.length) false
    have ht : t.length = 6 := by simp [t]; omega
    have htl := bitsVal_lt t
    rw [ht] at htl
    rw [parsePayload_cons_ok oc _ [] _ [] (armorValue_armorChar oc _ htl) rfl]
    have := natBits_bitsVal t
    rw [ht] at this
    rw [this]
    simp only [t, List.append_nil, fillBits]
    rw [Nat.mod_eq_of_lt hlen, Nat.mod_eq_of_lt (show 6 - short.length < 6 by omega)]

theorem parsePayload_append (oc : Bool) (s t : Str) (a b : Bits) (ha : parsePayload oc s = .ok a)
    (hb : parsePayload oc t = .ok b) : parsePayload oc (s ++ t) = .ok (a ++ b) := by
  induction s generalizing a with
  | nil => simp [parsePayload] at ha; subst ha; simpa using hb
  | cons c cs ih =>
    simp only [parsePayload] at ha
    cases hc : armorValue oc c with
    | ok v =>
      rw [hc] at ha
      simp only [] at ha
      cases hp : parsePayload oc cs with
      | ok bs =>
        rw [hp] at ha
        cases ha
        have := parsePayload_cons_ok oc c (cs ++ t) v _ hc (ih bs hp)
        rw [List.cons_append, this, sixBits_eq, List.append_assoc]
      | err e => rw [hp] at ha; cases ha
      | panic => rw [hp] at ha; cases ha
    | err e => rw [hc] at ha; cases ha
    | panic => rw [hc] at ha; cases ha

theorem parsePayload_zeros (oc : Bool) (k : Nat) :
    parsePayload oc (List.replicate k '0') = .ok (List.replicate (6 * k) false) := by
  induction k with
  | zero => rfl
  | succ k ih =>
    rw [List.replicate_succ, parsePayload_cons_ok oc '0' _ 0 _ (by cases oc <;> decide) ih]
    rw [show natBits 6 0 = List.replicate 6 false by decide, List.replicate_append_replicate]
    congr 2
    omega

theorem parsePayload_append_panic (oc : Bool) (s t : Str) (ha : parsePayload oc s = .panic) :
    parsePayload oc (s ++ t) = .panic := by
  induction s with
  | nil => simp [parsePayload] at ha
  | cons c cs ih =>
    simp only [parsePayload, List.cons_append] at ha ⊢
    cases hc : armorValue oc c with
    | ok v =>
      rw [hc] at ha
      simp only [] at ha
      cases hp : parsePayload oc cs with
      | ok bs => rw [hp] at ha; cases ha
      | err e => exact absurd hp (parsePayload_ne_err _ _ _)
      | panic => simp [ih hp]
    | err e => rw [hc] at ha; cases ha
    | panic => rfl

end Nmea
