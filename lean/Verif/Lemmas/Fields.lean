/-
Fields of a message given as a list of bit strings.
-/
import Verif.Lemmas.Messages
import Verif.Lemmas.Static

namespace Nmea
open Spec

theorem window_field (fs : List (List Bool)) (k : Nat) (x f : List Bool) (i len : Nat) (hk : fs[k]? = some f)
    (hi : ((fs.take k).map List.length).sum = i) (hl : f.length = len) :
    window (fs.flatten ++ x) i len = f := by
  induction fs generalizing k i with
  | nil => simp at hk
  | cons g gs ih =>
    cases k with
    | zero =>
      simp at hk hi
      subst hk hi
      rw [List.flatten_cons, List.append_assoc, window_append_left _ _ _ _ (by omega), ← hl, window_full]
    | succ k =>
      simp only [List.take_succ_cons, List.map_cons, List.sum_cons] at hi
      rw [List.flatten_cons, List.append_assoc, window_append_right _ _ _ _ (by omega)]
      exact ih k _ (by simpa using hk) (by omega)

theorem field_u {fs : List (List Bool)} (k : Nat) {x : List Bool} {i w n : Nat} (hk : fs[k]? = some (natBits w n))
    (hi : ((fs.take k).map List.length).sum = i) (hw : w ≤ 64) (hn : n < 2 ^ w) :
    pickU64 (fs.flatten ++ x) i w = n := by
  rw [pickU64_window _ _ _ hw, window_field fs k x _ i w hk hi (by simp), bitsVal_natBits_lt _ _ hn]

theorem field_f {fs : List (List Bool)} (k : Nat) {x : List Bool} {i : Nat} {b : Bool} (hk : fs[k]? = some (flagBit b))
    (hi : ((fs.take k).map List.length).sum = i) : pickU64 (fs.flatten ++ x) i 1 = b.toNat := by
  rw [pickU64_window _ _ _ (by decide), window_field fs k x _ i 1 hk hi (by simp)]
  cases b <;> decide

theorem field_i {fs : List (List Bool)} (k : Nat) {x : List Bool} {i w : Nat} {z : Int} (hk : fs[k]? = some (intBits w z))
    (hi : ((fs.take k).map List.length).sum = i) (hw : 1 ≤ w) (hw' : w ≤ 63) (h1 : -(2 ^ (w - 1) : Int) ≤ z)
    (h2 : z < 2 ^ (w - 1)) : pickI64 (fs.flatten ++ x) i w = z := by
  rw [pickI64_window _ _ _ hw hw', window_field fs k x _ i w hk hi (by simp), signedVal_intBits _ _ hw h1 h2]

theorem field_t {fs : List (List Bool)} (k : Nat) {x : List Bool} {i n : Nat} {s : Str} (hk : fs[k]? = some (textBits n s))
    (hi : ((fs.take k).map List.length).sum = i) (hs : PlainText n s) : textAt (fs.flatten ++ x) i n = s := by
  rw [← textAt_textBits n s hs]
  apply textAt_congr
  have hl := length_textBits n s hs.1
  rw [window_field fs k x _ i _ hk hi hl, ← hl, window_full]

theorem window_field_sub (fs : List (List Bool)) (k : Nat) (x f : List Bool) (i j l : Nat) (hk : fs[k]? = some f)
    (hi : ((fs.take k).map List.length).sum = i) (hl : j + l ≤ f.length) :
    window (fs.flatten ++ x) (i + j) l = window f j l := by
  induction fs generalizing k i with
  | nil => simp at hk
  | cons g gs ih =>
    cases k with
    | zero =>
      simp at hk hi
      subst hk hi
      rw [List.flatten_cons, List.append_assoc, window_append_left _ _ _ _ (by omega), Nat.zero_add]
    | succ k =>
      simp only [List.take_succ_cons, List.map_cons, List.sum_cons] at hi
      rw [List.flatten_cons, List.append_assoc, window_append_right _ _ _ _ (by omega),
        show i + j - g.length = (i - g.length) + j by omega]
      exact ih k _ (by simpa using hk) (by omega)

theorem window_natBits (w n j l : Nat) (h : j + l ≤ w) :
    window (natBits w n) j l = natBits l (n / 2 ^ (w - j - l)) := by
  rw [← bitsAt_range']
  apply List.ext_getElem?
  intro i
  by_cases hi : i < l
  · simp only [bitsAt, natBits, List.getElem?_map, List.getElem?_range' hi, List.getElem?_range hi, Option.map_some,
      Nat.one_mul]
    rw [List.getElem?_range (by omega)]
    simp only [Option.map_some, Option.getD_some, Nat.testBit_div_two_pow]
    congr 2
    omega
  · rw [List.getElem?_eq_none (by simp [bitsAt]; omega), List.getElem?_eq_none (by simp; omega)]

theorem field_sub_u {fs : List (List Bool)} (k j : Nat) {x : List Bool} {i w n l : Nat}
    (hk : fs[k]? = some (natBits w n)) (hi : ((fs.take k).map List.length).sum + j = i) (hl : j + l ≤ w) (hw : l ≤ 64) :
    pickU64 (fs.flatten ++ x) i l = n / 2 ^ (w - j - l) % 2 ^ l := by
  rw [pickU64_window _ _ _ hw, ← hi, window_field_sub fs k x _ _ j l hk rfl (by simpa using hl), window_natBits _ _ _ _ hl,
    bitsVal_natBits]

/-! ### Dispatch on the message type -/

section
variable {env : Env} {ty : Str} {bv : Bits} {st : Station} {own : Bool} {q : Parser}

theorem dispatch_123 (h : pickU64 bv 0 6 ∈ [1, 2, 3]) :
    dispatchAis env ty bv st own q = (handleT123 bv st own, q) := by
  simp only [List.mem_cons, List.not_mem_nil, or_false] at h
  rcases h with h | h | h <;> simp only [dispatchAis, h]
theorem dispatch_4 (h : pickU64 bv 0 6 = 4) : dispatchAis env ty bv st own q = (handleT4 bv st own, q) := by
  simp only [dispatchAis, h]
theorem dispatch_5 (h : pickU64 bv 0 6 = 5) :
    dispatchAis env ty bv st own q = (handleT5 env.now bv st own, q) := by
  simp only [dispatchAis, h]
theorem dispatch_6 (h : pickU64 bv 0 6 = 6) : dispatchAis env ty bv st own q = (handleT6 bv st own, q) := by
  simp only [dispatchAis, h]
theorem dispatch_9 (h : pickU64 bv 0 6 = 9) : dispatchAis env ty bv st own q = (handleT9 bv st own, q) := by
  simp only [dispatchAis, h]
theorem dispatch_10 (h : pickU64 bv 0 6 = 10) : dispatchAis env ty bv st own q = (handleT10 bv st own, q) := by
  simp only [dispatchAis, h]
theorem dispatch_18 (h : pickU64 bv 0 6 = 18) : dispatchAis env ty bv st own q = (handleT18 bv st own, q) := by
  simp only [dispatchAis, h]
theorem dispatch_21 (h : pickU64 bv 0 6 = 21) : dispatchAis env ty bv st own q = (handleT21 bv st own, q) := by
  simp only [dispatchAis, h]
theorem dispatch_24 (h : pickU64 bv 0 6 = 24) : dispatchAis env ty bv st own q = handleT24 bv st q own := by
  simp only [dispatchAis, h]
theorem dispatch_27 (h : pickU64 bv 0 6 = 27) : dispatchAis env ty bv st own q = (handleT27 bv st own, q) := by
  simp only [dispatchAis, h]
end

/-! ### Casts -/

theorem asU8_lt (n : Nat) (h : n < 256) : asU8 n = n := Nat.mod_eq_of_lt h
theorem asU16_lt (n : Nat) (h : n < 65536) : asU16 n = n := Nat.mod_eq_of_lt h
theorem asU32_lt (n : Nat) (h : n < 4294967296) : asU32 n = n := Nat.mod_eq_of_lt h
theorem toNat_ne_zero (b : Bool) : (b.toNat != 0) = b := by cases b <;> rfl
theorem toNat_eq_zero (b : Bool) : (b.toNat == 0) = !b := by cases b <;> rfl

/-! ### ETA -/

theorem eta_spec (now : DateTime) (bv : Bits) (m : Arrival)
    (hm : m.month < 16 ∧ m.day < 32 ∧ m.hour < 32 ∧ m.minute < 64 ∧ m.draught < 256)
    (h1 : pickU64 bv 274 4 = m.month) (h2 : pickU64 bv 278 5 = m.day) (h3 : pickU64 bv 283 5 = m.hour)
    (h4 : pickU64 bv 288 6 = m.minute) (h5 : pickU64 bv 294 6 = m.draught / 4) :
    pickEta now bv 274 = if EtaAbsent m then .ok none
      else if IsDateTime (etaCandidate now m) then .ok (some (etaCandidate now m)) else .panic := by
  obtain ⟨a1, a2, a3, a4, a5⟩ := hm
  have u1 := asU32_lt m.month (by omega)
  have u2 := asU32_lt m.day (by omega)
  have u3 := asU32_lt m.hour (by omega)
  have u4 := asU32_lt m.minute (by omega)
  have u5 := asU32_lt (m.draught / 4) (by omega)
  simp only [pickEta, Nat.reduceAdd, h1, h2, h3, h4, h5, u1, u2, u3, u4, u5]
  by_cases ha : EtaAbsent m
  · rw [if_pos ha]
    exact if_pos ha
  · rw [if_neg ha]
    refine (if_neg ha).trans ?_
    have key : ∀ (h mi s : Nat), etaCandidate now m = ⟨now.year, if m.month = 0 then now.month else m.month,
          if m.day = 0 then now.day else m.day, h, mi, s⟩ →
        (match ymdHms (ε := Str) now.year (if m.month = 0 then now.month else m.month)
            (if m.day = 0 then now.day else m.day) h mi s with
          | .ok thisYear =>
            match ymdHms (ε := Str) now.year (if m.month = 0 then now.month else m.month)
              (if m.day = 0 then now.day else m.day) h mi s with
            | .ok nextYear => if now.le thisYear then .ok (some thisYear) else .ok (some nextYear)
            | .err e => .err e
            | .panic => .panic
          | .err e => .err e
          | .panic => .panic) =
        if IsDateTime (etaCandidate now m) then Out.ok (ε := Str) (some (etaCandidate now m)) else .panic := by
      intro h mi s hc
      rw [hc]
      split
      · rename_i t ht
        obtain ⟨rfl, hd⟩ := ymdHms_eq_ok _ _ _ _ _ _ _ ht
        rw [if_pos hd]
        simp
      · rename_i e ht
        by_cases hd : IsDateTime ⟨now.year, if m.month = 0 then now.month else m.month,
          if m.day = 0 then now.day else m.day, h, mi, s⟩
        · rw [ymdHms_ok _ _ _ _ _ _ hd] at ht; cases ht
        · rw [ymdHms_panic _ _ _ _ _ _ hd] at ht; cases ht
      · rename_i ht
        rw [if_neg]
        intro hd
        rw [ymdHms_ok _ _ _ _ _ _ hd] at ht; cases ht
    apply key
    unfold etaCandidate
    by_cases c1 : m.hour = 24 <;> by_cases c2 : m.minute = 60 <;> by_cases c3 : m.draught / 4 = 60 <;>
      simp [c1, c2, c3]

theorem eta_ok (now : DateTime) (m : Arrival) (h : EtaAbsent m ∨ IsDateTime (etaCandidate now m)) :
    (if EtaAbsent m then Out.ok (ε := Str) none
      else if IsDateTime (etaCandidate now m) then .ok (some (etaCandidate now m)) else .panic) =
    .ok (if EtaAbsent m then none else some (etaCandidate now m)) := by
  by_cases ha : EtaAbsent m
  · rw [if_pos ha, if_pos ha]
  · rw [if_neg ha, if_neg ha, if_pos (h.resolve_left ha)]

theorem navAid_eq (n : Nat) (h : n < 32) : some (navAidOrDefault (NavAidType.new n)) = navAidTable[n]? := by
  have : ∀ n : Fin 32, some (navAidOrDefault (NavAidType.new n.val)) = navAidTable[n.val]? := by decide +kernel
  exact this ⟨n, h⟩

theorem rounded_div (a b : Int) (ha : |a| ≤ 2 ^ 53) (hb : 0 < b) (hb' : b ≤ 2 ^ 53) :
    Rounded (a / b) (some (F64.div (F64.ofInt a) (F64.ofInt b))) := by
  rw [F64.div_ofInt a b ha hb hb']
  exact ⟨_, rfl, F64.ofRat_roundsTo _⟩

/-! ### Every message can be sent -/

theorem armorChar_ne_comma (v : Nat) (h : v < 64) : armorChar v ≠ ',' := by
  have : ∀ v : Fin 64, armorChar v.val ≠ ',' := by decide +kernel
  exact this ⟨v, h⟩

theorem armor_no_comma (bits : List Bool) : ',' ∉ armor bits := by
  fun_induction armor bits with
  | case1 b0 b1 b2 b3 b4 b5 rest ih =>
    simp only [List.mem_cons, not_or]
    exact ⟨(armorChar_ne_comma _ (bitsVal_lt [b0, b1, b2, b3, b4, b5])).symm, ih⟩
  | case2 => simp
  | case3 short h1 h2 =>
    have hl : short.length ≤ 6 := by
      rcases short with _ | ⟨a, _ | ⟨b, _ | ⟨c, _ | ⟨d, _ | ⟨e, _ | ⟨f, r⟩⟩⟩⟩⟩⟩
      case cons.cons.cons.cons.cons.cons => exact absurd rfl (h1 a b c d e f r)
      all_goals simp
    have hb := bitsVal_lt (short ++ List.replicate (6 - short.length) false)
    rw [List.length_append, List.length_replicate, Nat.add_sub_cancel' hl] at hb
    simp only [List.mem_singleton]
    exact (armorChar_ne_comma _ hb).symm

theorem single_aisSentence (talker : Str) (own : Bool) (bits : List Bool) (ht : Talker talker) :
    Single talker own (armor bits) (aisSentence talker own (armor bits)) := by
  have d1 : Dec 255 (c! "1") 1 := ⟨c! "1", .inl rfl, ⟨by decide, by decide⟩, by decide, by decide⟩
  refine ⟨_, 1, ⟨ht, ?_, by simp, .full, ?_, rfl⟩, d1, d1, rfl⟩
  · intro f hf
    simp only [List.mem_cons, List.not_mem_nil, or_false] at hf
    rcases hf with rfl | rfl | rfl | rfl | rfl | rfl
    · decide
    · decide
    · decide
    · decide
    · exact armor_no_comma bits
    · decide
  · intro h; cases h

/-! ### Type 24 -/

theorem nonEmpty_eq (s : Str) : nonEmpty s = optText s := rfl

theorem StaticA.name_eq (m : StaticA) (hm : m.Fits) (x : Bits)
    (hx : m.name.length < 20 ∨ ∃ k, x = List.replicate k false) : textAt (m.bits ++ x) 40 120 = m.name := by
  obtain ⟨hrep, hmm, hna⟩ := hm
  have l2 := length_textBits 20 m.name hna.1
  have hplain : textAt (m.bits ++ x) 40 20 = m.name := by
    unfold StaticA.bits
    exact field_t 4 rfl (by simp) hna
  rcases hx with hlt | ⟨k, rfl⟩
  · rw [← hplain]
    unfold textAt
    congr 1
    rw [textOf_eq, textOf_eq, show 120 = 20 + 100 from rfl, List.range_add, List.map_append, List.takeWhile_append, if_neg]
    intro hc
    have hlen : (textOf ((List.range 20).map fun k => pickU64 (m.bits ++ x) (40 + k * 6) 6)).length = 20 := by
      rw [textOf_eq, List.length_map, hc]; simp
    have hw : (List.range 20).map (fun k => pickU64 (m.bits ++ x) (40 + k * 6) 6) =
        m.name.map textCode ++ List.replicate (20 - m.name.length) 0 := by
      have := codes_textBits m.name (fun c hc => (hna.2.1 c hc).1) (6 * (20 - m.name.length)) (20 - m.name.length)
      rw [show m.name.length + (20 - m.name.length) = 20 by omega] at this
      rw [← this]
      apply List.map_congr_left
      intro j hj
      have hj := List.mem_range.mp hj
      rw [pickU64_window _ _ _ (by decide), pickU64_window _ _ _ (by decide), Nat.zero_add]
      congr 1
      unfold StaticA.bits
      rw [window_field_sub _ 4 x _ 40 (j * 6) 6 rfl (by simp) (by rw [l2]; omega)]
      rfl
    rw [hw, textOf_codes _ hna.2.1] at hlen
    omega
  · rw [textAt_zeros]
    have hp : PlainText 120 m.name := ⟨by have := hna.1; omega, hna.2⟩
    rw [← textAt_textBits 120 m.name hp]
    have he : textBits 120 m.name = textBits 20 m.name ++ List.replicate 600 false := by
      unfold textBits
      rw [List.append_assoc, List.replicate_append_replicate]
      congr 2
      have := hna.1
      omega
    rw [he, textAt_zeros]
    unfold StaticA.bits
    have : ∀ a b : Bits, a.length = 40 → textAt (a ++ b) 40 120 = textAt b 0 120 := by
      intro a b ha
      rw [textAt_append_right a b 40 120 (by omega), ha]
    simp only [List.flatten_cons, List.flatten_nil, List.append_nil]
    rw [← List.append_assoc, ← List.append_assoc, ← List.append_assoc, this _ _ (by simp)]

theorem StaticA.eval (m : StaticA) (hm : m.Fits) (own : Bool) (x : Bits)
    (hx : m.name.length < 20 ∨ ∃ k, x = List.replicate k false) (st : Station) (q : Parser) (env : Env) (ty : Str) :
    dispatchAis env ty (m.bits ++ x) st own q = t24Store (m.data own) q := by
  have hn := StaticA.name_eq m hm x hx
  obtain ⟨hrep, hmm, hna⟩ := hm
  have f0 : pickU64 (m.bits ++ x) 0 6 = 24 := by
    unfold StaticA.bits; exact field_u 0 rfl (by simp) (by decide) (by decide)
  have f2 : pickU64 (m.bits ++ x) 8 30 = m.mmsi := by
    unfold StaticA.bits; exact field_u 2 rfl (by simp) (by decide) hmm
  have f3 : pickU64 (m.bits ++ x) 38 2 = 0 := by
    unfold StaticA.bits; exact field_u 3 rfl (by simp) (by decide) (by decide)
  rw [dispatch_24 f0]
  have : t24Fields (m.bits ++ x) own true false = .ok (m.data own) := by
    simp only [t24Fields, liftErr_pickString, Out.ok_bind, if_true, Bool.false_eq_true, if_false, hn, f2]
    rw [asU32_lt _ (by omega)]
    rfl
  simp only [handleT24, f3, this]

theorem StaticB.eval (m : StaticB) (hm : m.Fits) (own : Bool) (x : Bits) (st : Station) (q : Parser) (env : Env)
    (ty : Str) : dispatchAis env ty (m.bits ++ x) st own q = t24Store (m.data own) q := by
  obtain ⟨hrep, hmm, hsh, hve, hmo, hse, hcs, hbo, hst, hpo, hsb, hsp⟩ := hm
  have l1 := length_textBits 3 m.vendor hve.1
  have l2 := length_textBits 7 m.callSign hcs.1
  unfold StaticB.bits
  have hdim : bitsVal (natBits 9 m.bow ++ (natBits 9 m.stern ++ (natBits 6 m.port ++ natBits 6 m.starboard))) =
      m.bow * 2 ^ 21 + m.stern * 2 ^ 12 + m.port * 2 ^ 6 + m.starboard := by
    simp only [bitsVal_append, List.length_append, length_natBits, bitsVal_natBits_lt 9 _ hbo, bitsVal_natBits_lt 9 _ hst,
      bitsVal_natBits_lt 6 _ hpo, bitsVal_natBits_lt 6 _ hsb]
    ring
  have hdimlt : m.bow * 2 ^ 21 + m.stern * 2 ^ 12 + m.port * 2 ^ 6 + m.starboard < 2 ^ 30 := by omega
  have fm : pickU64 ([natBits 6 24, natBits 2 m.repeatInd, natBits 30 m.mmsi, natBits 2 1, natBits 8 m.ship,
      textBits 3 m.vendor, natBits 4 m.model, natBits 20 m.serial, textBits 7 m.callSign, natBits 9 m.bow,
      natBits 9 m.stern, natBits 6 m.port, natBits 6 m.starboard, natBits 6 m.spare].flatten ++ x) 132 30 =
      m.bow * 2 ^ 21 + m.stern * 2 ^ 12 + m.port * 2 ^ 6 + m.starboard := by
    have e : [natBits 6 24, natBits 2 m.repeatInd, natBits 30 m.mmsi, natBits 2 1, natBits 8 m.ship,
      textBits 3 m.vendor, natBits 4 m.model, natBits 20 m.serial, textBits 7 m.callSign, natBits 9 m.bow,
      natBits 9 m.stern, natBits 6 m.port, natBits 6 m.starboard, natBits 6 m.spare].flatten =
      [natBits 6 24, natBits 2 m.repeatInd, natBits 30 m.mmsi, natBits 2 1, natBits 8 m.ship,
      textBits 3 m.vendor, natBits 4 m.model, natBits 20 m.serial, textBits 7 m.callSign,
      natBits 9 m.bow ++ (natBits 9 m.stern ++ (natBits 6 m.port ++ natBits 6 m.starboard)), natBits 6 m.spare].flatten := by
      simp
    rw [e, pickU64_window _ _ _ (by decide), window_field _ 9 x _ 132 30 rfl (by simp [l1, l2]) (by simp), hdim]
  generalize hfs : [natBits 6 24, _, _, _, _, _, _, _, _, _, _, _, _, _] = fs at fm ⊢
  have f0 : pickU64 (fs.flatten ++ x) 0 6 = 24 := by subst hfs; exact field_u 0 rfl (by simp) (by decide) (by decide)
  have f2 : pickU64 (fs.flatten ++ x) 8 30 = m.mmsi := by subst hfs; exact field_u 2 rfl (by simp) (by decide) hmm
  have f3 : pickU64 (fs.flatten ++ x) 38 2 = 1 := by subst hfs; exact field_u 3 rfl (by simp) (by decide) (by decide)
  have f4 : pickU64 (fs.flatten ++ x) 40 8 = m.ship := by subst hfs; exact field_u 4 rfl (by simp) (by decide) hsh
  have f5 : textAt (fs.flatten ++ x) 48 3 = m.vendor := by subst hfs; exact field_t 5 rfl (by simp) hve
  have f6 : pickU64 (fs.flatten ++ x) 66 4 = m.model := by subst hfs; exact field_u 6 rfl (by simp [l1]) (by decide) hmo
  have f7 : pickU64 (fs.flatten ++ x) 70 20 = m.serial := by
    subst hfs; exact field_u 7 rfl (by simp [l1]) (by decide) hse
  have f8 : textAt (fs.flatten ++ x) 90 7 = m.callSign := by subst hfs; exact field_t 8 rfl (by simp [l1]) hcs
  have f9 : pickU64 (fs.flatten ++ x) 132 9 = m.bow := by
    subst hfs; exact field_u 9 rfl (by simp [l1, l2]) (by decide) hbo
  have f10 : pickU64 (fs.flatten ++ x) 141 9 = m.stern := by
    subst hfs; exact field_u 10 rfl (by simp [l1, l2]) (by decide) hst
  have f11 : pickU64 (fs.flatten ++ x) 150 6 = m.port := by
    subst hfs; exact field_u 11 rfl (by simp [l1, l2]) (by decide) hpo
  have f12 : pickU64 (fs.flatten ++ x) 156 6 = m.starboard := by
    subst hfs; exact field_u 12 rfl (by simp [l1, l2]) (by decide) hsb
  rw [dispatch_24 f0]
  have : t24Fields (fs.flatten ++ x) own false true = .ok (m.data own) := by
    simp only [t24Fields, liftErr_pickString, Out.ok_bind, if_true, Bool.false_eq_true, if_false, f2, f4, f5, f6, f7, f8, f9,
      f10, f11, f12, fm]
    rw [asU32_lt _ (by omega), asU8_lt _ (by omega), asU8_lt _ (by omega), asU32_lt _ (by omega), asU16_lt _ (by omega),
      asU16_lt _ (by omega), asU16_lt _ (by omega), asU16_lt _ (by omega), asU32_lt _ (by omega), ship_eq _ hsh,
      cargo_eq _ hsh]
    rfl
  simp only [handleT24, f3, this]

end Nmea
