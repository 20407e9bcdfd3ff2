/-
C38-C43: payload armoring, bit fields, text fields, message length.
-/
import Verif.Lemmas.Layout
import Verif.Lemmas.Pending
import Verif.Spec.Demo

namespace Nmea
open Spec

/-- C38: armoring is undone exactly, in both build profiles. -/
theorem C38_armor_roundtrip (overflowChecks : Bool) (bits : List Bool) (h : bits.length % 6 = 0) :
    parsePayload overflowChecks (armor bits) = .ok bits := by
  rw [parsePayload_armor]
  simp [fillBits, h]

/-- Twelve bits. -/
example : armor (natBits 12 0x0AB) = c! "2c" ∧ parsePayload true (c! "2c") = .ok (natBits 12 0x0AB) :=
  ⟨by decide, C38_armor_roundtrip true (natBits 12 0x0AB) (by decide)⟩

/-- C38, for any length: the last group is filled up with zero bits. -/
theorem C38_armor_fill (overflowChecks : Bool) (bits : List Bool) :
    ∃ k, k < 6 ∧ (bits.length + k) % 6 = 0 ∧
      parsePayload overflowChecks (armor bits) = .ok (bits ++ List.replicate k false) :=
  ⟨fillBits bits.length, by unfold fillBits; omega, by unfold fillBits; omega, parsePayload_armor _ _⟩

/-- Eight bits take two characters, with four zero bits at the end. -/
example : armor (natBits 8 0xAB) = c! "bh" ∧ ∃ k, k < 6 ∧ ((natBits 8 0xAB).length + k) % 6 = 0 ∧
    parsePayload true (c! "bh") = .ok (natBits 8 0xAB ++ List.replicate k false) :=
  ⟨by decide, C38_armor_fill true (natBits 8 0xAB)⟩

/-- The 64 characters used in payloads, in the order of their values. -/
def payloadAlphabet : Str := c! "0123456789:;<=>?@ABCDEFGHIJKLMNOPQRSTUVW`abcdefghijklmnopqrstuvw"

/-- C38: each of the 64 characters stands for its own six-bit value. -/
theorem C38_characters (overflowChecks : Bool) (v : Nat) (h : v < 64) :
    payloadAlphabet[v]? = some (armorChar v) ∧
      parsePayload overflowChecks [armorChar v] = .ok (natBits 6 v) := by
  refine ⟨?_, ?_⟩
  · have : ∀ v : Fin 64, payloadAlphabet[v.val]? = some (armorChar v) := by decide +kernel
    exact this ⟨v, h⟩
  · rw [parsePayload_cons_ok overflowChecks _ [] v [] (armorValue_armorChar _ v h) rfl, List.append_nil]

/-- The character with the value 40 is the first one after the gap in the alphabet. -/
example : payloadAlphabet[40]? = some '`' ∧ parsePayload false (c! "`") = .ok [true, false, true, false, false, false] :=
  C38_characters false 40 (by decide)

/-- C38: concatenated payloads decode to concatenated bits. -/
theorem C38_concat (overflowChecks : Bool) (s t : Str) (a b : List Bool)
    (ha : parsePayload overflowChecks s = .ok a) (hb : parsePayload overflowChecks t = .ok b) :
    parsePayload overflowChecks (s ++ t) = .ok (a ++ b) :=
  parsePayload_append _ _ _ _ _ ha hb

example : parsePayload true (c! "w7") = .ok [true, true, true, true, true, true, false, false, false, true, true, true] ∧
    parsePayload true (c! "b0") = .ok [true, false, true, false, true, false, false, false, false, false, false, false] := by
  decide

/-- C38: every payload over the alphabet decodes, to the values of its characters. -/
theorem C38_alphabet_total (overflowChecks : Bool) (s : Str) (h : ∀ c ∈ s, c ∈ payloadAlphabet) :
    ∃ vs : List Nat, (∀ v ∈ vs, v < 64) ∧ s = vs.map armorChar ∧
      parsePayload overflowChecks s = .ok ((vs.map (natBits 6)).flatten) := by
  induction s with
  | nil => exact ⟨[], by simp, rfl, rfl⟩
  | cons c cs ih =>
    obtain ⟨vs, h1, h2, h3⟩ := ih (fun x hx => h x (by simp [hx]))
    have hc := h c (by simp)
    obtain ⟨v, hv, hvc⟩ : ∃ v, v < 64 ∧ c = armorChar v := by
      obtain ⟨v, hlt, hv⟩ := List.mem_iff_getElem.mp hc
      have hlt' : v < 64 := hlt
      refine ⟨v, hlt', ?_⟩
      have := (C38_characters true v hlt').1
      rw [List.getElem?_eq_getElem hlt] at this
      rw [← hv]
      simpa using this
    refine ⟨v :: vs, ?_, by simp [hvc, h2], ?_⟩
    · intro x hx
      rcases List.mem_cons.mp hx with rfl | hx
      · exact hv
      · exact h1 x hx
    · rw [parsePayload_cons_ok overflowChecks c cs v _ (by rw [hvc]; exact armorValue_armorChar _ v hv) h3]
      simp

example : ∀ c ∈ c! "15RTgt0PAso;90TKcjM8h6g208CQ", c ∈ payloadAlphabet := by decide

/-- C39: an unsigned field is the big-endian value of its bits, missing bits counting as zero, and is below
`2^len`. -/
theorem C39_unsigned_field (bv : List Bool) (i len : Nat) (h : len ≤ 64) :
    pickU64 bv i len = bitsVal (window bv i len) ∧ pickU64 bv i len < 2 ^ len :=
  ⟨pickU64_window bv i len h, pickU64_lt bv i len h⟩

/-- Seven bits, of which three are there. -/
example : pickU64 [false, true, false, true, true] 2 7 = bitsVal [false, true, true, false, false, false, false] ∧
    pickU64 [false, true, false, true, true] 2 7 < 2 ^ 7 := C39_unsigned_field _ 2 7 (by decide)

/-- C39: reading back a field written with `natBits` anywhere in a message. -/
theorem C39_read_back (a b : List Bool) (w n : Nat) (hw : w ≤ 64) (hn : n < 2 ^ w) :
    pickU64 (a ++ natBits w n ++ b) a.length w = n := by
  rw [List.append_assoc, pickU64_append_right _ _ _ _ (Nat.le_refl _), Nat.sub_self,
    pickU64_append_left _ _ _ _ (by simp), pickU64_natBits w n hw, Nat.mod_eq_of_lt hn]

example : (30 : Nat) ≤ 64 ∧ 227006760 < 2 ^ 30 := by decide

/-- C40: a signed field is the two's complement value of its bits, within its range. -/
theorem C40_signed_field (bv : List Bool) (i len : Nat) (h1 : 1 ≤ len) (h2 : len ≤ 63) :
    pickI64 bv i len = signedVal (window bv i len) ∧
      -(2 ^ (len - 1) : Int) ≤ pickI64 bv i len ∧ pickI64 bv i len < 2 ^ (len - 1) := by
  rw [pickI64_window bv i len h1 h2]
  have hl := length_window bv i len
  have := signedVal_bounds (window bv i len) (fun h => by rw [h] at hl; simp at hl; omega)
  rw [hl] at this
  exact ⟨rfl, this⟩

/-- Four bits with the sign bit set. -/
example : pickI64 [false, true, false, true, true] 1 4 = signedVal [true, false, true, true] ∧
    signedVal [true, false, true, true] = -5 := ⟨(C40_signed_field _ 1 4 (by decide) (by decide)).1, by decide⟩

/-- C40: reading back a field written with `intBits` anywhere in a message. -/
theorem C40_read_back (a b : List Bool) (w : Nat) (z : Int) (h1 : 1 ≤ w) (h2 : w ≤ 63)
    (hz1 : -(2 ^ (w - 1) : Int) ≤ z) (hz2 : z < 2 ^ (w - 1)) :
    pickI64 (a ++ intBits w z ++ b) a.length w = z := by
  rw [List.append_assoc, pickI64_append_right _ _ _ _ (Nat.le_refl _), Nat.sub_self,
    pickI64_append_left _ _ _ _ (by simp), pickI64_intBits w z h1 h2 hz1 hz2]

example : (1 : Nat) ≤ 28 ∧ 28 ≤ 63 ∧ -(2 ^ (28 - 1) : Int) ≤ -41000000 ∧ (-41000000 : Int) < 2 ^ (28 - 1) := by
  decide

/-- C41: decoding the six-bit encoding of a plain text gives the text back, anywhere in a message. -/
theorem C41_text_roundtrip (a b : List Bool) (n : Nat) (s : Str) (h : PlainText n s) :
    pickString (a ++ textBits n s ++ b) a.length n = .ok s := by
  rw [pickString_textAt, List.append_assoc, textAt_append_right _ _ _ _ (Nat.le_refl _), Nat.sub_self,
    textAt_append_left _ _ _ _ (by rw [length_textBits n s h.1]; omega), textAt_textBits n s h]

example : PlainText 20 (c! "M.V. AURORA (2) #7") := by
  refine ⟨by decide, ?_, by decide⟩
  unfold InAlphabet
  decide

/-- C41: every decoded text is plain. -/
theorem C41_text_plain (bv : List Bool) (i n : Nat) :
    ∃ s, pickString bv i n = .ok s ∧ PlainText n s :=
  ⟨_, pickString_textAt bv i n, textAt_plain bv i n⟩

/-- Bits that are no text written by anyone: an at sign first, then a letter. -/
example : ∃ s, pickString (natBits 6 0 ++ natBits 6 1) 0 2 = .ok s ∧ PlainText 2 s := C41_text_plain _ 0 2

/-- C42: `0` characters appended to the payload of an unfragmented sentence change nothing. -/
theorem C42_zero_padding (env : Env) (p : Parser) (talker : Str) (own : Bool) (payload : Str) (k : Nat)
    (s s' : Str) (hs : Single talker own payload s)
    (hs' : Single talker own (payload ++ List.replicate k '0') s') :
    parseSentence env p s' = parseSentence env p s := by
  rw [eval_Single _ _ _ _ _ _ hs, eval_Single _ _ _ _ _ _ hs', complete_append_zeros]

/-- A short payload, and the same with two more zero characters. -/
example (env : Env) (p : Parser) : parseSentence env p (c! "!AIVDM,1,1,,A,15RTgt0P00,0") =
    parseSentence env p (c! "!AIVDM,1,1,,A,15RTgt0P,0") :=
  C42_zero_padding env p (c! "AI") false (c! "15RTgt0P") 2 _ _
    (demoAlone [c! "1", c! "1", [], c! "A", c! "15RTgt0P", c! "0"] .bare (by decide) (by decide))
    (demoAlone [c! "1", c! "1", [], c! "A", c! "15RTgt0P00", c! "0"] .bare (by decide) (by decide))

/-- C42: the same for part 2 of a message whose part 1 is pending. -/
theorem C42_zero_padding_part2 (env : Env) (p : Parser) (talker : Str) (own : Bool) (id : Nat) (chan a b : Str)
    (k : Nat) (s s' : Str) (hs : Part talker own 2 id chan b s)
    (hs' : Part talker own 2 id chan (b ++ List.replicate k '0') s') (ha : pendingPart p own 1 id chan = some a) :
    parseSentence env p s' = parseSentence env p s := by
  rw [eval_part2 env p talker own id chan _ s hs, eval_part2 env p talker own id chan _ s' hs', joinPart, joinPart,
    show p.savedFragments.get (partKey own 1 id chan) = some a from ha]
  simp only
  rw [← List.append_assoc, complete_append_zeros]

example : ∃ p, pendingPart p false 1 3 (c! "B") = some (c! "55P5TL01VIaAL@7WKO@mBplU@<PDhh000000001S;AJ::4A80?4i@E53") ∧
    Part (c! "AI") false 2 3 (c! "B") (c! "1@" ++ List.replicate 2 '0') (c! "!AIVDM,2,2,3,B,1@00,2") := by
  refine ⟨(parseSentence demoEnv Parser.new
    (c! "!AIVDM,2,1,3,B,55P5TL01VIaAL@7WKO@mBplU@<PDhh000000001S;AJ::4A80?4i@E53,0*3E")).2, by decide +kernel, ?_⟩
  exact ⟨[c! "2", c! "2", c! "3", c! "B", c! "1@00", c! "2"], demoTagged .bare ⟨by decide, by decide, by decide, by decide, rfl⟩,
    demoDec (by decide), demoDec (by decide), demoDec (by decide), rfl, rfl⟩

/-- C42 does not extend to part 1: padding it shifts the bits of part 2. -/
theorem C42_part1_counterexample :
    (parseSentence demoEnv (parseSentence demoEnv Parser.new (c! "!AIVDM,2,2,3,B,13HOI:8iisoatD,0")).2
        (c! "!AIVDM,2,1,3,B,0,0")).1 ≠
      (parseSentence demoEnv (parseSentence demoEnv Parser.new (c! "!AIVDM,2,2,3,B,13HOI:8iisoatD,0")).2
        (c! "!AIVDM,2,1,3,B,,0")).1 := by
  decide +kernel

/-- C42: a truncated message is read as if followed by zero bits. -/
theorem C42_truncated (env : Env) (p : Parser) (talker : Str) (own : Bool) (bits : List Bool) (k : Nat)
    (s s' : Str) (hs : Single talker own (armor bits) s)
    (hs' : Single talker own (armor (bits ++ List.replicate k false)) s') :
    parseSentence env p s' = parseSentence env p s := by
  rw [eval_armored _ _ _ _ _ _ hs, eval_armored _ _ _ _ _ _ hs', dispatchAis_zeros]

/-- A sentence with a short payload, and the same with two more zero characters. -/
example : Single (c! "AI") false (c! "15RTgt0P") (c! "!AIVDM,1,1,,A,15RTgt0P,0") ∧
    Single (c! "AI") false (c! "15RTgt0P" ++ List.replicate 2 '0') (c! "!AIVDM,1,1,,A,15RTgt0P00,0") := by
  have dec1 : Dec 255 (c! "1") 1 :=
    ⟨c! "1", .inl rfl, ⟨by decide, by decide⟩, by decide, by decide⟩
  have tk : Talker (c! "AI") := by unfold Talker; decide
  refine ⟨⟨[c! "1", c! "1", [], c! "A", c! "15RTgt0P", c! "0"], 1, ⟨tk, ?_, by simp, .bare, ?_, rfl⟩, dec1, dec1, rfl⟩,
    ⟨[c! "1", c! "1", [], c! "A", c! "15RTgt0P00", c! "0"], 1, ⟨tk, ?_, by simp, .bare, ?_, rfl⟩, dec1, dec1, rfl⟩⟩
  · unfold CommaFree; decide
  · unfold Framed; decide
  · unfold CommaFree; decide
  · unfold Framed; decide

/-- C43: bits beyond the layout of the message type are ignored. -/
theorem C43_extra_bits_ignored (env : Env) (p : Parser) (talker : Str) (own : Bool)
    (pre x y : List Bool) (s s' : Str)
    (hlen : layoutBits (typeOf pre) (partOf pre) ≤ pre.length)
    (hs : Single talker own (armor (pre ++ x)) s) (hs' : Single talker own (armor (pre ++ y)) s') :
    parseSentence env p s' = parseSentence env p s := by
  rw [eval_armored _ _ _ _ _ _ hs, eval_armored _ _ _ _ _ _ hs']
  have h6 : 6 ≤ pre.length := by
    refine Nat.le_trans ?_ hlen
    unfold layoutBits
    split <;> (try split) <;> omega
  have w : ∀ z : List Bool, window (pre ++ z) 0 pre.length = window pre 0 pre.length :=
    fun z => window_append_left pre z 0 _ (by omega)
  have ht : pickU64 (pre ++ y) 0 6 = typeOf pre := by
    rw [pickU64_append_left _ _ _ _ (by omega), pickU64_window _ _ _ (by decide)]; rfl
  apply dispatchAis_congr _ _ _ _ _ _ _ pre.length
  · rw [w y, w x]
  · exact h6
  · rw [ht]
    by_cases h24 : typeOf pre = 24
    · have hp : pickU64 (pre ++ y) 38 2 = partOf pre := by
        have : 40 ≤ pre.length := by
          rw [h24] at hlen
          simp only [layoutBits] at hlen
          split at hlen <;> omega
        rw [pickU64_append_left _ _ _ _ (by omega), pickU64_window _ _ _ (by decide)]; rfl
      rw [hp]; exact hlen
    · have : ∀ a b, layoutBits (typeOf pre) a = layoutBits (typeOf pre) b := by
        intro a b; unfold layoutBits; split <;> first | rfl | exact absurd ‹_› h24
      rw [this _ (partOf pre)]; exact hlen

/-- A 72-bit prefix of a type 10 message, which has 70 used bits. -/
example : layoutBits (typeOf (natBits 6 10 ++ natBits 66 0)) (partOf (natBits 6 10 ++ natBits 66 0)) = 70 ∧
    70 ≤ (natBits 6 10 ++ natBits 66 0).length := by
  decide +kernel

end Nmea
