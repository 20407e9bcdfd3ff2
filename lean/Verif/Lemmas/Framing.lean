/-
Framing: checksum, tag, splitting into fields.
-/
import Verif.Model.Parse
import Verif.Spec.Sentence

namespace Nmea
open Spec

/-! ### Checksum -/

theorem foldl_xor (s : Str) (a : Nat) :
    s.foldl (fun acc c => acc ^^^ charAsU8 c) a = a ^^^ xorBytes s := by
  induction s generalizing a with
  | nil => simp [xorBytes]
  | cons c cs ih => rw [List.foldl_cons, ih, xorBytes, charAsU8, Nat.xor_assoc]

theorem checksum_eq (body : Str) : checksum body = xorBytes body.tail := by
  simp [checksum, foldl_xor]

theorem xorBytes_lt (s : Str) : xorBytes s < 256 := by
  induction s with
  | nil => simp [xorBytes]
  | cons c cs ih =>
    simp only [xorBytes]
    exact Nat.xor_lt_two_pow (n := 8) (Nat.mod_lt _ (by decide)) ih

theorem hexDigit_eq (n : Nat) (h : n < 16) : hexDigit n = hexDigits.getD n '?' := by
  have : ∀ n : Fin 16, hexDigit n = hexDigits.getD n '?' := by decide
  exact this ⟨n, h⟩

theorem hex2_checksum (body : Str) : hex2 (checksum body) = checksumText body := by
  have h := xorBytes_lt body.tail
  simp only [hex2, checksumText, checksum_eq]
  rw [hexDigit_eq _ (by omega), hexDigit_eq _ (by omega)]

/-! ### Cutting at the last star -/

theorem rsplitStar_none (s : Str) : rsplitStar s = none ↔ '*' ∉ s := by
  induction s with
  | nil => simp [rsplitStar]
  | cons c cs ih =>
    simp only [rsplitStar, List.mem_cons, not_or]
    cases h : rsplitStar cs with
    | none =>
      have h' := ih.mp h
      by_cases hc : c = '*'
      · simp [hc]
      · simp [hc, h', Ne.symm hc]
    | some r =>
      have : '*' ∈ cs := by
        apply Classical.byContradiction
        intro hn
        rw [ih.mpr hn] at h
        cases h
      simp [this]

theorem rsplitStar_append (a b : Str) (hb : '*' ∉ b) : rsplitStar (a ++ '*' :: b) = some (a, b) := by
  induction a with
  | nil => simp [rsplitStar, (rsplitStar_none b).mpr hb]
  | cons c cs ih => simp [rsplitStar, ih]

theorem rsplitStar_some (s a b : Str) (h : rsplitStar s = some (a, b)) :
    s = a ++ '*' :: b ∧ '*' ∉ b := by
  induction s generalizing a with
  | nil => simp [rsplitStar] at h
  | cons c cs ih =>
    simp only [rsplitStar] at h
    cases h' : rsplitStar cs with
    | none =>
      rw [h'] at h
      simp only [] at h
      split at h
      · rename_i hc
        simp only [Option.some.injEq, Prod.mk.injEq] at h
        obtain ⟨rfl, rfl⟩ := h
        exact ⟨by simp [hc], (rsplitStar_none _).mp h'⟩
      · cases h
    | some r =>
      rw [h'] at h
      obtain ⟨x, y⟩ := r
      simp only [Option.some.injEq, Prod.mk.injEq] at h
      obtain ⟨rfl, rfl⟩ := h
      obtain ⟨e, hn⟩ := ih x h'
      exact ⟨by simp [e], hn⟩

theorem splitChecksum_star (a b : Str) (hb : '*' ∉ b) : splitChecksum (a ++ '*' :: b) = (a, b) := by
  simp [splitChecksum, rsplitStar_append a b hb]

theorem splitChecksum_bare (a : Str) (ha : '*' ∉ a) : splitChecksum a = (a, []) := by
  simp [splitChecksum, (rsplitStar_none a).mpr ha]

/-- Every sentence is a body without star, or a body, a star and a star-free rest. -/
theorem star_cases (s : Str) : '*' ∉ s ∨ ∃ a b, s = a ++ '*' :: b ∧ '*' ∉ b := by
  cases h : rsplitStar s with
  | none => exact .inl ((rsplitStar_none s).mp h)
  | some r => exact .inr ⟨r.1, r.2, rsplitStar_some s r.1 r.2 h⟩

theorem star_not_mem_checksumText (body : Str) : '*' ∉ checksumText body := by
  have h := xorBytes_lt body.tail
  have key : ∀ n : Fin 16, hexDigits.getD n '?' ≠ '*' := by decide
  simp only [checksumText, List.mem_cons, List.not_mem_nil, or_false, not_or]
  exact ⟨(key ⟨_, by omega⟩).symm, (key ⟨_, by omega⟩).symm⟩

theorem checksumText_ne_nil (body : Str) : checksumText body ≠ [] := by simp [checksumText]

/-- A well-framed sentence is processed as its body. -/
theorem parse_finish (env : Env) (p : Parser) (body : Str) (e : Ending) (h : Framed body e) :
    parseSentence env p (finish body e) = parseBody env p body := by
  cases e with
  | bare => simp [parseSentence, finish, splitChecksum_bare body (h rfl)]
  | star => simp [parseSentence, finish, splitChecksum_star body [] (by simp)]
  | full =>
    simp [parseSentence, finish, splitChecksum_star body _ (star_not_mem_checksumText body),
      hex2_checksum]

/-- A body, a star and a star-free rest that is neither empty nor the checksum. -/
theorem parse_corrupted (env : Env) (p : Parser) (a b : Str) (hb : '*' ∉ b) (hne : b ≠ [])
    (hbad : b ≠ checksumText a) :
    parseSentence env p (a ++ '*' :: b) =
      (.err (.corruptedSentence (c! "Corrupted NMEA sentence: " ++ env.debugStr (checksumText a) ++
        c! " != " ++ env.debugStr b)), p) := by
  simp [parseSentence, splitChecksum_star a b hb, hex2_checksum, hne, Ne.symm hbad]

/-- Every sentence is well framed or carries a wrong checksum. -/
theorem framing_cases (s : Str) :
    (∃ body e, Framed body e ∧ s = finish body e) ∨
    (∃ a b, s = a ++ '*' :: b ∧ '*' ∉ b ∧ b ≠ [] ∧ b ≠ checksumText a) := by
  rcases star_cases s with h | ⟨a, b, rfl, hb⟩
  · exact .inl ⟨s, .bare, fun _ => h, rfl⟩
  · by_cases h1 : b = []
    · subst h1
      exact .inl ⟨a, .star, (fun h => by cases h), rfl⟩
    · by_cases h2 : b = checksumText a
      · subst h2
        exact .inl ⟨a, .full, (fun h => by cases h), rfl⟩
      · exact .inr ⟨a, b, rfl, hb, h1, h2⟩

/-! ### First comma -/

theorem beforeComma_none (s : Str) : beforeComma s = none ↔ ',' ∉ s := by
  induction s with
  | nil => simp [beforeComma]
  | cons c cs ih =>
    by_cases hc : c = ','
    · simp [beforeComma, hc]
    · simp [beforeComma, hc, ih, Ne.symm hc]

theorem beforeComma_append (a b : Str) (h : ',' ∉ a) : beforeComma (a ++ ',' :: b) = some a := by
  induction a with
  | nil => simp [beforeComma]
  | cons c cs ih =>
    simp only [List.mem_cons, not_or] at h
    simp [beforeComma, Ne.symm h.1, ih h.2]

theorem comma_cases (s : Str) : ',' ∉ s ∨ ∃ a b, s = a ++ ',' :: b ∧ ',' ∉ a := by
  induction s with
  | nil => exact .inl (by simp)
  | cons c cs ih =>
    by_cases hc : c = ','
    · exact .inr ⟨[], cs, by simp [hc], by simp⟩
    · rcases ih with h | ⟨a, b, rfl, ha⟩
      · exact .inl (by simp [h, Ne.symm hc])
      · exact .inr ⟨c :: a, b, by simp, by simp [ha, Ne.symm hc]⟩

/-! ### Splitting into fields -/

theorem splitChar_ne_nil (sep : Char) (s : Str) : splitChar sep s ≠ [] := by
  cases s with
  | nil => simp [splitChar]
  | cons c cs =>
    simp only [splitChar]
    split
    · simp
    · split <;> simp

theorem splitChar_plain (sep : Char) (s : Str) (h : sep ∉ s) : splitChar sep s = [s] := by
  induction s with
  | nil => rfl
  | cons c cs ih =>
    simp only [List.mem_cons, not_or] at h
    simp [splitChar, Ne.symm h.1, ih h.2]

theorem splitChar_append (sep : Char) (a b : Str) (h : sep ∉ a) :
    splitChar sep (a ++ sep :: b) = a :: splitChar sep b := by
  induction a with
  | nil => simp [splitChar]
  | cons c cs ih =>
    simp only [List.mem_cons, not_or] at h
    simp [splitChar, Ne.symm h.1, ih h.2]

theorem splitChar_join (tag : Str) (fs : List Str) (ht : ',' ∉ tag) (hf : CommaFree fs) :
    splitChar ',' (join tag fs) = tag :: fs := by
  induction fs generalizing tag with
  | nil => simp [join, splitChar_plain _ _ ht]
  | cons f fs ih =>
    have hf' : CommaFree fs := fun x hx => hf x (by simp [hx])
    have := ih f (hf f (by simp)) hf'
    simp only [join, List.map_cons, List.flatten_cons, List.cons_append]
    rw [splitChar_append _ _ _ ht]
    simp only [join] at this
    rw [this]

/-- Every text is the join of a comma-free head and comma-free fields. -/
theorem exists_join (s : Str) : ∃ tag fs, ',' ∉ tag ∧ CommaFree fs ∧ s = join tag fs := by
  induction s with
  | nil => exact ⟨[], [], by simp, by simp [CommaFree], rfl⟩
  | cons c cs ih =>
    obtain ⟨tag, fs, ht, hf, rfl⟩ := ih
    by_cases hc : c = ','
    · refine ⟨[], tag :: fs, by simp, ?_, by simp [join, hc]⟩
      intro x hx
      rcases List.mem_cons.mp hx with rfl | hx
      · exact ht
      · exact hf x hx
    · exact ⟨c :: tag, fs, by simp [ht, Ne.symm hc], hf, by simp [join]⟩

/-! ### Byte slices -/

theorem byteLen_nil : byteLen [] = 0 := rfl
theorem byteLen_cons (c : Char) (s : Str) : byteLen (c :: s) = c.utf8Size + byteLen s := by
  simp [byteLen]
theorem byteLen_append (a b : Str) : byteLen (a ++ b) = byteLen a + byteLen b := by
  simp [byteLen]

theorem dropBytes_append (a b : Str) : dropBytes (byteLen a) (a ++ b) = some b := by
  induction a with
  | nil => simp [byteLen_nil, dropBytes]
  | cons c cs ih =>
    rw [byteLen_cons]
    have hp := c.utf8Size_pos
    obtain ⟨k, hk⟩ : ∃ k, c.utf8Size + byteLen cs = k + 1 := ⟨c.utf8Size + byteLen cs - 1, by omega⟩
    rw [hk, List.cons_append, dropBytes]
    rw [if_pos (by omega)]
    rw [show k + 1 - c.utf8Size = byteLen cs by omega]
    exact ih

theorem takeBytes_append (a b : Str) : takeBytes (byteLen a) (a ++ b) = some a := by
  induction a with
  | nil => simp [byteLen_nil, takeBytes]
  | cons c cs ih =>
    rw [byteLen_cons]
    have hp := c.utf8Size_pos
    obtain ⟨k, hk⟩ : ∃ k, c.utf8Size + byteLen cs = k + 1 := ⟨c.utf8Size + byteLen cs - 1, by omega⟩
    rw [hk, List.cons_append, takeBytes]
    rw [if_pos (by omega)]
    rw [show k + 1 - c.utf8Size = byteLen cs by omega, ih]
    rfl

theorem dropBytes_some (n : Nat) (s r : Str) (h : dropBytes n s = some r) :
    ∃ a, s = a ++ r ∧ byteLen a = n := by
  induction s generalizing n with
  | nil =>
    cases n with
    | zero => simp [dropBytes] at h; exact ⟨[], by simp [h], rfl⟩
    | succ k => simp [dropBytes] at h
  | cons c cs ih =>
    cases n with
    | zero => simp [dropBytes] at h; exact ⟨[], by simp [h], rfl⟩
    | succ k =>
      simp only [dropBytes] at h
      split at h
      · obtain ⟨a, ha, hb⟩ := ih _ h
        exact ⟨c :: a, by simp [ha], by rw [byteLen_cons]; omega⟩
      · cases h

theorem takeBytes_some (n : Nat) (s r : Str) (h : takeBytes n s = some r) :
    ∃ b, s = r ++ b ∧ byteLen r = n := by
  induction s generalizing n r with
  | nil =>
    cases n with
    | zero => simp [takeBytes] at h; subst h; exact ⟨[], by simp, byteLen_nil⟩
    | succ k => simp [takeBytes] at h
  | cons c cs ih =>
    cases n with
    | zero => simp [takeBytes] at h; subst h; exact ⟨c :: cs, by simp, byteLen_nil⟩
    | succ k =>
      simp only [takeBytes] at h
      split at h
      · cases h' : takeBytes (k + 1 - c.utf8Size) cs with
        | none => simp [h'] at h
        | some r' =>
          simp [h'] at h
          subst h
          obtain ⟨b, hb, hl⟩ := ih _ _ h'
          exact ⟨b, by simp [hb], by rw [byteLen_cons]; omega⟩
      · cases h

/-- `&s[i..j]` succeeds exactly when both ends are character boundaries. -/
theorem slice_some (s r : Str) (i j : Nat) (hij : i ≤ j) :
    slice s i j = some r ↔ ∃ a b, s = a ++ r ++ b ∧ byteLen a = i ∧ byteLen r = j - i := by
  constructor
  · intro h
    simp only [slice] at h
    cases hd : dropBytes i s with
    | none => simp [hd] at h
    | some d =>
      simp [hd] at h
      obtain ⟨a, ha, hla⟩ := dropBytes_some _ _ _ hd
      obtain ⟨b, hb, hlb⟩ := takeBytes_some _ _ _ h
      exact ⟨a, b, by simp [ha, hb], hla, hlb⟩
  · rintro ⟨a, b, rfl, rfl, hr⟩
    simp only [slice, List.append_assoc]
    rw [dropBytes_append]
    simp only [Option.bind_some]
    rw [← hr]
    exact takeBytes_append r b

theorem byteLen_eq_zero (s : Str) : byteLen s = 0 ↔ s = [] := by
  cases s with
  | nil => simp [byteLen_nil]
  | cons c cs =>
    have := c.utf8Size_pos
    rw [byteLen_cons]
    simp; omega

/-! ### Tags -/

/-- A tag of lead, two-byte talker and three-byte kind is recognised and shortened. -/
theorem recognize_full {α : Type} (lead : Char) (hl : lead.utf8Size = 1) (table : Str → α)
    (talker kind : Str) (ht : byteLen talker = 2) (hk : byteLen kind = 3) :
    recognize lead table (lead :: talker ++ kind) = .ok (some (table talker), lead :: kind) := by
  have h1 : slice (lead :: talker ++ kind) 0 1 = some [lead] :=
    (slice_some _ _ _ _ (by decide)).mpr
      ⟨[], talker ++ kind, by simp, rfl, by simp [byteLen_cons, byteLen_nil, hl]⟩
  have h2 : slice (lead :: talker ++ kind) 1 3 = some talker :=
    (slice_some _ _ _ _ (by decide)).mpr
      ⟨[lead], kind, by simp, by rw [byteLen_cons, byteLen_nil, hl], ht⟩
  have h3 : slice (lead :: talker ++ kind) 3 6 = some kind :=
    (slice_some _ _ _ _ (by decide)).mpr
      ⟨lead :: talker, [], by simp, by simp [byteLen_cons, hl, ht], hk⟩
  have h4 : byteLen (lead :: talker ++ kind) = 6 := by
    rw [List.cons_append, byteLen_cons, byteLen_append]; omega
  simp only [List.cons_append] at *
  simp [recognize, h1, h2, h3, h4]

/-- A tag starting with another one-byte character is left alone. -/
theorem recognize_other {α : Type} (lead c : Char) (hc : c.utf8Size = 1) (hne : c ≠ lead)
    (table : Str → α) (rest : Str) :
    recognize lead table (c :: rest) = .ok (none, c :: rest) := by
  have h1 : slice (c :: rest) 0 1 = some [c] :=
    (slice_some _ _ _ _ (by decide)).mpr
      ⟨[], rest, by simp, rfl, by simp [byteLen_cons, byteLen_nil, hc]⟩
  simp [recognize, h1, hne]

theorem dollar_size : ('$' : Char).utf8Size = 1 := by decide
theorem bang_size : ('!' : Char).utf8Size = 1 := by decide

theorem comma_not_mem_tag (lead : Char) (talker kind : Str) (hl : lead ≠ ',') (ht : ',' ∉ talker)
    (hk : ',' ∉ kind) : ',' ∉ tag lead talker kind := by
  simp [tag, ht, hk, Ne.symm hl]

theorem join_cons (t f : Str) (fs : List Str) : join t (f :: fs) = t ++ ',' :: join f fs := by
  simp [join]

theorem parseBody_gnss (env : Env) (p : Parser) (talker kind : Str) (fs : List Str) (ht : Talker talker)
    (hfs : fs ≠ []) (hk : byteLen kind = 3) (hkc : ',' ∉ kind) :
    parseBody env p (join (tag '$' talker kind) fs) =
      dispatch env p ('$' :: kind) (join (tag '$' talker kind) fs) (some (navSystemOf talker)) none := by
  have hc : ',' ∉ tag '$' talker kind := comma_not_mem_tag _ _ _ (by decide) ht.2 hkc
  obtain ⟨f, fs, rfl⟩ := List.exists_cons_of_ne_nil hfs
  rw [join_cons]
  simp only [parseBody, beforeComma_append _ _ hc]
  simp only [tag]
  rw [recognize_full '$' dollar_size navSystemOf talker kind ht.1 hk]
  simp only []
  rw [recognize_other '!' '$' dollar_size (by decide)]

theorem parseBody_bang (env : Env) (p : Parser) (talker kind : Str) (fs : List Str) (ht : Talker talker)
    (hfs : fs ≠ []) (hk : byteLen kind = 3) (hkc : ',' ∉ kind) :
    parseBody env p (join (tag '!' talker kind) fs) =
      dispatch env p ('!' :: kind) (join (tag '!' talker kind) fs) none (some (stationOf talker)) := by
  have hc : ',' ∉ tag '!' talker kind := comma_not_mem_tag _ _ _ (by decide) ht.2 hkc
  obtain ⟨f, fs, rfl⟩ := List.exists_cons_of_ne_nil hfs
  rw [join_cons]
  simp only [parseBody, beforeComma_append _ _ hc]
  have : recognize '$' navSystemOf (tag '!' talker kind) = .ok (none, tag '!' talker kind) :=
    recognize_other '$' '!' bang_size (by decide) _ _
  rw [this]
  simp only [tag]
  rw [recognize_full '!' bang_size stationOf talker kind ht.1 hk]

/-! ### All shapes of a sentence -/

theorem tag_cases (ty : Str) (hc : ',' ∉ ty) : BadTag ty ∨ OddTag ty ∨
    (∃ lead talker kind, (lead = '$' ∨ lead = '!') ∧ Talker talker ∧ byteLen kind = 3 ∧ ',' ∉ kind ∧
      ty = tag lead talker kind) := by
  cases ty with
  | nil => exact .inl (.inl rfl)
  | cons c r =>
    by_cases h1 : c.utf8Size = 1
    · by_cases h2 : c = '$' ∨ c = '!'
      · by_cases h3 : ∃ a b, r = a ++ b ∧ byteLen a = 2
        · by_cases h4 : byteLen r < 5
          · exact .inl (.inr (.inr ⟨c, r, rfl, h2, .inl h4⟩))
          · by_cases h5 : 5 < byteLen r
            · exact .inr (.inl (.inr ⟨c, r, rfl, h2, h5, h3⟩))
            · obtain ⟨a, b, rfl, ha⟩ := h3
              rw [byteLen_append] at h4 h5
              simp only [List.mem_cons, List.mem_append, not_or] at hc
              exact .inr (.inr ⟨c, a, b, h2, ⟨ha, hc.2.1⟩, by omega, hc.2.2, rfl⟩)
        · exact .inl (.inr (.inr ⟨c, r, rfl, h2, .inr h3⟩))
      · exact .inr (.inl (.inl ⟨c, r, rfl, h1, fun h => h2 (.inl h), fun h => h2 (.inr h)⟩))
    · exact .inl (.inr (.inl ⟨c, r, rfl, h1⟩))

theorem slice_none_of (s : Str) (i j : Nat) (hij : i ≤ j)
    (h : ¬ ∃ a r b, s = a ++ r ++ b ∧ byteLen a = i ∧ byteLen r = j - i) : slice s i j = none := by
  cases hs : slice s i j with
  | none => rfl
  | some r =>
    obtain ⟨a, b, h1, h2, h3⟩ := (slice_some s r i j hij).mp hs
    exact absurd ⟨a, r, b, h1, h2, h3⟩ h

theorem append_byteLen_inj {a b a' b' : Str} (h : a ++ b = a' ++ b') (hl : byteLen a = byteLen a') :
    a = a' ∧ b = b' := by
  have h1 := dropBytes_append a b
  have h2 := dropBytes_append a' b'
  have h3 := takeBytes_append a b
  have h4 := takeBytes_append a' b'
  rw [h, hl] at h1 h3
  rw [h1] at h2
  rw [h3] at h4
  simp at h2 h4
  exact ⟨h4, h2⟩

theorem recognize_bad_lead {α : Type} (lead : Char) (hl : lead.utf8Size = 1) (table : Str → α) (r : Str)
    (h : byteLen r < 5 ∨ ¬ ∃ a b, r = a ++ b ∧ byteLen a = 2) :
    recognize lead table (lead :: r) = .panic := by
  have h1 : slice (lead :: r) 0 1 = some [lead] :=
    (slice_some _ _ _ _ (by decide)).mpr
      ⟨[], r, by simp, rfl, by simp [byteLen_cons, byteLen_nil, hl]⟩
  have cut : ∀ (a q b : Str), lead :: r = a ++ q ++ b → byteLen a = 1 → a = [lead] ∧ r = q ++ b := by
    intro a q b hh ha
    have := append_byteLen_inj (a := [lead]) (b := r) (a' := a) (b' := q ++ b) (by simpa using hh)
      (by simp [byteLen_cons, byteLen_nil, hl, ha])
    exact ⟨this.1.symm, this.2⟩
  simp only [recognize, h1, if_true]
  cases h2 : slice (lead :: r) 1 3 with
  | none => rfl
  | some talker =>
    obtain ⟨a, b, hab, ha, ht⟩ := (slice_some _ _ _ _ (by decide)).mp h2
    obtain ⟨rfl, hr⟩ := cut a talker b hab ha
    have hb2 : ∃ a b, r = a ++ b ∧ byteLen a = 2 := ⟨talker, b, hr, ht⟩
    have h5 : byteLen r < 5 := h.resolve_right (fun hn => hn hb2)
    simp only [byteLen_cons, hl]
    rw [if_pos (by omega)]
    rw [slice_none_of]
    · decide
    · rintro ⟨a, q, b', hq, ha', hq'⟩
      have : byteLen (lead :: r) = byteLen (a ++ q ++ b') := by rw [hq]
      rw [byteLen_cons, byteLen_append, byteLen_append] at this
      omega

theorem recognize_long {α : Type} (lead : Char) (hl : lead.utf8Size = 1) (table : Str → α) (r : Str)
    (h5 : 5 < byteLen r) (h : ∃ a b, r = a ++ b ∧ byteLen a = 2) :
    ∃ x, recognize lead table (lead :: r) = .ok (some x, lead :: r) := by
  have h1 : slice (lead :: r) 0 1 = some [lead] :=
    (slice_some _ _ _ _ (by decide)).mpr
      ⟨[], r, by simp, rfl, by simp [byteLen_cons, byteLen_nil, hl]⟩
  obtain ⟨a, b, rfl, ha⟩ := h
  have h2 : slice (lead :: (a ++ b)) 1 3 = some a :=
    (slice_some _ _ _ _ (by decide)).mpr
      ⟨[lead], b, by simp, by simp [byteLen_cons, byteLen_nil, hl], ha⟩
  refine ⟨table a, ?_⟩
  simp only [recognize, h1, if_true, h2, byteLen_cons, hl]
  rw [if_neg (by omega)]

theorem parseBody_noComma (env : Env) (p : Parser) (body : Str) (h : ',' ∉ body) :
    parseBody env p body = (.err (.invalidSentence (c! "Invalid NMEA sentence: " ++ body)), p) := by
  simp only [parseBody, (beforeComma_none body).mpr h]

theorem parseBody_badTag (env : Env) (p : Parser) (ty rest : Str) (hc : ',' ∉ ty) (h : BadTag ty) :
    parseBody env p (ty ++ ',' :: rest) = (.panic, p) := by
  simp only [parseBody, beforeComma_append _ _ hc]
  rcases h with rfl | ⟨c, r, rfl, h1⟩ | ⟨c, r, rfl, hl, h⟩
  · rfl
  · have : slice (c :: r) 0 1 = none := by
      apply slice_none_of _ _ _ (by decide)
      rintro ⟨a, q, b, hq, ha, hql⟩
      rw [byteLen_eq_zero] at ha
      subst ha
      cases q with
      | nil => simp [byteLen_nil] at hql
      | cons x q' =>
        simp at hq
        obtain ⟨rfl, -⟩ := hq
        rw [byteLen_cons] at hql
        have := c.utf8Size_pos
        omega
    simp [recognize, this]
  · rcases hl with rfl | rfl
    · rw [recognize_bad_lead '$' dollar_size _ _ h]
    · rw [recognize_other '$' '!' bang_size (by decide)]
      simp only []
      rw [recognize_bad_lead '!' bang_size _ _ h]

theorem dispatch_unknown (env : Env) (p : Parser) (ty body : Str) (nav : Option NavigationSystem)
    (station : Option Station)
    (h : ∀ lead kind, (lead = '$' ∨ lead = '!') → kind.length = 3 → byteLen kind = 3 → ty ≠ lead :: kind) :
    dispatch env p ty body nav station =
      (.err (.unsupportedSentenceType (c! "Unsupported sentence type: " ++ ty)), p) := by
  have h1 : ∀ k : Str, k.length = 3 → byteLen k = 3 → ty ≠ '$' :: k :=
    fun k hk hb => h '$' k (.inl rfl) hk hb
  have h2 : ∀ k : Str, k.length = 3 → byteLen k = 3 → ty ≠ '!' :: k :=
    fun k hk hb => h '!' k (.inr rfl) hk hb
  have hu : ty ∉ unimplementedTypes := by
    simp only [unimplementedTypes, List.mem_cons, List.not_mem_nil, or_false, not_or]
    refine ⟨?_, ?_, ?_, ?_, ?_, ?_, ?_, ?_, ?_, ?_⟩ <;> exact h1 _ rfl (by decide)
  have hv : ¬ (ty = c! "!VDM" ∨ ty = c! "!VDO") := by
    rintro (e | e)
    · exact h2 _ rfl (by decide) e
    · exact h2 _ rfl (by decide) e
  unfold dispatch
  rw [if_neg (h1 _ rfl (by decide)), if_neg (h1 _ rfl (by decide)), if_neg (h1 _ rfl (by decide)),
    if_neg (h1 _ rfl (by decide)), if_neg (h1 _ rfl (by decide)), if_neg (h1 _ rfl (by decide)),
    if_neg hu, if_neg hv]

theorem parseBody_oddTag (env : Env) (p : Parser) (ty rest : Str) (hc : ',' ∉ ty) (h : OddTag ty) :
    parseBody env p (ty ++ ',' :: rest) =
      (.err (.unsupportedSentenceType (c! "Unsupported sentence type: " ++ ty)), p) := by
  simp only [parseBody, beforeComma_append _ _ hc]
  rcases h with ⟨c, r, rfl, h1, h2, h3⟩ | ⟨c, r, rfl, hl, h5, h⟩
  · rw [recognize_other '$' c h1 h2]
    simp only []
    rw [recognize_other '!' c h1 h3]
    simp only []
    apply dispatch_unknown
    rintro lead kind (rfl | rfl) - - e
    · simp at e; exact h2 e.1
    · simp at e; exact h3 e.1
  · have hne : ∀ lead kind, (lead = '$' ∨ lead = '!') → kind.length = 3 → byteLen kind = 3 →
        c :: r ≠ lead :: kind := by
      intro lead kind _ _ hb e
      simp at e
      rw [e.2] at h5
      omega
    rcases hl with rfl | rfl
    · obtain ⟨x, hx⟩ := recognize_long '$' dollar_size navSystemOf r h5 h
      rw [hx]
      simp only []
      rw [recognize_other '!' '$' dollar_size (by decide)]
      exact dispatch_unknown _ _ _ _ _ _ hne
    · rw [recognize_other '$' '!' bang_size (by decide)]
      simp only []
      obtain ⟨x, hx⟩ := recognize_long '!' bang_size stationOf r h5 h
      rw [hx]
      exact dispatch_unknown _ _ _ _ _ _ hne

/-- Every sentence has one of six shapes. -/
inductive Shape (s : Str) : Prop where
  | corrupted (a b : Str) (h : s = a ++ '*' :: b) (h1 : '*' ∉ b) (h2 : b ≠ []) (h3 : b ≠ checksumText a)
  | noComma (body : Str) (e : Ending) (hf : Framed body e) (h : s = finish body e) (h1 : ',' ∉ body)
  | badTag (ty rest : Str) (e : Ending) (hf : Framed (ty ++ ',' :: rest) e)
      (h : s = finish (ty ++ ',' :: rest) e) (h1 : ',' ∉ ty) (h2 : BadTag ty)
  | oddTag (ty rest : Str) (e : Ending) (hf : Framed (ty ++ ',' :: rest) e)
      (h : s = finish (ty ++ ',' :: rest) e) (h1 : ',' ∉ ty) (h2 : OddTag ty)
  | dollar (talker kind : Str) (fs : List Str) (hk : byteLen kind = 3) (hc : ',' ∉ kind)
      (h : IsGnss talker kind fs s)
  | bang (talker kind : Str) (fs : List Str) (hk : byteLen kind = 3) (hc : ',' ∉ kind)
      (h : IsTagged '!' talker kind fs s)

theorem shape (s : Str) : Shape s := by
  rcases framing_cases s with ⟨body, e, hf, h⟩ | ⟨a, b, h, h1, h2, h3⟩
  · rcases comma_cases body with hc | ⟨ty, rest, rfl, hty⟩
    · exact .noComma body e hf h hc
    · rcases tag_cases ty hty with hb | ho | ⟨lead, talker, kind, hl, ht, hk, hkc, rfl⟩
      · exact .badTag ty rest e hf h hty hb
      · exact .oddTag ty rest e hf h hty ho
      · obtain ⟨f, fs, hf1, hf2, rfl⟩ := exists_join rest
        have key : IsTagged lead talker kind (f :: fs) s := by
          refine ⟨ht, ?_, by simp, e, ?_, ?_⟩
          · intro x hx
            rcases List.mem_cons.mp hx with rfl | hx
            · exact hf1
            · exact hf2 x hx
          · rw [join_cons]; exact hf
          · rw [join_cons]; exact h
        rcases hl with rfl | rfl
        · exact .dollar talker kind (f :: fs) hk hkc key
        · exact .bang talker kind (f :: fs) hk hkc key
  · exact .corrupted a b h h1 h2 h3

/-! ### Evaluation per shape -/

theorem eval_dollar (env : Env) (p : Parser) (talker kind : Str) (fs : List Str) (s : Str)
    (hk : byteLen kind = 3) (hc : ',' ∉ kind) (h : IsGnss talker kind fs s) :
    parseSentence env p s =
      dispatch env p ('$' :: kind) (join (tag '$' talker kind) fs) (some (navSystemOf talker)) none := by
  obtain ⟨ht, hcf, hne, e, hf, rfl⟩ := h
  rw [parse_finish _ _ _ _ hf, parseBody_gnss _ _ _ _ _ ht hne hk hc]

theorem eval_bang (env : Env) (p : Parser) (talker kind : Str) (fs : List Str) (s : Str)
    (hk : byteLen kind = 3) (hc : ',' ∉ kind) (h : IsTagged '!' talker kind fs s) :
    parseSentence env p s =
      dispatch env p ('!' :: kind) (join (tag '!' talker kind) fs) none (some (stationOf talker)) := by
  obtain ⟨ht, hcf, hne, e, hf, rfl⟩ := h
  rw [parse_finish _ _ _ _ hf, parseBody_bang _ _ _ _ _ ht hne hk hc]

theorem aisKind_len (own : Bool) : byteLen (aisKind own) = 3 := by cases own <;> decide
theorem aisKind_noComma (own : Bool) : ',' ∉ aisKind own := by cases own <;> decide

theorem eval_ais (env : Env) (p : Parser) (talker : Str) (own : Bool) (fs : List Str) (s : Str)
    (h : IsAis talker own fs s) :
    parseSentence env p s =
      handleVdm env ('!' :: aisKind own) (join (tag '!' talker (aisKind own)) fs) (stationOf talker) p := by
  rw [eval_bang env p talker _ fs s (aisKind_len own) (aisKind_noComma own) h]
  cases own <;> simp [dispatch, aisKind, unimplementedTypes]

theorem splitChar_tag (lead : Char) (talker kind : Str) (fs : List Str) (hl : lead ≠ ',')
    (ht : Talker talker) (hk : ',' ∉ kind) (hf : CommaFree fs) :
    splitChar ',' (join (tag lead talker kind) fs) = tag lead talker kind :: fs :=
  splitChar_join _ _ (comma_not_mem_tag _ _ _ hl ht.2 hk) hf

end Nmea
