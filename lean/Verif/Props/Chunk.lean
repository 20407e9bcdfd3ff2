/-
C129: several sentences in one call.
-/
import Verif.Props.Damage
import Verif.Spec.Chunk

namespace Nmea
open Spec

theorem chunk_eq (t : Str) : ∀ (bs : List Str) (b : Str),
    chunk t (b :: bs) = chunkBody t (b :: bs) ++ '*' :: checksumText ((b :: bs).getLast (by simp))
  | [], b => rfl
  | b' :: bs, b => by
    have := chunk_eq t bs b'
    rw [chunk, chunkBody, this]
    · simp
    · simp
    · simp

theorem chunkBody_ne (t : Str) (b : Str) (bs : List Str) (h : b ≠ []) : chunkBody t (b :: bs) ≠ [] := by
  cases bs <;> simp [chunkBody, h]

theorem chunkBody_take (t : Str) (b : Str) (bs : List Str) (h : b ≠ []) : (chunkBody t (b :: bs)).take 1 = b.take 1 := by
  cases b with
  | nil => exact absurd rfl h
  | cons c b => cases bs <;> simp [chunkBody]

theorem xorBytes_split (s : Str) : xorBytes s = xorBytes (s.take 1) ^^^ xorBytes s.tail := by
  cases s <;> simp [xorBytes]

theorem xor_chunkBody (t : Str) : ∀ (bs : List Str) (b : Str), (∀ x ∈ b :: bs, x ≠ []) →
    xorBytes (chunkBody t (b :: bs)).tail = residue t (b :: bs) ^^^ xorBytes ((b :: bs).getLast (by simp)).tail
  | [], b, _ => by simp [chunkBody, residue]
  | b' :: bs, b, h => by
    have hb : b ≠ [] := h b (by simp)
    have hb' : b' ≠ [] := h b' (by simp)
    have ih := xor_chunkBody t bs b' fun x hx => h x (List.mem_cons_of_mem _ hx)
    have e : (chunkBody t (b :: b' :: bs)).tail =
        b.tail ++ '*' :: (checksumText b ++ (t ++ chunkBody t (b' :: bs))) := by
      rw [chunkBody]
      · cases b with
        | nil => exact absurd rfl hb
        | cons c b => rfl
      · simp
    rw [e, residue, List.getLast_cons (by simp), Nat.xor_assoc, ← ih]
    simp only [xorBytes_append, xorBytes]
    rw [xorBytes_split (chunkBody t (b' :: bs)), chunkBody_take t b' bs hb']
    simp only [Nat.xor_assoc]

/-- C129: sentences with checksums, joined by `t` in one call, are refused as corrupted (and nothing happens) exactly if the
residue is not 0. Otherwise they are taken for one sentence. -/
theorem C129_chunk (env : Env) (p : Parser) (t : Str) (b : Str) (bs : List Str) (h : ∀ x ∈ b :: bs, x ≠ []) :
    (residue t (b :: bs) ≠ 0 → ∃ msg, parseSentence env p (chunk t (b :: bs)) = (.err (.corruptedSentence msg), p)) ∧
    (residue t (b :: bs) = 0 → parseSentence env p (chunk t (b :: bs)) =
      parseSentence env p (chunkBody t (b :: bs) ++ ['*']) ∧
      ¬ ∃ msg, (parseSentence env p (chunk t (b :: bs))).1 = .err (.corruptedSentence msg)) := by
  have e := chunk_eq t bs b
  have x := xor_chunkBody t bs b h
  have c := C116_exact env p ((b :: bs).getLast (by simp)) (chunkBody t (b :: bs))
  constructor
  · intro hr
    rw [e]
    refine c.2 fun h' => hr ?_
    rw [x] at h'
    have := congrArg (· ^^^ xorBytes ((b :: bs).getLast (by simp)).tail) h'
    simpa [Nat.xor_assoc] using this
  · intro hr
    rw [hr, Nat.zero_xor] at x
    rw [e, c.1 x, C03_star_and_full_agree]
    refine ⟨rfl, ?_⟩
    rw [← C03_star_and_full_agree, C02_corrupted_iff]
    rintro ⟨a, d, h1, h2, -, h4⟩
    have e1 := splitChecksum_star a d h2
    rw [← h1, splitChecksum_star _ _ (star_not_mem_checksumText _)] at e1
    cases e1
    exact h4 rfl

/-- Three sentences; the first two are the same. -/
example : residue (c! "\r\n") [c! "$GPVTG,1", c! "$GPVTG,1", c! "$GPGLL,2"] = 0 ∧
    residue (c! "\r\n") [c! "$GPVTG,1", c! "$GPVTG,2", c! "$GPGLL,2"] ≠ 0 := by decide +kernel

/-! ### Two sentences -/

theorem residue_two (t : Str) (a b : Str) (c : Char) (hb : b.head? = some c) : residue t [a, b] =
    xorBytes a.tail ^^^ (42 ^^^ (xorBytes (checksumText a) ^^^ (xorBytes t ^^^ c.toNat % 256))) := by
  cases b with
  | nil => cases hb
  | cons d b =>
    cases hb
    simp [residue, xorBytes_append, xorBytes]

/-- C129: two sentences with checksums in one call. If CR LF is between them they are refused as corrupted, except that the
second one starts with `!` and the checksum of the first one is 7A or 7E. With LF between them they are always refused; with
nothing between them they are refused, except that the second one starts with `$` and the checksum of the first one is 7B,
7D or 7F. -/
theorem C129_two (env : Env) (p : Parser) (a b : Str) (c : Char) (ha : a ≠ []) (hb : b.head? = some c)
    (hc : c = '$' ∨ c = '!') (t : Str) (ht : t = c! "\r\n" ∨ t = c! "\n" ∨ t = []) :
    (∃ msg, (parseSentence env p (chunk t [a, b])).1 = .err (.corruptedSentence msg)) ↔
      ¬ ((t = c! "\r\n" ∧ c = '!' ∧ (checksumText a = c! "7A" ∨ checksumText a = c! "7E")) ∨
        (t = [] ∧ c = '$' ∧ (checksumText a = c! "7B" ∨ checksumText a = c! "7D" ∨ checksumText a = c! "7F"))) := by
  have hbn : b ≠ [] := by rintro rfl; cases hb
  obtain ⟨h1, h2⟩ := C129_chunk env p t a [b] (by simp [ha, hbn])
  have h3 : (∃ msg, (parseSentence env p (chunk t [a, b])).1 = .err (.corruptedSentence msg)) ↔ residue t [a, b] ≠ 0 :=
    ⟨fun h hr => (h2 hr).2 h, fun hr => (h1 hr).imp fun _ h => by rw [h]⟩
  rw [h3, residue_two t a b c hb]
  have hn := xorBytes_lt a.tail
  simp only [checksumText]
  generalize xorBytes a.tail = n at hn
  revert n
  rcases hc with rfl | rfl <;> rcases ht with rfl | rfl | rfl <;> decide +kernel

/-- Two AIS sentences, the checksum of the first one being 7A. -/
example : checksumText (c! "!AIVDM,1,1,,A,15RTgt0PAso;90TKcjM8h6g208Ca,0") = c! "7A" := by decide +kernel

/-! ### The sentences after the first one are lost -/

theorem chunk_first (lead : Char) (talker kind : Str) (fs : List Str) (f : Str) (t : Str) (bs : List Str)
    (ht : Talker talker) (hf : CommaFree (fs ++ [f])) :
    ∃ more, IsTagged lead talker kind (fs ++ more) (chunkBody t (join (tag lead talker kind) (fs ++ [f]) :: bs) ++ ['*']) := by
  have hx : ∀ x : Str, ∃ more, more ≠ [] ∧ CommaFree more ∧
      join (tag lead talker kind) (fs ++ [f]) ++ x = join (tag lead talker kind) (fs ++ more) := by
    intro x
    obtain ⟨h, r, h1, h2, h3⟩ := exists_join x
    refine ⟨(f ++ h) :: r, by simp, ?_, ?_⟩
    · intro y hy
      rcases List.mem_cons.mp hy with rfl | hy
      · simp [h1, hf f (by simp)]
      · exact h2 y hy
    · rw [h3]
      simp [join]
  obtain ⟨x, e⟩ : ∃ x, chunkBody t (join (tag lead talker kind) (fs ++ [f]) :: bs) =
      join (tag lead talker kind) (fs ++ [f]) ++ x := by
    cases bs with
    | nil => exact ⟨[], by simp [chunkBody]⟩
    | cons b bs => exact ⟨_, by rw [chunkBody]; simp⟩
  obtain ⟨more, h1, h2, h3⟩ := hx x
  refine ⟨more, ht, ?_, by simp [h1], .star, by simp [Framed], ?_⟩
  · intro y hy
    rcases List.mem_append.mp hy with hy | hy
    · exact hf y (by simp [hy])
    · exact h2 y hy
  · rw [e, h3]; rfl

/-- AIS sentences of one talker and kind with the same first five fields have the same answer and effect. -/
theorem C97_fields (env : Env) (p : Parser) (talker : Str) (own : Bool) (fs more more' : List Str) (s s' : Str)
    (h5 : 5 ≤ fs.length) (h : IsAis talker own (fs ++ more) s) (h' : IsAis talker own (fs ++ more') s') :
    parseSentence env p s = parseSentence env p s' := by
  have hf : ∀ m : List Str, ∀ i < 5, field (fs ++ m) i = field fs i := by
    intro m i hi
    simp only [field, List.getD_eq_getElem?_getD]
    rw [List.getElem?_append_left (by omega)]
  have h3 : ∀ m : List Str, (fs ++ m)[3]? = fs[3]? := fun m => List.getElem?_append_left (by omega)
  rw [eval_fields env p talker own _ s h, eval_fields env p talker own _ s' h', vdmLoop_fields _ _ h.2.2.1,
    vdmLoop_fields _ _ h'.2.2.1]
  simp only [hf _ 0 (by decide), hf _ 1 (by decide), hf _ 2 (by decide), hf _ 4 (by decide), h3]
  have hl : ∀ m : List Str, ((fs ++ m).length = 1) = False := fun m => by simp; omega
  simp only [hl, if_false]

/-- C129: if several sentences in one call are not refused as corrupted and the first one is an AIS sentence with a field
after the payload, the answer and the effect are those of the first one alone: the others are lost. -/
theorem C129_ais_first (env : Env) (p : Parser) (talker : Str) (own : Bool) (fs : List Str) (f t : Str) (bs : List Str)
    (ht : Talker talker) (hf : CommaFree (fs ++ [f])) (h5 : 5 ≤ fs.length) (hbs : ∀ b ∈ bs, b ≠ [])
    (hr : residue t (join (tag '!' talker (aisKind own)) (fs ++ [f]) :: bs) = 0) :
    parseSentence env p (chunk t (join (tag '!' talker (aisKind own)) (fs ++ [f]) :: bs)) =
      parseSentence env p (finish (join (tag '!' talker (aisKind own)) (fs ++ [f])) .full) := by
  obtain ⟨more, h⟩ := chunk_first '!' talker (aisKind own) fs f t bs ht hf
  rw [((C129_chunk env p t _ bs (by simpa [join, tag] using hbs)).2 hr).1]
  exact C97_fields env p talker own fs more [f] _ _ h5 h ⟨ht, hf, by simp, .full, by simp [Framed], rfl⟩

/-- C129: likewise if the first one is a GNSS sentence with a field after those that its kind uses. -/
theorem C129_gnss_first (env : Env) (p : Parser) (talker kind : Str) (fs : List Str) (f t : Str) (bs : List Str) (n : Nat)
    (ht : Talker talker) (hf : CommaFree (fs ++ [f])) (hn : usedFields kind = some n) (hl : n ≤ fs.length)
    (hbs : ∀ b ∈ bs, b ≠ []) (hr : residue t (join (tag '$' talker kind) (fs ++ [f]) :: bs) = 0) :
    parseSentence env p (chunk t (join (tag '$' talker kind) (fs ++ [f]) :: bs)) =
      parseSentence env p (finish (join (tag '$' talker kind) (fs ++ [f])) .full) := by
  obtain ⟨more, h⟩ := chunk_first '$' talker kind fs f t bs ht hf
  rw [((C129_chunk env p t _ bs (by simpa [join, tag] using hbs)).2 hr).1]
  refine C71_extra_fields env p talker kind _ _ _ _ n hn h ⟨ht, hf, by simp, .full, by simp [Framed], rfl⟩ fun i hi => ?_
  simp only [field, List.getD_eq_getElem?_getD]
  rw [List.getElem?_append_left (by omega), List.getElem?_append_left (by omega)]

/-- C129: a sentence, a second one with the same checksum and any third one that starts with the same character as the
second, with anything between them, are never refused as corrupted. -/
theorem C129_three (env : Env) (p : Parser) (t : Str) (a b : Str) (c : Char) (r : Str) (ha : a ≠ [])
    (hb : b.head? = some c) (hab : checksumText a = checksumText b) :
    ¬ ∃ msg, (parseSentence env p (chunk t [a, b, c :: r])).1 = .err (.corruptedSentence msg) := by
  have hbn : b ≠ [] := by rintro rfl; cases hb
  refine ((C129_chunk env p t a [b, c :: r] (by simp [ha, hbn])).2 ?_).2
  have h1 := residue_two t a b c hb
  have h2 := residue_two t b (c :: r) c rfl
  have e : residue t [a, b, c :: r] = residue t [a, b] ^^^ residue t [b, c :: r] := by simp [residue]
  rw [e, h1, h2, hab, checksumText_inj _ _ hab]
  simp

/-- Two AIS sentences in one call, with CR LF between them, of which only the first one is reported. -/
example (env : Env) (p : Parser) :
    parseSentence env p (c! "!AIVDM,1,1,,A,15RTgt0PAso;90TKcjM8h6g208Ca,0*7A\r\n!AIVDM,1,1,,B,15RTgt0PAso;90TKcjM8h6g208CQ,0*49") =
      parseSentence env p (c! "!AIVDM,1,1,,A,15RTgt0PAso;90TKcjM8h6g208Ca,0*7A") := by
  have h := C129_ais_first env p (c! "AI") false [c! "1", c! "1", [], c! "A", c! "15RTgt0PAso;90TKcjM8h6g208Ca"] (c! "0")
    (c! "\r\n") [c! "!AIVDM,1,1,,B,15RTgt0PAso;90TKcjM8h6g208CQ,0"] (by decide) (by unfold CommaFree; decide) (by decide)
    (by decide) (by decide +kernel)
  have e1 : chunk (c! "\r\n") [c! "!AIVDM,1,1,,A,15RTgt0PAso;90TKcjM8h6g208Ca,0",
      c! "!AIVDM,1,1,,B,15RTgt0PAso;90TKcjM8h6g208CQ,0"] =
      c! "!AIVDM,1,1,,A,15RTgt0PAso;90TKcjM8h6g208Ca,0*7A\r\n!AIVDM,1,1,,B,15RTgt0PAso;90TKcjM8h6g208CQ,0*49" := by
    decide +kernel
  have e2 : finish (c! "!AIVDM,1,1,,A,15RTgt0PAso;90TKcjM8h6g208Ca,0") .full =
      c! "!AIVDM,1,1,,A,15RTgt0PAso;90TKcjM8h6g208Ca,0*7A" := by decide +kernel
  rw [← e1, ← e2]
  exact h

/-- An RMC sentence with mode and status fields, given twice and followed by another sentence. -/
example : usedFields (c! "RMC") = some 11 ∧
    residue (c! "\r\n") [join (tag '$' (c! "GP") (c! "RMC")) ([c! "225446", c! "A", c! "4916.45", c! "N", c! "12311.12",
        c! "W", c! "000.5", c! "054.7", c! "191194", c! "020.3", c! "E"] ++ [c! "A"]),
      join (tag '$' (c! "GP") (c! "RMC")) ([c! "225446", c! "A", c! "4916.45", c! "N", c! "12311.12",
        c! "W", c! "000.5", c! "054.7", c! "191194", c! "020.3", c! "E"] ++ [c! "A"]), c! "$GPGLL,1"] = 0 := by
  decide +kernel

end Nmea
