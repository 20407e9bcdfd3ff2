/-
C171: how long errors get, and what they quote.
-/
import Verif.Spec.Lengths
import Verif.Props.Bytes
import Verif.Props.Search
import Verif.Props.Refused

namespace Nmea
open Spec

/-! ### Characters -/

theorem byteLen_hex (n k : Nat) (hk : 0 < k) (h : n < 16 ^ k) : byteLen (Nat.toDigits 16 n) ≤ k := by
  have h1 : ∀ s : Str, (∀ c ∈ s, c ∈ c! "0123456789abcdef") → byteLen s = s.length := by
    intro s hs
    induction s with
    | nil => rfl
    | cons c s ih =>
      have h2 : ∀ c ∈ c! "0123456789abcdef", c.utf8Size = 1 := by decide
      rw [byteLen_cons, List.length_cons, ih fun d hd => hs d (List.mem_cons_of_mem _ hd), h2 c (hs c List.mem_cons_self)]
      omega
  rw [h1 _ (hex_chars n)]
  exact (Nat.length_toDigits_le_iff (by decide) hk).mpr h

theorem byteLen_flatMap {f : Char → Str} {k : Nat} {s : Str} (h : ∀ c ∈ s, byteLen (f c) ≤ k * c.utf8Size) :
    byteLen (s.flatMap f) ≤ k * byteLen s := by
  induction s with
  | nil => simp [byteLen_nil]
  | cons c s ih =>
    have h1 := h c List.mem_cons_self
    have h2 := ih fun d hd => h d (List.mem_cons_of_mem _ hd)
    rw [List.flatMap_cons, byteLen_append, byteLen_cons, Nat.mul_add]
    omega

theorem hex_plain (env : Env) (n : Nat) : (Nat.toDigits 16 n).flatMap env.debugChar = Nat.toDigits 16 n := by
  have h := debugStr_plain env (Nat.toDigits 16 n) fun c hc => by
    have : ∀ c ∈ c! "0123456789abcdef", ' ' ≤ c ∧ c ≤ '~' ∧ c ≠ '"' ∧ c ≠ '\'' ∧ c ≠ '\\' := by decide
    exact this c (hex_chars n c hc)
  simpa [Env.debugStr] using h

/-- The size of the code of a character. -/
theorem code_size (c : Char) : c.utf8Size = 1 ∧ c.toNat < 128 ∨ 2 ≤ c.utf8Size ∧ 128 ≤ c.toNat ∧ byteLen (Nat.toDigits 16 c.toNat) ≤ 6 := by
  by_cases h : c.toNat < 128
  · exact .inl ⟨Char.utf8Size_eq_one_iff.mpr (by simp only [UInt32.le_iff_toNat_le]; exact Nat.le_of_lt_succ h), h⟩
  · refine .inr ⟨?_, by omega, byteLen_hex _ _ (by decide) ?_⟩
    · have h1 : c.utf8Size ≠ 1 := by
        rw [Ne, Char.utf8Size_eq_one_iff, UInt32.le_iff_toNat_le]
        exact fun h2 => h (Nat.lt_succ_of_le h2)
      have := c.utf8Size_pos
      omega
    · have h1 : c.val.toNat < 55296 ∨ 57343 < c.val.toNat ∧ c.val.toNat < 1114112 := c.valid
      have h2 : c.toNat = c.val.toNat := rfl
      omega

theorem code_once (n : Nat) : byteLen (c! "\\u{" ++ Nat.toDigits 16 n ++ c! "}") = 4 + byteLen (Nat.toDigits 16 n) := by
  rw [byteLen_append, byteLen_append]
  have h1 : byteLen (c! "\\u{") = 3 := by decide
  have h2 : byteLen (c! "}") = 1 := by decide
  omega

theorem code_twice (env : Env) (n : Nat) :
    byteLen ((c! "\\u{" ++ Nat.toDigits 16 n ++ c! "}").flatMap env.debugChar) = 5 + byteLen (Nat.toDigits 16 n) := by
  have h1 : (c! "\\u{").flatMap env.debugChar = c! "\\\\u{" := rfl
  have h2 : (c! "}").flatMap env.debugChar = c! "}" := rfl
  rw [List.flatMap_append, List.flatMap_append, hex_plain, h1, h2, byteLen_append, byteLen_append]
  have h1 : byteLen (c! "\\\\u{") = 4 := by decide
  have h2 : byteLen (c! "}") = 1 := by decide
  omega

theorem once_escape {e : Env} (he : Escapes e.escape) (c : Char) : byteLen (e.debugChar c) ≤ 6 * c.utf8Size := by
  have hp := c.utf8Size_pos
  unfold Env.debugChar
  split
  · next h => rcases h with rfl | rfl <;> decide
  split
  · next h => subst h; decide
  split
  · next h => subst h; decide
  split
  · next h => subst h; decide
  split
  · rw [byteLen_cons, byteLen_nil]
    omega
  split
  · next h =>
    have h1 := byteLen_hex c.toNat 2 (by decide) (by omega)
    have h2 := code_once c.toNat
    omega
  next h1 h2 h3 h4 h5 h6 =>
  by_cases hc : c = '\''
  · subst hc
    rcases he.apostrophe with h | h <;> rw [h] <;> decide
  by_cases h0 : c.toNat = 0
  · have : c = Char.ofNat 0 := Char.toNat_inj.1 h0
    subst this
    rcases he.nul with h | h <;> rw [h] <;> decide
  rcases code_size c with ⟨-, h⟩ | ⟨h2, h3, h4⟩
  · exact absurd ⟨hc, by omega, h⟩ h6
  · rcases he.other c h3 with h | h <;> rw [h]
    · rw [byteLen_cons, byteLen_nil]
      omega
    · rw [code_once]
      omega

theorem twice_escape {e e' : Env} (he : Escapes e.escape) (he' : Escapes e'.escape) (c : Char) :
    byteLen ((e.debugChar c).flatMap e'.debugChar) ≤ 7 * c.utf8Size := by
  have hp := c.utf8Size_pos
  have ho := once_escape he' c
  unfold Env.debugChar
  split
  · next h => rcases h with rfl | rfl <;> exact (by decide : 4 ≤ 7)
  split
  · next h => subst h; exact (by decide : 3 ≤ 7)
  split
  · next h => subst h; exact (by decide : 3 ≤ 7)
  split
  · next h => subst h; exact (by decide : 3 ≤ 7)
  split
  · rw [List.flatMap_singleton]
    exact ho.trans (by omega)
  split
  · next h =>
    have h1 := byteLen_hex c.toNat 2 (by decide) (by omega)
    have h2 := code_twice e' c.toNat
    exact (Nat.le_of_eq h2).trans (by omega)
  next h1 h2 h3 h4 h5 h6 =>
  by_cases hc : c = '\''
  · subst hc
    have h7 : e'.debugChar '\'' = e'.escape '\'' := rfl
    have h8 : e'.debugChar '\\' = c! "\\\\" := rfl
    rcases he.apostrophe with h | h <;> rw [h]
    · show byteLen (e'.debugChar '\'' ++ []) ≤ _
      rw [List.append_nil]
      omega
    · rcases he'.apostrophe with h' | h' <;>
        · show byteLen (e'.debugChar '\\' ++ (e'.debugChar '\'' ++ [])) ≤ _
          rw [h8, h7, h']
          decide
  by_cases h0 : c.toNat = 0
  · have : c = Char.ofNat 0 := Char.toNat_inj.1 h0
    subst this
    rcases he.nul with h | h <;> rw [h]
    · exact (by decide : 3 ≤ 7)
    · exact (by decide : 6 ≤ 7)
  rcases code_size c with ⟨-, h⟩ | ⟨h2, h3, h4⟩
  · exact absurd ⟨hc, by omega, h⟩ h6
  · rcases he.other c h3 with h | h <;> rw [h]
    · rw [List.flatMap_singleton]
      exact ho.trans (by omega)
    · exact (Nat.le_of_eq (code_twice e' c.toNat)).trans (by omega)

/-! ### Errors -/

theorem finish_infix (b : Str) (e : Ending) : b <:+: finish b e := by
  cases e
  · exact List.infix_rfl
  · exact (List.prefix_append _ _).isInfix
  · exact (List.prefix_append _ _).isInfix

theorem field_infix {lead : Char} {talker kind : Str} {fs : List Str} {s : Str} (h : IsTagged lead talker kind fs s) (i : Nat) :
    field fs i <:+: s := by
  obtain ⟨-, -, -, e, -, rfl⟩ := h
  refine List.IsInfix.trans ?_ (finish_infix _ e)
  unfold join field
  refine List.IsInfix.trans ?_ (List.suffix_append _ _).isInfix
  induction fs generalizing i with
  | nil => exact List.nil_infix
  | cons f fs ih =>
    cases i with
    | zero => exact ⟨[','], (fs.map fun f => ',' :: f).flatten, by simp⟩
    | succ i =>
      refine (ih i).trans ⟨',' :: f, [], by simp⟩

/-- A phrase and a piece of the sentence. -/
def Quotes (s m : Str) : Prop := ∃ ph q, m = ph ++ q ∧ Plain ph ∧ ph.length ≤ 49 ∧ q <:+: s

theorem plain_both {s t : Str} (hs : Plain s) (ht : Plain t) : Plain (s ++ t) := fun c hc =>
  (List.mem_append.1 hc).elim (hs c) (ht c)

theorem plain_natStr (n : Nat) : Plain (natStr n) := fun c hc => by
  have : ∀ c ∈ c! "0123456789", ' ' ≤ c ∧ c ≤ '~' ∧ c ≠ '"' ∧ c ≠ '\'' ∧ c ≠ '\\' := by decide
  exact this c ((natStr_digits n).2 c hc)

theorem quotes_field {lead : Char} {talker kind : Str} {fs : List Str} {s : Str} (h : IsTagged lead talker kind fs s)
    (ph : Str) (i : Nat) (hp : Plain ph) (hl : ph.length ≤ 49) : Quotes s (ph ++ field fs i) :=
  ⟨ph, _, rfl, hp, hl, field_infix h i⟩

theorem quotes_number {lead : Char} {talker kind : Str} {fs : List Str} {s : Str} (h : IsTagged lead talker kind fs s)
    (i : Nat) (hi : i < 99) : Quotes s (c! "Failed to parse field " ++ natStr (i + 1) ++ c! ": " ++ field fs i) := by
  refine quotes_field h _ i (plain_both (plain_both (by decide) (plain_natStr _)) (by decide)) ?_
  have h1 : (natStr (i + 1)).length ≤ 2 := (natStr_length_le (by decide)).mpr (by omega)
  simp only [List.length_append, List.length_cons, List.length_nil]
  omega

theorem quotes_faults {talker kind : Str} {fs : List Str} {s : Str} (h : IsGnss talker kind fs s) :
    ∀ k l, (k, l) ∈ faults fs → ∀ f ∈ l, Quotes s f.2 := by
  have hi : ∀ m i, i < 99 → Quotes s (intFault m fs i).2 := fun m i hi => quotes_number h i hi
  have hn : ∀ i, i < 99 → Quotes s (numFault fs i).2 := fun i hi => quotes_number h i hi
  have h1 : ∀ i, Quotes s (latFault fs i).2 := fun i => quotes_field h _ i (by decide) (by decide)
  have h2 : ∀ i, Quotes s (lonFault fs i).2 := fun i => quotes_field h _ i (by decide) (by decide)
  intro k l hl
  simp only [faults, List.mem_cons, List.not_mem_nil, or_false, Prod.mk.injEq] at hl
  rcases hl with ⟨-, rfl⟩ | ⟨-, rfl⟩ | ⟨-, rfl⟩ | ⟨-, rfl⟩ | ⟨-, rfl⟩ | ⟨-, rfl⟩
  · simp only [List.forall_mem_cons]
    exact ⟨h1 _, h2 _, hi _ _ (by decide), hi _ _ (by decide), hn _ (by decide), hn _ (by decide), hn _ (by decide),
      hn _ (by decide), hi _ _ (by decide), fun _ h => nomatch h⟩
  · simp only [List.forall_mem_cons]
    exact ⟨quotes_field h _ 1 (by decide) (by decide), h1 _, h2 _, hn _ (by decide), hn _ (by decide), hn _ (by decide),
      quotes_field h _ 10 (by decide) (by decide), fun _ h => nomatch h⟩
  · simp only [List.forall_mem_append, List.forall_mem_cons, List.forall_mem_map]
    refine ⟨⟨⟨quotes_field h _ 0 (by decide) (by decide), quotes_field h _ 1 (by decide) (by decide), fun _ h => nomatch h⟩,
      fun i hm => hi _ _ ?_⟩, hn _ (by decide), hn _ (by decide), hn _ (by decide), fun _ h => nomatch h⟩
    have := List.mem_range'_1.mp hm
    omega
  · simp only [List.forall_mem_cons]
    exact ⟨hi _ _ (by decide), hi _ _ (by decide), fun _ h => nomatch h⟩
  · exact fun _ h => nomatch h
  · simp only [List.forall_mem_cons]
    exact ⟨h1 _, h2 _, fun _ h => nomatch h⟩

/-- C171: an error other than for the checksum is a phrase of at most 49 plain characters and at most one piece of the sentence. -/
theorem C171_quotes (env : Env) (p : Parser) (hp : Reachable p) (s : Str) (e : ParseError)
    (h : (parseSentence env p s).1 = .err e) (hc : ∀ m, e ≠ .corruptedSentence m) :
    ∃ ph q, e.toStr = ph ++ q ∧ Plain ph ∧ ph.length ≤ 49 ∧ q <:+: s := by
  have none : ∀ t : Str, Plain t → t.length ≤ 49 → Quotes s t := fun t h1 h2 => ⟨t, [], by simp, h1, h2, List.nil_infix⟩
  have tagged : ∀ (lead : Char) (talker kind : Str) (fs : List Str), IsTagged lead talker kind fs s → kind <:+: s := by
    rintro lead talker kind fs ⟨-, -, -, e, -, rfl⟩
    refine List.IsInfix.trans ?_ (finish_infix _ e)
    refine List.IsInfix.trans ?_ (List.prefix_append _ _).isInfix
    exact ⟨lead :: talker, [], by simp [tag]⟩
  cases e with
  | corruptedSentence m => exact absurd rfl (hc m)
  | unsupportedSentenceType m =>
    cases (C135_unsupported env p hp s m).mp h with
    | gnss talker kind fs _ _ h1 =>
      show Quotes s (refuseKind kind)
      unfold refuseKind
      split
      · exact ⟨_, kind, rfl, by decide, by decide, tagged _ _ _ _ h1⟩
      · exact ⟨_, kind, rfl, by decide, by decide, tagged _ _ _ _ h1⟩
    | ais talker kind fs _ _ h1 => exact ⟨_, kind, rfl, by decide, by decide, tagged _ _ _ _ h1⟩
    | tag ty rest e _ h1 =>
      refine ⟨_, ty, rfl, by decide, by decide, ?_⟩
      rw [h1]
      exact (List.prefix_append _ _).isInfix.trans (finish_infix _ e)
    | message talker own bits =>
      show Quotes s _
      split
      · exact none _ (by decide) (by decide)
      · have h1 : (natStr (typeOf bits)).length ≤ 2 := (natStr_length_le (by decide)).mpr (by
          have := bitsVal_lt (window bits 0 6)
          rw [length_window] at this
          exact this.trans (by decide))
        refine none _ (plain_both (plain_both (plain_both (by decide) (by cases own <;> decide)) (by decide)) (plain_natStr _)) ?_
        have h2 : (aisKind own).length = 3 := by cases own <;> rfl
        have h3 : ∀ k t : Str, k.length = 3 → t.length ≤ 2 → (c! "Unsupported !" ++ k ++ c! " message type: " ++ t).length ≤ 49 := by
          intro k t hk ht
          simp only [List.length_append, List.length_cons, List.length_nil]
          omega
        exact h3 _ _ h2 h1
    | short talker f own => exact none _ (by cases own <;> decide) (by cases own <;> decide)
  | invalidSentence m =>
    cases (C135_invalid env p hp s m).mp h with
    | comma body e _ h1 =>
      refine ⟨_, body, rfl, by decide, by decide, ?_⟩
      rw [h1]
      exact finish_infix _ e
    | field talker kind fs l _ hl h1 _ hm =>
      obtain ⟨b, _, a, rfl, -⟩ := hm
      exact quotes_faults h1 kind _ hl (_, m) (List.mem_append_right _ List.mem_cons_self)
    | count talker own fs h1 => exact quotes_field h1 _ 0 (by decide) (by decide)
    | number talker own fs h1 => exact quotes_field h1 _ 1 (by decide) (by decide)
    | part talker own bits =>
      have h1 : (natStr (partOf bits)).length ≤ 1 := (natStr_length_le (by decide)).mpr (by
        have := bitsVal_lt (window bits 38 2)
        rw [length_window] at this
        exact this.trans (by decide))
      refine none _ (plain_both (by decide) (plain_natStr _)) ?_
      simp only [ParseError.toStr, List.length_append, List.length_cons, List.length_nil]
      omega

/-- The field that cannot be read is quoted. -/
example : ∃ e, (parseSentence demoEnv Parser.new (c! "$GPGSA,A,9,,,,,,,,,,,,,,,")).1 = .err e ∧
    (∀ m, e ≠ .corruptedSentence m) ∧ e.toStr = c! "Invalid GPGSA fix type: " ++ c! "9" := ⟨_, rfl, nofun, rfl⟩

theorem plain_bytes {s : Str} (h : Plain s) : byteLen s = s.length := by
  induction s with
  | nil => rfl
  | cons c s ih =>
    have h1 : c.utf8Size = 1 := by
      rcases code_size c with h1 | h1
      · exact h1.1
      · have h2 : c.toNat ≤ 126 := (h c (by simp)).2.1
        omega
    rw [byteLen_cons, List.length_cons, ih fun d hd => h d (List.mem_cons_of_mem _ hd), h1]
    omega

theorem infix_bytes {q s : Str} (h : q <:+: s) : byteLen q ≤ byteLen s := by
  obtain ⟨a, b, rfl⟩ := h
  rw [byteLen_append, byteLen_append]
  omega

theorem plain_twice (env : Env) {s : Str} (h : Plain s) : s.flatMap env.debugChar = s := by
  have := debugStr_plain env s h
  simpa [Env.debugStr] using this

theorem byteLen_tuple (n v : Str) : byteLen (debugTuple n v) = byteLen n + byteLen v + 2 := by
  have e5 : byteLen (c! "(") = 1 := by decide
  have e6 : byteLen (c! ")") = 1 := by decide
  rw [debugTuple, byteLen_append, byteLen_append, byteLen_append]
  omega

theorem byteLen_debugStr (l : Library) (m : Str) :
    byteLen (l.debugStr m) = byteLen (m.flatMap (Env.debugChar ⟨⟨1970, 1, 1, 0, 0, 0⟩, false, l.escape⟩)) + 2 := by
  have e7 : byteLen (c! "\"") = 1 := by decide
  have e8 : Char.utf8Size '"' = 1 := by decide
  rw [Library.debugStr, Env.debugStr, byteLen_append, byteLen_cons]
  omega

theorem said_bytes (env : Env) : byteLen ((c! "Corrupted NMEA sentence: \"").flatMap env.debugChar) = 27 := by
  have h1 : (c! "Corrupted NMEA sentence: \"").flatMap env.debugChar =
      (c! "Corrupted NMEA sentence: ").flatMap env.debugChar ++ env.debugChar '"' :=
    (List.flatMap_append (xs := c! "Corrupted NMEA sentence: ") (ys := ['"'])).trans (by rw [List.flatMap_singleton])
  have h2 : env.debugChar '"' = c! "\\\"" := rfl
  rw [h1, plain_twice env (by decide), h2]
  decide

theorem differs_bytes (env : Env) : byteLen ((c! "\" != \"").flatMap env.debugChar) = 8 := by
  have h1 : (c! "\" != \"").flatMap env.debugChar = env.debugChar '"' ++ ((c! " != ").flatMap env.debugChar ++ env.debugChar '"') := by
    rw [show c! "\" != \"" = '"' :: (c! " != " ++ ['"']) from rfl, List.flatMap_cons, List.flatMap_append, List.flatMap_singleton]
  have h2 : env.debugChar '"' = c! "\\\"" := rfl
  rw [h1, plain_twice env (by decide), h2]
  decide

/-- The error for the checksum. -/
theorem corrupted_said {env : Env} {p : Parser} {s : Str} {m : Str} (h : (parseSentence env p s).1 = .err (.corruptedSentence m)) :
    ∃ a b, s = a ++ '*' :: b ∧ m = c! "Corrupted NMEA sentence: \"" ++ checksumText a ++ c! "\" != \"" ++ b.flatMap env.debugChar ++ c! "\"" := by
  obtain ⟨a, b, rfl, hb, hne, hbad⟩ := (C02_corrupted_iff env p s).mp ⟨m, h⟩
  rw [parse_corrupted env p a b hb hne hbad, debugStr_plain env _ (checksumText_plain a)] at h
  refine ⟨a, b, rfl, ?_⟩
  injection h with h
  injection h with h
  rw [← h]
  simp [Env.debugStr]

/-- C171: the text of an error has at most six times as many bytes as the sentence, and 49. -/
theorem C171_text (env : Env) (he : Escapes env.escape) (p : Parser) (hp : Reachable p) (s : Str) (e : ParseError)
    (h : (parseSentence env p s).1 = .err e) : byteLen e.toStr ≤ 6 * byteLen s + 49 := by
  by_cases hc : ∃ m, e = .corruptedSentence m
  · obtain ⟨m, rfl⟩ := hc
    obtain ⟨a, b, rfl, rfl⟩ := corrupted_said h
    have h1 := byteLen_flatMap (s := b) (f := env.debugChar) (k := 6) fun c _ => once_escape he c
    have h2 : byteLen (checksumText a) = 2 := plain_bytes (checksumText_plain a)
    have h3 : byteLen (c! "Corrupted NMEA sentence: \"") = 26 := by decide
    have h4 : byteLen (c! "\" != \"") = 6 := by decide
    have h5 : byteLen (c! "\"") = 1 := by decide
    simp only [ParseError.toStr, byteLen_append, byteLen_cons] at *
    omega
  · obtain ⟨ph, q, h1, h2, h3, h4⟩ := C171_quotes env p hp s e h fun m hm => hc ⟨m, hm⟩
    rw [h1, byteLen_append, plain_bytes h2]
    have := infix_bytes h4
    omega

/-- A library that writes accented letters as they are. -/
theorem demoEscapes : Escapes fun c => if c.toNat = 0 then c! "\\0" else [c] :=
  ⟨.inl rfl, .inl rfl, fun c h => .inl (if_neg (by omega))⟩

/-- Sentences of at most 82 bytes. -/
example (p : Parser) (hp : Reachable p) (env : Env) (s : Str) (e : ParseError)
    (h : (parseSentence { env with escape := fun c => if c.toNat = 0 then c! "\\0" else [c] } p s).1 = .err e)
    (hs : byteLen s ≤ 82) : byteLen e.toStr ≤ 541 :=
  (C171_text _ demoEscapes p hp s e h).trans (by omega)

/-- An unreadable fragment count is quoted as it is. -/
example : (parseSentence demoEnv Parser.new (c! "!AIVDM,x")).1 = .err (.invalidSentence (c! "Failed to parse fragment count: x")) := by
  decide +kernel

/-- C171: the line of a log with the error has at most seven times as many bytes as the sentence, and 81. -/
theorem C171_line (l : Library) (hl : Escapes l.escape) (env : Env) (he : Escapes env.escape) (p : Parser) (hp : Reachable p)
    (s : Str) (e : ParseError) (h : (parseSentence env p s).1 = .err e) (t : Str) (ht : debugAnswer l (.err e) = some t) :
    byteLen t ≤ 7 * byteLen s + 81 := by
  cases ht
  have key : byteLen (e.toStr.flatMap (Env.debugChar ⟨⟨1970, 1, 1, 0, 0, 0⟩, false, l.escape⟩)) ≤
      7 * byteLen s + match e with | .corruptedSentence _ => 55 | _ => 49 := by
    by_cases hc : ∃ m, e = .corruptedSentence m
    · obtain ⟨m, rfl⟩ := hc
      obtain ⟨a, b, rfl, rfl⟩ := corrupted_said h
      have h1 := byteLen_flatMap (s := b) (f := fun c => (env.debugChar c).flatMap (Env.debugChar ⟨⟨1970, 1, 1, 0, 0, 0⟩, false, l.escape⟩))
        (k := 7) fun c _ => twice_escape he hl c
      have h2 : byteLen (checksumText a) = 2 := plain_bytes (checksumText_plain a)
      have h3 : byteLen ((c! "Corrupted NMEA sentence: \"").flatMap (Env.debugChar ⟨⟨1970, 1, 1, 0, 0, 0⟩, false, l.escape⟩)) = 27 :=
      said_bytes _
      have h4 : byteLen ((c! "\" != \"").flatMap (Env.debugChar ⟨⟨1970, 1, 1, 0, 0, 0⟩, false, l.escape⟩)) = 8 :=
      differs_bytes _
      have h5 : byteLen ((c! "\"").flatMap (Env.debugChar ⟨⟨1970, 1, 1, 0, 0, 0⟩, false, l.escape⟩)) = 2 := rfl
      simp only [ParseError.toStr, List.flatMap_append, byteLen_append, byteLen_cons, h3, h4, h5,
        plain_twice _ (checksumText_plain a), List.flatMap_assoc] at *
      omega
    · obtain ⟨ph, q, h1, h2, h3, h4⟩ := C171_quotes env p hp s e h fun m hm => hc ⟨m, hm⟩
      have h5 := byteLen_flatMap (s := q) (f := Env.debugChar ⟨⟨1970, 1, 1, 0, 0, 0⟩, false, l.escape⟩) (k := 6)
        fun c _ => once_escape hl c
      have h6 := infix_bytes h4
      rw [h1, List.flatMap_append, byteLen_append, plain_twice _ h2, plain_bytes h2]
      cases e with
      | corruptedSentence m => exact absurd ⟨m, rfl⟩ hc
      | _ => simp only; omega
  cases e <;>
    · simp only [ParseError.toStr] at key
      simp only [ParseError.debug, byteLen_tuple, byteLen_debugStr]
      have e1 : byteLen (c! "Err") = 3 := by decide
      have e2 : byteLen (c! "UnsupportedSentenceType") = 23 := by decide
      have e3 : byteLen (c! "CorruptedSentence") = 17 := by decide
      have e4 : byteLen (c! "InvalidSentence") = 15 := by decide
      omega

/-- The lines of sentences of at most 82 bytes. -/
example (l : Library) (hl : Escapes l.escape) (e : ParseError) (t : Str) (ht : debugAnswer l (.err e) = some t) (s : Str)
    (h : (parseSentence ⟨⟨2024, 2, 29, 0, 0, 0⟩, true, fun c => if c.toNat = 0 then c! "\\0" else [c]⟩ Parser.new s).1 = .err e)
    (hs : byteLen s ≤ 82) : byteLen t ≤ 655 :=
  (C171_line l hl _ demoEscapes _ ⟨[], rfl⟩ s e h t ht).trans (by omega)

/-- C171: escape characters sent as checksum reach six and seven times the length. -/
theorem C171_reached (l : Library) (env : Env) (p : Parser) (n : Nat) (hn : 0 < n) :
    ∃ s e t, byteLen s = n + 1 ∧ (parseSentence env p s).1 = .err e ∧ byteLen e.toStr = 6 * n + 35 ∧
      debugAnswer l (.err e) = some t ∧ byteLen t = 7 * n + 65 := by
  have hs : ∀ (f : Char → Str) (k : Nat), byteLen (f '\x1b') = k → byteLen ((List.replicate n '\x1b').flatMap f) = k * n := by
    intro f k hk
    clear hn
    induction n with
    | zero => rfl
    | succ n ih => rw [List.replicate_succ, List.flatMap_cons, byteLen_append, ih, hk, Nat.mul_succ]; omega
  have hc : ('*' : Char) ∉ List.replicate n '\x1b' := fun h => absurd (List.eq_of_mem_replicate h) (by decide)
  obtain ⟨m, h⟩ := (C02_corrupted_iff env p ([] ++ '*' :: List.replicate n '\x1b')).mpr ⟨[], List.replicate n '\x1b', rfl, hc,
    fun e => by
      have := congrArg List.length e
      simp at this
      omega,
    fun e => absurd (List.eq_of_mem_replicate (show '0' ∈ List.replicate n '\x1b' by rw [e]; decide)) (by decide)⟩
  obtain ⟨a, b, e, rfl⟩ := corrupted_said h
  have hab : a = [] ∧ b = List.replicate n '\x1b' := by
    match a, e with
    | [], e => exact ⟨rfl, (List.cons.inj e).2.symm⟩
    | x :: a, e =>
      have : '*' ∈ List.replicate n '\x1b' := by rw [(List.cons.inj e).2]; simp
      exact absurd this hc
  obtain ⟨rfl, rfl⟩ := hab
  have h1 := hs env.debugChar 6 rfl
  have h2 := hs (fun c => (env.debugChar c).flatMap (Env.debugChar ⟨⟨1970, 1, 1, 0, 0, 0⟩, false, l.escape⟩)) 7 rfl
  have h0 : byteLen (List.replicate n '\x1b') = n := by
    have := hs (fun c => [c]) 1 rfl
    rw [List.flatMap_singleton'] at this
    omega
  refine ⟨_, _, _, ?_, h, ?_, rfl, ?_⟩
  · rw [List.nil_append, byteLen_cons, h0]
    have : Char.utf8Size '*' = 1 := by decide
    omega
  · simp only [ParseError.toStr, byteLen_append, h1]
    have e1 : byteLen (checksumText []) = 2 := by decide
    have e2 : byteLen (c! "Corrupted NMEA sentence: \"") = 26 := by decide
    have e3 : byteLen (c! "\" != \"") = 6 := by decide
    have e4 : byteLen (c! "\"") = 1 := by decide
    omega
  · simp only [ParseError.debug, byteLen_tuple, byteLen_debugStr, byteLen_append, List.flatMap_append, plain_twice _ (checksumText_plain []), List.flatMap_assoc, h2]
    have h3 : byteLen ((c! "Corrupted NMEA sentence: \"").flatMap (Env.debugChar ⟨⟨1970, 1, 1, 0, 0, 0⟩, false, l.escape⟩)) = 27 :=
      said_bytes _
    have h4 : byteLen ((c! "\" != \"").flatMap (Env.debugChar ⟨⟨1970, 1, 1, 0, 0, 0⟩, false, l.escape⟩)) = 8 :=
      differs_bytes _
    have h5 : byteLen ((c! "\"").flatMap (Env.debugChar ⟨⟨1970, 1, 1, 0, 0, 0⟩, false, l.escape⟩)) = 2 := rfl
    have e0 : byteLen (checksumText []) = 2 := by decide
    have e1 : byteLen (c! "Err") = 3 := by decide
    have e3 : byteLen (c! "CorruptedSentence") = 17 := by decide
    omega

/-- Thousand bytes. -/
example (l : Library) (env : Env) (p : Parser) :
    ∃ s e t, byteLen s = 1001 ∧ (parseSentence env p s).1 = .err e ∧ byteLen e.toStr = 6035 ∧
      debugAnswer l (.err e) = some t ∧ byteLen t = 7065 := C171_reached l env p 1000 (by decide)

end Nmea
