/-
C89: the texts of errors.
-/
import Verif.Lemmas.Outcome
import Verif.Spec.Errors
import Verif.Lemmas.Values
import Verif.Lemmas.GnssSays
import Verif.Lemmas.DemoReports

namespace Nmea
open Spec

/-- C89: a sentence without comma is quoted in the error, without its checksum. -/
theorem C89_no_comma (env : Env) (p : Parser) (body : Str) (e : Ending) (hf : Framed body e) (hc : ',' ∉ body) :
    (parseSentence env p (finish body e)).1 = .err (.invalidSentence (c! "Invalid NMEA sentence: " ++ body)) := by
  rw [parse_finish _ _ _ _ hf, parseBody_noComma _ _ _ hc]

example : Framed (c! "$GPGGA") .full ∧ ',' ∉ c! "$GPGGA" := by decide

theorem dispatch_refuse (env : Env) (p : Parser) (kind body : Str) (nav : NavigationSystem)
    (hn : kind ∉ [c! "GGA", c! "RMC", c! "GSA", c! "GSV", c! "VTG", c! "GLL"]) :
    dispatch env p ('$' :: kind) body (some nav) none = (.err (.unsupportedSentenceType (refuseKind kind)), p) := by
  simp only [List.mem_cons, List.not_mem_nil, or_false, not_or] at hn
  obtain ⟨h1, h2, h3, h4, h5, h6⟩ := hn
  have hu : '$' :: kind ∈ unimplementedTypes ↔ kind ∈ announcedKinds := by
    simp [unimplementedTypes, announcedKinds]
  simp only [dispatch, List.cons.injEq, true_and, h1, h2, h3, h4, h5, h6, if_false, hu, refuseKind]
  split
  · rfl
  · simp

theorem debugChar_plain (env : Env) (c : Char) (h : ' ' ≤ c ∧ c ≤ '~' ∧ c ≠ '"' ∧ c ≠ '\'' ∧ c ≠ '\\') :
    env.debugChar c = [c] := by
  have ht : ∀ d : Char, ¬ ' ' ≤ d → c ≠ d := fun d hd e => hd (e ▸ h.1)
  unfold Env.debugChar
  rw [if_neg (by rintro (e | e); exacts [h.2.2.1 e, h.2.2.2.2 e]), if_neg (ht _ (by decide)), if_neg (ht _ (by decide)),
    if_neg (ht _ (by decide)), if_pos ⟨h.1, h.2.1, h.2.2.2.1⟩]

theorem toDigits_hex (n : Nat) (h : n < 128) : (∀ d ∈ Nat.toDigits 16 n, d ≠ '}') ∧ hexNumber (Nat.toDigits 16 n) = n := by
  have key : ∀ n : Fin 128, (∀ d ∈ Nat.toDigits 16 n.val, d ≠ '}') ∧ hexNumber (Nat.toDigits 16 n.val) = n.val := by
    decide +kernel
  exact key ⟨n, h⟩

theorem literal_char (env : Env) (c : Char) (h : 0 < c.toNat ∧ c.toNat < 128 ∧ c ≠ '\'') {l s : Str} (hl : Literal l s) :
    Literal (env.debugChar c ++ l) (c :: s) := by
  unfold Env.debugChar
  split
  · rename_i e
    rcases e with rfl | rfl
    · exact .short _ _ (by decide) hl
    · exact .short _ _ (by decide) hl
  · rename_i e0
    split
    · rename_i e; subst e; exact .short _ _ (by decide) hl
    split
    · rename_i e; subst e; exact .short _ _ (by decide) hl
    split
    · rename_i e; subst e; exact .short _ _ (by decide) hl
    split
    · exact .plain _ ⟨fun e => e0 (.inl e), fun e => e0 (.inr e)⟩ hl
    · rw [if_pos ⟨h.2.2, h.1, h.2.1⟩]
      have := toDigits_hex c.toNat h.2.1
      simpa using Literal.code _ c this.1 this.2 hl

theorem literal_str (env : Env) (s : Str) (h : Ascii s) : Literal (s.flatMap env.debugChar) s := by
  induction s with
  | nil => exact .nil
  | cons c s ih =>
    rw [List.flatMap_cons]
    exact literal_char env c (h c (by simp)) (ih fun x hx => h x (by simp [hx]))

theorem brace_split {a b l m : Str} (ha : ∀ d ∈ a, d ≠ '}') (hb : ∀ d ∈ b, d ≠ '}') (h : a ++ '}' :: l = b ++ '}' :: m) :
    a = b ∧ l = m := by
  induction a generalizing b with
  | nil =>
    cases b with
    | nil => exact ⟨rfl, (List.cons.inj h).2⟩
    | cons x b => exact absurd (List.cons.inj h).1.symm (hb x (by simp))
  | cons y a ih =>
    cases b with
    | nil => exact absurd (List.cons.inj h).1 (ha y (by simp))
    | cons x b =>
      obtain ⟨e1, e2⟩ := List.cons.inj h
      obtain ⟨e3, e4⟩ := ih (fun d hd => ha d (by simp [hd])) (fun d hd => hb d (by simp [hd])) e2
      exact ⟨by rw [e1, e3], e4⟩

theorem literal_unique {l s s' : Str} (h : Literal l s) (h' : Literal l s') : s = s' := by
  induction h generalizing s' with
  | nil => cases h'; rfl
  | plain c hc _ ih =>
    generalize hl : c :: _ = l at h'
    cases h' with
    | nil => exact absurd hl (by simp)
    | plain c' hc' h2 =>
      obtain ⟨rfl, rfl⟩ := List.cons.inj hl
      rw [ih h2]
    | short x c' hx h2 => exact absurd (List.cons.inj hl).1 hc.2
    | code ds c' hd hn h2 => exact absurd (List.cons.inj hl).1 hc.2
  | short x c hx _ ih =>
    generalize hl : '\\' :: x :: _ = l at h'
    cases h' with
    | nil => exact absurd hl (by simp)
    | plain c' hc' h2 => exact absurd (List.cons.inj hl).1.symm hc'.2
    | short x' c' hx' h2 =>
      obtain ⟨rfl, rfl⟩ := List.cons.inj (List.cons.inj hl).2
      rw [ih h2]
      congr 1
      simp only [List.mem_cons, Prod.mk.injEq, List.not_mem_nil, or_false] at hx hx'
      rcases hx with ⟨rfl, rfl⟩ | ⟨rfl, rfl⟩ | ⟨rfl, rfl⟩ | ⟨rfl, rfl⟩ | ⟨rfl, rfl⟩ <;> exact Eq.symm (by simpa using hx')
    | code ds c' hd hn h2 =>
      have e := (List.cons.inj (List.cons.inj hl).2).1
      subst e
      exact absurd hx (by simp)
  | code ds c hd hn _ ih =>
    generalize hl : c! "\\u{" ++ ds ++ '}' :: _ = l at h'
    cases h' with
    | nil => exact absurd hl (by simp)
    | plain c' hc' h2 => exact absurd (List.cons.inj hl).1.symm hc'.2
    | short x' c' hx' h2 =>
      have e := (List.cons.inj (List.cons.inj hl).2).1
      subst e
      exact absurd hx' (by simp)
    | code ds' c' hd' hn' h2 =>
      rw [List.append_assoc, List.append_assoc] at hl
      obtain ⟨e1, e2⟩ := brace_split hd hd' (List.append_cancel_left hl)
      subst e1 e2
      rw [ih h2, Char.toNat_inj.1 (hn.symm.trans hn')]

theorem debugStr_plain (env : Env) (s : Str) (h : Plain s) : env.debugStr s = '"' :: s ++ ['"'] := by
  have key : s.flatMap env.debugChar = s := by
    induction s with
    | nil => rfl
    | cons c s ih =>
      rw [List.flatMap_cons, debugChar_plain env c (h c (by simp)), ih (fun x hx => h x (by simp [hx]))]
      rfl
  rw [Env.debugStr, key]

theorem checksumText_plain (body : Str) : Plain (checksumText body) := by
  have key : ∀ i : Fin 16, Plain [hexDigits.getD i.val '?'] := by
    intro i c hc
    revert c
    revert i
    decide
  have lt : xorBytes body.tail < 256 := xorBytes_lt _
  intro c hc
  simp only [checksumText, List.mem_cons, List.not_mem_nil, or_false] at hc
  rcases hc with rfl | rfl
  · exact key ⟨xorBytes body.tail / 16, by omega⟩ _ (by simp)
  · exact key ⟨xorBytes body.tail % 16, by omega⟩ _ (by simp)

/-- C89: the error for a wrong checksum gives the correct checksum and what was found instead: plain text as it is, other
ASCII text (without NUL and the apostrophe, whose spelling depends on the version of the standard library) in the spelling
of a string literal. -/
theorem C89_checksum (env : Env) (p : Parser) (a b : Str) (hb : '*' ∉ b) (hne : b ≠ []) (hbad : b ≠ checksumText a) :
    ∃ found, parseSentence env p (a ++ '*' :: b) = (.err (.corruptedSentence
        (c! "Corrupted NMEA sentence: \"" ++ checksumText a ++ c! "\" != \"" ++ found ++ c! "\"")), p) ∧
      (Plain b → found = b) ∧ (Ascii b → Literal found b) := by
  refine ⟨b.flatMap env.debugChar, ?_, fun h => ?_, fun h => literal_str env b h⟩
  · rw [parse_corrupted env p a b hb hne hbad, debugStr_plain env _ (checksumText_plain a)]
    simp [Env.debugStr]
  · have := debugStr_plain env b h
    simpa [Env.debugStr] using this

/-- C89: this error identifies the checksum and what was found. -/
theorem C89_checksum_tells (env : Env) (p q : Parser) (a b a' b' : Str) (hb : '*' ∉ b ∧ b ≠ [] ∧ b ≠ checksumText a ∧ Ascii b)
    (hb' : '*' ∉ b' ∧ b' ≠ [] ∧ b' ≠ checksumText a' ∧ Ascii b')
    (h : (parseSentence env p (a ++ '*' :: b)).1 = (parseSentence env q (a' ++ '*' :: b')).1) :
    checksumText a = checksumText a' ∧ b = b' := by
  obtain ⟨f, h1, -, h2⟩ := C89_checksum env p a b hb.1 hb.2.1 hb.2.2.1
  obtain ⟨f', h1', -, h2'⟩ := C89_checksum env q a' b' hb'.1 hb'.2.1 hb'.2.2.1
  rw [h1, h1'] at h
  injection h with h
  injection h with h
  simp only [List.append_assoc] at h
  have hl : (checksumText a).length = (checksumText a').length := rfl
  obtain ⟨e1, e2⟩ := List.append_inj (List.append_cancel_left h) hl
  have e3 := List.append_cancel_right (List.append_cancel_left e2)
  exact ⟨e1, literal_unique (h2 hb.2.2.2) (e3 ▸ h2' hb'.2.2.2)⟩

/-- The line terminator of NMEA 0183 left at the end: the text found is shown as `05\r\n`. -/
example : '*' ∉ c! "05\r\n" ∧ c! "05\r\n" ≠ [] ∧ c! "05\r\n" ≠ checksumText (c! "$GPVTG,021,T") ∧ Ascii (c! "05\r\n") ∧
    Literal (c! "05\\r\\n") (c! "05\r\n") :=
  ⟨by decide, by decide, by decide, by decide,
    .plain _ (by decide) (.plain _ (by decide) (.short _ _ (by decide) (.short _ _ (by decide) .nil)))⟩

/-- One wrong digit. -/
example (env : Env) (p : Parser) : (parseSentence env p (c! "$GPVTG,021,T*3A")).1 =
    .err (.corruptedSentence (c! "Corrupted NMEA sentence: \"" ++ checksumText (c! "$GPVTG,021,T") ++ c! "\" != \"3A\"")) := by
  obtain ⟨f, h, hf, -⟩ := C89_checksum env p (c! "$GPVTG,021,T") (c! "3A") (by decide) (by decide) (by decide)
  rw [hf (by decide)] at h
  rw [show c! "$GPVTG,021,T*3A" = c! "$GPVTG,021,T" ++ '*' :: c! "3A" from rfl, h]
  rfl

/-- C89: the error for a `$` sentence of another kind names the kind, without the talker. -/
theorem C89_gnss_kind (env : Env) (p : Parser) (talker kind : Str) (fs : List Str) (s : Str)
    (hk : byteLen kind = 3) (hc : ',' ∉ kind) (h : IsGnss talker kind fs s)
    (hn : kind ∉ [c! "GGA", c! "RMC", c! "GSA", c! "GSV", c! "VTG", c! "GLL"]) :
    (parseSentence env p s).1 = .err (.unsupportedSentenceType (refuseKind kind)) := by
  rw [eval_dollar env p talker kind fs s hk hc h, dispatch_refuse _ _ _ _ _ hn]

example : IsGnss (c! "GP") (c! "ZDA") [c! "1"] (c! "$GPZDA,1") ∧ refuseKind (c! "ZDA") = c! "Unimplemented NMEA sentence: $ZDA" :=
  ⟨demoTagged .bare (by decide), by decide⟩

/-- C89: the error for a `!` sentence of another kind names the kind, without the talker. -/
theorem C89_ais_kind (env : Env) (p : Parser) (talker kind : Str) (fs : List Str) (s : Str)
    (hk : byteLen kind = 3) (hc : ',' ∉ kind) (h : IsTagged '!' talker kind fs s)
    (hn : kind ≠ c! "VDM" ∧ kind ≠ c! "VDO") :
    (parseSentence env p s).1 = .err (.unsupportedSentenceType (c! "Unsupported sentence type: !" ++ kind)) := by
  rw [eval_bang env p talker kind fs s hk hc h]
  simp [dispatch, unimplementedTypes, hn.1, hn.2]

example (env : Env) (p : Parser) : (parseSentence env p (c! "!AIABM,1,1,0")).1 =
    .err (.unsupportedSentenceType (c! "Unsupported sentence type: !ABM")) :=
  C89_ais_kind env p (c! "AI") (c! "ABM") [c! "1", c! "1", c! "0"] _ (by decide) (by decide) (demoTagged .bare (by decide))
    (by decide)

theorem dispatchAis_text (env : Env) (ty : Str) (bv : Bits) (st : Station) (own : Bool) (p : Parser)
    (h : pickU64 bv 0 6 ∉ supportedTypes) :
    dispatchAis env ty bv st own p = (.err (.unsupportedSentenceType
      (if pickU64 bv 0 6 = 19 then c! "Unsupported AIVDM message type: 19"
        else c! "Unsupported " ++ ty ++ c! " message type: " ++ natStr (pickU64 bv 0 6))), p) := by
  simp only [dispatchAis]
  generalize ht : pickU64 bv 0 6 = t at h ⊢
  simp only [supportedTypes, List.mem_cons, List.not_mem_nil, or_false, not_or] at h
  split
  all_goals first
    | (exfalso; omega)
    | rfl
    | (rw [if_neg (by assumption)])

/-- C89: the error for an unsupported AIS message (in one sentence or in two parts, with any payload) names the kind of
the sentence and the message type; for type 19 it names `AIVDM`, whatever the sentence was. -/
theorem C89_message_type (env : Env) (p : Parser) (talker : Str) (own : Bool) (bits : List Bool) (s : Str)
    (h : DeliversBits env p s talker own bits) (hn : typeOf bits ∉ supportedTypes) :
    (parseSentence env p s).1 = .err (.unsupportedSentenceType
      (if typeOf bits = 19 then c! "Unsupported AIVDM message type: 19"
        else c! "Unsupported !" ++ aisKind own ++ c! " message type: " ++ natStr (typeOf bits))) := by
  have ht : pickU64 bits 0 6 = typeOf bits := pickU64_window _ _ _ (by decide)
  obtain ⟨q, -, he⟩ := eval_bits env p s talker own bits h
  rw [he, dispatchAis_text _ _ _ _ _ _ (by rw [ht]; exact hn), ht]
  simp

/-- A type 8 message of own vessel. -/
example (env : Env) (p : Parser) : (parseSentence env p (c! "!AIVDO,1,1,,A,85,0")).1 =
    .err (.unsupportedSentenceType (c! "Unsupported !VDO message type: 8")) :=
  C89_message_type env p _ _ _ _ (demoDelivers env p (c! "!AIVDO,1,1,,A,85,0") (c! "AI") true
    [c! "1", c! "1", [], c! "A", c! "85", c! "0"] .bare (by decide) rfl rfl (by decide)) (by decide)

/-- C89: the error for a type 24 message with part number 2 or 3 names the part number (and `AIVDM`, whatever the
sentence was). -/
theorem C89_part_number (env : Env) (p : Parser) (talker : Str) (own : Bool) (bits : List Bool) (s : Str)
    (h : DeliversBits env p s talker own bits) (ht : typeOf bits = 24) (hp : 2 ≤ partOf bits) :
    (parseSentence env p s).1 = .err (.invalidSentence
      (c! "AIVDM type 24 part number has unexpected value: " ++ natStr (partOf bits))) := by
  have ht' : pickU64 bits 0 6 = 24 := (pickU64_window _ _ _ (by decide)).trans ht
  have hp' : pickU64 bits 38 2 = partOf bits := pickU64_window _ _ _ (by decide)
  obtain ⟨q, -, he⟩ := eval_bits env p s talker own bits h
  rw [he]
  simp only [dispatchAis, ht', handleT24, hp']
  split
  · omega
  · omega
  · rfl

/-- Part number 2. -/
example (env : Env) (p : Parser) : (parseSentence env p (c! "!AIVDO,1,1,,A,H000008,0")).1 =
    .err (.invalidSentence (c! "AIVDM type 24 part number has unexpected value: 2")) := by
  have := C89_part_number env p _ _ _ _ (demoDelivers env p (c! "!AIVDO,1,1,,A,H000008,0") (c! "AI") true
    [c! "1", c! "1", [], c! "A", c! "H000008", c! "0"] .bare (by decide) rfl rfl (by decide)) (by decide) (by decide)
  rw [this, show partOf (payloadBits (field [c! "1", c! "1", [], c! "A", c! "H000008", c! "0"] 4)) = 2 by decide]
  decide

/-- C89: a fragment count or number that is not a number up to 255 is quoted, in both cases as `fragment
count`. -/
theorem C89_fragment_numbers (env : Env) (p : Parser) (talker : Str) (own : Bool) (fs : List Str) (s : Str)
    (h : IsAis talker own fs s) :
    ((∀ n, ¬ Dec 255 (field fs 0) n) →
      parseSentence env p s = (.err (.invalidSentence (c! "Failed to parse fragment count: " ++ field fs 0)), p)) ∧
    ((∃ n, Dec 255 (field fs 0) n) → 2 ≤ fs.length → (∀ n, ¬ Dec 255 (field fs 1) n) →
      parseSentence env p s = (.err (.invalidSentence (c! "Failed to parse fragment count: " ++ field fs 1)), p)) := by
  rw [eval_fields env p talker own fs s h, vdmLoop_fields _ _ h.2.2.1]
  constructor
  · intro h0
    rw [show parseU8 (field fs 0) = none from (parseUInt_none_iff 255 _).mpr h0]
  · rintro ⟨n, h0⟩ hl h1
    rw [(parseU8_iff _ _).mpr h0]
    simp only []
    rw [if_neg (by omega), show parseU8 (field fs 1) = none from (parseUInt_none_iff 255 _).mpr h1]

example : IsAis (c! "AI") false [c! "1", c! "x"] (c! "!AIVDM,1,x") ∧ Dec 255 (c! "1") 1 ∧ ∀ n, ¬ Dec 255 (c! "x") n :=
  ⟨demoTagged .bare (by decide), demoDec (by decide), (parseUInt_none_iff 255 _).mp (by decide)⟩

/-! ### GNSS fields -/

theorem firstFault_nil (m : Str) : ¬ FirstFault [] m := by
  rintro ⟨a, c, b, h, -⟩
  exact absurd h (by simp)

theorem firstFault_cons (c : Prop) (m' m : Str) (l : List (Prop × Str)) :
    FirstFault ((c, m') :: l) m ↔ (¬ c ∧ m = m') ∨ (c ∧ FirstFault l m) := by
  constructor
  · rintro ⟨a, c', b, h, h1, h2⟩
    cases a with
    | nil =>
      obtain ⟨h, -⟩ := List.cons.inj h
      cases h
      exact .inl ⟨h2, rfl⟩
    | cons x a =>
      obtain ⟨rfl, h'⟩ := List.cons.inj h
      exact .inr ⟨h1 (c, m') (by simp), a, c', b, h', fun y hy => h1 y (by simp [hy]), h2⟩
  · rintro (⟨h, rfl⟩ | ⟨hc, a, c', b, h, h1, h2⟩)
    · exact ⟨[], c, l, rfl, by simp, h⟩
    · exact ⟨(c, m') :: a, c', b, by rw [h]; rfl, by simpa [hc] using h1, h2⟩

theorem firstFault_append (l l' : List (Prop × Str)) (m : Str) :
    FirstFault (l ++ l') m ↔ FirstFault l m ∨ ((∀ x ∈ l, x.1) ∧ FirstFault l' m) := by
  induction l with
  | nil => simp [firstFault_nil]
  | cons x l ih =>
    rw [List.cons_append, firstFault_cons, firstFault_cons, ih]
    simp only [List.forall_mem_cons]
    tauto

theorem firstFault_none (l : List (Prop × Str)) : (¬ ∃ m, FirstFault l m) ↔ ∀ x ∈ l, x.1 := by
  induction l with
  | nil => simp [firstFault_nil]
  | cons x l ih =>
    obtain ⟨c, m'⟩ := x
    rw [List.forall_mem_cons, ← ih]
    simp only [firstFault_cons]
    by_cases hx : c <;> simp [hx]

/-- The result of a step that does not panic is an error exactly if one of the conditions fails, with the text of the first. -/
def Checks {α : Type} (x : Out ParseError α) (l : List (Prop × Str)) : Prop :=
  x ≠ .panic → ∀ e, x = .err e ↔ ∃ m, e = .invalidSentence m ∧ FirstFault l m

theorem checks_ok {α : Type} (a : α) : Checks (.ok a) [] := by
  intro _ e
  simp [firstFault_nil]

theorem checks_noErr {α : Type} (x : Out ParseError α) (h : ∀ e, x ≠ .err e) : Checks x [] := by
  intro _ e
  simp [firstFault_nil, h]

theorem checks_one {α : Type} (x : Out ParseError α) (c : Prop) (m : Str) (h1 : (∃ a, x = .ok a) ↔ c)
    (h2 : ∀ e, x = .err e → e = .invalidSentence m) : Checks x [(c, m)] := by
  intro hp e
  simp only [firstFault_cons, firstFault_nil, and_false, or_false]
  rw [← h1]
  cases x with
  | ok a => simp
  | panic => exact absurd rfl hp
  | err e' =>
    have := h2 e' rfl
    subst this
    simp [eq_comm]

theorem checks_bind {α β : Type} (x : Out ParseError α) (f : α → Out ParseError β) (l l' : List (Prop × Str)) (hx : x ≠ .panic)
    (h : Checks x l) (hf : ∀ a, x = .ok a → Checks (f a) l') : Checks (x >>= f) (l ++ l') := by
  intro hp e
  rw [Out.bind_eq_err]
  simp only [firstFault_append]
  cases hx' : x with
  | panic => exact absurd hx' hx
  | err e' =>
    have h0 : ¬ ∀ y ∈ l, y.1 := by
      rw [← firstFault_none, not_not]
      obtain ⟨m, -, hm⟩ := (h hx e').1 hx'
      exact ⟨m, hm⟩
    have := h hx e
    rw [hx'] at this
    simp only [this, h0, reduceCtorEq, false_and, exists_false, or_false]
  | ok a =>
    have h0 : ∀ y ∈ l, y.1 := by
      rw [← firstFault_none]
      rintro ⟨m, hm⟩
      have := (h hx (.invalidSentence m)).2 ⟨m, rfl, hm⟩
      rw [hx'] at this
      cases this
    have h1 : ∀ m, ¬ FirstFault l m := by
      have := (firstFault_none l).2 h0
      exact fun m hm => this ⟨m, hm⟩
    have h2 : f a ≠ .panic := by
      intro e
      rw [hx'] at hp
      exact hp ((Out.bind_eq_panic _ _).2 (.inr ⟨a, rfl, e⟩))
    have := hf a hx' h2 e
    simp only [reduceCtorEq, false_or, Out.ok.injEq, exists_eq_left', this, h1]
    exact exists_congr fun m => and_congr_right fun _ => ⟨fun h => ⟨h0, h⟩, fun h => h.2⟩

theorem checks_skip {α β : Type} (x : Out ParseError α) (f : α → Out ParseError β) (l : List (Prop × Str))
    (hx : ∀ e, x ≠ .err e) (hf : ∀ a, Checks (f a) l) : Checks (x >>= f) l := by
  intro hp e
  cases hx' : x with
  | panic => exact absurd (by rw [hx']; rfl) hp
  | err e' => exact absurd hx' (hx e')
  | ok a =>
    have e1 : (Out.ok a >>= f) = f a := rfl
    rw [hx', e1] at hp
    rw [e1]
    exact hf a hp e

theorem checks_num {α : Type} (f : Str → Option α) (t : Str) (fs : List Str) (i : Nat) (c : Prop)
    (h : (∃ a, numField f (t :: fs) (i + 1) = .ok a) ↔ c) : Checks (numField f (t :: fs) (i + 1))
      [(c, c! "Failed to parse field " ++ natStr (i + 1) ++ c! ": " ++ field fs i)] := by
  refine checks_one _ _ _ h fun e he => ?_
  rw [numField, liftErr_err] at he
  obtain ⟨m, h, rfl⟩ := he
  simp only [pickNumberField, fieldAt_cons_succ] at h
  split at h
  · split at h
    · cases h
    · cases h; rfl
  · cases h

theorem checks_u8 (t : Str) (fs : List Str) (i : Nat) : Checks (numField parseU8 (t :: fs) (i + 1)) [intFault 255 fs i] :=
  checks_num _ _ _ _ _ (by simp only [numField_int parseU8_iff, fieldAt_cons_succ])

theorem checks_u16 (t : Str) (fs : List Str) (i : Nat) : Checks (numField parseU16 (t :: fs) (i + 1)) [intFault 65535 fs i] :=
  checks_num _ _ _ _ _ (by simp only [numField_int parseU16_iff, fieldAt_cons_succ])

theorem checks_u32 (t : Str) (fs : List Str) (i : Nat) :
    Checks (numField parseU32 (t :: fs) (i + 1)) [intFault (2 ^ 32 - 1) fs i] :=
  checks_num _ _ _ _ _ (by simp only [numField_int parseU32_iff, fieldAt_cons_succ])

theorem checks_f64 (t : Str) (fs : List Str) (i : Nat) : Checks (numField F64.parse (t :: fs) (i + 1)) [numFault fs i] :=
  checks_num _ _ _ _ _ (by simp only [numField_f64, fieldAt_cons_succ])

theorem checks_lat (fs : List Str) (i : Nat) : Checks (liftErr (parseLatitude (field fs i) (field fs (i + 1)))) [latFault fs i] := by
  refine checks_one _ _ _ (by simp only [lat_ok]) fun e he => ?_
  rw [liftErr_err] at he
  obtain ⟨m, h, rfl⟩ := he
  simp only [parseLatitude] at h
  split at h
  · split at h
    · cases h
    · cases h; rfl
  · cases h

theorem checks_lon (fs : List Str) (i : Nat) : Checks (liftErr (parseLongitude (field fs i) (field fs (i + 1)))) [lonFault fs i] := by
  refine checks_one _ _ _ (by simp only [lon_ok]) fun e he => ?_
  rw [liftErr_err] at he
  obtain ⟨m, h, rfl⟩ := he
  simp only [parseLongitude] at h
  split at h
  · split at h
    · cases h
    · cases h; rfl
  · cases h

theorem checks_status (s : Str) : Checks (rmcStatus s)
    [(∃ x, LetterField statusTable s x, c! "Invalid RMC navigation receiver status: " ++ s)] := by
  refine checks_one _ _ _ (by simp only [rmcStatus_ok]) fun e he => ?_
  unfold rmcStatus at he
  repeat' split at he
  all_goals first | cases he; rfl | cases he

theorem checks_mode1 (s : Str) : Checks (gsaMode1 s) [(∃ x, LetterField modeTable s x, c! "Invalid GPGSA mode: " ++ s)] := by
  refine checks_one _ _ _ (by simp only [gsaMode1_ok]) fun e he => ?_
  unfold gsaMode1 at he
  repeat' split at he
  all_goals first | cases he; rfl | cases he

theorem checks_mode2 (s : Str) : Checks (gsaMode2 s) [(∃ x, LetterField fixTypes s x, c! "Invalid GPGSA fix type: " ++ s)] := by
  refine checks_one _ _ _ (by simp only [gsaMode2_ok]) fun e he => ?_
  unfold gsaMode2 at he
  repeat' split at he
  all_goals first | cases he; rfl | cases he

theorem checks_variation (t : Str) (fs : List Str) : Checks (rmcVariation (t :: fs)) [numFault fs 9,
    (field fs 9 = [] ∨ field fs 10 = c! "E" ∨ field fs 10 = c! "W", c! "Invalid RMC variation side: " ++ field fs 10)] := by
  refine checks_bind _ _ [_] [_] (numField_ne_panic _ _ _) (checks_f64 t fs 9) fun v hv => ?_
  rw [numField_f64, fieldAt_cons_succ] at hv
  have hne : ∀ d, NumberText (field fs 9) d → field fs 9 ≠ [] := by
    intro d hd e
    rw [e] at hd
    have := (f64_parse_iff [] d).2 hd
    cases this
  rcases hv with ⟨h9, rfl⟩ | ⟨d, hd, rfl⟩
  · refine checks_one _ _ _ ?_ ?_
    · simp [h9]
    · intro e he; cases he
  · refine checks_one _ _ _ ?_ ?_
    · simp only [fieldAt_cons_succ, hne d hd, false_or]
      split
      · simp [*]
      · split
        · simp [*]
        · simp [*]
    · intro e he
      simp only [fieldAt_cons_succ] at he
      split at he
      · cases he
      · split at he
        · cases he
        · cases he; rfl

theorem checks_prns (t : Str) (fs : List Str) (is : List Nat) :
    Checks (gsaPrns (t :: fs) (is.map (· + 1))) (is.map (intFault 255 fs)) := by
  induction is with
  | nil => exact checks_ok _
  | cons i is ih =>
    have hb : gsaPrns (t :: fs) ((i :: is).map (· + 1)) = (numField parseU8 (t :: fs) (i + 1) >>= fun v =>
        gsaPrns (t :: fs) (is.map (· + 1)) >>= fun r => .ok (match v with | some x => x :: r | none => r)) := by
      rw [List.map_cons, gsaPrns]
      split
      · cases numField parseU8 (t :: fs) (i + 1) with
        | ok v => cases gsaPrns (t :: fs) (is.map (· + 1)) <;> rfl
        | err e => rfl
        | panic => rfl
      · rename_i h
        rw [not_not] at h
        have : numField parseU8 (t :: fs) (i + 1) = .ok none := by
          rw [numField_int parseU8_iff]; exact .inl ⟨h, rfl⟩
        rw [this]
        show _ = (gsaPrns (t :: fs) (is.map (· + 1)) >>= fun r => .ok r)
        cases gsaPrns (t :: fs) (is.map (· + 1)) <;> rfl
    rw [hb]
    refine checks_bind _ _ [_] _ (numField_ne_panic _ _ _) (checks_u8 t fs i) fun v _ => ?_
    rw [← List.append_nil (is.map (intFault 255 fs))]
    exact checks_bind _ _ _ _ (gsaPrns_ne_panic _ _) ih fun r _ => checks_ok _

theorem gnss_checks (env : Env) (p : Parser) (talker kind : Str) (fs : List Str) (s : Str) (l : List (Prop × Str))
    (hl : (kind, l) ∈ faults fs) (h : IsGnss talker kind fs s) : Checks (parseSentence env p s).1 l := by
  simp only [faults, List.mem_cons, Prod.mk.injEq, List.not_mem_nil, or_false] at hl
  rcases hl with ⟨rfl, rfl⟩ | ⟨rfl, rfl⟩ | ⟨rfl, rfl⟩ | ⟨rfl, rfl⟩ | ⟨rfl, rfl⟩ | ⟨rfl, rfl⟩
  · rw [eval_gga env p talker fs s h]
    simp only [handleGga, gnss_split talker fs s _ (by decide) h, fieldAt_cons_succ]
    refine checks_skip _ _ _ (time_ne_err _ _) fun _ => ?_
    refine checks_bind _ _ [_] _ (lat_ne_panic _ _) (checks_lat fs 1) fun _ _ => ?_
    refine checks_bind _ _ [_] _ (lon_ne_panic _ _) (checks_lon fs 3) fun _ _ => ?_
    refine checks_bind _ _ [_] _ (numField_ne_panic _ _ _) (checks_u8 _ fs 5) fun _ _ => ?_
    refine checks_bind _ _ [_] _ (numField_ne_panic _ _ _) (checks_u8 _ fs 6) fun _ _ => ?_
    refine checks_bind _ _ [_] _ (numField_ne_panic _ _ _) (checks_f64 _ fs 7) fun _ _ => ?_
    refine checks_bind _ _ [_] _ (numField_ne_panic _ _ _) (checks_f64 _ fs 8) fun _ _ => ?_
    refine checks_bind _ _ [_] _ (numField_ne_panic _ _ _) (checks_f64 _ fs 10) fun _ _ => ?_
    refine checks_bind _ _ [_] _ (numField_ne_panic _ _ _) (checks_f64 _ fs 12) fun _ _ => ?_
    exact checks_bind _ _ [_] [] (numField_ne_panic _ _ _) (checks_u16 _ fs 13) fun _ _ => checks_ok _
  · rw [eval_rmc env p talker fs s h]
    simp only [handleRmc, gnss_split talker fs s _ (by decide) h, fieldAt_cons_succ]
    refine checks_skip _ _ _ (fun e => Out.toOpt_ne_err _ _) fun _ => ?_
    refine checks_bind _ _ [_] _ (letters_ne_panic _).1 (checks_status _) fun _ _ => ?_
    refine checks_bind _ _ [_] _ (lat_ne_panic _ _) (checks_lat fs 2) fun _ _ => ?_
    refine checks_bind _ _ [_] _ (lon_ne_panic _ _) (checks_lon fs 4) fun _ _ => ?_
    refine checks_bind _ _ [_] _ (numField_ne_panic _ _ _) (checks_f64 _ fs 6) fun _ _ => ?_
    refine checks_bind _ _ [_] _ (numField_ne_panic _ _ _) (checks_f64 _ fs 7) fun _ _ => ?_
    exact checks_bind _ _ [_, _] [] (rmcVariation_ne_panic _) (checks_variation _ fs) fun _ _ => checks_ok _
  · rw [eval_gsa env p talker fs s h]
    simp only [handleGsa, gnss_split talker fs s _ (by decide) h, fieldAt_cons_succ, List.append_assoc]
    refine checks_bind _ _ [_] _ (letters_ne_panic _).2.1 (checks_mode1 _) fun _ _ => ?_
    refine checks_bind _ _ [_] _ (letters_ne_panic _).2.2 (checks_mode2 _) fun _ _ => ?_
    refine checks_bind _ _ _ _ (gsaPrns_ne_panic _ _) (checks_prns _ fs (List.range' 2 12)) fun _ _ => ?_
    refine checks_bind _ _ [_] _ (numField_ne_panic _ _ _) (checks_f64 _ fs 14) fun _ _ => ?_
    refine checks_bind _ _ [_] _ (numField_ne_panic _ _ _) (checks_f64 _ fs 15) fun _ _ => ?_
    exact checks_bind _ _ [_] [] (numField_ne_panic _ _ _) (checks_f64 _ fs 16) fun _ _ => checks_ok _
  · cases eval_gnss env p talker _ fs s (by decide) (by decide) h with
    | gsv _ h' =>
      have hs := gnss_split talker fs s _ (by decide) h
      rw [h']
      have key : ∃ g : Out ParseError ParsedSentence, (∀ e, g ≠ .err e) ∧
          (handleGsv env.overflowChecks (join (tag '$' talker (c! "GSV")) fs) (talkerSystem talker) p).1 =
          (numField parseU32 (tag '$' talker (c! "GSV") :: fs) 1 >>= fun _ =>
            numField parseU32 (tag '$' talker (c! "GSV") :: fs) 2 >>= fun _ => g) := by
        simp only [handleGsv, hs]
        cases h1 : numField parseU32 (tag '$' talker (c! "GSV") :: fs) 1 with
        | err e => exact ⟨.panic, by simp, rfl⟩
        | panic => exact ⟨.panic, by simp, rfl⟩
        | ok mc =>
          cases h2 : numField parseU32 (tag '$' talker (c! "GSV") :: fs) 2 with
          | err e => exact ⟨.panic, by simp, rfl⟩
          | panic => exact ⟨.panic, by simp, rfl⟩
          | ok mn =>
            refine ⟨_, ?_, rfl⟩
            intro e
            dsimp only
            split
            · simp
            · split <;> simp
      obtain ⟨g, hg, key⟩ := key
      rw [key]
      refine checks_bind _ _ [_] _ (numField_ne_panic _ _ _) (checks_u32 _ fs 0) fun _ _ => ?_
      refine checks_bind _ _ [_] [] (numField_ne_panic _ _ _) (checks_u32 _ fs 1) fun _ _ => ?_
      exact checks_noErr _ hg
    | gga hk _ => exact absurd hk (by decide)
    | rmc hk _ => exact absurd hk (by decide)
    | gsa hk _ => exact absurd hk (by decide)
    | vtg hk _ => exact absurd hk (by decide)
    | gll hk _ => exact absurd hk (by decide)
    | other h1 => exact absurd h1 (by decide)
  · rw [eval_vtg env p talker fs s h]
    exact checks_ok _
  · rw [eval_gll env p talker fs s h]
    simp only [handleGll, gnss_split talker fs s _ (by decide) h, fieldAt_cons_succ]
    refine checks_bind _ _ [_] _ (lat_ne_panic _ _) (checks_lat fs 0) fun _ _ => ?_
    refine checks_bind _ _ [_] _ (lon_ne_panic _ _) (checks_lon fs 2) fun _ _ => ?_
    exact checks_skip _ _ _ (time_ne_err _ _) fun _ => checks_ok _

/-- C89: a GNSS sentence of a supported kind that does not panic is refused exactly if one of its fields is malformed, always
with `InvalidSentence`, and the text names the first malformed field. -/
theorem C89_gnss_fields (env : Env) (p : Parser) (talker kind : Str) (fs : List Str) (s : Str) (l : List (Prop × Str))
    (hl : (kind, l) ∈ faults fs) (h : IsGnss talker kind fs s) (hp : (parseSentence env p s).1 ≠ .panic) (e : ParseError) :
    (parseSentence env p s).1 = .err e ↔ ∃ m, e = .invalidSentence m ∧ FirstFault l m :=
  gnss_checks env p talker kind fs s l hl h hp e

/-- A refused sentence: the count can be read, the number cannot. -/
example : IsGnss (c! "GP") (c! "GSV") [c! "3", c! "x"] (c! "$GPGSV,3,x") ∧
    (c! "GSV", [intFault (2 ^ 32 - 1) [c! "3", c! "x"] 0, intFault (2 ^ 32 - 1) [c! "3", c! "x"] 1]) ∈ faults [c! "3", c! "x"] ∧
    (parseSentence demoEnv Parser.new (c! "$GPGSV,3,x")).1 = .err (.invalidSentence (c! "Failed to parse field 2: x")) ∧
    FirstFault [intFault (2 ^ 32 - 1) [c! "3", c! "x"] 0, intFault (2 ^ 32 - 1) [c! "3", c! "x"] 1]
      (c! "Failed to parse field 2: x") := by
  have hx : (parseSentence demoEnv Parser.new (c! "$GPGSV,3,x")).1 =
      .err (.invalidSentence (c! "Failed to parse field 2: x")) := by decide +kernel
  have h : IsGnss (c! "GP") (c! "GSV") [c! "3", c! "x"] (c! "$GPGSV,3,x") := demoTagged .bare (by decide)
  have hl : (c! "GSV", [intFault (2 ^ 32 - 1) [c! "3", c! "x"] 0, intFault (2 ^ 32 - 1) [c! "3", c! "x"] 1]) ∈
      faults [c! "3", c! "x"] := .tail _ (.tail _ (.tail _ (.head _)))
  obtain ⟨m, e, hm⟩ := (C89_gnss_fields demoEnv Parser.new _ _ _ _ _ hl h (by rw [hx]; simp) _).1 hx
  cases e
  exact ⟨h, hl, hx, hm⟩

end Nmea
