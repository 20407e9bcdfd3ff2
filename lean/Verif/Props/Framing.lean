/-
C01-C06: checksum and comma.
-/
import Verif.Lemmas.Framing
import Verif.Lemmas.OutMonad
import Verif.Spec.Demo

namespace Nmea
open Spec

/-- C01: a non-empty text after the last `*` that is not the checksum is rejected, and nothing changes. -/
theorem C01_wrong_checksum_rejected (env : Env) (p : Parser) (a b : Str) (hb : '*' ∉ b) (hne : b ≠ [])
    (hbad : b ≠ checksumText a) :
    ∃ msg, parseSentence env p (a ++ '*' :: b) = (.err (.corruptedSentence msg), p) :=
  ⟨_, parse_corrupted env p a b hb hne hbad⟩

/-- A received sentence whose last checksum digit is wrong (it should be 47), in any state. -/
example (p : Parser) : ∃ msg, parseSentence demoEnv p
    (c! "$GPGGA,123519,4807.038,N,01131.000,E,1,08,0.9,545.4,M,46.9,M,," ++ '*' :: c! "48") =
      (.err (.corruptedSentence msg), p) :=
  C01_wrong_checksum_rejected _ _ _ _ (by decide) (by decide) (by decide +kernel)

/-- C03: the three endings are interchangeable. -/
theorem C03_correct_checksum_transparent (env : Env) (p : Parser) (body : Str) (h : '*' ∉ body) :
    parseSentence env p (body ++ '*' :: checksumText body) = parseSentence env p body ∧
    parseSentence env p (body ++ ['*']) = parseSentence env p body := by
  have h1 := parse_finish env p body .bare (fun _ => h)
  have h2 := parse_finish env p body .full (fun h => by cases h)
  have h3 := parse_finish env p body .star (fun h => by cases h)
  exact ⟨h2.trans h1.symm, h3.trans h1.symm⟩

/-- The sentence of the crate's documentation with and without its checksum 47. -/
example (env : Env) (p : Parser) :
    parseSentence env p (c! "$GPGGA,123519,4807.038,N,01131.000,E,1,08,0.9,545.4,M,46.9,M,,*47") =
      parseSentence env p (c! "$GPGGA,123519,4807.038,N,01131.000,E,1,08,0.9,545.4,M,46.9,M,,") := by
  have h := (C03_correct_checksum_transparent env p
    (c! "$GPGGA,123519,4807.038,N,01131.000,E,1,08,0.9,545.4,M,46.9,M,,") (by decide)).1
  rwa [show checksumText (c! "$GPGGA,123519,4807.038,N,01131.000,E,1,08,0.9,545.4,M,46.9,M,,") = c! "47" by
    decide +kernel] at h

/-- C03, for a body that may itself contain `*`: the correct checksum and the lone `*` agree. -/
theorem C03_star_and_full_agree (env : Env) (p : Parser) (body : Str) :
    parseSentence env p (body ++ '*' :: checksumText body) = parseSentence env p (body ++ ['*']) := by
  have h2 := parse_finish env p body .full (fun h => by cases h)
  have h3 := parse_finish env p body .star (fun h => by cases h)
  exact h2.trans h3.symm

/-- The sentence and its checksum 47 of the crate's documentation. -/
example : let body := c! "$GPGGA,123519,4807.038,N,01131.000,E,1,08,0.9,545.4,M,46.9,M,,"
    '*' ∉ body ∧ checksumText body = c! "47" := by decide +kernel

theorem xorBytes_append (a b : Str) : xorBytes (a ++ b) = xorBytes a ^^^ xorBytes b := by
  induction a with
  | nil => simp [xorBytes]
  | cons c cs ih => simp only [List.cons_append, xorBytes, ih, Nat.xor_assoc]

theorem xor_cancel_left {a b c : Nat} (h : a ^^^ b = a ^^^ c) : b = c := by
  have := congrArg (fun n => a ^^^ n) h
  simpa [← Nat.xor_assoc] using this

theorem hexDigits_inj (m n : Nat) (hm : m < 16) (hn : n < 16)
    (h : hexDigits.getD m '?' = hexDigits.getD n '?') : m = n := by
  have : ∀ m n : Fin 16, hexDigits.getD m '?' = hexDigits.getD n '?' → m = n := by decide
  have := this ⟨m, hm⟩ ⟨n, hn⟩ h
  simpa using this

theorem checksumText_inj (a b : Str) (h : checksumText a = checksumText b) :
    xorBytes a.tail = xorBytes b.tail := by
  have ha := xorBytes_lt a.tail
  have hb := xorBytes_lt b.tail
  simp only [checksumText, List.cons.injEq, and_true] at h
  have h1 := hexDigits_inj _ _ (by omega) (by omega) h.1
  have h2 := hexDigits_inj _ _ (by omega) (by omega) h.2
  omega

/-- C04: replacing one character after the first by one with another low byte is detected. -/
theorem C04_single_change_detected (env : Env) (p : Parser) (x y : Str) (c c' : Char) (hx : x ≠ [])
    (hc : c'.toNat % 256 ≠ c.toNat % 256) :
    ∃ msg, parseSentence env p ((x ++ c' :: y) ++ '*' :: checksumText (x ++ c :: y)) =
      (.err (.corruptedSentence msg), p) := by
  apply C01_wrong_checksum_rejected
  · exact star_not_mem_checksumText _
  · exact checksumText_ne_nil _
  · intro h
    have h := checksumText_inj _ _ h
    obtain ⟨x0, xs, rfl⟩ := List.exists_cons_of_ne_nil hx
    simp only [List.cons_append, List.tail_cons, xorBytes_append, xorBytes] at h
    have h := xor_cancel_left h
    rw [Nat.xor_comm, Nat.xor_comm (c'.toNat % 256)] at h
    have h := xor_cancel_left h
    exact hc h.symm

/-- The digit 5 of the speed 012.5 changed to 7. -/
example (env : Env) (p : Parser) : ∃ msg, parseSentence env p
    (c! "$GPVTG,,T,,M,012.7,N,,K" ++ '*' :: checksumText (c! "$GPVTG,,T,,M,012.5,N,,K")) =
      (.err (.corruptedSentence msg), p) :=
  C04_single_change_detected env p (c! "$GPVTG,,T,,M,012.") (c! ",N,,K") '5' '7' (by decide) (by decide)

/-- C04: changing the checksum digits (to anything non-empty without `*`) is detected. -/
theorem C04_digit_change_detected (env : Env) (p : Parser) (body d : Str) (hne : d ≠ []) (hs : '*' ∉ d)
    (hd : d ≠ checksumText body) :
    ∃ msg, parseSentence env p (body ++ '*' :: d) = (.err (.corruptedSentence msg), p) :=
  C01_wrong_checksum_rejected env p body d hs hne hd

/-- One checksum digit lost. -/
example (env : Env) (p : Parser) : ∃ msg, parseSentence env p (c! "$GPVTG,,T,,M,012.5,N,,K" ++ '*' :: c! "4") =
    (.err (.corruptedSentence msg), p) :=
  C04_digit_change_detected env p _ _ (by decide) (by decide) (by decide +kernel)

theorem checksumText_first (body : Str) (c c' : Char) :
    checksumText (c :: body) = checksumText (c' :: body) := rfl

theorem checksumText_transposed (x y z : Str) (c d : Char) (hx : x ≠ []) :
    checksumText (x ++ c :: y ++ d :: z) = checksumText (x ++ d :: y ++ c :: z) := by
  have : xorBytes (x ++ c :: y ++ d :: z).tail = xorBytes (x ++ d :: y ++ c :: z).tail := by
    obtain ⟨x0, xs, rfl⟩ := List.exists_cons_of_ne_nil hx
    simp only [List.cons_append, List.append_assoc, List.tail_cons, xorBytes_append, xorBytes]
    congr 1
    ac_rfl
  simp only [checksumText, this]

/-- C04, limits: two exchanged digits of a speed give another accepted sentence with another result. -/
theorem C04_transposition_counterexample :
    let s1 := c! "$GPVTG,,T,,M,012.5,N,,K"
    let s2 := c! "$GPVTG,,T,,M,021.5,N,,K"
    (parseSentence demoEnv Parser.new (s2 ++ '*' :: checksumText s1)).1 ≠
      (parseSentence demoEnv Parser.new (s1 ++ '*' :: checksumText s1)).1 ∧
    ∃ d, (parseSentence demoEnv Parser.new (s2 ++ '*' :: checksumText s1)).1 = .ok (.vtg d) := by
  refine ⟨by decide +kernel, ⟨.gps, none, none, some (.fin false (mkRat 43 2)), none, none⟩, ?_⟩
  decide +kernel

/-- C04, limits: a star in place of the second checksum digit switches the check off, so a sentence with
a changed body is then accepted. -/
theorem C04_star_digit_counterexample :
    ∃ d, (parseSentence demoEnv Parser.new (c! "$GPVTG,,T,,M,999.5,N,,K*4*")).1 = .ok (.vtg d) :=
  ⟨⟨.gps, none, none, some (.fin false (mkRat 1999 2)), none, none⟩, by decide +kernel⟩

/-- C05: no comma before the last `*`, nothing wrong with the checksum. -/
theorem C05_no_comma_invalid (env : Env) (p : Parser) (body : Str) (e : Ending) (hf : Framed body e)
    (hc : ',' ∉ body) :
    ∃ msg, parseSentence env p (finish body e) = (.err (.invalidSentence msg), p) := by
  rw [parse_finish _ _ _ _ hf, parseBody_noComma _ _ _ hc]
  exact ⟨_, rfl⟩

/-- A text without comma but with its correct checksum. -/
example (env : Env) (p : Parser) : ∃ msg, parseSentence env p (finish (c! "hello world") .full) =
    (.err (.invalidSentence msg), p) :=
  C05_no_comma_invalid env p _ _ (fun h => by cases h) (by decide)

/-- C06: any further text after the two correct checksum digits is rejected. -/
theorem C06_nothing_after_checksum (env : Env) (p : Parser) (body t : Str) (hne : t ≠ []) (hs : '*' ∉ t) :
    ∃ msg, parseSentence env p (body ++ '*' :: (checksumText body ++ t)) =
      (.err (.corruptedSentence msg), p) := by
  apply C01_wrong_checksum_rejected
  · simp [star_not_mem_checksumText, hs]
  · simp [hne]
  · intro h
    exact hne (by simpa using h)

/-- The line terminator of NMEA 0183 left at the end. -/
example (env : Env) (p : Parser) : ∃ msg, parseSentence env p
    (c! "$GPVTG,,T,,M,012.5,N,,K" ++ '*' :: (checksumText (c! "$GPVTG,,T,,M,012.5,N,,K") ++ ['\r', '\n'])) =
      (.err (.corruptedSentence msg), p) :=
  C06_nothing_after_checksum env p _ _ (by decide) (by decide)

/-- C06: lower-case digits are rejected too, whenever the checksum has a letter. -/
theorem C06_lower_case_rejected (env : Env) (p : Parser) (body d : Str)
    (hd : d = (checksumText body).map Char.toLower) (hl : d ≠ checksumText body) :
    ∃ msg, parseSentence env p (body ++ '*' :: d) = (.err (.corruptedSentence msg), p) := by
  apply C01_wrong_checksum_rejected _ _ _ _ ?_ ?_ hl
  · subst hd
    have h := xorBytes_lt body.tail
    have key : ∀ n : Fin 16, Char.toLower (hexDigits.getD n '?') ≠ '*' := by decide
    simp only [checksumText, List.map_cons, List.map_nil, List.mem_cons, List.not_mem_nil, or_false, not_or]
    exact ⟨(key ⟨_, by omega⟩).symm, (key ⟨_, by omega⟩).symm⟩
  · subst hd; simp [checksumText]

/-- The checksum 4C written as 4c. -/
example (env : Env) (p : Parser) : ∃ msg, parseSentence env p (c! "$GPVTG,,T,,M,,N,,I" ++ '*' :: c! "4c") =
    (.err (.corruptedSentence msg), p) :=
  C06_lower_case_rejected env p _ _ (by decide +kernel) (by decide +kernel)

end Nmea
