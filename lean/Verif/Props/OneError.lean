/-
C132: one falsified, lost or added character.
-/
import Verif.Props.LineEnd
import Verif.Spec.OneError

namespace Nmea
open Spec

instance : DecidablePred OneByte := fun _ => inferInstanceAs (Decidable (_ ∧ _))

theorem oneByte_mod {c : Char} (h : OneByte c) : c.toNat % 256 = c.toNat := Nat.mod_eq_of_lt (by have := h.2; omega)

theorem xorBytes_insert (u v : Str) {c : Char} (h : OneByte c) : xorBytes (u ++ c :: v) ≠ xorBytes (u ++ v) := by
  intro e
  simp only [xorBytes_append, xorBytes] at e
  have e := xor_cancel_left e
  have e : xorBytes v ^^^ (c.toNat % 256) = xorBytes v ^^^ 0 := by rw [Nat.xor_comm, e, Nat.xor_zero]
  have := xor_cancel_left e
  rw [oneByte_mod h] at this
  have := h.1
  omega

/-- The two digits of a checksum. -/
theorem checksumText_two (body : Str) : ∃ d e, checksumText body = [d, e] ∧ d ≠ '*' ∧ e ≠ '*' := by
  refine ⟨_, _, rfl, ?_, ?_⟩ <;> intro h <;> exact star_not_mem_checksumText body (by rw [checksumText, h]; simp)

theorem corrupted_other (env : Env) (p : Parser) (a b : Str) (hb : '*' ∉ b) (hne : b ≠ []) (hl : b.length ≠ 2) :
    ∃ m, parseSentence env p (a ++ '*' :: b) = (.err (.corruptedSentence m), p) :=
  C01_wrong_checksum_rejected env p a b hb hne fun h => hl (by rw [h]; rfl)

theorem one_error_cases (env : Env) (p : Parser) (lead : Char) (b s' : Str) (hb : b ≠ [])
    (hp : ∀ c ∈ lead :: b, OneByte c ∧ c ≠ '*') (he : OneError (finish (lead :: b) .full) s') :
    (∃ m, parseSentence env p s' = (.err (.corruptedSentence m), p)) ∨ Unnoticed (lead :: b) s' := by
  obtain ⟨d1, d2, hK, hd1, hd2⟩ := checksumText_two (lead :: b)
  generalize hs : finish (lead :: b) .full = s at he
  have hs : s = (lead :: b) ++ '*' :: checksumText (lead :: b) := hs ▸ rfl
  have change : ∀ w : Str, xorBytes w.tail ≠ xorBytes b →
      ∃ m, parseSentence env p (w ++ '*' :: checksumText (lead :: b)) = (.err (.corruptedSentence m), p) := by
    intro w hw
    exact (C116_exact env p (lead :: b) w).2 hw
  cases he with
  | falsified x y c c' h hn =>
    rcases List.append_eq_append_iff.mp hs with ⟨a', e1, e2⟩ | ⟨a', e1, e2⟩
    · cases a' with
      | nil =>
        simp only [List.nil_append, List.cons.injEq] at e2
        obtain ⟨rfl, rfl⟩ := e2
        simp only [List.append_nil] at e1
        rw [← e1]
        exact .inr (.star c' hn)
      | cons c0 a' =>
        simp only [List.cons_append, List.cons.injEq] at e2
        obtain ⟨rfl, rfl⟩ := e2
        cases x with
        | nil =>
          simp only [List.nil_append, List.cons.injEq] at e1
          obtain ⟨rfl, rfl⟩ := e1
          exact .inr (.first c' h (by simpa using hn.symm))
        | cons x0 x =>
          left
          have := C04_single_change_detected env p (x0 :: x) a' c c' (by simp) (by
            rw [oneByte_mod h, oneByte_mod (hp c (by rw [e1]; simp)).1]
            intro e
            exact hn (Char.toNat_inj.mp e))
          rw [← e1] at this
          simpa using this
    · cases a' with
      | nil =>
        simp only [List.nil_append, List.cons.injEq] at e2
        obtain ⟨rfl, rfl⟩ := e2
        simp only [List.append_nil] at e1
        rw [e1]
        exact .inr (.star c' hn)
      | cons c0 a' =>
        simp only [List.cons_append, List.cons.injEq] at e2
        obtain ⟨rfl, e2⟩ := e2
        rw [hK] at e2
        cases a' with
        | nil =>
          simp only [List.nil_append, List.cons.injEq] at e2
          obtain ⟨rfl, rfl⟩ := e2
          left
          subst e1
          by_cases hc : c' = '*'
          · subst hc
            have := corrupted_other env p (lead :: b ++ ['*']) [d2] (by simpa using hd2.symm) (by simp) (by simp)
            simpa using this
          · have := C01_wrong_checksum_rejected env p (lead :: b) [c', d2] (by simp [Ne.symm hc, hd2.symm]) (by simp)
              (by rw [hK]; simpa using hn)
            simpa using this
        | cons c1 a' =>
          cases a' with
          | nil =>
            simp only [List.cons_append, List.nil_append, List.cons.injEq] at e2
            obtain ⟨rfl, rfl, rfl⟩ := e2
            subst e1
            by_cases hc : c' = '*'
            · subst hc
              right
              have := Unnoticed.digit (body := lead :: b)
              rw [hK] at this
              simpa using this
            · left
              have := C01_wrong_checksum_rejected env p (lead :: b) [d1, c'] (by simp [Ne.symm hc, hd1.symm]) (by simp)
                (by rw [hK]; simpa using hn)
              simpa using this
          | cons c2 a' => simp at e2
  | lost x y c =>
    rcases List.append_eq_append_iff.mp hs with ⟨a', e1, e2⟩ | ⟨a', e1, e2⟩
    · cases a' with
      | nil =>
        simp only [List.nil_append, List.cons.injEq] at e2
        obtain ⟨rfl, rfl⟩ := e2
        simp only [List.append_nil] at e1
        rw [← e1]
        exact .inr .lost
      | cons c0 a' =>
        simp only [List.cons_append, List.cons.injEq] at e2
        obtain ⟨rfl, rfl⟩ := e2
        left
        cases x with
        | nil =>
          simp only [List.nil_append, List.cons.injEq] at e1
          obtain ⟨rfl, rfl⟩ := e1
          obtain ⟨b0, b, rfl⟩ := List.exists_cons_of_ne_nil hb
          refine change (b0 :: b) ?_
          have := xorBytes_insert [] b (hp b0 (by simp)).1
          simpa using this.symm
        | cons x0 x =>
          have hc := (hp c (by rw [e1]; simp)).1
          simp only [List.cons_append, List.cons.injEq] at e1
          obtain ⟨rfl, rfl⟩ := e1
          have := change (lead :: x ++ a') (by simpa using (xorBytes_insert x a' hc).symm)
          simpa using this
    · cases a' with
      | nil =>
        simp only [List.nil_append, List.cons.injEq] at e2
        obtain ⟨rfl, rfl⟩ := e2
        simp only [List.append_nil] at e1
        rw [e1]
        exact .inr .lost
      | cons c0 a' =>
        simp only [List.cons_append, List.cons.injEq] at e2
        obtain ⟨rfl, e2⟩ := e2
        rw [hK] at e2
        left
        cases a' with
        | nil =>
          simp only [List.nil_append, List.cons.injEq] at e2
          obtain ⟨rfl, rfl⟩ := e2
          subst e1
          have := corrupted_other env p (lead :: b) [d2] (by simpa using hd2.symm) (by simp) (by simp)
          simpa using this
        | cons c1 a' =>
          cases a' with
          | nil =>
            simp only [List.cons_append, List.nil_append, List.cons.injEq] at e2
            obtain ⟨rfl, rfl, rfl⟩ := e2
            subst e1
            have := corrupted_other env p (lead :: b) [d1] (by simpa using hd1.symm) (by simp) (by simp)
            simpa using this
          | cons c2 a' => simp at e2
  | added x y c h =>
    have inside : ∀ x a' : Str, lead :: b = x ++ a' →
        ∃ m, parseSentence env p ((x ++ c :: a') ++ '*' :: checksumText (lead :: b)) = (.err (.corruptedSentence m), p) := by
      intro x a' e
      refine change _ ?_
      cases x with
      | nil =>
        simp only [List.nil_append] at e
        subst e
        simpa using xorBytes_insert [] b (hp lead (by simp)).1
      | cons x0 x =>
        simp only [List.cons_append, List.cons.injEq] at e
        obtain ⟨rfl, rfl⟩ := e
        simpa using xorBytes_insert x a' h
    rcases List.append_eq_append_iff.mp hs with ⟨a', e1, e2⟩ | ⟨a', e1, e2⟩
    · subst e2
      left
      simpa using inside x a' e1
    · cases a' with
      | nil =>
        simp only [List.nil_append] at e2
        subst e2
        left
        simpa using inside x [] (by simpa using e1.symm)
      | cons c0 a' =>
        simp only [List.cons_append, List.cons.injEq] at e2
        obtain ⟨rfl, e2⟩ := e2
        subst e1
        cases a' with
        | nil =>
          simp only [List.nil_append] at e2
          subst e2
          left
          by_cases hc : c = '*'
          · subst hc
            simpa using inside (lead :: b) [] (by simp)
          · have := corrupted_other env p (lead :: b) (c :: checksumText (lead :: b))
              (by rw [hK]; simp [Ne.symm hc, hd1.symm, hd2.symm]) (by simp) (by rw [hK]; simp)
            simpa using this
        | cons c1 a' =>
          rw [hK] at e2
          simp only [List.cons_append, List.cons.injEq] at e2
          obtain ⟨rfl, e2⟩ := e2
          cases a' with
          | nil =>
            simp only [List.nil_append] at e2
            subst e2
            left
            by_cases hc : c = '*'
            · subst hc
              have := corrupted_other env p (lead :: b ++ ['*', d1]) [d2] (by simpa using hd2.symm) (by simp) (by simp)
              simpa using this
            · have := corrupted_other env p (lead :: b) [d1, c, d2]
                (by simp [Ne.symm hc, hd1.symm, hd2.symm]) (by simp) (by simp)
              simpa using this
          | cons c2 a' =>
            simp only [List.cons_append, List.cons.injEq, List.nil_eq, List.append_eq_nil_iff] at e2
            obtain ⟨rfl, rfl, rfl⟩ := e2
            by_cases hc : c = '*'
            · subst hc
              right
              have := Unnoticed.added (body := lead :: b)
              rw [hK] at this
              simpa using this
            · left
              have := corrupted_other env p (lead :: b) [d1, d2, c]
                (by simp [Ne.symm hc, hd1.symm, hd2.symm]) (by simp) (by simp)
              simpa using this

/-- C132: one falsified, lost or added character in a sentence with checksum is noticed unless the first character is
falsified, the `*` is falsified or lost, or the last character becomes a `*`. (All characters are single bytes without the
highest bit and not NUL.) -/
theorem C132_noticed (env : Env) (p : Parser) (lead : Char) (b s' : Str) (hb : b ≠ [])
    (hp : ∀ c ∈ lead :: b, OneByte c ∧ c ≠ '*') (he : OneError (finish (lead :: b) .full) s') :
    (∃ m, parseSentence env p s' = (.err (.corruptedSentence m), p)) ↔ ¬ Unnoticed (lead :: b) s' := by
  refine ⟨?_, fun h => (one_error_cases env p lead b s' hb hp he).resolve_right h⟩
  rintro ⟨m, hm⟩ hu
  obtain ⟨x, y, h1, h2, h3, h4⟩ := (C02_corrupted_iff env p s').mp ⟨m, by rw [hm]⟩
  have hst : '*' ∉ lead :: b := fun h => (hp '*' h).2 rfl
  have hk : '*' ∉ checksumText (lead :: b) := star_not_mem_checksumText _
  cases hu with
  | first c =>
    have e1 := splitChecksum_star x y h2
    rw [← h1, show c :: (lead :: b).tail ++ '*' :: checksumText (lead :: b) = (c :: b) ++ '*' :: checksumText (lead :: b) from rfl,
      splitChecksum_star _ _ hk] at e1
    cases e1
    exact h4 rfl
  | star c hc =>
    have : '*' ∈ lead :: b ++ c :: checksumText (lead :: b) := by rw [h1]; simp
    rcases List.mem_append.mp this with h | h
    · exact hst h
    · rcases List.mem_cons.mp h with h | h
      · exact hc h.symm
      · exact hk h
  | lost =>
    have : '*' ∈ lead :: b ++ checksumText (lead :: b) := by rw [h1]; simp
    rcases List.mem_append.mp this with h | h
    · exact hst h
    · exact hk h
  | digit =>
    have e1 := splitChecksum_star x y h2
    rw [← h1, splitChecksum_star _ _ (by simp)] at e1
    cases e1
    exact h3 rfl
  | added =>
    have e1 := splitChecksum_star x y h2
    rw [← h1, splitChecksum_star _ _ (by simp)] at e1
    cases e1
    exact h3 rfl

/-- Wrong in the speed: noticed. Wrong in the `*`: not noticed. -/
example (env : Env) (p : Parser) :
    (∃ m, parseSentence env p (c! "$GPVTG,,T,,M,013.5*4F") = (.err (.corruptedSentence m), p)) ∧
    ¬ ∃ m, parseSentence env p (c! "$GPVTG,,T,,M,012.5+4F") = (.err (.corruptedSentence m), p) := by
  have hb : ∀ c ∈ '$' :: c! "GPVTG,,T,,M,012.5", OneByte c ∧ c ≠ '*' := by decide +kernel
  have hf : finish ('$' :: c! "GPVTG,,T,,M,012.5") .full = c! "$GPVTG,,T,,M,012.5*4F" := by decide +kernel
  refine ⟨(C132_noticed env p '$' (c! "GPVTG,,T,,M,012.5") _ (by decide) hb ?_).mpr ?_,
    mt (C132_noticed env p '$' (c! "GPVTG,,T,,M,012.5") _ (by decide) hb ?_).mp (not_not.mpr ?_)⟩
  · rw [hf]
    exact .falsified (c! "$GPVTG,,T,,M,01") (c! ".5*4F") '2' '3' (by decide) (by decide)
  · intro h
    generalize hs : c! "$GPVTG,,T,,M,013.5*4F" = s at h
    cases h with
    | first c _ h => exact h (by simpa using congrArg List.head? hs)
    | star c h =>
      have := congrArg (List.take 16) hs
      simp at this
    | lost => exact absurd (congrArg (List.take 16) hs) (by decide)
    | digit => exact absurd (congrArg (List.take 16) hs) (by decide)
    | added => exact absurd (congrArg (List.take 16) hs) (by decide)
  · rw [hf]
    exact .falsified (c! "$GPVTG,,T,,M,012.5") (c! "4F") '*' '+' (by decide) (by decide)
  · have := Unnoticed.star (body := '$' :: c! "GPVTG,,T,,M,012.5") '+' (by decide)
    rwa [show checksumText ('$' :: c! "GPVTG,,T,,M,012.5") = c! "4F" by decide +kernel] at this

theorem comma_not_mem_checksumText (body : Str) : ',' ∉ checksumText body := by
  have hd : ∀ n < 16, hexDigits.getD n '?' ≠ ',' := by decide
  have hx := xorBytes_lt body.tail
  rw [checksumText]
  intro h
  rcases List.mem_cons.mp h with h | h
  · exact hd _ (by omega) h.symm
  · exact hd _ (by omega) (List.mem_singleton.mp h).symm

theorem join_last (t : Str) (g : List Str) (f u : Str) : join t (g ++ [f ++ u]) = join t (g ++ [f]) ++ u := by simp [join]

theorem join_more (t : Str) (g : List Str) (f u : Str) : join t (g ++ [f, u]) = join t (g ++ [f]) ++ ',' :: u := by simp [join]

theorem spare_same (env : Env) (p : Parser) {lead : Char} {talker kind : Str} {g m m' : List Str} {f s s' : Str}
    (hs : SpareLast lead kind (g ++ [f])) (h : IsTagged lead talker kind (g ++ m) s)
    (h' : IsTagged lead talker kind (g ++ m') s') : parseSentence env p s = parseSentence env p s' := by
  rcases hs with ⟨rfl, hk, hl⟩ | ⟨rfl, n, hn, hl⟩
  · obtain ⟨own, rfl⟩ : ∃ own, kind = aisKind own := by
      rcases hk with rfl | rfl
      · exact ⟨false, rfl⟩
      · exact ⟨true, rfl⟩
    exact C97_fields env p talker own g m m' s s' (by simp at hl; omega) h h'
  · refine C71_extra_fields env p talker kind _ _ s s' n hn h h' fun i hi => ?_
    simp only [List.length_append, List.length_cons, List.length_nil] at hl
    simp only [field, List.getD_eq_getElem?_getD]
    rw [List.getElem?_append_left (by omega), List.getElem?_append_left (by omega)]

theorem spare_kind {lead : Char} {kind : Str} {fs : List Str} (h : SpareLast lead kind fs) :
    byteLen kind = 3 ∧ ',' ∉ kind ∧ (lead = '!' ∧ kind ∉ gnssKinds ∨ lead = '$' ∧ kind ≠ c! "VDM" ∧ kind ≠ c! "VDO") ∧
      fs ≠ [] := by
  rcases h with ⟨rfl, rfl | rfl, hl⟩ | ⟨rfl, n, hn, hl⟩
  · exact ⟨by decide, by decide, by decide, by rintro rfl; simp at hl⟩
  · exact ⟨by decide, by decide, by decide, by rintro rfl; simp at hl⟩
  · have : kind ∈ [c! "GGA", c! "RMC", c! "GSA", c! "VTG", c! "GLL"] := by
      unfold usedFields at hn
      by_contra hc
      simp only [List.mem_cons, List.not_mem_nil, or_false, not_or] at hc
      obtain ⟨h1, h2, h3, h4, h5⟩ := hc
      simp only [List.lookup, beq_eq_false_iff_ne.mpr h1, beq_eq_false_iff_ne.mpr h2, beq_eq_false_iff_ne.mpr h3,
        beq_eq_false_iff_ne.mpr h4, beq_eq_false_iff_ne.mpr h5] at hn
      cases hn
    have hfs : fs ≠ [] := by rintro rfl; simp at hl
    simp only [List.mem_cons, List.not_mem_nil, or_false] at this
    rcases this with rfl | rfl | rfl | rfl | rfl <;> exact ⟨by decide, by decide, by decide, hfs⟩

/-- C132: a sentence with checksum whose last field is not used (an AIS sentence with fill bits, for instance) of which one
character is falsified, lost or added is either refused without effect or answered as if nothing had happened. (It is not
refused with an error but panics if it starts with a comma.) -/
theorem C132_no_wrong_report (env : Env) (p : Parser) (s s' : Str) (hp : Protected s) (he : OneError s s') :
    (∃ e, parseSentence env p s' = (.err e, p)) ∨ (parseSentence env p s' = (.panic, p) ∧ s'.head? = some ',') ∨
      parseSentence env p s' = parseSentence env p s := by
  obtain ⟨lead, talker, kind, fs, hb, ht, hc, hs, rfl⟩ := hp
  obtain ⟨hk3, hkc, hlead, hne⟩ := spare_kind hs
  obtain ⟨g, f, rfl⟩ : ∃ g f, fs = g ++ [f] := ⟨_, _, (List.dropLast_append_getLast hne).symm⟩
  have hcf : ',' ∉ f := hc f (by simp)
  have hcg : CommaFree g := fun y hy => hc y (by simp [hy])
  have hst : '*' ∉ join (tag lead talker kind) (g ++ [f]) := fun h => (hb '*' h).2 rfl
  have h0 : IsTagged lead talker kind (g ++ [f]) (finish (join (tag lead talker kind) (g ++ [f])) .full) :=
    ⟨ht, hc, hne, .full, by simp [Framed], rfl⟩
  obtain ⟨b, hjoin⟩ : ∃ b, join (tag lead talker kind) (g ++ [f]) = lead :: b := ⟨_, rfl⟩
  have hbne : b ≠ [] := by
    rintro rfl
    simp [join, tag] at hjoin
  have hcomma : ',' ∈ join (tag lead talker kind) (g ++ [f]) := by simp [join]
  -- text behind the last field
  have more : ∀ (u : Str) (e : Ending), ',' ∉ u → Framed (join (tag lead talker kind) (g ++ [f]) ++ u) e →
      parseSentence env p (finish (join (tag lead talker kind) (g ++ [f]) ++ u) e) =
        parseSentence env p (finish (join (tag lead talker kind) (g ++ [f])) .full) := by
    intro u e hu hf
    refine spare_same env p hs (m := [f ++ u]) ⟨ht, ?_, by simp, e, ?_, ?_⟩ h0
    · intro y hy
      rcases List.mem_append.mp hy with hy | hy
      · exact hcg y hy
      · rw [List.mem_singleton.mp hy]; simp [hcf, hu]
    · rw [join_last]; exact hf
    · rw [join_last]
  have hu := one_error_cases env p lead b s' hbne (by rw [← hjoin]; exact hb) (by rw [← hjoin]; exact he)
  rcases hu with ⟨m, hm⟩ | hu
  · exact .inl ⟨_, hm⟩
  have hkc' := comma_not_mem_checksumText (lead :: b)
  have hks' := star_not_mem_checksumText (lead :: b)
  obtain ⟨d1, d2, hK, hd1, hd2⟩ := checksumText_two (lead :: b)
  rw [← hjoin] at hu hkc' hks' hK
  cases hu with
  | first c hc1 hc2 =>
    have hcl : c ≠ lead := by
      rintro rfl
      exact hc2 (by rw [hjoin]; rfl)
    have hs' : c :: (join (tag lead talker kind) (g ++ [f])).tail ++ '*' :: checksumText (join (tag lead talker kind) (g ++ [f])) =
        finish (join (tag c talker kind) (g ++ [f])) .full := by
      have e : join (tag c talker kind) (g ++ [f]) = c :: (join (tag lead talker kind) (g ++ [f])).tail := rfl
      rw [e, finish]
      rfl
    have h1 : IsTagged c talker kind (g ++ [f]) (finish (join (tag c talker kind) (g ++ [f])) .full) :=
      ⟨ht, hc, hne, .full, by simp [Framed], rfl⟩
    rw [hs']
    by_cases h2 : c = '$'
    · subst h2
      rcases hlead with ⟨rfl, hk⟩ | ⟨rfl, -⟩
      · obtain ⟨m, hm⟩ := C10_other_gnss_kind env p talker kind _ _ hk3 hkc h1 hk
        exact .inl ⟨_, hm⟩
      · exact absurd rfl hcl
    by_cases h3 : c = '!'
    · subst h3
      rcases hlead with ⟨rfl, hk⟩ | ⟨rfl, hk⟩
      · exact absurd rfl hcl
      · obtain ⟨m, hm⟩ := C10_other_ais_kind env p talker kind _ _ hk3 hkc h1 hk
        exact .inl ⟨_, hm⟩
    have hform : ∃ x, finish (join (tag c talker kind) (g ++ [f])) .full = c :: x := ⟨_, rfl⟩
    obtain ⟨x, hx⟩ := hform
    obtain ⟨k1, -, k3⟩ := C131_no_start env p c x h2 h3
    have k3 := (k3 _ .full (by simp [Framed]) hx.symm).2 (by simp [join])
    rw [hx]
    by_cases h4 : c = ','
    · right; left
      exact ⟨Prod.ext (k3.1 (.inl h4)) k1, by rw [h4]; rfl⟩
    · obtain ⟨m, hm⟩ := k3.2 ⟨h4, hc1.2⟩
      exact .inl ⟨_, Prod.ext hm k1⟩
  | star c hcs =>
    right; right
    by_cases h2 : c = ','
    · subst h2
      refine spare_same env p hs (m := [f, checksumText (join (tag lead talker kind) (g ++ [f]))]) ⟨ht, ?_, by simp, .bare, ?_, ?_⟩ h0
      · intro y hy
        simp only [List.mem_append, List.mem_cons, List.not_mem_nil, or_false] at hy
        rcases hy with hy | rfl | rfl
        · exact hcg y hy
        · exact hcf
        · exact hkc'
      · intro _
        rw [join_more]
        simp only [List.mem_append, List.mem_cons, not_or]
        exact ⟨hst, by decide, hks'⟩
      · rw [join_more, finish]
    · exact more (c :: checksumText (join (tag lead talker kind) (g ++ [f]))) .bare
        (by simp only [List.mem_cons, not_or]; exact ⟨Ne.symm h2, hkc'⟩)
        (fun _ => by
          simp only [List.mem_append, List.mem_cons, not_or]
          exact ⟨hst, Ne.symm hcs, hks'⟩)
  | lost =>
    right; right
    exact more _ .bare hkc' (fun _ => by simp only [List.mem_append, not_or]; exact ⟨hst, hks'⟩)
  | digit =>
    right; right
    rw [hK] at hkc' ⊢
    have := more ['*', d1] .star (by
      simp only [List.mem_cons, not_or, List.not_mem_nil, not_false_eq_true, and_true] at hkc' ⊢
      exact ⟨by decide, hkc'.1⟩) (by simp [Framed])
    rw [← this, finish]
    simp
  | added =>
    right; right
    have := more ('*' :: checksumText (join (tag lead talker kind) (g ++ [f]))) .star (by
      simp only [List.mem_cons, not_or]; exact ⟨by decide, hkc'⟩) (by simp [Framed])
    rw [← this, finish]

theorem demo_protected : Protected (c! "!AIVDM,1,1,,A,15RTgt0PAso;90TKcjM8h6g208Ca,0*7A") ∧
    Protected (c! "$GPVTG,054.7,T,034.4,M,005.5,N,010.2,K,A,*09") :=
  ⟨⟨'!', c! "AI", c! "VDM", [c! "1", c! "1", [], c! "A", c! "15RTgt0PAso;90TKcjM8h6g208Ca", c! "0"], by decide +kernel,
    by decide, by decide, .inl ⟨rfl, .inl rfl, by decide⟩, by decide +kernel⟩,
   ⟨'$', c! "GP", c! "VTG", [c! "054.7", c! "T", c! "034.4", c! "M", c! "005.5", c! "N", c! "010.2", c! "K", c! "A", []],
    by decide +kernel, by decide, by decide, .inr ⟨rfl, 9, rfl, by decide⟩, by decide +kernel⟩⟩

/-- The `*` of an AIS sentence falsified, the start character of a VTG sentence lost. -/
example (env : Env) (p : Parser) :=
  And.intro (C132_no_wrong_report env p _ _ demo_protected.1
    (.falsified (c! "!AIVDM,1,1,,A,15RTgt0PAso;90TKcjM8h6g208Ca,0") (c! "7A") '*' 'j' (by decide) (by decide)))
  (C132_no_wrong_report env p _ _ demo_protected.2 (.lost [] (c! "GPVTG,054.7,T,034.4,M,005.5,N,010.2,K,A,*09") '$'))

/-- C132: of a stream of sentences as above, each of which arrives as sent or with one error, the parser reports what it
would report if those with a noticed error had been lost. -/
theorem C132_stream (p : Parser) (h h' : List (Env × Str)) (hd : Damaged h h') :
    ∃ k, k.Sublist h ∧ run p h' = run p k ∧ reported (answers p h') = reported (answers p k) := by
  induction hd generalizing p with
  | done => exact ⟨[], .refl _, rfl, rfl⟩
  | intact x _ ih =>
    obtain ⟨env, s⟩ := x
    obtain ⟨k, k1, k2, k3⟩ := ih (parseSentence env p s).2
    refine ⟨(env, s) :: k, k1.cons_cons _, k2, ?_⟩
    simp only [answers]
    cases (parseSentence env p s).1 <;> simp [reported, k3]
  | hit env hp he _ ih =>
    rename_i s s' h h' _
    rcases C132_no_wrong_report env p s s' hp he with ⟨e, hr⟩ | ⟨hr, -⟩ | hr
    · obtain ⟨k, k1, k2, k3⟩ := ih p
      refine ⟨k, k1.cons _, ?_, ?_⟩
      · simp only [run, hr, k2]
      · simp only [answers, hr, reported, k3]
    · obtain ⟨k, k1, k2, k3⟩ := ih p
      refine ⟨k, k1.cons _, ?_, ?_⟩
      · simp only [run, hr, k2]
      · simp only [answers, hr, reported, k3]
    · obtain ⟨k, k1, k2, k3⟩ := ih (parseSentence env p s).2
      refine ⟨(env, s) :: k, k1.cons_cons _, ?_, ?_⟩
      · simp only [run, hr, k2]
      · simp only [answers, hr]
        cases (parseSentence env p s).1 <;> simp [reported, k3]


example (p : Parser) := C132_stream p
  [(demoEnv, c! "!AIVDM,1,1,,A,15RTgt0PAso;90TKcjM8h6g208Ca,0*7A"), (demoEnv, c! "$GPVTG,054.7,T,034.4,M,005.5,N,010.2,K,A,*09")]
  [(demoEnv, c! "!AIVDM,1,1,,A,15RTgt0PAso;90TKcjM8h6g208Ca,07A"), (demoEnv, c! "$GPVTG,054.7,T,034.4,M,005.5,N,010.2,K,A,*9")]
  (.hit demoEnv demo_protected.1 (.lost (c! "!AIVDM,1,1,,A,15RTgt0PAso;90TKcjM8h6g208Ca,0") (c! "7A") '*')
    (.hit demoEnv demo_protected.2 (.lost (c! "$GPVTG,054.7,T,034.4,M,005.5,N,010.2,K,A,*") (c! "9") '0') .done))

/-- C132: a last field that is used is not protected. A GGA sentence that ends in an empty reference station (as it mostly
does): if the `*` is lost and the checksum has no letter, the checksum is reported as reference station. -/
theorem C132_reference_station (env : Env) (p : Parser) (talker : Str) (g : List Str) (s : Str) (d : GgaData) (hg : g.length = 13)
    (h : IsGnss talker (c! "GGA") (g ++ [[]]) s) (hs : '*' ∉ s) (hk : Digits (checksumText s))
    (hd : (parseSentence env p (s ++ '*' :: checksumText s)).1 = .ok (.gga d)) :
    (parseSentence env p (s ++ checksumText s)).1 = .ok (.gga { d with refStationId := some (decValue (checksumText s)) }) := by
  have hbare : s = join (tag '$' talker (c! "GGA")) (g ++ [[]]) := by
    obtain ⟨-, -, -, e, -, h5⟩ := h
    cases e with
    | bare => exact h5
    | star => exact absurd (by rw [h5]; simp [finish]) hs
    | full => exact absurd (by rw [h5]; simp [finish]) hs
  have hks := star_not_mem_checksumText s
  have hkc := comma_not_mem_checksumText s
  have hval : decValue (checksumText s) ≤ 65535 := by
    obtain ⟨a, b, e, -, -⟩ := checksumText_two s
    rw [e] at hk ⊢
    have key : ∀ x ∈ c! "0123456789", x.toNat - '0'.toNat ≤ 9 := by decide
    have h1 := key a (hk.2 a (by simp))
    have h2 := key b (hk.2 b (by simp))
    simp only [decValue, List.foldl_cons, List.foldl_nil]
    omega
  have hj : join (tag '$' talker (c! "GGA")) (g ++ [checksumText s]) = s ++ checksumText s := by
    have := join_last (tag '$' talker (c! "GGA")) g [] (checksumText s)
    rw [List.nil_append, ← hbare] at this
    exact this
  have h' : IsGnss talker (c! "GGA") (g ++ [checksumText s]) (s ++ checksumText s) := by
    refine ⟨h.1, ?_, by simp, .bare, fun _ => ?_, ?_⟩
    · intro y hy
      rcases List.mem_append.mp hy with hy | hy
      · exact h.2.1 y (by simp [hy])
      · rw [List.mem_singleton.mp hy]; exact hkc
    · rw [hj]
      simp only [List.mem_append, not_or]
      exact ⟨hs, hks⟩
    · rw [hj, finish]
  rw [(C03_correct_checksum_transparent env p s hs).1] at hd
  obtain ⟨d', e, a1, a2, a3, a4, a5, a6, a7, a8, a9, a10, a11⟩ := ((C65_contents env p talker _ _ h).2.1 _).mp hd
  cases e
  have hb := fun i hi => field_before g (checksumText s) [] i hi
  have hl := field_last g (checksumText s)
  rw [hg] at hb hl
  refine ((C65_contents env p talker _ _ h').2.1 _).mpr ⟨_, rfl, ?_⟩
  refine ⟨a1, by rw [hb _ (by decide)]; exact a2, ?_, ?_, by rw [hb _ (by decide)]; exact a5,
    by rw [hb _ (by decide)]; exact a6, by rw [hb _ (by decide)]; exact a7, by rw [hb _ (by decide)]; exact a8,
    by rw [hb _ (by decide)]; exact a9, by rw [hb _ (by decide)]; exact a10, ?_⟩
  · rw [hb _ (by decide), hb _ (by decide)]; exact a3
  · rw [hb _ (by decide), hb _ (by decide)]; exact a4
  · rw [hl]
    exact .inr ⟨_, ⟨_, .inl rfl, hk, rfl, hval⟩, rfl⟩

/-- The usual example of a GGA sentence: reference station 47. -/
example : ∃ d, (parseSentence demoEnv Parser.new (c! "$GPGGA,123519,4807.038,N,01131.000,E,1,08,0.9,545.4,M,46.9,M,,*47")).1 = .ok (.gga d) ∧
    d.refStationId = none ∧
    (parseSentence demoEnv Parser.new (c! "$GPGGA,123519,4807.038,N,01131.000,E,1,08,0.9,545.4,M,46.9,M,,47")).1 =
      .ok (.gga { d with refStationId := some 47 }) := by
  refine ⟨_, rfl, by decide +kernel, ?_⟩
  exact C132_reference_station demoEnv Parser.new (c! "GP")
    [c! "123519", c! "4807.038", c! "N", c! "01131.000", c! "E", c! "1", c! "08", c! "0.9", c! "545.4", c! "M", c! "46.9", c! "M", []]
    (c! "$GPGGA,123519,4807.038,N,01131.000,E,1,08,0.9,545.4,M,46.9,M,,") _ (by decide) (demoTagged .bare (by decide +kernel))
    (by decide) (by unfold Digits; decide +kernel) rfl

/-- C132: 'one falsified character in a sentence with checksum never gives a wrong value' is false: with an `e` for the `*`,
the vertical dilution of precision 2.1 becomes 2.1e39. -/
theorem C132_dilution_counterexample : ∃ d d' v v',
    OneError (c! "$GPGSA,A,3,04,05,,09,12,,,24,,,,,2.5,1.3,2.1*39") (c! "$GPGSA,A,3,04,05,,09,12,,,24,,,,,2.5,1.3,2.1e39") ∧
    (parseSentence demoEnv Parser.new (c! "$GPGSA,A,3,04,05,,09,12,,,24,,,,,2.5,1.3,2.1*39")).1 = .ok (.gsa d) ∧
    (parseSentence demoEnv Parser.new (c! "$GPGSA,A,3,04,05,,09,12,,,24,,,,,2.5,1.3,2.1e39")).1 = .ok (.gsa d') ∧
    d.vdop = some (.fin false v) ∧ v < 3 ∧ d'.vdop = some (.fin false v') ∧ 10 ^ 39 < v' :=
  ⟨_, _, 4728779608739021 / 2251799813685248, 2099999999999999858277676635183810347008, .falsified (c! "$GPGSA,A,3,04,05,,09,12,,,24,,,,,2.5,1.3,2.1") (c! "39") '*' 'e' (by decide) (by decide), rfl, rfl,
    by decide +kernel, by decide +kernel, by decide +kernel, by decide +kernel⟩

end Nmea
