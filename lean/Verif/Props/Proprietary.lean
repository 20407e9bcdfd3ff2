/-
C148: proprietary sentences.
-/
import Verif.Spec.Proprietary
import Verif.Props.Dispatch
import Verif.Props.Refused
import Verif.Props.Symmetry

namespace Nmea
open Spec

theorem letter_facts {c : Char} (h : 'A' ≤ c ∧ c ≤ 'Z') : c.utf8Size = 1 ∧ c ≠ ',' := by
  have h2 : c.val ≤ 90 := h.2
  have h1 : (65 : UInt32) ≤ c.val := h.1
  refine ⟨?_, ?_⟩
  · unfold Char.utf8Size
    rw [if_pos]
    exact UInt32.le_trans h2 (by decide)
  · rintro rfl
    exact absurd h1 (by decide)

theorem maker_cases {maker : Str} (h3 : maker.length = 3) (hm : ∀ c ∈ maker, 'A' ≤ c ∧ c ≤ 'Z') :
    ∃ a b c, maker = [a, b, c] ∧ (a.utf8Size = 1 ∧ a ≠ ',') ∧ (b.utf8Size = 1 ∧ b ≠ ',') ∧ (c.utf8Size = 1 ∧ c ≠ ',') := by
  match maker, h3 with
  | [a, b, c], _ =>
    exact ⟨a, b, c, rfl, letter_facts (hm a (by simp)), letter_facts (hm b (by simp)), letter_facts (hm c (by simp))⟩

theorem join_head (tag : Str) {fs : List Str} (hfs : fs ≠ []) : ∃ rest, join tag fs = tag ++ ',' :: rest := by
  cases fs with
  | nil => exact absurd rfl hfs
  | cons f fs => exact ⟨f ++ (fs.map (fun f => ',' :: f)).flatten, by simp [join]⟩

/-- C148: a proprietary sentence with nothing after the letters of the manufacturer, such as `$PUBX,00,...`, makes the call
panic. -/
theorem C148_no_id (env : Env) (p : Parser) (maker : Str) (fs : List Str) (s : Str) (h : Proprietary maker [] fs s) :
    parseSentence env p s = (.panic, p) := by
  obtain ⟨h3, hm, -, -, hfs, e, hf, rfl⟩ := h
  obtain ⟨a, b, c, rfl, ha, hb, hc⟩ := maker_cases h3 hm
  rw [parse_finish _ _ _ _ hf]
  obtain ⟨rest, hr⟩ := join_head (c! "$P" ++ [a, b, c] ++ []) hfs
  rw [hr]
  refine parseBody_badTag _ _ _ _ (by simp [Ne.symm ha.2, Ne.symm hb.2, Ne.symm hc.2]) (.inr (.inr ⟨'$', _, rfl, .inl rfl, .inl ?_⟩))
  show byteLen ['P', a, b, c] < 5
  simp only [byteLen_cons, byteLen_nil, ha.1, hb.1, hc.1]
  decide

/-- C148: with one more character it is treated as a standard sentence, whose talker is `P` and the first letter of the
manufacturer, and whose kind is the other two letters and the character. -/
theorem C148_as_standard (a b c i : Char) (fs : List Str) (s : Str) (hi : i.utf8Size = 1) (h : Proprietary [a, b, c] [i] fs s) :
    IsGnss ['P', a] [b, c, i] fs s ∧ talkerSystem ['P', a] = .other ∧ byteLen [b, c, i] = 3 ∧ ',' ∉ [b, c, i] := by
  obtain ⟨h3, hm, hic, hcf, hfs, e, hf, rfl⟩ := h
  obtain ⟨a', b', c', heq, ha, hb, hc⟩ := maker_cases h3 hm
  cases heq
  refine ⟨⟨⟨?_, by simp [Ne.symm ha.2]⟩, hcf, hfs, e, hf, rfl⟩, rfl, ?_, ?_⟩
  · simp only [byteLen_cons, byteLen_nil, ha.1]; decide
  · simp only [byteLen_cons, byteLen_nil, hb.1, hc.1, hi]
  · simpa [Ne.symm hb.2, Ne.symm hc.2] using hic

theorem standard_id {maker id : Str} (h3 : maker.length = 3) (hl : LooksStandard maker id) :
    ∃ i, id = [i] ∧ i.utf8Size = 1 := by
  match maker, h3 with
  | [a, b, c], _ =>
    unfold LooksStandard at hl
    simp only [List.drop_succ_cons, List.drop_zero, List.cons_append, List.nil_append, List.mem_cons, List.not_mem_nil, or_false,
      List.cons.injEq] at hl
    rcases hl with ⟨-, -, rfl⟩ | ⟨-, -, rfl⟩ | ⟨-, -, rfl⟩ | ⟨-, -, rfl⟩ | ⟨-, -, rfl⟩ | ⟨-, -, rfl⟩ <;> exact ⟨_, rfl, by decide⟩

/-- C148: otherwise it is refused as unsupported, and nothing changes. -/
theorem C148_refused (env : Env) (p : Parser) (maker id : Str) (fs : List Str) (s : Str) (h : Proprietary maker id fs s)
    (hid : id ≠ []) (hl : ¬ LooksStandard maker id) : ∃ m, parseSentence env p s = (.err (.unsupportedSentenceType m), p) := by
  have h' := h
  obtain ⟨h3, hm, hic, hcf, hfs, e, hf, rfl⟩ := h
  obtain ⟨a, b, c, rfl, ha, hb, hc⟩ := maker_cases h3 hm
  by_cases h1 : byteLen id = 1
  · obtain ⟨i, rfl, hi⟩ : ∃ i, id = [i] ∧ i.utf8Size = 1 := by
      match id, hid with
      | i :: r, _ =>
        rw [byteLen_cons] at h1
        have := Char.utf8Size_pos i
        cases r with
        | nil => exact ⟨i, rfl, by rw [byteLen_nil] at h1; omega⟩
        | cons j r =>
          rw [byteLen_cons] at h1
          have := Char.utf8Size_pos j
          omega
    obtain ⟨g1, -, g3, g4⟩ := C148_as_standard a b c i fs _ hi h'
    exact C10_other_gnss_kind env p _ _ fs _ g3 g4 g1 hl
  · obtain ⟨rest, hr⟩ := join_head (c! "$P" ++ [a, b, c] ++ id) hfs
    rw [hr] at hf ⊢
    refine C10_odd_tag env p _ rest e hf (by simpa [Ne.symm ha.2, Ne.symm hb.2, Ne.symm hc.2] using hic)
      (.inr ⟨'$', ['P', a, b, c] ++ id, rfl, .inl rfl, ?_, ['P', a], [b, c] ++ id, rfl, ?_⟩)
    · have h0 : byteLen id ≠ 0 := by
        intro h0
        match id, hid with
        | i :: r, _ =>
          rw [byteLen_cons] at h0
          have := Char.utf8Size_pos i
          omega
      simp only [List.cons_append, List.nil_append, byteLen_cons, ha.1, hb.1, hc.1]
      have : 'P'.utf8Size = 1 := by decide
      omega
    · simp only [byteLen_cons, byteLen_nil, ha.1]; decide

/-- C148: exactly which proprietary sentences are refused as unsupported. -/
theorem C148_exact (env : Env) (p : Parser) (maker id : Str) (fs : List Str) (s : Str) (h : Proprietary maker id fs s) :
    (∃ m, (parseSentence env p s).1 = .err (.unsupportedSentenceType m)) ↔ id ≠ [] ∧ ¬ LooksStandard maker id := by
  constructor
  · rintro ⟨m, hr⟩
    constructor
    · rintro rfl
      rw [C148_no_id env p maker fs s h] at hr
      cases hr
    · intro hl
      obtain ⟨i, rfl, hi⟩ := standard_id h.1 hl
      obtain ⟨a, b, c, rfl, -⟩ := maker_cases h.1 h.2.1
      obtain ⟨g1, -, g3, g4⟩ := C148_as_standard a b c i fs _ hi h
      exact C10_supported_gnss_kind env p (parseSentence env p s).2 _ _ fs s m g3 g4 g1 (Prod.ext hr rfl) hl
  · rintro ⟨h1, h2⟩
    obtain ⟨m, hm⟩ := C148_refused env p maker id fs s h h1 h2
    exact ⟨m, by rw [hm]⟩

/-- C148: Garmin's `$PGRMC` (configuration) is answered as an RMC sentence with the same fields is, but for the source. -/
theorem C148_garmin (env : Env) (p : Parser) (talker : Str) (fs : List Str) (s s' : Str)
    (h : Proprietary (c! "GRM") (c! "C") fs s) (h' : IsGnss talker (c! "RMC") fs s') :
    parseSentence env p s = (onReport (withSource .other) (parseSentence env p s').1, (parseSentence env p s').2) := by
  obtain ⟨g1, g2, -, -⟩ := C148_as_standard 'G' 'R' 'M' 'C' fs s (by decide) h
  have := C95_source env p talker ['P', 'G'] (c! "RMC") fs s' s (by decide) h' g1
  rw [this, g2]

/-- Sentences of u-blox and Trimble, whose tags end with the manufacturer; of Garmin, MediaTek and SiRF. -/
example : Proprietary (c! "UBX") [] [c! "00", c! "081350.00"] (c! "$PUBX,00,081350.00*3E") ∧
    Proprietary (c! "TNL") [] [c! "GGK", c! "102939.00"] (c! "$PTNL,GGK,102939.00") ∧
    (Proprietary (c! "GRM") (c! "C") [c! "A", c! "218.8"] (c! "$PGRMC,A,218.8") ∧ LooksStandard (c! "GRM") (c! "C")) ∧
    (Proprietary (c! "GRM") (c! "E") [c! "15.0", c! "M"] (c! "$PGRME,15.0,M") ∧ ¬ LooksStandard (c! "GRM") (c! "E")) ∧
    (Proprietary (c! "MTK") (c! "001") [c! "604", c! "3"] (c! "$PMTK001,604,3*32") ∧ ¬ LooksStandard (c! "MTK") (c! "001")) ∧
    (Proprietary (c! "SRF") (c! "103") [c! "00"] (c! "$PSRF103,00") ∧ ¬ LooksStandard (c! "SRF") (c! "103")) := by
  refine ⟨⟨rfl, by decide, by decide, by decide, by decide, .full, by decide, by decide +kernel⟩,
    ⟨rfl, by decide, by decide, by decide, by decide, .bare, by decide, by decide +kernel⟩,
    ⟨⟨rfl, by decide, by decide, by decide, by decide, .bare, by decide, by decide +kernel⟩, by unfold LooksStandard; decide⟩,
    ⟨⟨rfl, by decide, by decide, by decide, by decide, .bare, by decide, by decide +kernel⟩, by unfold LooksStandard; decide⟩,
    ⟨⟨rfl, by decide, by decide, by decide, by decide, .full, by decide, by decide +kernel⟩, by unfold LooksStandard; decide⟩,
    ⟨⟨rfl, by decide, by decide, by decide, by decide, .bare, by decide, by decide +kernel⟩, by unfold LooksStandard; decide⟩⟩

/-- What Garmin's sentences are answered with. -/
example : (parseSentence demoEnv Parser.new (c! "$PGRMC,A,218.8,100")).1 =
      .err (.invalidSentence (c! "Invalid RMC navigation receiver status: 218.8")) ∧
    (parseSentence demoEnv Parser.new (c! "$PGRME,15.0,M")).1 = .err (.unsupportedSentenceType (c! "Unsupported sentence type: $RME")) := by
  decide +kernel

/-- C148: so "proprietary sentences are refused as unsupported" is false. -/
theorem C148_counterexample : ¬ ∀ (env : Env) (maker id : Str) (fs : List Str) (s : Str), Proprietary maker id fs s →
    ∃ m, (parseSentence env Parser.new s).1 = .err (.unsupportedSentenceType m) := by
  intro H
  obtain ⟨m, hm⟩ := H demoEnv (c! "UBX") [] [c! "00", c! "081350.00"] (c! "$PUBX,00,081350.00")
    ⟨rfl, by decide, by decide, by decide, by decide, .bare, by decide, by decide +kernel⟩
  rw [C148_no_id demoEnv Parser.new (c! "UBX") [c! "00", c! "081350.00"] _
    ⟨rfl, by decide, by decide, by decide, by decide, .bare, by decide, by decide +kernel⟩] at hm
  cases hm

end Nmea
