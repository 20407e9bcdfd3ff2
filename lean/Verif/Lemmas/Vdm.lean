/-
The VDM/VDO arm, seen through the fields of the sentence.
-/
import Verif.Lemmas.Framing
import Verif.Lemmas.Ints

namespace Nmea
open Spec

theorem vdmLoop_skip (n : Nat) (v : VdmVars) (fs : List Str) (h : 6 ≤ n) : vdmLoop n v fs = .ok v := by
  induction fs generalizing n with
  | nil => rfl
  | cons f fs ih =>
    obtain ⟨k, rfl⟩ : ∃ k, n = k + 6 := ⟨n - 6, by omega⟩
    rw [vdmLoop]
    · exact ih _ (by omega)
    all_goals omega

/-- The loop, as a function of the fields. -/
theorem vdmLoop_fields (tag : Str) (fs : List Str) (hne : fs ≠ []) :
    vdmLoop 0 VdmVars.init (tag :: fs) =
      match parseU8 (field fs 0) with
      | none => .err (.invalidSentence (c! "Failed to parse fragment count: " ++ field fs 0))
      | some n =>
        if fs.length = 1 then .ok ⟨n, 0, none, none, []⟩
        else match parseU8 (field fs 1) with
          | none => .err (.invalidSentence (c! "Failed to parse fragment count: " ++ field fs 1))
          | some k => .ok ⟨n, k, parseU64 (field fs 2), fs[3]?, field fs 4⟩ := by
  have p64 : parseU64 [] = none := rfl
  cases fs with
  | nil => exact absurd rfl hne
  | cons f0 fs =>
    simp only [vdmLoop, field, List.getD_cons_zero]
    cases h0 : parseU8 f0 with
    | none => rfl
    | some n =>
      simp only []
      cases fs with
      | nil => simp [vdmLoop, VdmVars.init]
      | cons f1 fs =>
        simp only [vdmLoop, List.length_cons, List.getD_cons_succ, List.getD_cons_zero]
        cases h1 : parseU8 f1 with
        | none => simp
        | some k =>
          rw [if_neg (by omega)]
          simp only []
          rcases fs with _ | ⟨f2, _ | ⟨f3, _ | ⟨f4, fs⟩⟩⟩ <;>
            simp [vdmLoop, VdmVars.init, p64, vdmLoop_skip]

/-- What the VDM/VDO arm does with a complete payload. -/
def complete (env : Env) (own : Bool) (station : Station) (payload : Str) (p : Parser) :
    Out ParseError ParsedSentence × Parser :=
  match parsePayload env.overflowChecks payload with
  | .ok bv => dispatchAis env ('!' :: aisKind own) bv station own p
  | .err _ => (.ok .incomplete, p)
  | .panic => (.panic, p)

theorem parsePayload_ne_err (oc : Bool) (s : Str) (e : Str) : parsePayload oc s ≠ .err e := by
  induction s with
  | nil => simp [parsePayload]
  | cons c cs ih =>
    simp only [parsePayload]
    have h : ∀ e, armorValue oc c ≠ .err e := by
      intro e; simp only [armorValue]; split <;> (try split) <;> simp
    cases ha : armorValue oc c with
    | ok v =>
      simp only []
      cases hp : parsePayload oc cs with
      | ok b => simp
      | err e' => simp only [hp] at ih; simpa using ih
      | panic => simp
    | err e' => exact absurd ha (h e')
    | panic => simp

theorem own_decide (own : Bool) : decide ('!' :: aisKind own = c! "!VDO") = own := by
  cases own <;> decide

/-- The evaluation of an AIS sentence through its fields. -/
theorem eval_fields (env : Env) (p : Parser) (talker : Str) (own : Bool) (fs : List Str) (s : Str)
    (h : IsAis talker own fs s) :
    parseSentence env p s =
      match vdmLoop 0 VdmVars.init (tag '!' talker (aisKind own) :: fs) with
      | .err e => (.err e, p)
      | .panic => (.panic, p)
      | .ok v =>
        match assemble ('!' :: aisKind own) v p with
        | (none, p') => (.ok .incomplete, p')
        | (some payload, p') => complete env own (stationOf talker) payload p' := by
  rw [eval_ais env p talker own fs s h]
  obtain ⟨ht, hcf, hne, -⟩ := h
  simp only [handleVdm, splitChar_tag '!' talker (aisKind own) fs (by decide) ht (aisKind_noComma own) hcf,
    own_decide]
  rfl

/-- A sentence of an unfragmented message. -/
theorem eval_single (env : Env) (p : Parser) (talker : Str) (own : Bool) (fs : List Str) (s : Str)
    (h : IsAis talker own fs s) (h0 : Dec 255 (field fs 0) 1) (k : Nat) (h1 : Dec 255 (field fs 1) k) :
    parseSentence env p s = complete env own (stationOf talker) (field fs 4) p := by
  rw [eval_fields env p talker own fs s h, vdmLoop_fields _ _ h.2.2.1, (parseU8_iff _ _).mpr h0,
    (parseU8_iff _ _).mpr h1]
  simp only []
  split
  · rename_i h; split at h <;> cases h
  · rename_i h; split at h <;> cases h
  · rename_i v hv
    split at hv
    · rename_i hlen
      exfalso
      obtain ⟨f, rfl⟩ := List.length_eq_one_iff.mp hlen
      simp only [field, List.getD_cons_succ, List.getD_nil] at h1
      obtain ⟨ds, (hd | hd), ⟨hd1, -⟩, -⟩ := h1
      · exact hd1 hd.symm
      · cases hd
    · cases hv
      simp [assemble]

end Nmea
