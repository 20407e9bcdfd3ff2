/-
Dispatch on the sentence type.
-/
import Verif.Lemmas.Results

namespace Nmea
open Spec

theorem navSystemOf_eq (t : Str) : navSystemOf t = talkerSystem t := by
  unfold navSystemOf talkerSystem systemTable
  simp only [List.lookup]
  repeat' split
  all_goals simp_all

theorem stationOf_eq (t : Str) : stationOf t = talkerStation t := by
  unfold stationOf talkerStation stationTable
  simp only [List.lookup]
  repeat' split
  all_goals simp_all

/-- Evaluation of a `$` sentence. -/
inductive DollarEval (env : Env) (p : Parser) (kind body : Str) (nav : NavigationSystem)
    (x : Out ParseError ParsedSentence × Parser) : Prop where
  | gga (hk : kind = c! "GGA") (h : x = (handleGga env.now body nav, p))
  | rmc (hk : kind = c! "RMC") (h : x = (handleRmc env.now body nav, p))
  | gsa (hk : kind = c! "GSA") (h : x = (handleGsa body nav, p))
  | gsv (hk : kind = c! "GSV") (h : x = handleGsv env.overflowChecks body nav p)
  | vtg (hk : kind = c! "VTG") (h : x = (handleVtg body nav, p))
  | gll (hk : kind = c! "GLL") (h : x = (handleGll env.now body nav, p))
  | other (hk : kind ∉ gnssKinds) (h : ∃ m, x = (.err (.unsupportedSentenceType m), p))

theorem dispatch_dollar (env : Env) (p : Parser) (kind body : Str) (nav : NavigationSystem) :
    DollarEval env p kind body nav (dispatch env p ('$' :: kind) body (some nav) none) := by
  by_cases h1 : kind = c! "GGA"
  · exact .gga h1 (by simp [dispatch, h1])
  by_cases h2 : kind = c! "RMC"
  · exact .rmc h2 (by simp [dispatch, h2])
  by_cases h3 : kind = c! "GSA"
  · exact .gsa h3 (by simp [dispatch, h3])
  by_cases h4 : kind = c! "GSV"
  · exact .gsv h4 (by simp [dispatch, h4])
  by_cases h5 : kind = c! "VTG"
  · exact .vtg h5 (by simp [dispatch, h5])
  by_cases h6 : kind = c! "GLL"
  · exact .gll h6 (by simp [dispatch, h6])
  refine .other (by simp [gnssKinds, h1, h2, h3, h4, h5, h6]) ?_
  unfold dispatch
  rw [if_neg (by simpa using h1), if_neg (by simpa using h2), if_neg (by simpa using h3),
    if_neg (by simpa using h4), if_neg (by simpa using h5), if_neg (by simpa using h6)]
  split
  · exact ⟨_, rfl⟩
  · rw [if_neg (by simp)]
    exact ⟨_, rfl⟩

theorem eval_gnss (env : Env) (p : Parser) (talker kind : Str) (fs : List Str) (s : Str)
    (hk : byteLen kind = 3) (hc : ',' ∉ kind) (h : IsGnss talker kind fs s) :
    DollarEval env p kind (join (tag '$' talker kind) fs) (talkerSystem talker) (parseSentence env p s) := by
  rw [eval_dollar env p talker kind fs s hk hc h, navSystemOf_eq]
  exact dispatch_dollar _ _ _ _ _

/-- Evaluation of a `!` sentence. -/
inductive BangEval (env : Env) (p : Parser) (kind body : Str) (st : Station)
    (x : Out ParseError ParsedSentence × Parser) : Prop where
  | ais (own : Bool) (hk : kind = aisKind own) (h : x = handleVdm env ('!' :: aisKind own) body st p)
  | other (hk : ∀ own, kind ≠ aisKind own) (h : ∃ m, x = (.err (.unsupportedSentenceType m), p))

theorem dispatch_bang (env : Env) (p : Parser) (kind body : Str) (st : Station) :
    BangEval env p kind body st (dispatch env p ('!' :: kind) body none (some st)) := by
  by_cases h1 : kind = c! "VDM"
  · exact .ais false h1 (by simp [dispatch, h1, unimplementedTypes, aisKind])
  by_cases h2 : kind = c! "VDO"
  · exact .ais true h2 (by simp [dispatch, h2, unimplementedTypes, aisKind])
  refine .other (fun own => by cases own <;> assumption) ?_
  simp [dispatch, unimplementedTypes, h1, h2]

theorem eval_ais_or_other (env : Env) (p : Parser) (talker kind : Str) (fs : List Str) (s : Str)
    (hk : byteLen kind = 3) (hc : ',' ∉ kind) (h : IsTagged '!' talker kind fs s) :
    BangEval env p kind (join (tag '!' talker kind) fs) (talkerStation talker) (parseSentence env p s) := by
  rw [eval_bang env p talker kind fs s hk hc h, stationOf_eq]
  exact dispatch_bang _ _ _ _ _

/-- Result of an AIS sentence: what became of the payload. -/
inductive AisEval (env : Env) (p : Parser) (talker : Str) (own : Bool) (fs : List Str)
    (x : Out ParseError ParsedSentence × Parser) : Prop where
  | bad (m : Str) (h : x = (.err (.invalidSentence m), p))
  | waiting (v : VdmVars) (hv : vdmLoop 0 VdmVars.init (tag '!' talker (aisKind own) :: fs) = .ok v)
      (p' : Parser) (ha : assemble ('!' :: aisKind own) v p = (none, p'))
      (h : x = (.ok .incomplete, p'))
  | complete (v : VdmVars) (hv : vdmLoop 0 VdmVars.init (tag '!' talker (aisKind own) :: fs) = .ok v)
      (payload : Str) (p' : Parser) (ha : assemble ('!' :: aisKind own) v p = (some payload, p'))
      (h : x = complete env own (talkerStation talker) payload p')

theorem vdmLoop_err (tag : Str) (fs : List Str) (hne : fs ≠ []) :
    (∃ v, vdmLoop 0 VdmVars.init (tag :: fs) = .ok v) ∨
    (∃ m, vdmLoop 0 VdmVars.init (tag :: fs) = .err (.invalidSentence m)) := by
  rw [vdmLoop_fields tag fs hne]
  split
  · exact .inr ⟨_, rfl⟩
  · split
    · exact .inl ⟨_, rfl⟩
    · split
      · exact .inr ⟨_, rfl⟩
      · exact .inl ⟨_, rfl⟩

theorem eval_cases (env : Env) (p : Parser) (talker : Str) (own : Bool) (fs : List Str) (s : Str)
    (h : IsAis talker own fs s) : AisEval env p talker own fs (parseSentence env p s) := by
  have he := eval_fields env p talker own fs s h
  rcases vdmLoop_err (tag '!' talker (aisKind own)) fs h.2.2.1 with ⟨v, hv⟩ | ⟨m, hm⟩
  · rw [hv] at he
    simp only [] at he
    cases ha : assemble ('!' :: aisKind own) v p with
    | mk o p' =>
      rw [ha] at he
      cases o with
      | none => exact .waiting v hv p' ha he
      | some payload => exact .complete v hv payload p' ha (by rw [← stationOf_eq]; exact he)
  · rw [hm] at he
    exact .bad m he

theorem complete_ok (env : Env) (own : Bool) (st : Station) (payload : Str) (p p' : Parser)
    (r : ParsedSentence) (h : complete env own st payload p = (.ok r, p')) :
    r = .incomplete ∨ ∃ t, AisShape t st own r := by
  simp only [complete] at h
  cases hp : parsePayload env.overflowChecks payload with
  | ok bv =>
    rw [hp] at h
    rcases dispatchAis_ok _ _ _ _ _ _ _ _ h with ⟨h, -⟩ | h
    · exact .inl h
    · exact .inr ⟨_, h⟩
  | err e => exact absurd hp (parsePayload_ne_err _ _ _)
  | panic => rw [hp] at h; cases h

theorem complete_err (env : Env) (own : Bool) (st : Station) (payload : Str) (p p' : Parser)
    (e : ParseError) (h : complete env own st payload p = (.err e, p')) :
    (∃ m, e = .invalidSentence m) ∨ ((∃ m, e = .unsupportedSentenceType m) ∧ p' = p) := by
  simp only [complete] at h
  cases hp : parsePayload env.overflowChecks payload with
  | ok bv =>
    rw [hp] at h
    rcases dispatchAis_err _ _ _ _ _ _ _ _ h with ⟨-, h⟩ | ⟨-, h⟩
    · exact .inl h
    · exact .inr h
  | err e => exact absurd hp (parsePayload_ne_err _ _ _)
  | panic => rw [hp] at h; cases h

/-- The fields of a tagged sentence are determined by it. -/
theorem Spec.IsTagged.unique {lead lead' : Char} {t t' k k' : Str} {fs fs' : List Str} {s : Str}
    (h : IsTagged lead t k fs s) (h' : IsTagged lead' t' k' fs' s)
    (hl : lead ≠ ',') (hl' : lead' ≠ ',') (hk : ',' ∉ k) (hk' : ',' ∉ k') :
    lead = lead' ∧ t = t' ∧ k = k' ∧ fs = fs' := by
  have hbody : ∀ {b b' : Str} {e e' : Ending}, Framed b e → Framed b' e' → finish b e = finish b' e' → b = b' := by
    intro b b' e e' hf hf' h
    have hs : ∀ {b : Str} {e : Ending}, Framed b e → (splitChecksum (finish b e)).1 = b := by
      intro b e hf
      cases e with
      | bare => simp [finish, splitChecksum_bare b (hf rfl)]
      | star => simp [finish, splitChecksum_star b [] (by simp)]
      | full => simp [finish, splitChecksum_star b _ (star_not_mem_checksumText b)]
    rw [← hs hf, ← hs hf', h]
  obtain ⟨ht, hc, hne, e, hf, rfl⟩ := h
  obtain ⟨ht', hc', hne', e', hf', h'⟩ := h'
  have hb := hbody hf hf' h'
  have h1 := splitChar_tag lead t k fs hl ht hk hc
  have h2 := splitChar_tag lead' t' k' fs' hl' ht' hk' hc'
  rw [hb, h2] at h1
  simp only [List.cons.injEq] at h1
  obtain ⟨h1, rfl⟩ := h1
  simp only [tag, List.cons_append, List.cons.injEq] at h1
  obtain ⟨rfl, h1⟩ := h1
  obtain ⟨rfl, rfl⟩ := append_byteLen_inj h1 (by rw [ht.1, ht'.1])
  exact ⟨rfl, rfl, rfl, rfl⟩

end Nmea
