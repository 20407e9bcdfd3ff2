/-
What kinds of results and errors the handlers produce.
-/
import Verif.Lemmas.Layout
import Verif.Spec.Tables

namespace Nmea
open Spec

/-- Errors are `InvalidSentence` only. -/
def OnlyInvalid {α : Type} (x : Out ParseError α) : Prop := ∀ e, x = .err e → ∃ m, e = .invalidSentence m

namespace OnlyInvalid
variable {α β : Type}

theorem ok (a : α) : OnlyInvalid (.ok a) := by intro e h; cases h
theorem panic : OnlyInvalid (.panic : Out ParseError α) := by intro e h; cases h
theorem invalid (m : Str) : OnlyInvalid (.err (.invalidSentence m) : Out ParseError α) := by
  intro e h; cases h; exact ⟨m, rfl⟩
theorem bind {x : Out ParseError α} {f : α → Out ParseError β} (hx : OnlyInvalid x)
    (hf : ∀ a, OnlyInvalid (f a)) : OnlyInvalid (x >>= f) := by
  intro e h
  rcases (Out.bind_eq_err _ _ _).mp h with h | ⟨a, -, h⟩
  · exact hx e h
  · exact hf a e h
theorem lift (x : Out Str α) : OnlyInvalid (liftErr x) := by
  intro e h
  obtain ⟨m, -, rfl⟩ := (liftErr_err _ _).mp h
  exact ⟨m, rfl⟩
theorem toOpt (x : Out Str α) : OnlyInvalid (x.toOpt : Out ParseError (Option α)) := by
  intro e h; exact absurd h (by simp)
end OnlyInvalid

theorem numField_onlyInvalid {α : Type} (f : Str → Option α) (sp : List Str) (i : Nat) :
    OnlyInvalid (numField f sp i) := OnlyInvalid.lift _

theorem handleGga_inv (now : DateTime) (s : Str) (nav : NavigationSystem) :
    OnlyInvalid (handleGga now s nav) := by
  unfold handleGga
  refine .bind (.toOpt _) fun _ => .bind (.lift _) fun _ => .bind (.lift _) fun _ => ?_
  refine .bind (.lift _) fun _ => .bind (.lift _) fun _ => .bind (.lift _) fun _ => ?_
  exact .bind (.lift _) fun _ => .bind (.lift _) fun _ => .bind (.lift _) fun _ => .bind (.lift _) fun _ => .ok _

theorem rmcStatus_inv (s : Str) : OnlyInvalid (rmcStatus s) := by
  unfold rmcStatus
  split
  · exact .ok _
  · split
    · exact .ok _
    · split
      · exact .ok _
      · exact .invalid _

theorem rmcVariation_inv (sp : List Str) : OnlyInvalid (rmcVariation sp) := by
  unfold rmcVariation
  refine .bind (.lift _) fun v => ?_
  cases v with
  | none => exact .ok _
  | some val =>
    simp only []
    split
    · exact .ok _
    · split
      · exact .ok _
      · exact .invalid _

theorem handleRmc_inv (now : DateTime) (s : Str) (nav : NavigationSystem) :
    OnlyInvalid (handleRmc now s nav) := by
  unfold handleRmc
  refine .bind (.toOpt _) fun _ => .bind (rmcStatus_inv _) fun _ => .bind (.lift _) fun _ => ?_
  refine .bind (.lift _) fun _ => .bind (.lift _) fun _ => .bind (.lift _) fun _ => ?_
  exact .bind (rmcVariation_inv _) fun _ => .ok _

theorem gsaPrns_inv (sp : List Str) (is : List Nat) : OnlyInvalid (gsaPrns sp is) := by
  induction is with
  | nil => exact .ok _
  | cons i is ih =>
    simp only [gsaPrns]
    split
    · cases h : numField parseU8 sp i with
      | ok v =>
        simp only []
        cases h' : gsaPrns sp is with
        | ok r => exact .ok _
        | err e => rw [h'] at ih; obtain ⟨m, rfl⟩ := ih e rfl; exact .invalid _
        | panic => exact .panic
      | err e =>
        obtain ⟨m, rfl⟩ := numField_onlyInvalid _ _ _ e h
        exact .invalid _
      | panic => exact .panic
    · exact ih

theorem handleGsa_inv (s : Str) (nav : NavigationSystem) : OnlyInvalid (handleGsa s nav) := by
  unfold handleGsa
  refine .bind ?_ fun _ => .bind ?_ fun _ => .bind (gsaPrns_inv _ _) fun _ => ?_
  · unfold gsaMode1
    repeat' split
    all_goals first | exact .ok _ | exact .invalid _
  · unfold gsaMode2
    repeat' split
    all_goals first | exact .ok _ | exact .invalid _
  · exact .bind (.lift _) fun _ => .bind (.lift _) fun _ => .bind (.lift _) fun _ => .ok _

theorem handleGsv_inv (oc : Bool) (s : Str) (nav : NavigationSystem) (p : Parser) :
    OnlyInvalid (handleGsv oc s nav p).1 := by
  simp only [handleGsv]
  cases h : numField parseU32 (splitChar ',' s) 1 with
  | err e => obtain ⟨m, rfl⟩ := numField_onlyInvalid _ _ _ e h; exact .invalid _
  | panic => exact .panic
  | ok mc =>
    simp only []
    cases h2 : numField parseU32 (splitChar ',' s) 2 with
    | err e => obtain ⟨m, rfl⟩ := numField_onlyInvalid _ _ _ e h2; exact .invalid _
    | panic => exact .panic
    | ok mn =>
      simp only []
      repeat' split
      all_goals first | exact .panic | exact .ok _

theorem handleGll_inv (now : DateTime) (s : Str) (nav : NavigationSystem) :
    OnlyInvalid (handleGll now s nav) := by
  unfold handleGll
  exact .bind (.lift _) fun _ => .bind (.lift _) fun _ => .bind (.toOpt _) fun _ => .ok _

/-! ### Results of the GNSS handlers -/

theorem handleGga_ok (now : DateTime) (s : Str) (nav : NavigationSystem) (r : ParsedSentence)
    (h : handleGga now s nav = .ok r) : ∃ d, r = .gga d ∧ d.source = nav := by
  simp only [handleGga, Out.bind_eq_ok] at h
  obtain ⟨_, -, _, -, _, -, _, -, _, -, _, -, _, -, _, -, _, -, _, -, h⟩ := h
  cases h; exact ⟨_, rfl, rfl⟩

theorem handleRmc_ok (now : DateTime) (s : Str) (nav : NavigationSystem) (r : ParsedSentence)
    (h : handleRmc now s nav = .ok r) : ∃ d, r = .rmc d ∧ d.source = nav := by
  simp only [handleRmc, Out.bind_eq_ok] at h
  obtain ⟨_, -, _, -, _, -, _, -, _, -, _, -, _, -, h⟩ := h
  cases h; exact ⟨_, rfl, rfl⟩

theorem handleGsa_ok (s : Str) (nav : NavigationSystem) (r : ParsedSentence)
    (h : handleGsa s nav = .ok r) : ∃ d, r = .gsa d ∧ d.source = nav := by
  simp only [handleGsa, Out.bind_eq_ok] at h
  obtain ⟨_, -, _, -, _, -, _, -, _, -, _, -, h⟩ := h
  cases h; exact ⟨_, rfl, rfl⟩

theorem handleGll_ok (now : DateTime) (s : Str) (nav : NavigationSystem) (r : ParsedSentence)
    (h : handleGll now s nav = .ok r) : ∃ d, r = .gll d ∧ d.source = nav := by
  simp only [handleGll, Out.bind_eq_ok] at h
  obtain ⟨_, -, _, -, _, -, h⟩ := h
  cases h; exact ⟨_, rfl, rfl⟩

theorem handleVtg_ok (s : Str) (nav : NavigationSystem) :
    ∃ d, handleVtg s nav = .ok (.vtg d) ∧ d.source = nav := ⟨_, rfl, rfl⟩

theorem gsvSats_source (nav : NavigationSystem) (s : Str) : ∀ g ∈ gsvSats nav s, g.source = nav := by
  intro g hg
  simp only [gsvSats, List.mem_filterMap, Option.map_eq_some_iff] at hg
  obtain ⟨_, -, _, -, rfl⟩ := hg
  rfl

theorem gsvCollect_source (nav : NavigationSystem) (tag : Str) (n : Nat) (is : List Nat) (p : Parser) :
    ∀ g ∈ (gsvCollect nav tag n is p).1, g.source = nav := by
  induction is generalizing p with
  | nil => simp [gsvCollect]
  | cons i is ih =>
    intro g hg
    simp only [gsvCollect, Parser.pullString] at hg
    cases hk : p.savedFragments.get (makeGsvKey tag n i) with
    | none => rw [hk] at hg; exact ih _ g hg
    | some s =>
      rw [hk] at hg
      rcases List.mem_append.mp hg with hg | hg
      · exact gsvSats_source nav s g hg
      · exact ih _ g hg

theorem handleGsv_ok (oc : Bool) (s : Str) (nav : NavigationSystem) (p p' : Parser) (r : ParsedSentence)
    (h : handleGsv oc s nav p = (.ok r, p')) :
    r = .incomplete ∨ ∃ l, r = .gsv l ∧ ∀ g ∈ l, g.source = nav := by
  simp only [handleGsv] at h
  cases h1 : numField parseU32 (splitChar ',' s) 1 with
  | err e => rw [h1] at h; cases h
  | panic => rw [h1] at h; cases h
  | ok mc =>
    rw [h1] at h
    simp only [] at h
    cases h2 : numField parseU32 (splitChar ',' s) 2 with
    | err e => rw [h2] at h; cases h
    | panic => rw [h2] at h; cases h
    | ok mn =>
      rw [h2] at h
      simp only [] at h
      split at h
      · cases h
      · split at h
        · cases h
          exact .inr ⟨_, rfl, gsvCollect_source _ _ _ _ _⟩
        · cases h; exact .inl rfl

/-! ### Results of the AIS handlers -/

/-- A result of the AIS arm for message type `t`. -/
def AisShape (t : Nat) (st : Station) (own : Bool) (r : ParsedSentence) : Prop :=
  t ∈ aisTypesOf r ∧ (∀ x, stationIn r = some x → x = st) ∧ ownIn r = some own

theorem handleT4_ok (bv : Bits) (st : Station) (own : Bool) (r : ParsedSentence)
    (h : handleT4 bv st own = .ok r) : AisShape 4 st own r := by
  simp only [handleT4, Out.bind_eq_ok] at h
  obtain ⟨_, -, h⟩ := h
  cases h
  exact ⟨by simp [aisTypesOf], by simp [stationIn], rfl⟩

theorem handleT5_ok (now : DateTime) (bv : Bits) (st : Station) (own : Bool) (r : ParsedSentence)
    (h : handleT5 now bv st own = .ok r) : AisShape 5 st own r := by
  simp only [handleT5, Out.bind_eq_ok] at h
  obtain ⟨_, -, _, -, _, -, _, -, h⟩ := h
  cases h
  exact ⟨by simp [aisTypesOf], by simp [stationIn], rfl⟩

theorem handleT21_ok (bv : Bits) (st : Station) (own : Bool) (r : ParsedSentence)
    (h : handleT21 bv st own = .ok r) : AisShape 21 st own r := by
  simp only [handleT21, Out.bind_eq_ok] at h
  obtain ⟨_, -, _, -, h⟩ := h
  cases h
  exact ⟨by simp [aisTypesOf], by simp [stationIn], rfl⟩

/-- The fields of a type 24 part, as a plain value. -/
theorem t24Fields_eq (bv : Bits) (own a b : Bool) : ∃ v, t24Fields bv own a b = .ok v ∧
    v.ownVessel = own ∧ v.mmsi = pickU64 bv 8 30 ∧ v.aisType = .classB ∧ v.imoNumber = none ∧
    v.aisVersionIndicator = 0 := by
  have hm : asU32 (pickU64 bv 8 30) = pickU64 bv 8 30 := by
    have := pickU64_lt bv 8 30 (by decide)
    unfold asU32
    omega
  cases a <;> cases b <;>
    simp only [t24Fields, liftErr_pickString, Out.ok_bind, if_true, Bool.false_eq_true, if_false] <;>
    exact ⟨_, rfl, rfl, hm, rfl, rfl, rfl⟩

theorem merge_ok (a b m : VesselStaticData) (h : a.merge b = .ok m) :
    m.ownVessel = a.ownVessel ∧ m.mmsi = a.mmsi ∧ a.mmsi = b.mmsi := by
  simp only [VesselStaticData.merge] at h
  split at h
  · cases h
  · split at h
    · cases h
    · rename_i hm
      split at h
      · cases h
      · split at h
        · cases h
        · cases h; exact ⟨rfl, rfl, by simpa using hm⟩

theorem merge_ne_panic (a b : VesselStaticData) : a.merge b ≠ .panic := by
  simp only [VesselStaticData.merge]
  repeat' split
  all_goals simp

theorem t24Store_ok (v : VesselStaticData) (p p' : Parser) (r : ParsedSentence)
    (h : t24Store v p = (.ok r, p')) :
    r = .incomplete ∨ ∃ m, r = .vesselStaticData m ∧ m.ownVessel = v.ownVessel ∧ m.mmsi = v.mmsi := by
  simp only [t24Store, Parser.pullVsd] at h
  cases hv : p.savedVsds.get v.mmsi with
  | none => rw [hv] at h; cases h; exact .inl rfl
  | some v2 =>
    rw [hv] at h
    simp only [] at h
    cases hm : v.merge v2 with
    | ok m =>
      rw [hm] at h
      cases h
      obtain ⟨h1, h2, -⟩ := merge_ok _ _ _ hm
      exact .inr ⟨m, rfl, h1, h2⟩
    | err e => rw [hm] at h; cases h
    | panic => exact absurd hm (merge_ne_panic _ _)

theorem handleT24_ok (bv : Bits) (st : Station) (own : Bool) (p p' : Parser) (r : ParsedSentence)
    (h : handleT24 bv st p own = (.ok r, p')) : r = .incomplete ∨ AisShape 24 st own r := by
  have key : ∀ a b, (match t24Fields bv own a b with
      | .ok vsd => t24Store vsd p
      | .err e => (.err e, p)
      | .panic => (.panic, p)) = (.ok r, p') → r = .incomplete ∨ AisShape 24 st own r := by
    intro a b h
    obtain ⟨v, hv, ho, -⟩ := t24Fields_eq bv own a b
    rw [hv] at h
    rcases t24Store_ok v p p' r h with h | ⟨m, rfl, hm, -⟩
    · exact .inl h
    · exact .inr ⟨by simp [aisTypesOf], by simp [stationIn], by simp [ownIn, hm, ho]⟩
  simp only [handleT24] at h
  split at h
  · exact key _ _ h
  · exact key _ _ h
  · cases h

theorem dispatchAis_ok (env : Env) (ty : Str) (bv : Bits) (st : Station) (own : Bool) (p p' : Parser)
    (r : ParsedSentence) (h : dispatchAis env ty bv st own p = (.ok r, p')) :
    (r = .incomplete ∧ pickU64 bv 0 6 = 24) ∨ AisShape (pickU64 bv 0 6) st own r := by
  simp only [dispatchAis] at h
  generalize ht : pickU64 bv 0 6 = t at h ⊢
  have triv : ∀ (x : ParsedSentence) (q : Parser), ((Out.ok x : Out ParseError ParsedSentence), q) = (.ok r, p') →
      t ∈ aisTypesOf x → (∀ y, stationIn x = some y → y = st) → ownIn x = some own → AisShape t st own r := by
    intro x q hx h1 h2 h3
    cases hx
    exact ⟨h1, h2, h3⟩
  split at h
  · exact .inr (triv _ _ h (by simp [aisTypesOf]) (by simp [stationIn]) rfl)
  · exact .inr (triv _ _ h (by simp [aisTypesOf]) (by simp [stationIn]) rfl)
  · exact .inr (triv _ _ h (by simp [aisTypesOf]) (by simp [stationIn]) rfl)
  · exact .inr (handleT4_ok _ _ _ _ (Prod.mk.inj h).1)
  · exact .inr (handleT5_ok _ _ _ _ _ (Prod.mk.inj h).1)
  · exact .inr (triv _ _ h (by simp [aisTypesOf]) (by simp [stationIn]) rfl)
  · exact .inr (triv _ _ h (by simp [aisTypesOf]) (by simp [stationIn]) rfl)
  · exact .inr (triv _ _ h (by simp [aisTypesOf]) (by simp [stationIn]) rfl)
  · exact .inr (triv _ _ h (by simp [aisTypesOf]) (by simp [stationIn]) rfl)
  · cases h
  · exact .inr (handleT21_ok _ _ _ _ (Prod.mk.inj h).1)
  · rcases handleT24_ok _ _ _ _ _ _ h with h | h
    · exact .inl ⟨h, rfl⟩
    · exact .inr h
  · exact .inr (triv _ _ h (by simp [aisTypesOf]) (by simp [stationIn]) rfl)
  · cases h

/-! ### Errors of the AIS arm -/

theorem ymdHms_ne_err {ε : Type} (y : Int) (m d h mi s : Nat) (e : ε) :
    (ymdHms y m d h mi s : Out ε DateTime) ≠ .err e := by
  unfold ymdHms
  repeat' split
  all_goals simp

theorem pickEta_ne_err (now : DateTime) (bv : Bits) (i : Nat) (e : Str) : pickEta now bv i ≠ .err e := by
  intro h
  simp only [pickEta] at h
  split at h
  · cases h
  · split at h
    · simp only [] at h
      split at h <;> cases h
    · rename_i he; exact ymdHms_ne_err _ _ _ _ _ _ _ he
    · cases h

theorem handleT4_ne_err (bv : Bits) (st : Station) (own : Bool) (e : ParseError) :
    handleT4 bv st own ≠ .err e := by
  intro h
  simp only [handleT4, Out.bind_eq_err] at h
  rcases h with h | ⟨_, -, h⟩
  · exact ymdHms_ne_err _ _ _ _ _ _ _ h
  · cases h

theorem handleT5_ne_err (now : DateTime) (bv : Bits) (st : Station) (own : Bool) (e : ParseError) :
    handleT5 now bv st own ≠ .err e := by
  intro h
  simp only [handleT5, liftErr_pickString, Out.ok_bind, Out.bind_eq_err] at h
  rcases h with h | ⟨_, -, h⟩
  · obtain ⟨m, hm, -⟩ := (liftErr_err _ _).mp h
    exact pickEta_ne_err _ _ _ _ hm
  · cases h

theorem handleT21_ne_err (bv : Bits) (st : Station) (own : Bool) (e : ParseError) :
    handleT21 bv st own ≠ .err e := by
  intro h
  simp only [handleT21, liftErr_pickString, Out.ok_bind] at h
  cases h

theorem t24Store_inv (v : VesselStaticData) (p : Parser) : OnlyInvalid (t24Store v p).1 := by
  simp only [t24Store, Parser.pullVsd]
  cases hv : p.savedVsds.get v.mmsi with
  | none => exact .ok _
  | some v2 =>
    simp only []
    cases hm : liftErr (v.merge v2) with
    | ok m => exact .ok _
    | err e => obtain ⟨m, rfl⟩ := OnlyInvalid.lift _ e hm; exact .invalid _
    | panic => exact .panic

theorem handleT24_inv (bv : Bits) (st : Station) (own : Bool) (p : Parser) :
    OnlyInvalid (handleT24 bv st p own).1 := by
  simp only [handleT24]
  split
  · obtain ⟨v, hv, -⟩ := t24Fields_eq bv own true false
    simp only [hv]; exact t24Store_inv _ _
  · obtain ⟨v, hv, -⟩ := t24Fields_eq bv own false true
    simp only [hv]; exact t24Store_inv _ _
  · exact .invalid _

/-- Errors of the AIS dispatch: invalid only for type 24, unsupported exactly outside the supported types. -/
theorem dispatchAis_err (env : Env) (ty : Str) (bv : Bits) (st : Station) (own : Bool) (p p' : Parser)
    (e : ParseError) (h : dispatchAis env ty bv st own p = (.err e, p')) :
    (pickU64 bv 0 6 = 24 ∧ ∃ m, e = .invalidSentence m) ∨
    (pickU64 bv 0 6 ∉ supportedTypes ∧ (∃ m, e = .unsupportedSentenceType m) ∧ p' = p) := by
  simp only [dispatchAis] at h
  generalize ht : pickU64 bv 0 6 = t at h ⊢
  split at h
  · cases h
  · cases h
  · cases h
  · exact absurd (Prod.mk.inj h).1 (handleT4_ne_err _ _ _ _)
  · exact absurd (Prod.mk.inj h).1 (handleT5_ne_err _ _ _ _ _)
  · cases h
  · cases h
  · cases h
  · cases h
  · cases h; exact .inr ⟨by simp [supportedTypes], ⟨_, rfl⟩, rfl⟩
  · exact absurd (Prod.mk.inj h).1 (handleT21_ne_err _ _ _ _)
  · exact .inl ⟨rfl, handleT24_inv _ _ _ _ _ (congrArg Prod.fst h)⟩
  · cases h
  · cases h
    refine .inr ⟨?_, ⟨_, rfl⟩, rfl⟩
    simp only [supportedTypes, List.mem_cons, List.not_mem_nil, or_false, not_or]
    refine ⟨?_, ?_, ?_, ?_, ?_, ?_, ?_, ?_, ?_, ?_, ?_, ?_⟩ <;> assumption

theorem dispatchAis_unsupported (env : Env) (ty : Str) (bv : Bits) (st : Station) (own : Bool) (p : Parser)
    (h : pickU64 bv 0 6 ∉ supportedTypes) :
    ∃ m, dispatchAis env ty bv st own p = (.err (.unsupportedSentenceType m), p) := by
  simp only [dispatchAis]
  generalize ht : pickU64 bv 0 6 = t at h ⊢
  simp only [supportedTypes, List.mem_cons, List.not_mem_nil, or_false, not_or] at h
  split
  all_goals first
    | (exfalso; omega)
    | exact ⟨_, rfl⟩

end Nmea
