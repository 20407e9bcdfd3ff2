/-
Equality of reports, and the signs of zeros in AIS reports.
-/
import Verif.Spec.Equality
import Verif.Lemmas.Ranges
import Mathlib.Tactic.CasesM

namespace Nmea
open Spec

theorem f64_eq_iff (x y : F64) : x.eq y = true ↔ x ≠ .nan ∧ plainZero x = plainZero y := by
  cases x with
  | nan => simp [F64.eq]
  | inf a =>
    cases y with
    | nan => simp [F64.eq, plainZero]
    | inf b => simp [F64.eq, plainZero]
    | fin b y =>
      simp only [F64.eq, plainZero]
      split <;> simp_all
      split <;> simp
  | fin a x =>
    cases y with
    | nan => simp only [F64.eq, plainZero]; split <;> simp
    | inf b => simp only [F64.eq, plainZero]; split <;> simp
    | fin b y =>
      simp only [F64.eq, plainZero, F64.fin.injEq]
      by_cases hx : x = 0 <;> by_cases hy : y = 0 <;> cases a <;> cases b <;> simp [hx, hy]
      all_goals exact fun h => hy h.symm

theorem eqOpt_iff (x y : Option F64) :
    eqOpt x y = true ↔ (∀ d ∈ x.toList, d ≠ .nan) ∧ x.map plainZero = y.map plainZero := by
  cases x with
  | none => cases y <;> simp [eqOpt]
  | some a => cases y <;> simp [eqOpt, f64_eq_iff]

theorem report_eq_iff (r r' : ParsedSentence) :
    r.eq r' = true ↔ (∀ d ∈ decimals r, d ≠ .nan) ∧ plainZeros r = plainZeros r' := by
  cases r <;> cases r' <;> simp only [ParsedSentence.eq, decimals, plainZeros, reduceCtorEq, Bool.false_eq_true, and_false]
  case incomplete.incomplete => simp
  case vesselStaticData.vesselStaticData => simp
  case binaryAddressedMessage.binaryAddressedMessage => simp
  case utcDateInquiry.utcDateInquiry => simp
  case gsv.gsv => simp
  case vesselDynamicData.vesselDynamicData =>
    simp only [VesselDynamicData.eq, Bool.and_eq_true, beq_iff_eq, eqOpt_iff, List.mem_append, or_imp, forall_and,
      ParsedSentence.vesselDynamicData.injEq, VesselDynamicData.mk.injEq]
    constructor <;> (intro h; casesm* _ ∧ _; and_intros <;> assumption)
  case baseStationReport.baseStationReport =>
    simp only [BaseStationReport.eq, Bool.and_eq_true, beq_iff_eq, eqOpt_iff, List.mem_append, or_imp, forall_and,
      ParsedSentence.baseStationReport.injEq, BaseStationReport.mk.injEq]
    constructor <;> (intro h; casesm* _ ∧ _; and_intros <;> assumption)
  case standardSarAircraftPositionReport.standardSarAircraftPositionReport =>
    simp only [StandardSarAircraftPositionReport.eq, Bool.and_eq_true, beq_iff_eq, eqOpt_iff, List.mem_append, or_imp, forall_and,
      ParsedSentence.standardSarAircraftPositionReport.injEq, StandardSarAircraftPositionReport.mk.injEq]
    constructor <;> (intro h; casesm* _ ∧ _; and_intros <;> assumption)
  case aidToNavigationReport.aidToNavigationReport =>
    simp only [AidToNavigationReport.eq, Bool.and_eq_true, beq_iff_eq, eqOpt_iff, List.mem_append, or_imp, forall_and,
      ParsedSentence.aidToNavigationReport.injEq, AidToNavigationReport.mk.injEq]
    constructor <;> (intro h; casesm* _ ∧ _; and_intros <;> assumption)
  case gga.gga =>
    simp only [GgaData.eq, Bool.and_eq_true, beq_iff_eq, eqOpt_iff, List.mem_append, or_imp, forall_and,
      ParsedSentence.gga.injEq, GgaData.mk.injEq]
    constructor <;> (intro h; casesm* _ ∧ _; and_intros <;> assumption)
  case rmc.rmc =>
    simp only [RmcData.eq, Bool.and_eq_true, beq_iff_eq, eqOpt_iff, List.mem_append, or_imp, forall_and,
      ParsedSentence.rmc.injEq, RmcData.mk.injEq]
    constructor <;> (intro h; casesm* _ ∧ _; and_intros <;> assumption)
  case gsa.gsa =>
    simp only [GsaData.eq, Bool.and_eq_true, beq_iff_eq, eqOpt_iff, List.mem_append, or_imp, forall_and,
      ParsedSentence.gsa.injEq, GsaData.mk.injEq]
    constructor <;> (intro h; casesm* _ ∧ _; and_intros <;> assumption)
  case vtg.vtg =>
    simp only [VtgData.eq, Bool.and_eq_true, beq_iff_eq, eqOpt_iff, List.mem_append, or_imp, forall_and,
      ParsedSentence.vtg.injEq, VtgData.mk.injEq]
    constructor <;> (intro h; casesm* _ ∧ _; and_intros <;> assumption)
  case gll.gll =>
    simp only [GllData.eq, Bool.and_eq_true, beq_iff_eq, eqOpt_iff, List.mem_append, or_imp, forall_and,
      ParsedSentence.gll.injEq, GllData.mk.injEq]
    constructor <;> (intro h; casesm* _ ∧ _; and_intros <;> assumption)

/-! ### No negative zeros in AIS reports -/

/-- The value is not a negative zero. -/
def NotMinusZero (x : Option F64) : Prop := ∀ d, x = some d → d ≠ .fin true 0

theorem notMinusZero_none : NotMinusZero none := by intro d h; cases h

theorem rounded_notMinusZero (q : Rat) (n : Nat) (hn : n ≤ 2 ^ 53) (h : |q| ≤ n) (h0 : 0 ≤ q ∨ 1 / 1048576 ≤ |q|)
    (x : Option F64) (hx : Rounded q x) : NotMinusZero x := by
  obtain ⟨d, rfl, hd⟩ := hx
  intro d' e
  cases e
  have hn' : (n : Rat) ≤ 2 ^ 53 := by exact_mod_cast hn
  have hb : |q| ≤ 2 ^ 1023 := F64.small_le _ (le_trans h (le_trans hn' (by norm_num)))
  have e := (F64.roundsTo_iff q d).mp hd
  rw [F64.ofRat_fin q hb] at e
  subst e
  intro hc
  obtain ⟨h1, h2⟩ := F64.fin.inj hc
  rcases h0 with h0 | h0
  · rw [decide_eq_true_eq] at h1
    linarith
  · have := F64.roundMag_mono _ _ (by norm_num) h0
    rw [h2, show F64.roundMag (1 / 1048576) = 1 / 1048576 by decide +kernel] at this
    norm_num at this

theorem tenths_notMinusZero (raw : Nat) (hr : raw < 2 ^ 20) (x : Option F64) (hx : Tenths raw x) : NotMinusZero x := by
  obtain ⟨t, h1, hx⟩ := hx
  have ht : t = tenth := by
    have := (F64.roundsTo_iff _ _).mp h1
    have e : F64.ofRat (1 / 10) = .fin false tenth := by decide +kernel
    rw [e] at this
    exact (F64.fin.inj this).2
  subst ht
  have h0 : (0 : Rat) ≤ raw := by positivity
  have h0' : (0 : Rat) ≤ raw * tenth := mul_nonneg h0 (by norm_num [tenth])
  refine rounded_notMinusZero _ (2 ^ 20) (by norm_num) ?_ (.inl h0') x hx
  rw [abs_of_nonneg h0']
  have h2 : (raw : Rat) ≤ 2 ^ 20 := by exact_mod_cast hr.le
  have h3 : tenth ≤ 1 := by norm_num [tenth]
  have := mul_le_mul h2 h3 (by norm_num [tenth]) (by norm_num)
  push_cast
  linarith

theorem sog_notMinusZero (bv : Bits) (i : Nat) : NotMinusZero (sogBlock bv i) := by
  have h := speed_spec bv i _ (num_eq bv i 10 (by decide)) (num_lt bv i 10)
  have hl : num bv i 10 < 1024 := num_lt bv i 10
  unfold Speed at h
  split at h
  · rw [h]; exact notMinusZero_none
  · exact tenths_notMinusZero _ (by omega) _ h

theorem cog_notMinusZero (bv : Bits) (i : Nat) : NotMinusZero (cogBlock bv i) := by
  have h := course_spec bv i _ (num_eq bv i 12 (by decide)) (num_lt bv i 12)
  have hl : num bv i 12 < 4096 := num_lt bv i 12
  unfold Course at h
  split at h
  · rw [h]; exact notMinusZero_none
  · exact tenths_notMinusZero _ (by omega) _ h

theorem nat_notMinusZero (n : Nat) (h : n ≤ 2 ^ 53) : NotMinusZero (some (natF64 n)) :=
  rounded_notMinusZero n n h (by rw [abs_of_nonneg (by positivity)]) (.inl (by positivity)) _ (rounded_nat n)

theorem heading_notMinusZero (bv : Bits) (i : Nat) : NotMinusZero (headingBlock bv i) := by
  have hl : num bv i 9 < 512 := num_lt bv i 9
  simp only [headingBlock, num_eq bv i 9 (by decide)]
  split
  · exact nat_notMinusZero _ (by omega)
  · exact notMinusZero_none

theorem quotient_cases (z : Int) (k : Nat) (hk : 0 < k) (hk' : k ≤ 1048576) :
    0 ≤ (z : Rat) / k ∨ 1 / 1048576 ≤ |(z : Rat) / k| := by
  have hk0 : (0 : Rat) < k := by exact_mod_cast hk
  rcases le_or_gt 0 z with h | h
  · left
    have : (0 : Rat) ≤ z := by exact_mod_cast h
    positivity
  · right
    have h1 : (1 : Rat) ≤ |(z : Rat)| := by
      have : (z : Rat) ≤ -1 := by exact_mod_cast (by omega : z ≤ -1)
      rw [abs_of_neg (by linarith)]
      linarith
    rw [abs_div, abs_of_pos hk0, div_le_div_iff₀ (by norm_num) hk0]
    have : (k : Rat) ≤ 1048576 := by exact_mod_cast hk'
    nlinarith

theorem lat_notMinusZero (bv : Bits) (i : Nat) : NotMinusZero (latBlock bv i) := by
  have h := lat_at bv i
  have b := snum_bounds bv i 27 (by decide)
  norm_num at b
  unfold Degrees at h
  split at h
  · rw [h]; exact notMinusZero_none
  · exact rounded_notMinusZero _ 112 (by norm_num) (degrees_abs _ 112 (by omega) (by omega))
      (by exact_mod_cast quotient_cases _ 600000 (by norm_num) (by norm_num)) _ h

theorem lon_notMinusZero (bv : Bits) (i : Nat) : NotMinusZero (lonBlock bv i) := by
  have h := lon_at bv i
  have b := snum_bounds bv i 28 (by decide)
  norm_num at b
  unfold Degrees at h
  split at h
  · rw [h]; exact notMinusZero_none
  · exact rounded_notMinusZero _ 224 (by norm_num) (degrees_abs _ 224 (by omega) (by omega))
      (by exact_mod_cast quotient_cases _ 600000 (by norm_num) (by norm_num)) _ h

theorem rotOf_notMinusZero : ∀ n : Fin 253, rotOf ((n.val : Int) - 126) ≠ some (.fin true 0) := by
  decide +kernel

theorem rot_notMinusZero (bv : Bits) : NotMinusZero (rotBlock bv) := by
  intro d hd
  have b := snum_bounds bv 42 8 (by decide)
  norm_num at b
  have ht := turn_spec bv _ (snum_eq bv 42 8 (by decide) (by decide)) b.1 (by omega)
  rw [hd] at ht
  obtain ⟨h1, h2⟩ := turn_rotOf _ d ht
  have := rotOf_notMinusZero ⟨(snum bv 42 8 + 126).toNat, by omega⟩
  rw [show (((snum bv 42 8 + 126).toNat : Nat) : Int) - 126 = snum bv 42 8 by omega, h2] at this
  exact fun e => this (by rw [e])

theorem div600_notMinusZero (z : Int) (h1 : -600000 ≤ z) (h2 : z ≤ 600000) :
    NotMinusZero (some (F64.div (F64.ofInt z) (F64.ofInt 600))) := by
  rw [F64.div_ofInt z 600 (by rw [abs_le]; constructor <;> omega) (by norm_num) (by norm_num)]
  refine rounded_notMinusZero _ 1000 (by norm_num) ?_
    (by exact_mod_cast quotient_cases z 600 (by norm_num) (by norm_num)) _ ⟨_, rfl, F64.ofRat_roundsTo _⟩
  have h1' : -(1000 : Rat) * 600 ≤ z := by norm_num; exact_mod_cast h1
  have h2' : (z : Rat) ≤ 1000 * 600 := by norm_num; exact_mod_cast h2
  rw [abs_le]
  constructor
  · rw [le_div_iff₀ (by norm_num)]; exact_mod_cast h1'
  · rw [div_le_iff₀ (by norm_num)]; exact_mod_cast h2'

/-- No decimal of the report is a negative zero. -/
def NoMinusZeros (r : ParsedSentence) : Prop := ∀ d ∈ decimals r, d ≠ .fin true 0

theorem notMinusZero_toList {x : Option F64} (h : NotMinusZero x) : ∀ d ∈ x.toList, d ≠ .fin true 0 :=
  fun d hd => h d (by simpa using hd)

theorem t27_notMinusZero (bv : Bits) (st : Station) (own : Bool) (r : ParsedSentence) (h : handleT27 bv st own = .ok r) :
    NoMinusZeros r := by
  cases h
  have b1 := snum_bounds bv 44 18 (by decide)
  have b2 := snum_bounds bv 62 17 (by decide)
  norm_num at b1 b2
  have n1 : num bv 62 6 < 64 := num_lt bv 62 6
  have n2 : num bv 62 17 < 131072 := num_lt bv 62 17
  simp only [NoMinusZeros, decimals, List.mem_append, or_imp, forall_and]
  refine ⟨⟨⟨⟨⟨notMinusZero_toList notMinusZero_none, notMinusZero_toList ?_⟩, notMinusZero_toList ?_⟩,
    notMinusZero_toList ?_⟩, notMinusZero_toList ?_⟩, notMinusZero_toList notMinusZero_none⟩
  · simp only [num_eq bv 62 6 (by decide)]
    split
    · exact nat_notMinusZero _ (by omega)
    · exact notMinusZero_none
  · simp only [snum_eq bv 44 18 (by decide) (by decide)]
    rw [asI32_small _ (by omega) (by omega)]
    split
    · exact div600_notMinusZero _ (by omega) (by omega)
    · exact notMinusZero_none
  · simp only [snum_eq bv 62 17 (by decide) (by decide)]
    rw [asI32_small _ (by omega) (by omega)]
    split
    · exact div600_notMinusZero _ (by omega) (by omega)
    · exact notMinusZero_none
  · simp only [num_eq bv 62 17 (by decide)]
    split
    · exact tenths_notMinusZero _ (by omega) _ (tenths_spec _ (by omega))
    · exact notMinusZero_none

theorem dispatchAis_notMinusZero (env : Env) (ty : Str) (bits : Bits) (st : Station) (own : Bool) (p : Parser)
    (ht : typeOf bits ≠ 24) (r : ParsedSentence) (h : (dispatchAis env ty bits st own p).1 = .ok r) :
    NoMinusZeros r := by
  have t123 : ∀ r, handleT123 bits st own = .ok r → NoMinusZeros r := by
    intro r h
    cases h
    simp only [NoMinusZeros, decimals, List.mem_append, or_imp, forall_and]
    exact ⟨⟨⟨⟨⟨notMinusZero_toList (rot_notMinusZero bits), notMinusZero_toList (sog_notMinusZero bits 50)⟩,
      notMinusZero_toList (lat_notMinusZero bits 89)⟩, notMinusZero_toList (lon_notMinusZero bits 61)⟩,
      notMinusZero_toList (cog_notMinusZero bits 116)⟩, notMinusZero_toList (heading_notMinusZero bits 128)⟩
  rw [← typeOf_eq] at ht
  simp only [dispatchAis] at h
  generalize pickU64 bits 0 6 = n at h ht
  split at h
  case h_1 => exact t123 _ h
  case h_2 => exact t123 _ h
  case h_3 => exact t123 _ h
  case h_4 =>
    simp only [handleT4] at h
    rw [station_eval] at h
    by_cases hv : IsDateTime (stationTime bits)
    · rw [if_pos hv] at h
      cases h
      simp only [NoMinusZeros, decimals, List.mem_append, or_imp, forall_and]
      exact ⟨notMinusZero_toList (lat_notMinusZero bits 107), notMinusZero_toList (lon_notMinusZero bits 79)⟩
    · rw [if_neg hv] at h
      cases h
  case h_5 =>
    simp only [handleT5, liftErr_pickString, Out.ok_bind, eta_eval] at h
    by_cases ha : EtaAbsent (arrivalAt bits)
    · rw [if_pos ha] at h
      cases h
      intro d hd; cases hd
    · rw [if_neg ha] at h
      by_cases hv : IsDateTime (etaCandidate env.now (arrivalAt bits))
      · rw [if_pos hv] at h
        cases h
        intro d hd; cases hd
      · rw [if_neg hv] at h
        cases h
  case h_6 => cases h; intro d hd; cases hd
  case h_7 =>
    cases h
    simp only [NoMinusZeros, decimals, List.mem_append, or_imp, forall_and]
    exact ⟨⟨notMinusZero_toList (lat_notMinusZero bits 89), notMinusZero_toList (lon_notMinusZero bits 61)⟩,
      notMinusZero_toList (cog_notMinusZero bits 116)⟩
  case h_8 => cases h; intro d hd; cases hd
  case h_9 =>
    cases h
    simp only [NoMinusZeros, decimals, List.mem_append, or_imp, forall_and]
    exact ⟨⟨⟨⟨⟨notMinusZero_toList notMinusZero_none, notMinusZero_toList (sog_notMinusZero bits 46)⟩,
      notMinusZero_toList (lat_notMinusZero bits 85)⟩, notMinusZero_toList (lon_notMinusZero bits 57)⟩,
      notMinusZero_toList (cog_notMinusZero bits 112)⟩, notMinusZero_toList (heading_notMinusZero bits 124)⟩
  case h_11 =>
    simp only [handleT21, liftErr_pickString, Out.ok_bind] at h
    cases h
    simp only [NoMinusZeros, decimals, List.mem_append, or_imp, forall_and]
    exact ⟨notMinusZero_toList (lat_notMinusZero bits 192), notMinusZero_toList (lon_notMinusZero bits 164)⟩
  case h_12 => exact absurd rfl ht
  case h_13 => exact t27_notMinusZero _ _ _ _ h
  all_goals cases h

theorem complete_notMinusZero (env : Env) (own : Bool) (st : Station) (payload : Str) (q : Parser)
    (r : ParsedSentence) (h : (complete env own st payload q).1 = .ok r) : NoMinusZeros r := by
  by_cases hr : Readable env payload
  · by_cases ht : typeOf (payloadBits payload) = 24
    · rw [complete_24 env own st payload q hr ht] at h
      split at h
      · simp only [t24Store] at h
        repeat' split at h
        all_goals (cases h; try (intro d hd; cases hd))
      · cases h
    · simp only [complete, parsePayload_readable env payload hr] at h
      exact dispatchAis_notMinusZero _ _ _ _ _ _ ht r h
  · have := (complete_panic env own st payload q).mpr (.inl hr)
    rw [this] at h
    cases h

/-- Reports of AIS sentences have no negative zeros. -/
theorem ais_notMinusZero (env : Env) (p : Parser) (s : Str) (r : ParsedSentence) (hr : AisReport r)
    (h : (parseSentence env p s).1 = .ok r) : NoMinusZeros r := by
  cases shape s with
  | corrupted a b h' h1 h2 h3 => rw [h', parse_corrupted env p a b h1 h2 h3] at h; cases h
  | noComma body e hf hs hc => rw [hs, parse_finish _ _ _ _ hf, parseBody_noComma _ _ _ hc] at h; cases h
  | badTag ty rest e hf hs h1 h2 => rw [hs, parse_finish _ _ _ _ hf, parseBody_badTag _ _ _ _ h1 h2] at h; cases h
  | oddTag ty rest e hf hs h1 h2 => rw [hs, parse_finish _ _ _ _ hf, parseBody_oddTag _ _ _ _ h1 h2] at h; cases h
  | dollar talker kind fs hk hc hs =>
    cases eval_gnss env p talker kind fs s hk hc hs with
    | gga hk _ => subst hk; obtain ⟨d, rfl, -⟩ := (gga_ok env p talker fs s hs r).mp h; cases hr
    | rmc hk _ => subst hk; obtain ⟨d, rfl, -⟩ := (rmc_ok env p talker fs s hs r).mp h; cases hr
    | gsa hk _ => subst hk; obtain ⟨d, rfl, -⟩ := (gsa_ok env p talker fs s hs r).mp h; cases hr
    | vtg hk _ =>
      subst hk
      obtain ⟨d, hd, -⟩ := vtg_ok env p talker fs s hs
      rw [h] at hd
      cases hd
      cases hr
    | gll hk _ => subst hk; obtain ⟨d, rfl, -⟩ := (gll_ok env p talker fs s hs r).mp h; cases hr
    | other _ h' => obtain ⟨_, h'⟩ := h'; rw [h'] at h; cases h
    | gsv hk h' =>
      subst hk
      cases gsv_case env p talker fs s hs with
      | bad m _ h' => rw [h'] at h; cases h
      | part n k hp h' =>
        rw [h', gsvStep] at h
        repeat' split at h
        all_goals (cases h; try cases hr)
  | bang talker kind fs hk hc hs =>
    cases eval_ais_or_other env p talker kind fs s hk hc hs with
    | other _ h' => obtain ⟨_, h'⟩ := h'; rw [h'] at h; cases h
    | ais own hk' _ =>
      subst hk'
      cases ais_case env p talker own fs s hs with
      | bad m _ h' => rw [h'] at h; cases h
      | odd n _ _ _ h' => rw [h'] at h; cases h; cases hr
      | single pl _ hp h' => rw [h'] at h; exact complete_notMinusZero _ _ _ _ _ r h
      | part1 id hp h' =>
        rw [h', joinPart] at h
        split at h
        · exact complete_notMinusZero _ _ _ _ { p with savedFragments := p.savedFragments.erase _ } r h
        · cases h; cases hr
      | part2 id hp h' =>
        rw [h', joinPart] at h
        split at h
        · exact complete_notMinusZero _ _ _ _ { p with savedFragments := p.savedFragments.erase _ } r h
        · cases h; cases hr

theorem between_not_nan {a b : Rat} {x : Option F64} (h : Between a b x) : ∀ d ∈ x.toList, d ≠ .nan := by
  intro d hd e
  obtain ⟨v, hv, -⟩ := h d (by simpa using hd)
  rw [e] at hv
  cases hv

/-- Nor NaNs. -/
theorem ais_not_nan (r : ParsedSentence) (hr : AisReport r) (h : InRange r) : ∀ d ∈ decimals r, d ≠ .nan := by
  cases r with
  | vesselDynamicData d =>
    simp only [decimals, List.mem_append, or_imp, forall_and]
    exact ⟨⟨⟨⟨⟨between_not_nan h.rot, between_not_nan h.sogKnots⟩, between_not_nan h.latitude⟩,
      between_not_nan h.longitude⟩, between_not_nan h.cog⟩, between_not_nan h.headingTrue⟩
  | baseStationReport d =>
    simp only [decimals, List.mem_append, or_imp, forall_and]
    exact ⟨between_not_nan h.latitude, between_not_nan h.longitude⟩
  | standardSarAircraftPositionReport d =>
    simp only [decimals, List.mem_append, or_imp, forall_and]
    exact ⟨⟨between_not_nan h.latitude, between_not_nan h.longitude⟩, between_not_nan h.cog⟩
  | aidToNavigationReport d =>
    simp only [decimals, List.mem_append, or_imp, forall_and]
    exact ⟨between_not_nan h.latitude, between_not_nan h.longitude⟩
  | vesselStaticData _ => intro d hd; cases hd
  | binaryAddressedMessage _ => intro d hd; cases hd
  | utcDateInquiry _ => intro d hd; cases hd
  | _ => cases hr

theorem plainZero_of_ne {x : F64} (h : x ≠ .fin true 0) : plainZero x = x := if_neg h

theorem map_plainZero {x : Option F64} (h : ∀ d ∈ x.toList, d ≠ .fin true 0) : x.map plainZero = x := by
  cases x with
  | none => rfl
  | some d => rw [Option.map_some, plainZero_of_ne (h d (by simp))]

theorem plainZeros_of_none (r : ParsedSentence) (h : NoMinusZeros r) : plainZeros r = r := by
  cases r <;> simp only [NoMinusZeros, decimals, List.mem_append, or_imp, forall_and] at h <;> try rfl
  all_goals
    simp only [plainZeros]
    casesm* _ ∧ _
    repeat rw [map_plainZero ‹_›]

end Nmea
