/-
Ranges of the values in reports.
-/
import Verif.Spec.Ranges
import Verif.Lemmas.Times
import Verif.Lemmas.Values

namespace Nmea
open Spec

/-! ### Numbers -/

theorem upTo_none (hi : Nat) : UpTo hi none := by intro n h; cases h
theorem upTo_some {hi n : Nat} (h : n ≤ hi) : UpTo hi (some n) := by intro m e; cases e; exact h
theorem between_none (lo hi : Rat) : Between lo hi none := by intro d h; cases h
theorem textUpTo_none (n : Nat) : TextUpTo n none := by intro s h; cases h
theorem validTime_none : ValidTime none := by intro s h; cases h

theorem textUpTo_at (bv : Bits) (i n : Nat) : TextUpTo n (someIfNonEmpty (textAt bv i n)) := by
  intro s h
  unfold someIfNonEmpty at h
  split at h
  · cases h
  · rename_i hne
    cases h
    exact ⟨hne, textAt_plain bv i n⟩

theorem textUpTo_field (bv : Bits) (i n : Nat) : TextUpTo n (optText (fieldText bv i n)) := by
  rw [← textAt_fieldText]
  exact textUpTo_at bv i n

/-- Rounding a rational between integers stays between them. -/
theorem rounds_between (q : Rat) (n : Nat) (hn : n ≤ 2 ^ 53) (h : |q| ≤ n) (d : F64) (hd : RoundsTo q d) :
    ∃ v, valueOf d = some v ∧ -(n : Rat) ≤ v ∧ v ≤ n ∧ (0 ≤ q → 0 ≤ v) := by
  have hn' : (n : Rat) ≤ 2 ^ 53 := by exact_mod_cast hn
  have hb : |q| ≤ 2 ^ 1023 := F64.small_le _ (le_trans h (le_trans hn' (by norm_num)))
  have e := (F64.roundsTo_iff q d).mp hd
  rw [F64.ofRat_fin q hb] at e
  subst e
  have h0 := F64.roundMag_nonneg |q| (abs_nonneg q)
  have h1 := F64.roundMag_mono |q| n (abs_nonneg q) h
  rw [F64.roundMag_exact _ (F64.rep_nat n hn)] at h1
  refine ⟨_, rfl, ?_⟩
  by_cases hq : q < 0
  · simp only [hq, decide_true, if_true]
    exact ⟨by linarith, by linarith, fun h => absurd hq (not_lt.mpr h)⟩
  · simp only [hq, decide_false, Bool.false_eq_true, if_false]
    exact ⟨by linarith, h1, fun _ => h0⟩

theorem rounded_between (q : Rat) (n : Nat) (hn : n ≤ 2 ^ 53) (h : |q| ≤ n) (x : Option F64) (hx : Rounded q x) :
    Between (-(n : Rat)) n x := by
  obtain ⟨d, rfl, hd⟩ := hx
  intro d' e
  cases e
  obtain ⟨v, hv, h1, h2, -⟩ := rounds_between q n hn h d hd
  exact ⟨v, hv, h1, h2⟩

theorem rounded_nonneg (q : Rat) (n : Nat) (hn : n ≤ 2 ^ 53) (h0 : 0 ≤ q) (h : q ≤ n) (x : Option F64)
    (hx : Rounded q x) : Between 0 n x := by
  obtain ⟨d, rfl, hd⟩ := hx
  intro d' e
  cases e
  obtain ⟨v, hv, -, h2, h3⟩ := rounds_between q n hn (by rw [abs_of_nonneg h0]; exact h) d hd
  exact ⟨v, hv, h3 h0, h2⟩

theorem tenths_between (raw n : Nat) (hn : n ≤ 2 ^ 53) (h : raw < 10 * n) (hr : raw < 2 ^ 20) (x : Option F64)
    (hx : Tenths raw x) : Between 0 n x := by
  obtain ⟨t, h1, hx⟩ := hx
  have ht : t = tenth := by
    have := (F64.roundsTo_iff _ _).mp h1
    have e : F64.ofRat (1 / 10) = .fin false tenth := by decide +kernel
    rw [e] at this
    exact (F64.fin.inj this).2
  subst ht
  have h0 : (0 : Rat) ≤ raw := by positivity
  refine rounded_nonneg _ n hn (mul_nonneg h0 (by norm_num [tenth])) ?_ x hx
  have e : (raw : Rat) * tenth = raw / 10 + raw / 180143985094819840 := by
    have he : tenth = 1 / 10 + 1 / 180143985094819840 := by norm_num [tenth]
    rw [he]; ring
  have h1 : (raw : Rat) + 1 ≤ 10 * n := by exact_mod_cast h
  have h2 : (raw : Rat) ≤ 2 ^ 20 := by exact_mod_cast hr.le
  have h3 : (raw : Rat) / 180143985094819840 ≤ 1 / 10 := by
    rw [div_le_iff₀ (by norm_num)]
    norm_num at h2 ⊢
    linarith
  linarith

theorem sog_range (bv : Bits) (i : Nat) : Between 0 103 (sogBlock bv i) := by
  have h := speed_spec bv i _ (num_eq bv i 10 (by decide)) (num_lt bv i 10)
  unfold Speed at h
  split at h
  · rw [h]; exact between_none _ _
  · have hl : num bv i 10 < 1024 := num_lt bv i 10
    exact_mod_cast tenths_between _ 103 (by norm_num) (by omega) (by omega) _ h

theorem cog_range (bv : Bits) (i : Nat) : Between 0 410 (cogBlock bv i) := by
  have h := course_spec bv i _ (num_eq bv i 12 (by decide)) (num_lt bv i 12)
  unfold Course at h
  split at h
  · rw [h]; exact between_none _ _
  · have hl : num bv i 12 < 4096 := num_lt bv i 12
    exact_mod_cast tenths_between _ 410 (by norm_num) (by omega) (by omega) _ h

theorem between_mono {a b a' b' : Rat} {x : Option F64} (h : Between a b x) (ha : a' ≤ a) (hb : b ≤ b') :
    Between a' b' x := by
  intro d hd
  obtain ⟨v, hv, h1, h2⟩ := h d hd
  exact ⟨v, hv, le_trans ha h1, le_trans h2 hb⟩

theorem nat_between (n hi : Nat) (hn : hi ≤ 2 ^ 53) (h : n ≤ hi) : Between 0 hi (some (natF64 n)) :=
  rounded_nonneg n hi hn (by positivity) (by exact_mod_cast h) _ (rounded_nat n)

theorem heading_range (bv : Bits) (i : Nat) : Between 0 510 (headingBlock bv i) := by
  have hl : num bv i 9 < 512 := num_lt bv i 9
  simp only [headingBlock, num_eq bv i 9 (by decide)]
  split
  · exact_mod_cast nat_between _ 510 (by norm_num) (by omega)
  · exact between_none _ _

theorem lat_range (bv : Bits) (i : Nat) : Between (-112) 112 (latBlock bv i) := by
  have h := lat_at bv i
  have b := snum_bounds bv i 27 (by decide)
  norm_num at b
  unfold Degrees at h
  split at h
  · rw [h]; exact between_none _ _
  · exact_mod_cast rounded_between _ 112 (by norm_num) (degrees_abs _ 112 (by omega) (by omega)) _ h

theorem lon_range (bv : Bits) (i : Nat) : Between (-224) 224 (lonBlock bv i) := by
  have h := lon_at bv i
  have b := snum_bounds bv i 28 (by decide)
  norm_num at b
  unfold Degrees at h
  split at h
  · rw [h]; exact between_none _ _
  · exact_mod_cast rounded_between _ 224 (by norm_num) (degrees_abs _ 224 (by omega) (by omega)) _ h

/-- The value of a rate of turn lies between these bounds. -/
def rotWithin (x : Option Rat) : Bool :=
  match x with
  | some v => decide (-22500 ≤ v) && decide (v ≤ 22500)
  | none => false

theorem rotVal_within : ∀ n : Fin 253, rotWithin (rotVal ((n.val : Int) - 126)) = true := by
  decide +kernel

theorem rot_range (bv : Bits) : Between (-22500) 22500 (rotBlock bv) := by
  intro d hd
  have b := snum_bounds bv 42 8 (by decide)
  norm_num at b
  have ht := turn_spec bv _ (snum_eq bv 42 8 (by decide) (by decide)) b.1 (by omega)
  rw [hd] at ht
  obtain ⟨h1, h2⟩ := turn_rotVal _ d ht
  have := rotVal_within ⟨(snum bv 42 8 + 126).toNat, by omega⟩
  rw [show (((snum bv 42 8 + 126).toNat : Nat) : Int) - 126 = snum bv 42 8 by omega, h2] at this
  cases hv : valueOf d with
  | none => rw [hv] at this; cases this
  | some v =>
    rw [hv] at this
    simp only [rotWithin, Bool.and_eq_true, decide_eq_true_eq] at this
    exact ⟨v, rfl, this.1, this.2⟩

theorem rotDir_range (bv : Bits) : ∀ z, rotDirBlock bv = some z → z = -1 ∨ z = 0 ∨ z = 1 := by
  intro z h
  simp only [rotDirBlock] at h
  repeat' split at h
  all_goals first | (cases h; done) | (cases h; simp)

theorem rounded_div600 (z : Int) (n : Nat) (hn : n ≤ 1000) (h1 : -(n : Int) * 600 ≤ z) (h2 : z ≤ n * 600) :
    Between (-(n : Rat)) n (some (F64.div (F64.ofInt z) (F64.ofInt 600))) := by
  rw [F64.div_ofInt z 600 (by rw [abs_le]; constructor <;> omega) (by norm_num) (by norm_num)]
  refine rounded_between _ n (by omega) ?_ _ ⟨_, rfl, F64.ofRat_roundsTo _⟩
  have h1' : -(n : Rat) * 600 ≤ z := by exact_mod_cast h1
  have h2' : (z : Rat) ≤ n * 600 := by exact_mod_cast h2
  rw [abs_le]
  constructor
  · rw [le_div_iff₀ (by norm_num)]; exact_mod_cast h1'
  · rw [div_le_iff₀ (by norm_num)]; exact_mod_cast h2'

/-! ### Positions of GNSS sentences -/

theorem posText_bound (k : Nat) (s : Str) (deg : Nat) (min : Rat) (h : PosText k s deg min) :
    deg < 10 ^ k ∧ 0 ≤ min ∧ min ≤ 100 := by
  obtain ⟨d, m, f, rest, -, hd, hm, hd', hm', hf, -, rfl, rfl⟩ := h
  have a := decValue_lt d hd'
  have b := decValue_lt m hm'
  have c := decValue_lt f hf.2
  rw [hd] at a
  rw [hm] at b
  refine ⟨a, by positivity, ?_⟩
  have hb : (decValue m : Rat) + 1 ≤ 100 := by exact_mod_cast b
  have hc : (decValue f : Rat) / 10 ^ f.length ≤ 1 := by
    rw [div_le_one (by positivity)]
    exact_mod_cast c.le
  linarith

theorem posField_range (k : Nat) (hk : k ≤ 3) (minus : Char) (s hemi : Str) (x : Option F64)
    (h : PosField k minus s hemi x) : Between (-(10 ^ k + 1 : Nat) : Rat) (10 ^ k + 1 : Nat) x := by
  rcases h with ⟨-, rfl⟩ | ⟨deg, min, r, ht, ⟨a, b, h1, h2, h3⟩, rfl⟩
  · exact between_none _ _
  · obtain ⟨hdeg, hmin, hmin'⟩ := posText_bound k s deg min ht
    have hpow : 10 ^ k ≤ 1000 := by
      calc 10 ^ k ≤ 10 ^ 3 := Nat.pow_le_pow_right (by norm_num) hk
        _ = 1000 := by norm_num
    obtain ⟨a', e, -, ha, ha0⟩ := rounds_between min 100 (by norm_num) (by rw [abs_of_nonneg hmin]; exact_mod_cast hmin') _ h1
    simp only [valueOf, Bool.false_eq_true, if_false, Option.some.injEq] at e
    subst e
    have ha0 := ha0 hmin
    have q0 : 0 ≤ a / 60 := by positivity
    have q1 : a / 60 ≤ 2 := by
      rw [div_le_iff₀ (by norm_num)]
      push_cast at ha
      linarith
    obtain ⟨b', e, -, hb, hb0⟩ := rounds_between (a / 60) 2 (by norm_num) (by rw [abs_of_nonneg q0]; exact_mod_cast q1) _ h2
    simp only [valueOf, Bool.false_eq_true, if_false, Option.some.injEq] at e
    subst e
    have hb0 := hb0 q0
    have hdeg' : (deg : Rat) + 1 ≤ (10 ^ k : Nat) := by exact_mod_cast hdeg
    have r0 : (0 : Rat) ≤ deg + b := by positivity
    have r1 : (deg : Rat) + b ≤ (10 ^ k + 1 : Nat) := by push_cast at hb hdeg' ⊢; linarith
    obtain ⟨v, e, -, hv, hv0⟩ := rounds_between (deg + b) (10 ^ k + 1) (by omega) (by rw [abs_of_nonneg r0]; exact r1) _ h3
    simp only [valueOf, Bool.false_eq_true, if_false, Option.some.injEq] at e
    subst e
    have hv0 := hv0 r0
    intro d hd
    cases hd
    refine ⟨_, rfl, ?_⟩
    split <;> constructor <;> linarith

theorem intField_upTo {max : Nat} {s : Str} {x : Option Nat} (h : IntField max s x) : UpTo max x := by
  rcases h with ⟨-, rfl⟩ | ⟨n, ⟨_, -, -, -, h⟩, rfl⟩
  · exact upTo_none _
  · exact upTo_some h

theorem timeField_validTime {now : DateTime} {s : Str} {t : Option DateTime} (h : TimeField now s t) : ValidTime t :=
  fun x hx => timeField_valid h x (by rw [hx]; simp)

theorem dateTimeField_validTime {now : DateTime} {d s : Str} {t : Option DateTime} (h : DateTimeField now d s t) :
    ValidTime t := fun x hx => dateTimeField_valid h x (by rw [hx]; simp)

/-! ### Satellites -/

theorem numFieldOrNone_le {max : Nat} {sp : List Str} {i n : Nat} (h : numFieldOrNone (parseUInt max) sp i = some n) :
    n ≤ max := by
  unfold numFieldOrNone at h
  split at h
  · rename_i e
    subst h
    simp only [pickNumberField] at e
    split at e
    · cases hp : parseUInt max (fieldAt sp i) with
      | none => rw [hp] at e; cases e
      | some m =>
        rw [hp] at e
        cases e
        obtain ⟨_, -, -, -, h⟩ := (parseUInt_iff max _ n).mp hp
        exact h
    · cases e
  · cases h

theorem gsvSats_range (nav : NavigationSystem) (s : Str) : InRange (.gsv (gsvSats nav s)) := by
  intro g hg
  simp only [gsvSats, List.mem_filterMap, Option.map_eq_some_iff] at hg
  obtain ⟨j, -, prn, hp, rfl⟩ := hg
  exact ⟨numFieldOrNone_le hp, fun _ h => numFieldOrNone_le h, fun _ h => numFieldOrNone_le h,
    fun _ h => numFieldOrNone_le h⟩

/-! ### Messages -/

theorem upTo_num {hi len : Nat} (bv : Bits) (i : Nat) (h : 2 ^ len ≤ hi + 1) : UpTo hi (some (num bv i len)) :=
  upTo_some (by have := num_lt bv i len; omega)

theorem upTo_or {hi : Nat} {a b : Option Nat} (ha : UpTo hi a) (hb : UpTo hi b) : UpTo hi (a.or b) := by
  cases a with
  | none => simpa using hb
  | some n => simpa using ha

theorem textUpTo_or {n : Nat} {a b : Option Str} (ha : TextUpTo n a) (hb : TextUpTo n b) : TextUpTo n (a.or b) := by
  cases a with
  | none => simpa using hb
  | some n => simpa using ha

theorem all_or {α : Type} {P : α → Prop} {a b : Option α} (ha : ∀ x, a = some x → P x) (hb : ∀ x, b = some x → P x) :
    ∀ x, a.or b = some x → P x := by
  cases a with
  | none => simpa using hb
  | some n => simpa using ha

theorem mmsi_lt (bv : Bits) : IsMmsi (mmsiOf bv) := num_lt bv 8 30

theorem partData_range (own : Bool) (bv : Bits) : StaticInRange (partData own bv) := by
  have no {α : Type} {P : α → Prop} : ∀ x, (none : Option α) = some x → P x := by intro x h; cases h
  unfold partData
  split
  · exact ⟨mmsi_lt bv, by simp [partAData, blankStatic], no, no, textUpTo_field bv 40 120, no, no, no, no, no, no, no,
      no, no, no, no⟩
  · refine ⟨mmsi_lt bv, by simp [partBData, blankStatic], no, textUpTo_field bv 90 7, no, ?_,
      upTo_num bv 66 (by decide), upTo_num bv 70 (by decide), upTo_num bv 132 (by decide), upTo_num bv 141 (by decide),
      upTo_num bv 150 (by decide), upTo_num bv 156 (by decide), no, no, no, ?_⟩
    · intro s h
      cases h
      rw [← textAt_fieldText]
      exact textAt_plain bv 48 3
    · intro n h
      cases h
      exact num_lt bv 132 30

theorem overlay_range {a b : VesselStaticData} (ha : StaticInRange a) (hb : StaticInRange b) :
    StaticInRange (overlay a b) where
  mmsi := ha.mmsi
  version := ha.version
  imo := ha.imo
  callSign := textUpTo_or ha.callSign hb.callSign
  name := textUpTo_or ha.name hb.name
  vendor := all_or ha.vendor hb.vendor
  model := upTo_or ha.model hb.model
  serial := upTo_or ha.serial hb.serial
  bow := upTo_or ha.bow hb.bow
  stern := upTo_or ha.stern hb.stern
  port := upTo_or ha.port hb.port
  starboard := upTo_or ha.starboard hb.starboard
  eta := ha.eta
  draught := ha.draught
  destination := ha.destination
  mothership := all_or ha.mothership hb.mothership

theorem handleT24_range (env : Env) (own : Bool) (st : Station) (payload : Str) (q : Parser) (hg : GoodStatic q)
    (hr : Readable env payload) (ht : typeOf (payloadBits payload) = 24) (r : ParsedSentence)
    (h : (complete env own st payload q).1 = .ok r) : InRange r := by
  rw [complete_24 env own st payload q hr ht] at h
  split at h
  · have hm := partData_mmsi own (payloadBits payload)
    cases hp : q.savedVsds.get (mmsiOf (payloadBits payload)) with
    | none =>
      rw [(t24Store_none _ _ (by rw [hm]; exact hp)).1] at h
      cases h; trivial
    | some w =>
      obtain ⟨own', b', rfl, -, -, hb'⟩ := hg _ w hp
      rw [(t24Store_some _ _ _ _ (by rw [hm]; exact hp) (merge_overlay own own' _ b' hb'.symm)).1] at h
      cases h
      exact overlay_range (partData_range _ _) (partData_range _ _)
  · cases h

theorem u_le {len hi : Nat} (bv : Bits) (i : Nat) (hl : len ≤ 8) (h : 2 ^ len ≤ hi + 1) :
    asU8 (pickU64 bv i len) ≤ hi := by
  rw [num_eq bv i len (by omega), u8_num bv i len hl]
  have := num_lt bv i len
  omega

theorem u16_le {len hi : Nat} (bv : Bits) (i : Nat) (hl : len ≤ 16) (h : 2 ^ len ≤ hi + 1) :
    asU16 (pickU64 bv i len) ≤ hi := by
  rw [num_eq bv i len (by omega), u16_num bv i len hl]
  have := num_lt bv i len
  omega

theorem u32_le {len hi : Nat} (bv : Bits) (i : Nat) (hl : len ≤ 32) (h : 2 ^ len ≤ hi + 1) :
    asU32 (pickU64 bv i len) ≤ hi := by
  rw [num_eq bv i len (by omega), u32_num bv i len hl]
  have := num_lt bv i len
  omega

theorem u32_mmsi (bv : Bits) (i : Nat) : IsMmsi (asU32 (pickU64 bv i 30)) := by
  rw [num_eq bv i 30 (by decide), u32_num bv i 30 (by decide)]
  exact num_lt bv i 30

theorem t123_range (bv : Bits) (st : Station) (own : Bool) (r : ParsedSentence) (h : handleT123 bv st own = .ok r) :
    InRange r := by
  cases h
  exact ⟨u32_mmsi bv 8, rot_range bv, rotDir_range bv, sog_range bv 50,
    between_mono (lat_range bv 89) (by norm_num) (by norm_num), lon_range bv 61,
    between_mono (cog_range bv 116) (by norm_num) (by norm_num), heading_range bv 128,
    u_le bv 137 (by decide) (by decide), upTo_some (u32_le bv 149 (by decide) (by decide))⟩

theorem t18_range (bv : Bits) (st : Station) (own : Bool) (r : ParsedSentence) (h : handleT18 bv st own = .ok r) :
    InRange r := by
  cases h
  exact ⟨u32_mmsi bv 8, between_none _ _, (by intro z h; cases h), sog_range bv 46,
    between_mono (lat_range bv 85) (by norm_num) (by norm_num), lon_range bv 57,
    between_mono (cog_range bv 112) (by norm_num) (by norm_num), heading_range bv 124,
    u_le bv 133 (by decide) (by decide), upTo_some (u32_le bv 149 (by decide) (by decide))⟩

theorem t27_range (bv : Bits) (st : Station) (own : Bool) (r : ParsedSentence) (h : handleT27 bv st own = .ok r) :
    InRange r := by
  cases h
  have b1 := snum_bounds bv 44 18 (by decide)
  have b2 := snum_bounds bv 62 17 (by decide)
  norm_num at b1 b2
  have n1 : num bv 62 6 < 64 := num_lt bv 62 6
  have n2 : num bv 62 17 < 131072 := num_lt bv 62 17
  refine ⟨u32_mmsi bv 8, between_none _ _, (by intro z h; cases h), ?_, ?_, ?_, ?_, between_none _ _, by simp, upTo_none _⟩
  · simp only [num_eq bv 62 6 (by decide)]
    split
    · exact_mod_cast nat_between _ 103 (by norm_num) (by omega)
    · exact between_none _ _
  · simp only [snum_eq bv 44 18 (by decide) (by decide)]
    rw [asI32_small _ (by omega) (by omega)]
    split
    · exact_mod_cast rounded_div600 _ 219 (by norm_num) (by omega) (by omega)
    · exact between_none _ _
  · simp only [snum_eq bv 62 17 (by decide) (by decide)]
    rw [asI32_small _ (by omega) (by omega)]
    split
    · exact_mod_cast rounded_div600 _ 224 (by norm_num) (by omega) (by omega)
    · exact between_none _ _
  · simp only [num_eq bv 62 17 (by decide)]
    split
    · exact_mod_cast tenths_between _ 13108 (by norm_num) (by omega) (by omega) _ (tenths_spec _ (by omega))
    · exact between_none _ _

theorem t9_range (bv : Bits) (st : Station) (own : Bool) (r : ParsedSentence) (h : handleT9 bv st own = .ok r) :
    InRange r := by
  cases h
  have n1 : asU16 (pickU64 bv 38 12) ≤ 4095 := u16_le bv 38 (by decide) (by decide)
  have n2 : asU16 (pickU64 bv 50 10) ≤ 1023 := u16_le bv 50 (by decide) (by decide)
  refine ⟨u32_mmsi bv 8, ?_, ?_, lat_range bv 89, lon_range bv 61, cog_range bv 116, u_le bv 128 (by decide) (by decide),
    u_le bv 134 (by decide) (by decide), u32_le bv 148 (by decide) (by decide)⟩
  · simp only
    split
    · exact upTo_some (by omega)
    · exact upTo_none _
  · simp only
    split
    · exact upTo_some (by omega)
    · exact upTo_none _

theorem t4_range (bv : Bits) (st : Station) (own : Bool) (r : ParsedSentence) (h : handleT4 bv st own = .ok r) :
    InRange r := by
  unfold handleT4 at h
  rw [station_eval] at h
  by_cases hv : IsDateTime (stationTime bv)
  · rw [if_pos hv] at h
    cases h
    exact ⟨u32_mmsi bv 8, ⟨_, rfl, hv⟩, lat_range bv 107, lon_range bv 79, u32_le bv 149 (by decide) (by decide)⟩
  · rw [if_neg hv] at h
    cases h

theorem t5_range (now : DateTime) (bv : Bits) (st : Station) (own : Bool) (r : ParsedSentence)
    (h : handleT5 now bv st own = .ok r) : InRange r := by
  have no {α : Type} {P : α → Prop} : ∀ x, (none : Option α) = some x → P x := by intro x h; cases h
  simp only [handleT5, liftErr_pickString, Out.ok_bind, eta_eval] at h
  have himo : ∀ n, (match asU32 (pickU64 bv 40 30) with
      | 0 => none
      | raw => some raw) = some n → 0 < n ∧ n < 2 ^ 30 := by
    intro n hn
    have := u32_mmsi bv 40
    unfold IsMmsi at this
    split at hn
    · cases hn
    · rename_i hne
      cases hn
      exact ⟨Nat.pos_of_ne_zero hne, this⟩
  by_cases ha : EtaAbsent (arrivalAt bv)
  · rw [if_pos ha] at h
    cases h
    exact ⟨u32_mmsi bv 8, u_le bv 38 (by decide) (by decide), himo, textUpTo_at bv 70 7,
      fun s hs => ⟨(textUpTo_at bv 112 20 s hs).1, (textUpTo_at bv 112 20 s hs).2.1.trans (by decide), (textUpTo_at bv 112 20 s hs).2.2⟩,
      no, no, no, upTo_some (u16_le bv 240 (by decide) (by decide)), upTo_some (u16_le bv 249 (by decide) (by decide)),
      upTo_some (u16_le bv 258 (by decide) (by decide)), upTo_some (u16_le bv 264 (by decide) (by decide)), no,
      upTo_some (u_le bv 294 (by decide) (by decide)), textUpTo_at bv 302 20, no⟩
  · rw [if_neg ha] at h
    by_cases hv : IsDateTime (etaCandidate now (arrivalAt bv))
    · rw [if_pos hv] at h
      cases h
      exact ⟨u32_mmsi bv 8, u_le bv 38 (by decide) (by decide), himo, textUpTo_at bv 70 7,
        fun s hs => ⟨(textUpTo_at bv 112 20 s hs).1, (textUpTo_at bv 112 20 s hs).2.1.trans (by decide), (textUpTo_at bv 112 20 s hs).2.2⟩,
        no, no, no, upTo_some (u16_le bv 240 (by decide) (by decide)), upTo_some (u16_le bv 249 (by decide) (by decide)),
        upTo_some (u16_le bv 258 (by decide) (by decide)), upTo_some (u16_le bv 264 (by decide) (by decide)),
        fun t ht => by cases ht; exact hv,
        upTo_some (u_le bv 294 (by decide) (by decide)), textUpTo_at bv 302 20, no⟩
    · rw [if_neg hv] at h
      cases h

theorem t21_range (bv : Bits) (st : Station) (own : Bool) (r : ParsedSentence) (h : handleT21 bv st own = .ok r) :
    InRange r := by
  simp only [handleT21, liftErr_pickString, Out.ok_bind] at h
  cases h
  exact ⟨u32_mmsi bv 8, ⟨_, _, rfl, textAt_plain bv 43 20, textAt_plain bv 272 14⟩, lat_range bv 192, lon_range bv 164,
    upTo_some (u16_le bv 219 (by decide) (by decide)), upTo_some (u16_le bv 228 (by decide) (by decide)),
    upTo_some (u16_le bv 237 (by decide) (by decide)), upTo_some (u16_le bv 243 (by decide) (by decide)),
    u_le bv 253 (by decide) (by decide), u_le bv 260 (by decide) (by decide)⟩

theorem dispatchAis_range (env : Env) (ty : Str) (bits : Bits) (st : Station) (own : Bool) (p : Parser)
    (ht : typeOf bits ≠ 24) (r : ParsedSentence) (h : (dispatchAis env ty bits st own p).1 = .ok r) : InRange r := by
  rw [← typeOf_eq] at ht
  simp only [dispatchAis] at h
  generalize pickU64 bits 0 6 = n at h ht
  split at h
  case h_1 => exact t123_range _ _ _ _ h
  case h_2 => exact t123_range _ _ _ _ h
  case h_3 => exact t123_range _ _ _ _ h
  case h_4 => exact t4_range _ _ _ _ h
  case h_5 => exact t5_range env.now bits st own r h
  case h_6 =>
    cases h
    exact ⟨u32_mmsi bits 8, u_le bits 38 (by decide) (by decide), u32_mmsi bits 40,
      u16_le bits 72 (by decide) (by decide), u_le bits 82 (by decide) (by decide)⟩
  case h_7 => exact t9_range _ _ _ _ h
  case h_8 => cases h; exact ⟨u32_mmsi bits 8, u32_mmsi bits 40⟩
  case h_9 => exact t18_range _ _ _ _ h
  case h_11 => exact t21_range _ _ _ _ h
  case h_12 => exact absurd rfl ht
  case h_13 => exact t27_range _ _ _ _ h
  all_goals cases h

theorem complete_range (env : Env) (own : Bool) (st : Station) (payload : Str) (q : Parser) (hg : GoodStatic q)
    (r : ParsedSentence) (h : (complete env own st payload q).1 = .ok r) : InRange r := by
  by_cases hr : Readable env payload
  · by_cases ht : typeOf (payloadBits payload) = 24
    · exact handleT24_range env own st payload q hg hr ht r h
    · simp only [complete, parsePayload_readable env payload hr] at h
      exact dispatchAis_range _ _ _ _ _ _ ht r h
  · have := (complete_panic env own st payload q).mpr (.inl hr)
    rw [this] at h
    cases h

theorem report_range (env : Env) (p : Parser) (hg : GoodStatic p) (s : Str) (r : ParsedSentence)
    (h : (parseSentence env p s).1 = .ok r) : InRange r := by
  cases shape s with
  | corrupted a b h' h1 h2 h3 => rw [h', parse_corrupted env p a b h1 h2 h3] at h; cases h
  | noComma body e hf hs hc => rw [hs, parse_finish _ _ _ _ hf, parseBody_noComma _ _ _ hc] at h; cases h
  | badTag ty rest e hf hs h1 h2 => rw [hs, parse_finish _ _ _ _ hf, parseBody_badTag _ _ _ _ h1 h2] at h; cases h
  | oddTag ty rest e hf hs h1 h2 => rw [hs, parse_finish _ _ _ _ hf, parseBody_oddTag _ _ _ _ h1 h2] at h; cases h
  | dollar talker kind fs hk hc hs =>
    cases eval_gnss env p talker kind fs s hk hc hs with
    | gga hk _ =>
      subst hk
      obtain ⟨d, rfl, hd⟩ := (gga_ok env p talker fs s hs r).mp h
      exact ⟨timeField_validTime hd.timestamp, by exact_mod_cast posField_range 2 (by decide) _ _ _ _ hd.latitude,
        by exact_mod_cast posField_range 3 (by decide) _ _ _ _ hd.longitude, intField_upTo hd.satellites,
        intField_upTo hd.station⟩
    | rmc hk _ =>
      subst hk
      obtain ⟨d, rfl, hd⟩ := (rmc_ok env p talker fs s hs r).mp h
      exact ⟨dateTimeField_validTime hd.timestamp, by exact_mod_cast posField_range 2 (by decide) _ _ _ _ hd.latitude,
        by exact_mod_cast posField_range 3 (by decide) _ _ _ _ hd.longitude⟩
    | gsa hk _ =>
      subst hk
      obtain ⟨d, rfl, hd⟩ := (gsa_ok env p talker fs s hs r).mp h
      have hs := hd.satellites
      refine ⟨?_, ?_⟩
      · rw [← hs.length_eq]
        exact le_trans (List.length_filter_le _ _) (by simp)
      · intro n hn
        generalize d.prnNumbers = l at hs hn
        generalize ((List.range 12).map _).filter _ = l' at hs
        induction hs with
        | nil => cases hn
        | cons h1 _ ih =>
          rcases List.mem_cons.mp hn with rfl | hn
          · obtain ⟨_, -, -, -, h1⟩ := h1
            exact h1
          · exact ih hn
    | vtg hk _ =>
      subst hk
      obtain ⟨d, hd, -⟩ := vtg_ok env p talker fs s hs
      rw [h] at hd
      cases hd
      trivial
    | gll hk _ =>
      subst hk
      obtain ⟨d, rfl, hd⟩ := (gll_ok env p talker fs s hs r).mp h
      exact ⟨timeField_validTime hd.timestamp, by exact_mod_cast posField_range 2 (by decide) _ _ _ _ hd.latitude,
        by exact_mod_cast posField_range 3 (by decide) _ _ _ _ hd.longitude⟩
    | other _ h' => obtain ⟨_, h'⟩ := h'; rw [h'] at h; cases h
    | gsv hk h' =>
      subst hk
      cases gsv_case env p talker fs s hs with
      | bad m _ h' => rw [h'] at h; cases h
      | part n k hp h' =>
        rw [h', gsvStep] at h
        split at h
        · split at h
          · cases h
          · cases h; trivial
        · split at h
          · cases h
            intro g hg'
            obtain ⟨i, -, hi⟩ := List.mem_flatMap.mp hg'
            unfold satsOpt at hi
            split at hi
            · exact gsvSats_range _ _ g hi
            · cases hi
          · cases h; trivial
  | bang talker kind fs hk hc hs =>
    cases eval_ais_or_other env p talker kind fs s hk hc hs with
    | other _ h' => obtain ⟨_, h'⟩ := h'; rw [h'] at h; cases h
    | ais own hk' _ =>
      subst hk'
      cases ais_case env p talker own fs s hs with
      | bad m _ h' => rw [h'] at h; cases h
      | odd n _ _ _ h' => rw [h'] at h; cases h; trivial
      | single pl _ hp h' => rw [h'] at h; exact complete_range _ _ _ _ _ hg r h
      | part1 id hp h' =>
        rw [h', joinPart] at h
        split at h
        · exact complete_range _ _ _ _ { p with savedFragments := p.savedFragments.erase _ } hg r h
        · cases h; trivial
      | part2 id hp h' =>
        rw [h', joinPart] at h
        split at h
        · exact complete_range _ _ _ _ { p with savedFragments := p.savedFragments.erase _ } hg r h
        · cases h; trivial

end Nmea
