/-
C111: what a report tells about the message.
-/
import Verif.Props.Messages
import Verif.Props.Values
import Verif.Props.Order

namespace Nmea
open Spec

attribute [ext] VesselDynamicData BaseStationReport StandardSarAircraftPositionReport AidToNavigationReport

theorem f64Lt_irrefl (d : F64) : ¬ F64Lt d d := by
  rintro ⟨u, v, hu, hv, h⟩
  rw [hu] at hv
  cases hv
  exact lt_irrefl _ h

theorem rounded_iff (q : Rat) (x : Option F64) : Rounded q x ↔ x = some (F64.ofRat q) := by
  unfold Rounded
  constructor
  · rintro ⟨d, rfl, h⟩
    rw [(F64.roundsTo_iff _ _).mp h]
  · rintro rfl
    exact ⟨_, rfl, (F64.roundsTo_iff _ _).mpr rfl⟩

theorem degrees_inj (k : Nat) (hk : 0 < k) (hk' : k ≤ 600000) (a b : Int) (ha : |(a : Rat) / k| ≤ 224)
    (hb : |(b : Rat) / k| ≤ 224) (x y : Option F64) (hx : Rounded (a / k) x) (hy : Rounded (b / k) y) :
    x = y ↔ a = b := by
  constructor
  · rintro rfl
    obtain ⟨d, rfl, hd⟩ := hx
    obtain ⟨_, e, he⟩ := hy
    cases e
    by_contra hne
    rcases lt_or_gt_of_ne hne with h | h
    · exact f64Lt_irrefl d (rounded_strict k hk hk' a b ha hb d d hd he h)
    · exact f64Lt_irrefl d (rounded_strict k hk hk' b a hb ha d d he hd h)
  · rintro rfl
    rw [(rounded_iff _ _).mp hx, (rounded_iff _ _).mp hy]

theorem degrees_iff (na a b : Int) (ha : -2 ^ 27 ≤ a ∧ a < 2 ^ 27) (hb : -2 ^ 27 ≤ b ∧ b < 2 ^ 27) (x y : Option F64)
    (hx : Degrees na a x) (hy : Degrees na b y) : x = y ↔ a = b := by
  norm_num at ha hb
  have ka := degrees_abs a 224 (by omega) (by omega)
  have kb := degrees_abs b 224 (by omega) (by omega)
  unfold Degrees at hx hy
  split at hx
  · split at hy
    · rw [hx, hy]; simp; omega
    · obtain ⟨d, rfl, -⟩ := hy
      rw [hx]; simp; omega
  · split at hy
    · obtain ⟨d, rfl, -⟩ := hx
      rw [hy]; simp; omega
    · exact degrees_inj 600000 (by norm_num) le_rfl a b (by exact_mod_cast ka) (by exact_mod_cast kb) x y
        (by exact_mod_cast hx) (by exact_mod_cast hy)

theorem tenths_iff (a b : Nat) (ha : a < 4096) (hb : b < 4096) (x y : Option F64) (hx : Tenths a x) (hy : Tenths b y) :
    x = y ↔ a = b := by
  obtain ⟨d, e, u, v, rfl, rfl, hu, hv, hlt, -⟩ := C108_tenths a b ha hb x y hx hy
  obtain ⟨d', e', u', v', h1, h2, hu', hv', hlt', -⟩ := C108_tenths b a hb ha _ _ hy hx
  cases h1; cases h2
  rw [hu] at hv'; cases hv'
  rw [hv] at hu'; cases hu'
  constructor
  · intro h
    cases h
    rw [hu] at hv; cases hv
    have n1 := mt hlt.mpr (lt_irrefl u)
    have n2 := mt hlt'.mpr (lt_irrefl u)
    omega
  · rintro rfl
    obtain ⟨t, ht, hx⟩ := hx
    obtain ⟨t', ht', hy⟩ := hy
    rw [F64.roundsTo_iff] at ht ht'
    rw [← ht'] at ht
    cases ht
    rw [(rounded_iff _ _).mp hx, (rounded_iff _ _).mp hy]

theorem tenths_some (a : Nat) (x : Option F64) (h : Tenths a x) : x ≠ none := by
  obtain ⟨t, -, d, rfl, -⟩ := h
  simp

theorem speed_iff (a b : Nat) (ha : a < 1024) (hb : b < 1024) (x y : Option F64) (hx : Speed a x) (hy : Speed b y) :
    x = y ↔ a = b := by
  unfold Speed at hx hy
  split at hx
  · split at hy
    · rw [hx, hy]; simp; omega
    · have := tenths_some _ _ hy
      rw [hx]; simp [this.symm]; omega
  · split at hy
    · have := tenths_some _ _ hx
      rw [hy]; simp [this]; omega
    · exact tenths_iff a b (by omega) (by omega) x y hx hy

theorem course_iff (a b : Nat) (ha : a < 4096) (hb : b < 4096) (x y : Option F64) (hx : Course a x) (hy : Course b y) :
    x = y ↔ a = b := by
  unfold Course at hx hy
  split at hx
  · split at hy
    · rw [hx, hy]; simp; omega
    · have := tenths_some _ _ hy
      rw [hx]; simp [this.symm]; omega
  · split at hy
    · have := tenths_some _ _ hx
      rw [hy]; simp [this]; omega
    · exact tenths_iff a b ha hb x y hx hy

theorem heading_iff (a b : Nat) (ha : a < 512) (hb : b < 512) (x y : Option F64) (hx : Heading a x) (hy : Heading b y) :
    x = y ↔ a = b := by
  have ex : ∀ n : Nat, n < 512 → ∀ z, Rounded (n : Rat) z → z = some (.fin false n) := by
    intro n hn z hz
    rw [(rounded_iff _ _).mp hz, ← natF64_small n (by omega)]
    rfl
  unfold Heading at hx hy
  split at hx
  · split at hy
    · rw [hx, hy]; simp; omega
    · rw [hx, ex b hb y hy]; simp; omega
  · split at hy
    · rw [hy, ex a ha x hx]; simp; omega
    · rw [ex a ha x hx, ex b hb y hy]; simp

theorem turn_iff (a b : Int) (ha : -128 ≤ a ∧ a ≤ 127) (hb : -128 ≤ b ∧ b ≤ 127) (x y : Option F64) (hx : Turn a x)
    (hy : Turn b y) : (x = y ∧ turnDirection a = turnDirection b) ↔ a = b := by
  constructor
  · rintro ⟨rfl, hd⟩
    cases x with
    | none =>
      have na : ¬ a.natAbs ≤ 126 := by
        intro h
        unfold Turn at hx
        rw [if_pos h] at hx
        obtain ⟨_, _, e⟩ := hx
        cases e
      have nb : ¬ b.natAbs ≤ 126 := by
        intro h
        unfold Turn at hy
        rw [if_pos h] at hy
        obtain ⟨_, _, e⟩ := hy
        cases e
      have ka : a = -128 ∨ a = -127 ∨ a = 127 := by omega
      have kb : b = -128 ∨ b = -127 ∨ b = 127 := by omega
      rcases ka with rfl | rfl | rfl <;> rcases kb with rfl | rfl | rfl <;> simp [turnDirection] at hd ⊢
    | some d =>
      by_contra hne
      rcases lt_or_gt_of_ne hne with h | h
      · exact f64Lt_irrefl d (C57_monotone a b d d hx hy h)
      · exact f64Lt_irrefl d (C57_monotone b a d d hy hx h)
  · rintro rfl
    refine ⟨?_, rfl⟩
    unfold Turn at hx hy
    split at hx
    · rename_i h
      rw [if_pos h] at hy
      obtain ⟨u, ⟨c, p, q, h1, h2, h3, h4⟩, rfl⟩ := hx
      obtain ⟨u', ⟨c', p', q', h1', h2', h3', h4'⟩, rfl⟩ := hy
      rw [F64.roundsTo_iff] at h1 h2 h3 h4 h1' h2' h3' h4'
      rw [← h1'] at h1; cases h1
      rw [← h2'] at h2; cases h2
      rw [← h3'] at h3; cases h3
      rw [← h4'] at h4; cases h4
      rfl
    · rename_i h
      rw [if_neg h] at hy
      rw [hx, hy]

theorem nonEmpty_iff (a b : Str) : nonEmpty a = nonEmpty b ↔ a = b := by
  unfold nonEmpty
  split <;> split <;> simp_all [eq_comm]

theorem status_iff (a b : Nat) (ha : a < 16) (hb : b < 16) (x y : NavigationStatus) (hx : some x = navStatusTable[a]?)
    (hy : some y = navStatusTable[b]?) : x = y ↔ a = b := by
  have key : ∀ i j : Fin 16, navStatusTable[i.val]? = navStatusTable[j.val]? → i.val = j.val := by decide +kernel
  constructor
  · rintro rfl
    exact key ⟨a, ha⟩ ⟨b, hb⟩ (hx.symm.trans hy)
  · rintro rfl
    exact Option.some.inj (hx.trans hy.symm)

theorem aid_iff (a b : Nat) (ha : a < 32) (hb : b < 32) (x y : NavAidType) (hx : some x = navAidTable[a]?)
    (hy : some y = navAidTable[b]?) : x = y ↔ a = b := by
  have key : ∀ i j : Fin 32, navAidTable[i.val]? = navAidTable[j.val]? → i.val = j.val := by decide +kernel
  constructor
  · rintro rfl
    exact key ⟨a, ha⟩ ⟨b, hb⟩ (hx.symm.trans hy)
  · rintro rfl
    exact Option.some.inj (hx.trans hy.symm)

theorem tenths_unique (a : Nat) (x y : Option F64) (hx : Tenths a x) (hy : Tenths a y) : x = y := by
  obtain ⟨t, ht, hx⟩ := hx
  obtain ⟨t', ht', hy⟩ := hy
  rw [F64.roundsTo_iff] at ht ht'
  rw [← ht'] at ht
  cases ht
  rw [(rounded_iff _ _).mp hx, (rounded_iff _ _).mp hy]

theorem fixOf_iff (a b : Nat) (ha : a < 16) (hb : b < 16) :
    fixOf a = fixOf b ↔ (a = b ∨ a ∉ [1, 2, 3, 4, 5, 6, 7, 8] ∧ b ∉ [1, 2, 3, 4, 5, 6, 7, 8]) := by
  have key : ∀ a b : Fin 16, fixOf a = fixOf b ↔ (a.val = b.val ∨ a.val ∉ [1, 2, 3, 4, 5, 6, 7, 8] ∧
    b.val ∉ [1, 2, 3, 4, 5, 6, 7, 8]) := by decide +kernel
  exact key ⟨a, ha⟩ ⟨b, hb⟩

theorem optFix_iff (a b : Nat) (ha : a < 16) (hb : b < 16) : optFix a = optFix b ↔ (a = b ∨ 8 < a ∧ 8 < b) := by
  have key : ∀ a b : Fin 16, optFix a = optFix b ↔ (a.val = b.val ∨ 8 < a.val ∧ 8 < b.val) := by decide +kernel
  exact key ⟨a, ha⟩ ⟨b, hb⟩

/-- A sentence of the demo, in one part. -/
theorem demoSingle (p : Parser) (talker : Str) (own : Bool) (payload : Str)
    (h : Talker talker ∧ CommaFree [c! "1", c! "1", [], c! "A", payload, c! "0"] ∧
      Framed (join (tag '!' talker (aisKind own)) [c! "1", c! "1", [], c! "A", payload, c! "0"]) .full) :
    Delivers p (aisSentence talker own payload) talker own payload :=
  .single _ ⟨_, 1, demoTagged .full ⟨h.1, h.2.1, by simp, h.2.2, rfl⟩, (show Dec 255 (c! "1") 1 from demoDec (by decide)), (show Dec 255 (c! "1") 1 from demoDec (by decide)), rfl⟩

/-! ## C111: what a report tells about the message -/

/-- C111: two class A position reports are answered alike exactly if they agree in everything but message type (1, 2
or 3), repeat indicator, spare bits and the distinctions 1/2 and 0/3 of the manoeuvre indicator. -/
theorem C111_position_A (env env' : Env) (p p' : Parser) (s s' talker talker' : Str) (own own' : Bool)
    (m m' : PositionA) (x x' : List Bool) (hm : m.Fits) (hm' : m'.Fits)
    (h : Delivers p s talker own (armor (m.bits ++ x))) (h' : Delivers p' s' talker' own' (armor (m'.bits ++ x'))) :
    (parseSentence env p s).1 = (parseSentence env' p' s').1 ↔
      own = own' ∧ talkerStation talker = talkerStation talker' ∧ m.mmsi = m'.mmsi ∧ m.status = m'.status ∧
      m.turn = m'.turn ∧ m.speed = m'.speed ∧ m.accuracy = m'.accuracy ∧ m.lon = m'.lon ∧ m.lat = m'.lat ∧
      m.course = m'.course ∧ m.heading = m'.heading ∧ m.second = m'.second ∧
      (m.manoeuvre ∈ [1, 2] ↔ m'.manoeuvre ∈ [1, 2]) ∧ m.raim = m'.raim ∧ m.radio = m'.radio := by
  obtain ⟨d, e, a1, a2, a3, a4, a5, a6, a7, a8, a9, a10, a11, a12, a13, a14, a15, a16, a17, a18, a19, a20, a21, a22, a23,
    a24, a25, a26⟩ := C44_position_A env p s talker own m x hm h
  obtain ⟨d', e', b1, b2, b3, b4, b5, b6, b7, b8, b9, b10, b11, b12, b13, b14, b15, b16, b17, b18, b19, b20, b21, b22, b23,
    b24, b25, b26⟩ := C44_position_A env' p' s' talker' own' m' x' hm' h'
  obtain ⟨-, -, -, f4, f5, f6, f7, f8, f9, f10, -⟩ := hm
  obtain ⟨-, -, -, g4, g5, g6, g7, g8, g9, g10, -⟩ := hm'
  have i5 := status_iff _ _ f4 g4 _ _ a5 b5
  have i6 := turn_iff _ _ f5 g5 _ _ a6 b6
  have i8 := speed_iff _ _ f6 g6 _ _ a8 b8
  have i10 := degrees_iff _ _ _ (by norm_num at f8 ⊢; omega) (by norm_num at g8 ⊢; omega) _ _ a10 b10
  have i11 := degrees_iff _ _ _ f7 g7 _ _ a11 b11
  have i12 := course_iff _ _ f9 g9 _ _ a12 b12
  have i13 := heading_iff _ _ f10 g10 _ _ a13 b13
  have i16 : reportedManoeuvre m.manoeuvre = reportedManoeuvre m'.manoeuvre ↔
      (m.manoeuvre ∈ [1, 2] ↔ m'.manoeuvre ∈ [1, 2]) := by
    unfold reportedManoeuvre
    split <;> split <;> simp_all
  rw [← a7, ← b7] at i6
  rw [← a16, ← b16] at i16
  rw [e, e', ← i5, ← i6, ← i8, ← i10, ← i11, ← i12, ← i13, ← i16]
  constructor
  · intro h
    injection h with h
    injection h with h
    subst h
    exact ⟨a1.symm.trans b1, a2.symm.trans b2, a4.symm.trans b4, rfl, ⟨rfl, rfl⟩, rfl, a9.symm.trans b9, rfl, rfl, rfl, rfl,
      a14.symm.trans b14, rfl, a17.symm.trans b17, Option.some.inj (a18.symm.trans b18)⟩
  · rintro ⟨k1, k2, k3, k4, ⟨k5, k5'⟩, k6, k7, k8, k9, k10, k11, k12, k13, k14, k15⟩
    congr 2
    apply VesselDynamicData.ext <;> first | assumption | simp only [a1, b1, a2, b2, a3, b3, a4, b4, a9, b9, a14, b14, a15, b15, a17, b17, a18, b18, a19, b19, a20, b20, a21, b21, a22, b22, a23, b23, a24, b24, a25, b25, a26, b26,
      k1, k2, k3, k7, k12, k14, k15]

/-- Two class A reports 1/10000 minute of latitude apart: the answers differ. -/
example : PositionA.Fits ⟨1, 0, 227006760, 8, -57, 123, true, -70000000, 25000000, 3599, 359, 61, 1, 0, true, 34017⟩ ∧ PositionA.Fits ⟨3, 2, 227006760, 8, -57, 123, true, -70000000, 25000001, 3599, 359, 61, 1, 0, true, 34017⟩ ∧
    ∀ p, Delivers p (aisSentence (c! "AI") false (armor (PositionA.bits ⟨1, 0, 227006760, 8, -57, 123, true, -70000000, 25000000, 3599, 359, 61, 1, 0, true, 34017⟩ ++ []))) (c! "AI") false (armor (PositionA.bits ⟨1, 0, 227006760, 8, -57, 123, true, -70000000, 25000000, 3599, 359, 61, 1, 0, true, 34017⟩ ++ [])) ∧
      Delivers p (aisSentence (c! "AI") false (armor (PositionA.bits ⟨3, 2, 227006760, 8, -57, 123, true, -70000000, 25000001, 3599, 359, 61, 1, 0, true, 34017⟩ ++ []))) (c! "AI") false (armor (PositionA.bits ⟨3, 2, 227006760, 8, -57, 123, true, -70000000, 25000001, 3599, 359, 61, 1, 0, true, 34017⟩ ++ [])) := by
  refine ⟨by unfold PositionA.Fits; decide, by unfold PositionA.Fits; decide, fun p => ⟨?_, ?_⟩⟩ <;>
  exact demoSingle _ _ _ _ (by decide +kernel)

/-- C111: two base station reports are answered alike exactly if they agree in everything but repeat indicator, spare
bits and the distinction of the unused codes of the fixing device. -/
theorem C111_base_station (env env' : Env) (p p' : Parser) (s s' talker talker' : Str) (own own' : Bool)
    (m m' : BaseStation) (x x' : List Bool) (hm : m.Fits) (hm' : m'.Fits)
    (hd : IsDateTime m.time) (hd' : IsDateTime m'.time)
    (h : Delivers p s talker own (armor (m.bits ++ x))) (h' : Delivers p' s' talker' own' (armor (m'.bits ++ x'))) :
    (parseSentence env p s).1 = (parseSentence env' p' s').1 ↔
      own = own' ∧ talkerStation talker = talkerStation talker' ∧ m.mmsi = m'.mmsi ∧ m.time = m'.time ∧
      m.accuracy = m'.accuracy ∧ m.lon = m'.lon ∧ m.lat = m'.lat ∧ (m.fix = m'.fix ∨ 8 < m.fix ∧ 8 < m'.fix) ∧
      m.raim = m'.raim ∧ m.radio = m'.radio := by
  obtain ⟨d, e, a1, a2, a3, a4, a5, a6, a7, a8, a9, a10⟩ := C45_base_station env p s talker own m x hm hd h
  obtain ⟨d', e', b1, b2, b3, b4, b5, b6, b7, b8, b9, b10⟩ := C45_base_station env' p' s' talker' own' m' x' hm' hd' h'
  obtain ⟨-, -, -, -, -, -, -, -, f7, f8, f9, -⟩ := hm
  obtain ⟨-, -, -, -, -, -, -, -, g7, g8, g9, -⟩ := hm'
  have i6 := degrees_iff _ _ _ (by norm_num at f8 ⊢; omega) (by norm_num at g8 ⊢; omega) _ _ a6 b6
  have i7 := degrees_iff _ _ _ f7 g7 _ _ a7 b7
  have i8 := optFix_iff m.fix m'.fix f9 g9
  rw [← a8, ← b8] at i8
  rw [e, e', ← i6, ← i7, ← i8]
  constructor
  · intro h
    injection h with h
    injection h with h
    subst h
    exact ⟨a1.symm.trans b1, a2.symm.trans b2, a3.symm.trans b3, Option.some.inj (a4.symm.trans b4), a5.symm.trans b5, rfl,
      rfl, rfl, a9.symm.trans b9, a10.symm.trans b10⟩
  · rintro ⟨k1, k2, k3, k4, k5, k6, k7, k8, k9, k10⟩
    congr 2
    apply BaseStationReport.ext <;> first | assumption | simp only [a1, b1, a2, b2, a3, b3, a4, b4, a5, b5, a9, b9, a10, b10,
      k1, k2, k3, k4, k5, k9, k10]

/-- Two base station reports with the codes 9 and 15 of the fixing device: the answers agree. -/
example : BaseStation.Fits ⟨0, 3669702, 2007, 5, 14, 19, 57, 39, true, -45812400, 22138800, 9, 0, false, 67039⟩ ∧ BaseStation.Fits ⟨1, 3669702, 2007, 5, 14, 19, 57, 39, true, -45812400, 22138800, 15, 0, false, 67039⟩ ∧ IsDateTime ⟨2007, 5, 14, 19, 57, 39⟩ ∧
    ∀ p, Delivers p (aisSentence (c! "AI") false (armor (BaseStation.bits ⟨0, 3669702, 2007, 5, 14, 19, 57, 39, true, -45812400, 22138800, 9, 0, false, 67039⟩ ++ []))) (c! "AI") false (armor (BaseStation.bits ⟨0, 3669702, 2007, 5, 14, 19, 57, 39, true, -45812400, 22138800, 9, 0, false, 67039⟩ ++ [])) ∧
      Delivers p (aisSentence (c! "AI") false (armor (BaseStation.bits ⟨1, 3669702, 2007, 5, 14, 19, 57, 39, true, -45812400, 22138800, 15, 0, false, 67039⟩ ++ []))) (c! "AI") false (armor (BaseStation.bits ⟨1, 3669702, 2007, 5, 14, 19, 57, 39, true, -45812400, 22138800, 15, 0, false, 67039⟩ ++ [])) := by
  refine ⟨by unfold BaseStation.Fits; decide, by unfold BaseStation.Fits; decide, by decide, fun p => ⟨?_, ?_⟩⟩ <;>
  exact demoSingle _ _ _ _ (by decide +kernel)

/-- C111: two voyage reports received at the same time are answered alike exactly if they agree in sender, version, IMO
number, texts, dimensions, draught, what the ship type code and the code of the fixing device are reported as, and the ETA
that is made of the transmitted one. (Talker, repeat indicator and DTE flag do not count.) -/
theorem C111_voyage (env env' : Env) (p p' : Parser) (s s' talker talker' : Str) (own own' : Bool)
    (m m' : Voyage) (x x' : List Bool) (hm : m.Fits) (hm' : m'.Fits)
    (hn : env.now = env'.now) (hd : EtaAbsent m.arrival ∨ IsDateTime (etaCandidate env.now m.arrival))
    (hd' : EtaAbsent m'.arrival ∨ IsDateTime (etaCandidate env.now m'.arrival))
    (h : Delivers p s talker own (armor (m.bits ++ x))) (h' : Delivers p' s' talker' own' (armor (m'.bits ++ x'))) :
    (parseSentence env p s).1 = (parseSentence env' p' s').1 ↔
      own = own' ∧ m.mmsi = m'.mmsi ∧ m.version = m'.version ∧ m.imo = m'.imo ∧ m.callSign = m'.callSign ∧
      m.name = m'.name ∧ reportedShip m.ship = reportedShip m'.ship ∧ cargoOf m.ship = cargoOf m'.ship ∧
      m.bow = m'.bow ∧ m.stern = m'.stern ∧ m.port = m'.port ∧ m.starboard = m'.starboard ∧
      (m.fix = m'.fix ∨ 8 < m.fix ∧ 8 < m'.fix) ∧ m.draught = m'.draught ∧ m.destination = m'.destination ∧
      (EtaAbsent m.arrival ∧ EtaAbsent m'.arrival ∨ ¬ EtaAbsent m.arrival ∧ ¬ EtaAbsent m'.arrival ∧
        etaCandidate env.now m.arrival = etaCandidate env.now m'.arrival) := by
  have e := C46_voyage env p s talker own m x hm hd h
  have e' := C46_voyage env' p' s' talker' own' m' x' hm' (hn ▸ hd') h'
  have i := optFix_iff m.fix m'.fix (by exact hm.2.2.2.2.2.2.2.2.2.2.2.1) (by exact hm'.2.2.2.2.2.2.2.2.2.2.2.1)
  have j : (if m.imo = 0 then none else some m.imo) = (if m'.imo = 0 then none else some m'.imo) ↔ m.imo = m'.imo := by
    split <;> split <;> simp_all [eq_comm]
  have l : (if EtaAbsent m.arrival then none else some (etaCandidate env.now m.arrival)) =
      (if EtaAbsent m'.arrival then none else some (etaCandidate env.now m'.arrival)) ↔
      (EtaAbsent m.arrival ∧ EtaAbsent m'.arrival ∨ ¬ EtaAbsent m.arrival ∧ ¬ EtaAbsent m'.arrival ∧
        etaCandidate env.now m.arrival = etaCandidate env.now m'.arrival) := by
    split <;> split <;> simp_all
  rw [e, e', ← hn]
  simp only [Out.ok.injEq, ParsedSentence.vesselStaticData.injEq, VesselStaticData.mk.injEq, Option.some.injEq, nonEmpty_iff, i, j, l,
    true_and, and_true]
  constructor
  · rintro ⟨k1, k2, k3, k4, k5, k6, k7, k8, k9, k10, k11, k12, k13, k14, k15, k16⟩
    exact ⟨k1, k2, k3, k4, k5, k6, k7, k8, k9, k10, k11, k12, k13, k15, k16, k14⟩
  · rintro ⟨k1, k2, k3, k4, k5, k6, k7, k8, k9, k10, k11, k12, k13, k15, k16, k14⟩
    exact ⟨k1, k2, k3, k4, k5, k6, k7, k8, k9, k10, k11, k12, k13, k14, k15, k16⟩

/-- Two voyage reports that differ in repeat indicator and DTE flag: the answers agree. -/
example : Voyage.Fits ⟨0, 351759000, 0, 9134270, c! "3FOF8", c! "EVER DIADEM", 70, 225, 70, 1, 31, 1, 5, 15, 14, 0, 122,
      c! "NEW YORK", false, false⟩ ∧ Voyage.Fits ⟨1, 351759000, 0, 9134270, c! "3FOF8", c! "EVER DIADEM", 70, 225, 70, 1, 31, 1, 5, 15, 14, 0, 122,
      c! "NEW YORK", true, false⟩ ∧
    IsDateTime (etaCandidate demoEnv.now ⟨5, 15, 14, 0, 122⟩) ∧
    ∀ p, Delivers p (aisSentence (c! "AI") false (armor (Voyage.bits ⟨0, 351759000, 0, 9134270, c! "3FOF8", c! "EVER DIADEM", 70, 225, 70, 1, 31, 1, 5, 15, 14, 0, 122,
      c! "NEW YORK", false, false⟩ ++ []))) (c! "AI") false (armor (Voyage.bits ⟨0, 351759000, 0, 9134270, c! "3FOF8", c! "EVER DIADEM", 70, 225, 70, 1, 31, 1, 5, 15, 14, 0, 122,
      c! "NEW YORK", false, false⟩ ++ [])) ∧
      Delivers p (aisSentence (c! "AI") false (armor (Voyage.bits ⟨1, 351759000, 0, 9134270, c! "3FOF8", c! "EVER DIADEM", 70, 225, 70, 1, 31, 1, 5, 15, 14, 0, 122,
      c! "NEW YORK", true, false⟩ ++ []))) (c! "AI") false (armor (Voyage.bits ⟨1, 351759000, 0, 9134270, c! "3FOF8", c! "EVER DIADEM", 70, 225, 70, 1, 31, 1, 5, 15, 14, 0, 122,
      c! "NEW YORK", true, false⟩ ++ [])) := by
  refine ⟨by unfold Voyage.Fits; decide, by unfold Voyage.Fits; decide, by decide, fun p => ⟨?_, ?_⟩⟩ <;>
  exact demoSingle _ _ _ _ (by decide +kernel)

/-- C111: two addressed binary messages are answered alike exactly if they agree in everything but repeat indicator, spare
bit and the data. -/
theorem C111_addressed (env env' : Env) (p p' : Parser) (s s' talker talker' : Str) (own own' : Bool)
    (m m' : Addressed) (x x' : List Bool) (hm : m.Fits) (hm' : m'.Fits)
    (h : Delivers p s talker own (armor (m.bits ++ x))) (h' : Delivers p' s' talker' own' (armor (m'.bits ++ x'))) :
    (parseSentence env p s).1 = (parseSentence env' p' s').1 ↔
      own = own' ∧ talkerStation talker = talkerStation talker' ∧ m.mmsi = m'.mmsi ∧ m.sequence = m'.sequence ∧
      m.destination = m'.destination ∧ m.retransmit = m'.retransmit ∧ m.dac = m'.dac ∧ m.fid = m'.fid := by
  rw [C47_addressed env p s talker own m x hm h, C47_addressed env' p' s' talker' own' m' x' hm' h']
  simp only [Out.ok.injEq, ParsedSentence.binaryAddressedMessage.injEq, BinaryAddressedMessage.mk.injEq]

/-- Two messages that differ in the retransmit flag: the answers differ. -/
example : Addressed.Fits ⟨0, 150834090, 3, 313240222, false, false, 669, 11⟩ ∧ Addressed.Fits ⟨0, 150834090, 3, 313240222, true, false, 669, 11⟩ ∧
    ∀ p, Delivers p (aisSentence (c! "AI") false (armor (Addressed.bits ⟨0, 150834090, 3, 313240222, false, false, 669, 11⟩ ++ []))) (c! "AI") false (armor (Addressed.bits ⟨0, 150834090, 3, 313240222, false, false, 669, 11⟩ ++ [])) ∧
      Delivers p (aisSentence (c! "AI") false (armor (Addressed.bits ⟨0, 150834090, 3, 313240222, true, false, 669, 11⟩ ++ []))) (c! "AI") false (armor (Addressed.bits ⟨0, 150834090, 3, 313240222, true, false, 669, 11⟩ ++ [])) := by
  refine ⟨by unfold Addressed.Fits; decide, by unfold Addressed.Fits; decide, fun p => ⟨?_, ?_⟩⟩ <;>
  exact demoSingle _ _ _ _ (by decide +kernel)

/-- C111: two SAR aircraft reports are answered alike exactly if they agree in everything but repeat indicator and spare
bits. -/
theorem C111_aircraft (env env' : Env) (p p' : Parser) (s s' talker talker' : Str) (own own' : Bool)
    (m m' : Aircraft) (x x' : List Bool) (hm : m.Fits) (hm' : m'.Fits)
    (h : Delivers p s talker own (armor (m.bits ++ x))) (h' : Delivers p' s' talker' own' (armor (m'.bits ++ x'))) :
    (parseSentence env p s).1 = (parseSentence env' p' s').1 ↔
      own = own' ∧ talkerStation talker = talkerStation talker' ∧ m.mmsi = m'.mmsi ∧ m.altitude = m'.altitude ∧
      m.speed = m'.speed ∧ m.accuracy = m'.accuracy ∧ m.lon = m'.lon ∧ m.lat = m'.lat ∧ m.course = m'.course ∧
      m.second = m'.second ∧ m.regional = m'.regional ∧ m.dteOff = m'.dteOff ∧ m.assigned = m'.assigned ∧
      m.raim = m'.raim ∧ m.radio = m'.radio := by
  obtain ⟨d, e, a1, a2, a3, a4, a5, a6, a7, a8, a9, a10, a11, a12, a13, a14, a15⟩ :=
    C48_aircraft env p s talker own m x hm h
  obtain ⟨d', e', b1, b2, b3, b4, b5, b6, b7, b8, b9, b10, b11, b12, b13, b14, b15⟩ :=
    C48_aircraft env' p' s' talker' own' m' x' hm' h'
  obtain ⟨-, -, f3, f4, f5, f6, f7, -⟩ := hm
  obtain ⟨-, -, g3, g4, g5, g6, g7, -⟩ := hm'
  have i7 := degrees_iff _ _ _ (by norm_num at f6 ⊢; omega) (by norm_num at g6 ⊢; omega) _ _ a7 b7
  have i8 := degrees_iff _ _ _ f5 g5 _ _ a8 b8
  have i9 := course_iff _ _ f7 g7 _ _ a9 b9
  have opt : ∀ (n a b : Nat), ((if a = n then none else some a) = (if b = n then none else some b)) ↔ a = b := by
    intro n a b
    split <;> split <;> simp_all [eq_comm]
  have i4 := opt 4095 m.altitude m'.altitude
  have i5 := opt 1023 m.speed m'.speed
  rw [← a4, ← b4] at i4
  rw [← a5, ← b5] at i5
  rw [e, e', ← i4, ← i5, ← i7, ← i8, ← i9]
  constructor
  · intro h
    injection h with h
    injection h with h
    subst h
    exact ⟨a1.symm.trans b1, a2.symm.trans b2, a3.symm.trans b3, rfl, rfl, a6.symm.trans b6, rfl, rfl, rfl,
      a10.symm.trans b10, a11.symm.trans b11, by simpa using a12.symm.trans b12, a13.symm.trans b13, a14.symm.trans b14, a15.symm.trans b15⟩
  · rintro ⟨k1, k2, k3, k4, k5, k6, k7, k8, k9, k10, k11, k12, k13, k14, k15⟩
    congr 2
    apply StandardSarAircraftPositionReport.ext <;> first | assumption | simp only [a1, b1, a2, b2, a3, b3, a6, b6, a10, b10,
      a11, b11, a12, b12, a13, b13, a14, b14, a15, b15, k1, k2, k3, k6, k10, k11, k12, k13, k14, k15]

/-- Two reports that differ in the altitude: the answers differ. -/
example : Aircraft.Fits ⟨0, 111232511, 303, 42, false, -3767400, 34862400, 1545, 15, 0, true, 0, false, false, 33392⟩ ∧ Aircraft.Fits ⟨0, 111232511, 304, 42, false, -3767400, 34862400, 1545, 15, 0, true, 0, false, false, 33392⟩ ∧
    ∀ p, Delivers p (aisSentence (c! "AI") false (armor (Aircraft.bits ⟨0, 111232511, 303, 42, false, -3767400, 34862400, 1545, 15, 0, true, 0, false, false, 33392⟩ ++ []))) (c! "AI") false (armor (Aircraft.bits ⟨0, 111232511, 303, 42, false, -3767400, 34862400, 1545, 15, 0, true, 0, false, false, 33392⟩ ++ [])) ∧
      Delivers p (aisSentence (c! "AI") false (armor (Aircraft.bits ⟨0, 111232511, 304, 42, false, -3767400, 34862400, 1545, 15, 0, true, 0, false, false, 33392⟩ ++ []))) (c! "AI") false (armor (Aircraft.bits ⟨0, 111232511, 304, 42, false, -3767400, 34862400, 1545, 15, 0, true, 0, false, false, 33392⟩ ++ [])) := by
  refine ⟨by unfold Aircraft.Fits; decide, by unfold Aircraft.Fits; decide, fun p => ⟨?_, ?_⟩⟩ <;>
  exact demoSingle _ _ _ _ (by decide +kernel)

/-- C111: two UTC inquiries are answered alike exactly if they agree in sender and destination. -/
theorem C111_inquiry (env env' : Env) (p p' : Parser) (s s' talker talker' : Str) (own own' : Bool)
    (m m' : Inquiry) (x x' : List Bool) (hm : m.Fits) (hm' : m'.Fits)
    (h : Delivers p s talker own (armor (m.bits ++ x))) (h' : Delivers p' s' talker' own' (armor (m'.bits ++ x'))) :
    (parseSentence env p s).1 = (parseSentence env' p' s').1 ↔
      own = own' ∧ talkerStation talker = talkerStation talker' ∧ m.mmsi = m'.mmsi ∧ m.destination = m'.destination := by
  rw [C49_inquiry env p s talker own m x hm h, C49_inquiry env' p' s' talker' own' m' x' hm' h']
  simp only [Out.ok.injEq, ParsedSentence.utcDateInquiry.injEq, UtcDateInquiry.mk.injEq]

/-- Two inquiries that differ in repeat indicator and spare bits: the answers agree. -/
example : Inquiry.Fits ⟨0, 366814480, 0, 366832740, 0⟩ ∧ Inquiry.Fits ⟨1, 366814480, 3, 366832740, 1⟩ ∧
    ∀ p, Delivers p (aisSentence (c! "AI") false (armor (Inquiry.bits ⟨0, 366814480, 0, 366832740, 0⟩ ++ []))) (c! "AI") false (armor (Inquiry.bits ⟨0, 366814480, 0, 366832740, 0⟩ ++ [])) ∧
      Delivers p (aisSentence (c! "AI") false (armor (Inquiry.bits ⟨1, 366814480, 3, 366832740, 1⟩ ++ []))) (c! "AI") false (armor (Inquiry.bits ⟨1, 366814480, 3, 366832740, 1⟩ ++ [])) := by
  refine ⟨by unfold Inquiry.Fits; decide, by unfold Inquiry.Fits; decide, fun p => ⟨?_, ?_⟩⟩ <;>
  exact demoSingle _ _ _ _ (by decide +kernel)

/-- C111: two class B position reports are answered alike exactly if they agree in the fields listed; the mode flag, the
RAIM flag, the radio selector, regional and spare bits do not count. -/
theorem C111_position_B (env env' : Env) (p p' : Parser) (s s' talker talker' : Str) (own own' : Bool)
    (m m' : PositionB) (x x' : List Bool) (hm : m.Fits) (hm' : m'.Fits)
    (h : Delivers p s talker own (armor (m.bits ++ x))) (h' : Delivers p' s' talker' own' (armor (m'.bits ++ x'))) :
    (parseSentence env p s).1 = (parseSentence env' p' s').1 ↔
      own = own' ∧ talkerStation talker = talkerStation talker' ∧ m.mmsi = m'.mmsi ∧ m.speed = m'.speed ∧
      m.accuracy = m'.accuracy ∧ m.lon = m'.lon ∧ m.lat = m'.lat ∧ m.course = m'.course ∧ m.heading = m'.heading ∧
      m.second = m'.second ∧ m.unit = m'.unit ∧ m.display = m'.display ∧ m.dsc = m'.dsc ∧ m.band = m'.band ∧
      m.msg22 = m'.msg22 ∧ m.radio % 2 ^ 19 = m'.radio % 2 ^ 19 := by
  obtain ⟨d, e, a1, a2, a3, a4, a5, a6, a7, a8, a9, a10, a11, a12, a13, a14, a15, a16, a17, a18, a19, a20, a21, a22, a23,
    a24, a25, a26⟩ := C50_position_B env p s talker own m x hm h
  obtain ⟨d', e', b1, b2, b3, b4, b5, b6, b7, b8, b9, b10, b11, b12, b13, b14, b15, b16, b17, b18, b19, b20, b21, b22, b23,
    b24, b25, b26⟩ := C50_position_B env' p' s' talker' own' m' x' hm' h'
  obtain ⟨-, -, -, f4, f5, f6, f7, f8, -⟩ := hm
  obtain ⟨-, -, -, g4, g5, g6, g7, g8, -⟩ := hm'
  have i5 := speed_iff _ _ f4 g4 _ _ a5 b5
  have i7 := degrees_iff _ _ _ (by norm_num at f6 ⊢; omega) (by norm_num at g6 ⊢; omega) _ _ a7 b7
  have i8 := degrees_iff _ _ _ f5 g5 _ _ a8 b8
  have i9 := course_iff _ _ f7 g7 _ _ a9 b9
  have i10 := heading_iff _ _ f8 g8 _ _ a10 b10
  rw [e, e', ← i5, ← i7, ← i8, ← i9, ← i10]
  constructor
  · intro h
    injection h with h
    injection h with h
    subst h
    have so := fun {α : Type} {a b : α} (h : some a = some b) => Option.some.inj h
    exact ⟨a1.symm.trans b1, a2.symm.trans b2, a4.symm.trans b4, rfl, a6.symm.trans b6, rfl, rfl, rfl, rfl,
      a11.symm.trans b11, so (a13.symm.trans b13), so (a14.symm.trans b14), so (a15.symm.trans b15), so (a16.symm.trans b16),
      so (a17.symm.trans b17), so (a20.symm.trans b20)⟩
  · rintro ⟨k1, k2, k3, k4, k5, k6, k7, k8, k9, k10, k11, k12, k13, k14, k15, k16⟩
    congr 2
    apply VesselDynamicData.ext <;> first | assumption | simp only [a1, b1, a2, b2, a3, b3, a4, b4, a6, b6, a11, b11, a12, b12, a13, b13, a14, b14, a15, b15, a16, b16, a17, b17, a18, b18, a19, b19, a20, b20, a21, b21, a22, b22, a23, b23, a24, b24, a25, b25, a26, b26,
      k1, k2, k3, k5, k10, k11, k12, k13, k14, k15, k16]

/-- Two class B reports that differ in mode flag, RAIM flag and radio selector: the answers agree. -/
example : PositionB.Fits ⟨0, 423302100, 15, 14, true, 31803000, 24021600, 1770, 177, 34, 0, true, true, true, true, true,
    false, false, 917510⟩ ∧ PositionB.Fits ⟨0, 423302100, 15, 14, true, 31803000, 24021600, 1770, 177, 34, 0, true, true, true, true, true,
    true, true, 393222⟩ ∧
    ∀ p, Delivers p (aisSentence (c! "AI") false (armor (PositionB.bits ⟨0, 423302100, 15, 14, true, 31803000, 24021600, 1770, 177, 34, 0, true, true, true, true, true,
    false, false, 917510⟩ ++ []))) (c! "AI") false (armor (PositionB.bits ⟨0, 423302100, 15, 14, true, 31803000, 24021600, 1770, 177, 34, 0, true, true, true, true, true,
    false, false, 917510⟩ ++ [])) ∧
      Delivers p (aisSentence (c! "AI") false (armor (PositionB.bits ⟨0, 423302100, 15, 14, true, 31803000, 24021600, 1770, 177, 34, 0, true, true, true, true, true,
    true, true, 393222⟩ ++ []))) (c! "AI") false (armor (PositionB.bits ⟨0, 423302100, 15, 14, true, 31803000, 24021600, 1770, 177, 34, 0, true, true, true, true, true,
    true, true, 393222⟩ ++ [])) := by
  refine ⟨by unfold PositionB.Fits; decide, by unfold PositionB.Fits; decide, fun p => ⟨?_, ?_⟩⟩ <;>
  exact demoSingle _ _ _ _ (by decide +kernel)

/-- C111: two aid to navigation reports are answered alike exactly if they agree in the fields listed, the name being the
name with its extension; the off-position flag does not count. -/
theorem C111_aid (env env' : Env) (p p' : Parser) (s s' talker talker' : Str) (own own' : Bool)
    (m m' : Aid) (x x' : List Bool) (hm : m.Fits) (hm' : m'.Fits)
    (h : Delivers p s talker own (armor (m.bits ++ x))) (h' : Delivers p' s' talker' own' (armor (m'.bits ++ x'))) :
    (parseSentence env p s).1 = (parseSentence env' p' s').1 ↔
      own = own' ∧ talkerStation talker = talkerStation talker' ∧ m.mmsi = m'.mmsi ∧ m.kind = m'.kind ∧
      m.name ++ m.extension = m'.name ++ m'.extension ∧ m.accuracy = m'.accuracy ∧ m.lon = m'.lon ∧ m.lat = m'.lat ∧
      m.bow = m'.bow ∧ m.stern = m'.stern ∧ m.port = m'.port ∧ m.starboard = m'.starboard ∧
      (m.fix = m'.fix ∨ m.fix ∉ [1, 2, 3, 4, 5, 6, 7, 8] ∧ m'.fix ∉ [1, 2, 3, 4, 5, 6, 7, 8]) ∧ m.second = m'.second ∧
      m.regional = m'.regional ∧ m.raim = m'.raim ∧ m.virtual = m'.virtual ∧ m.assigned = m'.assigned := by
  obtain ⟨d, e, a1, a2, a3, a4, a5, a6, a7, a8, a9, a10, a11, a12, a13, a14, a15, a16, a17, a18, a19⟩ :=
    C51_aid env p s talker own m x hm h
  obtain ⟨d', e', b1, b2, b3, b4, b5, b6, b7, b8, b9, b10, b11, b12, b13, b14, b15, b16, b17, b18, b19⟩ :=
    C51_aid env' p' s' talker' own' m' x' hm' h'
  obtain ⟨-, -, f3, -, f5, f6, -, -, -, -, f11, -⟩ := hm
  obtain ⟨-, -, g3, -, g5, g6, -, -, -, -, g11, -⟩ := hm'
  have i4 := aid_iff _ _ f3 g3 _ _ a4 b4
  have i7 := degrees_iff _ _ _ (by norm_num at f6 ⊢; omega) (by norm_num at g6 ⊢; omega) _ _ a7 b7
  have i8 := degrees_iff _ _ _ f5 g5 _ _ a8 b8
  have i13 := fixOf_iff m.fix m'.fix f11 g11
  rw [e, e', ← i4, ← i7, ← i8, ← i13]
  constructor
  · intro h
    injection h with h
    injection h with h
    subst h
    have so := fun {α : Type} {a b : α} (h : some a = some b) => Option.some.inj h
    exact ⟨a1.symm.trans b1, a2.symm.trans b2, a3.symm.trans b3, rfl, a5.symm.trans b5, a6.symm.trans b6, rfl, rfl,
      so (a9.symm.trans b9), so (a10.symm.trans b10), so (a11.symm.trans b11), so (a12.symm.trans b12),
      so (a13.symm.trans b13), a14.symm.trans b14, a16.symm.trans b16, a17.symm.trans b17, a18.symm.trans b18,
      a19.symm.trans b19⟩
  · rintro ⟨k1, k2, k3, k4, k5, k6, k7, k8, k9, k10, k11, k12, k13, k14, k15, k16, k17, k18⟩
    congr 2
    apply AidToNavigationReport.ext <;> first | assumption | simp only [a1, b1, a2, b2, a3, b3, a5, b5, a6, b6, a9, b9, a10, b10, a11, b11, a12, b12, a13, b13, a14, b14, a15, b15, a16, b16, a17, b17, a18, b18, a19, b19,
      k1, k2, k3, k5, k6, k9, k10, k11, k12, k13, k14, k15, k16, k17, k18]

/-- Two reports that differ in the off-position flag: the answers agree. -/
example : Aid.Fits ⟨1, 123456789, 20, c! "CHINA ROSE MURPHY EX", false, -73619400, 28839600, 5, 5, 5, 5, 1, 50, false, 165,
    false, false, false, false, c! "PRESS ALERT"⟩ ∧ Aid.Fits ⟨1, 123456789, 20, c! "CHINA ROSE MURPHY EX", false, -73619400, 28839600, 5, 5, 5, 5, 1, 50, true, 165,
    false, false, false, false, c! "PRESS ALERT"⟩ ∧
    ∀ p, Delivers p (aisSentence (c! "AI") false (armor (Aid.bits ⟨1, 123456789, 20, c! "CHINA ROSE MURPHY EX", false, -73619400, 28839600, 5, 5, 5, 5, 1, 50, false, 165,
    false, false, false, false, c! "PRESS ALERT"⟩ ++ []))) (c! "AI") false (armor (Aid.bits ⟨1, 123456789, 20, c! "CHINA ROSE MURPHY EX", false, -73619400, 28839600, 5, 5, 5, 5, 1, 50, false, 165,
    false, false, false, false, c! "PRESS ALERT"⟩ ++ [])) ∧
      Delivers p (aisSentence (c! "AI") false (armor (Aid.bits ⟨1, 123456789, 20, c! "CHINA ROSE MURPHY EX", false, -73619400, 28839600, 5, 5, 5, 5, 1, 50, true, 165,
    false, false, false, false, c! "PRESS ALERT"⟩ ++ []))) (c! "AI") false (armor (Aid.bits ⟨1, 123456789, 20, c! "CHINA ROSE MURPHY EX", false, -73619400, 28839600, 5, 5, 5, 5, 1, 50, true, 165,
    false, false, false, false, c! "PRESS ALERT"⟩ ++ [])) := by
  refine ⟨by unfold Aid.Fits; decide, by unfold Aid.Fits; decide, fun p => ⟨?_, ?_⟩⟩ <;>
  exact demoSingle _ _ _ _ (by decide +kernel)

/-- C111: two type 24 reports (part B received after part A) are the same exactly if they agree in the name, in sender, vendor
texts and numbers, call sign and dimensions, and in what the ship type code is reported as. -/
theorem C111_static (env env' : Env) (p p' : Parser) (s s' talker talker' : Str) (own own' oa oa' : Bool)
    (m m' : StaticB) (a a' : StaticA) (x x' : List Bool) (hm : m.Fits) (hm' : m'.Fits)
    (h : Delivers p s talker own (armor (m.bits ++ x))) (h' : Delivers p' s' talker' own' (armor (m'.bits ++ x')))
    (ha : a.mmsi = m.mmsi) (ha' : a'.mmsi = m'.mmsi)
    (hp : pendingStatic p m.mmsi = some (a.data oa)) (hp' : pendingStatic p' m'.mmsi = some (a'.data oa')) :
    (parseSentence env p s).1 = (parseSentence env' p' s').1 ↔
      own = own' ∧ m.mmsi = m'.mmsi ∧ a.name = a'.name ∧ reportedShip m.ship = reportedShip m'.ship ∧
      cargoOf m.ship = cargoOf m'.ship ∧ m.vendor = m'.vendor ∧ m.model = m'.model ∧ m.serial = m'.serial ∧
      m.callSign = m'.callSign ∧ m.bow = m'.bow ∧ m.stern = m'.stern ∧ m.port = m'.port ∧ m.starboard = m'.starboard := by
  rw [(C52_part_B_second env p s talker own oa m a x hm h ha hp).1,
    (C52_part_B_second env' p' s' talker' own' oa' m' a' x' hm' h' ha' hp').1]
  simp only [Out.ok.injEq, ParsedSentence.vesselStaticData.injEq, StaticB.data, blankStatic, VesselStaticData.mk.injEq,
    Option.some.injEq, nonEmpty_iff, true_and]
  constructor
  · rintro ⟨k1, k2, k3, k4, k5, k6, k7, k8, k9, k10, k11, k12, k13, -⟩
    exact ⟨k1, k2, k4, k5, k6, k7, k8, k9, k3, k10, k11, k12, k13⟩
  · rintro ⟨k1, k2, k4, k5, k6, k7, k8, k9, k3, k10, k11, k12, k13⟩
    exact ⟨k1, k2, k3, k4, k5, k6, k7, k8, k9, k10, k11, k12, k13, by rw [k10, k11, k12, k13]⟩

/-- Two ships that differ in the name: part A is pending and part B is received. -/
example : ∃ p p', StaticB.Fits ⟨0, 271041815, 60, c! "1D0", 12, 0, c! "TC6163", 0, 15, 0, 5, 0⟩ ∧
    pendingStatic p 271041815 = some (StaticA.data false ⟨0, 271041815, c! "PROGUY"⟩) ∧
    pendingStatic p' 271041815 = some (StaticA.data false ⟨0, 271041815, c! "PROGUX"⟩) ∧
    ∀ q, Delivers q (aisSentence (c! "AI") false (armor (StaticB.bits
        ⟨0, 271041815, 60, c! "1D0", 12, 0, c! "TC6163", 0, 15, 0, 5, 0⟩ ++ []))) (c! "AI") false
      (armor (StaticB.bits ⟨0, 271041815, 60, c! "1D0", 12, 0, c! "TC6163", 0, 15, 0, 5, 0⟩ ++ [])) := by
  refine ⟨(parseSentence demoEnv Parser.new (aisSentence (c! "AI") false (armor (StaticA.bits
    ⟨0, 271041815, c! "PROGUY"⟩)))).2, (parseSentence demoEnv Parser.new (aisSentence (c! "AI") false (armor (StaticA.bits
    ⟨0, 271041815, c! "PROGUX"⟩)))).2, by unfold StaticB.Fits; decide, by decide +kernel, by decide +kernel, fun q => ?_⟩
  exact demoSingle _ _ _ _ (by decide +kernel)

/-- C111: two long-range reports are answered alike exactly if they agree in sender, accuracy, RAIM flag, status and
position: whatever speed, course and GNSS flag are sent, the report is the same. -/
theorem C111_long_range (env env' : Env) (p p' : Parser) (s s' talker talker' : Str) (own own' : Bool)
    (m m' : LongRange) (x x' : List Bool) (hm : m.Fits) (hm' : m'.Fits)
    (h : Delivers p s talker own (armor (m.bits ++ x))) (h' : Delivers p' s' talker' own' (armor (m'.bits ++ x'))) :
    (parseSentence env p s).1 = (parseSentence env' p' s').1 ↔
      own = own' ∧ talkerStation talker = talkerStation talker' ∧ m.mmsi = m'.mmsi ∧ m.accuracy = m'.accuracy ∧
      m.raim = m'.raim ∧ m.status = m'.status ∧ m.lon = m'.lon ∧ m.lat = m'.lat := by
  obtain ⟨d, e, a1, a2, a3, a4, a5, a6, a7, a8, a9, ⟨a10, a11⟩, a12, a13, a14, a15, a16, a17, a18, a19, a20, a21, a22, a23,
    a24, a25, a26⟩ := C53_long_range env p s talker own m x hm h
  obtain ⟨d', e', b1, b2, b3, b4, b5, b6, b7, b8, b9, ⟨b10, b11⟩, b12, b13, b14, b15, b16, b17, b18, b19, b20, b21, b22, b23,
    b24, b25, b26⟩ := C53_long_range env' p' s' talker' own' m' x' hm' h'
  obtain ⟨-, -, f3, f4, f5, -⟩ := hm
  obtain ⟨-, -, g3, g4, g5, -⟩ := hm'
  have i7 := status_iff _ _ f3 g3 _ _ a7 b7
  have ab : ∀ n : Int, -2 ^ 17 ≤ n → n < 2 ^ 17 → |(n : Rat) / 600| ≤ 224 := by
    intro n h1 h2
    have h1' : (-2 ^ 17 : Rat) ≤ n := by exact_mod_cast h1
    have h2' : (n : Rat) < 2 ^ 17 := by exact_mod_cast h2
    rw [abs_le]
    norm_num at h1' h2'
    constructor
    · rw [le_div_iff₀ (by norm_num)]; linarith
    · rw [div_le_iff₀ (by norm_num)]; linarith
  have i8 := degrees_inj 600 (by norm_num) (by norm_num) m.lon m'.lon (ab _ f4.1 f4.2) (ab _ g4.1 g4.2) _ _
    (by exact_mod_cast a8) (by exact_mod_cast b8)
  have i9 := degrees_inj 600 (by norm_num) (by norm_num) m.lat m'.lat
    (ab _ (by norm_num at f5 ⊢; omega) (by norm_num at f5 ⊢; omega))
    (ab _ (by norm_num at g5 ⊢; omega) (by norm_num at g5 ⊢; omega)) _ _
    (by exact_mod_cast a9) (by exact_mod_cast b9)
  rw [e, e', ← i7]
  constructor
  · intro h
    injection h with h
    injection h with h
    subst h
    exact ⟨a1.symm.trans b1, a2.symm.trans b2, a4.symm.trans b4, a5.symm.trans b5, a6.symm.trans b6, rfl, i8.mp rfl, i9.mp rfl⟩
  · rintro ⟨k1, k2, k3, k4, k5, k6, k7, k8⟩
    have j8 := i8.mpr k7
    have j9 := i9.mpr k8
    rw [← k8] at b10 b11 b12
    have j10 : d.sogKnots = d'.sogKnots := by
      by_cases hc : (m.lat % 2 ^ 17).toNat / 2 ^ 11 = 63
      · rw [if_pos hc] at a10 b10; rw [a10, b10]
      · rw [if_neg hc] at a10 b10; rw [(rounded_iff _ _).mp a10, (rounded_iff _ _).mp b10]
    have j11 : d.cog = d'.cog := by
      by_cases hc : (m.lat % 2 ^ 17).toNat = 91000
      · rw [if_pos hc] at a11 b11; rw [a11, b11]
      · rw [if_neg hc] at a11 b11; exact tenths_unique _ _ _ a11 b11
    congr 2
    apply VesselDynamicData.ext <;> first | assumption | simp only [a1, b1, a2, b2, a3, b3, a4, b4, a5, b5, a6, b6, a12, b12, a13, b13, a14, b14, a15, b15, a16, b16, a17, b17, a18, b18, a19, b19, a20, b20, a21, b21, a22, b22, a23, b23, a24, b24, a25, b25, a26, b26,
      k1, k2, k3, k4, k5]

/-- Two long-range reports that differ in speed, course and GNSS flag: the answers agree. -/
example : LongRange.Fits ⟨0, 206914217, false, true, 3, 82214, 2942, 57, 167, false, false⟩ ∧ LongRange.Fits ⟨0, 206914217, false, true, 3, 82214, 2942, 0, 90, true, false⟩ ∧
    ∀ p, Delivers p (aisSentence (c! "AI") false (armor (LongRange.bits ⟨0, 206914217, false, true, 3, 82214, 2942, 57, 167, false, false⟩ ++ []))) (c! "AI") false (armor (LongRange.bits ⟨0, 206914217, false, true, 3, 82214, 2942, 57, 167, false, false⟩ ++ [])) ∧
      Delivers p (aisSentence (c! "AI") false (armor (LongRange.bits ⟨0, 206914217, false, true, 3, 82214, 2942, 0, 90, true, false⟩ ++ []))) (c! "AI") false (armor (LongRange.bits ⟨0, 206914217, false, true, 3, 82214, 2942, 0, 90, true, false⟩ ++ [])) := by
  refine ⟨by unfold LongRange.Fits; decide, by unfold LongRange.Fits; decide, fun p => ⟨?_, ?_⟩⟩ <;>
  exact demoSingle _ _ _ _ (by decide +kernel)

end Nmea
