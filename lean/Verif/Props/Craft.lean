/-
C156: auxiliary craft and their mother ships.
-/
import Verif.Spec.Craft
import Verif.Props.Messages
import Verif.Props.Country

namespace Nmea
open Spec

theorem natBits_split (a b n : Nat) : natBits (a + b) n = natBits a (n / 2 ^ b) ++ natBits b n := by
  induction a with
  | zero => simp [natBits]
  | succ a ih =>
    rw [show a + 1 + b = (a + b) + 1 by omega, natBits_succ, natBits_succ, ih, Nat.testBit_div_two_pow]
    rfl

theorem natBits_mod (b n : Nat) : natBits b (n % 2 ^ b) = natBits b n := by
  induction b generalizing n with
  | zero => rfl
  | succ b _ =>
    unfold natBits
    refine List.map_congr_left fun i hi => ?_
    rw [Nat.testBit_mod_two_pow]
    have := List.mem_range.mp hi
    simp only [Bool.and_eq_right_iff_imp, decide_eq_true_eq]
    intro _
    omega

theorem natBits_mother (n : Nat) : natBits 30 n =
    natBits 9 (n / 2 ^ 21) ++ natBits 9 (n / 2 ^ 12 % 2 ^ 9) ++ natBits 6 (n / 2 ^ 6 % 2 ^ 6) ++ natBits 6 (n % 2 ^ 6) := by
  rw [natBits_mod, natBits_mod, natBits_mod, natBits_split 9 21 n, natBits_split 9 12 n, natBits_split 6 6 n]
  simp

/-- The part B with the dimensions that the bits of the mother ship's MMSI would stand for. -/
def craftDims (m : CraftB) : StaticB :=
  ⟨m.repeatInd, m.mmsi, m.ship, m.vendor, m.model, m.serial, m.callSign, m.mother / 2 ^ 21, m.mother / 2 ^ 12 % 2 ^ 9,
    m.mother / 2 ^ 6 % 2 ^ 6, m.mother % 2 ^ 6, m.spare⟩

theorem craft_bits (m : CraftB) : m.bits = (craftDims m).bits := by
  simp only [CraftB.bits, StaticB.bits, craftDims, natBits_mother, List.flatten_cons, List.flatten_nil, List.append_assoc,
    List.append_nil]

theorem craft_fits (m : CraftB) (h : m.Fits) : (craftDims m).Fits := by
  obtain ⟨h1, h2, h3, h4, h5, h6, h7, h8, h9⟩ := h
  refine ⟨h1, h2, h3, h4, h5, h6, h7, ?_, ?_, ?_, ?_, h9⟩ <;> simp only [craftDims] <;> omega

/-- C156: the part B of a craft, after its part A: the MMSI of the mother ship is reported; but the same bits are reported as
dimensions too. -/
theorem C156_craft (env : Env) (p : Parser) (s talker : Str) (own own' : Bool) (m : CraftB) (a : StaticA)
    (x : List Bool) (hm : m.Fits) (h : Delivers p s talker own (armor (m.bits ++ x))) (ha : a.mmsi = m.mmsi)
    (hp : pendingStatic p m.mmsi = some (a.data own')) :
    ∃ d, (parseSentence env p s).1 = .ok (.vesselStaticData d) ∧ d.mmsi = m.mmsi ∧ d.name = nonEmpty a.name ∧
      d.mothershipMmsi = some m.mother ∧ d.dimensionToBow = some (m.mother / 2 ^ 21) ∧
      d.dimensionToStern = some (m.mother / 2 ^ 12 % 2 ^ 9) ∧ d.dimensionToPort = some (m.mother / 2 ^ 6 % 2 ^ 6) ∧
      d.dimensionToStarboard = some (m.mother % 2 ^ 6) := by
  rw [craft_bits] at h
  obtain ⟨e, -⟩ := C52_part_B_second env p s talker own own' (craftDims m) a x (craft_fits m hm) h ha hp
  refine ⟨_, e, rfl, rfl, ?_, rfl, rfl, rfl, rfl⟩
  simp only [StaticB.data, craftDims]
  congr 1
  omega

/-- The tender 982301234 of the Finnish ship 230123450. -/
example : CraftB.Fits ⟨0, 982301234, 36, c! "1D0", 12, 0, c! "OH1", 230123450, 0⟩ ∧
    ∃ p, pendingStatic p 982301234 = some (StaticA.data false ⟨0, 982301234, c! "TENDER"⟩) := by
  refine ⟨by unfold CraftB.Fits; decide, (parseSentence demoEnv Parser.new (aisSentence (c! "AI") false (armor (StaticA.bits
    ⟨0, 982301234, c! "TENDER"⟩)))).2, ?_⟩
  decide +kernel

/-- C156: the same the other way round: after the part B of a craft its part A brings the report, with the same mother ship and
the same dimensions. Between the two may be whatever leaves the part B pending. -/
theorem C156_craft_first (env env' : Env) (p q : Parser) (s s' talker talker' : Str) (own own' : Bool) (m : CraftB)
    (a : StaticA) (x x' : List Bool) (hm : m.Fits) (h : Delivers p s talker own (armor (m.bits ++ x)))
    (hp : pendingStatic p m.mmsi = none) (ha : a.Fits) (hx : a.name.length < 20 ∨ ∃ k, x' = List.replicate k false)
    (h' : Delivers q s' talker' own' (armor (a.bits ++ x'))) (hma : a.mmsi = m.mmsi)
    (hq : pendingStatic q m.mmsi = pendingStatic (parseSentence env p s).2 m.mmsi) :
    (parseSentence env p s).1 = .ok .incomplete ∧
    ∃ d, (parseSentence env' q s').1 = .ok (.vesselStaticData d) ∧ d.mmsi = m.mmsi ∧ d.ownVessel = own' ∧
      d.name = nonEmpty a.name ∧ d.mothershipMmsi = some m.mother ∧ d.dimensionToBow = some (m.mother / 2 ^ 21) ∧
      d.dimensionToStern = some (m.mother / 2 ^ 12 % 2 ^ 9) ∧ d.dimensionToPort = some (m.mother / 2 ^ 6 % 2 ^ 6) ∧
      d.dimensionToStarboard = some (m.mother % 2 ^ 6) ∧ pendingStatic (parseSentence env' q s').2 m.mmsi = none := by
  rw [craft_bits] at h
  obtain ⟨e1, e2⟩ := C52_part_B_first env p s talker own (craftDims m) x (craft_fits m hm) h hp
  obtain ⟨e3, e4⟩ := C52_part_A_second env' q s' talker' own' own a (craftDims m) x' ha hx h' hma.symm
    (by rw [hma, hq]; exact e2)
  refine ⟨e1, _, e3, rfl, rfl, rfl, ?_, rfl, rfl, rfl, rfl, by rw [← hma]; exact e4⟩
  simp only [StaticB.data, craftDims]
  congr 1
  omega

/-- The same tender, part B first. -/
example : CraftB.Fits ⟨0, 982301234, 36, c! "1D0", 12, 0, c! "OH1", 230123450, 0⟩ ∧
    StaticA.Fits ⟨0, 982301234, c! "TENDER"⟩ ∧ (c! "TENDER").length < 20 ∧ pendingStatic Parser.new 982301234 = none := by
  refine ⟨by unfold CraftB.Fits; decide, by unfold StaticA.Fits; decide, by decide, rfl⟩

/-- C156: so a tender of a ship is reported to be at least 95 m long from the antenna to the bow. -/
theorem C156_long (env : Env) (p : Parser) (s talker : Str) (own own' : Bool) (m : CraftB) (a : StaticA)
    (x : List Bool) (hm : m.Fits) (h : Delivers p s talker own (armor (m.bits ++ x))) (ha : a.mmsi = m.mmsi)
    (hp : pendingStatic p m.mmsi = some (a.data own')) (mid y : Nat) (hmid : 201 ≤ mid ∧ mid ≤ 775) (hy : y < 1000000)
    (hs : m.mother = MmsiKind.ship.mmsi mid y) :
    ∃ d n, (parseSentence env p s).1 = .ok (.vesselStaticData d) ∧ d.dimensionToBow = some n ∧ 95 ≤ n ∧ n ≤ 370 := by
  obtain ⟨d, e, -, -, -, hb, -⟩ := C156_craft env p s talker own own' m a x hm h ha hp
  refine ⟨d, _, e, hb, ?_, ?_⟩ <;> rw [hs] <;> simp only [MmsiKind.mmsi] <;> omega

example : (230123450 : Nat) = MmsiKind.ship.mmsi 230 123450 ∧ 230123450 / 2 ^ 21 = 109 := by decide

/-- C156: and the other way round: every report of two parts of type 24 has a mother ship. For a ship with 96 to 369 m from the
antenna to the bow its MMSI is in the range of ships' MMSIs. -/
theorem C156_ship (env : Env) (p : Parser) (s talker : Str) (own own' : Bool) (m : StaticB) (a : StaticA)
    (x : List Bool) (hm : m.Fits) (h : Delivers p s talker own (armor (m.bits ++ x))) (ha : a.mmsi = m.mmsi)
    (hp : pendingStatic p m.mmsi = some (a.data own')) :
    ∃ d n, (parseSentence env p s).1 = .ok (.vesselStaticData d) ∧ d.mothershipMmsi = some n ∧
      (n = 0 ↔ m.bow = 0 ∧ m.stern = 0 ∧ m.port = 0 ∧ m.starboard = 0) ∧
      (96 ≤ m.bow → m.bow ≤ 369 → 201000000 ≤ n ∧ n ≤ 775999999) := by
  obtain ⟨e, -⟩ := C52_part_B_second env p s talker own own' m a x hm h ha hp
  obtain ⟨-, -, -, -, -, -, -, h1, h2, h3, h4, -⟩ := hm
  refine ⟨_, _, e, rfl, ?_, ?_⟩
  · omega
  · intro h5 h6
    constructor <;> omega

/-- A Turkish ship of 130 m length; its mother ship would be the Dutch 245420551. -/
example : StaticB.Fits ⟨0, 271041815, 70, c! "1D0", 12, 0, c! "TC6163", 117, 13, 8, 7, 0⟩ ∧
    (StaticB.data false ⟨0, 271041815, 70, c! "1D0", 12, 0, c! "TC6163", 117, 13, 8, 7, 0⟩).mothershipMmsi = some 245420551 ∧
    ∃ p, pendingStatic p 271041815 = some (StaticA.data false ⟨0, 271041815, c! "PROGUY"⟩) := by
  refine ⟨by unfold StaticB.Fits; decide, by decide, (parseSentence demoEnv Parser.new (aisSentence (c! "AI") false (armor (StaticA.bits
    ⟨0, 271041815, c! "PROGUY"⟩)))).2, ?_⟩
  decide +kernel

/-- C156: `country()` knows ships only: for all other kinds of MMSIs there is no country, although they have identification digits
of one. -/
theorem C156_country (v : VesselStaticData) (k : MmsiKind) (mid x : Nat) (hmid : 200 ≤ mid ∧ mid ≤ 799) (hx : x < k.numbers)
    (hv : v.mmsi = k.mmsi mid x) (hk : k ≠ .ship) : v.country = none := by
  refine (C61_codes v).2 ?_
  cases k <;> simp only [MmsiKind.mmsi, MmsiKind.numbers] at hv hx <;> first | exact absurd rfl hk | omega

/-- The tender 982301234: its digits 230 are those of Finland. -/
example : (982301234 : Nat) = MmsiKind.craft.mmsi 230 1234 ∧ 1234 < MmsiKind.craft.numbers ∧ Allocated 230 (c! "FI") := by decide

end Nmea
