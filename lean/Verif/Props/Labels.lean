/-
C82: the labels (`Display` texts) of enumeration values. C83: the `LatLon` accessors.
-/
import Verif.Model.Display
import Verif.Props.Values
import Verif.Props.Gnss

namespace Nmea
open Spec

/-! ### C82: labels -/

/-- C82: the label of a station, AIS class, positioning mode, fixing device, navigation system, GGA quality, GSA
fix mode and FAA mode determines the value. -/
theorem C82_labels_identify :
    (∀ a b : Station, a.label = b.label ↔ a = b) ∧
    (∀ a b : AisClass, a.display = b.display ↔ a = b) ∧
    (∀ a b : PositioningSystemMeta, a.label = b.label ↔ a = b) ∧
    (∀ a b : PositionFixType, a.label = b.label ↔ a = b) ∧
    (∀ a b : NavigationSystem, a.label = b.label ↔ a = b) ∧
    (∀ a b : GgaQualityIndicator, a.label = b.label ↔ a = b) ∧
    (∀ a b : GsaFixMode, a.label = b.label ↔ a = b) ∧
    (∀ a b : FaaMode, a.display = b.display ↔ a = b) := by
  refine ⟨?_, ?_, ?_, ?_, ?_, ?_, ?_, ?_⟩ <;> intro a b <;> cases a <;> cases b <;> decide

/-- Two stations with different labels. -/
example : Station.baseStation.label ≠ Station.limitedBaseStation.label :=
  fun h => by cases (C82_labels_identify.1 _ _).mp h

/-- C82: the question mark is printed for the simulator mode, and for no mode that is read from a sentence. -/
theorem C82_simulator (m : FaaMode) : m.display = c! "?" ↔ m = .simulator := by
  cases m <;> decide

/-- An estimated position is not printed as a question mark. -/
example : FaaMode.estimated.display ≠ c! "?" := fun h => by cases (C82_simulator _).mp h

/-- C82: every label is a text that is not empty. -/
theorem C82_labels_nonempty :
    (∀ a : Station, a.label ≠ []) ∧ (∀ a : AisClass, a.display ≠ []) ∧ (∀ a : PositioningSystemMeta, a.label ≠ []) ∧
    (∀ a : PositionFixType, a.label ≠ []) ∧ (∀ a : NavigationSystem, a.label ≠ []) ∧
    (∀ a : GgaQualityIndicator, a.label ≠ []) ∧ (∀ a : GsaFixMode, a.label ≠ []) ∧ (∀ a : FaaMode, a.display ≠ []) ∧
    (∀ a : ShipType, a.label ≠ []) ∧ (∀ a : CargoType, a.label ≠ []) ∧ (∀ a : NavAidType, a.label ≠ []) := by
  refine ⟨?_, ?_, ?_, ?_, ?_, ?_, ?_, ?_, ?_, ?_, ?_⟩ <;> intro a <;> cases a <;> decide

/-- The label of a station of an unknown kind. -/
example : Station.other.label ≠ [] := C82_labels_nonempty.1 _

/-- Aid types with a shared label, by code: the beacons and the floating marks of the kinds "safe water" and
"special mark". -/
def sharedAidLabels : List (Nat × Nat) := [(18, 29), (19, 30)]

/-- C82: two aid-to-navigation reports print the same aid type exactly when they carry the same code, or a beacon
and a floating mark of the kind "safe water" or of the kind "special mark". -/
theorem C82_aid_labels (e1 e2 : Env) (p1 p2 : Parser) (s1 s2 t1 t2 : Str) (o1 o2 : Bool) (b1 b2 : List Bool)
    (h1 : DeliversBits e1 p1 s1 t1 o1 b1) (h2 : DeliversBits e2 p2 s2 t2 o2 b2)
    (ht1 : typeOf b1 = 21) (ht2 : typeOf b2 = 21) :
    ∃ d1 d2, (parseSentence e1 p1 s1).1 = .ok (.aidToNavigationReport d1) ∧
      (parseSentence e2 p2 s2).1 = .ok (.aidToNavigationReport d2) ∧
      (d1.aidType.label = d2.aidType.label ↔
        num b1 38 5 = num b2 38 5 ∨ (num b1 38 5, num b2 38 5) ∈ sharedAidLabels ∨
          (num b2 38 5, num b1 38 5) ∈ sharedAidLabels) := by
  obtain ⟨d1, hd1, -, ha1⟩ := C59_aid e1 p1 s1 t1 o1 b1 h1 ht1
  obtain ⟨d2, hd2, -, ha2⟩ := C59_aid e2 p2 s2 t2 o2 b2 h2 ht2
  refine ⟨d1, d2, hd1, hd2, ?_⟩
  have key : ∀ i j : Fin 32, ∀ a b, some a = navAidTable[i.val]? → some b = navAidTable[j.val]? →
      (a.label = b.label ↔ i.val = j.val ∨ (i.val, j.val) ∈ sharedAidLabels ∨ (j.val, i.val) ∈ sharedAidLabels) := by
    have k : ∀ i j : Fin 32, (((navAidTable[i.val]?).map NavAidType.label = (navAidTable[j.val]?).map NavAidType.label) ↔
        i.val = j.val ∨ (i.val, j.val) ∈ sharedAidLabels ∨ (j.val, i.val) ∈ sharedAidLabels) := by decide +kernel
    intro i j a b ha hb
    rw [← k i j, ← ha, ← hb]
    simp
  have l : ∀ (a : NavAidType) (n : Nat), some a = navAidTable[n]? → n < 32 := by
    intro a n h
    have := (List.getElem?_eq_some_iff.mp h.symm).1
    exact this
  exact key ⟨_, l _ _ ha1⟩ ⟨_, l _ _ ha2⟩ _ _ ha1 ha2

/-- The type 21 sentence of the library's own tests, twice. -/
example : ∃ d, (parseSentence demoEnv Parser.new
      (c! "!AIVDM,1,1,,B,E>kb9O9aS@7PUh10dh19@;0Tah2cWrfP:l?M`00003vP100,0")).1 = .ok (.aidToNavigationReport d) ∧
    d.aidType.label = d.aidType.label := by
  obtain ⟨d1, d2, h1, h2, h⟩ := C82_aid_labels _ _ _ _ _ _ _ _ _ _ _ _ demoType21 demoType21 (by decide +kernel) (by decide +kernel)
  obtain rfl : d1 = d2 := by rw [h1] at h2; simpa using h2
  exact ⟨d1, h1, h.mpr (.inl rfl)⟩

/-- C82: the only ship types with a shared label are the three reserved ones and the two local ones. -/
theorem C82_ship_labels (a b : ShipType) :
    a.label = b.label ↔ a = b ∨ (a ∈ [ShipType.reserved1, .reserved38, .reserved39] ∧
      b ∈ [ShipType.reserved1, .reserved38, .reserved39]) ∨
      (a ∈ [ShipType.spareLocal56, .spareLocal57] ∧ b ∈ [ShipType.spareLocal56, .spareLocal57]) := by
  cases a <;> cases b <;> decide

/-- A shared label and one that is not shared. -/
example : ShipType.reserved1.label = ShipType.reserved39.label ∧ ShipType.tanker.label ≠ ShipType.cargo.label :=
  ⟨(C82_ship_labels _ _).mpr (by decide), fun h => absurd ((C82_ship_labels _ _).mp h) (by decide)⟩

/-- C82: the only cargo types with a shared label are the five reserved ones. -/
theorem C82_cargo_labels (a b : CargoType) :
    a.label = b.label ↔ a = b ∨ (a ∈ [CargoType.reserved5, .reserved6, .reserved7, .reserved8, .reserved9] ∧
      b ∈ [CargoType.reserved5, .reserved6, .reserved7, .reserved8, .reserved9]) := by
  cases a <;> cases b <;> decide

/-- A shared label and one that is not shared. -/
example : CargoType.reserved5.label = CargoType.reserved9.label ∧
    CargoType.hazardousCategoryA.label ≠ CargoType.hazardousCategoryB.label :=
  ⟨(C82_cargo_labels _ _).mpr (by decide), fun h => absurd ((C82_cargo_labels _ _).mp h) (by decide)⟩

/-- C82: so the label printed for the aid does not tell a safe-water beacon from a safe-water mark. -/
theorem C82_aid_ambiguous : NavAidType.beaconSafeWater ≠ .safeWater ∧
    NavAidType.beaconSafeWater.label = NavAidType.safeWater.label := by decide

/-! ### C83: position accessors -/

/-- C83: the accessors of AIS results give the position of the message. -/
theorem C83_ais_positions (env : Env) (p : Parser) (s talker : Str) (own : Bool) (bits : List Bool)
    (h : DeliversBits env p s talker own bits) (lonAt latAt : Nat)
    (ht : (typeOf bits, lonAt, latAt) ∈ positionAt) (r : ParsedSentence)
    (hr : (parseSentence env p s).1 = .ok r) :
    ∃ lat lon, latLon r = some (lat, lon) ∧
      (lat = none ↔ snum bits latAt 27 = 91 * 600000) ∧
      (∀ d, lat = some d → RoundsTo (snum bits latAt 27 / 600000) d) ∧
      (lon = none ↔ snum bits lonAt 28 = 181 * 600000) ∧
      (∀ d, lon = some d → RoundsTo (snum bits lonAt 28 / 600000) d) := by
  obtain ⟨lat, lon, h1, h2⟩ := C54_positions env p s talker own bits h lonAt latAt ht r hr
  exact ⟨lat, lon, by cases r <;> simp_all [positionOf, latLon], h2⟩

/-- The type 1 sentence of the library's own tests has both coordinates. -/
example : ∃ r lat lon, (parseSentence demoEnv Parser.new (c! "!AIVDM,1,1,,A,15RTgt0PAso;90TKcjM8h6g208CQ,0*4A")).1 = .ok r ∧
    latLon r = some (some lat, some lon) := by
  obtain ⟨d, hd⟩ := demoType1_ok
  obtain ⟨lat, lon, h, h1, -, h2, -⟩ := C83_ais_positions _ _ _ _ _ _ demoType1 61 89 (by decide +kernel) _ hd
  cases lat with
  | none => exact absurd (h1.mp rfl) (by decide +kernel)
  | some lat =>
    cases lon with
    | none => exact absurd (h2.mp rfl) (by decide +kernel)
    | some lon => exact ⟨_, lat, lon, hd, h⟩

/-- C83: the accessors of GGA, RMC and GLL results give the position of the sentence. -/
theorem C83_gnss_positions (env : Env) (p : Parser) (talker kind : Str) (fs : List Str) (s : Str) (i : Nat)
    (h : IsGnss talker kind fs s) (hi : latitudeIndex kind = some i) (r : ParsedSentence)
    (hr : (parseSentence env p s).1 = .ok r) :
    ∃ lat lon, latLon r = some (lat, lon) ∧ LatField (field fs i) (field fs (i + 1)) lat ∧
      LonField (field fs (i + 2)) (field fs (i + 3)) lon := by
  obtain ⟨lat, lon, h1, h2⟩ := C64_positions env p talker kind fs s i h hi r hr
  exact ⟨lat, lon, by cases r <;> simp_all [gnssPosition, latLon], h2⟩

/-- The GGA sentence of the examples. -/
example : ∃ r lat lon, (parseSentence demoEnv Parser.new
      (c! "$GPGGA,123519,4807.038,N,01131.000,W,1,08,0.9,-545.4,M,46.9,M,,0042*7E")).1 = .ok r ∧
    latLon r = some (lat, lon) ∧ LatField (c! "4807.038") (c! "N") lat ∧ LonField (c! "01131.000") (c! "W") lon := by
  obtain ⟨lat, lon, h⟩ := C83_gnss_positions demoEnv Parser.new _ _ _ _ 1 demoGga_tagged rfl _ rfl
  exact ⟨_, lat, lon, rfl, h⟩

/-- C83: a binary addressed message (type 6) never has a position, whatever its payload says. -/
theorem C83_binary (env : Env) (p : Parser) (s talker : Str) (own : Bool) (bits : List Bool)
    (h : DeliversBits env p s talker own bits) (ht : typeOf bits = 6) (r : ParsedSentence)
    (hr : (parseSentence env p s).1 = .ok r) : latLon r = some (none, none) := by
  obtain ⟨q, -, he⟩ := eval_bits env p s talker own bits h
  rw [he, dispatch_6 (by rw [typeOf_eq, ht])] at hr
  cases hr
  rfl

/-- The type 6 sentence of the library's own tests meets the hypotheses. -/
example : DeliversBits demoEnv Parser.new (c! "!AIVDM,1,1,,B,6B?n;be:cbapalgc;i6?Ow4,2*4A") (c! "AI") false
    (payloadBits (c! "6B?n;be:cbapalgc;i6?Ow4")) ∧ typeOf (payloadBits (c! "6B?n;be:cbapalgc;i6?Ow4")) = 6 :=
  ⟨demoDelivers _ _ _ _ _ [c! "1", c! "1", [], c! "B", c! "6B?n;be:cbapalgc;i6?Ow4", c! "2"] .full
    ⟨by decide, by decide, by decide, by decide, by decide +kernel⟩ rfl rfl (by decide), by decide +kernel⟩

end Nmea
