/-
Type 24 messages: what one call does to the pending static data.
-/
import Verif.Lemmas.Frame
import Verif.Spec.Static

namespace Nmea
open Spec

/-! ### Fields -/

theorem num_eq (bits : Bits) (i len : Nat) (h : len ≤ 64) : pickU64 bits i len = num bits i len :=
  pickU64_window _ _ _ h

theorem textOf_eq (ns : List Nat) : textOf ns = (ns.takeWhile (· ≠ 0)).map codeChar := by
  induction ns with
  | nil => rfl
  | cons n ns ih =>
    simp only [textOf, List.takeWhile_cons]
    by_cases h : n = 0
    · simp [h]
    · simp [h, ih, codeChar, Nat.add_comm]

theorem dropWhile_congr {α : Type} (p q : α → Bool) (l : List α) (h : ∀ x ∈ l, p x = q x) :
    l.dropWhile p = l.dropWhile q := by
  induction l with
  | nil => rfl
  | cons x xs ih =>
    simp only [List.dropWhile_cons, h x (by simp), ih (fun y hy => h y (by simp [hy]))]

theorem trimEnd_strip (s : Str) (h : ∀ c ∈ s, InAlphabet c) : trimEnd s = stripBlanks s := by
  simp only [trimEnd, stripBlanks]
  congr 1
  apply dropWhile_congr
  intro c hc
  have := isWhite_alphabet c (h c (by simpa using hc))
  by_cases hw : c = ' '
  · rw [this.mpr hw]; simp [hw]
  · have : isWhite c ≠ true := fun h => hw (this.mp h)
    simp [hw, this]

theorem textAt_fieldText (bits : Bits) (i n : Nat) : textAt bits i n = fieldText bits i n := by
  have h : ∀ m ∈ (List.range n).map (fun k => pickU64 bits (i + k * 6) 6), m < 64 := by
    intro m hm
    obtain ⟨k, -, rfl⟩ := List.mem_map.mp hm
    exact pickU64_lt bits _ 6 (by decide)
  rw [textAt, trimEnd_strip _ (fun c hc => (textOf_alphabet _ h c hc).1), textOf_eq, fieldText]
  congr 4
  funext k
  exact num_eq _ _ _ (by decide)

theorem someIfNonEmpty_eq (s : Str) : someIfNonEmpty s = optText s := rfl

theorem ship_eq (code : Nat) (h : code < 256) : ShipType.new code = reportedShip code := by
  have : ∀ c : Fin 256, ShipType.new c.val = reportedShip c.val := by decide +kernel
  exact this ⟨code, h⟩

theorem cargo_eq (code : Nat) (h : code < 256) : CargoType.new code = cargoOf code := by
  have : ∀ c : Fin 256, CargoType.new c.val = cargoOf c.val := by decide +kernel
  exact this ⟨code, h⟩

theorem num_lt (bits : Bits) (i len : Nat) : num bits i len < 2 ^ len := by
  simpa [num] using bitsVal_lt (window bits i len)

theorem u8_num (bits : Bits) (i len : Nat) (h : len ≤ 8) : asU8 (num bits i len) = num bits i len :=
  Nat.mod_eq_of_lt (Nat.lt_of_lt_of_le (num_lt bits i len) (Nat.pow_le_pow_right (by decide) h))
theorem u16_num (bits : Bits) (i len : Nat) (h : len ≤ 16) : asU16 (num bits i len) = num bits i len :=
  Nat.mod_eq_of_lt (Nat.lt_of_lt_of_le (num_lt bits i len) (Nat.pow_le_pow_right (by decide) h))
theorem u32_num (bits : Bits) (i len : Nat) (h : len ≤ 32) : asU32 (num bits i len) = num bits i len :=
  Nat.mod_eq_of_lt (Nat.lt_of_lt_of_le (num_lt bits i len) (Nat.pow_le_pow_right (by decide) h))

theorem num_mmsi (bits : Bits) : asU32 (num bits 8 30) = mmsiOf bits := u32_num bits 8 30 (by decide)

theorem t24A (bits : Bits) (own : Bool) : t24Fields bits own true false = .ok (partAData own bits) := by
  simp (disch := decide) only [t24Fields, liftErr_pickString, Out.ok_bind, if_true, Bool.false_eq_true, if_false,
    textAt_fieldText, someIfNonEmpty_eq, num_eq, num_mmsi]
  rfl

theorem t24B (bits : Bits) (own : Bool) : t24Fields bits own false true = .ok (partBData own bits) := by
  have h40 : num bits 40 8 < 256 := num_lt bits 40 8
  simp (disch := first | decide | exact h40) only [t24Fields, liftErr_pickString, Out.ok_bind, if_true,
    Bool.false_eq_true, if_false, textAt_fieldText, someIfNonEmpty_eq, num_eq, u32_num, u16_num, u8_num,
    ship_eq, cargo_eq]
  rfl

/-! ### Merging -/

theorem merge_parts (v w : VesselStaticData) (h1 : v.aisType = w.aisType) (h2 : v.mmsi = w.mmsi)
    (h3 : v.imoNumber = w.imoNumber) (h4 : v.aisVersionIndicator = w.aisVersionIndicator) :
    ∃ m, v.merge w = .ok m := by
  simp only [VesselStaticData.merge, h1, h2, h3, h4, ne_eq, not_true_eq_false, if_false]
  exact ⟨_, rfl⟩

theorem merge_AB (own own' : Bool) (a b : Bits) (h : mmsiOf a = mmsiOf b) :
    (partBData own b).merge (partAData own' a) = .ok (fullStatic own a b) := by
  simp [VesselStaticData.merge, partBData, partAData, fullStatic, blankStatic, chooseSome, h]
  cases optText (fieldText b 90 7) <;> simp <;> exact ⟨fun h => h.symm, fun h => h.symm⟩

theorem merge_BA (own own' : Bool) (a b : Bits) (h : mmsiOf a = mmsiOf b) :
    (partAData own a).merge (partBData own' b) = .ok (fullStatic own a b) := by
  simp [VesselStaticData.merge, partBData, partAData, fullStatic, blankStatic, chooseSome, h]
  cases partAName a <;> simp

/-! ### One call -/

theorem parsePayload_readable (env : Env) (payload : Str) (h : Readable env payload) :
    parsePayload env.overflowChecks payload = .ok (payloadBits payload) := by
  have : ∃ bv, parsePayload env.overflowChecks payload = .ok bv := by
    unfold Readable at h
    induction payload with
    | nil => exact ⟨_, rfl⟩
    | cons c cs ih =>
      obtain ⟨bv, hb⟩ := ih (fun ho x hx => h ho x (by simp [hx]))
      have hc : charAsU8 c = c.toNat % 256 := rfl
      simp only [parsePayload, armorValue, hc, hb]
      by_cases hlt : c.toNat % 256 < 48
      · rw [if_pos hlt]
        by_cases ho : env.overflowChecks = true
        · have := h ho c (by simp); omega
        · rw [if_neg ho]; exact ⟨_, rfl⟩
      · rw [if_neg hlt]; exact ⟨_, rfl⟩
  obtain ⟨bv, hb⟩ := this
  rw [hb, parsePayload_bits _ _ _ hb]

theorem eval_completes (env : Env) (p : Parser) (s : Str) (own : Bool) (payload : Str)
    (h : Completes p s own payload) : ∃ st q, q.savedVsds = p.savedVsds ∧
      parseSentence env p s = complete env own st payload q := by
  cases h with
  | single talker _ h => exact ⟨_, p, rfl, eval_Single env p talker own _ s h⟩
  | first talker id chan a b h hb =>
    refine ⟨talkerStation talker, { p with savedFragments := p.savedFragments.erase (partKey own 2 id chan) }, rfl, ?_⟩
    rw [eval_part1 env p talker own id chan a s h, joinPart,
      show p.savedFragments.get (partKey own 2 id chan) = some b from hb]
  | second talker id chan a b h ha =>
    refine ⟨talkerStation talker, { p with savedFragments := p.savedFragments.erase (partKey own 1 id chan) }, rfl, ?_⟩
    rw [eval_part2 env p talker own id chan b s h, joinPart,
      show p.savedFragments.get (partKey own 1 id chan) = some a from ha]

theorem complete_24 (env : Env) (own : Bool) (st : Station) (payload : Str) (p : Parser)
    (h : Readable env payload) (ht : typeOf (payloadBits payload) = 24) :
    complete env own st payload p =
      if partOf (payloadBits payload) < 2 then t24Store (partData own (payloadBits payload)) p
      else (.err (.invalidSentence (c! "AIVDM type 24 part number has unexpected value: " ++
        natStr (partOf (payloadBits payload)))), p) := by
  simp only [complete, parsePayload_readable env payload h]
  rw [← typeOf_eq] at ht
  have e : dispatchAis env ('!' :: aisKind own) (payloadBits payload) st own p =
      handleT24 (payloadBits payload) st p own := by
    simp only [dispatchAis, ht]
  rw [e]
  simp only [handleT24, partOf_eq, t24A, t24B, partData]
  have hlt : partOf (payloadBits payload) < 4 := by
    rw [← partOf_eq]; exact pickU64_lt _ _ _ (by decide)
  generalize partOf (payloadBits payload) = n at hlt
  match n, hlt with
  | 0, _ => rfl
  | 1, _ => rfl
  | 2, _ => rfl
  | 3, _ => rfl

theorem partData_mmsi (own : Bool) (bits : Bits) : (partData own bits).mmsi = mmsiOf bits := by
  unfold partData; split <;> rfl

theorem partData_merge (own own' : Bool) (b b' : Bits) (h : mmsiOf b = mmsiOf b') :
    ∃ m, (partData own b).merge (partData own' b') = .ok m ∧ m.mmsi = mmsiOf b := by
  obtain ⟨m, hm⟩ := merge_parts (partData own b) (partData own' b')
    (by unfold partData; split <;> split <;> rfl)
    (by rw [partData_mmsi, partData_mmsi, h])
    (by unfold partData; split <;> split <;> rfl)
    (by unfold partData; split <;> split <;> rfl)
  refine ⟨m, hm, ?_⟩
  rw [← partData_mmsi own b]
  unfold VesselStaticData.merge at hm
  repeat' split at hm
  all_goals first | (cases hm; done) | (cases hm; rfl)

theorem merge_overlay (own own' : Bool) (b b' : Bits) (h : mmsiOf b = mmsiOf b') :
    (partData own b).merge (partData own' b') = .ok (overlay (partData own b) (partData own' b')) := by
  have hc : ∀ (α : Type) (x y : Option α), chooseSome x y = x.or y := by
    intro α x y; cases x <;> rfl
  have h0 : ∀ o b, (partData o b).positionFixType = none ∧ (partData o b).eta = none ∧
      (partData o b).draught10 = none ∧ (partData o b).destination = none ∧
      (partData o b).imoNumber = none ∧ (partData o b).aisType = .classB ∧
      (partData o b).aisVersionIndicator = 0 := by
    intro o b; unfold partData; split <;> exact ⟨rfl, rfl, rfl, rfl, rfl, rfl, rfl⟩
  obtain ⟨a1, a2, a3, a4, a5, a6, a7⟩ := h0 own b
  obtain ⟨b1, b2, b3, b4, b5, b6, b7⟩ := h0 own' b'
  simp only [VesselStaticData.merge, overlay, a6, b6, a5, b5, a7, b7, partData_mmsi, h, ne_eq,
    not_true_eq_false, if_false, hc, a1, b1, a2, b2, a3, b3, a4, b4, Option.or_none, ite_not]

/-- The pending static data of a reachable state are contents of messages of their MMSI. -/
def GoodStatic (p : Parser) : Prop :=
  ∀ m v, pendingStatic p m = some v → ∃ own bits, v = partData own bits ∧ typeOf bits = 24 ∧
    partOf bits < 2 ∧ mmsiOf bits = m

theorem t24Store_none (v : VesselStaticData) (p : Parser) (h : p.savedVsds.get v.mmsi = none) :
    (t24Store v p).1 = .ok .incomplete ∧ (t24Store v p).2.savedVsds.get v.mmsi = some v := by
  simp only [t24Store, Parser.pullVsd, Parser.pushVsd, h]
  exact ⟨trivial, KV.get_insert_self _ _ _⟩

theorem t24Store_some (v w m : VesselStaticData) (p : Parser) (h : p.savedVsds.get v.mmsi = some w)
    (hm : v.merge w = .ok m) :
    (t24Store v p).1 = .ok (.vesselStaticData m) ∧ (t24Store v p).2.savedVsds.get v.mmsi = none := by
  simp only [t24Store, Parser.pullVsd, h, hm]
  exact ⟨rfl, KV.get_erase_self _ _⟩

/-- What a type 24 message does. -/
theorem eval_24 (env : Env) (p : Parser) (s : Str) (own : Bool) (bits : Bits)
    (h : Completes24 env p s own bits) :
    (2 ≤ partOf bits → (∃ m, (parseSentence env p s).1 = .err (.invalidSentence m)) ∧
      pendingStatic (parseSentence env p s).2 (mmsiOf bits) = pendingStatic p (mmsiOf bits)) ∧
    (partOf bits < 2 → pendingStatic p (mmsiOf bits) = none →
      (parseSentence env p s).1 = .ok .incomplete ∧
      pendingStatic (parseSentence env p s).2 (mmsiOf bits) = some (partData own bits)) ∧
    (partOf bits < 2 → ∀ w m, pendingStatic p (mmsiOf bits) = some w → (partData own bits).merge w = .ok m →
      (parseSentence env p s).1 = .ok (.vesselStaticData m) ∧
      pendingStatic (parseSentence env p s).2 (mmsiOf bits) = none) := by
  obtain ⟨payload, hc, hr, rfl, ht⟩ := h
  obtain ⟨st, q, hq, he⟩ := eval_completes env p s own payload hc
  rw [he, complete_24 env own st payload q hr ht]
  simp only [pendingStatic]
  rw [← hq]
  have hm := partData_mmsi own (payloadBits payload)
  refine ⟨fun h2 => ?_, fun h2 hn => ?_, fun h2 w m hw hmw => ?_⟩
  · rw [if_neg (by omega)]
    exact ⟨⟨_, rfl⟩, rfl⟩
  · rw [if_pos h2, ← hm]
    exact t24Store_none _ _ (by rw [hm]; exact hn)
  · rw [if_pos h2, ← hm]
    exact t24Store_some _ _ _ _ (by rw [hm]; exact hw) hmw

theorem goodStatic_complete (env : Env) (own : Bool) (st : Station) (payload : Str) (q : Parser)
    (hg : GoodStatic q) : GoodStatic (complete env own st payload q).2 := by
  by_cases hr : Readable env payload
  · by_cases ht : typeOf (payloadBits payload) = 24
    · rw [complete_24 env own st payload q hr ht]
      split
      · rename_i h2
        intro m v hv
        by_cases hm : m = mmsiOf (payloadBits payload)
        · cases hp : q.savedVsds.get (mmsiOf (payloadBits payload)) with
          | none =>
            have h := (t24Store_none (partData own (payloadBits payload)) q
              (by rw [partData_mmsi]; exact hp)).2
            rw [partData_mmsi] at h
            rw [pendingStatic, hm, h] at hv
            obtain rfl := Option.some.inj hv
            exact ⟨own, _, rfl, ht, h2, hm.symm⟩
          | some w =>
            obtain ⟨own', b', rfl, -, -, hb'⟩ := hg _ w hp
            obtain ⟨r, hr, -⟩ := partData_merge own own' (payloadBits payload) b' hb'.symm
            have h := (t24Store_some (partData own (payloadBits payload)) _ r q
              (by rw [partData_mmsi]; exact hp) hr).2
            rw [partData_mmsi] at h
            rw [pendingStatic, hm, h] at hv
            cases hv
        · rw [pendingStatic, t24Store_frame _ _ _ (by rw [partData_mmsi]; exact hm)] at hv
          exact hg m v hv
      · exact hg
    · intro m v hv
      rw [pendingStatic, complete_static_frame _ _ _ _ _ _ (fun h => ht h.1)] at hv
      exact hg m v hv
  · have : (complete env own st payload q).2 = q := by
      simp only [complete]
      have ho : env.overflowChecks = true := by
        by_contra h
        exact hr (fun h' => absurd h' h)
      cases hp : parsePayload env.overflowChecks payload with
      | err e => rfl
      | panic => rfl
      | ok bv =>
        exfalso
        apply hr
        intro _
        rw [ho] at hp
        clear hr ho
        induction payload generalizing bv with
        | nil => intro c hc; cases hc
        | cons c cs ih =>
          have hc : charAsU8 c = c.toNat % 256 := rfl
          simp only [parsePayload, armorValue, hc, if_true] at hp
          by_cases hlt : c.toNat % 256 < 48
          · rw [if_pos hlt] at hp; cases hp
          · rw [if_neg hlt] at hp
            simp only [] at hp
            cases hq : parsePayload true cs with
            | err e => rw [hq] at hp; cases hp
            | panic => rw [hq] at hp; cases hp
            | ok b' =>
              intro x hx
              rcases List.mem_cons.mp hx with rfl | hx
              · omega
              · exact ih b' hq x hx
    rw [this]
    exact hg

theorem goodStatic_step (env : Env) (p : Parser) (s : Str) (hg : GoodStatic p) :
    GoodStatic (parseSentence env p s).2 := by
  have same : ∀ q : Parser, q.savedVsds = p.savedVsds → GoodStatic q := by
    intro q hq m v hv
    rw [pendingStatic, hq] at hv
    exact hg m v hv
  cases call_case env p s with
  | plain h => rw [h]; exact hg
  | gsv talker n k fs hs => exact same _ (by rw [eval_gsv env p talker n k fs s hs, gsvStep_vsds])
  | ais talker own fs hs hc =>
    cases hc with
    | bad m _ h => rw [h]; exact hg
    | odd n _ _ _ h => rw [h]; exact hg
    | single pl _ hp h' => rw [h']; exact goodStatic_complete _ _ _ _ _ hg
    | part1 id hp h' =>
      rw [h', joinPart]
      split
      · exact goodStatic_complete _ _ _ _ _ (same _ rfl)
      · exact same _ rfl
    | part2 id hp h' =>
      rw [h', joinPart]
      split
      · exact goodStatic_complete _ _ _ _ _ (same _ rfl)
      · exact same _ rfl

theorem goodStatic_reachable (p : Parser) (h : Reachable p) : GoodStatic p := by
  obtain ⟨l, rfl⟩ := h
  have : ∀ q, GoodStatic q → GoodStatic (run q l) := by
    induction l with
    | nil => exact fun q hq => hq
    | cons x l ih => exact fun q hq => ih _ (goodStatic_step _ _ _ hq)
  exact this _ (fun m v hv => by cases hv)

/-- Histories without type 24 messages of an MMSI leave its pending data alone. -/
theorem static_frame_run (p : Parser) (h : List (Env × Str)) (m : Nat)
    (hh : Avoids (fun q x => CompletesStatic q x m) p h) : pendingStatic (run p h) m = pendingStatic p m := by
  induction h generalizing p with
  | nil => rfl
  | cons x h ih => rw [run, ih _ hh.2, static_frame _ _ _ _ hh.1]

end Nmea
