/-
What one call does to the pending data.
-/
import Verif.Lemmas.KV
import Verif.Lemmas.Keys
import Verif.Lemmas.Dispatch

namespace Nmea
open Spec

/-! ### AIS sentences -/

theorem getD_field (fs : List Str) (i : Nat) : (fs[i]?).getD [] = field fs i := by
  simp [field]

theorem Spec.Dec.ne_nil {max : Nat} {s : Str} {n : Nat} (h : Dec max s n) : s ≠ [] := by
  obtain ⟨ds, (hd | hd), ⟨hd1, -⟩, -⟩ := h
  · rwa [hd]
  · simp [hd]

theorem field_ne_length {fs : List Str} {i : Nat} (h : field fs i ≠ []) : i < fs.length := by
  simp only [field] at h
  by_contra hn
  exact h (by simp [List.getD, List.getElem?_eq_none (Nat.le_of_not_lt hn)])

/-- What a part of a two-part message does: complete the message with the pending other part, or wait. -/
def joinPart (env : Env) (p : Parser) (own : Bool) (st : Station) (mine other pl : Str)
    (comb : Str → Str) : Out ParseError ParsedSentence × Parser :=
  match p.savedFragments.get other with
  | some b => complete env own st (comb b) { p with savedFragments := p.savedFragments.erase other }
  | none =>
    (.ok .incomplete, { p with savedFragments := (p.savedFragments.erase other).insert mine pl })

/-- How a VDM/VDO sentence is evaluated, in terms of its fields and of what is pending. -/
inductive AisCase (env : Env) (p : Parser) (talker : Str) (own : Bool) (fs : List Str) (s : Str) : Prop where
  | bad (m : Str) (hf : (∀ n, ¬ Dec 255 (field fs 0) n) ∨ ∀ n, ¬ Dec 255 (field fs 1) n)
      (h : parseSentence env p s = (.err (.invalidSentence m), p))
  | single (payload : Str) (h0 : Dec 255 (field fs 0) 1)
      (hp : Single talker own payload s ∨ payload = [])
      (h : parseSentence env p s = complete env own (talkerStation talker) payload p)
  | part1 (id : Nat) (hp : Part talker own 1 id (field fs 3) (field fs 4) s)
      (h : parseSentence env p s =
        joinPart env p own (talkerStation talker) (partKey own 1 id (field fs 3))
          (partKey own 2 id (field fs 3)) (field fs 4) ((field fs 4) ++ ·))
  | part2 (id : Nat) (hp : Part talker own 2 id (field fs 3) (field fs 4) s)
      (h : parseSentence env p s =
        joinPart env p own (talkerStation talker) (partKey own 2 id (field fs 3))
          (partKey own 1 id (field fs 3)) (field fs 4) (· ++ (field fs 4)))
  | odd (n : Nat) (h0 : Dec 255 (field fs 0) n) (hn : n ≠ 1)
      (h2 : n = 2 → (∀ id, ¬ Dec (2 ^ 64 - 1) (field fs 2) id) ∨
        ∃ k, Dec 255 (field fs 1) k ∧ k ≠ 1 ∧ k ≠ 2)
      (h : parseSentence env p s = (.ok .incomplete, p))

theorem ais_case (env : Env) (p : Parser) (talker : Str) (own : Bool) (fs : List Str) (s : Str)
    (hs : IsAis talker own fs s) : AisCase env p talker own fs s := by
  have he := eval_fields env p talker own fs s hs
  rw [vdmLoop_fields _ _ hs.2.2.1, stationOf_eq] at he
  cases h0 : parseU8 (field fs 0) with
  | none =>
    rw [h0] at he
    exact .bad _ (.inl fun n hn => by rw [(parseU8_iff _ _).mpr hn] at h0; cases h0) he
  | some n =>
    have d0 := (parseU8_iff _ _).mp h0
    rw [h0] at he
    simp only [] at he
    by_cases hlen : fs.length = 1
    · rw [if_pos hlen] at he
      simp only [assemble] at he
      by_cases h1 : n = 1
      · subst h1
        rw [if_pos rfl] at he
        exact .single [] d0 (.inr rfl) he
      · rw [if_neg h1] at he
        refine .odd n d0 h1 (fun h2 => .inl fun id hid => ?_) ?_
        · have := field_ne_length hid.ne_nil
          omega
        · by_cases h2 : n = 2
          · subst h2
            exact he
          · rw [if_neg h2] at he
            exact he
    · rw [if_neg hlen] at he
      cases hk : parseU8 (field fs 1) with
      | none =>
        rw [hk] at he
        exact .bad _ (.inr fun n hn => by rw [(parseU8_iff _ _).mpr hn] at hk; cases hk) he
      | some k =>
        have d1 := (parseU8_iff _ _).mp hk
        rw [hk] at he
        simp only [assemble] at he
        by_cases h1 : n = 1
        · subst h1
          rw [if_pos rfl] at he
          exact .single _ d0 (.inl ⟨fs, k, hs, d0, d1, rfl⟩) he
        · rw [if_neg h1] at he
          by_cases h2 : n = 2
          · subst h2
            rw [if_pos rfl] at he
            cases hid : parseU64 (field fs 2) with
            | none =>
              rw [hid] at he
              refine .odd 2 d0 h1 (fun _ => .inl fun id hd => ?_) he
              rw [(parseU64_iff _ _).mpr hd] at hid
              cases hid
            | some id =>
              have d2 := (parseU64_iff _ _).mp hid
              rw [hid] at he
              simp only [getD_field, makeFragmentKey_eq, Parser.pullString, Parser.pushString] at he
              by_cases k1 : k = 1
              · subst k1
                rw [if_pos rfl] at he
                refine .part1 id ⟨fs, hs, d0, d1, d2, rfl, rfl⟩ ?_
                rw [he, joinPart]
                cases p.savedFragments.get (partKey own 2 id (field fs 3)) <;> rfl
              · rw [if_neg k1] at he
                by_cases k2 : k = 2
                · subst k2
                  rw [if_pos rfl] at he
                  refine .part2 id ⟨fs, hs, d0, d1, d2, rfl, rfl⟩ ?_
                  rw [he, joinPart]
                  cases p.savedFragments.get (partKey own 1 id (field fs 3)) <;> rfl
                · rw [if_neg k2] at he
                  exact .odd 2 d0 h1 (fun _ => .inr ⟨k, d1, k1, k2⟩) he
          · rw [if_neg h2] at he
            exact .odd n d0 h1 (fun h => absurd h h2) he

theorem Spec.IsAis.unique {talker talker' : Str} {own own' : Bool} {fs fs' : List Str} {s : Str}
    (h : IsAis talker own fs s) (h' : IsAis talker' own' fs' s) :
    talker = talker' ∧ own = own' ∧ fs = fs' := by
  obtain ⟨-, h1, h2, h3⟩ := IsTagged.unique h h' (by decide) (by decide) (aisKind_noComma _) (aisKind_noComma _)
  refine ⟨h1, ?_, h3⟩
  revert h2
  cases own <;> cases own' <;> decide

theorem Spec.Part.unique {t t' : Str} {own own' : Bool} {num num' id id' : Nat} {chan chan' pl pl' s : Str}
    (h : Part t own num id chan pl s) (h' : Part t' own' num' id' chan' pl' s) :
    t = t' ∧ own = own' ∧ num = num' ∧ id = id' ∧ chan = chan' ∧ pl = pl' := by
  obtain ⟨fs, h, -, h1, h2, h3, h4⟩ := h
  obtain ⟨fs', h', -, h1', h2', h3', h4'⟩ := h'
  obtain ⟨rfl, rfl, rfl⟩ := h.unique h'
  exact ⟨rfl, rfl, h1.unique h1', h2.unique h2', h3.symm.trans h3', h4.symm.trans h4'⟩

theorem Spec.Single.unique {t t' : Str} {own own' : Bool} {pl pl' s : Str}
    (h : Single t own pl s) (h' : Single t' own' pl' s) : t = t' ∧ own = own' ∧ pl = pl' := by
  obtain ⟨fs, k, h, -, -, h1⟩ := h
  obtain ⟨fs', k', h', -, -, h1'⟩ := h'
  obtain ⟨rfl, rfl, rfl⟩ := h.unique h'
  exact ⟨rfl, rfl, h1.symm.trans h1'⟩

theorem Spec.Single.not_part {t t' : Str} {own own' : Bool} {num id : Nat} {chan pl pl' s : Str}
    (h : Single t own pl s) (h' : Part t' own' num id chan pl' s) : False := by
  obtain ⟨fs, k, h, h0, -⟩ := h
  obtain ⟨fs', h', h0', -⟩ := h'
  obtain ⟨rfl, rfl, rfl⟩ := h.unique h'
  exact absurd (h0.unique h0') (by decide)

/-- Part 1 of a two-part message. -/
theorem eval_part1 (env : Env) (p : Parser) (talker : Str) (own : Bool) (id : Nat) (chan pl s : Str)
    (hp : Part talker own 1 id chan pl s) :
    parseSentence env p s =
      joinPart env p own (talkerStation talker) (partKey own 1 id chan)
        (partKey own 2 id chan) pl (pl ++ ·) := by
  have hp' := hp
  obtain ⟨fs, hs, d0, d1, d2, rfl, rfl⟩ := hp
  cases ais_case env p talker own fs s hs with
  | bad m hf h =>
    rcases hf with hf | hf
    · exact absurd d0 (hf _)
    · exact absurd d1 (hf _)
  | single payload h0 => exact absurd (h0.unique d0) (by decide)
  | part1 id' hp h => obtain ⟨-, -, -, rfl, -⟩ := hp.unique hp'; exact h
  | part2 id' hp h => obtain ⟨-, -, h, -⟩ := hp.unique hp'; exact absurd h (by decide)
  | odd n h0 hn h2 h =>
    obtain rfl := h0.unique d0
    rcases h2 rfl with h2 | ⟨k, hk, h1, h2⟩
    · exact absurd d2 (h2 _)
    · exact absurd (hk.unique d1) h1

/-- Part 2 of a two-part message. -/
theorem eval_part2 (env : Env) (p : Parser) (talker : Str) (own : Bool) (id : Nat) (chan pl s : Str)
    (hp : Part talker own 2 id chan pl s) :
    parseSentence env p s =
      joinPart env p own (talkerStation talker) (partKey own 2 id chan)
        (partKey own 1 id chan) pl (· ++ pl) := by
  have hp' := hp
  obtain ⟨fs, hs, d0, d1, d2, rfl, rfl⟩ := hp
  cases ais_case env p talker own fs s hs with
  | bad m hf h =>
    rcases hf with hf | hf
    · exact absurd d0 (hf _)
    · exact absurd d1 (hf _)
  | single payload h0 => exact absurd (h0.unique d0) (by decide)
  | part1 id' hp h => obtain ⟨-, -, h, -⟩ := hp.unique hp'; exact absurd h (by decide)
  | part2 id' hp h => obtain ⟨-, -, -, rfl, -⟩ := hp.unique hp'; exact h
  | odd n h0 hn h2 h =>
    obtain rfl := h0.unique d0
    rcases h2 rfl with h2 | ⟨k, hk, h1, h2⟩
    · exact absurd d2 (h2 _)
    · exact absurd (hk.unique d1) h2

/-! ### A complete message -/

theorem charBits_eq (oc : Bool) (c : Char) (v : Nat) (h : armorValue oc c = .ok v) :
    sixBits v = charBits c := by
  rw [sixBits_eq, charBits]
  congr 1
  have hc : charAsU8 c = c.toNat % 256 := rfl
  simp only [armorValue] at h
  by_cases hb : charAsU8 c < 48
  · rw [if_pos hb] at h
    cases oc with
    | true => cases h
    | false =>
      cases h
      split <;> split <;> omega
  · rw [if_neg hb] at h
    cases h
    split <;> split <;> omega

theorem parsePayload_bits (oc : Bool) (s : Str) (bv : Bits) (h : parsePayload oc s = .ok bv) :
    bv = payloadBits s := by
  induction s generalizing bv with
  | nil => cases h; rfl
  | cons c cs ih =>
    simp only [parsePayload] at h
    cases hc : armorValue oc c with
    | ok v =>
      rw [hc] at h
      simp only [] at h
      cases hr : parsePayload oc cs with
      | ok b =>
        rw [hr] at h
        cases h
        rw [ih b hr, charBits_eq oc c v hc]
        rfl
      | err e => rw [hr] at h; cases h
      | panic => rw [hr] at h; cases h
    | err e => rw [hc] at h; cases h
    | panic => rw [hc] at h; cases h

theorem handleT24_frags (bv : Bits) (st : Station) (p : Parser) (own : Bool) :
    (handleT24 bv st p own).2.savedFragments = p.savedFragments := by
  have store : ∀ v, (t24Store v p).2.savedFragments = p.savedFragments := by
    intro v
    simp only [t24Store, Parser.pullVsd]
    cases p.savedVsds.get v.mmsi with
    | none => rfl
    | some v2 => simp only []; split <;> rfl
  simp only [handleT24]
  split
  · split
    · exact store _
    · rfl
    · rfl
  · split
    · exact store _
    · rfl
    · rfl
  · rfl

theorem dispatchAis_frags (env : Env) (ty : Str) (bv : Bits) (st : Station) (own : Bool) (p : Parser) :
    (dispatchAis env ty bv st own p).2.savedFragments = p.savedFragments := by
  simp only [dispatchAis]
  split <;> first | rfl | exact handleT24_frags _ _ _ _

theorem complete_frags (env : Env) (own : Bool) (st : Station) (payload : Str) (p : Parser) :
    (complete env own st payload p).2.savedFragments = p.savedFragments := by
  simp only [complete]
  split
  · exact dispatchAis_frags _ _ _ _ _ _
  · rfl
  · rfl

/-- The AIS dispatch looks at the state only for type 24, and then only at the static data. -/
theorem dispatchAis_state (env : Env) (ty : Str) (bv : Bits) (st : Station) (own : Bool) (p : Parser)
    (h : pickU64 bv 0 6 ≠ 24) :
    dispatchAis env ty bv st own p = ((dispatchAis env ty bv st own Parser.new).1, p) := by
  simp only [dispatchAis]
  split
  all_goals first
    | (exfalso; omega)
    | rfl

theorem handleT24_static (bv : Bits) (st : Station) (own : Bool) (p q : Parser)
    (h : p.savedVsds = q.savedVsds) :
    (handleT24 bv st p own).1 = (handleT24 bv st q own).1 ∧
    (handleT24 bv st p own).2.savedVsds = (handleT24 bv st q own).2.savedVsds := by
  have store : ∀ v, (t24Store v p).1 = (t24Store v q).1 ∧
      (t24Store v p).2.savedVsds = (t24Store v q).2.savedVsds := by
    intro v
    simp only [t24Store, Parser.pullVsd, Parser.pushVsd, h]
    cases q.savedVsds.get v.mmsi with
    | none => exact ⟨rfl, rfl⟩
    | some v2 => simp only []; split <;> exact ⟨rfl, rfl⟩
  simp only [handleT24]
  split
  · split
    · exact store _
    · exact ⟨rfl, h⟩
    · exact ⟨rfl, h⟩
  · split
    · exact store _
    · exact ⟨rfl, h⟩
    · exact ⟨rfl, h⟩
  · exact ⟨rfl, h⟩

theorem dispatchAis_static (env : Env) (ty : Str) (bv : Bits) (st : Station) (own : Bool) (p q : Parser)
    (h : p.savedVsds = q.savedVsds) :
    (dispatchAis env ty bv st own p).1 = (dispatchAis env ty bv st own q).1 ∧
    (dispatchAis env ty bv st own p).2.savedVsds = (dispatchAis env ty bv st own q).2.savedVsds := by
  by_cases ht : pickU64 bv 0 6 = 24
  · have e : ∀ p, dispatchAis env ty bv st own p = handleT24 bv st p own := by
      intro p; simp only [dispatchAis, ht]
    rw [e, e]
    exact handleT24_static _ _ _ _ _ h
  · rw [dispatchAis_state _ _ _ _ _ p ht, dispatchAis_state _ _ _ _ _ q ht]
    exact ⟨rfl, h⟩

theorem complete_static (env : Env) (own : Bool) (st : Station) (payload : Str) (p q : Parser)
    (h : p.savedVsds = q.savedVsds) :
    (complete env own st payload p).1 = (complete env own st payload q).1 ∧
    (complete env own st payload p).2.savedVsds = (complete env own st payload q).2.savedVsds := by
  simp only [complete]
  split
  · exact dispatchAis_static _ _ _ _ _ _ _ h
  · exact ⟨rfl, h⟩
  · exact ⟨rfl, h⟩

end Nmea
