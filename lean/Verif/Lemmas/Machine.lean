/-
The parser refines the machine of the specification.
-/
import Verif.Spec.Machine
import Verif.Lemmas.GsvGroup
import Verif.Lemmas.Static
import Verif.Lemmas.Outcome

namespace Nmea
open Spec

/-- A pending part, as it is remembered. -/
def partOfMemory (x : Option (Nat × Str)) (num : Nat) : Option Str :=
  x.bind (fun y => if y.1 = num then some y.2 else none)

/-- The parser holds what the memory says. -/
structure Rel (p : Parser) (m : Memory) : Prop where
  part : ∀ own num id chan, (num = 1 ∨ num = 2) →
    pendingPart p own num id chan = partOfMemory (m.part own id chan) num
  partOk : ∀ own id chan x, m.part own id chan = some x → ',' ∉ x.2
  gsv : ∀ talker n k, ',' ∉ talker → pendingGsv p talker n k = (m.gsv talker n k).map (gsvBody talker)
  gsvOk : ∀ talker n k fs, m.gsv talker n k = some fs → Talker talker ∧ CommaFree fs
  static : ∀ i, pendingStatic p i = (m.static i).map (fun x => partData x.1 x.2)
  staticOk : ∀ i x, m.static i = some x → mmsiOf x.2 = i

theorem rel_new : Rel Parser.new Memory.empty :=
  ⟨fun _ _ _ _ _ => rfl, fun _ _ _ _ h => (by cases h), fun _ _ _ _ => rfl, fun _ _ _ _ h => (by cases h), fun _ => rfl, fun _ _ h => (by cases h)⟩

/-! ### Sentences that do not use the memory -/

theorem complete_alone (env : Env) (own : Bool) (st : Station) (payload : Str) (p : Parser)
    (h : ¬ IsStaticPart env payload) :
    complete env own st payload p = ((complete env own st payload Parser.new).1, p) := by
  by_cases hr : Readable env payload
  · by_cases ht : typeOf (payloadBits payload) = 24
    · have hp : ¬ partOf (payloadBits payload) < 2 := fun hp => h ⟨hr, ht, hp⟩
      rw [complete_24 _ _ _ _ _ hr ht, complete_24 _ _ _ _ _ hr ht, if_neg hp, if_neg hp]
    · simp only [complete, parsePayload_readable env payload hr]
      exact dispatchAis_state _ _ _ _ _ _ (by rwa [typeOf_eq])
  · cases hp : parsePayload env.overflowChecks payload with
    | ok bv => exact absurd (readable_of_ok env payload bv hp) hr
    | err e => exact absurd hp (parsePayload_ne_err _ _ _)
    | panic => simp only [complete, hp]

theorem notStatic_nil (env : Env) : ¬ IsStaticPart env [] := by
  rintro ⟨-, h, -⟩
  revert h
  decide

/-- An AIS sentence that does not use the memory: the same answer in every state. -/
theorem ais_alone (env : Env) (p q : Parser) (talker : Str) (own : Bool) (fs : List Str) (s : Str)
    (hs : IsAis talker own fs s) (h : ¬ UsesMemory s) :
    parseSentence env p s = ((parseSentence env q s).1, p) := by
  rw [eval_fields env p talker own fs s hs, eval_fields env q talker own fs s hs, vdmLoop_fields _ _ hs.2.2.1]
  cases h0 : parseU8 (field fs 0) with
  | none => rfl
  | some n =>
    have d0 := (parseU8_iff _ _).mp h0
    simp only []
    by_cases hlen : fs.length = 1
    · rw [if_pos hlen]
      simp only [assemble]
      by_cases h1 : n = 1
      · simp only [if_pos h1]
        rw [complete_alone _ _ _ _ p (notStatic_nil env), complete_alone _ _ _ _ q (notStatic_nil env)]
      · by_cases h2 : n = 2
        · subst h2; rfl
        · simp only [h1, h2, if_false]
    · rw [if_neg hlen]
      cases hk : parseU8 (field fs 1) with
      | none => rfl
      | some k =>
        have d1 := (parseU8_iff _ _).mp hk
        simp only [assemble]
        by_cases h1 : n = 1
        · subst h1
          exact absurd (.inl ⟨talker, own, _, fs, k, hs, d0, d1, rfl⟩) h
        · by_cases h2 : n = 2
          · subst h2
            simp only [if_neg h1, if_true]
            cases hid : parseU64 (field fs 2) with
            | none => rfl
            | some id =>
              have d2 := (parseU64_iff _ _).mp hid
              by_cases k1 : k = 1
              · subst k1
                exact absurd (.inr (.inl ⟨talker, own, 1, id, _, _, ⟨fs, hs, d0, d1, d2, rfl, rfl⟩, .inl rfl⟩)) h
              · by_cases k2 : k = 2
                · subst k2
                  exact absurd (.inr (.inl ⟨talker, own, 2, id, _, _, ⟨fs, hs, d0, d1, d2, rfl, rfl⟩, .inr rfl⟩)) h
                · simp only [k1, k2, if_false]
          · simp only [h1, h2, if_false]

/-- A GSV sentence that does not use the memory: the same answer in every state. -/
theorem gsv_alone (env : Env) (p q : Parser) (talker : Str) (fs : List Str) (s : Str)
    (hs : IsGnss talker (c! "GSV") fs s) (h : ¬ UsesMemory s) :
    parseSentence env p s = ((parseSentence env q s).1, p) := by
  have hsp := splitChar_tag '$' talker (c! "GSV") fs (by decide) hs.1 (by decide) hs.2.1
  have he : ∀ p, parseSentence env p s =
      handleGsv env.overflowChecks (join (tag '$' talker (c! "GSV")) fs) (navSystemOf talker) p := by
    intro p
    rw [eval_dollar env p talker _ fs s (by decide) (by decide) hs]
    rfl
  rw [he, he]
  simp only [handleGsv, hsp, fieldAt_zero]
  rcases numField_u32 (tag '$' talker (c! "GSV") :: fs) 1 with ⟨m, h1, hn⟩ | ⟨o, h1, hn⟩
  · rw [h1]
  · rw [h1]
    simp only []
    rcases numField_u32 (tag '$' talker (c! "GSV") :: fs) 2 with ⟨m, h2, hk⟩ | ⟨o2, h2, hk⟩
    · rw [h2]
    · rw [fieldAt_cons_succ] at hn hk
      exact absurd (.inr (.inr ⟨talker, _, _, fs, hs, hn, hk⟩)) h

theorem dispatch_alone (env : Env) (p q : Parser) (ty body : Str) (nav : Option NavigationSystem)
    (st : Option Station) (h1 : ty ≠ c! "$GSV") (h2 : ty ≠ c! "!VDM") (h3 : ty ≠ c! "!VDO") :
    dispatch env p ty body nav st = ((dispatch env q ty body nav st).1, p) := by
  have h4 : ¬ (ty = c! "!VDM" ∨ ty = c! "!VDO") := by rintro (h | h) <;> contradiction
  unfold dispatch
  rw [if_neg h1, if_neg h4, if_neg h1, if_neg h4]
  repeat' split
  all_goals rfl

/-- A sentence that does not use the memory: the answer of a new parser, and nothing changes. -/
theorem eval_alone (env : Env) (p : Parser) (s : Str) (h : ¬ UsesMemory s) :
    parseSentence env p s = (alone env s, p) := by
  have use : (∃ o, ∀ q, parseSentence env q s = (o, q)) → parseSentence env p s = (alone env s, p) := by
    rintro ⟨o, ho⟩
    rw [alone, ho, ho]
  cases shape s with
  | corrupted a b h h1 h2 h3 => exact use ⟨_, fun q => by rw [h, parse_corrupted env q a b h1 h2 h3]⟩
  | noComma body e hf hs hc =>
    exact use ⟨_, fun q => by rw [hs, parse_finish _ _ _ _ hf, parseBody_noComma _ _ _ hc]⟩
  | badTag ty rest e hf hs h1 h2 =>
    exact use ⟨_, fun q => by rw [hs, parse_finish _ _ _ _ hf, parseBody_badTag _ _ _ _ h1 h2]⟩
  | oddTag ty rest e hf hs h1 h2 =>
    exact use ⟨_, fun q => by rw [hs, parse_finish _ _ _ _ hf, parseBody_oddTag _ _ _ _ h1 h2]⟩
  | dollar talker kind fs hk hc hs =>
    by_cases hg : kind = c! "GSV"
    · subst hg
      exact gsv_alone env p Parser.new talker fs s hs h
    · rw [alone, eval_dollar env p talker kind fs s hk hc hs, eval_dollar env Parser.new talker kind fs s hk hc hs]
      exact dispatch_alone _ _ _ _ _ _ _ (by simpa using hg) (by simp) (by simp)
  | bang talker kind fs hk hc hs =>
    by_cases hm : kind = c! "VDM"
    · subst hm
      exact ais_alone env p Parser.new talker false fs s hs h
    · by_cases ho : kind = c! "VDO"
      · subst ho
        exact ais_alone env p Parser.new talker true fs s hs h
      · rw [alone, eval_bang env p talker kind fs s hk hc hs, eval_bang env Parser.new talker kind fs s hk hc hs]
        exact dispatch_alone _ _ _ _ _ _ _ (by simp) (by simpa using hm) (by simpa using ho)

/-! ### Complete messages -/

theorem single_of_payload (talker : Str) (own : Bool) (payload : Str) (ht : Talker talker) (hp : ',' ∉ payload) :
    Single talker own payload (aisSentence talker own payload) := by
  have d1 : Dec 255 (c! "1") 1 := ⟨c! "1", .inl rfl, ⟨by decide, by decide⟩, by decide, by decide⟩
  refine ⟨_, 1, ⟨ht, ?_, by simp, .full, ?_, rfl⟩, d1, d1, rfl⟩
  · intro f hf
    simp only [List.mem_cons, List.not_mem_nil, or_false] at hf
    rcases hf with rfl | rfl | rfl | rfl | rfl | rfl
    · decide
    · decide
    · decide
    · decide
    · exact hp
    · decide
  · intro h; cases h

theorem rel_of_static {p q : Parser} {m m' : Memory} (h : Rel p m) (hf : q.savedFragments = p.savedFragments)
    (hp : m'.part = m.part) (hg : m'.gsv = m.gsv)
    (hs : ∀ i, pendingStatic q i = (m'.static i).map (fun x => partData x.1 x.2))
    (ho : ∀ i x, m'.static i = some x → mmsiOf x.2 = i) : Rel q m' where
  part := fun own num id chan hn => by rw [pendingPart, hf, hp]; exact h.part own num id chan hn
  partOk := fun own id chan x he => h.partOk own id chan x (by rwa [← hp])
  gsv := fun talker n k ht => by rw [pendingGsv, hf, hg]; exact h.gsv talker n k ht
  gsvOk := fun talker n k fs he => h.gsvOk talker n k fs (by rwa [← hg])
  static := hs
  staticOk := ho

theorem message_rel (env : Env) (q : Parser) (m : Memory) (talker : Str) (own : Bool) (payload : Str) (a : Answer)
    (m' : Memory) (hr : Rel q m) (ht : Talker talker) (hp : ',' ∉ payload) (h : Message env m talker own payload a m') :
    (complete env own (talkerStation talker) payload q).1 = a ∧
    Rel (complete env own (talkerStation talker) payload q).2 m' := by
  cases h with
  | plain h =>
    rw [complete_alone _ _ _ _ _ h, alone, eval_Single env _ talker own payload _ (single_of_payload talker own payload ht hp),
      stationOf_eq]
    exact ⟨rfl, hr⟩
  | first h hm =>
    have hfr := complete_frags env own (talkerStation talker) payload q
    have hst := hr.static (mmsiOf (payloadBits payload))
    rw [hm] at hst
    rw [complete_24 _ _ _ _ _ h.1 h.2.1, if_pos h.2.2] at *
    have hmm := partData_mmsi own (payloadBits payload)
    obtain ⟨h1, h2⟩ := t24Store_none (partData own (payloadBits payload)) q (by rw [hmm]; exact hst)
    refine ⟨h1, rel_of_static hr hfr rfl rfl ?_ ?_⟩
    · intro i
      simp only [Memory.setStatic]
      by_cases hi : i = mmsiOf (payloadBits payload)
      · subst hi
        rw [if_pos rfl, pendingStatic, ← hmm, h2]
        rfl
      · rw [if_neg hi, pendingStatic, t24Store_frame _ _ _ (by rwa [hmm])]
        exact hr.static i
    · intro i x hx
      simp only [Memory.setStatic] at hx
      by_cases hi : i = mmsiOf (payloadBits payload)
      · rw [if_pos hi] at hx
        cases hx
        exact hi.symm
      · rw [if_neg hi] at hx
        exact hr.staticOk i x hx
  | second own' bits' h hm =>
    have hfr := complete_frags env own (talkerStation talker) payload q
    have hst := hr.static (mmsiOf (payloadBits payload))
    have hok := hr.staticOk _ _ hm
    rw [hm] at hst
    rw [complete_24 _ _ _ _ _ h.1 h.2.1, if_pos h.2.2] at *
    have hmm := partData_mmsi own (payloadBits payload)
    obtain ⟨h1, h2⟩ := t24Store_some (partData own (payloadBits payload)) (partData own' bits') _ q (by rw [hmm]; exact hst)
      (merge_overlay own own' (payloadBits payload) bits' hok.symm)
    refine ⟨h1, rel_of_static hr hfr rfl rfl ?_ ?_⟩
    · intro i
      simp only [Memory.setStatic]
      by_cases hi : i = mmsiOf (payloadBits payload)
      · subst hi
        rw [if_pos rfl, pendingStatic, ← hmm, h2]
        rfl
      · rw [if_neg hi, pendingStatic, t24Store_frame _ _ _ (by rwa [hmm])]
        exact hr.static i
    · intro i x hx
      simp only [Memory.setStatic] at hx
      by_cases hi : i = mmsiOf (payloadBits payload)
      · rw [if_pos hi] at hx
        cases hx
      · rw [if_neg hi] at hx
        exact hr.staticOk i x hx

/-! ### One sentence -/

theorem field_noComma {fs : List Str} (h : CommaFree fs) (i : Nat) : ',' ∉ field fs i := by
  by_cases hi : i < fs.length
  · have : field fs i = fs[i] := by simp [field, List.getD, hi]
    rw [this]
    exact h _ (List.getElem_mem hi)
  · have : field fs i = [] := by simp [field, List.getD, List.getElem?_eq_none (Nat.le_of_not_lt hi)]
    rw [this]
    simp

theorem Spec.Part.noComma {talker : Str} {own : Bool} {num id : Nat} {chan pl s : Str}
    (h : Part talker own num id chan pl s) : Talker talker ∧ ',' ∉ pl := by
  obtain ⟨fs, h, -, -, -, -, rfl⟩ := h
  exact ⟨h.1, field_noComma h.2.1 4⟩

theorem Spec.Single.noComma {talker : Str} {own : Bool} {pl s : Str}
    (h : Single talker own pl s) : Talker talker ∧ ',' ∉ pl := by
  obtain ⟨fs, k, h, -, -, rfl⟩ := h
  exact ⟨h.1, field_noComma h.2.1 4⟩

/-- The fragments under the names of parts are `f`, everything else is as before. -/
theorem rel_of_parts {p q : Parser} {m : Memory} (h : Rel p m) (own : Bool) (id : Nat) (chan : Str)
    (x : Option (Nat × Str)) (hv : q.savedVsds = p.savedVsds)
    (hq : ∀ num, (num = 1 ∨ num = 2) → q.savedFragments.get (partKey own num id chan) = partOfMemory x num)
    (ho : ∀ key, (∀ num, (num = 1 ∨ num = 2) → key ≠ partKey own num id chan) →
      q.savedFragments.get key = p.savedFragments.get key)
    (hx : ∀ y, x = some y → ',' ∉ y.2) : Rel q (m.setPart own id chan x) where
  part := fun own' num' id' chan' hn => by
    simp only [Memory.setPart]
    by_cases he : own' = own ∧ id' = id ∧ chan' = chan
    · rw [if_pos he]
      obtain ⟨rfl, rfl, rfl⟩ := he
      exact hq num' hn
    · rw [if_neg he, pendingPart, ho]
      · exact h.part own' num' id' chan' hn
      · intro num _ hk
        obtain ⟨h1, -, h2, h3⟩ := partKey_inj hk
        exact he ⟨h1, h2, h3⟩
  partOk := fun own' id' chan' y he => by
    simp only [Memory.setPart] at he
    split at he
    · exact hx y he
    · exact h.partOk own' id' chan' y he
  gsv := fun talker n k ht => by
    rw [pendingGsv, ho]
    · exact h.gsv talker n k ht
    · intro num _ hk
      exact partKey_ne_gsvKey _ _ _ _ _ _ _ hk.symm
  gsvOk := h.gsvOk
  static := fun i => by rw [pendingStatic, hv]; exact h.static i
  staticOk := h.staticOk

theorem rel_erase {p : Parser} {m : Memory} (h : Rel p m) (own : Bool) (num id : Nat) (chan : Str) (y : Str)
    (hn : num = 1 ∨ num = 2) (hm : m.part own id chan = some (num, y)) :
    Rel { p with savedFragments := p.savedFragments.erase (partKey own num id chan) } (m.setPart own id chan none) := by
  refine rel_of_parts h own id chan none rfl ?_ ?_ (fun y hy => by cases hy)
  · intro k hk
    show (p.savedFragments.erase _).get _ = none
    rw [KV.get_erase]
    split
    · rfl
    · rename_i hne
      have := h.part own k id chan hk
      rw [pendingPart] at this
      rw [this, hm]
      have : num ≠ k := fun e => hne (by rw [e])
      simp [partOfMemory, this]
  · intro key hk
    exact KV.get_erase_ne _ _ _ (hk num hn)

theorem rel_wait {p : Parser} {m : Memory} (h : Rel p m) (own : Bool) (num other id : Nat) (chan pl : Str)
    (hn : num = 1 ∧ other = 2 ∨ num = 2 ∧ other = 1) (hp : ',' ∉ pl) :
    Rel { p with savedFragments :=
      (p.savedFragments.erase (partKey own other id chan)).insert (partKey own num id chan) pl }
      (m.setPart own id chan (some (num, pl))) := by
  refine rel_of_parts h own id chan _ rfl ?_ ?_ (fun y hy => by cases hy; exact hp)
  · intro k hk
    show ((p.savedFragments.erase _).insert _ _).get _ = _
    rw [KV.get_insert]
    by_cases hkn : k = num
    · subst hkn; simp [partOfMemory]
    · rw [if_neg (fun e => hkn (partKey_inj e).2.1), KV.get_erase, if_pos (by congr 1; omega)]
      have : num ≠ k := fun e => hkn e.symm
      simp [partOfMemory, this]
  · intro key hk
    show ((p.savedFragments.erase _).insert _ _).get _ = _
    rw [KV.get_insert_ne _ _ _ _ (hk num (by omega)), KV.get_erase_ne _ _ _ (hk other (by omega))]

theorem pushGsv_rel {p : Parser} {m : Memory} (h : Rel p m) (talker : Str) (n k : Nat) (fs : List Str)
    (ht : Talker talker) (hf : CommaFree fs) :
    Rel (p.pushString (gsvKey talker n k) (gsvBody talker fs)) (m.setGsv talker n k fs) where
  part := fun own num id chan hn => by
    have e : gsvKey talker n k ≠ partKey own num id chan := fun e => partKey_ne_gsvKey _ _ _ _ _ _ _ e.symm
    rw [pendingPart]
    show (p.savedFragments.insert _ _).get _ = _
    rw [KV.get_insert_ne _ _ _ _ e.symm]
    exact h.part own num id chan hn
  partOk := h.partOk
  gsv := fun t n' k' ht' => by
    show (p.savedFragments.insert _ _).get _ = _
    rw [KV.get_insert]
    simp only [Memory.setGsv]
    by_cases he : t = talker ∧ n' = n ∧ k' = k
    · obtain ⟨rfl, rfl, rfl⟩ := he
      simp
    · rw [if_neg he, if_neg (fun e => he (gsvKey_inj ht' ht.2 e))]
      exact h.gsv t n' k' ht'
  gsvOk := fun t n' k' fs' he => by
    simp only [Memory.setGsv] at he
    split at he
    · rename_i hc
      cases he
      rw [hc.1]
      exact ⟨ht, hf⟩
    · exact h.gsvOk t n' k' fs' he
  static := h.static
  staticOk := h.staticOk

theorem clearGsv_rel {p : Parser} {m : Memory} (h : Rel p m) (talker : Str) (n : Nat) (ht : ',' ∉ talker) :
    Rel { p with savedFragments := p.savedFragments.eraseAll ((upTo n).map (gsvKey talker n)) }
      (m.clearGsv talker n) where
  part := fun own num id chan hn => by
    show (p.savedFragments.eraseAll _).get _ = _
    rw [KV.get_eraseAll, if_neg]
    · exact h.part own num id chan hn
    · intro hmem
      obtain ⟨i, -, e⟩ := List.mem_map.mp hmem
      exact partKey_ne_gsvKey _ _ _ _ _ _ _ e.symm
  partOk := h.partOk
  gsv := fun t n' k' ht' => by
    show (p.savedFragments.eraseAll _).get _ = _
    rw [KV.get_eraseAll]
    simp only [Memory.clearGsv]
    by_cases he : t = talker ∧ n' = n ∧ 1 ≤ k' ∧ k' ≤ n
    · rw [if_pos he, if_pos]
      · rfl
      · obtain ⟨rfl, rfl, h1⟩ := he
        exact List.mem_map.mpr ⟨k', mem_upTo.mpr h1, rfl⟩
    · rw [if_neg he, if_neg]
      · exact h.gsv t n' k' ht'
      · intro hmem
        obtain ⟨i, hi, e⟩ := List.mem_map.mp hmem
        obtain ⟨h1, h2, h3⟩ := gsvKey_inj ht ht' e
        subst h3
        exact he ⟨h1.symm, h2.symm, mem_upTo.mp hi⟩
  gsvOk := fun t n' k' fs' he => by
    simp only [Memory.clearGsv] at he
    split at he
    · cases he
    · exact h.gsvOk t n' k' fs' he
  static := h.static
  staticOk := h.staticOk

theorem step_rel (env : Env) (p : Parser) (m m' : Memory) (s : Str) (a : Answer) (hr : Rel p m)
    (h : Step env m s a m') : (parseSentence env p s).1 = a ∧ Rel (parseSentence env p s).2 m' := by
  cases h with
  | @single talker own payload _ _ h hm =>
    rw [eval_Single env p talker own payload s h, stationOf_eq]
    exact message_rel env p m talker own payload a m' hr h.noComma.1 h.noComma.2 hm
  | @waits talker own num id chan payload h hn hw =>
    rcases hn with rfl | rfl
    · have hp := hr.part own 2 id chan (.inr rfl)
      have hnone : p.savedFragments.get (partKey own 2 id chan) = none := by
        rw [pendingPart] at hp
        rw [hp]
        cases hm : m.part own id chan with
        | none => rfl
        | some x =>
          have : x.1 ≠ 2 := fun e => hw x.2 (by rw [hm]; exact congrArg some (Prod.ext e rfl))
          simp [partOfMemory, this]
      rw [eval_part1 env p talker own id chan payload s h, joinPart, hnone]
      exact ⟨rfl, rel_wait hr own 1 2 id chan payload (.inl ⟨rfl, rfl⟩) h.noComma.2⟩
    · have hp := hr.part own 1 id chan (.inl rfl)
      have hnone : p.savedFragments.get (partKey own 1 id chan) = none := by
        rw [pendingPart] at hp
        rw [hp]
        cases hm : m.part own id chan with
        | none => rfl
        | some x =>
          have : x.1 ≠ 1 := fun e => hw x.2 (by rw [hm]; exact congrArg some (Prod.ext e rfl))
          simp [partOfMemory, this]
      rw [eval_part2 env p talker own id chan payload s h, joinPart, hnone]
      exact ⟨rfl, rel_wait hr own 2 1 id chan payload (.inr ⟨rfl, rfl⟩) h.noComma.2⟩
  | @first talker own id chan x y _ _ h hw hm =>
    have hp := hr.part own 2 id chan (.inr rfl)
    rw [hw, pendingPart] at hp
    have hr' := rel_erase hr own 2 id chan y (.inr rfl) hw
    have hc : ',' ∉ x ++ y := fun e => (List.mem_append.mp e).elim h.noComma.2 (hr.partOk _ _ _ _ hw)
    rw [eval_part1 env p talker own id chan x s h, joinPart, hp]
    exact message_rel env _ _ talker own (x ++ y) a m' hr' h.noComma.1 hc hm
  | @second talker own id chan x y _ _ h hw hm =>
    have hp := hr.part own 1 id chan (.inl rfl)
    rw [hw, pendingPart] at hp
    have hr' := rel_erase hr own 1 id chan x (.inl rfl) hw
    have hc : ',' ∉ x ++ y := fun e => (List.mem_append.mp e).elim (hr.partOk _ _ _ _ hw) h.noComma.2
    rw [eval_part2 env p talker own id chan y s h, joinPart, hp]
    exact message_rel env _ _ talker own (x ++ y) a m' hr' h.noComma.1 hc hm
  | @gsvWaits talker n k fs h hn hw =>
    obtain ⟨j, h1, h2, h3, h4⟩ := hw
    have ht : Talker talker := h.1.1
    have hr' := pushGsv_rel hr talker n k fs ht h.1.2.1
    rw [eval_gsv env p talker n k fs s h, gsvStep, if_neg (by omega), if_neg]
    · exact ⟨rfl, hr'⟩
    · intro hall
      have := hall j (mem_upTo.mpr ⟨h1, h2⟩)
      rw [show join (tag '$' talker (c! "GSV")) fs = gsvBody talker fs from rfl, hr'.gsv talker n j ht.2] at this
      simp only [Memory.setGsv] at this
      rw [if_neg (fun e => h3 e.2.2), h4] at this
      cases this
  | @gsvDone talker n k fs h hn hw =>
    have ht : Talker talker := h.1.1
    have hr' := pushGsv_rel hr talker n k fs ht h.1.2.1
    have hsome : ∀ j, 1 ≤ j → j ≤ n → ∃ f, (m.setGsv talker n k fs).gsv talker n j = some f := by
      intro j h1 h2
      simp only [Memory.setGsv]
      by_cases hj : j = k
      · exact ⟨fs, by simp [hj]⟩
      · rw [if_neg (fun e => hj e.2.2)]
        exact Option.ne_none_iff_exists'.mp (hw j h1 h2 hj)
    rw [eval_gsv env p talker n k fs s h, gsvStep, if_neg (by omega), if_pos]
    · refine ⟨?_, clearGsv_rel hr' talker n ht.2⟩
      refine congrArg (fun l => Out.ok (ParsedSentence.gsv l)) (List.flatMap_congr (fun j hj => ?_))
      obtain ⟨h1, h2⟩ := mem_upTo.mp hj
      obtain ⟨f, hf⟩ := hsome j h1 h2
      rw [show join (tag '$' talker (c! "GSV")) fs = gsvBody talker fs from rfl, hr'.gsv talker n j ht.2, hf]
      exact gsvSats_eq _ _ _ ht (hr'.gsvOk _ _ _ _ hf).2
    · intro j hj
      obtain ⟨h1, h2⟩ := mem_upTo.mp hj
      obtain ⟨f, hf⟩ := hsome j h1 h2
      rw [show join (tag '$' talker (c! "GSV")) fs = gsvBody talker fs from rfl, hr'.gsv talker n j ht.2, hf]
      rfl
  | @gsvHuge talker k fs h =>
    rw [eval_gsv env p talker _ k fs s h, gsvStep, if_pos rfl]
    exact ⟨rfl, pushGsv_rel hr talker _ k fs h.1.1 h.1.2.1⟩
  | other h =>
    rw [eval_alone env p s h]
    exact ⟨rfl, hr⟩

/-! ### Totality -/

theorem message_total (env : Env) (m : Memory) (talker : Str) (own : Bool) (payload : Str) :
    ∃ a m', Message env m talker own payload a m' := by
  by_cases h : IsStaticPart env payload
  · cases hm : m.static (mmsiOf (payloadBits payload)) with
    | none => exact ⟨_, _, .first h hm⟩
    | some x => exact ⟨_, _, .second x.1 x.2 h hm⟩
  · exact ⟨_, _, .plain h⟩

theorem step_total (env : Env) (m : Memory) (s : Str) : ∃ a m', Step env m s a m' := by
  by_cases hu : UsesMemory s
  · rcases hu with ⟨talker, own, payload, h⟩ | ⟨talker, own, num, id, chan, payload, h, hn⟩ | ⟨talker, n, k, fs, h⟩
    · obtain ⟨a, m', hm⟩ := message_total env m talker own payload
      exact ⟨a, m', .single h hm⟩
    · by_cases hw : ∃ x, m.part own id chan = some (3 - num, x)
      · obtain ⟨x, hw⟩ := hw
        rcases hn with rfl | rfl
        · obtain ⟨a, m', hm⟩ := message_total env (m.setPart own id chan none) talker own (payload ++ x)
          exact ⟨a, m', .first h hw hm⟩
        · obtain ⟨a, m', hm⟩ := message_total env (m.setPart own id chan none) talker own (x ++ payload)
          exact ⟨a, m', .second h hw hm⟩
      · exact ⟨_, _, .waits h hn (fun x hx => hw ⟨x, hx⟩)⟩
    · by_cases hmax : n = 2 ^ 32 - 1
      · subst hmax
        exact ⟨_, _, .gsvHuge h⟩
      · have hle := h.2.1.le
        by_cases hw : ∃ j, 1 ≤ j ∧ j ≤ n ∧ j ≠ k ∧ m.gsv talker n j = none
        · exact ⟨_, _, .gsvWaits h (by omega) hw⟩
        · exact ⟨_, _, .gsvDone h (by omega) (fun j h1 h2 h3 h4 => hw ⟨j, h1, h2, h3, h4⟩)⟩
  · exact ⟨_, _, .other hu⟩

theorem trace_total (m : Memory) (h : List (Env × Str)) : ∃ as m', Trace m h as m' := by
  induction h generalizing m with
  | nil => exact ⟨_, _, .nil m⟩
  | cons x h ih =>
    obtain ⟨a, m1, h1⟩ := step_total x.1 m x.2
    obtain ⟨as, m', h2⟩ := ih m1
    exact ⟨_, _, .cons h1 h2⟩

theorem trace_rel (p : Parser) (m m' : Memory) (h : List (Env × Str)) (as : List Answer) (hr : Rel p m)
    (ht : Trace m h as m') : answers p h = as ∧ Rel (run p h) m' := by
  induction ht generalizing p with
  | nil m => exact ⟨rfl, hr⟩
  | cons h1 _ ih =>
    obtain ⟨e1, r1⟩ := step_rel _ _ _ _ _ _ hr h1
    obtain ⟨e2, r2⟩ := ih _ r1
    exact ⟨by rw [answers, e1, e2], r2⟩

end Nmea
