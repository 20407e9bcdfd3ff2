/-
Groups of GSV sentences.
-/
import Verif.Lemmas.Frame
import Verif.Spec.Gsv

namespace Nmea
open Spec

/-! ### Contents -/

theorem readDec_iff (max : Nat) (s : Str) (n : Nat) : readDec max s = some n ↔ Dec max s n := by
  unfold readDec
  constructor
  · intro h
    by_cases hc : dropPlus s ≠ [] ∧ (∀ c ∈ dropPlus s, c ∈ c! "0123456789") ∧ decValue (dropPlus s) ≤ max
    · rw [if_pos hc] at h
      obtain rfl := Option.some.inj h
      refine ⟨dropPlus s, ?_, ⟨hc.1, hc.2.1⟩, rfl, hc.2.2⟩
      unfold dropPlus
      split
      · rename_i hp
        cases s with
        | nil => cases hp
        | cons c cs => simp at hp; simp [hp]
      · exact .inl rfl
    · rw [if_neg hc] at h; cases h
  · rintro ⟨ds, (rfl | rfl), ⟨h1, h2⟩, rfl, h3⟩
    · have : dropPlus s = s := by
        unfold dropPlus
        refine if_neg (fun hp => ?_)
        cases s with
        | nil => cases hp
        | cons c cs =>
          simp at hp
          exact absurd (h2 c (by simp)) (by rw [hp]; exact plus_not_digit)
      rw [this, if_pos ⟨h1, h2, h3⟩]
    · have : dropPlus ('+' :: ds) = ds := rfl
      rw [this, if_pos ⟨h1, h2, h3⟩]

theorem parseUInt_readDec (max : Nat) (s : Str) : parseUInt max s = readDec max s := by
  cases h : parseUInt max s with
  | some n => exact ((readDec_iff max s n).mpr ((parseUInt_iff max s n).mp h)).symm
  | none =>
    cases h' : readDec max s with
    | none => rfl
    | some n =>
      rw [(parseUInt_iff max s n).mpr ((readDec_iff max s n).mp h')] at h
      cases h

theorem numFieldOrNone_uint (max : Nat) (sp : List Str) (i : Nat) :
    numFieldOrNone (parseUInt max) sp i = readDec max (fieldAt sp i) := by
  simp only [numFieldOrNone, pickNumberField]
  by_cases h : fieldAt sp i = []
  · rw [if_neg (by simpa using h), h]; rfl
  · rw [if_pos h, ← parseUInt_readDec]
    cases parseUInt max (fieldAt sp i) <;> rfl

theorem gsvSats_eq (nav : NavigationSystem) (talker : Str) (fs : List Str) (ht : Talker talker)
    (hf : CommaFree fs) : gsvSats nav (join (tag '$' talker (c! "GSV")) fs) = satellites nav fs := by
  have hsp := splitChar_tag '$' talker (c! "GSV") fs (by decide) ht (by decide) hf
  simp only [gsvSats, hsp, satellites]
  rw [show List.range 4 = [0, 1, 2, 3] from rfl]
  refine List.filterMap_congr (fun j _ => ?_)
  have e : ∀ k, fieldAt (tag '$' talker (c! "GSV") :: fs) (4 + 4 * j + k) = field fs (3 + 4 * j + k) := by
    intro k
    rw [← fieldAt_cons_succ (tag '$' talker (c! "GSV")), show 3 + 4 * j + k + 1 = 4 + 4 * j + k by omega]
  simp only [parseU8, parseU16, numFieldOrNone_uint, e, satellite]
  rw [show 3 + 4 * j + 1 = 4 + 4 * j by omega, show 3 + 4 * j + 2 = 5 + 4 * j by omega,
    show 3 + 4 * j + 3 = 6 + 4 * j by omega]
  rfl

/-! ### Groups -/

theorem latest_concat (l : List (Nat × List Str)) (k i : Nat) (fs : List Str) :
    latest (l ++ [(k, fs)]) i = if i = k then some fs else latest l i := by
  simp only [latest, List.reverse_append, List.reverse_cons, List.reverse_nil, List.nil_append,
    List.singleton_append, List.lookup_cons]
  by_cases h : i = k
  · simp [h]
  · rw [if_neg h]
    have : (i == k) = false := by simpa using h
    rw [this]

theorem latest_isSome (l : List (Nat × List Str)) (k : Nat) : (latest l k).isSome ↔ Received l k := by
  have : ∀ l : List (Nat × List Str), (l.lookup k).isSome ↔ k ∈ l.map (·.1) := by
    intro l
    induction l with
    | nil => simp
    | cons x l ih =>
      rw [List.lookup_cons]
      by_cases h : k = x.1
      · simp [h]
      · have hb : (k == x.1) = false := by simpa using h
        rw [hb, ih]
        simp [h]
  rw [latest, this]
  simp [Received]

/-- The stored text of a GSV sentence. -/
def gsvBody (talker : Str) (fs : List Str) : Str := join (tag '$' talker (c! "GSV")) fs

theorem gsv_frame (env : Env) (p : Parser) (s : Str) (talker : Str) (ht : ',' ∉ talker) (n i : Nat)
    (h : ∀ k fs, ¬ GsvPart talker n k fs s) :
    pendingGsv (parseSentence env p s).2 talker n i = pendingGsv p talker n i := by
  refine frags_frame env p s _ ?_
  rintro (⟨_, _, _, _, _, _, -, -, hk | hk⟩ | ⟨t, n', k', fs, hg, j, hj⟩)
  · exact partKey_ne_gsvKey _ _ _ _ _ _ _ hk.symm
  · exact partKey_ne_gsvKey _ _ _ _ _ _ _ hk.symm
  · obtain ⟨rfl, rfl, -⟩ := gsvKey_inj ht hg.1.1.2 hj
    exact h _ _ hg

/-- A sentence of the group that does not complete it. -/
theorem gsv_wait (env : Env) (p : Parser) (s : Str) (talker : Str) (n k : Nat) (fs : List Str)
    (hs : GsvPart talker n k fs s) (hn : n < 2 ^ 32 - 1) (j : Nat) (hj : 1 ≤ j ∧ j ≤ n) (hjk : j ≠ k)
    (hp : pendingGsv p talker n j = none) :
    (parseSentence env p s).1 = .ok .incomplete ∧
    ∀ i, pendingGsv (parseSentence env p s).2 talker n i =
      if i = k then some (gsvBody talker fs) else pendingGsv p talker n i := by
  have ht : ',' ∉ talker := hs.1.1.2
  have key : ∀ i, pendingGsv (p.pushString (gsvKey talker n k) (gsvBody talker fs)) talker n i =
      if i = k then some (gsvBody talker fs) else pendingGsv p talker n i := by
    intro i
    simp only [pendingGsv, Parser.pushString, KV.get_insert]
    by_cases h : i = k
    · simp [h]
    · rw [if_neg h, if_neg]
      exact fun hk => h (gsvKey_inj ht ht hk).2.2
  rw [eval_gsv env p talker n k fs s hs]
  unfold gsvStep
  rw [if_neg (by omega), if_neg]
  · exact ⟨rfl, key⟩
  · intro hall
    have := hall j (mem_upTo.mpr hj)
    rw [show join (tag '$' talker (c! "GSV")) fs = gsvBody talker fs from rfl, key, if_neg hjk, hp] at this
    cases this

/-- A sentence that completes the group. -/
theorem gsv_done (env : Env) (p : Parser) (s : Str) (talker : Str) (n k : Nat) (fs : List Str)
    (hs : GsvPart talker n k fs s) (hn : n < 2 ^ 32 - 1)
    (hp : ∀ j, 1 ≤ j → j ≤ n → j ≠ k → pendingGsv p talker n j ≠ none) :
    (parseSentence env p s).1 = .ok (.gsv ((List.range' 1 n).flatMap (fun i =>
      satsOpt (talkerSystem talker) (if i = k then some (gsvBody talker fs) else pendingGsv p talker n i)))) ∧
    (∀ i, 1 ≤ i → i ≤ n → pendingGsv (parseSentence env p s).2 talker n i = none) := by
  have ht : ',' ∉ talker := hs.1.1.2
  have key : ∀ i, pendingGsv (p.pushString (gsvKey talker n k) (gsvBody talker fs)) talker n i =
      if i = k then some (gsvBody talker fs) else pendingGsv p talker n i := by
    intro i
    simp only [pendingGsv, Parser.pushString, KV.get_insert]
    by_cases h : i = k
    · simp [h]
    · rw [if_neg h, if_neg]
      exact fun hk => h (gsvKey_inj ht ht hk).2.2
  rw [eval_gsv env p talker n k fs s hs]
  unfold gsvStep
  rw [if_neg (by omega), if_pos]
  · refine ⟨?_, fun i h1 h2 => ?_⟩
    · simp only [show join (tag '$' talker (c! "GSV")) fs = gsvBody talker fs from rfl, key]
      rfl
    · simp only [pendingGsv]
      rw [KV.get_eraseAll, if_pos]
      exact List.mem_map.mpr ⟨i, mem_upTo.mpr ⟨h1, h2⟩, rfl⟩
  · intro i hi
    obtain ⟨h1, h2⟩ := mem_upTo.mp hi
    rw [show join (tag '$' talker (c! "GSV")) fs = gsvBody talker fs from rfl, key]
    split
    · rfl
    · rename_i h
      exact Option.isSome_iff_ne_none.mpr (hp i h1 h2 h)

/-- The pending sentences of a group are the latest ones, as long as one is missing. -/
theorem trace_pending (talker : Str) (ht : ',' ∉ talker) (n : Nat) (hn : n < 2 ^ 32 - 1)
    (h : List (Env × Str)) (l l0 : List (Nat × List Str)) (htr : GroupTrace talker n h l) (p : Parser)
    (hp : ∀ k, 1 ≤ k → k ≤ n → pendingGsv p talker n k = (latest l0 k).map (gsvBody talker))
    (j : Nat) (hj : 1 ≤ j ∧ j ≤ n) (hmiss : ¬ Received (l0 ++ l) j) :
    ∀ k, 1 ≤ k → k ≤ n → pendingGsv (run p h) talker n k = (latest (l0 ++ l) k).map (gsvBody talker) := by
  induction htr generalizing p l0 with
  | nil => simpa [run] using hp
  | other hs htr ih =>
    rw [run]
    refine ih l0 _ (fun k h1 h2 => ?_) hmiss
    rw [gsv_frame _ _ _ _ ht _ _ hs]
    exact hp k h1 h2
  | @part e s k fs h l hs htr ih =>
    rw [run]
    rw [show l0 ++ (k, fs) :: l = (l0 ++ [(k, fs)]) ++ l by simp] at hmiss ⊢
    refine ih (l0 ++ [(k, fs)]) _ (fun i h1 h2 => ?_) hmiss
    have hjk : j ≠ k := by
      rintro rfl
      exact hmiss (by simp [Received])
    have hj0 : pendingGsv p talker n j = none := by
      rw [hp j hj.1 hj.2]
      have : ¬ (latest l0 j).isSome := by
        rw [latest_isSome]
        intro hr
        exact hmiss (by simp only [Received, List.map_append, List.mem_append] at hr ⊢; exact .inl (.inl hr))
      simpa using this
    rw [(gsv_wait e p s talker n k fs hs hn j hj hjk hj0).2 i, latest_concat]
    split
    · rfl
    · exact hp i h1 h2

theorem trace_commafree {talker : Str} {n : Nat} {h : List (Env × Str)} {l : List (Nat × List Str)}
    (htr : GroupTrace talker n h l) : ∀ x ∈ l, CommaFree x.2 := by
  induction htr with
  | nil => intro x hx; cases hx
  | other _ _ ih => exact ih
  | part hs _ ih =>
    intro x hx
    rcases List.mem_cons.mp hx with rfl | hx
    · exact hs.1.2.1
    · exact ih x hx

theorem latest_mem {l : List (Nat × List Str)} {k : Nat} {fs : List Str} (h : latest l k = some fs) :
    (k, fs) ∈ l := by
  have : ∀ l : List (Nat × List Str), l.lookup k = some fs → (k, fs) ∈ l := by
    intro l
    induction l with
    | nil => intro h; cases h
    | cons x l ih =>
      intro h
      rw [List.lookup_cons] at h
      by_cases hx : k = x.1
      · rw [show (k == x.1) = true by simpa using hx] at h
        obtain rfl := Option.some.inj h
        rw [hx]
        exact List.mem_cons_self
      · rw [show (k == x.1) = false by simpa using hx] at h
        exact List.mem_cons_of_mem _ (ih h)
  simpa using this _ h

end Nmea
