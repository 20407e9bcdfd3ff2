/-
Evaluation of GSV sentences.
-/
import Verif.Lemmas.Pending

namespace Nmea
open Spec

namespace KV
variable {K V : Type} [DecidableEq K]

/-- Erase several keys. -/
def eraseAll (m : KV K V) (ks : List K) : KV K V := ks.foldl KV.erase m

theorem get_eraseAll (m : KV K V) (ks : List K) (k : K) :
    (m.eraseAll ks).get k = if k ∈ ks then none else m.get k := by
  induction ks generalizing m with
  | nil => simp [eraseAll]
  | cons x ks ih =>
    have : m.eraseAll (x :: ks) = (m.erase x).eraseAll ks := rfl
    rw [this, ih, get_erase]
    by_cases h1 : k ∈ ks
    · simp [h1]
    · by_cases h2 : k = x
      · simp [h2]
      · simp [h1, h2]

theorem size_eraseAll_le (m : KV K V) (ks : List K) : (m.eraseAll ks).size ≤ m.size := by
  induction ks generalizing m with
  | nil => exact Nat.le_refl _
  | cons x ks ih => exact Nat.le_trans (ih (m.erase x)) (size_erase_le m x)

end KV

/-- Satellites of the stored sentence, if there is one. -/
def satsOpt (nav : NavigationSystem) (o : Option Str) : List GsvData :=
  match o with
  | some s => gsvSats nav s
  | none => []

theorem gsvFound_le (p : Parser) (t : Str) (n : Nat) (is : List Nat) : gsvFound p t n is ≤ is.length := by
  induction is with
  | nil => simp [gsvFound]
  | cons i is ih => simp only [gsvFound, List.length_cons]; split <;> omega

theorem gsvFound_eq (p : Parser) (talker : Str) (n : Nat) (is : List Nat) :
    gsvFound p (tag '$' talker (c! "GSV")) n is = is.length ↔
      ∀ i ∈ is, (pendingGsv p talker n i).isSome := by
  induction is with
  | nil => simp [gsvFound]
  | cons i is ih =>
    have hle := gsvFound_le p (tag '$' talker (c! "GSV")) n is
    rw [List.forall_mem_cons, ← ih]
    simp only [gsvFound, Parser.containsKey, makeGsvKey_eq, List.length_cons, pendingGsv]
    cases hk : (p.savedFragments.get (gsvKey talker n i)).isSome
    · simp only [Bool.false_eq_true, if_false, false_and, iff_false]; omega
    · simp only [if_true, true_and]; omega

theorem gsvCollect_eq (nav : NavigationSystem) (talker : Str) (ht : ',' ∉ talker) (n : Nat) (is : List Nat)
    (hn : is.Nodup) (p : Parser) :
    gsvCollect nav (tag '$' talker (c! "GSV")) n is p =
      (is.flatMap (fun i => satsOpt nav (pendingGsv p talker n i)),
       { p with savedFragments := p.savedFragments.eraseAll (is.map (gsvKey talker n)) }) := by
  induction is generalizing p with
  | nil => rfl
  | cons i is ih =>
    rw [List.nodup_cons] at hn
    have key : ∀ j ∈ is, pendingGsv { p with savedFragments := p.savedFragments.erase (gsvKey talker n i) }
        talker n j = pendingGsv p talker n j := by
      intro j hj
      refine KV.get_erase_ne _ _ _ (fun h => ?_)
      obtain ⟨-, -, rfl⟩ := gsvKey_inj ht ht h
      exact hn.1 hj
    have fm : is.flatMap (fun j => satsOpt nav (pendingGsv
        { p with savedFragments := p.savedFragments.erase (gsvKey talker n i) } talker n j)) =
        is.flatMap (fun j => satsOpt nav (pendingGsv p talker n j)) := by
      simp only [List.flatMap_def]
      congr 1
      exact List.map_congr_left (fun j hj => by rw [key j hj])
    simp only [gsvCollect, Parser.pullString, makeGsvKey_eq, List.flatMap_cons, List.map_cons]
    cases hk : p.savedFragments.get (gsvKey talker n i) with
    | none =>
      rw [show pendingGsv p talker n i = none from hk]
      simp only [ih hn.2, fm]
      rfl
    | some s =>
      rw [show pendingGsv p talker n i = some s from hk]
      simp only [ih hn.2, fm]
      rfl

/-- The numbers `1..n`. -/
def upTo (n : Nat) : List Nat := List.range' 1 n

theorem mem_upTo {n i : Nat} : i ∈ upTo n ↔ 1 ≤ i ∧ i ≤ n := by
  simp only [upTo, List.mem_range'_1]; omega

theorem upTo_nodup (n : Nat) : (upTo n).Nodup := List.nodup_range'

/-- What a GSV sentence with count `n` and number `k` does. -/
def gsvStep (oc : Bool) (nav : NavigationSystem) (talker : Str) (n k : Nat) (body : Str) (p : Parser) :
    Out ParseError ParsedSentence × Parser :=
  if n = 2 ^ 32 - 1 then (if oc then .panic else .ok .incomplete, p.pushString (gsvKey talker n k) body)
  else if ∀ i ∈ upTo n, (pendingGsv (p.pushString (gsvKey talker n k) body) talker n i).isSome then
    (.ok (.gsv ((upTo n).flatMap (fun i =>
        satsOpt nav (pendingGsv (p.pushString (gsvKey talker n k) body) talker n i)))),
      { p with savedFragments :=
          (p.savedFragments.insert (gsvKey talker n k) body).eraseAll ((upTo n).map (gsvKey talker n)) })
  else (.ok .incomplete, p.pushString (gsvKey talker n k) body)

/-- How a GSV sentence is evaluated. -/
inductive GsvCase (env : Env) (p : Parser) (talker : Str) (fs : List Str) (s : Str) : Prop where
  | bad (m : Str) (hf : (∀ n, ¬ Num0 (2 ^ 32 - 1) (field fs 0) n) ∨ ∀ n, ¬ Num0 (2 ^ 32 - 1) (field fs 1) n)
      (h : parseSentence env p s = (.err (.invalidSentence m), p))
  | part (n k : Nat) (hp : GsvPart talker n k fs s)
      (h : parseSentence env p s = gsvStep env.overflowChecks (talkerSystem talker) talker n k
        (join (tag '$' talker (c! "GSV")) fs) p)

theorem numField_u32 (sp : List Str) (i : Nat) :
    (∃ m, numField parseU32 sp i = .err (.invalidSentence m) ∧
      ∀ n, ¬ Num0 (2 ^ 32 - 1) (fieldAt sp i) n) ∨
    (∃ o, numField parseU32 sp i = .ok o ∧ Num0 (2 ^ 32 - 1) (fieldAt sp i) (o.getD 0)) := by
  simp only [numField, pickNumberField]
  by_cases h : fieldAt sp i = []
  · rw [if_neg (by simpa using h)]
    exact .inr ⟨none, rfl, .inl ⟨h, rfl⟩⟩
  · rw [if_pos h]
    cases hp : parseU32 (fieldAt sp i) with
    | some n => exact .inr ⟨some n, rfl, .inr ((parseU32_iff _ _).mp hp)⟩
    | none =>
      refine .inl ⟨_, rfl, fun n hn => ?_⟩
      rcases hn with ⟨h', -⟩ | hn
      · exact h h'
      · rw [(parseU32_iff _ _).mpr hn] at hp; cases hp

theorem Spec.Num0.unique {max : Nat} {s : Str} {n m : Nat} (h : Num0 max s n) (h' : Num0 max s m) : n = m := by
  rcases h with ⟨rfl, rfl⟩ | h <;> rcases h' with ⟨h1, rfl⟩ | h'
  · rfl
  · exact absurd rfl h'.ne_nil
  · exact absurd h1 h.ne_nil
  · exact h.unique h'

theorem Spec.Num0.le {max : Nat} {s : Str} {n : Nat} (h : Num0 max s n) : n ≤ max := by
  rcases h with ⟨-, rfl⟩ | ⟨_, _, _, _, h⟩
  · omega
  · exact h

theorem gsv_case (env : Env) (p : Parser) (talker : Str) (fs : List Str) (s : Str)
    (hs : IsGnss talker (c! "GSV") fs s) : GsvCase env p talker fs s := by
  have hsp := splitChar_tag '$' talker (c! "GSV") fs (by decide) hs.1 (by decide) hs.2.1
  have he : parseSentence env p s =
      handleGsv env.overflowChecks (join (tag '$' talker (c! "GSV")) fs) (talkerSystem talker) p := by
    cases eval_gnss env p talker _ fs s (by decide) (by decide) hs with
    | gsv _ h => exact h
    | gga hk _ => exact absurd hk (by decide)
    | rmc hk _ => exact absurd hk (by decide)
    | gsa hk _ => exact absurd hk (by decide)
    | vtg hk _ => exact absurd hk (by decide)
    | gll hk _ => exact absurd hk (by decide)
    | other hk _ => exact absurd (by simp [gnssKinds]) hk
  simp only [handleGsv, hsp, fieldAt_zero] at he
  rcases numField_u32 (tag '$' talker (c! "GSV") :: fs) 1 with ⟨m, h1, hn⟩ | ⟨o, h1, hn⟩
  · rw [h1] at he
    exact .bad m (.inl hn) he
  rw [h1] at he
  simp only [] at he
  rcases numField_u32 (tag '$' talker (c! "GSV") :: fs) 2 with ⟨m, h2, hk⟩ | ⟨o2, h2, hk⟩
  · rw [h2] at he
    exact .bad m (.inr hk) he
  rw [h2] at he
  simp only [] at he
  rw [fieldAt_cons_succ] at hn hk
  refine .part (o.getD 0) (o2.getD 0) ⟨hs, hn, hk⟩ ?_
  rw [he]
  generalize o.getD 0 = n at *
  generalize o2.getD 0 = k at *
  have hle := hn.le
  have ht : ',' ∉ talker := hs.1.2
  simp only [gsvStep, makeGsvKey_eq]
  by_cases hmax : n = 2 ^ 32 - 1
  · subst hmax
    rw [if_pos rfl]
    cases env.overflowChecks with
    | true => simp
    | false =>
      rw [if_neg (by simp), if_neg]
      · simp
      · simp [asU32, gsvFound]
  · rw [if_neg hmax, if_neg (by omega)]
    have hidx : asU32 (n + 1) - 1 = n := by unfold asU32; omega
    have hlen : (upTo n).length = n := by simp [upTo]
    rw [hidx, show List.range' 1 n = upTo n from rfl]
    have hf := gsvFound_eq (p.pushString (gsvKey talker n k) (join (tag '$' talker (c! "GSV")) fs)) talker n
      (upTo n)
    rw [hlen] at hf
    by_cases hall : ∀ i ∈ upTo n,
        (pendingGsv (p.pushString (gsvKey talker n k) (join (tag '$' talker (c! "GSV")) fs)) talker n i).isSome
    · rw [if_pos (hf.mpr hall), if_pos hall, gsvCollect_eq _ _ ht _ _ (upTo_nodup n)]
      rfl
    · rw [if_neg (fun h => hall (hf.mp h)), if_neg hall]

theorem Spec.IsGnss.unique {t t' : Str} {k : Str} {fs fs' : List Str} {s : Str} (hk : ',' ∉ k)
    (h : IsGnss t k fs s) (h' : IsGnss t' k fs' s) : t = t' ∧ fs = fs' := by
  obtain ⟨-, h1, -, h2⟩ := IsTagged.unique h h' (by decide) (by decide) hk hk
  exact ⟨h1, h2⟩

theorem Spec.GsvPart.unique {t t' : Str} {n n' k k' : Nat} {fs fs' : List Str} {s : Str}
    (h : GsvPart t n k fs s) (h' : GsvPart t' n' k' fs' s) : t = t' ∧ n = n' ∧ k = k' ∧ fs = fs' := by
  obtain ⟨rfl, rfl⟩ := IsGnss.unique (by decide) h.1 h'.1
  exact ⟨rfl, h.2.1.unique h'.2.1, h.2.2.unique h'.2.2, rfl⟩

theorem eval_gsv (env : Env) (p : Parser) (talker : Str) (n k : Nat) (fs : List Str) (s : Str)
    (hs : GsvPart talker n k fs s) :
    parseSentence env p s = gsvStep env.overflowChecks (talkerSystem talker) talker n k
        (join (tag '$' talker (c! "GSV")) fs) p := by
  cases gsv_case env p talker fs s hs.1 with
  | bad m hf h =>
    rcases hf with hf | hf
    · exact absurd hs.2.1 (hf _)
    · exact absurd hs.2.2 (hf _)
  | part n' k' hp h =>
    obtain ⟨-, rfl, rfl, -⟩ := hp.unique hs
    exact h

theorem gsvStep_vsds (oc : Bool) (nav : NavigationSystem) (talker : Str) (n k : Nat) (body : Str)
    (p : Parser) : (gsvStep oc nav talker n k body p).2.savedVsds = p.savedVsds := by
  unfold gsvStep
  split
  · rfl
  · split <;> rfl

theorem gsvStep_frame (oc : Bool) (nav : NavigationSystem) (talker : Str) (n k : Nat) (body : Str)
    (p : Parser) (key : Str) (h : ∀ i, key ≠ gsvKey talker n i) :
    (gsvStep oc nav talker n k body p).2.savedFragments.get key = p.savedFragments.get key := by
  have h1 := KV.get_insert_ne p.savedFragments (gsvKey talker n k) key body (h k)
  unfold gsvStep
  split
  · exact h1
  · split
    · rw [KV.get_eraseAll, if_neg, h1]
      simp only [List.mem_map, not_exists, not_and]
      exact fun i _ hi => h i hi.symm
    · exact h1

end Nmea
