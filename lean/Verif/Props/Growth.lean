/-
C13, C15, C16: which sentences add pending data.
-/
import Verif.Props.Fragments
import Verif.Props.Gsv

namespace Nmea
open Spec

theorem t24Store_done (v : VesselStaticData) (p : Parser) (h : (t24Store v p).1 ≠ .ok .incomplete) :
    (t24Store v p).2.savedVsds = p.savedVsds.erase v.mmsi := by
  simp only [t24Store, Parser.pullVsd] at h ⊢
  cases hv : p.savedVsds.get v.mmsi with
  | none => rw [hv] at h; exact absurd rfl h
  | some v2 => simp only []; split <;> rfl

theorem complete_done_static (env : Env) (own : Bool) (st : Station) (payload : Str) (p : Parser)
    (h : (complete env own st payload p).1 ≠ .ok .incomplete) (m : Nat) (v : VesselStaticData)
    (hv : (complete env own st payload p).2.savedVsds.get m = some v) : p.savedVsds.get m = some v := by
  simp only [complete] at h hv
  cases hp : parsePayload env.overflowChecks payload with
  | err e => rw [hp] at hv; exact hv
  | panic => rw [hp] at hv; exact hv
  | ok bv =>
    rw [hp] at h hv
    simp only [] at h hv
    by_cases ht : pickU64 bv 0 6 = 24
    · have eq : dispatchAis env ('!' :: aisKind own) bv st own p = handleT24 bv st p own := by
        simp only [dispatchAis, ht]
      rw [eq] at h hv
      have key : ∀ w, (t24Store w p).1 ≠ .ok .incomplete → (t24Store w p).2.savedVsds.get m = some v →
          p.savedVsds.get m = some v := by
        intro w h hv
        rw [t24Store_done w p h, KV.get_erase] at hv
        split at hv
        · cases hv
        · exact hv
      simp only [handleT24] at h hv
      split at h
      · rename_i h0
        rw [h0] at hv
        obtain ⟨w, hw, -⟩ := t24Fields_eq bv own true false
        rw [hw] at h hv
        exact key w h hv
      · rename_i h0
        rw [h0] at hv
        obtain ⟨w, hw, -⟩ := t24Fields_eq bv own false true
        rw [hw] at h hv
        exact key w h hv
      · split at hv <;> simp_all
    · rw [dispatchAis_state _ _ _ _ _ p ht] at hv
      exact hv

/-- C13: only a sentence that is answered with Incomplete, or a GSV sentence whose number is not one of its group (or whose
count is the largest), adds pending data: otherwise whatever is pending afterwards was pending before with the same content. -/
theorem C13_only_incomplete_adds (env : Env) (p : Parser) (s : Str) (h : (parseSentence env p s).1 ≠ .ok .incomplete)
    (hg : ∀ talker n k fs, GsvPart talker n k fs s → n < 2 ^ 32 - 1 ∧ 1 ≤ k ∧ k ≤ n) :
    (∀ k v, (parseSentence env p s).2.savedFragments.get k = some v → p.savedFragments.get k = some v) ∧
    (∀ m v, pendingStatic (parseSentence env p s).2 m = some v → pendingStatic p m = some v) := by
  have part : ∀ own st mine other pl comb, (joinPart env p own st mine other pl comb).1 ≠ .ok .incomplete →
      (∀ k v, (joinPart env p own st mine other pl comb).2.savedFragments.get k = some v →
        p.savedFragments.get k = some v) ∧
      (∀ m v, pendingStatic (joinPart env p own st mine other pl comb).2 m = some v →
        pendingStatic p m = some v) := by
    intro own st mine other pl comb h
    unfold joinPart at h ⊢
    cases ho : p.savedFragments.get other with
    | none => rw [ho] at h; exact absurd rfl h
    | some b =>
      rw [ho] at h
      simp only [] at h ⊢
      refine ⟨fun k v hk => ?_, fun m v hm => ?_⟩
      · rw [complete_frags, KV.get_erase] at hk
        split at hk
        · cases hk
        · exact hk
      · exact complete_done_static _ _ _ _ _ h m v hm
  cases call_case env p s with
  | plain hp => rw [hp]; exact ⟨fun _ _ h => h, fun _ _ h => h⟩
  | gsv talker n k fs hs =>
    obtain ⟨hn, h1, h2⟩ := hg _ _ _ _ hs
    rw [eval_gsv env p talker n k fs s hs] at h ⊢
    unfold gsvStep at h ⊢
    rw [if_neg (by omega)] at h ⊢
    split at h
    · rename_i hd
      rw [if_pos hd]
      refine ⟨fun key v hk => ?_, fun _ _ h => h⟩
      simp only [KV.get_eraseAll] at hk
      split at hk
      · cases hk
      · rename_i hm
        rwa [KV.get_insert, if_neg] at hk
        rintro rfl
        exact hm (List.mem_map.2 ⟨k, mem_upTo.2 ⟨h1, h2⟩, rfl⟩)
    · exact absurd rfl h
  | ais talker own fs hs hc =>
    cases hc with
    | bad m _ hp => rw [hp]; exact ⟨fun _ _ h => h, fun _ _ h => h⟩
    | odd n _ _ _ hp => rw [hp] at h; exact absurd rfl h
    | single pl _ _ hp =>
      rw [hp] at h ⊢
      rw [complete_frags]
      exact ⟨fun _ _ h => h, fun m v hm => complete_done_static _ _ _ _ _ h m v hm⟩
    | part1 id _ hp => rw [hp] at h ⊢; exact part _ _ _ _ _ _ h
    | part2 id _ hp => rw [hp] at h ⊢; exact part _ _ _ _ _ _ h

/-- A message in two parts that is reported: one entry is pending before, none afterwards. -/
example : (parseSentence demoEnv (run Parser.new [(demoEnv, c! "!AIVDM,2,1,7,B,:5MlU41,0")]) (c! "!AIVDM,2,2,7,B,GMK6@,0")).1 ≠
      .ok .incomplete ∧
    (∀ talker n k fs, GsvPart talker n k fs (c! "!AIVDM,2,2,7,B,GMK6@,0") → n < 2 ^ 32 - 1 ∧ 1 ≤ k ∧ k ≤ n) ∧
    pendingCount (run Parser.new [(demoEnv, c! "!AIVDM,2,1,7,B,:5MlU41,0")]) = 1 ∧
    pendingCount (run Parser.new [(demoEnv, c! "!AIVDM,2,1,7,B,:5MlU41,0"), (demoEnv, c! "!AIVDM,2,2,7,B,GMK6@,0")]) = 0 := by
  refine ⟨by decide +kernel, ?_, by decide +kernel, by decide +kernel⟩
  rintro talker n k fs ⟨⟨-, -, -, e, -, h⟩, -⟩
  cases e <;> cases h

/-- The condition on GSV sentences is needed: this one is answered with a report and stays. -/
theorem C13_gsv_counterexample :
    (parseSentence demoEnv Parser.new (c! "$GPGSV,0,1,00")).1 = .ok (.gsv []) ∧
    pendingGsv (parseSentence demoEnv Parser.new (c! "$GPGSV,0,1,00")).2 (c! "GP") 0 1 ≠ none := by decide +kernel

end Nmea
