/-
C106: the pending data are bounded by the number of groups in the traffic.
-/
import Verif.Props.Extensional
import Verif.Props.Panics
import Mathlib.Data.List.Perm.Subperm

namespace Nmea
open Spec

/-- Where an entry of the table of texts comes from. -/
def KeySource (k s : Str) : Prop :=
  (∃ talker own num id chan pl, (num = 1 ∨ num = 2) ∧ Part talker own num id chan pl s ∧ k = partKey own num id chan) ∨
    ∃ talker n i fs, GsvPart talker n i fs s ∧ k = gsvKey talker n i

theorem key_source (env : Env) (p : Parser) (s k b : Str)
    (h : (parseSentence env p s).2.savedFragments.get k = some b) :
    p.savedFragments.get k = some b ∨ KeySource k s := by
  cases call_case env p s with
  | plain h' => rw [h'] at h; exact .inl h
  | gsv talker n i fs hs =>
    by_cases hk : k = gsvKey talker n i
    · exact .inr (.inr ⟨talker, n, i, fs, hs, hk⟩)
    · left
      rw [eval_gsv env p talker n i fs s hs, gsvStep] at h
      have ins := KV.get_insert_ne p.savedFragments (gsvKey talker n i) k (join (tag '$' talker (c! "GSV")) fs) hk
      split at h
      · exact ins ▸ h
      · split at h
        · rw [KV.get_eraseAll] at h
          split at h
          · cases h
          · exact ins ▸ h
        · exact ins ▸ h
  | ais talker own fs hs hc =>
    cases hc with
    | bad m _ h' => rw [h'] at h; exact .inl h
    | odd n _ _ _ h' => rw [h'] at h; exact .inl h
    | single pl _ hp h' => rw [h', complete_frags] at h; exact .inl h
    | part1 id hp h' =>
      rw [h'] at h
      rcases joinPart_source _ _ _ _ _ _ _ _ _ _ h with h | ⟨hk, -⟩
      · exact .inl h
      · exact .inr (.inl ⟨talker, own, 1, id, _, _, .inl rfl, hp, hk⟩)
    | part2 id hp h' =>
      rw [h'] at h
      rcases joinPart_source _ _ _ _ _ _ _ _ _ _ h with h | ⟨hk, -⟩
      · exact .inl h
      · exact .inr (.inl ⟨talker, own, 2, id, _, _, .inr rfl, hp, hk⟩)

theorem key_source_run (h : List (Env × Str)) (k b : Str) (hk : (run Parser.new h).savedFragments.get k = some b) :
    ∃ x ∈ h, KeySource k x.2 := by
  induction h using List.reverseRecOn generalizing b with
  | nil => cases hk
  | append_singleton h x ih =>
    rw [run_append] at hk
    rcases key_source x.1 _ x.2 k b hk with hk | hk
    · obtain ⟨y, hy, hs⟩ := ih b hk
      exact ⟨y, List.mem_append_left _ hy, hs⟩
    · exact ⟨x, by simp, hk⟩

/-- C106: if the parts of two-part messages in a history belong to the groups `G` (kind, message id, channel) and its
GSV sentences have the talkers, counts and numbers in `V`, then at most one text for each element of `G` and `V` is
pending, however long the history is. -/
theorem C106_texts (h : List (Env × Str)) (G : List (Bool × Nat × Str)) (V : List (Str × Nat × Nat))
    (hG : ∀ x ∈ h, ∀ talker own num id chan payload, Part talker own num id chan payload x.2 → (own, id, chan) ∈ G)
    (hV : ∀ x ∈ h, ∀ talker n k fs, GsvPart talker n k fs x.2 → (talker, n, k) ∈ V) :
    (run Parser.new h).stringsCount ≤ G.length + V.length := by
  let p := run Parser.new h
  let f : Bool × Nat × Str → Str := fun g =>
    if (pendingPart p g.1 1 g.2.1 g.2.2).isSome then partKey g.1 1 g.2.1 g.2.2 else partKey g.1 2 g.2.1 g.2.2
  have sub : p.savedFragments.items.map (·.1) ⊆ G.map f ++ V.map (fun v => gsvKey v.1 v.2.1 v.2.2) := by
    intro k hk
    rw [← KV.get_isSome, Option.isSome_iff_exists] at hk
    obtain ⟨b, hb⟩ := hk
    obtain ⟨x, hx, ⟨talker, own, num, id, chan, pl, hn, hp, rfl⟩ | ⟨talker, n, i, fs, hp, rfl⟩⟩ :=
      key_source_run h k b hb
    · refine List.mem_append_left _ (List.mem_map.mpr ⟨(own, id, chan), hG x hx _ _ _ _ _ _ hp, ?_⟩)
      rcases hn with rfl | rfl
      · exact if_pos (by rw [show pendingPart p own 1 id chan = some b from hb]; rfl)
      · refine if_neg ?_
        rcases C21_never_both p ⟨h, rfl⟩ own id chan with h1 | h2
        · simp [h1]
        · rw [show pendingPart p own 2 id chan = some b from hb] at h2
          cases h2
    · exact List.mem_append_right _ (List.mem_map.mpr ⟨(talker, n, i), hV x hx _ _ _ _ hp, rfl⟩)
  have := (List.subperm_of_subset (C103_once_per_key h).1 sub).length_le
  simpa [Parser.stringsCount, KV.size] using this

/-- A history that meets the hypotheses with two groups and one GSV sentence, where the bound is reached. -/
example :
    let h : List (Env × Str) := [(demoEnv, c! "!AIVDM,2,1,5,A,13HOI,0"), (demoEnv, c! "!AIVDM,2,2,5,B,13HOI,0"),
      (demoEnv, c! "$GPGSV,3,1,00"), (demoEnv, c! "!AIVDM,2,1,5,A,1,0"), (demoEnv, c! "$GPGSV,3,1,00")]
    let G := [(false, 5, c! "A"), (false, 5, c! "B")]
    let V := [(c! "GP", 3, 1)]
    (∀ x ∈ h, ∀ talker own num id chan payload, Part talker own num id chan payload x.2 → (own, id, chan) ∈ G) ∧
    (∀ x ∈ h, ∀ talker n k fs, GsvPart talker n k fs x.2 → (talker, n, k) ∈ V) ∧
    (run Parser.new h).stringsCount = G.length + V.length := by
  have p1 : Part (c! "AI") false 1 5 (c! "A") (c! "13HOI") (c! "!AIVDM,2,1,5,A,13HOI,0") :=
    ⟨[c! "2", c! "1", c! "5", c! "A", c! "13HOI", c! "0"], demoTagged .bare (by decide), demoDec (by decide),
      demoDec (by decide), demoDec (by decide), rfl, rfl⟩
  have p2 : Part (c! "AI") false 2 5 (c! "B") (c! "13HOI") (c! "!AIVDM,2,2,5,B,13HOI,0") :=
    ⟨[c! "2", c! "2", c! "5", c! "B", c! "13HOI", c! "0"], demoTagged .bare (by decide), demoDec (by decide),
      demoDec (by decide), demoDec (by decide), rfl, rfl⟩
  have p3 : Part (c! "AI") false 1 5 (c! "A") (c! "1") (c! "!AIVDM,2,1,5,A,1,0") :=
    ⟨[c! "2", c! "1", c! "5", c! "A", c! "1", c! "0"], demoTagged .bare (by decide), demoDec (by decide),
      demoDec (by decide), demoDec (by decide), rfl, rfl⟩
  have g1 : GsvPart (c! "GP") 3 1 [c! "3", c! "1", c! "00"] (c! "$GPGSV,3,1,00") :=
    ⟨demoTagged .bare (by decide), .inr (demoDec (by decide)), .inr (demoDec (by decide))⟩
  have no : ∀ {s t o n i c q t' n' k fs}, Part t o n i c q s → GsvPart t' n' k fs s → False := by
    intro s t o n i c q t' n' k fs hp hg
    obtain ⟨fs', hp, -⟩ := hp
    exact absurd (IsTagged.unique hg.1 hp (by decide) (by decide) (by decide) (aisKind_noComma _)).1 (by decide)
  refine ⟨fun x hx talker own num id chan pl hp => ?_, fun x hx talker n k fs hg => ?_, by decide +kernel⟩
  · simp only [List.mem_cons, List.not_mem_nil, or_false] at hx
    rcases hx with rfl | rfl | rfl | rfl | rfl
    · obtain ⟨-, rfl, -, rfl, rfl, -⟩ := hp.unique p1
      simp
    · obtain ⟨-, rfl, -, rfl, rfl, -⟩ := hp.unique p2
      simp
    · exact (no hp g1).elim
    · obtain ⟨-, rfl, -, rfl, rfl, -⟩ := hp.unique p3
      simp
    · exact (no hp g1).elim
  · simp only [List.mem_cons, List.not_mem_nil, or_false] at hx
    rcases hx with rfl | rfl | rfl | rfl | rfl
    · exact (no p1 hg).elim
    · exact (no p2 hg).elim
    · obtain ⟨rfl, rfl, rfl, -⟩ := hg.unique g1
      simp
    · exact (no p3 hg).elim
    · obtain ⟨rfl, rfl, rfl, -⟩ := hg.unique g1
      simp

/-- C106: if the type 24 messages completed in a history have MMSIs in `M`, at most one static data part for each
element of `M` is pending. -/
theorem C106_static (h : List (Env × Str)) (M : List Nat)
    (hM : ∀ h1 x h2 own bits, h = h1 ++ x :: h2 → Completes24 x.1 (run Parser.new h1) x.2 own bits → mmsiOf bits ∈ M) :
    (run Parser.new h).vsdsCount ≤ M.length := by
  have sub : (run Parser.new h).savedVsds.items.map (·.1) ⊆ M := by
    intro m hm
    rw [← KV.get_isSome, Option.isSome_iff_exists] at hm
    obtain ⟨v, hv⟩ := hm
    obtain ⟨h1, x, h2, own, bits, e, hc, rfl, -⟩ := C80_static h m v hv
    exact hM h1 x h2 own bits e hc
  have := (List.subperm_of_subset (C103_once_per_key h).2 sub).length_le
  simpa [Parser.vsdsCount, KV.size] using this

/-- Any number of repetitions of one type 24 message meets the hypothesis with a single MMSI. -/
example (n : Nat) (h1 : List (Env × Str)) (x : Env × Str) (h2 : List (Env × Str)) (own : Bool) (bits : List Bool)
    (e : List.replicate n (demoEnv, c! "!AIVDM,1,1,,A,H42O55i18tMET00000000000000,2") = h1 ++ x :: h2)
    (hc : Completes24 x.1 (run Parser.new h1) x.2 own bits) : mmsiOf bits ∈ [271041815] := by
  have hx : x = (demoEnv, c! "!AIVDM,1,1,,A,H42O55i18tMET00000000000000,2") :=
    (List.mem_replicate.mp (e ▸ by simp : x ∈ List.replicate n _)).2
  subst hx
  have hs : Single (c! "AI") false (c! "H42O55i18tMET00000000000000") (c! "!AIVDM,1,1,,A,H42O55i18tMET00000000000000,2") :=
    ⟨[c! "1", c! "1", [], c! "A", c! "H42O55i18tMET00000000000000", c! "2"], 1, demoTagged .bare (by decide),
      demoDec (by decide), demoDec (by decide), rfl⟩
  obtain ⟨payload, hc, -, rfl, -⟩ := hc
  cases hc with
  | single t _ h =>
    obtain ⟨-, -, rfl⟩ := hs.unique h
    decide +kernel
  | first t id ch a b h => exact (hs.not_part h).elim
  | second t id ch a b h => exact (hs.not_part h).elim

/-- C106: traffic as it should be (message ids 0 to 9, channels A and B; GSV groups of at most nine sentences from the
talkers `T`, numbered from 1 to their count) never makes more than `40 + 45 |T|` texts pending. -/
theorem C106_traffic (h : List (Env × Str)) (T : List Str)
    (hP : ∀ x ∈ h, ∀ talker own num id chan payload, Part talker own num id chan payload x.2 →
      id ≤ 9 ∧ chan ∈ [c! "A", c! "B"])
    (hV : ∀ x ∈ h, ∀ talker n k fs, GsvPart talker n k fs x.2 → talker ∈ T ∧ n ≤ 9 ∧ 1 ≤ k ∧ k ≤ n) :
    (run Parser.new h).stringsCount ≤ 40 + 45 * T.length := by
  let G : List (Bool × Nat × Str) := [false, true].flatMap fun own => (List.range 10).flatMap fun id =>
    [c! "A", c! "B"].map fun ch => (own, id, ch)
  let N : List (Nat × Nat) := (List.range 10).flatMap fun n => (List.range' 1 n).map fun k => (n, k)
  let V : List (Str × Nat × Nat) := T.flatMap fun t => N.map fun x => (t, x)
  have hN : N.length = 45 := by decide
  have hl : V.length = 45 * T.length := by
    simp only [V, List.length_flatMap, List.length_map, hN]
    clear hV
    induction T with
    | nil => rfl
    | cons t T ih => simp only [List.map_cons, List.sum_cons, List.length_cons, ih]; omega
  have := C106_texts h G V ?_ ?_
  · rw [hl] at this
    exact this
  · intro x hx talker own num id chan payload hp
    obtain ⟨h1, h2⟩ := hP x hx _ _ _ _ _ _ hp
    simp only [G, List.mem_flatMap, List.mem_map, List.mem_range]
    exact ⟨own, by cases own <;> simp, id, by omega, chan, h2, rfl⟩
  · intro x hx talker n k fs hp
    obtain ⟨h1, h2, h3, h4⟩ := hV x hx _ _ _ _ hp
    simp only [V, N, List.mem_flatMap, List.mem_map, List.mem_range, List.mem_range'_1]
    exact ⟨talker, h1, (n, k), ⟨n, by omega, k, by omega, rfl⟩, rfl⟩

/-- The bound of forty is reached: the first parts of forty messages. -/
example : (run Parser.new ([c! "VDM", c! "VDO"].flatMap fun k => (List.range 10).flatMap fun id =>
    [c! "A", c! "B"].map fun ch => (demoEnv, c! "!AI" ++ k ++ c! ",2,1," ++ natStr id ++ c! "," ++ ch ++ c! ",5,0"))).stringsCount
      = 40 := by
  decide +kernel

/-- C106: whatever is received, at most one static data part for each of the `2 ^ 30` MMSIs is pending. -/
theorem C106_static_max (h : List (Env × Str)) : (run Parser.new h).vsdsCount ≤ 2 ^ 30 := by
  have sub : (run Parser.new h).savedVsds.items.map (·.1) ⊆ List.range (2 ^ 30) := by
    intro m hm
    rw [← KV.get_isSome, Option.isSome_iff_exists] at hm
    obtain ⟨v, hv⟩ := hm
    obtain ⟨h1, x, h2, own, bits, e, hc, rfl, -⟩ := C80_static h m v hv
    rw [List.mem_range]
    have := bitsVal_lt (window bits 8 30)
    rwa [length_window] at this
  have := (List.subperm_of_subset (C103_once_per_key h).2 sub).length_le
  rw [List.length_range] at this
  simpa only [Parser.vsdsCount, KV.size, List.length_map] using this

/-- A history that leaves one vessel in the table. -/
example : (run Parser.new [(demoEnv, c! "!AIVDM,1,1,,A,H42O55i18tMET00000000000000,2")]).vsdsCount = 1 ∧
    (run Parser.new [(demoEnv, c! "!AIVDM,1,1,,A,H42O55i18tMET00000000000000,2")]).vsdsCount ≤ 2 ^ 30 :=
  ⟨by decide +kernel, C106_static_max _⟩

end Nmea
