/-
C25-C30: type 24 messages, whose two parts arrive as separate messages.
-/
import Verif.Lemmas.Static
import Verif.Lemmas.Demo

namespace Nmea
open Spec

/-- C25: part A with nothing pending for its MMSI yields `Incomplete`; after any sentences that do not
complete a type 24 message of this MMSI, part B yields the name of part A and everything else of part B. -/
theorem C25_A_then_B (e1 e2 : Env) (p : Parser) (s1 s2 : Str) (own1 own2 : Bool) (a b : List Bool)
    (h : List (Env × Str))
    (h1 : Completes24 e1 p s1 own1 a) (ha : partOf a = 0)
    (h2 : Completes24 e2 (run (parseSentence e1 p s1).2 h) s2 own2 b) (hb : partOf b = 1)
    (hm : mmsiOf a = mmsiOf b) (hno : pendingStatic p (mmsiOf b) = none)
    (hh : Avoids (fun q x => CompletesStatic q x (mmsiOf b)) (parseSentence e1 p s1).2 h) :
    (parseSentence e1 p s1).1 = .ok .incomplete ∧
    (parseSentence e2 (run (parseSentence e1 p s1).2 h) s2).1 =
      .ok (.vesselStaticData (fullStatic own2 a b)) := by
  obtain ⟨r1, r2⟩ := (eval_24 e1 p s1 own1 a h1).2.1 (by omega) (by rw [hm]; exact hno)
  refine ⟨r1, ?_⟩
  rw [hm, ← static_frame_run _ h _ hh, show partData own1 a = partAData own1 a from if_pos ha] at r2
  refine ((eval_24 e2 _ s2 own2 b h2).2.2 (by omega) _ _ r2 ?_).1
  rw [show partData own2 b = partBData own2 b from if_neg (by omega)]
  exact merge_AB own2 own1 a b hm

/-- Part A, a UTC inquiry, then part B. -/
example : (parseSentence demoEnv (run (parseSentence demoEnv Parser.new
      (c! "!AIVDM,1,1,,A,H42O55i18tMET00000000000000,2")).2 [(demoEnv, c! "!ABVDM,1,1,,B,:5MlU41GMK6@,0")])
      (c! "!AIVDO,1,1,,A,H42O55lt0000000D3nink000?0500,0")).1 =
    .ok (.vesselStaticData (fullStatic true (payloadBits demoA) (payloadBits demoB))) ∧
    (fullStatic true (payloadBits demoA) (payloadBits demoB)).name = some (c! "PROGUY") :=
  ⟨(C25_A_then_B demoEnv demoEnv Parser.new _ _ _ _ _ _ 
    [(demoEnv, c! "!ABVDM,1,1,,B,:5MlU41GMK6@,0")] (demoCompletesA _) demoPartA (demoCompletesB _) demoPartB
    (demoMmsiA.trans demoMmsiB.symm) rfl ⟨demoNotStatic _ _, trivial⟩).2, by decide +kernel⟩

/-- C25 with the parts in the other order. -/
theorem C25_B_then_A (e1 e2 : Env) (p : Parser) (s1 s2 : Str) (own1 own2 : Bool) (a b : List Bool)
    (h : List (Env × Str))
    (h1 : Completes24 e1 p s1 own1 b) (hb : partOf b = 1)
    (h2 : Completes24 e2 (run (parseSentence e1 p s1).2 h) s2 own2 a) (ha : partOf a = 0)
    (hm : mmsiOf a = mmsiOf b) (hno : pendingStatic p (mmsiOf b) = none)
    (hh : Avoids (fun q x => CompletesStatic q x (mmsiOf b)) (parseSentence e1 p s1).2 h) :
    (parseSentence e1 p s1).1 = .ok .incomplete ∧
    (parseSentence e2 (run (parseSentence e1 p s1).2 h) s2).1 =
      .ok (.vesselStaticData (fullStatic own2 a b)) := by
  obtain ⟨r1, r2⟩ := (eval_24 e1 p s1 own1 b h1).2.1 (by omega) hno
  refine ⟨r1, ?_⟩
  rw [← static_frame_run _ h _ hh, show partData own1 b = partBData own1 b from if_neg (by omega), ← hm] at r2
  refine ((eval_24 e2 _ s2 own2 a h2).2.2 (by omega) _ _ r2 ?_).1
  rw [show partData own2 a = partAData own2 a from if_pos ha]
  exact merge_BA own2 own1 a b hm

/-- The same with part B first; the result is that of part A's kind (VDM). -/
example : (parseSentence demoEnv (run (parseSentence demoEnv Parser.new
      (c! "!AIVDO,1,1,,A,H42O55lt0000000D3nink000?0500,0")).2 [(demoEnv, c! "!ABVDM,1,1,,B,:5MlU41GMK6@,0")])
      (c! "!AIVDM,1,1,,A,H42O55i18tMET00000000000000,2")).1 =
    .ok (.vesselStaticData (fullStatic false (payloadBits demoA) (payloadBits demoB))) :=
  (C25_B_then_A demoEnv demoEnv Parser.new _ _ _ _ _ _ 
    [(demoEnv, c! "!ABVDM,1,1,,B,:5MlU41GMK6@,0")] (demoCompletesB _) demoPartB (demoCompletesA _) demoPartA
    (demoMmsiA.trans demoMmsiB.symm) rfl ⟨demoNotStatic _ _, trivial⟩).2

/-- C26: whichever part comes first, the two results agree in everything but the own-vessel flag, which is
that of the part parsed last. -/
theorem C26_order_irrelevant (e1 e2 e1' e2' : Env) (p p' : Parser) (sa sb : Str) (owna ownb : Bool)
    (a b : List Bool) (h h' : List (Env × Str)) (ha : partOf a = 0) (hb : partOf b = 1)
    (hm : mmsiOf a = mmsiOf b)
    (h1 : Completes24 e1 p sa owna a) (h2 : Completes24 e2 (run (parseSentence e1 p sa).2 h) sb ownb b)
    (h1' : Completes24 e1' p' sb ownb b) (h2' : Completes24 e2' (run (parseSentence e1' p' sb).2 h') sa owna a)
    (hno : pendingStatic p (mmsiOf b) = none) (hno' : pendingStatic p' (mmsiOf b) = none)
    (hh : Avoids (fun q x => CompletesStatic q x (mmsiOf b)) (parseSentence e1 p sa).2 h)
    (hh' : Avoids (fun q x => CompletesStatic q x (mmsiOf b)) (parseSentence e1' p' sb).2 h') :
    ∃ d d', (parseSentence e2 (run (parseSentence e1 p sa).2 h) sb).1 = .ok (.vesselStaticData d) ∧
      (parseSentence e2' (run (parseSentence e1' p' sb).2 h') sa).1 = .ok (.vesselStaticData d') ∧
      d.ownVessel = ownb ∧ d'.ownVessel = owna ∧ d' = { d with ownVessel := owna } :=
  ⟨_, _, (C25_A_then_B e1 e2 p sa sb owna ownb a b h h1 ha h2 hb hm hno hh).2,
    (C25_B_then_A e1' e2' p' sb sa ownb owna a b h' h1' hb h2' ha hm hno' hh').2, rfl, rfl, rfl⟩

/-- The two orders of these messages. -/
example : ∃ d d', (parseSentence demoEnv (run (parseSentence demoEnv Parser.new
      (c! "!AIVDM,1,1,,A,H42O55i18tMET00000000000000,2")).2 [])
      (c! "!AIVDO,1,1,,A,H42O55lt0000000D3nink000?0500,0")).1 = .ok (.vesselStaticData d) ∧
    (parseSentence demoEnv (run (parseSentence demoEnv Parser.new
      (c! "!AIVDO,1,1,,A,H42O55lt0000000D3nink000?0500,0")).2 [])
      (c! "!AIVDM,1,1,,A,H42O55i18tMET00000000000000,2")).1 = .ok (.vesselStaticData d') ∧
    d.ownVessel = true ∧ d'.ownVessel = false ∧ d' = { d with ownVessel := false } :=
  C26_order_irrelevant demoEnv demoEnv demoEnv demoEnv Parser.new Parser.new _ _ _ _ _ _ _ _ demoPartA demoPartB
    (demoMmsiA.trans demoMmsiB.symm) (demoCompletesA _) (demoCompletesB _) (demoCompletesB _) (demoCompletesA _)
    rfl rfl trivial trivial

/-- C27: in every reachable state a type 24 message is refused exactly when its part number is 2 or 3; it
never panics. -/
theorem C27_merge_never_fails (env : Env) (p : Parser) (hr : Reachable p) (s : Str) (own : Bool)
    (bits : List Bool) (h : Completes24 env p s own bits) :
    ((∃ e, (parseSentence env p s).1 = .err e) ↔ 2 ≤ partOf bits) ∧ (parseSentence env p s).1 ≠ .panic := by
  obtain ⟨h1, h2, h3⟩ := eval_24 env p s own bits h
  by_cases hp : 2 ≤ partOf bits
  · obtain ⟨⟨m, hm⟩, -⟩ := h1 hp
    exact ⟨⟨fun _ => hp, fun _ => ⟨_, hm⟩⟩, by rw [hm]; simp⟩
  · have hlt : partOf bits < 2 := by omega
    have : ∃ r, (parseSentence env p s).1 = .ok r := by
      cases hw : pendingStatic p (mmsiOf bits) with
      | none => exact ⟨_, (h2 hlt hw).1⟩
      | some w =>
        obtain ⟨own', b', rfl, -, -, hb'⟩ := goodStatic_reachable p hr _ _ hw
        obtain ⟨m, hm, -⟩ := partData_merge own own' bits b' hb'.symm
        exact ⟨_, (h3 hlt _ m hw hm).1⟩
    obtain ⟨r, hr⟩ := this
    rw [hr]
    refine ⟨⟨?_, fun h => absurd h hp⟩, by simp⟩
    rintro ⟨e, he⟩
    cases he

/-- Part B while part A of the same vessel is pending. -/
example : ¬ ∃ e, (parseSentence demoEnv (run Parser.new [(demoEnv, c! "!AIVDM,1,1,,A,H42O55i18tMET00000000000000,2")])
    (c! "!AIVDO,1,1,,A,H42O55lt0000000D3nink000?0500,0")).1 = .err e := by
  rw [(C27_merge_never_fails demoEnv _ ⟨_, rfl⟩ _ _ _ (demoCompletesB _)).1, demoPartB]
  decide

/-- C28: what is pending under an MMSI in a reachable state is exactly the content of one part A or part B
message of that MMSI. -/
theorem C28_pending_of_own_mmsi (p : Parser) (hr : Reachable p) (m : Nat) (v : VesselStaticData)
    (h : pendingStatic p m = some v) :
    ∃ own bits, v = partData own bits ∧ typeOf bits = 24 ∧ partOf bits < 2 ∧ mmsiOf bits = m ∧ v.mmsi = m := by
  obtain ⟨own, bits, hv, ht, hp, hm⟩ := goodStatic_reachable p hr m v h
  exact ⟨own, bits, hv, ht, hp, hm, by rw [hv, partData_mmsi, hm]⟩

/-- The pending part A is such a state. -/
example : pendingStatic (run Parser.new [(demoEnv, c! "!AIVDM,1,1,,A,H42O55i18tMET00000000000000,2")]) 271041815 =
    some (partData false (payloadBits demoA)) := by decide +kernel

/-- C28: a sentence changes what is pending under an MMSI only if it completes a type 24 message of that
MMSI. -/
theorem C28_others_untouched (env : Env) (p : Parser) (s : Str) (m : Nat) (h : ¬ CompletesStatic p s m) :
    pendingStatic (parseSentence env p s).2 m = pendingStatic p m :=
  static_frame env p s m h

/-- A UTC inquiry leaves it pending. -/
example : pendingStatic (parseSentence demoEnv
    (run Parser.new [(demoEnv, c! "!AIVDM,1,1,,A,H42O55i18tMET00000000000000,2")])
    (c! "!ABVDM,1,1,,B,:5MlU41GMK6@,0")).2 271041815 = some (partData false (payloadBits demoA)) :=
  (C28_others_untouched demoEnv _ _ _ (demoNotStatic _ _)).trans (by decide +kernel)

/-- C28: the result of a type 24 message depends on the pending static data only through those of its own
MMSI. -/
theorem C28_others_irrelevant (env : Env) (p q : Parser) (hp : Reachable p) (s : Str) (own : Bool)
    (bits : List Bool) (h : Completes24 env p s own bits) (h' : Completes24 env q s own bits)
    (hpq : pendingStatic p (mmsiOf bits) = pendingStatic q (mmsiOf bits)) (hlt : partOf bits < 2) :
    (parseSentence env p s).1 = (parseSentence env q s).1 := by
  obtain ⟨-, h2, h3⟩ := eval_24 env p s own bits h
  obtain ⟨-, h2', h3'⟩ := eval_24 env q s own bits h'
  cases hw : pendingStatic p (mmsiOf bits) with
  | none => rw [(h2 hlt hw).1, (h2' hlt (hpq ▸ hw)).1]
  | some w =>
    obtain ⟨own', b', rfl, -, -, hb'⟩ := goodStatic_reachable p hp _ _ hw
    obtain ⟨m, hm, -⟩ := partData_merge own own' bits b' hb'.symm
    rw [(h3 hlt _ m hw hm).1, (h3' hlt _ m (hpq ▸ hw) hm).1]

/-- Part A of vessel 271041815 while a part A of vessel 271041814 is pending. -/
example : (parseSentence demoEnv (run Parser.new [(demoEnv, c! "!AIVDM,1,1,,A,H42O55Q18tMET00000000000000,2")])
      (c! "!AIVDM,1,1,,A,H42O55i18tMET00000000000000,2")).1 =
    (parseSentence demoEnv Parser.new (c! "!AIVDM,1,1,,A,H42O55i18tMET00000000000000,2")).1 ∧
    pendingCount (run Parser.new [(demoEnv, c! "!AIVDM,1,1,,A,H42O55Q18tMET00000000000000,2")]) = 1 :=
  ⟨C28_others_irrelevant demoEnv _ _ ⟨_, rfl⟩ _ _ _ (demoCompletesA _) (demoCompletesA _) (by decide +kernel)
    (by rw [demoPartA]; decide), by decide +kernel⟩

/-- C29: once a result has been returned for a type 24 message, nothing is pending for its MMSI. -/
theorem C29_consumed (env : Env) (p : Parser) (hr : Reachable p) (s : Str) (own : Bool) (bits : List Bool)
    (h : Completes24 env p s own bits) (d : VesselStaticData)
    (hd : (parseSentence env p s).1 = .ok (.vesselStaticData d)) :
    d.mmsi = mmsiOf bits ∧ pendingStatic (parseSentence env p s).2 d.mmsi = none := by
  obtain ⟨h1, h2, h3⟩ := eval_24 env p s own bits h
  by_cases hp : 2 ≤ partOf bits
  · obtain ⟨⟨m, hm⟩, -⟩ := h1 hp
    rw [hm] at hd; cases hd
  · have hlt : partOf bits < 2 := by omega
    cases hw : pendingStatic p (mmsiOf bits) with
    | none => rw [(h2 hlt hw).1] at hd; cases hd
    | some w =>
      obtain ⟨own', b', rfl, -, -, hb'⟩ := goodStatic_reachable p hr _ _ hw
      obtain ⟨m, hm, hmm⟩ := partData_merge own own' bits b' hb'.symm
      obtain ⟨h4, h5⟩ := h3 hlt _ m hw hm
      rw [h4] at hd
      cases hd
      exact ⟨hmm, by rw [hmm]; exact h5⟩

/-- The result of part A and part B; nothing of the vessel is pending any more. -/
example : pendingStatic (parseSentence demoEnv
    (run Parser.new [(demoEnv, c! "!AIVDM,1,1,,A,H42O55i18tMET00000000000000,2")])
    (c! "!AIVDO,1,1,,A,H42O55lt0000000D3nink000?0500,0")).2 271041815 = none := by
  have h := C29_consumed demoEnv (run Parser.new [(demoEnv, c! "!AIVDM,1,1,,A,H42O55i18tMET00000000000000,2")])
    ⟨_, rfl⟩ _ _ _ (demoCompletesB _) _
    (C25_A_then_B demoEnv demoEnv Parser.new _ _ _ _ _ _ [] (demoCompletesA _) demoPartA (demoCompletesB _) demoPartB
      (demoMmsiA.trans demoMmsiB.symm) rfl trivial).2
  have h2 := h.2
  rw [h.1, demoMmsiB] at h2
  exact h2

/-- C29: so the next part of this MMSI waits again. -/
theorem C29_again_incomplete (env env' : Env) (p : Parser) (hr : Reachable p) (s s' : Str) (own own' : Bool)
    (bits bits' : List Bool) (h : Completes24 env p s own bits) (d : VesselStaticData)
    (hd : (parseSentence env p s).1 = .ok (.vesselStaticData d))
    (h' : Completes24 env' (parseSentence env p s).2 s' own' bits') (hm : mmsiOf bits' = mmsiOf bits)
    (hp : partOf bits' < 2) :
    (parseSentence env' (parseSentence env p s).2 s').1 = .ok .incomplete := by
  obtain ⟨h1, h2⟩ := C29_consumed env p hr s own bits h d hd
  rw [h1, ← hm] at h2
  exact ((eval_24 env' _ s' own' bits' h').2.1 hp h2).1

/-- Part A once more. -/
example : (parseSentence demoEnv (parseSentence demoEnv
    (run Parser.new [(demoEnv, c! "!AIVDM,1,1,,A,H42O55i18tMET00000000000000,2")])
    (c! "!AIVDO,1,1,,A,H42O55lt0000000D3nink000?0500,0")).2
    (c! "!AIVDM,1,1,,A,H42O55i18tMET00000000000000,2")).1 = .ok .incomplete :=
  C29_again_incomplete demoEnv demoEnv _ ⟨_, rfl⟩ _ _ _ _ _ _ (demoCompletesB _) _
    (C25_A_then_B demoEnv demoEnv Parser.new _ _ _ _ _ _ [] (demoCompletesA _) demoPartA (demoCompletesB _) demoPartB
      (demoMmsiA.trans demoMmsiB.symm) rfl trivial).2
    (demoCompletesA _) (demoMmsiA.trans demoMmsiB.symm) (by rw [demoPartA]; decide)

/-- C30: two consecutive type 24 messages of one MMSI always give a result, whatever their part numbers: each
item is that of the later message, or of the earlier one where the later has none. -/
theorem C30_pairs (e1 e2 : Env) (p : Parser) (s1 s2 : Str) (own1 own2 : Bool) (a b : List Bool)
    (h : List (Env × Str)) (h1 : Completes24 e1 p s1 own1 a) (ha : partOf a < 2)
    (h2 : Completes24 e2 (run (parseSentence e1 p s1).2 h) s2 own2 b) (hb : partOf b < 2)
    (hm : mmsiOf a = mmsiOf b) (hno : pendingStatic p (mmsiOf b) = none)
    (hh : Avoids (fun q x => CompletesStatic q x (mmsiOf b)) (parseSentence e1 p s1).2 h) :
    (parseSentence e2 (run (parseSentence e1 p s1).2 h) s2).1 =
      .ok (.vesselStaticData (overlay (partData own2 b) (partData own1 a))) := by
  obtain ⟨r1, r2⟩ := (eval_24 e1 p s1 own1 a h1).2.1 ha (by rw [hm]; exact hno)
  rw [hm, ← static_frame_run _ h _ hh] at r2
  exact ((eval_24 e2 _ s2 own2 b h2).2.2 hb _ _ r2 (merge_overlay own2 own1 b a hm.symm)).1

/-- Part B twice: a result without a name. -/
example : (parseSentence demoEnv (run (parseSentence demoEnv Parser.new
      (c! "!AIVDO,1,1,,A,H42O55lt0000000D3nink000?0500,0")).2 [(demoEnv, c! "!ABVDM,1,1,,B,:5MlU41GMK6@,0")])
      (c! "!AIVDO,1,1,,A,H42O55lt0000000D3nink000?0500,0")).1 =
    .ok (.vesselStaticData (overlay (partData true (payloadBits demoB)) (partData true (payloadBits demoB)))) ∧
    (overlay (partData true (payloadBits demoB)) (partData true (payloadBits demoB))).name = none :=
  ⟨C30_pairs demoEnv demoEnv Parser.new _ _ _ _ _ _ 
    [(demoEnv, c! "!ABVDM,1,1,,B,:5MlU41GMK6@,0")] (demoCompletesB _) (by rw [demoPartB]; decide)
    (demoCompletesB _) (by rw [demoPartB]; decide) rfl rfl ⟨demoNotStatic _ _, trivial⟩, by decide +kernel⟩

/-- C30: in particular two parts A give a result without any content of a part B. -/
theorem C30_two_A (e1 e2 : Env) (p : Parser) (s1 s2 : Str) (own1 own2 : Bool) (a b : List Bool)
    (h : List (Env × Str)) (h1 : Completes24 e1 p s1 own1 a) (ha : partOf a = 0)
    (h2 : Completes24 e2 (run (parseSentence e1 p s1).2 h) s2 own2 b) (hb : partOf b = 0)
    (hm : mmsiOf a = mmsiOf b) (hno : pendingStatic p (mmsiOf b) = none)
    (hh : Avoids (fun q x => CompletesStatic q x (mmsiOf b)) (parseSentence e1 p s1).2 h) :
    (parseSentence e2 (run (parseSentence e1 p s1).2 h) s2).1 = .ok (.vesselStaticData
      { blankStatic own2 (mmsiOf b) with name := (partAName b).or (partAName a) }) := by
  rw [C30_pairs e1 e2 p s1 s2 own1 own2 a b h h1 (by omega) h2 (by omega) hm hno hh]
  simp [overlay, partData, ha, hb, partAData, blankStatic]

/-- Part A twice, with a UTC inquiry between. -/
example : (parseSentence demoEnv (run (parseSentence demoEnv Parser.new
      (c! "!AIVDM,1,1,,A,H42O55i18tMET00000000000000,2")).2 [(demoEnv, c! "!ABVDM,1,1,,B,:5MlU41GMK6@,0")])
      (c! "!AIVDM,1,1,,A,H42O55i18tMET00000000000000,2")).1 =
    .ok (.vesselStaticData { blankStatic false 271041815 with name := some (c! "PROGUY") }) :=
  (C30_two_A demoEnv demoEnv Parser.new _ _ _ _ _ _ 
    [(demoEnv, c! "!ABVDM,1,1,,B,:5MlU41GMK6@,0")] (demoCompletesA _) demoPartA (demoCompletesA _) demoPartA
    rfl rfl ⟨demoNotStatic _ _, trivial⟩).trans (by decide +kernel)

/-- C30: 'a result always combines a part A and a part B' is false: part A twice gives a result. -/
theorem C30_two_A_counterexample :
    ∃ d, (parseSentence demoEnv
        (parseSentence demoEnv Parser.new (c! "!AIVDM,1,1,,A,H42O55i18tMET00000000000000,2")).2
        (c! "!AIVDM,1,1,,A,H42O55i18tMET00000000000000,2")).1 = .ok (.vesselStaticData d) ∧
      d = { blankStatic false 271041815 with name := some (c! "PROGUY") } :=
  ⟨_, by decide +kernel, rfl⟩

end Nmea
