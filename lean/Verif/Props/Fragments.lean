/-
C12-C24: pending data and the reassembly of two-part AIS messages.
-/
import Verif.Lemmas.Frame
import Verif.Spec.Machine
import Verif.Lemmas.Demo
import Mathlib.Data.List.Nodup

namespace Nmea
open Spec

/-! ### Statelessness -/

/-- C12: GGA, RMC, GSA, VTG and GLL do not depend on the history and leave nothing pending. -/
theorem C12_gnss_stateless (env : Env) (p q : Parser) (talker kind : Str) (fs : List Str) (s : Str)
    (hk : kind ∈ [c! "GGA", c! "RMC", c! "GSA", c! "VTG", c! "GLL"]) (h : IsGnss talker kind fs s) :
    (parseSentence env p s).1 = (parseSentence env q s).1 ∧ (parseSentence env p s).2 = p := by
  simp only [List.mem_cons, List.not_mem_nil, or_false] at hk
  have hl : byteLen kind = 3 ∧ ',' ∉ kind ∧ kind ≠ c! "GSV" := by
    rcases hk with rfl | rfl | rfl | rfl | rfl <;> decide
  rw [eval_dollar env p talker kind fs s hl.1 hl.2.1 h, eval_dollar env q talker kind fs s hl.1 hl.2.1 h]
  rcases hk with rfl | rfl | rfl | rfl | rfl <;> exact ⟨rfl, rfl⟩

/-- A GGA sentence without fix, between the two parts of an AIS message and on a new parser. -/
example : (parseSentence demoEnv (run Parser.new [(demoEnv, c! "!AIVDM,2,1,7,B,:5MlU41,0")])
      (c! "$GPGGA,120000,,,,,0,,,,,,,,")).1 =
    (parseSentence demoEnv Parser.new (c! "$GPGGA,120000,,,,,0,,,,,,,,")).1 :=
  (C12_gnss_stateless demoEnv _ _ (c! "GP") (c! "GGA")
    [c! "120000", [], [], [], [], c! "0", [], [], [], [], [], [], [], []] _ (by decide)
    (demoTagged .bare (by decide))).1

/-- C14: an unfragmented AIS message of another type than 24 does not depend on the history and leaves
nothing pending. -/
theorem C14_single_stateless (env : Env) (p q : Parser) (talker : Str) (own : Bool) (payload s : Str)
    (h : Single talker own payload s) (ht : typeOf (payloadBits payload) ≠ 24) :
    (parseSentence env p s).1 = (parseSentence env q s).1 ∧ (parseSentence env p s).2 = p := by
  rw [eval_Single env p talker own payload s h, eval_Single env q talker own payload s h]
  simp only [complete]
  cases hp : parsePayload env.overflowChecks payload with
  | err e => exact ⟨rfl, rfl⟩
  | panic => exact ⟨rfl, rfl⟩
  | ok bv =>
    rw [← parsePayload_bits _ _ _ hp, ← typeOf_eq] at ht
    simp only []
    rw [dispatchAis_state _ _ _ _ _ p ht, dispatchAis_state _ _ _ _ _ q ht]
    exact ⟨rfl, rfl⟩

/-- A UTC inquiry (type 10) while another message waits for its second part. -/
example : (parseSentence demoEnv (run Parser.new [(demoEnv, c! "!AIVDM,2,1,7,B,:5MlU41,0")])
      (c! "!ABVDM,1,1,,B,:5MlU41GMK6@,0")).1 =
    (parseSentence demoEnv Parser.new (c! "!ABVDM,1,1,,B,:5MlU41GMK6@,0")).1 :=
  (C14_single_stateless demoEnv _ _ _ _ _ _ demoWhole (by decide +kernel)).1

/-! ### Errors -/

theorem t24Store_err (v : VesselStaticData) (p : Parser) (e : ParseError) (h : (t24Store v p).1 = .err e) :
    (t24Store v p).2.savedVsds = p.savedVsds.erase v.mmsi := by
  simp only [t24Store, Parser.pullVsd] at h ⊢
  cases hv : p.savedVsds.get v.mmsi with
  | none => rw [hv] at h; cases h
  | some v2 => simp only []; split <;> rfl

theorem complete_err_static (env : Env) (own : Bool) (st : Station) (payload : Str) (p : Parser)
    (e : ParseError) (h : (complete env own st payload p).1 = .err e) (m : Nat) (v : VesselStaticData)
    (hv : (complete env own st payload p).2.savedVsds.get m = some v) : p.savedVsds.get m = some v := by
  simp only [complete] at h hv
  cases hp : parsePayload env.overflowChecks payload with
  | err e => rw [hp] at hv; exact hv
  | panic => rw [hp] at hv; exact hv
  | ok bv =>
    rw [hp] at h hv
    simp only [] at h hv
    by_cases ht : pickU64 bv 0 6 = 24
    · have eq : dispatchAis env ('!' :: aisKind own) bv st own p = handleT24 bv st p own := by
        simp only [dispatchAis, ht]
      rw [eq] at h hv
      have key : ∀ w, (t24Store w p).1 = .err e → (t24Store w p).2.savedVsds.get m = some v →
          p.savedVsds.get m = some v := by
        intro w h hv
        rw [t24Store_err w p e h, KV.get_erase] at hv
        split at hv
        · cases hv
        · exact hv
      simp only [handleT24] at h hv
      split at h
      · rename_i h0
        rw [h0] at hv
        obtain ⟨w, hw, -⟩ := t24Fields_eq bv own true false
        rw [hw] at h hv
        exact key w h hv
      · rename_i h0
        rw [h0] at hv
        obtain ⟨w, hw, -⟩ := t24Fields_eq bv own false true
        rw [hw] at h hv
        exact key w h hv
      · split at hv <;> simp_all
    · rw [dispatchAis_state _ _ _ _ _ p ht] at hv
      exact hv

/-- C13: an error never adds pending data: whatever is pending afterwards was pending before with the
same content. -/
theorem C13_error_adds_nothing (env : Env) (p : Parser) (s : Str) (e : ParseError)
    (h : (parseSentence env p s).1 = .err e) :
    (∀ k v, (parseSentence env p s).2.savedFragments.get k = some v → p.savedFragments.get k = some v) ∧
    (∀ m v, pendingStatic (parseSentence env p s).2 m = some v → pendingStatic p m = some v) := by
  have part : ∀ own st mine other pl comb, (joinPart env p own st mine other pl comb).1 = .err e →
      (∀ k v, (joinPart env p own st mine other pl comb).2.savedFragments.get k = some v →
        p.savedFragments.get k = some v) ∧
      (∀ m v, pendingStatic (joinPart env p own st mine other pl comb).2 m = some v →
        pendingStatic p m = some v) := by
    intro own st mine other pl comb h
    unfold joinPart at h ⊢
    cases ho : p.savedFragments.get other with
    | none => rw [ho] at h; cases h
    | some b =>
      rw [ho] at h
      simp only [] at h ⊢
      refine ⟨fun k v hk => ?_, fun m v hm => ?_⟩
      · rw [complete_frags, KV.get_erase] at hk
        split at hk
        · cases hk
        · exact hk
      · exact complete_err_static _ _ _ _ _ e h m v hm
  cases call_case env p s with
  | plain hp => rw [hp]; exact ⟨fun _ _ h => h, fun _ _ h => h⟩
  | gsv talker n k fs hs =>
    rw [eval_gsv env p talker n k fs s hs] at h
    exfalso
    unfold gsvStep at h
    split at h
    · simp only [] at h; split at h <;> cases h
    · split at h <;> cases h
  | ais talker own fs hs hc =>
    cases hc with
    | bad m _ hp => rw [hp]; exact ⟨fun _ _ h => h, fun _ _ h => h⟩
    | odd n _ _ _ hp => rw [hp] at h; cases h
    | single pl _ _ hp =>
      rw [hp] at h ⊢
      rw [complete_frags]
      exact ⟨fun _ _ h => h, fun m v hm => complete_err_static _ _ _ _ _ e h m v hm⟩
    | part1 id _ hp => rw [hp] at h ⊢; exact part _ _ _ _ _ _ h
    | part2 id _ hp => rw [hp] at h ⊢; exact part _ _ _ _ _ _ h

/-- A completed message of the unsupported type 8 is an error; nothing is pending afterwards. -/
example : (∃ e, (parseSentence demoEnv (run Parser.new [(demoEnv, c! "!AIVDM,2,1,1,A,8,0")])
      (c! "!AIVDM,2,2,1,A,0,0")).1 = .err e) ∧
    pendingCount (run Parser.new [(demoEnv, c! "!AIVDM,2,1,1,A,8,0")]) = 1 ∧
    pendingCount (parseSentence demoEnv (run Parser.new [(demoEnv, c! "!AIVDM,2,1,1,A,8,0")])
      (c! "!AIVDM,2,2,1,A,0,0")).2 = 0 := ⟨⟨_, rfl⟩, by decide +kernel, by decide +kernel⟩

/-! ### Growth -/

/-- C15: one call adds at most one pending entry. -/
theorem C15_one_call (env : Env) (p : Parser) (s : Str) :
    pendingCount (parseSentence env p s).2 ≤ pendingCount p + 1 := count_step env p s

/-- A first part does add an entry. -/
example : pendingCount (parseSentence demoEnv Parser.new (c! "!AIVDM,2,1,7,B,:5MlU41,0")).2 =
    pendingCount Parser.new + 1 := by decide +kernel

theorem run_count (p : Parser) (h : List (Env × Str)) : pendingCount (run p h) ≤ pendingCount p + h.length := by
  induction h generalizing p with
  | nil => exact Nat.le_refl _
  | cons x h ih =>
    have h1 := ih (parseSentence x.1 p x.2).2
    have h2 := count_step x.1 p x.2
    simp only [List.length_cons, run]
    omega

/-- C15: after `n` calls on a new parser at most `n` entries are pending. -/
theorem C15_history (h : List (Env × Str)) : pendingCount (run Parser.new h) ≤ h.length := by
  have := run_count Parser.new h
  simpa [pendingCount, Parser.stringsCount, Parser.vsdsCount, Parser.new, KV.size, KV.empty] using this

/-- Three sentences of which two leave something pending. -/
example : pendingCount (run Parser.new demoBetween) = 2 ∧ demoBetween.length = 3 := by decide +kernel

theorem touches_part {s : Str} {own : Bool} {num id : Nat} {chan : Str}
    (h : Touches s (partKey own num id chan)) : InGroup own id chan s := by
  rcases h with ⟨talker, own', num', id', chan', pl, hp, -, hk⟩ | ⟨talker, n, k, fs, -, i, hi⟩
  · have : own = own' ∧ id = id' ∧ chan = chan' := by
      rcases hk with hk | hk <;> obtain ⟨h1, -, h2, h3⟩ := partKey_inj hk <;> exact ⟨h1, h2, h3⟩
    obtain ⟨rfl, rfl, rfl⟩ := this
    exact ⟨talker, num', pl, hp⟩
  · exact absurd hi (partKey_ne_gsvKey _ _ _ _ _ _ _)

theorem part_frame (env : Env) (p : Parser) (s : Str) (own : Bool) (num id : Nat) (chan : Str)
    (h : ¬ InGroup own id chan s) :
    pendingPart (parseSentence env p s).2 own num id chan = pendingPart p own num id chan :=
  frags_frame env p s _ (fun ht => h (touches_part ht))

theorem part_frame_run (p : Parser) (h : List (Env × Str)) (own : Bool) (num id : Nat) (chan : Str)
    (hh : ∀ x ∈ h, ¬ InGroup own id chan x.2) :
    pendingPart (run p h) own num id chan = pendingPart p own num id chan := by
  induction h generalizing p with
  | nil => rfl
  | cons x h ih =>
    rw [run, ih _ (fun y hy => hh y (List.mem_cons_of_mem _ hy)),
      part_frame _ _ _ _ _ _ _ (hh x List.mem_cons_self)]

/-- C16: a pending part stays pending through any history without sentences of its group. -/
theorem C16_never_expires (p : Parser) (h : List (Env × Str)) (own : Bool) (num id : Nat) (chan : Str)
    (hh : ∀ x ∈ h, ¬ InGroup own id chan x.2) :
    pendingPart (run p h) own num id chan = pendingPart p own num id chan :=
  part_frame_run p h own num id chan hh

/-- The first part is still pending after the sentences of `demoBetween`. -/
example : pendingPart (run (run Parser.new [(demoEnv, c! "!AIVDM,2,1,7,B,:5MlU41,0")]) demoBetween)
    false 1 7 (c! "B") = some (c! ":5MlU41") :=
  (C16_never_expires _ demoBetween false 1 7 (c! "B") demoOutside).trans (by decide +kernel)

/-- First parts of messages that are never continued, one for each channel text. -/
def strayPart (i : Nat) : Str := join (tag '!' (c! "AI") (c! "VDM")) [c! "2", c! "1", c! "0", natStr i, c! "0"]

theorem natStr_star (n : Nat) : '*' ∉ natStr n := by
  intro h
  have := (natStr_digits n).2 _ h
  revert this
  decide

theorem strayPart_part (i : Nat) : Part (c! "AI") false 1 0 (natStr i) (c! "0") (strayPart i) := by
  have hs : '*' ∉ strayPart i := by
    have := natStr_star i
    simp only [strayPart, join, tag, List.map_cons, List.map_nil, List.flatten_cons, List.flatten_nil,
      List.mem_append, List.mem_cons, List.not_mem_nil, or_false, not_or]
    refine ⟨by decide, by decide, by decide, by decide, ⟨by decide, this⟩, by decide⟩
  refine ⟨[c! "2", c! "1", c! "0", natStr i, c! "0"], ⟨by decide, ?_, by simp, .bare, fun _ => hs, rfl⟩, ?_, ?_,
    ?_, rfl, rfl⟩
  · intro f hf
    simp only [List.mem_cons, List.not_mem_nil, or_false] at hf
    rcases hf with rfl | rfl | rfl | rfl | rfl
    · decide
    · decide
    · decide
    · exact natStr_comma i
    · decide
  · exact demoDec (s := c! "2") (by decide)
  · exact demoDec (s := c! "1") (by decide)
  · exact demoDec (s := c! "0") (by decide)

theorem run_append (p : Parser) (h h' : List (Env × Str)) : run p (h ++ h') = run (run p h) h' := by
  induction h generalizing p with
  | nil => rfl
  | cons x h ih => exact ih _

theorem answers_append (p : Parser) (h h' : List (Env × Str)) :
    answers p (h ++ h') = answers p h ++ answers (run p h) h' := by
  induction h generalizing p with
  | nil => rfl
  | cons x h ih => exact congrArg _ (ih _)

/-- C16: pending data is not bounded: for every `n` there are `n` sentences, all answered with Incomplete, after which `n`
fragments are pending. -/
theorem C16_unbounded (env : Env) (n : Nat) :
    ∃ h : List (Env × Str), h.length = n ∧ (∀ x ∈ h, x.1 = env) ∧ (∀ a ∈ answers Parser.new h, a = .ok .incomplete) ∧
      pendingCount (run Parser.new h) = n := by
  refine ⟨(List.range n).map (fun i => (env, strayPart i)), by simp, by simp +contextual, ?_⟩
  have inv : ∀ n, ∀ i, (pendingPart (run Parser.new ((List.range n).map (fun i => (env, strayPart i))))
      false 1 0 (natStr i)).isSome = decide (i < n) ∧
      pendingPart (run Parser.new ((List.range n).map (fun i => (env, strayPart i)))) false 2 0 (natStr i)
        = none := by
    intro n
    induction n with
    | zero => intro i; exact ⟨rfl, rfl⟩
    | succ n ih =>
      intro i
      rw [List.range_succ, List.map_append, run_append, List.map_cons, List.map_nil, run, run,
        eval_part1 env _ _ _ _ _ _ _ (strayPart_part n)]
      have h2 := (ih n).2
      simp only [pendingPart] at h2 ih ⊢
      simp only [joinPart, h2, KV.get_insert, KV.get_erase]
      by_cases hin : i = n
      · subst hin
        rw [if_pos rfl, if_neg (fun h => by have := (partKey_inj h).2.1; omega), if_pos rfl]
        simp
      · rw [if_neg (fun h => hin (natStr_inj (partKey_inj h).2.2.2)),
          if_neg (fun h => hin (natStr_inj (partKey_inj h).2.2.2)),
          if_neg (fun h => by have := (partKey_inj h).2.1; omega),
          if_neg (fun h => hin (natStr_inj (partKey_inj h).2.2.2)), (ih i).1, (ih i).2]
        refine ⟨?_, rfl⟩
        by_cases h : i < n
        · simp [h]; omega
        · simp [h]; omega
  have ans : ∀ n, ∀ a ∈ answers Parser.new ((List.range n).map (fun i => (env, strayPart i))), a = .ok .incomplete := by
    intro n
    induction n with
    | zero => intro a ha; cases ha
    | succ n ih =>
      intro a ha
      have h2 := (inv n n).2
      rw [List.range_succ, List.map_append, answers_append, List.mem_append] at ha
      rcases ha with ha | ha
      · exact ih a ha
      · simp only [List.map_cons, List.map_nil, answers, List.mem_cons, List.not_mem_nil, or_false] at ha
        rw [ha, eval_part1 env _ _ _ _ _ _ _ (strayPart_part n)]
        simp only [pendingPart] at h2
        simp only [joinPart, h2]
  refine ⟨ans n, ?_⟩
  have up := C15_history ((List.range n).map (fun i => (env, strayPart i)))
  have low := KV.length_le_size
    (run Parser.new ((List.range n).map (fun i => (env, strayPart i)))).savedFragments
    ((List.range n).map (fun i => partKey false 1 0 (natStr i)))
    (by
      refine List.Nodup.map (fun a b h => ?_) List.nodup_range
      exact natStr_inj (partKey_inj h).2.2.2)
    (by
      intro k hk
      obtain ⟨i, hi, rfl⟩ := List.mem_map.mp hk
      have := (inv n i).1
      simp only [pendingPart] at this
      rw [this]
      simpa using hi)
  simp only [List.length_map, List.length_range] at up low
  simp only [pendingCount, Parser.stringsCount, Parser.vsdsCount] at up ⊢
  omega

/-- A million fragments pending. -/
example : ∃ h : List (Env × Str), h.length = 1000000 ∧ (∀ x ∈ h, x.1 = demoEnv) ∧
    (∀ a ∈ answers Parser.new h, a = .ok .incomplete) ∧ pendingCount (run Parser.new h) = 1000000 := C16_unbounded demoEnv 1000000

/-! ### Reassembly -/

/-- The result of parsing, and the static data afterwards, agree. -/
def SameOutcome (x y : Out ParseError ParsedSentence × Parser) : Prop :=
  x.1 = y.1 ∧ ∀ m, pendingStatic x.2 m = pendingStatic y.2 m

theorem complete_same (env : Env) (own : Bool) (st : Station) (payload : Str) (p q : Parser)
    (h : p.savedVsds = q.savedVsds) :
    SameOutcome (complete env own st payload p) (complete env own st payload q) := by
  obtain ⟨h1, h2⟩ := complete_static env own st payload p q h
  exact ⟨h1, fun m => by simp only [pendingStatic, h2]⟩

/-- C17: part 1, any sentences outside the group, then part 2: `Incomplete` for part 1, and for part 2
exactly the outcome of one unfragmented sentence with the concatenated payload. -/
theorem C17_parts_in_order (e1 e2 : Env) (p : Parser) (t1 t2 : Str) (own : Bool) (id : Nat)
    (chan a b s1 s2 s : Str) (h : List (Env × Str))
    (h1 : Part t1 own 1 id chan a s1) (h2 : Part t2 own 2 id chan b s2) (hs : Single t2 own (a ++ b) s)
    (hno : pendingPart p own 2 id chan = none) (hh : ∀ x ∈ h, ¬ InGroup own id chan x.2) :
    (parseSentence e1 p s1).1 = .ok .incomplete ∧
    SameOutcome (parseSentence e2 (run (parseSentence e1 p s1).2 h) s2)
      (parseSentence e2 (run (parseSentence e1 p s1).2 h) s) := by
  have he := eval_part1 e1 p t1 own id chan a s1 h1
  have hno' : p.savedFragments.get (partKey own 2 id chan) = none := hno
  simp only [joinPart, hno'] at he
  refine ⟨by rw [he], ?_⟩
  have hpend : pendingPart (run (parseSentence e1 p s1).2 h) own 1 id chan = some a := by
    rw [part_frame_run _ _ _ _ _ _ hh, he]
    exact KV.get_insert_self _ _ _
  generalize run (parseSentence e1 p s1).2 h = q at hpend
  rw [eval_part2 e2 q t2 own id chan b s2 h2, eval_Single e2 q t2 own _ s hs, stationOf_eq, joinPart]
  rw [show q.savedFragments.get (partKey own 1 id chan) = some a from hpend]
  exact complete_same _ _ _ _ _ _ rfl

/-- The two parts with three other sentences between them, against the whole message. -/
example : SameOutcome
    (parseSentence demoEnv (run (parseSentence demoEnv Parser.new (c! "!AIVDM,2,1,7,B,:5MlU41,0")).2 demoBetween)
      (c! "!ABVDM,2,2,7,B,GMK6@,0"))
    (parseSentence demoEnv (run (parseSentence demoEnv Parser.new (c! "!AIVDM,2,1,7,B,:5MlU41,0")).2 demoBetween)
      (c! "!ABVDM,1,1,,B,:5MlU41GMK6@,0")) :=
  (C17_parts_in_order demoEnv demoEnv Parser.new _ _ _ _ _ _ _ _ _ _ demoBetween demoFirst demoSecond demoWhole rfl
    demoOutside).2

/-- C18: part 2 first, any sentences outside the group, then part 1: the same, part 1 still comes first
in the payload. -/
theorem C18_parts_reversed (e1 e2 : Env) (p : Parser) (t1 t2 : Str) (own : Bool) (id : Nat)
    (chan a b s1 s2 s : Str) (h : List (Env × Str))
    (h1 : Part t1 own 1 id chan a s1) (h2 : Part t2 own 2 id chan b s2) (hs : Single t1 own (a ++ b) s)
    (hno : pendingPart p own 1 id chan = none) (hh : ∀ x ∈ h, ¬ InGroup own id chan x.2) :
    (parseSentence e2 p s2).1 = .ok .incomplete ∧
    SameOutcome (parseSentence e1 (run (parseSentence e2 p s2).2 h) s1)
      (parseSentence e1 (run (parseSentence e2 p s2).2 h) s) := by
  have he := eval_part2 e2 p t2 own id chan b s2 h2
  have hno' : p.savedFragments.get (partKey own 1 id chan) = none := hno
  simp only [joinPart, hno'] at he
  refine ⟨by rw [he], ?_⟩
  have hpend : pendingPart (run (parseSentence e2 p s2).2 h) own 2 id chan = some b := by
    rw [part_frame_run _ _ _ _ _ _ hh, he]
    exact KV.get_insert_self _ _ _
  generalize run (parseSentence e2 p s2).2 h = q at hpend
  rw [eval_part1 e1 q t1 own id chan a s1 h1, eval_Single e1 q t1 own _ s hs, stationOf_eq, joinPart]
  rw [show q.savedFragments.get (partKey own 2 id chan) = some b from hpend]
  exact complete_same _ _ _ _ _ _ rfl

/-- The same with the second part first. -/
example : SameOutcome
    (parseSentence demoEnv (run (parseSentence demoEnv Parser.new (c! "!ABVDM,2,2,7,B,GMK6@,0")).2 demoBetween)
      (c! "!AIVDM,2,1,7,B,:5MlU41,0"))
    (parseSentence demoEnv (run (parseSentence demoEnv Parser.new (c! "!ABVDM,2,2,7,B,GMK6@,0")).2 demoBetween)
      (c! "!AIVDM,1,1,,B,:5MlU41GMK6@,0")) :=
  (C18_parts_reversed demoEnv demoEnv Parser.new _ _ _ _ _ _ _ _ _ _ demoBetween demoFirst demoSecond demoWhole' rfl
    demoOutside).2

theorem new_part (h : List (Env × Str)) (own : Bool) (num id : Nat) (chan : Str)
    (hh : ∀ x ∈ h, ¬ InGroup own id chan x.2) : pendingPart (run Parser.new h) own num id chan = none := by
  rw [part_frame_run _ _ _ _ _ _ hh]
  rfl

/-- C17, in terms of sentences only: on a new parser, any sentences outside the group, part 1, any sentences
outside the group, part 2. -/
theorem C17_from_new (e1 e2 : Env) (t1 t2 : Str) (own : Bool) (id : Nat)
    (chan a b s1 s2 s : Str) (h0 h : List (Env × Str))
    (h1 : Part t1 own 1 id chan a s1) (h2 : Part t2 own 2 id chan b s2) (hs : Single t2 own (a ++ b) s)
    (hh0 : ∀ x ∈ h0, ¬ InGroup own id chan x.2) (hh : ∀ x ∈ h, ¬ InGroup own id chan x.2) :
    (parseSentence e2 (run Parser.new (h0 ++ (e1, s1) :: h)) s2).1 =
      (parseSentence e2 (run Parser.new (h0 ++ (e1, s1) :: h)) s).1 := by
  rw [run_append, run]
  exact (C17_parts_in_order e1 e2 (run Parser.new h0) t1 t2 own id chan a b s1 s2 s h h1 h2 hs
    (new_part h0 own 2 id chan hh0) hh).2.1

/-- The result of the whole message, obtained from its parts. -/
example : (parseSentence demoEnv (run Parser.new (demoBetween ++ (demoEnv, c! "!AIVDM,2,1,7,B,:5MlU41,0") ::
      demoBetween)) (c! "!ABVDM,2,2,7,B,GMK6@,0")).1 =
    .ok (.utcDateInquiry ⟨false, .baseStation, 366814480, 366832740⟩) :=
  (C17_from_new demoEnv demoEnv _ _ _ _ _ _ _ _ _ _ demoBetween demoBetween demoFirst demoSecond demoWhole demoOutside
    demoOutside).trans (by decide +kernel)

/-- C18, in terms of sentences only. -/
theorem C18_from_new (e1 e2 : Env) (t1 t2 : Str) (own : Bool) (id : Nat)
    (chan a b s1 s2 s : Str) (h0 h : List (Env × Str))
    (h1 : Part t1 own 1 id chan a s1) (h2 : Part t2 own 2 id chan b s2) (hs : Single t1 own (a ++ b) s)
    (hh0 : ∀ x ∈ h0, ¬ InGroup own id chan x.2) (hh : ∀ x ∈ h, ¬ InGroup own id chan x.2) :
    (parseSentence e1 (run Parser.new (h0 ++ (e2, s2) :: h)) s1).1 =
      (parseSentence e1 (run Parser.new (h0 ++ (e2, s2) :: h)) s).1 := by
  rw [run_append, run]
  exact (C18_parts_reversed e1 e2 (run Parser.new h0) t1 t2 own id chan a b s1 s2 s h h1 h2 hs
    (new_part h0 own 1 id chan hh0) hh).2.1

/-- The same with the second part first; the station is now that of the first part. -/
example : (parseSentence demoEnv (run Parser.new (demoBetween ++ (demoEnv, c! "!ABVDM,2,2,7,B,GMK6@,0") ::
      demoBetween)) (c! "!AIVDM,2,1,7,B,:5MlU41,0")).1 =
    .ok (.utcDateInquiry ⟨false, .mobileStation, 366814480, 366832740⟩) :=
  (C18_from_new demoEnv demoEnv _ _ _ _ _ _ _ _ _ _ demoBetween demoBetween demoFirst demoSecond demoWhole' demoOutside
    demoOutside).trans (by decide +kernel)

/-! ### Isolation -/

/-- C19: a sentence of one group changes no pending part of another group and no pending GSV sentence. -/
theorem C19_other_groups_untouched (env : Env) (p : Parser) (talker : Str) (own : Bool) (num id : Nat)
    (chan payload s : Str) (h : Part talker own num id chan payload s) :
    (∀ own' num' id' chan', (own', id', chan') ≠ (own, id, chan) →
      pendingPart (parseSentence env p s).2 own' num' id' chan' = pendingPart p own' num' id' chan') ∧
    (∀ talker' n k, pendingGsv (parseSentence env p s).2 talker' n k = pendingGsv p talker' n k) := by
  refine ⟨fun own' num' id' chan' hne => part_frame _ _ _ _ _ _ _ ?_, fun talker' n k => ?_⟩
  · rintro ⟨t, m, pl, h'⟩
    obtain ⟨-, rfl, -, rfl, rfl, -⟩ := h.unique h'
    exact hne rfl
  · refine frags_frame env p s _ ?_
    rintro (⟨_, _, _, _, _, _, -, -, hk | hk⟩ | ⟨t, n', k', fs, hg, -⟩)
    · exact partKey_ne_gsvKey _ _ _ _ _ _ _ hk.symm
    · exact partKey_ne_gsvKey _ _ _ _ _ _ _ hk.symm
    · obtain ⟨fs', h', -⟩ := h
      obtain ⟨hl, -⟩ := IsTagged.unique h' hg.1 (by decide) (by decide) (aisKind_noComma _) (by decide)
      exact absurd hl (by decide)

/-- Message 7 leaves the pending first part of message 8. -/
example : pendingPart (parseSentence demoEnv (run Parser.new demoBetween) (c! "!AIVDM,2,1,7,B,:5MlU41,0")).2
    false 1 8 (c! "B") = some (c! ":5MlU41") :=
  ((C19_other_groups_untouched demoEnv _ _ _ _ _ _ _ _ demoFirst).1 _ _ _ _ (by decide)).trans (by decide +kernel)

/-- C19: the result depends on the pending data only through the two parts of the own group (and the static
data). -/
theorem C19_other_groups_irrelevant (env : Env) (p q : Parser) (talker : Str) (own : Bool) (num id : Nat)
    (chan payload s : Str) (h : Part talker own num id chan payload s)
    (hpq : ∀ n, n = 1 ∨ n = 2 → pendingPart p own n id chan = pendingPart q own n id chan)
    (hv : p.savedVsds = q.savedVsds) :
    (parseSentence env p s).1 = (parseSentence env q s).1 := by
  have join : ∀ st mine n pl comb, n = 1 ∨ n = 2 →
      (joinPart env p own st mine (partKey own n id chan) pl comb).1 =
      (joinPart env q own st mine (partKey own n id chan) pl comb).1 := by
    intro st mine n pl comb hn
    have e : p.savedFragments.get (partKey own n id chan) = q.savedFragments.get (partKey own n id chan) :=
      hpq n hn
    simp only [joinPart, e]
    cases q.savedFragments.get (partKey own n id chan) with
    | none => rfl
    | some b => 
      exact (complete_static env own st (comb b) ⟨p.savedFragments.erase (partKey own n id chan), p.savedVsds⟩
        ⟨q.savedFragments.erase (partKey own n id chan), q.savedVsds⟩ hv).1
  by_cases h1 : num = 1
  · subst h1
    rw [eval_part1 env p talker own id chan payload s h, eval_part1 env q talker own id chan payload s h]
    exact join _ _ _ _ _ (.inr rfl)
  by_cases h2 : num = 2
  · subst h2
    rw [eval_part2 env p talker own id chan payload s h, eval_part2 env q talker own id chan payload s h]
    exact join _ _ _ _ _ (.inl rfl)
  have e : ∀ p, (parseSentence env p s).1 = .ok .incomplete := by
    intro p
    have h' := h
    obtain ⟨fs, hs, d0, d1, d2, rfl, rfl⟩ := h
    cases ais_case env p talker own fs s hs with
    | bad m hf _ => rcases hf with hf | hf
                    · exact absurd d0 (hf _)
                    · exact absurd d1 (hf _)
    | single _ h0 => exact absurd (h0.unique d0) (by decide)
    | part1 _ hp => exact absurd (hp.unique h').2.2.1.symm h1
    | part2 _ hp => exact absurd (hp.unique h').2.2.1.symm h2
    | odd _ _ _ _ h => rw [h]
  rw [e, e]

/-- Message 7 is answered alike whether or not other messages are pending. -/
example : (parseSentence demoEnv (run Parser.new demoBetween) (c! "!ABVDM,2,2,7,B,GMK6@,0")).1 =
    (parseSentence demoEnv Parser.new (c! "!ABVDM,2,2,7,B,GMK6@,0")).1 :=
  C19_other_groups_irrelevant demoEnv _ _ _ _ _ _ _ _ _ demoSecond
    (by rintro n (rfl | rfl) <;> decide +kernel) (by decide +kernel)

/-! ### Consumption -/

theorem joinPart_exclusive (env : Env) (p : Parser) (own : Bool) (st : Station) (mine other pl : Str)
    (comb : Str → Str) (hne : mine ≠ other)
    (h : p.savedFragments.get mine = none ∨ p.savedFragments.get other = none) :
    ((joinPart env p own st mine other pl comb).2.savedFragments.get mine = none ∨
      (joinPart env p own st mine other pl comb).2.savedFragments.get other = none) ∧
    (p.savedFragments.get other ≠ none →
      (joinPart env p own st mine other pl comb).2.savedFragments.get mine = none ∧
      (joinPart env p own st mine other pl comb).2.savedFragments.get other = none) := by
  unfold joinPart
  cases ho : p.savedFragments.get other with
  | none =>
    refine ⟨.inr ?_, fun h => absurd rfl h⟩
    show ((p.savedFragments.erase other).insert mine pl).get other = none
    rw [KV.get_insert_ne _ _ _ _ hne.symm, KV.get_erase_self]
  | some b =>
    rw [ho] at h
    have hm : p.savedFragments.get mine = none := by simpa using h
    simp only [complete_frags]
    have h1 : (p.savedFragments.erase other).get other = none := KV.get_erase_self _ _
    have h2 : (p.savedFragments.erase other).get mine = none := by rw [KV.get_erase_ne _ _ _ hne]; exact hm
    exact ⟨.inr h1, fun _ => ⟨h2, h1⟩⟩

theorem exclusive_step (env : Env) (p : Parser) (s : Str)
    (h : ∀ own id chan, pendingPart p own 1 id chan = none ∨ pendingPart p own 2 id chan = none)
    (own : Bool) (id : Nat) (chan : Str) :
    pendingPart (parseSentence env p s).2 own 1 id chan = none ∨
      pendingPart (parseSentence env p s).2 own 2 id chan = none := by
  by_cases hg : InGroup own id chan s
  · obtain ⟨talker, num, pl, hp⟩ := hg
    have key : partKey own 1 id chan ≠ partKey own 2 id chan := fun h => by
      have := (partKey_inj h).2.1
      omega
    by_cases h1 : num = 1
    · subst h1
      rw [eval_part1 env p talker own id chan pl s hp]
      exact (joinPart_exclusive _ _ _ _ _ _ _ _ key (h own id chan)).1
    by_cases h2 : num = 2
    · subst h2
      rw [eval_part2 env p talker own id chan pl s hp]
      exact (joinPart_exclusive _ _ _ _ _ _ _ _ key.symm (h own id chan).symm).1.symm
    · have nt : ∀ n, ¬ Touches s (partKey own n id chan) := by
        rintro n (⟨_, _, _, _, _, _, hp', hn, -⟩ | ⟨t, n', k', fs, -, i, hi⟩)
        · obtain ⟨-, -, rfl, -⟩ := hp.unique hp'
          rcases hn with hn | hn
          · exact h1 hn
          · exact h2 hn
        · exact partKey_ne_gsvKey _ _ _ _ _ _ _ hi
      unfold pendingPart
      rw [frags_frame env p s _ (nt 1), frags_frame env p s _ (nt 2)]
      exact h own id chan
  · rw [part_frame _ _ _ _ _ _ _ hg, part_frame _ _ _ _ _ _ _ hg]
    exact h own id chan

theorem run_invariant {P : Parser → Prop} (h0 : P Parser.new)
    (hs : ∀ env p s, P p → P (parseSentence env p s).2) (p : Parser) (h : Reachable p) : P p := by
  obtain ⟨l, rfl⟩ := h
  have : ∀ q, P q → P (run q l) := by
    induction l with
    | nil => exact fun q hq => hq
    | cons x l ih => exact fun q hq => ih _ (hs _ _ _ hq)
  exact this _ h0

/-- C21: in every reachable state at most one of the two parts of a group is pending. -/
theorem C21_never_both (p : Parser) (h : Reachable p) (own : Bool) (id : Nat) (chan : Str) :
    pendingPart p own 1 id chan = none ∨ pendingPart p own 2 id chan = none :=
  run_invariant (P := fun p => ∀ own id chan, pendingPart p own 1 id chan = none ∨
    pendingPart p own 2 id chan = none) (fun _ _ _ => .inl rfl) exclusive_step p h own id chan

/-- Part 2 is pending, so part 1 is not. -/
example : pendingPart (run Parser.new [(demoEnv, c! "!ABVDM,2,2,7,B,GMK6@,0")]) false 2 7 (c! "B") =
      some (c! "GMK6@") ∧
    pendingPart (run Parser.new [(demoEnv, c! "!ABVDM,2,2,7,B,GMK6@,0")]) false 1 7 (c! "B") = none :=
  have h2 : pendingPart (run Parser.new [(demoEnv, c! "!ABVDM,2,2,7,B,GMK6@,0")]) false 2 7 (c! "B") =
    some (c! "GMK6@") := by decide +kernel
  ⟨h2, (C21_never_both _ ⟨_, rfl⟩ false 7 (c! "B")).resolve_right (by rw [h2]; simp)⟩

/-- C20: a completed message is consumed: when a part is parsed with the other part pending, afterwards
neither part is pending. -/
theorem C20_consumed (env : Env) (p : Parser) (hr : Reachable p) (talker : Str) (own : Bool) (num id : Nat)
    (chan pl s : Str) (h : Part talker own num id chan pl s)
    (hp : num = 1 ∧ pendingPart p own 2 id chan ≠ none ∨ num = 2 ∧ pendingPart p own 1 id chan ≠ none) :
    pendingPart (parseSentence env p s).2 own 1 id chan = none ∧
    pendingPart (parseSentence env p s).2 own 2 id chan = none := by
  have key : partKey own 1 id chan ≠ partKey own 2 id chan := fun h => by
    have := (partKey_inj h).2.1
    omega
  rcases hp with ⟨rfl, hp⟩ | ⟨rfl, hp⟩
  · rw [eval_part1 env p talker own id chan pl s h]
    exact (joinPart_exclusive _ _ _ _ _ _ _ _ key (C21_never_both p hr own id chan)).2 hp
  · rw [eval_part2 env p talker own id chan pl s h]
    exact ((joinPart_exclusive _ _ _ _ _ _ _ _ key.symm (C21_never_both p hr own id chan).symm).2 hp).symm

/-- The message of `demoFirst` and `demoSecond` is complete: neither part stays. -/
example : pendingPart (parseSentence demoEnv (run Parser.new [(demoEnv, c! "!AIVDM,2,1,7,B,:5MlU41,0")])
    (c! "!ABVDM,2,2,7,B,GMK6@,0")).2 false 1 7 (c! "B") = none :=
  (C20_consumed demoEnv _ ⟨_, rfl⟩ _ _ _ _ _ _ _ demoSecond (.inr ⟨rfl, by decide +kernel⟩)).1

/-- C20: so parsing part 1 or part 2 again waits for a new counterpart. -/
theorem C20_again_incomplete (env env' : Env) (p : Parser) (hr : Reachable p) (talker talker' : Str)
    (own : Bool) (num num' id : Nat) (chan pl pl' s s' : Str) (h : Part talker own num id chan pl s)
    (h' : Part talker' own num' id chan pl' s') (hn : num' = 1 ∨ num' = 2)
    (hp : num = 1 ∧ pendingPart p own 2 id chan ≠ none ∨ num = 2 ∧ pendingPart p own 1 id chan ≠ none) :
    (parseSentence env' (parseSentence env p s).2 s').1 = .ok .incomplete := by
  obtain ⟨h1, h2⟩ := C20_consumed env p hr talker own num id chan pl s h hp
  generalize (parseSentence env p s).2 = q at h1 h2
  simp only [pendingPart] at h1 h2
  rcases hn with rfl | rfl
  · rw [eval_part1 env' q talker' own id chan pl' s' h']
    simp only [joinPart, h2]
  · rw [eval_part2 env' q talker' own id chan pl' s' h']
    simp only [joinPart, h1]

/-- The second part once more, after the message was complete. -/
example : (parseSentence demoEnv (parseSentence demoEnv
    (run Parser.new [(demoEnv, c! "!AIVDM,2,1,7,B,:5MlU41,0")]) (c! "!ABVDM,2,2,7,B,GMK6@,0")).2
    (c! "!ABVDM,2,2,7,B,GMK6@,0")).1 = .ok .incomplete :=
  C20_again_incomplete demoEnv demoEnv _ ⟨_, rfl⟩ _ _ _ _ _ _ _ _ _ _ _ demoSecond demoSecond (.inr rfl)
    (.inr ⟨rfl, by decide +kernel⟩)

/-! ### Unsupported fragmentation -/

/-- C22: other fragment counts, two-part sentences without numeric message id and other fragment numbers
yield `Incomplete` and change nothing. -/
theorem C22_unsupported_fragmentation (env : Env) (p : Parser) (talker : Str) (own : Bool) (fs : List Str)
    (s : Str) (h : IsAis talker own fs s) (count num : Nat) (h0 : Dec 255 (field fs 0) count)
    (h1 : Dec 255 (field fs 1) num)
    (hc : count = 0 ∨ 3 ≤ count ∨
      count = 2 ∧ ((∀ id, ¬ Dec (2 ^ 64 - 1) (field fs 2) id) ∨ num ≠ 1 ∧ num ≠ 2)) :
    parseSentence env p s = (.ok .incomplete, p) := by
  have hc2 : count = 2 → (∀ id, ¬ Dec (2 ^ 64 - 1) (field fs 2) id) ∨ num ≠ 1 ∧ num ≠ 2 := by
    intro h2
    rcases hc with rfl | hc | ⟨-, hc⟩
    · omega
    · omega
    · exact hc
  cases ais_case env p talker own fs s h with
  | bad m hf _ =>
    rcases hf with hf | hf
    · exact absurd h0 (hf _)
    · exact absurd h1 (hf _)
  | single _ d0 =>
    obtain rfl := d0.unique h0
    rcases hc with hc | hc | ⟨hc, -⟩ <;> omega
  | part1 id hp _ =>
    obtain ⟨fs', h', d0, d1, d2, -⟩ := hp
    obtain ⟨-, -, rfl⟩ := h.unique h'
    obtain rfl := d0.unique h0
    rcases hc2 rfl with hc | ⟨hc, -⟩
    · exact absurd d2 (hc _)
    · exact absurd (d1.unique h1).symm hc
  | part2 id hp _ =>
    obtain ⟨fs', h', d0, d1, d2, -⟩ := hp
    obtain ⟨-, -, rfl⟩ := h.unique h'
    obtain rfl := d0.unique h0
    rcases hc2 rfl with hc | ⟨-, hc⟩
    · exact absurd d2 (hc _)
    · exact absurd (d1.unique h1).symm hc
  | odd _ _ _ _ h => exact h

/-- A part of a three-part message, and a part of two without message id. -/
example (env : Env) (p : Parser) : parseSentence env p (c! "!AIVDM,3,2,7,B,0,0") = (.ok .incomplete, p) ∧
    parseSentence env p (c! "!AIVDM,2,1,,B,0,0") = (.ok .incomplete, p) :=
  ⟨C22_unsupported_fragmentation env p (c! "AI") false [c! "3", c! "2", c! "7", c! "B", c! "0", c! "0"] _
    (demoTagged .bare (by decide)) 3 2 (demoDec (by decide)) (demoDec (by decide)) (.inr (.inl (by decide))),
   C22_unsupported_fragmentation env p (c! "AI") false [c! "2", c! "1", [], c! "B", c! "0", c! "0"] _
    (demoTagged .bare (by decide)) 2 1 (demoDec (by decide)) (demoDec (by decide))
    (.inr (.inr ⟨rfl, .inl (by rintro id ⟨ds, rfl | h, hd, -⟩; exacts [hd.1 rfl, by cases h])⟩))⟩

/-! ### Repeated parts -/

theorem after_part1 (env : Env) (p : Parser) (talker : Str) (own : Bool) (id : Nat) (chan pl s : Str)
    (h : Part talker own 1 id chan pl s) : pendingPart (parseSentence env p s).2 own 2 id chan = none := by
  have key : partKey own 1 id chan ≠ partKey own 2 id chan := fun h => by
    have := (partKey_inj h).2.1
    omega
  rw [eval_part1 env p talker own id chan pl s h]
  unfold joinPart pendingPart
  split
  · rw [complete_frags]; exact KV.get_erase_self _ _
  · show ((p.savedFragments.erase _).insert _ pl).get _ = none
    rw [KV.get_insert_ne _ _ _ _ key.symm, KV.get_erase_self]

theorem after_part2 (env : Env) (p : Parser) (talker : Str) (own : Bool) (id : Nat) (chan pl s : Str)
    (h : Part talker own 2 id chan pl s) : pendingPart (parseSentence env p s).2 own 1 id chan = none := by
  have key : partKey own 2 id chan ≠ partKey own 1 id chan := fun h => by
    have := (partKey_inj h).2.1
    omega
  rw [eval_part2 env p talker own id chan pl s h]
  unfold joinPart pendingPart
  split
  · rw [complete_frags]; exact KV.get_erase_self _ _
  · show ((p.savedFragments.erase _).insert _ pl).get _ = none
    rw [KV.get_insert_ne _ _ _ _ key.symm, KV.get_erase_self]

/-- C23: when part 1 is parsed twice before part 2, the second copy is the one that counts. -/
theorem C23_last_part1_wins (e0 e1 e2 : Env) (p : Parser) (t0 t1 t2 : Str) (own : Bool) (id : Nat)
    (chan a0 a b s0 s1 s2 s : Str) (h h' : List (Env × Str))
    (h0 : Part t0 own 1 id chan a0 s0) (h1 : Part t1 own 1 id chan a s1)
    (h2 : Part t2 own 2 id chan b s2) (hs : Single t2 own (a ++ b) s)
    (hh : ∀ x ∈ h, ¬ InGroup own id chan x.2) (hh' : ∀ x ∈ h', ¬ InGroup own id chan x.2) :
    (parseSentence e2 (run p ((e0, s0) :: h ++ (e1, s1) :: h')) s2).1 =
      (parseSentence e2 (run p ((e0, s0) :: h ++ (e1, s1) :: h')) s).1 := by
  rw [run_append, run, run]
  refine (C17_parts_in_order e1 e2 _ t1 t2 own id chan a b s1 s2 s h' h1 h2 hs ?_ hh').2.1
  rw [part_frame_run _ _ _ _ _ _ hh]
  exact after_part1 _ _ _ _ _ _ _ _ h0

/-- A first part of another payload, then the right one. -/
example : (parseSentence demoEnv (run Parser.new ((demoEnv, c! "!AIVDM,2,1,7,B,15M67F0,0") :: demoBetween ++
      (demoEnv, c! "!AIVDM,2,1,7,B,:5MlU41,0") :: demoBetween)) (c! "!ABVDM,2,2,7,B,GMK6@,0")).1 =
    .ok (.utcDateInquiry ⟨false, .baseStation, 366814480, 366832740⟩) :=
  (C23_last_part1_wins demoEnv demoEnv demoEnv Parser.new _ _ _ _ _ _ _ _ _ _ _ _ _ demoBetween demoBetween demoFirst'
    demoFirst demoSecond demoWhole demoOutside demoOutside).trans (by decide +kernel)

/-- C23: and symmetrically for part 2. -/
theorem C23_last_part2_wins (e0 e1 e2 : Env) (p : Parser) (t0 t1 t2 : Str) (own : Bool) (id : Nat)
    (chan a b0 b s0 s1 s2 s : Str) (h h' : List (Env × Str))
    (h0 : Part t0 own 2 id chan b0 s0) (h2 : Part t2 own 2 id chan b s2)
    (h1 : Part t1 own 1 id chan a s1) (hs : Single t1 own (a ++ b) s)
    (hh : ∀ x ∈ h, ¬ InGroup own id chan x.2) (hh' : ∀ x ∈ h', ¬ InGroup own id chan x.2) :
    (parseSentence e1 (run p ((e0, s0) :: h ++ (e2, s2) :: h')) s1).1 =
      (parseSentence e1 (run p ((e0, s0) :: h ++ (e2, s2) :: h')) s).1 := by
  rw [run_append, run, run]
  refine (C18_parts_reversed e1 e2 _ t1 t2 own id chan a b s1 s2 s h' h1 h2 hs ?_ hh').2.1
  rw [part_frame_run _ _ _ _ _ _ hh]
  exact after_part2 _ _ _ _ _ _ _ _ h0

/-- The same for the second part. -/
example : (parseSentence demoEnv (run Parser.new ((demoEnv, c! "!AIVDM,2,2,7,B,000,0") :: demoBetween ++
      (demoEnv, c! "!ABVDM,2,2,7,B,GMK6@,0") :: demoBetween)) (c! "!AIVDM,2,1,7,B,:5MlU41,0")).1 =
    .ok (.utcDateInquiry ⟨false, .mobileStation, 366814480, 366832740⟩) :=
  (C23_last_part2_wins demoEnv demoEnv demoEnv Parser.new _ _ _ _ _ _ _ _ _ _ _ _ _ demoBetween demoBetween demoSecond'
    demoSecond demoFirst demoWhole' demoOutside demoOutside).trans (by decide +kernel)

/-! ### Talkers -/

/-- C24: parts of different talkers are combined, and a result that carries a station carries that of the
part parsed last. -/
theorem C24_talkers_combined (e1 e2 : Env) (p : Parser) (t1 t2 : Str) (own : Bool) (id : Nat)
    (chan a b s1 s2 s : Str) (h : List (Env × Str))
    (h1 : Part t1 own 1 id chan a s1) (h2 : Part t2 own 2 id chan b s2) (hs : Single t2 own (a ++ b) s)
    (hno : pendingPart p own 2 id chan = none) (hh : ∀ x ∈ h, ¬ InGroup own id chan x.2) :
    (parseSentence e2 (run (parseSentence e1 p s1).2 h) s2).1 =
      (parseSentence e2 (run (parseSentence e1 p s1).2 h) s).1 :=
  (C17_parts_in_order e1 e2 p t1 t2 own id chan a b s1 s2 s h h1 h2 hs hno hh).2.1

/-- `demoFirst` comes from a mobile station (`AI`), `demoSecond` from a base station (`AB`). -/
example : (parseSentence demoEnv (run (parseSentence demoEnv Parser.new (c! "!AIVDM,2,1,7,B,:5MlU41,0")).2
      demoBetween) (c! "!ABVDM,2,2,7,B,GMK6@,0")).1 =
    .ok (.utcDateInquiry ⟨false, .baseStation, 366814480, 366832740⟩) :=
  (C24_talkers_combined demoEnv demoEnv Parser.new _ _ _ _ _ _ _ _ _ _ demoBetween demoFirst demoSecond demoWhole rfl
    demoOutside).trans (by decide +kernel)

/-- C24: concretely, part 1 from a base station (`AB`) and part 2 from a mobile station (`AI`) give one
report, attributed to the mobile station. -/
theorem C24_talkers_counterexample :
    ∃ d, (parseSentence demoEnv (parseSentence demoEnv Parser.new (c! "!ABVDM,2,1,7,B,:5MlU41,0")).2
        (c! "!AIVDM,2,2,7,B,GMK6@,0")).1 = .ok (.utcDateInquiry d) ∧ d.station = .mobileStation :=
  ⟨⟨false, .mobileStation, 366814480, 366832740⟩, by decide, rfl⟩

end Nmea
