/-
C94-C97: related sentences have related answers.
-/
import Verif.Lemmas.Symmetry
import Verif.Props.Loss

namespace Nmea
open Spec

/-! ### Build profile -/

/-- C94: where a build with overflow checks does not panic, a build without them gives the same answer and leaves the
same pending data. -/
theorem C94_same_answer (env : Env) (p : Parser) (s : Str) (h : (parseSentence (build true env) p s).1 ≠ .panic) :
    parseSentence (build false env) p s = parseSentence (build true env) p s := parse_release env p s h

/-- A sentence that does not panic. -/
example : parseSentence (build false demoEnv) Parser.new (c! "!ABVDM,1,1,,B,:5MlU41GMK6@,0") =
    parseSentence (build true demoEnv) Parser.new (c! "!ABVDM,1,1,,B,:5MlU41GMK6@,0") :=
  C94_same_answer demoEnv Parser.new _ (by decide +kernel)

/-- C94: so for whole histories: as long as the build with overflow checks has not panicked, the answers of the two
builds agree. -/
theorem C94_same_history (h : List (Env × Str)) (hh : .panic ∉ answers Parser.new (buildAll true h)) :
    answers Parser.new (buildAll false h) = answers Parser.new (buildAll true h) ∧
    run Parser.new (buildAll false h) = run Parser.new (buildAll true h) := by
  generalize Parser.new = p at *
  induction h generalizing p with
  | nil => exact ⟨rfl, rfl⟩
  | cons x h ih =>
    obtain ⟨env, s⟩ := x
    simp only [buildAll, List.map_cons, answers, run, List.mem_cons, not_or] at hh ⊢
    rw [parse_release env p s (fun e => hh.1 e.symm)]
    obtain ⟨h1, h2⟩ := ih _ hh.2
    exact ⟨congrArg _ h1, h2⟩

/-- A history without panic. -/
example : answers Parser.new (buildAll false
      [(demoEnv, c! "!AIVDM,2,1,7,B,:5MlU41,0"), (demoEnv, c! "$GPGSV,2,1,00"), (demoEnv, c! "x,y"),
       (demoEnv, c! "!AIVDM,2,2,7,B,GMK6@,0")]) =
    answers Parser.new (buildAll true
      [(demoEnv, c! "!AIVDM,2,1,7,B,:5MlU41,0"), (demoEnv, c! "$GPGSV,2,1,00"), (demoEnv, c! "x,y"),
       (demoEnv, c! "!AIVDM,2,2,7,B,GMK6@,0")]) :=
  (C94_same_history _ (by decide +kernel)).1

/-- C94: the builds do differ where the checked one panics: a payload character below `0`. -/
theorem C94_difference :
    (parseSentence (build true demoEnv) Parser.new (c! "!AIVDM,1,1,,A,:5MlU41/MK6@,0")).1 = .panic ∧
    ∃ d, (parseSentence (build false demoEnv) Parser.new (c! "!AIVDM,1,1,,A,:5MlU41/MK6@,0")).1 =
      .ok (.utcDateInquiry d) := ⟨by decide +kernel, _, rfl⟩

/-! ### Talker -/

/-- C95: of two AIS sentences that differ in the talker only, the second has the answer of the first with the station
of its own talker, and leaves the same pending data. -/
theorem C95_station (env : Env) (p : Parser) (t t' : Str) (own : Bool) (fs : List Str) (s s' : Str)
    (h : IsAis t own fs s) (h' : IsAis t' own fs s') :
    parseSentence env p s' =
      (onReport (withStation (talkerStation t')) (parseSentence env p s).1, (parseSentence env p s).2) := by
  rw [eval_fields env p t own fs s h, eval_fields env p t' own fs s' h', vdmLoop_fields _ _ h.2.2.1,
    vdmLoop_fields _ _ h.2.2.1]
  split
  · rfl
  · rfl
  · rename_i v _
    generalize assemble ('!' :: aisKind own) v p = r
    obtain ⟨o, q⟩ := r
    cases o with
    | none => rfl
    | some pl =>
      simp only [← stationOf_eq]
      exact complete_station env _ _ own pl q

/-- The same message from a mobile station and from a base station. -/
example (env : Env) (p : Parser) : parseSentence env p (c! "!BSVDM,1,1,,A,:5MlU41GMK6@") =
    (onReport (withStation (talkerStation (c! "BS"))) (parseSentence env p (c! "!AIVDM,1,1,,A,:5MlU41GMK6@")).1,
      (parseSentence env p (c! "!AIVDM,1,1,,A,:5MlU41GMK6@")).2) :=
  C95_station env p (c! "AI") (c! "BS") false [c! "1", c! "1", [], c! "A", c! ":5MlU41GMK6@"] (c! "!AIVDM,1,1,,A,:5MlU41GMK6@")
    (c! "!BSVDM,1,1,,A,:5MlU41GMK6@")
    (demoTagged .bare (by decide)) (demoTagged .bare (by decide))

/-- C95: likewise for GGA, RMC, GSA, VTG and GLL sentences and the source. -/
theorem C95_source (env : Env) (p : Parser) (t t' kind : Str) (fs : List Str) (s s' : Str)
    (hk : kind ∈ [c! "GGA", c! "RMC", c! "GSA", c! "VTG", c! "GLL"])
    (h : IsGnss t kind fs s) (h' : IsGnss t' kind fs s') :
    parseSentence env p s' =
      (onReport (withSource (talkerSystem t')) (parseSentence env p s).1, (parseSentence env p s).2) := by
  have hb : byteLen kind = 3 ∧ ',' ∉ kind ∧ kind ≠ c! "GSV" ∧ kind ∈ gnssKinds := by
    simp only [List.mem_cons, List.not_mem_nil, or_false] at hk
    rcases hk with rfl | rfl | rfl | rfl | rfl <;> decide
  obtain ⟨h1, h2, h3, h4, h5⟩ := gnss_tag env.now _ _ fs _ _ (talkerSystem t')
    (splitChar_tag '$' t kind fs (by decide) h.1 hb.2.1 h.2.1)
    (splitChar_tag '$' t' kind fs (by decide) h'.1 hb.2.1 h'.2.1)
  have e := eval_gnss env p t kind fs s hb.1 hb.2.1 h
  have e' := eval_gnss env p t' kind fs s' hb.1 hb.2.1 h'
  cases e with
  | gga hk hx =>
    subst hk
    cases e' with
    | gga _ hx' => rw [hx, hx', h1, ← gga_source]
    | other hk _ => exact absurd hb.2.2.2 hk
    | _ hk _ => cases hk
  | rmc hk hx =>
    subst hk
    cases e' with
    | rmc _ hx' => rw [hx, hx', h2, ← rmc_source]
    | other hk _ => exact absurd hb.2.2.2 hk
    | _ hk _ => cases hk
  | gsa hk hx =>
    subst hk
    cases e' with
    | gsa _ hx' => rw [hx, hx', h3, ← gsa_source]
    | other hk _ => exact absurd hb.2.2.2 hk
    | _ hk _ => cases hk
  | gsv hk _ => exact absurd hk hb.2.2.1
  | vtg hk hx =>
    subst hk
    cases e' with
    | vtg _ hx' => rw [hx, hx', h4, ← vtg_source]
    | other hk _ => exact absurd hb.2.2.2 hk
    | _ hk _ => cases hk
  | gll hk hx =>
    subst hk
    cases e' with
    | gll _ hx' => rw [hx, hx', h5, ← gll_source]
    | other hk _ => exact absurd hb.2.2.2 hk
    | _ hk _ => cases hk
  | other hk _ => exact absurd hb.2.2.2 hk

/-- The same sentence from GPS and from GLONASS. -/
example (env : Env) (p : Parser) : parseSentence env p (c! "$GLGLL,,,,,120000") =
    (onReport (withSource .glonass) (parseSentence env p (c! "$GPGLL,,,,,120000")).1,
      (parseSentence env p (c! "$GPGLL,,,,,120000")).2) :=
  C95_source env p (c! "GP") (c! "GL") (c! "GLL") [[], [], [], [], c! "120000"] _ _ (by decide)
    (demoTagged .bare (by decide)) (demoTagged .bare (by decide))

theorem satellites_source (nav nav' : NavigationSystem) (fs : List Str) :
    satellites nav' fs = (satellites nav fs).map fun d => { d with source := nav' } := by
  rw [satellites, satellites, List.map_filterMap]
  refine List.filterMap_congr (fun j _ => ?_)
  simp only [satellite, Option.map_map, Function.comp_def]

/-- C95: two GSV streams that differ in the talker only have the same answers but for the source. -/
theorem C95_gsv_source (t t' : Str) (h h' : List (Env × Str))
    (hh : List.Forall₂ (fun x x' => x.1 = x'.1 ∧ ∃ n k fs, GsvPart t n k fs x.2 ∧ GsvPart t' n k fs x'.2) h h') :
    answers Parser.new h' = (answers Parser.new h).map (onReport (withSource (talkerSystem t'))) := by
  suffices H : ∀ m m' p p', Rel p m → Rel p' m' → (∀ n j, m'.gsv t' n j = m.gsv t n j) →
      answers p' h' = (answers p h).map (onReport (withSource (talkerSystem t'))) from
    H _ _ _ _ rel_new rel_new (fun _ _ => rfl)
  induction hh with
  | nil => intros; rfl
  | @cons x x' h h' hx _ ih =>
    intro m m' p p' hp hp' hs
    obtain ⟨env, s⟩ := x
    obtain ⟨env', s'⟩ := x'
    obtain ⟨rfl, n, k, fs, g, g'⟩ := hx
    simp only [] at g g'
    have hset : ∀ n' j, (m'.setGsv t' n k fs).gsv t' n' j = (m.setGsv t n k fs).gsv t n' j := by
      intro n' j
      simp only [Memory.setGsv, true_and, hs]
    have fin : ∀ a a' m1 m1', Step env m s a m1 → Step env m' s' a' m1' →
        a' = onReport (withSource (talkerSystem t')) a → (∀ n j, m1'.gsv t' n j = m1.gsv t n j) →
        answers p' ((env, s') :: h') =
          (answers p ((env, s) :: h)).map (onReport (withSource (talkerSystem t'))) := by
      intro a a' m1 m1' s1 s2 ha hm
      obtain ⟨e1, r1⟩ := step_rel env p m m1 s a hp s1
      obtain ⟨e2, r2⟩ := step_rel env p' m' m1' s' a' hp' s2
      rw [answers, answers, e1, e2, ha, List.map_cons, ih _ _ _ _ r1 r2 hm]
    by_cases hn : n < 2 ^ 32 - 1
    · by_cases hw : ∃ j, 1 ≤ j ∧ j ≤ n ∧ j ≠ k ∧ m.gsv t n j = none
      · exact fin _ _ _ _ (.gsvWaits g hn hw) (.gsvWaits g' hn (by simpa only [hs] using hw)) rfl hset
      · have hw' : ∀ j, 1 ≤ j → j ≤ n → j ≠ k → m.gsv t n j ≠ none := fun j h1 h2 h3 h4 => hw ⟨j, h1, h2, h3, h4⟩
        refine fin _ _ _ _ (.gsvDone g hn hw') (.gsvDone g' hn (by simpa only [hs] using hw')) ?_ ?_
        · rw [onReport_ok, withSource, List.map_flatMap]
          refine congrArg (fun l => Out.ok (ParsedSentence.gsv l)) (List.flatMap_congr (fun j _ => ?_))
          rw [hset, satellites_source (talkerSystem t)]
        · intro n' j
          simp only [Memory.clearGsv, true_and, hset]
    · obtain rfl : n = 2 ^ 32 - 1 := by
        have : n ≤ 2 ^ 32 - 1 := by
          rcases g.2.1 with ⟨_, rfl⟩ | hd
          · omega
          · obtain ⟨_, _, _, _, hle⟩ := hd
            exact hle
        omega
      refine fin _ _ _ _ (.gsvHuge g) (.gsvHuge g') ?_ hset
      cases env.overflowChecks <;> rfl

/-- GSV streams of two talkers. -/
example : List.Forall₂ (fun x x' : Env × Str => x.1 = x'.1 ∧
      ∃ n k fs, GsvPart (c! "GP") n k fs x.2 ∧ GsvPart (c! "GL") n k fs x'.2)
    [(demoEnv, c! "$GPGSV,2,1,00"), (demoEnv, c! "$GPGSV,2,2,00")]
    [(demoEnv, c! "$GLGSV,2,1,00"), (demoEnv, c! "$GLGSV,2,2,00")] := by
  refine .cons ⟨rfl, 2, 1, [c! "2", c! "1", c! "00"], ?_, ?_⟩ (.cons ⟨rfl, 2, 2, [c! "2", c! "2", c! "00"], ?_, ?_⟩ .nil)
  all_goals exact ⟨demoTagged .bare (by decide), .inr (demoDec (by decide)), .inr (demoDec (by decide))⟩

/-! ### VDM and VDO -/

/-- C96: an unfragmented VDM or VDO sentence with the same talker and payload has the same answer but for the
own-vessel flag; a refusal of the message type names the sentence type. -/
theorem C96_own_vessel (env : Env) (p : Parser) (t : Str) (own own' : Bool) (pl s s' : Str)
    (h : Single t own pl s) (h' : Single t own' pl s') :
    EqualButOwn own' (parseSentence env p s).1 (parseSentence env p s').1 := by
  rw [eval_Single env p t own pl s h, eval_Single env p t own' pl s' h']
  exact complete_own env _ own own' pl p p rfl

/-- A message as VDM and as VDO. -/
example (env : Env) (p : Parser) : EqualButOwn true (parseSentence env p (c! "!AIVDM,1,1,,B,:5MlU41GMK6@,0")).1
    (parseSentence env p (c! "!AIVDO,1,1,,B,:5MlU41GMK6@,0")).1 :=
  C96_own_vessel env p (c! "AI") false true (c! ":5MlU41GMK6@") _ _ demoWhole'
    (demoAlone [c! "1", c! "1", [], c! "B", c! ":5MlU41GMK6@", c! "0"] .bare (by decide) (by decide))

/-- C96: likewise if part 1 of a two-part message arrives in a new parser and then part 2. -/
theorem C96_own_vessel_parts (e1 e2 : Env) (t1 t2 : Str) (own own' : Bool) (id : Nat) (chan a b s1 s2 s1' s2' : Str)
    (h1 : Part t1 own 1 id chan a s1) (h2 : Part t2 own 2 id chan b s2)
    (h1' : Part t1 own' 1 id chan a s1') (h2' : Part t2 own' 2 id chan b s2') :
    EqualButOwn own' (parseSentence e2 (parseSentence e1 Parser.new s1).2 s2).1
      (parseSentence e2 (parseSentence e1 Parser.new s1').2 s2').1 := by
  have key : ∀ own s1 s2, Part t1 own 1 id chan a s1 → Part t2 own 2 id chan b s2 →
      (parseSentence e2 (parseSentence e1 Parser.new s1).2 s2).1 =
        (complete e2 own (talkerStation t2) (a ++ b) Parser.new).1 := by
    intro own s1 s2 h1 h2
    rw [eval_part1 e1 Parser.new t1 own id chan a s1 h1, joinPart,
      show Parser.new.savedFragments.get (partKey own 2 id chan) = none from rfl]
    rw [eval_part2 e2 _ t2 own id chan b s2 h2, joinPart]
    simp only [KV.get_insert_self]
    refine congrArg (fun q => (complete e2 own (talkerStation t2) (a ++ b) q).1) ?_
    simp [Parser.new, KV.erase, KV.insert, KV.empty]
  rw [key own s1 s2 h1 h2, key own' s1' s2' h1' h2']
  exact complete_own e2 _ own own' (a ++ b) _ _ rfl

/-- The same in two parts. -/
example : EqualButOwn true
    (parseSentence demoEnv (parseSentence demoEnv Parser.new (c! "!AIVDM,2,1,7,B,:5MlU41,0")).2 (c! "!ABVDM,2,2,7,B,GMK6@,0")).1
    (parseSentence demoEnv (parseSentence demoEnv Parser.new (c! "!AIVDO,2,1,7,B,:5MlU41,0")).2 (c! "!ABVDO,2,2,7,B,GMK6@,0")).1 :=
  C96_own_vessel_parts demoEnv demoEnv (c! "AI") (c! "AB") false true 7 (c! "B") (c! ":5MlU41") (c! "GMK6@") _ _ _ _ demoFirst demoSecond
    (demoPart [c! "2", c! "1", c! "7", c! "B", c! ":5MlU41", c! "0"] .bare (by decide) (by decide))
    (demoPart [c! "2", c! "2", c! "7", c! "B", c! "GMK6@", c! "0"] .bare (by decide) (by decide))

/-! ### What counts in a sentence -/

/-- C97: unfragmented sentences with the same talker, kind and payload have the same answer and effect: fragment
number, message id, channel, fill bits, further fields and checksum do not count. -/
theorem C97_single (env : Env) (p : Parser) (t : Str) (own : Bool) (pl s s' : Str)
    (h : Single t own pl s) (h' : Single t own pl s') : parseSentence env p s = parseSentence env p s' := by
  rw [eval_Single env p t own pl s h, eval_Single env p t own pl s' h']

/-- Two spellings of one message: with and without fill bits and checksum, on different channels. -/
example (env : Env) (p : Parser) : parseSentence env p (c! "!AIVDM,1,1,,A,:5MlU41GMK6@,0*6F") =
    parseSentence env p (c! "!AIVDM,01,200,9,B,:5MlU41GMK6@") :=
  C97_single env p (c! "AI") false (c! ":5MlU41GMK6@") _ _
    ⟨[c! "1", c! "1", [], c! "A", c! ":5MlU41GMK6@", c! "0"], 1, demoTagged .full (by decide),
      demoDec (by decide), demoDec (by decide), rfl⟩
    ⟨[c! "01", c! "200", c! "9", c! "B", c! ":5MlU41GMK6@"], 200, demoTagged .bare (by decide),
      demoDec (by decide), demoDec (by decide), rfl⟩

/-- C97: parts of two with the same talker, kind, number, id, channel and payload have the same answer and effect. -/
theorem C97_part (env : Env) (p : Parser) (t : Str) (own : Bool) (num id : Nat) (chan pl s s' : Str)
    (h : Part t own num id chan pl s) (h' : Part t own num id chan pl s') (hn : num = 1 ∨ num = 2) :
    parseSentence env p s = parseSentence env p s' := by
  rcases hn with rfl | rfl
  · rw [eval_part1 env p t own id chan pl s h, eval_part1 env p t own id chan pl s' h']
  · rw [eval_part2 env p t own id chan pl s h, eval_part2 env p t own id chan pl s' h']

/-- Two spellings of a first part. -/
example (env : Env) (p : Parser) : parseSentence env p (c! "!AIVDM,2,1,7,B,:5MlU41,0") =
    parseSentence env p (c! "!AIVDM,02,+1,007,B,:5MlU41") :=
  C97_part env p (c! "AI") false 1 7 (c! "B") (c! ":5MlU41") _ _ demoFirst
    ⟨[c! "02", c! "+1", c! "007", c! "B", c! ":5MlU41"], demoTagged .bare (by decide),
      demoDec (by decide), ⟨c! "1", .inr rfl, ⟨by decide, by decide⟩, by decide, by decide⟩, demoDec (by decide), rfl, rfl⟩
    (.inl rfl)

end Nmea
