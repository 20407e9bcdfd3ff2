/-
C137: the type 24 messages of a vessel, in one sentence or in two parts, among anything else.
-/
import Verif.Spec.Heard
import Verif.Spec.Streams
import Verif.Lemmas.Divide
import Verif.Lemmas.Loss
import Verif.Lemmas.Values
import Verif.Lemmas.Demo
import Verif.Props.Commute

namespace Nmea
open Spec

theorem completes_unique {p : Parser} {s x y : Str} {own own' : Bool} (h : Completes p s own x) (h' : Completes p s own' y) :
    own = own' ∧ x = y := by
  cases h with
  | single t _ h =>
    cases h' with
    | single _ _ h' => exact (h.unique h').2
    | first _ _ _ _ _ h' _ => exact absurd ⟨_, _, _, h'⟩ h.notInGroup
    | second _ _ _ _ _ h' _ => exact absurd ⟨_, _, _, h'⟩ h.notInGroup
  | first _ _ _ a b h hw =>
    cases h' with
    | single _ _ h' => exact absurd ⟨_, _, _, h⟩ h'.notInGroup
    | first _ _ _ a' b' h' hw' =>
      obtain ⟨-, rfl, -, rfl, rfl, rfl⟩ := h.unique h'
      rw [hw] at hw'; cases hw'; exact ⟨rfl, rfl⟩
    | second _ _ _ _ _ h' _ => exact absurd (h.unique h').2.2.1 (by decide)
  | second _ _ _ a b h hw =>
    cases h' with
    | single _ _ h' => exact absurd ⟨_, _, _, h⟩ h'.notInGroup
    | first _ _ _ _ _ h' _ => exact absurd (h.unique h').2.2.1 (by decide)
    | second _ _ _ a' b' h' hw' =>
      obtain ⟨-, rfl, -, rfl, rfl, rfl⟩ := h.unique h'
      rw [hw] at hw'; cases hw'; exact ⟨rfl, rfl⟩

/-- A sentence that does not complete a part of the vessel leaves what waits of it. -/
theorem hears_frame (env : Env) (p : Parser) (hp : Reachable p) (s : Str) (mmsi : Nat)
    (h : ¬ ∃ own bits, Hears24 mmsi env p s own bits) :
    pendingStatic (parseSentence env p s).2 mmsi = pendingStatic p mmsi := by
  obtain ⟨m, hr⟩ := rel_reachable hp
  obtain ⟨a, m', hs⟩ := step_total env m s
  have hr' := (step_rel _ _ _ _ _ _ hr hs).2
  have key : ∀ {m1 m2 : Memory} {t own pl a}, Message env m1 t own pl a m2 → Completes p s own pl →
      m2.static mmsi = m1.static mmsi := by
    intro m1 m2 t own pl a hm hc
    cases hm with
    | plain _ => rfl
    | first hi _ =>
      exact if_neg fun e => h ⟨own, payloadBits pl, ⟨pl, hc, hi.1, rfl, hi.2.1⟩, hi.2.2, e.symm⟩
    | second _ _ hi _ =>
      exact if_neg fun e => h ⟨own, payloadBits pl, ⟨pl, hc, hi.1, rfl, hi.2.1⟩, hi.2.2, e.symm⟩
  have : m'.static mmsi = m.static mmsi := by
    cases hs with
    | single hs hm => exact key hm (.single _ _ hs)
    | waits _ _ _ => rfl
    | first hs hw hm =>
      exact (key hm (.first _ _ _ _ _ hs (by rw [hr.part _ _ _ _ (.inr rfl), hw]; rfl))).trans rfl
    | second hs hw hm =>
      exact (key hm (.second _ _ _ _ _ hs (by rw [hr.part _ _ _ _ (.inl rfl), hw]; rfl))).trans rfl
    | gsvWaits _ _ _ => rfl
    | gsvDone _ _ _ => rfl
    | gsvHuge _ => rfl
    | other _ => rfl
  rw [hr'.static, hr.static, this]

/-- C137: every history, received in any state, contains certain type 24 messages of the vessel with certain answers. -/
theorem C137_total (mmsi : Nat) (p : Parser) (h : List (Env × Str)) :
    ∃ l as, Heard24 mmsi p h l as ∧ ∀ l' as', Heard24 mmsi p h l' as' → l' = l ∧ as' = as := by
  induction h generalizing p with
  | nil => exact ⟨[], [], .nil p, fun l' as' h => by cases h; exact ⟨rfl, rfl⟩⟩
  | cons x h ih =>
    obtain ⟨env, s⟩ := x
    obtain ⟨l, as, h1, h2⟩ := ih (parseSentence env p s).2
    by_cases hx : ∃ own bits, Hears24 mmsi env p s own bits
    · obtain ⟨own, bits, hx⟩ := hx
      refine ⟨_, _, .hit own bits hx h1, ?_⟩
      intro l' as' h'
      cases h' with
      | hit own' bits' hx' h' =>
        obtain ⟨rfl, rfl⟩ := h2 _ _ h'
        obtain ⟨⟨pl, c, -, rfl, -⟩, -⟩ := hx
        obtain ⟨⟨pl', c', -, rfl, -⟩, -⟩ := hx'
        obtain ⟨rfl, rfl⟩ := completes_unique c c'
        exact ⟨rfl, rfl⟩
      | miss hx' _ => exact absurd ⟨_, _, hx⟩ hx'
    · refine ⟨l, as, .miss hx h1, ?_⟩
      intro l' as' h'
      cases h' with
      | hit own' bits' hx' _ => exact absurd ⟨_, _, hx'⟩ hx
      | miss _ h' => exact h2 _ _ h'

/-- The history of the examples: part A in two parts of a message, a GSV sentence between them, then part B. -/
def demoHistory : List (Env × Str) :=
  [(demoEnv, c! "!AIVDM,2,1,7,B,H42O55i18tMET,0"), (demoEnv, c! "$GPGSV,2,1,00"),
    (demoEnv, c! "!AIVDM,2,2,7,B,00000000000000,2"), (demoEnv, c! "!AIVDO,1,1,,A,H42O55lt0000000D3nink000?0500,0")]

theorem demoHeardFrom (p : Parser) (hw : pendingPart p false 2 7 (c! "B") = none)
    (hw' : pendingPart (run p (demoHistory.take 2)) false 1 7 (c! "B") = some (c! "H42O55i18tMET")) :
    ∃ as, Heard24 271041815 p demoHistory
    [(false, payloadBits demoA), (true, payloadBits demoB)] as := by
  have h1 : Part (c! "AI") false 1 7 (c! "B") (c! "H42O55i18tMET") (c! "!AIVDM,2,1,7,B,H42O55i18tMET,0") :=
    ⟨[c! "2", c! "1", c! "7", c! "B", c! "H42O55i18tMET", c! "0"], demoTagged .bare (by decide),
      demoDec (by decide), demoDec (by decide), demoDec (by decide), rfl, rfl⟩
  have h2 : Part (c! "AI") false 2 7 (c! "B") (c! "00000000000000") (c! "!AIVDM,2,2,7,B,00000000000000,2") :=
    ⟨[c! "2", c! "2", c! "7", c! "B", c! "00000000000000", c! "2"], demoTagged .bare (by decide),
      demoDec (by decide), demoDec (by decide), demoDec (by decide), rfl, rfl⟩
  refine ⟨_, .miss ?_ (.miss ?_ (.hit _ _ ?_ (.hit _ _ ⟨demoCompletesB _, by rw [demoPartB]; decide, demoMmsiB⟩ (.nil _))))⟩
  · rintro ⟨own, bits, ⟨pl, hc, -⟩, -⟩
    cases hc with
    | single _ _ h => exact h.notInGroup ⟨_, _, _, h1⟩
    | first _ _ _ _ _ h hp =>
      obtain ⟨-, rfl, -, rfl, rfl, -⟩ := h1.unique h
      rw [hw] at hp; cases hp
    | second _ _ _ _ _ h _ => exact absurd (h1.unique h).2.2.1 (by decide)
  · rintro ⟨own, bits, ⟨pl, hc, -⟩, -⟩
    have hb : ¬ Bang (c! "$GPGSV,2,1,00") := fun ⟨_, e⟩ => absurd (List.cons.inj e).1 (by decide)
    cases hc with
    | single _ _ h => exact hb h.bang
    | first _ _ _ _ _ h hw => exact hb h.bang
    | second _ _ _ _ _ h hw => exact hb h.bang
  · refine ⟨⟨demoA, ?_, fun _ => by decide, rfl, by decide +kernel⟩, by rw [demoPartA]; decide, demoMmsiA⟩
    show Completes _ _ _ (c! "H42O55i18tMET" ++ c! "00000000000000")
    exact .second (c! "AI") 7 (c! "B") _ _ h2 hw'

theorem demoHeard : ∃ as, Heard24 271041815 Parser.new demoHistory
    [(false, payloadBits demoA), (true, payloadBits demoB)] as := demoHeardFrom _ (by decide +kernel) (by decide +kernel)

/-- C137: the type 24 messages of a vessel, in one sentence or in two parts each and among any other sentences, are
answered in pairs: what waits and the first message, or the first and the second, and so on. Nothing else matters. -/
theorem C137_pairs (mmsi : Nat) (p : Parser) (hp : Reachable p) (h : List (Env × Str)) (l : List (Bool × List Bool))
    (as : List Answer) (hh : Heard24 mmsi p h l as) : as = pairAnswers (pendingStatic p mmsi) l := by
  induction hh with
  | nil p => rfl
  | @hit p env s h l as own bits hx _ ih =>
    have ih := ih (reachable_next hp (env, s))
    obtain ⟨hc, hlt, rfl⟩ := hx
    obtain ⟨-, e2, e3⟩ := eval_24 env p s own bits hc
    cases hw : pendingStatic p (mmsiOf bits) with
    | none =>
      obtain ⟨q1, q2⟩ := e2 hlt hw
      rw [pairAnswers, q1, ih, q2]
    | some w =>
      obtain ⟨own', b', rfl, -, -, hb'⟩ := goodStatic_reachable p hp _ _ hw
      obtain ⟨q1, q2⟩ := e3 hlt _ _ hw (merge_overlay own own' bits b' hb'.symm)
      rw [pairAnswers, q1, ih, q2]
  | @miss p env s h l as hx _ ih =>
    rw [ih (reachable_next hp (env, s)), hears_frame env p hp s mmsi hx]

/-- Part A in two sentences, part B in one. -/
example : ∃ as, Heard24 271041815 Parser.new demoHistory [(false, payloadBits demoA), (true, payloadBits demoB)] as ∧
    as = [.ok .incomplete, .ok (.vesselStaticData (overlay (partData true (payloadBits demoB)) (partData false (payloadBits demoA))))] := by
  obtain ⟨as, h⟩ := demoHeard
  exact ⟨as, h, C137_pairs _ _ ⟨[], rfl⟩ _ _ _ h⟩

theorem heard_mmsi {mmsi : Nat} {p : Parser} {h : List (Env × Str)} {l : List (Bool × List Bool)} {as : List Answer}
    (hh : Heard24 mmsi p h l as) : ∀ x ∈ l, mmsiOf x.2 = mmsi := by
  induction hh with
  | nil _ => exact fun _ h => by cases h
  | hit own bits hx _ ih =>
    intro x hm
    rcases List.mem_cons.1 hm with rfl | hm
    · exact hx.2.2
    · exact ih x hm
  | miss _ _ ih => exact ih

theorem mem_flatPairs {α : Type} {l : List (α × α)} {x : α × α} (h : x ∈ l) : x.1 ∈ flatPairs l ∧ x.2 ∈ flatPairs l := by
  induction l with
  | nil => cases h
  | cons y l ih =>
    obtain ⟨a, b⟩ := y
    simp only [flatPairs, List.mem_cons]
    rcases List.mem_cons.1 h with rfl | h
    · exact ⟨.inl rfl, .inr (.inl rfl)⟩
    · exact ⟨.inr (.inr (ih h).1), .inr (.inr (ih h).2)⟩

theorem pairAnswers_reports (w : Option VesselStaticData) (l : List (Bool × List Bool)) :
    reports (pairAnswers w l) = if w.isSome then (l.length + 1) / 2 else l.length / 2 := by
  induction l generalizing w with
  | nil => cases w <;> rfl
  | cons x l ih =>
    cases w with
    | none => simp [pairAnswers, reports, ih]
    | some d => simp [pairAnswers, reports, ih]; omega

theorem pairAnswers_opposite (d : VesselStaticData) (l : List (Bool × List Bool)) (i : Nat) (hi : i < l.length) :
    (pairAnswers none l)[i]? = some (.ok .incomplete) ↔ ¬ (pairAnswers (some d) l)[i]? = some (.ok .incomplete) := by
  induction l generalizing d i with
  | nil => cases hi
  | cons x l ih =>
    cases i with
    | zero => simp [pairAnswers]
    | succ i =>
      simp only [List.length_cons, Nat.add_lt_add_iff_right] at hi
      simp only [pairAnswers, List.getElem?_cons_succ]
      rw [ih (partData x.1 x.2) i hi, not_not]

theorem pairAnswers_own (l : List ((Bool × List Bool) × (Bool × List Bool)))
    (hl : ∀ x ∈ l, partOf x.1.2 = 0 ∧ partOf x.2.2 = 1 ∧ mmsiOf x.1.2 = mmsiOf x.2.2) :
    pairAnswers none (flatPairs l) = ownPairs l := by
  induction l with
  | nil => rfl
  | cons x l ih =>
    obtain ⟨a, b⟩ := x
    obtain ⟨ha, hb, hm⟩ := hl _ List.mem_cons_self
    rw [flatPairs, pairAnswers, pairAnswers, ownPairs, ih fun y hy => hl y (List.mem_cons_of_mem _ hy),
      overlay_BA b.1 a.1 a.2 b.2 ha hb]

theorem pairAnswers_shifted (mmsi : Nat) (l : List ((Bool × List Bool) × (Bool × List Bool)))
    (hl : ∀ x ∈ l, (partOf x.1.2 = 0 ∧ mmsiOf x.1.2 = mmsi) ∧ (partOf x.2.2 = 1 ∧ mmsiOf x.2.2 = mmsi)) (own : Bool)
    (y : List Bool) (hy : partOf y = 1) (hm : mmsiOf y = mmsi) :
    pairAnswers (some (partData own y)) (flatPairs l) = shiftedPairs y l := by
  induction l generalizing own y with
  | nil => rfl
  | cons x l ih =>
    obtain ⟨a, b⟩ := x
    obtain ⟨ha, hb⟩ := hl _ List.mem_cons_self
    rw [flatPairs, pairAnswers, pairAnswers, shiftedPairs, ih (fun z hz => hl z (List.mem_cons_of_mem _ hz)) b.1 b.2 hb.1 hb.2,
      overlay_AB a.1 own a.2 y ha.1 hy (ha.2.trans hm.symm)]

/-- C137: if the vessel's parts A and B are heard by a new parser in turn, nothing lost, each part B is answered with the
report of the two. -/
theorem C137_nothing_lost (mmsi : Nat) (h : List (Env × Str)) (l : List ((Bool × List Bool) × (Bool × List Bool)))
    (as : List Answer) (hh : Heard24 mmsi Parser.new h (flatPairs l) as)
    (hl : ∀ x ∈ l, partOf x.1.2 = 0 ∧ partOf x.2.2 = 1) : as = ownPairs l := by
  rw [C137_pairs mmsi _ ⟨[], rfl⟩ h _ as hh]
  have hm := heard_mmsi hh
  exact pairAnswers_own l fun x hx => ⟨(hl x hx).1, (hl x hx).2,
    (hm _ (mem_flatPairs hx).1).trans (hm _ (mem_flatPairs hx).2).symm⟩

/-- Part A in two sentences, part B in one. -/
example : ∃ as, Heard24 271041815 Parser.new demoHistory (flatPairs [((false, payloadBits demoA), (true, payloadBits demoB))]) as ∧
    partOf (payloadBits demoA) = 0 ∧ partOf (payloadBits demoB) = 1 := by
  obtain ⟨as, h⟩ := demoHeard
  exact ⟨as, h, demoPartA, demoPartB⟩

/-- C137: if the first part A is lost, each part A is answered with the report of it and the part B sent before it. -/
theorem C137_part_A_lost (mmsi : Nat) (h : List (Env × Str)) (b : Bool × List Bool)
    (l : List ((Bool × List Bool) × (Bool × List Bool)))
    (as : List Answer) (hh : Heard24 mmsi Parser.new h (b :: flatPairs l) as) (hb : partOf b.2 = 1)
    (hl : ∀ x ∈ l, partOf x.1.2 = 0 ∧ partOf x.2.2 = 1) : as = .ok .incomplete :: shiftedPairs b.2 l := by
  rw [C137_pairs mmsi _ ⟨[], rfl⟩ h _ as hh]
  have hm := heard_mmsi hh
  show Out.ok .incomplete :: pairAnswers (some (partData b.1 b.2)) (flatPairs l) = _
  rw [pairAnswers_shifted mmsi l (fun x hx => ⟨⟨(hl x hx).1, hm _ (List.mem_cons_of_mem _ (mem_flatPairs hx).1)⟩,
    (hl x hx).2, hm _ (List.mem_cons_of_mem _ (mem_flatPairs hx).2)⟩) b.1 b.2 hb (hm _ List.mem_cons_self)]

/-- Part B, then part A in two sentences and part B in one. -/
example : ∃ as, Heard24 271041815 Parser.new
    ((demoEnv, c! "!AIVDO,1,1,,A,H42O55lt0000000D3nink000?0500,0") :: demoHistory)
      ((true, payloadBits demoB) :: flatPairs [((false, payloadBits demoA), (true, payloadBits demoB))]) as := by
  obtain ⟨as, h⟩ := demoHeardFrom
    (parseSentence demoEnv Parser.new (c! "!AIVDO,1,1,,A,H42O55lt0000000D3nink000?0500,0")).2
    (by decide +kernel) (by decide +kernel)
  exact ⟨_, .hit _ _ ⟨demoCompletesB _, by rw [demoPartB]; decide, demoMmsiB⟩ h⟩

/-- C137: exactly every second message of the vessel is answered with a report. -/
theorem C137_count (mmsi : Nat) (p : Parser) (hp : Reachable p) (h : List (Env × Str)) (l : List (Bool × List Bool))
    (as : List Answer) (hh : Heard24 mmsi p h l as) :
    reports as = if (pendingStatic p mmsi).isSome then (l.length + 1) / 2 else l.length / 2 := by
  rw [C137_pairs mmsi p hp h l as hh]
  exact pairAnswers_reports _ l

/-- Two messages, one report. -/
example : ∃ as, Heard24 271041815 Parser.new demoHistory [(false, payloadBits demoA), (true, payloadBits demoB)] as ∧
    reports as = 1 := by
  obtain ⟨as, h⟩ := demoHeard
  exact ⟨as, h, C137_count _ _ ⟨[], rfl⟩ _ _ _ h⟩

/-- C137: two receivers, whatever they heard before, that hear the same type 24 messages of the vessel: each message is
answered with a report by exactly one of them, forever, or they agree from the second message on. -/
theorem C137_two_receivers (mmsi : Nat) (p p' : Parser) (hp : Reachable p) (hp' : Reachable p') (h h' : List (Env × Str))
    (l : List (Bool × List Bool)) (as as' : List Answer) (hh : Heard24 mmsi p h l as) (hh' : Heard24 mmsi p' h' l as') :
    (∀ i < l.length, (as[i]? = some (.ok .incomplete) ↔ ¬ as'[i]? = some (.ok .incomplete))) ∨ as.drop 1 = as'.drop 1 := by
  rw [C137_pairs mmsi p hp h l as hh, C137_pairs mmsi p' hp' h' l as' hh']
  match pendingStatic p mmsi, pendingStatic p' mmsi with
  | none, none => exact .inr rfl
  | none, some d => exact .inl fun i hi => pairAnswers_opposite d l i hi
  | some d, none =>
    refine .inl fun i hi => ?_
    rw [pairAnswers_opposite d l i hi, not_not]
  | some d, some d' =>
    right
    cases l <;> rfl

/-- One receiver starts after the first part B. -/
example : ∃ as as', Heard24 271041815 Parser.new demoHistory [(false, payloadBits demoA), (true, payloadBits demoB)] as ∧
    Heard24 271041815 (run Parser.new [(demoEnv, c! "!AIVDO,1,1,,A,H42O55lt0000000D3nink000?0500,0")]) demoHistory
      [(false, payloadBits demoA), (true, payloadBits demoB)] as' ∧
    Reachable (run Parser.new [(demoEnv, c! "!AIVDO,1,1,,A,H42O55lt0000000D3nink000?0500,0")]) := by
  obtain ⟨as, h⟩ := demoHeard
  obtain ⟨as', h'⟩ := demoHeardFrom (run Parser.new [(demoEnv, c! "!AIVDO,1,1,,A,H42O55lt0000000D3nink000?0500,0")])
    (by decide +kernel) (by decide +kernel)
  exact ⟨as, as', h, h', ⟨_, rfl⟩⟩

end Nmea
