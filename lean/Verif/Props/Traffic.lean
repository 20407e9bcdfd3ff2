/-
C124: the traffic on a ship's data link. AIS broadcasts, GNSS readings and satellites in view, mixed in any way, are
reported as sent.
-/
import Verif.Lemmas.Traffic
import Verif.Props.Transmit
import Verif.Spec.Demo

namespace Nmea
open Spec

/-- A voyage message (two sentences). -/
def demoVoyage : Source := .ais ⟨demoEnv, c! "AI", false, 2, c! "B", .message (.voyage ⟨0, 351759000, 0, 9134270,
  c! "3FOF8", c! "EVER DIADEM", 70, 225, 70, 1, 31, 1, 5, 15, 14, 0, 122, c! "NEW YORK", false, false⟩)⟩
/-- Five satellites in view (two sentences). -/
def demoView : Source := .view demoEnv (c! "GP")
  [[⟨1, some 40, some 83, some 46⟩, ⟨2, some 17, some 308, some 41⟩, ⟨12, some 7, some 344, some 39⟩, ⟨14, some 22, none, none⟩],
    [⟨30, none, none, none⟩]]
/-- A static data report (two sentences). -/
def demoReport : Source := .ais ⟨demoEnv, c! "AI", true, 3, c! "A", .static ⟨0, 271041815, c! "PROGUY"⟩
  ⟨0, 271041815, 60, c! "1D0", 12, 0, c! "TC6163", 0, 15, 0, 5, 0⟩⟩
/-- A GLL sentence. -/
def demoReading : Source := .gnss demoEnv (c! "GA")
  (.gll ⟨false, 49, 16, 2, 45⟩ ⟨true, 123, 11, 2, 12⟩ 22 54 44 true (c! "D"))

theorem demoSources_fit : ∀ x ∈ [demoVoyage, demoView, demoReport, demoReading], x.Fits := by
  simp only [List.forall_mem_cons, List.not_mem_nil, false_implies, implies_true, and_true, demoVoyage, demoView, demoReport,
    demoReading, Source.Fits, Broadcast.Fits, AisMessage.Fits, AisMessage.IsWhole, Reading.Fits]
  unfold Voyage.Fits StaticA.Fits StaticB.Fits InView.Fits Angle.Ok
  refine ⟨⟨by decide, by decide, by decide, by decide⟩, ⟨by decide, by decide, by decide, by decide⟩,
    ⟨by decide, by decide, by decide, by decide⟩, ⟨by decide, by decide⟩⟩

/-- Three sources of two sentences each in transit at once, and a GLL sentence among them. -/
theorem demoTraffic : Traffic (fun _ => none)
    ([c! "!AIVDM,2,1,2,B,55?MbV02;H;s<HtKP00EHE:0@T4@Dl0000000016L961O5Gf0NSQEp6ClRh0,0*0E",
      c! "$GPGSV,2,1,5,1,40,83,46,2,17,308,41,12,7,344,39,14,22,,*71",
      c! "!AIVDO,1,1,,A,H42O55i18tMET00000000000000,2*6F",
      c! "$GAGLL,4916.45,N,12311.12,W,225444,A,D*48",
      c! "!AIVDM,2,2,2,B,00000000000,2*25",
      c! "$GPGSV,2,2,5,30,,,*4F",
      c! "!AIVDO,1,1,,A,H42O55lti4hh000D3nink000?050,0*1F"].map fun s => (demoEnv, s))
    [demoReading, demoVoyage, demoView, demoReport] := by
  have hf := demoSources_fit
  simp only [List.forall_mem_cons, List.not_mem_nil, false_implies, implies_true, and_true] at hf
  have key : ∀ o : Slot → Option (List (Env × Str) × Source), (∀ t, o t = none) → Traffic o [] [] := fun o ho => by
    rw [show o = fun _ => none from funext ho]; exact .done
  let pre : List Str → List (Env × Str) := List.map fun s => (demoEnv, s)
  refine .start (x := demoVoyage) (k := .part false 2 (c! "B")) hf.1 (congrArg pre (by decide +kernel : _ = [_, _])) (by decide +kernel) rfl
    (.start (x := demoView) (k := .gsv (c! "GP") 2) hf.2.1 (congrArg pre (by decide +kernel : _ = [_, _])) (by decide +kernel) rfl
    (.start (x := demoReport) (k := .static 271041815) hf.2.2.1 (congrArg pre (by decide +kernel : _ = [_, _])) (by decide +kernel) rfl
    (.one hf.2.2.2 (congrArg (fun s => [(demoEnv, s)]) (by decide +kernel : gnssSentence _ _ _ = _)) (fun k hk => by cases hk)
    (.last (k := .part false 2 (c! "B")) rfl (.last (k := .gsv (c! "GP") 2) rfl (.last (k := .static 271041815) rfl
      (key _ fun t => ?_)))))))
  grind

/-- C124: whatever is sent on the link, the sentences of different sources mixed in any way, but for two sources in the
same slot at the same time: the answers other than "incomplete" are, in the order of the last sentences of the sources,
what each source says. -/
theorem C124_traffic (h : List (Env × Str)) (l : List Source) (ht : Traffic (fun _ => none) h l) :
    List.Forall₂ (fun (x : Source) a => x.Tells a) l (told (answers Parser.new h)) :=
  traffic_told ht

/-- Four sources; what the GLL sentence and the group of satellites say. -/
example : ∃ d b c, told (answers Parser.new ([c! "!AIVDM,2,1,2,B,55?MbV02;H;s<HtKP00EHE:0@T4@Dl0000000016L961O5Gf0NSQEp6ClRh0,0*0E",
      c! "$GPGSV,2,1,5,1,40,83,46,2,17,308,41,12,7,344,39,14,22,,*71",
      c! "!AIVDO,1,1,,A,H42O55i18tMET00000000000000,2*6F",
      c! "$GAGLL,4916.45,N,12311.12,W,225444,A,D*48",
      c! "!AIVDM,2,2,2,B,00000000000,2*25",
      c! "$GPGSV,2,2,5,30,,,*4F",
      c! "!AIVDO,1,1,,A,H42O55lti4hh000D3nink000?050,0*1F"].map fun s => (demoEnv, s))) =
    [.ok (.gll d), b, .ok (.gsv [⟨.gps, 1, some 40, some 83, some 46⟩, ⟨.gps, 2, some 17, some 308, some 41⟩,
      ⟨.gps, 12, some 7, some 344, some 39⟩, ⟨.gps, 14, some 22, none, none⟩, ⟨.gps, 30, none, none, none⟩]), c] ∧
    d.faaMode = some .differential := by
  have h := C124_traffic _ _ demoTraffic
  generalize told _ = x at h
  cases h with
  | cons h1 h =>
  cases h with
  | cons h2 h =>
  cases h with
  | cons h3 h =>
  cases h with
  | cons h4 h =>
  cases h with
  | nil =>
  obtain ⟨d, rfl, -, -, -, -, -, hd⟩ := h1
  rw [h3]
  exact ⟨d, _, _, rfl, hd⟩

/-- C124: a source says only one thing, so these answers are determined by what is sent. -/
theorem C124_determined (x : Source) (a a' : Answer) (h : x.Tells a) (h' : x.Tells a') : a = a' := by
  cases x with
  | ais x =>
    simp only [Source.Tells, Broadcast.Tells] at h h'
    cases hc : x.content with
    | message m => rw [hc] at h h'; exact AisMessage.tells_unique h h'
    | static p b => rw [hc] at h h'; exact Eq.trans h (Eq.symm h')
  | view env t rows => exact h.trans h'.symm
  | gnss env t r =>
    cases r with
    | gga =>
      obtain ⟨⟨⟩, rfl, h1, h2, h3, h4, h5, h6, h7, h8, h9, h10, h11⟩ := h
      obtain ⟨⟨⟩, rfl, g1, g2, g3, g4, g5, g6, g7, g8, g9, g10, g11⟩ := h'
      have e5 := Option.some.inj (h5.trans g5.symm)
      have e3 := h3.unique g3
      have e4 := h4.unique g4
      have e7 := h7.unique g7
      have e8 := h8.unique g8
      have e9 := h9.unique g9
      have e10 := h10.unique g10
      simp_all
    | rmc =>
      obtain ⟨⟨⟩, rfl, h1, h2, h3, h4, h5, h6, h7, h8⟩ := h
      obtain ⟨⟨⟩, rfl, g1, g2, g3, g4, g5, g6, g7, g8⟩ := h'
      have e4 := h4.unique g4
      have e5 := h5.unique g5
      have e6 := h6.unique g6
      have e7 := h7.unique g7
      have e8 := h8.unique g8
      simp_all
    | gsa =>
      obtain ⟨⟨⟩, rfl, h1, h2, h3, h4, h5, h6, h7⟩ := h
      obtain ⟨⟨⟩, rfl, g1, g2, g3, g4, g5, g6, g7⟩ := h'
      have e5 := h5.unique g5
      have e6 := h6.unique g6
      have e7 := h7.unique g7
      simp_all
    | vtg =>
      obtain ⟨⟨⟩, rfl, h1, h2, h3, h4, h5, h6⟩ := h
      obtain ⟨⟨⟩, rfl, g1, g2, g3, g4, g5, g6⟩ := h'
      have e2 := h2.unique g2
      have e3 := h3.unique g3
      have e4 := h4.unique g4
      have e5 := h5.unique g5
      simp_all
    | gll =>
      obtain ⟨⟨⟩, rfl, h1, h2, h3, h4, h5, h6⟩ := h
      obtain ⟨⟨⟩, rfl, g1, g2, g3, g4, g5, g6⟩ := h'
      have e2 := h2.unique g2
      have e3 := h3.unique g3
      simp_all

/-- The group of satellites says what it says. -/
example (a : Answer) (h : demoView.Tells a) : a = .ok (.gsv [⟨.gps, 1, some 40, some 83, some 46⟩,
    ⟨.gps, 2, some 17, some 308, some 41⟩, ⟨.gps, 12, some 7, some 344, some 39⟩, ⟨.gps, 14, some 22, none, none⟩,
    ⟨.gps, 30, none, none, none⟩]) := C124_determined demoView _ _ h rfl

theorem forall2_map {α β : Type} {R : α → β → Prop} (hu : ∀ x a a', R x a → R x a' → a = a') {l : List α} {as : List β}
    (h : List.Forall₂ R l as) (g : α → β) (hg : ∀ x, (∃ a, R x a) → R x (g x)) : as = l.map g := by
  induction h with
  | nil => rfl
  | @cons x a l as h1 _ ih => rw [List.map_cons, ← ih, hu x a (g x) h1 (hg x ⟨a, h1⟩)]

/-- What the sources say, as a function. -/
theorem tells_fun : ∃ g : Source → Answer, ∀ x : Source, (∃ a, x.Tells a) → x.Tells (g x) := by
  classical
  refine ⟨fun x : Source => if hx : ∃ a, x.Tells a then hx.choose else .panic, fun x hx => ?_⟩
  simp only [dif_pos hx]
  exact hx.choose_spec

/-- C124: however the sentences of the same sources are mixed, and in whatever order the sources end, the same reports come
out: in another order if the sources end in another order. -/
theorem C124_any_mixture (h h' : List (Env × Str)) (l l' : List Source) (ht : Traffic (fun _ => none) h l)
    (ht' : Traffic (fun _ => none) h' l') (hl : l.Perm l') :
    (told (answers Parser.new h)).Perm (told (answers Parser.new h')) ∧
      (l = l' → told (answers Parser.new h) = told (answers Parser.new h')) := by
  obtain ⟨g, hg⟩ := tells_fun
  rw [forall2_map C124_determined (C124_traffic h l ht) g hg, forall2_map C124_determined (C124_traffic h' l' ht') g hg]
  exact ⟨hl.map g, fun e => by rw [e]⟩

/-- The four sources mixed as above, and one after another. -/
example : (told (answers Parser.new ([c! "!AIVDM,2,1,2,B,55?MbV02;H;s<HtKP00EHE:0@T4@Dl0000000016L961O5Gf0NSQEp6ClRh0,0*0E",
      c! "$GPGSV,2,1,5,1,40,83,46,2,17,308,41,12,7,344,39,14,22,,*71",
      c! "!AIVDO,1,1,,A,H42O55i18tMET00000000000000,2*6F",
      c! "$GAGLL,4916.45,N,12311.12,W,225444,A,D*48",
      c! "!AIVDM,2,2,2,B,00000000000,2*25",
      c! "$GPGSV,2,2,5,30,,,*4F",
      c! "!AIVDO,1,1,,A,H42O55lti4hh000D3nink000?050,0*1F"].map fun s => (demoEnv, s)))).Perm
    (told (answers Parser.new ([demoVoyage, demoView, demoReport, demoReading].flatMap Source.sentences))) :=
  (C124_any_mixture _ _ _ _ demoTraffic (traffic_one_by_one _ demoSources_fit) 
    (List.perm_append_comm (l₁ := [demoReading]) (l₂ := [demoVoyage, demoView, demoReport]))).1

/-- C124: when nothing is in transit any more, the parser answers like a new one. -/
theorem C124_as_new (h : List (Env × Str)) (l : List Source) (ht : Traffic (fun _ => none) h l) (f : List (Env × Str)) :
    answers (run Parser.new h) f = answers Parser.new f := by
  obtain ⟨-, as, hl, -⟩ := traffic_link ht (fun k y hy => by cases hy)
  exact C120_as_new h as hl f

example (f : List (Env × Str)) := C124_as_new _ _ demoTraffic f

/-- C124: in particular, one source after another. -/
theorem C124_one_by_one (l : List Source) (h : ∀ x ∈ l, x.Fits) :
    List.Forall₂ (fun (x : Source) a => x.Tells a) l (told (answers Parser.new (l.flatMap Source.sentences))) :=
  traffic_told (traffic_one_by_one l h)

/-- The four sources one after another. -/
example : List.Forall₂ (fun (x : Source) a => x.Tells a) [demoVoyage, demoView, demoReport, demoReading]
    (told (answers Parser.new ([demoVoyage, demoView, demoReport, demoReading].flatMap Source.sentences))) :=
  C124_one_by_one _ demoSources_fit

end Nmea
