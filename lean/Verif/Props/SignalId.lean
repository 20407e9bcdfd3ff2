/-
C146: GSV sentences with a signal id (NMEA 4.10 and later).
-/
import Verif.Spec.SignalId
import Verif.Lemmas.Traffic
import Verif.Props.Gsv
import Verif.Props.Fragments

namespace Nmea
open Spec

theorem satellite_phantom (nav : NavigationSystem) (fs : List Str) (j : Nat) (signal : Str)
    (h0 : field fs (3 + 4 * j) = signal) (h1 : field fs (4 + 4 * j) = []) (h2 : field fs (5 + 4 * j) = [])
    (h3 : field fs (6 + 4 * j) = []) : (satellite nav fs j).toList = phantom nav signal := by
  unfold satellite phantom
  rw [h0, h1, h2, h3]
  cases readDec 255 signal <;> rfl

theorem filterMap_toList {α β : Type} (f : α → Option β) (l : List α) : l.filterMap f = l.flatMap fun x => (f x).toList := by
  induction l with
  | nil => rfl
  | cons x l ih =>
    rw [List.filterMap_cons, List.flatMap_cons, ← ih]
    cases f x <;> rfl

theorem signal_row (nav : NavigationSystem) (n k total : Nat) (row : List InView) (signal : Str) (hl : row.length ≤ 4)
    (hv : ∀ v ∈ row, v.Fits) : satellites nav (signalFields n k total row signal) = rowReport nav signal row := by
  have some_data : ∀ fs j (v : InView), v.Fits → field fs (3 + 4 * j) = Nat.toDigits 10 v.prn → field fs (4 + 4 * j) = optDigits v.elevation →
      field fs (5 + 4 * j) = optDigits v.azimuth → field fs (6 + 4 * j) = optDigits v.snr →
      (satellite nav fs j).toList = [v.data nav] := fun fs j v a b c d e => by rw [satellite_data nav fs j v a b c d e]; rfl
  have absent : ∀ fs j, field fs (3 + 4 * j) = [] → (satellite nav fs j).toList = [] :=
    fun fs j h => by rw [satellite_absent nav fs j h]; rfl
  unfold satellites rowReport
  rw [filterMap_toList]
  match row, hl, hv with
  | [], _, _ =>
    simp only [List.flatMap_cons, List.flatMap_nil]
    rw [satellite_phantom nav _ 0 signal rfl rfl rfl rfl, absent _ 1 rfl, absent _ 2 rfl, absent _ 3 rfl]
    simp
  | [a], _, hv =>
    simp only [List.forall_mem_cons] at hv
    simp only [List.flatMap_cons, List.flatMap_nil]
    rw [some_data _ 0 a hv.1 rfl rfl rfl rfl, satellite_phantom nav _ 1 signal rfl rfl rfl rfl, absent _ 2 rfl, absent _ 3 rfl]
    simp
  | [a, b], _, hv =>
    simp only [List.forall_mem_cons] at hv
    simp only [List.flatMap_cons, List.flatMap_nil]
    rw [some_data _ 0 a hv.1 rfl rfl rfl rfl, some_data _ 1 b hv.2.1 rfl rfl rfl rfl,
      satellite_phantom nav _ 2 signal rfl rfl rfl rfl, absent _ 3 rfl]
    simp
  | [a, b, c], _, hv =>
    simp only [List.forall_mem_cons] at hv
    simp only [List.flatMap_cons, List.flatMap_nil]
    rw [some_data _ 0 a hv.1 rfl rfl rfl rfl, some_data _ 1 b hv.2.1 rfl rfl rfl rfl,
      some_data _ 2 c hv.2.2.1 rfl rfl rfl rfl, satellite_phantom nav _ 3 signal rfl rfl rfl rfl]
    simp
  | [a, b, c, d], _, hv =>
    simp only [List.forall_mem_cons] at hv
    simp only [List.flatMap_cons, List.flatMap_nil]
    rw [some_data _ 0 a hv.1 rfl rfl rfl rfl, some_data _ 1 b hv.2.1 rfl rfl rfl rfl,
      some_data _ 2 c hv.2.2.1 rfl rfl rfl rfl, some_data _ 3 d hv.2.2.2.1 rfl rfl rfl rfl]
    simp
  | _ :: _ :: _ :: _ :: _ :: _, h, _ => simp at h

theorem signal_part (talker : Str) (n k total : Nat) (row : List InView) (signal : Str) (ht : Talker talker) (hs : ',' ∉ signal)
    (hn : n < 2 ^ 32) (hk : k < 2 ^ 32) : GsvPart talker n k (signalFields n k total row signal)
      (gnssSentence talker (c! "GSV") (signalFields n k total row signal)) := by
  refine ⟨⟨ht, ?_, by simp [signalFields, viewFields], .full, (fun h => nomatch h), rfl⟩,
    .inr (dec_natStr _ n (by omega)), .inr (dec_natStr _ k (by omega))⟩
  intro f hf
  rcases List.mem_append.1 hf with hf | hf
  · exact viewFields_comma n k total row f hf
  · rw [List.mem_singleton] at hf; rw [hf]; exact hs

/-- Sentences that are all of one group. -/
theorem groupTrace_all {talker : Str} {n : Nat} {h : List (Env × Str)} {l : List (Nat × List Str)}
    (ha : List.Forall₂ (fun x e => GsvPart talker n e.1 e.2 x.2) h l) : GroupTrace talker n h l := by
  induction ha with
  | nil => exact .nil
  | cons h1 _ ih => exact .part h1 ih

theorem forall₂_concat {α β : Type} {R : α → β → Prop} {h : List α} {x : α} {l : List β} (ha : List.Forall₂ R (h ++ [x]) l) :
    ∃ l1 e, l = l1 ++ [e] ∧ List.Forall₂ R h l1 ∧ R x e := by
  induction h generalizing l with
  | nil =>
    cases ha with
    | cons a b => cases b; exact ⟨[], _, rfl, .nil, a⟩
  | cons y h ih =>
    cases ha with
    | cons a b =>
      obtain ⟨l1, e, rfl, h1, h2⟩ := ih b
      exact ⟨_ :: l1, e, rfl, .cons a h1, h2⟩

theorem group_waits {talker : Str} {n : Nat} (hn : n < 2 ^ 32 - 1) {p : Parser} (hp : NonePending p talker n)
    (h : List (Env × Str)) : ∀ {l : List (Nat × List Str)},
    List.Forall₂ (fun x e => GsvPart talker n e.1 e.2 x.2) h l → (∃ j, 1 ≤ j ∧ j ≤ n ∧ ¬ Received l j) →
    answers p h = List.replicate h.length (.ok .incomplete) := by
  induction h using List.reverseRecOn with
  | nil => intro l _ _; rfl
  | append_singleton h x ih =>
    intro l ha hj
    obtain ⟨l1, e, rfl, h1, he⟩ := forall₂_concat ha
    obtain ⟨j, j1, j2, hmiss⟩ := hj
    rw [answers_append, ih h1 ⟨j, j1, j2, fun hr => hmiss (by
      simp only [Received, List.map_append, List.mem_append] at hr ⊢; exact .inl hr)⟩]
    simp only [answers, List.length_append, List.length_cons, List.length_nil, List.replicate_succ']
    rw [C32_incomplete x.1 p talker n e.1 e.2 x.2 h l1 hn hp he (groupTrace_all h1) j ⟨j1, j2⟩ hmiss]

theorem latest_of_mem {l : List (Nat × List Str)} (hd : (l.map (·.1)).Nodup) {e : Nat × List Str} (he : e ∈ l) :
    latest l e.1 = some e.2 := by
  obtain ⟨fs, hfs⟩ := Option.isSome_iff_exists.1 ((latest_isSome l e.1).2 (List.mem_map.2 ⟨e, he, rfl⟩))
  rw [hfs]
  exact congrArg (fun x => some x.2) (List.inj_on_of_nodup_map hd (latest_mem hfs) he rfl)

/-- The answers to the sentences of a group in order. -/
theorem group_answers {talker : Str} {n : Nat} (hn : n < 2 ^ 32 - 1) (hn1 : 1 ≤ n) {p : Parser} (hp : NonePending p talker n)
    (h : List (Env × Str)) (l : List (Nat × List Str))
    (ha : List.Forall₂ (fun x e => GsvPart talker n e.1 e.2 x.2) h l) (hl : l.map (·.1) = List.range' 1 n) :
    answers p h = List.replicate (n - 1) (.ok .incomplete) ++
      [.ok (.gsv (l.flatMap fun e => satellites (talkerSystem talker) e.2))] := by
  have hlen : h.length = n := by
    rw [ha.length_eq, ← List.length_map (f := (·.1)), hl, List.length_range']
  obtain ⟨h, x, rfl⟩ : ∃ h' x, h = h' ++ [x] := by
    rcases List.eq_nil_or_concat h with rfl | ⟨a, b, e⟩
    · simp at hlen; omega
    · exact ⟨a, b, by rw [e, List.concat_eq_append]⟩
  obtain ⟨l, e, rfl, ha, hx⟩ := forall₂_concat ha
  have hd : ((l ++ [e]).map (·.1)).Nodup := by rw [hl]; exact upTo_nodup n
  have hmem : e.1 ∈ List.range' 1 n := by rw [← hl]; simp
  have hnot : ¬ Received l e.1 := by
    intro hr
    rw [List.map_append] at hd
    exact (List.nodup_append.1 hd).2.2 e.1 hr e.1 (by simp) rfl
  have hb := mem_upTo.mp hmem
  rw [answers_append, group_waits hn hp h ha ⟨e.1, hb.1, hb.2, hnot⟩]
  simp only [answers]
  rw [C31_any_order x.1 p talker n e.1 e.2 x.2 h l hn hp hx (groupTrace_all ha) (by rw [← hl, List.map_append]; exact .refl _)]
  have hlen' : h.length = n - 1 := by simp at hlen; omega
  rw [hlen']
  unfold groupSatellites
  rw [← hl, List.flatMap_map]
  congr 4
  refine List.flatMap_congr fun y hy => ?_
  rw [latest_of_mem hd hy]
  rfl

theorem forall₂_of_map {α : Type} {P : Str → α → Prop} {f : α → Str} {h : List (Env × Str)} {l : List α}
    (hh : h.map (·.2) = l.map f) (hf : ∀ e ∈ l, P (f e) e) : List.Forall₂ (fun x e => P x.2 e) h l := by
  induction l generalizing h with
  | nil => rw [List.map_eq_nil_iff.1 hh]; exact .nil
  | cons e l ih =>
    cases h with
    | nil => cases hh
    | cons x h =>
      rw [List.map_cons, List.map_cons] at hh
      obtain ⟨h1, h2⟩ := List.cons.inj hh
      exact .cons (h1 ▸ hf e List.mem_cons_self) (ih h2 fun e he => hf e (List.mem_cons_of_mem _ he))

/-- C146: the sentences of a group with signal ids, in order: the report has the satellites and, after every row of less than
four of them, a satellite with the number of the signal. -/
theorem C146_group (p : Parser) (talker : Str) (rows : List (List InView)) (signal : Str) (h : List (Env × Str))
    (ht : Talker talker) (hr : rows ≠ []) (hn : rows.length < 2 ^ 32 - 1) (hrow : ∀ row ∈ rows, row.length ≤ 4 ∧ ∀ v ∈ row, v.Fits)
    (hs : ',' ∉ signal) (hp : NonePending p talker rows.length) (hh : h.map (·.2) = signalSentences talker rows signal) :
    answers p h = List.replicate (rows.length - 1) (.ok .incomplete) ++
      [.ok (.gsv (rows.flatMap (rowReport (talkerSystem talker) signal)))] := by
  let l := (rows.zipIdx 1).map fun x => (x.2, signalFields rows.length x.2 rows.flatten.length x.1 signal)
  have hl : l.map (·.1) = List.range' 1 rows.length := by
    simp only [l, List.map_map]
    exact List.zipIdx_map_snd 1 rows
  have ha : List.Forall₂ (fun x e => GsvPart talker rows.length e.1 e.2 x.2) h l := by
    refine forall₂_of_map (P := fun s (e : Nat × List Str) => GsvPart talker rows.length e.1 e.2 s)
      (f := fun e : Nat × List Str => gnssSentence talker (c! "GSV") e.2) (by rw [hh]; simp only [signalSentences, l, List.map_map]; rfl) ?_
    intro e he
    have hb := List.mem_range'_1.1 (hl ▸ List.mem_map.2 ⟨e, he, rfl⟩ : e.1 ∈ List.range' 1 rows.length)
    simp only [l, List.mem_map] at he
    obtain ⟨y, -, rfl⟩ := he
    exact signal_part talker _ _ _ _ signal ht hs (by omega) (by omega)
  rw [group_answers hn (List.length_pos_of_ne_nil hr) hp h l ha hl]
  congr 4
  simp only [l, List.flatMap_map]
  conv_rhs => rw [← List.zipIdx_map_fst 1 rows, List.flatMap_map]
  refine List.flatMap_congr fun x hx => ?_
  obtain ⟨h1, h2⟩ := hrow x.1 (by rw [← List.zipIdx_map_fst 1 rows]; exact List.mem_map.2 ⟨x, hx, rfl⟩)
  exact signal_row _ _ _ _ _ _ h1 h2

theorem report_length (nav : NavigationSystem) (signal : Str) (rows : List (List InView)) :
    (rows.flatten.map (InView.data nav)).length ≤ (rows.flatMap (rowReport nav signal)).length ∧
      ((rows.flatMap (rowReport nav signal)).length = (rows.flatten.map (InView.data nav)).length →
        phantom nav signal = [] ∨ ∀ row ∈ rows, 4 ≤ row.length) := by
  induction rows with
  | nil => exact ⟨Nat.le_refl _, fun _ => .inr (by simp)⟩
  | cons r rows ih =>
    obtain ⟨h1, h2⟩ := ih
    simp only [List.flatMap_cons, List.flatten_cons, List.length_append, List.length_map, rowReport] at h1 h2 ⊢
    refine ⟨by omega, fun h => ?_⟩
    rcases h2 (by omega) with h3 | h3
    · exact .inl h3
    · by_cases h4 : r.length < 4
      · rw [if_pos h4] at h
        exact .inl (List.length_eq_zero_iff.1 (by omega))
      · exact .inr (List.forall_mem_cons.2 ⟨by omega, h3⟩)

/-- C146: the report has no satellite that was not sent exactly if the signal id is no number up to 255 or every sentence has
four satellites. -/
theorem C146_exact (nav : NavigationSystem) (rows : List (List InView)) (signal : Str) (hrow : ∀ row ∈ rows, row.length ≤ 4) :
    rows.flatMap (rowReport nav signal) = rows.flatten.map (InView.data nav) ↔
      (∀ n, ¬ Dec 255 signal n) ∨ ∀ row ∈ rows, row.length = 4 := by
  have hph : phantom nav signal = [] ↔ ∀ n, ¬ Dec 255 signal n := by
    simp only [phantom, List.map_eq_nil_iff, Option.toList_eq_nil_iff, Option.eq_none_iff_forall_ne_some, ne_eq, readDec_iff]
  constructor
  · intro h
    rcases (report_length nav signal rows).2 (by rw [h]) with h1 | h1
    · exact .inl (hph.1 h1)
    · exact .inr fun r hr => Nat.le_antisymm (hrow r hr) (h1 r hr)
  · intro h
    rw [List.map_flatten, List.flatMap_def]
    congr 1
    refine List.map_congr_left fun r hr => ?_
    unfold rowReport
    rcases h with h | h
    · rw [hph.2 h]; simp
    · rw [h r hr]; simp

/-- Five satellites in two rows. -/
def demoRows : List (List InView) :=
  [[⟨5, some 40, some 83, some 46⟩, ⟨7, some 10, some 20, none⟩, ⟨9, none, none, none⟩, ⟨12, some 13, some 22, some 32⟩],
   [⟨15, some 14, some 23, some 33⟩]]

/-- Sent by a receiver with signal id 1. -/
def demoSignal : List (Env × Str) :=
  [(demoEnv, c! "$GPGSV,2,1,5,5,40,83,46,7,10,20,,9,,,,12,13,22,32,1*67"), (demoEnv, c! "$GPGSV,2,2,5,15,14,23,33,1*51")]

/-- Meets the hypotheses of `C146_group`. -/
example : Talker (c! "GP") ∧ demoRows ≠ [] ∧ demoRows.length < 2 ^ 32 - 1 ∧ (∀ row ∈ demoRows, row.length ≤ 4 ∧ ∀ v ∈ row, v.Fits) ∧
    ',' ∉ c! "1" ∧ NonePending Parser.new (c! "GP") demoRows.length ∧
    demoSignal.map (·.2) = signalSentences (c! "GP") demoRows (c! "1") := by
  refine ⟨⟨rfl, by decide⟩, by decide, by decide, ?_, by decide, fun _ _ _ => rfl, by decide +kernel⟩
  simp [demoRows, InView.Fits]

/-- Six satellites are reported for the five sent. -/
example : (answers Parser.new demoSignal).map (fun a => match a with | .ok (.gsv l) => l.map (·.prnNumber) | _ => []) =
    [[], [5, 7, 9, 12, 15, 1]] := by decide +kernel

/-- With signal id `A` there are five. -/
example : ∀ n, ¬ Dec 255 (c! "A") n := fun _ h => nomatch (readDec_iff _ _ _).2 h

/-- C146: so "the report of a group has the satellites sent" is false with signal ids. -/
theorem C146_counterexample : ¬ ∀ (talker : Str) (rows : List (List InView)) (signal : Str) (h : List (Env × Str)),
    Talker talker → rows ≠ [] → rows.length < 2 ^ 32 - 1 → (∀ row ∈ rows, row.length ≤ 4 ∧ ∀ v ∈ row, v.Fits) →
    ',' ∉ signal → h.map (·.2) = signalSentences talker rows signal →
    (answers Parser.new h).getLast? = some (.ok (.gsv (rows.flatten.map (InView.data (talkerSystem talker))))) := by
  intro H
  have := H (c! "GP") demoRows (c! "1") demoSignal ⟨rfl, by decide⟩ (by decide) (by decide) (by simp [demoRows, InView.Fits])
    (by decide) (by decide +kernel)
  revert this
  decide +kernel

end Nmea
