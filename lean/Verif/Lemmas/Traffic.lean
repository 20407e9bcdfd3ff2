/-
Traffic: AIS broadcasts, GNSS readings and satellites in view, mixed in any way.
-/
import Verif.Props.Gnss
import Verif.Lemmas.Transmit
import Verif.Spec.Traffic

namespace Nmea
open Spec

/-! ### Texts without commas -/

theorem pad_comma (k n : Nat) : ',' ∉ pad k n := by
  induction k generalizing n with
  | zero => simp [pad]
  | succ k ih =>
    have key : ∀ i : Fin 10, (c! "0123456789").getD i.val '0' ≠ ',' := by decide
    simp only [pad, List.mem_append, List.mem_singleton, not_or]
    exact ⟨ih _, (key ⟨n % 10, by omega⟩).symm⟩

theorem timeText_comma (h m s : Nat) : ',' ∉ timeText h m s := by
  simp [timeText, pad_comma]

theorem dateText_comma (h m s : Nat) : ',' ∉ dateText h m s := by
  simp [dateText, pad_comma]

theorem angle_comma (a : Angle) (k : Nat) : ',' ∉ a.text k := by
  simp [Angle.text, pad_comma]

theorem number_comma (n : Number) : ',' ∉ n.text := by
  unfold Number.text
  have := natStr_comma n.whole
  split <;> simp [pad_comma, this]

theorem digits_comma (n : Nat) : ',' ∉ Nat.toDigits 10 n := natStr_comma n

theorem optDigits_comma (n : Option Nat) : ',' ∉ optDigits n := by
  cases n with
  | none => simp [optDigits]
  | some n => exact natStr_comma n

/-! ### Readings -/

theorem Reading.tagged (talker : Str) (r : Reading) (now : DateTime) (ht : Talker talker) (hr : r.Fits now) :
    IsGnss talker r.kind r.fields (gnssSentence talker r.kind r.fields) := by
  refine ⟨ht, ?_, ?_, .full, (fun h => nomatch h), rfl⟩
  · intro f hf
    cases r with
    | gga =>
      simp only [Reading.fields, List.mem_cons, List.not_mem_nil, or_false] at hf
      rcases hf with rfl | rfl | rfl | rfl | rfl | rfl | rfl | rfl | rfl | rfl | rfl | rfl | rfl | rfl <;>
        first
        | exact timeText_comma _ _ _ | exact angle_comma _ _ | exact digits_comma _ | exact number_comma _ | decide
        | (unfold Angle.side; split <;> decide)
    | rmc =>
      simp only [Reading.fields, List.mem_cons, List.not_mem_nil, or_false] at hf
      rcases hf with rfl | rfl | rfl | rfl | rfl | rfl | rfl | rfl | rfl | rfl | rfl <;>
        first
        | exact timeText_comma _ _ _ | exact dateText_comma _ _ _ | exact angle_comma _ _ | exact number_comma _
        | (split <;> decide) | (unfold Angle.side; split <;> decide)
    | gsa =>
      simp only [Reading.fields, List.mem_cons, List.not_mem_nil, or_false, List.mem_append, List.mem_map,
        List.mem_replicate] at hf
      rcases hf with (((rfl | rfl) | ⟨n, -, rfl⟩) | ⟨-, rfl⟩) | rfl | rfl | rfl <;>
        first | exact digits_comma _ | exact number_comma _ | (split <;> decide) | simp
    | vtg =>
      simp only [Reading.fields, List.mem_cons, List.not_mem_nil, or_false] at hf
      rcases hf with rfl | rfl | rfl | rfl | rfl | rfl | rfl | rfl <;> first | exact number_comma _ | decide
    | gll =>
      simp only [Reading.fields, List.mem_cons, List.not_mem_nil, or_false] at hf
      rcases hf with rfl | rfl | rfl | rfl | rfl | rfl | rfl <;>
        first
        | exact timeText_comma _ _ _ | exact angle_comma _ _ | exact hr.2.2.2.2
        | (split <;> decide) | (unfold Angle.side; split <;> decide)
  · cases r <;> simp [Reading.fields]

theorem Reading.whole (env : Env) (talker : Str) (r : Reading) (ht : Talker talker) (hr : r.Fits env.now) :
    Whole env (gnssSentence talker r.kind r.fields) := by
  have hg := Reading.tagged talker r env.now ht hr
  have hk : ',' ∉ r.kind := by cases r <;> (simp [Reading.kind])
  refine .inl ?_
  rintro (⟨_, _, _, h⟩ | ⟨_, _, _, _, _, _, h, -⟩ | ⟨_, _, _, _, h, -⟩)
  · obtain ⟨fs, n, h, -⟩ := h
    exact absurd (IsTagged.unique h hg (by decide) (by decide) (aisKind_noComma _) hk).1 (by decide)
  · obtain ⟨fs, h, -⟩ := h
    exact absurd (IsTagged.unique h hg (by decide) (by decide) (aisKind_noComma _) hk).1 (by decide)
  · have := (IsTagged.unique h hg (by decide) (by decide) (by decide) hk).2.2.1
    cases r <;> exact absurd this (by simp [Reading.kind])

theorem Reading.tells (env : Env) (talker : Str) (r : Reading) (ht : Talker talker) (hr : r.Fits env.now) :
    r.Tells env.now talker (alone env (gnssSentence talker r.kind r.fields)) := by
  have hg := Reading.tagged talker r env.now ht hr
  unfold alone
  cases r with
  | gga h m s lat lon q n hdop alt geoid age st =>
    obtain ⟨a1, a2, a3, a4, a5, a6, a7, a8, a9, a10, a11⟩ := hr
    exact C65_round_trip env Parser.new talker h m s lat lon q n hdop alt geoid age st _ hg a1 a2 a3 a4 a5 a6 a7 a8 a9 a10 a11
  | rmc h m s active lat lon speed bearing day month year variation west =>
    obtain ⟨a1, a2, a3, a4, a5, a6, a7⟩ := hr
    exact C66_round_trip env Parser.new talker h m s active lat lon speed bearing day month year variation west _ hg
      a1 a2 a3 a4 a5 a6 a7
  | gsa automatic fix prns pdop hdop vdop =>
    obtain ⟨a1, a2, a3, a4, a5, a6⟩ := hr
    exact C67_round_trip env Parser.new talker automatic fix prns pdop hdop vdop _ hg a1 a2 a3 a4 a5 a6
  | vtg t m n k =>
    obtain ⟨a1, a2, a3, a4⟩ := hr
    obtain ⟨d, e, h⟩ := C68_round_trip env Parser.new talker t m n k _ hg a1 a2 a3 a4
    exact ⟨d, by rw [e], h⟩
  | gll lat lon h m s valid mode =>
    obtain ⟨a1, a2, a3, a4, a5⟩ := hr
    exact C69_round_trip env Parser.new talker lat lon h m s valid mode _ hg a1 a2 a3 a4

/-! ### Satellites in view -/

theorem readDec_digits (max n : Nat) (h : n ≤ max) : readDec max (Nat.toDigits 10 n) = some n :=
  (readDec_iff max _ n).mpr (dec_natStr max n h)

theorem readDec_opt (max : Nat) (n : Option Nat) (h : ∀ k ∈ n, k ≤ max) : readDec max (optDigits n) = n := by
  cases n with
  | none => rfl
  | some n => exact readDec_digits max n (h n rfl)

theorem satellite_data (nav : NavigationSystem) (fs : List Str) (j : Nat) (v : InView) (hv : v.Fits)
    (h0 : field fs (3 + 4 * j) = Nat.toDigits 10 v.prn) (h1 : field fs (4 + 4 * j) = optDigits v.elevation)
    (h2 : field fs (5 + 4 * j) = optDigits v.azimuth) (h3 : field fs (6 + 4 * j) = optDigits v.snr) :
    satellite nav fs j = some (v.data nav) := by
  unfold satellite
  rw [h0, h1, h2, h3, readDec_digits _ _ hv.1, readDec_opt _ _ hv.2.1, readDec_opt _ _ hv.2.2.1, readDec_opt _ _ hv.2.2.2]
  rfl

theorem satellite_absent (nav : NavigationSystem) (fs : List Str) (j : Nat) (h : field fs (3 + 4 * j) = []) :
    satellite nav fs j = none := by
  unfold satellite
  rw [h]
  rfl

theorem satellites_row (nav : NavigationSystem) (n k total : Nat) (row : List InView) (hl : row.length ≤ 4)
    (hv : ∀ v ∈ row, v.Fits) : satellites nav (viewFields n k total row) = row.map (InView.data nav) := by
  unfold satellites
  match row, hl, hv with
  | [], _, _ => rfl
  | [a], _, hv =>
    simp only [List.forall_mem_cons] at hv
    simp only [List.filterMap_cons, List.filterMap_nil]
    rw [satellite_data nav _ 0 a hv.1 rfl rfl rfl rfl, satellite_absent nav _ 1 rfl, satellite_absent nav _ 2 rfl,
      satellite_absent nav _ 3 rfl]
    rfl
  | [a, b], _, hv =>
    simp only [List.forall_mem_cons] at hv
    simp only [List.filterMap_cons, List.filterMap_nil]
    rw [satellite_data nav _ 0 a hv.1 rfl rfl rfl rfl, satellite_data nav _ 1 b hv.2.1 rfl rfl rfl rfl,
      satellite_absent nav _ 2 rfl, satellite_absent nav _ 3 rfl]
    rfl
  | [a, b, c], _, hv =>
    simp only [List.forall_mem_cons] at hv
    simp only [List.filterMap_cons, List.filterMap_nil]
    rw [satellite_data nav _ 0 a hv.1 rfl rfl rfl rfl, satellite_data nav _ 1 b hv.2.1 rfl rfl rfl rfl,
      satellite_data nav _ 2 c hv.2.2.1 rfl rfl rfl rfl, satellite_absent nav _ 3 rfl]
    rfl
  | [a, b, c, d], _, hv =>
    simp only [List.forall_mem_cons] at hv
    simp only [List.filterMap_cons, List.filterMap_nil]
    rw [satellite_data nav _ 0 a hv.1 rfl rfl rfl rfl, satellite_data nav _ 1 b hv.2.1 rfl rfl rfl rfl,
      satellite_data nav _ 2 c hv.2.2.1 rfl rfl rfl rfl, satellite_data nav _ 3 d hv.2.2.2.1 rfl rfl rfl rfl]
    rfl
  | _ :: _ :: _ :: _ :: _ :: _, h, _ => simp at h

theorem viewFields_comma (n k total : Nat) (row : List InView) : CommaFree (viewFields n k total row) := by
  intro f hf
  simp only [viewFields, List.mem_append, List.mem_cons, List.not_mem_nil, or_false, List.mem_flatMap, InView.fields] at hf
  rcases hf with (rfl | rfl | rfl) | ⟨v, -, rfl | rfl | rfl | rfl⟩ <;> first | exact digits_comma _ | exact optDigits_comma _

theorem view_part (talker : Str) (n k total : Nat) (row : List InView) (ht : Talker talker) (hn : n < 2 ^ 32) (hk : k < 2 ^ 32) :
    GsvPart talker n k (viewFields n k total row) (gnssSentence talker (c! "GSV") (viewFields n k total row)) :=
  ⟨⟨ht, viewFields_comma n k total row, by simp [viewFields], .full, (fun h => nomatch h), rfl⟩,
    .inr (dec_natStr _ n (by omega)), .inr (dec_natStr _ k (by omega))⟩

/-- The sentences of a group as received. -/
def viewIn (env : Env) (talker : Str) (n total : Nat) (rows : List (List InView)) (i : Nat) : List GsvIn :=
  (rows.zipIdx i).map fun x =>
    ⟨env, x.2, viewFields n x.2 total x.1, gnssSentence talker (c! "GSV") (viewFields n x.2 total x.1)⟩

theorem viewIn_num (env : Env) (talker : Str) (n total : Nat) (rows : List (List InView)) (i : Nat) :
    (viewIn env talker n total rows i).map (·.num) = List.range' i rows.length := by
  induction rows generalizing i with
  | nil => rfl
  | cons r rows ih => simpa [viewIn, List.range'_succ] using ih (i + 1)

theorem viewIn_satellites (env : Env) (talker : Str) (nav : NavigationSystem) (n total : Nat) (rows : List (List InView)) (i : Nat)
    (hr : ∀ row ∈ rows, row.length ≤ 4 ∧ ∀ v ∈ row, v.Fits) :
    ((List.range' i rows.length).flatMap fun k => satellites nav (fieldsOf (viewIn env talker n total rows i) k)) =
      rows.flatten.map (InView.data nav) := by
  induction rows generalizing i with
  | nil => rfl
  | cons r rows ih =>
    have h1 := hr r List.mem_cons_self
    have e : ∀ k ∈ List.range' (i + 1) rows.length, fieldsOf (viewIn env talker n total (r :: rows) i) k =
        fieldsOf (viewIn env talker n total rows (i + 1)) k := by
      intro k hk
      have : i ≠ k := by have := List.mem_range'_1.1 hk; omega
      simp [fieldsOf, viewIn, this]
    have e0 : fieldsOf (viewIn env talker n total (r :: rows) i) i = viewFields n i total r := by
      simp [fieldsOf, viewIn]
    rw [List.length_cons, List.range'_succ, List.flatMap_cons, e0, satellites_row nav n i total r h1.1 h1.2,
      List.flatten_cons, List.map_append, ← ih (i + 1) fun row h => hr row (List.mem_cons_of_mem _ h)]
    congr 1
    exact List.flatMap_congr fun k hk => by rw [e k hk]

theorem view_sent (env : Env) (talker : Str) (rows : List (List InView)) (h : (Source.view env talker rows).Fits) :
    InOrder (.gsv talker rows.length) (Source.view env talker rows).sentences
      (.ok (.gsv (rows.flatten.map (InView.data (talkerSystem talker))))) := by
  obtain ⟨ht, hne, hn, hr⟩ := h
  have hs : (Source.view env talker rows).sentences =
      (viewIn env talker rows.length rows.flatten.length rows 1).map fun x => (x.env, x.sentence) := by
    simp [Source.sentences, viewSentences, viewIn]
  rw [hs, ← viewIn_satellites env talker (talkerSystem talker) rows.length rows.flatten.length rows 1 hr]
  refine .gsv hn (List.length_pos_of_ne_nil hne) ?_ (viewIn_num _ _ _ _ _ _)
  intro x hx
  have hx' : x.num ∈ List.range' 1 rows.length := by
    rw [← viewIn_num env talker rows.length rows.flatten.length rows 1]
    exact List.mem_map.mpr ⟨x, hx, rfl⟩
  have hk := List.mem_range'_1.1 hx'
  simp only [viewIn, List.mem_map] at hx
  obtain ⟨y, -, rfl⟩ := hx
  exact view_part talker _ _ _ _ ht (by omega) (by omega)

/-! ### Sources -/

theorem Source.transmission (x : Source) (hx : x.Fits) : ∃ a, x.Tells a ∧
    ((x.slot = none ∧ ∃ env s, x.sentences = [(env, s)] ∧ Whole env s ∧ a = alone env s) ∨
      ∃ k, x.slot = some k ∧ InOrder k x.sentences a) := by
  cases x with
  | ais x =>
    cases hc : x.content with
    | message m =>
      obtain ⟨a, h, ⟨hl, s, e, hs, rfl⟩ | ⟨hl, hs⟩⟩ := transmission_message x m hx hc
      · exact ⟨_, h, .inl ⟨by simp only [Source.slot, hc, if_pos hl], _, s, e, hs, rfl⟩⟩
      · exact ⟨a, h, .inr ⟨_, by simp only [Source.slot, hc, if_neg hl], hs⟩⟩
    | static a b =>
      obtain ⟨r, h, hr⟩ := transmission_static x a b hx hc
      exact ⟨r, hr, .inr ⟨_, by simp only [Source.slot, hc], h⟩⟩
  | gnss env talker r =>
    exact ⟨_, Reading.tells env talker r hx.1 hx.2, .inl ⟨rfl, env, _, rfl, Reading.whole env talker r hx.1 hx.2, rfl⟩⟩
  | view env talker rows => exact ⟨_, rfl, .inr ⟨_, rfl, view_sent env talker rows hx⟩⟩

theorem Source.tells_ne_incomplete {x : Source} {a : Answer} (h : x.Tells a) : a ≠ .ok .incomplete := by
  cases x with
  | ais x => exact Broadcast.tells_ne_incomplete h
  | gnss env talker r =>
    cases r <;>
    · obtain ⟨d, rfl, -⟩ := h
      intro e
      cases e
  | view env talker rows =>
    subst h
    intro e
    cases e

theorem told_cons {a : Answer} (as : List Answer) (h : a ≠ .ok .incomplete) : told (a :: as) = a :: told as := by
  conv_lhs => unfold told
  split
  · simp_all
  · rename_i heq
    obtain ⟨rfl, rfl⟩ := List.cons.inj heq
    exact absurd rfl h
  · rename_i heq
    obtain ⟨rfl, rfl⟩ := List.cons.inj heq
    rfl

open Classical in
/-- The report of a source. -/
noncomputable def Spec.Source.report (x : Source) : Answer :=
  if h : x.Fits then (Source.transmission x h).choose else .panic

theorem Source.report_spec (x : Source) (h : x.Fits) : x.Tells x.report ∧
    ((x.slot = none ∧ ∃ env s, x.sentences = [(env, s)] ∧ Whole env s ∧ x.report = alone env s) ∨
      ∃ k, x.slot = some k ∧ InOrder k x.sentences x.report) := by
  unfold Source.report
  rw [dif_pos h]
  exact (Source.transmission x h).choose_spec

/-- The sources in transit, with their reports. -/
noncomputable def inTransit (o : Slot → Option (List (Env × Str) × Source)) : Transit :=
  fun k => (o k).map fun y => (y.1, y.2.report)

theorem inTransit_set (o : Slot → Option (List (Env × Str) × Source)) (k : Slot) (v : Option (List (Env × Str) × Source)) :
    inTransit (fun j => if j = k then v else o j) = (inTransit o).set k (v.map fun y => (y.1, y.2.report)) := by
  funext j
  unfold inTransit Transit.set
  split <;> simp_all

theorem traffic_link {o h l} (ht : Traffic o h l) (ho : ∀ k y, o k = some y → y.2.Fits) :
    (∀ x ∈ l, x.Fits) ∧ ∃ as, Link (inTransit o) h as ∧ told as = l.map Source.report := by
  induction ht with
  | done => exact ⟨by simp, [], .done, rfl⟩
  | @one o x s h l hx hs hf ht ih =>
    obtain ⟨h1, as, h2, h3⟩ := ih ho
    obtain ⟨hr, hk⟩ := Source.report_spec x hx
    have hn := Source.tells_ne_incomplete hr
    have ht' : told (x.report :: as) = (x :: l).map Source.report := by
      rw [List.map_cons, ← h3]
      exact told_cons as hn
    refine ⟨List.forall_mem_cons.2 ⟨hx, h1⟩, x.report :: as, ?_, ht'⟩
    rcases hk with ⟨-, env, s', e, hw, ha⟩ | ⟨k, hk, hs'⟩
    · rw [hs] at e
      obtain rfl := (List.cons.inj e).1
      rw [ha]
      exact .whole hw h2
    · rw [hs] at hs'
      exact .only (by simp [inTransit, hf k hk]) hs'.sent h2
  | @start o x k s t rest h l hx hs hk hf ht ih =>
    obtain ⟨h1, as, h2, h3⟩ := ih (by
      intro j y hy
      dsimp only at hy
      split at hy
      · obtain rfl := Option.some.inj hy; exact hx
      · exact ho j y hy)
    refine ⟨h1, .ok .incomplete :: as, ?_, h3⟩
    rcases (Source.report_spec x hx).2 with ⟨hn, -⟩ | ⟨k', hk', hs'⟩
    · rw [hn] at hk; cases hk
    · rw [hk] at hk'
      obtain rfl := Option.some.inj hk'
      rw [hs] at hs'
      rw [inTransit_set] at h2
      exact .start (by simp [inTransit, hf]) hs'.sent h2
  | @more o x k s t rest h l ho' ht ih =>
    obtain ⟨h1, as, h2, h3⟩ := ih (by
      intro j y hy
      dsimp only at hy
      split at hy
      · obtain rfl := Option.some.inj hy; exact (ho k (s :: t :: rest, x) ho' : x.Fits)
      · exact ho j y hy)
    rw [inTransit_set] at h2
    exact ⟨h1, .ok .incomplete :: as, .more (by simp [inTransit, ho']) h2, h3⟩
  | @last o x k s h l ho' ht ih =>
    obtain ⟨h1, as, h2, h3⟩ := ih (by
      intro j y hy
      dsimp only at hy
      split at hy
      · cases hy
      · exact ho j y hy)
    have hx := ho k _ ho'
    have hn := Source.tells_ne_incomplete (Source.report_spec x hx).1
    have ht' : told (x.report :: as) = (x :: l).map Source.report := by
      rw [List.map_cons, ← h3]
      exact told_cons as hn
    rw [inTransit_set] at h2
    exact ⟨List.forall_mem_cons.2 ⟨hx, h1⟩, x.report :: as, .last (by simp [inTransit, ho']) h2, ht'⟩

theorem traffic_told {h l} (ht : Traffic (fun _ => none) h l) :
    List.Forall₂ (fun (x : Source) a => x.Tells a) l (told (answers Parser.new h)) := by
  obtain ⟨hf, as, hl, e⟩ := traffic_link ht (fun k y hy => by cases hy)
  rw [C120_link h as hl, e]
  clear e ht hl
  induction l with
  | nil => exact .nil
  | cons x l ih =>
    exact .cons (Source.report_spec x (hf x List.mem_cons_self)).1 (ih fun y hy => hf y (List.mem_cons_of_mem _ hy))

/-- One source after another. -/
theorem traffic_rest (k : Slot) (x : Source) (rest : List (Env × Str)) (t : Env × Str) (h : List (Env × Str)) (l : List Source)
    (ht : Traffic (fun _ => none) h l) :
    ∀ o : Slot → Option (List (Env × Str) × Source), (∀ j, j ≠ k → o j = none) → o k = some (t :: rest, x) →
      Traffic o (t :: rest ++ h) (x :: l) := by
  induction rest generalizing t with
  | nil =>
    intro o h1 h2
    refine .last h2 ?_
    have : (fun j => if j = k then none else o j) = fun _ => none := by
      funext j
      by_cases hj : j = k
      · rw [if_pos hj]
      · rw [if_neg hj, h1 j hj]
    rwa [this]
  | cons u rest ih =>
    intro o h1 h2
    exact .more h2 (ih u _ (fun j hj => by rw [if_neg hj, h1 j hj]) (if_pos rfl))

theorem traffic_one_by_one (l : List Source) (h : ∀ x ∈ l, x.Fits) :
    Traffic (fun _ => none) (l.flatMap Source.sentences) l := by
  induction l with
  | nil => exact .done
  | cons x l ih =>
    have hx := h x List.mem_cons_self
    have ht := ih fun y hy => h y (List.mem_cons_of_mem _ hy)
    rw [List.flatMap_cons]
    obtain ⟨-, ⟨-, env, s, e, -⟩ | ⟨k, hk, hs⟩⟩ := Source.report_spec x hx
    · rw [e]
      exact .one hx e (fun k hk => rfl) ht
    · match hm : x.sentences, hs with
      | [], hs => exact (sent_leads hs.sent).elim
      | [s], _ => exact .one hx hm (fun k hk => rfl) ht
      | s :: t :: rest, _ =>
        exact .start hx hm hk rfl (traffic_rest k x rest t _ l ht _ (fun j hj => if_neg hj) (if_pos rfl))

end Nmea
