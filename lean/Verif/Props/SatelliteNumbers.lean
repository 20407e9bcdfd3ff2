/-
C152: satellite numbers above 255.
-/
import Verif.Props.SignalId
import Verif.Props.Gnss

namespace Nmea
open Spec

/-- A number up to the maximum, or nothing. -/
def upToMax (max : Nat) (n : Option Nat) : Option Nat := n.filter (fun k => decide (k ≤ max))

/-- What is reported of a satellite in view whose numbers may be of any size. -/
def Spec.InView.seen (nav : NavigationSystem) (v : InView) : Option GsvData :=
  if v.prn ≤ 255 then some ⟨nav, v.prn, upToMax 255 v.elevation, upToMax 65535 v.azimuth, upToMax 255 v.snr⟩ else none

theorem readDec_any (max n : Nat) : readDec max (Nat.toDigits 10 n) = if n ≤ max then some n else none := by
  split
  · next h => exact readDec_digits max n h
  · next h =>
    rw [Option.eq_none_iff_forall_ne_some]
    intro k hk
    obtain ⟨ds, e, -, e2, e3⟩ := (readDec_iff _ _ _).1 hk
    obtain ⟨ds', e', -, e2', -⟩ := dec_natStr n n (Nat.le_refl n)
    have hd := natStr_digits n
    rcases e with e | e
    · rw [← e] at e2
      have : decValue (natStr n) = k := e2
      rw [decValue_natStr] at this
      omega
    · have := hd.2 '+' (by rw [show natStr n = _ from e]; simp)
      revert this
      decide

theorem readDec_opt_any (max : Nat) (n : Option Nat) : readDec max (optDigits n) = upToMax max n := by
  cases n with
  | none => rfl
  | some n => simp only [optDigits, readDec_any, upToMax, Option.filter_some, decide_eq_true_eq]

theorem satellite_seen (nav : NavigationSystem) (fs : List Str) (j : Nat) (v : InView)
    (h0 : field fs (3 + 4 * j) = Nat.toDigits 10 v.prn) (h1 : field fs (4 + 4 * j) = optDigits v.elevation)
    (h2 : field fs (5 + 4 * j) = optDigits v.azimuth) (h3 : field fs (6 + 4 * j) = optDigits v.snr) :
    satellite nav fs j = v.seen nav := by
  unfold satellite InView.seen
  rw [h0, h1, h2, h3, readDec_any, readDec_opt_any, readDec_opt_any, readDec_opt_any]
  split <;> rfl

theorem satellites_seen (nav : NavigationSystem) (n k total : Nat) (row : List InView) (hl : row.length ≤ 4) :
    satellites nav (viewFields n k total row) = row.filterMap (InView.seen nav) := by
  unfold satellites
  match row, hl with
  | [], _ =>
    rw [List.filterMap_eq_nil_iff.2]
    · rfl
    · intro j hj
      simp only [List.mem_cons, List.not_mem_nil, or_false] at hj
      rcases hj with rfl | rfl | rfl | rfl <;> exact satellite_absent _ _ _ rfl
  | [a], _ =>
    simp only [filterMap_toList, List.flatMap_cons, List.flatMap_nil]
    rw [satellite_seen nav _ 0 a rfl rfl rfl rfl, satellite_absent nav _ 1 rfl, satellite_absent nav _ 2 rfl,
      satellite_absent nav _ 3 rfl]
    simp
  | [a, b], _ =>
    simp only [filterMap_toList, List.flatMap_cons, List.flatMap_nil]
    rw [satellite_seen nav _ 0 a rfl rfl rfl rfl, satellite_seen nav _ 1 b rfl rfl rfl rfl, satellite_absent nav _ 2 rfl,
      satellite_absent nav _ 3 rfl]
    simp
  | [a, b, c], _ =>
    simp only [filterMap_toList, List.flatMap_cons, List.flatMap_nil]
    rw [satellite_seen nav _ 0 a rfl rfl rfl rfl, satellite_seen nav _ 1 b rfl rfl rfl rfl,
      satellite_seen nav _ 2 c rfl rfl rfl rfl, satellite_absent nav _ 3 rfl]
    simp
  | [a, b, c, d], _ =>
    simp only [filterMap_toList, List.flatMap_cons, List.flatMap_nil]
    rw [satellite_seen nav _ 0 a rfl rfl rfl rfl, satellite_seen nav _ 1 b rfl rfl rfl rfl,
      satellite_seen nav _ 2 c rfl rfl rfl rfl, satellite_seen nav _ 3 d rfl rfl rfl rfl]
  | _ :: _ :: _ :: _ :: _ :: _, h => simp at h

/-- C152: the sentences of a GSV group in order, with numbers of any size: the satellites with numbers up to 255 are reported, in
order, elevations and signal strengths above 255 and azimuths above 65535 as absent; the others are left out without an error. -/
theorem C152_in_view (p : Parser) (talker : Str) (rows : List (List InView)) (h : List (Env × Str))
    (ht : Talker talker) (hr : rows ≠ []) (hn : rows.length < 2 ^ 32 - 1) (hrow : ∀ row ∈ rows, row.length ≤ 4)
    (hp : NonePending p talker rows.length) (hh : h.map (·.2) = viewSentences talker rows) :
    answers p h = List.replicate (rows.length - 1) (.ok .incomplete) ++
      [.ok (.gsv (rows.flatten.filterMap (InView.seen (talkerSystem talker))))] := by
  let l := (rows.zipIdx 1).map fun x => (x.2, viewFields rows.length x.2 rows.flatten.length x.1)
  have hl : l.map (·.1) = List.range' 1 rows.length := by
    simp only [l, List.map_map]
    exact List.zipIdx_map_snd 1 rows
  have ha : List.Forall₂ (fun x e => GsvPart talker rows.length e.1 e.2 x.2) h l := by
    refine forall₂_of_map (P := fun s (e : Nat × List Str) => GsvPart talker rows.length e.1 e.2 s)
      (f := fun e : Nat × List Str => gnssSentence talker (c! "GSV") e.2) (by rw [hh]; simp only [viewSentences, l, List.map_map]; rfl) ?_
    intro e he
    have hb := List.mem_range'_1.1 (hl ▸ List.mem_map.2 ⟨e, he, rfl⟩ : e.1 ∈ List.range' 1 rows.length)
    simp only [l, List.mem_map] at he
    obtain ⟨y, -, rfl⟩ := he
    exact ⟨⟨ht, viewFields_comma _ _ _ _, by simp [viewFields], .full, (fun h => nomatch h), rfl⟩,
      .inr (dec_natStr _ _ (by omega)), .inr (dec_natStr _ _ (by omega))⟩
  rw [group_answers hn (List.length_pos_of_ne_nil hr) hp h l ha hl]
  congr 4
  simp only [l, List.flatMap_map]
  rw [List.filterMap_flatten, ← List.flatMap_def]
  conv_rhs => rw [← List.zipIdx_map_fst 1 rows, List.flatMap_map]
  refine List.flatMap_congr fun x hx => ?_
  exact satellites_seen _ _ _ _ _ (hrow x.1 (by rw [← List.zipIdx_map_fst 1 rows]; exact List.mem_map.2 ⟨x, hx, rfl⟩))

/-- C152: a GSA sentence is refused if one of the satellites in use has a number above 255. -/
theorem C152_in_use (env : Env) (p : Parser) (talker : Str) (fs : List Str) (s : Str) (i n : Nat)
    (h : IsGnss talker (c! "GSA") fs s) (hi : i < 12) (hf : field fs (i + 2) = Nat.toDigits 10 n) (hn : 255 < n) :
    ∃ e, parseSentence env p s = (.err e, p) := by
  obtain ⟨h1, -, h2, -⟩ := C67_contents env p talker fs s h
  obtain ⟨e, he⟩ := h2.2 (by
    rintro ⟨-, -, h3, -⟩
    obtain ⟨x, hx⟩ := h3 i hi
    rw [hf] at hx
    rcases hx with ⟨hx, -⟩ | ⟨k, hx, -⟩
    · exact absurd hx (natStr_digits n).1
    · have := (readDec_iff _ _ _).2 hx
      rw [readDec_any, if_neg (by omega)] at this
      cases this)
  exact ⟨e, Prod.ext he h1⟩

/-- Galileo satellites 2 and 8 in the numbering of some receivers (301 to 336), beside a GPS satellite. -/
def demoExtended : List (List InView) := [[⟨5, some 40, some 83, some 46⟩, ⟨302, some 10, some 20, none⟩, ⟨308, some 33, none, none⟩]]

/-- They meet the hypotheses. -/
example : Talker (c! "GN") ∧ demoExtended ≠ [] ∧ demoExtended.length < 2 ^ 32 - 1 ∧ (∀ row ∈ demoExtended, row.length ≤ 4) ∧
    NonePending Parser.new (c! "GN") demoExtended.length ∧
    [c! "$GNGSV,1,1,3,5,40,83,46,302,10,20,,308,33,,*65"] = viewSentences (c! "GN") demoExtended ∧
    IsGnss (c! "GN") (c! "GSA") [c! "A", c! "3", c! "5", c! "302", c! "308"] (c! "$GNGSA,A,3,5,302,308") := by
  refine ⟨⟨rfl, by decide⟩, by decide, by decide, by decide, fun _ _ _ => rfl, by decide +kernel, demoTagged .bare (by decide)⟩

/-- C152: so 'every satellite in view is reported' and 'a GSA sentence with existing satellites is accepted' are false. -/
theorem C152_counterexample :
    (∃ l, (parseSentence demoEnv Parser.new (c! "$GNGSV,1,1,3,5,40,83,46,302,10,20,,308,33,,*65")).1 = .ok (.gsv l) ∧ l.length = 1) ∧
    ∃ e, (parseSentence demoEnv Parser.new (c! "$GNGSA,A,3,5,302,308")).1 = .err e :=
  ⟨⟨[⟨.combination, 5, some 40, some 83, some 46⟩], by decide +kernel, rfl⟩,
    .invalidSentence (c! "Failed to parse field 4: 302"), by decide +kernel⟩

end Nmea
