/-
C107: the position texts are those of the crate's two regular expressions.
-/
import Verif.Spec.Regex
import Verif.Lemmas.Gnss

namespace Nmea
open Spec

/-- `[0-9]` -/
abbrev digitRe : Re := .range '0' '9'

theorem steps_range (lo hi : Char) (x : Pos) :
    (Re.range lo hi).steps x = match x.after with
      | [] => []
      | c :: t => if lo ≤ c ∧ c ≤ hi then [{ x with before := x.before ++ [c], after := t }] else [] := rfl

/-- Greedy repetition of a digit: the first result takes all digits. -/
theorem plus_digits (n : Nat) (x : Pos) (hn : x.after.length < n) :
    (plusSteps digitRe.steps n x).head? =
      if (F64.spanDigits x.after).1 = [] then none
      else some ⟨x.before ++ (F64.spanDigits x.after).1, (F64.spanDigits x.after).2, x.caps⟩ := by
  induction n generalizing x with
  | zero => omega
  | succ n ih =>
    obtain ⟨b, a, caps⟩ := x
    cases a with
    | nil => rfl
    | cons c t =>
      by_cases hc : '0' ≤ c ∧ c ≤ '9'
      · have := ih ⟨b ++ [c], t, caps⟩ (by simpa using hn)
        simp only [plusSteps, steps_range, hc, and_self, if_true, List.flatMap_cons, List.flatMap_nil, List.append_nil,
          List.length_cons, Nat.lt_succ_self, List.head?_append, this, F64.spanDigits]
        by_cases he : (F64.spanDigits t).1 = []
        · have h2 : (F64.spanDigits t).2 = t := by
            have := (spanDigits_spec t).1
            rw [he] at this
            exact this.symm
          simp [he, h2]
        · simp [he]
      · simp only [plusSteps, steps_range, if_neg hc, F64.spanDigits]
        rfl


theorem steps_range_seq (lo hi : Char) (r : Re) (b t : Str) (c : Char) (caps : List (Nat × Str)) :
    (Re.seq (.range lo hi) r).steps ⟨b, c :: t, caps⟩ =
      if lo ≤ c ∧ c ≤ hi then r.steps ⟨b ++ [c], t, caps⟩ else [] := by
  simp only [Re.steps]
  split <;> simp

theorem steps_range_nil (lo hi : Char) (r : Re) (b : Str) (caps : List (Nat × Str)) :
    (Re.seq (.range lo hi) r).steps ⟨b, [], caps⟩ = [] := rfl

theorem steps_seq (a b : Re) (x : Pos) : (Re.seq a b).steps x = (a.steps x).flatMap b.steps := rfl

theorem steps_group (i : Nat) (r : Re) (x : Pos) : (Re.group i r).steps x =
    (r.steps x).map fun y => { y with caps := (i, y.before.drop x.before.length) :: y.caps } := rfl

theorem steps_empty (x : Pos) : Re.empty.steps x = [x] := rfl

theorem flatMap_empty (l : List Pos) : l.flatMap Re.empty.steps = l := by
  induction l with
  | nil => rfl
  | cons a l ih => rw [List.flatMap_cons, ih]; rfl

/-- The minutes: the first result. -/
theorem head_minutes (b s : Str) (caps : List (Nat × Str)) :
    ((Re.seq (.plus digitRe) .empty).steps ⟨b, s, caps⟩).head? =
      if (F64.spanDigits s).1 = [] then none
      else some ⟨b ++ (F64.spanDigits s).1, (F64.spanDigits s).2, caps⟩ := by
  have h : ((Re.seq (.plus digitRe) .empty).steps ⟨b, s, caps⟩) = (Re.plus digitRe).steps ⟨b, s, caps⟩ := by
    rw [steps_seq, flatMap_empty]
  rw [h]
  exact plus_digits _ _ (Nat.lt_succ_self _)

/-- A pattern that begins with `^` is tried at the start only. -/
theorem captures_start (r : Re) (s : Str) :
    (Re.seq .start r).captures s = ((r.steps ⟨[], s, []⟩).head?).map (·.caps) := by
  have h : ((List.range (s.length + 1)).flatMap fun i => (Re.seq .start r).steps ⟨s.take i, s.drop i, []⟩) =
      r.steps ⟨[], s, []⟩ := by
    rw [List.range_succ_eq_map, List.flatMap_cons]
    have h0 : (Re.seq .start r).steps ⟨s.take 0, s.drop 0, []⟩ = r.steps ⟨[], s, []⟩ := by
      simp [Re.steps]
    rw [h0]
    have h1 : (List.map Nat.succ (List.range s.length)).flatMap
        (fun i => (Re.seq .start r).steps ⟨s.take i, s.drop i, []⟩) = [] := by
      rw [List.flatMap_eq_nil_iff]
      intro i hi
      obtain ⟨j, hj, rfl⟩ := List.mem_map.mp hi
      rw [List.mem_range] at hj
      cases s with
      | nil => simp at hj
      | cons c t => simp [Re.steps]
    rw [h1, List.append_nil]
  rw [Re.captures, h]

/-- The pattern for `k` digits of degrees. -/
def degMinRe (k : Nat) : Re :=
  .seq .start (.seq (.group 1 ((List.replicate k digitRe).foldl (fun r a => .seq a r) .empty))
    (.seq (.group 2 (.seq digitRe (.seq digitRe (.seq (.range '.' '.') (.seq (.plus digitRe) .empty))))) .empty))

theorem degrees_steps (k : Nat) (b s : Str) (caps : List (Nat × Str)) :
    ((List.replicate k digitRe).foldl (fun r a => .seq a r) Re.empty).steps ⟨b, s, caps⟩ =
      if (s.take k).length = k ∧ (s.take k).all isDig then [⟨b ++ s.take k, s.drop k, caps⟩] else [] := by
  have e : ∀ k, (List.replicate (k + 1) digitRe).foldl (fun r a => .seq a r) Re.empty =
      .seq digitRe ((List.replicate k digitRe).foldl (fun r a => .seq a r) Re.empty) := by
    intro k
    rw [List.replicate_succ', List.foldl_append]
    rfl
  induction k generalizing b s with
  | zero => simp [Re.steps]
  | succ k ih =>
    rw [e]
    cases s with
    | nil => simp [steps_range_nil]
    | cons c t =>
      rw [steps_range_seq, ih]
      by_cases hc : '0' ≤ c ∧ c ≤ '9'
      · have hd : isDig c = true := by simpa [isDig] using hc
        simp [hc, hd]
      · have hd : isDig c = false := by simpa [isDig] using hc
        simp [hc, hd]

theorem captures_degMin (k : Nat) (s : Str) :
    (degMinRe k).captures s = (matchDegMin k s).map fun x => [(2, x.2), (1, x.1)] := by
  rw [degMinRe, captures_start, steps_seq, steps_group, degrees_steps]
  unfold matchDegMin
  dsimp only
  by_cases hd : (s.take k).length = k ∧ (s.take k).all isDig
  · obtain ⟨h1, h2⟩ := hd
    rw [if_pos ⟨h1, h2⟩]
    simp only [List.map_cons, List.map_nil, List.flatMap_cons, List.flatMap_nil, List.append_nil, List.nil_append,
      List.length_nil, List.drop_zero, h1, h2, true_and]
    rw [steps_seq, steps_group, flatMap_empty, List.head?_map, Option.map_map]
    have e2 : s.drop (k + 2) = (s.drop k).drop 2 := by rw [List.drop_drop]
    rw [e2]
    generalize s.drop k = u
    generalize s.take k = d at *
    match u with
    | [] => rfl
    | [x] =>
      rw [steps_range_seq, steps_range_nil]
      simp
    | x :: y :: u =>
      rw [steps_range_seq, steps_range_seq]
      by_cases hx : '0' ≤ x ∧ x ≤ '9'
      swap
      · have : isDig x = false := by simpa [isDig] using hx
        simp [hx, this]
      by_cases hy : '0' ≤ y ∧ y ≤ '9'
      swap
      · have : isDig y = false := by simpa [isDig] using hy
        simp [hx, hy, this]
      have dx : isDig x = true := by simpa [isDig] using hx
      have dy : isDig y = true := by simpa [isDig] using hy
      rw [if_pos hx, if_pos hy, if_pos (by simp [dx, dy])]
      match u with
      | [] => rfl
      | z :: u =>
        rw [steps_range_seq]
        by_cases hz : z = '.'
        · subst hz
          rw [if_pos (by decide), head_minutes]
          simp only [List.drop_succ_cons, List.drop_zero, List.take_succ_cons, List.take_zero]
          by_cases hf : (F64.spanDigits u).1 = []
          · simp [hf]
          · simp [hf]
        · have : ¬ ('.' ≤ z ∧ z ≤ '.') := fun h => hz (Char.le_antisymm h.2 h.1)
          rw [if_neg this]
          simp only [List.drop_succ_cons, List.drop_zero]
          split
          · rename_i e; exact absurd (List.cons.inj e).1 hz
          · rfl
  · rw [if_neg hd, if_neg (fun h => hd ⟨h.1, h.2.1⟩)]
    rfl

/-- The text of the pattern for latitudes (src/util.rs:180) and for longitudes (src/util.rs:200). -/
def posPattern : Bool → Str
  | false => c! "^([0-9][0-9])([0-9][0-9]\\.[0-9]+)"
  | true => c! "^([0-9][0-9][0-9])([0-9][0-9]\\.[0-9]+)"

/-- C107: the pattern texts of the code are regular expressions, and on every text they capture exactly what the model
finds. -/
theorem C107_captures (lon : Bool) : ∃ re, Re.read (posPattern lon) = some re ∧
    ∀ s, re.captures s = (matchDegMin (if lon then 3 else 2) s).map fun x => [(2, x.2), (1, x.1)] := by
  cases lon with
  | false => exact ⟨degMinRe 2, by decide +kernel, captures_degMin 2⟩
  | true => exact ⟨degMinRe 3, by decide +kernel, captures_degMin 3⟩

/-- A longitude. -/
example : ∃ re, Re.read (posPattern true) = some re ∧ re.captures (c! "01131.000,E") = some [(2, c! "31.000"), (1, c! "011")] := by
  obtain ⟨re, h, hc⟩ := C107_captures true
  exact ⟨re, h, (hc _).trans (by decide +kernel)⟩

/-- C107: so a text is a position text with these degrees and minutes (as in C64) exactly if the pattern captures
degrees and minutes with these values. -/
theorem C107_positions (lon : Bool) (s : Str) (deg : Nat) (min : Rat) :
    PosText (if lon then 3 else 2) s deg min ↔
      ∃ re d m f, Re.read (posPattern lon) = some re ∧ re.captures s = some [(2, m ++ '.' :: f), (1, d)] ∧
        '.' ∉ m ∧ deg = decValue d ∧ min = decValue m + decValue f / 10 ^ f.length := by
  obtain ⟨re, hre, hc⟩ := C107_captures lon
  generalize (if lon then 3 else 2) = k at *
  have noDot : ∀ m, AllDigits m → '.' ∉ m := fun m h hm => absurd (h _ hm) (by decide)
  constructor
  · rintro ⟨d, m, f, rest, h0, h1, h2, h3, h4, h5, h6, h7, h8⟩
    refine ⟨re, d, m, f, hre, ?_, noDot m h4, h7, h8⟩
    rw [hc, (matchDegMin_iff k s d _).mpr ⟨m, f, rest, h0, rfl, h1, h2, h3, h4, h5, h6⟩]
    rfl
  · rintro ⟨re', d, m, f, hre', h, hm, h7, h8⟩
    obtain rfl : re = re' := Option.some.inj (hre.symm.trans hre')
    rw [hc, Option.map_eq_some_iff] at h
    obtain ⟨⟨d', mf⟩, h, e⟩ := h
    simp only [List.cons.injEq, Prod.mk.injEq, true_and, and_true] at e
    obtain ⟨rfl, rfl⟩ := e
    obtain ⟨m', f', rest, h0, e, h1, h2, h3, h4, h5, h6⟩ := (matchDegMin_iff k s d' _).mp h
    have : m = m' ∧ f = f' := by
      have hm' := noDot m' h4
      clear h0 h2 h4 h8 h
      induction m generalizing m' with
      | nil =>
        cases m' with
        | nil => exact ⟨rfl, (List.cons.inj e).2⟩
        | cons a t => exact absurd (by rw [← (List.cons.inj e).1]; simp) hm'
      | cons a t ih =>
        cases m' with
        | nil => exact absurd (by rw [(List.cons.inj e).1]; simp) hm
        | cons a' t' =>
          obtain ⟨rfl, e'⟩ := List.cons.inj e
          obtain ⟨rfl, rfl⟩ := ih (fun h => hm (List.mem_cons_of_mem _ h)) t' e' (fun h => hm' (List.mem_cons_of_mem _ h))
          exact ⟨rfl, rfl⟩
    obtain ⟨rfl, rfl⟩ := this
    exact ⟨d', m, f, rest, h0, h1, h2, h3, h4, h5, h6, h7, h8⟩

/-- The pattern for latitudes on a text with more digits of minutes and a remainder; and on a text without decimals. -/
example : ((Re.read (posPattern false)).bind (·.captures (c! "4807.0380x"))) = some [(2, c! "07.0380"), (1, c! "48")] ∧
    ((Re.read (posPattern false)).bind (·.captures (c! "4807."))) = none ∧
    ((Re.read (posPattern true)).bind (·.captures (c! "4807.038"))) = none := by decide +kernel

end Nmea
