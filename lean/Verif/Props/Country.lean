/-
C61: the country of a vessel.
-/
import Verif.Model.Country
import Verif.Spec.Country

namespace Nmea
open Spec

theorem country_mem (v : VesselStaticData) (c : Str) :
    v.country = some c ↔ (v.mmsi / 1000000, c) ∈ countryTable := by
  have nodup : (countryTable.map (·.1)).Nodup := by decide +kernel
  unfold VesselStaticData.country
  generalize v.mmsi / 1000000 = k
  generalize countryTable = l at nodup
  induction l with
  | nil => simp
  | cons r l ih =>
    obtain ⟨a, b⟩ := r
    rw [List.map_cons, List.nodup_cons] at nodup
    by_cases h : a = k
    · subst h
      rw [List.find?_cons_of_pos (by simp)]
      simp only [Option.map_some, Option.some.injEq, List.mem_cons, Prod.mk.injEq, true_and]
      constructor
      · rintro rfl; exact .inl rfl
      · rintro (rfl | h)
        · rfl
        · exact absurd (List.mem_map_of_mem (f := (·.1)) h) nodup.1
    · rw [List.find?_cons_of_neg (by simpa using h)]
      have := ih nodup.2
      simp only [List.mem_cons, Prod.mk.injEq, Ne.symm h, false_and, false_or]
      exact this

/-- The country is the one that the first three of the nine MMSI digits are allocated to, for all digits but
445, 660 and 676; those are reported as South Korea, French Southern Territories and Congo instead of North
Korea, Réunion and the Democratic Republic of the Congo. -/
theorem C61_country (v : VesselStaticData) (c : Str) :
    (v.mmsi / 1000000 ∉ [445, 660, 676] → (v.country = some c ↔ Allocated (v.mmsi / 1000000) c)) ∧
    (v.mmsi / 1000000 = 445 → v.country = some (c! "KR") ∧ Allocated 445 (c! "KP")) ∧
    (v.mmsi / 1000000 = 660 → v.country = some (c! "TF") ∧ Allocated 660 (c! "RE")) ∧
    (v.mmsi / 1000000 = 676 → v.country = some (c! "CG") ∧ Allocated 676 (c! "CD")) := by
  refine ⟨?_, ?_, ?_, ?_⟩
  · intro hn
    rw [country_mem]
    have h1 : ∀ r ∈ countryTable, r.1 ∈ [445, 660, 676] ∨ Allocated r.1 r.2 := by decide +kernel
    have h2 : ∀ r ∈ allocations, ∀ d ∈ r.2, d ∈ [445, 660, 676] ∨ (d, r.1) ∈ countryTable := by decide +kernel
    constructor
    · intro h
      exact (h1 _ h).resolve_left hn
    · rintro ⟨r, hr, rfl, hd⟩
      exact (h2 r hr _ hd).resolve_left hn
  all_goals
    intro h
    refine ⟨?_, by decide +kernel⟩
    rw [country_mem, h]
    decide +kernel

/-- A Finnish vessel, and one with the digits of both Koreas. -/
example (v w : VesselStaticData) (hv : v.mmsi = 230123456) (hw : w.mmsi = 445123456) :
    v.country = some (c! "FI") ∧ w.country = some (c! "KR") :=
  ⟨((C61_country v _).1 (by rw [hv]; decide)).mpr (by rw [hv]; decide +kernel), ((C61_country w (c! "KR")).2.1 (by rw [hw])).1⟩

/-- Only the first three digits matter. -/
theorem C61_only_digits (v w : VesselStaticData) (h : v.mmsi / 1000000 = w.mmsi / 1000000) : v.country = w.country := by
  unfold VesselStaticData.country
  rw [h]

/-- Two vessels with the same first three digits. -/
example (v w : VesselStaticData) (hv : v.mmsi = 230123456) (hw : w.mmsi = 230999999) : v.country = w.country :=
  C61_only_digits v w (by rw [hv, hw])

/-- A country code is two upper-case letters; there is none outside `201000000 … 775999999`. -/
theorem C61_codes (v : VesselStaticData) :
    (∀ c, v.country = some c → c.length = 2 ∧ ∀ x ∈ c, 'A' ≤ x ∧ x ≤ 'Z') ∧
    (v.mmsi < 201000000 ∨ 775999999 < v.mmsi → v.country = none) := by
  have h1 : ∀ r ∈ countryTable, 201 ≤ r.1 ∧ r.1 ≤ 775 ∧ r.2.length = 2 ∧ ∀ x ∈ r.2, 'A' ≤ x ∧ x ≤ 'Z' := by decide +kernel
  constructor
  · intro c hc
    exact (h1 _ ((country_mem v c).mp hc)).2.2
  · intro hm
    cases hc : v.country with
    | none => rfl
    | some c =>
      obtain ⟨a, b, -⟩ := h1 _ ((country_mem v c).mp hc)
      change 201 ≤ v.mmsi / 1000000 at a
      change v.mmsi / 1000000 ≤ 775 at b
      omega

/-- A number below those allocated. -/
example (v : VesselStaticData) (hv : v.mmsi = 200999999) : v.country = none := (C61_codes v).2 (.inl (by rw [hv]; decide))

end Nmea
