/-
The association-list map.
-/
import Mathlib.Data.List.Perm.Subperm
import Verif.Model.Store

namespace Nmea
namespace KV
variable {K V : Type} [DecidableEq K]

theorem find_filter_ne (l : List (K × V)) (k k' : K) (h : k' ≠ k) :
    (l.filter (fun p => p.1 ≠ k)).find? (fun p => p.1 = k') = l.find? (fun p => p.1 = k') := by
  induction l with
  | nil => rfl
  | cons x l ih =>
    by_cases hx : x.1 = k
    · rw [List.filter_cons_of_neg (by simp [hx]), ih,
        List.find?_cons_of_neg (by simp only [hx, decide_eq_true_eq]; exact fun h' => h h'.symm)]
    · rw [List.filter_cons_of_pos (by simp [hx])]
      by_cases hx' : x.1 = k'
      · rw [List.find?_cons_of_pos (by simp [hx']), List.find?_cons_of_pos (by simp [hx'])]
      · rw [List.find?_cons_of_neg (by simp [hx']), List.find?_cons_of_neg (by simp [hx']), ih]

@[simp] theorem get_empty (k : K) : (KV.empty : KV K V).get k = none := rfl

theorem get_erase (m : KV K V) (k k' : K) : (m.erase k).get k' = if k' = k then none else m.get k' := by
  by_cases h : k' = k
  · rw [if_pos h]
    subst h
    simp only [get, erase, Option.map_eq_none_iff, List.find?_eq_none]
    intro x hx
    simpa using (List.mem_filter.mp hx).2
  · rw [if_neg h]
    simp only [get, erase, find_filter_ne _ _ _ h]

theorem get_erase_self (m : KV K V) (k : K) : (m.erase k).get k = none := by simp [get_erase]

theorem get_erase_ne (m : KV K V) (k k' : K) (h : k' ≠ k) : (m.erase k).get k' = m.get k' := by
  rw [get_erase, if_neg h]

theorem get_insert (m : KV K V) (k k' : K) (v : V) :
    (m.insert k v).get k' = if k' = k then some v else m.get k' := by
  by_cases h : k' = k
  · subst h; simp [get, insert]
  · rw [if_neg h, ← get_erase_ne m k k' h]
    simp only [get, insert, erase]
    rw [List.find?_cons_of_neg (by simp only [decide_eq_true_eq]; exact fun h' => h h'.symm)]

theorem get_insert_self (m : KV K V) (k : K) (v : V) : (m.insert k v).get k = some v := by simp [get_insert]

theorem get_insert_ne (m : KV K V) (k k' : K) (v : V) (h : k' ≠ k) : (m.insert k v).get k' = m.get k' := by
  rw [get_insert, if_neg h]

theorem size_erase_le (m : KV K V) (k : K) : (m.erase k).size ≤ m.size := List.length_filter_le _ _

theorem size_insert_le (m : KV K V) (k : K) (v : V) : (m.insert k v).size ≤ m.size + 1 := by
  have := size_erase_le m k
  simp only [insert, size, List.length_cons] at *
  omega

theorem mem_of_get (m : KV K V) (k : K) (v : V) (h : m.get k = some v) : (k, v) ∈ m.items := by
  simp only [get, Option.map_eq_some_iff] at h
  obtain ⟨x, hx, rfl⟩ := h
  have h1 := List.mem_of_find?_eq_some hx
  have h2 := List.find?_some hx
  simp only [decide_eq_true_eq] at h2
  rwa [← h2]

/-- Distinct keys that are present are at most as many as the entries. -/
theorem length_le_size (m : KV K V) (ks : List K) (hn : ks.Nodup) (h : ∀ k ∈ ks, (m.get k).isSome) :
    ks.length ≤ m.size := by
  have hsub : ks ⊆ m.items.map Prod.fst := by
    intro k hk
    obtain ⟨v, hv⟩ := Option.isSome_iff_exists.mp (h k hk)
    exact List.mem_map.mpr ⟨(k, v), mem_of_get m k v hv, rfl⟩
  have := (List.subperm_of_subset hn hsub).length_le
  simpa [size] using this

end KV
end Nmea
