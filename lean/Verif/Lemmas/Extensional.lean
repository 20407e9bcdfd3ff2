/-
Every function of the model that uses the two maps gives the same result on states with the same data, and keeps
keys unique.
-/
import Verif.Spec.Extensional
import Verif.Lemmas.Gsv
import Mathlib.Data.List.Nodup

namespace Nmea
open Spec

/-- Same answer, and states with the same data. -/
def SameResult {α : Type} (x y : α × Parser) : Prop := x.1 = y.1 ∧ SameData x.2 y.2

theorem SameData.refl (p : Parser) : SameData p p := ⟨fun _ => rfl, fun _ => rfl⟩

theorem same_pushString {p q : Parser} (h : SameData p q) (k v : Str) :
    SameData (p.pushString k v) (q.pushString k v) := by
  refine ⟨fun k' => ?_, h.2⟩
  simp only [Parser.pushString, KV.get_insert, h.1]

theorem same_pullString {p q : Parser} (h : SameData p q) (k : Str) : SameResult (p.pullString k) (q.pullString k) := by
  refine ⟨h.1 k, fun k' => ?_, h.2⟩
  simp only [Parser.pullString, KV.get_erase, h.1]

theorem same_pushVsd {p q : Parser} (h : SameData p q) (k : Nat) (v : VesselStaticData) :
    SameData (p.pushVsd k v) (q.pushVsd k v) := by
  refine ⟨h.1, fun k' => ?_⟩
  simp only [Parser.pushVsd, KV.get_insert, h.2]

theorem same_pullVsd {p q : Parser} (h : SameData p q) (k : Nat) : SameResult (p.pullVsd k) (q.pullVsd k) := by
  refine ⟨h.2 k, h.1, fun k' => ?_⟩
  simp only [Parser.pullVsd, KV.get_erase, h.2]

theorem same_containsKey {p q : Parser} (h : SameData p q) (k : Str) : p.containsKey k = q.containsKey k := by
  simp only [Parser.containsKey, h.1]

/-! ### The handlers -/

theorem same_t24Store {p q : Parser} (h : SameData p q) (v : VesselStaticData) :
    SameResult (t24Store v p) (t24Store v q) := by
  have hp := same_pullVsd h v.mmsi
  rcases e : p.pullVsd v.mmsi with ⟨x, p'⟩
  rcases e' : q.pullVsd v.mmsi with ⟨x', q'⟩
  rw [e, e'] at hp
  obtain ⟨rfl : x = x', hd : SameData p' q'⟩ := hp
  simp only [t24Store, e, e']
  cases x with
  | none => exact ⟨rfl, same_pushVsd hd _ _⟩
  | some y =>
    dsimp only
    split <;> exact ⟨rfl, hd⟩

theorem same_handleT24 {p q : Parser} (h : SameData p q) (bv : Bits) (st : Station) (own : Bool) :
    SameResult (handleT24 bv st p own) (handleT24 bv st q own) := by
  simp only [handleT24]
  split
  · split <;> first | exact same_t24Store h _ | exact ⟨rfl, h⟩
  · split <;> first | exact same_t24Store h _ | exact ⟨rfl, h⟩
  · exact ⟨rfl, h⟩

theorem same_dispatchAis {p q : Parser} (h : SameData p q) (env : Env) (ty : Str) (bv : Bits) (st : Station)
    (own : Bool) : SameResult (dispatchAis env ty bv st own p) (dispatchAis env ty bv st own q) := by
  simp only [dispatchAis]
  split
  case h_12 => exact same_handleT24 h _ _ _
  all_goals exact ⟨rfl, h⟩

theorem same_assemble {p q : Parser} (h : SameData p q) (ty : Str) (v : VdmVars) :
    SameResult (assemble ty v p) (assemble ty v q) := by
  have key : ∀ k k' (f : Str → Str) w,
      SameResult (match p.pullString k with
        | (some q, p') => (some (f q), p')
        | (none, p') => (none, p'.pushString k' w))
        (match q.pullString k with
        | (some q, p') => (some (f q), p')
        | (none, p') => (none, p'.pushString k' w)) := by
    intro k k' f w
    have hp := same_pullString h k
    rcases e : p.pullString k with ⟨x, p'⟩
    rcases e' : q.pullString k with ⟨x', q'⟩
    rw [e, e'] at hp
    obtain ⟨rfl : x = x', hd : SameData p' q'⟩ := hp
    cases x with
    | none => exact ⟨rfl, same_pushString hd _ _⟩
    | some y => exact ⟨rfl, hd⟩
  simp only [assemble]
  split
  · exact ⟨rfl, h⟩
  · split
    · split
      · split
        · exact key _ _ (fun q => v.payload ++ q) _
        · split
          · exact key _ _ (fun q => q ++ v.payload) _
          · exact ⟨rfl, h⟩
      · exact ⟨rfl, h⟩
    · exact ⟨rfl, h⟩

theorem same_handleVdm {p q : Parser} (h : SameData p q) (env : Env) (ty body : Str) (st : Station) :
    SameResult (handleVdm env ty body st p) (handleVdm env ty body st q) := by
  simp only [handleVdm]
  split
  · exact ⟨rfl, h⟩
  · exact ⟨rfl, h⟩
  · rename_i v _
    have hp := same_assemble h ty v
    rcases e : assemble ty v p with ⟨x, p'⟩
    rcases e' : assemble ty v q with ⟨x', q'⟩
    rw [e, e'] at hp
    obtain ⟨rfl : x = x', hd : SameData p' q'⟩ := hp
    cases x with
    | none => exact ⟨rfl, hd⟩
    | some y =>
      dsimp only
      split
      · exact same_dispatchAis hd _ _ _ _ _
      · exact ⟨rfl, hd⟩
      · exact ⟨rfl, hd⟩

theorem same_gsvFound {p q : Parser} (h : SameData p q) (t : Str) (n : Nat) (is : List Nat) :
    gsvFound p t n is = gsvFound q t n is := by
  induction is with
  | nil => rfl
  | cons i is ih => simp only [gsvFound, same_containsKey h, ih]

theorem same_gsvCollect (nav : NavigationSystem) (t : Str) (n : Nat) (is : List Nat) {p q : Parser}
    (h : SameData p q) : SameResult (gsvCollect nav t n is p) (gsvCollect nav t n is q) := by
  induction is generalizing p q with
  | nil => exact ⟨rfl, h⟩
  | cons i is ih =>
    have hp := same_pullString h (makeGsvKey t n i)
    rcases e : p.pullString (makeGsvKey t n i) with ⟨x, p'⟩
    rcases e' : q.pullString (makeGsvKey t n i) with ⟨x', q'⟩
    rw [e, e'] at hp
    obtain ⟨rfl : x = x', hd : SameData p' q'⟩ := hp
    simp only [gsvCollect, e, e']
    cases x with
    | none => exact ih hd
    | some y => exact ⟨congrArg (gsvSats nav y ++ ·) (ih hd).1, (ih hd).2⟩

theorem same_handleGsv {p q : Parser} (h : SameData p q) (oc : Bool) (body : Str) (nav : NavigationSystem) :
    SameResult (handleGsv oc body nav p) (handleGsv oc body nav q) := by
  simp only [handleGsv]
  split
  · exact ⟨rfl, h⟩
  · exact ⟨rfl, h⟩
  · split
    · exact ⟨rfl, h⟩
    · exact ⟨rfl, h⟩
    · split
      · exact ⟨rfl, same_pushString h _ _⟩
      · rw [same_gsvFound (same_pushString h _ _)]
        split
        · refine ⟨congrArg (fun l => Out.ok (ParsedSentence.gsv l)) (same_gsvCollect _ _ _ _ ?_).1,
            (same_gsvCollect _ _ _ _ ?_).2⟩ <;> exact same_pushString h _ _
        · exact ⟨rfl, same_pushString h _ _⟩

theorem same_dispatch {p q : Parser} (h : SameData p q) (env : Env) (ty body : Str) (nav : Option NavigationSystem)
    (st : Option Station) : SameResult (dispatch env p ty body nav st) (dispatch env q ty body nav st) := by
  simp only [dispatch]
  repeat' split
  all_goals first | exact ⟨rfl, h⟩ | exact same_handleGsv h _ _ _ | exact same_handleVdm h _ _ _ _

theorem same_parseSentence {p q : Parser} (h : SameData p q) (env : Env) (s : Str) :
    SameResult (parseSentence env p s) (parseSentence env q s) := by
  simp only [parseSentence, parseBody]
  repeat' split
  all_goals first | exact ⟨rfl, h⟩ | exact same_dispatch h _ _ _ _ _

/-! ### Unique keys -/

section
variable {K V : Type} [DecidableEq K]

theorem KV.keys_erase (m : KV K V) (k : K) (h : (m.items.map (·.1)).Nodup) :
    ((m.erase k).items.map (·.1)).Nodup := by
  simp only [KV.erase]
  exact h.sublist (List.filter_sublist.map _)

theorem KV.keys_insert (m : KV K V) (k : K) (v : V) (h : (m.items.map (·.1)).Nodup) :
    ((m.insert k v).items.map (·.1)).Nodup := by
  simp only [KV.insert, List.map_cons, List.nodup_cons]
  refine ⟨?_, KV.keys_erase m k h⟩
  simp [KV.erase]

theorem KV.get_isSome (m : KV K V) (k : K) : (m.get k).isSome = true ↔ k ∈ m.items.map (·.1) := by
  simp [KV.get, List.find?_isSome]

/-- Maps with unique keys and the same lookups have the same number of entries. -/
theorem KV.size_eq (m n : KV K V) (hm : (m.items.map (·.1)).Nodup) (hn : (n.items.map (·.1)).Nodup)
    (h : ∀ k, m.get k = n.get k) : m.size = n.size := by
  have hp : (m.items.map (·.1)).Perm (n.items.map (·.1)) := by
    rw [List.perm_ext_iff_of_nodup hm hn]
    intro k
    rw [← KV.get_isSome, ← KV.get_isSome, h]
  simpa [KV.size] using hp.length_eq

end

theorem once_pushString {p : Parser} (h : OncePerKey p) (k v : Str) : OncePerKey (p.pushString k v) :=
  ⟨KV.keys_insert _ _ _ h.1, h.2⟩

theorem once_pullString {p : Parser} (h : OncePerKey p) (k : Str) : OncePerKey (p.pullString k).2 :=
  ⟨KV.keys_erase _ _ h.1, h.2⟩

theorem once_pushVsd {p : Parser} (h : OncePerKey p) (k : Nat) (v : VesselStaticData) : OncePerKey (p.pushVsd k v) :=
  ⟨h.1, KV.keys_insert _ _ _ h.2⟩

theorem once_pullVsd {p : Parser} (h : OncePerKey p) (k : Nat) : OncePerKey (p.pullVsd k).2 :=
  ⟨h.1, KV.keys_erase _ _ h.2⟩

theorem once_t24Store {p : Parser} (h : OncePerKey p) (v : VesselStaticData) : OncePerKey (t24Store v p).2 := by
  have hp := once_pullVsd h v.mmsi
  rcases e : p.pullVsd v.mmsi with ⟨x, p'⟩
  rw [e] at hp
  simp only [t24Store, e]
  cases x with
  | none => exact once_pushVsd hp _ _
  | some y =>
    dsimp only
    split <;> exact hp

theorem once_handleT24 {p : Parser} (h : OncePerKey p) (bv : Bits) (st : Station) (own : Bool) :
    OncePerKey (handleT24 bv st p own).2 := by
  simp only [handleT24]
  split
  · split <;> first | exact once_t24Store h _ | exact h
  · split <;> first | exact once_t24Store h _ | exact h
  · exact h

theorem once_dispatchAis {p : Parser} (h : OncePerKey p) (env : Env) (ty : Str) (bv : Bits) (st : Station)
    (own : Bool) : OncePerKey (dispatchAis env ty bv st own p).2 := by
  simp only [dispatchAis]
  split
  case h_12 => exact once_handleT24 h _ _ _
  all_goals exact h

theorem once_assemble {p : Parser} (h : OncePerKey p) (ty : Str) (v : VdmVars) : OncePerKey (assemble ty v p).2 := by
  have key : ∀ k k' (f : Str → Str) w,
      OncePerKey (match p.pullString k with
        | (some q, p') => (some (f q), p')
        | (none, p') => (none, p'.pushString k' w)).2 := by
    intro k k' f w
    have hp := once_pullString h k
    rcases e : p.pullString k with ⟨x, p'⟩
    rw [e] at hp
    cases x with
    | none => exact once_pushString hp _ _
    | some y => exact hp
  simp only [assemble]
  split
  · exact h
  · split
    · split
      · split
        · exact key _ _ (fun q => v.payload ++ q) _
        · split
          · exact key _ _ (fun q => q ++ v.payload) _
          · exact h
      · exact h
    · exact h

theorem once_handleVdm {p : Parser} (h : OncePerKey p) (env : Env) (ty body : Str) (st : Station) :
    OncePerKey (handleVdm env ty body st p).2 := by
  simp only [handleVdm]
  split
  · exact h
  · exact h
  · rename_i v _
    have hp := once_assemble h ty v
    rcases e : assemble ty v p with ⟨x, p'⟩
    rw [e] at hp
    cases x with
    | none => exact hp
    | some y =>
      dsimp only
      split
      · exact once_dispatchAis hp _ _ _ _ _
      · exact hp
      · exact hp

theorem once_gsvCollect (nav : NavigationSystem) (t : Str) (n : Nat) (is : List Nat) {p : Parser}
    (h : OncePerKey p) : OncePerKey (gsvCollect nav t n is p).2 := by
  induction is generalizing p with
  | nil => exact h
  | cons i is ih =>
    have hp := once_pullString h (makeGsvKey t n i)
    rcases e : p.pullString (makeGsvKey t n i) with ⟨x, p'⟩
    rw [e] at hp
    simp only [gsvCollect, e]
    cases x with
    | none => exact ih hp
    | some y => exact ih hp

theorem once_handleGsv {p : Parser} (h : OncePerKey p) (oc : Bool) (body : Str) (nav : NavigationSystem) :
    OncePerKey (handleGsv oc body nav p).2 := by
  simp only [handleGsv]
  split
  · exact h
  · exact h
  · split
    · exact h
    · exact h
    · split
      · exact once_pushString h _ _
      · split
        · exact once_gsvCollect _ _ _ _ (once_pushString h _ _)
        · exact once_pushString h _ _

theorem once_parseSentence {p : Parser} (h : OncePerKey p) (env : Env) (s : Str) :
    OncePerKey (parseSentence env p s).2 := by
  simp only [parseSentence, parseBody, dispatch]
  repeat' split
  all_goals first | exact h | exact once_handleGsv h _ _ _ | exact once_handleVdm h _ _ _ _

end Nmea
