/-
C168: what is pending, in bytes.
-/
import Verif.Spec.Bytes
import Verif.Props.Compact
import Verif.Lemmas.Shortest
import Verif.Lemmas.Gnss

namespace Nmea
open Spec

/-! ### Lengths -/

theorem byteLen_join (t : Str) (fs : List Str) : byteLen (join t fs) = byteLen t + (fs.map fun f => 1 + byteLen f).sum := by
  unfold join
  rw [byteLen_append]
  congr 1
  induction fs with
  | nil => rfl
  | cons f fs ih =>
    simp only [List.map_cons, List.flatten_cons, List.cons_append, byteLen_cons, byteLen_append, ih, List.sum_cons]
    have : Char.utf8Size ',' = 1 := by decide
    omega

theorem byteLen_digits (s : Str) (h : AllDigits s) : byteLen s = s.length := by
  induction s with
  | nil => rfl
  | cons c s ih =>
    have h1 := h c List.mem_cons_self
    have h2 : ∀ c ∈ c! "0123456789", c.utf8Size = 1 := by decide
    rw [byteLen_cons, List.length_cons, ih fun d hd => h d (List.mem_cons_of_mem _ hd), h2 c h1]
    omega

theorem byteLen_natStr (n k : Nat) (hk : 0 < k) (h : n < 10 ^ k) : byteLen (natStr n) ≤ k := by
  rw [byteLen_digits _ (natStr_digits n).2]
  exact (natStr_length_le hk).mpr h

theorem byteLen_dec {max n : Nat} {s : Str} (h : Dec max s n) : 1 ≤ byteLen s ∧ byteLen (natStr n) ≤ byteLen s := by
  obtain ⟨ds, hs, hd, rfl, -⟩ := h
  have h1 : 0 < ds.length := List.length_pos_iff.mpr hd.1
  have h2 := byteLen_natStr (decValue ds) ds.length h1 (decValue_lt ds hd.2)
  have h3 := byteLen_digits ds hd.2
  rcases hs with rfl | rfl
  · omega
  · rw [byteLen_cons]
    omega

theorem byteLen_fields (fs : List Str) :
    fs.length + byteLen (field fs 0) + byteLen (field fs 1) + byteLen (field fs 2) + byteLen (field fs 3) + byteLen (field fs 4) ≤
      (fs.map fun f => 1 + byteLen f).sum := by
  have key : ∀ fs : List Str, fs.length ≤ (fs.map fun f => 1 + byteLen f).sum := by
    intro fs
    induction fs with
    | nil => simp
    | cons f fs ih =>
      simp only [List.length_cons, List.map_cons, List.sum_cons]
      omega
  rcases fs with _ | ⟨a, _ | ⟨b, _ | ⟨c, _ | ⟨d, _ | ⟨e, fs⟩⟩⟩⟩⟩
  · decide
  all_goals simp [field, byteLen_nil]
  all_goals try have := key fs
  all_goals omega

theorem byteLen_finish (b : Str) (e : Ending) : byteLen b ≤ byteLen (finish b e) := by
  cases e
  · exact Nat.le_refl _
  all_goals rw [finish, byteLen_append]; exact Nat.le_add_right _ _

theorem byteLen_tag (lead : Char) (talker kind : Str) (hl : lead.utf8Size = 1) (ht : Talker talker) (hk : byteLen kind = 3) :
    byteLen (tag lead talker kind) = 6 := by
  rw [tag, List.cons_append, byteLen_cons, byteLen_append, hl, ht.1, hk]

/-- A pending part and its key are shorter than the sentence. -/
theorem part_bytes {talker : Str} {own : Bool} {num id : Nat} {chan pl s : Str} (h : Part talker own num id chan pl s) :
    byteLen (partKey own num id chan) + byteLen pl < byteLen s := by
  obtain ⟨fs, ⟨ht, -, -, e, -, rfl⟩, h0, h1, h2, rfl, rfl⟩ := h
  refine Nat.lt_of_lt_of_le ?_ (byteLen_finish _ e)
  have f := byteLen_fields fs
  have d0 := byteLen_dec h0
  have d1 := byteLen_dec h1
  have d2 := byteLen_dec h2
  have hl : 3 ≤ fs.length := by
    by_contra hl
    have : field fs 2 = [] := by rw [field, List.getD_eq_getElem?_getD, List.getElem?_eq_none (by omega)]; rfl
    rw [this, byteLen_nil] at d2
    omega
  rw [byteLen_join, byteLen_tag _ _ _ (by decide) ht (aisKind_len own), partKey, byteLen_join, byteLen_cons, aisKind_len]
  simp only [List.map_cons, List.map_nil, List.sum_cons, List.sum_nil]
  have e1 : byteLen (c! "2") = 1 := by decide
  have e2 : Char.utf8Size '!' = 1 := by decide
  omega

/-- A pending GSV sentence is not longer than the one received, and its key has at most 28 bytes. -/
theorem gsv_bytes {talker : Str} {n k : Nat} {fs : List Str} {s : Str} (h : GsvPart talker n k fs s) :
    byteLen (gsvKey talker n k) ≤ 28 ∧ byteLen (join (tag '$' talker (c! "GSV")) fs) ≤ byteLen s := by
  have hn := h.2.1.le
  have hk := h.2.2.le
  obtain ⟨⟨ht, -, -, e, -, rfl⟩, -⟩ := h
  refine ⟨?_, byteLen_finish _ e⟩
  have h1 := byteLen_natStr n 10 (by decide) (by omega)
  have h2 := byteLen_natStr k 10 (by decide) (by omega)
  rw [gsvKey, byteLen_join, byteLen_tag _ _ _ (by decide) ht (by decide)]
  simp only [List.map_cons, List.map_nil, List.sum_cons, List.sum_nil]
  omega

theorem get_of_mem {K V : Type} [DecidableEq K] (m : KV K V) (h : (m.items.map (·.1)).Nodup) (x : K × V) (hx : x ∈ m.items) :
    m.get x.1 = some x.2 := by
  obtain ⟨l⟩ := m
  induction l with
  | nil => cases hx
  | cons y l ih =>
    simp only [List.map_cons, List.nodup_cons] at h
    rcases List.mem_cons.mp hx with rfl | hx
    · simp [KV.get]
    · have hne : y.1 ≠ x.1 := fun e => h.1 (e ▸ List.mem_map_of_mem hx)
      have := ih h.2 hx
      simp only [KV.get] at this ⊢
      rw [List.find?_cons_of_neg (by simpa using hne)]
      exact this

theorem sum_le (l : List Nat) (b : Nat) (h : ∀ x ∈ l, x ≤ b) : l.sum ≤ b * l.length := by
  induction l with
  | nil => simp
  | cons a l ih =>
    have h1 := h a List.mem_cons_self
    have h2 := ih fun x hx => h x (List.mem_cons_of_mem _ hx)
    rw [List.sum_cons, List.length_cons, Nat.mul_add, Nat.mul_one]
    omega

/-- C168: if no sentence received is longer than `L` bytes, the pending texts with their keys have at most `L + 28` bytes each. -/
theorem C168_texts (h : List (Env × Str)) (L : Nat) (hL : ∀ x ∈ h, byteLen x.2 ≤ L) :
    textBytes (run Parser.new h) ≤ (L + 28) * (run Parser.new h).stringsCount := by
  have := sum_le ((run Parser.new h).savedFragments.items.map fun x => byteLen x.1 + byteLen x.2) (L + 28) ?_
  · simpa [textBytes, Parser.stringsCount, KV.size] using this
  · intro y hy
    obtain ⟨⟨k, v⟩, hx, rfl⟩ := List.mem_map.mp hy
    have hg := get_of_mem _ (C103_once_per_key h).1 _ hx
    obtain ⟨_, -, ⟨talker, own, num, id, chan, pl, hn, hp, rfl⟩ | ⟨talker, n, i, fs, hp, rfl⟩⟩ := key_source_run h k v hg
    · obtain ⟨x, hx, talker, hp⟩ := C80_parts h own num id chan v hg
      have := part_bytes hp
      have := hL x hx
      simp only []
      omega
    · obtain ⟨x, hxh, fs, hp, rfl⟩ := C80_gsv h talker n i v hp.1.1.2 hg
      have := gsv_bytes hp
      have := hL x hxh
      simp only []
      omega

/-- Three texts. -/
example : let h := [(demoEnv, c! "!AIVDM,2,1,7,B,:5MlU41,0"), (demoEnv, c! "$GPGSV,3,1,00"), (demoEnv, c! "$GPGSV,3,2,05,02,17,x,")]
    (∀ x ∈ h, byteLen x.2 ≤ 24) ∧ textBytes (run Parser.new h) = 74 ∧ (run Parser.new h).stringsCount = 3 := by decide +kernel

theorem fieldText_bytes (bits : List Bool) (i n : Nat) : byteLen (fieldText bits i n) ≤ n := by
  have key : ∀ l : List Nat, (∀ v ∈ l, v < 64) → byteLen (l.map codeChar) = l.length := by
    intro l hl
    induction l with
    | nil => rfl
    | cons v l ih =>
      have h1 : ∀ v < 64, (codeChar v).utf8Size = 1 := by decide
      rw [List.map_cons, byteLen_cons, h1 v (hl v List.mem_cons_self), ih fun x hx => hl x (List.mem_cons_of_mem _ hx),
        List.length_cons]
      omega
  have strip : ∀ s : Str, byteLen (stripBlanks s) ≤ byteLen s := by
    intro s
    have e := List.takeWhile_append_dropWhile (p := fun c => decide (c = ' ')) (l := s.reverse)
    have e2 := congrArg List.reverse e
    rw [List.reverse_append, List.reverse_reverse] at e2
    rw [stripBlanks]
    conv => rhs; rw [← e2]
    rw [byteLen_append]
    exact Nat.le_add_right _ _
  rw [fieldText]
  refine Nat.le_trans (strip _) ?_
  rw [key]
  · refine Nat.le_trans (List.takeWhile_prefix _).length_le ?_
    simp
  · intro v hv
    have := (List.takeWhile_prefix _).subset hv
    obtain ⟨k, -, rfl⟩ := List.mem_map.mp this
    have := bitsVal_lt (window bits (i + k * 6) 6)
    rwa [length_window] at this

theorem optText_bytes (s : Str) : byteLen ((optText s).getD []) = byteLen s := by
  unfold optText
  split
  · rename_i e
    rw [e]
    rfl
  · rfl

/-- C168: the texts of static data that are pending for a vessel have at most 120 bytes. -/
theorem C168_static (h : List (Env × Str)) (mmsi : Nat) (v : VesselStaticData)
    (hv : pendingStatic (run Parser.new h) mmsi = some v) : staticBytes v ≤ 120 := by
  obtain ⟨-, -, -, own, bits, -, -, -, -, rfl⟩ := C80_static h mmsi v hv
  have h1 := fieldText_bytes bits 40 120
  have h2 := fieldText_bytes bits 48 3
  have h3 := fieldText_bytes bits 90 7
  have h0 : byteLen [] = 0 := rfl
  unfold partData
  split
  · simp only [staticBytes, partAData, blankStatic, partAName, List.map_cons, List.map_nil, List.sum_cons, List.sum_nil,
      optText_bytes, Option.getD_none]
    omega
  · simp only [staticBytes, partBData, blankStatic, List.map_cons, List.map_nil, List.sum_cons, List.sum_nil,
      optText_bytes, Option.getD_none, Option.getD_some]
    omega

/-- A part A that is too long: the name has 33 characters. -/
example : (pendingStatic (run Parser.new [(demoEnv, c! "!AIVDM,1,1,,A,H42O55i18tMETnnnnnnnnnnnnnnnnnnnnnnnnnnn,2")])
    271041815).map staticBytes = some 33 := by decide +kernel

/-- C168: in traffic of the groups `G`, GSV sentences `V` and vessels `M` (C106) with sentences of at most `L` bytes everything that is
pending has at most `(L + 28) (|G| + |V|)` bytes of texts and `120 |M|` bytes of texts in static data, however long it goes on. -/
theorem C168_traffic (h : List (Env × Str)) (L : Nat) (G : List (Bool × Nat × Str)) (V : List (Str × Nat × Nat)) (M : List Nat)
    (hL : ∀ x ∈ h, byteLen x.2 ≤ L)
    (hG : ∀ x ∈ h, ∀ talker own num id chan payload, Part talker own num id chan payload x.2 → (own, id, chan) ∈ G)
    (hV : ∀ x ∈ h, ∀ talker n k fs, GsvPart talker n k fs x.2 → (talker, n, k) ∈ V)
    (hM : ∀ h1 x h2 own bits, h = h1 ++ x :: h2 → Completes24 x.1 (run Parser.new h1) x.2 own bits → mmsiOf bits ∈ M) :
    textBytes (run Parser.new h) ≤ (L + 28) * (G.length + V.length) ∧
      ((run Parser.new h).savedVsds.items.map fun x => staticBytes x.2).sum ≤ 120 * M.length := by
  constructor
  · exact Nat.le_trans (C168_texts h L hL) (Nat.mul_le_mul_left _ (C106_texts h G V hG hV))
  · have := sum_le ((run Parser.new h).savedVsds.items.map fun x => staticBytes x.2) 120 ?_
    · refine Nat.le_trans this (Nat.mul_le_mul_left _ ?_)
      simpa [Parser.vsdsCount, KV.size] using C106_static h M hM
    · intro y hy
      obtain ⟨x, hx, rfl⟩ := List.mem_map.mp hy
      exact C168_static h x.1 x.2 (get_of_mem _ (C103_once_per_key h).2 _ hx)

/-- Any number of repetitions of one type 24 message. -/
example (n : Nat) : ((run Parser.new (List.replicate n (demoEnv, c! "!AIVDM,1,1,,A,H42O55i18tMET00000000000000,2"))).savedVsds.items.map
    fun x => staticBytes x.2).sum ≤ 120 := by
  refine (C168_traffic _ 43 [] [] [271041815] ?_ ?_ ?_ ?_).2
  · intro x hx
    rw [List.eq_of_mem_replicate hx]
    decide
  · intro x hx talker own num id chan pl hp
    rw [List.eq_of_mem_replicate hx] at hp
    exact (demoRepeated.not_part hp).elim
  · intro x hx talker n k fs hg
    rw [List.eq_of_mem_replicate hx] at hg
    obtain ⟨fs', _, hp, -⟩ := demoRepeated
    exact absurd (IsTagged.unique hg.1 hp (by decide) (by decide) (by decide) (aisKind_noComma _)).1 (by decide)
  · intro h1 x h2 own bits e hc
    rw [demoAgain e] at hc
    obtain ⟨pl, hc, -, rfl, -⟩ := hc
    cases hc with
    | single talker _ h =>
      obtain ⟨-, -, rfl⟩ := h.unique demoRepeated
      decide +kernel
    | first _ _ _ _ _ h _ => exact (demoRepeated.not_part h).elim
    | second _ _ _ _ _ h _ => exact (demoRepeated.not_part h).elim

/-- C168: a receiver with ordinary traffic (message ids 0 to 9, channels A and B; GSV groups of at most nine sentences, numbered from
1, from the talkers `T`; sentences of at most 82 bytes) keeps at most `4400 + 4950 |T|` bytes of texts. -/
theorem C168_ordinary (h : List (Env × Str)) (T : List Str) (hL : ∀ x ∈ h, byteLen x.2 ≤ 82)
    (hP : ∀ x ∈ h, ∀ talker own num id chan payload, Part talker own num id chan payload x.2 →
      id ≤ 9 ∧ chan ∈ [c! "A", c! "B"])
    (hV : ∀ x ∈ h, ∀ talker n k fs, GsvPart talker n k fs x.2 → talker ∈ T ∧ n ≤ 9 ∧ 1 ≤ k ∧ k ≤ n) :
    textBytes (run Parser.new h) ≤ 4400 + 4950 * T.length := by
  have h1 := C168_texts h 82 hL
  have h2 := C106_traffic h T hP hV
  have h3 := Nat.mul_le_mul_left (82 + 28) h2
  omega

/-- Any number of repetitions of one GSV sentence. -/
example (m : Nat) : textBytes (run Parser.new (List.replicate m (demoEnv, c! "$GPGSV,3,1,00"))) ≤ 4400 + 4950 * 1 := by
  have g1 : GsvPart (c! "GP") 3 1 [c! "3", c! "1", c! "00"] (c! "$GPGSV,3,1,00") :=
    ⟨demoTagged .bare (by decide), .inr (demoDec (by decide)), .inr (demoDec (by decide))⟩
  refine C168_ordinary _ [c! "GP"] ?_ ?_ ?_
  · intro x hx
    rw [List.eq_of_mem_replicate hx]
    decide
  · intro x hx talker own num id chan pl hp
    rw [List.eq_of_mem_replicate hx] at hp
    obtain ⟨fs', hp, -⟩ := hp
    exact absurd (IsTagged.unique g1.1 hp (by decide) (by decide) (by decide) (aisKind_noComma _)).1 (by decide)
  · intro x hx talker n k fs hg
    rw [List.eq_of_mem_replicate hx] at hg
    obtain ⟨rfl, rfl, rfl, -⟩ := hg.unique g1
    decide

end Nmea
