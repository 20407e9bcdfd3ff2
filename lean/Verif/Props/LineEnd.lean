/-
C130: sentences without checksum that are given with their line terminator.
-/
import Verif.Props.Chunk
import Verif.Props.Panics
import Verif.Props.Gsv
import Verif.Spec.LineEnd

namespace Nmea
open Spec

theorem lineEnd_chars {t : Str} (h : LineEnd t) : ∃ a c, t = a ++ [c] ∧ (c = '\r' ∨ c = '\n') ∧ ',' ∉ t ∧ '*' ∉ t := by
  rcases h with rfl | rfl | rfl
  · exact ⟨c! "\r", '\n', by decide⟩
  · exact ⟨[], '\n', by decide⟩
  · exact ⟨[], '\r', by decide⟩

/-- The line terminator becomes part of the last field. -/
theorem tagged_lineEnd {lead : Char} {talker kind : Str} {g : List Str} {f s t : Str}
    (h : IsTagged lead talker kind (g ++ [f]) s) (hs : '*' ∉ s) (ht : LineEnd t) :
    IsTagged lead talker kind (g ++ [f ++ t]) (s ++ t) := by
  obtain ⟨-, -, -, -, hc, hst⟩ := lineEnd_chars ht
  obtain ⟨h1, h2, -, e, h4, h5⟩ := h
  have he : e = .bare := by
    cases e with
    | bare => rfl
    | star => exact absurd (by rw [h5]; simp [finish]) hs
    | full => exact absurd (by rw [h5]; simp [finish]) hs
  subst he
  refine ⟨h1, ?_, by simp, .bare, ?_, ?_⟩
  · intro y hy
    rcases List.mem_append.mp hy with hy | hy
    · exact h2 y (by simp [hy])
    · rw [List.mem_singleton] at hy
      subst hy
      have := h2 f (by simp)
      simp [this, hc]
  · intro _
    have e : join (tag lead talker kind) (g ++ [f ++ t]) = s ++ t := by rw [h5]; simp [finish, join]
    rw [e]; simp [hs, hst]
  · rw [h5]; simp [finish, join]

theorem field_last (g : List Str) (f : Str) : field (g ++ [f]) g.length = f := by simp [field]

theorem field_before (g : List Str) (f f' : Str) (i : Nat) (h : i ≠ g.length) : field (g ++ [f]) i = field (g ++ [f']) i := by
  simp only [field, List.getD_eq_getElem?_getD]
  rcases Nat.lt_or_gt_of_ne h with h | h
  · rw [List.getElem?_append_left h, List.getElem?_append_left h]
  · rw [List.getElem?_eq_none (by simp; omega), List.getElem?_eq_none (by simp; omega)]

/-! ### Sentences that are not affected -/

/-- C130: an AIS sentence whose payload is not its last field is not affected by a line terminator. -/
theorem C130_ais (env : Env) (p : Parser) (talker : Str) (own : Bool) (g : List Str) (f s t : Str) (h5 : 5 ≤ g.length)
    (h : IsAis talker own (g ++ [f]) s) (hs : '*' ∉ s) (ht : LineEnd t) :
    parseSentence env p (s ++ t) = parseSentence env p s :=
  C97_fields env p talker own g [f ++ t] [f] _ _ h5 (tagged_lineEnd h hs ht) h

/-- C130: neither is a GNSS sentence that ends in a field which is not used. -/
theorem C130_gnss (env : Env) (p : Parser) (talker kind : Str) (g : List Str) (f s t : Str) (n : Nat)
    (hn : usedFields kind = some n) (hg : n ≤ g.length) (h : IsGnss talker kind (g ++ [f]) s) (hs : '*' ∉ s)
    (ht : LineEnd t) : parseSentence env p (s ++ t) = parseSentence env p s :=
  C71_extra_fields env p talker kind _ _ _ _ n hn (tagged_lineEnd h hs ht) h
    fun i hi => field_before g _ _ i (by omega)

/-! ### Sentences that are refused -/

theorem not_digit_lineEnd {t : Str} (ht : LineEnd t) (f : Str) : ∃ c ∈ f ++ t, c = '\r' ∨ c = '\n' := by
  obtain ⟨a, c, rfl, hc, -⟩ := lineEnd_chars ht
  exact ⟨c, by simp, hc⟩

theorem intField_lineEnd {t : Str} (ht : LineEnd t) (max : Nat) (f : Str) (x : Option Nat) : ¬ IntField max (f ++ t) x := by
  obtain ⟨c, hc, h⟩ := not_digit_lineEnd ht f
  refine (C62_refused max (f ++ t) (by rintro h'; rw [h'] at hc; cases hc) x).2 c hc ?_
  rcases h with rfl | rfl <;> decide

theorem signed_mem {s r : Str} {neg : Bool} (h : Signed s neg r) {c : Char} (hc : c ∈ s) (h1 : c ≠ '+') (h2 : c ≠ '-') : c ∈ r := by
  rcases h with ⟨rfl, -⟩ | ⟨rfl, -⟩ | ⟨rfl, -⟩
  · exact hc
  · exact (List.mem_cons.mp hc).resolve_left h1
  · exact (List.mem_cons.mp hc).resolve_left h2

theorem exponent_chars {s : Str} {e : Int} (h : Exponent s e) : ∀ c ∈ s, c ∈ c! "0123456789eE+-" := by
  rcases h with ⟨rfl, -⟩ | ⟨c, t, neg, ds, rfl, hc, hs, hd, -⟩
  · simp
  · intro x hx
    rcases List.mem_cons.mp hx with rfl | hx
    · rcases hc with rfl | rfl <;> decide
    · by_cases h1 : x = '+'
      · subst h1; decide
      by_cases h2 : x = '-'
      · subst h2; decide
      have := hd.2 x (signed_mem hs hx h1 h2)
      simp only [List.mem_cons, List.not_mem_nil, or_false] at this ⊢
      grind

theorem numberText_lineEnd {t : Str} (ht : LineEnd t) (f : Str) (d : F64) : ¬ NumberText (f ++ t) d := by
  obtain ⟨c, hc, h⟩ := not_digit_lineEnd ht f
  have h1 : c ≠ '+' := by rcases h with rfl | rfl <;> decide
  have h2 : c ≠ '-' := by rcases h with rfl | rfl <;> decide
  have h3 : Char.toLower c = '\r' ∨ Char.toLower c = '\n' := by rcases h with rfl | rfl <;> decide
  intro hn
  cases hn with
  | decimal neg r q d hs hd hr =>
    have hm := signed_mem hs hc h1 h2
    obtain ⟨ip, fp, ex, e, a1, a2, -, a4, a5, -⟩ := hd
    have hx := exponent_chars a4 c
    have hi := a1 c
    have hf := a2 c
    rcases a5 with ⟨rfl, -⟩ | rfl <;> rcases h with rfl | rfl <;>
      simp only [List.mem_append, List.mem_cons] at hm <;> revert hx hi hf hm <;> simp +contextual
  | infinite neg r hs hi =>
    have hm := List.mem_map_of_mem (f := Char.toLower) (signed_mem hs hc h1 h2)
    rcases hi with hi | hi <;> rw [hi] at hm <;> rcases h3 with h3 | h3 <;> rw [h3] at hm <;> revert hm <;> decide
  | nan neg r hs hn =>
    have hm := List.mem_map_of_mem (f := Char.toLower) (signed_mem hs hc h1 h2)
    rw [hn] at hm
    rcases h3 with h3 | h3 <;> rw [h3] at hm <;> revert hm <;> decide

theorem numField_lineEnd {t : Str} (ht : LineEnd t) (f : Str) (x : Option F64) : ¬ NumField (f ++ t) x := by
  rintro (⟨h, -⟩ | ⟨d, h, -⟩)
  · obtain ⟨c, hc, -⟩ := not_digit_lineEnd ht f
    rw [h] at hc; cases hc
  · exact numberText_lineEnd ht f d h

theorem numberText_nil {d : F64} (h : NumberText [] d) : False := by
  have hr : ∀ {neg : Bool} {r : Str}, Signed [] neg r → r = [] := by
    rintro neg r (⟨h, -⟩ | ⟨h, -⟩ | ⟨h, -⟩)
    · exact h.symm
    · cases h
    · cases h
  cases h with
  | decimal neg r q d hs hd _ =>
    obtain ⟨ip, fp, ex, e, -, -, hne, -, h, -⟩ := hd
    rw [hr hs] at h
    rcases h with ⟨h, rfl⟩ | h
    · have := List.append_eq_nil_iff.mp h.symm
      rcases hne with hne | hne
      · exact hne this.1
      · exact hne rfl
    · simp at h
  | infinite neg r hs hi => rw [hr hs] at hi; simp at hi
  | nan neg r hs hn => rw [hr hs] at hn; simp at hn

/-- No text of a table of letters contains a line terminator. -/
theorem letter_lineEnd {α : Type} {t : Str} (ht : LineEnd t) (f : Str) (table : List (Str × α)) (x : Option α)
    (hx : ∀ y ∈ table, ∀ c ∈ y.1, c ≠ '\r' ∧ c ≠ '\n') : ¬ LetterField table (f ++ t) x := by
  obtain ⟨c, hc, h⟩ := not_digit_lineEnd ht f
  rintro (⟨h', -⟩ | ⟨a, ha, -⟩)
  · rw [h'] at hc; cases hc
  · obtain ⟨h1, h2⟩ := hx _ ha c hc
    exact h.elim h1 h2

theorem lookup_lineEnd {α : Type} {t : Str} (ht : LineEnd t) (f : Str) (table : List (Str × α))
    (hx : ∀ y ∈ table, ∀ c ∈ y.1, c ≠ '\r' ∧ c ≠ '\n') : table.lookup (f ++ t) = none := by
  obtain ⟨c, hc, h⟩ := not_digit_lineEnd ht f
  rw [List.lookup_eq_none_iff]
  intro y hy
  rw [bne_iff_ne]
  rintro e
  rw [e] at hc
  obtain ⟨h1, h2⟩ := hx _ hy c hc
  exact h.elim h1 h2

/-- C130: a GGA, RMC or GSA sentence that ends in a field with a number or a letter which is read strictly (the station of a
complete GGA sentence and the VDOP of a complete GSA sentence are such fields) is never accepted with a line terminator; an
empty last field makes no difference. -/
theorem C130_refused (env : Env) (p : Parser) (talker kind : Str) (g : List Str) (f s t : Str)
    (hk : g.length ∈ strictFields kind) (h : IsGnss talker kind (g ++ [f]) s) (hs : '*' ∉ s) (ht : LineEnd t)
    (r : ParsedSentence) : (parseSentence env p (s ++ t)).1 ≠ .ok r := by
  have h' := tagged_lineEnd h hs ht
  have hl := field_last g (f ++ t)
  intro hr
  unfold strictFields at hk
  simp only [List.lookup] at hk
  split at hk
  · rename_i e
    have e : kind = c! "GGA" := by simpa using e
    subst e
    obtain ⟨d, -, hd⟩ := ((C65_contents env p talker _ _ h').2.1 r).mp hr
    simp only [Option.getD_some, List.mem_cons, List.not_mem_nil, or_false] at hk
    rcases hk with e | e | e | e | e | e | e <;> rw [e] at hl
    · obtain ⟨q, hq, -⟩ := hd.quality
      rw [hl] at hq
      exact intField_lineEnd ht _ _ _ hq
    · exact intField_lineEnd ht _ _ _ (hl ▸ hd.satellites)
    · exact numField_lineEnd ht _ _ (hl ▸ hd.hdop)
    · exact numField_lineEnd ht _ _ (hl ▸ hd.altitude)
    · exact numField_lineEnd ht _ _ (hl ▸ hd.geoid)
    · exact numField_lineEnd ht _ _ (hl ▸ hd.age)
    · exact intField_lineEnd ht _ _ _ (hl ▸ hd.station)
  split at hk
  · rename_i e
    have e : kind = c! "RMC" := by simpa using e
    subst e
    obtain ⟨d, -, hd⟩ := ((C66_contents env p talker _ _ h').2.1 r).mp hr
    simp only [Option.getD_some, List.mem_cons, List.not_mem_nil, or_false] at hk
    rcases hk with e | e | e | e <;> rw [e] at hl
    · exact letter_lineEnd ht _ statusTable _ (by decide) (hl ▸ hd.status)
    · exact numField_lineEnd ht _ _ (hl ▸ hd.speed)
    · exact numField_lineEnd ht _ _ (hl ▸ hd.bearing)
    · rcases hd.variation with ⟨hv, -⟩ | ⟨x, hv, -⟩
      · rw [hl] at hv
        obtain ⟨c, hc, -⟩ := not_digit_lineEnd ht f
        rw [hv] at hc; cases hc
      · exact numberText_lineEnd ht _ _ (hl ▸ hv)
  split at hk
  · rename_i e
    have e : kind = c! "GSA" := by simpa using e
    subst e
    have hr' : GsaReadable (g ++ [f ++ t]) := by
      by_contra hn
      obtain ⟨e, he⟩ := (C67_contents env p talker _ _ h').2.2.1.mpr hn
      rw [he] at hr; cases hr
    obtain ⟨h1, h2, h3, h4, h5, h6⟩ := hr'
    simp only [Option.getD_some, List.mem_range] at hk
    by_cases e0 : g.length = 0
    · rw [e0] at hl; rw [hl] at h1
      exact letter_lineEnd ht _ modeTable _ (by decide) h1.choose_spec
    by_cases e1 : g.length = 1
    · rw [e1] at hl; rw [hl] at h2
      exact letter_lineEnd ht _ fixTypes _ (by decide) h2.choose_spec
    by_cases e14 : g.length = 14
    · rw [e14] at hl; rw [hl] at h4
      exact numField_lineEnd ht _ _ h4.choose_spec
    by_cases e15 : g.length = 15
    · rw [e15] at hl; rw [hl] at h5
      exact numField_lineEnd ht _ _ h5.choose_spec
    by_cases e16 : g.length = 16
    · rw [e16] at hl; rw [hl] at h6
      exact numField_lineEnd ht _ _ h6.choose_spec
    obtain ⟨x, hx⟩ := h3 (g.length - 2) (by omega)
    rw [show g.length - 2 + 2 = g.length by omega, hl] at hx
    exact intField_lineEnd ht _ _ _ hx
  · cases hk

/-- C130: an RMC sentence that ends in the side of the variation (as before NMEA 2.3) is refused with a line terminator if it
has a variation, and not affected if it has none. -/
theorem C130_variation (env : Env) (p : Parser) (talker : Str) (g : List Str) (f s t : Str) (hg : g.length = 10)
    (h : IsGnss talker (c! "RMC") (g ++ [f]) s) (hs : '*' ∉ s) (ht : LineEnd t) :
    (field g 9 ≠ [] → ∀ r, (parseSentence env p (s ++ t)).1 ≠ .ok r) ∧
    (field g 9 = [] → ∀ r, (parseSentence env p (s ++ t)).1 = .ok r ↔ (parseSentence env p s).1 = .ok r) := by
  have h' := tagged_lineEnd h hs ht
  have h9 : ∀ x, field (g ++ [x]) 9 = field g 9 := by
    intro x
    simp only [field, List.getD_eq_getElem?_getD]
    rw [List.getElem?_append_left (by omega)]
  have hb := fun i hi => field_before g (f ++ t) f i hi
  constructor
  · intro hv r
    refine C66_refused env p talker _ _ h' (.inl ⟨by rwa [h9], ?_⟩) r
    have hl := field_last g (f ++ t)
    rw [hg] at hl
    rw [hl]
    obtain ⟨c, hc, h⟩ := not_digit_lineEnd ht f
    constructor <;> intro e <;> rw [e] at hc <;> rcases h with rfl | rfl <;> revert hc <;> decide
  · intro hv r
    rw [(C66_contents env p talker _ _ h').2.1 r, (C66_contents env p talker _ _ h).2.1 r]
    refine exists_congr fun d => and_congr_right fun _ => ?_
    have hvar : ∀ x y : Str, VariationField (field (g ++ [x]) 9) y d.variation ↔ d.variation = none := by
      intro x y
      rw [h9, hv]
      constructor
      · rintro (⟨-, h⟩ | ⟨z, hz, -⟩)
        · exact h
        · exact absurd (numberText_nil hz) id
      · exact fun h => .inl ⟨rfl, h⟩
    constructor <;> rintro ⟨a1, a2, a3, a4, a5, a6, a7, a8⟩
    · exact ⟨a1, by simpa [hb, hg] using a2, by simpa [hb, hg] using a3, by simpa [hb, hg] using a4,
        by simpa [hb, hg] using a5, by simpa [hb, hg] using a6, by simpa [hb, hg] using a7,
        (hvar _ _).mpr ((hvar _ _).mp a8)⟩
    · exact ⟨a1, by simpa [hb, hg] using a2, by simpa [hb, hg] using a3, by simpa [hb, hg] using a4,
        by simpa [hb, hg] using a5, by simpa [hb, hg] using a6, by simpa [hb, hg] using a7,
        (hvar _ _).mpr ((hvar _ _).mp a8)⟩

/-! ### Values that are lost -/

theorem lenient_lineEnd {t : Str} (ht : LineEnd t) (f : Str) (x : Option F64) : LenientField (f ++ t) x ↔ x = none := by
  constructor
  · rintro (⟨d, h, -⟩ | ⟨-, h⟩)
    · exact absurd h (numberText_lineEnd ht f d)
    · exact h
  · exact fun h => .inr ⟨numberText_lineEnd ht f, h⟩

/-- A VTG result without the value of field `i`. -/
def vtgWithout (d : VtgData) : Nat → VtgData
  | 0 => { d with cogTrue := none }
  | 2 => { d with cogMagnetic := none }
  | 4 => { d with sogKnots := none }
  | 6 => { d with sogKph := none }
  | 8 => { d with faaMode := none }
  | _ => d

/-- C130: a VTG sentence with a line terminator is accepted, and the value of its last field is missing in the result (in a
sentence with all nine fields: the FAA mode). -/
theorem C130_vtg (env : Env) (p : Parser) (talker : Str) (g : List Str) (f s t : Str)
    (h : IsGnss talker (c! "VTG") (g ++ [f]) s) (hs : '*' ∉ s) (ht : LineEnd t) :
    ∃ d, parseSentence env p s = (.ok (.vtg d), p) ∧
      parseSentence env p (s ++ t) = (.ok (.vtg (vtgWithout d g.length)), p) := by
  have h' := tagged_lineEnd h hs ht
  obtain ⟨d, e, hd⟩ := C68_contents env p talker _ _ h
  obtain ⟨d', e', hd'⟩ := C68_contents env p talker _ _ h'
  refine ⟨d, e, ?_⟩
  rw [e']
  have : vtgWithout d g.length = d' := by
    rw [← hd']
    obtain ⟨a1, a2, a3, a4, a5, a6⟩ := (hd d).mpr rfl
    have hb := fun i hi => field_before g (f ++ t) f i hi
    have hl := field_last g (f ++ t)
    have hf : faaTable.lookup (f ++ t) = none := lookup_lineEnd ht f faaTable (by decide)
    have hn := (lenient_lineEnd ht f none).mpr rfl
    unfold vtgWithout
    split <;> rename_i e <;> (try rw [e] at hl hb)
    · exact ⟨a1, by rw [hl]; exact hn, by rw [hb _ (by decide)]; exact a3, by rw [hb _ (by decide)]; exact a4,
        by rw [hb _ (by decide)]; exact a5, by rw [hb _ (by decide)]; exact a6⟩
    · exact ⟨a1, by rw [hb _ (by decide)]; exact a2, by rw [hl]; exact hn, by rw [hb _ (by decide)]; exact a4,
        by rw [hb _ (by decide)]; exact a5, by rw [hb _ (by decide)]; exact a6⟩
    · exact ⟨a1, by rw [hb _ (by decide)]; exact a2, by rw [hb _ (by decide)]; exact a3, by rw [hl]; exact hn,
        by rw [hb _ (by decide)]; exact a5, by rw [hb _ (by decide)]; exact a6⟩
    · exact ⟨a1, by rw [hb _ (by decide)]; exact a2, by rw [hb _ (by decide)]; exact a3, by rw [hb _ (by decide)]; exact a4,
        by rw [hl]; exact hn, by rw [hb _ (by decide)]; exact a6⟩
    · exact ⟨a1, by rw [hb _ (by decide)]; exact a2, by rw [hb _ (by decide)]; exact a3, by rw [hb _ (by decide)]; exact a4,
        by rw [hb _ (by decide)]; exact a5, by rw [hl]; exact hf.symm⟩
    · rename_i e0 e2 e4 e6
      exact ⟨a1, by rw [hb _ (Ne.symm e0)]; exact a2, by rw [hb _ (Ne.symm e2)]; exact a3,
        by rw [hb _ (Ne.symm e4)]; exact a4, by rw [hb _ (Ne.symm e6)]; exact a5, by rw [hb _ (Ne.symm e)]; exact a6⟩
  rw [this]

/-- C130: a GLL sentence that is accepted without line terminator is accepted with it; if it ends in the status, the
status is missing in the result, and if it ends in the FAA mode, that is missing. -/
theorem C130_gll (env : Env) (p : Parser) (talker : Str) (g : List Str) (f s t : Str) (d : GllData)
    (h : IsGnss talker (c! "GLL") (g ++ [f]) s) (hs : '*' ∉ s) (ht : LineEnd t)
    (hd : (parseSentence env p s).1 = .ok (.gll d)) :
    (g.length = 5 → (parseSentence env p (s ++ t)).1 = .ok (.gll { d with dataValid := none })) ∧
    (g.length = 6 → (parseSentence env p (s ++ t)).1 = .ok (.gll { d with faaMode := none })) := by
  have h' := tagged_lineEnd h hs ht
  obtain ⟨d', e, a1, a2, a3, a4, a5, a6⟩ := ((C69_contents env p talker _ _ h).2.1 _).mp hd
  cases e
  have hb := fun i hi => field_before g (f ++ t) f i hi
  have hl := field_last g (f ++ t)
  constructor <;> intro e <;> rw [e] at hl hb <;> refine ((C69_contents env p talker _ _ h').2.1 _).mpr ⟨_, rfl, ?_⟩
  · exact ⟨a1, by rw [hb _ (by decide), hb _ (by decide)]; exact a2, by rw [hb _ (by decide), hb _ (by decide)]; exact a3,
      by rw [hb _ (by decide)]; exact a4, by rw [hl]; exact (lookup_lineEnd ht f statusTable (by decide)).symm,
      by rw [hb _ (by decide)]; exact a6⟩
  · exact ⟨a1, by rw [hb _ (by decide), hb _ (by decide)]; exact a2, by rw [hb _ (by decide), hb _ (by decide)]; exact a3,
      by rw [hb _ (by decide)]; exact a4, by rw [hb _ (by decide)]; exact a5,
      by rw [hl]; exact (lookup_lineEnd ht f faaTable (by decide)).symm⟩

/-- C130: a GGA, RMC or GLL sentence that ends in the hemisphere of its longitude or latitude: with a line terminator the
coordinate is never in the negative hemisphere. -/
theorem C130_hemisphere (env : Env) (p : Parser) (talker kind : Str) (g : List Str) (f s t : Str) (i : Nat)
    (hi : latitudeIndex kind = some i) (h : IsGnss talker kind (g ++ [f]) s) (hs : '*' ∉ s) (ht : LineEnd t)
    (r : ParsedSentence) (hr : (parseSentence env p (s ++ t)).1 = .ok r) :
    ∃ lat lon, gnssPosition r = some (lat, lon) ∧
      (g.length = i + 1 → ∀ neg v, lat = some (.fin neg v) → neg = false) ∧
      (g.length = i + 3 → ∀ neg v, lon = some (.fin neg v) → neg = false) := by
  obtain ⟨lat, lon, h1, h2, h3⟩ := C64_positions env p talker kind _ _ i (tagged_lineEnd h hs ht) hi r hr
  have hl := field_last g (f ++ t)
  have key : ∀ (k : Nat) (c : Char) (x : Str) (y : Option F64), c ≠ '\r' → c ≠ '\n' → PosField k c x (f ++ t) y →
      ∀ neg v, y = some (.fin neg v) → neg = false := by
    rintro k c x y c1 c2 (⟨-, rfl⟩ | ⟨deg, min, q, -, -, rfl⟩) neg v e
    · cases e
    · cases e
      rw [decide_eq_false_iff_not]
      intro e
      obtain ⟨a, ha, h⟩ := not_digit_lineEnd ht f
      rw [e, List.mem_singleton] at ha
      subst ha
      exact h.elim c1 c2
  refine ⟨lat, lon, h1, fun e => ?_, fun e => ?_⟩
  · rw [e] at hl; rw [hl] at h2
    exact key 2 'S' _ _ (by decide) (by decide) h2
  · rw [e] at hl; rw [hl] at h3
    exact key 3 'W' _ _ (by decide) (by decide) h3

theorem readDec_lineEnd {t : Str} (ht : LineEnd t) (max : Nat) (f : Str) : readDec max (f ++ t) = none := by
  cases e : readDec max (f ++ t) with
  | none => rfl
  | some n => exact absurd (.inr ⟨n, (readDec_iff _ _ _).mp e, rfl⟩) (intField_lineEnd ht max f (some n))

theorem field_out (g : List Str) (f : Str) (i : Nat) (h : g.length < i) : field (g ++ [f]) i = [] := by
  simp only [field, List.getD_eq_getElem?_getD]
  rw [List.getElem?_eq_none (by simp; omega)]; rfl

theorem readDec_nil (max : Nat) : readDec max [] = none := by simp [readDec, dropPlus]

/-- C130: a GSV sentence (a group of its own) that ends in the signal strength of a satellite: with a line terminator the
signal strength of the last satellite is missing. -/
theorem C130_gsv (env : Env) (p : Parser) (talker : Str) (g : List Str) (f s t : Str) (j prn : Nat) (hj : j < 4)
    (hg : g.length = 6 + 4 * j) (hp : Dec 255 (field g (3 + 4 * j)) prn) (h : GsvPart talker 1 1 (g ++ [f]) s) (hs : '*' ∉ s)
    (ht : LineEnd t) : ∃ l d, d.prnNumber = prn ∧ (parseSentence env p s).1 = .ok (.gsv (l ++ [d])) ∧
      (parseSentence env p (s ++ t)).1 = .ok (.gsv (l ++ [{ d with snr := none }])) := by
  have h' := tagged_lineEnd h.1 hs ht
  have hb := fun i hi => field_before g (f ++ t) f i hi
  have hl := field_last g (f ++ t)
  rw [C37_single env p _ talker _ h, C37_single env p _ talker (g ++ [f ++ t])
    ⟨h', by rw [hb 0 (by omega)]; exact h.2.1, by rw [hb 1 (by omega)]; exact h.2.2⟩]
  have hpf : readDec 255 (field (g ++ [f]) (3 + 4 * j)) = some prn := by
    rw [readDec_iff]
    have : field (g ++ [f]) (3 + 4 * j) = field g (3 + 4 * j) := by
      simp only [field, List.getD_eq_getElem?_getD]
      rw [List.getElem?_append_left (by omega)]
    rwa [this]
  have h0 : ∀ x : Str, ∀ i, j < i → satellite (talkerSystem talker) (g ++ [x]) i = none := by
    intro x i hi
    rw [satellite, field_out g x (3 + 4 * i) (by omega), readDec_nil]; rfl
  have h1 : ∀ i, i < j → satellite (talkerSystem talker) (g ++ [f ++ t]) i = satellite (talkerSystem talker) (g ++ [f]) i := by
    intro i hi
    simp only [satellite]
    rw [hb _ (by omega), hb _ (by omega), hb _ (by omega), hb _ (by omega)]
  obtain ⟨d, e1, e2, e3⟩ : ∃ d, d.prnNumber = prn ∧ satellite (talkerSystem talker) (g ++ [f]) j = some d ∧
      satellite (talkerSystem talker) (g ++ [f ++ t]) j = some { d with snr := none } := by
    refine ⟨_, rfl, by rw [satellite, hpf]; rfl, ?_⟩
    rw [satellite, hb (3 + 4 * j) (by omega), hpf, hb _ (by omega), hb _ (by omega), ← hg, hl, readDec_lineEnd ht]
    rfl
  obtain ⟨a, b, hab, hla, hlb⟩ : ∃ a b, [0, 1, 2, 3] = a ++ j :: b ∧ (∀ i ∈ a, i < j) ∧ ∀ i ∈ b, j < i := by
    have : j = 0 ∨ j = 1 ∨ j = 2 ∨ j = 3 := by omega
    rcases this with rfl | rfl | rfl | rfl
    · exact ⟨[], [1, 2, 3], by decide⟩
    · exact ⟨[0], [2, 3], by decide⟩
    · exact ⟨[0, 1], [3], by decide⟩
    · exact ⟨[0, 1, 2], [], by decide⟩
  have hnil : ∀ x, b.filterMap (satellite (talkerSystem talker) (g ++ [x])) = [] := by
    intro x
    rw [List.filterMap_eq_nil_iff]
    exact fun i hi => h0 x i (hlb i hi)
  refine ⟨a.filterMap (satellite (talkerSystem talker) (g ++ [f])), d, e1, ?_, ?_⟩
  · rw [satellites, hab, List.filterMap_append, List.filterMap_cons_some e2, hnil]
  · rw [satellites, hab, List.filterMap_append, List.filterMap_cons_some e3, hnil,
      List.filterMap_congr fun i hi => h1 i (hla i hi)]

/-! ### AIS sentences that end in the payload -/

/-- C130: an unfragmented AIS sentence that ends in the payload makes a debug build panic with a line terminator. -/
theorem C130_payload (env : Env) (p : Parser) (talker : Str) (own : Bool) (g : List Str) (f s t : Str) (k : Nat)
    (ho : env.overflowChecks = true) (hg : g.length = 4) (h1 : Dec 255 (field g 0) 1) (h2 : Dec 255 (field g 1) k)
    (h : IsAis talker own (g ++ [f]) s) (hs : '*' ∉ s) (ht : LineEnd t) : (parseSentence env p (s ++ t)).1 = .panic := by
  have hf : ∀ i < 4, field (g ++ [f ++ t]) i = field g i := by
    intro i hi
    simp only [field, List.getD_eq_getElem?_getD]
    rw [List.getElem?_append_left (by omega)]
  have hl := field_last g (f ++ t)
  rw [hg] at hl
  rw [C72_panics_iff]
  refine .payload talker own (f ++ t) (.single _ ⟨_, k, tagged_lineEnd h hs ht, by rwa [hf 0 (by decide)],
    by rwa [hf 1 (by decide)], hl⟩) fun hr => ?_
  obtain ⟨c, hc, h⟩ := not_digit_lineEnd ht f
  have := hr ho c hc
  rcases h with rfl | rfl <;> revert this <;> decide

/-! ### Examples -/

/-- A GLL sentence with all its fields, CR LF at its end: the FAA mode is missing. -/
example (p : Parser) : ∃ d, (parseSentence demoEnv p (c! "$GPGLL,4916.45,N,12311.12,W,225444,A,D")).1 = .ok (.gll d) ∧
    d.faaMode = some .differential ∧
    (parseSentence demoEnv p (c! "$GPGLL,4916.45,N,12311.12,W,225444,A,D\r\n")).1 = .ok (.gll { d with faaMode := none }) := by
  obtain ⟨d, h, -, -, -, -, -, h4⟩ := C69_round_trip demoEnv p (c! "GP") ⟨false, 49, 16, 2, 45⟩ ⟨true, 123, 11, 2, 12⟩
    22 54 44 true (c! "D") (c! "$GPGLL,4916.45,N,12311.12,W,225444,A,D") (demoTagged .bare (by decide +kernel)) (by decide)
    (by decide) (by unfold Angle.Ok; decide) (by unfold Angle.Ok; decide)
  exact ⟨d, h, h4, (C130_gll demoEnv p (c! "GP") [c! "4916.45", c! "N", c! "12311.12", c! "W", c! "225444", c! "A"] (c! "D")
    (c! "$GPGLL,4916.45,N,12311.12,W,225444,A,D") (c! "\r\n") d (demoTagged .bare (by decide +kernel)) (by decide) (.inl rfl) h).2 rfl⟩

/-- An AIS sentence that ends in the fill bits, with LF. -/
example (env : Env) (p : Parser) : parseSentence env p (c! "!AIVDM,1,1,,A,15RTgt0PAso;90TKcjM8h6g208Ca,0\n") =
    parseSentence env p (c! "!AIVDM,1,1,,A,15RTgt0PAso;90TKcjM8h6g208Ca,0") :=
  C130_ais env p (c! "AI") false [c! "1", c! "1", [], c! "A", c! "15RTgt0PAso;90TKcjM8h6g208Ca"] (c! "0")
    (c! "!AIVDM,1,1,,A,15RTgt0PAso;90TKcjM8h6g208Ca,0") (c! "\n")
    (by decide) (demoTagged .bare (by decide +kernel)) (by decide) (.inr (.inl rfl))

/-- An RMC sentence of NMEA 2.3, with CR LF. -/
example (env : Env) (p : Parser) : parseSentence env p (c! "$GPRMC,225446,A,4916.45,N,12311.12,W,000.5,054.7,191120,020.3,E,A\r\n") =
    parseSentence env p (c! "$GPRMC,225446,A,4916.45,N,12311.12,W,000.5,054.7,191120,020.3,E,A") :=
  C130_gnss env p (c! "GP") (c! "RMC") [c! "225446", c! "A", c! "4916.45", c! "N", c! "12311.12", c! "W", c! "000.5",
    c! "054.7", c! "191120", c! "020.3", c! "E"] (c! "A")
    (c! "$GPRMC,225446,A,4916.45,N,12311.12,W,000.5,054.7,191120,020.3,E,A") (c! "\r\n") 11 rfl (by decide)
    (demoTagged .bare (by decide +kernel)) (by decide) (.inl rfl)

/-- The same without the mode. -/
example (env : Env) (p : Parser) (r : ParsedSentence) :
    (parseSentence env p (c! "$GPRMC,225446,A,4916.45,N,12311.12,W,000.5,054.7,191120,020.3,E\r\n")).1 ≠ .ok r :=
  (C130_variation env p (c! "GP") [c! "225446", c! "A", c! "4916.45", c! "N", c! "12311.12", c! "W", c! "000.5",
    c! "054.7", c! "191120", c! "020.3"] (c! "E") (c! "$GPRMC,225446,A,4916.45,N,12311.12,W,000.5,054.7,191120,020.3,E")
    (c! "\r\n") rfl (demoTagged .bare (by decide +kernel)) (by decide) (.inl rfl)).1 (by decide) r

/-- A GGA sentence with an empty station number is accepted, but not with LF at its end. -/
example (p : Parser) (r : ParsedSentence) :
    (parseSentence demoEnv p (c! "$GPGGA,123519,4807.038,N,01131.000,W,1,08,0.9,545.4,M,46.9,M,,\n")).1 ≠ .ok r :=
  C130_refused demoEnv p (c! "GP") (c! "GGA") [c! "123519", c! "4807.038", c! "N", c! "01131.000", c! "W", c! "1", c! "08",
    c! "0.9", c! "545.4", c! "M", c! "46.9", c! "M", []] [] (c! "$GPGGA,123519,4807.038,N,01131.000,W,1,08,0.9,545.4,M,46.9,M,,")
    (c! "\n") (by decide) (demoTagged .bare (by decide +kernel)) (by decide) (.inr (.inl rfl)) r

/-- A VTG sentence without FAA mode (as before NMEA 2.3) keeps all its values. -/
example (env : Env) (p : Parser) : ∃ d, parseSentence env p (c! "$GPVTG,054.7,T,034.4,M,005.5,N,010.2,K") = (.ok (.vtg d), p) ∧
    parseSentence env p (c! "$GPVTG,054.7,T,034.4,M,005.5,N,010.2,K\r\n") = (.ok (.vtg d), p) :=
  C130_vtg env p (c! "GP") [c! "054.7", c! "T", c! "034.4", c! "M", c! "005.5", c! "N", c! "010.2"] (c! "K")
    (c! "$GPVTG,054.7,T,034.4,M,005.5,N,010.2,K") (c! "\r\n")
    (demoTagged .bare (by decide +kernel)) (by decide) (.inl rfl)

/-- Longitude 11° 31' west, CR LF: the result is in the east. -/
example : (parseSentence demoEnv Parser.new (c! "$GPRMC,123519,A,4807.038,N,01131.000,W\r\n")).1 =
    (parseSentence demoEnv Parser.new (c! "$GPRMC,123519,A,4807.038,N,01131.000,E")).1 := by decide +kernel

/-- A satellite whose signal strength is lost. -/
example (env : Env) (p : Parser) : ∃ l d, d.prnNumber = 70 ∧ (parseSentence env p (c! "$GLGSV,1,1,01,70,40,083,46")).1 = .ok (.gsv (l ++ [d])) ∧
    (parseSentence env p (c! "$GLGSV,1,1,01,70,40,083,46\r\n")).1 = .ok (.gsv (l ++ [{ d with snr := none }])) :=
  C130_gsv env p (c! "GL") [c! "1", c! "1", c! "01", c! "70", c! "40", c! "083"] (c! "46") (c! "$GLGSV,1,1,01,70,40,083,46") (c! "\r\n") 0 70 (by decide) rfl
    (demoDec (by decide)) ⟨demoTagged .bare (by decide), .inr (demoDec (by decide)), .inr (demoDec (by decide))⟩ (by decide) (.inl rfl)

/-- An AIS sentence without the fill bits. -/
example (p : Parser) : (parseSentence demoEnv p (c! "!AIVDM,1,1,,A,15RTgt0PAso;90TKcjM8h6g208Ca\r\n")).1 = .panic :=
  C130_payload demoEnv p (c! "AI") false [c! "1", c! "1", [], c! "A"] (c! "15RTgt0PAso;90TKcjM8h6g208Ca")
    (c! "!AIVDM,1,1,,A,15RTgt0PAso;90TKcjM8h6g208Ca") (c! "\r\n") 1 rfl rfl (demoDec (by decide)) (demoDec (by decide))
    (demoTagged .bare (by decide +kernel)) (by decide) (.inl rfl)

/-! ## C131: text before the start character -/

/-- C131: a text that does not start with `$` or `!` is never accepted and has no effect. It is refused as corrupted if there
is a wrong checksum; otherwise it is refused as invalid if there is no comma before the checksum; otherwise it panics
if the first character is a comma or not an ASCII character, and it is refused as unsupported if it is another character. -/
theorem C131_no_start (env : Env) (p : Parser) (c : Char) (x : Str) (h1 : c ≠ '$') (h2 : c ≠ '!') :
    (parseSentence env p (c :: x)).2 = p ∧ (∀ r, (parseSentence env p (c :: x)).1 ≠ .ok r) ∧
    (∀ body e, Framed body e → c :: x = finish body e →
      (',' ∉ body → ∃ m, (parseSentence env p (c :: x)).1 = .err (.invalidSentence m)) ∧
      (',' ∈ body → (c = ',' ∨ 128 ≤ c.toNat → (parseSentence env p (c :: x)).1 = .panic) ∧
        (c ≠ ',' ∧ c.toNat < 128 → ∃ m, (parseSentence env p (c :: x)).1 = .err (.unsupportedSentenceType m)))) := by
  have hsize : ∀ c : Char, c.utf8Size ≠ 1 ↔ 128 ≤ c.toNat := by
    intro c
    rw [Ne, Char.utf8Size_eq_one_iff, UInt32.le_iff_toNat_le]
    show ¬ c.toNat ≤ 127 ↔ _
    omega
  have key : ∀ body e, Framed body e → c :: x = finish body e →
      (parseSentence env p (c :: x)).2 = p ∧ (∀ r, (parseSentence env p (c :: x)).1 ≠ .ok r) ∧
      (',' ∉ body → ∃ m, (parseSentence env p (c :: x)).1 = .err (.invalidSentence m)) ∧
      (',' ∈ body → (c = ',' ∨ 128 ≤ c.toNat → (parseSentence env p (c :: x)).1 = .panic) ∧
        (c ≠ ',' ∧ c.toNat < 128 → ∃ m, (parseSentence env p (c :: x)).1 = .err (.unsupportedSentenceType m))) := by
    intro body e hf hs
    rw [hs, parse_finish _ _ _ _ hf]
    rcases comma_cases body with hc | ⟨ty, rest, rfl, hty⟩
    · rw [parseBody_noComma _ _ _ hc]
      exact ⟨rfl, by simp, fun _ => ⟨_, rfl⟩, fun h => absurd h hc⟩
    · cases ty with
      | nil =>
        have hc : c = ',' := by cases e <;> simp [finish] at hs <;> exact hs.1
        rw [parseBody_badTag _ _ _ _ hty (.inl rfl)]
        exact ⟨rfl, by simp, by simp, fun _ => ⟨by simp, fun h => absurd hc h.1⟩⟩
      | cons d ty =>
        have hd : d = c := by cases e <;> simp [finish] at hs <;> exact hs.1.symm
        subst hd
        have hnc : d ≠ ',' := by rintro rfl; simp at hty
        by_cases h : 128 ≤ d.toNat
        · rw [parseBody_badTag _ _ _ _ hty (.inr (.inl ⟨d, ty, rfl, (hsize d).mpr h⟩))]
          exact ⟨rfl, by simp, by simp, fun _ => ⟨by simp, fun h' => by omega⟩⟩
        · rw [parseBody_oddTag _ _ _ _ hty (.inl ⟨d, ty, rfl, not_not.mp fun h' => h ((hsize d).mp h'), h1, h2⟩)]
          exact ⟨rfl, by simp, by simp, fun _ => ⟨fun h' => (h'.elim (fun h' => absurd h' hnc) fun h' => absurd h' h), by simp⟩⟩
  rcases framing_cases (c :: x) with ⟨body, e, hf, h⟩ | ⟨a, b, h, h1, h2, h3⟩
  · obtain ⟨k1, k2, -⟩ := key body e hf h
    exact ⟨k1, k2, fun b' e' hf' h' => (key b' e' hf' h').2.2⟩
  · obtain ⟨m, hm⟩ := C01_wrong_checksum_rejected env p a b h1 h2 h3
    rw [← h] at hm
    exact ⟨by rw [hm], by simp [hm], fun b' e' hf' h' => (key b' e' hf' h').2.2⟩

/-- A blank, a byte order mark, and a number before the sentence. -/
example (env : Env) (p : Parser) : (∃ m, (parseSentence env p (c! " $GPVTG,1")).1 = .err (.unsupportedSentenceType m)) ∧
    (parseSentence env p ('﻿' :: c! "$GPVTG,1")).1 = .panic ∧
    (∃ m, (parseSentence env p (c! "12:00 ")).1 = .err (.invalidSentence m)) :=
  ⟨(((C131_no_start env p ' ' (c! "$GPVTG,1") (by decide) (by decide)).2.2 (c! " $GPVTG,1") .bare (by decide) rfl).2 (by decide)).2
      (by decide),
    (((C131_no_start env p '﻿' (c! "$GPVTG,1") (by decide) (by decide)).2.2 ('﻿' :: c! "$GPVTG,1") .bare (by decide) rfl).2
      (by decide)).1 (by decide),
    ((C131_no_start env p '1' (c! "2:00 ") (by decide) (by decide)).2.2 (c! "12:00 ") .bare (by decide) rfl).1 (by decide)⟩

/-- C131: text before a sentence with checksum. It is refused as corrupted exactly if the XOR of the bytes of the text, without
its first character but with the start character, is not 0. -/
theorem C131_before_checksum (env : Env) (p : Parser) (c : Char) (pre b : Str) (lead : Char) :
    (∃ m, (parseSentence env p (c :: pre ++ finish (lead :: b) .full)).1 = .err (.corruptedSentence m)) ↔
      xorBytes (pre ++ [lead]) ≠ 0 := by
  have e : c :: pre ++ finish (lead :: b) .full = (c :: pre ++ lead :: b) ++ '*' :: checksumText (lead :: b) := by
    simp [finish]
  have hx : xorBytes (c :: pre ++ lead :: b).tail = xorBytes (pre ++ [lead]) ^^^ xorBytes b := by
    have : (c :: pre ++ lead :: b).tail = (pre ++ [lead]) ++ b := by simp
    rw [this, xorBytes_append]
  rw [e]
  obtain ⟨k1, k2⟩ := C116_exact env p (lead :: b) (c :: pre ++ lead :: b)
  rw [hx] at k1 k2
  constructor
  · rintro ⟨m, hm⟩ h0
    rw [k1 (by rw [h0]; simp)] at hm
    obtain ⟨a', b', h1, h2, -, h4⟩ := (C02_corrupted_iff env p _).mp ⟨m, hm⟩
    have e1 := splitChecksum_star a' b' h2
    rw [← h1, splitChecksum_star _ _ (star_not_mem_checksumText _)] at e1
    cases e1
    exact h4 rfl
  · intro h
    obtain ⟨m, hm⟩ := k2 fun h' => h (by
      have := congrArg (· ^^^ xorBytes b) h'
      simpa [Nat.xor_assoc] using this)
    exact ⟨m, by rw [hm]⟩

/-- C131: in particular one character before a sentence with checksum is always noticed. -/
theorem C131_one_before (env : Env) (p : Parser) (c lead : Char) (b : Str) (hl : lead = '$' ∨ lead = '!') :
    ∃ m, parseSentence env p (c :: finish (lead :: b) .full) = (.err (.corruptedSentence m), p) := by
  have e : c :: finish (lead :: b) .full = (c :: lead :: b) ++ '*' :: checksumText (lead :: b) := by simp [finish]
  rw [e]
  refine (C116_exact env p (lead :: b) (c :: lead :: b)).2 fun h => ?_
  have h : xorBytes [lead] ^^^ xorBytes b = xorBytes b := by rw [← xorBytes_append]; exact h
  have := congrArg (· ^^^ xorBytes b) h
  simp only [Nat.xor_assoc, Nat.xor_self, Nat.xor_zero] at this
  rcases hl with rfl | rfl <;> revert this <;> decide

/-- A blank before an AIS sentence, and a TAG block with its own checksum before it. -/
example (env : Env) (p : Parser) :
    (∃ m, parseSentence env p (c! " !AIVDM,1,1,,A,15RTgt0PAso;90TKcjM8h6g208Ca,0*7A") = (.err (.corruptedSentence m), p)) ∧
    ∃ m, (parseSentence env p (c! "\\s:station1,c:1577836800*2D\\!AIVDM,1,1,,A,15RTgt0PAso;90TKcjM8h6g208Ca,0*7A")).1 =
      .err (.corruptedSentence m) :=
  ⟨C131_one_before env p ' ' '!' (c! "AIVDM,1,1,,A,15RTgt0PAso;90TKcjM8h6g208Ca,0") (.inr rfl),
    (C131_before_checksum env p '\\' (c! "s:station1,c:1577836800*2D\\") (c! "AIVDM,1,1,,A,15RTgt0PAso;90TKcjM8h6g208Ca,0") '!').mpr
      (by decide +kernel)⟩

end Nmea
