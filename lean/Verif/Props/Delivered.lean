/-
C11, C24, C42, C43 for messages in one or two parts and payloads of any readable characters; C22, C89, C97 for sentences
with a fragment count only.
-/
import Verif.Lemmas.Values
import Verif.Props.Bits
import Verif.Props.Dispatch
import Verif.Props.Fragments
import Verif.Lemmas.Demo

namespace Nmea
open Spec

/-- Part 2 of an inquiry, from a base station, whose part 1 came from a mobile station and is pending. -/
theorem demoInTwoParts (env : Env) : DeliversBits env (parseSentence demoEnv Parser.new (c! "!AIVDM,2,1,7,B,:5MlU41,0")).2
    (c! "!ABVDM,2,2,7,B,GMK6@,0") (c! "AB") false (payloadBits (c! ":5MlU41" ++ c! "GMK6@")) :=
  ⟨_, .second 7 (c! "B") _ _ demoSecond (by decide +kernel), fun _ => by decide, rfl⟩

/-! ### C11: the message type -/

/-- C11, for every complete message, in one or two parts: the message type alone decides whether it is refused as
unsupported, and the kind of the result; a refused message leaves the static data. -/
theorem C11_complete_message (env : Env) (p : Parser) (s talker : Str) (own : Bool) (bits : List Bool)
    (h : DeliversBits env p s talker own bits) :
    ((∃ m, (parseSentence env p s).1 = .err (.unsupportedSentenceType m)) ↔ typeOf bits ∉ supportedTypes) ∧
    (typeOf bits ∉ supportedTypes → ∀ m, pendingStatic (parseSentence env p s).2 m = pendingStatic p m) ∧
    (∀ r, (parseSentence env p s).1 = .ok r → r ≠ .incomplete → typeOf bits ∈ aisTypesOf r) ∧
    ((parseSentence env p s).1 = .ok .incomplete → typeOf bits = 24) := by
  have ht : pickU64 bits 0 6 = typeOf bits := pickU64_window _ _ _ (by decide)
  obtain ⟨q, hq, he⟩ := eval_bits env p s talker own bits h
  rw [he]
  refine ⟨⟨?_, ?_⟩, ?_, ?_, ?_⟩
  · rintro ⟨m, hm⟩
    rcases dispatchAis_err _ _ _ _ _ _ _ _ (Prod.ext hm rfl) with ⟨-, ⟨_, h⟩⟩ | ⟨h, -⟩
    · cases h
    · rwa [ht] at h
  · intro hn
    rw [← ht] at hn
    obtain ⟨m, hm⟩ := dispatchAis_unsupported env ('!' :: aisKind own) bits (talkerStation talker) own q hn
    exact ⟨m, by rw [hm]⟩
  · intro hn m
    rw [← ht] at hn
    obtain ⟨_, hm⟩ := dispatchAis_unsupported env ('!' :: aisKind own) bits (talkerStation talker) own q hn
    rw [hm]
    simp only [pendingStatic, hq]
  · intro r hr hne
    rcases dispatchAis_ok _ _ _ _ _ _ _ _ (Prod.ext hr rfl) with ⟨h, -⟩ | ⟨h, -⟩
    · exact absurd h hne
    · rwa [ht] at h
  · intro hr
    rcases dispatchAis_ok _ _ _ _ _ _ _ _ (Prod.ext hr rfl) with ⟨-, h⟩ | ⟨h, -⟩
    · rwa [ht] at h
    · simp [aisTypesOf] at h

/-- A message in two parts: type 10. -/
example (m : Str) : (parseSentence demoEnv (parseSentence demoEnv Parser.new (c! "!AIVDM,2,1,7,B,:5MlU41,0")).2
    (c! "!ABVDM,2,2,7,B,GMK6@,0")).1 ≠ .err (.unsupportedSentenceType m) := fun h =>
  (C11_complete_message _ _ _ _ _ _ (demoInTwoParts demoEnv)).1.1 ⟨m, h⟩ (by decide +kernel)

/-! ### C24: the station of a message of two talkers -/

/-- C24: whatever the talkers of the two parts, in either order of arrival, a station in the result is that of the
talker of the sentence that completes the message, and the own-vessel flag is that of both. -/
theorem C24_station_of_last (env : Env) (p : Parser) (s talker : Str) (own : Bool) (payload : Str)
    (h : Delivers p s talker own payload) (r : ParsedSentence) (hr : (parseSentence env p s).1 = .ok r) :
    (∀ x, stationIn r = some x → x = talkerStation talker) ∧ (∀ b, ownIn r = some b → b = own) := by
  obtain ⟨fs, hf⟩ : ∃ fs, IsAis talker own fs s := by
    cases h with
    | single _ h => obtain ⟨fs, _, h, -⟩ := h; exact ⟨fs, h⟩
    | first _ _ _ _ h => obtain ⟨fs, h, -⟩ := h; exact ⟨fs, h⟩
    | second _ _ _ _ h => obtain ⟨fs, h, -⟩ := h; exact ⟨fs, h⟩
  exact C08_station_and_own env p (parseSentence env p s).2 talker own fs s r hf (Prod.ext hr rfl)

/-- Parts of a mobile and of a base station: the result names the base station. -/
example (r : ParsedSentence) (x : Station)
    (hr : (parseSentence demoEnv (parseSentence demoEnv Parser.new (c! "!AIVDM,2,1,7,B,:5MlU41,0")).2
      (c! "!ABVDM,2,2,7,B,GMK6@,0")).1 = .ok r) (hx : stationIn r = some x) : x = .baseStation := by
  obtain ⟨payload, h, -⟩ := demoInTwoParts demoEnv
  exact (C24_station_of_last _ _ _ _ _ _ h r hr).1 x hx

/-! ### C42, C43: bits that are not read -/

theorem window_ext (b b' : List Bool) (n : Nat) (h : ∀ i, i < n → b.getD i false = b'.getD i false) :
    window b 0 n = window b' 0 n := by
  have key : ∀ (x : List Bool) (i : Nat), i < n →
      (List.take n (List.drop 0 (x ++ List.replicate (0 + n) false)))[i]? = some (x.getD i false) := by
    intro x i hi
    rw [List.getElem?_take_of_lt hi, List.drop_zero, List.getElem?_append, List.getElem?_replicate]
    split
    · rename_i hx
      simp [List.getD, hx]
    · rename_i hx
      simp [List.getD, hx, (by omega : i - x.length < n)]
  unfold window
  apply List.ext_getElem?
  intro i
  by_cases hi : i < n
  · rw [key b i hi, key b' i hi, h i hi]
  · rw [List.getElem?_eq_none (by simp; omega), List.getElem?_eq_none (by simp; omega)]

/-- C42, C43, for messages in one or two parts: two messages that agree in the bits of the layout (missing bits
counting as zero) are answered alike and leave the same static data. -/
theorem C43_same_layout_bits (env : Env) (p : Parser) (s s' talker : Str) (own : Bool) (b b' : List Bool)
    (h : DeliversBits env p s talker own b) (h' : DeliversBits env p s' talker own b')
    (hw : ∀ i, i < layoutBits (typeOf b) (partOf b) → b.getD i false = b'.getD i false) :
    (parseSentence env p s).1 = (parseSentence env p s').1 ∧
    ∀ m, pendingStatic (parseSentence env p s).2 m = pendingStatic (parseSentence env p s').2 m := by
  obtain ⟨q, hq, he⟩ := eval_bits env p s talker own b h
  obtain ⟨q', hq', he'⟩ := eval_bits env p s' talker own b' h'
  have h6 : 6 ≤ layoutBits (typeOf b) (partOf b) := by
    unfold layoutBits
    split <;> (try split) <;> omega
  have e : dispatchAis env ('!' :: aisKind own) b (talkerStation talker) own q' =
      dispatchAis env ('!' :: aisKind own) b' (talkerStation talker) own q' := by
    apply dispatchAis_congr _ _ _ _ _ _ _ (layoutBits (typeOf b) (partOf b))
    · exact window_ext b b' _ hw
    · exact h6
    · rw [pickU64_window _ _ _ (by decide), pickU64_window _ _ _ (by decide)]
      exact Nat.le_refl _
  obtain ⟨k1, k2⟩ := dispatchAis_static env ('!' :: aisKind own) b (talkerStation talker) own q q' (hq.trans hq'.symm)
  rw [he, he', k1, e]
  refine ⟨rfl, fun m => ?_⟩
  simp only [pendingStatic, k2, e]

/-- The message in two parts is answered like one in a single sentence with more bits after the 70 of the layout. -/
example : (parseSentence demoEnv (parseSentence demoEnv Parser.new (c! "!AIVDM,2,1,7,B,:5MlU41,0")).2
      (c! "!ABVDM,2,2,7,B,GMK6@,0")).1 =
    (parseSentence demoEnv (parseSentence demoEnv Parser.new (c! "!AIVDM,2,1,7,B,:5MlU41,0")).2
      (c! "!ABVDM,1,1,,B,:5MlU41GMK6@www,0")).1 :=
  (C43_same_layout_bits demoEnv _ _ _ _ _ _ (payloadBits (c! ":5MlU41GMK6@www")) (demoInTwoParts demoEnv)
    ⟨_, .single _ (demoAlone [c! "1", c! "1", [], c! "B", c! ":5MlU41GMK6@www", c! "0"] .bare (by decide) (by decide)),
      fun _ => by decide, rfl⟩
    (by decide +kernel)).1

/-! ### C22, C89, C97: sentences with a fragment count and nothing else -/

theorem eval_countOnly (env : Env) (p : Parser) (talker f : Str) (own : Bool) (s : Str) (h : IsAis talker own [f] s)
    (n : Nat) (hn : Dec 255 f n) :
    parseSentence env p s =
      if n = 1 then complete env own (stationOf talker) [] p else (.ok .incomplete, p) := by
  rw [eval_fields env p talker own [f] s h, vdmLoop_fields _ _ (by simp)]
  have h8 : parseU8 (field [f] 0) = some n := (parseU8_iff _ _).2 hn
  rw [h8]
  by_cases h1 : n = 1
  · subst h1
    simp [assemble, complete]
  · by_cases h2 : n = 2
    · subst h2
      simp [assemble]
    · simp [assemble, h1, h2]

/-- C22: a sentence that ends after a fragment count other than 1 yields `Incomplete` and changes nothing. -/
theorem C22_count_only (env : Env) (p : Parser) (talker f : Str) (own : Bool) (s : Str) (h : IsAis talker own [f] s)
    (n : Nat) (hn : Dec 255 f n) (h1 : n ≠ 1) : parseSentence env p s = (.ok .incomplete, p) := by
  rw [eval_countOnly env p talker f own s h n hn, if_neg h1]

/-- C97: a sentence that ends after the fragment count 1 counts as one with an empty payload. -/
theorem C97_count_only (env : Env) (p : Parser) (talker f : Str) (own : Bool) (s s' : Str) (h : IsAis talker own [f] s)
    (hn : Dec 255 f 1) (h' : Single talker own [] s') : parseSentence env p s = parseSentence env p s' := by
  rw [eval_countOnly env p talker f own s h 1 hn, if_pos rfl, eval_Single env p talker own [] s' h']

/-- C89: it is refused, naming the message type 0. -/
theorem C89_count_only (env : Env) (p : Parser) (talker f : Str) (own : Bool) (s : Str) (h : IsAis talker own [f] s)
    (hn : Dec 255 f 1) : parseSentence env p s =
      (.err (.unsupportedSentenceType (c! "Unsupported !" ++ aisKind own ++ c! " message type: 0")), p) := by
  rw [eval_countOnly env p talker f own s h 1 hn, if_pos rfl]
  cases own <;> rfl

/-- Sentences that end after the fragment count. -/
example : IsAis (c! "AI") false [c! "2"] (c! "!AIVDM,2") ∧ IsAis (c! "AI") true [c! "01"] (c! "!AIVDO,01*78") ∧
    Dec 255 (c! "2") 2 ∧ Dec 255 (c! "01") 1 ∧
    ∀ env p, (parseSentence env p (c! "!AIVDO,01*78")).1 =
      .err (.unsupportedSentenceType (c! "Unsupported !VDO message type: 0")) := by
  have d2 : Dec 255 (c! "2") 2 := ⟨c! "2", .inl rfl, ⟨by decide, by decide⟩, by decide, by decide⟩
  have d1 : Dec 255 (c! "01") 1 := ⟨c! "01", .inl rfl, ⟨by decide, by decide⟩, by decide, by decide⟩
  have h1 : IsAis (c! "AI") true [c! "01"] (c! "!AIVDO,01*78") := demoTagged .full (by decide +kernel)
  exact ⟨demoTagged .bare (by decide +kernel), h1, d2, d1, fun env p => by
    rw [C89_count_only env p _ _ _ _ h1 d1]; rfl⟩

end Nmea
