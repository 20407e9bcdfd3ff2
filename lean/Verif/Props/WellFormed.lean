/-
C121: an AIS message with arbitrary bits (cut short, too long, with anything after the end of a text) is answered
like a well-formed message. So C44-C53, which are about well-formed messages, cover every message.
-/
import Verif.Lemmas.WellFormed
import Verif.Spec.Demo

namespace Nmea
open Spec

/-- C121: an unfragmented message; also what is remembered afterwards is the same. -/
theorem C121_well_formed (env : Env) (p : Parser) (s talker : Str) (own : Bool) (payload : Str)
    (h : Single talker own payload s) (hr : Readable env payload) (hb : Reported (payloadBits payload)) :
    ∃ m : AisMessage, m.Fits ∧ typeOf m.bits = typeOf (payloadBits payload) ∧
      mmsiOf m.bits = mmsiOf (payloadBits payload) ∧
      parseSentence env p s = parseSentence env p (aisSentence talker own (armor m.bits)) := by
  obtain ⟨m, hm, ht, hi, he⟩ := exists_wellFormed _ hb
  have htalk : Talker talker := by
    obtain ⟨fs, k, h, -⟩ := h
    exact h.1
  refine ⟨m, hm, ht, hi, ?_⟩
  rw [eval_armored env p talker own m.bits _ (single_aisSentence talker own m.bits htalk), he,
    eval_Single env p talker own payload s h, complete, parsePayload_readable env payload hr]

/-- The bits of a type 5 message cut short in the middle of the name, with a name that goes on after its end. -/
example : Reported (payloadBits (c! "55?MbV02;H;s<HtKR20EHE:0@T4@Dn2222222216L961O5Gf0NSQEp6")) ∧
    Readable demoEnv (c! "55?MbV02;H;s<HtKR20EHE:0@T4@Dn2222222216L961O5Gf0NSQEp6") := by
  unfold Reported Readable; decide +kernel

example : Single (c! "AI") false (c! "55?MbV02;H;s<HtKR20EHE:0@T") (c! "!AIVDM,1,1,,A,55?MbV02;H;s<HtKR20EHE:0@T,0") :=
  ⟨[c! "1", c! "1", [], c! "A", c! "55?MbV02;H;s<HtKR20EHE:0@T", c! "0"], 1,
    demoTagged .bare ⟨by decide, by decide, by decide, by decide, rfl⟩, demoDec (by decide), demoDec (by decide), rfl⟩

/-- C121: a message in one sentence or in two parts, in any state. -/
theorem C121_delivered (env : Env) (p : Parser) (s talker : Str) (own : Bool) (payload : Str)
    (h : Delivers p s talker own payload) (hr : Readable env payload) (hb : Reported (payloadBits payload)) :
    ∃ m : AisMessage, m.Fits ∧ typeOf m.bits = typeOf (payloadBits payload) ∧
      mmsiOf m.bits = mmsiOf (payloadBits payload) ∧
      (parseSentence env p s).1 = (parseSentence env p (aisSentence talker own (armor m.bits))).1 ∧
      ∀ mmsi, pendingStatic (parseSentence env p s).2 mmsi =
        pendingStatic (parseSentence env p (aisSentence talker own (armor m.bits))).2 mmsi := by
  obtain ⟨m, hm, ht, hi, he⟩ := exists_wellFormed _ hb
  have htalk : Talker talker := by
    cases h with
    | single _ h => obtain ⟨fs, k, h, -⟩ := h; exact h.1
    | first _ _ _ _ h => obtain ⟨fs, h, -⟩ := h; exact h.1
    | second _ _ _ _ h => obtain ⟨fs, h, -⟩ := h; exact h.1
  refine ⟨m, hm, ht, hi, ?_⟩
  obtain ⟨q, hq, e⟩ := eval_readable env p s talker own payload h hr
  rw [eval_armored env p talker own m.bits _ (single_aisSentence talker own m.bits htalk), he, e, stationOf_eq]
  obtain ⟨h1, h2⟩ := dispatchAis_vsds env ('!' :: aisKind own) (payloadBits payload) (talkerStation talker) own p q hq
  exact ⟨h1, fun mmsi => by unfold pendingStatic; rw [h2]⟩

/-- The same message, in two parts, the second part first. -/
example : ∃ p s, Delivers p s (c! "AI") false (c! "55?MbV02;H;s<HtKR2" ++ c! "0EHE:0@T") ∧
    Reported (payloadBits (c! "55?MbV02;H;s<HtKR2" ++ c! "0EHE:0@T")) := by
  refine ⟨(parseSentence demoEnv Parser.new (c! "!AIVDM,2,2,5,A,0EHE:0@T,2")).2, c! "!AIVDM,2,1,5,A,55?MbV02;H;s<HtKR2,0", ?_, ?_⟩
  · refine .first (s := c! "!AIVDM,2,1,5,A,55?MbV02;H;s<HtKR2,0") 5 (c! "A") _ _ ?_ ?_
    · exact ⟨[c! "2", c! "1", c! "5", c! "A", c! "55?MbV02;H;s<HtKR2", c! "0"],
        demoTagged .bare ⟨by decide, by decide, by decide, by decide, rfl⟩, demoDec (by decide), demoDec (by decide),
        demoDec (by decide), rfl, rfl⟩
    · decide +kernel
  · unfold Reported; decide +kernel

end Nmea
