/-
C122: from transmitter to report. What any number of transmitters send, packed into sentences, is reported in order and
as transmitted.
-/
import Verif.Lemmas.Transmit
import Verif.Props.WellFormed
import Verif.Spec.Demo

namespace Nmea
open Spec

/-- A position report, a voyage message (of two sentences) and a static data report. -/
def demoBroadcasts : List Broadcast :=
  [⟨demoEnv, c! "AI", false, 1, c! "A", .message (.positionA
      ⟨1, 0, 227006760, 8, -57, 123, true, -70000000, 25000000, 3599, 359, 61, 1, 0, true, 34017⟩)⟩,
   ⟨demoEnv, c! "AI", false, 2, c! "B", .message (.voyage ⟨0, 351759000, 0, 9134270, c! "3FOF8", c! "EVER DIADEM", 70, 225,
      70, 1, 31, 1, 5, 15, 14, 0, 122, c! "NEW YORK", false, false⟩)⟩,
   ⟨demoEnv, c! "AI", true, 3, c! "A", .static ⟨0, 271041815, c! "PROGUY"⟩
      ⟨0, 271041815, 60, c! "1D0", 12, 0, c! "TC6163", 0, 15, 0, 5, 0⟩⟩]

/-- C122: whatever is transmitted, packed into sentences as a receiver does it (one sentence of up to 60 payload
characters, else two parts), is reported: the answers other than "incomplete" are, in order, what each broadcast says. -/
theorem C122_end_to_end (l : List Broadcast) (h : ∀ x ∈ l, x.Fits) :
    List.Forall₂ (fun (x : Broadcast) a => x.Tells a) l (told (answers Parser.new (l.flatMap Broadcast.sentences))) :=
  end_to_end l h

/-- Five sentences. -/
example : (∀ x ∈ demoBroadcasts, x.Fits) ∧ (demoBroadcasts.flatMap Broadcast.sentences).map (·.2) =
    [c! "!AIVDM,1,1,,A,13HOI:8iisoatD0Gmp@>3s?rR8CQ,0*44",
     c! "!AIVDM,2,1,2,B,55?MbV02;H;s<HtKP00EHE:0@T4@Dl0000000016L961O5Gf0NSQEp6ClRh0,0*0E",
     c! "!AIVDM,2,2,2,B,00000000000,2*25",
     c! "!AIVDO,1,1,,A,H42O55i18tMET00000000000000,2*6F",
     c! "!AIVDO,1,1,,A,H42O55lti4hh000D3nink000?050,0*1F"] := by
  constructor
  · simp only [demoBroadcasts, List.forall_mem_cons, List.not_mem_nil, false_implies, implies_true, and_true, Broadcast.Fits,
      AisMessage.Fits, AisMessage.IsWhole]
    unfold PositionA.Fits Voyage.Fits StaticA.Fits StaticB.Fits
    refine ⟨⟨by decide, by decide, by decide, by decide⟩, ⟨by decide, by decide, by decide, by decide⟩, ⟨by decide, by decide, by decide, by decide⟩⟩
  · decide +kernel

/-- C122: a message says only one thing, so the answers of `C122_end_to_end` are determined by what is transmitted. -/
theorem C122_determined (now : DateTime) (talker : Str) (own : Bool) (m : AisMessage) (a a' : Answer)
    (h : m.Tells now talker own a) (h' : m.Tells now talker own a') : a = a' :=
  AisMessage.tells_unique h h'

/-- The voyage report, and a base station report whose date does not exist. -/
example : AisMessage.Tells demoEnv.now (c! "AI") false (.voyage ⟨0, 351759000, 0, 9134270, c! "3FOF8", c! "EVER DIADEM",
      70, 225, 70, 1, 31, 1, 5, 15, 14, 0, 122, c! "NEW YORK", false, false⟩)
    (alone demoEnv (aisSentence (c! "AI") false (c! "55?MbV02;H;s<HtKP00EHE:0@T4@Dl0000000016L961O5Gf0NSQEp6ClRh000000000000"))) ∧
    AisMessage.Tells demoEnv.now (c! "AI") false
      (.base ⟨0, 3669702, 0, 0, 0, 24, 60, 60, true, -45812400, 22138800, 7, 0, false, 67039⟩) .panic := by
  constructor
  · simp only [AisMessage.Tells]; decide +kernel
  · simp only [AisMessage.Tells]; rw [if_neg (by decide)]; trivial

/-- C122: any AIS message (of a supported type other than 24) that gets through, however many bits it has, is reported as a
message that a transmitter can send. -/
theorem C122_any_message (env : Env) (p : Parser) (s talker : Str) (own : Bool) (payload : Str)
    (h : Delivers p s talker own payload) (hr : Readable env payload) (hb : Reported (payloadBits payload))
    (h24 : typeOf (payloadBits payload) ≠ 24) :
    ∃ m : AisMessage, m.Fits ∧ m.IsWhole ∧ typeOf m.bits = typeOf (payloadBits payload) ∧
      mmsiOf m.bits = mmsiOf (payloadBits payload) ∧ m.Tells env.now talker own (parseSentence env p s).1 := by
  obtain ⟨m, hm, ht, hi, he, -⟩ := C121_delivered env p s talker own payload h hr hb
  have hw : m.IsWhole := by
    cases m with
    | staticA m => exact absurd (ht.symm.trans (by simpa [AisMessage.bits] using (StaticA.head m hm []).1)) h24
    | staticB m => exact absurd (ht.symm.trans (by simpa [AisMessage.bits] using (StaticB.head m hm []).1)) h24
    | _ => trivial
  have htalk : Talker talker := by
    cases h with
    | single _ h => obtain ⟨fs, k, h, -⟩ := h; exact h.1
    | first _ _ _ _ h => obtain ⟨fs, h, -⟩ := h; exact h.1
    | second _ _ _ _ h => obtain ⟨fs, h, -⟩ := h; exact h.1
  refine ⟨m, hm, hw, ht, hi, ?_⟩
  rw [he]
  exact tells_delivered env p _ talker own m hm hw (.single _ (single_aisSentence talker own m.bits htalk))

/-- A type 5 message that ends in the middle of the name. -/
example : Reported (payloadBits (c! "55?MbV02;H;s<HtKR20EHE:0@T")) ∧ Readable demoEnv (c! "55?MbV02;H;s<HtKR20EHE:0@T") ∧
    typeOf (payloadBits (c! "55?MbV02;H;s<HtKR20EHE:0@T")) ≠ 24 := by
  unfold Reported Readable; decide +kernel

end Nmea
