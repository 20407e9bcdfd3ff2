/-
Literal AIS reports and what they transmit, shared by the examples beside the theorems.
-/
import Verif.Lemmas.Values
import Verif.Spec.Demo

namespace Nmea
open Spec

/-- A payload and its sentence, delivered. -/
theorem demoDelivers (env : Env) (p : Parser) (s talker : Str) (own : Bool) (fs : List Str) (e : Ending)
    (h : Talker talker ∧ CommaFree fs ∧ fs ≠ [] ∧ Framed (join (tag '!' talker (aisKind own)) fs) e ∧
      s = finish (join (tag '!' talker (aisKind own)) fs) e)
    (h1 : field fs 0 = c! "1") (h2 : field fs 1 = c! "1")
    (hr : ∀ c ∈ field fs 4, 48 ≤ c.toNat % 256) :
    DeliversBits env p s talker own (payloadBits (field fs 4)) :=
  ⟨_, .single _ ⟨fs, 1, demoTagged e h, by rw [h1]; exact demoDec (by decide),
    by rw [h2]; exact demoDec (by decide), rfl⟩, fun _ => hr, rfl⟩

/-- The type 1 sentence of the library's own tests. -/
theorem demoType1 : DeliversBits demoEnv Parser.new (c! "!AIVDM,1,1,,A,15RTgt0PAso;90TKcjM8h6g208CQ,0*4A")
    (c! "AI") false (payloadBits (c! "15RTgt0PAso;90TKcjM8h6g208CQ")) :=
  demoDelivers _ _ _ _ _ [c! "1", c! "1", [], c! "A", c! "15RTgt0PAso;90TKcjM8h6g208CQ", c! "0"] .full
    ⟨by decide, by decide, by decide, by decide, by decide +kernel⟩ rfl rfl (by decide)

/-- A type 27 sentence. -/
theorem demoType27 : DeliversBits demoEnv Parser.new (c! "!AIVDM,1,1,,B,KC5E2b@U19PFdLbMuc5=ROv62<7m,0*16")
    (c! "AI") false (payloadBits (c! "KC5E2b@U19PFdLbMuc5=ROv62<7m")) :=
  demoDelivers _ _ _ _ _ [c! "1", c! "1", [], c! "B", c! "KC5E2b@U19PFdLbMuc5=ROv62<7m", c! "0"] .full
    ⟨by decide, by decide, by decide, by decide, by decide +kernel⟩ rfl rfl (by decide)

/-- A type 4 sentence. -/
theorem demoType4 : DeliversBits demoEnv Parser.new
    (c! "!AIVDM,1,1,,B,403OviQuMGCqWrRO9>E6fE700@GO,0")
    (c! "AI") false (payloadBits (c! "403OviQuMGCqWrRO9>E6fE700@GO")) :=
  demoDelivers _ _ _ _ _ [c! "1", c! "1", [], c! "B",
    c! "403OviQuMGCqWrRO9>E6fE700@GO", c! "0"] .bare
    ⟨by decide, by decide, by decide, by decide, by decide +kernel⟩ rfl rfl (by decide)

/-- A type 9 sentence. -/
theorem demoType9 : DeliversBits demoEnv Parser.new
    (c! "!AIVDM,1,1,,B,91b55wi;hbOS@OdQAC062Ch2089h,0*30")
    (c! "AI") false (payloadBits (c! "91b55wi;hbOS@OdQAC062Ch2089h")) :=
  demoDelivers _ _ _ _ _ [c! "1", c! "1", [], c! "B",
    c! "91b55wi;hbOS@OdQAC062Ch2089h", c! "0"] .full
    ⟨by decide, by decide, by decide, by decide, by decide +kernel⟩ rfl rfl (by decide)

/-- A type 18 sentence. -/
theorem demoType18 : DeliversBits demoEnv Parser.new
    (c! "!AIVDM,1,1,,A,B52K>;h00Fc>jpUlNV@ikwpUoP06,0*4C")
    (c! "AI") false (payloadBits (c! "B52K>;h00Fc>jpUlNV@ikwpUoP06")) :=
  demoDelivers _ _ _ _ _ [c! "1", c! "1", [], c! "A",
    c! "B52K>;h00Fc>jpUlNV@ikwpUoP06", c! "0"] .full
    ⟨by decide, by decide, by decide, by decide, by decide +kernel⟩ rfl rfl (by decide)

/-- A type 21 sentence. -/
theorem demoType21 : DeliversBits demoEnv Parser.new
    (c! "!AIVDM,1,1,,B,E>kb9O9aS@7PUh10dh19@;0Tah2cWrfP:l?M`00003vP100,0")
    (c! "AI") false (payloadBits (c! "E>kb9O9aS@7PUh10dh19@;0Tah2cWrfP:l?M`00003vP100")) :=
  demoDelivers _ _ _ _ _ [c! "1", c! "1", [], c! "B",
    c! "E>kb9O9aS@7PUh10dh19@;0Tah2cWrfP:l?M`00003vP100", c! "0"] .bare
    ⟨by decide, by decide, by decide, by decide, by decide +kernel⟩ rfl rfl (by decide)

/-- A type 5 sentence. -/
theorem demoType5 : DeliversBits demoEnv Parser.new
    (c! "!AIVDM,1,1,,A,539p4OT00000@7W3K@08ThiLE8@E:222222222220O0000000000000000000000000000,0")
    (c! "AI") false (payloadBits (c! "539p4OT00000@7W3K@08ThiLE8@E:222222222220O0000000000000000000000000000")) :=
  demoDelivers _ _ _ _ _ [c! "1", c! "1", [], c! "A",
    c! "539p4OT00000@7W3K@08ThiLE8@E:222222222220O0000000000000000000000000000", c! "0"] .bare
    ⟨by decide, by decide, by decide, by decide, by decide +kernel⟩ rfl rfl (by decide)

/-- The type 1 sentence has a result. -/
theorem demoType1_ok : ∃ d, (parseSentence demoEnv Parser.new
    (c! "!AIVDM,1,1,,A,15RTgt0PAso;90TKcjM8h6g208CQ,0*4A")).1 = .ok (.vesselDynamicData d) := by
  obtain ⟨q, -, he⟩ := eval_bits _ _ _ _ _ _ demoType1
  rw [he, dispatch_123 (by decide +kernel)]
  exact ⟨_, rfl⟩

end Nmea
