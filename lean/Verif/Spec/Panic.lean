/-
Specification of the calls that panic, and of the timestamps in results.
-/
import Verif.Spec.Messages
import Verif.Spec.Format

namespace Nmea.Spec

/-- Date and time of a type 4 message. -/
def stationTime (bits : List Bool) : DateTime :=
  ⟨bitsVal (window bits 38 14), bitsVal (window bits 52 4), bitsVal (window bits 56 5), bitsVal (window bits 61 5),
   bitsVal (window bits 66 6), bitsVal (window bits 72 6)⟩

/-- A type 4 message without a valid date and time, or a type 5 message whose ETA is not absent and not a valid
date and time. -/
def BadMessage (now : DateTime) (bits : List Bool) : Prop :=
  (typeOf bits = 4 ∧ ¬ IsDateTime (stationTime bits)) ∨
  (typeOf bits = 5 ∧ ¬ EtaAbsent (arrivalAt bits) ∧ ¬ IsDateTime (etaCandidate now (arrivalAt bits)))

/-- The calls that panic. -/
inductive Panics (env : Env) (p : Parser) (s : Str) : Prop where
  /-- The tag is too short, or cut inside a character. -/
  | tag (ty rest : Str) (e : Ending) (hf : Framed (ty ++ ',' :: rest) e) (hs : s = finish (ty ++ ',' :: rest) e)
      (hc : ',' ∉ ty) (hb : BadTag ty)
  /-- The time of a GGA sentence is too short or out of range. -/
  | gga (talker : Str) (fs : List Str) (hs : IsGnss talker (c! "GGA") fs s)
      (ht : ¬ ∃ t, TimeField env.now (field fs 0) t)
  /-- The date and time of an RMC sentence are numbers but out of range. -/
  | rmc (talker : Str) (fs : List Str) (hs : IsGnss talker (c! "RMC") fs s)
      (ht : ¬ ∃ t, DateTimeField env.now (field fs 8) (field fs 0) t)
  /-- The time of a GLL sentence with a readable position is too short or out of range. -/
  | gll (talker : Str) (fs : List Str) (hs : IsGnss talker (c! "GLL") fs s) (hr : GllReadable fs)
      (ht : ¬ ∃ t, TimeField env.now (field fs 4) t)
  /-- The count of a GSV group is the biggest 32-bit number (overflow checks on). -/
  | gsv (talker : Str) (k : Nat) (fs : List Str) (hs : GsvPart talker (2 ^ 32 - 1) k fs s)
      (ho : env.overflowChecks = true)
  /-- A completed AIS payload has a character below `0` (overflow checks on). -/
  | payload (talker : Str) (own : Bool) (payload : Str) (hd : Delivers p s talker own payload)
      (hr : ¬ Readable env payload)
  /-- A completed AIS message has an invalid date or time. -/
  | message (talker : Str) (own : Bool) (payload : Str) (hd : Delivers p s talker own payload)
      (hr : Readable env payload) (hb : BadMessage env.now (payloadBits payload))

/-- A payload text over the 64 characters of the armoring. -/
def CleanText (s : Str) : Prop := ∀ c ∈ s, ∃ v, v < 64 ∧ c = armorChar v

/-- Sentences as devices send them: valid times and dates, clean payloads, a reasonable GSV count; for fragments
of AIS messages only their own text is judged. -/
inductive WellFormed (now : DateTime) (s : Str) : Prop where
  | gga (talker : Str) (fs : List Str) (h m x : Nat) (rest : Str) (hs : IsGnss talker (c! "GGA") fs s)
      (ht : field fs 0 = timeText h m x ++ rest) (hv : IsTime h m x)
  | gll (talker : Str) (fs : List Str) (h m x : Nat) (rest : Str) (hs : IsGnss talker (c! "GLL") fs s)
      (ht : field fs 4 = timeText h m x ++ rest) (hv : IsTime h m x)
  | rmc (talker : Str) (fs : List Str) (d mo y h m x : Nat) (rest : Str) (hs : IsGnss talker (c! "RMC") fs s)
      (hd : field fs 8 = dateText d mo y) (ht : field fs 0 = timeText h m x ++ rest) (hy : y < 100)
      (hv : IsDateTime ⟨centuryOf now.year + y, mo, d, h, m, x⟩)
  | gsv (talker : Str) (fs : List Str) (hs : IsGnss talker (c! "GSV") fs s)
      (hn : ∀ n, Num0 (2 ^ 32 - 1) (field fs 0) n → n < 2 ^ 32 - 1)
  | gnss (talker kind : Str) (fs : List Str) (hs : IsGnss talker kind fs s) (hl : byteLen kind = 3) (hc : ',' ∉ kind)
      (hk : kind ∉ [c! "GGA", c! "GLL", c! "RMC", c! "GSV"])
  | single (talker : Str) (own : Bool) (payload : Str) (hs : Single talker own payload s) (hc : CleanText payload)
      (hm : ¬ BadMessage now (payloadBits payload))
  | part (talker : Str) (own : Bool) (num id : Nat) (chan payload : Str)
      (hs : Part talker own num id chan payload s) (hc : CleanText payload)

/-- The timestamps in a result. -/
def timesOf : ParsedSentence → List DateTime
  | .vesselStaticData d => d.eta.toList
  | .baseStationReport d => d.timestamp.toList
  | .gga d => d.timestamp.toList
  | .rmc d => d.timestamp.toList
  | .gll d => d.timestamp.toList
  | _ => []

/-- A result without the timestamps that depend on the clock. -/
def clockFree : ParsedSentence → ParsedSentence
  | .vesselStaticData d => .vesselStaticData { d with eta := none }
  | .gga d => .gga { d with timestamp := none }
  | .rmc d => .rmc { d with timestamp := none }
  | .gll d => .gll { d with timestamp := none }
  | r => r

/-- Outcomes of one call at two different times: equal, or different only in such a timestamp, unless one of
them is a panic. -/
inductive SameButClock : Out ParseError ParsedSentence → Out ParseError ParsedSentence → Prop where
  | panicLeft {y : Out ParseError ParsedSentence} : SameButClock .panic y
  | panicRight {x : Out ParseError ParsedSentence} : SameButClock x .panic
  | error (e : ParseError) : SameButClock (.err e) (.err e)
  | ok (r r' : ParsedSentence) (h : clockFree r = clockFree r') : SameButClock (.ok r) (.ok r')

/-- The sentences with a clock-dependent timestamp: GGA, RMC, GLL, and those that complete a type 5 message. -/
inductive UsesClock (p : Parser) (s : Str) : Prop where
  | gga (talker : Str) (fs : List Str) (hs : IsGnss talker (c! "GGA") fs s)
  | rmc (talker : Str) (fs : List Str) (hs : IsGnss talker (c! "RMC") fs s)
  | gll (talker : Str) (fs : List Str) (hs : IsGnss talker (c! "GLL") fs s)
  | voyage (talker : Str) (own : Bool) (payload : Str) (hd : Delivers p s talker own payload)
      (ht : typeOf (payloadBits payload) = 5)

end Nmea.Spec
