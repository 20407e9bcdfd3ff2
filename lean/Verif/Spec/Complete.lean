/-
The whole parser, specified: what is answered to every sentence, and what is remembered of it, in terms of the texts and the
sentences remembered. Nothing here refers to the functions of the model.
-/
import Verif.Spec.Machine
import Verif.Spec.Waiting
import Verif.Spec.Transmit

namespace Nmea.Spec

/-- A character in the error text for a wrong checksum: the five characters with a short escape, printable ASCII, other ASCII
by its hexadecimal code. How the apostrophe, NUL and the characters outside ASCII are written is left to the library. -/
def shownChar (library : Char → Str) (c : Char) : Str :=
  match [('"', c! "\\\""), ('\\', c! "\\\\"), ('\t', c! "\\t"), ('\r', c! "\\r"), ('\n', c! "\\n")].lookup c with
  | some s => s
  | none =>
    if c = '\'' ∨ c.toNat = 0 ∨ 128 ≤ c.toNat then library c
    else if 32 ≤ c.toNat ∧ c.toNat < 127 then [c]
    else c! "\\u{" ++ Nat.toDigits 16 c.toNat ++ c! "}"

/-- Error: not supported. -/
def unsupported (text : Str) : Answer := .err (.unsupportedSentenceType text)

/-- Error: malformed. -/
def invalid (text : Str) : Answer := .err (.invalidSentence text)

/-- A complete AIS message: the answer, and the memory afterwards. -/
inductive MessageReply (env : Env) (m : Memory) (talker : Str) (own : Bool) (payload : Str) : Answer → Memory → Prop where
  /-- A payload with a character below `0`, with overflow checks. -/
  | unreadable (h : ¬ Readable env payload) : MessageReply env m talker own payload .panic m
  /-- A message of another type. -/
  | unsupportedType (hr : Readable env payload) (h : typeOf (payloadBits payload) ∉ supportedTypes) :
      MessageReply env m talker own payload (unsupported
        (if typeOf (payloadBits payload) = 19 then c! "Unsupported AIVDM message type: 19"
          else c! "Unsupported !" ++ aisKind own ++ c! " message type: " ++ natStr (typeOf (payloadBits payload)))) m
  /-- Type 24 with another part number. -/
  | otherPart (hr : Readable env payload) (h : typeOf (payloadBits payload) = 24) (hp : 2 ≤ partOf (payloadBits payload)) :
      MessageReply env m talker own payload (invalid
        (c! "AIVDM type 24 part number has unexpected value: " ++ natStr (partOf (payloadBits payload)))) m
  /-- The first part of type 24 from this sender is remembered. -/
  | firstPart (hr : Readable env payload) (h : typeOf (payloadBits payload) = 24) (hp : partOf (payloadBits payload) < 2)
      (hm : m.static (mmsiOf (payloadBits payload)) = none) :
      MessageReply env m talker own payload (.ok .incomplete)
        (m.setStatic (mmsiOf (payloadBits payload)) (some (own, payloadBits payload)))
  /-- The second part is answered with the two together. -/
  | secondPart (own' : Bool) (bits' : List Bool) (hr : Readable env payload) (h : typeOf (payloadBits payload) = 24)
      (hp : partOf (payloadBits payload) < 2) (hm : m.static (mmsiOf (payloadBits payload)) = some (own', bits')) :
      MessageReply env m talker own payload
        (.ok (.vesselStaticData (overlay (partData own (payloadBits payload)) (partData own' bits'))))
        (m.setStatic (mmsiOf (payloadBits payload)) none)
  /-- Every other message is answered with what it tells. -/
  | report (x : AisMessage) (a : Answer) (hr : Readable env payload) (h : typeOf (payloadBits payload) ≠ 24)
      (hx : messageOf (payloadBits payload) = some x) (ha : x.Tells env.now talker own a) :
      MessageReply env m talker own payload a m

/-- A sentence: the answer, and the memory afterwards. -/
inductive Reply (env : Env) (m : Memory) (s : Str) : Answer → Memory → Prop where
  -- Sentences of no kind
  /-- Something other than the checksum after the last `*`. -/
  | corrupted (a b : Str) (hs : s = a ++ '*' :: b) (hb : '*' ∉ b) (hne : b ≠ []) (hbad : b ≠ checksumText a) :
      Reply env m s (.err (.corruptedSentence (c! "Corrupted NMEA sentence: \"" ++ checksumText a ++ c! "\" != \"" ++
        b.flatMap (shownChar env.escape) ++ c! "\""))) m
  /-- No comma. -/
  | noComma (body : Str) (e : Ending) (hf : Framed body e) (hs : s = finish body e) (hc : ',' ∉ body) :
      Reply env m s (invalid (c! "Invalid NMEA sentence: " ++ body)) m
  /-- A tag that is too short, or cut inside a character. -/
  | badTag (ty rest : Str) (e : Ending) (hf : Framed (ty ++ ',' :: rest) e) (hs : s = finish (ty ++ ',' :: rest) e)
      (hc : ',' ∉ ty) (hb : BadTag ty) : Reply env m s .panic m
  /-- A tag of another form. -/
  | oddTag (ty rest : Str) (e : Ending) (hf : Framed (ty ++ ',' :: rest) e) (hs : s = finish (ty ++ ',' :: rest) e)
      (hc : ',' ∉ ty) (ho : OddTag ty) : Reply env m s (unsupported (c! "Unsupported sentence type: " ++ ty)) m
  /-- A `$` sentence of another kind. -/
  | otherGnss (talker kind : Str) (fs : List Str) (hk : byteLen kind = 3) (hc : ',' ∉ kind) (h : IsGnss talker kind fs s)
      (hn : kind ∉ [c! "GGA", c! "RMC", c! "GSA", c! "GSV", c! "VTG", c! "GLL"]) :
      Reply env m s (unsupported (refuseKind kind)) m
  /-- A `!` sentence of another kind. -/
  | otherAis (talker kind : Str) (fs : List Str) (hk : byteLen kind = 3) (hc : ',' ∉ kind) (h : IsTagged '!' talker kind fs s)
      (hn : kind ∉ [c! "VDM", c! "VDO"]) : Reply env m s (unsupported (c! "Unsupported sentence type: !" ++ kind)) m
  -- GNSS sentences
  /-- A field that cannot be read. -/
  | fault (talker kind : Str) (fs : List Str) (l : List (Prop × Str)) (t : Str) (h : IsGnss talker kind fs s)
      (hl : (kind, l) ∈ faults fs) (ht : TimeReadable env.now kind fs) (hm : FirstFault l t) : Reply env m s (invalid t) m
  /-- No time can be read in a GGA sentence. -/
  | ggaTime (talker : Str) (fs : List Str) (h : IsGnss talker (c! "GGA") fs s)
      (ht : ∀ t, ¬ TimeField env.now (field fs 0) t) : Reply env m s .panic m
  /-- Date and time of an RMC sentence are numbers, but no date and time. -/
  | rmcTime (talker : Str) (fs : List Str) (h : IsGnss talker (c! "RMC") fs s)
      (ht : ∀ t, ¬ DateTimeField env.now (field fs 8) (field fs 0) t) : Reply env m s .panic m
  /-- No time can be read in a GLL sentence with a readable position. -/
  | gllTime (talker : Str) (fs : List Str) (h : IsGnss talker (c! "GLL") fs s) (hr : GllReadable fs)
      (ht : ∀ t, ¬ TimeField env.now (field fs 4) t) : Reply env m s .panic m
  | gga (talker : Str) (fs : List Str) (d : GgaData) (h : IsGnss talker (c! "GGA") fs s) (hd : GgaSays env.now talker fs d) :
      Reply env m s (.ok (.gga d)) m
  | rmc (talker : Str) (fs : List Str) (d : RmcData) (h : IsGnss talker (c! "RMC") fs s) (hd : RmcSays env.now talker fs d) :
      Reply env m s (.ok (.rmc d)) m
  | gsa (talker : Str) (fs : List Str) (d : GsaData) (h : IsGnss talker (c! "GSA") fs s) (hd : GsaSays talker fs d) :
      Reply env m s (.ok (.gsa d)) m
  | vtg (talker : Str) (fs : List Str) (d : VtgData) (h : IsGnss talker (c! "VTG") fs s) (hd : VtgSays talker fs d) :
      Reply env m s (.ok (.vtg d)) m
  | gll (talker : Str) (fs : List Str) (d : GllData) (h : IsGnss talker (c! "GLL") fs s) (hd : GllSays env.now talker fs d) :
      Reply env m s (.ok (.gll d)) m
  /-- A GSV sentence is remembered while another one of 1..n is missing. -/
  | gsvWaits (talker : Str) (n k j : Nat) (fs : List Str) (h : GsvPart talker n k fs s) (hn : n < 2 ^ 32 - 1)
      (hj : 1 ≤ j ∧ j ≤ n ∧ j ≠ k) (hw : m.gsv talker n j = none) :
      Reply env m s (.ok .incomplete) (m.setGsv talker n k fs)
  /-- The last one of 1..n: the satellites in order, and the group is forgotten. -/
  | gsvDone (talker : Str) (n k : Nat) (fs : List Str) (h : GsvPart talker n k fs s) (hn : n < 2 ^ 32 - 1)
      (hw : ∀ j, 1 ≤ j → j ≤ n → j ≠ k → m.gsv talker n j ≠ none) :
      Reply env m s (.ok (.gsv ((List.range' 1 n).flatMap fun j =>
          satellites (talkerSystem talker) (((m.setGsv talker n k fs).gsv talker n j).getD []))))
        ((m.setGsv talker n k fs).clearGsv talker n)
  /-- The largest count: remembered (and the call panics with overflow checks). -/
  | gsvHuge (talker : Str) (k : Nat) (fs : List Str) (h : GsvPart talker (2 ^ 32 - 1) k fs s) :
      Reply env m s (if env.overflowChecks then .panic else .ok .incomplete) (m.setGsv talker (2 ^ 32 - 1) k fs)
  -- AIS sentences
  /-- No fragment count. -/
  | badCount (talker : Str) (own : Bool) (fs : List Str) (h : IsAis talker own fs s) (hn : ∀ n, ¬ Dec 255 (field fs 0) n) :
      Reply env m s (invalid (c! "Failed to parse fragment count: " ++ field fs 0)) m
  /-- No fragment number. -/
  | badNumber (talker : Str) (own : Bool) (fs : List Str) (n : Nat) (h : IsAis talker own fs s) (h0 : Dec 255 (field fs 0) n)
      (hl : 2 ≤ fs.length) (hn : ∀ k, ¬ Dec 255 (field fs 1) k) :
      Reply env m s (invalid (c! "Failed to parse fragment count: " ++ field fs 1)) m
  /-- Nothing after the fragment count. -/
  | countOnly (talker f : Str) (own : Bool) (n : Nat) (h : IsAis talker own [f] s) (h0 : Dec 255 f n) :
      Reply env m s
        (if n = 1 then unsupported (c! "Unsupported !" ++ aisKind own ++ c! " message type: 0") else .ok .incomplete) m
  /-- A fragment that is not assembled. -/
  | otherFragment (talker : Str) (own : Bool) (fs : List Str) (n k : Nat) (h : IsAis talker own fs s)
      (h0 : Dec 255 (field fs 0) n) (h1 : Dec 255 (field fs 1) k) (hn : n ≠ 1)
      (h2 : n = 2 → (∀ id, ¬ Dec (2 ^ 64 - 1) (field fs 2) id) ∨ k ≠ 1 ∧ k ≠ 2) : Reply env m s (.ok .incomplete) m
  /-- A message in one sentence. -/
  | single (talker : Str) (own : Bool) (payload : Str) (a : Answer) (m' : Memory) (h : Single talker own payload s)
      (hm : MessageReply env m talker own payload a m') : Reply env m s a m'
  /-- A part of two is remembered while the other one is missing. -/
  | part (talker : Str) (own : Bool) (num id : Nat) (chan payload : Str) (h : Part talker own num id chan payload s)
      (hn : num = 1 ∨ num = 2) (hw : ∀ x, m.part own id chan ≠ some (3 - num, x)) :
      Reply env m s (.ok .incomplete) (m.setPart own id chan (some (num, payload)))
  /-- Part 1 after part 2. -/
  | part1 (talker : Str) (own : Bool) (id : Nat) (chan x y : Str) (a : Answer) (m' : Memory)
      (h : Part talker own 1 id chan x s) (hw : m.part own id chan = some (2, y))
      (hm : MessageReply env (m.setPart own id chan none) talker own (x ++ y) a m') : Reply env m s a m'
  /-- Part 2 after part 1. -/
  | part2 (talker : Str) (own : Bool) (id : Nat) (chan x y : Str) (a : Answer) (m' : Memory)
      (h : Part talker own 2 id chan y s) (hw : m.part own id chan = some (1, x))
      (hm : MessageReply env (m.setPart own id chan none) talker own (x ++ y) a m') : Reply env m s a m'

/-- A history: the answers, from one memory to another. -/
inductive Dialogue : Memory → List (Env × Str) → List Answer → Memory → Prop where
  | nil (m : Memory) : Dialogue m [] [] m
  | cons {m m' m'' : Memory} {env : Env} {s : Str} {h : List (Env × Str)} {a : Answer} {as : List Answer}
      (h1 : Reply env m s a m') (h2 : Dialogue m' h as m'') : Dialogue m ((env, s) :: h) (a :: as) m''

end Nmea.Spec
