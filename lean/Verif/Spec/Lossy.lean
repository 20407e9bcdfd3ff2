/-
Specification of a link on which sentences get lost or damaged.
-/
import Verif.Spec.Traffic

namespace Nmea.Spec

/-- A sentence that is refused: one with a wrong checksum (damaged on the way), without a comma, with another tag than
those of the supported sentences, or with an AIS message of another type. -/
inductive Noise : Str → Prop where
  | damaged {a b : Str} (hs : '*' ∉ b) (hne : b ≠ []) (hb : b ≠ checksumText a) : Noise (a ++ '*' :: b)
  | noComma {body : Str} {e : Ending} (hf : Framed body e) (hc : ',' ∉ body) : Noise (finish body e)
  | otherGnss {talker kind : Str} {fs : List Str} {s : Str} (hk : byteLen kind = 3) (hc : ',' ∉ kind)
      (h : IsGnss talker kind fs s) (hn : kind ∉ gnssKinds) : Noise s
  | otherAis {talker kind : Str} {fs : List Str} {s : Str} (hk : byteLen kind = 3) (hc : ',' ∉ kind)
      (h : IsTagged '!' talker kind fs s) (hn : kind ≠ c! "VDM" ∧ kind ≠ c! "VDO") : Noise s
  | oddTag {ty rest : Str} {e : Ending} (hf : Framed (ty ++ ',' :: rest) e) (hc : ',' ∉ ty) (ho : OddTag ty) :
      Noise (finish (ty ++ ',' :: rest) e)
  | otherType {talker : Str} {own : Bool} {bits : List Bool} {s : Str} (h : Single talker own (armor bits) s)
      (ht : typeOf bits ∉ supportedTypes) : Noise s

/-- What occupies a slot. -/
inductive Occupant where
  /-- a source in transit, of which everything has arrived but these sentences; `fresh`: nothing was left behind in the
  slot when it started -/
  | coming (rest : List (Env × Str)) (x : Source) (fresh : Bool)
  /-- a source that has lost a sentence, of which these sentences are still to come -/
  | spoiled (rest : List (Env × Str))

/-- Put something into a slot, or empty it. -/
def put (o : Slot → Option Occupant) (k : Slot) (v : Option Occupant) : Slot → Option Occupant :=
  fun j => if j = k then v else o j

/-- Sentences arriving on a link on which sentences get lost and noise is heard, and the sources that arrive completely, in
the order in which their last sentences arrive. (Of a source that is lost altogether nothing is noticed.) A slot is used
by another source when the one before has arrived completely. It may also be used again when the one before has lost its
last sentences (unless these are static data reports), but then no sentence of the new one other than its last ones may get
lost. After any other loss the slot is not used any more.
The clock may show anything but when a source arrives completely. -/
inductive Lossy : (Slot → Option Occupant) → List (Env × Str) → List Source → Prop where
  | done {o} : Lossy o [] []
  /-- noise -/
  | noise {o env s h l} (hs : Noise s) (ht : Lossy o h l) : Lossy o ((env, s) :: h) l
  /-- a source of one sentence -/
  | one {o s h l} {x : Source} (hx : x.Fits) (hs : x.sentences = [s]) (hf : ∀ k ∈ x.slot, o k = none) (ht : Lossy o h l) :
      Lossy o (s :: h) (x :: l)
  /-- the first sentence of a source of several -/
  | start {o k env s t rest h l} {x : Source} (hx : x.Fits) (hs : x.sentences = s :: t :: rest) (hk : x.slot = some k) (hf : o k = none)
      (ht : Lossy (put o k (some (.coming (t :: rest) x true))) h l) : Lossy o ((env, s.2) :: h) l
  /-- another sentence of a source in transit -/
  | more {o x k env s t rest b h l} (ho : o k = some (.coming (s :: t :: rest) x b))
      (ht : Lossy (put o k (some (.coming (t :: rest) x b))) h l) : Lossy o ((env, s.2) :: h) l
  /-- the last sentence of a source in transit -/
  | last {o x k s b h l} (ho : o k = some (.coming [s] x b)) (ht : Lossy (put o k none) h l) : Lossy o (s :: h) (x :: l)
  /-- the rest of a source is lost, and the next one starts -/
  | restart {o k env s t rest lost b h l} {x y : Source} (ho : o k = some (.coming lost y b)) (hn : ∀ i, k ≠ .static i) (hx : x.Fits)
      (hs : x.sentences = s :: t :: rest) (hk : x.slot = some k)
      (ht : Lossy (put o k (some (.coming (t :: rest) x false))) h l) : Lossy o ((env, s.2) :: h) l
  /-- the first sentence of a source is lost -/
  | lostFirst {o k s rest h l} {x : Source} (hx : x.Fits) (hs : x.sentences = s :: rest) (hk : x.slot = some k) (hf : o k = none)
      (ht : Lossy (put o k (some (.spoiled rest))) h l) : Lossy o h l
  /-- another sentence of a source is lost -/
  | lostNext {o x k s rest h l} (ho : o k = some (.coming (s :: rest) x true))
      (ht : Lossy (put o k (some (.spoiled rest))) h l) : Lossy o h l
  /-- yet another sentence is lost -/
  | lostMore {o k s rest h l} (ho : o k = some (.spoiled (s :: rest))) (ht : Lossy (put o k (some (.spoiled rest))) h l) :
      Lossy o h l
  /-- a sentence of a source that has lost one -/
  | useless {o k env s rest h l} (ho : o k = some (.spoiled (s :: rest))) (ht : Lossy (put o k (some (.spoiled rest))) h l) :
      Lossy o ((env, s.2) :: h) l

/-- The answers other than errors and "incomplete". -/
def heard : List Answer → List Answer
  | [] => []
  | .ok .incomplete :: l => heard l
  | .err _ :: l => heard l
  | a :: l => a :: heard l

end Nmea.Spec
