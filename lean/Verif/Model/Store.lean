/-
Model of the parser's two `HashMap`s (src/lib.rs:113-161).
-/
import Verif.Model.GnssTypes

namespace Nmea

/-- `HashMap<K, V>`: an association list; `insert` replaces, `remove` deletes, iteration order is never
observed by the crate. -/
structure KV (K V : Type) where
  items : List (K × V)
  deriving DecidableEq, Repr

namespace KV
variable {K V : Type} [DecidableEq K]

/-- `HashMap::new`. -/
def empty : KV K V := ⟨[]⟩

/-- `HashMap::get` (cloned). -/
def get (m : KV K V) (k : K) : Option V := (m.items.find? (fun p => p.1 = k)).map (·.2)

/-- The map part of `HashMap::remove`. -/
def erase (m : KV K V) (k : K) : KV K V := ⟨m.items.filter (fun p => p.1 ≠ k)⟩

/-- `HashMap::insert`. -/
def insert (m : KV K V) (k : K) (v : V) : KV K V := ⟨(k, v) :: (m.erase k).items⟩

/-- `HashMap::len`. -/
def size (m : KV K V) : Nat := m.items.length

end KV

/-- src/lib.rs:114-117 `NmeaParser`. -/
structure Parser where
  savedFragments : KV Str Str
  savedVsds : KV Nat VesselStaticData
  deriving DecidableEq, Repr

namespace Parser

/-- src/lib.rs:121-126 `NmeaParser::new`. -/
def new : Parser := ⟨KV.empty, KV.empty⟩

/-- src/lib.rs:129-131 `push_string`. -/
def pushString (p : Parser) (key value : Str) : Parser :=
  { p with savedFragments := p.savedFragments.insert key value }

/-- src/lib.rs:134-136 `pull_string`. -/
def pullString (p : Parser) (key : Str) : Option Str × Parser :=
  (p.savedFragments.get key, { p with savedFragments := p.savedFragments.erase key })

/-- src/lib.rs:139-141 `contains_key`. -/
def containsKey (p : Parser) (key : Str) : Bool := (p.savedFragments.get key).isSome

/-- src/lib.rs:144-146 `strings_count`. -/
def stringsCount (p : Parser) : Nat := p.savedFragments.size

/-- src/lib.rs:149-151 `push_vsd`. -/
def pushVsd (p : Parser) (mmsi : Nat) (vsd : VesselStaticData) : Parser :=
  { p with savedVsds := p.savedVsds.insert mmsi vsd }

/-- src/lib.rs:154-156 `pull_vsd`. -/
def pullVsd (p : Parser) (mmsi : Nat) : Option VesselStaticData × Parser :=
  (p.savedVsds.get mmsi, { p with savedVsds := p.savedVsds.erase mmsi })

/-- src/lib.rs:159-161 `vsds_count`. -/
def vsdsCount (p : Parser) : Nat := p.savedVsds.size

end Parser
end Nmea
