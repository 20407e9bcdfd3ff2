/-
Specification of auxiliary craft (tenders of a ship) and of the MMSIs that are not those of ships.
-/
import Verif.Spec.Messages
import Verif.Spec.Country

namespace Nmea.Spec

/-- Type 24, part B, of an auxiliary craft: the MMSI of its mother ship is in the place of the dimensions. -/
structure CraftB where
  repeatInd : Nat
  mmsi : Nat
  ship : Nat
  vendor : Str
  model : Nat
  serial : Nat
  callSign : Str
  mother : Nat
  spare : Nat

def CraftB.Fits (m : CraftB) : Prop :=
  m.repeatInd < 4 ∧ m.mmsi < 2 ^ 30 ∧ m.ship < 256 ∧ PlainText 3 m.vendor ∧ m.model < 16 ∧ m.serial < 2 ^ 20 ∧
  PlainText 7 m.callSign ∧ m.mother < 2 ^ 30 ∧ m.spare < 64

def CraftB.bits (m : CraftB) : List Bool :=
  [natBits 6 24, natBits 2 m.repeatInd, natBits 30 m.mmsi, natBits 2 1, natBits 8 m.ship,
   textBits 3 m.vendor, natBits 4 m.model, natBits 20 m.serial, textBits 7 m.callSign, natBits 30 m.mother,
   natBits 6 m.spare].flatten

/-- Kinds of MMSIs, in decimal digits; `MID` are the maritime identification digits of a country, and `x` other digits. -/
inductive MmsiKind where
  /-- `MIDxxxxxx` -/
  | ship
  /-- `0MIDxxxxx` -/
  | group
  /-- `00MIDxxxx` -/
  | coastStation
  /-- `111MIDxxx` -/
  | aircraft
  /-- `8MIDxxxxx` -/
  | handheld
  /-- `98MIDxxxx` -/
  | craft
  /-- `99MIDxxxx` -/
  | aid
  deriving DecidableEq

/-- The MMSI of this kind with these identification digits and the number `x` in the remaining digits. -/
def MmsiKind.mmsi (k : MmsiKind) (mid x : Nat) : Nat :=
  match k with
  | .ship => mid * 1000000 + x
  | .group => mid * 100000 + x
  | .coastStation => mid * 10000 + x
  | .aircraft => 111000000 + mid * 1000 + x
  | .handheld => 800000000 + mid * 100000 + x
  | .craft => 980000000 + mid * 10000 + x
  | .aid => 990000000 + mid * 10000 + x

/-- How many numbers there are in the remaining digits. -/
def MmsiKind.numbers : MmsiKind → Nat
  | .ship => 1000000
  | .group => 100000
  | .coastStation => 10000
  | .aircraft => 1000
  | .handheld => 100000
  | .craft => 10000
  | .aid => 10000

end Nmea.Spec
