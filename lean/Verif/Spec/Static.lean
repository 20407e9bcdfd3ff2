/-
Specification of type 24 messages (static data report): contents of part A and part B, and their combination.
-/
import Verif.Spec.Ais
import Verif.Spec.Codes

namespace Nmea.Spec

/-- Unsigned field. -/
def num (bits : List Bool) (i len : Nat) : Nat := bitsVal (window bits i len)

/-- Character of a six-bit code. -/
def codeChar (v : Nat) : Char := Char.ofNat (if v < 32 then v + 64 else v)

/-- Without trailing blanks. -/
def stripBlanks (s : Str) : Str := (s.reverse.dropWhile (· = ' ')).reverse

/-- Text field of `n` six-bit characters: up to the first `@` (code 0), without trailing blanks. -/
def fieldText (bits : List Bool) (i n : Nat) : Str :=
  stripBlanks ((((List.range n).map (fun k => num bits (i + k * 6) 6)).takeWhile (· ≠ 0)).map codeChar)

/-- An empty text is reported as absent. -/
def optText (s : Str) : Option Str := if s = [] then none else some s

/-- A class B report with only the sender. -/
def blankStatic (own : Bool) (mmsi : Nat) : VesselStaticData :=
  { ownVessel := own, aisType := .classB, mmsi := mmsi, aisVersionIndicator := 0, imoNumber := none,
    callSign := none, name := none, shipType := .notAvailable, cargoType := .undefined,
    equipmentVendorId := none, equipmentModel := none, equipmentSerialNumber := none,
    dimensionToBow := none, dimensionToStern := none, dimensionToPort := none, dimensionToStarboard := none,
    positionFixType := none, eta := none, draught10 := none, destination := none, mothershipMmsi := none }

/-- Name in part A. (Everything after bit 40 counts as name; the standard reserves 20 characters.) -/
def partAName (bits : List Bool) : Option Str := optText (fieldText bits 40 120)

/-- Contents of part A. -/
def partAData (own : Bool) (bits : List Bool) : VesselStaticData :=
  { blankStatic own (mmsiOf bits) with name := partAName bits }

/-- Contents of part B: type, vendor, model, serial number, call sign, dimensions; the bits of the dimensions
are reported as mothership MMSI too. -/
def partBData (own : Bool) (bits : List Bool) : VesselStaticData :=
  { blankStatic own (mmsiOf bits) with
    shipType := reportedShip (num bits 40 8)
    cargoType := cargoOf (num bits 40 8)
    equipmentVendorId := some (fieldText bits 48 3)
    equipmentModel := some (num bits 66 4)
    equipmentSerialNumber := some (num bits 70 20)
    callSign := optText (fieldText bits 90 7)
    dimensionToBow := some (num bits 132 9)
    dimensionToStern := some (num bits 141 9)
    dimensionToPort := some (num bits 150 6)
    dimensionToStarboard := some (num bits 156 6)
    mothershipMmsi := some (num bits 132 30) }

/-- Contents of a part. -/
def partData (own : Bool) (bits : List Bool) : VesselStaticData :=
  if partOf bits = 0 then partAData own bits else partBData own bits

/-- Part A (name) and part B (everything else) together. -/
def fullStatic (own : Bool) (a b : List Bool) : VesselStaticData :=
  { partBData own b with name := partAName a }

/-- Item by item the later content, or the earlier one where the later content has none. -/
def overlay (later earlier : VesselStaticData) : VesselStaticData :=
  { later with
    callSign := later.callSign.or earlier.callSign
    name := later.name.or earlier.name
    shipType := if later.shipType = .notAvailable then earlier.shipType else later.shipType
    cargoType := if later.cargoType = .undefined then earlier.cargoType else later.cargoType
    equipmentVendorId := later.equipmentVendorId.or earlier.equipmentVendorId
    equipmentModel := later.equipmentModel.or earlier.equipmentModel
    equipmentSerialNumber := later.equipmentSerialNumber.or earlier.equipmentSerialNumber
    dimensionToBow := later.dimensionToBow.or earlier.dimensionToBow
    dimensionToStern := later.dimensionToStern.or earlier.dimensionToStern
    dimensionToPort := later.dimensionToPort.or earlier.dimensionToPort
    dimensionToStarboard := later.dimensionToStarboard.or earlier.dimensionToStarboard
    mothershipMmsi := later.mothershipMmsi.or earlier.mothershipMmsi }

end Nmea.Spec
