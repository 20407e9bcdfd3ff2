/-
Specification of the size of what a parser keeps, in bytes.
-/
import Verif.Spec.History

namespace Nmea.Spec

/-- The bytes of all pending texts and of the keys they are kept under. -/
def textBytes (p : Parser) : Nat := (p.savedFragments.items.map fun x => byteLen x.1 + byteLen x.2).sum

/-- The bytes of the texts of static data. -/
def staticBytes (v : VesselStaticData) : Nat :=
  (([v.callSign, v.name, v.equipmentVendorId, v.destination].map fun x => byteLen (x.getD []))).sum

end Nmea.Spec
