/-
Specification of the two sides of the equator and of the meridian.
-/
import Verif.Spec.Gnss

namespace Nmea.Spec

/-- The same report with the position on the other side of the equator, of the meridian of Greenwich, or of both. -/
def mirrored (equator meridian : Bool) : ParsedSentence → ParsedSentence
  | .gga d => .gga { d with
      latitude := d.latitude.map (signedF64 equator), longitude := d.longitude.map (signedF64 meridian) }
  | .rmc d => .rmc { d with
      latitude := d.latitude.map (signedF64 equator), longitude := d.longitude.map (signedF64 meridian) }
  | .gll d => .gll { d with
      latitude := d.latitude.map (signedF64 equator), longitude := d.longitude.map (signedF64 meridian) }
  | r => r

/-- Exactly one of the two texts is this letter. -/
def oneIs (c : Char) (s t : Str) : Bool := decide (s = [c]) ^^ decide (t = [c])

end Nmea.Spec
