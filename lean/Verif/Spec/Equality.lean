/-
Specification of the equality of reports.
-/
import Verif.Model.Equality

namespace Nmea.Spec

/-- The decimals of a report. -/
def decimals : ParsedSentence → List F64
  | .vesselDynamicData d => d.rot.toList ++ d.sogKnots.toList ++ d.latitude.toList ++ d.longitude.toList ++
      d.cog.toList ++ d.headingTrue.toList
  | .baseStationReport d => d.latitude.toList ++ d.longitude.toList
  | .standardSarAircraftPositionReport d => d.latitude.toList ++ d.longitude.toList ++ d.cog.toList
  | .aidToNavigationReport d => d.latitude.toList ++ d.longitude.toList
  | .gga d => d.latitude.toList ++ d.longitude.toList ++ d.hdop.toList ++ d.altitude.toList ++
      d.geoidSeparation.toList ++ d.ageOfDgps.toList
  | .rmc d => d.latitude.toList ++ d.longitude.toList ++ d.sogKnots.toList ++ d.bearing.toList ++
      d.variation.toList
  | .gsa d => d.pdop.toList ++ d.hdop.toList ++ d.vdop.toList
  | .vtg d => d.cogTrue.toList ++ d.cogMagnetic.toList ++ d.sogKnots.toList ++ d.sogKph.toList
  | .gll d => d.latitude.toList ++ d.longitude.toList
  | _ => []

/-- A report made from AIS sentences. -/
def AisReport : ParsedSentence → Prop
  | .gga _ | .rmc _ | .gsa _ | .gsv _ | .vtg _ | .gll _ | .incomplete => False
  | _ => True

/-- Forget the sign of a zero. -/
def plainZero (x : F64) : F64 := if x = .fin true 0 then .fin false 0 else x

/-- Forget the signs of the zeros of a report. -/
def plainZeros : ParsedSentence → ParsedSentence
  | .vesselDynamicData d => .vesselDynamicData { d with
      rot := d.rot.map plainZero, sogKnots := d.sogKnots.map plainZero, latitude := d.latitude.map plainZero,
      longitude := d.longitude.map plainZero, cog := d.cog.map plainZero,
      headingTrue := d.headingTrue.map plainZero }
  | .baseStationReport d => .baseStationReport { d with
      latitude := d.latitude.map plainZero, longitude := d.longitude.map plainZero }
  | .standardSarAircraftPositionReport d => .standardSarAircraftPositionReport { d with
      latitude := d.latitude.map plainZero, longitude := d.longitude.map plainZero, cog := d.cog.map plainZero }
  | .aidToNavigationReport d => .aidToNavigationReport { d with
      latitude := d.latitude.map plainZero, longitude := d.longitude.map plainZero }
  | .gga d => .gga { d with
      latitude := d.latitude.map plainZero, longitude := d.longitude.map plainZero,
      hdop := d.hdop.map plainZero, altitude := d.altitude.map plainZero,
      geoidSeparation := d.geoidSeparation.map plainZero, ageOfDgps := d.ageOfDgps.map plainZero }
  | .rmc d => .rmc { d with
      latitude := d.latitude.map plainZero, longitude := d.longitude.map plainZero,
      sogKnots := d.sogKnots.map plainZero, bearing := d.bearing.map plainZero,
      variation := d.variation.map plainZero }
  | .gsa d => .gsa { d with
      pdop := d.pdop.map plainZero, hdop := d.hdop.map plainZero, vdop := d.vdop.map plainZero }
  | .vtg d => .vtg { d with
      cogTrue := d.cogTrue.map plainZero, cogMagnetic := d.cogMagnetic.map plainZero,
      sogKnots := d.sogKnots.map plainZero, sogKph := d.sogKph.map plainZero }
  | .gll d => .gll { d with
      latitude := d.latitude.map plainZero, longitude := d.longitude.map plainZero }
  | r => r

end Nmea.Spec
