/-
Specification: where each value of a report comes from.
-/
import Verif.Spec.Values

namespace Nmea.Spec

/-- A value of a report. -/
structure Value where
  {Kind : Type}
  read : ParsedSentence → Kind

section
variable {α : Type}
/-- A value of a dynamic report. -/
def dyn (f : VesselDynamicData → α) : Value := ⟨fun r => match r with | .vesselDynamicData d => some (f d) | _ => none⟩
/-- A value of a static report. -/
def stat (f : VesselStaticData → α) : Value := ⟨fun r => match r with | .vesselStaticData d => some (f d) | _ => none⟩
/-- A value of a base station report. -/
def base (f : BaseStationReport → α) : Value := ⟨fun r => match r with | .baseStationReport d => some (f d) | _ => none⟩
/-- A value of an addressed message. -/
def addr (f : BinaryAddressedMessage → α) : Value :=
  ⟨fun r => match r with | .binaryAddressedMessage d => some (f d) | _ => none⟩
/-- A value of an aircraft report. -/
def sar (f : StandardSarAircraftPositionReport → α) : Value :=
  ⟨fun r => match r with | .standardSarAircraftPositionReport d => some (f d) | _ => none⟩
/-- A value of an inquiry. -/
def inq (f : UtcDateInquiry → α) : Value := ⟨fun r => match r with | .utcDateInquiry d => some (f d) | _ => none⟩
/-- A value of an aid to navigation report. -/
def aton (f : AidToNavigationReport → α) : Value :=
  ⟨fun r => match r with | .aidToNavigationReport d => some (f d) | _ => none⟩
/-- A value of a GGA report. -/
def ofGga (f : GgaData → α) : Value := ⟨fun r => match r with | .gga d => some (f d) | _ => none⟩
/-- A value of an RMC report. -/
def ofRmc (f : RmcData → α) : Value := ⟨fun r => match r with | .rmc d => some (f d) | _ => none⟩
/-- A value of a GSA report. -/
def ofGsa (f : GsaData → α) : Value := ⟨fun r => match r with | .gsa d => some (f d) | _ => none⟩
/-- A value of a VTG report. -/
def ofVtg (f : VtgData → α) : Value := ⟨fun r => match r with | .vtg d => some (f d) | _ => none⟩
/-- A value of a GLL report. -/
def ofGll (f : GllData → α) : Value := ⟨fun r => match r with | .gll d => some (f d) | _ => none⟩
end

/-- The values of the report of a message of the type, each with the bit fields (first bit, width) it may depend on. -/
def bitSources (type : Nat) : List (Value × List (Nat × Nat)) :=
  if type = 1 ∨ type = 2 ∨ type = 3 then
    [(dyn (·.ownVessel), []), (dyn (·.station), []), (dyn (·.aisType), []), (dyn (·.mmsi), [(8, 30)]),
     (dyn (·.navStatus), [(38, 4)]), (dyn (·.rot), [(42, 8)]), (dyn (·.rotDirection), [(42, 8)]),
     (dyn (·.sogKnots), [(50, 10)]), (dyn (·.highPositionAccuracy), [(60, 1)]), (dyn (·.longitude), [(61, 28)]),
     (dyn (·.latitude), [(89, 27)]), (dyn (·.cog), [(116, 12)]), (dyn (·.headingTrue), [(128, 9)]),
     (dyn (·.timestampSeconds), [(137, 6)]), (dyn (·.positioningSystemMeta), [(137, 6)]),
     (dyn (·.currentGnssPosition), []), (dyn (·.specialManoeuvre), [(143, 2)]), (dyn (·.raimFlag), [(148, 1)]),
     (dyn (·.classBUnitFlag), []), (dyn (·.classBDisplay), []), (dyn (·.classBDsc), []), (dyn (·.classBBandFlag), []),
     (dyn (·.classBMsg22Flag), []), (dyn (·.classBModeFlag), []), (dyn (·.classBCssFlag), []),
     (dyn (·.radioStatus), [(149, 19)])]
  else if type = 4 then
    [(base (·.ownVessel), []), (base (·.station), []), (base (·.mmsi), [(8, 30)]),
     (base (·.timestamp), [(38, 14), (52, 4), (56, 5), (61, 5), (66, 6), (72, 6)]),
     (base (·.highPositionAccuracy), [(78, 1)]), (base (·.longitude), [(79, 28)]), (base (·.latitude), [(107, 27)]),
     (base (·.positionFixType), [(134, 4)]), (base (·.raimFlag), [(148, 1)]), (base (·.radioStatus), [(149, 19)])]
  else if type = 5 then
    [(stat (·.ownVessel), []), (stat (·.aisType), []), (stat (·.mmsi), [(8, 30)]),
     (stat (·.aisVersionIndicator), [(38, 2)]), (stat (·.imoNumber), [(40, 30)]), (stat (·.callSign), [(70, 6 * 7)]),
     (stat (·.name), [(112, 6 * 20)]), (stat (·.shipType), [(232, 8)]), (stat (·.cargoType), [(232, 8)]),
     (stat (·.equipmentVendorId), []), (stat (·.equipmentModel), []), (stat (·.equipmentSerialNumber), []),
     (stat (·.dimensionToBow), [(240, 9)]), (stat (·.dimensionToStern), [(249, 9)]), (stat (·.dimensionToPort), [(258, 6)]),
     (stat (·.dimensionToStarboard), [(264, 6)]), (stat (·.positionFixType), [(270, 4)]),
     -- the last of these is part of the draught
     (stat (·.eta), [(274, 4), (278, 5), (283, 5), (288, 6), (294, 6)]),
     (stat (·.draught10), [(294, 8)]), (stat (·.destination), [(302, 6 * 20)]), (stat (·.mothershipMmsi), [])]
  else if type = 6 then
    [(addr (·.ownVessel), []), (addr (·.station), []), (addr (·.mmsi), [(8, 30)]), (addr (·.sequenceNumber), [(38, 2)]),
     (addr (·.destinationMmsi), [(40, 30)]), (addr (·.retransmitFlag), [(70, 1)]), (addr (·.dac), [(72, 10)]),
     (addr (·.fid), [(82, 6)])]
  else if type = 9 then
    [(sar (·.ownVessel), []), (sar (·.station), []), (sar (·.mmsi), [(8, 30)]), (sar (·.altitude), [(38, 12)]),
     (sar (·.sogKnots), [(50, 10)]), (sar (·.highPositionAccuracy), [(60, 1)]), (sar (·.longitude), [(61, 28)]),
     (sar (·.latitude), [(89, 27)]), (sar (·.cog), [(116, 12)]), (sar (·.timestampSeconds), [(128, 6)]),
     (sar (·.regional), [(134, 8)]), (sar (·.dte), [(142, 1)]), (sar (·.assigned), [(146, 1)]),
     (sar (·.raimFlag), [(147, 1)]), (sar (·.radioStatus), [(148, 20)])]
  else if type = 10 then
    [(inq (·.ownVessel), []), (inq (·.station), []), (inq (·.sourceMmsi), [(8, 30)]), (inq (·.destinationMmsi), [(40, 30)])]
  else if type = 18 then
    [(dyn (·.ownVessel), []), (dyn (·.station), []), (dyn (·.aisType), []), (dyn (·.mmsi), [(8, 30)]),
     (dyn (·.navStatus), []), (dyn (·.rot), []), (dyn (·.rotDirection), []), (dyn (·.sogKnots), [(46, 10)]),
     (dyn (·.highPositionAccuracy), [(56, 1)]), (dyn (·.longitude), [(57, 28)]), (dyn (·.latitude), [(85, 27)]),
     (dyn (·.cog), [(112, 12)]), (dyn (·.headingTrue), [(124, 9)]), (dyn (·.timestampSeconds), [(133, 6)]),
     (dyn (·.positioningSystemMeta), []), (dyn (·.currentGnssPosition), []), (dyn (·.specialManoeuvre), []),
     -- the display flag
     (dyn (·.raimFlag), [(141, 1)]),
     (dyn (·.classBUnitFlag), []), (dyn (·.classBDisplay), [(141, 1)]), (dyn (·.classBDsc), [(142, 1)]),
     (dyn (·.classBBandFlag), [(143, 1)]), (dyn (·.classBMsg22Flag), [(144, 1)]), (dyn (·.classBModeFlag), [(145, 1)]),
     (dyn (·.classBCssFlag), []), (dyn (·.radioStatus), [(149, 19)])]
  else if type = 21 then
    [(aton (·.ownVessel), []), (aton (·.station), []), (aton (·.mmsi), [(8, 30)]), (aton (·.aidType), [(38, 5)]),
     (aton (·.name), [(43, 6 * 20), (272, 6 * 14)]), (aton (·.highPositionAccuracy), [(163, 1)]),
     (aton (·.longitude), [(164, 28)]), (aton (·.latitude), [(192, 27)]), (aton (·.dimensionToBow), [(219, 9)]),
     (aton (·.dimensionToStern), [(228, 9)]), (aton (·.dimensionToPort), [(237, 6)]),
     (aton (·.dimensionToStarboard), [(243, 6)]), (aton (·.positionFixType), [(249, 4)]),
     (aton (·.timestampSeconds), [(253, 6)]),
     -- part of the dimension to starboard
     (aton (·.offPositionIndicator), [(243, 1)]),
     (aton (·.regional), [(260, 8)]), (aton (·.raimFlag), [(268, 1)]), (aton (·.virtualAidFlag), [(269, 1)]),
     (aton (·.assignedModeFlag), [(270, 1)])]
  else if type = 27 then
    [(dyn (·.ownVessel), []), (dyn (·.station), []), (dyn (·.aisType), []), (dyn (·.mmsi), [(8, 30)]),
     (dyn (·.navStatus), [(40, 4)]), (dyn (·.rot), []), (dyn (·.rotDirection), []),
     -- speed, course and the GNSS flag are read from the longitude
     (dyn (·.sogKnots), [(62, 6)]), (dyn (·.highPositionAccuracy), [(38, 1)]), (dyn (·.longitude), [(62, 17)]),
     (dyn (·.latitude), [(44, 18)]), (dyn (·.cog), [(62, 17)]), (dyn (·.headingTrue), []),
     (dyn (·.timestampSeconds), []), (dyn (·.positioningSystemMeta), []), (dyn (·.currentGnssPosition), [(62, 1)]),
     (dyn (·.specialManoeuvre), []), (dyn (·.raimFlag), [(39, 1)]),
     (dyn (·.classBUnitFlag), []), (dyn (·.classBDisplay), []), (dyn (·.classBDsc), []), (dyn (·.classBBandFlag), []),
     (dyn (·.classBMsg22Flag), []), (dyn (·.classBModeFlag), []), (dyn (·.classBCssFlag), []), (dyn (·.radioStatus), [])]
  else []

/-- The values of the report of a GNSS sentence, each with the fields it may depend on (0 is the field after the tag). -/
def fieldSources (kind : Str) : List (Value × List Nat) :=
  if kind = c! "GGA" then
    [(ofGga (·.source), []), (ofGga (·.timestamp), [0]), (ofGga (·.latitude), [1, 2]), (ofGga (·.longitude), [3, 4]),
     (ofGga (·.quality), [5]), (ofGga (·.satelliteCount), [6]), (ofGga (·.hdop), [7]), (ofGga (·.altitude), [8]),
     (ofGga (·.geoidSeparation), [10]), (ofGga (·.ageOfDgps), [12]), (ofGga (·.refStationId), [13])]
  else if kind = c! "RMC" then
    [(ofRmc (·.source), []), (ofRmc (·.timestamp), [0, 8]), (ofRmc (·.statusActive), [1]), (ofRmc (·.latitude), [2, 3]),
     (ofRmc (·.longitude), [4, 5]), (ofRmc (·.sogKnots), [6]), (ofRmc (·.bearing), [7]), (ofRmc (·.variation), [9, 10])]
  else if kind = c! "GSA" then
    [(ofGsa (·.source), []), (ofGsa (·.mode1Automatic), [0]), (ofGsa (·.mode2_3d), [1]),
     (ofGsa (·.prnNumbers), [2, 3, 4, 5, 6, 7, 8, 9, 10, 11, 12, 13]), (ofGsa (·.pdop), [14]), (ofGsa (·.hdop), [15]),
     (ofGsa (·.vdop), [16])]
  else if kind = c! "VTG" then
    [(ofVtg (·.source), []), (ofVtg (·.cogTrue), [0]), (ofVtg (·.cogMagnetic), [2]), (ofVtg (·.sogKnots), [4]),
     (ofVtg (·.sogKph), [6]), (ofVtg (·.faaMode), [8])]
  else if kind = c! "GLL" then
    [(ofGll (·.source), []), (ofGll (·.latitude), [0, 1]), (ofGll (·.longitude), [2, 3]), (ofGll (·.timestamp), [4]),
     (ofGll (·.dataValid), [5]), (ofGll (·.faaMode), [6])]
  else []

end Nmea.Spec
