/-
Model of the data types of src/gnss/*.rs and of `ParsedSentence` (src/lib.rs).
-/
import Verif.Model.AisTypes

namespace Nmea

/-- src/gnss/mod.rs:44-68. -/
inductive NavigationSystem where
  | combination | gps | glonass | galileo | beidou | navic | qzss | other
  deriving DecidableEq, Repr

/-- src/gnss/mod.rs:89-104. -/
inductive FaaMode where
  | autonomous | differential | estimated | notValid | simulator
  deriving DecidableEq, Repr

/-- src/gnss/mod.rs:107-115 `FaaMode::new`. -/
def FaaMode.new (val : Str) : Out Str FaaMode :=
  if val = c! "A" then .ok .autonomous
  else if val = c! "D" then .ok .differential
  else if val = c! "E" then .ok .estimated
  else if val = c! "N" then .ok .notValid
  else .err (c! "Unrecognized FAA information value: " ++ val)

/-- src/gnss/mod.rs:118-129 `Display for FaaMode`. -/
def FaaMode.display : FaaMode → Str
  | .autonomous => c! "A"
  | .differential => c! "D"
  | .estimated => c! "E"
  | .notValid => c! "N"
  | .simulator => c! "?"

/-- src/gnss/gga.rs:68-78. -/
inductive GgaQualityIndicator where
  | invalid | gpsFix | dGpsFix | ppsFix | realTimeKinematic | realTimeKinematicFloat
  | deadReckoning | manualInputMode | simulationMode
  deriving DecidableEq, Repr

/-- src/gnss/gga.rs:81-94 `GgaQualityIndicator::new`. -/
def GgaQualityIndicator.new (a : Nat) : GgaQualityIndicator :=
  match a with
  | 0 => .invalid
  | 1 => .gpsFix
  | 2 => .dGpsFix
  | 3 => .ppsFix
  | 4 => .realTimeKinematic
  | 5 => .realTimeKinematicFloat
  | 6 => .deadReckoning
  | 7 => .manualInputMode
  | 8 => .simulationMode
  | _ => .invalid

/-- src/gnss/gga.rs:21-54. -/
structure GgaData where
  source : NavigationSystem
  timestamp : Option DateTime
  latitude : Option F64
  longitude : Option F64
  quality : GgaQualityIndicator
  satelliteCount : Option Nat
  hdop : Option F64
  altitude : Option F64
  geoidSeparation : Option F64
  ageOfDgps : Option F64
  refStationId : Option Nat
  deriving DecidableEq, Repr

/-- src/gnss/rmc.rs:20-44. -/
structure RmcData where
  source : NavigationSystem
  timestamp : Option DateTime
  statusActive : Option Bool
  latitude : Option F64
  longitude : Option F64
  sogKnots : Option F64
  bearing : Option F64
  variation : Option F64
  deriving DecidableEq, Repr

/-- src/gnss/gsa.rs:44-53. -/
inductive GsaFixMode where
  | notAvailable | fix2D | fix3D
  deriving DecidableEq, Repr

/-- src/gnss/gsa.rs:19-40. -/
structure GsaData where
  source : NavigationSystem
  mode1Automatic : Option Bool
  mode2_3d : Option GsaFixMode
  prnNumbers : List Nat
  pdop : Option F64
  hdop : Option F64
  vdop : Option F64
  deriving DecidableEq, Repr

/-- src/gnss/gsv.rs:20-35. -/
structure GsvData where
  source : NavigationSystem
  prnNumber : Nat
  elevation : Option Nat
  azimuth : Option Nat
  snr : Option Nat
  deriving DecidableEq, Repr

/-- src/gnss/vtg.rs:20-38. -/
structure VtgData where
  source : NavigationSystem
  cogTrue : Option F64
  cogMagnetic : Option F64
  sogKnots : Option F64
  sogKph : Option F64
  faaMode : Option FaaMode
  deriving DecidableEq, Repr

/-- src/gnss/gll.rs:20-38. -/
structure GllData where
  source : NavigationSystem
  latitude : Option F64
  longitude : Option F64
  timestamp : Option DateTime
  dataValid : Option Bool
  faaMode : Option FaaMode
  deriving DecidableEq, Repr

/-- src/lib.rs:47-96 `ParsedSentence`. -/
inductive ParsedSentence where
  | incomplete
  | vesselDynamicData (d : VesselDynamicData)
  | vesselStaticData (d : VesselStaticData)
  | baseStationReport (d : BaseStationReport)
  | binaryAddressedMessage (d : BinaryAddressedMessage)
  | standardSarAircraftPositionReport (d : StandardSarAircraftPositionReport)
  | utcDateInquiry (d : UtcDateInquiry)
  | aidToNavigationReport (d : AidToNavigationReport)
  | gga (d : GgaData)
  | rmc (d : RmcData)
  | gsa (d : GsaData)
  | gsv (d : List GsvData)
  | vtg (d : VtgData)
  | gll (d : GllData)
  deriving DecidableEq, Repr

end Nmea
