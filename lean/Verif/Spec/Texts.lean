/-
Specification of the printed texts (`to_string`) as functions of what the sentence transmits: code numbers, letters
and talker ids.
-/
import Verif.Spec.Tables

namespace Nmea.Spec

/-- Texts of the ship type, by the tens digit of the code. -/
def shipTensTexts : List Str :=
  [c! "(not available)", c! "(reserved)", c! "wing in ground", [], c! "high-speed craft", [], c! "passenger", c! "cargo",
   c! "cargo", c! "cargo"]

/-- Texts of the ship types 30..39. -/
def shipThirtiesTexts : List Str :=
  [c! "fishing", c! "towing", c! "towing, long", c! "dredging or underwater ops", c! "diving ops", c! "military ops",
   c! "sailing", c! "pleasure craft", c! "(reserved)", c! "(reserved)"]

/-- Texts of the ship types 50..59. -/
def shipFiftiesTexts : List Str :=
  [c! "pilot", c! "search and rescue", c! "tug", c! "port tender", c! "anti-pollution equipment", c! "law enforcement",
   c! "(local)", c! "(local)", c! "medical transport", c! "noncombatant"]

/-- Text printed for the ship type of a code. -/
def shipText (code : Nat) : Str :=
  if code / 10 = 3 then shipThirtiesTexts.getD (code % 10) []
  else if code / 10 = 5 then shipFiftiesTexts.getD (code % 10) []
  else shipTensTexts.getD (code / 10) (c! "(not available)")

/-- Text printed for the cargo type of a code. -/
def cargoText (code : Nat) : Str :=
  if code / 10 ∈ [1, 2, 4, 6, 7, 8, 9] then
    [c! "undefined", c! "hazardous category A", c! "hazardous category B", c! "hazardous category C",
     c! "hazardous category D"].getD (code % 10) (c! "(reserved)")
  else c! "undefined"

/-- Text printed for the fixing device of a code. -/
def fixText (code : Nat) : Str :=
  [c! "undefined", c! "GPS", c! "GLONASS", c! "GPS/GLONASS", c! "Loran-C", c! "Chayka",
   c! "integrated navigation system", c! "surveyed", c! "Galileo"].getD code (c! "undefined")

/-- Texts of the aid to navigation types 0..31. -/
def aidTexts : List Str :=
  [c! "not specified", c! "reference point", c! "RACON", c! "FixedStructure", c! "(reserved)", c! "light without sectors",
   c! "light with sectors", c! "leading light front", c! "leading light rear", c! "cardinal beacon, north",
   c! "cardinal beacon, east", c! "cardinal beacon, south", c! "cardinal beacon, west", c! "lateral beacon, port side",
   c! "lateral beacon, starboard side", c! "lateral beacon, preferred channel, port side",
   c! "lateral beacon, preferred channel, starboard side", c! "isolated danger beacon", c! "safe water", c! "special mark",
   c! "cardinal mark, north", c! "cardinal mark, east", c! "cardinal mark, south", c! "cardinal mark, west",
   c! "port hand mark", c! "starboard hand mark", c! "preferred channel, port side", c! "preferred channel, starboard side",
   c! "isolated danger", c! "safe water", c! "special mark", c! "light vessel"]

/-- Text printed for the state of the positioning system, by the time stamp second; none at 60. -/
def positioningText (second : Nat) : Option Str :=
  if second < 60 then some (c! "operative")
  else [none, some (c! "manual input mode"), some (c! "dead reckoning mode"), some (c! "inoperative")].getD (second - 60) none

/-- Text printed for the station of a talker id. -/
def stationText (talker : Str) : Str :=
  (List.lookup talker [(c! "AB", c! "base station"), (c! "AD", c! "dependent AIS base station"), (c! "AI", c! "mobile station"),
    (c! "AN", c! "aid to navigation station"), (c! "AR", c! "ais receiving station"), (c! "AS", c! "limited base station"),
    (c! "AT", c! "AIS transmitting station"), (c! "AX", c! "repeater station")]).getD (c! "other")

/-- Text printed for the navigation system of a talker id. -/
def systemText (talker : Str) : Str :=
  (List.lookup talker [(c! "GN", c! "combination"), (c! "GP", c! "GPS"), (c! "GL", c! "GLONASS"), (c! "GA", c! "Galileo"),
    (c! "BD", c! "BeiDou"), (c! "GI", c! "Navic"), (c! "QZ", c! "QZSS")]).getD (c! "other")

/-- Text printed for a GGA quality code. -/
def qualityText (code : Nat) : Str :=
  [c! "invalid", c! "GPS fix", c! "DGPS fix", c! "PPS fix", c! "Real-Time Kinematic",
   c! "Real-Time Kinematic (floating point)", c! "dead reckoning", c! "manual input mode", c! "simulation mode"].getD code
    (c! "invalid")

/-- Texts printed for the GSA fix type, by the transmitted digit. -/
def gsaFixTexts : List (Str × Str) := [(c! "1", c! "no available"), (c! "2", c! "2D fix"), (c! "3", c! "3D fix")]

end Nmea.Spec
