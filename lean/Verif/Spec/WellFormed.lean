/-
Specification of the well-formed AIS messages: one of the message types of `Verif.Spec.Messages`, with every
value in its range.
-/
import Verif.Spec.Messages
import Verif.Spec.Values

namespace Nmea.Spec

/-- A message of one of the types that are reported. -/
inductive AisMessage where
  | positionA (m : PositionA)
  | base (m : BaseStation)
  | voyage (m : Voyage)
  | addressed (m : Addressed)
  | aircraft (m : Aircraft)
  | inquiry (m : Inquiry)
  | positionB (m : PositionB)
  | aid (m : Aid)
  | staticA (m : StaticA)
  | staticB (m : StaticB)
  | longRange (m : LongRange)

/-- All values in range. -/
def AisMessage.Fits : AisMessage → Prop
  | .positionA m => m.Fits
  | .base m => m.Fits
  | .voyage m => m.Fits
  | .addressed m => m.Fits
  | .aircraft m => m.Fits
  | .inquiry m => m.Fits
  | .positionB m => m.Fits
  | .aid m => m.Fits
  | .staticA m => m.Fits
  | .staticB m => m.Fits
  | .longRange m => m.Fits

/-- The bits of the message, in the layout of the standard. -/
def AisMessage.bits : AisMessage → List Bool
  | .positionA m => m.bits
  | .base m => m.bits
  | .voyage m => m.bits
  | .addressed m => m.bits
  | .aircraft m => m.bits
  | .inquiry m => m.bits
  | .positionB m => m.bits
  | .aid m => m.bits
  | .staticA m => m.bits
  | .staticB m => m.bits
  | .longRange m => m.bits

/-- A message of a type that is reported; if it is of type 24, part A or B, and the name in part A has, as it is
read, at most the 20 characters of the standard. -/
def Reported (bits : List Bool) : Prop :=
  typeOf bits ∈ supportedTypes ∧
  (typeOf bits = 24 → partOf bits < 2 ∧ (partOf bits = 0 → (fieldText bits 40 120).length ≤ 20))

/-! ### The message that bits stand for

Bits after the end count as 0, texts end at the first `@` and before trailing blanks. -/

/-- Flag. -/
def flagAt (b : List Bool) (i : Nat) : Bool := (window b i 1).headD false

/-- The class A position report. -/
def PositionA.read (b : List Bool) : PositionA :=
  ⟨num b 0 6, num b 6 2, num b 8 30, num b 38 4, snum b 42 8, num b 50 10, flagAt b 60, snum b 61 28, snum b 89 27,
    num b 116 12, num b 128 9, num b 137 6, num b 143 2, num b 145 3, flagAt b 148, num b 149 19⟩

/-- The base station report. -/
def BaseStation.read (b : List Bool) : BaseStation :=
  ⟨num b 6 2, num b 8 30, num b 38 14, num b 52 4, num b 56 5, num b 61 5, num b 66 6, num b 72 6, flagAt b 78,
    snum b 79 28, snum b 107 27, num b 134 4, num b 138 10, flagAt b 148, num b 149 19⟩

/-- The static and voyage data. -/
def Voyage.read (b : List Bool) : Voyage :=
  ⟨num b 6 2, num b 8 30, num b 38 2, num b 40 30, fieldText b 70 7, fieldText b 112 20, num b 232 8, num b 240 9,
    num b 249 9, num b 258 6, num b 264 6, num b 270 4, num b 274 4, num b 278 5, num b 283 5, num b 288 6, num b 294 8,
    fieldText b 302 20, flagAt b 422, flagAt b 423⟩

/-- The addressed message. -/
def Addressed.read (b : List Bool) : Addressed :=
  ⟨num b 6 2, num b 8 30, num b 38 2, num b 40 30, flagAt b 70, flagAt b 71, num b 72 10, num b 82 6⟩

/-- The aircraft report. -/
def Aircraft.read (b : List Bool) : Aircraft :=
  ⟨num b 6 2, num b 8 30, num b 38 12, num b 50 10, flagAt b 60, snum b 61 28, snum b 89 27, num b 116 12, num b 128 6,
    num b 134 8, flagAt b 142, num b 143 3, flagAt b 146, flagAt b 147, num b 148 20⟩

/-- The inquiry. -/
def Inquiry.read (b : List Bool) : Inquiry := ⟨num b 6 2, num b 8 30, num b 38 2, num b 40 30, num b 70 2⟩

/-- The class B position report. -/
def PositionB.read (b : List Bool) : PositionB :=
  ⟨num b 6 2, num b 8 30, num b 38 8, num b 46 10, flagAt b 56, snum b 57 28, snum b 85 27, num b 112 12, num b 124 9,
    num b 133 6, num b 139 2, flagAt b 141, flagAt b 142, flagAt b 143, flagAt b 144, flagAt b 145, flagAt b 146,
    flagAt b 147, num b 148 20⟩

/-- The aid to navigation. -/
def Aid.read (b : List Bool) : Aid :=
  ⟨num b 6 2, num b 8 30, num b 38 5, fieldText b 43 20, flagAt b 163, snum b 164 28, snum b 192 27, num b 219 9,
    num b 228 9, num b 237 6, num b 243 6, num b 249 4, num b 253 6, flagAt b 259, num b 260 8, flagAt b 268, flagAt b 269,
    flagAt b 270, flagAt b 271, fieldText b 272 14⟩

/-- The part A; as it is read, the name goes on to the end of the message. -/
def StaticA.read (b : List Bool) : StaticA := ⟨num b 6 2, num b 8 30, fieldText b 40 120⟩

/-- The part B. -/
def StaticB.read (b : List Bool) : StaticB :=
  ⟨num b 6 2, num b 8 30, num b 40 8, fieldText b 48 3, num b 66 4, num b 70 20, fieldText b 90 7, num b 132 9, num b 141 9,
    num b 150 6, num b 156 6, num b 162 6⟩

/-- The long-range report. -/
def LongRange.read (b : List Bool) : LongRange :=
  ⟨num b 6 2, num b 8 30, flagAt b 38, flagAt b 39, num b 40 4, snum b 44 18, snum b 62 17, num b 79 6, num b 85 9,
    flagAt b 94, flagAt b 95⟩

/-- The message that these bits stand for; none if its type is not supported, or for type 24 with a part number above 1. -/
def messageOf (b : List Bool) : Option AisMessage :=
  if typeOf b ∈ [1, 2, 3] then some (.positionA (PositionA.read b))
  else if typeOf b = 4 then some (.base (BaseStation.read b))
  else if typeOf b = 5 then some (.voyage (Voyage.read b))
  else if typeOf b = 6 then some (.addressed (Addressed.read b))
  else if typeOf b = 9 then some (.aircraft (Aircraft.read b))
  else if typeOf b = 10 then some (.inquiry (Inquiry.read b))
  else if typeOf b = 18 then some (.positionB (PositionB.read b))
  else if typeOf b = 21 then some (.aid (Aid.read b))
  else if typeOf b = 24 ∧ partOf b = 0 then some (.staticA (StaticA.read b))
  else if typeOf b = 24 ∧ partOf b = 1 then some (.staticB (StaticB.read b))
  else if typeOf b = 27 then some (.longRange (LongRange.read b))
  else none

end Nmea.Spec
