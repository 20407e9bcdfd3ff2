/-
Specification of the sentences of a GNSS receiver that has no position yet, and of the answers to them.
-/
import Verif.Spec.Gnss
import Verif.Spec.Gsv
import Verif.Spec.Machine

namespace Nmea.Spec

/-- These fields are empty or missing. -/
def Blank (fs : List Str) (is : List Nat) : Prop := ∀ i ∈ is, field fs i = []

instance (fs : List Str) (is : List Nat) : Decidable (Blank fs is) := inferInstanceAs (Decidable (∀ i ∈ is, _ = _))

/-- A sentence of a receiver that knows neither time nor position, and the answer to it. -/
inductive NoFix : Str → Answer → Prop where
  /-- GGA without time. -/
  | gga (talker : Str) (fs : List Str) (s : Str) (h : IsGnss talker (c! "GGA") fs s) (hb : Blank fs [0]) : NoFix s .panic
  /-- GLL without position and time. -/
  | gll (talker : Str) (fs : List Str) (s : Str) (h : IsGnss talker (c! "GLL") fs s) (hb : Blank fs [0, 2, 4]) : NoFix s .panic
  /-- RMC with nothing but its status: no date or no time, no position, speed, bearing and variation. -/
  | rmc (talker : Str) (fs : List Str) (s : Str) (h : IsGnss talker (c! "RMC") fs s) (active : Bool)
      (hs : (field fs 1, active) ∈ statusTable) (hd : Blank fs [0] ∨ Blank fs [8]) (hb : Blank fs [2, 4, 6, 7, 9]) :
      NoFix s (.ok (.rmc ⟨talkerSystem talker, none, some active, none, none, none, none, none⟩))
  /-- GSA without satellites and dilutions. -/
  | gsa (talker : Str) (fs : List Str) (s : Str) (h : IsGnss talker (c! "GSA") fs s) (auto : Bool) (fix : GsaFixMode)
      (hm : (field fs 0, auto) ∈ modeTable) (hf : (field fs 1, fix) ∈ fixTypes) (hb : Blank fs (List.range' 2 15)) :
      NoFix s (.ok (.gsa ⟨talkerSystem talker, some auto, some fix, [], none, none, none⟩))
  /-- VTG without courses and speeds. -/
  | vtg (talker : Str) (fs : List Str) (s : Str) (h : IsGnss talker (c! "VTG") fs s) (hb : Blank fs [0, 2, 4, 6]) :
      NoFix s (.ok (.vtg ⟨talkerSystem talker, none, none, none, none, faaTable.lookup (field fs 8)⟩))
  /-- One GSV sentence without satellites. -/
  | gsv (talker : Str) (fs : List Str) (s : Str) (h : GsvPart talker 1 1 fs s) (hb : Blank fs [3, 7, 11, 15]) :
      NoFix s (.ok (.gsv []))

end Nmea.Spec
