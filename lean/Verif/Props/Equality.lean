/-
C104: comparing reports with `==`.
-/
import Verif.Lemmas.Equality
import Verif.Props.Ranges

namespace Nmea
open Spec

/-- C104: two reports compare equal exactly if they are of the same kind, agree in all fields up to the signs of
zeros, and no decimal is NaN. -/
theorem C104_equal (r r' : ParsedSentence) :
    r.eq r' = true ↔ (∀ d ∈ decimals r, d ≠ .nan) ∧ plainZeros r = plainZeros r' := report_eq_iff r r'

/-- Two VTG reports, one with the speed 0 and one with the speed -0. -/
example : ∃ r r', (parseSentence demoEnv Parser.new (c! "$GPVTG,,T,,M,0.0,N")).1 = .ok (.vtg r) ∧
    (parseSentence demoEnv Parser.new (c! "$GPVTG,,T,,M,-0.0,N")).1 = .ok (.vtg r') ∧
    (ParsedSentence.vtg r).eq (.vtg r') = true :=
  ⟨_, _, rfl, rfl, (C104_equal _ _).mpr ⟨by decide +kernel, by decide +kernel⟩⟩

/-- C104: so a report compares equal to itself (the same sentence parsed twice) exactly if no decimal is NaN. -/
theorem C104_itself (r : ParsedSentence) : r.eq r = true ↔ ∀ d ∈ decimals r, d ≠ .nan := by
  rw [report_eq_iff]
  exact ⟨fun h => h.1, fun h => ⟨h, rfl⟩⟩

/-- A report with decimals. -/
example : ∃ r, (parseSentence demoEnv Parser.new (c! "$GPVTG,54.7,T,,M,5.5,N")).1 = .ok r ∧ r.eq r = true :=
  ⟨_, rfl, (C104_itself _).mpr (by decide +kernel)⟩

/-- C104: AIS reports, whenever and by whichever parser they were made, compare equal exactly if they are the same in
all fields. -/
theorem C104_ais (env env' : Env) (p p' : Parser) (hp : Reachable p) (s s' : Str) (r r' : ParsedSentence)
    (h : (parseSentence env p s).1 = .ok r) (h' : (parseSentence env' p' s').1 = .ok r')
    (hr : AisReport r) (hr' : AisReport r') : r.eq r' = true ↔ r = r' := by
  rw [report_eq_iff, plainZeros_of_none r (ais_notMinusZero env p s r hr h),
    plainZeros_of_none r' (ais_notMinusZero env' p' s' r' hr' h')]
  exact ⟨fun h => h.2, fun e => ⟨ais_not_nan r hr (C98_in_range env p hp s r h), e⟩⟩

/-- An AIS report. -/
example : ∃ r, (parseSentence demoEnv Parser.new (c! "!AIVDM,1,1,,A,13u?etPv2;0n:dDPwUM1U1Cb069D,0")).1 = .ok r ∧
    AisReport r ∧ r.eq r = true := ⟨_, rfl, trivial, by decide +kernel⟩

/-- C104: 'parsing the same sentence twice gives equal reports' is false. -/
theorem C104_not_itself : ∃ r, (parseSentence demoEnv Parser.new (c! "$GPVTG,nan,T,,M,,N,,K,A")).1 = .ok r ∧
    r.eq r = false := ⟨_, rfl, by decide +kernel⟩

/-- C104: 'equal reports are the same' is false: positions on the equator may differ in the sign of zero. -/
theorem C104_zeros : ∃ r r',
    (parseSentence demoEnv Parser.new (c! "$GPGLL,0000.00,N,00000.00,E,120000,A")).1 = .ok r ∧
    (parseSentence demoEnv Parser.new (c! "$GPGLL,0000.00,S,00000.00,E,120000,A")).1 = .ok r' ∧
    r ≠ r' ∧ r.eq r' = true := ⟨_, _, rfl, rfl, by decide +kernel, by decide +kernel⟩

end Nmea
