/-
C98: the ranges of all values in all reports.
-/
import Verif.Lemmas.Ranges
import Verif.Spec.Machine
import Verif.Props.Fragments
import Verif.Lemmas.DemoReports

namespace Nmea
open Spec

theorem reachable_step {p : Parser} (hp : Reachable p) (e : Env) (s : Str) : Reachable (parseSentence e p s).2 := by
  obtain ⟨h, rfl⟩ := hp
  exact ⟨h ++ [(e, s)], by rw [run_append]; rfl⟩

/-- C98: whatever was parsed before, every value of every report is within its range. -/
theorem C98_in_range (env : Env) (p : Parser) (hp : Reachable p) (s : Str) (r : ParsedSentence)
    (h : (parseSentence env p s).1 = .ok r) : InRange r :=
  report_range env p (goodStatic_reachable p hp) s r h

/-- The type 1 sentence of the library's own tests, received by a new parser. -/
example : ∃ d, (parseSentence demoEnv Parser.new (c! "!AIVDM,1,1,,A,15RTgt0PAso;90TKcjM8h6g208CQ,0*4A")).1 =
    .ok (.vesselDynamicData d) ∧ InRange (.vesselDynamicData d) := by
  obtain ⟨d, hd⟩ := demoType1_ok
  exact ⟨d, hd, C98_in_range demoEnv Parser.new ⟨[], rfl⟩ _ _ hd⟩

/-- C98: so in whole histories. -/
theorem C98_history (h : List (Env × Str)) (r : ParsedSentence) (hr : .ok r ∈ answers Parser.new h) : InRange r := by
  have key : ∀ (h : List (Env × Str)) (p : Parser), Reachable p → .ok r ∈ answers p h → InRange r := by
    intro h
    induction h with
    | nil => intro p _ hr; cases hr
    | cons x h ih =>
      intro p hp hr
      obtain ⟨e, s⟩ := x
      rcases List.mem_cons.mp hr with hr | hr
      · exact C98_in_range e p hp s r hr.symm
      · exact ih _ (reachable_step hp e s) hr
  exact key h _ ⟨[], rfl⟩ hr

/-- The last answer of a history of two sentences. -/
example : ∃ d, InRange (.vesselDynamicData d) ∧ .ok (.vesselDynamicData d) ∈ answers Parser.new
    [(demoEnv, c! "$GPHDT"), (demoEnv, c! "!AIVDM,1,1,,A,15RTgt0PAso;90TKcjM8h6g208CQ,0*4A")] := by
  obtain ⟨d, hd⟩ := demoType1_ok
  have hm : .ok (.vesselDynamicData d) ∈ answers Parser.new
      [(demoEnv, c! "$GPHDT"), (demoEnv, c! "!AIVDM,1,1,,A,15RTgt0PAso;90TKcjM8h6g208CQ,0*4A")] := by
    have e : (parseSentence demoEnv Parser.new (c! "$GPHDT")).2 = Parser.new := by decide +kernel
    simp only [answers, e, hd]
    simp
  exact ⟨d, C98_history _ _ hm, hm⟩

/-- C98: AIS messages never yield a NaN or an infinite number; decimals of GNSS sentences do. -/
theorem C98_not_a_number :
    ∃ d, (parseSentence demoEnv Parser.new (c! "$GPVTG,nan,T,inf,M,-inf,N,1e999,K,A")).1 = .ok (.vtg d) ∧
      d.cogTrue = some .nan ∧ d.cogMagnetic = some (.inf false) ∧ d.sogKnots = some (.inf true) ∧
      d.sogKph = some (.inf false) := 
  ⟨{ source := .gps, cogTrue := some .nan, cogMagnetic := some (.inf false), sogKnots := some (.inf true),
     sogKph := some (.inf false), faaMode := some .autonomous }, by decide +kernel⟩

/-- A two-part voyage report: the hypotheses are met, with a report. -/
example : Reachable (run Parser.new [(demoEnv,
      c! "!AIVDM,2,1,1,A,55?MbV02;H;s<HtKR20EHE:0@T4@Dn2222222216L961O5Gf0NSQEp6ClRp8,0*1C")]) ∧
    (match (parseSentence demoEnv (run Parser.new [(demoEnv,
        c! "!AIVDM,2,1,1,A,55?MbV02;H;s<HtKR20EHE:0@T4@Dn2222222216L961O5Gf0NSQEp6ClRp8,0*1C")])
        (c! "!AIVDM,2,2,1,A,88888888880,2*25")).1 with
      | .ok (.vesselStaticData d) => (d.mmsi, d.imoNumber, d.draught10) == (351759000, some 9134270, some 122)
      | _ => false) = true := ⟨⟨_, rfl⟩, by decide +kernel⟩

end Nmea
