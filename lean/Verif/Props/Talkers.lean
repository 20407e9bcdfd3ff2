/-
C158: talkers of newer receivers.
-/
import Verif.Props.Dispatch
import Verif.Props.Symmetry
import Verif.Props.Gnss
import Verif.Props.Fragments

namespace Nmea
open Spec

/-- The systems named by the talker ids of NMEA 4.11: BeiDou is `GB` and QZSS is `GQ`. -/
def Spec.newerSystem : Str → Option NavigationSystem := fun t =>
  [(c! "GP", .gps), (c! "GL", .glonass), (c! "GA", .galileo), (c! "GB", .beidou), (c! "GI", .navic), (c! "GQ", .qzss),
   (c! "GN", .combination)].lookup t

/-- C158: the source of a report of BeiDou or QZSS, by the talkers of NMEA 4.11, is `Other`. -/
theorem C158_newer (env : Env) (p p' : Parser) (talker kind : Str) (fs : List Str) (s : Str) (r : ParsedSentence)
    (ht : talker = c! "GB" ∨ talker = c! "GQ") (hk : byteLen kind = 3) (hc : ',' ∉ kind) (h : IsGnss talker kind fs s)
    (hr : parseSentence env p s = (.ok r, p')) : ∀ x ∈ sources r, x = .other := by
  intro x hx
  rw [C07_source_is_talker env p p' talker kind fs s r hk hc h hr x hx]
  rcases ht with rfl | rfl <;> rfl

/-- C158: of two sentences with the same fields the reports are the same exactly if the parser knows the same system for
both talkers. -/
theorem C158_told_apart (env : Env) (p p' : Parser) (t t' kind : Str) (fs : List Str) (s s' : Str) (r r' : ParsedSentence)
    (hk : kind ∈ [c! "GGA", c! "RMC", c! "GSA", c! "VTG", c! "GLL"])
    (h : IsGnss t kind fs s) (h' : IsGnss t' kind fs s')
    (hr : (parseSentence env p s).1 = .ok r) (hr' : (parseSentence env p' s').1 = .ok r') :
    r = r' ↔ talkerSystem t = talkerSystem t' := by
  have e0 := congrArg Prod.fst (C95_source env p t t kind fs s s hk h h)
  have e1 := congrArg Prod.fst (C95_source env p t t' kind fs s s' hk h h')
  have hs : (parseSentence env p' s').1 = (parseSentence env p s').1 := (C12_gnss_stateless env p' p t' kind fs s' hk h').1
  rw [hs] at hr'
  rw [hr] at e0
  rw [hr'] at e1
  rw [hr] at e1
  injection e0 with e0
  injection e1 with e1
  constructor
  · rintro rfl
    have hg : (∃ d, r = .gga d) ∨ (∃ d, r = .rmc d) ∨ (∃ d, r = .gsa d) ∨ (∃ d, r = .vtg d) ∨ ∃ d, r = .gll d := by
      simp only [List.mem_cons, List.not_mem_nil, or_false] at hk
      rcases hk with rfl | rfl | rfl | rfl | rfl
      · obtain ⟨d, rfl, -⟩ := ((C65_contents env p t fs s h).2.1 _).mp hr
        exact .inl ⟨d, rfl⟩
      · obtain ⟨d, rfl, -⟩ := ((C66_contents env p t fs s h).2.1 _).mp hr
        exact .inr (.inl ⟨d, rfl⟩)
      · obtain ⟨d, rfl, -⟩ := ((C67_contents env p t fs s h).2.1 _).mp hr
        exact .inr (.inr (.inl ⟨d, rfl⟩))
      · obtain ⟨d, hd, -⟩ := C68_contents env p t fs s h
        rw [hd] at hr
        exact .inr (.inr (.inr (.inl ⟨d, (Out.ok.inj hr).symm⟩)))
      · obtain ⟨d, rfl, -⟩ := ((C69_contents env p t fs s h).2.1 _).mp hr
        exact .inr (.inr (.inr (.inr ⟨d, rfl⟩)))
    have e2 := e0.symm.trans e1
    rcases hg with ⟨d, rfl⟩ | ⟨d, rfl⟩ | ⟨d, rfl⟩ | ⟨d, rfl⟩ | ⟨d, rfl⟩ <;> simpa [withSource] using e2
  · intro ht
    rw [e1, ← ht, ← e0]

/-- BeiDou by its older and its newer talker: two reports. BeiDou and QZSS by their newer ones: the same report. -/
example (env : Env) (p : Parser) (r r' r'' : ParsedSentence)
    (h : (parseSentence env p (c! "$BDVTG,10.0,T")).1 = .ok r) (h' : (parseSentence env p (c! "$GBVTG,10.0,T")).1 = .ok r')
    (h'' : (parseSentence env p (c! "$GQVTG,10.0,T")).1 = .ok r'') : r ≠ r' ∧ r' = r'' := by
  have a : IsGnss (c! "BD") (c! "VTG") [c! "10.0", c! "T"] (c! "$BDVTG,10.0,T") := demoTagged .bare (by decide +kernel)
  have b : IsGnss (c! "GB") (c! "VTG") [c! "10.0", c! "T"] (c! "$GBVTG,10.0,T") := demoTagged .bare (by decide +kernel)
  have c : IsGnss (c! "GQ") (c! "VTG") [c! "10.0", c! "T"] (c! "$GQVTG,10.0,T") := demoTagged .bare (by decide +kernel)
  refine ⟨fun e => ?_, (C158_told_apart env p p _ _ _ _ _ _ r' r'' (by decide) b c h' h'').mpr rfl⟩
  have := (C158_told_apart env p p _ _ _ _ _ _ r r' (by decide) a b h h').mp e
  exact absurd this (by decide)

/-- These sentences are accepted. -/
example (env : Env) (p : Parser) : ∃ d, parseSentence env p (c! "$GBVTG,10.0,T") = (.ok (.vtg d), p) ∧ d.source = .other := by
  obtain ⟨d, hd, h⟩ := C68_contents env p (c! "GB") [c! "10.0", c! "T"] (c! "$GBVTG,10.0,T") (demoTagged .bare (by decide +kernel))
  exact ⟨d, hd, ((h d).mpr rfl).source⟩

/-- C158: GSV groups of BeiDou and of QZSS, too, have the same answers on two parsers, and are not mixed on one (C34). -/
theorem C158_gsv (h h' : List (Env × Str))
    (hh : List.Forall₂ (fun x x' => x.1 = x'.1 ∧ ∃ n k fs, GsvPart (c! "GB") n k fs x.2 ∧ GsvPart (c! "GQ") n k fs x'.2) h h') :
    answers Parser.new h' = answers Parser.new h := by
  have hh0 : List.Forall₂ (fun x x' => x.1 = x'.1 ∧ ∃ n k fs, GsvPart (c! "GB") n k fs x.2 ∧ GsvPart (c! "GB") n k fs x'.2) h h := by
    induction hh with
    | nil => exact .nil
    | cons hx _ ih =>
      obtain ⟨-, n, k, fs, a, -⟩ := hx
      exact .cons ⟨rfl, n, k, fs, a, a⟩ ih
  rw [C95_gsv_source _ _ h h' hh]
  exact (C95_gsv_source _ _ h h hh0).symm

example (env : Env) : answers Parser.new [(env, c! "$GQGSV,1,1,01,07,40,083,46")] =
    answers Parser.new [(env, c! "$GBGSV,1,1,01,07,40,083,46")] := by
  have a : GsvPart (c! "GB") 1 1 [c! "1", c! "1", c! "01", c! "07", c! "40", c! "083", c! "46"] (c! "$GBGSV,1,1,01,07,40,083,46") :=
    ⟨demoTagged .bare (by decide), .inr (demoDec (by decide)), .inr (demoDec (by decide))⟩
  have b : GsvPart (c! "GQ") 1 1 [c! "1", c! "1", c! "01", c! "07", c! "40", c! "083", c! "46"] (c! "$GQGSV,1,1,01,07,40,083,46") :=
    ⟨demoTagged .bare (by decide), .inr (demoDec (by decide)), .inr (demoDec (by decide))⟩
  exact C158_gsv _ _ (.cons ⟨rfl, 1, 1, _, a, b⟩ .nil)

/-- C158: "the source is the system named by the talker" is false for the talkers of NMEA 4.11. -/
theorem C158_counterexample : ¬ ∀ (env : Env) (talker kind : Str) (fs : List Str) (s : Str) (r : ParsedSentence)
    (x y : NavigationSystem), IsGnss talker kind fs s → (parseSentence env Parser.new s).1 = .ok r → x ∈ sources r →
    newerSystem talker = some y → x = y := by
  intro hall
  obtain ⟨d, hd, h⟩ := C68_contents demoEnv Parser.new (c! "GB") [c! "10.0", c! "T"] (c! "$GBVTG,10.0,T")
    (demoTagged .bare (by decide +kernel))
  have hs := ((h d).mpr rfl).source
  have := hall demoEnv (c! "GB") (c! "VTG") [c! "10.0", c! "T"] (c! "$GBVTG,10.0,T") _ .other .beidou
    (demoTagged .bare (by decide +kernel)) (congrArg Prod.fst hd) (by simp [sources, hs]; rfl) (by decide)
  exact absurd this (by decide)

end Nmea
