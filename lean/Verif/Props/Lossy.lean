/-
C125: losses and noise on the link do not spread: whatever arrives completely is reported as sent.
-/
import Verif.Lemmas.Lossy
import Verif.Props.Traffic

namespace Nmea
open Spec

theorem demoVoyage_sentences : demoVoyage.sentences =
    [(demoEnv, c! "!AIVDM,2,1,2,B,55?MbV02;H;s<HtKP00EHE:0@T4@Dl0000000016L961O5Gf0NSQEp6ClRh0,0*0E"),
      (demoEnv, c! "!AIVDM,2,2,2,B,00000000000,2*25")] :=
  congrArg (List.map fun s => (demoEnv, s)) (by decide +kernel : _ = [_, _])

theorem demoView_sentences : demoView.sentences =
    [(demoEnv, c! "$GPGSV,2,1,5,1,40,83,46,2,17,308,41,12,7,344,39,14,22,,*71"), (demoEnv, c! "$GPGSV,2,2,5,30,,,*4F")] :=
  congrArg (List.map fun s => (demoEnv, s)) (by decide +kernel : _ = [_, _])

theorem demoReport_sentences : demoReport.sentences =
    [(demoEnv, c! "!AIVDO,1,1,,A,H42O55i18tMET00000000000000,2*6F"),
      (demoEnv, c! "!AIVDO,1,1,,A,H42O55lti4hh000D3nink000?050,0*1F")] :=
  congrArg (List.map fun s => (demoEnv, s)) (by decide +kernel : _ = [_, _])

/-- The first sentence of a voyage message, a sentence with a wrong character, the first sentence of a group of satellites
of which the second is lost, part A of a static data report of which part B is lost, a ZDA sentence, the next group of
satellites and the rest of the voyage message. -/
theorem demoLossy : Lossy (fun _ => none)
    ([c! "!AIVDM,2,1,2,B,55?MbV02;H;s<HtKP00EHE:0@T4@Dl0000000016L961O5Gf0NSQEp6ClRh0,0*0E",
      c! "$GAGLL,4916.45,N,12311.17,W,225444,A,D*48",
      c! "$GPGSV,2,1,5,1,40,83,46,2,17,308,41,12,7,344,39,14,22,,*71",
      c! "!AIVDO,1,1,,A,H42O55i18tMET00000000000000,2*6F",
      c! "$GPZDA,160012.71,11,03,2004,-1,00",
      c! "$GPGSV,2,1,5,1,40,83,46,2,17,308,41,12,7,344,39,14,22,,*71",
      c! "$GPGSV,2,2,5,30,,,*4F",
      c! "!AIVDM,2,2,2,B,00000000000,2*25"].map fun s => (demoEnv, s))
    [demoView, demoVoyage] := by
  have hf := demoSources_fit
  simp only [List.forall_mem_cons, List.not_mem_nil, false_implies, implies_true, and_true] at hf
  refine .start (x := demoVoyage) (k := .part false 2 (c! "B")) hf.1 demoVoyage_sentences (by decide +kernel) rfl
    (.noise ?_
    (.start (x := demoView) (k := .gsv (c! "GP") 2) hf.2.1 demoView_sentences (by decide +kernel) rfl
    (.start (x := demoReport) (k := .static 271041815) hf.2.2.1 demoReport_sentences (by decide +kernel) rfl
    (.lostNext (k := .static 271041815) rfl
    (.noise ?_
    (.restart (x := demoView) (k := .gsv (c! "GP") 2) rfl (fun _ h => nomatch h) hf.2.1 demoView_sentences (by decide +kernel)
    (.last (k := .gsv (c! "GP") 2) rfl (.last (k := .part false 2 (c! "B")) rfl .done))))))))
  · exact Noise.damaged (a := c! "$GAGLL,4916.45,N,12311.17,W,225444,A,D") (b := c! "48") (by decide) (by decide) (by decide +kernel)
  · exact Noise.otherGnss (talker := c! "GP") (kind := c! "ZDA") (fs := [c! "160012.71", c! "11", c! "03", c! "2004", c! "-1", c! "00"])
      (by decide) (by decide) ⟨⟨by decide, by decide⟩, (by unfold CommaFree; decide), by decide, .bare, (fun _ => by decide), by decide⟩ (by decide)

/-- C125: whatever gets lost on the link and whatever noise is heard: the answers other than errors and "incomplete" are, in
the order of their last sentences, what the sources say that arrive completely. -/
theorem C125_lossy (h : List (Env × Str)) (l : List Source) (hl : Lossy (fun _ => none) h l) :
    List.Forall₂ (fun (x : Source) a => x.Tells a) l (heard (answers Parser.new h)) :=
  lossy_heard hl _ _ rel_new agrees_empty

example : ∃ a, heard (answers Parser.new ([c! "!AIVDM,2,1,2,B,55?MbV02;H;s<HtKP00EHE:0@T4@Dl0000000016L961O5Gf0NSQEp6ClRh0,0*0E",
      c! "$GAGLL,4916.45,N,12311.17,W,225444,A,D*48",
      c! "$GPGSV,2,1,5,1,40,83,46,2,17,308,41,12,7,344,39,14,22,,*71",
      c! "!AIVDO,1,1,,A,H42O55i18tMET00000000000000,2*6F",
      c! "$GPZDA,160012.71,11,03,2004,-1,00",
      c! "$GPGSV,2,1,5,1,40,83,46,2,17,308,41,12,7,344,39,14,22,,*71",
      c! "$GPGSV,2,2,5,30,,,*4F",
      c! "!AIVDM,2,2,2,B,00000000000,2*25"].map fun s => (demoEnv, s))) =
    [.ok (.gsv [⟨.gps, 1, some 40, some 83, some 46⟩, ⟨.gps, 2, some 17, some 308, some 41⟩,
      ⟨.gps, 12, some 7, some 344, some 39⟩, ⟨.gps, 14, some 22, none, none⟩, ⟨.gps, 30, none, none, none⟩]), a] := by
  have h := C125_lossy _ _ demoLossy
  generalize heard _ = x at h
  cases h with
  | cons h1 h =>
  cases h with
  | cons h2 h =>
  cases h with
  | nil =>
  rw [h1]
  exact ⟨_, rfl⟩

/-- C125: nothing is invented: if the sources that arrive completely are among those sent on a link without losses, then the
reports heard are among those heard there, in whatever way the sentences are mixed on either link. -/
theorem C125_nothing_invented (h h' : List (Env × Str)) (l l' : List Source) (hl : Lossy (fun _ => none) h l)
    (ht : Traffic (fun _ => none) h' l') (hs : List.Subperm l l') :
    List.Subperm (heard (answers Parser.new h)) (told (answers Parser.new h')) := by
  obtain ⟨g, hg⟩ := tells_fun
  rw [forall2_map C124_determined (C125_lossy h l hl) g hg, forall2_map C124_determined (C124_traffic h' l' ht) g hg]
  obtain ⟨k, hk, hs⟩ := hs
  exact ⟨k.map g, hk.map g, hs.map g⟩

/-- The lossy link of the example above against the link of C124. -/
example : List.Subperm (heard (answers Parser.new ([c! "!AIVDM,2,1,2,B,55?MbV02;H;s<HtKP00EHE:0@T4@Dl0000000016L961O5Gf0NSQEp6ClRh0,0*0E",
      c! "$GAGLL,4916.45,N,12311.17,W,225444,A,D*48",
      c! "$GPGSV,2,1,5,1,40,83,46,2,17,308,41,12,7,344,39,14,22,,*71",
      c! "!AIVDO,1,1,,A,H42O55i18tMET00000000000000,2*6F",
      c! "$GPZDA,160012.71,11,03,2004,-1,00",
      c! "$GPGSV,2,1,5,1,40,83,46,2,17,308,41,12,7,344,39,14,22,,*71",
      c! "$GPGSV,2,2,5,30,,,*4F",
      c! "!AIVDM,2,2,2,B,00000000000,2*25"].map fun s => (demoEnv, s))))
    (told (answers Parser.new ([demoVoyage, demoView, demoReport, demoReading].flatMap Source.sentences))) :=
  C125_nothing_invented _ _ _ _ demoLossy (traffic_one_by_one _ demoSources_fit)
    ⟨[demoVoyage, demoView], List.Perm.swap _ _ _, by simp⟩

/-- C125: traffic without losses and noise is a special case. -/
theorem C125_lossless {o h l} (ht : Traffic o h l) : Lossy (fun k => (o k).map fun y => .coming y.1 y.2 true) h l := by
  have e : ∀ (o : Slot → Option (List (Env × Str) × Source)) (k : Slot) (v : Option (List (Env × Str) × Source)),
      (fun j => (if j = k then v else o j).map fun y => Occupant.coming y.1 y.2 true) =
        put (fun j => (o j).map fun y => .coming y.1 y.2 true) k (v.map fun y => .coming y.1 y.2 true) := by
    intro o k v
    funext j
    by_cases hj : j = k <;> simp [put, hj]
  induction ht with
  | done => exact .done
  | one hx hs hf _ ih => exact .one hx hs (fun k hk => by rw [hf k hk]; rfl) ih
  | start hx hs hk hf _ ih => exact .start hx hs hk (by rw [hf]; rfl) (by rw [e] at ih; exact ih)
  | more ho _ ih => exact .more (by rw [ho]; rfl) (by rw [e] at ih; exact ih)
  | last ho _ ih => exact .last (by rw [ho]; rfl) (by rw [e] at ih; exact ih)

example := C125_lossless demoTraffic

/-- C125: a sentence with one wrong character (other than the first) before its checksum is noise. -/
theorem C125_wrong_character (x y : Str) (c c' : Char) (hx : x ≠ []) (hc : c'.toNat % 256 ≠ c.toNat % 256) :
    Noise ((x ++ c' :: y) ++ '*' :: checksumText (x ++ c :: y)) := by
  refine .damaged (star_not_mem_checksumText _) (checksumText_ne_nil _) fun h => ?_
  have h := checksumText_inj _ _ h
  obtain ⟨x0, xs, rfl⟩ := List.exists_cons_of_ne_nil hx
  simp only [List.cons_append, List.tail_cons, xorBytes_append, xorBytes] at h
  have h := xor_cancel_left h
  rw [Nat.xor_comm, Nat.xor_comm (c'.toNat % 256)] at h
  exact hc (xor_cancel_left h).symm

example : Noise ((c! "$GPVTG,,T,,M,012." ++ '7' :: c! ",N,,K") ++ '*' :: checksumText (c! "$GPVTG,,T,,M,012." ++ '5' :: c! ",N,,K")) :=
  C125_wrong_character _ _ _ _ (by decide) (by decide)

/-- C125: noise is answered with an error and changes nothing. -/
theorem C125_noise (env : Env) (p : Parser) (s : Str) (h : Noise s) : ∃ e, parseSentence env p s = (.err e, p) :=
  noise_refused h env p

example (env : Env) (p : Parser) := C125_noise env p _
  (C125_wrong_character (c! "$GPVTG,,T,,M,012.") (c! ",N,,K") '5' '7' (by decide) (by decide))

end Nmea
