/-
Model of the sample program in the README.
-/
import Verif.Model.Parse
import Verif.Model.Country
import Verif.Model.Display

namespace Nmea

/-- The texts that the standard library gives for doubles: `{:.k}` and `{}`. Parameters of the model. -/
structure Fmt where
  fixed : Nat → F64 → Str
  plain : F64 → Str

/-- `{:0w}` of an unsigned number. -/
def zeroPadded (w n : Nat) : Str := List.replicate (w - (natStr n).length) '0' ++ natStr n

/-- chrono 0.4.19, `Display for DateTime<Utc>` with no subseconds: `{:04}-{:02}-{:02} {:02}:{:02}:{:02} UTC`, years beyond
four digits with sign (`{:+05}`). -/
def DateTime.display (t : DateTime) : Str :=
  (if 0 ≤ t.year ∧ t.year ≤ 9999 then zeroPadded 4 t.year.toNat
   else (if t.year < 0 then '-' else '+') :: zeroPadded 4 t.year.natAbs) ++
  '-' :: zeroPadded 2 t.month ++ '-' :: zeroPadded 2 t.day ++ ' ' :: zeroPadded 2 t.hour ++ ':' :: zeroPadded 2 t.minute ++
  ':' :: zeroPadded 2 t.second ++ c! " UTC"

/-- README.md:42-69, the arms of the `match`: the lines that are printed, `none` for an `unwrap` of `None`. -/
def sampleLines (f : Fmt) : ParsedSentence → List (Option Str)
  | .vesselDynamicData vdd =>
    [some (c! "MMSI:    " ++ natStr vdd.mmsi),
     vdd.sogKnots.map fun x => c! "Speed:   " ++ f.fixed 1 x ++ c! " kts",
     vdd.headingTrue.map fun x => c! "Heading: " ++ f.plain x ++ c! "°",
     some []]
  | .vesselStaticData vds =>
    [some (c! "MMSI:  " ++ natStr vds.mmsi),
     vds.country.map fun x => c! "Flag:  " ++ x,
     vds.name.map fun x => c! "Name:  " ++ x,
     some (c! "Type:  " ++ vds.shipType.label),
     some []]
  | .gga gga =>
    [some (c! "Source:    " ++ gga.source.label),
     gga.latitude.map fun x => c! "Latitude:  " ++ f.fixed 3 x ++ c! "°",
     gga.longitude.map fun x => c! "Longitude: " ++ f.fixed 3 x ++ c! "°",
     some []]
  | .rmc rmc =>
    [some (c! "Source:  " ++ rmc.source.label),
     rmc.sogKnots.map fun x => c! "Speed:   " ++ f.fixed 1 x ++ c! " kts",
     rmc.bearing.map fun x => c! "Bearing: " ++ f.plain x ++ c! "°",
     rmc.timestamp.map fun x => c! "Time:    " ++ x.display,
     some []]
  | _ => []

/-- `println!` of the lines, up to the first `unwrap` of `None`: the text, and whether it was reached. -/
def printLines : List (Option Str) → Str × Bool
  | [] => ([], true)
  | none :: _ => ([], false)
  | some l :: ls => (l ++ '\n' :: (printLines ls).1, (printLines ls).2)

/-- How the program ends: after the last sentence, with an error (the `?` of README.md:41), or with a panic. -/
inductive SampleEnd where
  | finished
  | failed (e : ParseError)
  | panicked

/-- README.md:40-71: what the loop prints for the sentences, and how it ends. -/
def sample (f : Fmt) : Parser → List (Env × Str) → Str × SampleEnd
  | _, [] => ([], .finished)
  | p, (env, s) :: rest =>
    match parseSentence env p s with
    | (.panic, _) => ([], .panicked)
    | (.err e, _) => ([], .failed e)
    | (.ok r, p') =>
      if (printLines (sampleLines f r)).2 then
        ((printLines (sampleLines f r)).1 ++ (sample f p' rest).1, (sample f p' rest).2)
      else ((printLines (sampleLines f r)).1, .panicked)

end Nmea
