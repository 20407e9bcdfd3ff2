import Verif.Model.Parse
import Verif.Model.Country
import Verif.Props.Framing
import Verif.Props.Bits
import Verif.Props.Dispatch
import Verif.Props.Fragments
import Verif.Props.Delivered
import Verif.Props.Static
import Verif.Props.Gsv
import Verif.Props.Messages
import Verif.Props.Values
import Verif.Props.Gnss
import Verif.Props.Country
import Verif.Props.Panics
import Verif.Model.Display
import Verif.Props.Machine
import Verif.Props.Loss
import Verif.Props.Symmetry
import Verif.Props.Ranges
import Verif.Props.Streams
import Verif.Props.Extensional
import Verif.Props.Equality
import Verif.Props.Work
import Verif.Props.Bounded
import Verif.Props.Regex
import Verif.Spec.Order
import Verif.Props.Order
import Verif.Props.Labels
import Verif.Props.Errors
import Verif.Model.Log
import Verif.Spec.Log
import Verif.Lemmas.Log
import Verif.Props.Log
import Verif.Spec.Commute
import Verif.Lemmas.Commute
import Verif.Props.Commute
import Verif.Props.Lossless
import Verif.Spec.AfterPanic
import Verif.Props.AfterPanic
import Verif.Spec.Instant
import Verif.Lemmas.Instant
import Verif.Props.Instants
import Verif.Spec.Locality
import Verif.Lemmas.Locality
import Verif.Props.Locality
import Verif.Lemmas.Resync
import Verif.Props.Resync
import Verif.Props.Damage
import Verif.Props.Misread
import Verif.Props.Exchange
import Verif.Conformance
import Verif.Props.Texts
import Verif.Props.Meaning
import Verif.Props.Link
import Verif.Props.WellFormed
import Verif.Props.Transmit
import Verif.Props.Traffic
import Verif.Props.Lossy
import Verif.Props.Growth
import Verif.Props.Reassembly
import Verif.Spec.SignalId
import Verif.Props.SignalId
import Verif.Props.Signals
import Verif.Spec.Proprietary
import Verif.Props.Proprietary
import Verif.Props.LeapSecond
import Verif.Props.Fix
import Verif.Props.OneVessel
import Verif.Props.SatelliteNumbers
import Verif.Props.Recover
import Verif.Props.Defaults
import Verif.Spec.Occurs
import Verif.Props.Occurs
import Verif.Spec.Chunk
import Verif.Props.Chunk
import Verif.Spec.LineEnd
import Verif.Props.LineEnd
import Verif.Spec.Doubles
import Verif.Props.Doubles
import Verif.Spec.OneError
import Verif.Props.OneError
import Verif.Spec.Repeated
import Verif.Props.Repeated
import Verif.Spec.NoFix
import Verif.Props.NoFix
import Verif.Spec.Unavailable
import Verif.Props.Unavailable
import Verif.Spec.Refused
import Verif.Props.Refused
import Verif.Props.Waiting
import Verif.Lemmas.Divide
import Verif.Spec.Heard
import Verif.Props.Heard
import Verif.Spec.Print
import Verif.Lemmas.Print
import Verif.Props.Print
import Verif.Spec.Shortest
import Verif.Lemmas.Shortest
import Verif.Props.Shortest
import Verif.Model.Sample
import Verif.Spec.Complete
import Verif.Props.Complete
import Verif.Model.MidScript
import Verif.Spec.MidScript
import Verif.Props.MidScript
import Verif.Spec.Sample
import Verif.Props.Sample
import Verif.Model.Debug
import Verif.Spec.Debug
import Verif.Lemmas.Debug
import Verif.Lemmas.DebugLeaves
import Verif.Lemmas.DebugReports
import Verif.Props.Debug
import Verif.Spec.Hemisphere
import Verif.Props.Hemisphere
import Verif.Props.LetterCase
import Verif.Props.Fraction
import Verif.Spec.Craft
import Verif.Props.Craft
import Verif.Props.Units
import Verif.Props.Talkers
import Verif.Props.Features
import Verif.Spec.Possible
import Verif.Props.Possible
import Verif.Props.Distinguish
import Verif.Spec.Equivalent
import Verif.Props.Equivalent
import Verif.Spec.Exchanging
import Verif.Props.Exchanging
import Verif.Props.Repeating
import Verif.Props.Answers
import Verif.Model.Pretty
import Verif.Spec.Pretty
import Verif.Lemmas.Pretty
import Verif.Props.Pretty
import Verif.Props.Compact
import Verif.Props.Bytes
import Verif.Spec.DebugWords
import Verif.Props.DebugWords
import Verif.Lemmas.Search
import Verif.Spec.Search
import Verif.Props.Search
import Verif.Spec.Lengths
import Verif.Props.Lengths
import Verif.Spec.Lines
import Verif.Lemmas.Lines
import Verif.Props.Lines
