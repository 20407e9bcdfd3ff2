/-
Specification vocabulary: several sentences in one text.
-/
import Verif.Spec.Sentence

namespace Nmea.Spec

/-- Sentences with their checksums, one after another, with `t` between them. -/
def chunk (t : Str) : List Str → Str
  | [] => []
  | [b] => b ++ '*' :: checksumText b
  | b :: bs => b ++ '*' :: (checksumText b ++ (t ++ chunk t bs))

/-- The same without the checksum of the last one. -/
def chunkBody (t : Str) : List Str → Str
  | [] => []
  | [b] => b
  | b :: bs => b ++ '*' :: (checksumText b ++ (t ++ chunkBody t bs))

/-- XOR of everything that stands between the bodies of the sentences (stars, checksum digits, `t`, first characters) and of
the bodies (after their first characters) but the last one. -/
def residue (t : Str) : List Str → Nat
  | b :: b' :: bs => xorBytes (b.tail ++ '*' :: (checksumText b ++ (t ++ b'.take 1))) ^^^ residue t (b' :: bs)
  | _ => 0

end Nmea.Spec
