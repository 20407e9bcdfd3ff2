/-
Specification of what is answered to accepted sentences: which ones are answered with `Incomplete`, and which ones with a
report.
-/
import Verif.Spec.Refused
import Verif.Spec.Panic
import Verif.Spec.Tables

namespace Nmea.Spec

/-- More sentences are needed: these are answered with `Incomplete`. -/
inductive Waits (env : Env) (p : Parser) (s : Str) : Prop where
  /-- One of the two parts of a message, and the other one is not pending. -/
  | part (talker : Str) (own : Bool) (num id : Nat) (chan payload : Str) (h : Part talker own num id chan payload s)
      (hn : num = 1 ∨ num = 2) (ho : pendingPart p own (3 - num) id chan = none)
  /-- A part of a message that is not assembled: of none or of three and more parts; or of two parts with no readable
  message id, or with a fragment number other than 1 and 2. -/
  | other (talker : Str) (own : Bool) (fs : List Str) (n k : Nat) (h : IsAis talker own fs s)
      (h0 : Dec 255 (field fs 0) n) (h1 : Dec 255 (field fs 1) k)
      (hn : n ≠ 1 ∧ (n = 2 → (∀ id, ¬ Dec (2 ^ 64 - 1) (field fs 2) id) ∨ k ≠ 1 ∧ k ≠ 2))
  /-- A sentence that ends after the fragment count, which is not 1. -/
  | count (talker f : Str) (own : Bool) (n : Nat) (h : IsAis talker own [f] s) (h0 : Dec 255 f n) (hn : n ≠ 1)
  /-- A complete type 24 message, part A or B, of a vessel of which no part is pending. -/
  | static (talker : Str) (own : Bool) (bits : List Bool) (h : DeliversBits env p s talker own bits)
      (ht : typeOf bits = 24) (hp : partOf bits < 2) (ho : pendingStatic p (mmsiOf bits) = none)
  /-- A sentence of a GSV group of which another one is not pending. -/
  | gsv (talker : Str) (n k i : Nat) (fs : List Str) (h : GsvPart talker n k fs s) (hn : n < 2 ^ 32 - 1)
      (hi : 1 ≤ i ∧ i ≤ n ∧ i ≠ k) (ho : pendingGsv p talker n i = none)
  /-- The biggest group size, without overflow checks. -/
  | biggest (talker : Str) (k : Nat) (fs : List Str) (h : GsvPart talker (2 ^ 32 - 1) k fs s)
      (ho : env.overflowChecks = false)

/-- The message types that are answered with a report of the same kind. -/
def reportKinds : List (List Nat) := [[1, 2, 3, 18, 27], [4], [5, 24], [6], [9], [10], [21]]

/-- The sentence completes a message of one of these types, its timestamp is valid, and if it is of type 24, it is part A or
B and another part of the vessel is pending. -/
def CompletesReport (env : Env) (p : Parser) (s : Str) (types : List Nat) : Prop :=
  ∃ talker own bits, DeliversBits env p s talker own bits ∧ typeOf bits ∈ types ∧ ¬ BadMessage env.now bits ∧
    (typeOf bits = 24 → partOf bits < 2 ∧ pendingStatic p (mmsiOf bits) ≠ none)

/-- The sentence completes a GSV group: all other sentences of it are pending. -/
def CompletesGsv (p : Parser) (s : Str) : Prop :=
  ∃ talker n k fs, GsvPart talker n k fs s ∧ n < 2 ^ 32 - 1 ∧
    ∀ i, 1 ≤ i → i ≤ n → i ≠ k → pendingGsv p talker n i ≠ none

/-- A GNSS sentence of this kind whose time and fields can be read. -/
def ReadableGnss (now : DateTime) (kind s : Str) : Prop :=
  ∃ talker fs l, IsGnss talker kind fs s ∧ (kind, l) ∈ faults fs ∧ (¬ ∃ m, FirstFault l m) ∧ TimeReadable now kind fs ∧
    (kind = c! "GLL" → ∃ t, TimeField now (field fs 4) t)

end Nmea.Spec
