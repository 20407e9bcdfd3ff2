/-
Specification of the sentences that may be exchanged.
-/
import Verif.Spec.Equivalent

namespace Nmea.Spec

/-- Two sentences, each with the environment it is received in, may be exchanged: whenever they come one after the other, each has the
same answer in either order, and everything after them is answered alike. -/
def Exchangeable (x y : Env × Str) : Prop :=
  ∀ p, Reachable p → (∃ a b, answers p [x, y] = [a, b] ∧ answers p [y, x] = [b, a]) ∧
    ∀ f, answers (run p [x, y]) f = answers (run p [y, x]) f

/-- Part 1 or 2 of a two-part message of this group. -/
def IsPartOf (own : Bool) (id : Nat) (chan s : Str) : Prop :=
  ∃ talker num payload, Part talker own num id chan payload s ∧ (num = 1 ∨ num = 2)

/-- One of the sentences 1..n of this GSV group. -/
def IsGsvOf (talker : Str) (n : Nat) (s : Str) : Prop :=
  ∃ k fs, GsvPart talker n k fs s ∧ 1 ≤ k ∧ k ≤ n

/-- The sentence is a part A or B of type 24 of this MMSI, or it is a part of a two-part message that some other part makes one. -/
def CanBring24 (x : Env × Str) (mmsi : Nat) : Prop :=
  (∃ talker own payload, Single talker own payload x.2 ∧ IsStaticPart x.1 payload ∧ mmsiOf (payloadBits payload) = mmsi) ∨
  ∃ talker own num id chan payload other, Part talker own num id chan payload x.2 ∧ (num = 1 ∨ num = 2) ∧ ',' ∉ other ∧
    IsStaticPart x.1 (joined num payload other) ∧ mmsiOf (payloadBits (joined num payload other)) = mmsi

/-- Both are parts of one two-part group, or sentences of one GSV group of two or more, or both can bring type 24 data of one MMSI. -/
def Related (x y : Env × Str) : Prop :=
  (∃ own id chan, IsPartOf own id chan x.2 ∧ IsPartOf own id chan y.2) ∨
  (∃ talker n, 2 ≤ n ∧ n < 2 ^ 32 - 1 ∧ IsGsvOf talker n x.2 ∧ IsGsvOf talker n y.2) ∨
  ∃ mmsi, CanBring24 x mmsi ∧ CanBring24 y mmsi

/-- The sentence leaves no trace: its answer does not depend on the state, and nothing after it depends on the sentence. -/
def NoTrace (x : Env × Str) : Prop :=
  ∃ a, ∀ p, Reachable p → (parseSentence x.1 p x.2).1 = a ∧ ∀ f, answers (parseSentence x.1 p x.2).2 f = answers p f

end Nmea.Spec
