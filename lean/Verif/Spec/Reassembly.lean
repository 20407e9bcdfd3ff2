/-
Specification of the reassembly of two-part messages as a stage of its own: sentences go in, sentences come out.
-/
import Verif.Spec.Machine

namespace Nmea.Spec

/-- The parts that wait: for each kind (VDM or VDO), message id and channel at most one (number and payload). -/
abbrev Waiting := Bool → Nat → Str → Option (Nat × Str)

/-- Nothing waits. -/
def Waiting.empty : Waiting := fun _ _ _ => none

/-- Set or clear the part of a group. -/
def Waiting.set (w : Waiting) (own : Bool) (id : Nat) (chan : Str) (x : Option (Nat × Str)) : Waiting :=
  fun o i c => if o = own ∧ i = id ∧ c = chan then x else w o i c

/-- The sentence is part 1 or 2 of a two-part message. -/
def IsPart (s : Str) : Prop :=
  ∃ talker own num id chan payload, Part talker own num id chan payload s ∧ (num = 1 ∨ num = 2)

/-- One sentence goes in: the sentence that comes out, if any, and what waits afterwards. -/
inductive Joins (w : Waiting) (s : Str) : Option Str → Waiting → Prop where
  /-- a part without its other part waits; it replaces an earlier copy of itself -/
  | waits {talker own num id chan payload} (h : Part talker own num id chan payload s) (hn : num = 1 ∨ num = 2)
      (hw : ∀ x, w own id chan ≠ some (3 - num, x)) : Joins w s none (w.set own id chan (some (num, payload)))
  /-- part 1 while part 2 waits: the message in one sentence -/
  | first {talker own id chan x y} (h : Part talker own 1 id chan x s) (hw : w own id chan = some (2, y)) :
      Joins w s (some (aisSentence talker own (x ++ y))) (w.set own id chan none)
  /-- part 2 while part 1 waits: the message in one sentence -/
  | second {talker own id chan x y} (h : Part talker own 2 id chan y s) (hw : w own id chan = some (1, x)) :
      Joins w s (some (aisSentence talker own (x ++ y))) (w.set own id chan none)
  /-- every other sentence is passed on -/
  | other (h : ¬ IsPart s) : Joins w s (some s) w

/-- A history goes in: what comes out at each sentence. -/
inductive Reassembled : Waiting → List (Env × Str) → List (Env × Option Str) → Waiting → Prop where
  | nil (w : Waiting) : Reassembled w [] [] w
  | cons {w w' w'' env s h o out} (h1 : Joins w s o w') (h2 : Reassembled w' h out w'') :
      Reassembled w ((env, s) :: h) ((env, o) :: out) w''

/-- The sentences that came out. -/
def passedOn (out : List (Env × Option Str)) : List (Env × Str) :=
  out.filterMap fun x => x.2.map fun s => (x.1, s)

/-- Answers `as` to the sentences that came out, and Incomplete in between for those that waited. -/
def withWaits : List (Env × Option Str) → List Answer → List Answer
  | [], _ => []
  | (_, none) :: out, as => .ok .incomplete :: withWaits out as
  | (_, some _) :: out, as => as.take 1 ++ withWaits out (as.drop 1)

open Classical in
/-- What came out at those sentences of the history that satisfy `P`. -/
noncomputable def outAt (P : Str → Prop) (h : List (Env × Str)) (out : List (Env × Option Str)) : List (Env × Option Str) :=
  ((h.zip out).filter fun x => decide (P x.1.2)).map (·.2)

end Nmea.Spec
