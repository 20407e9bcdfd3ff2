/-
C151: what messages of different types tell about the same place and motion.
-/
import Verif.Props.Transmit
import Verif.Props.Values

namespace Nmea
open Spec

/-- The place that a message tells, in 1/10000 minute: latitude and longitude. -/
def Spec.AisMessage.place : AisMessage → Option (Int × Int)
  | .positionA m => some (m.lat, m.lon)
  | .base m => some (m.lat, m.lon)
  | .aircraft m => some (m.lat, m.lon)
  | .positionB m => some (m.lat, m.lon)
  | .aid m => some (m.lat, m.lon)
  | _ => none

/-- The motion that a message of a ship tells: speed and course in tenths, heading. -/
def Spec.AisMessage.motion : AisMessage → Option (Nat × Nat × Nat)
  | .positionA m => some (m.speed, m.course, m.heading)
  | .positionB m => some (m.speed, m.course, m.heading)
  | _ => none

theorem tells_place {now : DateTime} {talker : Str} {own : Bool} {m : AisMessage} {r : ParsedSentence} {lat lon : Int}
    (h : m.Tells now talker own (.ok r)) (hp : m.place = some (lat, lon)) :
    ∃ x y, positionOf r = some (x, y) ∧ Degrees 91 lat x ∧ Degrees 181 lon y := by
  cases m with
  | positionA m => cases hp; obtain ⟨d, e, h⟩ := h; cases e; exact ⟨_, _, rfl, h.2.2.2.2.2.2.2.2.2.1, h.2.2.2.2.2.2.2.2.2.2.1⟩
  | base m =>
    cases hp
    simp only [AisMessage.Tells] at h
    split at h
    · obtain ⟨d, e, h⟩ := h; cases e; exact ⟨_, _, rfl, h.2.2.2.2.2.1, h.2.2.2.2.2.2.1⟩
    · cases h
  | aircraft m => cases hp; obtain ⟨d, e, h⟩ := h; cases e; exact ⟨_, _, rfl, h.2.2.2.2.2.2.1, h.2.2.2.2.2.2.2.1⟩
  | positionB m => cases hp; obtain ⟨d, e, h⟩ := h; cases e; exact ⟨_, _, rfl, h.2.2.2.2.2.2.1, h.2.2.2.2.2.2.2.1⟩
  | aid m => cases hp; obtain ⟨d, e, h⟩ := h; cases e; exact ⟨_, _, rfl, h.2.2.2.2.2.2.1, h.2.2.2.2.2.2.2.1⟩
  | _ => cases hp

theorem tells_motion {now : DateTime} {talker : Str} {own : Bool} {m : AisMessage} {a : Answer} {v c k : Nat}
    (h : m.Tells now talker own a) (hp : m.motion = some (v, c, k)) :
    ∃ d, a = .ok (.vesselDynamicData d) ∧ Speed v d.sogKnots ∧ Course c d.cog ∧ Heading k d.headingTrue := by
  cases m with
  | positionA m => cases hp; obtain ⟨d, rfl, h⟩ := h; exact ⟨d, rfl, h.2.2.2.2.2.2.2.1, h.2.2.2.2.2.2.2.2.2.2.2.1, h.2.2.2.2.2.2.2.2.2.2.2.2.1⟩
  | positionB m => cases hp; obtain ⟨d, rfl, h⟩ := h; exact ⟨d, rfl, h.2.2.2.2.1, h.2.2.2.2.2.2.2.2.1, h.2.2.2.2.2.2.2.2.2.1⟩
  | _ => cases hp

theorem place_whole {m : AisMessage} {x : Int × Int} (h : m.place = some x) : m.IsWhole := by
  cases m <;> trivial

theorem motion_whole {m : AisMessage} {x : Nat × Nat × Nat} (h : m.motion = some x) : m.IsWhole := by
  cases m <;> trivial

/-- C151: messages of types 1, 2, 3, 4, 9, 18 and 21 that tell the same place are reported with the same position, whatever else
they tell, in whatever states, in one sentence or two. -/
theorem C151_place (env env' : Env) (p p' : Parser) (s s' talker talker' : Str) (own own' : Bool) (m m' : AisMessage)
    (r r' : ParsedSentence) (hm : m.Fits) (hm' : m'.Fits) (h : Delivers p s talker own (armor m.bits))
    (h' : Delivers p' s' talker' own' (armor m'.bits)) (hs : m.place = m'.place)
    (hn : m.place ≠ none) (hr : (parseSentence env p s).1 = .ok r) (hr' : (parseSentence env' p' s').1 = .ok r') :
    positionOf r = positionOf r' ∧ positionOf r ≠ none := by
  obtain ⟨⟨lat, lon⟩, hp⟩ := Option.ne_none_iff_exists'.mp hn
  have hp' := hs ▸ hp
  have t := tells_delivered env p s talker own m hm (place_whole hp) h
  have t' := tells_delivered env' p' s' talker' own' m' hm' (place_whole hp') h'
  rw [hr] at t
  rw [hr'] at t'
  obtain ⟨x, y, e, h1, h2⟩ := tells_place t hp
  obtain ⟨x', y', e', h1', h2'⟩ := tells_place t' hp'
  rw [e, e', degrees_unique h1 h1', degrees_unique h2 h2']
  exact ⟨rfl, by simp⟩

/-- C151: messages of types 1, 2, 3 and 18 that tell the same motion are reported with the same speed, course and heading. -/
theorem C151_motion (env env' : Env) (p p' : Parser) (s s' talker talker' : Str) (own own' : Bool) (m m' : AisMessage)
    (hm : m.Fits) (hm' : m'.Fits) (h : Delivers p s talker own (armor m.bits)) (h' : Delivers p' s' talker' own' (armor m'.bits))
    (hs : m.motion = m'.motion) (hn : m.motion ≠ none) :
    ∃ d d', (parseSentence env p s).1 = .ok (.vesselDynamicData d) ∧ (parseSentence env' p' s').1 = .ok (.vesselDynamicData d') ∧
      d.sogKnots = d'.sogKnots ∧ d.cog = d'.cog ∧ d.headingTrue = d'.headingTrue := by
  obtain ⟨⟨v, c, k⟩, hp⟩ := Option.ne_none_iff_exists'.mp hn
  have hp' := hs ▸ hp
  obtain ⟨d, e, h1, h2, h3⟩ := tells_motion (tells_delivered env p s talker own m hm (motion_whole hp) h) hp
  obtain ⟨d', e', h1', h2', h3'⟩ := tells_motion (tells_delivered env' p' s' talker' own' m' hm' (motion_whole hp') h') hp'
  exact ⟨d, d', e, e', speed_unique h1 h1', course_unique h2 h2', heading_unique h3 h3'⟩

/-- C151: a long-range report (type 27, in tenths of a minute) of the same place is reported with latitude and longitude exchanged,
provided that the place is available in the other message. -/
theorem C151_long_range (env env' : Env) (p p' : Parser) (s s' talker talker' : Str) (own own' : Bool) (m : AisMessage)
    (l : LongRange) (r : ParsedSentence) (hm : m.Fits) (hl : l.Fits) (h : Delivers p s talker own (armor m.bits))
    (h' : Delivers p' s' talker' own' (armor l.bits)) (hs : m.place = some (1000 * l.lat, 1000 * l.lon))
    (h1 : 1000 * l.lat ≠ 91 * 600000) (h2 : 1000 * l.lon ≠ 181 * 600000) (hr : (parseSentence env p s).1 = .ok r) :
    ∃ x y r', positionOf r = some (x, y) ∧ (parseSentence env' p' s').1 = .ok r' ∧ positionOf r' = some (y, x) := by
  have t := tells_delivered env p s talker own m hm (place_whole hs) h
  rw [hr] at t
  obtain ⟨x, y, e, a, b⟩ := tells_place t hs
  obtain ⟨d, e', d1⟩ := tells_delivered env' p' s' talker' own' (.longRange l) hl trivial h'
  refine ⟨x, y, _, e, e', ?_⟩
  unfold Degrees at a b
  rw [if_neg h1] at a
  rw [if_neg h2] at b
  have e1 : ((1000 * l.lat : Int) : Rat) / 600000 = l.lat / 600 := by push_cast; ring
  have e2 : ((1000 * l.lon : Int) : Rat) / 600000 = l.lon / 600 := by push_cast; ring
  rw [e1] at a
  rw [e2] at b
  simp only [positionOf, rounded_unique d1.2.2.2.2.2.2.2.1 b, rounded_unique d1.2.2.2.2.2.2.2.2.1 a]

theorem forall₂_at {α β : Type} {R : α → β → Prop} {l : List α} {l' : List β} (h : List.Forall₂ R l l') (i : Nat) (x : α)
    (hx : l[i]? = some x) : ∃ y, l'[i]? = some y ∧ R x y := by
  induction h generalizing i with
  | nil => cases hx
  | cons h1 _ ih =>
    cases i with
    | zero => cases hx; exact ⟨_, rfl, h1⟩
    | succ i => exact ih i hx

/-- C151: in any sequence of broadcasts, a report of static data in type 5 and one in type 24 (parts A and B) with the same values
agree: identity, name, call sign, type of ship and cargo, dimensions, class of the transponder. -/
theorem C151_static (l : List Broadcast) (h : ∀ x ∈ l, x.Fits) (i j : Nat) (x y : Broadcast) (v : Voyage) (a : StaticA)
    (b : StaticB) (d : VesselStaticData) (hx : l[i]? = some x) (hy : l[j]? = some y) (cx : x.content = .message (.voyage v))
    (cy : y.content = .static a b) (hm : v.mmsi = b.mmsi) (hn : v.name = a.name) (hc : v.callSign = b.callSign)
    (hs : v.ship = b.ship) (hd : (v.bow, v.stern, v.port, v.starboard) = (b.bow, b.stern, b.port, b.starboard))
    (hr : (told (answers Parser.new (l.flatMap Broadcast.sentences)))[i]? = some (.ok (.vesselStaticData d))) :
    ∃ d', (told (answers Parser.new (l.flatMap Broadcast.sentences)))[j]? = some (.ok (.vesselStaticData d')) ∧
      d'.mmsi = d.mmsi ∧ d'.name = d.name ∧ d'.callSign = d.callSign ∧ d'.shipType = d.shipType ∧ d'.cargoType = d.cargoType ∧
      d'.dimensionToBow = d.dimensionToBow ∧ d'.dimensionToStern = d.dimensionToStern ∧
      d'.dimensionToPort = d.dimensionToPort ∧ d'.dimensionToStarboard = d.dimensionToStarboard ∧ d'.aisType = d.aisType := by
  have hall := C122_end_to_end l h
  obtain ⟨u, h1, h2⟩ := forall₂_at hall i x hx
  obtain ⟨w, h3, h4⟩ := forall₂_at hall j y hy
  rw [hr] at h1
  cases h1
  simp only [Broadcast.Tells, cx, AisMessage.Tells] at h2
  simp only [Broadcast.Tells, cy] at h4
  simp only [Prod.mk.injEq] at hd
  obtain ⟨d1, d2, d3, d4⟩ := hd
  split at h2
  · cases h2
    refine ⟨_, h3.trans (congrArg some h4), ?_⟩
    simp only [Voyage.data, StaticB.data, blankStatic, hm, hn, hc, hs, d1, d2, d3, d4]
    exact ⟨trivial, trivial, trivial, trivial, trivial, trivial, trivial, trivial, trivial, trivial⟩
  · cases h2

/-- The static data of a ship, in type 5 and in type 24. -/
example : let l : List Broadcast :=
      [⟨demoEnv, c! "AI", false, 2, c! "B", .message (.voyage ⟨0, 351759000, 0, 9134270, c! "3FOF8", c! "EVER DIADEM", 70, 225,
        70, 1, 31, 1, 5, 15, 14, 0, 122, c! "NEW YORK", false, false⟩)⟩,
       ⟨demoEnv, c! "AI", false, 3, c! "A", .static ⟨0, 351759000, c! "EVER DIADEM"⟩
        ⟨0, 351759000, 70, c! "1D0", 12, 0, c! "3FOF8", 225, 70, 1, 31, 0⟩⟩]
    (∀ x ∈ l, x.Fits) ∧
    (told (answers Parser.new (l.flatMap Broadcast.sentences))).map (fun a => match a with
      | .ok (.vesselStaticData d) => some (d.mmsi, d.name, d.dimensionToBow) | _ => none) =
    [some (351759000, some (c! "EVER DIADEM"), some 225), some (351759000, some (c! "EVER DIADEM"), some 225)] := by
  constructor
  · simp only [List.forall_mem_cons, List.not_mem_nil, false_implies, implies_true, and_true, Broadcast.Fits,
      AisMessage.Fits, AisMessage.IsWhole]
    unfold Voyage.Fits StaticA.Fits StaticB.Fits
    refine ⟨⟨by decide, by decide, by decide, by decide⟩, ⟨by decide, by decide, by decide, by decide⟩⟩
  · decide +kernel

/-- A ship 10 degrees north and 20 degrees east. -/
def nearReport : PositionA := ⟨1, 0, 205344990, 15, 0, 123, true, 12000000, 6000000, 1107, 511, 9, 0, 0, false, 34017⟩

/-- Its long-range report. -/
def farReport : LongRange := ⟨0, 205344990, false, false, 15, 12000, 6000, 12, 111, false, false⟩

/-- A class A and a class B ship, one at the place of the other, with the same motion, and the long-range report of both. -/
example : let b : PositionB := ⟨0, 366730000, 0, 123, false, 12000000, 6000000, 1107, 511, 9, 0, true, false, false, false, false, false, false, 0⟩
    nearReport.Fits ∧ b.Fits ∧ farReport.Fits ∧ (AisMessage.positionA nearReport).place = (AisMessage.positionB b).place ∧
    (AisMessage.positionA nearReport).motion = (AisMessage.positionB b).motion ∧
    (AisMessage.positionA nearReport).place = some (1000 * farReport.lat, 1000 * farReport.lon) ∧
    1000 * farReport.lat ≠ 91 * 600000 ∧ 1000 * farReport.lon ≠ 181 * 600000 := by
  refine ⟨?_, ?_, ?_, rfl, rfl, rfl, by decide, by decide⟩
  · unfold PositionA.Fits; decide
  · unfold PositionB.Fits; decide
  · unfold LongRange.Fits; decide

/-- C151: 'all reports of a ship at one place show the same place' is false for long-range reports. -/
theorem C151_counterexample : ¬ ∀ (m : PositionA) (l : LongRange) (r r' : ParsedSentence), m.Fits → l.Fits →
    m.lat = 1000 * l.lat → m.lon = 1000 * l.lon →
    alone demoEnv (wholeSentence (c! "AI") false (c! "A") (armor m.bits) (fillCount m.bits)) = .ok r →
    alone demoEnv (wholeSentence (c! "AI") false (c! "A") (armor l.bits) (fillCount l.bits)) = .ok r' →
    positionOf r = positionOf r' := by
  intro h
  have key : ∀ a b : Answer, (match a, b with | .ok r, .ok r' => decide (positionOf r = positionOf r') | _, _ => true) = false →
      ∃ r r', a = .ok r ∧ b = .ok r' ∧ positionOf r ≠ positionOf r' := by
    intro a b hab
    cases a <;> cases b <;> simp_all
  obtain ⟨r, r', h1, h2, h3⟩ := key
    (alone demoEnv (wholeSentence (c! "AI") false (c! "A") (armor nearReport.bits) (fillCount nearReport.bits)))
    (alone demoEnv (wholeSentence (c! "AI") false (c! "A") (armor farReport.bits) (fillCount farReport.bits))) (by decide +kernel)
  exact h3 (h nearReport farReport r r' (by unfold PositionA.Fits; decide) (by unfold LongRange.Fits; decide) (by decide) (by decide)
    h1 h2)

end Nmea
