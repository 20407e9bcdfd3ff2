/-
C114: what each value of a report depends on.
-/
import Verif.Lemmas.Locality
import Verif.Props.Values
import Verif.Props.Gnss
import Verif.Props.Messages

namespace Nmea
open Spec

/-- C114: two messages of the same type (not 24): every value of the report depends only on its bit fields. -/
theorem C114_bit_fields (env : Env) (p p' : Parser) (s s' talker : Str) (own : Bool) (bits bits' : List Bool)
    (h : DeliversBits env p s talker own bits) (h' : DeliversBits env p' s' talker own bits')
    (ht : typeOf bits' = typeOf bits) (h24 : typeOf bits ≠ 24) (r r' : ParsedSentence)
    (hr : (parseSentence env p s).1 = .ok r) (hr' : (parseSentence env p' s').1 = .ok r')
    (x : Value) (ws : List (Nat × Nat)) (hx : (x, ws) ∈ bitSources (typeOf bits))
    (ha : ∀ i w, (i, w) ∈ ws → window bits i w = window bits' i w) : x.read r = x.read r' := by
  obtain ⟨q, -, e⟩ := eval_bits env p s talker own bits h
  obtain ⟨q', -, e'⟩ := eval_bits env p' s' talker own bits' h'
  rw [e] at hr
  rw [e'] at hr'
  have t1 : pickU64 bits 0 6 = typeOf bits := pickU64_window _ _ _ (by decide)
  have t2 : pickU64 bits' 0 6 = typeOf bits := (pickU64_window _ _ _ (by decide)).trans ht
  have key : LocalBits (bitSources (typeOf bits)) bits bits' r r' := by
    unfold dispatchAis at hr hr'
    simp only [t1] at hr
    simp only [t2] at hr'
    generalize typeOf bits = t at *
    split at hr <;> simp only [] at hr hr'
    · exact local_T123 _ _ _ _ _ _ _ (.inl rfl) hr hr'
    · exact local_T123 _ _ _ _ _ _ _ (.inr (.inl rfl)) hr hr'
    · exact local_T123 _ _ _ _ _ _ _ (.inr (.inr rfl)) hr hr'
    · exact local_T4 _ _ _ _ _ _ hr hr'
    · exact local_T5 _ _ _ _ _ _ _ hr hr'
    · exact local_T6 _ _ _ _ _ _ hr hr'
    · exact local_T9 _ _ _ _ _ _ hr hr'
    · exact local_T10 _ _ _ _ _ _ hr hr'
    · exact local_T18 _ _ _ _ _ _ hr hr'
    · cases hr
    · exact local_T21 _ _ _ _ _ _ hr hr'
    · exact absurd rfl h24
    · exact local_T27 _ _ _ _ _ _ hr hr'
    · cases hr
  exact key _ hx (fun w hw => ha w.1 w.2 hw)

/-- Two position reports that differ in the radio status: the speeds agree. -/
example (env : Env) (p p' : Parser) (r r' : ParsedSentence)
    (hr : (parseSentence env p (c! "!AIVDM,1,1,,A,15RTgt0PAso;90TKcjM8h6g208CQ,0")).1 = .ok r)
    (hr' : (parseSentence env p' (c! "!AIVDM,1,1,,A,15RTgt0PAso;90TKcjM8h6g208CR,0")).1 = .ok r') :
    (dyn (·.sogKnots)).read r = (dyn (·.sogKnots)).read r' :=
  C114_bit_fields env p p' _ _ (c! "AI") false _ _
    (demoDelivers env p _ _ _ [c! "1", c! "1", [], c! "A", c! "15RTgt0PAso;90TKcjM8h6g208CQ", c! "0"] .bare
      ⟨by decide, by decide, by decide, by decide, by decide +kernel⟩ rfl rfl (by decide))
    (demoDelivers env p' _ _ _ [c! "1", c! "1", [], c! "A", c! "15RTgt0PAso;90TKcjM8h6g208CR", c! "0"] .bare
      ⟨by decide, by decide, by decide, by decide, by decide +kernel⟩ rfl rfl (by decide))
    (by decide +kernel) (by decide +kernel) r r' hr hr' (dyn (·.sogKnots)) [(50, 10)] (List.mem_of_getElem? (i := 7) rfl)
    (by intro i w h; obtain ⟨rfl, rfl⟩ : i = 50 ∧ w = 10 := by simpa using h
        decide +kernel)

/-- C114: the list of values is complete: reports of messages of one type that agree in all its values are the same. -/
theorem C114_complete (env : Env) (p p' : Parser) (s s' talker : Str) (own : Bool) (bits bits' : List Bool)
    (h : DeliversBits env p s talker own bits) (h' : DeliversBits env p' s' talker own bits')
    (ht : typeOf bits' = typeOf bits) (h24 : typeOf bits ≠ 24) (r r' : ParsedSentence)
    (hr : (parseSentence env p s).1 = .ok r) (hr' : (parseSentence env p' s').1 = .ok r')
    (ha : ∀ x ws, (x, ws) ∈ bitSources (typeOf bits) → x.read r = x.read r') : r = r' := by
  obtain ⟨q, -, e⟩ := eval_bits env p s talker own bits h
  obtain ⟨q', -, e'⟩ := eval_bits env p' s' talker own bits' h'
  rw [e] at hr
  rw [e'] at hr'
  have t1 : pickU64 bits 0 6 = typeOf bits := pickU64_window _ _ _ (by decide)
  have t2 : pickU64 bits' 0 6 = typeOf bits := (pickU64_window _ _ _ (by decide)).trans ht
  unfold dispatchAis at hr hr'
  simp only [t1] at hr
  simp only [t2] at hr'
  have ha' : AllValues (bitSources (typeOf bits)) r r' := fun x hx => ha x.1 x.2 hx
  clear ha
  generalize typeOf bits = t at *
  split at hr <;> simp only [] at hr hr'
  · cases hr; cases hr'; rw [all_dyn _ (by decide) _ _ ha']
  · cases hr; cases hr'; rw [all_dyn _ (by decide) _ _ ha']
  · cases hr; cases hr'; rw [all_dyn _ (by decide) _ _ ha']
  · unfold handleT4 at hr hr'
    rw [Out.bind_eq_ok] at hr hr'
    obtain ⟨t, h1, hr⟩ := hr
    obtain ⟨t', h1', hr'⟩ := hr'
    cases hr; cases hr'; rw [all_base _ _ ha']
  · unfold handleT5 at hr hr'
    simp only [Out.bind_eq_ok, liftErr_pickString, Out.ok.injEq, exists_eq_left'] at hr hr'
    obtain ⟨t, h1, rfl⟩ := hr
    obtain ⟨t', h1', rfl⟩ := hr'
    rw [all_stat _ _ ha']
  · cases hr; cases hr'; rw [all_addr _ _ ha']
  · cases hr; cases hr'; rw [all_sar _ _ ha']
  · cases hr; cases hr'; rw [all_inq _ _ ha']
  · cases hr; cases hr'; rw [all_dyn _ (by decide) _ _ ha']
  · cases hr
  · unfold handleT21 at hr hr'
    simp only [Out.bind_eq_ok, liftErr_pickString, Out.ok.injEq, exists_eq_left'] at hr hr'
    subst hr
    subst hr'
    rw [all_aton _ _ ha']
  · exact absurd rfl h24
  · cases hr; cases hr'; rw [all_dyn _ (by decide) _ _ ha']
  · cases hr

/-- Two position reports of one sender with different positions. -/
example : ∃ a b : PositionA, a.Fits ∧ b.Fits ∧ a.lat ≠ b.lat ∧ typeOf a.bits = 1 ∧ typeOf b.bits = 1 ∧
    window a.bits 50 10 = window b.bits 50 10 :=
  ⟨⟨1, 0, 227006760, 0, 0, 36, false, 78924, 29688450, 367, 511, 14, 0, 0, false, 0⟩,
   ⟨1, 0, 227006760, 0, 0, 36, false, 78924, 29688451, 367, 511, 14, 0, 0, false, 0⟩,
   by unfold PositionA.Fits; decide, by unfold PositionA.Fits; decide, by decide, by decide +kernel, by decide +kernel,
   by decide +kernel⟩

theorem window_outside (bits bits' : List Bool) (lo hi i w : Nat)
    (h : ∀ j, j < lo ∨ hi ≤ j → bits[j]? = bits'[j]?) (hw : i + w ≤ lo ∨ hi ≤ i) : window bits i w = window bits' i w := by
  rw [← bitsAt_range', ← bitsAt_range']
  unfold bitsAt
  apply List.map_congr_left
  intro q hq
  rw [List.mem_range'_1] at hq
  rw [h q (by omega)]

/-- C114: a transmission error that falsifies some of the bits from `lo` to `hi` (not the message type) leaves every value
unchanged whose bit fields are elsewhere. -/
theorem C114_error_burst (env : Env) (p p' : Parser) (s s' talker : Str) (own : Bool) (bits bits' : List Bool)
    (lo hi : Nat) (h : DeliversBits env p s talker own bits) (h' : DeliversBits env p' s' talker own bits')
    (hb : ∀ j, j < lo ∨ hi ≤ j → bits[j]? = bits'[j]?) (hl : 6 ≤ lo) (h24 : typeOf bits ≠ 24) (r r' : ParsedSentence)
    (hr : (parseSentence env p s).1 = .ok r) (hr' : (parseSentence env p' s').1 = .ok r')
    (x : Value) (ws : List (Nat × Nat)) (hx : (x, ws) ∈ bitSources (typeOf bits))
    (ha : ∀ i w, (i, w) ∈ ws → i + w ≤ lo ∨ hi ≤ i) : x.read r = x.read r' := by
  refine C114_bit_fields env p p' s s' talker own bits bits' h h' ?_ h24 r r' hr hr' x ws hx
    (fun i w hw => window_outside _ _ lo hi i w hb (ha i w hw))
  unfold typeOf
  rw [window_outside bits bits' lo hi 0 6 hb (by omega)]

/-- The same two reports: bits 162 to 167 differ at most. -/
example (env : Env) (p p' : Parser) (r r' : ParsedSentence)
    (hr : (parseSentence env p (c! "!AIVDM,1,1,,A,15RTgt0PAso;90TKcjM8h6g208CQ,0")).1 = .ok r)
    (hr' : (parseSentence env p' (c! "!AIVDM,1,1,,A,15RTgt0PAso;90TKcjM8h6g208CR,0")).1 = .ok r') :
    (dyn (·.longitude)).read r = (dyn (·.longitude)).read r' := by
  refine C114_error_burst env p p' _ _ (c! "AI") false _ _ 162 168
    (demoDelivers env p _ _ _ [c! "1", c! "1", [], c! "A", c! "15RTgt0PAso;90TKcjM8h6g208CQ", c! "0"] .bare
      ⟨by decide, by decide, by decide, by decide, by decide +kernel⟩ rfl rfl (by decide))
    (demoDelivers env p' _ _ _ [c! "1", c! "1", [], c! "A", c! "15RTgt0PAso;90TKcjM8h6g208CR", c! "0"] .bare
      ⟨by decide, by decide, by decide, by decide, by decide +kernel⟩ rfl rfl (by decide))
    (fun j hj => ?_) (by decide) (by decide +kernel) r r' hr hr' (dyn (·.longitude)) [(61, 28)]
    (List.mem_of_getElem? (i := 9) rfl) (by simp)
  rcases hj with hj | hj
  · have : ∀ j < 162, (payloadBits (c! "15RTgt0PAso;90TKcjM8h6g208CQ"))[j]? =
      (payloadBits (c! "15RTgt0PAso;90TKcjM8h6g208CR"))[j]? := by decide +kernel
    exact this j hj
  · rw [List.getElem?_eq_none, List.getElem?_eq_none]
    · exact Nat.le_trans (by decide +kernel) hj
    · exact Nat.le_trans (by decide +kernel) hj

/-- C114: one falsified character of the payload (not the first) leaves every value unchanged whose bit fields do not
overlap its six bits. -/
theorem C114_character (env : Env) (p p' : Parser) (s s' talker : Str) (own : Bool) (a b : Str) (c c' : Char)
    (h : Delivers p s talker own (a ++ c :: b)) (h' : Delivers p' s' talker own (a ++ c' :: b))
    (hb : Readable env (a ++ c :: b)) (hb' : Readable env (a ++ c' :: b)) (hne : a ≠ [])
    (h24 : typeOf (payloadBits a) ≠ 24) (r r' : ParsedSentence)
    (hr : (parseSentence env p s).1 = .ok r) (hr' : (parseSentence env p' s').1 = .ok r')
    (x : Value) (ws : List (Nat × Nat)) (hx : (x, ws) ∈ bitSources (typeOf (payloadBits a)))
    (ha : ∀ i w, (i, w) ∈ ws → i + w ≤ 6 * a.length ∨ 6 * a.length + 6 ≤ i) : x.read r = x.read r' := by
  have len : ∀ t : Str, (payloadBits t).length = 6 * t.length := by
    intro t
    induction t with
    | nil => rfl
    | cons c t ih =>
      rw [show payloadBits (c :: t) = charBits c ++ payloadBits t from rfl, List.length_append, ih, List.length_cons, charBits,
        length_natBits]
      omega
  have app : ∀ t u : Str, payloadBits (t ++ u) = payloadBits t ++ payloadBits u := by
    intro t u
    simp [payloadBits]
  have hla : 6 ≤ 6 * a.length := by
    cases a
    · exact absurd rfl hne
    · simp only [List.length_cons]; omega
  have ty : ∀ u : Str, typeOf (payloadBits (a ++ u)) = typeOf (payloadBits a) := by
    intro u
    unfold typeOf
    rw [app, window_append_left _ _ _ _ (by rw [len]; omega)]
  refine C114_error_burst env p p' s s' talker own _ _ (6 * a.length) (6 * a.length + 6) ⟨_, h, hb, rfl⟩ ⟨_, h', hb', rfl⟩ ?_
    (by omega) (by rw [ty]; exact h24) r r' hr hr' x ws (by rw [ty]; exact hx) ha
  intro j hj
  have e : ∀ c : Char, payloadBits (a ++ c :: b) = payloadBits a ++ (payloadBits [c] ++ payloadBits b) := by
    intro c
    rw [show a ++ c :: b = a ++ ([c] ++ b) from rfl, app, app]
  have l1 : ∀ c : Char, (payloadBits [c]).length = 6 := fun c => len [c]
  have la := len a
  rw [e, e]
  rcases hj with hj | hj
  · rw [List.getElem?_append_left (by omega), List.getElem?_append_left (by omega)]
  · have g : ∀ c : Char, (payloadBits a ++ (payloadBits [c] ++ payloadBits b))[j]? = (payloadBits b)[j - (6 * a.length) - 6]? := by
      intro c
      have lc := l1 c
      rw [List.getElem?_append_right (by omega), List.getElem?_append_right (by omega), lc, la]
    rw [g, g]

/-- The last character of a position report (radio status) and the speed. -/
example : Delivers Parser.new (c! "!AIVDM,1,1,,A,15RTgt0PAso;90TKcjM8h6g208CQ,0") (c! "AI") false
      (c! "15RTgt0PAso;90TKcjM8h6g208C" ++ 'Q' :: []) ∧
    Delivers Parser.new (c! "!AIVDM,1,1,,A,15RTgt0PAso;90TKcjM8h6g208CR,0") (c! "AI") false
      (c! "15RTgt0PAso;90TKcjM8h6g208C" ++ 'R' :: []) ∧
    typeOf (payloadBits (c! "15RTgt0PAso;90TKcjM8h6g208C")) = 1 ∧
    (dyn (·.sogKnots), [(50, 10)]) ∈ bitSources 1 ∧ 50 + 10 ≤ 6 * (c! "15RTgt0PAso;90TKcjM8h6g208C").length := by
  refine ⟨.single _ ⟨[c! "1", c! "1", [], c! "A", c! "15RTgt0PAso;90TKcjM8h6g208CQ", c! "0"], 1, demoTagged .bare
    ⟨by decide, by decide, by decide, by decide, by decide⟩, demoDec (by decide), demoDec (by decide), rfl⟩,
    .single _ ⟨[c! "1", c! "1", [], c! "A", c! "15RTgt0PAso;90TKcjM8h6g208CR", c! "0"], 1, demoTagged .bare
    ⟨by decide, by decide, by decide, by decide, by decide⟩, demoDec (by decide), demoDec (by decide), rfl⟩,
    by decide +kernel, List.mem_of_getElem? (i := 7) rfl, by decide⟩

/-- C114: 'each value depends on its own field only' is false: of two voyage reports that differ in nothing but the draught,
the reported arrivals differ, too. -/
theorem C114_draught_changes_eta (env : Env) (p p' : Parser) (s s' talker : Str) (own : Bool) (m : Voyage) (draught : Nat)
    (x x' : List Bool) (hm : m.Fits) (hm' : Voyage.Fits { m with draught := draught })
    (hd : IsDateTime ⟨env.now.year, m.month, m.day, m.hour, m.minute, 0⟩) (h1 : m.draught < 240) (h2 : draught < 240)
    (hne : m.draught / 4 ≠ draught / 4) (h : Delivers p s talker own (armor (m.bits ++ x)))
    (h' : Delivers p' s' talker own (armor (Voyage.bits { m with draught := draught } ++ x'))) :
    ∃ d d', (parseSentence env p s).1 = .ok (.vesselStaticData d) ∧
      (parseSentence env p' s').1 = .ok (.vesselStaticData d') ∧ d.eta ≠ d'.eta := by
  have hd' := hd
  obtain ⟨hy, ⟨d1, d2, d3, d4⟩, t1, t2, -⟩ := hd'
  simp only [] at hy d1 d2 d3 d4 t1 t2
  have key : ∀ w : Voyage, w.month = m.month → w.day = m.day → w.hour = m.hour → w.minute = m.minute → w.draught < 240 →
      ¬ EtaAbsent w.arrival ∧ etaCandidate env.now w.arrival = ⟨env.now.year, m.month, m.day, m.hour, m.minute, w.draught / 4⟩ ∧
      IsDateTime (etaCandidate env.now w.arrival) := by
    intro w a1 a2 a3 a4 a5
    have e : etaCandidate env.now w.arrival = ⟨env.now.year, m.month, m.day, m.hour, m.minute, w.draught / 4⟩ := by
      unfold etaCandidate Voyage.arrival
      simp only [DateTime.mk.injEq, true_and]
      rw [if_neg (by omega), if_neg (by omega), if_neg (by omega), if_neg (by omega), if_neg (by omega)]
      exact ⟨a1, a2, a3, a4, rfl⟩
    refine ⟨?_, e, ?_⟩
    · unfold EtaAbsent Voyage.arrival
      simp only []
      omega
    · rw [e]
      exact ⟨hy, ⟨d1, d2, d3, d4⟩, t1, t2, by show w.draught / 4 ≤ 59; omega⟩
  obtain ⟨n1, e1, v1⟩ := key m rfl rfl rfl rfl h1
  obtain ⟨n2, e2, v2⟩ := key { m with draught := draught } rfl rfl rfl rfl h2
  refine ⟨_, _, C46_voyage env p s talker own m x hm (.inr v1) h, C46_voyage env p' s' talker own _ x' hm' (.inr v2) h', ?_⟩
  show (if EtaAbsent m.arrival then none else some (etaCandidate env.now m.arrival)) ≠
    (if EtaAbsent _ then none else some (etaCandidate env.now _))
  rw [if_neg n1, if_neg n2, e1, e2]
  simp only [ne_eq, Option.some.injEq, DateTime.mk.injEq, true_and]
  exact hne

/-- Draughts of 12.2 and 12.8 metres. -/
example : Voyage.Fits ⟨0, 351759000, 0, 9134270, c! "3FOF8", c! "EVER DIADEM", 70, 225, 70, 1, 31, 1, 5, 15, 14, 0, 122,
      c! "NEW YORK", false, false⟩ ∧ IsDateTime ⟨demoEnv.now.year, 5, 15, 14, 0, 0⟩ ∧ 122 / 4 ≠ 128 / 4 := by
  refine ⟨?_, by decide, by decide⟩
  unfold Voyage.Fits; decide

/-- C114: two GGA, RMC, GSA, VTG or GLL sentences of one kind and talker: every value of the report depends only on its
fields. -/
theorem C114_fields (env : Env) (p p' : Parser) (talker kind : Str) (fs fs' : List Str) (s s' : Str)
    (h : IsGnss talker kind fs s) (h' : IsGnss talker kind fs' s') (r r' : ParsedSentence)
    (hr : (parseSentence env p s).1 = .ok r) (hr' : (parseSentence env p' s').1 = .ok r')
    (x : Value) (is : List Nat) (hx : (x, is) ∈ fieldSources kind) (ha : ∀ i ∈ is, field fs i = field fs' i) :
    x.read r = x.read r' := by
  have key : LocalFields (fieldSources kind) fs fs' r r' := by
    by_cases k1 : kind = c! "GGA"
    · subst k1; exact local_gga env p p' talker fs fs' s s' r r' h h' hr hr'
    by_cases k2 : kind = c! "RMC"
    · subst k2; exact local_rmc env p p' talker fs fs' s s' r r' h h' hr hr'
    by_cases k3 : kind = c! "GSA"
    · subst k3; exact local_gsa env p p' talker fs fs' s s' r r' h h' hr hr'
    by_cases k4 : kind = c! "VTG"
    · subst k4; exact local_vtg env p p' talker fs fs' s s' r r' h h' hr hr'
    by_cases k5 : kind = c! "GLL"
    · subst k5; exact local_gll env p p' talker fs fs' s s' r r' h h' hr hr'
    unfold fieldSources at hx
    rw [if_neg k1, if_neg k2, if_neg k3, if_neg k4, if_neg k5] at hx
    cases hx
  exact key _ hx ha

/-- Two GGA sentences that differ in the number of satellites, and the altitude. -/
example : IsGnss (c! "GP") (c! "GGA") [c! "123519", c! "", c! "", c! "", c! "", c! "1", c! "08", c! "", c! "545.4"]
      (c! "$GPGGA,123519,,,,,1,08,,545.4") ∧
    IsGnss (c! "GP") (c! "GGA") [c! "123519", c! "", c! "", c! "", c! "", c! "1", c! "09", c! "", c! "545.4"]
      (c! "$GPGGA,123519,,,,,1,09,,545.4") ∧ (ofGga (·.altitude), [8]) ∈ fieldSources (c! "GGA") ∧
    (∃ r, (parseSentence demoEnv Parser.new (c! "$GPGGA,123519,,,,,1,08,,545.4")).1 = .ok r) ∧
    ∃ r, (parseSentence demoEnv Parser.new (c! "$GPGGA,123519,,,,,1,09,,545.4")).1 = .ok r :=
  ⟨demoTagged .bare (by decide), demoTagged .bare (by decide), List.mem_of_getElem? (i := 7) rfl,
    ⟨.gga ⟨.gps, some ⟨2024, 2, 29, 12, 35, 19⟩, none, none, .gpsFix, some 8, none, some (F64.ofRat (mkRat 5454 10)),
      none, none, none⟩, by decide +kernel⟩,
    ⟨.gga ⟨.gps, some ⟨2024, 2, 29, 12, 35, 19⟩, none, none, .gpsFix, some 9, none, some (F64.ofRat (mkRat 5454 10)),
      none, none, none⟩, by decide +kernel⟩⟩

/-- C114: the list of values is complete. -/
theorem C114_fields_complete (env : Env) (p p' : Parser) (talker kind : Str) (fs fs' : List Str) (s s' : Str)
    (h : IsGnss talker kind fs s) (h' : IsGnss talker kind fs' s')
    (hk : kind ∈ [c! "GGA", c! "RMC", c! "GSA", c! "VTG", c! "GLL"]) (r r' : ParsedSentence)
    (hr : (parseSentence env p s).1 = .ok r) (hr' : (parseSentence env p' s').1 = .ok r')
    (ha : ∀ x is, (x, is) ∈ fieldSources kind → x.read r = x.read r') : r = r' := by
  have ha' : AllValues (fieldSources kind) r r' := fun x hx => ha x.1 x.2 hx
  simp only [List.mem_cons, List.not_mem_nil, or_false] at hk
  rcases hk with rfl | rfl | rfl | rfl | rfl
  · obtain ⟨d, rfl, -⟩ := (gga_ok env p talker fs s h r).mp hr
    obtain ⟨d', rfl, -⟩ := (gga_ok env p' talker fs' s' h' r').mp hr'
    rw [all_gga _ _ ha']
  · obtain ⟨d, rfl, -⟩ := (rmc_ok env p talker fs s h r).mp hr
    obtain ⟨d', rfl, -⟩ := (rmc_ok env p' talker fs' s' h' r').mp hr'
    rw [all_rmc _ _ ha']
  · obtain ⟨d, rfl, -⟩ := (gsa_ok env p talker fs s h r).mp hr
    obtain ⟨d', rfl, -⟩ := (gsa_ok env p' talker fs' s' h' r').mp hr'
    rw [all_gsa _ _ ha']
  · obtain ⟨d, e, -⟩ := vtg_ok env p talker fs s h
    obtain ⟨d', e', -⟩ := vtg_ok env p' talker fs' s' h'
    rw [e] at hr
    rw [e'] at hr'
    cases hr
    cases hr'
    rw [all_vtg _ _ ha']
  · obtain ⟨d, rfl, -⟩ := (gll_ok env p talker fs s h r).mp hr
    obtain ⟨d', rfl, -⟩ := (gll_ok env p' talker fs' s' h' r').mp hr'
    rw [all_gll _ _ ha']

/-- Two GLL sentences that differ in a field that is not read: all values agree, and so the reports do. -/
example : ∃ r r', (parseSentence demoEnv Parser.new (c! "$GPGLL,,,,,123519,A,D,x")).1 = .ok r ∧
    (parseSentence demoEnv Parser.new (c! "$GPGLL,,,,,123519,A,D,y")).1 = .ok r' ∧ r = r' := by
  refine ⟨_, _, rfl, rfl, ?_⟩
  refine C114_fields_complete demoEnv Parser.new Parser.new (c! "GP") (c! "GLL")
    [[], [], [], [], c! "123519", c! "A", c! "D", c! "x"] [[], [], [], [], c! "123519", c! "A", c! "D", c! "y"]
    (c! "$GPGLL,,,,,123519,A,D,x") (c! "$GPGLL,,,,,123519,A,D,y")
    (demoTagged .bare (by decide +kernel)) (demoTagged .bare (by decide +kernel)) (by decide) _ _ rfl rfl (fun x is hx => ?_)
  refine C114_fields demoEnv Parser.new Parser.new (c! "GP") (c! "GLL")
    [[], [], [], [], c! "123519", c! "A", c! "D", c! "x"] [[], [], [], [], c! "123519", c! "A", c! "D", c! "y"]
    (c! "$GPGLL,,,,,123519,A,D,x") (c! "$GPGLL,,,,,123519,A,D,y")
    (demoTagged .bare (by decide +kernel)) (demoTagged .bare (by decide +kernel)) _ _ rfl rfl x is hx ?_
  have h : ∀ is ∈ (fieldSources (c! "GLL")).map Prod.snd, ∀ i ∈ is,
      field [[], [], [], [], c! "123519", c! "A", c! "D", c! "x"] i = field [[], [], [], [], c! "123519", c! "A", c! "D", c! "y"] i := by
    decide +kernel
  exact h is (List.mem_map.mpr ⟨_, hx, rfl⟩)

end Nmea
