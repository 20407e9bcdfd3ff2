/-
Links without losses: the memory machine, slot by slot.
-/
import Verif.Spec.Link
import Verif.Lemmas.Streams

namespace Nmea
open Spec

/-- What a memory may hold in a slot. -/
def Spec.Slot.Cell : Slot → Type
  | .part _ _ _ => Option (Nat × Str)
  | .static _ => Option (Bool × List Bool)
  | .gsv _ _ => Nat → Option (List Str)

/-- Nothing. -/
def Spec.Slot.free : (r : Slot) → r.Cell
  | .part _ _ _ => (none : Option (Nat × Str))
  | .static _ => (none : Option (Bool × List Bool))
  | .gsv _ _ => fun _ => (none : Option (List Str))

/-- What a memory holds in a slot. -/
def Spec.Slot.at (m : Memory) : (r : Slot) → r.Cell
  | .part own id chan => m.part own id chan
  | .static mmsi => m.static mmsi
  | .gsv talker n => m.gsv talker n

/-- The memories agree but for a slot. -/
def Besides (r : Slot) (m m' : Memory) : Prop := ∀ t : Slot, t ≠ r → t.at m' = t.at m

theorem empty_of_free (m : Memory) (h : ∀ r : Slot, r.at m = r.free) : m = Memory.empty := by
  obtain ⟨a, b, c⟩ := m
  have h1 : a = fun _ _ _ => none := by funext o i c; exact h (.part o i c)
  have h2 : b = fun _ _ _ => none := by funext t n; exact h (.gsv t n)
  have h3 : c = fun _ => none := by funext i; exact h (.static i)
  subst h1 h2 h3
  rfl

theorem besides_setPart (m : Memory) (own : Bool) (id : Nat) (chan : Str) (v : Option (Nat × Str)) :
    Besides (.part own id chan) m (m.setPart own id chan v) := by
  intro t ht
  cases t with
  | part o i c =>
    refine if_neg fun e => ht ?_
    rw [e.1, e.2.1, e.2.2]
  | static _ => rfl
  | gsv _ _ => rfl

theorem besides_setStatic (m : Memory) (mmsi : Nat) (v : Option (Bool × List Bool)) :
    Besides (.static mmsi) m (m.setStatic mmsi v) := by
  intro t ht
  cases t with
  | part _ _ _ => rfl
  | static i => exact if_neg fun e => ht (by rw [e])
  | gsv _ _ => rfl

theorem besides_setGsv (m : Memory) (talker : Str) (n k : Nat) (fs : List Str) :
    Besides (.gsv talker n) m (m.setGsv talker n k fs) := by
  intro t ht
  cases t with
  | part _ _ _ => rfl
  | static i => rfl
  | gsv t n' =>
    funext j
    refine if_neg fun e => ht ?_
    rw [e.1, e.2.1]

theorem besides_clearGsv (m : Memory) (talker : Str) (n : Nat) :
    Besides (.gsv talker n) m (m.clearGsv talker n) := by
  intro t ht
  cases t with
  | part _ _ _ => rfl
  | static i => rfl
  | gsv t n' =>
    funext j
    refine if_neg fun e => ht ?_
    rw [e.1, e.2.1]

theorem Besides.trans {r : Slot} {a b c : Memory} (h1 : Besides r a b) (h2 : Besides r b c) : Besides r a c :=
  fun t ht => (h2 t ht).trans (h1 t ht)

/-- With `c` in the slot, the sentences lead to the answer and leave the slot free, without touching another slot. -/
def Leads (r : Slot) : r.Cell → List (Env × Str) → Answer → Prop
  | _, [], _ => False
  | c, [x], a => ∀ m, r.at m = c → ∃ m', Step x.1 m x.2 a m' ∧ r.at m' = r.free ∧ Besides r m m'
  | c, x :: y :: xs, a => ∃ c', (∀ m, r.at m = c → ∃ m', Step x.1 m x.2 (.ok .incomplete) m' ∧ r.at m' = c' ∧
      Besides r m m') ∧ Leads r c' (y :: xs) a

/-- The sentences of a GSV group received so far. -/
def received (l : List GsvIn) : Nat → Option (List Str) := fun k => (l.find? fun x => x.num = k).map (·.fields)

theorem received_none {l : List GsvIn} {k : Nat} (h : k ∉ l.map (·.num)) : received l k = none := by
  rw [received, Option.map_eq_none_iff, List.find?_eq_none]
  intro x hx e
  exact h (List.mem_map.mpr ⟨x, hx, by simpa using e⟩)

theorem received_some {l : List GsvIn} {k : Nat} (h : k ∈ l.map (·.num)) : received l k ≠ none := by
  obtain ⟨x, hx, rfl⟩ := List.mem_map.mp h
  rw [received, Ne, Option.map_eq_none_iff, List.find?_eq_none]
  intro hc
  exact hc x hx (by simp)

theorem received_append (l : List GsvIn) (x : GsvIn) (h : x.num ∉ l.map (·.num)) (k : Nat) :
    received (l ++ [x]) k = if k = x.num then some x.fields else received l k := by
  by_cases hk : k = x.num
  · rw [if_pos hk]
    subst hk
    have := received_none h
    rw [received, Option.map_eq_none_iff] at this
    rw [received, List.find?_append, this]
    simp
  · rw [if_neg hk, received, List.find?_append, received]
    have : List.find? (fun x => decide (x.num = k)) [x] = none := by
      simp [Ne.symm hk]
    rw [this, Option.or_none]

theorem leads_gsv (talker : Str) (n : Nat) (hn : n < 2 ^ 32 - 1) (l2 : List GsvIn) :
    ∀ l1 : List GsvIn, l2 ≠ [] → (∀ x ∈ l1 ++ l2, GsvPart talker n x.num x.fields x.sentence) →
    ((l1 ++ l2).map (·.num)).Perm (List.range' 1 n) →
    Leads (.gsv talker n) (received l1) (l2.map fun x => (x.env, x.sentence))
      (.ok (.gsv ((List.range' 1 n).flatMap fun k => satellites (talkerSystem talker) (fieldsOf (l1 ++ l2) k)))) := by
  induction l2 with
  | nil => intro _ h; exact absurd rfl h
  | cons x l2 ih =>
    intro l1 _ hl hp
    have hx := hl x (by simp)
    have hnd : ((l1 ++ x :: l2).map (·.num)).Nodup := hp.nodup_iff.mpr (List.nodup_range')
    have hx1 : x.num ∉ l1.map (·.num) := by
      rw [List.map_append, List.map_cons, List.nodup_append] at hnd
      exact fun h => hnd.2.2 _ h _ List.mem_cons_self rfl
    have hset : ∀ m : Memory, Slot.at m (.gsv talker n) = received l1 →
        ∀ k, (m.setGsv talker n x.num x.fields).gsv talker n k = received (l1 ++ [x]) k := by
      intro m hm k
      rw [received_append l1 x hx1]
      by_cases hk : k = x.num
      · subst hk
        rw [setGsv_self, if_pos rfl]
      · rw [setGsv_ne _ _ _ _ _ _ hk, if_neg hk]
        exact congrFun hm k
    cases l2 with
    | nil =>
      intro m hm
      have hall : ∀ j, 1 ≤ j → j ≤ n → j ≠ x.num → m.gsv talker n j ≠ none := by
        intro j h1 h2 h3
        have hj : j ∈ (l1 ++ [x]).map (·.num) := hp.mem_iff.mpr (List.mem_range'_1.mpr ⟨h1, by omega⟩)
        have hj1 : j ∈ l1.map (·.num) := by
          rw [List.map_append, List.mem_append] at hj
          rcases hj with hj | hj
          · exact hj
          · simp at hj; exact absurd hj h3
        have e : m.gsv talker n j = received l1 j := congrFun hm j
        rw [e]
        exact received_some hj1
      have s1 := Step.gsvDone (env := x.env) (m := m) hx hn hall
      simp only [hset m hm] at s1
      refine ⟨_, s1, ?_, (besides_setGsv _ _ _ _ _).trans (besides_clearGsv _ _ _)⟩
      funext k
      show (((m.setGsv talker n x.num x.fields).clearGsv talker n).gsv talker n k : Option (List Str)) = none
      by_cases h : 1 ≤ k ∧ k ≤ n
      · exact clearGsv_in _ _ _ _ h.1 h.2
      · have : ((m.setGsv talker n x.num x.fields).clearGsv talker n).gsv talker n k =
            (m.setGsv talker n x.num x.fields).gsv talker n k := if_neg (fun e => h e.2.2)
        rw [this, hset m hm]
        refine received_none fun hk => h ?_
        have := List.mem_range'_1.mp (hp.mem_iff.mp hk)
        omega
    | cons y l2 =>
      refine ⟨(received (l1 ++ [x]) : Nat → Option (List Str)), ?_, ?_⟩
      · intro m hm
        refine ⟨_, Step.gsvWaits (env := x.env) (m := m) hx hn ⟨y.num, ?_⟩, ?_, besides_setGsv _ _ _ _ _⟩
        · have hy : y.num ∈ (l1 ++ x :: y :: l2).map (·.num) := by simp
          have hr := List.mem_range'_1.mp (hp.mem_iff.mp hy)
          have hne : y.num ∉ l1.map (·.num) ∧ y.num ≠ x.num := by
            rw [List.map_append, List.map_cons, List.map_cons, List.nodup_append] at hnd
            refine ⟨fun h => hnd.2.2 _ h _ (by simp) rfl, fun e => ?_⟩
            have := hnd.2.1
            rw [e] at this
            simp at this
          refine ⟨hr.1, by omega, hne.2, ?_⟩
          have e : m.gsv talker n y.num = received l1 y.num := congrFun hm y.num
          rw [e]
          exact received_none hne.1
        · funext k
          exact hset m hm k
      · have := ih (l1 ++ [x]) (by simp) (by simpa using hl) (by simpa using hp)
        simpa using this

theorem sent_leads {r : Slot} {xs : List (Env × Str)} {a : Answer} (h : Sent r xs a) : Leads r r.free xs a := by
  cases h with
  | @inOrder own id chan t1 t2 x y s1 s2 e1 e2 h1 h2 hx ht =>
    refine ⟨(some (1, x) : Option (Nat × Str)), fun m hm => ⟨_, .waits h1 (.inl rfl) (fun z e => ?_), setPart_self _ _ _ _ _,
      besides_setPart _ _ _ _ _⟩, fun m hm => ⟨_, .second h2 hm (.plain (NotStatic.plain ⟨hx, ht⟩ _ _)),
      setPart_self _ _ _ _ _, besides_setPart _ _ _ _ _⟩⟩
    rw [show m.part own id chan = none from hm] at e
    cases e
  | @reversed own id chan t1 t2 x y s1 s2 e1 e2 h1 h2 hx ht =>
    refine ⟨(some (2, y) : Option (Nat × Str)), fun m hm => ⟨_, .waits h2 (.inr rfl) (fun z e => ?_), setPart_self _ _ _ _ _,
      besides_setPart _ _ _ _ _⟩, fun m hm => ⟨_, .first h1 hm (.plain (NotStatic.plain ⟨hx, ht⟩ _ _)),
      setPart_self _ _ _ _ _, besides_setPart _ _ _ _ _⟩⟩
    rw [show m.part own id chan = none from hm] at e
    cases e
  | @staticAB mmsi a b ha hb =>
    refine ⟨(some (a.own, a.bits) : Option (Bool × List Bool)), fun m hm => ⟨_, static_waits ha (by decide) m hm,
      setStatic_self _ _ _, besides_setStatic _ _ _⟩, fun m hm => ⟨_, ?_, setStatic_self _ _ _, besides_setStatic _ _ _⟩⟩
    rw [← overlay_BA b.own a.own a.bits b.bits ha.2.2.2.2 hb.2.2.2.2]
    exact static_done hb (by decide) m hm
  | @staticBA mmsi a b ha hb =>
    refine ⟨(some (b.own, b.bits) : Option (Bool × List Bool)), fun m hm => ⟨_, static_waits hb (by decide) m hm,
      setStatic_self _ _ _, besides_setStatic _ _ _⟩, fun m hm => ⟨_, ?_, setStatic_self _ _ _, besides_setStatic _ _ _⟩⟩
    rw [← overlay_AB a.own b.own a.bits b.bits ha.2.2.2.2 hb.2.2.2.2 (ha.2.2.2.1.trans hb.2.2.2.1.symm)]
    exact static_done ha (by decide) m hm
  | @gsv talker n l hn h0 hl hp =>
    have hne : l ≠ [] := by
      rintro rfl
      have := hp.length_eq
      simp at this
      omega
    exact leads_gsv talker n hn l [] hne hl hp

/-- Sentences of one message that arrive in order, and the report. -/
inductive InOrder : Slot → List (Env × Str) → Answer → Prop where
  | part {own : Bool} {id : Nat} {chan t1 t2 x y s1 s2 : Str} {e1 e2 : Env}
      (h1 : Part t1 own 1 id chan x s1) (h2 : Part t2 own 2 id chan y s2)
      (hx : x ≠ []) (ht : typeOf (payloadBits x) ≠ 24) :
      InOrder (.part own id chan) [(e1, s1), (e2, s2)] (alone e2 (aisSentence t2 own (x ++ y)))
  | static {mmsi : Nat} {a b : StaticSentence} (ha : a.Of mmsi 0) (hb : b.Of mmsi 1)
      (hr : ∀ env, Readable env a.payload ∧ Readable env b.payload) :
      InOrder (.static mmsi) [(a.env, a.sentence), (b.env, b.sentence)]
        (.ok (.vesselStaticData (fullStatic b.own a.bits b.bits)))
  | gsv {talker : Str} {n : Nat} {l : List GsvIn} (hn : n < 2 ^ 32 - 1) (h0 : 1 ≤ n)
      (hl : ∀ x ∈ l, GsvPart talker n x.num x.fields x.sentence) (hp : l.map (·.num) = List.range' 1 n) :
      InOrder (.gsv talker n) (l.map fun x => (x.env, x.sentence))
        (.ok (.gsv ((List.range' 1 n).flatMap fun k => satellites (talkerSystem talker) (fieldsOf l k))))

theorem InOrder.sent {r : Slot} {xs : List (Env × Str)} {a : Answer} (h : InOrder r xs a) : Sent r xs a := by
  cases h with
  | part h1 h2 hx ht => exact .inOrder h1 h2 hx ht
  | static ha hb _ => exact .staticAB ha hb
  | gsv hn h0 hl hp => exact .gsv hn h0 hl (hp ▸ .refl _)

/-- A message of its own is answered as if it stood alone. -/
theorem whole_step {env : Env} {s : Str} (h : Whole env s) (m : Memory) : Step env m s (alone env s) m := by
  rcases h with h | ⟨talker, own, payload, h1, h2⟩
  · exact .other h
  · have e : alone env s = alone env (aisSentence talker own payload) := by
      have := answers_of_trace (.cons (.single (env := env) h1 (.plain h2)) (.nil Memory.empty))
      exact (List.cons.inj this).1
    rw [e]
    exact .single h1 (.plain h2)

/-- The memory fits the messages in transit. -/
def Fitting (o : Transit) (m : Memory) : Prop :=
  ∀ r : Slot, (o r = none → r.at m = r.free) ∧ ∀ xs a, o r = some (xs, a) → ∃ c, r.at m = c ∧ Leads r c xs a

theorem Fitting.set {o : Transit} {m m' : Memory} (h : Fitting o m) {r : Slot} (hb : Besides r m m')
    (v : Option (List (Env × Str) × Answer)) (h0 : v = none → r.at m' = r.free)
    (h1 : ∀ xs a, v = some (xs, a) → ∃ c, r.at m' = c ∧ Leads r c xs a) : Fitting (o.set r v) m' := by
  intro t
  by_cases ht : t = r
  · subst ht
    rw [show o.set t v t = v from if_pos rfl]
    exact ⟨h0, h1⟩
  · have : o.set r v t = o t := if_neg ht
    rw [this, hb t ht]
    exact h t

theorem link_trace {o : Transit} {h : List (Env × Str)} {as : List Answer} (hl : Link o h as) (m : Memory)
    (hm : Fitting o m) : Trace m h as Memory.empty := by
  induction hl generalizing m with
  | done =>
    rw [← empty_of_free m fun r => (hm r).1 rfl]
    exact .nil m
  | whole hs _ ih => exact .cons (whole_step hs m) (ih m hm)
  | @only o r x a h as hf hs _ ih =>
    obtain ⟨m', s1, h1, h2⟩ := sent_leads hs m ((hm r).1 hf)
    refine .cons s1 (ih m' ?_)
    have := hm.set h2 none (fun _ => h1) (fun _ _ e => by cases e)
    have e : o.set r none = o := by
      funext t
      by_cases ht : t = r
      · rw [Transit.set, if_pos ht, ht, hf]
      · rw [Transit.set, if_neg ht]
    rwa [e] at this
  | @start o r x y xs a h as hf hs _ ih =>
    obtain ⟨c', k1, k2⟩ := sent_leads hs
    obtain ⟨m', s1, h1, h2⟩ := k1 m ((hm r).1 hf)
    refine .cons s1 (ih m' (hm.set h2 _ (fun e => by cases e) fun xs a e => ?_))
    cases e
    exact ⟨c', h1, k2⟩
  | @more o r x y xs a h as ho _ ih =>
    obtain ⟨c, hc, c', k1, k2⟩ := (hm r).2 _ _ ho
    obtain ⟨m', s1, h1, h2⟩ := k1 m hc
    refine .cons s1 (ih m' (hm.set h2 _ (fun e => by cases e) fun xs a e => ?_))
    cases e
    exact ⟨c', h1, k2⟩
  | @last o r x a h as ho _ ih =>
    obtain ⟨c, hc, k1⟩ := (hm r).2 _ _ ho
    obtain ⟨m', s1, h1, h2⟩ := k1 m hc
    exact .cons s1 (ih m' (hm.set h2 none (fun _ => h1) (fun _ _ e => by cases e)))

theorem fitting_empty : Fitting (fun _ => none) Memory.empty := by
  intro r
  refine ⟨fun _ => ?_, fun _ _ e => by cases e⟩
  cases r <;> rfl

/-- The rest of a message that is in transit, without interruption. -/
theorem link_rest (r : Slot) (o : Transit) (hf : o r = none) (y : Env × Str) (xs : List (Env × Str)) (a : Answer)
    (h : List (Env × Str)) (as : List Answer) (hl : Link o h as) :
    Link (o.set r (some (y :: xs, a))) (y :: xs ++ h) (List.replicate xs.length (.ok .incomplete) ++ a :: as) := by
  induction xs generalizing y with
  | nil =>
    refine .last (slot := r) (if_pos rfl) ?_
    have e : (o.set r (some ([y], a))).set r none = o := by
      funext t
      by_cases ht : t = r
      · rw [Transit.set, if_pos ht, ht, hf]
      · rw [Transit.set, if_neg ht, Transit.set, if_neg ht]
    rwa [e]
  | cons z xs ih =>
    refine .more (slot := r) (if_pos rfl) ?_
    have e : (o.set r (some (y :: z :: xs, a))).set r (some (z :: xs, a)) = o.set r (some (z :: xs, a)) := by
      funext t
      by_cases ht : t = r
      · rw [Transit.set, if_pos ht, Transit.set, if_pos ht]
      · rw [Transit.set, if_neg ht, Transit.set, if_neg ht, Transit.set, if_neg ht]
    rw [e]
    exact ih z

theorem link_oneByOne (l : List (List (Env × Str) × Answer)) (hl : ∀ x ∈ l, Transmission x.1 x.2) :
    Link (fun _ => none) (l.flatMap (·.1)) (oneByOne l) := by
  induction l with
  | nil => exact .done
  | cons x l ih =>
    obtain ⟨xs, a⟩ := x
    have hl' := ih fun y hy => hl y (List.mem_cons_of_mem _ hy)
    have hx := hl _ List.mem_cons_self
    rw [List.flatMap_cons]
    simp only [oneByOne]
    cases hx with
    | whole h => exact .whole h hl'
    | @sent r _ _ h =>
      match xs, h with
      | [], h => exact (sent_leads h).elim
      | [x], h => exact .only rfl h hl'
      | x :: y :: xs, h =>
        exact .start rfl h (link_rest r _ rfl y xs a _ _ hl')

end Nmea
