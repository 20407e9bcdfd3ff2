/-
C141: the whole parser, specified.
-/
import Verif.Spec.Complete
import Verif.Props.Waiting
import Verif.Props.Transmit
import Verif.Lemmas.Machine

namespace Nmea
open Spec

/-! ### Texts -/

theorem shownChar_eq (env : Env) (c : Char) : shownChar env.escape c = env.debugChar c := by
  unfold shownChar Env.debugChar
  by_cases h1 : c = '"'
  · subst h1; rfl
  by_cases h2 : c = '\\'
  · subst h2; rfl
  by_cases h3 : c = '\t'
  · subst h3; rfl
  by_cases h4 : c = '\r'
  · subst h4; rfl
  by_cases h5 : c = '\n'
  · subst h5; rfl
  have hl : [('"', c! "\\\""), ('\\', c! "\\\\"), ('\t', c! "\\t"), ('\r', c! "\\r"), ('\n', c! "\\n")].lookup c = none := by
    simp only [List.lookup, beq_eq_false_iff_ne.mpr h1, beq_eq_false_iff_ne.mpr h2, beq_eq_false_iff_ne.mpr h3,
      beq_eq_false_iff_ne.mpr h4, beq_eq_false_iff_ne.mpr h5]
  rw [hl, if_neg (not_or.mpr ⟨h1, h2⟩), if_neg h3, if_neg h4, if_neg h5]
  have e1 : (' ' ≤ c) ↔ 32 ≤ c.toNat := Iff.rfl
  have e2 : (c ≤ '~') ↔ c.toNat ≤ 126 := Iff.rfl
  simp only [e1, e2]
  by_cases h6 : c = '\''
  · rw [if_pos (.inl h6), if_neg (fun h => h.2.2 h6), if_neg (fun h => h.1 h6)]
  · by_cases h7 : c.toNat = 0 ∨ 128 ≤ c.toNat
    · rw [if_pos (.inr h7), if_neg (by omega), if_neg (by omega)]
    · rw [if_neg (fun h => h.elim h6 h7)]
      by_cases h8 : 32 ≤ c.toNat ∧ c.toNat < 127
      · rw [if_pos h8, if_pos ⟨h8.1, by omega, h6⟩]
      · rw [if_neg h8, if_neg (by omega), if_pos ⟨h6, by omega, by omega⟩]

theorem corrupted_text (env : Env) (p : Parser) (a b : Str) (hb : '*' ∉ b) (hne : b ≠ []) (hbad : b ≠ checksumText a) :
    parseSentence env p (a ++ '*' :: b) = (.err (.corruptedSentence (c! "Corrupted NMEA sentence: \"" ++ checksumText a ++
      c! "\" != \"" ++ b.flatMap (shownChar env.escape) ++ c! "\"")), p) := by
  rw [parse_corrupted env p a b hb hne hbad, debugStr_plain env _ (checksumText_plain a),
    show b.flatMap (shownChar env.escape) = b.flatMap env.debugChar from List.flatMap_congr (fun c _ => shownChar_eq env c)]
  simp [Env.debugStr]

/-! ### Messages -/

theorem messageOf_supported {b : List Bool} {x : AisMessage} (h : messageOf b = some x) : typeOf b ∈ supportedTypes := by
  generalize hn : typeOf b = n
  unfold messageOf at h
  rw [hn] at h
  by_contra hs
  simp only [supportedTypes, List.mem_cons, List.not_mem_nil, or_false, not_or] at hs
  simp [hs] at h

theorem reachable_new : Reachable Parser.new := ⟨[], rfl⟩

theorem messageReply_message {env : Env} {m : Memory} {talker : Str} {own : Bool} {payload : Str} {a : Answer} {m' : Memory}
    (ht : Talker talker) (hc : ',' ∉ payload) (h : MessageReply env m talker own payload a m') :
    Message env m talker own payload a m' := by
  have hd : Delivers Parser.new (aisSentence talker own payload) talker own payload :=
    .single _ (single_of_payload talker own payload ht hc)
  have plain : ∀ b, alone env (aisSentence talker own payload) = b → ¬ IsStaticPart env payload →
      Message env m talker own payload b m := by
    rintro b rfl hn
    exact .plain hn
  cases h with
  | unreadable h =>
    exact plain _ ((C72_panics_iff _ _ _).mpr (.payload talker own payload hd h)) (fun x => h x.1)
  | unsupportedType hr h =>
    refine plain _ ((C135_unsupported _ _ reachable_new _ _).mpr (.message talker own _ ⟨payload, hd, hr, rfl⟩ h))
      (fun x => h ?_)
    rw [x.2.1]
    decide
  | otherPart hr h hp =>
    exact plain _ ((C135_invalid _ _ reachable_new _ _).mpr (.part talker own _ ⟨payload, hd, hr, rfl⟩ h hp))
      (fun x => by have := x.2.2; omega)
  | firstPart hr h hp hm => exact .first ⟨hr, h, hp⟩ hm
  | secondPart own' bits' hr h hp hm => exact .second own' bits' ⟨hr, h, hp⟩ hm
  | report x a hr h hx ha =>
    refine plain _ ?_ (fun y => h y.2.1)
    have hs := messageOf_supported hx
    obtain ⟨x', hx', hf, htt, -, he⟩ := wellFormed_of (payloadBits payload) ⟨hs, fun e => absurd e h⟩
    rw [hx] at hx'
    cases hx'
    have hw : x.IsWhole := by
      cases x with
      | staticA => exact ha.elim
      | staticB => exact ha.elim
      | _ => trivial
    have hs' := single_aisSentence talker own x.bits ht
    have e : alone env (aisSentence talker own payload) = alone env (aisSentence talker own (armor x.bits)) := by
      obtain ⟨q, hq, e1⟩ := eval_readable env Parser.new _ talker own payload hd hr
      rw [alone, alone, eval_armored env Parser.new talker own x.bits _ hs', he, e1, stationOf_eq]
      exact (dispatchAis_vsds env ('!' :: aisKind own) (payloadBits payload) (talkerStation talker) own Parser.new q hq).1
    rw [e]
    exact C122_determined _ _ _ _ _ _ (tells_delivered env Parser.new _ talker own x hf hw (.single _ hs')) ha

theorem messageReply_total (env : Env) (m : Memory) {talker : Str} (ht : Talker talker) (own : Bool) (payload : Str) :
    ∃ a m', MessageReply env m talker own payload a m' := by
  by_cases hr : Readable env payload
  · by_cases hs : typeOf (payloadBits payload) ∈ supportedTypes
    · by_cases h24 : typeOf (payloadBits payload) = 24
      · by_cases hp : partOf (payloadBits payload) < 2
        · cases hm : m.static (mmsiOf (payloadBits payload)) with
          | none => exact ⟨_, _, .firstPart hr h24 hp hm⟩
          | some x => exact ⟨_, _, .secondPart x.1 x.2 hr h24 hp hm⟩
        · exact ⟨_, _, .otherPart hr h24 (by omega)⟩
      · obtain ⟨x, hx, hf, htt, -, -⟩ := wellFormed_of (payloadBits payload) ⟨hs, fun e => absurd e h24⟩
        have hw : x.IsWhole := by
          cases x with
          | staticA m => exact absurd (htt.symm.trans (by simpa [AisMessage.bits] using (StaticA.head m hf []).1)) h24
          | staticB m => exact absurd (htt.symm.trans (by simpa [AisMessage.bits] using (StaticB.head m hf []).1)) h24
          | _ => trivial
        exact ⟨_, _, .report x _ hr h24 hx
          (tells_delivered env Parser.new _ talker own x hf hw (.single _ (single_aisSentence talker own x.bits ht)))⟩
    · exact ⟨_, _, .unsupportedType hr hs⟩
  · exact ⟨_, _, .unreadable hr⟩

/-! ### Sentences that are answered without the memory -/

/-- A `$` sentence of a kind other than GSV does not use the memory. -/
theorem notUses_gnss {talker kind : Str} {fs : List Str} {s : Str} (h : IsGnss talker kind fs s) (hc : ',' ∉ kind)
    (hk : kind ≠ c! "GSV") : ¬ UsesMemory s := by
  rintro (⟨t, own, pl, fs', k, h', -⟩ | ⟨t, own, num, id, chan, pl, ⟨fs', h', -⟩, -⟩ | ⟨t, n, k, fs', h', -⟩)
  · exact absurd (Spec.IsTagged.unique h h' (by decide) (by decide) hc (by cases own <;> decide)).1 (by decide)
  · exact absurd (Spec.IsTagged.unique h h' (by decide) (by decide) hc (by cases own <;> decide)).1 (by decide)
  · exact hk (Spec.IsTagged.unique h h' (by decide) (by decide) hc (by decide)).2.2.1

theorem notUses_ais {talker kind : Str} {fs : List Str} {s : Str} (h : IsTagged '!' talker kind fs s) (hc : ',' ∉ kind)
    (hk : kind ∉ [c! "VDM", c! "VDO"]) : ¬ UsesMemory s := by
  have key : ∀ own : Bool, kind ≠ aisKind own := by
    rintro own rfl
    cases own <;> exact hk (by decide)
  rintro (⟨t, own, pl, fs', k, h', -⟩ | ⟨t, own, num, id, chan, pl, ⟨fs', h', -⟩, -⟩ | ⟨t, n, k, fs', h', -⟩)
  · exact key own (Spec.IsTagged.unique h h' (by decide) (by decide) hc (by cases own <;> decide)).2.2.1
  · exact key own (Spec.IsTagged.unique h h' (by decide) (by decide) hc (by cases own <;> decide)).2.2.1
  · exact absurd (Spec.IsTagged.unique h h' (by decide) (by decide) hc (by decide)).1 (by decide)

theorem gsv_fault {env : Env} {p : Parser} {talker : Str} {fs : List Str} {s : Str} (hs : IsGnss talker (c! "GSV") fs s)
    {e : ParseError} (h : (parseSentence env p s).1 = .err e) : (parseSentence env p s).2 = p := by
  cases gsv_case env p talker fs s hs with
  | bad m hf h' => rw [h']
  | part n k hpt h' =>
    exfalso
    revert h
    rw [h', gsvStep]
    split_ifs <;> simp

/-- What is answered by reading the sentence only. -/
theorem state_fault {env : Env} {p : Parser} {talker kind : Str} {fs : List Str} {s : Str} {l : List (Prop × Str)}
    (hl : (kind, l) ∈ faults fs) (hs : IsGnss talker kind fs s) {e : ParseError} (h : (parseSentence env p s).1 = .err e) :
    (parseSentence env p s).2 = p := by
  by_cases hk : kind = c! "GSV"
  · subst hk
    exact gsv_fault hs h
  · have hc : ',' ∉ kind := by
      simp only [faults, List.mem_cons, Prod.mk.injEq, List.not_mem_nil, or_false] at hl
      rcases hl with ⟨rfl, -⟩ | ⟨rfl, -⟩ | ⟨rfl, -⟩ | ⟨rfl, -⟩ | ⟨rfl, -⟩ | ⟨rfl, -⟩ <;> decide
    rw [eval_alone env p s (notUses_gnss hs hc hk)]

theorem reply_rel (env : Env) (p : Parser) (m m' : Memory) (s : Str) (a : Answer) (hr : Rel p m)
    (h : Reply env m s a m') : (parseSentence env p s).1 = a ∧ Rel (parseSentence env p s).2 m' := by
  have pair : ∀ {b : Answer}, parseSentence env p s = (b, p) →
      (parseSentence env p s).1 = b ∧ Rel (parseSentence env p s).2 m := by
    intro b e
    rw [e]
    exact ⟨rfl, hr⟩
  have solo : ∀ {b : Answer}, (parseSentence env p s).1 = b → ∀ {talker kind fs}, IsGnss talker kind fs s → ',' ∉ kind →
      kind ≠ c! "GSV" → (parseSentence env p s).1 = b ∧ Rel (parseSentence env p s).2 m := by
    intro b e talker kind fs hs hc hk
    refine ⟨e, ?_⟩
    rw [eval_alone env p s (notUses_gnss hs hc hk)]
    exact hr
  cases h with
  | corrupted x y hs hb hne hbad => exact pair (by rw [hs]; exact corrupted_text env p x y hb hne hbad)
  | noComma body e hf hs hc => exact pair (by rw [hs, parse_finish _ _ _ _ hf, parseBody_noComma _ _ _ hc]; rfl)
  | badTag ty rest e hf hs hc hb => exact pair (by rw [hs, parse_finish _ _ _ _ hf, parseBody_badTag _ _ _ _ hc hb])
  | oddTag ty rest e hf hs hc ho => exact pair (by rw [hs, parse_finish _ _ _ _ hf, parseBody_oddTag _ _ _ _ hc ho]; rfl)
  | otherGnss talker kind fs hk hc h hn =>
    exact solo (C89_gnss_kind env p talker kind fs s hk hc h hn) h hc (by rintro rfl; exact hn (by decide))
  | otherAis talker kind fs hk hc h hn =>
    refine ⟨C89_ais_kind env p talker kind fs s hk hc h (by simpa using hn), ?_⟩
    rw [eval_alone env p s (notUses_ais h hc hn)]
    exact hr
  | fault talker kind fs l t h hl ht hm =>
    have e := (C89_gnss_fields env p talker kind fs s l hl h (faults_not_panic env p talker kind fs s l t hl h ht hm) _).mpr
      ⟨t, rfl, hm⟩
    refine ⟨e, ?_⟩
    rw [state_fault hl h e]
    exact hr
  | ggaTime talker fs h ht =>
    exact solo ((gga_panic env p talker fs s h).mpr (fun ⟨t, x⟩ => ht t x)) h (by decide) (by decide)
  | rmcTime talker fs h ht =>
    exact solo ((rmc_panic env p talker fs s h).mpr (fun ⟨t, x⟩ => ht t x)) h (by decide) (by decide)
  | gllTime talker fs h hg ht =>
    exact solo ((gll_panic env p talker fs s h).mpr ⟨hg, fun ⟨t, x⟩ => ht t x⟩) h (by decide) (by decide)
  | gga talker fs d h hd => exact solo ((gga_ok env p talker fs s h _).mpr ⟨d, rfl, hd⟩) h (by decide) (by decide)
  | rmc talker fs d h hd => exact solo ((rmc_ok env p talker fs s h _).mpr ⟨d, rfl, hd⟩) h (by decide) (by decide)
  | gsa talker fs d h hd => exact solo ((gsa_ok env p talker fs s h _).mpr ⟨d, rfl, hd⟩) h (by decide) (by decide)
  | vtg talker fs d h hd =>
    obtain ⟨d', e, hd'⟩ := vtg_ok env p talker fs s h
    rw [(hd' d).mp hd]
    exact solo e h (by decide) (by decide)
  | gll talker fs d h hd => exact solo ((gll_ok env p talker fs s h _).mpr ⟨d, rfl, hd⟩) h (by decide) (by decide)
  | gsvWaits talker n k j fs h hn hj hw =>
    exact step_rel env p m _ s _ hr (.gsvWaits h hn ⟨j, hj.1, hj.2.1, hj.2.2, hw⟩)
  | gsvDone talker n k fs h hn hw => exact step_rel env p m _ s _ hr (.gsvDone h hn hw)
  | gsvHuge talker k fs h => exact step_rel env p m _ s _ hr (.gsvHuge h)
  | badCount talker own fs h hn => exact pair ((C89_fragment_numbers env p talker own fs s h).1 hn)
  | badNumber talker own fs n h h0 hl hn => exact pair ((C89_fragment_numbers env p talker own fs s h).2 ⟨n, h0⟩ hl hn)
  | countOnly talker f own n h h0 =>
    by_cases h1 : n = 1
    · subst h1
      rw [if_pos rfl]
      exact pair (C89_count_only env p talker f own s h h0)
    · rw [if_neg h1]
      exact pair (C22_count_only env p talker f own s h n h0 h1)
  | otherFragment talker own fs n k h h0 h1 hn h2 =>
    refine pair (C22_unsupported_fragmentation env p talker own fs s h n k h0 h1 ?_)
    by_cases e : n = 2
    · exact .inr (.inr ⟨e, h2 e⟩)
    · omega
  | single talker own payload a m' h hm =>
    exact step_rel env p m _ s _ hr (.single h (messageReply_message h.noComma.1 h.noComma.2 hm))
  | part talker own num id chan payload h hn hw => exact step_rel env p m _ s _ hr (.waits h hn hw)
  | part1 talker own id chan x y a m' h hw hm =>
    have hc : ',' ∉ x ++ y := fun e => (List.mem_append.mp e).elim h.noComma.2 (hr.partOk _ _ _ _ hw)
    exact step_rel env p m _ s _ hr (.first h hw (messageReply_message h.noComma.1 hc hm))
  | part2 talker own id chan x y a m' h hw hm =>
    have hc : ',' ∉ x ++ y := fun e => (List.mem_append.mp e).elim (hr.partOk _ _ _ _ hw) h.noComma.2
    exact step_rel env p m _ s _ hr (.second h hw (messageReply_message h.noComma.1 hc hm))

/-! ### Every sentence is answered -/

/-- A GNSS sentence of a supported kind other than GSV. -/
theorem reply_solo (env : Env) (m : Memory) {talker kind : Str} {fs : List Str} {s : Str} (hk : kind ∈ soloKinds)
    (h : IsGnss talker kind fs s) : ∃ a m', Reply env m s a m' := by
  have hf : ∀ l, (kind, l) ∈ faults fs → ∀ e, (parseSentence env Parser.new s).1 = .err e → ∃ a m', Reply env m s a m' := by
    intro l hl e he
    obtain ⟨t, rfl, hm⟩ := (C89_gnss_fields env Parser.new talker kind fs s l hl h (by rw [he]; simp) e).mp he
    refine ⟨_, _, .fault talker kind fs l t h hl ⟨?_, ?_⟩ hm⟩
    · rintro rfl
      by_contra ht
      rw [(gga_panic env Parser.new talker fs s h).mpr ht] at he
      cases he
    · rintro rfl
      by_contra ht
      rw [(rmc_panic env Parser.new talker fs s h).mpr ht] at he
      cases he
  simp only [soloKinds, List.mem_cons, List.not_mem_nil, or_false] at hk
  rcases hk with rfl | rfl | rfl | rfl | rfl
  · cases he : (parseSentence env Parser.new s).1 with
    | ok r => obtain ⟨d, -, hd⟩ := (gga_ok env _ talker fs s h r).mp he; exact ⟨_, _, .gga talker fs d h hd⟩
    | err e => exact hf _ (.head _) e he
    | panic => exact ⟨_, _, .ggaTime talker fs h (fun t ht => (gga_panic env _ talker fs s h).mp he ⟨t, ht⟩)⟩
  · cases he : (parseSentence env Parser.new s).1 with
    | ok r => obtain ⟨d, -, hd⟩ := (rmc_ok env _ talker fs s h r).mp he; exact ⟨_, _, .rmc talker fs d h hd⟩
    | err e => exact hf _ (.tail _ (.head _)) e he
    | panic => exact ⟨_, _, .rmcTime talker fs h (fun t ht => (rmc_panic env _ talker fs s h).mp he ⟨t, ht⟩)⟩
  · cases he : (parseSentence env Parser.new s).1 with
    | ok r => obtain ⟨d, -, hd⟩ := (gsa_ok env _ talker fs s h r).mp he; exact ⟨_, _, .gsa talker fs d h hd⟩
    | err e => exact hf _ (.tail _ (.tail _ (.head _))) e he
    | panic => exact absurd he (gsa_not_panic env _ talker fs s h)
  · obtain ⟨d, -, hd⟩ := vtg_ok env Parser.new talker fs s h
    exact ⟨_, _, .vtg talker fs d h ((hd d).mpr rfl)⟩
  · cases he : (parseSentence env Parser.new s).1 with
    | ok r => obtain ⟨d, -, hd⟩ := (gll_ok env _ talker fs s h r).mp he; exact ⟨_, _, .gll talker fs d h hd⟩
    | err e => exact hf _ (.tail _ (.tail _ (.tail _ (.tail _ (.tail _ (.head _)))))) e he
    | panic =>
      obtain ⟨h1, h2⟩ := (gll_panic env _ talker fs s h).mp he
      exact ⟨_, _, .gllTime talker fs h h1 (fun t ht => h2 ⟨t, ht⟩)⟩

/-- An AIS sentence. -/
theorem reply_ais (env : Env) (m : Memory) {talker : Str} {own : Bool} {fs : List Str} {s : Str} (h : IsAis talker own fs s) :
    ∃ a m', Reply env m s a m' := by
  by_cases h0 : ∃ n, Dec 255 (field fs 0) n
  · obtain ⟨n, h0⟩ := h0
    have hfs : 2 ≤ fs.length ∨ ∃ f, fs = [f] := by
      cases fs with
      | nil => exact absurd rfl h.2.2.1
      | cons f r => cases r with
        | nil => exact .inr ⟨f, rfl⟩
        | cons g r => exact .inl (by simp)
    rcases hfs with hl | ⟨f, rfl⟩
    · by_cases h1 : ∃ k, Dec 255 (field fs 1) k
      · obtain ⟨k, h1⟩ := h1
        by_cases hn : n = 1
        · subst hn
          obtain ⟨a, m', hm⟩ := messageReply_total env m h.1 own (field fs 4)
          exact ⟨a, m', .single talker own _ a m' ⟨fs, k, h, h0, h1, rfl⟩ hm⟩
        · by_cases h2 : n = 2 → (∀ id, ¬ Dec (2 ^ 64 - 1) (field fs 2) id) ∨ k ≠ 1 ∧ k ≠ 2
          · exact ⟨_, _, .otherFragment talker own fs n k h h0 h1 hn h2⟩
          · push Not at h2
            obtain ⟨rfl, ⟨id, hid⟩, hk⟩ := h2
            have hk : k = 1 ∨ k = 2 := by omega
            have hp : Part talker own k id (field fs 3) (field fs 4) s := ⟨fs, h, h0, h1, hid, rfl, rfl⟩
            by_cases hw : ∃ x, m.part own id (field fs 3) = some (3 - k, x)
            · obtain ⟨x, hw⟩ := hw
              rcases hk with rfl | rfl
              · obtain ⟨a, m', hm⟩ := messageReply_total env (m.setPart own id (field fs 3) none) h.1 own (field fs 4 ++ x)
                exact ⟨a, m', .part1 talker own id _ _ _ a m' hp hw hm⟩
              · obtain ⟨a, m', hm⟩ := messageReply_total env (m.setPart own id (field fs 3) none) h.1 own (x ++ field fs 4)
                exact ⟨a, m', .part2 talker own id _ _ _ a m' hp hw hm⟩
            · exact ⟨_, _, .part talker own k id _ _ hp hk (fun x hx => hw ⟨x, hx⟩)⟩
      · exact ⟨_, _, .badNumber talker own fs n h h0 hl (not_exists.mp h1)⟩
    · exact ⟨_, _, .countOnly talker f own n h h0⟩
  · exact ⟨_, _, .badCount talker own fs h (not_exists.mp h0)⟩

theorem reply_gsv (env : Env) (m : Memory) {talker : Str} {fs : List Str} {s : Str} (h : IsGnss talker (c! "GSV") fs s) :
    ∃ a m', Reply env m s a m' := by
  cases gsv_case env Parser.new talker fs s h with
  | bad t hf h' =>
    obtain ⟨t', -, hm⟩ := (C89_gnss_fields env Parser.new talker _ fs s _ (.tail _ (.tail _ (.tail _ (.head _)))) h
      (by rw [h']; simp) _).mp (congrArg Prod.fst h')
    exact ⟨_, _, .fault talker _ fs _ t' h (.tail _ (.tail _ (.tail _ (.head _))))
      ⟨fun e => absurd e (by decide), fun e => absurd e (by decide)⟩ hm⟩
  | part n k hp h' =>
    by_cases hmax : n = 2 ^ 32 - 1
    · subst hmax
      exact ⟨_, _, .gsvHuge talker k fs hp⟩
    · have hle := hp.2.1.le
      by_cases hw : ∃ j, 1 ≤ j ∧ j ≤ n ∧ j ≠ k ∧ m.gsv talker n j = none
      · obtain ⟨j, h1, h2, h3, h4⟩ := hw
        exact ⟨_, _, .gsvWaits talker n k j fs hp (by omega) ⟨h1, h2, h3⟩ h4⟩
      · exact ⟨_, _, .gsvDone talker n k fs hp (by omega) (fun j h1 h2 h3 h4 => hw ⟨j, h1, h2, h3, h4⟩)⟩

theorem reply_total (env : Env) (m : Memory) (s : Str) : ∃ a m', Reply env m s a m' := by
  cases shape s with
  | corrupted a b hs h1 h2 h3 => exact ⟨_, _, .corrupted a b hs h1 h2 h3⟩
  | noComma body e hf hs hc => exact ⟨_, _, .noComma body e hf hs hc⟩
  | badTag ty rest e hf hs h1 h2 => exact ⟨_, _, .badTag ty rest e hf hs h1 h2⟩
  | oddTag ty rest e hf hs h1 h2 => exact ⟨_, _, .oddTag ty rest e hf hs h1 h2⟩
  | dollar talker kind fs hk hc hs =>
    by_cases hn : kind ∈ [c! "GGA", c! "RMC", c! "GSA", c! "GSV", c! "VTG", c! "GLL"]
    · by_cases hg : kind = c! "GSV"
      · subst hg
        exact reply_gsv env m hs
      · refine reply_solo env m ?_ hs
        simp only [soloKinds, List.mem_cons, List.not_mem_nil, or_false] at hn ⊢
        tauto
    · exact ⟨_, _, .otherGnss talker kind fs hk hc hs hn⟩
  | bang talker kind fs hk hc hs =>
    by_cases hn : kind ∈ [c! "VDM", c! "VDO"]
    · have : ∃ own, kind = aisKind own := by
        rcases List.mem_pair.mp hn with rfl | rfl
        · exact ⟨false, rfl⟩
        · exact ⟨true, rfl⟩
      obtain ⟨own, rfl⟩ := this
      exact reply_ais env m hs
    · exact ⟨_, _, .otherAis talker kind fs hk hc hs hn⟩

theorem dialogue_total (m : Memory) (h : List (Env × Str)) : ∃ as m', Dialogue m h as m' := by
  induction h generalizing m with
  | nil => exact ⟨_, _, .nil m⟩
  | cons x h ih =>
    obtain ⟨a, m1, h1⟩ := reply_total x.1 m x.2
    obtain ⟨as, m', h2⟩ := ih m1
    exact ⟨_, _, .cons h1 h2⟩

theorem dialogue_rel (p : Parser) (m m' : Memory) (h : List (Env × Str)) (as : List Answer) (hr : Rel p m)
    (ht : Dialogue m h as m') : answers p h = as ∧ Rel (run p h) m' := by
  induction ht generalizing p with
  | nil m => exact ⟨rfl, hr⟩
  | cons h1 _ ih =>
    obtain ⟨e1, r1⟩ := reply_rel _ _ _ _ _ _ hr h1
    obtain ⟨e2, r2⟩ := ih _ r1
    exact ⟨by rw [answers, e1, e2], r2⟩

/-! ### The parser -/

/-- C141: every history has answers that the specification allows, whatever is remembered at its beginning. -/
theorem C141_total (m : Memory) (h : List (Env × Str)) : ∃ as m', Dialogue m h as m' :=
  dialogue_total m h

/-- C141: the answers of a new parser to a history are those that the specification allows, and no others. -/
theorem C141_complete (h : List (Env × Str)) (as : List Answer) :
    (∃ m, Dialogue Memory.empty h as m) ↔ answers Parser.new h = as := by
  constructor
  · rintro ⟨m, hm⟩
    exact (dialogue_rel _ _ _ _ _ rel_new hm).1
  · intro e
    obtain ⟨as', m, hm⟩ := dialogue_total Memory.empty h
    rw [(dialogue_rel _ _ _ _ _ rel_new hm).1] at e
    exact ⟨m, e ▸ hm⟩

/-- C141: so is the answer to the next sentence, given what is remembered of the history. -/
theorem C141_next (h : List (Env × Str)) (as : List Answer) (m : Memory) (hm : Dialogue Memory.empty h as m) (env : Env)
    (s : Str) (a : Answer) : (∃ m', Reply env m s a m') ↔ (parseSentence env (run Parser.new h) s).1 = a := by
  have hr := (dialogue_rel _ _ _ _ _ rel_new hm).2
  constructor
  · rintro ⟨m', h'⟩
    exact (reply_rel _ _ _ _ _ _ hr h').1
  · intro e
    obtain ⟨a', m', h'⟩ := reply_total env m s
    rw [(reply_rel _ _ _ _ _ _ hr h').1] at e
    exact ⟨m', e ▸ h'⟩

/-- The second half of a message; a sentence without comma; a course; and the first half. -/
example : ∃ m d, Dialogue Memory.empty
    [(demoEnv, c! "!AIVDM,2,2,1,A,88888888880,2"), (demoEnv, c! "hello"), (demoEnv, c! "$GPVTG,,T,,M,,N,,K,D"),
      (demoEnv, c! "!BSVDM,2,1,1,A,55?MbV02;H;s<HtKR20EHE:0@T4@Dn2222222216L961O5Gf0NSQEp6ClRp8,0")]
    [.ok .incomplete, invalid (c! "Invalid NMEA sentence: hello"),
      .ok (.vtg ⟨.gps, none, none, none, none, some .differential⟩), .ok (.vesselStaticData d)] m ∧
    d.mmsi = 351759000 ∧ d.name = some (c! "EVER DIADEM") := by
  have h1 : Part (c! "AI") false 2 1 (c! "A") (c! "88888888880") (c! "!AIVDM,2,2,1,A,88888888880,2") :=
    ⟨[c! "2", c! "2", c! "1", c! "A", c! "88888888880", c! "2"], demoTagged .bare (by decide), demoDec (by decide),
      demoDec (by decide), demoDec (by decide), rfl, rfl⟩
  have h4 : Part (c! "BS") false 1 1 (c! "A") (c! "55?MbV02;H;s<HtKR20EHE:0@T4@Dn2222222216L961O5Gf0NSQEp6ClRp8")
      (c! "!BSVDM,2,1,1,A,55?MbV02;H;s<HtKR20EHE:0@T4@Dn2222222216L961O5Gf0NSQEp6ClRp8,0") :=
    ⟨[c! "2", c! "1", c! "1", c! "A", c! "55?MbV02;H;s<HtKR20EHE:0@T4@Dn2222222216L961O5Gf0NSQEp6ClRp8", c! "0"],
      demoTagged .bare (by decide), demoDec (by decide), demoDec (by decide), demoDec (by decide), rfl, rfl⟩
  have h3 : IsGnss (c! "GP") (c! "VTG") [[], c! "T", [], c! "M", [], c! "N", [], c! "K", c! "D"] (c! "$GPVTG,,T,,M,,N,,K,D") :=
    demoTagged .bare (by decide)
  have he : ∀ d, ¬ NumberText [] d := fun d hd => numberText_ne_nil hd rfl
  have ht : typeOf (payloadBits (c! "55?MbV02;H;s<HtKR20EHE:0@T4@Dn2222222216L961O5Gf0NSQEp6ClRp8" ++ c! "88888888880")) = 5 := by
    decide +kernel
  refine ⟨_, _, .cons (.part _ _ 2 1 _ _ h1 (.inr rfl) (fun x hx => by cases hx))
    (.cons (.noComma (c! "hello") .bare (by decide) rfl (by decide))
      (.cons (.vtg _ _ _ h3 ⟨rfl, .inr ⟨he, rfl⟩, .inr ⟨he, rfl⟩, .inr ⟨he, rfl⟩, .inr ⟨he, rfl⟩, rfl⟩)
        (.cons (.part1 _ _ 1 _ _ _ _ _ h4 rfl
          (.report (.voyage (Voyage.read (payloadBits
            (c! "55?MbV02;H;s<HtKR20EHE:0@T4@Dn2222222216L961O5Gf0NSQEp6ClRp8" ++ c! "88888888880")))) _ (fun _ => by decide)
            (by rw [ht]; decide) (by rw [messageOf, ht]; rfl)
            (show _ = ite _ _ _ from (if_pos (by decide +kernel)).symm))) (.nil _)))), by decide +kernel, by decide +kernel⟩

/-- Nothing else can be answered. -/
example (as : List Answer) (m : Memory)
    (h : Dialogue Memory.empty [(demoEnv, c! "hello"), (demoEnv, c! "$GPHDT,1,T")] as m) :
    as = [invalid (c! "Invalid NMEA sentence: hello"), unsupported (c! "Unimplemented NMEA sentence: $HDT")] := by
  rw [← (C141_complete _ _).mp ⟨m, h⟩]
  decide +kernel

end Nmea
