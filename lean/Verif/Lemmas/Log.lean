/-
Evaluation of the log output.
-/
import Verif.Spec.Log
import Verif.Lemmas.Outcome
import Verif.Lemmas.Calendar
import Verif.Lemmas.Values
import Verif.Lemmas.Panic

namespace Nmea
open Spec

theorem checksumLog_eq (s : Str) : checksumLog s = missingRemark s := by
  unfold missingRemark checksumLog
  cases h : rsplitStar s with
  | none => rw [if_neg ((rsplitStar_none s).mp h)]
  | some r =>
    rw [if_pos]
    by_contra hn
    rw [(rsplitStar_none s).mpr hn] at h
    cases h

theorem log_finish (env : Env) (p : Parser) (body : Str) (e : Ending) (h : Framed body e) :
    logSentence env p (finish body e) = missingRemark (finish body e) ++ logBody env p body := by
  unfold logSentence
  rw [checksumLog_eq]
  congr 1
  cases e with
  | bare => simp [finish, splitChecksum_bare body (h rfl)]
  | star => simp [finish, splitChecksum_star body [] (by simp)]
  | full => simp [finish, splitChecksum_star body _ (star_not_mem_checksumText body), hex2_checksum]

theorem log_corrupted (env : Env) (p : Parser) (a b : Str) (hb : '*' ∉ b) (hne : b ≠ [])
    (hbad : b ≠ checksumText a) : logSentence env p (a ++ '*' :: b) = missingRemark (a ++ '*' :: b) := by
  unfold logSentence
  rw [checksumLog_eq]
  simp [splitChecksum_star a b hb, hex2_checksum, hne, Ne.symm hbad]

theorem logBody_noComma (env : Env) (p : Parser) (body : Str) (h : ',' ∉ body) : logBody env p body = [] := by
  simp only [logBody, (beforeComma_none body).mpr h]

/-- What the talker recognition makes of a tag decides whether there can be warnings. -/
theorem logBody_of (env : Env) (p : Parser) (ty rest : Str) (hc : ',' ∉ ty)
    (h : (logBody env p (ty ++ ',' :: rest)) ≠ []) :
    ∃ talker own, Talker talker ∧ ty = tag '!' talker (aisKind own) := by
  by_contra hno
  apply h
  rcases tag_cases ty hc with hb | ho | ⟨lead, talker, kind, hl, ht, hk, hkc, rfl⟩
  · simp only [logBody, beforeComma_append _ _ hc]
    have hp := parseBody_badTag env p ty rest hc hb
    simp only [parseBody, beforeComma_append _ _ hc] at hp
    cases h1 : recognize '$' navSystemOf ty with
    | err e => rfl
    | panic => rfl
    | ok r =>
      obtain ⟨nav, ty'⟩ := r
      rw [h1] at hp
      simp only [] at hp ⊢
      cases h2 : recognize '!' stationOf ty' with
      | err e => rfl
      | panic => rfl
      | ok r =>
        obtain ⟨st, ty''⟩ := r
        simp only []
        rw [if_neg]
        rintro h3
        exfalso
        rcases hb with rfl | ⟨c, r, rfl, h4⟩ | ⟨c, r, rfl, hl, h4⟩
        · cases h1
        · have : slice (c :: r) 0 1 = none := by
            apply slice_none_of _ _ _ (by decide)
            rintro ⟨a, q, b, hq, ha, hql⟩
            rw [byteLen_eq_zero] at ha
            subst ha
            cases q with
            | nil => simp [byteLen_nil] at hql
            | cons x q' =>
              simp at hq
              obtain ⟨rfl, -⟩ := hq
              rw [byteLen_cons] at hql
              have := c.utf8Size_pos
              omega
          simp [recognize, this] at h1
        · rcases hl with rfl | rfl
          · rw [recognize_bad_lead '$' dollar_size _ _ h4] at h1
            cases h1
          · rw [recognize_other '$' '!' bang_size (by decide)] at h1
            cases h1
            rw [recognize_bad_lead '!' bang_size _ _ h4] at h2
            cases h2
  · simp only [logBody, beforeComma_append _ _ hc]
    rcases ho with ⟨c, r, rfl, h1, h2, h3⟩ | ⟨c, r, rfl, hl, h5, h6⟩
    · rw [recognize_other '$' c h1 h2]
      simp only []
      rw [recognize_other '!' c h1 h3]
      simp only []
      rw [if_neg]
      rintro (e | e) <;> (simp at e; exact h3 e.1)
    · have hne : ¬ (c :: r = c! "!VDM" ∨ c :: r = c! "!VDO") := by
        rintro (e | e) <;> (simp at e; rw [e.2] at h5; revert h5; decide)
      rcases hl with rfl | rfl
      · obtain ⟨x, hx⟩ := recognize_long '$' dollar_size navSystemOf r h5 h6
        rw [hx]
        simp only []
        rw [recognize_other '!' '$' dollar_size (by decide)]
        simp only []
        rw [if_neg hne]
      · rw [recognize_other '$' '!' bang_size (by decide)]
        simp only []
        obtain ⟨x, hx⟩ := recognize_long '!' bang_size stationOf r h5 h6
        rw [hx]
        simp only []
        rw [if_neg hne]
  · simp only [logBody, beforeComma_append _ _ hc]
    simp only [tag]
    rcases hl with rfl | rfl
    · rw [recognize_full '$' dollar_size navSystemOf talker kind ht.1 hk]
      simp only []
      rw [recognize_other '!' '$' dollar_size (by decide)]
      simp
    · have : recognize '$' navSystemOf ('!' :: talker ++ kind) = .ok (none, '!' :: talker ++ kind) :=
        recognize_other '$' '!' bang_size (by decide) _ _
      rw [this]
      simp only []
      rw [recognize_full '!' bang_size stationOf talker kind ht.1 hk]
      simp only []
      rw [if_neg]
      rintro (e | e)
      · exact hno ⟨talker, false, ht, by simp at e; rw [e]; rfl⟩
      · exact hno ⟨talker, true, ht, by simp at e; rw [e]; rfl⟩

/-- The log of an AIS sentence, through its fields. -/
theorem log_ais (env : Env) (p : Parser) (talker : Str) (own : Bool) (fs : List Str) (s : Str)
    (h : IsAis talker own fs s) :
    logSentence env p s = missingRemark s ++
      match vdmLoop 0 VdmVars.init (tag '!' talker (aisKind own) :: fs) with
      | .ok v =>
        logAssemble ('!' :: aisKind own) v ++
          match (assemble ('!' :: aisKind own) v p).1 with
          | none => []
          | some payload =>
            match parsePayload env.overflowChecks payload with
            | .ok bv => logAis bv
            | _ => []
      | _ => [] := by
  obtain ⟨ht, hcf, hne, e, hf, rfl⟩ := h
  rw [log_finish _ _ _ _ hf]
  congr 1
  have hkc := aisKind_noComma own
  have hc : ',' ∉ tag '!' talker (aisKind own) := comma_not_mem_tag _ _ _ (by decide) ht.2 hkc
  have hsp := splitChar_tag '!' talker (aisKind own) fs (by decide) ht hkc hcf
  obtain ⟨f, fs, rfl⟩ := List.exists_cons_of_ne_nil hne
  rw [join_cons] at hsp ⊢
  simp only [logBody, beforeComma_append _ _ hc]
  have : recognize '$' navSystemOf (tag '!' talker (aisKind own)) = .ok (none, tag '!' talker (aisKind own)) :=
    recognize_other '$' '!' bang_size (by decide) _ _
  rw [this]
  simp only [tag]
  simp only [tag] at hsp
  rw [recognize_full '!' bang_size stationOf talker (aisKind own) ht.1 (aisKind_len own)]
  simp only []
  rw [if_pos (by cases own <;> decide), logVdm, hsp]
  rfl

/-! ### Contents -/

theorem ShipType.log_eq (n : Nat) : ShipType.log n =
    if 99 < n then [warningOf (c! "Unexpected ship and cargo type: ") n] else [] := by
  unfold ShipType.log warningOf
  by_cases h : n ≤ 99
  · rw [if_pos h, if_neg (by omega)]
  · rw [if_neg h, if_pos (by omega)]

theorem CargoType.log_eq (n : Nat) (hn : n < 256) : CargoType.log n =
    if n / 10 ∈ [1, 2, 4, 6, 7, 8, 9] then [] else [warningOf (c! "Unexpected ship and cargo type: ") n] := by
  have : ∀ n < 256, CargoType.log n =
    if n / 10 ∈ [1, 2, 4, 6, 7, 8, 9] then [] else [warningOf (c! "Unexpected ship and cargo type: ") n] := by
    decide +kernel
  exact this n hn

theorem PositionFixType.log_eq (n : Nat) (hn : n < 16) : PositionFixType.log n = fixRemarks n := by
  have : ∀ n < 16, PositionFixType.log n = fixRemarks n := by decide +kernel
  exact this n hn

theorem fixTypeBlockLog_eq (bv : Bits) (i : Nat) : fixTypeBlockLog bv i = fixRemarks (num bv i 4) := by
  have h := num_lt bv i 4
  have he : asU8 (pickU64 bv i 4) = num bv i 4 := by
    rw [pickU64_window _ _ _ (by decide)]
    exact Nat.mod_eq_of_lt (by unfold num at h; omega)
  unfold fixTypeBlockLog
  rw [he]
  generalize num bv i 4 = n at h
  cases n with
  | zero => rfl
  | succ n => exact PositionFixType.log_eq _ h

theorem pick8 (bv : Bits) (i : Nat) : asU8 (pickU64 bv i 8) = num bv i 8 := by
  have h := num_lt bv i 8
  rw [pickU64_window _ _ _ (by decide)]
  exact Nat.mod_eq_of_lt (by unfold num at h; omega)

theorem pickU32_num (bv : Bits) (i n : Nat) (hn : n ≤ 32) : asU32 (pickU64 bv i n) = num bv i n := by
  have h := num_lt bv i n
  rw [pickU64_window _ _ _ (by omega)]
  refine Nat.mod_eq_of_lt (lt_of_lt_of_le h ?_)
  exact Nat.pow_le_pow_right (by decide) hn

theorem ship_cargo_log (n : Nat) (hn : n < 256) : ShipType.log n ++ CargoType.log n = shipRemarks n := by
  rw [ShipType.log_eq, CargoType.log_eq n hn]
  rfl

theorem manoeuvreLog_eq (bv : Bits) (i : Nat) : manoeuvreLog bv i =
    if num bv i 2 = 3 then [⟨.warn, c! "Unrecognized Maneuver Indicator value: 3"⟩] else [] := by
  have h := num_lt bv i 2
  unfold manoeuvreLog
  rw [pickU64_window _ _ _ (by decide)]
  change (match num bv i 2 with
    | 0 => [] | 1 => [] | 2 => []
    | raw => [(⟨.warn, c! "Unrecognized Maneuver Indicator value: " ++ natStr raw⟩ : LogRecord)]) = _
  generalize num bv i 2 = n at h
  have : n = 0 ∨ n = 1 ∨ n = 2 ∨ n = 3 := by omega
  rcases this with rfl | rfl | rfl | rfl
  · rfl
  · rfl
  · rfl
  · decide

theorem pickYear (bv : Bits) : asI32 (pickU64 bv 38 14 : Nat) = (num bv 38 14 : Int) := by
  have h := num_lt bv 38 14
  rw [pickU64_window _ _ _ (by decide), ← num]
  exact asI32_small _ (by omega) (by omega)

theorem t4Time_eq (bv : Bits) : t4Time bv = ymdHms (num bv 38 14) (num bv 52 4) (num bv 56 5) (num bv 61 5)
    (num bv 66 6) (num bv 72 6) := by
  rw [t4Time, pickYear, pickU32_num bv 52 4 (by decide), pickU32_num bv 56 5 (by decide),
    pickU32_num bv 61 5 (by decide), pickU32_num bv 66 6 (by decide), pickU32_num bv 72 6 (by decide)]

theorem logT4_eq (bv : Bits) : logT4 bv =
    if IsDateTime (stationTime bv) then fixRemarks (num bv 134 4) else [] := by
  rw [logT4, t4Time_eq, fixTypeBlockLog_eq]
  show _ = if IsDateTime ⟨num bv 38 14, num bv 52 4, num bv 56 5, num bv 61 5, num bv 66 6, num bv 72 6⟩ then _ else _
  generalize num bv 38 14 = y, num bv 52 4 = mo, num bv 56 5 = d, num bv 61 5 = h, num bv 66 6 = mi, num bv 72 6 = sec
  by_cases hd : IsDateTime ⟨y, mo, d, h, mi, sec⟩
  · rw [if_pos hd, ymdHms_ok _ _ _ _ _ _ hd]; rfl
  · rw [if_neg hd, ymdHms_panic _ _ _ _ _ _ hd]; rfl

theorem logAis_eq (bv : Bits) : logAis bv = remarks bv := by
  unfold logAis remarks
  rw [typeOf_eq]
  generalize typeOf bv = t
  have h5 : logT5 bv = shipRemarks (num bv 232 8) ++ fixRemarks (num bv 270 4) := by
    simp only [logT5, pickString_textAt, pick8, fixTypeBlockLog_eq]
    rw [ship_cargo_log _ (num_lt bv 232 8)]
  have h21 : logT21 bv = fixRemarks (num bv 249 4) := by
    simp only [logT21, pickString_textAt]
    have h := num_lt bv 249 4
    have he : asU8 (pickU64 bv 249 4) = num bv 249 4 := by
      rw [pickU64_window _ _ _ (by decide)]
      exact Nat.mod_eq_of_lt (by unfold num at h; omega)
    rw [he, PositionFixType.log_eq _ h]
  have h24 : logT24 bv = if partOf bv = 1 then shipRemarks (num bv 40 8) else [] := by
    simp only [logT24, pickString_textAt, pick8]
    rw [partOf_eq, ship_cargo_log _ (num_lt bv 40 8)]
    generalize partOf bv = k
    match k with
    | 0 => rfl
    | 1 => rfl
    | k + 2 =>
      rw [if_neg (by omega)]
      rfl
  split
  · rw [if_pos (by decide), manoeuvreLog_eq]
  · rw [if_pos (by decide), manoeuvreLog_eq]
  · rw [if_pos (by decide), manoeuvreLog_eq]
  · rw [if_neg (by decide), if_pos rfl, logT4_eq]
  · rw [if_neg (by decide), if_neg (by decide), if_pos rfl, h5]
  · rw [if_neg (by decide), if_neg (by decide), if_neg (by decide), if_pos rfl, h21]
  · rw [if_neg (by decide), if_neg (by decide), if_neg (by decide), if_neg (by decide), h24]
    simp
  · rename_i h1 h2 h3 h4 h5 h6 h7
    rw [if_neg (by simp; exact ⟨h1, h2, h3⟩), if_neg h4, if_neg h5, if_neg h6, if_neg (fun h => h7 h.1)]

/-! ### Sentences -/

/-- The records of a complete payload. -/
def payloadLog (env : Env) (payload : Str) : List LogRecord :=
  match parsePayload env.overflowChecks payload with
  | .ok bv => logAis bv
  | _ => []

theorem payloadLog_readable (env : Env) (payload : Str) (hr : Readable env payload) :
    payloadLog env payload = remarks (payloadBits payload) := by
  unfold payloadLog
  rw [parsePayload_readable env payload hr]
  exact logAis_eq _

theorem payloadLog_not (env : Env) (payload : Str) (hr : ¬ Readable env payload) : payloadLog env payload = [] := by
  unfold payloadLog
  split
  · rename_i bv h
    exact absurd (readable_of_ok env payload bv h) hr
  · rfl

/-- The log of an AIS sentence, case by case. -/
inductive LogCase (env : Env) (p : Parser) (talker : Str) (own : Bool) (fs : List Str) (s : Str) : Prop where
  | bad (hf : (∀ n, ¬ WithCount fs n)) (hr : ∃ e, (parseSentence env p s).1 = .err e)
      (h : logSentence env p s = missingRemark s)
  | empty (h0 : WithCount fs 1) (hl : fs.length = 1) (hr : ∃ e, (parseSentence env p s).1 = .err e)
      (h : logSentence env p s = missingRemark s)
  | single (hp : Single talker own (field fs 4) s)
      (h : logSentence env p s = missingRemark s ++ payloadLog env (field fs 4))
  | part1 (id : Nat) (hp : Part talker own 1 id (field fs 3) (field fs 4) s)
      (h : logSentence env p s = missingRemark s ++ ((pendingPart p own 2 id (field fs 3)).map
        (fun b => payloadLog env (field fs 4 ++ b))).getD [])
  | part2 (id : Nat) (hp : Part talker own 2 id (field fs 3) (field fs 4) s)
      (h : logSentence env p s = missingRemark s ++ ((pendingPart p own 1 id (field fs 3)).map
        (fun a => payloadLog env (a ++ field fs 4))).getD [])
  | number (num id : Nat) (hp : Part talker own num id (field fs 3) (field fs 4) s) (hn : num ≠ 1 ∧ num ≠ 2)
      (hr : (parseSentence env p s).1 = .ok .incomplete)
      (h : logSentence env p s = missingRemark s ++
        [⟨.warn, c! "Unexpected NMEA fragment number: " ++ natStr num ++ c! "/2"⟩])
  | noId (hc : WithCount fs 2) (hi : ∀ id, ¬ Dec (2 ^ 64 - 1) (field fs 2) id)
      (hr : (parseSentence env p s).1 = .ok .incomplete)
      (h : logSentence env p s = missingRemark s ++
        [⟨.warn, c! "NMEA message_id missing from !" ++ aisKind own ++ c! " than supported 2"⟩])
  | count (n : Nat) (hc : WithCount fs n) (hn : n ≠ 1 ∧ n ≠ 2)
      (hr : (parseSentence env p s).1 = .ok .incomplete)
      (h : logSentence env p s = missingRemark s ++
        [⟨.warn, c! "NMEA sentence fragment count greater (" ++ natStr n ++ c! ") than supported 2"⟩])

theorem log_case (env : Env) (p : Parser) (talker : Str) (own : Bool) (fs : List Str) (s : Str)
    (hs : IsAis talker own fs s) : LogCase env p talker own fs s := by
  have he := log_ais env p talker own fs s hs
  have hv := eval_fields env p talker own fs s hs
  rw [vdmLoop_fields _ _ hs.2.2.1] at he hv
  cases h0 : parseU8 (field fs 0) with
  | none =>
    rw [h0] at he
    rw [h0] at hv
    exact .bad (fun n hn => by rw [(parseU8_iff _ _).mpr hn.1] at h0; cases h0) ⟨_, by rw [hv]⟩ (by rw [he]; simp)
  | some n =>
    have d0 := (parseU8_iff _ _).mp h0
    rw [h0] at he hv
    simp only [] at he hv
    by_cases hlen : fs.length = 1
    · rw [if_pos hlen] at he
      simp only [assemble, logAssemble] at he
      by_cases h1 : n = 1
      · subst h1
        rw [if_pos rfl, if_pos rfl] at he
        refine .empty ⟨d0, .inl hlen⟩ hlen ?_ ?_
        · rw [if_pos hlen] at hv
          simp only [assemble] at hv
          rw [if_pos trivial] at hv
          exact ⟨_, by rw [hv]; rfl⟩
        rw [he]
        cases env.overflowChecks <;> simp [parsePayload, logAis, pickU64] <;> rfl
      · rw [if_neg h1, if_neg h1] at he
        by_cases h2 : n = 2
        · subst h2
          refine .noId ⟨d0, .inl hlen⟩ (fun id hid => ?_) (by rw [hv, if_pos hlen]; rfl) ?_
          · have := field_ne_length hid.ne_nil
            omega
          · rw [he]; simp
        · rw [if_neg h2, if_neg h2] at he
          exact .count n ⟨d0, .inl hlen⟩ ⟨h1, h2⟩ (by rw [hv, if_pos hlen]; simp [assemble, h1, h2]) (by rw [he]; simp)
    · rw [if_neg hlen] at he
      cases hk : parseU8 (field fs 1) with
      | none =>
        rw [hk] at he
        rw [if_neg hlen, hk] at hv
        refine .bad (fun n hn => ?_) ⟨_, by rw [hv]⟩ (by rw [he]; simp)
        rcases hn.2 with h | ⟨k, h⟩
        · exact hlen h
        · rw [(parseU8_iff _ _).mpr h] at hk; cases hk
      | some k =>
        have d1 := (parseU8_iff _ _).mp hk
        rw [hk] at he
        rw [if_neg hlen, hk] at hv
        simp only [assemble, logAssemble] at he
        by_cases h1 : n = 1
        · subst h1
          rw [if_pos rfl, if_pos rfl] at he
          exact .single ⟨fs, k, hs, d0, d1, rfl⟩ he
        · rw [if_neg h1, if_neg h1] at he
          by_cases h2 : n = 2
          · subst h2
            rw [if_pos rfl, if_pos rfl] at he
            cases hid : parseU64 (field fs 2) with
            | none =>
              rw [hid] at he
              refine .noId ⟨d0, .inr ⟨k, d1⟩⟩ (fun id hd => ?_) (by rw [hv]; simp [assemble, hid]) (by rw [he]; simp)
              rw [(parseU64_iff _ _).mpr hd] at hid
              cases hid
            | some id =>
              have d2 := (parseU64_iff _ _).mp hid
              rw [hid] at he
              simp only [getD_field, makeFragmentKey_eq, Parser.pullString, Parser.pushString] at he
              by_cases k1 : k = 1
              · subst k1
                rw [if_pos rfl, if_pos rfl] at he
                refine .part1 id ⟨fs, hs, d0, d1, d2, rfl, rfl⟩ ?_
                rw [he, pendingPart]
                cases p.savedFragments.get (partKey own 2 id (field fs 3)) <;> rfl
              · rw [if_neg k1, if_neg k1] at he
                by_cases k2 : k = 2
                · subst k2
                  rw [if_pos rfl, if_pos rfl] at he
                  refine .part2 id ⟨fs, hs, d0, d1, d2, rfl, rfl⟩ ?_
                  rw [he, pendingPart]
                  cases p.savedFragments.get (partKey own 1 id (field fs 3)) <;> rfl
                · rw [if_neg k2, if_neg k2] at he
                  exact .number k id ⟨fs, hs, d0, d1, d2, rfl, rfl⟩ ⟨k1, k2⟩ (by rw [hv]; simp [assemble, hid, k1, k2])
                    (by rw [he]; simp; decide)
          · rw [if_neg h2, if_neg h2] at he
            exact .count n ⟨d0, .inr ⟨k, d1⟩⟩ ⟨h1, h2⟩ (by rw [hv]; simp [assemble, h1, h2]) (by rw [he]; simp)

/-- A sentence that is no AIS sentence writes no warning. -/
theorem log_other (env : Env) (p : Parser) (s : Str) (h : ∀ talker own fs, ¬ IsAis talker own fs s) :
    logSentence env p s = missingRemark s := by
  rcases framing_cases s with ⟨body, e, hf, rfl⟩ | ⟨a, b, rfl, h1, h2, h3⟩
  · rw [log_finish _ _ _ _ hf]
    have : logBody env p body = [] := by
      rcases comma_cases body with hc | ⟨ty, rest, rfl, hty⟩
      · exact logBody_noComma _ _ _ hc
      · by_contra hb
        obtain ⟨talker, own, ht, rfl⟩ := logBody_of env p ty rest hty hb
        obtain ⟨f, fs, hf1, hf2, rfl⟩ := exists_join rest
        refine h talker own (f :: fs) ⟨ht, ?_, by simp, e, ?_, ?_⟩
        · intro x hx
          rcases List.mem_cons.mp hx with rfl | hx
          · exact hf1
          · exact hf2 x hx
        · rw [join_cons]; exact hf
        · rw [join_cons]
    rw [this, List.append_nil]
  · exact log_corrupted _ _ _ _ h1 h2 h3

end Nmea
