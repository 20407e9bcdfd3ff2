/-
C116: what the checksum detects and what it does not. C117: sentences and messages that are cut off.
-/
import Verif.Props.Framing
import Verif.Props.Dispatch
import Verif.Props.Bits
import Verif.Props.Values
import Verif.Props.Locality

namespace Nmea
open Spec

/-! ### C116 -/

/-- C116: a sentence `a` with its checksum arrives with another body `b`: if the XOR of the bytes after the first character
is different, it is refused as corrupted and nothing happens; otherwise it is answered as if `b` had been sent. -/
theorem C116_exact (env : Env) (p : Parser) (a b : Str) :
    (xorBytes b.tail = xorBytes a.tail →
      parseSentence env p (b ++ '*' :: checksumText a) = parseSentence env p (b ++ '*' :: checksumText b)) ∧
    (xorBytes b.tail ≠ xorBytes a.tail →
      ∃ msg, parseSentence env p (b ++ '*' :: checksumText a) = (.err (.corruptedSentence msg), p)) := by
  constructor
  · intro h
    rw [checksumText, checksumText, h]
  · intro h
    exact C01_wrong_checksum_rejected env p b _ (star_not_mem_checksumText _) (checksumText_ne_nil _)
      (fun e => h (checksumText_inj _ _ e).symm)

/-- Bodies of equal and of different XOR. -/
example : xorBytes (c! "$GPVTG,12").tail = xorBytes (c! "$GPVTG,21").tail ∧
    xorBytes (c! "$GPVTG,12").tail ≠ xorBytes (c! "$GPVTG,22").tail := by decide +kernel

theorem xorBytes_perm {a b : Str} (h : a.Perm b) : xorBytes a = xorBytes b := by
  induction h with
  | nil => rfl
  | cons c _ ih => rw [xorBytes, xorBytes, ih]
  | swap c d l =>
    simp only [xorBytes]
    rw [← Nat.xor_assoc, ← Nat.xor_assoc, Nat.xor_comm (d.toNat % 256)]
  | trans _ _ h1 h2 => rw [h1, h2]

/-- C116: characters (after the first) that arrive in another order are never detected. -/
theorem C116_reordered (env : Env) (p : Parser) (lead : Char) (a b : Str) (h : b.Perm a) :
    parseSentence env p ((lead :: b) ++ '*' :: checksumText (lead :: a)) =
      parseSentence env p ((lead :: b) ++ '*' :: checksumText (lead :: b)) :=
  (C116_exact env p (lead :: a) (lead :: b)).1 (xorBytes_perm h)

/-- The digits of a speed in another order. -/
example : (c! "GPVTG,,T,,M,021.5").Perm (c! "GPVTG,,T,,M,012.5") := by decide +kernel

/-- C116: a falsified first character is never detected. -/
theorem C116_first_character (env : Env) (p : Parser) (c c' : Char) (body : Str) :
    parseSentence env p ((c' :: body) ++ '*' :: checksumText (c :: body)) =
      parseSentence env p ((c' :: body) ++ '*' :: checksumText (c' :: body)) :=
  (C116_exact env p (c :: body) (c' :: body)).1 rfl

/-- The checksum of a GPS sentence, after the `$` was received as `%`. -/
example (env : Env) (p : Parser) : parseSentence env p (c! "%GPVTG,054.7" ++ '*' :: checksumText (c! "$GPVTG,054.7")) =
    parseSentence env p (c! "%GPVTG,054.7" ++ '*' :: checksumText (c! "%GPVTG,054.7")) :=
  C116_first_character env p '$' '%' (c! "GPVTG,054.7")

theorem xor_two (u v c c' d d' : Nat) : u ^^^ (c' ^^^ (v ^^^ d')) = u ^^^ (c ^^^ (v ^^^ d)) ↔ c' ^^^ c = d' ^^^ d := by
  constructor
  · intro h
    have h := xor_cancel_left h
    have h2 : v ^^^ (c' ^^^ d') = v ^^^ (c ^^^ d) := by
      rw [show v ^^^ (c' ^^^ d') = c' ^^^ (v ^^^ d') by ac_rfl, h]; ac_rfl
    have h3 := xor_cancel_left h2
    have h4 : (c' ^^^ d') ^^^ (c ^^^ d') = (c ^^^ d) ^^^ (c ^^^ d') := by rw [h3]
    have e1 : (c' ^^^ d') ^^^ (c ^^^ d') = c' ^^^ c := by
      rw [show (c' ^^^ d') ^^^ (c ^^^ d') = (c' ^^^ c) ^^^ (d' ^^^ d') by ac_rfl, Nat.xor_self, Nat.xor_zero]
    have e2 : (c ^^^ d) ^^^ (c ^^^ d') = d' ^^^ d := by
      rw [show (c ^^^ d) ^^^ (c ^^^ d') = (d' ^^^ d) ^^^ (c ^^^ c) by ac_rfl, Nat.xor_self, Nat.xor_zero]
    rw [← e1, h4, e2]
  · intro h
    have e : c' ^^^ d' = c ^^^ d := by
      have : (c' ^^^ c) ^^^ (c ^^^ d') = (d' ^^^ d) ^^^ (c ^^^ d') := by rw [h]
      have e1 : (c' ^^^ c) ^^^ (c ^^^ d') = c' ^^^ d' := by
        rw [show (c' ^^^ c) ^^^ (c ^^^ d') = (c' ^^^ d') ^^^ (c ^^^ c) by ac_rfl, Nat.xor_self, Nat.xor_zero]
      have e2 : (d' ^^^ d) ^^^ (c ^^^ d') = c ^^^ d := by
        rw [show (d' ^^^ d) ^^^ (c ^^^ d') = (c ^^^ d) ^^^ (d' ^^^ d') by ac_rfl, Nat.xor_self, Nat.xor_zero]
      rw [← e1, this, e2]
    rw [show c' ^^^ (v ^^^ d') = v ^^^ (c' ^^^ d') by ac_rfl, e]
    ac_rfl

/-- C116: two falsified characters are detected exactly if they are not falsified in the same bits; so of the 256 possible
bytes of the second one exactly one escapes. -/
theorem C116_two_changes (env : Env) (p : Parser) (x y z : Str) (c c' d d' : Char) (hx : x ≠ []) :
    (∃ msg, (parseSentence env p ((x ++ c' :: (y ++ d' :: z)) ++ '*' :: checksumText (x ++ c :: (y ++ d :: z)))).1 =
      .err (.corruptedSentence msg)) ↔
      (c'.toNat % 256) ^^^ (c.toNat % 256) ≠ (d'.toNat % 256) ^^^ (d.toNat % 256) := by
  have key : xorBytes (x ++ c' :: (y ++ d' :: z)).tail = xorBytes (x ++ c :: (y ++ d :: z)).tail ↔
      (c'.toNat % 256) ^^^ (c.toNat % 256) = (d'.toNat % 256) ^^^ (d.toNat % 256) := by
    obtain ⟨x0, xs, rfl⟩ := List.exists_cons_of_ne_nil hx
    simp only [List.cons_append, List.tail_cons, xorBytes_append, xorBytes]
    rw [show ∀ a b : Nat, xorBytes xs ^^^ (a ^^^ (xorBytes y ^^^ (b ^^^ xorBytes z))) =
      (xorBytes xs ^^^ xorBytes z) ^^^ (a ^^^ (xorBytes y ^^^ b)) from fun a b => by ac_rfl,
      show ∀ a b : Nat, xorBytes xs ^^^ (a ^^^ (xorBytes y ^^^ (b ^^^ xorBytes z))) =
      (xorBytes xs ^^^ xorBytes z) ^^^ (a ^^^ (xorBytes y ^^^ b)) from fun a b => by ac_rfl]
    exact xor_two _ _ _ _ _ _
  rw [← not_iff_not, not_not, ← key]
  constructor
  · intro h
    by_contra hc
    obtain ⟨msg, e⟩ := (C116_exact env p (x ++ c :: (y ++ d :: z)) (x ++ c' :: (y ++ d' :: z))).2 hc
    exact h ⟨msg, by rw [e]⟩
  · rintro h ⟨msg, e⟩
    rw [(C116_exact env p _ _).1 h] at e
    obtain ⟨a, b, h1, h2, h3, h4⟩ := (C02_corrupted_iff env p _).1 ⟨msg, e⟩
    have e1 := splitChecksum_star a b h2
    rw [← h1, splitChecksum_star _ _ (star_not_mem_checksumText _)] at e1
    injection e1 with e1 e2
    exact h4 (by rw [← e1, ← e2])

/-- Two digits falsified in the lowest bit. -/
example : ('1'.toNat % 256) ^^^ ('0'.toNat % 256) = ('3'.toNat % 256) ^^^ ('2'.toNat % 256) ∧ c! "$GPVTG," ≠ [] := by decide

/-- C116: a sentence that is cut off is refused as corrupted exactly if it is cut between the two checksum digits; cut
anywhere before, it is taken for a sentence without checksum. -/
theorem C116_cut_off (env : Env) (p : Parser) (body : Str) (hb : '*' ∉ body) (k : Nat)
    (hk : k ≤ (body ++ '*' :: checksumText body).length) :
    ((∃ msg, (parseSentence env p ((body ++ '*' :: checksumText body).take k)).1 = .err (.corruptedSentence msg)) ↔
      k = body.length + 2) ∧
    (k ≤ body.length + 1 → parseSentence env p ((body ++ '*' :: checksumText body).take k) =
      parseSentence env p (body.take k)) := by
  have hl : (checksumText body).length = 2 := rfl
  have hlen : (body ++ '*' :: checksumText body).length = body.length + 3 := by simp [hl]
  rw [hlen] at hk
  have short : k ≤ body.length + 1 → parseSentence env p ((body ++ '*' :: checksumText body).take k) =
      parseSentence env p (body.take k) := by
    intro h
    by_cases h' : k ≤ body.length
    · rw [List.take_append_of_le_length h']
    · obtain rfl : k = body.length + 1 := by omega
      rw [List.take_length_add_append, List.take_of_length_le (Nat.le_succ _)]
      exact (C03_correct_checksum_transparent env p body hb).2
  refine ⟨⟨?_, ?_⟩, short⟩
  · intro h
    by_contra hc
    by_cases h' : k ≤ body.length + 1
    · rw [short h'] at h
      obtain ⟨a, b, e, -⟩ := (C02_corrupted_iff env p _).1 h
      exact hb (List.mem_of_mem_take (e ▸ (by simp : '*' ∈ a ++ '*' :: b)))
    · obtain rfl : k = body.length + 3 := by omega
      rw [List.take_of_length_le (by omega), (C03_correct_checksum_transparent env p body hb).1] at h
      obtain ⟨a, b, e, -⟩ := (C02_corrupted_iff env p _).1 h
      exact hb (e ▸ by simp)
  · rintro rfl
    rw [List.take_length_add_append]
    obtain ⟨m, e⟩ := C01_wrong_checksum_rejected env p body [(checksumText body).headD '?']
      (by
        have := star_not_mem_checksumText body
        simp only [checksumText, List.mem_cons, List.not_mem_nil, or_false, not_or, List.headD] at this ⊢
        exact this.1) (by simp) (by simp [checksumText])
    exact ⟨m, by rw [show ('*' :: checksumText body).take 2 = '*' :: [(checksumText body).headD '?'] from rfl, e]⟩

/-- The documentation's sentence, cut within the altitude. -/
example : '*' ∉ c! "$GPGGA,123519,4807.038,N,01131.000,E,1,08,0.9,545.4,M,46.9,M,," ∧
    (c! "$GPGGA,123519,4807.038,N,01131.000,E,1,08,0.9,545.4,M,46.9,M,,").take 51 =
      c! "$GPGGA,123519,4807.038,N,01131.000,E,1,08,0.9,545.4" := by decide +kernel

/-! ### C117 -/

theorem join_prefix (tag : Str) (fs : List Str) (i : Nat) (hi : i < fs.length) (k : Nat) :
    join tag (fs.take i ++ [(field fs i).take k]) <+: join tag fs := by
  have e : fs = fs.take i ++ field fs i :: fs.drop (i + 1) := by
    have : field fs i = fs[i] := by simp [field, List.getD, hi]
    rw [this, List.getElem_cons_drop hi, List.take_append_drop]
  have hj : ∀ a b : List Str, join tag (a ++ b) = join tag a ++ (b.map (fun f => ',' :: f)).flatten := by
    intro a b
    simp [join, List.append_assoc]
  conv => rhs; rw [e]
  rw [hj, hj]
  refine (List.prefix_append_right_inj _).2 ?_
  simp only [List.map_cons, List.map_nil, List.flatten_cons, List.flatten_nil, List.append_nil, List.cons_append]
  refine List.cons_prefix_cons.2 ⟨rfl, ?_⟩
  exact (List.take_prefix _ _).trans (List.prefix_append _ _)

/-- Cutting off a sentence within field `i`: the fields before are complete, of this one a beginning is left. -/
theorem cut_tagged {lead : Char} {talker kind : Str} {fs : List Str} {s : Str} (h : IsTagged lead talker kind fs s)
    (hs : '*' ∉ join (tag lead talker kind) fs) (i : Nat) (hi : i < fs.length) (k : Nat) :
    join (tag lead talker kind) (fs.take i ++ [(field fs i).take k]) <+: s ∧
    IsTagged lead talker kind (fs.take i ++ [(field fs i).take k])
      (join (tag lead talker kind) (fs.take i ++ [(field fs i).take k])) := by
  have hp := join_prefix (tag lead talker kind) fs i hi k
  obtain ⟨ht, hc, -, e, -, rfl⟩ := h
  refine ⟨?_, ht, ?_, by simp, .bare, fun _ hm => hs (hp.subset hm), rfl⟩
  · cases e
    · exact hp
    · exact hp.trans (List.prefix_append _ _)
    · exact hp.trans (List.prefix_append _ _)
  · intro f hf
    rcases List.mem_append.1 hf with hf | hf
    · exact hc f (List.mem_of_mem_take hf)
    · rw [List.mem_singleton] at hf
      subst hf
      intro hm
      have hm := List.mem_of_mem_take hm
      have : field fs i = fs[i] := by simp [field, List.getD, hi]
      rw [this] at hm
      exact hc _ (List.getElem_mem hi) hm

theorem field_take (fs : List Str) (i k j : Nat) (hi : i < fs.length) (hj : j < i) :
    field (fs.take i ++ [(field fs i).take k]) j = field fs j := by
  unfold field
  rw [List.getD_append _ _ _ _ (by rw [List.length_take]; omega), List.getD_eq_getElem?_getD, List.getD_eq_getElem?_getD,
    List.getElem?_take_of_lt hj]

theorem field_at (fs : List Str) (i k : Nat) (hi : i < fs.length) :
    field (fs.take i ++ [(field fs i).take k]) i = (field fs i).take k := by
  have hl : (fs.take i).length = i := by rw [List.length_take]; omega
  conv => lhs; unfold field
  rw [List.getD_append_right _ _ _ _ (by omega), hl, Nat.sub_self]
  rfl

/-- C117: an unfragmented AIS sentence that is cut off within its payload is answered as if the missing characters of the
payload were `0`. -/
theorem C117_cut_payload (env : Env) (p : Parser) (talker : Str) (own : Bool) (fs : List Str) (s : Str) (n : Nat)
    (h : IsAis talker own fs s) (hs : '*' ∉ join (tag '!' talker (aisKind own)) fs) (h0 : Dec 255 (field fs 0) 1)
    (h1 : Dec 255 (field fs 1) n) (hl : 4 < fs.length) (k j : Nat) (s' : Str)
    (h' : Single talker own ((field fs 4).take k ++ List.replicate j '0') s') :
    ∃ t, t <+: s ∧ t = join (tag '!' talker (aisKind own)) (fs.take 4 ++ [(field fs 4).take k]) ∧
      parseSentence env p t = parseSentence env p s' := by
  obtain ⟨hp, ht⟩ := cut_tagged h hs 4 hl k
  refine ⟨_, hp, rfl, ?_⟩
  have hS : Single talker own ((field fs 4).take k) (join (tag '!' talker (aisKind own)) (fs.take 4 ++ [(field fs 4).take k])) :=
    ⟨_, n, ht, by rw [field_take fs 4 k 0 hl (by decide)]; exact h0, by rw [field_take fs 4 k 1 hl (by decide)]; exact h1,
      field_at fs 4 k hl⟩
  exact (C42_zero_padding env p talker own _ j _ _ hS h').symm

/-- A position report that is cut after eight characters. -/
example : IsAis (c! "AI") false [c! "1", c! "1", [], c! "A", c! "15RTgt0PAso;90TKcjM8h6g208CQ", c! "0"]
      (c! "!AIVDM,1,1,,A,15RTgt0PAso;90TKcjM8h6g208CQ,0*4A") ∧
    Single (c! "AI") false ((c! "15RTgt0PAso;90TKcjM8h6g208CQ").take 8 ++ List.replicate 20 '0')
      (c! "!AIVDM,1,1,,A,15RTgt0P00000000000000000000,0") := by
  refine ⟨demoTagged .full ⟨by decide, by decide, by decide, by decide, by decide +kernel⟩,
    ⟨[c! "1", c! "1", [], c! "A", c! "15RTgt0P00000000000000000000", c! "0"], 1, demoTagged .bare
    ⟨by decide, by decide, by decide, by decide, by decide +kernel⟩, demoDec (by decide), demoDec (by decide), by decide⟩⟩

/-- C117: so for the second part of a two-part message (with the first part received before). -/
theorem C117_cut_second (env : Env) (p : Parser) (talker : Str) (own : Bool) (fs : List Str) (s : Str) (id : Nat) (a : Str)
    (h : IsAis talker own fs s) (hs : '*' ∉ join (tag '!' talker (aisKind own)) fs) (h0 : Dec 255 (field fs 0) 2)
    (h1 : Dec 255 (field fs 1) 2) (h2 : Dec (2 ^ 64 - 1) (field fs 2) id) (hl : 4 < fs.length)
    (ha : pendingPart p own 1 id (field fs 3) = some a) (k j : Nat) (s' : Str)
    (h' : Part talker own 2 id (field fs 3) ((field fs 4).take k ++ List.replicate j '0') s') :
    ∃ t, t <+: s ∧ t = join (tag '!' talker (aisKind own)) (fs.take 4 ++ [(field fs 4).take k]) ∧
      parseSentence env p t = parseSentence env p s' := by
  obtain ⟨hp, ht⟩ := cut_tagged h hs 4 hl k
  refine ⟨_, hp, rfl, ?_⟩
  have hS : Part talker own 2 id (field fs 3) ((field fs 4).take k)
      (join (tag '!' talker (aisKind own)) (fs.take 4 ++ [(field fs 4).take k])) :=
    ⟨_, ht, by rw [field_take fs 4 k 0 hl (by decide)]; exact h0, by rw [field_take fs 4 k 1 hl (by decide)]; exact h1,
      by rw [field_take fs 4 k 2 hl (by decide)]; exact h2, field_take fs 4 k 3 hl (by decide), field_at fs 4 k hl⟩
  exact (C42_zero_padding_part2 env p talker own id _ a _ j _ _ hS h' ha).symm

/-- The second part of a voyage message, cut after three characters. -/
example : ∃ p, IsAis (c! "AI") false [c! "2", c! "2", c! "3", c! "B", c! "1@0000000000000", c! "2"]
      (c! "!AIVDM,2,2,3,B,1@0000000000000,2*55") ∧
    pendingPart p false 1 3 (c! "B") = some (c! "55P5TL01VIaAL@7WKO@mBplU@<PDhh000000001S;AJ::4A80?4i@E53") ∧
    Part (c! "AI") false 2 3 (c! "B") ((c! "1@0000000000000").take 3 ++ List.replicate 1 '0') (c! "!AIVDM,2,2,3,B,1@00,2") := by
  refine ⟨(parseSentence demoEnv Parser.new
    (c! "!AIVDM,2,1,3,B,55P5TL01VIaAL@7WKO@mBplU@<PDhh000000001S;AJ::4A80?4i@E53,0*3E")).2,
    demoTagged .full ⟨by decide, by decide, by decide, by decide, by decide +kernel⟩, by decide +kernel, ?_⟩
  exact ⟨[c! "2", c! "2", c! "3", c! "B", c! "1@00", c! "2"], demoTagged .bare ⟨by decide, by decide, by decide, by decide, rfl⟩,
    demoDec (by decide), demoDec (by decide), demoDec (by decide), rfl, rfl⟩

/-- C117: a first part that is cut off shifts what follows: the destination "SEATTLE" becomes "SEATTE". -/
theorem C117_first_part_counterexample : ∃ d d',
    (parseSentence demoEnv (parseSentence demoEnv Parser.new
      (c! "!AIVDM,2,1,3,B,55P5TL01VIaAL@7WKO@mBplU@<PDhh000000001S;AJ::4A80?4i@E53,0*3E")).2
      (c! "!AIVDM,2,2,3,B,1@0000000000000,2*55")).1 = .ok (.vesselStaticData d) ∧
    (parseSentence demoEnv (parseSentence demoEnv Parser.new
      (c! "!AIVDM,2,1,3,B,55P5TL01VIaAL@7WKO@mBplU@<PDhh000000001S;AJ::4A80?4i@E5")).2
      (c! "!AIVDM,2,2,3,B,1@0000000000000,2*55")).1 = .ok (.vesselStaticData d') ∧
    d.destination = some (c! "SEATTLE") ∧ d'.destination = some (c! "SEATTE") :=
  ⟨_, _, rfl, rfl, by decide +kernel⟩

theorem snum_past (bits : List Bool) (i w : Nat) (h : bits.length ≤ i) : snum bits i w = 0 := by
  have hw : window bits i w = List.replicate w false := by
    unfold window
    rw [List.drop_append, List.drop_of_length_le h, List.nil_append, List.drop_replicate, List.take_replicate]
    congr 1
    omega
  have hv : ∀ n, bitsVal (List.replicate n false) = 0 := by
    intro n
    unfold bitsVal
    induction n with
    | zero => rfl
    | succ n ih => rw [List.replicate_succ, List.foldl_cons]; exact ih
  rw [snum, hw, signedVal, hv]
  cases w with
  | zero => rfl
  | succ w => rfl

/-- C117: 'A message that ends before the position is reported without position' is false: it is reported at latitude 0,
longitude 0. -/
theorem C117_position_zero (env : Env) (p : Parser) (s talker : Str) (own : Bool) (bits : List Bool)
    (h : DeliversBits env p s talker own bits) (lonAt latAt : Nat) (ht : (typeOf bits, lonAt, latAt) ∈ positionAt)
    (hl : bits.length ≤ lonAt) (r : ParsedSentence) (hr : (parseSentence env p s).1 = .ok r) :
    positionOf r = some (some (.fin false 0), some (.fin false 0)) := by
  have hll : lonAt ≤ latAt := by
    simp only [positionAt, List.mem_cons, Prod.mk.injEq, List.not_mem_nil, or_false] at ht
    omega
  obtain ⟨lat, lon, h1, h2, h3, h4, h5⟩ := C54_positions env p s talker own bits h lonAt latAt ht r hr
  rw [snum_past bits latAt 27 (by omega)] at h2 h3
  rw [snum_past bits lonAt 28 hl] at h4 h5
  have z : ∀ d : F64, RoundsTo (((0 : Int) : Rat) / 600000) d → d = .fin false 0 := by
    intro d hd
    rw [(F64.roundsTo_iff _ d).mp hd]
    decide +kernel
  cases lat with
  | none => exact absurd (h2.1 rfl) (by decide)
  | some x =>
    cases lon with
    | none => exact absurd (h4.1 rfl) (by decide)
    | some y => rw [h1, z x (h3 x rfl), z y (h5 y rfl)]

/-- The report of the sentence above. -/
example : (typeOf (payloadBits (c! "15RTgt0P")), 61, 89) ∈ positionAt ∧ (payloadBits (c! "15RTgt0P")).length ≤ 61 := by
  decide +kernel

/-- C117: a GGA, RMC, GSA, VTG or GLL sentence that is cut off within field `i` (so that `k` characters of it are left):
if it and the whole sentence are answered with reports, then all values made of the fields before `i` are the same. -/
theorem C117_cut_fields (env : Env) (p p' : Parser) (talker kind : Str) (fs : List Str) (s : Str)
    (h : IsGnss talker kind fs s) (hs : '*' ∉ join (tag '$' talker kind) fs) (i k : Nat) (hi : i < fs.length)
    (r r' : ParsedSentence) (hr : (parseSentence env p s).1 = .ok r)
    (hr' : (parseSentence env p' (join (tag '$' talker kind) (fs.take i ++ [(field fs i).take k]))).1 = .ok r')
    (x : Value) (is : List Nat) (hx : (x, is) ∈ fieldSources kind) (hb : ∀ j ∈ is, j < i) :
    x.read r = x.read r' :=
  C114_fields env p p' talker kind fs _ s _ h (cut_tagged h hs i hi k).2 r r' hr hr' x is hx
    (fun j hj => (field_take fs i k j hi (hb j hj)).symm)

/-- A VTG sentence and its first fields. -/
example : IsGnss (c! "GP") (c! "VTG") [c! "054.7", c! "T", c! "034.4", c! "M", c! "005.5", c! "N"]
      (c! "$GPVTG,054.7,T,034.4,M,005.5,N") ∧ '*' ∉ c! "$GPVTG,054.7,T,034.4,M,005.5,N" ∧
    (ofVtg (·.cogTrue), [0]) ∈ fieldSources (c! "VTG") :=
  ⟨demoTagged .bare (by decide), by decide, List.mem_of_getElem? (i := 1) rfl⟩

/-- C117: 'A sentence that is cut off never gives a wrong value' is false: 545.4 metres become 5. -/
theorem C117_wrong_value :
    let s := c! "$GPGGA,123519,,,,,1,08,0.9,545.4,M"
    ∃ d d', c! "$GPGGA,123519,,,,,1,08,0.9,5" <+: s ++ '*' :: checksumText s ∧
      (parseSentence demoEnv Parser.new (s ++ '*' :: checksumText s)).1 = .ok (.gga d) ∧
      (parseSentence demoEnv Parser.new (c! "$GPGGA,123519,,,,,1,08,0.9,5")).1 = .ok (.gga d') ∧
      d.altitude = some (F64.ofRat (mkRat 5454 10)) ∧ d'.altitude = some (F64.ofRat 5) := by
  refine ⟨⟨.gps, some ⟨2024, 2, 29, 12, 35, 19⟩, none, none, .gpsFix, some 8, some (F64.ofRat (mkRat 9 10)),
      some (F64.ofRat (mkRat 5454 10)), none, none, none⟩,
    ⟨.gps, some ⟨2024, 2, 29, 12, 35, 19⟩, none, none, .gpsFix, some 8, some (F64.ofRat (mkRat 9 10)),
      some (F64.ofRat 5), none, none, none⟩, by decide +kernel, by decide +kernel, by decide +kernel, rfl, rfl⟩

end Nmea
