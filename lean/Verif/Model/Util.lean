/-
Model of src/util.rs.
-/
import Verif.Model.F64
import Verif.Model.Chrono
import Verif.Model.IntParse

namespace Nmea

/-- A `BitVec` of the `bitvec` crate, used as a growable list of bits. -/
abbrev Bits := List Bool

/-- src/util.rs:22-24 `make_fragment_key`. -/
def makeFragmentKey (sentenceType : Str) (messageId fragmentCount fragmentNumber : Nat)
    (radioChannelCode : Str) : Str :=
  sentenceType ++ ',' :: natStr fragmentCount ++ ',' :: natStr fragmentNumber ++
    ',' :: natStr messageId ++ ',' :: radioChannelCode

/-- src/util.rs:31-34, one payload character: `(c as u8) - 48`, then minus 8 above 40. The subtraction
underflows for bytes below 48: panic with overflow checks, wrap-around without. -/
def armorValue (overflowChecks : Bool) (c : Char) : Out Str Nat :=
  let b := charAsU8 c
  if b < 48 then
    if overflowChecks then .panic
    else
      let ci := b + 256 - 48
      .ok (if ci > 40 then ci - 8 else ci)
  else
    let ci := b - 48
    .ok (if ci > 40 then ci - 8 else ci)

/-- src/util.rs:37-39, the six bits pushed for one character, most significant first. -/
def sixBits (ci : Nat) : Bits :=
  (List.range 6).map (fun i => ((ci >>> (5 - i)) &&& 1) != 0)

/-- src/util.rs:28-43 `parse_payload` (never `Err`). -/
def parsePayload (overflowChecks : Bool) : Str → Out Str Bits
  | [] => .ok []
  | c :: cs =>
    match armorValue overflowChecks c with
    | .ok ci =>
      match parsePayload overflowChecks cs with
      | .ok bs => .ok (sixBits ci ++ bs)
      | .err e => .err e
      | .panic => .panic
    | .err e => .err e
    | .panic => .panic

/-- src/util.rs:47-53 `pick_u64`: shift-in loop on a `u64`, reading `false` past the end. -/
def pickU64 (bv : Bits) (index len : Nat) : Nat :=
  (List.range' index len).foldl
    (fun res pos => ((res <<< 1) % 2 ^ 64) ||| ((bv[pos]?).getD false).toNat) 0

/-- src/util.rs:57-69 `pick_i64` (called with `1 ≤ len ≤ 28` only; `len = 0` would underflow). -/
def pickI64 (bv : Bits) (index len : Nat) : Int :=
  let res := pickU64 bv index len
  let signBit := 2 ^ (len - 1)
  if res &&& signBit ≠ 0 then
    asI64 (res &&& (signBit - 1)) - asI64 signBit
  else
    asI64 res

/-- `char::is_whitespace` (Unicode White_Space), used by `trim_end`. -/
def isWhite (c : Char) : Bool :=
  let n := c.toNat
  (9 ≤ n && n ≤ 13) || n == 0x20 || n == 0x85 || n == 0xA0 || n == 0x1680 ||
  (0x2000 ≤ n && n ≤ 0x200A) || n == 0x2028 || n == 0x2029 || n == 0x202F || n == 0x205F || n == 0x3000

/-- `str::trim_end`. -/
def trimEnd (s : Str) : Str := (s.reverse.dropWhile isWhite).reverse

/-- src/util.rs:76-86, the loop of `pick_string` over the remaining character indices. The `assert!` at
line 78 is the `panic` case (`u32` cast of a six-bit value). `char::from_u32` is total on the values
reached (below 128). -/
def pickChars (bv : Bits) (index : Nat) : List Nat → Out Str Str
  | [] => .ok []
  | i :: is =>
    let ch := asU32 (pickU64 bv (index + i * 6) 6)
    if ch < 64 then
      if ch = 0 then .ok []
      else if ch < 32 then
        match pickChars bv index is with
        | .ok r => .ok (Char.ofNat (64 + ch) :: r)
        | .err e => .err e
        | .panic => .panic
      else
        match pickChars bv index is with
        | .ok r => .ok (Char.ofNat ch :: r)
        | .err e => .err e
        | .panic => .panic
    else .panic

/-- src/util.rs:73-88 `pick_string`. -/
def pickString (bv : Bits) (index charCount : Nat) : Out Str Str :=
  match pickChars bv index (List.range charCount) with
  | .ok r => .ok (trimEnd r)
  | .err e => .err e
  | .panic => .panic

/-- src/util.rs:92-121 `pick_eta`. Both candidate dates are built with the current year, as in the code
(lines 113 and 114). `now` is compared at whole-second precision. -/
def pickEta (now : DateTime) (bv : Bits) (index : Nat) : Out Str (Option DateTime) :=
  let month := asU32 (pickU64 bv index 4)
  let day := asU32 (pickU64 bv (index + 4) 5)
  let hour := asU32 (pickU64 bv (index + 4 + 5) 5)
  let minute := asU32 (pickU64 bv (index + 4 + 5 + 5) 6)
  let second := asU32 (pickU64 bv (index + 4 + 5 + 5 + 6) 6)
  if month = 0 ∧ day = 0 ∧ hour = 24 ∧ minute = 60 ∧ second = 60 then .ok none
  else
    let month := if month = 0 then now.month else month
    let day := if day = 0 then now.day else day
    let (hour, minute, second) := if hour = 24 then (23, 59, 59) else (hour, minute, second)
    let (minute, second) := if minute = 60 then (59, 59) else (minute, second)
    let second := if second = 60 then 59 else second
    match ymdHms (ε := Str) now.year month day hour minute second with
    | .ok thisYear =>
      match ymdHms (ε := Str) now.year month day hour minute second with
      | .ok nextYear => if now.le thisYear then .ok (some thisYear) else .ok (some nextYear)
      | .err e => .err e
      | .panic => .panic
    | .err e => .err e
    | .panic => .panic

/-- `split.get(num).unwrap_or(&"")`. -/
def fieldAt (split : List Str) (num : Nat) : Str := (split[num]?).getD []

/-- src/util.rs:124-134 `pick_number_field`, with the `FromStr` of the target type as parameter. -/
def pickNumberField {α : Type} (parse : Str → Option α) (split : List Str) (num : Nat) :
    Out Str (Option α) :=
  let s := fieldAt split num
  if s ≠ [] then
    match parse s with
    | some p => .ok (some p)
    | none => .err (c! "Failed to parse field " ++ natStr num ++ c! ": " ++ s)
  else .ok none

/-- src/util.rs:137-146 `parse_hhmmss`. The three slices are evaluated one after the other, each only if
the previous part was numeric; a failing slice panics, as do out-of-range values (`and_hms`) and an
invalid current date (`ymd`). -/
def parseHhmmss (hhmmss : Str) (now : DateTime) : Out Str DateTime :=
  let fail : Out Str DateTime := .err (c! "Invalid time format: " ++ hhmmss)
  match slice hhmmss 0 2 with
  | none => .panic
  | some h =>
    match parseU32 h with
    | none => fail
    | some hour =>
      match slice hhmmss 2 4 with
      | none => .panic
      | some m =>
        match parseU32 m with
        | none => fail
        | some minute =>
          match slice hhmmss 4 6 with
          | none => .panic
          | some s =>
            match parseU32 s with
            | none => fail
            | some second => ymdHms now.year now.month now.day hour minute second

/-- src/util.rs:170-172 `pick_s2`. -/
def pickS2 (s : Str) (i : Nat) : Str := (s.drop i).take 2

/-- src/util.rs:149-167 `parse_yymmdd_hhmmss` (`century` by truncating `i32` division). -/
def parseYymmddHhmmss (now : DateTime) (yymmdd hhmmss : Str) : Out Str DateTime :=
  let century := (now.year.tdiv 100) * 100
  let failDate : Out Str DateTime := .err (c! "Invalid date format: " ++ yymmdd)
  let failTime : Out Str DateTime := .err (c! "Invalid time format: " ++ hhmmss)
  match parseU32 (pickS2 yymmdd 0) with
  | none => failDate
  | some day =>
    match parseU32 (pickS2 yymmdd 2) with
    | none => failDate
    | some month =>
      match parseI32 (pickS2 yymmdd 4) with
      | none => failDate
      | some year =>
        match parseU32 (pickS2 hhmmss 0) with
        | none => failTime
        | some hour =>
          match parseU32 (pickS2 hhmmss 2) with
          | none => failTime
          | some minute =>
            match parseU32 (pickS2 hhmmss 4) with
            | none => failTime
            | some second => ymdHms (century + year) month day hour minute second

/-- An ASCII digit, `[0-9]` of the regular expressions. -/
def isDig (c : Char) : Bool := decide ('0' ≤ c ∧ c ≤ '9')

/-- The regular expression `^([0-9]{k})([0-9][0-9]\.[0-9]+)` (k = 2 at src/util.rs:180, k = 3 at :200)
on a text: the two captures. The final `[0-9]+` is greedy. -/
def matchDegMin (k : Nat) (s : Str) : Option (Str × Str) :=
  let d := s.take k
  let m := (s.drop k).take 2
  let rest := s.drop (k + 2)
  if d.length = k ∧ d.all isDig ∧ m.length = 2 ∧ m.all isDig then
    match rest with
    | '.' :: t =>
      let f := (F64.spanDigits t).1
      if f ≠ [] then some (d, m ++ '.' :: f) else none
    | _ => none
  else none

/-- src/util.rs:182-184: `d + m / 60.0` with both captures parsed as `f64` (default `0.0`). -/
def degMinVal (d m : Str) : F64 :=
  let dv := (F64.parse d).getD (.fin false 0)
  let mv := (F64.parse m).getD (.fin false 0)
  F64.add dv (F64.div mv (F64.ofInt 60))

/-- src/util.rs:177-192 `parse_latitude_ddmm_mmm`. -/
def parseLatitude (lat hemisphere : Str) : Out Str (Option F64) :=
  if lat ≠ [] then
    match matchDegMin 2 lat with
    | some (d, m) =>
      let val := degMinVal d m
      .ok (some (if hemisphere = c! "N" then val else if hemisphere = c! "S" then val.neg else val))
    | none => .err (c! "Failed to parse latitude (DDMM.MMM) from " ++ lat)
  else .ok none

/-- src/util.rs:197-212 `parse_longitude_dddmm_mmm`. -/
def parseLongitude (lon eastwest : Str) : Out Str (Option F64) :=
  if lon ≠ [] then
    match matchDegMin 3 lon with
    | some (d, m) =>
      let val := degMinVal d m
      .ok (some (if eastwest = c! "E" then val else if eastwest = c! "W" then val.neg else val))
    | none => .err (c! "Failed to parse longitude (DDDMM.MMM) from " ++ lon)
  else .ok none

end Nmea
