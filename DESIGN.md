# Formal model of wezm/nmea-parser in Lean 4

The subject is the crate in `/repo` (version 0.5.0-dev). It was read as text; nothing of it was built or run.

## 1. Layout

* `lean/Verif/Model/*`: the model, function by function. Every definition cites file and lines in `/repo`; a
  simplification is stated in the same comment.
* `lean/Verif/Spec/*`: a small specification vocabulary (sentences and checksums, bit and field encoders, six-bit
  armoring and text, ITU-R M.1371 message layouts, number grammars, calendar, tables, histories, the memory
  machine, panic conditions). Specifications do not use the model's parsing functions. They use its data types
  (result structures, `Parser`, `Env`, `Str`) and, where a statement is about a run, `parseSentence` itself.
* `lean/Verif/Lemmas/*`: helper lemmas.
* `lean/Verif/Props/*`: the property theorems `Cnn_...`, each with an `example` that meets its hypotheses.
* `lean/Verif/Conformance.lean`: the expectations of the crate's own unit tests and of the README's sample program,
  transcribed and evaluated in the model. These are tests of the model against the code's authors' expectations, not proofs, and are not counted as
  claims.
* `properties.jsonl`: the claims. `MANIFEST.json`: the theorems of each claim. `seeded/LOG.jsonl`: wrong programs
  the theorems were tried against.

## 2. Trusted base

* Lean 4.33.0's kernel, and its elaboration of the theorem *statements*.
* The definitions under `Model/` being a faithful transcription of the Rust source (sections 3 and 4), and those
  under `Spec/` saying what the English claims say.
* Axioms:

Every manifest theorem was inspected with `#print axioms`. No axiom beyond Lean's three standard ones occurs; `Lean.ofReduceBool` (native evaluation) does not occur.

* no axioms (6): C61_only_digits, C82_labels_identify, C82_simulator, C82_labels_nonempty, C82_aid_ambiguous, C123_printed.
* `propext` (6): C60_tanker_mismatch, C82_ship_labels, C82_cargo_labels, C123_values, C142_output, C148_as_standard.
* `Quot.sound, propext` (18): C38_characters, C38_concat, C38_alphabet_total, C39_unsigned_field, C41_text_plain, C60_constructors, C61_country, C61_codes, C62_integer_fields, C62_refused, C123_codes, C123_empty, C125_lossless, C125_wrong_character, C142_replace, C142_same_code, C142_ambiguous, C156_country.
* `Classical.choice, Quot.sound, propext`: all other manifest theorems (599).

* Mathlib is used for tactics (`ring`, `linarith`, `norm_num`, `positivity`, `field_simp`, `zify`, `qify`) and for
  lemmas on ordered fields, `Rat` and lists; its modules are imported one at a time.
* `decide +kernel` is used for closed examples and finite tables; it is evaluated by the kernel.

## 3. What is modelled

| `/repo` | model |
|---|---|
| `src/error.rs` (all) | `Model/Basic`: `ParseError`, `toStr` |
| `src/lib.rs` `ParsedSentence`, `NmeaParser` and its store functions, `parse_sentence` (all of it) | `Model/GnssTypes`, `Model/Store`, `Model/Parse` |
| `src/lib.rs` `LatLon` and its implementations | `Model/Display` (`latLon`) |
| `src/util.rs` (all functions) | `Model/Util`, `Model/IntParse` |
| `src/ais/mod.rs` types, `new` functions, `Display`, `country()` | `Model/AisTypes`, `Model/Display`, `Model/Country` |
| `mid-to-iso3166.py` (all) | `Model/MidScript` |
| the sample program of `README.md` | `Model/Sample` |
| the calls of the `log` macros | `Model/Log` |
| `src/ais/vdm_t{1t2t3,4,5,6,9,10,18,19,21,24,27}.rs` `handle`, `merge`, `choose_some` | `Model/AisHandlers` |
| `derive(PartialEq)` of the result types | `Model/Equality` |
| `derive(Debug)` of the result types, in its one-line form `{:?}` | `Model/Debug` |
| `derive(Debug)` of the result types, in its form on several lines `{:#?}` (with core::fmt's `PadAdapter`) | `Model/Pretty` |
| the store functions with a count of their calls | `Model/Work` (a copy, proved equivalent: C105) |
| `src/gnss/mod.rs`, `gga.rs`, `rmc.rs`, `gsa.rs`, `gsv.rs`, `vtg.rs`, `gll.rs` | `Model/GnssTypes`, `Model/GnssHandlers`, `Model/Display` |

Library behaviour the model takes from documentation:

* `&str`/`String` is `List Char`; Lean's `Char` and Rust's `char` are both Unicode scalar values. Byte-offset slices
  `&s[a..b]` use UTF-8 lengths and panic off a boundary or past the end.
* Integers are `Nat`/`Int` with every `as` cast and every overflow that can occur written out. Whether overflow
  checks are compiled in (debug or release profile) is an input, `Env.overflowChecks`.
* A panic is a third outcome beside `Ok` and `Err`; the parser state at the moment of the panic is kept, so that
  histories include callers who catch it.
* `f64` is IEEE 754 binary64: sign and exact rational magnitude, infinities, one NaN; an operation is the exact
  operation followed by rounding to nearest even, with overflow and underflow. `str::parse::<f64>` is the
  documented grammar (with `inf`, `infinity`, `nan` in any case, as since Rust 1.55; older versions accept only `inf` and
  `NaN`) and correct rounding; the exponent is exact
  (the standard library saturates exponents beyond about 65536, which differs only for texts with tens of thousands
  of mantissa digits). `powi(x, 2)` is one multiplication.
* `chrono`: proleptic Gregorian UTC with whole seconds; `ymd` and `and_hms` panic on invalid values. Leap seconds
  cannot arise from the calls made.
* `Utc::now()` is the input `Env.now`, one value per call of `parse_sentence`.
* `HashMap` is a finite map with insert, remove, get and size; iteration order is never used by the code
  (C103 proves that the order inside the model's maps cannot be observed).
* The two regular expressions are an explicit matcher (`matchDegMin`), anchored at the start only, as in the code.
  C107 proves it equal to a general backtracking semantics applied to the two pattern texts.
* `{:02X?}` of a string in the corruption error is `Debug for str`: quotation marks around the text, printable ASCII
  as it is, a backslash before quotation marks and backslashes, `\t`, `\r`, `\n`, other ASCII control characters as
  `\u{7f}`. What it makes of other characters, of NUL and of the apostrophe (which depend on the version of the standard
  library) is an uninterpreted function `Env.escape`; no theorem depends on what it is.
* `BitVec` is a list of bits.
* `Debug for f64` and the escapes of characters outside the list above are a parameter (`Library`, C143 and C144), of which
  the theorems assume what the documentation promises: the text of a double reads back as that double, and an escaped
  character is either itself (if it can be printed) or a backslash form.

## 4. What is not modelled

* The `log` facade: Model/Log gives the records handed to it (C109); filtering and output are up to the application.
* `derive(Clone)`. Equality of results in the theorems is equality of the model values, for which
  NaN equals itself; how it relates to `derive(PartialEq)` is C104.
* Subsecond precision of `Utc::now()`. It could matter only for `now <= this_year_eta` in `pick_eta`, whose two
  branches yield the same value (C77).
* Running time (but for the number of accesses to the parser's tables, C105), allocation failure, stack depth. Sentences of 2^31 or more fields (the `i32` counter of the VDM
  loop) and messages beyond `usize` bits.
* The internals of bitvec, regex, chrono and std, except as described in section 3.
* The test modules (but see `Conformance.lean`); of the README, all but its sample program (C140) and its tables of features and plans (C159).

## 5. Where code and expectation disagree

A claim of `properties.jsonl` that says "... is false" is settled by a proved counterexample and the strongest true
variant. The disagreements found while modelling, with the claims that state them:

* Type 5: `ais_type` is ClassB for class A static data; the ETA seconds come from the draught bits; "next year" is
  the current year; "not available" is usually reported as the end of today; dates such as 31 February panic (C46,
  C72, C77).
* Type 18: the five class B flags are each read one bit early; `raim_flag` repeats the unit flag; the radio status
  lacks its selector bit (C50).
* Type 21: `off_position_indicator` reads a dimension bit (C51).
* The `*` itself is the weak spot of the checksum (C132): if it arrives wrong or is lost, the sentence counts as one without
  checksum and the digits become part of the last field. In `$GPGGA,...,M,,*47` without its `*` the reference station is 47.
* A line terminator given with a sentence is not stripped (C130): with checksum the sentence is refused, without checksum the
  terminator becomes part of the last field, which can be lost without notice or make the sentence refused. The documentation
  does not say that lines must be trimmed.
* Limits given in the documentation of the fields (heading 0-359, IMO number 1-999999999, draught 1-255, signal-to-noise
  ratio 0-99, reference station 0000-4095) are not enforced; C128 states what is reported instead.
* Type 24: the name of part A is read beyond its field; any two parts of an MMSI are merged, also two parts A, also
  one VDM and one VDO (C30, C52, C88).
* Type 24 part B: the same 30 bits are reported as dimensions and as mothership MMSI, so every ship has a mother ship and every
  auxiliary craft the dimensions of a large ship; `country()` knows no MMSIs other than those of ships (C156).
* Type 27: latitude, longitude, speed, course and GNSS flag are read at wrong offsets (C53).
* Types 1-3: manoeuvre indicator 1 ("no special manoeuvre") is Some(true); the rate of turn exceeds 708 deg/min
  (C44, C57).
* Ship types 80-99 are Cargo, so Tanker and Other are never produced (C60).
* `country()`: 445 is KR (should be KP), 660 is TF (RE), 676 is CG (CD) (C61), because the
  script that generated the table gives these countries the names of others (C142).
* Positions outside the globe, courses above 360 and headings above 359 are passed through (C55, C56).
* Fragments of different talkers are combined (C24); pending data is never dropped (C16); GSV sentences with count
  0 or a number outside 1..count stay for ever (C36).
* The loss of one sentence can spoil a stream for ever: a lost part 1 of a two-part message (C90), a lost GSV
  sentence other than the last (C91), a lost part A or B of type 24 (C93). Only another loss can bring the stream back in step (C115).
* Sentences received twice (two receivers on one parser) mix messages: parts 2 are joined to the next part 1 (C99),
  parts A and B of type 24 are never combined (C100), GSV reports contain satellites of the cycle before (C101).
* Panics: short or non-ASCII tags, short or impossible GGA/GLL times, impossible RMC and type 4/5 dates, payload
  characters below `0` and the GSV count 2^32-1 with overflow checks (C72). An *empty* GGA or GLL time field panics,
  so the sentences of a receiver without a fix end a program that does not catch panics (C133). So does a type 4 message
  of a base station that does not know the time (C134).
* "Not available" is reported as a value: dimensions and draught 0 m, ETA at the end of today, and for type 27 a position
  181 N 91 E, 26 knots, course 5460 (C134).
* A line terminator after the checksum, or lower-case digits, make a sentence Corrupted (C06, C154). The first character
  is not covered by the check, and transpositions are not detected (C04).
* `nan` and `inf` are accepted as numbers (C63). RMC years are always in the current century (C76).
* A GNSS report with a NaN is not equal to itself, and 0 degrees north equals 0 degrees south (C104).
* The signal id that ends a GSV sentence since NMEA 4.10 is reported as a further satellite if the sentence has fewer than four
  (C146). The signals of a system are not told apart: after one loss the reports have satellites of two signals (C147).
* Proprietary sentences without a message id, such as `$PUBX,...` of u-blox, make the call panic; `$PGRMC` of Garmin is taken
  for an RMC sentence (C148).
* Satellites with numbers above 255 are left out of GSV reports and make a GSA sentence an error (C152).
* In a leap second (time 235960) fix sentences make the call panic (C149).
* Unit letters are not read: a height in feet is reported as metres, and in a VTG sentence of the form before NMEA 2.0 the
  speed in knots is taken for the magnetic course (C157).
* The talkers of NMEA 4.11 for BeiDou (`GB`) and QZSS (`GQ`) are unknown, their source is `Other` (C07, C158).
* Fractions of a second are dropped: the fixes of a receiver that sends several per second have equal timestamps (C155).
* A position without a letter for the hemisphere, or with a small one, is reported in the north or east; it is not refused (C153, C154).
* The count in a GSV sentence drives two loops: nineteen characters can cost 2^32 table accesses (C105).
* The log warns of ship types 0-9, 30-39 and 50-59 as unexpected although they are recognised, and twice of codes above 99
  (C109).
* A sentence without a comma is quoted raw in the text of its error, so that its line breaks reach whatever the text is
  written to; the `{:?}` form of the same error escapes them (C144).
* `high_position_accuracy` of the aid to navigation report is not `pub`: it is read from the message, but a user can see it only
  in the `{:?}` text or by comparing reports (C143).
* The README lists VDM/VDO type 19 as supported; it is always refused (C11, C159).
* The FAA mode Simulator is never produced (C79). Display texts of aid types 18/29 and 19/30 coincide (C82). The
  position of a type 6 message is always None (C83). Type 19 errors always say AIVDM (C89).

## 6. Properties

For each claim: status, what is modelled and how it is proved, theorems.

**C01 A wrong checksum is always rejected, without side effects** (proved). `parse_sentence` framing (lib.rs 166-195) as `splitChecksum`, `checksum`, `parseSentence`; spec has its own XOR and hex text (`checksumText`). Case analysis on the last `*`.  
Theorems: C01_wrong_checksum_rejected.

**C02 CorruptedSentence is reported only for a checksum mismatch** (proved). Same model; the 'only if' direction goes through every handler (`Lemmas/Outcome`: no later stage produces CorruptedSentence).  
Theorems: C02_corrupted_iff.

**C03 A correct checksum is transparent** (proved). Both sides of the equation are `parseSentence`; three endings of one body (`finish`).  
Theorems: C03_correct_checksum_transparent, C03_star_and_full_agree.

**C04 Any single-character corruption of a checksummed sentence is detected** (proved). Injectivity of XOR in each argument, for arbitrary characters; the two limits (first character not covered, transpositions undetected) are theorems about `parseSentence` with witnesses.  
Theorems: C04_first_char_uncovered, C04_transposition_undetected, C04_single_change_detected, C04_digit_change_detected, C04_transposition_counterexample, C04_star_digit_counterexample.

**C05 A sentence without a comma is rejected as invalid, without side effects** (proved). Case analysis of the comma test.  
Theorems: C05_no_comma_invalid.

**C06 Nothing may follow the checksum digits** (proved). Length argument on the checksum text.  
Theorems: C06_nothing_after_checksum, C06_lower_case_rejected.

**C07 GNSS source is determined by the talker id** (proved). Inversion of the dispatcher lifted through all GNSS handlers; talker table written independently in `Spec/Tables`.  
Theorems: C07_source_is_talker.

**C08 AIS station and own-vessel flag are determined by the sentence tag** (proved). As C07 for AIS (station table `talkerStation`).  
Theorems: C08_station_and_own.

**C09 The kind of result agrees with the sentence type** (proved). Inversion of a successful parse: the sentence has the form tag + fields of the matching kind.  
Theorems: C09_result_kind.

**C10 Unsupported sentence types are refused without side effects** (proved). For every tag text not among the eight; the error *text* is not part of the claim (see C89 for the texts).  
Theorems: C10_other_gnss_kind, C10_other_ais_kind, C10_odd_tag, C10_supported_gnss_kind.

**C11 AIS message types: supported or refused, by number alone** (proved). Iff over all payloads in every state, in one or two parts (C11_complete_message); `supportedTypes` is a literal list in the specification.  
Theorems: C11_complete_message, C11_message_type.

**C12 Single-sentence GNSS messages are stateless** (proved). Any two states give the same answer; the state is returned unchanged.  
Theorems: C12_gnss_stateless.

**C13 An error never adds pending data** (proved). Case analysis of every path that returns an error, including the merge error of type 24; C13_only_incomplete_adds by the same analysis for every other answer.  
Theorems: C13_error_adds_nothing, C13_only_incomplete_adds, C13_gsv_counterexample.

**C14 Single-sentence AIS messages other than type 24 are stateless** (proved). As C12, for arbitrary payloads of other types.  
Theorems: C14_single_stateless.

**C15 Pending data grows by at most one entry per sentence** (proved). Size of the two maps; induction over the history.  
Theorems: C15_one_call, C15_history.

**C16 Pending data is never expired: memory is not bounded** (proved). Negative result: unbounded growth (explicit history for every n), frame theorem for the rest.  
Theorems: C16_never_expires, C16_unbounded.

**C17 Two-part AIS messages are reassembled under any interleaving** (proved). Frame theorem for a group + evaluation of the two parts; also as a statement about a new parser and sentences only (`_from_new`).  
Theorems: C17_parts_in_order, C17_from_new.

**C18 Part order does not matter** (proved). As C17 with the parts exchanged.  
Theorems: C18_parts_reversed, C18_from_new.

**C19 Fragments of different groups are never combined** (proved). Injectivity of the textual key built by `make_fragment_key` (proved for all channels without comma).  
Theorems: C19_other_groups_untouched, C19_other_groups_irrelevant.

**C20 A completed message is consumed** (proved). Needs C21 as invariant; observable form `C20_from_new`.  
Theorems: C20_consumed, C20_again_incomplete, C20_from_new.

**C21 The two parts of one group are never pending together** (proved). Invariant by induction over all histories; observable form `C21_one_waits`.  
Theorems: C21_never_both, C21_one_waits.

**C22 Unsupported fragmentation is reported as Incomplete and stores nothing** (proved). All counts, numbers and unparsable message ids.  
Theorems: C22_count_only, C22_unsupported_fragmentation.

**C23 The most recent copy of a part wins** (proved). Overwriting under one key, with arbitrary histories between.  
Theorems: C23_last_part1_wins, C23_last_part2_wins.

**C24 Parts from different talkers** (proved). Negative result with concrete witness, and the general theorem of what is combined.  
Theorems: C24_station_of_last, C24_talkers_combined, C24_talkers_counterexample.

**C25 Type 24 parts A and B are merged under any interleaving** (proved). `partData` in `Spec/Static` describes the content of one part from the ITU layout; the merge is proved equal to `fullStatic`.  
Theorems: C25_A_then_B, C25_B_then_A.

**C26 Type 24 merge does not depend on which part comes first** (proved). Consequence of C25 for both orders.  
Theorems: C26_order_irrelevant.

**C27 Type 24 merging never fails** (proved). Invariant: what is stored under an MMSI carries that MMSI, so the two error branches of merge are unreachable.  
Theorems: C27_merge_never_fails.

**C28 Type 24 parts of different vessels are never mixed** (proved). Same invariant; frame theorem per MMSI.  
Theorems: C28_pending_of_own_mmsi, C28_others_untouched, C28_others_irrelevant.

**C29 A merged type 24 result is consumed** (proved). After a result nothing is stored; next part waits.  
Theorems: C29_consumed, C29_again_incomplete.

**C30 A type 24 result combines two consecutive type 24 messages of the MMSI, whatever their part numbers** (proved). General theorem (`overlay`) for all part-number pairs, and the counterexample to 'one A and one B'.  
Theorems: C30_pairs, C30_two_A, C30_two_A_counterexample.

**C31 GSV groups are assembled in any arrival order** (proved). Invariant relating the stored sentences to the last sentence received per number (`GroupTrace`), any permutation.  
Theorems: C31_any_order.

**C32 GSV is Incomplete until the group is complete** (proved). Same invariant.  
Theorems: C32_incomplete.

**C33 A completed GSV group is consumed** (proved). All n keys are erased; observable form `C33_again_incomplete` (n >= 2).  
Theorems: C33_consumed, C33_again_incomplete.

**C34 GSV groups of different talkers or sizes are isolated** (proved). Injectivity of `make_gsv_key`, disjointness from AIS keys.  
Theorems: C34_others_untouched, C34_others_irrelevant.

**C35 The most recent GSV sentence of a given number wins** (proved). Same invariant as C31 without the permutation hypothesis.  
Theorems: C35_latest_wins.

**C36 Out-of-range GSV numbers leave residue** (proved). Frame theorem over every later history.  
Theorems: C36_residue, C36_count_zero.

**C37 Shape of a GSV result** (proved). Specification `satellites` reads the fields independently (`readDec`).  
Theorems: C37_single, C37_shape.

**C38 Payload armoring is inverted exactly** (proved). Encoder in `Spec/Bits`; round trip for all bit strings; statement about `parsePayload` and about whole sentences.  
Theorems: C38_armor_roundtrip, C38_armor_fill, C38_characters, C38_concat, C38_alphabet_total.

**C39 Unsigned bit fields** (proved). Induction on the bits; `bitsVal`/`window` are the specification.  
Theorems: C39_unsigned_field, C39_read_back.

**C40 Signed bit fields** (proved). Two's complement of the window; bounds.  
Theorems: C40_signed_field, C40_read_back.

**C41 Six-bit text fields** (proved). Encoder of the six-bit alphabet in the specification; decoder characterised for all bits.  
Theorems: C41_text_roundtrip, C41_text_plain.

**C42 Zero padding of a payload is irrelevant** (proved). Reading beyond the end gives zeros; lifted to whole sentences and to two-part messages.  
Theorems: C42_zero_padding, C42_zero_padding_part2, C42_part1_counterexample, C42_truncated.

**C43 Bits beyond the message layout are ignored** (proved). Two payloads that agree on the layout bits give the same answer, type by type.  
Theorems: C43_extra_bits_ignored, C43_same_layout_bits.

**C44 Type 1/2/3 round trip** (proved). Encoder of message type 1/2/3 as a concatenation of fixed-width fields in ITU-R M.1371 order (`Spec/Messages`); decoding of every field by one lemma about windows of concatenations. Expected values are given by relations on the transmitted integers (`RoundsTo`, tables), not by model functions.  
Theorems: C44_position_A.

**C45 Type 4 round trip** (proved). Encoder of message type 4 as a concatenation of fixed-width fields in ITU-R M.1371 order (`Spec/Messages`); decoding of every field by one lemma about windows of concatenations. Expected values are given by relations on the transmitted integers (`RoundsTo`, tables), not by model functions.  
Theorems: C45_base_station, C45_bad_date_panics.

**C46 Type 5 round trip** (proved). Encoder of message type 5 as a concatenation of fixed-width fields in ITU-R M.1371 order (`Spec/Messages`); decoding of every field by one lemma about windows of concatenations. Expected values are given by relations on the transmitted integers (`RoundsTo`, tables), not by model functions. ETA and class deviations are part of the statement.  
Theorems: C46_voyage, C46_bad_eta_panics.

**C47 Type 6 round trip** (proved). Encoder of message type 6 as a concatenation of fixed-width fields in ITU-R M.1371 order (`Spec/Messages`); decoding of every field by one lemma about windows of concatenations. Expected values are given by relations on the transmitted integers (`RoundsTo`, tables), not by model functions.  
Theorems: C47_addressed.

**C48 Type 9 round trip** (proved). Encoder of message type 9 as a concatenation of fixed-width fields in ITU-R M.1371 order (`Spec/Messages`); decoding of every field by one lemma about windows of concatenations. Expected values are given by relations on the transmitted integers (`RoundsTo`, tables), not by model functions.  
Theorems: C48_aircraft.

**C49 Type 10 round trip** (proved). Encoder of message type 10 as a concatenation of fixed-width fields in ITU-R M.1371 order (`Spec/Messages`); decoding of every field by one lemma about windows of concatenations. Expected values are given by relations on the transmitted integers (`RoundsTo`, tables), not by model functions.  
Theorems: C49_inquiry.

**C50 Type 18 round trip** (proved). Encoder of message type 18 as a concatenation of fixed-width fields in ITU-R M.1371 order (`Spec/Messages`); decoding of every field by one lemma about windows of concatenations. Expected values are given by relations on the transmitted integers (`RoundsTo`, tables), not by model functions. The displaced flags are stated as what the code returns; `C50_wrong_flags` says exactly when each flag is right.  
Theorems: C50_position_B, C50_wrong_flags.

**C51 Type 21 round trip** (proved). Encoder of message type 21 as a concatenation of fixed-width fields in ITU-R M.1371 order (`Spec/Messages`); decoding of every field by one lemma about windows of concatenations. Expected values are given by relations on the transmitted integers (`RoundsTo`, tables), not by model functions.  
Theorems: C51_aid.

**C52 Type 24 round trip** (proved). Encoder of message type 24 as a concatenation of fixed-width fields in ITU-R M.1371 order (`Spec/Messages`); decoding of every field by one lemma about windows of concatenations. Expected values are given by relations on the transmitted integers (`RoundsTo`, tables), not by model functions. `C52_long_name` shows that the restriction on full names is needed.  
Theorems: C52_part_A_first, C52_part_A_second, C52_part_B_first, C52_part_B_second, C52_long_name.

**C53 Type 27 decoding** (proved). Encoder of message type 27 as a concatenation of fixed-width fields in ITU-R M.1371 order (`Spec/Messages`); decoding of every field by one lemma about windows of concatenations. Expected values are given by relations on the transmitted integers (`RoundsTo`, tables), not by model functions. Negative for position, speed and course: the statement says which bits are used instead; `C53_wrong_position`: right only when latitude and longitude are the same integer.  
Theorems: C53_long_range, C53_wrong_position.

**C54 Position availability** (proved). Arbitrary payloads (not only encoded ones): `positionAt` relates payload bits to the result.  
Theorems: C54_positions, C54_long_range.

**C55 Numeric bounds of decoded positions** (proved). Monotonicity of rounding + integer bounds; witness payloads outside the globe.  
Theorems: C55_bounds, C55_bounds_all, C55_off_the_globe.

**C56 Speed, course and heading availability** (proved). Iff statements on raw values; rounding specified by `RoundsTo` (nearest, ties to even).  
Theorems: C56_motion, C56_aircraft, C56_tenths_error, C56_out_of_range.

**C57 Rate of turn** (proved). `powi(2)` of the quotient modelled with every rounding step; monotonicity by monotonicity of rounding, limit violated by a witness.  
Theorems: C57_turn, C57_direction_agrees, C57_monotone, C57_odd, C57_exceeds_limit.

**C58 Coordinates are decoded without loss** (proved). Injectivity of correctly rounded n/600000: consecutive values differ by more than the rounding error.  
Theorems: C58_order_preserved, C58_injective.

**C59 Status enumerations** (proved). Independent tables in `Spec/Codes`; the result of every payload agrees with them.  
Theorems: C59_constructors, C59_class_A, C59_other_status, C59_base_station, C59_aid.

**C60 Ship and cargo type** (proved). Digit-wise specification in `Spec/Codes`; unreachable variants proved unreachable.  
Theorems: C60_constructors, C60_voyage, C60_never_tanker, C60_tanker_mismatch.

**C61 Country lookup** (proved). ITU allocation table in `Spec/Country` by ranges, written independently; three disagreements proved.  
Theorems: C61_country, C61_only_digits, C61_codes.

**C62 Integer fields** (proved). `Dec` grammar (optional plus, digits, bound) in the specification; accept iff.  
Theorems: C62_integer_fields, C62_sentences, C62_leading_zeros, C62_refused.

**C63 Decimal fields** (proved). `Decimal` grammar with exact rational value in the specification; nearest double; special texts.  
Theorems: C63_decimal_fields, C63_sentences, C63_formatted, C63_unique, C63_not_finite.

**C64 Latitude and longitude texts** (proved). Regular expressions replaced by an explicit matcher (anchors: start only, as in the code); error bound by rational arithmetic.  
Theorems: C64_positions, C64_refused, C64_accuracy, C64_bound.

**C65 GGA contents** (proved). GGA: content relation field by field for every accepted sentence, acceptance as an iff, and a formatter round trip.  
Theorems: C65_contents, C65_round_trip, C65_unknown_quality.

**C66 RMC contents** (proved). RMC: content relation field by field for every accepted sentence, acceptance as an iff, and a formatter round trip.  
Theorems: C66_contents, C66_round_trip, C66_refused.

**C67 GSA contents** (proved). GSA: content relation field by field for every accepted sentence, acceptance as an iff, and a formatter round trip.  
Theorems: C67_contents, C67_at_most_twelve, C67_round_trip.

**C68 VTG is never refused** (proved). VTG: total description of the answer for every sentence.  
Theorems: C68_contents, C68_round_trip.

**C69 GLL contents** (proved). GLL: content relation field by field for every accepted sentence, acceptance as an iff, and a formatter round trip.  
Theorems: C69_contents, C69_round_trip.

**C70 Missing trailing fields count as empty** (proved). Equality of answers for a body and the body with commas appended.  
Theorems: C70_empty_fields.

**C71 Extra trailing fields are ignored** (proved). Equality of answers for bodies that agree on the fields used.  
Theorems: C71_extra_fields, C71_appended.

**C72 Exactly which sentences make parse_sentence panic** (proved). Iff between `panic` and the explicit predicate `Panics` of `Spec/Panic`, for every sentence, state and environment.  
Theorems: C72_panics_iff, C72_short_time, C72_gsa_vtg.

**C73 Well-formed sentences do not panic** (proved). Consequences of C72 along histories.  
Theorems: C73_no_panic, C73_release.

**C74 Returned timestamps are valid** (proved). All DateTime values in all results; calendar in `Spec/Calendar`.  
Theorems: C74_valid_times.

**C75 GGA and GLL timestamps carry today's date** (proved). Field-wise description with the clock.  
Theorems: C75_today, C75_six_digits.

**C76 RMC timestamps use the current century** (proved). As C75 for the date; century arithmetic.  
Theorems: C76_century, C76_previous_century.

**C77 Type 5 ETA** (proved). Exact description of the ETA from the payload bits and the clock.  
Theorems: C77_eta, C77_current_year, C77_not_available.

**C78 Clock independence** (proved). Two-run (relational) theorem: two clocks, same state.  
Theorems: C78_clock, C78_no_clock.

**C79 FAA mode letters** (proved). All texts.  
Theorems: C79_letters.

**C80 Pending data come from received sentences** (proved). Invariant over histories: provenance of each stored item.  
Theorems: C80_parts, C80_gsv, C80_static.

**C81 Completed messages are made of received payloads** (proved). Consequence of C80.  
Theorems: C81_no_invention.

**C82 Display texts identify the value** (proved). `Display` implementations as label tables; injectivity by case analysis over the enumerations, lifted to payloads for aids to navigation.  
Theorems: C82_labels_identify, C82_simulator, C82_labels_nonempty, C82_aid_labels, C82_ship_labels, C82_cargo_labels, C82_aid_ambiguous.

**C83 Position accessors** (proved). Accessor functions over all result types.  
Theorems: C83_ais_positions, C83_gnss_positions, C83_binary.

**C84 The parser is a machine with a small memory** (proved). Refinement: relation `Rel` between maps with textual keys and the abstract memory; simulation step by step, totality of the abstract machine, induction over histories.  
Theorems: C84_step_total, C84_refinement.

**C85 Nothing but the memory counts** (proved). Corollary of C84.  
Theorems: C85_memory_is_all, C85_other_sentences.

**C86 AIS and GNSS streams do not interfere** (proved). Projection theorem (`Lemmas/Interleave`) on top of C84.  
Theorems: C86_ais_independent, C86_gnss_independent.

**C87 GSV groups do not interfere** (proved). Projection theorem for talkers and for groups.  
Theorems: C87_talkers_independent, C87_groups_independent.

**C88 Two-part groups do not interfere** (proved). Projection theorem for a two-part group; the exception is proved by a witness.  
Theorems: C88_groups_independent, C88_own_vessel_counterexample.

**C89 Error texts** (proved). Error texts as functions of the sentence. For GNSS sentences `faults` lists the conditions on the fields in order with their texts; every handler is a sequence of checks (`Checks`, closed under sequencing), so the first failing condition gives the text. The quoted checksum is read back by uniqueness of string literals.  
Theorems: C89_count_only, C89_no_comma, C89_checksum, C89_checksum_tells, C89_gnss_kind, C89_ais_kind, C89_message_type, C89_part_number, C89_fragment_numbers, C89_gnss_fields.

**C90 Lost parts of two-part messages** (proved). Streams with losses in `Spec/Loss`; projection of C84 to the group, then induction over the stream; witness for the mix-up.  
Theorems: C90_second_parts_lost, C90_first_part_lost, C90_mixed_counterexample.

**C91 Lost GSV sentences** (proved). Invariant of the group's memory between cycles (the sentences after k of the last cycle wait), induction over cycles.  
Theorems: C91_sentence_lost, C91_last_lost.

**C92 Vessels' type 24 messages do not interfere** (proved). Projection theorem for one MMSI on top of C84.  
Theorems: C92_vessels_independent.

**C93 Lost type 24 parts** (proved). C92, then induction over the stream of pairs; witness for the incomplete report.  
Theorems: C93_nothing_lost, C93_part_A_lost, C93_part_B_lost, C93_lost_counterexample.

**C94 Debug and release builds agree where debug does not panic** (proved). Two-run theorem: same sentence and state, two build profiles; histories by induction.  
Theorems: C94_same_answer, C94_same_history, C94_difference.

**C95 The talker only decides station and source** (proved). Two-run theorem: two talkers, same state; GSV by induction over the stream.  
Theorems: C95_station, C95_source, C95_gsv_source.

**C96 VDM and VDO differ only in the own-vessel flag** (proved). Two-run theorem: VDM and VDO. For whole streams: simulation between two runs of the machine of C84 whose memories differ in the flags only.  
Theorems: C96_exchanged, C96_own_vessel, C96_own_vessel_parts.

**C97 What counts in an AIS sentence** (proved). Two-run theorem: equal answers for sentences that agree on the fields named; a sentence that ends after the fragment count 1 counts as an empty payload.  
Theorems: C97_fields, C97_count_only, C97_single, C97_part.

**C98 Every reported value is within its range** (proved). Spec/Ranges lists the range of every field of every report. Proved by case analysis of all handlers with an invariant on pending static data; number ranges through the exact rounding model.  
Theorems: C98_in_range, C98_history, C98_not_a_number.

**C99 Two-part messages: any losses, repetitions and reorderings** (proved). The machine of C84 restricted to a group (C88) is run by induction on the stream; Spec/Streams gives the answers by a three-line recursion on the parts received. The two corollaries are by induction on the messages.  
Theorems: C99_any_stream, C99_everything_twice, C99_overlapping.

**C100 Type 24: any losses, repetitions and reorderings** (proved). As C99, from C92.  
Theorems: C100_any_stream, C100_everything_twice.

**C101 GSV: any losses, repetitions and reorderings** (proved). As C99, from C87; the specification is a recursion with a map from numbers to fields. C101_everything_twice: by induction over the sentences of a cycle and over the cycles, with what is kept between two sentences as invariant.  
Theorems: C101_everything_twice, C101_any_stream.

**C102 No sentence is used for two reports** (proved). Counting by induction on the recursions of C99-C101; for GSV the potential is the number of sentences kept.  
Theorems: C102_parts, C102_static, C102_gsv.

**C103 The order inside the maps is never observed** (proved). Two-run simulation: every function of the model that uses the maps respects equality of lookups. This justifies the association lists of the model: nothing but `get`, `insert` and `remove` of a map is used, so any correct map gives the same answers.  
Theorems: C103_one_sentence, C103_history, C103_once_per_key, C103_counts.

**C104 Equality of reports** (proved). Model/Equality is the derived `eq` with IEEE comparison of doubles. The characterisation is by cases over all report types; AIS reports are shown to have no NaN (C98) and no negative zero where it matters.  
Theorems: C104_equal, C104_itself, C104_ais, C104_not_itself, C104_zeros.

**C105 Work per sentence** (proved). Model/Work is a copy of the model with a counter in every store function; C105_same proves that it computes the same. The counts are by case analysis over all sentence shapes, the loops of GSV by induction.  
Theorems: C105_same, C105_few, C105_gsv, C105_unbounded.

**C106 Pending data are bounded by the groups in the traffic** (proved). Every key of the table of texts is traced to a sentence of the history (induction); keys are unique (C103) and a group never has both parts pending (C21), so the keys are a sublist of one key for each group.  
Theorems: C106_texts, C106_static, C106_traffic, C106_static_max.

**C107 Position texts are those of the regular expressions** (proved). Spec/Regex is a backtracking semantics of regular expressions with a reader of pattern texts. The literal pattern texts of the code are read by evaluation; the captures are computed for all texts by induction on the digits.  
Theorems: C107_captures, C107_positions.

**C108 Numbers are decoded in order and without loss** (proved). Spec/Order says which number a text says. Rounding is monotone (roundMag_mono), and two numbers that differ by more than the spacing of doubles at their magnitude cannot round to the same double (roundMag_apart); the number of digits bounds the difference from below. For positions the two roundings (minutes/60, then the sum) are followed in turn.  
Theorems: C108_decimal_order, C108_decimal_strict, C108_too_many_digits, C108_angles, C108_positions, C108_angles_order, C108_tenths.

**C109 Log output** (proved). Model/Log follows the control flow of the parser once more and collects the records of every `debug!` and `warn!` in the code. The specification lists the causes; the proof is by the case analysis of C22 (fragments) and the windows of the codes.  
Theorems: C109_log, C109_warnings, C109_bounded, C109_dropped_is_logged, C109_error_or_warning, C109_false_alarm, C109_twice.

**C110 Unrelated sentences may come in any order** (proved). On the machine of C84: every step reads and writes only the memory cells of its groups (step_local), so steps with disjoint cells commute; the refinement carries this over to the parser. Merged streams are a stream divided by a label (C127).  
Theorems: C110_swap, C110_reordered, C110_related, C110_merged_streams.

**C111 What a report tells about the message** (proved). From the decoding theorems C44-C53: every decoded value determines the transmitted one (rounding is injective on the transmitted grid, by C108); equality of reports field by field.  
Theorems: C111_position_A, C111_base_station, C111_voyage, C111_addressed, C111_aircraft, C111_inquiry, C111_position_B, C111_aid, C111_static, C111_long_range.

**C112 The parser after a caught panic** (proved). Case analysis over the three places where a call writes before it can panic; leaving out a call by C103 (same data, same answers) and C110 (sentences outside the group commute).  
Theorems: C112_state, C112_left_out, C112_retry, C112_message_left_out.

**C113 Timestamps and the moment meant** (proved). Spec/Instant numbers the days and seconds of the proleptic Gregorian calendar; Lemmas/Instant proves the numbering strictly increasing over valid dates. With C75, C76 and C46 the reported timestamp is known exactly.  
Theorems: C113_whole_days, C113_in_order, C113_midnight, C113_reversed, C113_rmc, C113_eta_past, C113_leap_day, C113_comparison.

**C114 What each value of a report depends on** (proved). Spec/Locality lists for each value the bit fields (or comma fields) it may depend on. Every reader of the bit vector is determined by its window (pickU64_congr and the like), and each value by its readers; completeness is extensionality of the report structures.  
Theorems: C114_bit_fields, C114_complete, C114_error_burst, C114_character, C114_draught_changes_eta, C114_fields, C114_fields_complete.

**C115 When two receivers of one stream come to agree** (proved). From the refinement to the memory machine (C84): the memory of a group after the synchronising sentences does not depend on the one before (trace_two; after_pass and pass_agree for GSV), and answers to a group depend on its memory only (projection). For type 24 the waiting/nothing-waiting parity is preserved by every message.  
Theorems: C115_parts, C115_static, C115_static_joined_late, C115_gsv.

**C116 What the checksum detects and what it does not** (proved). The checksum text determines the XOR (checksumText_inj), and XOR is associative, commutative and cancels; the refusal is exactly C01/C02. The cut by cases on its place relative to the star.  
Theorems: C116_exact, C116_reordered, C116_first_character, C116_two_changes, C116_cut_off.

**C117 Sentences and messages that are cut off** (proved). The beginning of a sentence is a sentence with the complete fields and the beginning of the next one (cut_tagged); then C42 (zero padding), C54 (positions) and C114 (values and their fields).  
Theorems: C117_cut_payload, C117_cut_second, C117_first_part_counterexample, C117_position_zero, C117_cut_fields, C117_wrong_value.

**C118 Printed texts by transmitted code** (proved). Tables of texts in Spec/Texts, compared with the labels of the values for every code (finite case split); the values come from C07, C08, C25, C59, C60, C65 and C67.  
Theorems: C118_voyage, C118_A_then_B, C118_B_then_A, C118_base_station, C118_aid, C118_class_A, C118_station, C118_system, C118_quality, C118_gsa_fix.

**C119 What a GNSS report tells about the sentence** (proved). Spec/Meaning says what each field means with exact rationals; the double of a number field is an injective function of sign and magnitude for at most 15 digits (roundMag_apart) and of hemisphere, degrees and minutes (C108_angles and the sign); then the contents theorems C65-C69 field by field.  
Theorems: C119_gga, C119_rmc, C119_gsa, C119_vtg, C119_gll, C119_sixty_minutes.

**C120 A link without losses** (proved). Spec/Link: messages with their sentences and report (Sent) and interleavings of them (Link). Invariant over the memory machine of C84: each slot of the memory holds what leads the rest of its message to the report and is free afterwards (Leads, Fitting); the step of a slot leaves the others alone.  
Theorems: C120_link, C120_as_new, C120_one_by_one.

**C121 Any message is answered like a well-formed one** (proved). The message is read off the bits (natBits, intBits and flagBit of what is read give the bits back); without texts its bits are the beginning of the given bits, which is all that is read (dispatchAis_congr); with texts every number and text that is read agrees.  
Theorems: C121_well_formed, C121_delivered.

**C122 From transmitter to report** (proved). Every broadcast is a Transmission of C120 (the sentences it is packed into are of the right form, payloadBits of the armour are the bits and zeros) whose report is that of C44-C53; then C120_one_by_one. Uniqueness: each value is determined by its rounding (roundsTo_iff). Conversely by C121.  
Theorems: C122_end_to_end, C122_determined, C122_any_message.

**C123 Default values of the public types** (proved). Model/Defaults.lean. Every report of a reachable state carries one of the marks (report_marked, over all handlers and the invariant of pending static data). Codes: all 256, by evaluation.  
Theorems: C123_values, C123_told_apart, C123_not_told_apart, C123_codes, C123_empty, C123_printed.

**C124 The traffic on a ship's data link** (proved). Spec/Traffic: sources, their sentences and reports, and interleavings (Traffic). GNSS sentences are messages of their own (Whole) answered by the round trips C65-C69; rows of satellites are read back field by field; each source is a Whole or Sent message of C120, so Traffic gives a Link with the reports of the sources. The values of a source are unique (`C124_determined`: the rounding chain of angles is part of `Angle.Result`), hence `C124_any_mixture`.  
Theorems: C124_traffic, C124_determined, C124_any_mixture, C124_as_new, C124_one_by_one.

**C125 Losses and noise on the link do not spread** (proved). Spec/Lossy: noise, and interleavings with losses (Lossy). Invariant over the memory machine of C84: each slot holds what leads the rest of its source to the report (Leading), whatever harmless remains it started with (Stale), or what makes the rest useless (Useless). Noise is refused without changing anything (C01, C05, C10, C11). `C125_nothing_invented` compares with C124 by the same uniqueness.  
Theorems: C125_lossy, C125_nothing_invented, C125_lossless, C125_wrong_character, C125_noise.

**C126 No history spoils a parser for good** (proved). `Unfinished` lists what can be completed. The machine of C84 has finitely many entries after every history (invariant `Sound` over all steps); memories that agree on the readable entries are bisimilar; emptying goes slot by slot (the other part, another part A of type 24, the missing sentences of a GSV group); each kind of pending entry is told from nothing by explicit sentences; no universal list since channel names are unbounded.  
Theorems: C126_as_new, C126_shows, C126_flush, C126_no_universal_flush.

**C127 Dividing the work among several parsers** (proved). Invariant over the stream (Lemmas/Divide): the memory of the single parser agrees with the memory of each share on the cells of that share. The cells of a share are the groups of its sentences and the MMSIs of the type 24 messages its parser hears; the hypothesis says that those of different shares are different.  
Theorems: C127_divided, C127_any_order, C127_in_turn.

**C128 Exactly which values are reported** (proved). `Occurs P`: some list of sentences given to a new parser is answered, once, with a report of property P. One direction is the ranges of C98 (proved of every reachable answer) or, for whole reports and decimals, the well-formed message of C122; the other transmits a message with the wanted value through the link of C124, or two parts of type 24 in which the name is longer than its field. Doubles: m * 2^s is written as an integer with exponent, m * 2^a * 5^k e-k, which is rounded to itself.  
Theorems: C128_doubles, C128_position, C128_static, C128_others, C128_gnss, C128_texts, C128_reports, C128_decimals, C128_times, C128_documented.

**C129 Several sentences in one call** (proved). `chunk t bs` is the text of the sentences `bs` with checksums, `t` between them. The parser cuts it at the last star, so C116 applies to the last checksum and the body before it; their XOR differ by the residue, by induction on the list. For two sentences the residue is a function of the checksum of the first one, evaluated for all 256 by the kernel. If the residue is 0 the text is a tagged sentence whose first fields are those of the first sentence (C71, C97).  
Theorems: C129_chunk, C129_two, C129_ais_first, C129_gnss_first, C129_three.

**C130 Line terminators of sentences without checksum** (proved). The terminator has no comma and no star, so the sentence with it is the sentence whose last field has it appended (tagged_lineEnd). No integer, number or letter text contains CR or LF (by the grammars of Spec/Numbers), hence the outcome by the contents theorems C65-C69, C37, C64, C71, C72, C97.  
Theorems: C130_ais, C130_gnss, C130_refused, C130_variation, C130_vtg, C130_gll, C130_hemisphere, C130_gsv, C130_payload.

**C131 Text before the start character** (proved). By the division of all texts into framed and corrupted ones and the tags that cannot be read (C72) or are of another form (C10); with a checksum by C116.  
Theorems: C131_no_start, C131_before_checksum, C131_one_before.

**C132 One falsified, lost or added character** (proved). Spec/OneError defines one error in a text and the few forms in which it is not noticed; the proof goes through all places of the error. With C97 and C71 (what follows the fields in use does not count) the unnoticed ones are harmless if the last field is not used.  
Theorems: C132_noticed, C132_no_wrong_report, C132_stream, C132_reference_station, C132_dilution_counterexample.

**C133 A receiver that has no position yet** (proved). From C37 and C65-C69: the empty text is no time, no number and no position; induction over the stream.  
Theorems: C133_no_fix, C133_no_trace, C133_stream, C133_time_known.

**C134 Messages in which nothing is available** (proved). From C44-C46, C48, C50-C53 for the messages of Spec/Unavailable; the doubles of the long-range report are evaluated.  
Theorems: C134_position_A, C134_base_station, C134_voyage, C134_aircraft, C134_position_B, C134_aid, C134_static, C134_long_range.

**C135 Exactly which sentences are refused, and what the error tells** (proved). Spec/Refused lists the reasons with their texts. One direction are the theorems of C89; the other goes through all shapes of a sentence (framing, tag, fields) with C72 for the panics and C27 for type 24 in reachable states. The phrases of different kinds are not prefixes of one another.  
Theorems: C135_unsupported, C135_invalid, C135_accepted, C135_phrases, C135_text_identifies, C135_first_letters.

**C136 Exactly which sentences wait for others, and which are answered with a report** (proved). Spec/Waiting lists the cases in terms of the fields of the sentence and of what is pending. One direction goes through all shapes of a sentence as for C135; the other evaluates each case (C22, eval_part1/2, eval_24, gsv_wait, gsv_done, C89). Type 24 needs that pending static data come from a part A or B (C28), so the states are the reachable ones.  
Theorems: C136_incomplete, C136_ais, C136_gsv, C136_gnss, C136_every_sentence.

**C137 Type 24 messages of a vessel come in pairs, however they are sent** (proved). `Heard24` picks from a history the messages of a vessel and the answers to the sentences that complete them (C137_total: it exists and is unique). Induction on it: a sentence that completes none leaves what waits of the vessel alone (hears_frame, from the machine), one that does is evaluated by eval_24; merge is overlay by C28.  
Theorems: C137_total, C137_pairs, C137_nothing_lost, C137_part_A_lost, C137_count, C137_two_receivers.

**C138 Values printed with a fixed number of decimals** (proved). Assumes of Rust's formatting that `{:.k}` prints a nearest decimal of the exact value of the double, with the sign of the double (also for -0.0, since Rust 1.53); ties do not matter. From the round trips C44, C45, C48, C50, C51, C65-C69 and the error bounds of C90: a double nearer to a decimal number than half of its last place is printed as this number; a double next to a fraction with denominator 600000 cannot be on the other side of a tie.  
Theorems: C138_position_A, C138_position_B, C138_aircraft, C138_base_station, C138_aid, C138_reading, C138_too_many_decimals.

**C139 Values printed with {}** (proved). Assumes of Rust's `{}` for f64 that it prints, without exponent, a decimal number of as few digits as possible that is read as the double, and of these one next to the double (displays_total: there is one for every double). Two decimals of at most fifteen digits that are rounded to the same double are equal because 10^15 < 2^50; so the shortest one has the value that was sent. Speeds and courses are multiplied with the double next to 0.1: the error of at most 1.5 units is still less than the distance of numbers of fifteen digits, so a text with fewer than sixteen digits would be that of what was sent.  
Theorems: C139_reading, C139_heading_A, C139_heading_B, C139_tenths_A, C139_tenths_B, C139_speeds, C139_speed, C139_words.

**C140 The sample program of the README** (proved). Model/Sample.lean is the program of README.md:40-71, with the standard library's texts of doubles as parameters of which Spec/Sample (`FmtOk`) assumes what C138 and C139 do (fmt_exists: there are such texts), and chrono's text of a DateTime<Utc>. The loop by induction on the stream; the lines from the round trips of the messages (C44, C46, C50, C52, C53, C65, C66), C61 and C138/C139.  
Theorems: C140_refused, C140_panic, C140_quiet, C140_finishes, C140_append, C140_position_A, C140_position_B, C140_long_range, C140_voyage, C140_voyage_ends, C140_static_B, C140_gga, C140_rmc, C140_readme.

**C141 The whole parser, specified** (proved). Spec/Complete.lean (`Reply`, `MessageReply`, `Dialogue`) gathers the relations of the other specifications (C64-C69 contents of GNSS sentences, C44-C53/C121/C122 what messages tell, C89/C135 error texts, C72 panics, C84 memory) into one machine. Refinement: a relation between parser and memory is kept by every step (reply_rel), and every sentence has a step (reply_total, by the six shapes of a sentence). Left open by it: how the library writes the apostrophe, NUL and non-ASCII characters in the text for a wrong checksum.  
Theorems: C141_total, C141_complete, C141_next.

**C142 The script that generated the country table** (proved). Model/MidScript.lean is the script, function by function, with its two tables and the text of the arms of `country` verbatim. The general claims by induction on the tables, with the patterns of the script proved equal to a description of the lines (Spec/MidScript). That the script prints the source text is one evaluation by the kernel. The script is not run. C142_any_tables has no conditions on the tables (but `\s` and `\d` are modelled for ASCII).  
Theorems: C142_replace, C142_brackets, C142_script, C142_any_tables, C142_one_arm, C142_output, C142_country, C142_same_code, C142_ambiguous.

**C143 The Debug text identifies the answer** (proved). Model/Debug.lean is derive(Debug) of every result type in its one-line form. Each text is shown to be determined, up to a following comma or bracket outside of quotation marks, by a scan that skips strings (Lemmas/Debug: `Shown`); structs, tuples, options and lists keep this, so injectivity goes up from the leaves: integers, doubles (by assumption), dates, strings. Values in reports are in their ranges (C98), which the dates need.  
Theorems: C143_report, C143_answer.

**C144 A logged answer stays on one line** (proved). The same induction over the types shows that a text has no character that breaks lines; the strings by the escapes of Debug for str. C144_to_string is the counterpart for Display of errors.  
Theorems: C144_one_line, C144_to_string.

**C145 Reassembly is a stage of its own** (proved). Spec/Reassembly.lean is the stage (`Joins`, `Reassembled`). Induction along it with the machine of C84 twice, on the history and on what comes out: the memories agree except for the parts, and what waits has no comma, so the joined sentence has the joined payload.  
Theorems: C145_total, C145_stages, C145_no_parts, C145_group.

**C146 GSV sentences with a signal id (NMEA 4.10)** (proved). Spec/SignalId.lean builds the sentences. C31 and C32 for the sentences in order, and a case for each number of satellites of a row; C146_exact by comparing lengths. C146_counterexample is the negation of the claim that the satellites reported are those sent.  
Theorems: C146_group, C146_exact, C146_counterexample.

**C147 GSV groups of several signals (NMEA 4.10)** (proved). Spec/SignalId.lean: `SignalGroups`. C147_in_turn and C147_mixed from the traces of cycles (C91) with the rows of C146; C147_alternating by an invariant on what is kept (sentences of the second signal only) over C101_any_stream.  
Theorems: C147_in_turn, C147_mixed, C147_alternating, C147_counterexample.

**C148 Proprietary sentences** (proved). Spec/Proprietary.lean says what a proprietary sentence is. The tag is of the short form (C72), of six bytes (C10, C89, C95) or longer (C10).  
Theorems: C148_no_id, C148_as_standard, C148_refused, C148_exact, C148_garmin, C148_counterexample.

**C149 Times that are on no clock: the leap second** (proved). From the characterisations of panics in C72 (gga_panic, gll_panic, rmc_panic) and the uniqueness of what six digits say.  
Theorems: C149_gga, C149_gll, C149_rmc, C149_leap_second.

**C150 The sentences about one fix agree** (proved). From the contents of the sentences (C64 - C69) and the uniqueness of what a text says.  
Theorems: C150_position, C150_refused, C150_time, C150_rmc_time, C150_motion, C150_hdop, C150_status, C150_counterexample.

**C151 Messages of different types about the same ship agree** (proved). From the round trips (C44 - C53) and the uniqueness of the reported values; C151_static from C122_end_to_end.  
Theorems: C151_place, C151_motion, C151_long_range, C151_static, C151_counterexample.

**C152 Satellite numbers above 255** (proved). C31 and C32 for the sentences in order with the rows of C37; C67 for GSA.  
Theorems: C152_in_view, C152_in_use, C152_counterexample.

**C153 The letters of the hemispheres** (proved). The handlers depend on the letters only through the two position parsers (hemi_gga, hemi_rmc, hemi_gll: the fields are read one after the other, and reading one with another letter changes the sign of its value at most).  
Theorems: C153_hemispheres, C153_other_letters, C153_mirror.

**C154 Small letters** (proved). From C01, C10, C95, C66, C67, C68, C69 and C153 by comparing with tables of capital letters.  
Theorems: C154_checksum, C154_kind, C154_talker, C154_refused, C154_absent, C154_hemispheres.

**C155 Fractions of a second** (proved). The three slices of a time are within its first six characters, and the text of a failure is dropped by `.ok()`; the moments by C75 and the reading of dates (dateTime_field).  
Theorems: C155_after_seconds, C155_timestamp, C155_late, C155_order.

**C156 Auxiliary craft and mother ships** (proved). The layout of a craft's part B (Spec/Craft) has the bits of a part B with the dimensions that are the digits of the mother ship's MMSI to the mixed base (natBits_mother), so C52 applies; the ranges by arithmetic; `country()` from C61.  
Theorems: C156_craft, C156_craft_first, C156_long, C156_ship, C156_country.

**C157 Units, old and new forms of sentences** (proved). The handlers read the other fields only (as C71); values from C65, C67 and C68; the counterexample evaluates one sentence with a height of 100 feet.  
Theorems: C157_units, C157_altitude, C157_feet_counterexample, C157_old_vtg, C157_system_id.

**C158 Talkers of newer receivers** (proved). From C07 and C95; equality of reports by the source each of the five kinds has; C95_gsv_source applied to the stream itself and to the one of the other talker.  
Theorems: C158_newer, C158_told_apart, C158_gsv, C158_counterexample.

**C159 The list of features in the README** (proved). The tables of the README as lists; from C07, C10, C11 and C136.  
Theorems: C159_types, C159_type_19, C159_counterexample, C159_planned_types, C159_kinds, C159_systems.

**C160 Exactly which states a parser can be in** (proved). `Spec/Possible.lean` lists the conditions (`Possible`); one direction is an invariant of the machine of C84, the other an induction on the finite lists of entries: the entries are taken away one by one, and brought back by one sentence each.  
Theorems: C160_exact, C160_reached, C160_only.

**C161 What two parsers that answer everything alike have in common** (proved). For the first half, memories that agree on what can be read (C126) are in lock step; for the second, sentences are constructed that tell the two memories apart: the missing other part, an empty type 24 message, the rest of the GSV group with empty sentences.  
Theorems: C161_no_trace, C161_left_out, C161_same_pending, C161_same_satellites.

**C162 Exactly which parsers cannot be told apart** (proved). `Spec/Equivalent.lean` has the three conditions. That they suffice is a bisimulation of the machine of C84 (memories that agree in what answers depend on stay so); that they are necessary is C161 and, for the payloads, the sentence with the other part, after what is pending for the two vessels is cleared, followed if the message is of type 24 by one with nothing but the MMSI.  
Theorems: C162_exact, C162_same_bits.

**C163 Exactly which sentences may be exchanged** (proved). If one of the two leaves no trace (C161 and the other rules of the machine) this is direct; otherwise they use different cells of the memory (as C110). For related ones a memory is given in which the answer of the first depends on whether the second came before; by C160 it is reached.  
Theorems: C163_exact, C163_no_trace, C163_permuted.

**C164 Exactly which sentences may be left out or repeated** (proved). That a sentence that leaves no trace may be left out or repeated is direct; for the others the state of C163 is taken (leaving out), or one in which the sentence completes what it is a part of, so that the second time it is kept (repeating); the memories after once and twice differ, and by C162 a continuation shows it.  
Theorems: C164_exact.

**C165 Exactly which answers a sentence can have** (proved). By C160 the answers are those of the machine of C84 from the possible memories. Each rule of the machine gives one of the listed answers, and for each listed answer a possible memory is given: the other part, the other message, or the other sentences of the group.  
Theorems: C165_part, C165_static, C165_gsv, C165_others.

**C166 The Debug text on several lines** (proved). `Model/Pretty.lean` has the calls of the formatter's `debug_struct`, `debug_tuple` and `debug_list` and what they write with the alternate flag (the indentation by `PadAdapter`); `Spec/Pretty.lean` brings a text on one line. That the one-line text is that of C143 is shown for texts shifted by any number of blanks, from the parts to the whole.  
Theorems: C166_one_line, C166_answer, C166_error_lines, C166_static_lines, C166_indented.

**C167 Which of the sentences received still count** (proved). On the machine of C84: by induction on the history, from its end, any chosen entries of the memory come from one sentence each, or two for a type 24 message in two parts (`Few`); the entries are counted by the keys of the two maps; the lower bound from C161 and C15.  
Theorems: C167_few, C167_one_each, C167_least, C167_traffic.

**C168 What is pending, in bytes** (proved). Sizes of the keys and of the stored fields by arithmetic on the fields of the sentence each entry comes from (C80); the number of entries from C106. Capacity and overhead of the hash tables are not modelled.  
Theorems: C168_texts, C168_static, C168_traffic, C168_ordinary.

**C169 The words of the Debug text by transmitted code** (proved). Words by code in Spec/DebugWords.lean; that a structure's text contains each of its entries is proved for any list of fields, the rest is C59, C60, C65 to C69, C07 and C08.  
Theorems: C169_voyage, C169_A_then_B, C169_B_then_A, C169_base_station, C169_aid, C169_class_A, C169_long_range, C169_station, C169_system, C169_quality, C169_gsa_fix, C169_vtg_mode, C169_gll_mode.

**C170 Searching a log of reports** (proved). Lemmas/Search.lean: in the text of a report a colon after a small letter belongs to an entry, since the alphabet of transmitted texts (C98) has no small letters and quoted characters are written by `Debug for str`; the entry is then identified by the last blank before the colon, and its value by the comma, or for quoted texts by the closing quotation mark. For errors, C89_checksum.  
Theorems: C170_mmsi, C170_own_vessel, C170_ship_type, C170_cargo_type, C170_nav_status, C170_aid_type, C170_quality, C170_call_sign, C170_destination, C170_name, C170_aid_name, C170_log, C170_forged.

**C171 How long errors get, and what they quote** (proved). From the exact lists of refusals (C135) and the text for the checksum (C89); bytes of each character escaped once and twice, by cases of `Env.debugChar`, with the rest of the escapes as in Spec/Lengths.lean.  
Theorems: C171_quotes, C171_text, C171_line, C171_reached.

**C172 Searching a log on several lines** (proved). The lines of a text (`cutLines`) of `{:#?}` are an opening line, the indented lines of the entries and a closing line; so a line with twelve blanks and a small letter is the first line of a field of a structure, and only values on one line end with a comma there. Errors have one line with eight blanks, which goes on with a quotation mark. Counting: names of fields are different. Values on a line of their own: the opening line of a field comes up at most once, so the line after it is determined.  
Theorems: C172_mmsi, C172_own_vessel, C172_nav_status, C172_ship_type, C172_quality, C172_aid_type, C172_no_position, C172_not_forged, C172_log, C172_count, C172_name, C172_call_sign, C172_destination, C172_outcomes, C172_waiting.


## 7. Wrong programs

The model was copied outside `/verif`, one definition at a time was changed like a realistic programming error, and
the copy was rebuilt. `seeded/LOG.jsonl` has one line per attempt with the theorems that no longer prove. A build
stops at the first broken module of a dependency chain, so the list of failed theorems is a lower bound. Where a
theorem still proved although its English claim had become false it was tightened; the log says so.
