{
 "claims": [
  {
   "property": "C01",
   "status": "proved",
   "theorems": [
    "Nmea.C01_wrong_checksum_rejected"
   ],
   "note": "parse_sentence framing (lib.rs 166-195) as splitChecksum, checksum, parseSentence; spec has its own XOR and hex text (checksumText). Case analysis on the last *."
  },
  {
   "property": "C02",
   "status": "proved",
   "theorems": [
    "Nmea.C02_corrupted_iff"
   ],
   "note": "Same model; the 'only if' direction goes through every handler (Lemmas/Outcome: no later stage produces CorruptedSentence)."
  },
  {
   "property": "C03",
   "status": "proved",
   "theorems": [
    "Nmea.C03_correct_checksum_transparent",
    "Nmea.C03_star_and_full_agree"
   ],
   "note": "Both sides of the equation are parseSentence; three endings of one body (finish)."
  },
  {
   "property": "C04",
   "status": "proved",
   "theorems": [
    "Nmea.C04_first_char_uncovered",
    "Nmea.C04_transposition_undetected",
    "Nmea.C04_single_change_detected",
    "Nmea.C04_digit_change_detected",
    "Nmea.C04_transposition_counterexample",
    "Nmea.C04_star_digit_counterexample"
   ],
   "note": "Injectivity of XOR in each argument, for arbitrary characters; the two limits (first character not covered, transpositions undetected) are theorems about parseSentence with witnesses."
  },
  {
   "property": "C05",
   "status": "proved",
   "theorems": [
    "Nmea.C05_no_comma_invalid"
   ],
   "note": "Case analysis of the comma test."
  },
  {
   "property": "C06",
   "status": "proved",
   "theorems": [
    "Nmea.C06_nothing_after_checksum",
    "Nmea.C06_lower_case_rejected"
   ],
   "note": "Length argument on the checksum text."
  },
  {
   "property": "C07",
   "status": "proved",
   "theorems": [
    "Nmea.C07_source_is_talker"
   ],
   "note": "Inversion of the dispatcher lifted through all GNSS handlers; talker table written independently in Spec/Tables."
  },
  {
   "property": "C08",
   "status": "proved",
   "theorems": [
    "Nmea.C08_station_and_own"
   ],
   "note": "As C07 for AIS (station table talkerStation)."
  },
  {
   "property": "C09",
   "status": "proved",
   "theorems": [
    "Nmea.C09_result_kind"
   ],
   "note": "Inversion of a successful parse: the sentence has the form tag + fields of the matching kind."
  },
  {
   "property": "C10",
   "status": "proved",
   "theorems": [
    "Nmea.C10_other_gnss_kind",
    "Nmea.C10_other_ais_kind",
    "Nmea.C10_odd_tag",
    "Nmea.C10_supported_gnss_kind"
   ],
   "note": "For every tag text not among the eight; the error *text* is not part of the claim (see C89 for the texts)."
  },
  {
   "property": "C11",
   "status": "proved",
   "theorems": [
    "Nmea.C11_complete_message",
    "Nmea.C11_message_type"
   ],
   "note": "Iff over all payloads in every state, in one or two parts (C11_complete_message); supportedTypes is a literal list in the specification."
  },
  {
   "property": "C12",
   "status": "proved",
   "theorems": [
    "Nmea.C12_gnss_stateless"
   ],
   "note": "Any two states give the same answer; the state is returned unchanged."
  },
  {
   "property": "C13",
   "status": "proved",
   "theorems": [
    "Nmea.C13_error_adds_nothing",
    "Nmea.C13_only_incomplete_adds",
    "Nmea.C13_gsv_counterexample"
   ],
   "note": "Case analysis of every path that returns an error, including the merge error of type 24; C13_only_incomplete_adds by the same analysis for every other answer."
  },
  {
   "property": "C14",
   "status": "proved",
   "theorems": [
    "Nmea.C14_single_stateless"
   ],
   "note": "As C12, for arbitrary payloads of other types."
  },
  {
   "property": "C15",
   "status": "proved",
   "theorems": [
    "Nmea.C15_one_call",
    "Nmea.C15_history"
   ],
   "note": "Size of the two maps; induction over the history."
  },
  {
   "property": "C16",
   "status": "proved",
   "theorems": [
    "Nmea.C16_never_expires",
    "Nmea.C16_unbounded"
   ],
   "note": "Negative result: unbounded growth (explicit history for every n), frame theorem for the rest."
  },
  {
   "property": "C17",
   "status": "proved",
   "theorems": [
    "Nmea.C17_parts_in_order",
    "Nmea.C17_from_new"
   ],
   "note": "Frame theorem for a group + evaluation of the two parts; also as a statement about a new parser and sentences only (_from_new)."
  },
  {
   "property": "C18",
   "status": "proved",
   "theorems": [
    "Nmea.C18_parts_reversed",
    "Nmea.C18_from_new"
   ],
   "note": "As C17 with the parts exchanged."
  },
  {
   "property": "C19",
   "status": "proved",
   "theorems": [
    "Nmea.C19_other_groups_untouched",
    "Nmea.C19_other_groups_irrelevant"
   ],
   "note": "Injectivity of the textual key built by make_fragment_key (proved for all channels without comma)."
  },
  {
   "property": "C20",
   "status": "proved",
   "theorems": [
    "Nmea.C20_consumed",
    "Nmea.C20_again_incomplete",
    "Nmea.C20_from_new"
   ],
   "note": "Needs C21 as invariant; observable form C20_from_new."
  },
  {
   "property": "C21",
   "status": "proved",
   "theorems": [
    "Nmea.C21_never_both",
    "Nmea.C21_one_waits"
   ],
   "note": "Invariant by induction over all histories; observable form C21_one_waits."
  },
  {
   "property": "C22",
   "status": "proved",
   "theorems": [
    "Nmea.C22_count_only",
    "Nmea.C22_unsupported_fragmentation"
   ],
   "note": "All counts, numbers and unparsable message ids."
  },
  {
   "property": "C23",
   "status": "proved",
   "theorems": [
    "Nmea.C23_last_part1_wins",
    "Nmea.C23_last_part2_wins"
   ],
   "note": "Overwriting under one key, with arbitrary histories between."
  },
  {
   "property": "C24",
   "status": "proved",
   "theorems": [
    "Nmea.C24_station_of_last",
    "Nmea.C24_talkers_combined",
    "Nmea.C24_talkers_counterexample"
   ],
   "note": "Negative result with concrete witness, and the general theorem of what is combined."
  },
  {
   "property": "C25",
   "status": "proved",
   "theorems": [
    "Nmea.C25_A_then_B",
    "Nmea.C25_B_then_A"
   ],
   "note": "partData in Spec/Static describes the content of one part from the ITU layout; the merge is proved equal to fullStatic."
  },
  {
   "property": "C26",
   "status": "proved",
   "theorems": [
    "Nmea.C26_order_irrelevant"
   ],
   "note": "Consequence of C25 for both orders."
  },
  {
   "property": "C27",
   "status": "proved",
   "theorems": [
    "Nmea.C27_merge_never_fails"
   ],
   "note": "Invariant: what is stored under an MMSI carries that MMSI, so the two error branches of merge are unreachable."
  },
  {
   "property": "C28",
   "status": "proved",
   "theorems": [
    "Nmea.C28_pending_of_own_mmsi",
    "Nmea.C28_others_untouched",
    "Nmea.C28_others_irrelevant"
   ],
   "note": "Same invariant; frame theorem per MMSI."
  },
  {
   "property": "C29",
   "status": "proved",
   "theorems": [
    "Nmea.C29_consumed",
    "Nmea.C29_again_incomplete"
   ],
   "note": "After a result nothing is stored; next part waits."
  },
  {
   "property": "C30",
   "status": "proved",
   "theorems": [
    "Nmea.C30_pairs",
    "Nmea.C30_two_A",
    "Nmea.C30_two_A_counterexample"
   ],
   "note": "General theorem (overlay) for all part-number pairs, and the counterexample to 'one A and one B'."
  },
  {
   "property": "C31",
   "status": "proved",
   "theorems": [
    "Nmea.C31_any_order"
   ],
   "note": "Invariant relating the stored sentences to the last sentence received per number (GroupTrace), any permutation."
  },
  {
   "property": "C32",
   "status": "proved",
   "theorems": [
    "Nmea.C32_incomplete"
   ],
   "note": "Same invariant."
  },
  {
   "property": "C33",
   "status": "proved",
   "theorems": [
    "Nmea.C33_consumed",
    "Nmea.C33_again_incomplete"
   ],
   "note": "All n keys are erased; observable form C33_again_incomplete (n >= 2)."
  },
  {
   "property": "C34",
   "status": "proved",
   "theorems": [
    "Nmea.C34_others_untouched",
    "Nmea.C34_others_irrelevant"
   ],
   "note": "Injectivity of make_gsv_key, disjointness from AIS keys."
  },
  {
   "property": "C35",
   "status": "proved",
   "theorems": [
    "Nmea.C35_latest_wins"
   ],
   "note": "Same invariant as C31 without the permutation hypothesis."
  },
  {
   "property": "C36",
   "status": "proved",
   "theorems": [
    "Nmea.C36_residue",
    "Nmea.C36_count_zero"
   ],
   "note": "Frame theorem over every later history."
  },
  {
   "property": "C37",
   "status": "proved",
   "theorems": [
    "Nmea.C37_single",
    "Nmea.C37_shape"
   ],
   "note": "Specification satellites reads the fields independently (readDec)."
  },
  {
   "property": "C38",
   "status": "proved",
   "theorems": [
    "Nmea.C38_armor_roundtrip",
    "Nmea.C38_armor_fill",
    "Nmea.C38_characters",
    "Nmea.C38_concat",
    "Nmea.C38_alphabet_total"
   ],
   "note": "Encoder in Spec/Bits; round trip for all bit strings; statement about parsePayload and about whole sentences."
  },
  {
   "property": "C39",
   "status": "proved",
   "theorems": [
    "Nmea.C39_unsigned_field",
    "Nmea.C39_read_back"
   ],
   "note": "Induction on the bits; bitsVal/window are the specification."
  },
  {
   "property": "C40",
   "status": "proved",
   "theorems": [
    "Nmea.C40_signed_field",
    "Nmea.C40_read_back"
   ],
   "note": "Two's complement of the window; bounds."
  },
  {
   "property": "C41",
   "status": "proved",
   "theorems": [
    "Nmea.C41_text_roundtrip",
    "Nmea.C41_text_plain"
   ],
   "note": "Encoder of the six-bit alphabet in the specification; decoder characterised for all bits."
  },
  {
   "property": "C42",
   "status": "proved",
   "theorems": [
    "Nmea.C42_zero_padding",
    "Nmea.C42_zero_padding_part2",
    "Nmea.C42_part1_counterexample",
    "Nmea.C42_truncated"
   ],
   "note": "Reading beyond the end gives zeros; lifted to whole sentences and to two-part messages."
  },
  {
   "property": "C43",
   "status": "proved",
   "theorems": [
    "Nmea.C43_extra_bits_ignored",
    "Nmea.C43_same_layout_bits"
   ],
   "note": "Two payloads that agree on the layout bits give the same answer, type by type."
  },
  {
   "property": "C44",
   "status": "proved",
   "theorems": [
    "Nmea.C44_position_A"
   ],
   "note": "Encoder of message type 1/2/3 as a concatenation of fixed-width fields in ITU-R M.1371 order (Spec/Messages); decoding of every field by one lemma about windows of concatenations. Expected values are given by relations on the transmitted integers (RoundsTo, tables), not by model functions."
  },
  {
   "property": "C45",
   "status": "proved",
   "theorems": [
    "Nmea.C45_base_station",
    "Nmea.C45_bad_date_panics"
   ],
   "note": "Encoder of message type 4 as a concatenation of fixed-width fields in ITU-R M.1371 order (Spec/Messages); decoding of every field by one lemma about windows of concatenations. Expected values are given by relations on the transmitted integers (RoundsTo, tables), not by model functions."
  },
  {
   "property": "C46",
   "status": "proved",
   "theorems": [
    "Nmea.C46_voyage",
    "Nmea.C46_bad_eta_panics"
   ],
   "note": "Encoder of message type 5 as a concatenation of fixed-width fields in ITU-R M.1371 order (Spec/Messages); decoding of every field by one lemma about windows of concatenations. Expected values are given by relations on the transmitted integers (RoundsTo, tables), not by model functions. ETA and class deviations are part of the statement."
  },
  {
   "property": "C47",
   "status": "proved",
   "theorems": [
    "Nmea.C47_addressed"
   ],
   "note": "Encoder of message type 6 as a concatenation of fixed-width fields in ITU-R M.1371 order (Spec/Messages); decoding of every field by one lemma about windows of concatenations. Expected values are given by relations on the transmitted integers (RoundsTo, tables), not by model functions."
  },
  {
   "property": "C48",
   "status": "proved",
   "theorems": [
    "Nmea.C48_aircraft"
   ],
   "note": "Encoder of message type 9 as a concatenation of fixed-width fields in ITU-R M.1371 order (Spec/Messages); decoding of every field by one lemma about windows of concatenations. Expected values are given by relations on the transmitted integers (RoundsTo, tables), not by model functions."
  },
  {
   "property": "C49",
   "status": "proved",
   "theorems": [
    "Nmea.C49_inquiry"
   ],
   "note": "Encoder of message type 10 as a concatenation of fixed-width fields in ITU-R M.1371 order (Spec/Messages); decoding of every field by one lemma about windows of concatenations. Expected values are given by relations on the transmitted integers (RoundsTo, tables), not by model functions."
  },
  {
   "property": "C50",
   "status": "proved",
   "theorems": [
    "Nmea.C50_position_B",
    "Nmea.C50_wrong_flags"
   ],
   "note": "Encoder of message type 18 as a concatenation of fixed-width fields in ITU-R M.1371 order (Spec/Messages); decoding of every field by one lemma about windows of concatenations. Expected values are given by relations on the transmitted integers (RoundsTo, tables), not by model functions. The displaced flags are stated as what the code returns; C50_wrong_flags says exactly when each flag is right."
  },
  {
   "property": "C51",
   "status": "proved",
   "theorems": [
    "Nmea.C51_aid"
   ],
   "note": "Encoder of message type 21 as a concatenation of fixed-width fields in ITU-R M.1371 order (Spec/Messages); decoding of every field by one lemma about windows of concatenations. Expected values are given by relations on the transmitted integers (RoundsTo, tables), not by model functions."
  },
  {
   "property": "C52",
   "status": "proved",
   "theorems": [
    "Nmea.C52_part_A_first",
    "Nmea.C52_part_A_second",
    "Nmea.C52_part_B_first",
    "Nmea.C52_part_B_second",
    "Nmea.C52_long_name"
   ],
   "note": "Encoder of message type 24 as a concatenation of fixed-width fields in ITU-R M.1371 order (Spec/Messages); decoding of every field by one lemma about windows of concatenations. Expected values are given by relations on the transmitted integers (RoundsTo, tables), not by model functions. C52_long_name shows that the restriction on full names is needed."
  },
  {
   "property": "C53",
   "status": "proved",
   "theorems": [
    "Nmea.C53_long_range",
    "Nmea.C53_wrong_position"
   ],
   "note": "Encoder of message type 27 as a concatenation of fixed-width fields in ITU-R M.1371 order (Spec/Messages); decoding of every field by one lemma about windows of concatenations. Expected values are given by relations on the transmitted integers (RoundsTo, tables), not by model functions. Negative for position, speed and course: the statement says which bits are used instead; C53_wrong_position: right only when latitude and longitude are the same integer."
  },
  {
   "property": "C54",
   "status": "proved",
   "theorems": [
    "Nmea.C54_positions",
    "Nmea.C54_long_range"
   ],
   "note": "Arbitrary payloads (not only encoded ones): positionAt relates payload bits to the result."
  },
  {
   "property": "C55",
   "status": "proved",
   "theorems": [
    "Nmea.C55_bounds",
    "Nmea.C55_bounds_all",
    "Nmea.C55_off_the_globe"
   ],
   "note": "Monotonicity of rounding + integer bounds; witness payloads outside the globe."
  },
  {
   "property": "C56",
   "status": "proved",
   "theorems": [
    "Nmea.C56_motion",
    "Nmea.C56_aircraft",
    "Nmea.C56_tenths_error",
    "Nmea.C56_out_of_range"
   ],
   "note": "Iff statements on raw values; rounding specified by RoundsTo (nearest, ties to even)."
  },
  {
   "property": "C57",
   "status": "proved",
   "theorems": [
    "Nmea.C57_turn",
    "Nmea.C57_direction_agrees",
    "Nmea.C57_monotone",
    "Nmea.C57_odd",
    "Nmea.C57_exceeds_limit"
   ],
   "note": "powi(2) of the quotient modelled with every rounding step; monotonicity by monotonicity of rounding, limit violated by a witness."
  },
  {
   "property": "C58",
   "status": "proved",
   "theorems": [
    "Nmea.C58_order_preserved",
    "Nmea.C58_injective"
   ],
   "note": "Injectivity of correctly rounded n/600000: consecutive values differ by more than the rounding error."
  },
  {
   "property": "C59",
   "status": "proved",
   "theorems": [
    "Nmea.C59_constructors",
    "Nmea.C59_class_A",
    "Nmea.C59_other_status",
    "Nmea.C59_base_station",
    "Nmea.C59_aid"
   ],
   "note": "Independent tables in Spec/Codes; the result of every payload agrees with them."
  },
  {
   "property": "C60",
   "status": "proved",
   "theorems": [
    "Nmea.C60_constructors",
    "Nmea.C60_voyage",
    "Nmea.C60_never_tanker",
    "Nmea.C60_tanker_mismatch"
   ],
   "note": "Digit-wise specification in Spec/Codes; unreachable variants proved unreachable."
  },
  {
   "property": "C61",
   "status": "proved",
   "theorems": [
    "Nmea.C61_country",
    "Nmea.C61_only_digits",
    "Nmea.C61_codes"
   ],
   "note": "ITU allocation table in Spec/Country by ranges, written independently; three disagreements proved."
  },
  {
   "property": "C62",
   "status": "proved",
   "theorems": [
    "Nmea.C62_integer_fields",
    "Nmea.C62_sentences",
    "Nmea.C62_leading_zeros",
    "Nmea.C62_refused"
   ],
   "note": "Dec grammar (optional plus, digits, bound) in the specification; accept iff."
  },
  {
   "property": "C63",
   "status": "proved",
   "theorems": [
    "Nmea.C63_decimal_fields",
    "Nmea.C63_sentences",
    "Nmea.C63_formatted",
    "Nmea.C63_unique",
    "Nmea.C63_not_finite"
   ],
   "note": "Decimal grammar with exact rational value in the specification; nearest double; special texts."
  },
  {
   "property": "C64",
   "status": "proved",
   "theorems": [
    "Nmea.C64_positions",
    "Nmea.C64_refused",
    "Nmea.C64_accuracy",
    "Nmea.C64_bound"
   ],
   "note": "Regular expressions replaced by an explicit matcher (anchors: start only, as in the code); error bound by rational arithmetic."
  },
  {
   "property": "C65",
   "status": "proved",
   "theorems": [
    "Nmea.C65_contents",
    "Nmea.C65_round_trip",
    "Nmea.C65_unknown_quality"
   ],
   "note": "GGA: content relation field by field for every accepted sentence, acceptance as an iff, and a formatter round trip."
  },
  {
   "property": "C66",
   "status": "proved",
   "theorems": [
    "Nmea.C66_contents",
    "Nmea.C66_round_trip",
    "Nmea.C66_refused"
   ],
   "note": "RMC: content relation field by field for every accepted sentence, acceptance as an iff, and a formatter round trip."
  },
  {
   "property": "C67",
   "status": "proved",
   "theorems": [
    "Nmea.C67_contents",
    "Nmea.C67_at_most_twelve",
    "Nmea.C67_round_trip"
   ],
   "note": "GSA: content relation field by field for every accepted sentence, acceptance as an iff, and a formatter round trip."
  },
  {
   "property": "C68",
   "status": "proved",
   "theorems": [
    "Nmea.C68_contents",
    "Nmea.C68_round_trip"
   ],
   "note": "VTG: total description of the answer for every sentence."
  },
  {
   "property": "C69",
   "status": "proved",
   "theorems": [
    "Nmea.C69_contents",
    "Nmea.C69_round_trip"
   ],
   "note": "GLL: content relation field by field for every accepted sentence, acceptance as an iff, and a formatter round trip."
  },
  {
   "property": "C70",
   "status": "proved",
   "theorems": [
    "Nmea.C70_empty_fields"
   ],
   "note": "Equality of answers for a body and the body with commas appended."
  },
  {
   "property": "C71",
   "status": "proved",
   "theorems": [
    "Nmea.C71_extra_fields",
    "Nmea.C71_appended"
   ],
   "note": "Equality of answers for bodies that agree on the fields used."
  },
  {
   "property": "C72",
   "status": "proved",
   "theorems": [
    "Nmea.C72_panics_iff",
    "Nmea.C72_short_time",
    "Nmea.C72_gsa_vtg"
   ],
   "note": "Iff between panic and the explicit predicate Panics of Spec/Panic, for every sentence, state and environment."
  },
  {
   "property": "C73",
   "status": "proved",
   "theorems": [
    "Nmea.C73_no_panic",
    "Nmea.C73_release"
   ],
   "note": "Consequences of C72 along histories."
  },
  {
   "property": "C74",
   "status": "proved",
   "theorems": [
    "Nmea.C74_valid_times"
   ],
   "note": "All DateTime values in all results; calendar in Spec/Calendar."
  },
  {
   "property": "C75",
   "status": "proved",
   "theorems": [
    "Nmea.C75_today",
    "Nmea.C75_six_digits"
   ],
   "note": "Field-wise description with the clock."
  },
  {
   "property": "C76",
   "status": "proved",
   "theorems": [
    "Nmea.C76_century",
    "Nmea.C76_previous_century"
   ],
   "note": "As C75 for the date; century arithmetic."
  },
  {
   "property": "C77",
   "status": "proved",
   "theorems": [
    "Nmea.C77_eta",
    "Nmea.C77_current_year",
    "Nmea.C77_not_available"
   ],
   "note": "Exact description of the ETA from the payload bits and the clock."
  },
  {
   "property": "C78",
   "status": "proved",
   "theorems": [
    "Nmea.C78_clock",
    "Nmea.C78_no_clock"
   ],
   "note": "Two-run (relational) theorem: two clocks, same state."
  },
  {
   "property": "C79",
   "status": "proved",
   "theorems": [
    "Nmea.C79_letters"
   ],
   "note": "All texts."
  },
  {
   "property": "C80",
   "status": "proved",
   "theorems": [
    "Nmea.C80_parts",
    "Nmea.C80_gsv",
    "Nmea.C80_static"
   ],
   "note": "Invariant over histories: provenance of each stored item."
  },
  {
   "property": "C81",
   "status": "proved",
   "theorems": [
    "Nmea.C81_no_invention"
   ],
   "note": "Consequence of C80."
  },
  {
   "property": "C82",
   "status": "proved",
   "theorems": [
    "Nmea.C82_labels_identify",
    "Nmea.C82_simulator",
    "Nmea.C82_labels_nonempty",
    "Nmea.C82_aid_labels",
    "Nmea.C82_ship_labels",
    "Nmea.C82_cargo_labels",
    "Nmea.C82_aid_ambiguous"
   ],
   "note": "Display implementations as label tables; injectivity by case analysis over the enumerations, lifted to payloads for aids to navigation."
  },
  {
   "property": "C83",
   "status": "proved",
   "theorems": [
    "Nmea.C83_ais_positions",
    "Nmea.C83_gnss_positions",
    "Nmea.C83_binary"
   ],
   "note": "Accessor functions over all result types."
  },
  {
   "property": "C84",
   "status": "proved",
   "theorems": [
    "Nmea.C84_step_total",
    "Nmea.C84_refinement"
   ],
   "note": "Refinement: relation Rel between maps with textual keys and the abstract memory; simulation step by step, totality of the abstract machine, induction over histories."
  },
  {
   "property": "C85",
   "status": "proved",
   "theorems": [
    "Nmea.C85_memory_is_all",
    "Nmea.C85_other_sentences"
   ],
   "note": "Corollary of C84."
  },
  {
   "property": "C86",
   "status": "proved",
   "theorems": [
    "Nmea.C86_ais_independent",
    "Nmea.C86_gnss_independent"
   ],
   "note": "Projection theorem (Lemmas/Interleave) on top of C84."
  },
  {
   "property": "C87",
   "status": "proved",
   "theorems": [
    "Nmea.C87_talkers_independent",
    "Nmea.C87_groups_independent"
   ],
   "note": "Projection theorem for talkers and for groups."
  },
  {
   "property": "C88",
   "status": "proved",
   "theorems": [
    "Nmea.C88_groups_independent",
    "Nmea.C88_own_vessel_counterexample"
   ],
   "note": "Projection theorem for a two-part group; the exception is proved by a witness."
  },
  {
   "property": "C89",
   "status": "proved",
   "theorems": [
    "Nmea.C89_count_only",
    "Nmea.C89_no_comma",
    "Nmea.C89_checksum",
    "Nmea.C89_checksum_tells",
    "Nmea.C89_gnss_kind",
    "Nmea.C89_ais_kind",
    "Nmea.C89_message_type",
    "Nmea.C89_part_number",
    "Nmea.C89_fragment_numbers",
    "Nmea.C89_gnss_fields"
   ],
   "note": "Error texts as functions of the sentence. For GNSS sentences faults lists the conditions on the fields in order with their texts; every handler is a sequence of checks (Checks, closed under sequencing), so the first failing condition gives the text. The quoted checksum is read back by uniqueness of string literals."
  },
  {
   "property": "C90",
   "status": "proved",
   "theorems": [
    "Nmea.C90_second_parts_lost",
    "Nmea.C90_first_part_lost",
    "Nmea.C90_mixed_counterexample"
   ],
   "note": "Streams with losses in Spec/Loss; projection of C84 to the group, then induction over the stream; witness for the mix-up."
  },
  {
   "property": "C91",
   "status": "proved",
   "theorems": [
    "Nmea.C91_sentence_lost",
    "Nmea.C91_last_lost"
   ],
   "note": "Invariant of the group's memory between cycles (the sentences after k of the last cycle wait), induction over cycles."
  },
  {
   "property": "C92",
   "status": "proved",
   "theorems": [
    "Nmea.C92_vessels_independent"
   ],
   "note": "Projection theorem for one MMSI on top of C84."
  },
  {
   "property": "C93",
   "status": "proved",
   "theorems": [
    "Nmea.C93_nothing_lost",
    "Nmea.C93_part_A_lost",
    "Nmea.C93_part_B_lost",
    "Nmea.C93_lost_counterexample"
   ],
   "note": "C92, then induction over the stream of pairs; witness for the incomplete report."
  },
  {
   "property": "C94",
   "status": "proved",
   "theorems": [
    "Nmea.C94_same_answer",
    "Nmea.C94_same_history",
    "Nmea.C94_difference"
   ],
   "note": "Two-run theorem: same sentence and state, two build profiles; histories by induction."
  },
  {
   "property": "C95",
   "status": "proved",
   "theorems": [
    "Nmea.C95_station",
    "Nmea.C95_source",
    "Nmea.C95_gsv_source"
   ],
   "note": "Two-run theorem: two talkers, same state; GSV by induction over the stream."
  },
  {
   "property": "C96",
   "status": "proved",
   "theorems": [
    "Nmea.C96_exchanged",
    "Nmea.C96_own_vessel",
    "Nmea.C96_own_vessel_parts"
   ],
   "note": "Two-run theorem: VDM and VDO. For whole streams: simulation between two runs of the machine of C84 whose memories differ in the flags only."
  },
  {
   "property": "C97",
   "status": "proved",
   "theorems": [
    "Nmea.C97_fields",
    "Nmea.C97_count_only",
    "Nmea.C97_single",
    "Nmea.C97_part"
   ],
   "note": "Two-run theorem: equal answers for sentences that agree on the fields named; a sentence that ends after the fragment count 1 counts as an empty payload."
  },
  {
   "property": "C98",
   "status": "proved",
   "theorems": [
    "Nmea.C98_in_range",
    "Nmea.C98_history",
    "Nmea.C98_not_a_number"
   ],
   "note": "Spec/Ranges lists the range of every field of every report. Proved by case analysis of all handlers with an invariant on pending static data; number ranges through the exact rounding model."
  },
  {
   "property": "C99",
   "status": "proved",
   "theorems": [
    "Nmea.C99_any_stream",
    "Nmea.C99_everything_twice",
    "Nmea.C99_overlapping"
   ],
   "note": "The machine of C84 restricted to a group (C88) is run by induction on the stream; Spec/Streams gives the answers by a three-line recursion on the parts received. The two corollaries are by induction on the messages."
  },
  {
   "property": "C100",
   "status": "proved",
   "theorems": [
    "Nmea.C100_any_stream",
    "Nmea.C100_everything_twice"
   ],
   "note": "As C99, from C92."
  },
  {
   "property": "C101",
   "status": "proved",
   "theorems": [
    "Nmea.C101_everything_twice",
    "Nmea.C101_any_stream"
   ],
   "note": "As C99, from C87; the specification is a recursion with a map from numbers to fields. C101_everything_twice: by induction over the sentences of a cycle and over the cycles, with what is kept between two sentences as invariant."
  },
  {
   "property": "C102",
   "status": "proved",
   "theorems": [
    "Nmea.C102_parts",
    "Nmea.C102_static",
    "Nmea.C102_gsv"
   ],
   "note": "Counting by induction on the recursions of C99-C101; for GSV the potential is the number of sentences kept."
  },
  {
   "property": "C103",
   "status": "proved",
   "theorems": [
    "Nmea.C103_one_sentence",
    "Nmea.C103_history",
    "Nmea.C103_once_per_key",
    "Nmea.C103_counts"
   ],
   "note": "Two-run simulation: every function of the model that uses the maps respects equality of lookups. This justifies the association lists of the model: nothing but get, insert and remove of a map is used, so any correct map gives the same answers."
  },
  {
   "property": "C104",
   "status": "proved",
   "theorems": [
    "Nmea.C104_equal",
    "Nmea.C104_itself",
    "Nmea.C104_ais",
    "Nmea.C104_not_itself",
    "Nmea.C104_zeros"
   ],
   "note": "Model/Equality is the derived eq with IEEE comparison of doubles. The characterisation is by cases over all report types; AIS reports are shown to have no NaN (C98) and no negative zero where it matters."
  },
  {
   "property": "C105",
   "status": "proved",
   "theorems": [
    "Nmea.C105_same",
    "Nmea.C105_few",
    "Nmea.C105_gsv",
    "Nmea.C105_unbounded"
   ],
   "note": "Model/Work is a copy of the model with a counter in every store function; C105_same proves that it computes the same. The counts are by case analysis over all sentence shapes, the loops of GSV by induction."
  },
  {
   "property": "C106",
   "status": "proved",
   "theorems": [
    "Nmea.C106_texts",
    "Nmea.C106_static",
    "Nmea.C106_traffic",
    "Nmea.C106_static_max"
   ],
   "note": "Every key of the table of texts is traced to a sentence of the history (induction); keys are unique (C103) and a group never has both parts pending (C21), so the keys are a sublist of one key for each group."
  },
  {
   "property": "C107",
   "status": "proved",
   "theorems": [
    "Nmea.C107_captures",
    "Nmea.C107_positions"
   ],
   "note": "Spec/Regex is a backtracking semantics of regular expressions with a reader of pattern texts. The literal pattern texts of the code are read by evaluation; the captures are computed for all texts by induction on the digits."
  },
  {
   "property": "C108",
   "status": "proved",
   "theorems": [
    "Nmea.C108_decimal_order",
    "Nmea.C108_decimal_strict",
    "Nmea.C108_too_many_digits",
    "Nmea.C108_angles",
    "Nmea.C108_positions",
    "Nmea.C108_angles_order",
    "Nmea.C108_tenths"
   ],
   "note": "Spec/Order says which number a text says. Rounding is monotone (roundMag_mono), and two numbers that differ by more than the spacing of doubles at their magnitude cannot round to the same double (roundMag_apart); the number of digits bounds the difference from below. For positions the two roundings (minutes/60, then the sum) are followed in turn."
  },
  {
   "property": "C109",
   "status": "proved",
   "theorems": [
    "Nmea.C109_log",
    "Nmea.C109_warnings",
    "Nmea.C109_bounded",
    "Nmea.C109_dropped_is_logged",
    "Nmea.C109_error_or_warning",
    "Nmea.C109_false_alarm",
    "Nmea.C109_twice"
   ],
   "note": "Model/Log follows the control flow of the parser once more and collects the records of every debug! and warn! in the code. The specification lists the causes; the proof is by the case analysis of C22 (fragments) and the windows of the codes."
  },
  {
   "property": "C110",
   "status": "proved",
   "theorems": [
    "Nmea.C110_swap",
    "Nmea.C110_reordered",
    "Nmea.C110_related",
    "Nmea.C110_merged_streams"
   ],
   "note": "On the machine of C84: every step reads and writes only the memory cells of its groups (step_local), so steps with disjoint cells commute; the refinement carries this over to the parser. Merged streams are a stream divided by a label (C127)."
  },
  {
   "property": "C111",
   "status": "proved",
   "theorems": [
    "Nmea.C111_position_A",
    "Nmea.C111_base_station",
    "Nmea.C111_voyage",
    "Nmea.C111_addressed",
    "Nmea.C111_aircraft",
    "Nmea.C111_inquiry",
    "Nmea.C111_position_B",
    "Nmea.C111_aid",
    "Nmea.C111_static",
    "Nmea.C111_long_range"
   ],
   "note": "From the decoding theorems C44-C53: every decoded value determines the transmitted one (rounding is injective on the transmitted grid, by C108); equality of reports field by field."
  },
  {
   "property": "C112",
   "status": "proved",
   "theorems": [
    "Nmea.C112_state",
    "Nmea.C112_left_out",
    "Nmea.C112_retry",
    "Nmea.C112_message_left_out"
   ],
   "note": "Case analysis over the three places where a call writes before it can panic; leaving out a call by C103 (same data, same answers) and C110 (sentences outside the group commute)."
  },
  {
   "property": "C113",
   "status": "proved",
   "theorems": [
    "Nmea.C113_whole_days",
    "Nmea.C113_in_order",
    "Nmea.C113_midnight",
    "Nmea.C113_reversed",
    "Nmea.C113_rmc",
    "Nmea.C113_eta_past",
    "Nmea.C113_leap_day",
    "Nmea.C113_comparison"
   ],
   "note": "Spec/Instant numbers the days and seconds of the proleptic Gregorian calendar; Lemmas/Instant proves the numbering strictly increasing over valid dates. With C75, C76 and C46 the reported timestamp is known exactly."
  },
  {
   "property": "C114",
   "status": "proved",
   "theorems": [
    "Nmea.C114_bit_fields",
    "Nmea.C114_complete",
    "Nmea.C114_error_burst",
    "Nmea.C114_character",
    "Nmea.C114_draught_changes_eta",
    "Nmea.C114_fields",
    "Nmea.C114_fields_complete"
   ],
   "note": "Spec/Locality lists for each value the bit fields (or comma fields) it may depend on. Every reader of the bit vector is determined by its window (pickU64_congr and the like), and each value by its readers; completeness is extensionality of the report structures."
  },
  {
   "property": "C115",
   "status": "proved",
   "theorems": [
    "Nmea.C115_parts",
    "Nmea.C115_static",
    "Nmea.C115_static_joined_late",
    "Nmea.C115_gsv"
   ],
   "note": "From the refinement to the memory machine (C84): the memory of a group after the synchronising sentences does not depend on the one before (trace_two; after_pass and pass_agree for GSV), and answers to a group depend on its memory only (projection). For type 24 the waiting/nothing-waiting parity is preserved by every message."
  },
  {
   "property": "C116",
   "status": "proved",
   "theorems": [
    "Nmea.C116_exact",
    "Nmea.C116_reordered",
    "Nmea.C116_first_character",
    "Nmea.C116_two_changes",
    "Nmea.C116_cut_off"
   ],
   "note": "The checksum text determines the XOR (checksumText_inj), and XOR is associative, commutative and cancels; the refusal is exactly C01/C02. The cut by cases on its place relative to the star."
  },
  {
   "property": "C117",
   "status": "proved",
   "theorems": [
    "Nmea.C117_cut_payload",
    "Nmea.C117_cut_second",
    "Nmea.C117_first_part_counterexample",
    "Nmea.C117_position_zero",
    "Nmea.C117_cut_fields",
    "Nmea.C117_wrong_value"
   ],
   "note": "The beginning of a sentence is a sentence with the complete fields and the beginning of the next one (cut_tagged); then C42 (zero padding), C54 (positions) and C114 (values and their fields)."
  },
  {
   "property": "C118",
   "status": "proved",
   "theorems": [
    "Nmea.C118_voyage",
    "Nmea.C118_A_then_B",
    "Nmea.C118_B_then_A",
    "Nmea.C118_base_station",
    "Nmea.C118_aid",
    "Nmea.C118_class_A",
    "Nmea.C118_station",
    "Nmea.C118_system",
    "Nmea.C118_quality",
    "Nmea.C118_gsa_fix"
   ],
   "note": "Tables of texts in Spec/Texts, compared with the labels of the values for every code (finite case split); the values come from C07, C08, C25, C59, C60, C65 and C67."
  },
  {
   "property": "C119",
   "status": "proved",
   "theorems": [
    "Nmea.C119_gga",
    "Nmea.C119_rmc",
    "Nmea.C119_gsa",
    "Nmea.C119_vtg",
    "Nmea.C119_gll",
    "Nmea.C119_sixty_minutes"
   ],
   "note": "Spec/Meaning says what each field means with exact rationals; the double of a number field is an injective function of sign and magnitude for at most 15 digits (roundMag_apart) and of hemisphere, degrees and minutes (C108_angles and the sign); then the contents theorems C65-C69 field by field."
  },
  {
   "property": "C120",
   "status": "proved",
   "theorems": [
    "Nmea.C120_link",
    "Nmea.C120_as_new",
    "Nmea.C120_one_by_one"
   ],
   "note": "Spec/Link: messages with their sentences and report (Sent) and interleavings of them (Link). Invariant over the memory machine of C84: each slot of the memory holds what leads the rest of its message to the report and is free afterwards (Leads, Fitting); the step of a slot leaves the others alone."
  },
  {
   "property": "C121",
   "status": "proved",
   "theorems": [
    "Nmea.C121_well_formed",
    "Nmea.C121_delivered"
   ],
   "note": "The message is read off the bits (natBits, intBits and flagBit of what is read give the bits back); without texts its bits are the beginning of the given bits, which is all that is read (dispatchAis_congr); with texts every number and text that is read agrees."
  },
  {
   "property": "C122",
   "status": "proved",
   "theorems": [
    "Nmea.C122_end_to_end",
    "Nmea.C122_determined",
    "Nmea.C122_any_message"
   ],
   "note": "Every broadcast is a Transmission of C120 (the sentences it is packed into are of the right form, payloadBits of the armour are the bits and zeros) whose report is that of C44-C53; then C120_one_by_one. Uniqueness: each value is determined by its rounding (roundsTo_iff). Conversely by C121."
  },
  {
   "property": "C123",
   "status": "proved",
   "theorems": [
    "Nmea.C123_values",
    "Nmea.C123_told_apart",
    "Nmea.C123_not_told_apart",
    "Nmea.C123_codes",
    "Nmea.C123_empty",
    "Nmea.C123_printed"
   ],
   "note": "Model/Defaults.lean. Every report of a reachable state carries one of the marks (report_marked, over all handlers and the invariant of pending static data). Codes: all 256, by evaluation."
  },
  {
   "property": "C124",
   "status": "proved",
   "theorems": [
    "Nmea.C124_traffic",
    "Nmea.C124_determined",
    "Nmea.C124_any_mixture",
    "Nmea.C124_as_new",
    "Nmea.C124_one_by_one"
   ],
   "note": "Spec/Traffic: sources, their sentences and reports, and interleavings (Traffic). GNSS sentences are messages of their own (Whole) answered by the round trips C65-C69; rows of satellites are read back field by field; each source is a Whole or Sent message of C120, so Traffic gives a Link with the reports of the sources. The values of a source are unique (C124_determined: the rounding chain of angles is part of Angle.Result), hence C124_any_mixture."
  },
  {
   "property": "C125",
   "status": "proved",
   "theorems": [
    "Nmea.C125_lossy",
    "Nmea.C125_nothing_invented",
    "Nmea.C125_lossless",
    "Nmea.C125_wrong_character",
    "Nmea.C125_noise"
   ],
   "note": "Spec/Lossy: noise, and interleavings with losses (Lossy). Invariant over the memory machine of C84: each slot holds what leads the rest of its source to the report (Leading), whatever harmless remains it started with (Stale), or what makes the rest useless (Useless). Noise is refused without changing anything (C01, C05, C10, C11). C125_nothing_invented compares with C124 by the same uniqueness."
  },
  {
   "property": "C126",
   "status": "proved",
   "theorems": [
    "Nmea.C126_as_new",
    "Nmea.C126_shows",
    "Nmea.C126_flush",
    "Nmea.C126_no_universal_flush"
   ],
   "note": "Unfinished lists what can be completed. The machine of C84 has finitely many entries after every history (invariant Sound over all steps); memories that agree on the readable entries are bisimilar; emptying goes slot by slot (the other part, another part A of type 24, the missing sentences of a GSV group); each kind of pending entry is told from nothing by explicit sentences; no universal list since channel names are unbounded."
  },
  {
   "property": "C127",
   "status": "proved",
   "theorems": [
    "Nmea.C127_divided",
    "Nmea.C127_any_order",
    "Nmea.C127_in_turn"
   ],
   "note": "Invariant over the stream (Lemmas/Divide): the memory of the single parser agrees with the memory of each share on the cells of that share. The cells of a share are the groups of its sentences and the MMSIs of the type 24 messages its parser hears; the hypothesis says that those of different shares are different."
  },
  {
   "property": "C128",
   "status": "proved",
   "theorems": [
    "Nmea.C128_doubles",
    "Nmea.C128_position",
    "Nmea.C128_static",
    "Nmea.C128_others",
    "Nmea.C128_gnss",
    "Nmea.C128_texts",
    "Nmea.C128_reports",
    "Nmea.C128_decimals",
    "Nmea.C128_times",
    "Nmea.C128_documented"
   ],
   "note": "Occurs P: some list of sentences given to a new parser is answered, once, with a report of property P. One direction is the ranges of C98 (proved of every reachable answer) or, for whole reports and decimals, the well-formed message of C122; the other transmits a message with the wanted value through the link of C124, or two parts of type 24 in which the name is longer than its field. Doubles: m * 2^s is written as an integer with exponent, m * 2^a * 5^k e-k, which is rounded to itself."
  },
  {
   "property": "C129",
   "status": "proved",
   "theorems": [
    "Nmea.C129_chunk",
    "Nmea.C129_two",
    "Nmea.C129_ais_first",
    "Nmea.C129_gnss_first",
    "Nmea.C129_three"
   ],
   "note": "chunk t bs is the text of the sentences bs with checksums, t between them. The parser cuts it at the last star, so C116 applies to the last checksum and the body before it; their XOR differ by the residue, by induction on the list. For two sentences the residue is a function of the checksum of the first one, evaluated for all 256 by the kernel. If the residue is 0 the text is a tagged sentence whose first fields are those of the first sentence (C71, C97)."
  },
  {
   "property": "C130",
   "status": "proved",
   "theorems": [
    "Nmea.C130_ais",
    "Nmea.C130_gnss",
    "Nmea.C130_refused",
    "Nmea.C130_variation",
    "Nmea.C130_vtg",
    "Nmea.C130_gll",
    "Nmea.C130_hemisphere",
    "Nmea.C130_gsv",
    "Nmea.C130_payload"
   ],
   "note": "The terminator has no comma and no star, so the sentence with it is the sentence whose last field has it appended (tagged_lineEnd). No integer, number or letter text contains CR or LF (by the grammars of Spec/Numbers), hence the outcome by the contents theorems C65-C69, C37, C64, C71, C72, C97."
  },
  {
   "property": "C131",
   "status": "proved",
   "theorems": [
    "Nmea.C131_no_start",
    "Nmea.C131_before_checksum",
    "Nmea.C131_one_before"
   ],
   "note": "By the division of all texts into framed and corrupted ones and the tags that cannot be read (C72) or are of another form (C10); with a checksum by C116."
  },
  {
   "property": "C132",
   "status": "proved",
   "theorems": [
    "Nmea.C132_noticed",
    "Nmea.C132_no_wrong_report",
    "Nmea.C132_stream",
    "Nmea.C132_reference_station",
    "Nmea.C132_dilution_counterexample"
   ],
   "note": "Spec/OneError defines one error in a text and the few forms in which it is not noticed; the proof goes through all places of the error. With C97 and C71 (what follows the fields in use does not count) the unnoticed ones are harmless if the last field is not used."
  },
  {
   "property": "C133",
   "status": "proved",
   "theorems": [
    "Nmea.C133_no_fix",
    "Nmea.C133_no_trace",
    "Nmea.C133_stream",
    "Nmea.C133_time_known"
   ],
   "note": "From C37 and C65-C69: the empty text is no time, no number and no position; induction over the stream."
  },
  {
   "property": "C134",
   "status": "proved",
   "theorems": [
    "Nmea.C134_position_A",
    "Nmea.C134_base_station",
    "Nmea.C134_voyage",
    "Nmea.C134_aircraft",
    "Nmea.C134_position_B",
    "Nmea.C134_aid",
    "Nmea.C134_static",
    "Nmea.C134_long_range"
   ],
   "note": "From C44-C46, C48, C50-C53 for the messages of Spec/Unavailable; the doubles of the long-range report are evaluated."
  },
  {
   "property": "C135",
   "status": "proved",
   "theorems": [
    "Nmea.C135_unsupported",
    "Nmea.C135_invalid",
    "Nmea.C135_accepted",
    "Nmea.C135_phrases",
    "Nmea.C135_text_identifies",
    "Nmea.C135_first_letters"
   ],
   "note": "Spec/Refused lists the reasons with their texts. One direction are the theorems of C89; the other goes through all shapes of a sentence (framing, tag, fields) with C72 for the panics and C27 for type 24 in reachable states. The phrases of different kinds are not prefixes of one another."
  },
  {
   "property": "C136",
   "status": "proved",
   "theorems": [
    "Nmea.C136_incomplete",
    "Nmea.C136_ais",
    "Nmea.C136_gsv",
    "Nmea.C136_gnss",
    "Nmea.C136_every_sentence"
   ],
   "note": "Spec/Waiting lists the cases in terms of the fields of the sentence and of what is pending. One direction goes through all shapes of a sentence as for C135; the other evaluates each case (C22, eval_part1/2, eval_24, gsv_wait, gsv_done, C89). Type 24 needs that pending static data come from a part A or B (C28), so the states are the reachable ones."
  },
  {
   "property": "C137",
   "status": "proved",
   "theorems": [
    "Nmea.C137_total",
    "Nmea.C137_pairs",
    "Nmea.C137_nothing_lost",
    "Nmea.C137_part_A_lost",
    "Nmea.C137_count",
    "Nmea.C137_two_receivers"
   ],
   "note": "Heard24 picks from a history the messages of a vessel and the answers to the sentences that complete them (C137_total: it exists and is unique). Induction on it: a sentence that completes none leaves what waits of the vessel alone (hears_frame, from the machine), one that does is evaluated by eval_24; merge is overlay by C28."
  },
  {
   "property": "C138",
   "status": "proved",
   "theorems": [
    "Nmea.C138_position_A",
    "Nmea.C138_position_B",
    "Nmea.C138_aircraft",
    "Nmea.C138_base_station",
    "Nmea.C138_aid",
    "Nmea.C138_reading",
    "Nmea.C138_too_many_decimals"
   ],
   "note": "Assumes of Rust's formatting that {:.k} prints a nearest decimal of the exact value of the double, with the sign of the double (also for -0.0, since Rust 1.53); ties do not matter. From the round trips C44, C45, C48, C50, C51, C65-C69 and the error bounds of C90: a double nearer to a decimal number than half of its last place is printed as this number; a double next to a fraction with denominator 600000 cannot be on the other side of a tie."
  },
  {
   "property": "C139",
   "status": "proved",
   "theorems": [
    "Nmea.C139_reading",
    "Nmea.C139_heading_A",
    "Nmea.C139_heading_B",
    "Nmea.C139_tenths_A",
    "Nmea.C139_tenths_B",
    "Nmea.C139_speeds",
    "Nmea.C139_speed",
    "Nmea.C139_words"
   ],
   "note": "Assumes of Rust's {} for f64 that it prints, without exponent, a decimal number of as few digits as possible that is read as the double, and of these one next to the double (displays_total: there is one for every double). Two decimals of at most fifteen digits that are rounded to the same double are equal because 10^15 < 2^50; so the shortest one has the value that was sent. Speeds and courses are multiplied with the double next to 0.1: the error of at most 1.5 units is still less than the distance of numbers of fifteen digits, so a text with fewer than sixteen digits would be that of what was sent."
  },
  {
   "property": "C140",
   "status": "proved",
   "theorems": [
    "Nmea.C140_refused",
    "Nmea.C140_panic",
    "Nmea.C140_quiet",
    "Nmea.C140_finishes",
    "Nmea.C140_append",
    "Nmea.C140_position_A",
    "Nmea.C140_position_B",
    "Nmea.C140_long_range",
    "Nmea.C140_voyage",
    "Nmea.C140_voyage_ends",
    "Nmea.C140_static_B",
    "Nmea.C140_gga",
    "Nmea.C140_rmc",
    "Nmea.C140_readme"
   ],
   "note": "Model/Sample.lean is the program of README.md:40-71, with the standard library's texts of doubles as parameters of which Spec/Sample (FmtOk) assumes what C138 and C139 do (fmt_exists: there are such texts), and chrono's text of a DateTime<Utc>. The loop by induction on the stream; the lines from the round trips of the messages (C44, C46, C50, C52, C53, C65, C66), C61 and C138/C139."
  },
  {
   "property": "C141",
   "status": "proved",
   "theorems": [
    "Nmea.C141_total",
    "Nmea.C141_complete",
    "Nmea.C141_next"
   ],
   "note": "Spec/Complete.lean (Reply, MessageReply, Dialogue) gathers the relations of the other specifications (C64-C69 contents of GNSS sentences, C44-C53/C121/C122 what messages tell, C89/C135 error texts, C72 panics, C84 memory) into one machine. Refinement: a relation between parser and memory is kept by every step (reply_rel), and every sentence has a step (reply_total, by the six shapes of a sentence). Left open by it: how the library writes the apostrophe, NUL and non-ASCII characters in the text for a wrong checksum."
  },
  {
   "property": "C142",
   "status": "proved",
   "theorems": [
    "Nmea.C142_replace",
    "Nmea.C142_brackets",
    "Nmea.C142_script",
    "Nmea.C142_any_tables",
    "Nmea.C142_one_arm",
    "Nmea.C142_output",
    "Nmea.C142_country",
    "Nmea.C142_same_code",
    "Nmea.C142_ambiguous"
   ],
   "note": "Model/MidScript.lean is the script, function by function, with its two tables and the text of the arms of country verbatim. The general claims by induction on the tables, with the patterns of the script proved equal to a description of the lines (Spec/MidScript). That the script prints the source text is one evaluation by the kernel. The script is not run. C142_any_tables has no conditions on the tables (but \\s and \\d are modelled for ASCII)."
  },
  {
   "property": "C143",
   "status": "proved",
   "theorems": [
    "Nmea.C143_report",
    "Nmea.C143_answer"
   ],
   "note": "Model/Debug.lean is derive(Debug) of every result type in its one-line form. Each text is shown to be determined, up to a following comma or bracket outside of quotation marks, by a scan that skips strings (Lemmas/Debug: Shown); structs, tuples, options and lists keep this, so injectivity goes up from the leaves: integers, doubles (by assumption), dates, strings. Values in reports are in their ranges (C98), which the dates need."
  },
  {
   "property": "C144",
   "status": "proved",
   "theorems": [
    "Nmea.C144_one_line",
    "Nmea.C144_to_string"
   ],
   "note": "The same induction over the types shows that a text has no character that breaks lines; the strings by the escapes of Debug for str. C144_to_string is the counterpart for Display of errors."
  },
  {
   "property": "C145",
   "status": "proved",
   "theorems": [
    "Nmea.C145_total",
    "Nmea.C145_stages",
    "Nmea.C145_no_parts",
    "Nmea.C145_group"
   ],
   "note": "Spec/Reassembly.lean is the stage (Joins, Reassembled). Induction along it with the machine of C84 twice, on the history and on what comes out: the memories agree except for the parts, and what waits has no comma, so the joined sentence has the joined payload."
  },
  {
   "property": "C146",
   "status": "proved",
   "theorems": [
    "Nmea.C146_group",
    "Nmea.C146_exact",
    "Nmea.C146_counterexample"
   ],
   "note": "Spec/SignalId.lean builds the sentences. C31 and C32 for the sentences in order, and a case for each number of satellites of a row; C146_exact by comparing lengths. C146_counterexample is the negation of the claim that the satellites reported are those sent."
  },
  {
   "property": "C147",
   "status": "proved",
   "theorems": [
    "Nmea.C147_in_turn",
    "Nmea.C147_mixed",
    "Nmea.C147_alternating",
    "Nmea.C147_counterexample"
   ],
   "note": "Spec/SignalId.lean: SignalGroups. C147_in_turn and C147_mixed from the traces of cycles (C91) with the rows of C146; C147_alternating by an invariant on what is kept (sentences of the second signal only) over C101_any_stream."
  },
  {
   "property": "C148",
   "status": "proved",
   "theorems": [
    "Nmea.C148_no_id",
    "Nmea.C148_as_standard",
    "Nmea.C148_refused",
    "Nmea.C148_exact",
    "Nmea.C148_garmin",
    "Nmea.C148_counterexample"
   ],
   "note": "Spec/Proprietary.lean says what a proprietary sentence is. The tag is of the short form (C72), of six bytes (C10, C89, C95) or longer (C10)."
  },
  {
   "property": "C149",
   "status": "proved",
   "theorems": [
    "Nmea.C149_gga",
    "Nmea.C149_gll",
    "Nmea.C149_rmc",
    "Nmea.C149_leap_second"
   ],
   "note": "From the characterisations of panics in C72 (gga_panic, gll_panic, rmc_panic) and the uniqueness of what six digits say."
  },
  {
   "property": "C150",
   "status": "proved",
   "theorems": [
    "Nmea.C150_position",
    "Nmea.C150_refused",
    "Nmea.C150_time",
    "Nmea.C150_rmc_time",
    "Nmea.C150_motion",
    "Nmea.C150_hdop",
    "Nmea.C150_status",
    "Nmea.C150_counterexample"
   ],
   "note": "From the contents of the sentences (C64 - C69) and the uniqueness of what a text says."
  },
  {
   "property": "C151",
   "status": "proved",
   "theorems": [
    "Nmea.C151_place",
    "Nmea.C151_motion",
    "Nmea.C151_long_range",
    "Nmea.C151_static",
    "Nmea.C151_counterexample"
   ],
   "note": "From the round trips (C44 - C53) and the uniqueness of the reported values; C151_static from C122_end_to_end."
  },
  {
   "property": "C152",
   "status": "proved",
   "theorems": [
    "Nmea.C152_in_view",
    "Nmea.C152_in_use",
    "Nmea.C152_counterexample"
   ],
   "note": "C31 and C32 for the sentences in order with the rows of C37; C67 for GSA."
  },
  {
   "property": "C153",
   "status": "proved",
   "theorems": [
    "Nmea.C153_hemispheres",
    "Nmea.C153_other_letters",
    "Nmea.C153_mirror"
   ],
   "note": "The handlers depend on the letters only through the two position parsers (hemi_gga, hemi_rmc, hemi_gll: the fields are read one after the other, and reading one with another letter changes the sign of its value at most)."
  },
  {
   "property": "C154",
   "status": "proved",
   "theorems": [
    "Nmea.C154_checksum",
    "Nmea.C154_kind",
    "Nmea.C154_talker",
    "Nmea.C154_refused",
    "Nmea.C154_absent",
    "Nmea.C154_hemispheres"
   ],
   "note": "From C01, C10, C95, C66, C67, C68, C69 and C153 by comparing with tables of capital letters."
  },
  {
   "property": "C155",
   "status": "proved",
   "theorems": [
    "Nmea.C155_after_seconds",
    "Nmea.C155_timestamp",
    "Nmea.C155_late",
    "Nmea.C155_order"
   ],
   "note": "The three slices of a time are within its first six characters, and the text of a failure is dropped by .ok(); the moments by C75 and the reading of dates (dateTime_field)."
  },
  {
   "property": "C156",
   "status": "proved",
   "theorems": [
    "Nmea.C156_craft",
    "Nmea.C156_craft_first",
    "Nmea.C156_long",
    "Nmea.C156_ship",
    "Nmea.C156_country"
   ],
   "note": "The layout of a craft's part B (Spec/Craft) has the bits of a part B with the dimensions that are the digits of the mother ship's MMSI to the mixed base (natBits_mother), so C52 applies; the ranges by arithmetic; country() from C61."
  },
  {
   "property": "C157",
   "status": "proved",
   "theorems": [
    "Nmea.C157_units",
    "Nmea.C157_altitude",
    "Nmea.C157_feet_counterexample",
    "Nmea.C157_old_vtg",
    "Nmea.C157_system_id"
   ],
   "note": "The handlers read the other fields only (as C71); values from C65, C67 and C68; the counterexample evaluates one sentence with a height of 100 feet."
  },
  {
   "property": "C158",
   "status": "proved",
   "theorems": [
    "Nmea.C158_newer",
    "Nmea.C158_told_apart",
    "Nmea.C158_gsv",
    "Nmea.C158_counterexample"
   ],
   "note": "From C07 and C95; equality of reports by the source each of the five kinds has; C95_gsv_source applied to the stream itself and to the one of the other talker."
  },
  {
   "property": "C159",
   "status": "proved",
   "theorems": [
    "Nmea.C159_types",
    "Nmea.C159_type_19",
    "Nmea.C159_counterexample",
    "Nmea.C159_planned_types",
    "Nmea.C159_kinds",
    "Nmea.C159_systems"
   ],
   "note": "The tables of the README as lists; from C07, C10, C11 and C136."
  },
  {
   "property": "C160",
   "status": "proved",
   "theorems": [
    "Nmea.C160_exact",
    "Nmea.C160_reached",
    "Nmea.C160_only"
   ],
   "note": "Spec/Possible.lean lists the conditions (Possible); one direction is an invariant of the machine of C84, the other an induction on the finite lists of entries: the entries are taken away one by one, and brought back by one sentence each."
  },
  {
   "property": "C161",
   "status": "proved",
   "theorems": [
    "Nmea.C161_no_trace",
    "Nmea.C161_left_out",
    "Nmea.C161_same_pending",
    "Nmea.C161_same_satellites"
   ],
   "note": "For the first half, memories that agree on what can be read (C126) are in lock step; for the second, sentences are constructed that tell the two memories apart: the missing other part, an empty type 24 message, the rest of the GSV group with empty sentences."
  },
  {
   "property": "C162",
   "status": "proved",
   "theorems": [
    "Nmea.C162_exact",
    "Nmea.C162_same_bits"
   ],
   "note": "Spec/Equivalent.lean has the three conditions. That they suffice is a bisimulation of the machine of C84 (memories that agree in what answers depend on stay so); that they are necessary is C161 and, for the payloads, the sentence with the other part, after what is pending for the two vessels is cleared, followed if the message is of type 24 by one with nothing but the MMSI."
  },
  {
   "property": "C163",
   "status": "proved",
   "theorems": [
    "Nmea.C163_exact",
    "Nmea.C163_no_trace",
    "Nmea.C163_permuted"
   ],
   "note": "If one of the two leaves no trace (C161 and the other rules of the machine) this is direct; otherwise they use different cells of the memory (as C110). For related ones a memory is given in which the answer of the first depends on whether the second came before; by C160 it is reached."
  },
  {
   "property": "C164",
   "status": "proved",
   "theorems": [
    "Nmea.C164_exact"
   ],
   "note": "That a sentence that leaves no trace may be left out or repeated is direct; for the others the state of C163 is taken (leaving out), or one in which the sentence completes what it is a part of, so that the second time it is kept (repeating); the memories after once and twice differ, and by C162 a continuation shows it."
  },
  {
   "property": "C165",
   "status": "proved",
   "theorems": [
    "Nmea.C165_part",
    "Nmea.C165_static",
    "Nmea.C165_gsv",
    "Nmea.C165_others"
   ],
   "note": "By C160 the answers are those of the machine of C84 from the possible memories. Each rule of the machine gives one of the listed answers, and for each listed answer a possible memory is given: the other part, the other message, or the other sentences of the group."
  },
  {
   "property": "C166",
   "status": "proved",
   "theorems": [
    "Nmea.C166_one_line",
    "Nmea.C166_answer",
    "Nmea.C166_error_lines",
    "Nmea.C166_static_lines",
    "Nmea.C166_indented"
   ],
   "note": "Model/Pretty.lean has the calls of the formatter's debug_struct, debug_tuple and debug_list and what they write with the alternate flag (the indentation by PadAdapter); Spec/Pretty.lean brings a text on one line. That the one-line text is that of C143 is shown for texts shifted by any number of blanks, from the parts to the whole."
  },
  {
   "property": "C167",
   "status": "proved",
   "theorems": [
    "Nmea.C167_few",
    "Nmea.C167_one_each",
    "Nmea.C167_least",
    "Nmea.C167_traffic"
   ],
   "note": "On the machine of C84: by induction on the history, from its end, any chosen entries of the memory come from one sentence each, or two for a type 24 message in two parts (Few); the entries are counted by the keys of the two maps; the lower bound from C161 and C15."
  },
  {
   "property": "C168",
   "status": "proved",
   "theorems": [
    "Nmea.C168_texts",
    "Nmea.C168_static",
    "Nmea.C168_traffic",
    "Nmea.C168_ordinary"
   ],
   "note": "Sizes of the keys and of the stored fields by arithmetic on the fields of the sentence each entry comes from (C80); the number of entries from C106. Capacity and overhead of the hash tables are not modelled."
  },
  {
   "property": "C169",
   "status": "proved",
   "theorems": [
    "Nmea.C169_voyage",
    "Nmea.C169_A_then_B",
    "Nmea.C169_B_then_A",
    "Nmea.C169_base_station",
    "Nmea.C169_aid",
    "Nmea.C169_class_A",
    "Nmea.C169_long_range",
    "Nmea.C169_station",
    "Nmea.C169_system",
    "Nmea.C169_quality",
    "Nmea.C169_gsa_fix",
    "Nmea.C169_vtg_mode",
    "Nmea.C169_gll_mode"
   ],
   "note": "Words by code in Spec/DebugWords.lean; that a structure's text contains each of its entries is proved for any list of fields, the rest is C59, C60, C65 to C69, C07 and C08."
  },
  {
   "property": "C170",
   "status": "proved",
   "theorems": [
    "Nmea.C170_mmsi",
    "Nmea.C170_own_vessel",
    "Nmea.C170_ship_type",
    "Nmea.C170_cargo_type",
    "Nmea.C170_nav_status",
    "Nmea.C170_aid_type",
    "Nmea.C170_quality",
    "Nmea.C170_call_sign",
    "Nmea.C170_destination",
    "Nmea.C170_name",
    "Nmea.C170_aid_name",
    "Nmea.C170_log",
    "Nmea.C170_forged"
   ],
   "note": "Lemmas/Search.lean: in the text of a report a colon after a small letter belongs to an entry, since the alphabet of transmitted texts (C98) has no small letters and quoted characters are written by Debug for str; the entry is then identified by the last blank before the colon, and its value by the comma, or for quoted texts by the closing quotation mark. For errors, C89_checksum."
  },
  {
   "property": "C171",
   "status": "proved",
   "theorems": [
    "Nmea.C171_quotes",
    "Nmea.C171_text",
    "Nmea.C171_line",
    "Nmea.C171_reached"
   ],
   "note": "From the exact lists of refusals (C135) and the text for the checksum (C89); bytes of each character escaped once and twice, by cases of Env.debugChar, with the rest of the escapes as in Spec/Lengths.lean."
  },
  {
   "property": "C172",
   "status": "proved",
   "theorems": [
    "Nmea.C172_mmsi",
    "Nmea.C172_own_vessel",
    "Nmea.C172_nav_status",
    "Nmea.C172_ship_type",
    "Nmea.C172_quality",
    "Nmea.C172_aid_type",
    "Nmea.C172_no_position",
    "Nmea.C172_not_forged",
    "Nmea.C172_log",
    "Nmea.C172_count",
    "Nmea.C172_name",
    "Nmea.C172_call_sign",
    "Nmea.C172_destination",
    "Nmea.C172_outcomes",
    "Nmea.C172_waiting"
   ],
   "note": "The lines of a text (cutLines) of {:#?} are an opening line, the indented lines of the entries and a closing line; so a line with twelve blanks and a small letter is the first line of a field of a structure, and only values on one line end with a comma there. Errors have one line with eight blanks, which goes on with a quotation mark. Counting: names of fields are different. Values on a line of their own: the opening line of a field comes up at most once, so the line after it is determined."
  }
 ]
}