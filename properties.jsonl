{"id": "C01", "title": "A wrong checksum is always rejected, without side effects", "statement": "If the sentence contains a '*', the text after the last '*' is not empty and differs from the two upper-case hex digits of the XOR of the low bytes of all characters between the first character (exclusive) and the last '*', parse_sentence returns Err(CorruptedSentence) and the parser's pending data is exactly what it was.", "quantifier": "every parser state, every sentence text (any Unicode string, any length), every clock reading, both overflow-check modes", "why_tests_cant": "a test can only sample corrupted sentences; the claim is about every string and every accumulated history", "anchors": ["src/lib.rs: NmeaParser::parse_sentence", "src/error.rs: ParseError::CorruptedSentence"]}
{"id": "C02", "title": "CorruptedSentence is reported only for a checksum mismatch", "statement": "parse_sentence returns Err(CorruptedSentence) if and only if a non-empty checksum text follows the last '*' and it is not the upper-case two-digit XOR of the covered characters. No later processing stage ever produces CorruptedSentence.", "quantifier": "every parser state, every sentence, every clock reading", "why_tests_cant": "the 'only if' half quantifies over every path of every handler", "anchors": ["src/lib.rs: NmeaParser::parse_sentence"]}
{"id": "C03", "title": "A correct checksum is transparent", "statement": "For a sentence body without '*', parsing the body followed by '*' and its correct two-digit checksum, parsing the bare body, and parsing the body followed by a lone '*' give the same result and the same parser state.", "quantifier": "every body string without '*', every parser state, every clock reading", "why_tests_cant": "unbounded set of bodies and states", "anchors": ["src/lib.rs: NmeaParser::parse_sentence"]}
{"id": "C04", "title": "Any single-character corruption of a checksummed sentence is detected", "statement": "Take any sentence carrying its correct checksum. Replacing any one character after the first one and before the '*' by a character whose low byte differs makes parse_sentence return Err(CorruptedSentence) and leaves the parser untouched. The same holds for any change of the checksum digits that leaves them non-empty and free of '*'. (The first character is not covered, and transpositions are not detected: both shown by counterexample.)", "quantifier": "every body, every position, every replacement character, every parser state", "why_tests_cant": "the error model is an infinite family of substitutions", "anchors": ["src/lib.rs: NmeaParser::parse_sentence"]}
{"id": "C05", "title": "A sentence without a comma is rejected as invalid, without side effects", "statement": "If the checksum test passes (or no checksum is given) and there is no ',' before the last '*' (or anywhere when there is none), the result is Err(InvalidSentence) and pending data is unchanged.", "quantifier": "every such string, every parser state", "why_tests_cant": "infinitely many strings and states", "anchors": ["src/lib.rs: NmeaParser::parse_sentence"]}
{"id": "C06", "title": "Nothing may follow the checksum digits", "statement": "If the body carries its correct two checksum digits followed by any further non-empty text without '*' (for instance the CR LF line terminator of NMEA 0183), parse_sentence returns Err(CorruptedSentence) and changes nothing.", "quantifier": "every body, every non-empty suffix, every state", "why_tests_cant": "infinite family of suffixes", "anchors": ["src/lib.rs: NmeaParser::parse_sentence"]}
{"id": "C07", "title": "GNSS source is determined by the talker id", "statement": "Whenever parse_sentence returns GGA, RMC, GSA, GSV, VTG or GLL data, every `source` in it is the navigation system named by the two talker characters of the sentence just parsed: GN combination, GP GPS, GL GLONASS, GA Galileo, BD BeiDou, GI NavIC, QZ QZSS, anything else Other.", "quantifier": "every sentence, state and clock that yields GNSS data", "why_tests_cant": "all talkers, all sentence bodies, all histories", "anchors": ["src/lib.rs: NmeaParser::parse_sentence", "src/gnss/mod.rs: NavigationSystem"]}
{"id": "C08", "title": "AIS station and own-vessel flag are determined by the sentence tag", "statement": "Whenever parse_sentence returns an AIS result carrying `station`, it is the one named by the talker of the sentence just parsed (AB, AD, AI, AN, AR, AS, AT, AX, otherwise Other), and `own_vessel` is true exactly for VDO sentences.", "quantifier": "every sentence, state and clock that yields AIS data", "why_tests_cant": "all talkers, payloads, histories", "anchors": ["src/lib.rs: NmeaParser::parse_sentence", "src/ais/mod.rs: Station"]}
{"id": "C09", "title": "The kind of result agrees with the sentence type", "statement": "parse_sentence returns Gga (Rmc, Gsa, Gsv, Vtg, Gll) only for a `$` sentence whose tag is two talker bytes followed by GGA (RMC, ...), and AIS results only for a `!` sentence whose tag is two talker bytes followed by VDM or VDO. Incomplete is returned only for GSV, VDM and VDO.", "quantifier": "every sentence, state and clock", "why_tests_cant": "requires all inputs", "anchors": ["src/lib.rs: NmeaParser::parse_sentence"]}
{"id": "C10", "title": "Unsupported sentence types are refused without side effects", "statement": "Every sentence that reaches dispatch with a tag other than $xxGGA, $xxRMC, $xxGSA, $xxGSV, $xxVTG, $xxGLL, !xxVDM, !xxVDO yields Err(UnsupportedSentenceType) and leaves pending data unchanged.", "quantifier": "every such sentence and state", "why_tests_cant": "infinitely many tags", "anchors": ["src/lib.rs: NmeaParser::parse_sentence"]}
{"id": "C11", "title": "AIS message types: supported or refused, by number alone", "statement": "For a complete AIS payload, parse_sentence returns Err(UnsupportedSentenceType) exactly when the first six payload bits encode a type outside {1,2,3,4,5,6,9,10,18,21,24,27}; for the supported types the kind of result is fixed by the number.", "quantifier": "every payload, talker, state", "why_tests_cant": "all payloads, and all states", "anchors": ["src/lib.rs: NmeaParser::parse_sentence"]}
{"id": "C12", "title": "Single-sentence GNSS messages are stateless", "statement": "Results for $xxGGA, $xxRMC, $xxGSA, $xxVTG and $xxGLL do not depend on what was parsed before, and parsing them leaves pending data unchanged.", "quantifier": "every sentence with such a tag, any two parser states", "why_tests_cant": "all histories", "anchors": ["src/lib.rs: NmeaParser::parse_sentence", "src/gnss/gga.rs: handle", "src/gnss/rmc.rs: handle", "src/gnss/gsa.rs: handle", "src/gnss/vtg.rs: handle", "src/gnss/gll.rs: handle"]}
{"id": "C13", "title": "An error never adds pending data", "statement": "If parse_sentence returns an error, every pending fragment and every pending static-data part after the call was already pending before it with the same content. The same holds of every report, and of panics: only a sentence answered with Incomplete adds pending data, except for a GSV sentence whose number is not one of 1 to its count, or with the largest count ('a report never adds pending data' is false for these).", "quantifier": "every sentence, state and clock", "why_tests_cant": "all error paths of all handlers in all states", "anchors": ["src/lib.rs: NmeaParser::parse_sentence"]}
{"id": "C14", "title": "Single-sentence AIS messages other than type 24 are stateless", "statement": "For a VDM/VDO sentence with fragment count 1 whose message type is not 24 the result is independent of the history and pending data is unchanged.", "quantifier": "every such sentence, any two states", "why_tests_cant": "all histories", "anchors": ["src/lib.rs: NmeaParser::parse_sentence"]}
{"id": "C15", "title": "Pending data grows by at most one entry per sentence", "statement": "After any sequence of n calls on a new parser, the number of pending fragments plus pending static-data parts is at most n; each call adds at most one entry.", "quantifier": "every history of any length", "why_tests_cant": "induction over histories", "anchors": ["src/lib.rs: NmeaParser"]}
{"id": "C16", "title": "Pending data is never expired: memory is not bounded", "statement": "For every N there is a history of N valid-looking sentences, each answered with Incomplete, after which N fragments are pending, and no number of unrelated sentences ever removes one. (The property 'memory is bounded' is false of this code.)", "quantifier": "every N, every history of unrelated sentences", "why_tests_cant": "unbounded N", "anchors": ["src/lib.rs: saved_fragments, saved_vsds"]}
{"id": "C17", "title": "Two-part AIS messages are reassembled under any interleaving", "statement": "If part 1 of a two-part message (same VDM/VDO tag, message id and channel) is parsed while part 2 is not pending, then after any sequence of sentences that are not parts of that same (tag, id, channel) group, parsing part 2 gives exactly the result of parsing one unfragmented sentence with the concatenated payload.", "quantifier": "every payload pair, id, channel, talkers, fill field, parser state, every interleaved history of any length", "why_tests_cant": "all interleavings", "anchors": ["src/lib.rs: NmeaParser::parse_sentence", "src/util.rs: make_fragment_key"]}
{"id": "C18", "title": "Part order does not matter", "statement": "The same holds when part 2 arrives first and part 1 later, for any interleaving in between: the combined payload is always part 1 followed by part 2.", "quantifier": "as C17", "why_tests_cant": "all interleavings", "anchors": ["src/lib.rs: NmeaParser::parse_sentence"]}
{"id": "C19", "title": "Fragments of different groups are never combined", "statement": "A two-part sentence is combined with, consumes or overwrites only a pending part with the same VDM/VDO tag, the same numeric message id and the same channel text; all other pending entries are untouched and do not influence the result's payload.", "quantifier": "every sentence, every state, every other group", "why_tests_cant": "requires injectivity of the internal key over all tags, ids, channels", "anchors": ["src/lib.rs: NmeaParser::parse_sentence", "src/util.rs: make_fragment_key"]}
{"id": "C20", "title": "A completed message is consumed", "statement": "After a two-part message is completed neither part is pending, so parsing one of the parts again yields Incomplete.", "quantifier": "every payload pair, group, state", "why_tests_cant": "all states", "anchors": ["src/lib.rs: NmeaParser::parse_sentence"]}
{"id": "C21", "title": "The two parts of one group are never pending together", "statement": "In every reachable parser state, for every tag, message id and channel at most one of the two parts is pending.", "quantifier": "every history of any length", "why_tests_cant": "inductive invariant", "anchors": ["src/lib.rs: NmeaParser::parse_sentence"]}
{"id": "C22", "title": "Unsupported fragmentation is reported as Incomplete and stores nothing", "statement": "A VDM/VDO sentence whose fragment count is 0 or at least 3, or is 2 with a missing or non-numeric message id, or is 2 with a fragment number other than 1 and 2, yields Incomplete and leaves pending data unchanged.", "quantifier": "every such sentence and state", "why_tests_cant": "all such sentences", "anchors": ["src/lib.rs: NmeaParser::parse_sentence"]}
{"id": "C23", "title": "The most recent copy of a part wins", "statement": "If part 1 is parsed repeatedly with different payloads before part 2 arrives, the last one is used (and symmetrically for part 2).", "quantifier": "every sequence of re-sent parts, any interleaving", "why_tests_cant": "unbounded repetitions", "anchors": ["src/lib.rs: NmeaParser::parse_sentence"]}
{"id": "C24", "title": "Parts from different talkers", "statement": "The grouping of fragments ignores the talker: part 1 from one talker and part 2 from another are combined, and the station of the result is that of the part parsed last. ('Fragments of different talkers are never combined' is false of this code.)", "quantifier": "every pair of talkers, payloads, group, state", "why_tests_cant": "all talkers", "anchors": ["src/lib.rs: NmeaParser::parse_sentence", "src/util.rs: make_fragment_key"]}
{"id": "C25", "title": "Type 24 parts A and B are merged under any interleaving", "statement": "If a type 24 part A for an MMSI is parsed when nothing is pending for that MMSI, it yields Incomplete; then after any sentences that are not type 24 messages of that MMSI, parsing part B yields VesselStaticData with the name of part A and the ship type, vendor, call sign, dimensions and mothership of part B.", "quantifier": "every part A, every part B, every MMSI, every interleaved history", "why_tests_cant": "all interleavings", "anchors": ["src/ais/vdm_t24.rs: handle, VesselStaticData::merge"]}
{"id": "C26", "title": "Type 24 merge does not depend on which part comes first", "statement": "Parsing A then B and B then A give the same VesselStaticData, except that own_vessel is that of the part parsed last.", "quantifier": "every pair of parts", "why_tests_cant": "all field values", "anchors": ["src/ais/vdm_t24.rs: merge, choose_some"]}
{"id": "C27", "title": "Type 24 merging never fails", "statement": "In every reachable state, a complete type 24 payload yields an error exactly when its part number is 2 or 3; the mismatch errors of merge are unreachable.", "quantifier": "every reachable state, every payload", "why_tests_cant": "reachability invariant", "anchors": ["src/ais/vdm_t24.rs: merge"]}
{"id": "C28", "title": "Type 24 parts of different vessels are never mixed", "statement": "A type 24 message reads, consumes or replaces only the pending part of its own MMSI; at most one part is pending per MMSI and it carries that MMSI.", "quantifier": "every reachable state, every payload", "why_tests_cant": "all histories", "anchors": ["src/ais/vdm_t24.rs: handle", "src/lib.rs: push_vsd, pull_vsd"]}
{"id": "C29", "title": "A merged type 24 result is consumed", "statement": "After a type 24 result has been returned nothing is pending for that MMSI, so parsing either part again yields Incomplete.", "quantifier": "every reachable state, every payload", "why_tests_cant": "all states", "anchors": ["src/ais/vdm_t24.rs: handle"]}
{"id": "C30", "title": "A type 24 result combines two consecutive type 24 messages of the MMSI, whatever their part numbers", "statement": "The code pairs type 24 messages of one MMSI two by two; it does not check that one is A and the other B: two A parts give a 'complete' result without any part B data. ('A result always combines one A and one B' is false; it holds if A and B alternate.)", "quantifier": "every pair of type 24 messages of one MMSI", "why_tests_cant": "all pairs", "anchors": ["src/ais/vdm_t24.rs: handle"]}
{"id": "C31", "title": "GSV groups are assembled in any arrival order", "statement": "If the n sentences 1..n of a GSV group (same tag, same count n >= 1) are parsed in any order, each once, interleaved with any sentences of other tags or counts, from a state with none of them pending, then the last one yields Gsv with the satellites of sentence 1, 2, ..., n in this order.", "quantifier": "every n, every permutation, every interleaving, all field contents", "why_tests_cant": "factorially many orders, unbounded n", "anchors": ["src/gnss/gsv.rs: handle"]}
{"id": "C32", "title": "GSV is Incomplete until the group is complete", "statement": "As long as at least one of the sentences 1..n of the group has not been received, each GSV sentence of the group yields Incomplete.", "quantifier": "every history", "why_tests_cant": "all histories", "anchors": ["src/gnss/gsv.rs: handle"]}
{"id": "C33", "title": "A completed GSV group is consumed", "statement": "After a GSV sentence yields Gsv, none of the sentences 1..n of that (tag, count) group is pending.", "quantifier": "every state, every GSV sentence", "why_tests_cant": "all states", "anchors": ["src/gnss/gsv.rs: handle"]}
{"id": "C34", "title": "GSV groups of different talkers or sizes are isolated", "statement": "A GSV sentence reads, stores and removes only pending sentences with the same full tag and the same message count; AIS fragments and GSV sentences never interfere.", "quantifier": "every sentence, every state", "why_tests_cant": "injectivity of the storage key over all tags and numbers", "anchors": ["src/gnss/gsv.rs: make_gsv_key", "src/util.rs: make_fragment_key"]}
{"id": "C35", "title": "The most recent GSV sentence of a given number wins", "statement": "If sentence k of a group is received several times, the content used in the result is that of the last one.", "quantifier": "every history", "why_tests_cant": "unbounded repetitions", "anchors": ["src/gnss/gsv.rs: handle"]}
{"id": "C36", "title": "Out-of-range GSV numbers leave residue", "statement": "A GSV sentence with number 0 or number greater than its count, or with count 0, is stored under a key that no later GSV sentence removes. ('After a group completes nothing of its tag is pending' is false.)", "quantifier": "every such sentence; every later history", "why_tests_cant": "all later histories", "anchors": ["src/gnss/gsv.rs: handle"]}
{"id": "C37", "title": "Shape of a GSV result", "statement": "Gsv results contain at most 4 satellites per sentence of the group, all with the source of the last sentence; a satellite is present exactly when its PRN field parses as an 8-bit number; malformed elevation, azimuth and SNR are None.", "quantifier": "every sentence, every state", "why_tests_cant": "all inputs", "anchors": ["src/gnss/gsv.rs: handle"]}
{"id": "C38", "title": "Payload armoring is inverted exactly", "statement": "For every bit sequence whose length is a multiple of six, decoding its standard six-bit ASCII armoring gives the same bits; conversely each of the 64 payload characters decodes to its own six-bit value.", "quantifier": "every bit sequence of any length", "why_tests_cant": "unbounded length", "anchors": ["src/util.rs: parse_payload"]}
{"id": "C39", "title": "Unsigned bit fields", "statement": "A numeric field of at most 64 bits is the big-endian value of its bits, bits past the end of the payload count as 0, and it is less than 2^length.", "quantifier": "every payload, every start and length <= 64", "why_tests_cant": "all payloads and positions", "anchors": ["src/util.rs: pick_u64"]}
{"id": "C40", "title": "Signed bit fields", "statement": "A signed field of 1..63 bits is the two's complement value of its bits, in [-2^(len-1), 2^(len-1)).", "quantifier": "every payload, start and length", "why_tests_cant": "all payloads and positions", "anchors": ["src/util.rs: pick_i64"]}
{"id": "C41", "title": "Six-bit text fields", "statement": "Decoding the standard six-bit encoding of a text of at most n characters over the AIS alphabet (without '@' and without trailing blanks), padded with '@', gives the text back; every decoded text has at most n characters, contains no '@', and has no trailing blank.", "quantifier": "every text, every payload, every n", "why_tests_cant": "all texts", "anchors": ["src/util.rs: pick_string"]}
{"id": "C42", "title": "Zero padding of a payload is irrelevant", "statement": "Appending any number of '0' characters to the payload of an unfragmented AIS sentence, or of part 2 of a message whose part 1 is pending, changes neither the result nor the pending static data; a truncated payload is read as if followed by zero bits.", "quantifier": "every payload, padding length, talker, state", "why_tests_cant": "all payloads", "anchors": ["src/util.rs: pick_u64, pick_string", "src/lib.rs: NmeaParser::parse_sentence"]}
{"id": "C43", "title": "Bits beyond the message layout are ignored", "statement": "For types 1,2,3,9,18 bits from 168 on, for type 4 from 168, for type 5 from 422, for type 6 from 88, for type 10 from 70, for type 21 from 356, for type 27 from 79, and for type 24 part B from 162, do not influence the result.", "quantifier": "every payload and extension", "why_tests_cant": "all payloads", "anchors": ["src/ais/vdm_t*.rs: handle"]}
{"id": "C44", "title": "Type 1/2/3 round trip", "statement": "Encoding any class A position report in the ITU-R M.1371 layout and parsing the resulting VDM/VDO sentence gives back every field (speed, position, course as the correctly rounded double of the transmitted integer). Exception: the manoeuvre indicator, where value 1 (no special manoeuvre) is reported as Some(true).", "quantifier": "every field value combination, every talker, every state", "why_tests_cant": "the value space is astronomically large", "anchors": ["src/ais/vdm_t1t2t3.rs: handle"]}
{"id": "C45", "title": "Type 4 round trip", "statement": "Encoding any base station report with a valid date and time and parsing it gives back every field.", "quantifier": "every field value combination, every talker, every state", "why_tests_cant": "the value space is astronomically large", "anchors": ["src/ais/vdm_t4.rs: handle"]}
{"id": "C46", "title": "Type 5 round trip", "statement": "Encoding any static and voyage data and parsing it gives back every field except that ais_type is reported as ClassB, and that the ETA seconds are taken from the draught bits.", "quantifier": "every field value combination, every talker, every state", "why_tests_cant": "the value space is astronomically large", "anchors": ["src/ais/vdm_t5.rs: handle"]}
{"id": "C47", "title": "Type 6 round trip", "statement": "Encoding the header of any addressed binary message and parsing it gives back every field.", "quantifier": "every field value combination, every talker, every state", "why_tests_cant": "the value space is astronomically large", "anchors": ["src/ais/vdm_t6.rs: handle"]}
{"id": "C48", "title": "Type 9 round trip", "statement": "Encoding any SAR aircraft report and parsing it gives back every field.", "quantifier": "every field value combination, every talker, every state", "why_tests_cant": "the value space is astronomically large", "anchors": ["src/ais/vdm_t9.rs: handle"]}
{"id": "C49", "title": "Type 10 round trip", "statement": "Encoding any UTC/date inquiry and parsing it gives back both MMSIs.", "quantifier": "every field value combination, every talker, every state", "why_tests_cant": "the value space is astronomically large", "anchors": ["src/ais/vdm_t10.rs: handle"]}
{"id": "C50", "title": "Type 18 round trip", "statement": "Encoding any class B position report and parsing it gives back sender, position, speed, course, heading and time; but the five class B flags are each read one bit too early (class_b_display is the transmitted unit flag, class_b_dsc the display flag, class_b_band_flag the DSC flag, class_b_msg22_flag the band flag, class_b_mode_flag the message 22 flag), raim_flag repeats the unit flag, and radio_status lacks the selector bit.", "quantifier": "every field value combination, every talker, every state", "why_tests_cant": "the value space is astronomically large", "anchors": ["src/ais/vdm_t18.rs: handle"]}
{"id": "C51", "title": "Type 21 round trip", "statement": "Encoding any aid-to-navigation report and parsing it gives back every field except off_position_indicator, which repeats the top bit of the starboard dimension.", "quantifier": "every field value combination, every talker, every state", "why_tests_cant": "the value space is astronomically large", "anchors": ["src/ais/vdm_t21.rs: handle"]}
{"id": "C52", "title": "Type 24 round trip", "statement": "Encoding any part A or part B and parsing it as first part stores, and as second part returns, every field; a 20-character name in part A must be followed by fill bits only, because up to 120 characters are read as name.", "quantifier": "every field value combination, every talker, every state", "why_tests_cant": "the value space is astronomically large", "anchors": ["src/ais/vdm_t24.rs: handle"]}
{"id": "C53", "title": "Type 27 decoding", "statement": "MMSI, accuracy, RAIM and navigation status of an encoded long-range report are returned; latitude is taken from the 18 longitude bits and longitude, speed, course and GNSS flag from the 17 latitude bits, so the round trip of position, speed and course fails.", "quantifier": "every field value combination, every talker, every state", "why_tests_cant": "the value space is astronomically large", "anchors": ["src/ais/vdm_t27.rs: handle"]}
{"id": "C54", "title": "Position availability", "statement": "In AIS results latitude (longitude) is None exactly when the transmitted integer is 91 degrees (181 degrees) in the message's unit, and otherwise is the correctly rounded double of integer/600000; for type 27 it is never None.", "quantifier": "every payload of types 1-4, 9, 18, 21, 27", "why_tests_cant": "2^55 positions", "anchors": ["src/ais/vdm_t*.rs: latitude, longitude"]}
{"id": "C55", "title": "Numeric bounds of decoded positions", "statement": "Decoded AIS latitudes lie in [-111.85, 111.85] and longitudes in [-223.70, 223.70] degrees, except that type 27 latitudes (read from the longitude bits) reach +-218.46; values outside +-90 and +-180 are not filtered ('positions are always on the globe' is false).", "quantifier": "every payload", "why_tests_cant": "2^55 positions", "anchors": ["src/ais/vdm_t*.rs: latitude, longitude"]}
{"id": "C56", "title": "Speed, course and heading availability", "statement": "sog is None exactly for raw 1023, cog exactly for raw 3600, heading exactly for raw 511, otherwise raw*0.1 (rounded) or raw; courses above 360 and headings above 359 are passed through.", "quantifier": "every payload of types 1-3, 9, 18", "why_tests_cant": "all payloads", "anchors": ["src/ais/vdm_t1t2t3.rs", "src/ais/vdm_t18.rs", "src/ais/vdm_t9.rs"]}
{"id": "C57", "title": "Rate of turn", "statement": "rot is present exactly for raw values in [-126,126], has the sign of the raw value, is odd and monotone in it; rot_direction is None exactly for -128 and is -1/0/1 for raw <= -2, -1..1, >= 2; when |rot| is non-zero and direction is non-zero they have the same sign. The documented limit of 708 deg/min is exceeded.", "quantifier": "every payload of types 1-3", "why_tests_cant": "all values of the field in the rounding model", "anchors": ["src/ais/vdm_t1t2t3.rs: rot, rot_direction"]}
{"id": "C58", "title": "Coordinates are decoded without loss", "statement": "Different transmitted latitude (longitude) integers give different doubles, in the same order.", "quantifier": "every pair of payload positions", "why_tests_cant": "2^54 pairs", "anchors": ["src/ais/vdm_t*.rs"]}
{"id": "C59", "title": "Status enumerations", "statement": "Navigation status, position fix type, navigational aid type and positioning-system metadata are decoded according to the ITU tables for every raw value; out-of-table fix types become Undefined.", "quantifier": "every raw byte, every payload", "why_tests_cant": "the mapping from payload bits to the enumeration is over all payloads", "anchors": ["src/ais/mod.rs: NavigationStatus::new, PositionFixType::new", "src/ais/vdm_t21.rs: NavAidType::new"]}
{"id": "C60", "title": "Ship and cargo type", "statement": "The ship type is given by the tens digit (and, in the thirties and fifties, the units digit) and the cargo type by the units digit of the 8-bit code, for every code; codes above 99 are NotAvailable/Undefined. The code reports 80..99 as Cargo, so Tanker and Other are never produced.", "quantifier": "every code, every payload", "why_tests_cant": "all payloads", "anchors": ["src/ais/mod.rs: ShipType::new, CargoType::new"]}
{"id": "C61", "title": "Country lookup", "statement": "country() depends only on mmsi/1000000, is the country the maritime identification digits (all in 201..775) are allocated to by the ITU, except for 445, 660 and 676 (reported as KR, TF, CG instead of KP, RE, CD), and is a two-letter upper-case code; ship MMSIs below 201000000 or from 776000000 on have no country.", "quantifier": "every u32 mmsi", "why_tests_cant": "4 billion values", "anchors": ["src/ais/mod.rs: VesselStaticData::country"]}
{"id": "C62", "title": "Integer fields", "statement": "An integer field is accepted exactly when it is empty (absent) or an optional '+' followed by one or more decimal digits with value within the field's type; the value is the decimal value.", "quantifier": "every field text, every width", "why_tests_cant": "infinitely many texts", "anchors": ["src/util.rs: pick_number_field"]}
{"id": "C63", "title": "Decimal fields", "statement": "A decimal field [+-]digits[.digits][e[+-]digits] is accepted and converted to the double nearest to its exact value (ties to even); texts outside the grammar are refused. Texts such as 'inf' and 'nan' are accepted, so 'numbers are finite' is false.", "quantifier": "every field text", "why_tests_cant": "infinitely many texts", "anchors": ["src/util.rs: pick_number_field"]}
{"id": "C64", "title": "Latitude and longitude texts", "statement": "DDMM.m+ / DDDMM.m+ (longer texts with such a prefix included) is converted to degrees + minutes/60 with absolute error at most (degrees+6)*2^-53, i.e. below 2.1e-14 degrees on the globe and below 1.2e-13 for any three-digit degrees, negated exactly for S / W; an empty text is None; anything else is an error.", "quantifier": "every text and hemisphere text", "why_tests_cant": "infinitely many texts", "anchors": ["src/util.rs: parse_latitude_ddmm_mmm, parse_longitude_dddmm_mmm"]}
{"id": "C65", "title": "GGA contents", "statement": "Formatting any fix (time, position, quality, satellites, dilution, altitude, geoid separation, age, station) as a GGA sentence and parsing it gives back the values; the sentence is refused exactly when a present numeric or position field is malformed (unless its time text makes the call panic, C72).", "quantifier": "every field value", "why_tests_cant": "all values", "anchors": ["src/gnss/gga.rs: handle"]}
{"id": "C66", "title": "RMC contents", "statement": "Same for RMC, with variation negated for W and refused for any other side than E/W; unknown status letters are refused.", "quantifier": "every field value", "why_tests_cant": "all values", "anchors": ["src/gnss/rmc.rs: handle"]}
{"id": "C67", "title": "GSA contents", "statement": "The PRN list is the list of the non-empty fields 3..14 in order, at most 12; refused exactly when mode, fix type, a PRN or a dilution is malformed.", "quantifier": "every sentence", "why_tests_cant": "all sentences", "anchors": ["src/gnss/gsa.rs: handle"]}
{"id": "C68", "title": "VTG is never refused", "statement": "Every $xxVTG sentence yields Vtg; each field is the value of its text or None if the text is malformed or absent; no VTG sentence panics.", "quantifier": "every VTG sentence", "why_tests_cant": "all sentences", "anchors": ["src/gnss/vtg.rs: handle"]}
{"id": "C69", "title": "GLL contents", "statement": "Position, time, validity and FAA mode of a GLL sentence are returned; refused exactly for malformed positions.", "quantifier": "every sentence", "why_tests_cant": "all sentences", "anchors": ["src/gnss/gll.rs: handle"]}
{"id": "C70", "title": "Missing trailing fields count as empty", "statement": "Appending empty fields (commas) to a GGA, RMC, GSA, VTG or GLL body changes nothing.", "quantifier": "every body", "why_tests_cant": "all sentences", "anchors": ["src/util.rs: pick_number_field", "src/gnss/*.rs: handle"]}
{"id": "C71", "title": "Extra trailing fields are ignored", "statement": "Appending arbitrary text after field 14 (GGA), 11 (RMC), 17 (GSA), 9 (VTG), 7 (GLL) changes nothing.", "quantifier": "every body and suffix", "why_tests_cant": "all sentences", "anchors": ["src/gnss/*.rs: handle"]}
{"id": "C72", "title": "Exactly which sentences make parse_sentence panic", "statement": "parse_sentence panics exactly when: the tag is shorter than a talker plus three bytes or cut inside a character; a GGA/GLL time text has fewer than six bytes (with the leading parts numeric), is cut inside a character or is out of range; an RMC date/time is numeric but not a calendar date/time; an AIS payload has a character below '0' (overflow checks on); a type 4 timestamp or a type 5 ETA is not a calendar date/time; a GSV count is 2^32-1 (overflow checks on). ('parse_sentence never panics' is false.)", "quantifier": "every sentence, state, clock, both overflow modes", "why_tests_cant": "panic-freedom outside the listed cases is a claim about every input", "anchors": ["src/lib.rs: NmeaParser::parse_sentence", "src/util.rs: parse_hhmmss, parse_payload, pick_eta, parse_yymmdd_hhmmss"]}
{"id": "C73", "title": "Well-formed sentences do not panic", "statement": "Sentences with a full tag, six-digit valid times, valid dates, payloads over the 64-character alphabet with valid type 4/5 times, and GSV counts below 2^32-1 never panic on a parser that was only given such sentences. In release builds (no overflow checks) only bad tags, GGA/RMC/GLL times and type 4/5 dates can panic, in any state.", "quantifier": "every such sentence, every history", "why_tests_cant": "all inputs and states", "anchors": ["src/lib.rs: NmeaParser::parse_sentence"]}
{"id": "C74", "title": "Returned timestamps are valid", "statement": "Every DateTime in a result is a valid calendar date with hour < 24, minute < 60, second < 60, given a valid clock.", "quantifier": "every sentence, state, clock", "why_tests_cant": "all inputs", "anchors": ["src/util.rs: parse_hhmmss, parse_yymmdd_hhmmss, pick_eta", "src/ais/vdm_t4.rs"]}
{"id": "C75", "title": "GGA and GLL timestamps carry today's date", "statement": "The timestamp of GGA/GLL is the current UTC date with the hour, minute and second of the text.", "quantifier": "every six-digit time and clock", "why_tests_cant": "all times and clocks", "anchors": ["src/util.rs: parse_hhmmss"]}
{"id": "C76", "title": "RMC timestamps use the current century", "statement": "For a DDMMYY date and HHMMSS time the RMC timestamp is that date with YY in the century of the current year, so dates of the previous century are reported up to 100 years late.", "quantifier": "every date, time, clock", "why_tests_cant": "all dates and clocks", "anchors": ["src/util.rs: parse_yymmdd_hhmmss"]}
{"id": "C77", "title": "Type 5 ETA", "statement": "The ETA is always in the current year (a date already passed this year is not moved to next year), its seconds come from the top six draught bits, and the standard 'not available' code yields None only if those bits equal 60 (draught 24.0 to 24.3 m); otherwise it is reported as the end of the current day.", "quantifier": "every payload and clock", "why_tests_cant": "all payloads and clocks", "anchors": ["src/util.rs: pick_eta"]}
{"id": "C78", "title": "Clock independence", "statement": "Apart from the timestamp of GGA, GLL and RMC and the ETA of type 5 (and the panics and errors of their date conversion), no result and no pending data depend on the clock.", "quantifier": "every sentence, state, any two clocks", "why_tests_cant": "all pairs of clocks", "anchors": ["src/lib.rs: NmeaParser::parse_sentence", "src/util.rs: pick_eta, parse_hhmmss, parse_yymmdd_hhmmss"]}
{"id": "C79", "title": "FAA mode letters", "statement": "A, D, E, N are decoded to the mode that Display prints as the same letter; every other text is None (the Simulator mode is never produced).", "quantifier": "every text", "why_tests_cant": "all texts", "anchors": ["src/gnss/mod.rs: FaaMode::new"]}
{"id": "C80", "title": "Pending data come from received sentences", "statement": "Whatever sentences were parsed before: a pending AIS part is the payload of one of them with the same kind, number, message id and channel; a pending GSV sentence is one of them with the same talker, count and number; pending static data are the contents of a type 24 message completed earlier with that MMSI.", "quantifier": "every history of a new parser", "why_tests_cant": "all histories", "anchors": ["src/lib.rs: NmeaParser::parse_sentence", "src/lib.rs: push_string, pull_string, push_vsd, pull_vsd"]}
{"id": "C81", "title": "Completed messages are made of received payloads", "statement": "The payload that a sentence completes is its own (unfragmented) or its own joined in order with the payload of the other part of two, received earlier with the same kind, message id and channel; nothing is invented.", "quantifier": "every history, every sentence", "why_tests_cant": "all histories", "anchors": ["src/lib.rs: NmeaParser::parse_sentence"]}
{"id": "C82", "title": "Display texts identify the value", "statement": "The Display text of a station, AIS class, positioning mode, position fix type, navigation system, GGA quality, GSA fix mode and FAA mode determines the value; no Display text is empty. Two ship types share a text only if both are reserved or both are local, two cargo types only if both are reserved. Two aid-to-navigation reports print the same aid type exactly if they carry the same code or one carries 18 and the other 29 (safe water), or 19 and 30 (special mark): 'the printed aid type identifies the code' is false.", "quantifier": "every pair of values, every pair of delivered type 21 messages", "why_tests_cant": "the claim is about every pair and every payload", "anchors": ["src/ais/mod.rs: Display for Station, AisClass, PositioningSystemMeta, ShipType, CargoType, PositionFixType", "src/ais/vdm_t21.rs: Display for NavAidType", "src/gnss/mod.rs: Display for NavigationSystem, FaaMode", "src/gnss/gga.rs: Display for GgaQualityIndicator", "src/gnss/gsa.rs: Display for GsaFixMode"]}
{"id": "C83", "title": "Position accessors", "statement": "latitude() and longitude() of the LatLon trait return the position transmitted: for AIS types 1-4, 9, 18, 21 as in C54, for GGA, RMC and GLL as in C64; for a binary addressed message (type 6) they are always None.", "quantifier": "every delivered message, every accepted sentence", "why_tests_cant": "all payloads and texts", "anchors": ["src/lib.rs: LatLon", "src/ais/vdm_t6.rs: LatLon for BinaryAddressedMessage"]}
{"id": "C84", "title": "The parser is a machine with a small memory", "statement": "For every history of sentences (with any clocks and both overflow modes) the answers of a new parser are exactly those of an explicit machine that remembers only: for each (VDM/VDO, message id, channel) at most one part of a two-part message; GSV sentences by talker, count and number; for each MMSI at most one type 24 part. The machine answers every sentence that is not an unfragmented AIS message, part 1 or 2 of two, or a GSV sentence as if it were the first one given to a new parser.", "quantifier": "every history of every length", "why_tests_cant": "refinement is a statement about all histories", "anchors": ["src/lib.rs: NmeaParser::parse_sentence", "src/lib.rs: push_string, pull_string, push_vsd, pull_vsd"]}
{"id": "C85", "title": "Nothing but the memory counts", "statement": "Two histories that leave the same memory (in the sense of C84) cannot be told apart by any further sentences; sentences that use no memory can be inserted anywhere without changing any other answer.", "quantifier": "every two histories, every continuation", "why_tests_cant": "all histories", "anchors": ["src/lib.rs: NmeaParser::parse_sentence"]}
{"id": "C86", "title": "AIS and GNSS streams do not interfere", "statement": "When AIS and other sentences are interleaved in any way on one parser, the answers to the AIS sentences are those of a parser given only the AIS sentences, and the answers to the others are those of a parser given only the others.", "quantifier": "every interleaving", "why_tests_cant": "all histories", "anchors": ["src/lib.rs: NmeaParser::parse_sentence"]}
{"id": "C87", "title": "GSV groups do not interfere", "statement": "In any history the GSV sentences of one talker, or of one talker and sentence count, are answered as if they were the only sentences the parser was given.", "quantifier": "every history, talker, count", "why_tests_cant": "all histories", "anchors": ["src/gnss/gsv.rs: handle"]}
{"id": "C88", "title": "Two-part groups do not interfere", "statement": "In any history the two-part AIS sentences of one kind (VDM or VDO), message id and channel, whose first parts do not start a type 24 message, are answered as if they were the only sentences the parser was given. For type 24 this is false: VDM and VDO parts of one MMSI are combined.", "quantifier": "every history, kind, message id, channel", "why_tests_cant": "all histories", "anchors": ["src/lib.rs: NmeaParser::parse_sentence"]}
{"id": "C89", "title": "Error texts", "statement": "Errors identify their cause: for a wrong checksum the correct one and what was found are given, the latter in the spelling of a string literal (a line terminator as \\r\\n; ASCII text without NUL and apostrophe), and they can be read back from the text; a sentence without comma is quoted; an unsupported sentence type is named with its lead character and three-letter kind (ALM, HDT, TRF, STN, VBW, XTC, XTE, ZDA, BOD and RMA as 'Unimplemented', all others as 'Unsupported'); an unsupported AIS message is named by sentence kind and message type number (type 19 always as AIVDM, also in VDO sentences); a type 24 part number above 1 is quoted; a malformed fragment count or number is quoted (both as 'fragment count'); a GNSS sentence of a supported kind (if it does not panic) is refused exactly if a field is malformed, always with InvalidSentence, and the text gives the position or the name of the first malformed field and quotes it.", "quantifier": "every sentence and state", "why_tests_cant": "all sentences", "anchors": ["src/lib.rs: NmeaParser::parse_sentence", "src/error.rs", "src/util.rs: pick_number_field, parse_latitude_ddmm_mmm, parse_longitude_dddmm_mmm", "src/gnss/rmc.rs", "src/gnss/gsa.rs", "src/ais/vdm_t19.rs", "src/ais/vdm_t24.rs"]}
{"id": "C90", "title": "Lost parts of two-part messages", "statement": "If only second parts of the two-part messages of a group (kind, message id, channel; not type 24) are lost, each message whose two parts arrive is reported with its own two payloads. If one first part is lost, every later message of the group is reported wrongly, forever: each part 1 is joined with the part 2 of the message before. ('A message is only reported with the data sent in it' is false.)", "quantifier": "every stream with any losses of second parts, every stream after the loss of a first part, among any other sentences", "why_tests_cant": "concerns streams of any length", "anchors": ["src/lib.rs: NmeaParser::parse_sentence"]}
{"id": "C91", "title": "Lost GSV sentences", "statement": "If sentence k of n of a GSV cycle is lost, every later cycle, though complete, is reported at its sentence k, with the sentences after k taken from the cycle before, forever; the loss of the last sentence is harmless.", "quantifier": "every n, k, number of later cycles, among any other sentences", "why_tests_cant": "concerns streams of any length", "anchors": ["src/gnss/gsv.rs: handle"]}
{"id": "C92", "title": "Vessels' type 24 messages do not interfere", "statement": "In any history in which type 24 is not sent in two-part messages, the type 24 messages of one MMSI are answered as if they were the only sentences the parser was given.", "quantifier": "every history, every MMSI", "why_tests_cant": "all histories", "anchors": ["src/ais/vdm_t24.rs: handle", "src/lib.rs: NmeaParser::parse_sentence"]}
{"id": "C93", "title": "Lost type 24 parts", "statement": "If parts A and B of a vessel arrive alternately, each part B is reported with the part A before it. If one part A is lost, every later part A is reported with the part B sent before it, forever. If one part B is lost, the next part A is reported with nothing but the name, and from then on every part A with the part B before it.", "quantifier": "every stream of any length among any other sentences", "why_tests_cant": "concerns streams of any length", "anchors": ["src/ais/vdm_t24.rs: handle", "src/lib.rs: NmeaParser::parse_sentence"]}
{"id": "C94", "title": "Debug and release builds agree where debug does not panic", "statement": "If a build with overflow checks does not panic on a sentence, a build without them gives the same answer and keeps the same pending data; so for whole histories. They differ only where the checked build panics.", "quantifier": "every sentence, state, history", "why_tests_cant": "two-run property over all inputs", "anchors": ["src/lib.rs: NmeaParser::parse_sentence", "src/util.rs: parse_payload", "src/gnss/gsv.rs: handle"]}
{"id": "C95", "title": "The talker only decides station and source", "statement": "Two AIS sentences that differ in the talker only have the same answer but for the station, and leave the same pending data; two GGA, RMC, GSA, VTG, GLL sentences or GSV streams that differ in the talker only have the same answers but for the source.", "quantifier": "every sentence and state; every pair of GSV streams", "why_tests_cant": "two-run property over all inputs", "anchors": ["src/lib.rs: NmeaParser::parse_sentence", "src/ais/mod.rs: Station", "src/gnss/mod.rs: NavigationSystem"]}
{"id": "C96", "title": "VDM and VDO differ only in the own-vessel flag", "statement": "The same message received as VDM or as VDO (one sentence, or two parts in a new parser) has the same answer but for the own-vessel flag; if the message type is refused, it is refused for both. If VDM and VDO are exchanged in a whole stream of AIS sentences, each answer is the same but for the exchanged flag.", "quantifier": "every payload and state, every stream", "why_tests_cant": "two-run property over all inputs", "anchors": ["src/lib.rs: NmeaParser::parse_sentence"]}
{"id": "C97", "title": "What counts in an AIS sentence", "statement": "Two unfragmented AIS sentences with the same talker, kind and payload have the same answer and effect: fragment number, message id, channel, fill bits, further fields and checksum do not count. Two parts of two with the same talker, kind, part number, id, channel and payload likewise. In general two AIS sentences of the same talker and kind with the same first five fields have the same answer (errors and panics included) and effect.", "quantifier": "every pair of sentences, every state", "why_tests_cant": "two-run property over all inputs", "anchors": ["src/lib.rs: NmeaParser::parse_sentence"]}
{"id": "C98", "title": "Every reported value is within its range", "statement": "Whatever was parsed before, every value of every report lies in its documented kind of range: MMSIs have at most 30 bits; positions, speeds, courses, headings and rates of turn are finite and bounded; texts are upper-case six-bit text without '@' and trailing blanks, of bounded length; dates exist; counts and identifiers fit their width. Only decimals of GNSS sentences can be infinite or NaN, and they can.", "quantifier": "every sentence, every history", "why_tests_cant": "all payloads, texts and histories", "anchors": ["src/lib.rs: NmeaParser::parse_sentence", "src/ais/*.rs: handle", "src/gnss/*.rs: handle"]}
{"id": "C99", "title": "Two-part messages: any losses, repetitions and reorderings", "statement": "Whatever parts of a group (kind, message id, channel; not type 24) are received in whatever order among whatever other sentences: a part that meets its waiting counterpart is answered with the message of the two, every other part replaces what waited. Hence, if every sentence is received twice, every message but the first is also reported with the part 2 of the message before; if two messages overlap (1,1,2,2), one report mixes them.", "quantifier": "every sequence of parts of any length among any other sentences", "why_tests_cant": "concerns streams of any length", "anchors": ["src/lib.rs: NmeaParser::parse_sentence"]}
{"id": "C100", "title": "Type 24: any losses, repetitions and reorderings", "statement": "Whatever type 24 messages of an MMSI are received in whatever order: every second one is answered with the contents of the last two, whatever their part numbers. Hence, if every message is received twice, parts A and B are never combined.", "quantifier": "every sequence of messages of any length among any other sentences", "why_tests_cant": "concerns streams of any length", "anchors": ["src/ais/vdm_t24.rs: handle", "src/lib.rs: NmeaParser::parse_sentence"]}
{"id": "C101", "title": "GSV: any losses, repetitions and reorderings", "statement": "Whatever sentences of a GSV group (talker and count) are received in whatever order: the last one of each number is kept; once all numbers are kept the satellites are reported in order of the numbers, and everything is forgotten. Hence, if every sentence of a group of two or more is received twice, every cycle but the first is reported too early, with the sentences still missing taken from the cycle before; the number of sentences so taken grows by one from cycle to cycle until only the first is new, and only every n - 1 cycles is there a second report, of the cycle itself.", "quantifier": "every sequence of sentences of any length among any other sentences", "why_tests_cant": "concerns streams of any length", "anchors": ["src/gnss/gsv.rs: handle"]}
{"id": "C102", "title": "No sentence is used for two reports", "statement": "There are at most half as many reports as parts of two-part messages of a group, exactly half as many (rounded down) as type 24 messages of a vessel, and at most one report for n GSV sentences of a group of n.", "quantifier": "every stream of any length among any other sentences", "why_tests_cant": "concerns streams of any length", "anchors": ["src/lib.rs: NmeaParser::parse_sentence", "src/gnss/gsv.rs: handle", "src/ais/vdm_t24.rs: handle"]}
{"id": "C103", "title": "The order inside the maps is never observed", "statement": "Two parser states that hold the same pending data under the same keys answer every sentence and every further history alike, however they came about and in whatever order the maps hold their entries; no key is held twice, so the numbers of pending data agree, too.", "quantifier": "every two states, every continuation", "why_tests_cant": "two-run property over all states and histories", "anchors": ["src/lib.rs: NmeaParser::parse_sentence", "src/lib.rs: push_string, pull_string, contains_key, push_vsd, pull_vsd"]}
{"id": "C104", "title": "Equality of reports", "statement": "Two reports compare equal (==) exactly if they are of the same kind and agree in all fields, up to the sign of zeros, and none of their decimals is NaN; AIS reports compare equal exactly if they are the same. 'The same sentence parsed twice gives equal reports' is false: a GNSS sentence with the number 'nan' gives a report that is not equal to itself. 'Equal reports are the same' is false: 0 degrees north equals 0 degrees south.", "quantifier": "every pair of reports, every sentence and history", "why_tests_cant": "all pairs of values, including NaN", "anchors": ["src/lib.rs: ParsedSentence derive(PartialEq)", "src/ais/*.rs, src/gnss/*.rs: derive(PartialEq)"]}
{"id": "C105", "title": "Work per sentence", "statement": "Every sentence but GSV sentences costs at most three accesses to the parser's tables, whatever the parser has seen. A GSV sentence announcing n sentences costs exactly 1 + n accesses while its group is incomplete and 1 + 2n when it completes it, so the work is not bounded by the length of the input: a sentence of nineteen characters can cost more than four thousand million accesses.", "quantifier": "every sentence, every state, every announced count", "why_tests_cant": "tests cannot bound the cost of all sentences", "anchors": ["src/gnss/gsv.rs: handle", "src/lib.rs: NmeaParser::parse_sentence", "src/lib.rs: push_string, pull_string, contains_key, push_vsd, pull_vsd"]}
{"id": "C106", "title": "Pending data are bounded by the groups in the traffic", "statement": "However long the history: there is at most one pending text for each group (VDM/VDO, message id, channel) of two-part messages and each talker, count and number of GSV sentences received, and at most one pending static data part for each MMSI of completed type 24 messages (so never more than 2^30). With message ids 0 to 9, channels A and B, and GSV groups of up to nine sentences, at most 40 + 45 per GNSS talker texts are pending.", "quantifier": "every history of every length", "why_tests_cant": "a bound over all histories", "anchors": ["src/lib.rs: NmeaParser::parse_sentence", "src/lib.rs: strings_count, vsds_count", "src/gnss/gsv.rs: handle"]}
{"id": "C107", "title": "Position texts are those of the regular expressions", "statement": "Under the documented semantics of regular expressions (leftmost match, greedy repetition, numbered groups), the two pattern texts in the code capture degrees and minutes from exactly the texts and with exactly the values that C64 calls position texts: trailing characters are ignored, leading ones are not.", "quantifier": "every text", "why_tests_cant": "the patterns are applied to arbitrary texts", "anchors": ["src/util.rs: parse_latitude_ddmm_mmm, parse_longitude_dddmm_mmm"]}
{"id": "C108", "title": "Numbers are decoded in order and without loss", "statement": "A decimal text of a GNSS sentence that says a number not above another's never gives a greater double; with at most 15 digits and no exponent a greater number gives a greater double, so different numbers stay different (with 17 digits this is false). Positions with minutes below 60 are decoded in order, and with at most 11 decimals of minutes strictly: the position further north or east has the greater value. Transmitted tenths (AIS speeds and courses) are decoded strictly in order and can be recovered from the reported value.", "quantifier": "every pair of texts, every pair of transmitted values", "why_tests_cant": "two-run property over all texts; rounding errors only show for rare inputs", "anchors": ["src/util.rs: pick_number_field, parse_latitude_ddmm_mmm, parse_longitude_dddmm_mmm", "src/ais/vdm_t1t2t3.rs: handle", "src/gnss/gga.rs: handle", "src/gnss/rmc.rs: handle", "src/gnss/gll.rs: handle"]}
{"id": "C109", "title": "Log output", "statement": "What a call hands to the log is determined by the sentence and the pending data: a debug remark exactly if the sentence has no '*', and warnings exactly for a fragment count other than 1 and 2, a part without message id, a part number other than 1 and 2, and for completed messages of types 1-5, 21 and 24 the codes that the code does not know; nothing else, never more than four records. A sentence refused with an error is not warned about, and a sentence answered Incomplete whose data are not kept is. 'Warnings tell a fault' is false: voyage reports of fishing vessels, tugs, sailing boats and pilots are warned about although their ship type is recognised; and a ship type above 99 is warned about twice.", "quantifier": "every sentence and state", "why_tests_cant": "all sentences, states and payloads", "anchors": ["src/lib.rs: NmeaParser::parse_sentence", "src/ais/mod.rs: ShipType::new, CargoType::new, PositionFixType::new", "src/ais/vdm_t1t2t3.rs: handle"]}
{"id": "C110", "title": "Unrelated sentences may come in any order", "statement": "Two neighbouring sentences that do not belong to one group of two-part messages or of GSV sentences and do not both complete a type 24 message of one MMSI may be exchanged: each keeps its answer and no further sentence tells the difference; so for any sequence of such exchanges. Two streams of which no group of two-part messages, no GSV group and no MMSI of type 24 messages (in one sentence or in two parts) is common, merged in any way, are answered each as if it were alone. 'Any two sentences may be exchanged' is false: the report goes with the part that comes last.", "quantifier": "every reachable state, every history, every reordering, every merge of two streams", "why_tests_cant": "two-run property over all histories and interleavings", "anchors": ["src/lib.rs: NmeaParser::parse_sentence", "src/gnss/gsv.rs: handle", "src/ais/vdm_t24.rs: handle"]}
{"id": "C111", "title": "What a report tells about the message", "statement": "Two completed AIS messages of the same type are answered alike exactly if they agree in a stated list of transmitted fields, so each of these fields can be recovered from the report and nothing else can: positions, speeds, courses, headings and turn rates of types 1-3, 4, 9, 18 and 21 without any loss; of the special manoeuvre code only whether it is 1 or 2; of codes above 8 for the fixing device nothing; of class B reports not the mode and RAIM flags and the radio selector; of aids to navigation not the off-position flag; of voyage reports not the talker, the repeat indicator and the DTE flag; of long-range reports neither speed nor course nor GNSS flag.", "quantifier": "every pair of messages of a type, in every state, environment and sentence form", "why_tests_cant": "two-run property over all pairs of payloads", "anchors": ["src/ais/vdm_t1t2t3.rs: handle", "src/ais/vdm_t4.rs: handle", "src/ais/vdm_t5.rs: handle", "src/ais/vdm_t6.rs: handle", "src/ais/vdm_t9.rs: handle", "src/ais/vdm_t10.rs: handle", "src/ais/vdm_t18.rs: handle", "src/ais/vdm_t21.rs: handle", "src/ais/vdm_t24.rs: handle", "src/ais/vdm_t27.rs: handle"]}
{"id": "C112", "title": "The parser after a caught panic", "statement": "If a caller catches a panic and goes on using the parser: it is unchanged, unless the sentence completed a two-part message (then only the other part is no longer pending) or was a GSV sentence announcing 2^32-1 sentences in a build with overflow checks (then only that sentence is pending in addition). So other calls that panicked may be left out of a history. A part given again after its panic is answered Incomplete and waits for another message; a two-part message whose decoding panics leaves no trace.", "quantifier": "every state, every sentence, every continuation", "why_tests_cant": "concerns the state after a failure, for all later histories", "anchors": ["src/lib.rs: NmeaParser::parse_sentence", "src/gnss/gsv.rs: handle"]}
{"id": "C113", "title": "Timestamps and the moment meant", "statement": "A GGA or GLL fix is reported at the moment it was made, shifted by the whole days between that day and the day of the clock; so it is right exactly if received on the day it was made, fixes are then reported in order, and a fix made just before midnight and received just after is reported almost a day in the future (order of fixes reversed). An RMC timestamp is right exactly in the century of the clock. An arrival (voyage report) announced for the next year is reported in the past, and one announced for 29 February panics in every non-leap year (the announced time is compared with the clock in the order of moments, but the comparison has no effect).", "quantifier": "every moment, every clock, every sentence form and state", "why_tests_cant": "depends on the clock: tests run at one moment", "anchors": ["src/util.rs: parse_hhmmss, parse_yymmdd_hhmmss, pick_eta", "src/gnss/gga.rs: handle", "src/gnss/gll.rs: handle", "src/gnss/rmc.rs: handle", "src/ais/vdm_t5.rs: handle"]}
{"id": "C114", "title": "What each value of a report depends on", "statement": "Of two completed AIS messages of one type (not 24) with the same talker and kind, every reported value is the same if the messages agree in the bit fields listed for this value, and the listed values are all there are. So falsified bits or a falsified payload character only change the values whose fields they touch. Likewise for the comma-separated fields of GGA, RMC, GSA, VTG and GLL sentences. 'Each value depends on its own field only' is false: reports that differ in the draught alone have different arrivals.", "quantifier": "every pair of messages of a type, in every state and sentence form; every error burst", "why_tests_cant": "two-run property over all pairs of payloads and all errors", "anchors": ["src/ais/*.rs: handle", "src/gnss/*.rs: handle", "src/util.rs: pick_u64, pick_i64, pick_string, pick_eta"]}
{"id": "C115", "title": "When two receivers of one stream come to agree", "statement": "Two parsers that heard different sentences before and then hear the same stream (each among other sentences of its own): after two successive parts with the same number of a group of two-part messages they answer this group alike; after missing the same sentence of a GSV group in two successive cycles they answer this group alike. For type 24 messages of a vessel (none of them sent in two parts; see C137 for these): either they agree from the second message on, or each message is reported by exactly one of them, forever, so a parser started between part A and part B never agrees with one started before.", "quantifier": "every two reachable states, every stream of every length among any other sentences", "why_tests_cant": "two-run property over all histories and streams of any length", "anchors": ["src/lib.rs: NmeaParser::parse_sentence", "src/gnss/gsv.rs: handle", "src/ais/vdm_t24.rs: handle"]}
{"id": "C116", "title": "What the checksum detects and what it does not", "statement": "A sentence whose body arrives changed is refused as corrupted exactly if the XOR of its bytes after the first character has changed; otherwise it is answered as if it had been sent so. So characters in another order and a falsified first character are never detected, and two falsified characters exactly if they are not falsified in the same bits. A sentence that is cut off is refused as corrupted only if it is cut between the two checksum digits; cut anywhere before, it is taken for a sentence without checksum.", "quantifier": "every sentence, every change of the body, every pair of characters, every place of the cut, every state", "why_tests_cant": "all error patterns and all sentences", "anchors": ["src/lib.rs: NmeaParser::parse_sentence"]}
{"id": "C117", "title": "Sentences and messages that are cut off", "statement": "An AIS sentence cut off within its payload is answered as if the missing payload characters were '0'; so is the second part of a two-part message, but a first part that is cut off shifts what follows. 'A message that ends before the position is reported without position' is false: it is reported at latitude 0, longitude 0. Of a GGA, RMC, GSA, VTG or GLL sentence cut off within a field all values made of the fields before are those of the whole sentence. 'A sentence that is cut off never gives a wrong value' is false.", "quantifier": "every sentence and every place of the cut, every state", "why_tests_cant": "all sentences and places", "anchors": ["src/lib.rs: NmeaParser::parse_sentence", "src/util.rs: pick_u64, pick_i64, parse_payload", "src/gnss/*.rs: handle"]}
{"id": "C118", "title": "Printed texts by transmitted code", "statement": "The text printed (to_string) for the ship type, cargo type and fixing device of voyage reports, class B reports (type 24, parts in either order) and base station reports, the aid type and fixing device of aid-to-navigation reports, class and positioning state of class A reports, the station of every AIS report, the navigation system of every GNSS report, the quality of GGA and the fix type of GSA reports is a stated function of the transmitted code, letter or talker id.", "quantifier": "every sentence, message, code and state", "why_tests_cant": "all payloads and states", "anchors": ["src/ais/mod.rs: Display for Station, AisClass, PositioningSystemMeta, ShipType, CargoType, PositionFixType", "src/ais/vdm_t21.rs: Display for NavAidType", "src/gnss/mod.rs: Display for NavigationSystem", "src/gnss/gga.rs: Display for GgaQualityIndicator", "src/gnss/gsa.rs: Display for GsaFixMode"]}
{"id": "C119", "title": "What a GNSS report tells about the sentence", "statement": "Two accepted GGA (RMC, GSA, VTG, GLL) sentences received at the same time, with numbers of at most 15 digits and positions with minutes below 60 and at most 11 decimals, are answered with the same report exactly if they mean the same: the same navigation system, and field by field the same time, date, letters, integers, and the same sign and exact magnitude of every number and position. So these are recovered without loss, and nothing else (leading and trailing zeros, decimals of seconds, place of a satellite among the twelve, which codes above 8 or absence of a code for the quality) is told. 'Sentences that say the same place give the same position' is false if minutes run over 60.", "quantifier": "every pair of sentences of a kind, in every state, talker and sentence form", "why_tests_cant": "two-run property over all pairs of texts; rounding coincidences only show for rare inputs", "anchors": ["src/gnss/gga.rs: handle", "src/gnss/rmc.rs: handle", "src/gnss/gsa.rs: handle", "src/gnss/vtg.rs: handle", "src/gnss/gll.rs: handle", "src/util.rs: pick_number_field, parse_latitude_ddmm_mmm, parse_longitude_dddmm_mmm, parse_hhmmss, parse_yymmdd_hhmmss"]}
{"id": "C120", "title": "A link without losses", "statement": "If every message arrives completely (two-part messages with their parts in either order, static data reports with part A and part B in either order, GSV groups in any order, all other messages in one sentence), and of the messages in transit at any time no two share their group (VDM/VDO, message id and channel; MMSI; talker and count), then, however many messages are in transit at once, each one is reported exactly once, with its last sentence, and every other sentence is answered Incomplete; afterwards the parser answers like a new one. Messages sent one after another are reported in the order in which they were sent.", "quantifier": "every list of messages, every interleaving of their sentences", "why_tests_cant": "all interleavings of any number of messages", "anchors": ["src/lib.rs: NmeaParser::parse_sentence", "src/gnss/gsv.rs: handle", "src/ais/vdm_t24.rs: handle"]}
{"id": "C121", "title": "Any message is answered like a well-formed one", "statement": "Whatever the bits of a completed AIS message of a reported type (cut short, with anything after the end of a text, with spare bits set, followed by anything), there is a well-formed message of the same type and MMSI, with every value in its range, that is answered alike and leaves the same static data pending; for an unfragmented message the calls do not differ at all. So the decoding theorems about well-formed messages cover all messages. (Type 24: part A only if the name, as it is read, has no more than the 20 characters of the standard.)", "quantifier": "every payload, state, talker, one sentence or two parts", "why_tests_cant": "all payloads of any length", "anchors": ["src/ais/*.rs: handle", "src/util.rs: pick_u64, pick_i64, pick_string, parse_payload"]}
{"id": "C122", "title": "From transmitter to report", "statement": "Whatever AIS messages (position, base station, voyage, addressed, aircraft, inquiry, class B, aid to navigation and long-range reports, and static data reports of parts A and B) are transmitted one after another and packed into sentences as a receiver does it (payload armoured, one sentence up to 60 payload characters and two parts above, message id, channel, fill bits, checksum), the answers of a new parser other than Incomplete are, one for each broadcast and in order, what the broadcast says: every value as transmitted, in the unit and rounding of the report (with the stated deviations of the code). The answer is determined by the broadcast. Conversely every completed message of a supported type other than 24 is reported as a message that can be transmitted.", "quantifier": "every list of broadcasts of every length, with any contents in range, talkers, message ids, channels and clocks", "why_tests_cant": "all message contents and all sequences of messages", "anchors": ["src/lib.rs: NmeaParser::parse_sentence", "src/ais/*.rs: handle", "src/util.rs: parse_payload, pick_u64, pick_i64, pick_string, pick_eta"]}
{"id": "C123", "title": "Default values of the public types", "statement": "No received report compares equal to the default value of a position report, static data report, base station report or aid-to-navigation report, whatever was received before: a received one has a class, a time or a fixing device. 'A report equal to the default value was not received' is false for search-and-rescue aircraft, inquiries and addressed messages: there are sentences answered with exactly these. The default navigation status, ship type, cargo type and aid type are what is decoded for exactly the codes stated. Every value of a default report is as stated: flags false, numbers 0, texts empty, all else absent. A default report has no position and no country, and equals itself, and prints as 'unknown', '(not available)', 'undefined', 'not specified' and 'other'.", "quantifier": "every reachable state and every sentence; every code", "why_tests_cant": "quantifies over everything ever received", "anchors": ["src/ais/mod.rs: Default for Station, AisClass, NavigationStatus, ShipType, CargoType, VesselDynamicData, VesselStaticData", "src/ais/vdm_t21.rs: Default for NavAidType, AidToNavigationReport", "src/ais/vdm_t4.rs: BaseStationReport", "src/ais/vdm_t6.rs: BinaryAddressedMessage", "src/ais/vdm_t9.rs: StandardSarAircraftPositionReport", "src/ais/vdm_t10.rs: UtcDateInquiry"]}
{"id": "C124", "title": "The traffic on a ship's data link", "statement": "A new parser on a data link with AIS broadcasts, readings of GNSS receivers (GGA, RMC, GSA, VTG, GLL) and satellites in view (GSV groups of any number of sentences), all formatted as the devices do it and the sentences of different sources mixed in any way, but so that no two sources occupy the same slot (kind, message id and channel of a two-part message; MMSI of a static data report; talker and count of a GSV group) at the same time: the answers other than Incomplete are, one for each source and in the order in which the sources come to an end, what the source says: every value as sent, in the unit and rounding of the report. Afterwards the parser answers like a new one. Each source says exactly one thing (also as doubles), so the answers are determined by what is sent: two mixtures of the same sources give the same reports, in another order only if the sources end in another order.", "quantifier": "every number of sources, every contents in range, every interleaving of their sentences", "why_tests_cant": "all contents and all interleavings", "anchors": ["src/lib.rs: NmeaParser::parse_sentence", "src/ais/*.rs: handle", "src/gnss/*.rs: handle", "src/util.rs"]}
{"id": "C125", "title": "Losses and noise on the link do not spread", "statement": "On the data link of C124 sentences may get lost, and sentences may be heard that are damaged (wrong checksum: in particular one wrong character), without comma, of an unsupported kind or with an AIS message of an unsupported type. The answers other than errors and Incomplete are still, in the order of the last sentences, what the sources say that arrive completely, and nothing else. After a loss the slot of the source (kind, message id and channel; MMSI; talker and count) may be used again if only the last sentences were lost and they were not static data reports (after other losses it may not: C90, C91, C93). Nothing is invented: the reports heard are among those heard on a link without losses on which the sources that arrive here, and any others, are sent.", "quantifier": "every number of sources, every contents in range, every interleaving, every set of lost sentences, any noise anywhere, any clocks", "why_tests_cant": "all contents, interleavings and losses", "anchors": ["src/lib.rs: NmeaParser::parse_sentence", "src/ais/*.rs: handle", "src/gnss/*.rs: handle", "src/util.rs"]}
{"id": "C126", "title": "No history spoils a parser for good", "statement": "What a parser still keeps from earlier sentences matters for what it answers later exactly when it can be completed: a part of a two-part AIS message, a GSV sentence with a number from 1 to the count of its group (below the largest count), or a part of type 24. A parser in which nothing of that kind is pending answers everything that can follow like a new parser; one in which something is pending can be told from a new one by some sentences. After every history there is a finite list of sentences after which the parser answers everything like a new one. This list depends on the history: no fixed list of sentences does it for every history.", "quantifier": "all histories (also with panics caught), all pending data, all environments, all continuations", "why_tests_cant": "Tests try one left-over state and one continuation; that something never matters is a statement about all continuations, and that recovery is always possible one about all histories.", "anchors": ["src/lib.rs: NmeaParser::parse_sentence", "src/lib.rs: NmeaParser::push_string", "src/lib.rs: NmeaParser::pull_string", "src/lib.rs: NmeaParser::push_vsd", "src/lib.rs: NmeaParser::pull_vsd", "src/gnss/gsv.rs: handle"]}
{"id": "C127", "title": "Dividing the work among several parsers", "statement": "If the sentences of a stream are divided among several new parsers in such a way that two sentences that go to different parsers never belong to one group of two-part messages or of GSV sentences and that the shares of different parsers never bring type 24 messages (in one sentence or in two parts) of one MMSI, each sentence is answered by its parser exactly as by a single parser that receives the whole stream. In whatever order the sentences for different parsers come, the single parser answers everything that follows alike. Dividing without regard to groups is wrong: two parsers that each get one part of a message report nothing.", "quantifier": "every stream of any length, every division among any number of parsers", "why_tests_cant": "all streams and all divisions; the state of several parsers is compared with that of one", "anchors": ["src/lib.rs: NmeaParser::parse_sentence", "src/lib.rs: NmeaParser::new", "src/lib.rs: NmeaParser::push_string", "src/lib.rs: NmeaParser::pull_string"]}
{"id": "C128", "title": "Exactly which values are reported", "statement": "An AIS report can be received exactly if it tells a message that can be transmitted, or what two type 24 parts of one MMSI say together. Value by value: the identification numbers, headings, seconds, radio states, dimensions, draughts, IMO numbers, altitudes, signal qualities and other integers of AIS and GNSS reports, the texts, the latitudes, longitudes, speeds, courses and turn rates of ships (as doubles) and the times of base stations that are ever reported are exactly those of the stated sets: every value of the set is reported for some sentences and no other value ever is. The dilutions, altitude, geoid separation and age of GGA, the speed, bearing and variation of RMC, the dilutions of GSA and the courses and speeds of VTG can be any binary64 numbers, in any combination (infinities, 'not a number' and negative zero included), and nothing else. The limits in the documentation are not kept: headings of 360 to 510 degrees, IMO numbers above 999999999, a draught of 0, elevations above 90, azimuths above 359, signal-to-noise ratios above 99, reference stations above 4095 and names of up to 120 characters are reported.", "quantifier": "every value and every report; all histories of a new parser", "why_tests_cant": "that a value is never reported is a statement about all histories; the exact set needs both directions for every value", "anchors": ["src/ais/mod.rs: VesselDynamicData, VesselStaticData", "src/ais/*.rs: handle", "src/gnss/*.rs: handle", "src/util.rs: pick_number_field, pick_u64, pick_i64, pick_string"]}
{"id": "C129", "title": "Several sentences in one call", "statement": "Sentences with checksums given in one call, with anything between them, are refused as corrupted (and change nothing) exactly if the XOR of what stands before the last sentence (first character of the first one not counted, first character of the last one counted) is not 0; otherwise they are taken for one sentence. So two sentences separated by CR LF are refused unless the second starts with '!' and the first has checksum 7A or 7E; separated by LF always; with nothing between them unless the second starts with '$' and the first has checksum 7B, 7D or 7F. 'Several sentences in one call are refused' is false, and worse: if they are not refused and the first is an AIS sentence with fill-bit field (or a GNSS sentence with a field after the used ones), the answer and effect are those of the first alone and the others are lost without notice. Three sentences of which the first two have the same checksum are never refused if the second and third begin with the same character.", "quantifier": "every list of sentences, every separator, every state", "why_tests_cant": "accepted cases need particular checksums (2 or 3 of 256); for all texts", "anchors": ["src/lib.rs: NmeaParser::parse_sentence"]}
{"id": "C130", "title": "Line terminators of sentences without checksum", "statement": "A line terminator (CR LF, LF or CR) is not stripped: after a checksum it makes the sentence corrupted (C06), and in a sentence without checksum it becomes part of the last field. 'The line terminator makes no difference' holds for AIS sentences with a field after the payload and GNSS sentences that end in a field that is not used (RMC with mode), for VTG sentences with eight fields and for RMC without variation; it is false otherwise: a GGA sentence with all 14 fields, a GSA sentence with all 17 (even if the last field is empty) or an RMC sentence that ends in the side of its variation is not accepted; from a VTG sentence the FAA mode is lost without notice, from a GLL sentence the FAA mode or the status, from a GSV sentence the last signal strength; a sentence that ends in the hemisphere gets a coordinate that is never west or south; an unfragmented AIS sentence that ends in the payload makes a debug build panic.", "quantifier": "every sentence, state and clock, each of the three terminators", "why_tests_cant": "one statement for all contents of all sentence kinds", "anchors": ["src/lib.rs: NmeaParser::parse_sentence", "src/gnss/*.rs: handle", "src/util.rs: pick_number_field, parse_payload"]}
{"id": "C131", "title": "Text before the start character", "statement": "A text that does not begin with '$' or '!' is never accepted and changes nothing: it is refused as corrupted if its checksum is wrong, otherwise as invalid if there is no comma, otherwise as unsupported, except that it panics if its first character is a comma or not ASCII (a byte order mark). A sentence with checksum and one character before it is always refused as corrupted; with more text before it (a TAG block) it is refused as corrupted exactly if the XOR of that text without its first character and of the start character is not 0.", "quantifier": "every text, state and clock", "why_tests_cant": "all texts", "anchors": ["src/lib.rs: NmeaParser::parse_sentence"]}
{"id": "C132", "title": "One falsified, lost or added character", "statement": "Take a sentence with its checksum, all characters being single bytes without the highest bit and not NUL. If one character is falsified, lost or added, it is refused as corrupted unless the first character is falsified, the '*' is falsified or lost, or the last character becomes (or is followed by) a '*'. If the last field is not used (an AIS sentence with its fill bits, for instance), then in all cases the damaged sentence is either refused without effect or answered exactly as the undamaged one; so a stream of such sentences with at most one error each gives the reports and the pending data of the stream without some of them. 'One falsified character in a sentence with checksum never gives a wrong value' is false where the last field is used: the checksum of a GGA sentence whose '*' is lost is reported as reference station, and a dilution of precision of 2.1 becomes 2.1e39.", "quantifier": "every sentence, every place and kind of the error, every state and clock, streams of any length", "why_tests_cant": "all places of all sentences in all states", "anchors": ["src/lib.rs: NmeaParser::parse_sentence", "src/gnss/gga.rs: handle", "src/gnss/gsa.rs: handle"]}
{"id": "C133", "title": "A receiver that has no position yet", "statement": "The sentences of a GNSS receiver that was just switched on are answered in every state as follows: GGA without time, and GLL without position and time, make parse_sentence panic, whatever their other fields; RMC, GSA, VTG and GSV with empty fields give a report without values. But for GSV the parser is left as it was. ('A receiver without a fix does no harm' is false: a program that does not catch panics ends at its first GGA.) Once the receiver knows the time, GGA without position gives a report without position.", "quantifier": "every such sentence, talker, state and clock; every stream of them", "why_tests_cant": "the sentences of a cold start are seldom among the samples, and the claim is about all states", "anchors": ["src/util.rs: parse_hhmmss, parse_yymmdd_hhmmss", "src/gnss/gga.rs: handle", "src/gnss/gll.rs: handle", "src/gnss/rmc.rs: handle"]}
{"id": "C134", "title": "Messages in which nothing is available", "statement": "AIS messages whose fields all have the value that the standard defines as 'not available' are answered, in every state, as follows. Class A, class B and aircraft reports: a report with sender, flags and second 60, and no other value. A base station report of which the month, day, hour, minute or second is not available: parse_sentence panics, whatever the station's position. Static and voyage data: a report without IMO number, names and destination, but with dimensions and draught 0 and with the end of the current day as time of arrival. Aids to navigation: dimensions 0 and fixing device Undefined. Static data parts A and B: an empty vendor, model, serial number, dimensions and mothership MMSI 0. A long-range report: latitude 181, longitude 91, speed 26 knots, course 5460 degrees, position current. ('A message without information gives a report without information' is false for these.)", "quantifier": "every sender, state, talker, clock, and every value of the bits that carry no information", "why_tests_cant": "for all senders and states; samples of such messages are rare among recorded traffic", "anchors": ["src/ais/vdm_t1t2t3.rs: handle", "src/ais/vdm_t4.rs: handle", "src/ais/vdm_t5.rs: handle", "src/ais/vdm_t9.rs: handle", "src/ais/vdm_t18.rs: handle", "src/ais/vdm_t21.rs: handle", "src/ais/vdm_t24.rs: handle", "src/ais/vdm_t27.rs: handle", "src/util.rs: pick_eta"]}
{"id": "C135", "title": "Exactly which sentences are refused, and what the error tells", "statement": "Every call is answered with UnsupportedSentenceType, InvalidSentence or CorruptedSentence exactly for the reasons of a stated list, each with its text (for CorruptedSentence see C02 and C89): another sentence kind or tag, another message type, an AIS sentence that ends after the fragment count; no comma, the first unreadable field of a GNSS sentence whose time can be read, an unreadable fragment count or number, a part number above 1. All other sentences are accepted or make the call panic for the reasons of C72, so the three lists divide all sentences. Every error text begins with one of sixteen phrases, and the text (to_string) alone identifies the error with its kind: no two different errors have the same text; a text that begins with 'Un' is UnsupportedSentenceType, one with 'Co' is CorruptedSentence, every other InvalidSentence.", "quantifier": "every sentence, every reachable state, every clock and build; every pair of errors", "why_tests_cant": "both directions for all sentences and states; texts of errors quote the input, so only a proof excludes that two coincide", "anchors": ["src/lib.rs: NmeaParser::parse_sentence", "src/error.rs: ParseError, ToString, From<String>", "src/util.rs: pick_number_field, parse_latitude_ddmm_mmm, parse_longitude_dddmm_mmm", "src/gnss/*.rs: handle", "src/ais/vdm_t24.rs: handle", "src/ais/vdm_t19.rs: handle"]}
{"id": "C136", "title": "Exactly which sentences wait for others, and which are answered with a report", "statement": "parse_sentence returns Incomplete exactly for: one of the two parts of a message whose other part is not pending; a part of a message that is not assembled (see C22); a sentence that ends after a fragment count other than 1; a complete type 24 part A or B of a vessel of which no part is pending; a GSV sentence of a group of which another one is not pending; and the biggest GSV group size without overflow checks. It returns an AIS report of a kind exactly when the sentence completes a readable message of one of the types of that kind whose timestamp is valid (type 24: with another part pending); Gsv exactly when all other sentences of the group are pending; Gga, Rmc, Gsa, Vtg or Gll exactly when time and all fields can be read. Together with C02, C72 and C135 this covers every sentence.", "quantifier": "every reachable state, sentence, clock, both overflow modes", "why_tests_cant": "the negative half (no other sentence is answered so) is about all sentences in all states that some history leads to", "anchors": ["src/lib.rs: NmeaParser::parse_sentence", "src/lib.rs: NmeaParser::push_string, pull_string, push_vsd, pull_vsd", "src/gnss/gsv.rs: handle", "src/gnss/*.rs: handle", "src/ais/vdm_t24.rs: handle"]}
{"id": "C137", "title": "Type 24 messages of a vessel come in pairs, however they are sent", "statement": "In every history each type 24 message (part A or B) that is completed for an MMSI, whether in one sentence or in two parts, is answered as follows, whatever else is received in between: if one of the MMSI is pending, with the two together, otherwise with Incomplete. So exactly every second one gives a report. If parts A and B are heard in turn by a new parser each part B is answered with the report of the two; if the first part A is lost, each part A with the report of it and the part B before, forever. Two receivers of the same messages of the vessel, whatever else each of them hears or has heard, either agree from the second message on or each message is reported by exactly one of them, forever.", "quantifier": "every reachable state, every history of any length, every MMSI, every mixture of one-sentence and two-part messages", "why_tests_cant": "concerns streams of any length, with all interleavings of the parts of messages of all vessels", "anchors": ["src/ais/vdm_t24.rs: handle", "src/lib.rs: NmeaParser::parse_sentence", "src/lib.rs: NmeaParser::push_vsd", "src/lib.rs: NmeaParser::pull_vsd"]}
{"id": "C138", "title": "Values printed with a fixed number of decimals", "statement": "A program that prints reported values with {:.k} shows what was sent. AIS: speed and course with one decimal, heading with none, are exactly the transmitted tenths and degrees; latitude and longitude with up to seven decimals are the transmitted position (1/10000 minutes) to the nearest. GNSS: a number of up to fifteen digits, printed with as many decimals as it was sent with, has the text that was sent (with a minus sign for variations to the west); positions with k decimals are the sent position to the nearest, if the minutes were sent with at most 11 - k decimals. With more decimals this ends: the speed 0.3 is printed with seventeen decimals as 0.30000000000000004 because the reported number is not the double next to 0.3.", "quantifier": "every message, reading, state, clock; every number of decimals in the range", "why_tests_cant": "the rounding errors of the conversions must not reach the printed decimals for any of the values", "anchors": ["README.md", "src/ais/vdm_t1t2t3.rs: handle", "src/ais/vdm_t4.rs: handle", "src/ais/vdm_t9.rs: handle", "src/ais/vdm_t18.rs: handle", "src/ais/vdm_t21.rs: handle", "src/util.rs: parse_latitude_ddmm_mmm, parse_longitude_dddmm_mmm, pick_number_field", "src/gnss/*.rs: handle"]}
{"id": "C139", "title": "Values printed with {}", "statement": "A decimal number of a GNSS sentence with up to fifteen digits, printed with {} (Rust's shortest representation), is printed as it was sent, without zeros at the end of its decimals; the heading of a vessel is printed as the integer that was sent. AIS speeds and courses are printed as they were sent if the reported double is the one next to what was sent, and otherwise with at least sixteen digits; this is so for 361 of the 1023 speeds of class A vessels: a speed of 0.3 knots is printed as 0.30000000000000004. Words in place of a speed (inf, infinity, nan in any case, with or without sign) are shown as inf, -inf or NaN.", "quantifier": "every message, reading, state and clock; every number of up to fifteen digits", "why_tests_cant": "that no other decimal number of so few digits is read as the same double is a claim about all of them", "anchors": ["README.md", "src/util.rs: pick_number_field", "src/gnss/*.rs: handle", "src/ais/vdm_t1t2t3.rs: handle", "src/ais/vdm_t18.rs: handle"]}
{"id": "C140", "title": "The sample program of the README", "statement": "The program of the README gets to the end of a stream exactly if every sentence is accepted and every vessel's speed and heading, vessel's country and name, GGA's position, and RMC's speed, bearing and time are reported; it returns the error of the first refused sentence, and panics at the first sentence that panics or lacks such a value, having printed the lines before. For position reports it prints the MMSI, the transmitted speed in tenths and the heading as sent, or panics after the lines before if one is not available (so at every long-range report); for static data the MMSI, the country of its digits, name and ship type; for GGA and RMC the system of the talker, position or speed to the nearest, the bearing as sent and the time. With the three sentences given in the README it prints the lines given in the README, whatever the clock shows.", "quantifier": "every stream of sentences of any length, every state, clock, message and reading", "why_tests_cant": "all streams; rounding of all values", "anchors": ["README.md", "src/lib.rs: NmeaParser::parse_sentence", "src/ais/mod.rs: VesselStaticData::country, Display for ShipType", "src/gnss/mod.rs: Display for NavigationSystem"]}
{"id": "C141", "title": "The whole parser, specified", "statement": "There is a specification of parse_sentence which mentions no function of the code: for every sentence and everything that can be remembered of earlier ones (a part of a message by kind, message id and channel; GSV sentences by talker, count and number; a type 24 part by MMSI) it says the answer - report with its values, Incomplete, error with its text, or panic - and what is remembered afterwards. Every history has an answer by it, and the answers of a new parser to every history are those of the specification and no others.", "quantifier": "every history of sentences of any length, every text, every clock, both overflow modes", "why_tests_cant": "it is an equivalence of a program and a specification over all histories", "anchors": ["src/lib.rs: NmeaParser::parse_sentence", "src/lib.rs: NmeaParser", "src/ais/*.rs: handle", "src/gnss/*.rs: handle", "src/util.rs"]}
{"id": "C142", "title": "The script that generated the country table", "statement": "mid-to-iso3166.py prints, for any two tables whose lines have the right form, one match arm for each line of the table of digits, in order, with the code of the last line of the country table that has the name; an arm with the digits of the line before is commented out. (For other tables: lines of the first one that have another form are passed over, lines of the second one are complained of unless empty, and the first name that is not found ends the output. Before that, texts in the tables are replaced from left to right, and what stands in brackets is removed.) If equal digits stand next to each other, each digits get exactly one arm that is not commented out, so no arm is unreachable. With the tables in it, it prints exactly the lines found in country(), and country() returns a code exactly if the script prints such an arm. The three wrong countries (C61) come from the fixes of names: whatever country table is used, in whatever order, North Korea gets the code of South Korea, the Democratic Republic of the Congo that of Congo, Reunion that of the French Southern Territories; Korea and Congo are the only names with two codes.", "quantifier": "every pair of tables; every MMSI", "why_tests_cant": "concerns the script on all tables, and the whole of the generated text", "anchors": ["mid-to-iso3166.py", "src/ais/mod.rs: VesselStaticData::country"]}
{"id": "C143", "title": "The Debug text identifies the answer", "statement": "Two answers (reports with all their fields, also the one that is not public, or errors with their texts) have the same {:?} text exactly if they are equal, whatever sentences they answer. (Assumed of the standard library: the text of a double reads back as this double, and characters in strings are escaped in the documented ways.)", "quantifier": "every two answers to every two histories of sentences", "why_tests_cant": "injectivity over all reports: strings can contain quotation marks, commas and texts that look like fields", "anchors": ["src/lib.rs: NmeaParser::parse_sentence", "src/lib.rs: ParsedSentence", "src/error.rs: ParseError", "src/ais/*.rs", "src/gnss/*.rs"]}
{"id": "C144", "title": "A logged answer stays on one line", "statement": "The {:?} text of any answer contains no control character and no line or paragraph separator, whatever the sentences contained. For to_string() of an error this is false: the text of a sentence without a comma is quoted as it is, so it breaks the line exactly if the sentence does.", "quantifier": "every answer to every history of sentences of any text", "why_tests_cant": "all texts, in all places where texts of a sentence get into an answer", "anchors": ["src/lib.rs: NmeaParser::parse_sentence", "src/lib.rs: ParsedSentence", "src/error.rs: ParseError", "src/ais/*.rs", "src/gnss/*.rs"]}
{"id": "C145", "title": "Reassembly is a stage of its own", "statement": "Put the two-part messages of a history together first: a part whose other part is missing waits (in place of an earlier copy of itself), the two parts of a message become one sentence in the place of the later one, with its talker, and all other sentences are passed on. A new parser answers the history as another new parser answers what comes out, and Incomplete at the parts that wait. This holds for all messages, also of type 24, for errors and for panics. What comes out contains no parts any more, and what comes out at the sentences of one kind, id and channel depends on these sentences only.", "quantifier": "every history of sentences of any text, on both kinds of builds", "why_tests_cant": "all interleavings of parts of all groups with all other sentences", "anchors": ["src/lib.rs: NmeaParser::parse_sentence", "src/lib.rs: NmeaParser::push_string, pull_string, contains_key", "src/util.rs: make_fragment_key"]}
{"id": "C146", "title": "GSV sentences with a signal id (NMEA 4.10)", "statement": "Since NMEA 4.10 a GSV sentence ends with one more field, the signal id. A group of such sentences, sent in order while nothing of the group is pending, is answered with Incomplete until the last one, and this with the satellites sent and, after those of each sentence with fewer than four satellites, one more satellite that was not sent: its number is the signal id, the other values are absent. The report is exactly what was sent if and only if the signal id is not a number up to 255 or every sentence has four satellites.", "quantifier": "every talker, all satellites with values in range, any number of sentences below 2^32-1, any signal id text without comma, every parser state without pending sentences of the group", "why_tests_cant": "all groups, numbers of satellites and signal ids; the tests have no sentence with a signal id", "anchors": ["src/gnss/gsv.rs: handle", "src/lib.rs: NmeaParser::parse_sentence"]}
{"id": "C147", "title": "GSV groups of several signals (NMEA 4.10)", "statement": "A receiver sends one GSV group for each signal of a system; the parser does not look at the signal id. Groups of the same number of sentences, of whatever signals, received in full one after another are each reported with their last sentence, with their own satellites only (and the one of C146). But after the loss of sentence k of one group each later group is reported at its sentence k, with the rows after k of the group before, which is one of another signal if the signals take turns; so the claim that each report has the satellites of one signal is false. If the sentences of two signals alternate, number by number, every report has one sentence of the first signal and all others of the second.", "quantifier": "every talker, any number of groups and of sentences below 2^32-1, any satellites and signal ids, any other sentences in between", "why_tests_cant": "all sequences of groups and positions of the lost sentence; the tests have no sentence with a signal id", "anchors": ["src/gnss/gsv.rs: handle", "src/lib.rs: NmeaParser::parse_sentence"]}
{"id": "C148", "title": "Proprietary sentences", "statement": "Sentences of a manufacturer begin with $P, the three letters of the manufacturer and a message id of its choice. If the id is empty (u-blox $PUBX, Trimble $PTNL) the call panics. If the last two letters of the manufacturer and the id together are one of GGA, RMC, GSA, GSV, VTG and GLL, the sentence is taken for a standard one of a talker without known system: Garmin's $PGRMC is answered exactly as the RMC sentence with the same fields is, but for the source. All others, and only these, are refused as unsupported, and nothing changes. So the claim that proprietary sentences are refused as unsupported is false.", "quantifier": "every manufacturer (three capital letters), message id (any text), list of fields, ending, parser state, clock and build", "why_tests_cant": "all manufacturers and message ids; the tests have no proprietary sentence", "anchors": ["src/lib.rs: NmeaParser::parse_sentence"]}
{"id": "C149", "title": "Times that are on no clock: the leap second", "statement": "A GGA sentence whose time begins with six digits makes the call panic exactly if these are not an hour up to 23, a minute up to 59 and a second up to 59; a GLL sentence exactly if, besides, its position can be read; an RMC sentence with a date of six digits exactly if date and time are not a moment of the current century. So in a leap second (23:59:60, which receivers do send) every GGA sentence, every GLL sentence with a readable position and every RMC sentence with a date makes the call panic.", "quantifier": "every talker, all other fields, anything after the digits, every parser state, valid clock and build", "why_tests_cant": "all times of six digits and all other fields; the tests have no such time", "anchors": ["src/util.rs: parse_hhmmss, parse_yymmdd_hhmmss", "src/gnss/gga.rs: handle", "src/gnss/gll.rs: handle", "src/gnss/rmc.rs: handle", "src/lib.rs: NmeaParser::parse_sentence"]}
{"id": "C150", "title": "The sentences about one fix agree", "statement": "GGA, RMC and GLL sentences with the same texts for the position are reported with the same position, and a position refused in a GLL sentence is accepted in none of them; GGA and GLL sentences with the same time, received on the same day, with the same timestamp; RMC and VTG sentences with the same speed and course; GGA and GSA sentences with the same dilution of precision; RMC and GLL sentences with the same status. An RMC sentence with the same time has the timestamp of the GGA or GLL sentence exactly if its date is the one of the clock when that one is received, so for fixes received after midnight it is false that the sentences of one fix have the same timestamp.", "quantifier": "every two sentences of these kinds and any talkers, all other fields, all states, clocks and builds", "why_tests_cant": "relates all pairs of sentences; the tests look at one sentence at a time", "anchors": ["src/gnss/gga.rs: handle", "src/gnss/rmc.rs: handle", "src/gnss/gll.rs: handle", "src/gnss/vtg.rs: handle", "src/gnss/gsa.rs: handle", "src/util.rs"]}
{"id": "C151", "title": "Messages of different types about the same ship agree", "statement": "AIS messages of types 1, 2, 3, 4, 9, 18 and 21 that tell the same place are reported with the same position; those of types 1, 2, 3 and 18 that tell the same motion with the same speed, course and heading; static data sent in type 5 and in the two parts of type 24 with the same identity, name, call sign, ship and cargo type and dimensions. For long-range reports (type 27) this is false: the same place is reported with latitude and longitude exchanged.", "quantifier": "every two messages, whatever else they contain, all states, clocks and builds; for static data every sequence of broadcasts that contains both", "why_tests_cant": "relates all pairs of messages of different types", "anchors": ["src/ais/vdm_t1t2t3.rs: handle", "src/ais/vdm_t4.rs: handle", "src/ais/vdm_t5.rs: handle", "src/ais/vdm_t9.rs: handle", "src/ais/vdm_t18.rs: handle", "src/ais/vdm_t21.rs: handle", "src/ais/vdm_t24.rs: handle", "src/ais/vdm_t27.rs: handle"]}
{"id": "C152", "title": "Satellite numbers above 255", "statement": "Some receivers number satellites up to 437 (Galileo from 301, BeiDou from 401). A GSV group is reported without the satellites whose number is above 255, and without elevations, azimuths and signal strengths that are too large, but with all others in order and without an error. A GSA sentence with such a satellite in use is refused as a whole.", "quantifier": "every talker, any numbers, any number of GSV sentences below 2^32-1, every state without pending sentences of the group", "why_tests_cant": "all groups and numbers; the tests have no number above 255", "anchors": ["src/gnss/gsv.rs: handle", "src/gnss/gsa.rs: handle", "src/util.rs: pick_number_field"]}
{"id": "C153", "title": "The letters of the hemispheres", "statement": "Of two GGA, RMC or GLL sentences that differ in the letters of the hemispheres only, the second has the answer of the first, with the latitude negated if exactly one of them has 'S' and the longitude negated if exactly one has 'W'. So a missing letter, a small letter or any other text in its place counts as north or east: the sentence is not refused, and a place in the southern or western hemisphere is reported at its mirror image.", "quantifier": "every sentence of the three kinds, every text in place of the letters, all other fields, all states, clocks and builds", "why_tests_cant": "all texts in place of the letters; the tests only use N, S, E and W", "anchors": ["src/util.rs: parse_latitude_ddmm_mmm, parse_longitude_dddmm_mmm", "src/gnss/gga.rs: handle", "src/gnss/rmc.rs: handle", "src/gnss/gll.rs: handle"]}
{"id": "C154", "title": "Small letters", "statement": "The letters of a sentence are capitals. A right checksum written with a small letter is refused as corrupted; a small letter in the three letters of the kind makes the sentence unsupported; one in the talker makes the source or the station Other and changes nothing else; small letters as RMC status, side of the variation or GSA mode make the sentence an error; as GLL validity or mode of GLL and VTG the value is absent; and as hemisphere they mean north and east.", "quantifier": "every sentence, any other characters, all states, clocks and builds", "why_tests_cant": "all sentences and all places of small letters", "anchors": ["src/lib.rs: NmeaParser::parse_sentence", "src/gnss/rmc.rs: handle", "src/gnss/gsa.rs: handle", "src/gnss/gll.rs: handle", "src/gnss/vtg.rs: handle", "src/util.rs"]}
{"id": "C155", "title": "Fractions of a second", "statement": "What follows the first six characters of the time of a GGA, RMC or GLL sentence has no influence on the answer (if these are single bytes): fractions of a second are dropped without notice. The timestamp is at or less than a second before the moment that the sentence tells (the day or, for RMC, the century of the clock being the right one); timestamps of several fixes are in the order of the fixes, but fixes of one second have the same timestamp.", "quantifier": "every two sentences of these kinds, any number of decimals, all other fields, all states, clocks and builds", "why_tests_cant": "all fractions and all pairs of moments", "anchors": ["src/util.rs: parse_hhmmss, parse_yymmdd_hhmmss, pick_s2", "src/gnss/gga.rs: handle", "src/gnss/rmc.rs: handle", "src/gnss/gll.rs: handle"]}
{"id": "C156", "title": "Auxiliary craft and mother ships", "statement": "Part B of type 24 of an auxiliary craft has the MMSI of the mother ship in place of the dimensions. The parser does not tell the two forms apart: the 30 bits are reported both as mothership MMSI and as dimensions. So a craft has the right mother ship, but is reported with at least 95 m from the antenna to the bow; and every ship has a mother ship, whose number is in the range of ships' MMSIs if the ship has 96 to 369 m from the antenna to the bow. country() is None for the MMSIs of craft, coast stations, groups, aircraft, handheld radios and aids to navigation, although these contain the identification digits of a country.", "quantifier": "every part B of a craft or a ship after its part A, and of a craft before it with anything between that leaves it pending; all states, clocks and builds; every MMSI of each kind", "why_tests_cant": "all numbers of mother ships and all dimensions; all MMSIs", "anchors": ["src/ais/vdm_t24.rs: handle, merge", "src/ais/mod.rs: VesselStaticData::country"]}
{"id": "C157", "title": "Units, old and new forms of sentences", "statement": "The letters of the units in GGA and VTG sentences are not read: sentences that agree in all other fields are answered the same, also if refused. So a height in feet is reported as the same number of metres, and the claim that the altitude is in metres is false. A VTG sentence of the form before NMEA 2.0 (four numbers without letters) is accepted, with the speed in knots reported as the magnetic course, and no speed. The system id of a GSA sentence (NMEA 4.10) is not read: the GSA sentences of a receiver of several systems (talker GN) name no system, whatever the id.", "quantifier": "every GGA, VTG and GSA sentence, all values, states, clocks and builds", "why_tests_cant": "all values of the other fields", "anchors": ["src/gnss/gga.rs: handle", "src/gnss/vtg.rs: handle", "src/gnss/gsa.rs: handle"]}
{"id": "C158", "title": "Talkers of newer receivers", "statement": "By NMEA 4.11 the talker of BeiDou is GB and that of QZSS is GQ. The parser knows neither (only BD and QZ): the source of every report of such sentences is Other, so the claim that the source is the system named by the talker is false. Of two GGA, RMC, GSA, VTG or GLL sentences with the same fields the reports are equal exactly if the parser has the same system for both talkers; those of BeiDou and of QZSS by the newer talkers are equal, and so are the reports of their GSV groups.", "quantifier": "every sentence of the six kinds with such a talker, all fields, states, clocks and builds; every stream of GSV sentences", "why_tests_cant": "all fields and streams", "anchors": ["src/lib.rs: NmeaParser::parse_sentence", "src/gnss/mod.rs: NavigationSystem"]}
{"id": "C159", "title": "The list of features in the README", "statement": "A completed message of one of the AIS types of the README's table of features other than 19 is reported (if its timestamp is valid, and for type 24 if it is part A or B and another part is pending). But every message of type 19, which is in the table, is refused as unsupported, so the table is wrong there. Of the types planned for later versions 6, 9 and 10 are supported already, all others are refused. Sentences of the GNSS kinds in the table are never refused as unsupported; those of the kinds planned for later versions always are. For each satellite system of the table there is a talker of which every report has it as its source.", "quantifier": "every completed message of each type, every GNSS sentence of each kind, all states, clocks and builds", "why_tests_cant": "all messages and sentences of the listed types", "anchors": ["README.md: Features, Roadmap", "src/lib.rs: NmeaParser::parse_sentence", "src/ais/vdm_t19.rs: handle"]}
{"id": "C160", "title": "Exactly which states a parser can be in", "statement": "What a parser remembers after any history is a finite collection of (a) parts 1 or 2 of two-part messages, at most one for each own-vessel flag, 64-bit message id and channel, (b) GSV sentences by talker, count and number, such that no group of 1 to 4294967294 sentences is complete, (c) for each MMSI at most one part A or B of type 24. Conversely every such collection is reached: there is a history after which a parser answers everything exactly as if it remembered this collection and nothing else.", "quantifier": "every such collection, every history, every continuation", "why_tests_cant": "The set of states is infinite; tests reach a few of them, and no test shows that a state cannot occur.", "anchors": ["src/lib.rs: NmeaParser, push_string, pull_string, push_vsd, pull_vsd", "src/lib.rs: NmeaParser::parse_sentence"]}
{"id": "C161", "title": "What two parsers that answer everything alike have in common", "statement": "A GSV sentence whose number is not one of 1..count, or whose count is 4294967295, changes no later answer, and may be left out of a history (though it is kept for ever). Everything else that is kept matters: two parsers that answer all continuations alike, in one environment, wait for the same parts of two-part messages, the same sentences 1..count of GSV groups, and type 24 messages of the same vessels, and they keep the same satellites in each GSV sentence.", "quantifier": "every two histories, every environment, every continuation", "why_tests_cant": "The claim is about all continuations of all pairs of histories; telling two parsers apart may take a sequence of sentences as long as a GSV group.", "anchors": ["src/lib.rs: NmeaParser::parse_sentence", "src/gnss/gsv.rs: handle", "src/lib.rs: push_string, pull_string, push_vsd, pull_vsd"]}
{"id": "C162", "title": "Exactly which parsers cannot be told apart", "statement": "Two parsers, after any two histories, answer all continuations alike exactly if (a) they wait for the same parts of two-part messages, and the two payloads of each are interchangeable: joined with any other part they give messages that a new parser answers alike, now and later, (b) they wait for the same sentences 1..count of GSV groups, with the same satellites in each, and (c) they keep the same type 24 data for each MMSI, but for the own-vessel flag, which never shows. Payloads of different characters with the same bits are interchangeable, unless one of them makes a build with overflow checks panic and the other does not.", "quantifier": "every two histories, every continuation in every environment", "why_tests_cant": "Equality of the answers to all continuations can be refuted by tests, but not shown; which differences never show is not visible in any run.", "anchors": ["src/lib.rs: NmeaParser::parse_sentence", "src/lib.rs: push_string, pull_string, push_vsd, pull_vsd", "src/gnss/gsv.rs: handle", "src/util.rs: parse_payload"]}
{"id": "C163", "title": "Exactly which sentences may be exchanged", "statement": "Two neighbouring sentences may be exchanged in every state (each keeps its answer, and everything after them is answered alike) exactly if they are not related: they are not both parts 1 or 2 of one group of two-part messages, not both sentences 1..count of one GSV group of two or more, and there is no MMSI of which both are, or with some other part can become, a part A or B of type 24. A sentence may be exchanged with every other one exactly if it leaves no trace (its answer does not depend on the state, nor anything later on it), and that is if it is none of the three kinds. Sentences of which no two are related may come in any order at all.", "quantifier": "every two sentences in any environments, every reachable state, every continuation, every permutation", "why_tests_cant": "'May be exchanged' is about all states and continuations, and 'exactly' needs for each related pair a state in which the order shows.", "anchors": ["src/lib.rs: NmeaParser::parse_sentence", "src/gnss/gsv.rs: handle", "src/ais/vdm_t24.rs: handle"]}
{"id": "C164", "title": "Exactly which sentences may be left out or repeated", "statement": "A sentence may be left out of every history without a later answer being different exactly if it may be received twice in place of once, exactly if it has the same answer in every state; and that is exactly if it leaves no trace: it is neither part 1 or 2 of a two-part message, nor a sentence 1..count of a GSV group of two or more, nor a part A or B of type 24. For every other sentence there is a state in which leaving it out, and one in which repeating it, changes a later answer.", "quantifier": "every sentence in any environment, every reachable state, every continuation", "why_tests_cant": "The claim is about all states and continuations; and for each sentence that is kept a state must be found in which repeating it shows.", "anchors": ["src/lib.rs: NmeaParser::parse_sentence", "src/gnss/gsv.rs: handle", "src/ais/vdm_t24.rs: handle, merge", "src/lib.rs: push_string, pull_string, push_vsd, pull_vsd"]}
{"id": "C165", "title": "Exactly which answers a sentence can have", "statement": "Over all histories the answers to a sentence are exactly these. Part 1 or 2 of a two-part message: Incomplete, and every answer that the message joined from it and some other part can have if sent in one sentence. A part A or B of type 24 in one sentence: Incomplete, and its data merged with those of any other part A or B of the same MMSI, of either own-vessel flag. A sentence 1..count of a GSV group of 2 to 4294967294: Incomplete, and the satellites of any group of that talker and count that has it in its place. Every other sentence has one answer, that of a new parser.", "quantifier": "every sentence in any environment, every reachable state", "why_tests_cant": "The set of histories is infinite: no test shows that an answer cannot occur.", "anchors": ["src/lib.rs: NmeaParser::parse_sentence", "src/gnss/gsv.rs: handle", "src/ais/vdm_t24.rs: handle, merge", "src/lib.rs: push_string, pull_string, push_vsd, pull_vsd"]}
{"id": "C166", "title": "The Debug text on several lines", "statement": "The text that {:#?} gives for an answer is that of {:?} on several lines: brought on one line (outside of quotation marks, blanks and line breaks after opening brackets and commas are left out, and so are commas before closing brackets) it is the same text. So it identifies the answer too, with all private fields. Each line is indented by four blanks for each bracket that is open before it. Texts in a sentence cannot add lines: the text of an error has five lines, and that of static data 27 and two more for each value that is present.", "quantifier": "every two answers of any two histories; every text of a double that can be read back, every way to escape characters", "why_tests_cant": "all values of all fields of all reports, and all texts of sentences in errors", "anchors": ["src/lib.rs: ParsedSentence (derive Debug)", "src/error.rs: ParseError (derive Debug)", "src/ais/mod.rs: VesselDynamicData, VesselStaticData (derive Debug)", "src/gnss/gga.rs: GgaData (derive Debug)"]}
{"id": "C167", "title": "Which of the sentences received still count", "statement": "After any history a parser could be replaced by a new one that is given only a few of the sentences received, in their order: at most one for each pending text and two for each pending static data part; everything from then on is answered alike. One for each pending entry is enough if all type 24 messages came in one sentence. No other history with fewer sentences than there are entries pending leads to the same answers, if the GSV sentences were numbered within their groups. In traffic of given groups, GSV sentences and vessels the number of sentences that count does not grow with the history.", "quantifier": "every history of sentences, clocks and builds, every continuation; for the lower bound every other history", "why_tests_cant": "all histories and all later sentences; that a shorter history does not exist", "anchors": ["src/lib.rs: NmeaParser, push_string, pull_string, contains_key, push_vsd, pull_vsd, parse_sentence", "src/ais/vdm_t24.rs: handle", "src/gnss/gsv.rs: handle"]}
{"id": "C168", "title": "What is pending, in bytes", "statement": "If no sentence received is longer than L bytes, each pending text together with the key it is kept under has at most L + 28 bytes, and the texts of pending static data have at most 120 bytes for each vessel, whatever was received. So in traffic of given groups, GSV sentences and vessels the memory used for texts has a fixed bound: with sentences of at most 82 bytes, message ids 0 to 9, channels A and B and GSV groups of at most nine sentences 4400 bytes and 4950 for each GNSS talker.", "quantifier": "every history of sentences, clocks and builds", "why_tests_cant": "all histories of any length", "anchors": ["src/lib.rs: NmeaParser, push_string, push_vsd, parse_sentence", "src/ais/vdm_t24.rs: handle", "src/gnss/gsv.rs: handle"]}
{"id": "C169", "title": "The words of the Debug text by transmitted code", "statement": "The text that {:?} gives for a report has an entry 'name: value' for each enumeration value, and the value is a fixed word for what was transmitted: ship type, cargo type and fixing device of static data by their codes, aid type and fixing device of aids, class, navigation status and positioning state of position reports, station by AIS talker id, navigation system by GNSS talker id, quality by GGA code, fix type by GSA digit, mode by FAA letter. So logs can be searched by these words. The words distinguish what the printed labels do not, such as aid types 19 and 30.", "quantifier": "every state, every sentence delivering a message of the type, every standard library text of doubles and escapes", "why_tests_cant": "all codes of all fields at once, with all other contents of the messages", "anchors": ["src/ais/mod.rs: ShipType, CargoType, PositionFixType, NavigationStatus, Station, PositioningSystemMeta, AisClass (derive Debug)", "src/ais/vdm_t21.rs: NavAidType (derive Debug)", "src/gnss/mod.rs: NavigationSystem, FaaMode (derive Debug)", "src/gnss/gga.rs: GgaQualityIndicator (derive Debug)", "src/gnss/gsa.rs: GsaFixMode (derive Debug)"]}
{"id": "C170", "title": "Searching a log of reports", "statement": "Searching the `{:?}` texts of reports for ` mmsi: n,` finds the reports about vessel or station n and no others, whatever names, call signs and destinations were transmitted (a vessel cannot be named so that the search finds it). The same holds for the own-vessel flag, the type of ship and cargo, the navigation status, the type of an aid and the quality of a fix, and, in quotation marks, for names, call signs and destinations of vessels and the names of aids, whatever their characters. In a log of all answers the lines must also be required to begin with `Ok(`: any plain text sent as a checksum comes up in an error.", "quantifier": "all histories of sentences, all reports, all numbers, words and texts searched for, all texts of the standard library for numbers and special characters that satisfy the stated assumptions", "why_tests_cant": "A test searches the texts of some reports; that no transmitted text can imitate an entry needs a statement about all texts.", "anchors": ["src/lib.rs: ParsedSentence (derive Debug), parse_sentence", "src/ais/mod.rs: VesselDynamicData, VesselStaticData (derive Debug)", "src/ais/vdm_t21.rs: AidToNavigationReport (derive Debug)", "src/gnss/gga.rs: GgaData (derive Debug)", "src/error.rs: ParseError (derive Debug)"]}
{"id": "C171", "title": "How long errors get, and what they quote", "statement": "An error other than for the checksum consists of a phrase of at most 49 plain characters and at most one piece of the sentence, copied as it is. The text of any error (to_string) has at most six times as many bytes as the sentence, and 49 more; the line that {:?} gives for the answer at most seven times as many, and 81 more. So a log of errors is bounded by what was received: 541 and 655 bytes for sentences of at most 82 bytes. The factors are reached: control characters sent as checksum are written as codes, and the backslashes of the codes are doubled in the log.", "quantifier": "every sentence, every reachable state, every clock and build, every way the standard library escapes apostrophes, NUL and characters beyond ASCII", "why_tests_cant": "all texts in all places of a sentence, with every escape", "anchors": ["src/lib.rs: parse_sentence", "src/error.rs: ParseError (Display, derive Debug)", "src/util.rs: pick_number_field, parse_latitude_ddmm_mmm, parse_longitude_dddmm_mmm", "src/gnss: handle"]}
{"id": "C172", "title": "Searching a log on several lines", "statement": "In a log of answers printed with {:#?}, one after the other, a line that consists of twelve blanks, `mmsi: `, a number and a comma belongs to a report about the vessel with that MMSI, and every such report has exactly one such line, so counting the lines counts the reports. The same kind of line finds exactly the reports about the own vessel, those with a given navigation status, type of ship, type of aid to navigation or quality of the fix, and those whose latitude is not known (`latitude: None,`). A line `name: Some(` directly followed by a line with the quoted name finds exactly the static reports of the ships of that name; the same for call signs and destinations. The numbers of the lines `Ok(`, `Err(` and `    Incomplete,` are the numbers of the sentences that were accepted, refused and that wait for others. Unlike in a log of {:?}, no sentence can be made up so that the error for it contains such a line, whatever line breaks and texts it has.", "quantifier": "For every sequence of sentences given to a new parser, every answer, every number, flag and status, every error, and every implementation of the standard library's formatting that meets its documentation.", "why_tests_cant": "Tests look at single texts. That no line of any other answer looks the same is a statement about all answers, all names and texts in them, and all errors quoting what was received.", "anchors": ["src/lib.rs ParsedSentence", "src/error.rs ParseError", "src/ais/mod.rs VesselDynamicData VesselStaticData", "src/gnss/mod.rs"]}
