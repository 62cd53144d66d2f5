{"id": "C01", "title": "PDU header survives the wire", "statement": "For every PduHeader value, PduHeader::serialize appends exactly 12 bytes and PduHeader::deserialize applied to those bytes followed by anything returns the same header and leaves exactly what followed.", "quantifier": "all header values (any version, exercise id, type, family, timestamp, length, status bits, padding) and all trailing bytes", "why_tests_cant": "the header has 2^80+ values; the tests check one default header", "anchors": ["src/common/pdu_header.rs: PduHeader::{serialize,deserialize}", "src/common/pdu_header.rs: PduStatusRecord"]}
{"id": "C02", "title": "PDU header layout", "statement": "The 12 header bytes are: version, exercise id, PDU type, protocol family (one byte each), timestamp (4 bytes, most significant first), length (2 bytes, most significant first), status octet, padding octet - at offsets 0,1,2,3,4,8,10,11.", "quantifier": "all header values", "why_tests_cant": "byte order and offset errors show only for values whose bytes differ", "anchors": ["src/common/pdu_header.rs: PduHeader::serialize"]}
{"id": "C03", "title": "get_pdu_type never misreads or panics", "statement": "get_pdu_type(bytes) is None exactly when fewer than 12 bytes are given; otherwise it is the type whose code is byte 2 (Other when the code is unassigned), whatever the other bytes are, and it equals the type the header decoder would report.", "quantifier": "all byte slices", "why_tests_cant": "unbounded input space; tests use two slices", "anchors": ["src/common/pdu_header.rs: get_pdu_type"]}
{"id": "C04", "title": "Declared length equals emitted bytes", "statement": "After a successful serialize, the header's length field (and octets 8-9 of the message) equals the number of octets appended to the buffer, for every value of the 48 PDU kinds that carry no EntityMarking, VariableDatumRecord, RecordSpecificationElement or GridDataRecord. For the other kinds the difference (octets appended minus declared length) is exactly: entity state, marking text octets - 11; datum kinds, the padding octets of all variable datums; record-set kinds, for each set (record_length*record_count mod 65536) minus the octets stored; gridded data, 2 per grid data record. Hence the length is right exactly when that sum is zero, and can be wrong.", "quantifier": "all values of all 66 PDU kinds, both build profiles, all initial buffers", "why_tests_cant": "tests only check default() values, where all lists are empty", "anchors": ["src/pdu_macro.rs: define_pdu! (calculate_length, serialize)", "all 66 PDU structs in src/{entity_information,entity_management,information_operations,distributed_emissions,logistics,minefield,radio_communications,synthetic_environment,warfare,simulation_management,simulation_management_with_reliability}.rs", "src/common/data_types/entity_marking.rs", "src/common/data_types/datum_records.rs"]}
{"id": "C05", "title": "Serialization only appends", "statement": "serialize never changes bytes already in the output buffer and the bytes it appends do not depend on what was there; when it panics or fails it does so independently of the buffer content.", "quantifier": "all PDU values, all record values, all initial buffers", "why_tests_cant": "the buffer content is unbounded; tests always start from an empty buffer", "anchors": ["src/pdu_macro.rs: define_pdu! (serialize)", "src/pdu_macro.rs: FieldSerialize", "all 66 PDU structs in src/{entity_information,entity_management,information_operations,distributed_emissions,logistics,minefield,radio_communications,synthetic_environment,warfare,simulation_management,simulation_management_with_reliability}.rs"]}
{"id": "C06", "title": "Oversized PDUs are refused atomically", "statement": "serialize returns Err exactly when 12 plus the summed field lengths exceeds 65535; the error is PduSizeExceeded carrying that size; nothing is appended to the buffer; and the caller's PDU body (apart from a length-annotated field) is unchanged. A length is never silently truncated to 16 bits.", "quantifier": "all values of all PDU kinds, all buffers", "why_tests_cant": "needs PDUs of every size around and above the boundary, with arbitrary nesting of lists", "anchors": ["src/pdu_macro.rs: define_pdu! (calculate_length, serialize)", "src/common/dis_error.rs: DISError::PduSizeExceeded"]}
{"id": "C07", "title": "Documented 8192-octet maximum", "statement": "Desired: every successfully serialized PDU is at most MAX_PDU_SIZE_OCTETS = 8192 octets long (the limit the error message reports). This is false of the code; what holds is: the declared length never exceeds 65535, that bound is reached, and values above 8192 that serialize without an error exist (every size from 32 to 65535 occurs).", "quantifier": "all values of all PDU kinds", "why_tests_cant": "a test would need to know the exact value that slips through", "anchors": ["src/common/constants.rs: MAX_PDU_SIZE_OCTETS, validate_pdu_size", "src/pdu_macro.rs: define_pdu! (calculate_length)"]}
{"id": "C08", "title": "serialize is idempotent and touches only bookkeeping fields", "statement": "serialize changes only the header's type, family and length (and, for TransmitterPdu, modulation_parameter_length); serializing the same value a second time changes nothing further and appends the same bytes again.", "quantifier": "all PDU values, all buffers", "why_tests_cant": "needs comparison of every field for every value", "anchors": ["src/pdu_macro.rs: define_pdu! (serialize)", "src/pdu_macro.rs: __pdu_prep_serialize_field"]}
{"id": "C09", "title": "Type check on decode", "statement": "T::deserialize on at least 12 bytes returns Err(InvalidHeader) exactly when byte 2 is not T's type code, having consumed exactly the 12 header bytes and naming both types in the message; on fewer than 12 bytes it panics; it never returns Ok for a foreign type.", "quantifier": "all byte strings, all 66 PDU kinds", "why_tests_cant": "unbounded input space", "anchors": ["src/pdu_macro.rs: define_pdu! (deserialize)"]}
{"id": "C10", "title": "At most one decoder accepts a message", "statement": "The 66 PDU kinds have pairwise distinct type codes; hence for any byte string at most one kind's deserialize returns Ok, and bytes produced by one kind are rejected by all other 65.", "quantifier": "all pairs of kinds, all values, all byte strings", "why_tests_cant": "66*65 pairs times all values", "anchors": ["all 66 PDU structs in src/{entity_information,entity_management,information_operations,distributed_emissions,logistics,minefield,radio_communications,synthetic_environment,warfare,simulation_management,simulation_management_with_reliability}.rs", "src/common/enums.rs: PduType", "src/pdu_macro.rs: define_pdu!"]}
{"id": "C11", "title": "Fixed-layout PDUs round-trip exactly", "statement": "For every PDU kind without lists, optional fields or the irregular records, decoding what serialize appended, followed by any bytes, returns the same PDU (header as updated by serialize, all fields bit for bit) and leaves exactly the following bytes.", "quantifier": "all values of all such kinds, all trailing bytes", "why_tests_cant": "field-order or width swaps between the two hand-written directions only show on suitable values; tests round-trip defaults", "anchors": ["src/pdu_macro.rs: define_pdu!", "all 66 PDU structs in src/{entity_information,entity_management,information_operations,distributed_emissions,logistics,minefield,radio_communications,synthetic_environment,warfare,simulation_management,simulation_management_with_reliability}.rs", "src/common/data_types/*.rs"]}
{"id": "C12", "title": "PDUs with variable lists: what survives a round-trip", "statement": "For every PDU kind, decoding its own encoding returns all fields up to the first list/optional field intact; lists and un-annotated optional fields come back empty, and when they are the last fields their octets are left unread in the buffer. The full round-trip decode(encode p) = p is false whenever something is left unread. Kinds with conditions, exactly: areal object state recovers its appearance flags iff only named flags are set; information operations report/action and the record-set kinds recover their counted records iff the counts are right, and lose the reference number of the simulation identifiers; entity state recovers everything before its marking, whose text becomes a decimal number, and misreads the capabilities.", "quantifier": "all values of all 66 kinds", "why_tests_cant": "needs lists of every length and content", "anchors": ["src/pdu_macro.rs: impl FieldDeserialize for Vec<T>, Option<T>, String", "all 66 PDU structs in src/{entity_information,entity_management,information_operations,distributed_emissions,logistics,minefield,radio_communications,synthetic_environment,warfare,simulation_management,simulation_management_with_reliability}.rs"]}
{"id": "C13", "title": "Fields after a list in the middle of a PDU", "statement": "Desired: a PDU whose list is followed by further fixed fields still decodes those fields correctly. False of AggregateStatePdu: everything before the lists in its middle is recovered, the lists come back empty, and the number of variable datum records is read from the first four octets of those lists, so it is right only by coincidence when they are non-empty; a concrete value with a wrong count is exhibited.", "quantifier": "all AggregateStatePdu values", "why_tests_cant": "tests use empty lists", "anchors": ["src/entity_management.rs: AggregateStatePdu"]}
{"id": "C14", "title": "Decoders panic exactly on short input", "statement": "For every PDU kind whose decoder reads a fixed number n of octets, deserialize (type matching) panics exactly when fewer than n octets remain; otherwise it returns Ok and consumes exactly n, whatever the octets are (entity state: 133, not IEEE's 144). Every fixed-size record decoder likewise. For the kinds that read counted parts, the exact number of octets needed is computed from the octets present, and the decoder panics exactly when they are not there (or, for the two record-set kinds, when a product overflows in a checked build).", "quantifier": "all byte strings, all 66 kinds, all records", "why_tests_cant": "all truncation points times all contents", "anchors": ["src/pdu_macro.rs: define_pdu! (deserialize)", "src/common/data_types/*.rs: deserialize"]}
{"id": "C15", "title": "Decoding ignores what follows", "statement": "The decoded value depends only on the consumed octets: whenever a decode succeeds having consumed a prefix, replacing everything after that prefix changes neither the value nor the consumption.  Holds for all kinds except those with an EntityMarking, whose decoded text is the number of remaining octets.", "quantifier": "all byte strings and all replacements of the tail, all kinds", "why_tests_cant": "a relation between two unbounded inputs", "anchors": ["src/common/data_types/entity_marking.rs: EntityMarking::deserialize", "src/pdu_macro.rs: define_pdu!"]}
{"id": "C16", "title": "Unassigned enumeration codes fall back to the default", "statement": "Every enumeration decoder (all non-empty enumerations) is total on sufficiently long input: an assigned code decodes to its variant, any other code to the declared default; it consumes exactly its width and never panics.", "quantifier": "all 405 enumerations (402 have variants), all code values, all following bytes", "why_tests_cant": "402 enumerations times up to 2^32 codes", "anchors": ["src/common/enums.rs: deserialize (all)"]}
{"id": "C17", "title": "Enumerations round-trip and fit their width", "statement": "For every enumeration with a wire form, the number of octets written equals the number read and the length reported, every variant's code fits, and every variant decodes back to itself.", "quantifier": "all variants of all enumerations", "why_tests_cant": "thousands of variants; a too-wide discriminant would be silently truncated by `as u8`", "anchors": ["src/common/enums.rs: FieldSerialize, FieldDeserialize, FieldLen"]}
{"id": "C18", "title": "Records round-trip", "statement": "For every regular record type in common::data_types, deserialize inverts serialize for every value and every trailing octets. For the irregular records the exact set of values for which it does is characterised: EntityMarking, GridDataRecord and VariableTransmitterParameters never round-trip; datum, record-set, counted and axis records exactly under the conditions of C26, C27, C30, C35.", "quantifier": "all values of all record types", "why_tests_cant": "each codec is hand-written twice", "anchors": ["src/common/data_types/*.rs"]}
{"id": "C19", "title": "Records report their true length", "statement": "For every record type with a FieldLen, field_len equals the number of octets serialize appends, for every value; the exact discrepancy is given for EntityMarking (text octets - 11), VariableDatumRecord (its padding), RecordSpecificationElement (octets written minus octets stored) and GridDataRecord (2).", "quantifier": "all values of all record types", "why_tests_cant": "length constants are hand-written separately from the code that writes", "anchors": ["src/common/data_types/*.rs: FieldLen, SerializedLength"]}
{"id": "C20", "title": "Status-record accessors", "statement": "The PDU status accessors address the bits they are documented to: each setter followed by its getter returns the value set, changes only its own bits (TEI bit 0, LVC bits 1-2, CEI bit 3, FTI/ISM bit 4, AII bit 5 region, DTI/RAI/IAI bits 4-5), and other accessors' values are unaffected except where the bits overlap; from_u8/to_u8 are mutually inverse. The forms with_x, set_x_checked and with_x_checked of a setter have the same effect; given a raw value that does not fit its bits the plain forms panic, the checked ones return an error and leave the record as it was; x_or_err of a getter never fails. Each of the nine one- and two-bit indicators is turned by Specifier into the octet of its code and back; every other octet is refused, naming it, in particular the pattern 3 of the three indicators that have no variant for it.", "quantifier": "all 256 status octets, all values of all indicator enumerations, all sequences of setter calls", "why_tests_cant": "state space of setter sequences is unbounded", "anchors": ["src/common/pdu_header.rs: PduStatusRecord"]}
{"id": "C21", "title": "Freshly constructed PDUs are well-formed", "statement": "For every PDU kind, new() yields a header with that kind's type and family, protocol version 7, exercise 1, and a length equal to the IEEE 1278.1 fixed size asserted in the crate's tests; serialize succeeds on it, leaves it unchanged and appends that many octets (11 fewer for EntityState, whose marking is empty); and all those octets are the documented ones (zeros but for the documented defaults); and who decodes them, in whatever build and whatever follows, has the very PDU (an entity state PDU but for its marking).", "quantifier": "all 66 kinds, all clock readings", "why_tests_cant": "the clock is an input; constants are checked kind by kind only for default()", "anchors": ["src/pdu_macro.rs: define_pdu! (new)", "src/common/pdu.rs: Pdu::finalize", "all 66 PDU structs in src/{entity_information,entity_management,information_operations,distributed_emissions,logistics,minefield,radio_communications,synthetic_environment,warfare,simulation_management,simulation_management_with_reliability}.rs"]}
{"id": "C22", "title": "Back-to-back PDUs in one buffer", "statement": "Serializing any sequence of fixed-layout PDUs of any mix of kinds into one buffer and decoding the kinds in the same order returns the sequence and empties the buffer. (A stop/freeze PDU must not set unnamed flags.) More generally PDUs in one buffer do not interfere: any sequence of PDUs of any kinds, each of which survives being sent and received alone, survives together. Sending stops at the first PDU that is too large, with all before it written and nothing of it; receiving stops at the first message of an unexpected type, with only its header taken.", "quantifier": "all finite sequences of values of all fixed-layout kinds", "why_tests_cant": "unbounded sequences", "anchors": ["src/pdu_macro.rs: define_pdu! (serialize, deserialize)"]}
{"id": "C23", "title": "Framing by the length field", "statement": "A receiver that splits a byte stream using only octets 8-9 of each header recovers exactly the individual messages, for every sequence of PDUs whose declared length is exact (all values of 48 kinds; entity state with 11-octet markings; ...); dispatching each message on its type octet then yields every PDU with everything but its trailing lists. One PDU with an inexact length desynchronises it: whatever follows, that message is never found as a frame.", "quantifier": "all finite sequences of PDUs", "why_tests_cant": "unbounded sequences and sizes", "anchors": ["src/pdu_macro.rs: define_pdu! (serialize)", "src/common/pdu_header.rs: PduHeader"]}
{"id": "C24", "title": "Decode-encode-decode is stable", "statement": "Whatever octets a PDU of any kind but EntityState was decoded from: re-encoding succeeds if it is not too large, decoding that gives a PDU x, and from then on nothing changes: encoding x gives the same octets and decoding them x (unassigned codes have been normalised to defaults). Fixed-size records likewise. For the two kinds with record sets this holds within one build profile; what an unchecked build decoded makes a checked build panic exactly when some record_length*record_count overflows. Entity state PDUs change up to three times (twice below 100000 octets) and then stay the PDU marked \"5\" with capabilities 0.", "quantifier": "all byte strings, all kinds, all fixed-size records, both build profiles", "why_tests_cant": "unbounded input space", "anchors": ["src/pdu_macro.rs: define_pdu!"]}
{"id": "C25", "title": "deserialize agrees with deserialize_without_header", "statement": "Decoding a message in one step equals decoding the header with PduHeader::deserialize and then the body with deserialize_without_header, whenever the type matches; deserialize_without_header performs no type check and stores the given header unchanged.", "quantifier": "all byte strings, all headers, all kinds", "why_tests_cant": "relation between two decoders over unbounded input", "anchors": ["src/pdu_macro.rs: define_pdu! (deserialize, deserialize_without_header)"]}
{"id": "C26", "title": "Counted records", "statement": "Records whose list length is given by a count field decode back exactly when the count equals the list length; with a smaller count the excess elements are left unread and with a larger one following octets are absorbed or the decoder panics. serialize does not repair the count. VariableTransmitterParameters, whose type is written with four octets and read with one, never round-trips (always decodes to an empty record of type 0, leaving the rest unread).", "quantifier": "all lists, all counts", "why_tests_cant": "unbounded lists", "anchors": ["src/common/data_types/{acoustic_emitter_system_data,attribute_record,attribute_record_set,electromagnetic_emission_beam_data,electromagnetic_emission_system_data,record_specification,standard_variable_records,standard_variable_specification,variable_transmitter_parameters}.rs"]}
{"id": "C27", "title": "Variable datum records", "statement": "Desired: VariableDatumRecord decodes back to what was encoded, and its length accounts for its padding. False of the code; exactly: encoding appends identifier, number of bits, all octets of the value and zeros up to a multiple of eight octets as the number of bits wants them; field_len omits the zeros; decoding any input takes as many octets as hold the declared bits (or panics) and returns them after as many zeros, leaving the padding; so a datum comes back only if it claims no bits and has no octets.", "quantifier": "all datum records", "why_tests_cant": "tests use no variable datum", "anchors": ["src/common/data_types/datum_records.rs: VariableDatumRecord"]}
{"id": "C28", "title": "Dead-reckoning parameters and simulation identifiers", "statement": "Desired: DeadReckoningParameters and SimulationIdentifier serialize all their fields. False of the code: the 15 other-parameter octets and the reference number are written as zeros; everything else is written in order and survives the round trip.", "quantifier": "all values", "why_tests_cant": "tests only use defaults, which are zero", "anchors": ["src/common/data_types/dead_reckoning_parameters.rs", "src/common/data_types/simulation_id.rs"]}
{"id": "C29", "title": "Transmitter modulation parameters", "statement": "serialize sets modulation_parameter_length to the stored parameter count, and decoding recovers the parameters exactly (absent, or 1..255 octets); empty parameters come back as absent; with more than 255 octets, which no program outside the crate can put there (C57), the length transmitted would be 0, nothing reported, and the parameters left unread. An antenna pattern is written but never read back.", "quantifier": "all TransmitterPdu values", "why_tests_cant": "all lengths and contents", "anchors": ["src/radio_communications.rs: TransmitterPdu", "src/common/data_types/modulation_parameters.rs", "src/pdu_macro.rs: __pdu_prep_serialize_field, __pdu_deserialize_field"]}
{"id": "C30", "title": "Record-set arithmetic", "statement": "RecordSpecificationElement serialization: with record_length*record_count below 65536 and equal to the number of stored octets it writes all of them and decodes back; a product that overflows panics in debug builds and wraps in release builds; a stored list shorter than the product panics.", "quantifier": "all lengths, counts, lists and both build profiles", "why_tests_cant": "2^32 (length,count) pairs times lists", "anchors": ["src/common/data_types/record_specification_element.rs"]}
{"id": "C31", "title": "Timestamp range", "statement": "calculate_dis_timestamp never overflows: for any three clock readings (minute 0-59, second 0-59, nanosecond 0-1999999999) the intermediate u32 arithmetic does not overflow and the result is below 2^31; within one consistent reading it is monotone in the time past the hour and, in units of 1.68 microseconds, accurate to 545 microseconds (f32 rounding included). It is not IEEE 1278.1's field: not shifted left by one, and its unit makes it lag by 1/465 of the time past the hour; distinct microseconds can coincide; and since the clock is read three times a torn reading can be a whole minute too small: for readings within a second it tells exactly the time of the last one, except that it is a second less (or 59:59 more, at a full hour) if the second changes between the last two, and a minute less (or 59:00 more) if a minute begins between the first two; however long the readings take, while no hour begins, it never tells a time after the last reading nor a minute or more before the first.", "quantifier": "all triples of clock readings", "why_tests_cant": "clock readings cannot be enumerated", "anchors": ["src/common/pdu_header.rs: calculate_dis_timestamp"]}
{"id": "C32", "title": "Radio server dispatch", "statement": "deserialize_pdu in the radio example returns Some exactly for the successful decodings of the five radio kinds, under that kind; None exactly for fewer than 12 octets or any other type; and panics exactly on a whole header of radio type followed by too few octets. Hence for any sequence of datagrams the server prints one line each, in order, until an I/O error or such a datagram kills it; any sequence of radio PDUs sent by peers is reported exactly; the client's own traffic is reported as the five default PDUs; a PDU too large to serialize is sent by the client as an empty datagram.", "quantifier": "all byte strings, all histories of datagrams and I/O errors", "why_tests_cant": "unbounded input space", "anchors": ["examples/radio_processing_server.rs: deserialize_pdu"]}
{"id": "C33", "title": "UDP echo exchange", "statement": "For any sequence of datagrams from any peers the echo server returns each to its sender, in order, cut to 1024 octets, until an I/O error ends it; for every AcknowledgePdu the client sends, whatever was served before and after, the client's decode of its zero-filled 1024-octet receive buffer yields exactly the PDU sent; the client never panics, whatever it receives.", "quantifier": "all AcknowledgePdu values, all histories of datagrams and I/O errors", "why_tests_cant": "all values and buffer residues", "anchors": ["examples/udp_client.rs", "examples/udp_server.rs"]}
{"id": "C34", "title": "Flag sets", "statement": "The three bit-flag types decode to the flags encoded for every combination of defined flags; any octets with an undefined bit decode to the empty set. Each named flag has the bit SISO gives it; after any sequence of insert, remove and toggle calls on an empty set, exactly the flags those calls leave present are contained, the raw value has exactly their bits, and from_bits and (for the two sets that are message fields) sending and receiving give the same set back.", "quantifier": "all flag combinations, all raw values up to 2^32, all histories of calls", "why_tests_cant": "2^32 raw values", "anchors": ["src/common/enums.rs: LandPlatformAppearance, FrozenBehavior, ObjectStateAppearanceGeneral"]}
{"id": "C35", "title": "Gridded-data records", "statement": "Grid axis records decode back exactly what was encoded when the selector matches the data (irregular ones: and nothing follows; otherwise the decoder swallows what follows as padding); mismatched selectors and wrong counts never round-trip: the exact set of records that do is given. Grid data records never round-trip: whatever the representation they come back as type 0 with everything after the header split between data and padding, and claim two octets too few.", "quantifier": "all records and all following bytes", "why_tests_cant": "unbounded lists and tails", "anchors": ["src/common/data_types/grid_axis_descriptor.rs", "src/common/data_types/grid_data_record.rs"]}
{"id": "C36", "title": "Encoding is injective", "statement": "Two different PDUs of a fixed-layout kind or a kind with a single list at the end (after serialize's bookkeeping) never produce the same octets; no encoding of a fixed-layout kind is a proper prefix of another of the same kind; encodings of different kinds are never prefixes of each other; records of fixed size likewise. Beyond these kinds it is false: two different set-data PDUs with the same encoding are exhibited (C58 says what holds there).", "quantifier": "all pairs of values of all fixed-layout kinds", "why_tests_cant": "pairs of unbounded inputs", "anchors": ["src/pdu_macro.rs: define_pdu! (serialize)", "all 66 PDU structs in src/{entity_information,entity_management,information_operations,distributed_emissions,logistics,minefield,radio_communications,synthetic_environment,warfare,simulation_management,simulation_management_with_reliability}.rs"]}
{"id": "C37", "title": "Live-entity header", "statement": "LiveEntityPduHeader serializes to exactly 12 bytes with its subprotocol number at offset 10 and decodes back exactly; the same first ten bytes are read identically by PduHeader.", "quantifier": "all live-entity headers", "why_tests_cant": "as for the PDU header", "anchors": ["src/common/live_entity_pdu_header.rs"]}
{"id": "C38", "title": "Size helpers", "statement": "validate_pdu_size, total_pdu_size and validate_marking_length accept exactly the sizes up to their documented limits; total_pdu_size(n) is the length declared for a PDU whose fields occupy n octets (and panics or wraps for the twelve n with no room for a header); the limits are not enforced by serialize: every size from 32 to 65535 can be serialized, and markings accepted by validate_marking_length make the declared length wrong.", "quantifier": "all sizes", "why_tests_cant": "unbounded naturals", "anchors": ["src/common/constants.rs"]}
{"id": "C39", "title": "Decoders only consume", "statement": "No decoder ever changes or re-orders input: on success the remaining buffer is a suffix of the input, for every PDU kind and record type including count-driven ones.", "quantifier": "all byte strings, all kinds, all records", "why_tests_cant": "unbounded input space", "anchors": ["src/pdu_macro.rs: define_pdu!", "src/common/data_types/*.rs"]}
{"id": "C40", "title": "Serialization does not panic", "statement": "serialize panics for no value of any PDU kind other than the two containing RecordSpecificationElement, in either build profile; for those two it panics exactly when the PDU is not too large and some record set has record_length*record_count overflowing 16 bits in a checked build, or stores fewer octets than that product modulo 65536.", "quantifier": "all values of all kinds, both profiles", "why_tests_cant": "absence of panics over all values", "anchors": ["src/pdu_macro.rs: define_pdu!", "all 66 PDU structs in src/{entity_information,entity_management,information_operations,distributed_emissions,logistics,minefield,radio_communications,synthetic_environment,warfare,simulation_management,simulation_management_with_reliability}.rs", "src/common/data_types/record_specification_element.rs"]}
{"id": "C41", "title": "Vector arithmetic", "statement": "The arithmetic operators of Vector3Float act componentwise with IEEE-754 single-precision correct rounding (the nearest f32, ties to the even one, overflow to infinity from (2^24 - 1/2)*2^104 on; that determines the result bit by bit), and with the IEEE-754 results for NaN, infinities, zeros and division by zero; dot and cross are the fused multiply-adds written: the first product is rounded, each further product is added unrounded and the sum rounded once, with the IEEE-754 results for NaN, infinities and zeros in each step; vectors of numbers never give NaN, an intermediate overflow stays an infinity, a NaN component makes the dot product and the two cross components it enters NaN; the magnitude is the correctly rounded square root of the rounded product v.v, with infinities and NaNs propagated; addition is commutative, the dot product symmetric, v - v is zero for numbers, scaling by 1 is the identity, dot and cross products of small whole numbers are exact; v x v need not be zero; unless it overflows, the dot product of numbers is within 2^-22 of the sum of the absolute values of its three products (and 2^-148) from the exact one, and each component of the cross product within 3*2^-24 of the sum of its two (and 2^-148); scaling by -1 gives the opposite vector, and (up to the sign of zero) sums, differences, multiples, quotients, dot and cross products and normalizations of opposites are the opposites, and the length is the same bit for bit; v - 0 is v and v + 0 == v; the axes have length 1, are orthogonal and each is the cross product of the two before it; no component grown in absolute value makes a vector shorter (though the length depends on the order of the components), the length of a vector along an axis is exactly the absolute value of its component if that is in [2^-63, 2^64), and its normalization exactly 1 or -1 along it; and sums, differences, multiples by a number not negative and quotients by a positive one keep the order of the numbers. normalize is None exactly when every component is at most 2^-75 in magnitude; with a NaN it yields NaNs; from 2^64 on the magnitude overflows and the result is zero; when the largest component is in [2^-63, 2^63] the square of the magnitude is within 2^-21 of the sum of the squares, and the result has components in [-1,1] with the signs of the original and squared length within 2^-20 of 1.", "quantifier": "all vectors of bit patterns (NaNs, infinities, subnormals included)", "why_tests_cant": "2^96 vectors", "anchors": ["src/common/data_types/vector3_float.rs"]}
{"id": "C42", "title": "Message type and family codes follow the standard", "statement": "Every PDU a user serializes carries, in octets 2 and 3, the PDU type and protocol family codes that the SISO-REF-010 tables assign to its kind, whatever the caller left in the header.", "quantifier": "all values of all 66 kinds, all buffers", "why_tests_cant": "tests compare the crate's enumeration with itself; the octets on the wire are never compared with the standard's numbers", "anchors": ["all 66 PDU structs in src/{entity_information,entity_management,information_operations,distributed_emissions,logistics,minefield,radio_communications,synthetic_environment,warfare,simulation_management,simulation_management_with_reliability}.rs", "src/common/enums.rs: PduType, ProtocolFamily", "src/pdu_macro.rs: define_pdu! (serialize)"]}
{"id": "C43", "title": "Constructors store what they are given", "statement": "Every `new` of a record type stores each argument in the field of that name (observable on the wire: the encoding of new(a, b, ..) is the concatenation of the encodings of its arguments in the documented order, plus the documented constants); the header constructors store version 7, the given type, family, exercise and length; default() of every record is the documented value (all zero octets, except simulation address 1.1, emitter name 2, acknowledge flag 1).", "quantifier": "all arguments of all constructors", "why_tests_cant": "swapped arguments of equal type show only for arguments that differ; tests construct a few", "anchors": ["src/common/data_types/*.rs: new, Default", "src/common/pdu_header.rs: PduHeader::new", "src/common/live_entity_pdu_header.rs"]}
{"id": "C44", "title": "Field traits", "statement": "The field serialization traits behave as documented for every field type: primitives are written most significant octet first and read back; a String writes its octets and reads back empty; Vec<T> writes its elements in order and reads back empty; Option<T> writes its content or nothing and reads back None; length-annotated fields read back exactly the stated number of octets, and the unannotated decoder reads nothing.", "quantifier": "all field types, all values, all lengths, all trailing octets", "why_tests_cant": "unbounded values and lists", "anchors": ["src/pdu_macro.rs: FieldSerialize, FieldDeserialize, FieldDeserializeWithLen, FieldLen"]}
{"id": "C45", "title": "Errors say what happened", "statement": "serialize returns no error but PduSizeExceeded, whose text contains the length the PDU would have had and the documented maximum; deserialize returns no error but InvalidHeader, whose text names the expected and the received type, so that it identifies both; every error constructor keeps its arguments (text and underlying error), and text plus underlying error determine the error, InvalidFieldValue excepted; what {:?} and {:#?} print for an error determines it without exception, up to what other crates print for theirs.", "quantifier": "all PDU values, all byte strings, all kinds, all errors and all their arguments", "why_tests_cant": "texts are built by formatting arbitrary arguments; tests construct none of these errors", "anchors": ["src/common/dis_error.rs: DISError", "src/pdu_macro.rs: define_pdu! (calculate_length, deserialize)"]}
{"id": "C46", "title": "Length API and header accessors", "statement": "calculate_length returns the declared length exactly or the size error that serialize would return; finalize stores it (zero if it does not fit) and changes nothing else, twice is once, new() is already finalized; serialize's output does not depend on the header's stale type, family or length; and after any history of header setter calls every getter returns the value set last and nothing else has changed.", "quantifier": "all PDU values, all headers, all histories of setter calls", "why_tests_cant": "unbounded values and histories", "anchors": ["src/common/pdu.rs: Pdu::{calculate_length, finalize, header, header_mut}", "src/common/generic_header.rs: GenericHeader", "src/common/pdu_header.rs: PduHeader", "src/common/live_entity_pdu_header.rs"]}
{"id": "C47", "title": "Enumeration codes and widths follow SISO-REF-010", "statement": "For each of the crate's 402 enumerations with variants (the 71 that occur in messages: country, entity kind, force, dead reckoning algorithm, PDU type, detonation result, transmit state, ...; and the 331 a program uses to make sense of category, subcategory and attribute codes) the crate's names, codes, octet width and fallback are those of the tables of SISO-REF-010 / IEEE 1278.1: each code is read as the variant of that name, every other number of that width as the fallback, and each variant is written as its code in that width, most significant octet first; no variant is missing from the tables.", "quantifier": "402 enumerations (all that have variants), every variant, every number of the field's width, all trailing octets", "why_tests_cant": "up to 2^32 numbers per field; tests check a handful of variants", "anchors": ["src/common/enums.rs"]}
{"id": "C48", "title": "Every field is at its octets", "statement": "In the octets a successful serialize appends, every header field and every body field up to the first list stands at the octet offset and in the width of the layout table of its kind, most significant octet first (except the two fields always sent as zeros), and every list element of fixed size and every variable datum record starts where the table says; moreover the whole message, lists of records with lists included, is exactly the sequence of fields a separate listing gives, octet for octet; whenever a decoder succeeds, every such field has the value its octets mean (unknown codes: the default; unknown flags: none). The tables have no gaps and end where the fixed part ends; for fixed-layout kinds, headers and fixed-size records they also leave out no field; and for every kind with a fixed-size decoder two messages whose octets mean the same in all rows decode to the same PDU. In the five kinds with a variable decoder the counted part is, in one way only, the record sets, variable records or modulation parameters decoded, with the counts and lengths the octets give, and what follows is left unread; together with the rows it determines the PDU. An EntityStatePdu with an 11-octet marking has its capabilities at octet 140 and articulation parameter i at 144+16i.", "quantifier": "all values of all 66 kinds, both headers and 58 record types; all byte strings; all list positions", "why_tests_cant": "a swapped or shifted pair of fields survives every round-trip test; offsets must hold for every value and every list length", "anchors": ["src/pdu_macro.rs: define_pdu! (serialize, deserialize)", "all 66 PDU structs in src/{entity_information,entity_management,information_operations,distributed_emissions,logistics,minefield,radio_communications,synthetic_environment,warfare,simulation_management,simulation_management_with_reliability}.rs", "src/common/data_types/*.rs", "src/common/pdu_header.rs: PduHeader", "src/common/live_entity_pdu_header.rs"]}
{"id": "C49", "title": "What a relay forwards", "statement": "A program that decodes a message and serializes what it decoded forwards: exercise, type, time stamp, status and padding as received, the version as received (an unknown one as 7), the family code of the kind, and as length the number of octets forwarded; every body field as received, except that meaningless enumeration codes become the default, flag sets with unknown bits empty and the always-zero fields zero. Where the decoder reads a fixed number of octets the relay never fails, and forwards exactly the fixed part: lists are dropped although their counts are forwarded; the octets forwarded equal those received exactly when version, family, length and every body field are such that nothing is replaced. Where it reads counted parts (record sets, variable records, modulation parameters) those are forwarded octet for octet, and the whole message is under the same conditions. Of an entity state message the marking is replaced by a decimal number, and the capabilities by four octets of the marking.", "quantifier": "all byte strings decoded by any kind, all buffers, both build profiles", "why_tests_cant": "composition of two codecs over all inputs, including malformed ones; tests only send PDUs the crate made itself", "anchors": ["src/pdu_macro.rs: define_pdu! (serialize, deserialize)", "all 66 PDU structs in src/{entity_information,entity_management,information_operations,distributed_emissions,logistics,minefield,radio_communications,synthetic_environment,warfare,simulation_management,simulation_management_with_reliability}.rs", "src/common/pdu_header.rs: PduHeader"]}
{"id": "C50", "title": "Dynamic PDUs and the book's receiver", "statement": "A PDU seen through as_any is found again by downcasting to its own kind, unchanged, and by no other kind. The receiver printed in the book prints the acknowledge PDU the book's sender sent; it prints any PDU its decoder accepts in a datagram of at most 1204 octets. False of the code, though one would rely on it: that it notices truncated datagrams (missing octets count as zeros: three octets are enough) or survives an empty one (it then spins forever); and the book's sender, which ignores the result of serialize, sends just such an empty datagram whenever a PDU is refused for its size, and in no other case. With another of the 56 kinds that are always decodable in place of the acknowledge PDU, the receiver prints the PDU with the fields that decoding keeps, up to 1204 octets.", "quantifier": "all PDU values, all kinds, all datagrams, both build profiles", "why_tests_cant": "all datagrams of all lengths; non-termination cannot be observed by a test", "anchors": ["src/pdu_macro.rs: define_pdu! (as_any)", "src/common/pdu.rs: Pdu::as_any", "book/src/guides/receiving-pdus.md", "book/src/guides/sending-pdus.md"]}
{"id": "C51", "title": "Equality", "statement": "What `==` tells: on every enumeration, flag set, error state and status record, on addresses, entity identifiers, entity types and both headers it holds exactly between values written as the same octets (so a header with another time stamp, length or padding is another header). On vectors, grid axes and grid values it holds exactly when all integers and lists agree and all floating-point members are the same number: equal values, +0 and -0 alike, an infinity only to itself, NaN to nothing. It is symmetric and transitive everywhere; a vector (or an axis) sent and received is equal to the original exactly if it contains no NaN; vectors that are equal and have no zero component are written as the same octets.", "quantifier": "all values of all types of the crate with ==, all enumerations", "why_tests_cant": "2^96 pairs of vectors and more; NaN and signed zeros are the cases tests omit", "anchors": ["src/common/enums.rs", "src/common/pdu_header.rs", "src/common/live_entity_pdu_header.rs", "src/common/data_types/entity_id.rs", "src/common/data_types/entity_type.rs", "src/common/data_types/simulation_address.rs", "src/common/data_types/vector3_float.rs", "src/common/data_types/grid_axis_descriptor.rs", "src/common/data_types/grid_data_record.rs", "src/common/dis_error.rs: PduState"]}
{"id": "C52", "title": "What a decoder returns is no larger than what it read", "statement": "Whatever octets arrive: a PDU a decoder returns counts exactly the octets the decoder took (calculate_length of it, or the number in the size error it returns), at least the 12 of a header, so no message can make a decoder return more data than the message has and every decoded PDU brings a receiver forward; entity state messages take 133 octets and count as 144. A decoded record with a counted list has as many elements as its count says, is encoded in as many octets as were taken, and (overflow checked) is encoded and decoded again to itself; decoded axis descriptors and grid data have the data their type announces. The exception: a decoded variable datum holds twice as many octets of value as were taken for it.", "quantifier": "all byte strings, all 66 kinds, all counted records, both build profiles", "why_tests_cant": "counts and lengths come from the message and range over 2^32 values; only an argument over all messages excludes amplification", "anchors": ["src/pdu_macro.rs: define_pdu! (deserialize, calculate_length)", "all 66 PDU structs in src/{entity_information,entity_management,information_operations,distributed_emissions,logistics,minefield,radio_communications,synthetic_environment,warfare,simulation_management,simulation_management_with_reliability}.rs", "src/common/data_types/*.rs: deserialize", "src/common/data_types/datum_records.rs: VariableDatumRecord::deserialize"]}
{"id": "C53", "title": "The size of every message, list by list", "statement": "The number calculate_length returns, and a successful serialize puts into the header, is the fixed size of the kind plus, for every list, the number of its elements times the octets of an element (an emission system 20, a beam 52, a target 8; a variable parameter 16; a datum 8 and its value; and so on, for every list, nested list and optional value of every kind); a message is refused exactly when this is more than 65535. The octets actually appended are the same number, except that an entity state's marking has the length of its text, datum values are padded to a multiple of eight octets, record sets have length times count octets of values, and grid data has two octets more per record.", "quantifier": "all values of all 66 kinds, lists and nested lists of any length, both build profiles", "why_tests_cant": "list lengths are unbounded; a wrong element size shows only in messages with that list, and tests send none with nested lists", "anchors": ["src/pdu_macro.rs: define_pdu! (calculate_length, serialize)", "all 66 PDU structs in src/{entity_information,entity_management,information_operations,distributed_emissions,logistics,minefield,radio_communications,synthetic_environment,warfare,simulation_management,simulation_management_with_reliability}.rs", "src/common/data_types/*.rs: FieldLen"]}
{"id": "C54", "title": "What a panic leaves behind", "statement": "A program that survives a panic (a worker thread, catch_unwind) finds its buffer in a known state. Whether a decoder returns or panics, the octets still in the input are the end of what was there, none changed and none taken but from the front; after the panic on a message that is too short fewer than eight octets are left, after a short header exactly those of its first incomplete field. Whether serialize returns, refuses or panics, the output begins with what was there before, unchanged, and what follows does not depend on it. When serialize panics (only record sets can make it) at least 40 octets of the message have been appended: a complete header announcing the declared length, which a reader of the stream would believe, with fewer octets after it; exactly, the beginning of the message up to the record set at which it panics. The PDU on which the call panicked is unchanged but for the type, family and length in its header, filled in as by a successful call; serializing it again, into any buffer, does exactly the same again.", "quantifier": "all byte strings, all values of all 66 kinds and all records, all buffers, both build profiles", "why_tests_cant": "the crash point depends on the data; every one of them must leave the buffers as stated", "anchors": ["src/pdu_macro.rs: define_pdu! (serialize, deserialize)", "all 66 PDU structs in src/{entity_information,entity_management,information_operations,distributed_emissions,logistics,minefield,radio_communications,synthetic_environment,warfare,simulation_management,simulation_management_with_reliability}.rs", "src/common/data_types/*.rs", "src/common/data_types/record_specification_element.rs"]}
{"id": "C55", "title": "Work and memory bounded by the input", "statement": "Whatever octets arrive, and whether a decoder returns or panics: it makes at most as many reads as there are octets, each of at least one octet, and never takes an octet twice; counts in the message cannot make it loop longer than the message lasts. No decoder but two reserves memory before it has read what goes there. Those two (information operations report and action) reserve room for as many records as a 16-bit count says, at most 65535, even in a message that ends there. Decoded by itself, a variable datum record allocates the octets its length says, up to 2^29, before it reads any; an eight-octet input is enough.", "quantifier": "all byte strings, all 66 kinds, all records, both build profiles", "why_tests_cant": "counts range over 2^32 values and the attacker chooses them; no finite set of messages bounds the work or memory", "anchors": ["src/pdu_macro.rs: define_pdu! (deserialize)", "all 66 PDU structs in src/{entity_information,entity_management,information_operations,distributed_emissions,logistics,minefield,radio_communications,synthetic_environment,warfare,simulation_management,simulation_management_with_reliability}.rs", "src/common/data_types/standard_variable_specification.rs: deserialize_field", "src/common/data_types/datum_records.rs: VariableDatumRecord::deserialize"]}
{"id": "C56", "title": "Debug and release builds agree", "statement": "For every kind but the two with record sets, a build with integer overflow checks and one without behave the same: serialize, deserialize, deserialize_without_header, the record and header codecs, get_pdu_type and the time stamp have the same results, panic on the same inputs and leave the same octets in their buffers. For the two with record sets they differ only in that the checked build panics: what an unchecked build decodes, a checked build decodes to the same PDU if record_length*record_count fits 16 bits in every set, and panics on otherwise; so a message can be readable by one build and not by the other.", "quantifier": "all values of all 66 kinds and all records, all byte strings, all buffers, both build profiles", "why_tests_cant": "tests run in one profile; the claim compares two executions on every input", "anchors": ["src/pdu_macro.rs: define_pdu! (serialize, deserialize)", "all 66 PDU structs in src/{entity_information,entity_management,information_operations,distributed_emissions,logistics,minefield,radio_communications,synthetic_environment,warfare,simulation_management,simulation_management_with_reliability}.rs", "src/common/data_types/record_specification_element.rs", "src/common/pdu_header.rs: calculate_dis_timestamp, get_pdu_type"]}
{"id": "C57", "title": "What a program can come by", "statement": "By whatever calls and assignments a program that uses the crate comes by a PDU (constructors, decoders, public fields, header_mut, finalize, serialize, in any order): it can come by every value of 64 of the 66 kinds, private padding included; of transmitter PDUs exactly those with at most 255 octets of modulation parameters and at most 65535 of antenna pattern; of aggregate state PDUs exactly those without padding. Modulation parameters and antenna patterns, whose content is private, can be come by exactly up to those sizes; every header, directed energy damage and linear segment record can. Assigning the fields a program can name changes those and leaves exactly the padding fields as they were. So the silent loss of long modulation parameters (C29) happens to no such program: the length transmitted is the number of octets and the parameters are received.", "quantifier": "all finite sequences of public operations, all values of all 66 kinds", "why_tests_cant": "reachability over all histories of calls and assignments; a test exhibits single histories and can never show that a value is out of reach", "anchors": ["src/pdu_macro.rs: define_pdu! (struct, header_mut, serialize, deserialize)", "all 66 PDU structs in src/{entity_information,entity_management,information_operations,distributed_emissions,logistics,minefield,radio_communications,synthetic_environment,warfare,simulation_management,simulation_management_with_reliability}.rs", "src/common/data_types/modulation_parameters.rs", "src/common/data_types/antenna_pattern.rs", "src/common/data_types/directed_energy_damage.rs", "src/common/data_types/linear_segment_parameter.rs", "src/common/pdu_header.rs: PduHeader"]}
{"id": "C58", "title": "A message with true counts has one meaning", "statement": "If the counts and lengths in two PDUs are true (each count is that of its list, each length that of its value, a marking has its eleven octets, optional mine data are present as the data filter says, grid values are padded as the standard says), then what is written for the one never begins what is written for the other unless they are the same message: the same kind, header and fields (but for the fields of which nothing is sent), followed by the same octets. So there is a receiver that, told nothing of the kind, finds message and rest in whatever begins with such a message, even where the crate's own decoder does not (entity state, gridded data, all kinds with lists) and where the length field is wrong; and two senders whose buffers hold the same octets sent the same messages in the same order. Without true counts it is false: a set-data PDU with true counts and one without share their octets.", "quantifier": "all pairs of values of all 66 kinds with true counts, all sequences of them, all that follows, both build profiles", "why_tests_cant": "pairs of unbounded nested lists; a collision between two messages is not found by sampling", "anchors": ["src/pdu_macro.rs: define_pdu! (serialize)", "all 66 PDU structs in src/{entity_information,entity_management,information_operations,distributed_emissions,logistics,minefield,radio_communications,synthetic_environment,warfare,simulation_management,simulation_management_with_reliability}.rs", "src/common/data_types/*.rs: serialize"]}
{"id": "C59", "title": "The examples under every schedule", "statement": "The UDP client shows the PDU of the first non-empty datagram, once, and ends when that has happened and its send is complete, however its two concurrent tasks are interleaved; the first failing call ends it with its error; it never panics; nothing later alters the outcome. With any number of clients, any other hosts sending anything, and a network that loses, delays, reorders and duplicates: a client never shows a PDU other than the one it made itself, nor before sending it; one that ended without error has shown it; the echo server never panics; and from every state in which server and client run, the client can still be served to the end. The radio client sends its PDUs in order and stops at the first failing send; every line the radio server prints under a client's address tells of a PDU that client said it had sent, with its values; while only clients send, the server does not panic, and whatever has been sent can still be reported.", "quantifier": "all interleavings of completions, all reachable states of systems of any number of clients, all losses, delays, reorderings, duplications and I/O errors", "why_tests_cant": "schedules and network behaviours are unboundedly many; a test runs one", "anchors": ["examples/udp_client.rs: connect, send, recv", "examples/udp_server.rs: Server::run", "examples/radio_processing_client.rs: send_pdu, send", "examples/radio_processing_server.rs: Server::run"]}
{"id": "C60", "title": "Damage is confined", "statement": "Octets of a message are altered on the way, any of them but the type, none lost. A decoder that reads a fixed number of octets (61 kinds) decodes it still, leaves the same number of octets, and every field of which no octet was altered has its value, so a single altered octet alters one field at most. If only the header was altered, everything else is as it was, for all 66 kinds; if only what follows the header, the header is. Of the kinds with a counted part: altered modulation parameters of a transmitter differ just in those octets, and damage before record sets or variable records leaves the records as they were, provided in both cases the count was spared. An altered type is refused, with an error naming both types, never taken for another kind. Conversely what serialize writes for two messages of one kind is the same wherever they have a field in common; for the 20 kinds of fixed layout the octets differ within the fields that differ, and nowhere else.", "quantifier": "all byte strings and all ways of altering them, all 66 kinds, all pairs of messages, both build profiles", "why_tests_cant": "every set of positions and values; fields that share an octet or a decoder step that depends on another field's value show only for the right pair", "anchors": ["src/pdu_macro.rs: define_pdu! (serialize, deserialize)", "all 66 PDU structs in src/{entity_information,entity_management,information_operations,distributed_emissions,logistics,minefield,radio_communications,synthetic_environment,warfare,simulation_management,simulation_management_with_reliability}.rs", "src/common/pdu_header.rs", "src/common/data_types/*.rs"]}
{"id": "C61", "title": "Under fairness the examples deliver", "statement": "In every infinite execution of the echo server with any number of clients, whatever is reordered, duplicated, sent by other hosts or happens to other clients: if the server keeps running, no call of one client fails, and neither its send call, nor its datagram, nor an answer to it is put off for ever, then that client ends, having shown the PDU it sent. In every infinite execution of the radio programs in which the server keeps running and a client's datagrams are not put off for ever, each PDU the client says it has sent is in the end reported by the server under its address with its values, even if a later call of the client fails; if none fails and its calls are not put off, the client ends and all five are reported. Such executions exist for every setting.", "quantifier": "all infinite executions that are fair to the client in question, any number of clients", "why_tests_cant": "liveness is a property of infinite executions; no finite test can confirm it", "anchors": ["examples/udp_client.rs: connect, send, recv", "examples/udp_server.rs: Server::run", "examples/radio_processing_client.rs: send_pdu, send", "examples/radio_processing_server.rs: Server::run"]}
{"id": "C62", "title": "PDUs that a user defines", "statement": "A program can make its own PDU types with define_pdu!. Whatever the field types do: a value whose fields claim more than 65523 octets is refused with PduSizeExceeded and the buffer untouched; otherwise the header declares 12 plus what the fields claim; fields that no #[len = ...] names are never changed, a length field holds the length of the (last) field that names it, or 0 if that is over 255; serializing again changes nothing and appends the same; input of fewer than 12 octets panics, input of another type is refused with both names after taking just the header, input of its type is never refused (a PDU of type Other also accepts the unassigned type codes); new() has the defaults of all fields and declares what they claim. If each field type appends its octets to whatever is there and claims their number, serialize never panics and appends the header and the fields in order, and the header declares just that number. If moreover each of the first fields is read back from its octets (an annotated one when told their number, which must be at most 255, with a length field of its own) and the rest are unread (unannotated lists, strings, optional values), then decoding returns the header and the first fields as sent, the rest empty, and leaves exactly their octets; if all are read back, the same PDU and nothing left. Each of the crate's 66 kinds is what the macro makes of its field list.", "quantifier": "all field lists, all field types with any trait implementations, all values, all buffers, both build profiles", "why_tests_cant": "the macro is code over an unbounded family of field lists and user-supplied trait implementations; tests instantiate it finitely often", "anchors": ["src/pdu_macro.rs: define_pdu!, __pdu_prep_serialize_field!, __pdu_deserialize_field!, FieldSerialize, FieldDeserialize, FieldLen, FieldDeserializeWithLen", "all 66 PDU structs in src/{entity_information,entity_management,information_operations,distributed_emissions,logistics,minefield,radio_communications,synthetic_environment,warfare,simulation_management,simulation_management_with_reliability}.rs"]}
{"id": "C63", "title": "Any source of octets", "statement": "Decoding takes any source that implements Buf, and does the same on all of them. The decoders of the 66 kinds, with and without a header, of the records, headers and enumerations, and of a user's definitions whose fields are such, are written against get_* and remaining only; every such decoder has, on any source that keeps Buf's contract, the result (the value, the error or the panic) that it has on one slice with the same octets, and leaves the source holding the same octets. Slices, chains of sources and limited sources keep that contract. So a message may arrive in any number of pieces, empty ones among them, cut anywhere, also within a field: it is found again. When decoding from source.take(n), nothing beyond the n octets is taken, and after skipping what is left of the limit the source stands exactly behind them, even if the decoder panicked; so messages can be decoded one after the other from any source by a receiver that knows their sizes, also those kinds whose decoder leaves octets unread.", "quantifier": "all sources that keep the contract of Buf, all ways of cutting the octets into pieces, all inputs, all 66 kinds, both build profiles", "why_tests_cant": "sources are an open family of types, and the cuts of a message are exponentially many; tests use one contiguous buffer", "anchors": ["src/common/pdu.rs: Pdu::deserialize, deserialize_without_header", "src/pdu_macro.rs: FieldDeserialize, FieldDeserializeWithLen, define_pdu! (deserialize_body)", "src/common/data_types/*.rs: deserialize", "src/common/enums.rs: deserialize"]}
{"id": "C64", "title": "A receiver for every kind", "statement": "A receiver built on the API as the book suggests - look at the type with PduHeader::get_pdu_type, at the length with PduHeader::deserialize, cut off that many octets, decode them with the decoder of that type - works on any stream of octets: it always comes to an end, with at most one message per 12 octets, no octet lost or used twice, and reports of each message what it would report of it alone; damage to one message that leaves its length alone changes the report of that message only; it does not matter in what pieces the octets arrive; a message is reported as a PDU of the kind whose type its octet 2 codes, with the length and type of its own header, or as a panic of that decoder, never as an error of it, or as unknown when no kind has that type. For PDUs of any kinds sent one after another, none writing beyond its declared length, it reports exactly one message each, in order, with the header sent; if their values are decodable, the PDUs themselves but for the trailing lists. Entity state PDUs with an 11-octet marking keep it in step too, but are reported with another marking. A header with a length below 12 stops such a receiver for good.", "quantifier": "all streams of octets, all ways of cutting them into pieces, all sequences of PDUs of any length and of all kinds, both build profiles", "why_tests_cant": "streams, arrival schedules and sequences of PDUs are unbounded; a test decodes one message of a known kind", "anchors": ["src/common/pdu_header.rs: PduHeader::get_pdu_type, PduHeader::deserialize", "src/common/pdu.rs: Pdu::serialize, Pdu::deserialize", "book/src/guides/receiving-pdus.md"]}
{"id": "C65", "title": "Create, edit, send", "statement": "What the book promises about creating a PDU: make it with new, assign to its fields, send it. Whatever the kind and the values, if the octets of a serialized PDU are decoded at all, the receiver finds the header that was sent and, in every field of the layout tables, exactly the value the sender had in it - but for the fields of which only zeros are sent, and the flag sets of three kinds, which arrive empty if a bit without a name is set. Fields in which two PDUs do not differ do not differ at the receivers. For the kinds of fixed layout (but stop/freeze) nothing needs to be done after new and any assignments to the body: serializing succeeds and leaves the PDU as it is, and it is received whole; in particular the book's acknowledge PDU, with any numbers. The book also says all 72 PDUs are implemented. False of the code: type codes 46 to 50 and 63 have none; the other 66 of the codes 1 to 72 have exactly one each.", "quantifier": "all 66 kinds, all values of all fields, all time stamps, any octets behind the message, both build profiles on either side", "why_tests_cant": "values and combinations of edits are unbounded; tests check some fields of one value", "anchors": ["book/src/guides/creating-a-pdu.md", "src/common/pdu.rs: Pdu", "src/pdu_macro.rs: define_pdu! (new, serialize, deserialize)", "src/common/pdu_header.rs: PduHeader"]}
{"id": "C66", "title": "A receiver that gets the whole message", "statement": "The crate's decoders leave the lists at the end of a message in the buffer. A program that reads them from there - with the records' own decoders and the counts in the message, or by the length in the header where there is a single list of fixed-size records; and number by number where the crate's decoder does not read what its encoder writes (variable datums, variable transmitter parameters, irregular grid axes, grid data; entity state, aggregate state, areal object state and stop/freeze PDUs) - gets any PDU of any kind back complete, all lists included, exactly as the sender has it after sending (but for the fields of which nothing is sent), whatever follows it, which is left untouched; without being told the kind; and any number of PDUs one after another, padded or not, in whatever pieces their octets arrive: at any time it has every PDU that has arrived completely, a message cut short is never taken for one, and on any octets at all neither the pieces nor what follows change what is received. So PDUs whose counts and lengths are true and that come to 65535 octets at most are always sent, with the values filled in, and received complete. The decoder of variable transmitter parameters, by contrast, makes a record of type 0 without fields of anything its encoder writes, and leaves the rest.", "quantifier": "all 66 kinds, all values with true counts, lists and nested lists of any length, all sequences of PDUs, all ways of cutting them into pieces, any octets behind them, both build profiles on either side", "why_tests_cant": "lists, nesting and sequences are unbounded; a wrong element decoder, order or count shows only with the right lists present, and tests decode none", "anchors": ["src/pdu_macro.rs: define_pdu! (serialize, deserialize)", "all 66 PDU structs in src/{entity_information,entity_management,information_operations,distributed_emissions,logistics,minefield,radio_communications,synthetic_environment,warfare,simulation_management,simulation_management_with_reliability}.rs", "src/common/data_types/*.rs: serialize, deserialize", "src/common/data_types/variable_transmitter_parameters.rs", "src/common/pdu_header.rs: PduHeader::get_pdu_type"]}
{"id": "C67", "title": "Where a standard receiver reads something else", "statement": "Desired: a simulator that follows IEEE 1278.1 reads in the crate's messages what the sender put there. False of the code for the following, exactly so. Data queries hold whole datum records where the standard has identifiers: of n fixed datums asked for, the receiver takes for the identifiers the first n of identifier, value, identifier, value, ... - right for one record, wrong for more unless the first value is the second identifier. Minefield NACKs hold eight octets per missing PDU instead of one: with up to seven, all below 256, the receiver is told that number 0 is missing, as often. Minefield sensor types have one octet instead of two: two are taken for one. Linear object segments have a general appearance of 32 bits instead of 16: the receiver takes its upper half (0 for any value the standard has room for), reads the specific appearance across the two, and takes the second segment's number from the first's padding. Acoustic emitter systems lack length, number of beams and location: the octets of the name are taken for length and number of beams. The entity capabilities, a field of bits, hold a number up to 12: no capability from the fifth bit on can be reported. IFF messages always have layer 2, and one with layer 1 only, as the standard allows, makes the decoder panic.", "quantifier": "all values of these kinds that serialize, lists of any length, all buffers, all 60-octet inputs, both build profiles", "why_tests_cant": "a round-trip test with the crate on both ends cannot see a format that differs from the standard's; the claim is about every message", "anchors": ["src/simulation_management.rs: DataQueryPdu", "src/minefield.rs: MinefieldQueryPdu, MinefieldDataPdu, MinefieldResponseNackPdu", "src/synthetic_environment.rs: LinearObjectStatePdu", "src/common/data_types/linear_segment_parameter.rs", "src/distributed_emissions.rs: UnderwaterAcousticPdu, IFFPdu", "src/common/data_types/acoustic_emitter_system.rs", "src/entity_information.rs: EntityStatePdu"]}
{"id": "C68", "title": "What is printed tells what was there", "statement": "Everything in the crate can be printed with {:?} and, indented, with {:#?}. In either form two PDUs of a kind print the same text exactly when they agree in the header and in every field, up to the payload of NaNs (all print as NaN) and the two reserved bits of the status record, which are not printed whatever they are; so for the 39 kinds without floating-point fields, and the reserved bits clear, exactly when they are equal. PDUs of different kinds never print the same. The same holds for the headers, all records, the flag sets (unnamed bits are shown in hexadecimal) and the values of all 402 enumerations. What {:?} prints is always on one line, and {:#?} tells exactly as much.", "quantifier": "all pairs of values of all 66 kinds, all records, flags and enumerations; all texts of floating-point numbers and strings that keep the standard library's contract", "why_tests_cant": "injectivity of a printer over unbounded nested lists; a test compares a few texts", "anchors": ["src/pdu_macro.rs: define_pdu! ($(#[$meta])*)", "all 66 PDU structs in src/{entity_information,entity_management,information_operations,distributed_emissions,logistics,minefield,radio_communications,synthetic_environment,warfare,simulation_management,simulation_management_with_reliability}.rs", "src/common/data_types/*.rs: derive(Debug)", "src/common/enums.rs: derive(Debug), bitflags!", "src/common/pdu_header.rs: PduStatusRecord, PduHeader"]}
{"id": "C69", "title": "What the examples print can be read", "statement": "The text that the radio example prints can be taken apart again, whatever was received, from whom and how often: two logs have the same text exactly when they have the same lines, and two lines have the same text exactly when they are of the same sort and show the same peer (by its text), entity and numbers, up to the payload of a NaN; no line is broken by what is in it. The echo server's lines tell how many datagrams it has sent back, of which sizes and to whom; the radio client's which PDUs it has sent; what the UDP client shows tells which acknowledgment it has received, but for the two reserved status bits.", "quantifier": "all sequences of log lines of any length, all values in them, all address texts without spaces", "why_tests_cant": "unbounded output streams; ambiguity between lines or fields shows only for the right pair", "anchors": ["examples/radio_processing_server.rs: Server::run", "examples/radio_processing_client.rs: send", "examples/udp_server.rs: Server::run", "examples/udp_client.rs: recv (dbg!)", "src/common/data_types/entity_id.rs: derive(Debug)", "src/common/enums.rs: derive(Debug)"]}
{"id": "C70", "title": "How the examples start and end", "statement": "The servers bind to their first argument or, without one, to 127.0.0.1:3000, before anything else; the clients bind a socket of the family of the address they are to reach, at no particular address and port, and connect it to 127.0.0.1:3000 - which is where a server without an argument is. If the socket cannot be set up, a program ends with that error and exit code 1 and has neither sent, shown nor printed anything. Otherwise a server first prints the address it listens on and then serves; its whole output tells whether and where it listened, and what it did. A server never ends with exit code 0; the echo server never ends by a panic, the radio server exactly if it receives, before a receive call fails, a whole header of radio type followed by too few octets. The UDP client ends with exit code 0 only if it has sent its message and shown an answer, the radio client exactly if all five messages were sent, which it has then said; neither panics. From start to end: if the UDP client's datagram and the answer arrive and no call fails, the client ends with exit code 0 having shown the PDU it sent, in whatever order its calls complete. A text is taken for an IPv4 address exactly if it is four numbers below 256 without leading zeros, with dots between them, a colon, and a port below 65536.", "quantifier": "all arguments, all answers of the operating system to every call, everything that can arrive, all texts, both build profiles", "why_tests_cant": "the failures of system calls and what arrives afterwards are the environment's choice; tests start no program", "anchors": ["examples/udp_server.rs: main, Server::run", "examples/udp_client.rs: main, connect", "examples/radio_processing_server.rs: main, Server::run", "examples/radio_processing_client.rs: main, connect, send"]}
