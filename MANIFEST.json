{
 "claims": [
  {
   "property": "C01",
   "status": "proved",
   "theorems": [
    "Dis.C01_header_roundtrip"
   ],
   "note": "All header values, all buffers, all trailing octets."
  },
  {
   "property": "C02",
   "status": "proved",
   "theorems": [
    "Dis.C02_header_layout"
   ],
   "note": "All twelve octets stated one by one."
  },
  {
   "property": "C03",
   "status": "proved",
   "theorems": [
    "Dis.C03_get_pdu_type_short",
    "Dis.C03_get_pdu_type"
   ],
   "note": "Both cases of the length, agreement with the header decoder included."
  },
  {
   "property": "C04",
   "status": "proved",
   "theorems": [
    "Dis.C04_inexact_kinds",
    "Dis.C04_entity_state",
    "Dis.C04_datum_kinds",
    "Dis.C04_record_set_kinds",
    "Dis.C04_gridded_data",
    "Dis.C04_declared_length_all_kinds",
    "Dis.C04_declared_length"
   ],
   "note": "48 kinds exact; for the other 18 the discrepancy is proved exactly, kind by kind (Spec/Surplus). The plain claim for all kinds is false of the code; examples beside the theorems exhibit it."
  },
  {
   "property": "C05",
   "status": "proved",
   "theorems": [
    "Dis.C05_append_only",
    "Dis.C05_records"
   ],
   "note": "All kinds and all record types."
  },
  {
   "property": "C06",
   "status": "proved",
   "theorems": [
    "Dis.C06_refused_iff",
    "Dis.C06_refused_atomically",
    "Dis.C06_length_not_truncated"
   ],
   "note": "Exact: refused iff the length exceeds 65535; effect of refusal on buffer and PDU stated completely."
  },
  {
   "property": "C07",
   "status": "proved",
   "theorems": [
    "Dis.C07_no_8192_limit",
    "Dis.C07_documented_maximum_violated",
    "Dis.C07_actual_maximum"
   ],
   "note": "The desired limit (8192) is false of the code: C07_documented_maximum_violated. C07_no_8192_limit and C07_actual_maximum give the true bound and that it is attained."
  },
  {
   "property": "C08",
   "status": "proved",
   "theorems": [
    "Dis.C08_touches_only_bookkeeping",
    "Dis.C08_transmitter",
    "Dis.C08_idempotent"
   ],
   "note": "All kinds; the transmitter's length field separately."
  },
  {
   "property": "C09",
   "status": "proved",
   "theorems": [
    "Dis.C09_short_panics",
    "Dis.C09_foreign_type_refused",
    "Dis.C09_own_type_accepted",
    "Dis.C09_ok_only_own_type"
   ],
   "note": "All byte strings split into: short, foreign type, own type."
  },
  {
   "property": "C10",
   "status": "proved",
   "theorems": [
    "Dis.C10_one_decoder",
    "Dis.C10_foreign_messages_refused"
   ],
   "note": "All pairs of kinds."
  },
  {
   "property": "C11",
   "status": "proved",
   "theorems": [
    "Dis.C11_roundtrip",
    "Dis.C11_roundtrip_stop_freeze",
    "Dis.C11_roundtrip_stop_freeze_reliable"
   ],
   "note": "All fixed-layout kinds; the two kinds with flag sets with the exact condition."
  },
  {
   "property": "C12",
   "status": "proved",
   "theorems": [
    "Dis.C12_areal_object_state",
    "Dis.C12_information_operations_report",
    "Dis.C12_information_operations_action",
    "Dis.C12_information_operations_report_counted",
    "Dis.C12_information_operations_action_counted",
    "Dis.C12_transfer_ownership",
    "Dis.C12_set_record",
    "Dis.C12_transfer_ownership_counted",
    "Dis.C12_set_record_counted",
    "Dis.C12_variable_records_iff",
    "Dis.C12_record_sets_iff",
    "Dis.C12_survives",
    "Dis.C12_survives_all_kinds",
    "Dis.C12_lossy",
    "Dis.C12_entity_state",
    "Dis.C12_entity_state_marking_lost"
   ],
   "note": "Full round-trip is false of the code for every kind with lists (C12_lossy). What survives is proved for all 66 kinds: 56 unconditionally, the others with the exact condition (Conditional.lean), entity state separately."
  },
  {
   "property": "C13",
   "status": "proved",
   "theorems": [
    "Dis.C13_aggregate_state",
    "Dis.C13_count_misread"
   ],
   "note": "The desired property is false of the code (C13_count_misread); C13_aggregate_state is the exact behaviour."
  },
  {
   "property": "C14",
   "status": "proved",
   "theorems": [
    "Dis.C14_transmitter",
    "Dis.C14_record_sets",
    "Dis.C14_variable_records",
    "Dis.C14_records",
    "Dis.C14_panics_iff_short",
    "Dis.C14_entity_state",
    "Dis.C14_only_underflow"
   ],
   "note": "Fixed-size decoders: Properties/RoundTrip and Records. Variable ones: Spec/Needs says how many octets are needed as a function of the octets present."
  },
  {
   "property": "C15",
   "status": "proved",
   "theorems": [
    "Dis.C15_ignores_what_follows",
    "Dis.C15_entity_state_depends_on_rest"
   ],
   "note": "All kinds but EntityState, for which it is false (C15_entity_state_depends_on_rest)."
  },
  {
   "property": "C16",
   "status": "proved",
   "theorems": [
    "Dis.C16_decode",
    "Dis.C16_empty"
   ],
   "note": "All 402 enumerations with variants; the three without variants panic (C16_empty)."
  },
  {
   "property": "C17",
   "status": "proved",
   "theorems": [
    "Dis.C17_codes_distinct_and_fit",
    "Dis.C17_roundtrip"
   ],
   "note": "All variants of all enumerations, by a generic theorem whose side conditions are checked over the complete tables."
  },
  {
   "property": "C18",
   "status": "proved",
   "theorems": [
    "Dis.C18_marking",
    "Dis.C18_roundtrip"
   ],
   "note": "The members of Spec/RecordTable; irregular records: C18_marking, C26, C27, C28, C30, C35."
  },
  {
   "property": "C19",
   "status": "proved",
   "theorems": [
    "Dis.C19_lists",
    "Dis.C19_fixed"
   ],
   "note": "The members of the tables; discrepancies: C18_marking, C27_length, C30_length, C35_grid_data."
  },
  {
   "property": "C20",
   "status": "proved",
   "theorems": [
    "Dis.C20_indicator_u8",
    "Dis.C20_set",
    "Dis.C20_history",
    "Dis.C20_get",
    "Dis.C20_set_get",
    "Dis.C20_raw_setter",
    "Dis.C20_getters_determine",
    "Dis.C20_octet",
    "Dis.C20_generated_setters",
    "Dis.C20_generated_getters",
    "Dis.C20_specifiers",
    "Dis.C20_specifiers_gaps"
   ],
   "note": "All octets, all indicators, all histories; C20_indicator_u8 for the conversions to u8."
  },
  {
   "property": "C21",
   "status": "proved",
   "theorems": [
    "Dis.C21_new_received",
    "Dis.C21_new_received_entity_state",
    "Dis.C21_new_header",
    "Dis.C21_new_serializes",
    "Dis.C21_new_octets",
    "Dis.C21_default_header",
    "Dis.C21_default_serializes"
   ],
   "note": "All kinds, all clock readings, all octets."
  },
  {
   "property": "C22",
   "status": "proved",
   "theorems": [
    "Dis.C22_independent",
    "Dis.C22_sequence",
    "Dis.C22_stops_at_refused",
    "Dis.C22_stops_at_foreign"
   ],
   "note": "Sequences of any length and mix, and where a reader of a stream stops."
  },
  {
   "property": "C23",
   "status": "proved",
   "theorems": [
    "Dis.C23_framing",
    "Dis.C23_exact_kinds",
    "Dis.C23_entity_state",
    "Dis.C23_receiver",
    "Dis.C23_frame_iff",
    "Dis.C23_inexact_never_found",
    "Dis.C23_desynchronised"
   ],
   "note": "Sequences of any length. Also the negative direction: an inexact message is never found."
  },
  {
   "property": "C24",
   "status": "proved",
   "theorems": [
    "Dis.C24_records",
    "Dis.C24_stable",
    "Dis.C24_counted",
    "Dis.C24_entity_state",
    "Dis.C24_set_record_unchecked",
    "Dis.C24_transfer_ownership_unchecked"
   ],
   "note": "C24_stable: all kinds but EntityState, the two record-set kinds with overflow checks on; C24_*_unchecked: those two in unchecked builds; C24_entity_state: entity state PDUs, for inputs below 2^64 octets."
  },
  {
   "property": "C25",
   "status": "proved",
   "theorems": [
    "Dis.C25_two_step",
    "Dis.C25_header_stored"
   ],
   "note": "All kinds, all headers."
  },
  {
   "property": "C26",
   "status": "proved",
   "theorems": [
    "Dis.C26_counted",
    "Dis.C26_lens",
    "Dis.C26_iff",
    "Dis.C26_transmitter_parameters"
   ],
   "note": "All counted records; both directions (C26_iff)."
  },
  {
   "property": "C27",
   "status": "proved",
   "theorems": [
    "Dis.C27_datum",
    "Dis.C27_length",
    "Dis.C27_deserialize",
    "Dis.C27_never_round_trips"
   ],
   "note": "The desired property is false of the code; encoder, decoder, length and round-trip are characterised exactly."
  },
  {
   "property": "C28",
   "status": "proved",
   "theorems": [
    "Dis.C28_dead_reckoning",
    "Dis.C28_simulation_identifier"
   ],
   "note": "The desired property is false of the code; exact behaviour proved."
  },
  {
   "property": "C29",
   "status": "proved",
   "theorems": [
    "Dis.C29_parameters",
    "Dis.C29_empty_parameters",
    "Dis.C29_oversized_parameters"
   ],
   "note": "All four cases: absent, 1-255 octets, empty, more than 255 (out of reach of users, C57)."
  },
  {
   "property": "C30",
   "status": "proved",
   "theorems": [
    "Dis.C30_serialize",
    "Dis.C30_deserialize",
    "Dis.C30_roundtrip",
    "Dis.C30_length"
   ],
   "note": "All values, both build profiles, exact."
  },
  {
   "property": "C31",
   "status": "proved",
   "theorems": [
    "Dis.C31_in_range",
    "Dis.C31_monotone",
    "Dis.C31_accuracy",
    "Dis.C31_lags_ieee_units",
    "Dis.C31_not_ieee_field",
    "Dis.C31_torn_reading",
    "Dis.C31_coarse",
    "Dis.C31_readings",
    "Dis.C31_never_ahead"
   ],
   "note": "f32 arithmetic by the exact rounding model in Model/Float32."
  },
  {
   "property": "C32",
   "status": "proved",
   "theorems": [
    "Dis.C32_some_iff",
    "Dis.C32_none_iff",
    "Dis.C32_panics_iff",
    "Dis.C32_history",
    "Dis.C32_io_error",
    "Dis.C32_crash",
    "Dis.C32_sent_is_reported",
    "Dis.C32_radio_traffic",
    "Dis.C32_client_send",
    "Dis.C32_client_and_server"
   ],
   "note": "The example programs as state machines over an arbitrary environment, once their sockets are set up; for the set-up see C70, for the text printed C69."
  },
  {
   "property": "C33",
   "status": "proved",
   "theorems": [
    "Dis.C33_echo",
    "Dis.C33_echo_receive_error",
    "Dis.C33_echo_send_error",
    "Dis.C33_client_no_panic",
    "Dis.C33_client_default",
    "Dis.C33_client_recovers",
    "Dis.C33_exchange"
   ],
   "note": "As C32."
  },
  {
   "property": "C34",
   "status": "proved",
   "theorems": [
    "Dis.C34_positions",
    "Dis.C34_history_freeze",
    "Dis.C34_history_appearance",
    "Dis.C34_history_land_appearance",
    "Dis.C34_freeze",
    "Dis.C34_appearance",
    "Dis.C34_from_bits"
   ],
   "note": "All bit patterns; all histories of insert/remove/toggle calls with named flags. The set operations are those bitflags 2.5 generates, modelled as bit operations."
  },
  {
   "property": "C35",
   "status": "proved",
   "theorems": [
    "Dis.C35_regular_axis",
    "Dis.C35_irregular_axis",
    "Dis.C35_mismatched_regular",
    "Dis.C35_mismatched_irregular",
    "Dis.C35_axis_iff",
    "Dis.C35_grid_data",
    "Dis.C35_grid_layouts"
   ],
   "note": "All records and trailing octets; GridDataRecord never round-trips."
  },
  {
   "property": "C36",
   "status": "proved",
   "theorems": [
    "Dis.C36_records",
    "Dis.C36_injective",
    "Dis.C36_prefix_free",
    "Dis.C36_across_kinds",
    "Dis.C36_two_lists_not_injective"
   ],
   "note": "Fixed-layout kinds and those with one list at the end; false beyond (C36_two_lists_not_injective) unless counts are true (C58)."
  },
  {
   "property": "C37",
   "status": "proved",
   "theorems": [
    "Dis.C37_live_header"
   ],
   "note": "All live-entity headers."
  },
  {
   "property": "C38",
   "status": "proved",
   "theorems": [
    "Dis.C38_limits",
    "Dis.C38_total",
    "Dis.C38_total_overflow",
    "Dis.C38_total_is_declared",
    "Dis.C38_limit_not_enforced",
    "Dis.C38_marking_limit",
    "Dis.C38_reserved"
   ],
   "note": "Both build profiles; the limits are not enforced by serialize (proved). C38_reserved for the reserved identifiers."
  },
  {
   "property": "C39",
   "status": "proved",
   "theorems": [
    "Dis.C39_records",
    "Dis.C39_suffix"
   ],
   "note": "All kinds, all records."
  },
  {
   "property": "C40",
   "status": "proved",
   "theorems": [
    "Dis.C40_serialize_no_panic",
    "Dis.C40_transfer_ownership",
    "Dis.C40_set_record"
   ],
   "note": "64 kinds never panic; the exact panic condition for the other two."
  },
  {
   "property": "C41",
   "status": "proved",
   "theorems": [
    "Dis.C41_rounding_determined",
    "Dis.C41_sum",
    "Dis.C41_difference",
    "Dis.C41_product",
    "Dis.C41_quotient",
    "Dis.C41_dot_rounding",
    "Dis.C41_cross_rounding",
    "Dis.C41_sum_special",
    "Dis.C41_difference_special",
    "Dis.C41_product_special",
    "Dis.C41_quotient_special",
    "Dis.C41_dot_exact",
    "Dis.C41_cross_exact",
    "Dis.C41_commutative",
    "Dis.C41_self_difference",
    "Dis.C41_scale_by_one",
    "Dis.C41_cross_self_not_zero",
    "Dis.C41_magnitude",
    "Dis.C41_root_determined",
    "Dis.C41_normalize_none_iff",
    "Dis.C41_normalize_nan",
    "Dis.C41_normalize_overflow",
    "Dis.C41_normalize_bounded",
    "Dis.C41_normalize_unbounded",
    "Dis.C41_normalize_unit_length",
    "Dis.C41_dot_error",
    "Dis.C41_cross_error",
    "Dis.C41_opposite",
    "Dis.C41_opposite_magnitude",
    "Dis.C41_zero_neutral",
    "Dis.C41_axes",
    "Dis.C41_magnitude_monotone",
    "Dis.C41_magnitude_order",
    "Dis.C41_rounding_monotone",
    "Dis.C41_order",
    "Dis.C41_magnitude_axis",
    "Dis.C41_normalize_axis",
    "Dis.C41_dot_operations",
    "Dis.C41_cross_operations",
    "Dis.C41_products_not_nan",
    "Dis.C41_dot_overflow",
    "Dis.C41_products_nan"
   ],
   "note": "f32 arithmetic by the exact rounding model in Model/Float32, itself proved to be the nearest-even rounding with the IEEE-754 special cases (C41_rounding_determined, C41_*_special); NaN payloads are not modelled."
  },
  {
   "property": "C42",
   "status": "proved",
   "theorems": [
    "Dis.C42_codes"
   ],
   "note": "Codes in Spec/Codes, written from knowledge of SISO-REF-010 (text not in the sandbox)."
  },
  {
   "property": "C43",
   "status": "proved",
   "theorems": [
    "Dis.C43_new",
    "Dis.C43_empty",
    "Dis.C43_empty_decode",
    "Dis.C43_lists",
    "Dis.C43_record_set",
    "Dis.C43_record_specification",
    "Dis.C43_header",
    "Dis.C43_live_header",
    "Dis.C43_default_headers",
    "Dis.C43_vectors",
    "Dis.C43_defaults",
    "Dis.C43_defaults_decode"
   ],
   "note": "All constructors and defaults of the record types and headers."
  },
  {
   "property": "C44",
   "status": "proved",
   "theorems": [
    "Dis.C44_primitives",
    "Dis.C44_text",
    "Dis.C44_lists",
    "Dis.C44_optionals",
    "Dis.C44_records",
    "Dis.C44_with_length",
    "Dis.C44_optional_with_length",
    "Dis.C44_parameters",
    "Dis.C44_without_length"
   ],
   "note": "All field types, including length-annotated ones."
  },
  {
   "property": "C45",
   "status": "proved",
   "theorems": [
    "Dis.C45_serialize_error",
    "Dis.C45_deserialize_error",
    "Dis.C45_refusal_text_identifies",
    "Dis.C45_constructors",
    "Dis.C45_state_and_version_texts",
    "Dis.C45_text_determines_error",
    "Dis.C45_field_text_ambiguous",
    "Dis.C45_source_not_in_text",
    "Dis.C45_debug"
   ],
   "note": "All nine error variants. C45_debug: as for C68, with the Debug text of other crates' errors a parameter of which nothing is assumed."
  },
  {
   "property": "C46",
   "status": "proved",
   "theorems": [
    "Dis.C46_calculate_length",
    "Dis.C46_agrees_with_serialize",
    "Dis.C46_finalize",
    "Dis.C46_new_is_finalized",
    "Dis.C46_stale_header_ignored",
    "Dis.C46_finalize_then_serialize",
    "Dis.C46_header_history",
    "Dis.C46_live_header_history"
   ],
   "note": "All kinds; histories of header setter calls by induction."
  },
  {
   "property": "C47",
   "status": "proved",
   "theorems": [
    "Dis.C47_read",
    "Dis.C47_complete",
    "Dis.C47_written",
    "Dis.C47_all"
   ],
   "note": "All 402 enumerations with variants (C47_all); tables in Spec/SisoCodes, Spec/SisoCodesMore (the 71 occurring in messages) and Spec/SisoCodesRest (the others, with the widths the crate's decoders read), drafted from the crate and reviewed from knowledge of the standard (text not in the sandbox); the two long ones (emitter names, variable record types) and SisoCodesRest read through less closely than the others. MinefieldSensorTypes has the crate's width of one octet (two in the standard); EntityCapabilities is an enumeration in the crate, a bit field in the standard."
  },
  {
   "property": "C48",
   "status": "proved",
   "theorems": [
    "Dis.C48_record_sets_decode",
    "Dis.C48_variable_records_decode",
    "Dis.C48_transmitter_decode",
    "Dis.C48_counted_parts_unique",
    "Dis.C48_decode_unique_variable",
    "Dis.C48_encode",
    "Dis.C48_decode",
    "Dis.C48_decode_without_header",
    "Dis.C48_complete",
    "Dis.C48_determines",
    "Dis.C48_elements",
    "Dis.C48_entity_state",
    "Dis.C48_records",
    "Dis.C48_record_heads",
    "Dis.C48_header",
    "Dis.C48_live_header",
    "Dis.C48_message",
    "Dis.C48_record_lists",
    "Dis.C48_aggregate_state_count",
    "Dis.C48_decode_unique",
    "Dis.C48_entity_state_decode"
   ],
   "note": "Tables in Spec/{Header,Record,Pdu}Layout* and Spec/PduElements, drafted from the declarations (not from the codecs) and read through by hand; C48_message accounts for every octet of every kind against Spec/Message, written by hand; counted parts on decoding against Spec/CountedParts."
  },
  {
   "property": "C49",
   "status": "proved",
   "theorems": [
    "Dis.C49_fields",
    "Dis.C49_header",
    "Dis.C49_truncates",
    "Dis.C49_transparent",
    "Dis.C49_always_forwards",
    "Dis.C49_sample",
    "Dis.C49_variable_part",
    "Dis.C49_length",
    "Dis.C49_variable_transparent",
    "Dis.C49_entity_state"
   ],
   "note": "C49_header, C49_fields, C49_length for all kinds (C49_length: entity state excepted, see C49_entity_state); C49_always_forwards, C49_truncates, C49_transparent for the 60 kinds with a fixed-size decoder; C49_variable_part, C49_variable_transparent for the five kinds that read counted parts."
  },
  {
   "property": "C50",
   "status": "proved",
   "theorems": [
    "Dis.C50_downcast",
    "Dis.C50_spins_iff",
    "Dis.C50_receives",
    "Dis.C50_prints_what_decodes",
    "Dis.C50_book",
    "Dis.C50_book_any_kind",
    "Dis.C50_book_refused"
   ],
   "note": "dyn Any is modelled for PDUs only (Model/Guide). The book's receiver is transcribed with the PDU kind as a parameter; C50_receives for the kinds with a fixed-size decoder."
  },
  {
   "property": "C51",
   "status": "proved",
   "theorems": [
    "Dis.C51_exact_values",
    "Dis.C51_same_octets",
    "Dis.C51_vector",
    "Dis.C51_number",
    "Dis.C51_vector_round_trip",
    "Dis.C51_vector_octets",
    "Dis.C51_equivalence",
    "Dis.C51_grid_axis",
    "Dis.C51_grid_axis_round_trip",
    "Dis.C51_grid_data"
   ],
   "note": "Model/Equality: derived PartialEq, member by member; f32/f64 comparison as in IEEE 754. Types without == (PDUs, most records) are compared by their members in the model."
  },
  {
   "property": "C52",
   "status": "proved",
   "theorems": [
    "Dis.C52_size",
    "Dis.C52_entity_state",
    "Dis.C52_counted",
    "Dis.C52_grid_axis",
    "Dis.C52_grid_data",
    "Dis.C52_datum"
   ],
   "note": "C52_size for all kinds but entity state (C52_entity_state); C52_counted for the eight records with counted lists, C24_counted for their stability; C52_grid_axis, C52_grid_data, C52_datum for the rest."
  },
  {
   "property": "C53",
   "status": "proved",
   "theorems": [
    "Dis.C53_calculate_length",
    "Dis.C53_length_field",
    "Dis.C53_refused",
    "Dis.C53_written"
   ],
   "note": "Counted by a separate specification (Spec/MessageSize), over the table of fixed sizes PduKind.ieeeOctets; C53_calculate_length, C53_length_field, C53_refused, C53_written for all 66 kinds."
  },
  {
   "property": "C54",
   "status": "proved",
   "theorems": [
    "Dis.C54_decode",
    "Dis.C54_decode_without_header",
    "Dis.C54_records",
    "Dis.C54_header",
    "Dis.C54_encode",
    "Dis.C54_encode_records",
    "Dis.C54_transfer_ownership",
    "Dis.C54_set_record",
    "Dis.C54_panic_leaves_a_header",
    "Dis.C54_assignments_returned",
    "Dis.C54_pdu_after_panic",
    "Dis.C54_again"
   ],
   "note": "M logs its steps (Core/Basic); the state of a buffer after a panic is the replay of the log. `bytes` contract: a get_* that panics for want of octets takes none of them. C54_transfer_ownership and C54_set_record are exact; C40 says when the two panic and that no other kind does."
  },
  {
   "property": "C55",
   "status": "proved",
   "theorems": [
    "Dis.C55_reads",
    "Dis.C55_record_reads",
    "Dis.C55_no_reservation",
    "Dis.C55_io_report",
    "Dis.C55_io_action",
    "Dis.C55_variable_datum",
    "Dis.C55_record_reservations"
   ],
   "note": "Reads and reservations are counted in the log (Spec/Steps). Growth of a Vec by push is not counted as reservation (amortised, bounded by what was read: C52). Reservations of an encoder are not counted."
  },
  {
   "property": "C56",
   "status": "proved",
   "theorems": [
    "Dis.C56_serialize",
    "Dis.C56_decode",
    "Dis.C56_unless_overflow",
    "Dis.C56_records",
    "Dis.C56_header",
    "Dis.C56_record_sets"
   ],
   "note": "Overflow checks are the only difference between profiles that the model knows; total_pdu_size is the one other function they concern (C38_total_overflow)."
  },
  {
   "property": "C57",
   "status": "proved",
   "theorems": [
    "Dis.C57_assignment",
    "Dis.C57_assignment_aggregate",
    "Dis.C57_modulation_parameters",
    "Dis.C57_antenna_pattern",
    "Dis.C57_records",
    "Dis.C57_pdus",
    "Dis.C57_parameters_never_dropped"
   ],
   "note": "Model/Visibility lists the operations, generated from the visibility of each field. Programs that use unsafe code are out of scope, as is code inside the crate."
  },
  {
   "property": "C58",
   "status": "proved",
   "theorems": [
    "Dis.C58_unambiguous",
    "Dis.C58_any_kind",
    "Dis.C58_receiver_exists",
    "Dis.C58_sequence",
    "Dis.C58_truth_needed"
   ],
   "note": "Spec/Truthful says, kind by kind, which counts and lengths must be true. All 66 kinds; the receiver is shown to exist here, and constructed in C66."
  },
  {
   "property": "C59",
   "status": "proved",
   "theorems": [
    "Dis.C59_client",
    "Dis.C59_interleaving",
    "Dis.C59_final",
    "Dis.C59_failure",
    "Dis.C59_no_panic",
    "Dis.C59_echo_safe",
    "Dis.C59_echo_live",
    "Dis.C59_radio_client",
    "Dis.C59_radio_safe",
    "Dis.C59_radio_live"
   ],
   "note": "Model/Network: the programs of Model/Examples as a transition system; datagrams are not altered and bear the sender's address (assumed); live means a continuation exists, not that a fair network must take it."
  },
  {
   "property": "C60",
   "status": "proved",
   "theorems": [
    "Dis.C60_contained",
    "Dis.C60_type",
    "Dis.C60_transmitter",
    "Dis.C60_record_sets",
    "Dis.C60_transfer_ownership",
    "Dis.C60_set_record",
    "Dis.C60_variable_records",
    "Dis.C60_information_operations",
    "Dis.C60_header_damage",
    "Dis.C60_header_kept",
    "Dis.C60_one_octet",
    "Dis.C60_change_octets",
    "Dis.C60_change"
   ],
   "note": "Positions are those of the tables in Spec (C48); hurt counts of counted parts are excluded by hypothesis, and an example shows why."
  },
  {
   "property": "C61",
   "status": "proved",
   "theorems": [
    "Dis.C61_echo",
    "Dis.C61_echo_possible",
    "Dis.C61_radio_reported",
    "Dis.C61_radio",
    "Dis.C61_radio_possible"
   ],
   "note": "Weak fairness for the client's send call, its datagram and the answer (NotPutOff); C61_echo_possible and C61_radio_possible exhibit executions that meet all hypotheses."
  },
  {
   "property": "C62",
   "status": "proved",
   "theorems": [
    "Dis.C62_declares",
    "Dis.C62_assigned",
    "Dis.C62_again",
    "Dis.C62_message",
    "Dis.C62_decode",
    "Dis.C62_accepts",
    "Dis.C62_new",
    "Dis.C62_crate_kinds"
   ],
   "note": "The macro as a function of the field list (Model/DefinePdu); field types are arbitrary functions on the buffer. FieldType.Tidy, ReadBack and Unread are hypotheses on the user's types; FieldType.of_tidy gives the first for the crate's types with exact encoders. C62_crate_kinds relates the 66 hand-expanded models to it."
  },
  {
   "property": "C63",
   "status": "proved",
   "theorems": [
    "Dis.C63_decoders",
    "Dis.C63_record_decoders",
    "Dis.C63_user_decoders",
    "Dis.C63_any_source",
    "Dis.C63_sources",
    "Dis.C63_pieces",
    "Dis.C63_roundtrip_in_pieces",
    "Dis.C63_take",
    "Dis.C63_framed"
   ],
   "note": "Buf, Chain and Take of the bytes crate are modelled in Model/Buf (default bodies of get_*). A decoder on a source is a program over Buf (Prog) that agrees with the modelled decoder on slices; C63_decoders says there is one, C63_any_source that all such agree on every source."
  },
  {
   "property": "C64",
   "status": "proved",
   "theorems": [
    "Dis.C64_any_octets",
    "Dis.C64_each_alone",
    "Dis.C64_stays_in_step",
    "Dis.C64_any_pieces",
    "Dis.C64_stuck",
    "Dis.C64_report",
    "Dis.C64_one_each",
    "Dis.C64_recovers",
    "Dis.C64_sent_and_received",
    "Dis.C64_entity_state"
   ],
   "note": "The receiver is a program of the user's (Spec/Dispatch), written from the book's description on the modelled get_pdu_type, PduHeader::deserialize and the 66 decoders. C64_sent_and_received covers the fifty-six unconditional kinds for all values; C64_recovers all kinds for decodable values; C64_one_each all kinds and values; C64_entity_state the entity state PDU."
  },
  {
   "property": "C65",
   "status": "proved",
   "theorems": [
    "Dis.C65_field_arrives",
    "Dis.C65_exactly",
    "Dis.C65_flags",
    "Dis.C65_edit_confined",
    "Dis.C65_types",
    "Dis.C65_new_edited",
    "Dis.C65_book"
   ],
   "note": "Fields are the slots of the layout tables (Spec/PduLayout1-4), i.e. everything before the first list; the entity state PDU up to its marking, the aggregate state PDU up to its lists."
  },
  {
   "property": "C66",
   "status": "proved",
   "theorems": [
    "Dis.C66_whole",
    "Dis.C66_exactly",
    "Dis.C66_any_kind",
    "Dis.C66_ignores_what_follows",
    "Dis.C66_cut_short",
    "Dis.C66_any_pieces",
    "Dis.C66_sequence",
    "Dis.C66_as_they_arrive",
    "Dis.C66_sent_and_received",
    "Dis.C66_own_decoder_transmitter_parameters"
   ],
   "note": "The receiver is the user's program Spec/ByHand, written with the modelled decoders of the crate's records; which counts must be true is Spec/Truthful (as for C58)."
  },
  {
   "property": "C67",
   "status": "proved",
   "theorems": [
    "Dis.C67_data_query",
    "Dis.C67_data_query_misread",
    "Dis.C67_data_query_single",
    "Dis.C67_minefield_nack",
    "Dis.C67_minefield_nack_zeros",
    "Dis.C67_minefield_query",
    "Dis.C67_minefield_data",
    "Dis.C67_linear_segment",
    "Dis.C67_linear_appearance_lost",
    "Dis.C67_linear_second_segment",
    "Dis.C67_acoustic_system",
    "Dis.C67_capabilities",
    "Dis.C67_iff_layers"
   ],
   "note": "What the standard's receiver looks for (Spec/Standard: octets and widths) is written from knowledge of IEEE 1278.1-2012, which is not in /repo."
  },
  {
   "property": "C68",
   "status": "proved",
   "theorems": [
    "Dis.C68_shows",
    "Dis.C68_records",
    "Dis.C68_enums",
    "Dis.C68_exact",
    "Dis.C68_reserved_bits",
    "Dis.C68_kinds",
    "Dis.C68_one_line",
    "Dis.C68_records_one_line",
    "Dis.C68_indented"
   ],
   "note": "The standard library's texts of f32, f64 and strings are a parameter; what is assumed of them is Fmt.Lawful (Spec/Printing), shown to be satisfiable (sampleFmt_lawful). The formats generated by derive(Debug), bitflags and modular_bitfield are modelled from their documentation."
  },
  {
   "property": "C69",
   "status": "proved",
   "theorems": [
    "Dis.C69_line",
    "Dis.C69_log",
    "Dis.C69_line_feeds",
    "Dis.C69_echo",
    "Dis.C69_sent",
    "Dis.C69_client"
   ],
   "note": "As for C68, with the texts of {} for f32 and socket addresses also a parameter (LogFmt.Lawful)."
  },
  {
   "property": "C70",
   "status": "proved",
   "theorems": [
    "Dis.C70_address",
    "Dis.C70_server_address",
    "Dis.C70_server_refused",
    "Dis.C70_server_serves",
    "Dis.C70_server_exit",
    "Dis.C70_radio_server_crash",
    "Dis.C70_server_output",
    "Dis.C70_client_calls",
    "Dis.C70_meet",
    "Dis.C70_udp_client_exit",
    "Dis.C70_radio_client_exit",
    "Dis.C70_exchange"
   ],
   "note": "The operating system's answers are parameters. env::args, the parser of IPv4 addresses and exit codes are the standard library's, modelled from its source and documentation; the IPv6 parser is a parameter; arguments are taken to be Unicode."
  }
 ]
}