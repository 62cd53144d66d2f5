import Verif.Properties.Header
import Verif.Properties.Pdu
import Verif.Properties.Panics
import Verif.Properties.RoundTrip
import Verif.Properties.Stream
import Verif.Properties.Enums
import Verif.Properties.Status
import Verif.Properties.Flags
import Verif.Properties.Records
import Verif.Properties.Irregular
import Verif.Properties.Gridded
import Verif.Properties.Transmitter
import Verif.Properties.Timestamp
import Verif.Properties.Vector3
import Verif.Properties.Vector3Special
import Verif.Properties.Vector3Opposite
import Verif.Properties.Vector3Error
import Verif.Properties.Vector3Order
import Verif.Properties.Constants
import Verif.Properties.Needs
import Verif.Properties.Examples
import Verif.Properties.Constructors
import Verif.Properties.Fields
import Verif.Properties.Errors
import Verif.Properties.Length
import Verif.Properties.Siso
import Verif.Properties.DeclaredLength
import Verif.Properties.Conditional
import Verif.Properties.Layout
import Verif.Properties.Message
import Verif.Properties.Relay
import Verif.Properties.Stable
import Verif.Properties.RelayVariable
import Verif.Properties.DecodeVariable
import Verif.Properties.Guide
import Verif.Properties.Equality
import Verif.Properties.Size
import Verif.Properties.MessageSize
import Verif.Properties.Fresh
import Verif.Properties.Crash
import Verif.Properties.Work
import Verif.Properties.Builds
import Verif.Properties.Obtainable
import Verif.Properties.Assignment
import Verif.Properties.Unambiguous
import Verif.Properties.StatusMethods
import Verif.Properties.Damage
import Verif.Properties.Fair
import Verif.Properties.UserPdus
import Verif.Properties.Sources
import Verif.Properties.Schedules
import Verif.Properties.Dispatch
import Verif.Properties.Edit
import Verif.Properties.ByHand
import Verif.Properties.Standard
import Verif.Properties.TimestampClock
import Verif.Properties.Printing
import Verif.Properties.LogText
import Verif.Properties.PrintedErrors
import Verif.Properties.Setup
/-
The axioms every property theorem rests on, as Lean reports them.  Expected: at most `propext`,
`Classical.choice` and `Quot.sound`.  Generated by tools/mkmanifest.py from the names of the theorems.
-/
#print axioms Dis.C01_header_roundtrip
#print axioms Dis.C02_header_layout
#print axioms Dis.C03_get_pdu_type_short
#print axioms Dis.C03_get_pdu_type
#print axioms Dis.C04_inexact_kinds
#print axioms Dis.C04_entity_state
#print axioms Dis.C04_datum_kinds
#print axioms Dis.C04_record_set_kinds
#print axioms Dis.C04_gridded_data
#print axioms Dis.C04_declared_length_all_kinds
#print axioms Dis.C04_declared_length
#print axioms Dis.C05_append_only
#print axioms Dis.C05_records
#print axioms Dis.C06_refused_iff
#print axioms Dis.C06_refused_atomically
#print axioms Dis.C06_length_not_truncated
#print axioms Dis.C07_no_8192_limit
#print axioms Dis.C07_documented_maximum_violated
#print axioms Dis.C07_actual_maximum
#print axioms Dis.C08_touches_only_bookkeeping
#print axioms Dis.C08_transmitter
#print axioms Dis.C08_idempotent
#print axioms Dis.C09_short_panics
#print axioms Dis.C09_foreign_type_refused
#print axioms Dis.C09_own_type_accepted
#print axioms Dis.C09_ok_only_own_type
#print axioms Dis.C10_one_decoder
#print axioms Dis.C10_foreign_messages_refused
#print axioms Dis.C11_roundtrip
#print axioms Dis.C11_roundtrip_stop_freeze
#print axioms Dis.C11_roundtrip_stop_freeze_reliable
#print axioms Dis.C12_areal_object_state
#print axioms Dis.C12_information_operations_report
#print axioms Dis.C12_information_operations_action
#print axioms Dis.C12_information_operations_report_counted
#print axioms Dis.C12_information_operations_action_counted
#print axioms Dis.C12_transfer_ownership
#print axioms Dis.C12_set_record
#print axioms Dis.C12_transfer_ownership_counted
#print axioms Dis.C12_set_record_counted
#print axioms Dis.C12_variable_records_iff
#print axioms Dis.C12_record_sets_iff
#print axioms Dis.C12_survives
#print axioms Dis.C12_survives_all_kinds
#print axioms Dis.C12_lossy
#print axioms Dis.C12_entity_state
#print axioms Dis.C12_entity_state_marking_lost
#print axioms Dis.C13_aggregate_state
#print axioms Dis.C13_count_misread
#print axioms Dis.C14_transmitter
#print axioms Dis.C14_record_sets
#print axioms Dis.C14_variable_records
#print axioms Dis.C14_records
#print axioms Dis.C14_panics_iff_short
#print axioms Dis.C14_entity_state
#print axioms Dis.C14_only_underflow
#print axioms Dis.C15_ignores_what_follows
#print axioms Dis.C15_entity_state_depends_on_rest
#print axioms Dis.C16_decode
#print axioms Dis.C16_empty
#print axioms Dis.C17_codes_distinct_and_fit
#print axioms Dis.C17_roundtrip
#print axioms Dis.C18_marking
#print axioms Dis.C18_roundtrip
#print axioms Dis.C19_lists
#print axioms Dis.C19_fixed
#print axioms Dis.C20_indicator_u8
#print axioms Dis.C20_set
#print axioms Dis.C20_history
#print axioms Dis.C20_get
#print axioms Dis.C20_set_get
#print axioms Dis.C20_raw_setter
#print axioms Dis.C20_getters_determine
#print axioms Dis.C20_octet
#print axioms Dis.C20_generated_setters
#print axioms Dis.C20_generated_getters
#print axioms Dis.C20_specifiers
#print axioms Dis.C20_specifiers_gaps
#print axioms Dis.C21_new_received
#print axioms Dis.C21_new_received_entity_state
#print axioms Dis.C21_new_header
#print axioms Dis.C21_new_serializes
#print axioms Dis.C21_new_octets
#print axioms Dis.C21_default_header
#print axioms Dis.C21_default_serializes
#print axioms Dis.C22_independent
#print axioms Dis.C22_sequence
#print axioms Dis.C22_stops_at_refused
#print axioms Dis.C22_stops_at_foreign
#print axioms Dis.C23_framing
#print axioms Dis.C23_exact_kinds
#print axioms Dis.C23_entity_state
#print axioms Dis.C23_receiver
#print axioms Dis.C23_frame_iff
#print axioms Dis.C23_inexact_never_found
#print axioms Dis.C23_desynchronised
#print axioms Dis.C24_records
#print axioms Dis.C24_stable
#print axioms Dis.C24_counted
#print axioms Dis.C24_entity_state
#print axioms Dis.C24_set_record_unchecked
#print axioms Dis.C24_transfer_ownership_unchecked
#print axioms Dis.C25_two_step
#print axioms Dis.C25_header_stored
#print axioms Dis.C26_counted
#print axioms Dis.C26_lens
#print axioms Dis.C26_iff
#print axioms Dis.C26_transmitter_parameters
#print axioms Dis.C27_datum
#print axioms Dis.C27_length
#print axioms Dis.C27_deserialize
#print axioms Dis.C27_never_round_trips
#print axioms Dis.C28_dead_reckoning
#print axioms Dis.C28_simulation_identifier
#print axioms Dis.C29_parameters
#print axioms Dis.C29_empty_parameters
#print axioms Dis.C29_oversized_parameters
#print axioms Dis.C30_serialize
#print axioms Dis.C30_deserialize
#print axioms Dis.C30_roundtrip
#print axioms Dis.C30_length
#print axioms Dis.C31_in_range
#print axioms Dis.C31_monotone
#print axioms Dis.C31_accuracy
#print axioms Dis.C31_lags_ieee_units
#print axioms Dis.C31_not_ieee_field
#print axioms Dis.C31_torn_reading
#print axioms Dis.C31_coarse
#print axioms Dis.C31_readings
#print axioms Dis.C31_never_ahead
#print axioms Dis.C32_some_iff
#print axioms Dis.C32_none_iff
#print axioms Dis.C32_panics_iff
#print axioms Dis.C32_history
#print axioms Dis.C32_io_error
#print axioms Dis.C32_crash
#print axioms Dis.C32_sent_is_reported
#print axioms Dis.C32_radio_traffic
#print axioms Dis.C32_client_send
#print axioms Dis.C32_client_and_server
#print axioms Dis.C33_echo
#print axioms Dis.C33_echo_receive_error
#print axioms Dis.C33_echo_send_error
#print axioms Dis.C33_client_no_panic
#print axioms Dis.C33_client_default
#print axioms Dis.C33_client_recovers
#print axioms Dis.C33_exchange
#print axioms Dis.C34_positions
#print axioms Dis.C34_history_freeze
#print axioms Dis.C34_history_appearance
#print axioms Dis.C34_history_land_appearance
#print axioms Dis.C34_freeze
#print axioms Dis.C34_appearance
#print axioms Dis.C34_from_bits
#print axioms Dis.C35_regular_axis
#print axioms Dis.C35_irregular_axis
#print axioms Dis.C35_mismatched_regular
#print axioms Dis.C35_mismatched_irregular
#print axioms Dis.C35_axis_iff
#print axioms Dis.C35_grid_data
#print axioms Dis.C35_grid_layouts
#print axioms Dis.C36_records
#print axioms Dis.C36_injective
#print axioms Dis.C36_prefix_free
#print axioms Dis.C36_across_kinds
#print axioms Dis.C36_two_lists_not_injective
#print axioms Dis.C37_live_header
#print axioms Dis.C38_limits
#print axioms Dis.C38_total
#print axioms Dis.C38_total_overflow
#print axioms Dis.C38_total_is_declared
#print axioms Dis.C38_limit_not_enforced
#print axioms Dis.C38_marking_limit
#print axioms Dis.C38_reserved
#print axioms Dis.C39_records
#print axioms Dis.C39_suffix
#print axioms Dis.C40_serialize_no_panic
#print axioms Dis.C40_transfer_ownership
#print axioms Dis.C40_set_record
#print axioms Dis.C41_rounding_determined
#print axioms Dis.C41_sum
#print axioms Dis.C41_difference
#print axioms Dis.C41_product
#print axioms Dis.C41_quotient
#print axioms Dis.C41_dot_rounding
#print axioms Dis.C41_cross_rounding
#print axioms Dis.C41_sum_special
#print axioms Dis.C41_difference_special
#print axioms Dis.C41_product_special
#print axioms Dis.C41_quotient_special
#print axioms Dis.C41_dot_exact
#print axioms Dis.C41_cross_exact
#print axioms Dis.C41_commutative
#print axioms Dis.C41_self_difference
#print axioms Dis.C41_scale_by_one
#print axioms Dis.C41_cross_self_not_zero
#print axioms Dis.C41_magnitude
#print axioms Dis.C41_root_determined
#print axioms Dis.C41_normalize_none_iff
#print axioms Dis.C41_normalize_nan
#print axioms Dis.C41_normalize_overflow
#print axioms Dis.C41_normalize_bounded
#print axioms Dis.C41_normalize_unbounded
#print axioms Dis.C41_normalize_unit_length
#print axioms Dis.C41_dot_error
#print axioms Dis.C41_cross_error
#print axioms Dis.C41_opposite
#print axioms Dis.C41_opposite_magnitude
#print axioms Dis.C41_zero_neutral
#print axioms Dis.C41_axes
#print axioms Dis.C41_magnitude_monotone
#print axioms Dis.C41_magnitude_order
#print axioms Dis.C41_rounding_monotone
#print axioms Dis.C41_order
#print axioms Dis.C41_magnitude_axis
#print axioms Dis.C41_normalize_axis
#print axioms Dis.C41_dot_operations
#print axioms Dis.C41_cross_operations
#print axioms Dis.C41_products_not_nan
#print axioms Dis.C41_dot_overflow
#print axioms Dis.C41_products_nan
#print axioms Dis.C42_codes
#print axioms Dis.C43_new
#print axioms Dis.C43_empty
#print axioms Dis.C43_empty_decode
#print axioms Dis.C43_lists
#print axioms Dis.C43_record_set
#print axioms Dis.C43_record_specification
#print axioms Dis.C43_header
#print axioms Dis.C43_live_header
#print axioms Dis.C43_default_headers
#print axioms Dis.C43_vectors
#print axioms Dis.C43_defaults
#print axioms Dis.C43_defaults_decode
#print axioms Dis.C44_primitives
#print axioms Dis.C44_text
#print axioms Dis.C44_lists
#print axioms Dis.C44_optionals
#print axioms Dis.C44_records
#print axioms Dis.C44_with_length
#print axioms Dis.C44_optional_with_length
#print axioms Dis.C44_parameters
#print axioms Dis.C44_without_length
#print axioms Dis.C45_serialize_error
#print axioms Dis.C45_deserialize_error
#print axioms Dis.C45_refusal_text_identifies
#print axioms Dis.C45_constructors
#print axioms Dis.C45_state_and_version_texts
#print axioms Dis.C45_text_determines_error
#print axioms Dis.C45_field_text_ambiguous
#print axioms Dis.C45_source_not_in_text
#print axioms Dis.C45_debug
#print axioms Dis.C46_calculate_length
#print axioms Dis.C46_agrees_with_serialize
#print axioms Dis.C46_finalize
#print axioms Dis.C46_new_is_finalized
#print axioms Dis.C46_stale_header_ignored
#print axioms Dis.C46_finalize_then_serialize
#print axioms Dis.C46_header_history
#print axioms Dis.C46_live_header_history
#print axioms Dis.C47_read
#print axioms Dis.C47_complete
#print axioms Dis.C47_written
#print axioms Dis.C47_all
#print axioms Dis.C48_record_sets_decode
#print axioms Dis.C48_variable_records_decode
#print axioms Dis.C48_transmitter_decode
#print axioms Dis.C48_counted_parts_unique
#print axioms Dis.C48_decode_unique_variable
#print axioms Dis.C48_encode
#print axioms Dis.C48_decode
#print axioms Dis.C48_decode_without_header
#print axioms Dis.C48_complete
#print axioms Dis.C48_determines
#print axioms Dis.C48_elements
#print axioms Dis.C48_entity_state
#print axioms Dis.C48_records
#print axioms Dis.C48_record_heads
#print axioms Dis.C48_header
#print axioms Dis.C48_live_header
#print axioms Dis.C48_message
#print axioms Dis.C48_record_lists
#print axioms Dis.C48_aggregate_state_count
#print axioms Dis.C48_decode_unique
#print axioms Dis.C48_entity_state_decode
#print axioms Dis.C49_fields
#print axioms Dis.C49_header
#print axioms Dis.C49_truncates
#print axioms Dis.C49_transparent
#print axioms Dis.C49_always_forwards
#print axioms Dis.C49_sample
#print axioms Dis.C49_variable_part
#print axioms Dis.C49_length
#print axioms Dis.C49_variable_transparent
#print axioms Dis.C49_entity_state
#print axioms Dis.C50_downcast
#print axioms Dis.C50_spins_iff
#print axioms Dis.C50_receives
#print axioms Dis.C50_prints_what_decodes
#print axioms Dis.C50_book
#print axioms Dis.C50_book_any_kind
#print axioms Dis.C50_book_refused
#print axioms Dis.C51_exact_values
#print axioms Dis.C51_same_octets
#print axioms Dis.C51_vector
#print axioms Dis.C51_number
#print axioms Dis.C51_vector_round_trip
#print axioms Dis.C51_vector_octets
#print axioms Dis.C51_equivalence
#print axioms Dis.C51_grid_axis
#print axioms Dis.C51_grid_axis_round_trip
#print axioms Dis.C51_grid_data
#print axioms Dis.C52_size
#print axioms Dis.C52_entity_state
#print axioms Dis.C52_counted
#print axioms Dis.C52_grid_axis
#print axioms Dis.C52_grid_data
#print axioms Dis.C52_datum
#print axioms Dis.C53_calculate_length
#print axioms Dis.C53_length_field
#print axioms Dis.C53_refused
#print axioms Dis.C53_written
#print axioms Dis.C54_decode
#print axioms Dis.C54_decode_without_header
#print axioms Dis.C54_records
#print axioms Dis.C54_header
#print axioms Dis.C54_encode
#print axioms Dis.C54_encode_records
#print axioms Dis.C54_transfer_ownership
#print axioms Dis.C54_set_record
#print axioms Dis.C54_panic_leaves_a_header
#print axioms Dis.C54_assignments_returned
#print axioms Dis.C54_pdu_after_panic
#print axioms Dis.C54_again
#print axioms Dis.C55_reads
#print axioms Dis.C55_record_reads
#print axioms Dis.C55_no_reservation
#print axioms Dis.C55_io_report
#print axioms Dis.C55_io_action
#print axioms Dis.C55_variable_datum
#print axioms Dis.C55_record_reservations
#print axioms Dis.C56_serialize
#print axioms Dis.C56_decode
#print axioms Dis.C56_unless_overflow
#print axioms Dis.C56_records
#print axioms Dis.C56_header
#print axioms Dis.C56_record_sets
#print axioms Dis.C57_assignment
#print axioms Dis.C57_assignment_aggregate
#print axioms Dis.C57_modulation_parameters
#print axioms Dis.C57_antenna_pattern
#print axioms Dis.C57_records
#print axioms Dis.C57_pdus
#print axioms Dis.C57_parameters_never_dropped
#print axioms Dis.C58_unambiguous
#print axioms Dis.C58_any_kind
#print axioms Dis.C58_receiver_exists
#print axioms Dis.C58_sequence
#print axioms Dis.C58_truth_needed
#print axioms Dis.C59_client
#print axioms Dis.C59_interleaving
#print axioms Dis.C59_final
#print axioms Dis.C59_failure
#print axioms Dis.C59_no_panic
#print axioms Dis.C59_echo_safe
#print axioms Dis.C59_echo_live
#print axioms Dis.C59_radio_client
#print axioms Dis.C59_radio_safe
#print axioms Dis.C59_radio_live
#print axioms Dis.C60_contained
#print axioms Dis.C60_type
#print axioms Dis.C60_transmitter
#print axioms Dis.C60_record_sets
#print axioms Dis.C60_transfer_ownership
#print axioms Dis.C60_set_record
#print axioms Dis.C60_variable_records
#print axioms Dis.C60_information_operations
#print axioms Dis.C60_header_damage
#print axioms Dis.C60_header_kept
#print axioms Dis.C60_one_octet
#print axioms Dis.C60_change_octets
#print axioms Dis.C60_change
#print axioms Dis.C61_echo
#print axioms Dis.C61_echo_possible
#print axioms Dis.C61_radio_reported
#print axioms Dis.C61_radio
#print axioms Dis.C61_radio_possible
#print axioms Dis.C62_declares
#print axioms Dis.C62_assigned
#print axioms Dis.C62_again
#print axioms Dis.C62_message
#print axioms Dis.C62_decode
#print axioms Dis.C62_accepts
#print axioms Dis.C62_new
#print axioms Dis.C62_crate_kinds
#print axioms Dis.C63_decoders
#print axioms Dis.C63_record_decoders
#print axioms Dis.C63_user_decoders
#print axioms Dis.C63_any_source
#print axioms Dis.C63_sources
#print axioms Dis.C63_pieces
#print axioms Dis.C63_roundtrip_in_pieces
#print axioms Dis.C63_take
#print axioms Dis.C63_framed
#print axioms Dis.C64_any_octets
#print axioms Dis.C64_each_alone
#print axioms Dis.C64_stays_in_step
#print axioms Dis.C64_any_pieces
#print axioms Dis.C64_stuck
#print axioms Dis.C64_report
#print axioms Dis.C64_one_each
#print axioms Dis.C64_recovers
#print axioms Dis.C64_sent_and_received
#print axioms Dis.C64_entity_state
#print axioms Dis.C65_field_arrives
#print axioms Dis.C65_exactly
#print axioms Dis.C65_flags
#print axioms Dis.C65_edit_confined
#print axioms Dis.C65_types
#print axioms Dis.C65_new_edited
#print axioms Dis.C65_book
#print axioms Dis.C66_whole
#print axioms Dis.C66_exactly
#print axioms Dis.C66_any_kind
#print axioms Dis.C66_ignores_what_follows
#print axioms Dis.C66_cut_short
#print axioms Dis.C66_any_pieces
#print axioms Dis.C66_sequence
#print axioms Dis.C66_as_they_arrive
#print axioms Dis.C66_sent_and_received
#print axioms Dis.C66_own_decoder_transmitter_parameters
#print axioms Dis.C67_data_query
#print axioms Dis.C67_data_query_misread
#print axioms Dis.C67_data_query_single
#print axioms Dis.C67_minefield_nack
#print axioms Dis.C67_minefield_nack_zeros
#print axioms Dis.C67_minefield_query
#print axioms Dis.C67_minefield_data
#print axioms Dis.C67_linear_segment
#print axioms Dis.C67_linear_appearance_lost
#print axioms Dis.C67_linear_second_segment
#print axioms Dis.C67_acoustic_system
#print axioms Dis.C67_capabilities
#print axioms Dis.C67_iff_layers
#print axioms Dis.C68_shows
#print axioms Dis.C68_records
#print axioms Dis.C68_enums
#print axioms Dis.C68_exact
#print axioms Dis.C68_reserved_bits
#print axioms Dis.C68_kinds
#print axioms Dis.C68_one_line
#print axioms Dis.C68_records_one_line
#print axioms Dis.C68_indented
#print axioms Dis.C69_line
#print axioms Dis.C69_log
#print axioms Dis.C69_line_feeds
#print axioms Dis.C69_echo
#print axioms Dis.C69_sent
#print axioms Dis.C69_client
#print axioms Dis.C70_address
#print axioms Dis.C70_server_address
#print axioms Dis.C70_server_refused
#print axioms Dis.C70_server_serves
#print axioms Dis.C70_server_exit
#print axioms Dis.C70_radio_server_crash
#print axioms Dis.C70_server_output
#print axioms Dis.C70_client_calls
#print axioms Dis.C70_meet
#print axioms Dis.C70_udp_client_exit
#print axioms Dis.C70_radio_client_exit
#print axioms Dis.C70_exchange
