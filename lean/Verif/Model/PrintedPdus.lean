import Verif.Model.PrintedRecords
import Verif.Model.PduKind
/- Generated by tools/gen_printing.py: the derived `Debug` of the 66 PDUs. -/
namespace Dis

/-- The part of a PDU's derived `Debug` that depends on its `define_pdu!` block. -/
class PduDebug (B : Type) where
  /-- the name of the structure -/
  name : String
  /-- the fields after the header, with their texts -/
  fields : Fmt → B → List (String × Text)

/-- src/pdu_macro.rs:231-237 (the `derive(Debug)` handed on by line 231): the header is the first field. -/
instance {B : Type} [PduDebug B] : RDebug (Pdu B) := ⟨fun σ p =>
  structText σ (PduDebug.name B) (("header", text σ p.header) :: PduDebug.fields σ p.body)⟩

/-- src/distributed_emissions.rs:35-51 (derived) -/
instance : PduDebug ElectromagneticEmissionsPdu where
  name := "ElectromagneticEmissionsPdu"
  fields σ x := [
    ("emitting_entity_id", text σ x.emitting_entity_id), ("event_id", text σ x.event_id),
    ("state_update_indicator", text σ x.state_update_indicator), ("number_of_systems", text σ x.number_of_systems),
    ("padding", text σ x.padding), ("systems", text σ x.systems)]
/-- src/distributed_emissions.rs:53-75 (derived) -/
instance : PduDebug DesignatorPdu where
  name := "DesignatorPdu"
  fields σ x := [
    ("designating_entity_id", text σ x.designating_entity_id), ("code_name", text σ x.code_name),
    ("designated_entity_id", text σ x.designated_entity_id), ("designator_code", text σ x.designator_code),
    ("designator_power", text σ x.designator_power), ("designator_wavelength", text σ x.designator_wavelength),
    ("designator_spot_wrt_designated", text σ x.designator_spot_wrt_designated),
    ("designator_spot_location", text σ x.designator_spot_location),
    ("dead_reckoning_algorithm", text σ x.dead_reckoning_algorithm), ("padding", text σ x.padding),
    ("padding2", text σ x.padding2), ("entity_linear_acceleration", text σ x.entity_linear_acceleration)]
/-- src/distributed_emissions.rs:77-99 (derived) -/
instance : PduDebug UnderwaterAcousticPdu where
  name := "UnderwaterAcousticPdu"
  fields σ x := [
    ("emitting_entity_id", text σ x.emitting_entity_id), ("event_id", text σ x.event_id),
    ("state_change_update_indicator", text σ x.state_change_update_indicator), ("padding", text σ x.padding),
    ("passive_parameter_index", text σ x.passive_parameter_index),
    ("propulsion_plant_configuration", text σ x.propulsion_plant_configuration),
    ("number_of_shafts", text σ x.number_of_shafts), ("number_of_apas", text σ x.number_of_apas),
    ("number_of_ua_emitter_systems", text σ x.number_of_ua_emitter_systems), ("shaft_rpms", text σ x.shaft_rpms),
    ("apa_data", text σ x.apa_data), ("emitter_systems", text σ x.emitter_systems)]
/-- src/distributed_emissions.rs:101-122 (derived) -/
instance : PduDebug IFFPdu where
  name := "IFFPdu"
  fields σ x := [
    ("emitting_entity_id", text σ x.emitting_entity_id), ("event_id", text σ x.event_id),
    ("relative_antenna_location", text σ x.relative_antenna_location), ("system_id", text σ x.system_id),
    ("system_designator", text σ x.system_designator), ("system_specific_data", text σ x.system_specific_data),
    ("fundamental_operational_data", text σ x.fundamental_operational_data), ("layer_header", text σ x.layer_header),
    ("beam_data", text σ x.beam_data), ("secondary_operational_data", text σ x.secondary_operational_data),
    ("iff_parameters", text σ x.iff_parameters)]
/-- src/distributed_emissions.rs:124-142 (derived) -/
instance : PduDebug SupplementalEmissionPdu where
  name := "SupplementalEmissionPdu"
  fields σ x := [
    ("originating_entity_id", text σ x.originating_entity_id),
    ("infrared_signature_representation_index", text σ x.infrared_signature_representation_index),
    ("acoustic_signature_representation_index", text σ x.acoustic_signature_representation_index),
    ("radar_cross_section_signature_representation_index", text σ x.radar_cross_section_signature_representation_index),
    ("number_of_propulsion_systems", text σ x.number_of_propulsion_systems),
    ("number_of_vectoring_nozzle_systems", text σ x.number_of_vectoring_nozzle_systems),
    ("propulsion_system_data", text σ x.propulsion_system_data),
    ("vectoring_nozzle_system_data", text σ x.vectoring_nozzle_system_data)]
/-- src/entity_information.rs:29-52 (derived) -/
instance : PduDebug EntityStatePdu where
  name := "EntityStatePdu"
  fields σ x := [
    ("entity_id", text σ x.entity_id), ("force_id", text σ x.force_id),
    ("number_of_articulation_parameters", text σ x.number_of_articulation_parameters),
    ("entity_type", text σ x.entity_type), ("alternative_entity_type", text σ x.alternative_entity_type),
    ("entity_linear_velocity", text σ x.entity_linear_velocity), ("entity_location", text σ x.entity_location),
    ("entity_orientation", text σ x.entity_orientation), ("entity_appearance", text σ x.entity_appearance),
    ("dead_reckoning_parameters", text σ x.dead_reckoning_parameters), ("entity_marking", text σ x.entity_marking),
    ("entity_capabilities", text σ x.entity_capabilities),
    ("articulation_parameter", text σ x.articulation_parameter)]
/-- src/entity_information.rs:54-72 (derived) -/
instance : PduDebug CollisionPdu where
  name := "CollisionPdu"
  fields σ x := [
    ("issuing_entity_id", text σ x.issuing_entity_id), ("colliding_entity_id", text σ x.colliding_entity_id),
    ("event_id", text σ x.event_id), ("collision_type", text σ x.collision_type), ("padding", text σ x.padding),
    ("velocity", text σ x.velocity), ("mass", text σ x.mass), ("location_wrt_entity", text σ x.location_wrt_entity)]
/-- src/entity_information.rs:74-99 (derived) -/
instance : PduDebug CollisionElasticPdu where
  name := "CollisionElasticPdu"
  fields σ x := [
    ("issuing_entity_id", text σ x.issuing_entity_id), ("colliding_entity_id", text σ x.colliding_entity_id),
    ("event_id", text σ x.event_id), ("padding", text σ x.padding), ("contact_velocity", text σ x.contact_velocity),
    ("mass", text σ x.mass), ("location_of_impact", text σ x.location_of_impact),
    ("collision_intermediate_result_xx", text σ x.collision_intermediate_result_xx),
    ("collision_intermediate_result_xy", text σ x.collision_intermediate_result_xy),
    ("collision_intermediate_result_xz", text σ x.collision_intermediate_result_xz),
    ("collision_intermediate_result_yy", text σ x.collision_intermediate_result_yy),
    ("collision_intermediate_result_yz", text σ x.collision_intermediate_result_yz),
    ("collision_intermediate_result_zz", text σ x.collision_intermediate_result_zz),
    ("unit_surface_normal", text σ x.unit_surface_normal),
    ("coefficient_of_restitution", text σ x.coefficient_of_restitution)]
/-- src/entity_information.rs:101-119 (derived) -/
instance : PduDebug EntityStateUpdatePdu where
  name := "EntityStateUpdatePdu"
  fields σ x := [
    ("entity_id", text σ x.entity_id), ("padding", text σ x.padding),
    ("number_of_variable_parameters", text σ x.number_of_variable_parameters),
    ("entity_linear_velocity", text σ x.entity_linear_velocity), ("entity_location", text σ x.entity_location),
    ("entity_orientation", text σ x.entity_orientation), ("entity_appearance", text σ x.entity_appearance),
    ("variable_parameter_records", text σ x.variable_parameter_records)]
/-- src/entity_information.rs:121-141 (derived) -/
instance : PduDebug AttributePdu where
  name := "AttributePdu"
  fields σ x := [
    ("originating_simulation_address", text σ x.originating_simulation_address), ("padding", text σ x.padding),
    ("padding2", text σ x.padding2), ("attribute_record_pdu_type", text σ x.attribute_record_pdu_type),
    ("attribute_record_protocol_version", text σ x.attribute_record_protocol_version),
    ("master_attribute_record_type", text σ x.master_attribute_record_type), ("action_code", text σ x.action_code),
    ("padding3", text σ x.padding3), ("number_of_attribute_record_sets", text σ x.number_of_attribute_record_sets),
    ("attribute_record_sets", text σ x.attribute_record_sets)]
/-- src/entity_management.rs:30-61 (derived) -/
instance : PduDebug AggregateStatePdu where
  name := "AggregateStatePdu"
  fields σ x := [
    ("aggregate_id", text σ x.aggregate_id), ("force_id", text σ x.force_id),
    ("aggregate_state", text σ x.aggregate_state), ("aggregate_type", text σ x.aggregate_type),
    ("formation", text σ x.formation), ("aggregate_marking", text σ x.aggregate_marking),
    ("dimensions", text σ x.dimensions), ("orientation", text σ x.orientation),
    ("center_of_mass", text σ x.center_of_mass), ("velocity", text σ x.velocity),
    ("number_of_dis_aggregates", text σ x.number_of_dis_aggregates),
    ("number_of_dis_entities", text σ x.number_of_dis_entities),
    ("number_of_silent_aggregate_types", text σ x.number_of_silent_aggregate_types),
    ("number_of_silent_entity_types", text σ x.number_of_silent_entity_types),
    ("aggregate_id_list", text σ x.aggregate_id_list), ("entity_id_list", text σ x.entity_id_list),
    ("padding", text σ x.padding), ("silent_aggregate_system_list", text σ x.silent_aggregate_system_list),
    ("silent_entity_system_list", text σ x.silent_entity_system_list),
    ("number_of_variable_datum_records", text σ x.number_of_variable_datum_records),
    ("variable_datum_list", text σ x.variable_datum_list)]
/-- src/entity_management.rs:63-80 (derived) -/
instance : PduDebug IsGroupOfPdu where
  name := "IsGroupOfPdu"
  fields σ x := [
    ("group_entity_id", text σ x.group_entity_id), ("grouped_entity_category", text σ x.grouped_entity_category),
    ("number_of_grouped_entities", text σ x.number_of_grouped_entities), ("padding", text σ x.padding),
    ("latitude", text σ x.latitude), ("longitude", text σ x.longitude),
    ("grouped_entity_descriptions", text σ x.grouped_entity_descriptions)]
/-- src/entity_management.rs:82-99 (derived) -/
instance : PduDebug TransferOwnershipPdu where
  name := "TransferOwnershipPdu"
  fields σ x := [
    ("originating_id", text σ x.originating_id), ("receiving_id", text σ x.receiving_id),
    ("request_id", text σ x.request_id), ("required_reliability_service", text σ x.required_reliability_service),
    ("transfer_type", text σ x.transfer_type), ("transfer_entity_id", text σ x.transfer_entity_id),
    ("record_information", text σ x.record_information)]
/-- src/entity_management.rs:101-117 (derived) -/
instance : PduDebug IsPartOfPdu where
  name := "IsPartOfPdu"
  fields σ x := [
    ("originating_entity_id", text σ x.originating_entity_id), ("receiving_entity_id", text σ x.receiving_entity_id),
    ("relationship", text σ x.relationship), ("part_location", text σ x.part_location),
    ("named_location_id", text σ x.named_location_id), ("part_entity_type", text σ x.part_entity_type)]
/-- src/information_operations.rs:25-44 (derived) -/
instance : PduDebug InformationOperationsReportPdu where
  name := "InformationOperationsReportPdu"
  fields σ x := [
    ("originating_simulation_id", text σ x.originating_simulation_id),
    ("io_simulation_source", text σ x.io_simulation_source), ("io_report_type", text σ x.io_report_type),
    ("padding", text σ x.padding), ("io_attacker_entity_id", text σ x.io_attacker_entity_id),
    ("primary_target_entity_id", text σ x.primary_target_entity_id), ("padding2", text σ x.padding2),
    ("padding3", text σ x.padding3), ("io_records", text σ x.io_records)]
/-- src/information_operations.rs:46-68 (derived) -/
instance : PduDebug InformationOperationsActionPdu where
  name := "InformationOperationsActionPdu"
  fields σ x := [
    ("originating_simulation_id", text σ x.originating_simulation_id),
    ("receiving_simulation_id", text σ x.receiving_simulation_id), ("request_id", text σ x.request_id),
    ("io_warfare_type", text σ x.io_warfare_type), ("io_simulation_source", text σ x.io_simulation_source),
    ("io_action_type", text σ x.io_action_type), ("io_action_phase", text σ x.io_action_phase),
    ("padding", text σ x.padding), ("io_attacker_entity_id", text σ x.io_attacker_entity_id),
    ("io_primary_target_entity_id", text σ x.io_primary_target_entity_id), ("padding2", text σ x.padding2),
    ("io_records", text σ x.io_records)]
/-- src/logistics.rs:22-38 (derived) -/
instance : PduDebug ServiceRequestPdu where
  name := "ServiceRequestPdu"
  fields σ x := [
    ("receiving_entity_id", text σ x.receiving_entity_id), ("servicing_entity_id", text σ x.servicing_entity_id),
    ("service_type_requested", text σ x.service_type_requested),
    ("number_of_supply_types", text σ x.number_of_supply_types), ("padding", text σ x.padding),
    ("supplies", text σ x.supplies)]
/-- src/logistics.rs:40-56 (derived) -/
instance : PduDebug ResupplyOfferPdu where
  name := "ResupplyOfferPdu"
  fields σ x := [
    ("receiving_entity_id", text σ x.receiving_entity_id), ("supplying_entity_id", text σ x.supplying_entity_id),
    ("number_of_supply_types", text σ x.number_of_supply_types), ("padding", text σ x.padding),
    ("padding2", text σ x.padding2), ("supplies", text σ x.supplies)]
/-- src/logistics.rs:58-74 (derived) -/
instance : PduDebug ResupplyReceivedPdu where
  name := "ResupplyReceivedPdu"
  fields σ x := [
    ("receiving_entity_id", text σ x.receiving_entity_id), ("supplying_entity_id", text σ x.supplying_entity_id),
    ("number_of_supply_types", text σ x.number_of_supply_types), ("padding", text σ x.padding),
    ("padding2", text σ x.padding2), ("supplies", text σ x.supplies)]
/-- src/logistics.rs:76-88 (derived) -/
instance : PduDebug ResupplyCancelPdu where
  name := "ResupplyCancelPdu"
  fields σ x := [
    ("receiving_entity_id", text σ x.receiving_entity_id), ("supplying_entity_id", text σ x.supplying_entity_id)]
/-- src/logistics.rs:90-104 (derived) -/
instance : PduDebug RepairCompletePdu where
  name := "RepairCompletePdu"
  fields σ x := [
    ("receiving_entity_id", text σ x.receiving_entity_id), ("repairing_entity_id", text σ x.repairing_entity_id),
    ("repair", text σ x.repair), ("padding", text σ x.padding)]
/-- src/logistics.rs:106-121 (derived) -/
instance : PduDebug RepairResponsePdu where
  name := "RepairResponsePdu"
  fields σ x := [
    ("receiving_entity_id", text σ x.receiving_entity_id), ("repairing_entity_id", text σ x.repairing_entity_id),
    ("repair_result", text σ x.repair_result), ("padding", text σ x.padding), ("padding2", text σ x.padding2)]
/-- src/minefield.rs:23-45 (derived) -/
instance : PduDebug MinefieldStatePdu where
  name := "MinefieldStatePdu"
  fields σ x := [
    ("minefield_id", text σ x.minefield_id), ("minefield_sequence", text σ x.minefield_sequence),
    ("force_id", text σ x.force_id), ("number_of_perimeter_points", text σ x.number_of_perimeter_points),
    ("minefield_type", text σ x.minefield_type), ("number_of_mine_types", text σ x.number_of_mine_types),
    ("minefield_location", text σ x.minefield_location), ("minefield_orientation", text σ x.minefield_orientation),
    ("appearance", text σ x.appearance), ("protocol_mode", text σ x.protocol_mode),
    ("perimeter_points", text σ x.perimeter_points), ("mine_type", text σ x.mine_type)]
/-- src/minefield.rs:47-67 (derived) -/
instance : PduDebug MinefieldQueryPdu where
  name := "MinefieldQueryPdu"
  fields σ x := [
    ("minefield_id", text σ x.minefield_id), ("requesting_entity_id", text σ x.requesting_entity_id),
    ("request_id", text σ x.request_id), ("number_of_perimeter_points", text σ x.number_of_perimeter_points),
    ("padding", text σ x.padding), ("number_of_sensor_types", text σ x.number_of_sensor_types),
    ("data_filter", text σ x.data_filter), ("requested_mine_type", text σ x.requested_mine_type),
    ("requested_perimeter_points", text σ x.requested_perimeter_points), ("sensor_types", text σ x.sensor_types)]
/-- src/minefield.rs:69-106 (derived) -/
instance : PduDebug MinefieldDataPdu where
  name := "MinefieldDataPdu"
  fields σ x := [
    ("minefield_id", text σ x.minefield_id), ("requesting_entity_id", text σ x.requesting_entity_id),
    ("minefield_sequence_number", text σ x.minefield_sequence_number), ("request_id", text σ x.request_id),
    ("pdu_sequence_number", text σ x.pdu_sequence_number), ("number_of_pdus", text σ x.number_of_pdus),
    ("number_of_mines_in_this_pdu", text σ x.number_of_mines_in_this_pdu),
    ("number_of_sensor_types", text σ x.number_of_sensor_types), ("padding", text σ x.padding),
    ("data_filter", text σ x.data_filter), ("mine_type", text σ x.mine_type),
    ("sensor_types", text σ x.sensor_types), ("mine_location", text σ x.mine_location),
    ("ground_burial_depth_offset", text σ x.ground_burial_depth_offset),
    ("water_burial_depth_offset", text σ x.water_burial_depth_offset),
    ("snow_burial_depth_offset", text σ x.snow_burial_depth_offset), ("mine_orientation", text σ x.mine_orientation),
    ("thermal_contrast", text σ x.thermal_contrast), ("reflectance", text σ x.reflectance),
    ("mine_emplacement_time", text σ x.mine_emplacement_time), ("mine_entity_id", text σ x.mine_entity_id),
    ("fusing", text σ x.fusing), ("scalar_detection_coefficient", text σ x.scalar_detection_coefficient),
    ("paint_scheme", text σ x.paint_scheme), ("number_of_trip_wires", text σ x.number_of_trip_wires),
    ("number_of_vertices", text σ x.number_of_vertices), ("vertices", text σ x.vertices)]
/-- src/minefield.rs:108-123 (derived) -/
instance : PduDebug MinefieldResponseNackPdu where
  name := "MinefieldResponseNackPdu"
  fields σ x := [
    ("minefield_id", text σ x.minefield_id), ("requesting_entity_id", text σ x.requesting_entity_id),
    ("request_id", text σ x.request_id), ("number_of_missing_pdus", text σ x.number_of_missing_pdus),
    ("missing_pdu_sequence_numbers", text σ x.missing_pdu_sequence_numbers)]
/-- src/radio_communications.rs:32-65 (derived) -/
instance : PduDebug TransmitterPdu where
  name := "TransmitterPdu"
  fields σ x := [
    ("entity_id", text σ x.entity_id), ("radio_id", text σ x.radio_id),
    ("radio_entity_type", text σ x.radio_entity_type), ("transmit_state", text σ x.transmit_state),
    ("input_source", text σ x.input_source),
    ("number_of_variable_transmitter_parameters_records", text σ x.number_of_variable_transmitter_parameters_records),
    ("antenna_location", text σ x.antenna_location),
    ("relative_antenna_location", text σ x.relative_antenna_location),
    ("antenna_pattern_type", text σ x.antenna_pattern_type),
    ("antenna_pattern_length", text σ x.antenna_pattern_length), ("frequency", text σ x.frequency),
    ("transmit_frequency_bandwidth", text σ x.transmit_frequency_bandwidth), ("power", text σ x.power),
    ("modulation_type", text σ x.modulation_type), ("crypto_system", text σ x.crypto_system),
    ("crypto_key_id", text σ x.crypto_key_id), ("modulation_parameter_length", text σ x.modulation_parameter_length),
    ("padding", text σ x.padding), ("padding2", text σ x.padding2),
    ("modulation_parameters", text σ x.modulation_parameters), ("antenna_pattern", text σ x.antenna_pattern),
    ("variable_transmitter_parameters", text σ x.variable_transmitter_parameters)]
/-- src/radio_communications.rs:67-85 (derived) -/
instance : PduDebug SignalPdu where
  name := "SignalPdu"
  fields σ x := [
    ("entity_id", text σ x.entity_id), ("radio_id", text σ x.radio_id),
    ("encoding_scheme", text σ x.encoding_scheme), ("tdl_type", text σ x.tdl_type),
    ("sample_rate", text σ x.sample_rate), ("data_length", text σ x.data_length), ("samples", text σ x.samples),
    ("data", text σ x.data)]
/-- src/radio_communications.rs:87-104 (derived) -/
instance : PduDebug ReceiverPdu where
  name := "ReceiverPdu"
  fields σ x := [
    ("entity_id", text σ x.entity_id), ("radio_id", text σ x.radio_id), ("receiver_state", text σ x.receiver_state),
    ("padding", text σ x.padding), ("received_power", text σ x.received_power),
    ("transmitter_radio_reference_id", text σ x.transmitter_radio_reference_id),
    ("transmitter_radio_id", text σ x.transmitter_radio_id)]
/-- src/radio_communications.rs:106-124 (derived) -/
instance : PduDebug IntercomSignalPdu where
  name := "IntercomSignalPdu"
  fields σ x := [
    ("intercom_reference_id", text σ x.intercom_reference_id), ("intercom_number", text σ x.intercom_number),
    ("encoding_scheme", text σ x.encoding_scheme), ("tdl_type", text σ x.tdl_type),
    ("sample_rate", text σ x.sample_rate), ("data_length", text σ x.data_length), ("samples", text σ x.samples),
    ("data", text σ x.data)]
/-- src/radio_communications.rs:126-149 (derived) -/
instance : PduDebug IntercomControlPdu where
  name := "IntercomControlPdu"
  fields σ x := [
    ("control_type", text σ x.control_type), ("communications_channel_type", text σ x.communications_channel_type),
    ("source_intercom_reference_id", text σ x.source_intercom_reference_id),
    ("source_intercom_number", text σ x.source_intercom_number), ("source_line_id", text σ x.source_line_id),
    ("transmit_priority", text σ x.transmit_priority), ("transmit_line_state", text σ x.transmit_line_state),
    ("command", text σ x.command), ("master_intercom_reference_id", text σ x.master_intercom_reference_id),
    ("master_intercom_number", text σ x.master_intercom_number), ("master_channel_id", text σ x.master_channel_id),
    ("intercom_parameters_length", text σ x.intercom_parameters_length),
    ("intercom_parameters", text σ x.intercom_parameters)]
/-- src/simulation_management.rs:24-37 (derived) -/
instance : PduDebug CreateEntityPdu where
  name := "CreateEntityPdu"
  fields σ x := [
    ("originating_entity_id", text σ x.originating_entity_id), ("receiving_entity_id", text σ x.receiving_entity_id),
    ("request_id", text σ x.request_id)]
/-- src/simulation_management.rs:39-52 (derived) -/
instance : PduDebug RemoveEntityPdu where
  name := "RemoveEntityPdu"
  fields σ x := [
    ("originating_entity_id", text σ x.originating_entity_id), ("receiving_entity_id", text σ x.receiving_entity_id),
    ("request_id", text σ x.request_id)]
/-- src/simulation_management.rs:54-69 (derived) -/
instance : PduDebug StartResumePdu where
  name := "StartResumePdu"
  fields σ x := [
    ("originating_entity_id", text σ x.originating_entity_id), ("receiving_entity_id", text σ x.receiving_entity_id),
    ("real_world_time", text σ x.real_world_time), ("simulation_time", text σ x.simulation_time),
    ("request_id", text σ x.request_id)]
/-- src/simulation_management.rs:71-88 (derived) -/
instance : PduDebug StopFreezePdu where
  name := "StopFreezePdu"
  fields σ x := [
    ("originating_entity_id", text σ x.originating_entity_id), ("receiving_entity_id", text σ x.receiving_entity_id),
    ("real_world_time", text σ x.real_world_time), ("reason", text σ x.reason),
    ("frozen_behavior", text σ x.frozen_behavior), ("padding", text σ x.padding), ("request_id", text σ x.request_id)]
/-- src/simulation_management.rs:90-105 (derived) -/
instance : PduDebug AcknowledgePdu where
  name := "AcknowledgePdu"
  fields σ x := [
    ("originating_entity_id", text σ x.originating_entity_id), ("receiving_entity_id", text σ x.receiving_entity_id),
    ("acknowledge_flag", text σ x.acknowledge_flag), ("response_flag", text σ x.response_flag),
    ("request_id", text σ x.request_id)]
/-- src/simulation_management.rs:107-125 (derived) -/
instance : PduDebug ActionRequestPdu where
  name := "ActionRequestPdu"
  fields σ x := [
    ("originating_entity_id", text σ x.originating_entity_id), ("receiving_entity_id", text σ x.receiving_entity_id),
    ("request_id", text σ x.request_id), ("action_id", text σ x.action_id),
    ("number_of_fixed_datum_records", text σ x.number_of_fixed_datum_records),
    ("number_of_variable_datum_records", text σ x.number_of_variable_datum_records),
    ("fixed_datum_records", text σ x.fixed_datum_records),
    ("variable_datum_records", text σ x.variable_datum_records)]
/-- src/simulation_management.rs:127-145 (derived) -/
instance : PduDebug ActionResponsePdu where
  name := "ActionResponsePdu"
  fields σ x := [
    ("originating_entity_id", text σ x.originating_entity_id), ("receiving_entity_id", text σ x.receiving_entity_id),
    ("request_id", text σ x.request_id), ("request_status", text σ x.request_status),
    ("number_of_fixed_datum_records", text σ x.number_of_fixed_datum_records),
    ("number_of_variable_datum_records", text σ x.number_of_variable_datum_records),
    ("fixed_datum_records", text σ x.fixed_datum_records),
    ("variable_datum_records", text σ x.variable_datum_records)]
/-- src/simulation_management.rs:147-165 (derived) -/
instance : PduDebug DataQueryPdu where
  name := "DataQueryPdu"
  fields σ x := [
    ("originating_entity_id", text σ x.originating_entity_id), ("receiving_entity_id", text σ x.receiving_entity_id),
    ("request_id", text σ x.request_id), ("time_interval", text σ x.time_interval),
    ("number_of_fixed_datum_records", text σ x.number_of_fixed_datum_records),
    ("number_of_variable_datum_records", text σ x.number_of_variable_datum_records),
    ("fixed_datum_records", text σ x.fixed_datum_records),
    ("variable_datum_records", text σ x.variable_datum_records)]
/-- src/simulation_management.rs:167-185 (derived) -/
instance : PduDebug SetDataPdu where
  name := "SetDataPdu"
  fields σ x := [
    ("originating_entity_id", text σ x.originating_entity_id), ("receiving_entity_id", text σ x.receiving_entity_id),
    ("request_id", text σ x.request_id), ("padding", text σ x.padding),
    ("number_of_fixed_datum_records", text σ x.number_of_fixed_datum_records),
    ("number_of_variable_datum_records", text σ x.number_of_variable_datum_records),
    ("fixed_datum_records", text σ x.fixed_datum_records),
    ("variable_datum_records", text σ x.variable_datum_records)]
/-- src/simulation_management.rs:187-205 (derived) -/
instance : PduDebug DataPdu where
  name := "DataPdu"
  fields σ x := [
    ("originating_entity_id", text σ x.originating_entity_id), ("receiving_entity_id", text σ x.receiving_entity_id),
    ("request_id", text σ x.request_id), ("padding", text σ x.padding),
    ("number_of_fixed_datum_records", text σ x.number_of_fixed_datum_records),
    ("number_of_variable_datum_records", text σ x.number_of_variable_datum_records),
    ("fixed_datum_records", text σ x.fixed_datum_records),
    ("variable_datum_records", text σ x.variable_datum_records)]
/-- src/simulation_management.rs:207-225 (derived) -/
instance : PduDebug EventReportPdu where
  name := "EventReportPdu"
  fields σ x := [
    ("originating_entity_id", text σ x.originating_entity_id), ("receiving_entity_id", text σ x.receiving_entity_id),
    ("event_type", text σ x.event_type), ("padding", text σ x.padding),
    ("number_of_fixed_datum_records", text σ x.number_of_fixed_datum_records),
    ("number_of_variable_datum_records", text σ x.number_of_variable_datum_records),
    ("fixed_datum_records", text σ x.fixed_datum_records),
    ("variable_datum_records", text σ x.variable_datum_records)]
/-- src/simulation_management.rs:227-243 (derived) -/
instance : PduDebug CommentPdu where
  name := "CommentPdu"
  fields σ x := [
    ("originating_entity_id", text σ x.originating_entity_id), ("receiving_entity_id", text σ x.receiving_entity_id),
    ("number_of_fixed_datum_records", text σ x.number_of_fixed_datum_records),
    ("number_of_variable_datum_records", text σ x.number_of_variable_datum_records),
    ("fixed_datum_records", text σ x.fixed_datum_records),
    ("variable_datum_records", text σ x.variable_datum_records)]
/-- src/simulation_management_with_reliability.rs:29-45 (derived) -/
instance : PduDebug CreateEntityReliablePdu where
  name := "CreateEntityReliablePdu"
  fields σ x := [
    ("originating_entity_id", text σ x.originating_entity_id), ("receiving_entity_id", text σ x.receiving_entity_id),
    ("required_reliability_service", text σ x.required_reliability_service), ("padding", text σ x.padding),
    ("padding2", text σ x.padding2), ("request_id", text σ x.request_id)]
/-- src/simulation_management_with_reliability.rs:47-63 (derived) -/
instance : PduDebug RemoveEntityReliablePdu where
  name := "RemoveEntityReliablePdu"
  fields σ x := [
    ("originating_entity_id", text σ x.originating_entity_id), ("receiving_entity_id", text σ x.receiving_entity_id),
    ("required_reliability_service", text σ x.required_reliability_service), ("padding", text σ x.padding),
    ("padding2", text σ x.padding2), ("request_id", text σ x.request_id)]
/-- src/simulation_management_with_reliability.rs:65-83 (derived) -/
instance : PduDebug StartResumeReliablePdu where
  name := "StartResumeReliablePdu"
  fields σ x := [
    ("originating_entity_id", text σ x.originating_entity_id), ("receiving_entity_id", text σ x.receiving_entity_id),
    ("real_world_time", text σ x.real_world_time), ("simulation_time", text σ x.simulation_time),
    ("required_reliability_service", text σ x.required_reliability_service), ("padding", text σ x.padding),
    ("padding2", text σ x.padding2), ("request_id", text σ x.request_id)]
/-- src/simulation_management_with_reliability.rs:85-103 (derived) -/
instance : PduDebug StopFreezeReliablePdu where
  name := "StopFreezeReliablePdu"
  fields σ x := [
    ("originating_entity_id", text σ x.originating_entity_id), ("receiving_entity_id", text σ x.receiving_entity_id),
    ("real_world_time", text σ x.real_world_time), ("reason", text σ x.reason),
    ("frozen_behavior", text σ x.frozen_behavior),
    ("required_reliability_service", text σ x.required_reliability_service), ("padding", text σ x.padding),
    ("request_id", text σ x.request_id)]
/-- src/simulation_management_with_reliability.rs:105-120 (derived) -/
instance : PduDebug AcknowledgeReliablePdu where
  name := "AcknowledgeReliablePdu"
  fields σ x := [
    ("originating_entity_id", text σ x.originating_entity_id), ("receiving_entity_id", text σ x.receiving_entity_id),
    ("acknowledge_flag", text σ x.acknowledge_flag), ("response_flag", text σ x.response_flag),
    ("request_id", text σ x.request_id)]
/-- src/simulation_management_with_reliability.rs:122-144 (derived) -/
instance : PduDebug ActionRequestReliablePdu where
  name := "ActionRequestReliablePdu"
  fields σ x := [
    ("originating_entity_id", text σ x.originating_entity_id), ("receiving_entity_id", text σ x.receiving_entity_id),
    ("required_reliability_service", text σ x.required_reliability_service), ("padding", text σ x.padding),
    ("padding2", text σ x.padding2), ("request_id", text σ x.request_id), ("action_id", text σ x.action_id),
    ("padding3", text σ x.padding3), ("number_of_fixed_datum_records", text σ x.number_of_fixed_datum_records),
    ("number_of_variable_datum_records", text σ x.number_of_variable_datum_records),
    ("fixed_datum_records", text σ x.fixed_datum_records),
    ("variable_datum_records", text σ x.variable_datum_records)]
/-- src/simulation_management_with_reliability.rs:146-164 (derived) -/
instance : PduDebug ActionResponseReliablePdu where
  name := "ActionResponseReliablePdu"
  fields σ x := [
    ("originating_entity_id", text σ x.originating_entity_id), ("receiving_entity_id", text σ x.receiving_entity_id),
    ("request_id", text σ x.request_id), ("request_status", text σ x.request_status),
    ("number_of_fixed_datum_records", text σ x.number_of_fixed_datum_records),
    ("number_of_variable_datum_records", text σ x.number_of_variable_datum_records),
    ("fixed_datum_records", text σ x.fixed_datum_records),
    ("variable_datum_records", text σ x.variable_datum_records)]
/-- src/simulation_management_with_reliability.rs:166-187 (derived) -/
instance : PduDebug DataQueryReliablePdu where
  name := "DataQueryReliablePdu"
  fields σ x := [
    ("originating_entity_id", text σ x.originating_entity_id), ("receiving_entity_id", text σ x.receiving_entity_id),
    ("required_reliability_service", text σ x.required_reliability_service), ("padding", text σ x.padding),
    ("padding2", text σ x.padding2), ("request_id", text σ x.request_id), ("time_interval", text σ x.time_interval),
    ("number_of_fixed_datum_records", text σ x.number_of_fixed_datum_records),
    ("number_of_variable_datum_records", text σ x.number_of_variable_datum_records),
    ("fixed_datum_ids", text σ x.fixed_datum_ids), ("variable_datum_ids", text σ x.variable_datum_ids)]
/-- src/simulation_management_with_reliability.rs:189-209 (derived) -/
instance : PduDebug SetDataReliablePdu where
  name := "SetDataReliablePdu"
  fields σ x := [
    ("originating_entity_id", text σ x.originating_entity_id), ("receiving_entity_id", text σ x.receiving_entity_id),
    ("required_reliability_service", text σ x.required_reliability_service), ("padding", text σ x.padding),
    ("padding2", text σ x.padding2), ("request_id", text σ x.request_id),
    ("number_of_fixed_datum_records", text σ x.number_of_fixed_datum_records),
    ("number_of_variable_datum_records", text σ x.number_of_variable_datum_records),
    ("fixed_datum_records", text σ x.fixed_datum_records),
    ("variable_datum_records", text σ x.variable_datum_records)]
/-- src/simulation_management_with_reliability.rs:211-231 (derived) -/
instance : PduDebug DataReliablePdu where
  name := "DataReliablePdu"
  fields σ x := [
    ("originating_entity_id", text σ x.originating_entity_id), ("receiving_entity_id", text σ x.receiving_entity_id),
    ("request_id", text σ x.request_id), ("required_reliability_service", text σ x.required_reliability_service),
    ("padding", text σ x.padding), ("padding2", text σ x.padding2),
    ("number_of_fixed_datum_records", text σ x.number_of_fixed_datum_records),
    ("number_of_variable_datum_records", text σ x.number_of_variable_datum_records),
    ("fixed_datum_records", text σ x.fixed_datum_records),
    ("variable_datum_records", text σ x.variable_datum_records)]
/-- src/simulation_management_with_reliability.rs:233-251 (derived) -/
instance : PduDebug EventReportReliablePdu where
  name := "EventReportReliablePdu"
  fields σ x := [
    ("originating_entity_id", text σ x.originating_entity_id), ("receiving_entity_id", text σ x.receiving_entity_id),
    ("event_type", text σ x.event_type), ("padding", text σ x.padding),
    ("number_of_fixed_datum_records", text σ x.number_of_fixed_datum_records),
    ("number_of_variable_datum_records", text σ x.number_of_variable_datum_records),
    ("fixed_datum_records", text σ x.fixed_datum_records),
    ("variable_datum_records", text σ x.variable_datum_records)]
/-- src/simulation_management_with_reliability.rs:253-269 (derived) -/
instance : PduDebug CommentReliablePdu where
  name := "CommentReliablePdu"
  fields σ x := [
    ("originating_entity_id", text σ x.originating_entity_id), ("receiving_entity_id", text σ x.receiving_entity_id),
    ("number_of_fixed_datum_records", text σ x.number_of_fixed_datum_records),
    ("number_of_variable_datum_records", text σ x.number_of_variable_datum_records),
    ("fixed_datum_records", text σ x.fixed_datum_records),
    ("variable_datum_records", text σ x.variable_datum_records)]
/-- src/simulation_management_with_reliability.rs:271-290 (derived) -/
instance : PduDebug RecordQueryReliablePdu where
  name := "RecordQueryReliablePdu"
  fields σ x := [
    ("originating_entity_id", text σ x.originating_entity_id), ("receiving_entity_id", text σ x.receiving_entity_id),
    ("request_id", text σ x.request_id), ("required_reliability_service", text σ x.required_reliability_service),
    ("padding", text σ x.padding), ("event_type", text σ x.event_type), ("time", text σ x.time),
    ("number_of_records", text σ x.number_of_records), ("record_ids", text σ x.record_ids)]
/-- src/simulation_management_with_reliability.rs:292-310 (derived) -/
instance : PduDebug SetRecordReliablePdu where
  name := "SetRecordReliablePdu"
  fields σ x := [
    ("originating_entity_id", text σ x.originating_entity_id), ("receiving_entity_id", text σ x.receiving_entity_id),
    ("request_id", text σ x.request_id), ("required_reliability_service", text σ x.required_reliability_service),
    ("padding", text σ x.padding), ("padding2", text σ x.padding2), ("padding3", text σ x.padding3),
    ("record_sets", text σ x.record_sets)]
/-- src/synthetic_environment.rs:29-46 (derived) -/
instance : PduDebug EnvironmentalProcessPdu where
  name := "EnvironmentalProcessPdu"
  fields σ x := [
    ("environmental_process_id", text σ x.environmental_process_id), ("environment_type", text σ x.environment_type),
    ("model_type", text σ x.model_type), ("environment_status", text σ x.environment_status),
    ("number_of_environment_records", text σ x.number_of_environment_records),
    ("sequence_number", text σ x.sequence_number), ("environment_records", text σ x.environment_records)]
/-- src/synthetic_environment.rs:48-74 (derived) -/
instance : PduDebug GriddedDataPdu where
  name := "GriddedDataPdu"
  fields σ x := [
    ("environmental_simulation_id", text σ x.environmental_simulation_id), ("field_number", text σ x.field_number),
    ("pdu_number", text σ x.pdu_number), ("pdu_total", text σ x.pdu_total),
    ("coordinate_system", text σ x.coordinate_system), ("number_of_grid_axes", text σ x.number_of_grid_axes),
    ("constant_grid", text σ x.constant_grid), ("environment_type", text σ x.environment_type),
    ("orientation", text σ x.orientation), ("sample_time", text σ x.sample_time),
    ("total_values", text σ x.total_values), ("vector_dimension", text σ x.vector_dimension),
    ("padding", text σ x.padding), ("padding2", text σ x.padding2),
    ("grid_axis_descriptors", text σ x.grid_axis_descriptors), ("grid_data_list", text σ x.grid_data_list)]
/-- src/synthetic_environment.rs:76-100 (derived) -/
instance : PduDebug PointObjectStatePdu where
  name := "PointObjectStatePdu"
  fields σ x := [
    ("object_id", text σ x.object_id), ("referenced_object_id", text σ x.referenced_object_id),
    ("update_number", text σ x.update_number), ("force_id", text σ x.force_id),
    ("modifications", text σ x.modifications), ("object_type", text σ x.object_type),
    ("object_location", text σ x.object_location), ("object_orientation", text σ x.object_orientation),
    ("specific_object_appearance", text σ x.specific_object_appearance),
    ("general_object_appearance", text σ x.general_object_appearance), ("padding", text σ x.padding),
    ("requester_id", text σ x.requester_id), ("receiving_id", text σ x.receiving_id), ("padding2", text σ x.padding2)]
/-- src/synthetic_environment.rs:102-121 (derived) -/
instance : PduDebug LinearObjectStatePdu where
  name := "LinearObjectStatePdu"
  fields σ x := [
    ("object_id", text σ x.object_id), ("referenced_object_id", text σ x.referenced_object_id),
    ("update_number", text σ x.update_number), ("force_id", text σ x.force_id),
    ("number_of_segments", text σ x.number_of_segments), ("requester_id", text σ x.requester_id),
    ("receiving_id", text σ x.receiving_id), ("object_type", text σ x.object_type),
    ("linear_segment_parameters", text σ x.linear_segment_parameters)]
/-- src/synthetic_environment.rs:123-145 (derived) -/
instance : PduDebug ArealObjectStatePdu where
  name := "ArealObjectStatePdu"
  fields σ x := [
    ("object_id", text σ x.object_id), ("referenced_object_id", text σ x.referenced_object_id),
    ("update_number", text σ x.update_number), ("force_id", text σ x.force_id),
    ("modifications", text σ x.modifications), ("object_type", text σ x.object_type),
    ("specific_object_appearance", text σ x.specific_object_appearance),
    ("general_object_appearance", text σ x.general_object_appearance),
    ("number_of_points", text σ x.number_of_points), ("requester_id", text σ x.requester_id),
    ("receiving_id", text σ x.receiving_id), ("object_location", text σ x.object_location)]
/-- src/warfare.rs:23-42 (derived) -/
instance : PduDebug FirePdu where
  name := "FirePdu"
  fields σ x := [
    ("firing_entity_id", text σ x.firing_entity_id), ("target_entity_id", text σ x.target_entity_id),
    ("munition_expendable_id", text σ x.munition_expendable_id), ("event_id", text σ x.event_id),
    ("fire_mission_index", text σ x.fire_mission_index),
    ("location_in_world_coordinates", text σ x.location_in_world_coordinates), ("descriptor", text σ x.descriptor),
    ("velocity", text σ x.velocity), ("range", text σ x.range)]
/-- src/warfare.rs:44-66 (derived) -/
instance : PduDebug DetonationPdu where
  name := "DetonationPdu"
  fields σ x := [
    ("firing_entity_id", text σ x.firing_entity_id), ("target_entity_id", text σ x.target_entity_id),
    ("exploding_entity_id", text σ x.exploding_entity_id), ("event_id", text σ x.event_id),
    ("velocity", text σ x.velocity), ("location_in_world_coordinates", text σ x.location_in_world_coordinates),
    ("descriptor", text σ x.descriptor),
    ("location_in_entitys_coordinates", text σ x.location_in_entitys_coordinates),
    ("detonation_result", text σ x.detonation_result),
    ("number_of_variable_parameters", text σ x.number_of_variable_parameters), ("padding", text σ x.padding),
    ("variable_parameters", text σ x.variable_parameters)]
/-- src/warfare.rs:68-96 (derived) -/
instance : PduDebug DirectedEnergyFirePdu where
  name := "DirectedEnergyFirePdu"
  fields σ x := [
    ("firing_entity_id", text σ x.firing_entity_id), ("event_id", text σ x.event_id),
    ("munition_type", text σ x.munition_type), ("shot_start_time", text σ x.shot_start_time),
    ("cumulative_shot_time", text σ x.cumulative_shot_time),
    ("aperture_emitter_location", text σ x.aperture_emitter_location),
    ("aperture_diameter", text σ x.aperture_diameter), ("wavelength", text σ x.wavelength),
    ("padding", text σ x.padding), ("pulse_repetition_frequency", text σ x.pulse_repetition_frequency),
    ("pulse_width", text σ x.pulse_width), ("flags", text σ x.flags), ("pulse_shape", text σ x.pulse_shape),
    ("padding2", text σ x.padding2), ("padding3", text σ x.padding3), ("padding4", text σ x.padding4),
    ("number_of_de_records", text σ x.number_of_de_records), ("damage_descriptions", text σ x.damage_descriptions)]
/-- src/warfare.rs:98-113 (derived) -/
instance : PduDebug EntityDamageStatusPdu where
  name := "EntityDamageStatusPdu"
  fields σ x := [
    ("damaged_entity_id", text σ x.damaged_entity_id), ("padding", text σ x.padding),
    ("padding2", text σ x.padding2), ("number_of_damage_descriptions", text σ x.number_of_damage_descriptions),
    ("damage_descriptions", text σ x.damage_descriptions)]

/-- the derived `Debug` of each kind -/
instance PduKind.debugBody : (k : PduKind) → PduDebug k.Body
  | .ElectromagneticEmissions => inferInstanceAs (PduDebug ElectromagneticEmissionsPdu)
  | .Designator => inferInstanceAs (PduDebug DesignatorPdu)
  | .UnderwaterAcoustic => inferInstanceAs (PduDebug UnderwaterAcousticPdu)
  | .IFF => inferInstanceAs (PduDebug IFFPdu)
  | .SupplementalEmission => inferInstanceAs (PduDebug SupplementalEmissionPdu)
  | .EntityState => inferInstanceAs (PduDebug EntityStatePdu)
  | .Collision => inferInstanceAs (PduDebug CollisionPdu)
  | .CollisionElastic => inferInstanceAs (PduDebug CollisionElasticPdu)
  | .EntityStateUpdate => inferInstanceAs (PduDebug EntityStateUpdatePdu)
  | .Attribute => inferInstanceAs (PduDebug AttributePdu)
  | .AggregateState => inferInstanceAs (PduDebug AggregateStatePdu)
  | .IsGroupOf => inferInstanceAs (PduDebug IsGroupOfPdu)
  | .TransferOwnership => inferInstanceAs (PduDebug TransferOwnershipPdu)
  | .IsPartOf => inferInstanceAs (PduDebug IsPartOfPdu)
  | .InformationOperationsReport => inferInstanceAs (PduDebug InformationOperationsReportPdu)
  | .InformationOperationsAction => inferInstanceAs (PduDebug InformationOperationsActionPdu)
  | .ServiceRequest => inferInstanceAs (PduDebug ServiceRequestPdu)
  | .ResupplyOffer => inferInstanceAs (PduDebug ResupplyOfferPdu)
  | .ResupplyReceived => inferInstanceAs (PduDebug ResupplyReceivedPdu)
  | .ResupplyCancel => inferInstanceAs (PduDebug ResupplyCancelPdu)
  | .RepairComplete => inferInstanceAs (PduDebug RepairCompletePdu)
  | .RepairResponse => inferInstanceAs (PduDebug RepairResponsePdu)
  | .MinefieldState => inferInstanceAs (PduDebug MinefieldStatePdu)
  | .MinefieldQuery => inferInstanceAs (PduDebug MinefieldQueryPdu)
  | .MinefieldData => inferInstanceAs (PduDebug MinefieldDataPdu)
  | .MinefieldResponseNack => inferInstanceAs (PduDebug MinefieldResponseNackPdu)
  | .Transmitter => inferInstanceAs (PduDebug TransmitterPdu)
  | .Signal => inferInstanceAs (PduDebug SignalPdu)
  | .Receiver => inferInstanceAs (PduDebug ReceiverPdu)
  | .IntercomSignal => inferInstanceAs (PduDebug IntercomSignalPdu)
  | .IntercomControl => inferInstanceAs (PduDebug IntercomControlPdu)
  | .CreateEntity => inferInstanceAs (PduDebug CreateEntityPdu)
  | .RemoveEntity => inferInstanceAs (PduDebug RemoveEntityPdu)
  | .StartResume => inferInstanceAs (PduDebug StartResumePdu)
  | .StopFreeze => inferInstanceAs (PduDebug StopFreezePdu)
  | .Acknowledge => inferInstanceAs (PduDebug AcknowledgePdu)
  | .ActionRequest => inferInstanceAs (PduDebug ActionRequestPdu)
  | .ActionResponse => inferInstanceAs (PduDebug ActionResponsePdu)
  | .DataQuery => inferInstanceAs (PduDebug DataQueryPdu)
  | .SetData => inferInstanceAs (PduDebug SetDataPdu)
  | .Data => inferInstanceAs (PduDebug DataPdu)
  | .EventReport => inferInstanceAs (PduDebug EventReportPdu)
  | .Comment => inferInstanceAs (PduDebug CommentPdu)
  | .CreateEntityReliable => inferInstanceAs (PduDebug CreateEntityReliablePdu)
  | .RemoveEntityReliable => inferInstanceAs (PduDebug RemoveEntityReliablePdu)
  | .StartResumeReliable => inferInstanceAs (PduDebug StartResumeReliablePdu)
  | .StopFreezeReliable => inferInstanceAs (PduDebug StopFreezeReliablePdu)
  | .AcknowledgeReliable => inferInstanceAs (PduDebug AcknowledgeReliablePdu)
  | .ActionRequestReliable => inferInstanceAs (PduDebug ActionRequestReliablePdu)
  | .ActionResponseReliable => inferInstanceAs (PduDebug ActionResponseReliablePdu)
  | .DataQueryReliable => inferInstanceAs (PduDebug DataQueryReliablePdu)
  | .SetDataReliable => inferInstanceAs (PduDebug SetDataReliablePdu)
  | .DataReliable => inferInstanceAs (PduDebug DataReliablePdu)
  | .EventReportReliable => inferInstanceAs (PduDebug EventReportReliablePdu)
  | .CommentReliable => inferInstanceAs (PduDebug CommentReliablePdu)
  | .RecordQueryReliable => inferInstanceAs (PduDebug RecordQueryReliablePdu)
  | .SetRecordReliable => inferInstanceAs (PduDebug SetRecordReliablePdu)
  | .EnvironmentalProcess => inferInstanceAs (PduDebug EnvironmentalProcessPdu)
  | .GriddedData => inferInstanceAs (PduDebug GriddedDataPdu)
  | .PointObjectState => inferInstanceAs (PduDebug PointObjectStatePdu)
  | .LinearObjectState => inferInstanceAs (PduDebug LinearObjectStatePdu)
  | .ArealObjectState => inferInstanceAs (PduDebug ArealObjectStatePdu)
  | .Fire => inferInstanceAs (PduDebug FirePdu)
  | .Detonation => inferInstanceAs (PduDebug DetonationPdu)
  | .DirectedEnergyFire => inferInstanceAs (PduDebug DirectedEnergyFirePdu)
  | .EntityDamageStatus => inferInstanceAs (PduDebug EntityDamageStatusPdu)

end Dis
