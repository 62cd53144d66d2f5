import Verif.Model.Pdus1
import Verif.Spec.Layout
/-
Layout tables of the PDU kinds: the octets, counted from the beginning of the message (the header occupies
octets 0 to 11), of every field up to the first list.  Drafted by tools/gen_layout.py from the field
lists and read through by hand; the totals are compared with those of IEEE 1278.1 in C48_complete.  Known
deviations of the crate from the standard are listed in DESIGN.md.
-/
set_option maxRecDepth 4000
namespace Dis

/-- src/distributed_emissions.rs:35-51 -/
def ElectromagneticEmissionsPdu.layout : List (Slot ElectromagneticEmissionsPdu) := [
  Slot.u16 12 (·.emitting_entity_id.simulation_address.site_id),
  Slot.u16 14 (·.emitting_entity_id.simulation_address.application_id),
  Slot.u16 16 (·.emitting_entity_id.entity_id),
  Slot.u16 18 (·.event_id.simulation_address.site_id),
  Slot.u16 20 (·.event_id.simulation_address.application_id),
  Slot.u16 22 (·.event_id.event_identifier),
  Slot.enum 24 1 (·.state_update_indicator),
  Slot.u8 25 (·.number_of_systems),
  Slot.u16 26 (·.padding)]

/-- src/distributed_emissions.rs:53-75 -/
def DesignatorPdu.layout : List (Slot DesignatorPdu) := [
  Slot.u16 12 (·.designating_entity_id.simulation_address.site_id),
  Slot.u16 14 (·.designating_entity_id.simulation_address.application_id),
  Slot.u16 16 (·.designating_entity_id.entity_id),
  Slot.enum 18 2 (·.code_name),
  Slot.u16 20 (·.designated_entity_id.simulation_address.site_id),
  Slot.u16 22 (·.designated_entity_id.simulation_address.application_id),
  Slot.u16 24 (·.designated_entity_id.entity_id),
  Slot.enum 26 2 (·.designator_code),
  Slot.f32 28 (·.designator_power),
  Slot.f32 32 (·.designator_wavelength),
  Slot.f32 36 (·.designator_spot_wrt_designated.x_coordinate),
  Slot.f32 40 (·.designator_spot_wrt_designated.y_coordinate),
  Slot.f32 44 (·.designator_spot_wrt_designated.z_coordinate),
  Slot.f64 48 (·.designator_spot_location.x),
  Slot.f64 56 (·.designator_spot_location.y),
  Slot.f64 64 (·.designator_spot_location.z),
  Slot.enum 72 1 (·.dead_reckoning_algorithm),
  Slot.u8 73 (·.padding),
  Slot.u16 74 (·.padding2),
  Slot.f32 76 (·.entity_linear_acceleration.first_vector_component),
  Slot.f32 80 (·.entity_linear_acceleration.second_vector_component),
  Slot.f32 84 (·.entity_linear_acceleration.third_vector_component)]

/-- src/distributed_emissions.rs:77-99 -/
def UnderwaterAcousticPdu.layout : List (Slot UnderwaterAcousticPdu) := [
  Slot.u16 12 (·.emitting_entity_id.simulation_address.site_id),
  Slot.u16 14 (·.emitting_entity_id.simulation_address.application_id),
  Slot.u16 16 (·.emitting_entity_id.entity_id),
  Slot.u16 18 (·.event_id.simulation_address.site_id),
  Slot.u16 20 (·.event_id.simulation_address.application_id),
  Slot.u16 22 (·.event_id.event_identifier),
  Slot.enum 24 1 (·.state_change_update_indicator),
  Slot.u8 25 (·.padding),
  Slot.enum 26 2 (·.passive_parameter_index),
  Slot.u8 28 (·.propulsion_plant_configuration),
  Slot.u8 29 (·.number_of_shafts),
  Slot.u8 30 (·.number_of_apas),
  Slot.u8 31 (·.number_of_ua_emitter_systems)]

/-- src/distributed_emissions.rs:101-122 -/
def IFFPdu.layout : List (Slot IFFPdu) := [
  Slot.u16 12 (·.emitting_entity_id.simulation_address.site_id),
  Slot.u16 14 (·.emitting_entity_id.simulation_address.application_id),
  Slot.u16 16 (·.emitting_entity_id.entity_id),
  Slot.u16 18 (·.event_id.simulation_address.site_id),
  Slot.u16 20 (·.event_id.simulation_address.application_id),
  Slot.u16 22 (·.event_id.event_identifier),
  Slot.f32 24 (·.relative_antenna_location.x_coordinate),
  Slot.f32 28 (·.relative_antenna_location.y_coordinate),
  Slot.f32 32 (·.relative_antenna_location.z_coordinate),
  Slot.u16 36 (·.system_id.system_type),
  Slot.u16 38 (·.system_id.system_name),
  Slot.u8 40 (·.system_id.system_mode),
  Slot.u8 41 (·.system_id.change_options),
  Slot.u8 42 (·.system_designator),
  Slot.u8 43 (·.system_specific_data),
  Slot.u8 44 (·.fundamental_operational_data.system_status),
  Slot.u8 45 (·.fundamental_operational_data.data_field1),
  Slot.u8 46 (·.fundamental_operational_data.information_layers),
  Slot.u8 47 (·.fundamental_operational_data.data_field2),
  Slot.u16 48 (·.fundamental_operational_data.parameter1),
  Slot.u16 50 (·.fundamental_operational_data.parameter2),
  Slot.u16 52 (·.fundamental_operational_data.parameter3),
  Slot.u16 54 (·.fundamental_operational_data.parameter4),
  Slot.u16 56 (·.fundamental_operational_data.parameter5),
  Slot.u16 58 (·.fundamental_operational_data.parameter6),
  Slot.u8 60 (·.layer_header.layer_number),
  Slot.u8 61 (·.layer_header.layer_specific_information),
  Slot.u16 62 (·.layer_header.length),
  Slot.f32 64 (·.beam_data.beam_azimuth_center),
  Slot.f32 68 (·.beam_data.beam_azimuth_sweep),
  Slot.f32 72 (·.beam_data.beam_elevation_center),
  Slot.f32 76 (·.beam_data.beam_elevation_sweep),
  Slot.f32 80 (·.beam_data.beam_sweep_sync),
  Slot.u8 84 (·.secondary_operational_data.operational_data1),
  Slot.u8 85 (·.secondary_operational_data.operational_data2),
  Slot.u16 86 (·.secondary_operational_data.number_of_iff_fundamental_parameter_records)]

/-- src/distributed_emissions.rs:124-142 -/
def SupplementalEmissionPdu.layout : List (Slot SupplementalEmissionPdu) := [
  Slot.u16 12 (·.originating_entity_id.simulation_address.site_id),
  Slot.u16 14 (·.originating_entity_id.simulation_address.application_id),
  Slot.u16 16 (·.originating_entity_id.entity_id),
  Slot.u16 18 (·.infrared_signature_representation_index),
  Slot.u16 20 (·.acoustic_signature_representation_index),
  Slot.u16 22 (·.radar_cross_section_signature_representation_index),
  Slot.u16 24 (·.number_of_propulsion_systems),
  Slot.u16 26 (·.number_of_vectoring_nozzle_systems)]

/-- src/entity_information.rs:29-52 -/
def EntityStatePdu.layout : List (Slot EntityStatePdu) := [
  Slot.u16 12 (·.entity_id.simulation_address.site_id),
  Slot.u16 14 (·.entity_id.simulation_address.application_id),
  Slot.u16 16 (·.entity_id.entity_id),
  Slot.enum 18 1 (·.force_id),
  Slot.u8 19 (·.number_of_articulation_parameters),
  Slot.enum 20 1 (·.entity_type.kind),
  Slot.u8 21 (·.entity_type.domain),
  Slot.enum 22 2 (·.entity_type.country),
  Slot.u8 24 (·.entity_type.category),
  Slot.u8 25 (·.entity_type.subcategory),
  Slot.u8 26 (·.entity_type.specific),
  Slot.u8 27 (·.entity_type.extra),
  Slot.enum 28 1 (·.alternative_entity_type.kind),
  Slot.u8 29 (·.alternative_entity_type.domain),
  Slot.enum 30 2 (·.alternative_entity_type.country),
  Slot.u8 32 (·.alternative_entity_type.category),
  Slot.u8 33 (·.alternative_entity_type.subcategory),
  Slot.u8 34 (·.alternative_entity_type.specific),
  Slot.u8 35 (·.alternative_entity_type.extra),
  Slot.f32 36 (·.entity_linear_velocity.first_vector_component),
  Slot.f32 40 (·.entity_linear_velocity.second_vector_component),
  Slot.f32 44 (·.entity_linear_velocity.third_vector_component),
  Slot.f64 48 (·.entity_location.x),
  Slot.f64 56 (·.entity_location.y),
  Slot.f64 64 (·.entity_location.z),
  Slot.f32 72 (·.entity_orientation.psi),
  Slot.f32 76 (·.entity_orientation.theta),
  Slot.f32 80 (·.entity_orientation.phi),
  Slot.u32 84 (·.entity_appearance),
  Slot.enum 88 1 (·.dead_reckoning_parameters.dead_reckoning_algorithm),
  (Slot.octets 89 15 (·.dead_reckoning_parameters.dead_reckoning_other_parameters)).zeroed,
  Slot.f32 104 (·.dead_reckoning_parameters.entity_linear_acceleration.first_vector_component),
  Slot.f32 108 (·.dead_reckoning_parameters.entity_linear_acceleration.second_vector_component),
  Slot.f32 112 (·.dead_reckoning_parameters.entity_linear_acceleration.third_vector_component),
  Slot.f32 116 (·.dead_reckoning_parameters.entity_angular_velocity.rate_about_x_axis),
  Slot.f32 120 (·.dead_reckoning_parameters.entity_angular_velocity.rate_about_y_axis),
  Slot.f32 124 (·.dead_reckoning_parameters.entity_angular_velocity.rate_about_z_axis),
  Slot.enum 128 1 (·.entity_marking.entity_marking_character_set)]

/-- src/entity_information.rs:54-72 -/
def CollisionPdu.layout : List (Slot CollisionPdu) := [
  Slot.u16 12 (·.issuing_entity_id.simulation_address.site_id),
  Slot.u16 14 (·.issuing_entity_id.simulation_address.application_id),
  Slot.u16 16 (·.issuing_entity_id.entity_id),
  Slot.u16 18 (·.colliding_entity_id.simulation_address.site_id),
  Slot.u16 20 (·.colliding_entity_id.simulation_address.application_id),
  Slot.u16 22 (·.colliding_entity_id.entity_id),
  Slot.u16 24 (·.event_id.simulation_address.site_id),
  Slot.u16 26 (·.event_id.simulation_address.application_id),
  Slot.u16 28 (·.event_id.event_identifier),
  Slot.u8 30 (·.collision_type),
  Slot.u8 31 (·.padding),
  Slot.f32 32 (·.velocity.first_vector_component),
  Slot.f32 36 (·.velocity.second_vector_component),
  Slot.f32 40 (·.velocity.third_vector_component),
  Slot.f32 44 (·.mass),
  Slot.f32 48 (·.location_wrt_entity.x_coordinate),
  Slot.f32 52 (·.location_wrt_entity.y_coordinate),
  Slot.f32 56 (·.location_wrt_entity.z_coordinate)]

/-- src/entity_information.rs:74-99 -/
def CollisionElasticPdu.layout : List (Slot CollisionElasticPdu) := [
  Slot.u16 12 (·.issuing_entity_id.simulation_address.site_id),
  Slot.u16 14 (·.issuing_entity_id.simulation_address.application_id),
  Slot.u16 16 (·.issuing_entity_id.entity_id),
  Slot.u16 18 (·.colliding_entity_id.simulation_address.site_id),
  Slot.u16 20 (·.colliding_entity_id.simulation_address.application_id),
  Slot.u16 22 (·.colliding_entity_id.entity_id),
  Slot.u16 24 (·.event_id.simulation_address.site_id),
  Slot.u16 26 (·.event_id.simulation_address.application_id),
  Slot.u16 28 (·.event_id.event_identifier),
  Slot.u16 30 (·.padding),
  Slot.f32 32 (·.contact_velocity.first_vector_component),
  Slot.f32 36 (·.contact_velocity.second_vector_component),
  Slot.f32 40 (·.contact_velocity.third_vector_component),
  Slot.f32 44 (·.mass),
  Slot.f32 48 (·.location_of_impact.x_coordinate),
  Slot.f32 52 (·.location_of_impact.y_coordinate),
  Slot.f32 56 (·.location_of_impact.z_coordinate),
  Slot.f32 60 (·.collision_intermediate_result_xx),
  Slot.f32 64 (·.collision_intermediate_result_xy),
  Slot.f32 68 (·.collision_intermediate_result_xz),
  Slot.f32 72 (·.collision_intermediate_result_yy),
  Slot.f32 76 (·.collision_intermediate_result_yz),
  Slot.f32 80 (·.collision_intermediate_result_zz),
  Slot.f32 84 (·.unit_surface_normal.x_coordinate),
  Slot.f32 88 (·.unit_surface_normal.y_coordinate),
  Slot.f32 92 (·.unit_surface_normal.z_coordinate),
  Slot.f32 96 (·.coefficient_of_restitution)]

/-- src/entity_information.rs:101-119 -/
def EntityStateUpdatePdu.layout : List (Slot EntityStateUpdatePdu) := [
  Slot.u16 12 (·.entity_id.simulation_address.site_id),
  Slot.u16 14 (·.entity_id.simulation_address.application_id),
  Slot.u16 16 (·.entity_id.entity_id),
  Slot.u8 18 (·.padding),
  Slot.u8 19 (·.number_of_variable_parameters),
  Slot.f32 20 (·.entity_linear_velocity.first_vector_component),
  Slot.f32 24 (·.entity_linear_velocity.second_vector_component),
  Slot.f32 28 (·.entity_linear_velocity.third_vector_component),
  Slot.f64 32 (·.entity_location.x),
  Slot.f64 40 (·.entity_location.y),
  Slot.f64 48 (·.entity_location.z),
  Slot.f32 56 (·.entity_orientation.psi),
  Slot.f32 60 (·.entity_orientation.theta),
  Slot.f32 64 (·.entity_orientation.phi),
  Slot.u32 68 (·.entity_appearance)]

/-- src/entity_information.rs:121-141 -/
def AttributePdu.layout : List (Slot AttributePdu) := [
  Slot.u16 12 (·.originating_simulation_address.site_id),
  Slot.u16 14 (·.originating_simulation_address.application_id),
  Slot.u32 16 (·.padding),
  Slot.u16 20 (·.padding2),
  Slot.u8 22 (·.attribute_record_pdu_type),
  Slot.u8 23 (·.attribute_record_protocol_version),
  Slot.u32 24 (·.master_attribute_record_type),
  Slot.enum 28 1 (·.action_code),
  Slot.u8 29 (·.padding3),
  Slot.u16 30 (·.number_of_attribute_record_sets)]

/-- src/entity_management.rs:30-61 -/
def AggregateStatePdu.layout : List (Slot AggregateStatePdu) := [
  Slot.u16 12 (·.aggregate_id.site),
  Slot.u16 14 (·.aggregate_id.application),
  Slot.u16 16 (·.aggregate_id.aggregate_id),
  Slot.enum 18 1 (·.force_id),
  Slot.enum 19 1 (·.aggregate_state),
  Slot.enum 20 1 (·.aggregate_type.kind),
  Slot.u8 21 (·.aggregate_type.domain),
  Slot.enum 22 2 (·.aggregate_type.country),
  Slot.u8 24 (·.aggregate_type.category),
  Slot.u8 25 (·.aggregate_type.subcategory),
  Slot.u8 26 (·.aggregate_type.specific),
  Slot.u8 27 (·.aggregate_type.extra),
  Slot.enum 28 4 (·.formation),
  Slot.u8 32 (·.aggregate_marking.character_set),
  Slot.signedOctets 33 31 (·.aggregate_marking.characters),
  Slot.f32 64 (·.dimensions.x),
  Slot.f32 68 (·.dimensions.y),
  Slot.f32 72 (·.dimensions.z),
  Slot.f32 76 (·.orientation.psi),
  Slot.f32 80 (·.orientation.theta),
  Slot.f32 84 (·.orientation.phi),
  Slot.f64 88 (·.center_of_mass.x),
  Slot.f64 96 (·.center_of_mass.y),
  Slot.f64 104 (·.center_of_mass.z),
  Slot.f32 112 (·.velocity.first_vector_component),
  Slot.f32 116 (·.velocity.second_vector_component),
  Slot.f32 120 (·.velocity.third_vector_component),
  Slot.u16 124 (·.number_of_dis_aggregates),
  Slot.u16 126 (·.number_of_dis_entities),
  Slot.u16 128 (·.number_of_silent_aggregate_types),
  Slot.u16 130 (·.number_of_silent_entity_types)]

/-- src/entity_management.rs:63-80 -/
def IsGroupOfPdu.layout : List (Slot IsGroupOfPdu) := [
  Slot.u16 12 (·.group_entity_id.simulation_address.site_id),
  Slot.u16 14 (·.group_entity_id.simulation_address.application_id),
  Slot.u16 16 (·.group_entity_id.entity_id),
  Slot.enum 18 1 (·.grouped_entity_category),
  Slot.u8 19 (·.number_of_grouped_entities),
  Slot.u32 20 (·.padding),
  Slot.f64 24 (·.latitude),
  Slot.f64 32 (·.longitude)]

/-- src/entity_management.rs:82-99 -/
def TransferOwnershipPdu.layout : List (Slot TransferOwnershipPdu) := [
  Slot.u16 12 (·.originating_id.simulation_address.site_id),
  Slot.u16 14 (·.originating_id.simulation_address.application_id),
  (Slot.u16 16 (·.originating_id.reference_number)).zeroed,
  Slot.u16 18 (·.receiving_id.simulation_address.site_id),
  Slot.u16 20 (·.receiving_id.simulation_address.application_id),
  (Slot.u16 22 (·.receiving_id.reference_number)).zeroed,
  Slot.u32 24 (·.request_id),
  Slot.enum 28 1 (·.required_reliability_service),
  Slot.enum 29 1 (·.transfer_type),
  Slot.u16 30 (·.transfer_entity_id.simulation_address.site_id),
  Slot.u16 32 (·.transfer_entity_id.simulation_address.application_id),
  Slot.u16 34 (·.transfer_entity_id.entity_id),
  Slot.u32 36 (·.record_information.number_of_record_sets)]

/-- src/entity_management.rs:101-117 -/
def IsPartOfPdu.layout : List (Slot IsPartOfPdu) := [
  Slot.u16 12 (·.originating_entity_id.simulation_address.site_id),
  Slot.u16 14 (·.originating_entity_id.simulation_address.application_id),
  Slot.u16 16 (·.originating_entity_id.entity_id),
  Slot.u16 18 (·.receiving_entity_id.simulation_address.site_id),
  Slot.u16 20 (·.receiving_entity_id.simulation_address.application_id),
  Slot.u16 22 (·.receiving_entity_id.entity_id),
  Slot.u16 24 (·.relationship.nature),
  Slot.u16 26 (·.relationship.position),
  Slot.f32 28 (·.part_location.x),
  Slot.f32 32 (·.part_location.y),
  Slot.f32 36 (·.part_location.z),
  Slot.u16 40 (·.named_location_id.station_name),
  Slot.u16 42 (·.named_location_id.station_number),
  Slot.enum 44 1 (·.part_entity_type.kind),
  Slot.u8 45 (·.part_entity_type.domain),
  Slot.enum 46 2 (·.part_entity_type.country),
  Slot.u8 48 (·.part_entity_type.category),
  Slot.u8 49 (·.part_entity_type.subcategory),
  Slot.u8 50 (·.part_entity_type.specific),
  Slot.u8 51 (·.part_entity_type.extra)]

/-- src/information_operations.rs:25-44 -/
def InformationOperationsReportPdu.layout : List (Slot InformationOperationsReportPdu) := [
  Slot.u16 12 (·.originating_simulation_id.simulation_address.site_id),
  Slot.u16 14 (·.originating_simulation_id.simulation_address.application_id),
  (Slot.u16 16 (·.originating_simulation_id.reference_number)).zeroed,
  Slot.enum 18 2 (·.io_simulation_source),
  Slot.enum 20 1 (·.io_report_type),
  Slot.u8 21 (·.padding),
  Slot.u16 22 (·.io_attacker_entity_id.simulation_address.site_id),
  Slot.u16 24 (·.io_attacker_entity_id.simulation_address.application_id),
  Slot.u16 26 (·.io_attacker_entity_id.entity_id),
  Slot.u16 28 (·.primary_target_entity_id.simulation_address.site_id),
  Slot.u16 30 (·.primary_target_entity_id.simulation_address.application_id),
  Slot.u16 32 (·.primary_target_entity_id.entity_id),
  Slot.u16 34 (·.padding2),
  Slot.u16 36 (·.padding3),
  Slot.u16 38 (·.io_records.number_of_standard_variable_records)]

/-- src/information_operations.rs:46-68 -/
def InformationOperationsActionPdu.layout : List (Slot InformationOperationsActionPdu) := [
  Slot.u16 12 (·.originating_simulation_id.simulation_address.site_id),
  Slot.u16 14 (·.originating_simulation_id.simulation_address.application_id),
  (Slot.u16 16 (·.originating_simulation_id.reference_number)).zeroed,
  Slot.u16 18 (·.receiving_simulation_id.simulation_address.site_id),
  Slot.u16 20 (·.receiving_simulation_id.simulation_address.application_id),
  (Slot.u16 22 (·.receiving_simulation_id.reference_number)).zeroed,
  Slot.u32 24 (·.request_id),
  Slot.enum 28 2 (·.io_warfare_type),
  Slot.enum 30 2 (·.io_simulation_source),
  Slot.enum 32 2 (·.io_action_type),
  Slot.enum 34 2 (·.io_action_phase),
  Slot.u32 36 (·.padding),
  Slot.u16 40 (·.io_attacker_entity_id.simulation_address.site_id),
  Slot.u16 42 (·.io_attacker_entity_id.simulation_address.application_id),
  Slot.u16 44 (·.io_attacker_entity_id.entity_id),
  Slot.u16 46 (·.io_primary_target_entity_id.simulation_address.site_id),
  Slot.u16 48 (·.io_primary_target_entity_id.simulation_address.application_id),
  Slot.u16 50 (·.io_primary_target_entity_id.entity_id),
  Slot.u16 52 (·.padding2),
  Slot.u16 54 (·.io_records.number_of_standard_variable_records)]

end Dis
