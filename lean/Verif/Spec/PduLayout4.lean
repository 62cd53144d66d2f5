import Verif.Model.Pdus4
import Verif.Spec.Layout
/-
Layout tables of the PDU kinds: the octets, counted from the beginning of the message (the header occupies
octets 0 to 11), of every field up to the first list.  Drafted by tools/gen_layout.py from the field
lists and read through by hand; the totals are compared with those of IEEE 1278.1 in C48_complete.  Known
deviations of the crate from the standard are listed in DESIGN.md.
-/
set_option maxRecDepth 4000
namespace Dis

/-- src/simulation_management_with_reliability.rs:166-187 -/
def DataQueryReliablePdu.layout : List (Slot DataQueryReliablePdu) := [
  Slot.u16 12 (·.originating_entity_id.simulation_address.site_id),
  Slot.u16 14 (·.originating_entity_id.simulation_address.application_id),
  Slot.u16 16 (·.originating_entity_id.entity_id),
  Slot.u16 18 (·.receiving_entity_id.simulation_address.site_id),
  Slot.u16 20 (·.receiving_entity_id.simulation_address.application_id),
  Slot.u16 22 (·.receiving_entity_id.entity_id),
  Slot.enum 24 1 (·.required_reliability_service),
  Slot.u8 25 (·.padding),
  Slot.u16 26 (·.padding2),
  Slot.u32 28 (·.request_id),
  Slot.u32 32 (·.time_interval),
  Slot.u32 36 (·.number_of_fixed_datum_records),
  Slot.u32 40 (·.number_of_variable_datum_records)]

/-- src/simulation_management_with_reliability.rs:189-209 -/
def SetDataReliablePdu.layout : List (Slot SetDataReliablePdu) := [
  Slot.u16 12 (·.originating_entity_id.simulation_address.site_id),
  Slot.u16 14 (·.originating_entity_id.simulation_address.application_id),
  Slot.u16 16 (·.originating_entity_id.entity_id),
  Slot.u16 18 (·.receiving_entity_id.simulation_address.site_id),
  Slot.u16 20 (·.receiving_entity_id.simulation_address.application_id),
  Slot.u16 22 (·.receiving_entity_id.entity_id),
  Slot.enum 24 1 (·.required_reliability_service),
  Slot.u8 25 (·.padding),
  Slot.u16 26 (·.padding2),
  Slot.u32 28 (·.request_id),
  Slot.u32 32 (·.number_of_fixed_datum_records),
  Slot.u32 36 (·.number_of_variable_datum_records)]

/-- src/simulation_management_with_reliability.rs:211-231 -/
def DataReliablePdu.layout : List (Slot DataReliablePdu) := [
  Slot.u16 12 (·.originating_entity_id.simulation_address.site_id),
  Slot.u16 14 (·.originating_entity_id.simulation_address.application_id),
  Slot.u16 16 (·.originating_entity_id.entity_id),
  Slot.u16 18 (·.receiving_entity_id.simulation_address.site_id),
  Slot.u16 20 (·.receiving_entity_id.simulation_address.application_id),
  Slot.u16 22 (·.receiving_entity_id.entity_id),
  Slot.u32 24 (·.request_id),
  Slot.enum 28 1 (·.required_reliability_service),
  Slot.u8 29 (·.padding),
  Slot.u16 30 (·.padding2),
  Slot.u32 32 (·.number_of_fixed_datum_records),
  Slot.u32 36 (·.number_of_variable_datum_records)]

/-- src/simulation_management_with_reliability.rs:233-251 -/
def EventReportReliablePdu.layout : List (Slot EventReportReliablePdu) := [
  Slot.u16 12 (·.originating_entity_id.simulation_address.site_id),
  Slot.u16 14 (·.originating_entity_id.simulation_address.application_id),
  Slot.u16 16 (·.originating_entity_id.entity_id),
  Slot.u16 18 (·.receiving_entity_id.simulation_address.site_id),
  Slot.u16 20 (·.receiving_entity_id.simulation_address.application_id),
  Slot.u16 22 (·.receiving_entity_id.entity_id),
  Slot.enum 24 4 (·.event_type),
  Slot.u32 28 (·.padding),
  Slot.u32 32 (·.number_of_fixed_datum_records),
  Slot.u32 36 (·.number_of_variable_datum_records)]

/-- src/simulation_management_with_reliability.rs:253-269 -/
def CommentReliablePdu.layout : List (Slot CommentReliablePdu) := [
  Slot.u16 12 (·.originating_entity_id.simulation_address.site_id),
  Slot.u16 14 (·.originating_entity_id.simulation_address.application_id),
  Slot.u16 16 (·.originating_entity_id.entity_id),
  Slot.u16 18 (·.receiving_entity_id.simulation_address.site_id),
  Slot.u16 20 (·.receiving_entity_id.simulation_address.application_id),
  Slot.u16 22 (·.receiving_entity_id.entity_id),
  Slot.u32 24 (·.number_of_fixed_datum_records),
  Slot.u32 28 (·.number_of_variable_datum_records)]

/-- src/simulation_management_with_reliability.rs:271-290 -/
def RecordQueryReliablePdu.layout : List (Slot RecordQueryReliablePdu) := [
  Slot.u16 12 (·.originating_entity_id.simulation_address.site_id),
  Slot.u16 14 (·.originating_entity_id.simulation_address.application_id),
  Slot.u16 16 (·.originating_entity_id.entity_id),
  Slot.u16 18 (·.receiving_entity_id.simulation_address.site_id),
  Slot.u16 20 (·.receiving_entity_id.simulation_address.application_id),
  Slot.u16 22 (·.receiving_entity_id.entity_id),
  Slot.u32 24 (·.request_id),
  Slot.enum 28 1 (·.required_reliability_service),
  Slot.u8 29 (·.padding),
  Slot.enum 30 2 (·.event_type),
  Slot.u32 32 (·.time),
  Slot.u32 36 (·.number_of_records)]

/-- src/simulation_management_with_reliability.rs:292-310 -/
def SetRecordReliablePdu.layout : List (Slot SetRecordReliablePdu) := [
  Slot.u16 12 (·.originating_entity_id.simulation_address.site_id),
  Slot.u16 14 (·.originating_entity_id.simulation_address.application_id),
  Slot.u16 16 (·.originating_entity_id.entity_id),
  Slot.u16 18 (·.receiving_entity_id.simulation_address.site_id),
  Slot.u16 20 (·.receiving_entity_id.simulation_address.application_id),
  Slot.u16 22 (·.receiving_entity_id.entity_id),
  Slot.u32 24 (·.request_id),
  Slot.enum 28 1 (·.required_reliability_service),
  Slot.u8 29 (·.padding),
  Slot.u16 30 (·.padding2),
  Slot.u32 32 (·.padding3),
  Slot.u32 36 (·.record_sets.number_of_record_sets)]

/-- src/synthetic_environment.rs:29-46 -/
def EnvironmentalProcessPdu.layout : List (Slot EnvironmentalProcessPdu) := [
  Slot.u16 12 (·.environmental_process_id.simulation_address.site_id),
  Slot.u16 14 (·.environmental_process_id.simulation_address.application_id),
  Slot.u16 16 (·.environmental_process_id.entity_id),
  Slot.enum 18 1 (·.environment_type.kind),
  Slot.u8 19 (·.environment_type.domain),
  Slot.enum 20 2 (·.environment_type.country),
  Slot.u8 22 (·.environment_type.category),
  Slot.u8 23 (·.environment_type.subcategory),
  Slot.u8 24 (·.environment_type.specific),
  Slot.u8 25 (·.environment_type.extra),
  Slot.u8 26 (·.model_type),
  Slot.u8 27 (·.environment_status),
  Slot.u16 28 (·.number_of_environment_records),
  Slot.u16 30 (·.sequence_number)]

/-- src/synthetic_environment.rs:48-74 -/
def GriddedDataPdu.layout : List (Slot GriddedDataPdu) := [
  Slot.u16 12 (·.environmental_simulation_id.simulation_address.site_id),
  Slot.u16 14 (·.environmental_simulation_id.simulation_address.application_id),
  Slot.u16 16 (·.environmental_simulation_id.entity_id),
  Slot.u16 18 (·.field_number),
  Slot.u16 20 (·.pdu_number),
  Slot.u16 22 (·.pdu_total),
  Slot.enum 24 2 (·.coordinate_system),
  Slot.u8 26 (·.number_of_grid_axes),
  Slot.enum 27 1 (·.constant_grid),
  Slot.enum 28 1 (·.environment_type.kind),
  Slot.u8 29 (·.environment_type.domain),
  Slot.enum 30 2 (·.environment_type.country),
  Slot.u8 32 (·.environment_type.category),
  Slot.u8 33 (·.environment_type.subcategory),
  Slot.u8 34 (·.environment_type.specific),
  Slot.u8 35 (·.environment_type.extra),
  Slot.f32 36 (·.orientation.psi),
  Slot.f32 40 (·.orientation.theta),
  Slot.f32 44 (·.orientation.phi),
  Slot.u32 48 (·.sample_time.hour),
  Slot.u32 52 (·.sample_time.time_past_hour),
  Slot.u32 56 (·.total_values),
  Slot.u8 60 (·.vector_dimension),
  Slot.u8 61 (·.padding),
  Slot.u16 62 (·.padding2)]

/-- src/synthetic_environment.rs:76-100 -/
def PointObjectStatePdu.layout : List (Slot PointObjectStatePdu) := [
  Slot.u16 12 (·.object_id.simulation_address.site_id),
  Slot.u16 14 (·.object_id.simulation_address.application_id),
  Slot.u16 16 (·.object_id.entity_id),
  Slot.u16 18 (·.referenced_object_id.simulation_address.site_id),
  Slot.u16 20 (·.referenced_object_id.simulation_address.application_id),
  Slot.u16 22 (·.referenced_object_id.entity_id),
  Slot.u16 24 (·.update_number),
  Slot.enum 26 1 (·.force_id),
  Slot.u8 27 (·.modifications),
  Slot.u8 28 (·.object_type.domain),
  Slot.u8 29 (·.object_type.object_kind),
  Slot.u8 30 (·.object_type.category),
  Slot.u8 31 (·.object_type.subcategory),
  Slot.f64 32 (·.object_location.x),
  Slot.f64 40 (·.object_location.y),
  Slot.f64 48 (·.object_location.z),
  Slot.f32 56 (·.object_orientation.psi),
  Slot.f32 60 (·.object_orientation.theta),
  Slot.f32 64 (·.object_orientation.phi),
  Slot.u32 68 (·.specific_object_appearance),
  Slot.u16 72 (·.general_object_appearance),
  Slot.u16 74 (·.padding),
  Slot.u16 76 (·.requester_id.site_id),
  Slot.u16 78 (·.requester_id.application_id),
  Slot.u16 80 (·.receiving_id.site_id),
  Slot.u16 82 (·.receiving_id.application_id),
  Slot.u32 84 (·.padding2)]

/-- src/synthetic_environment.rs:102-121 -/
def LinearObjectStatePdu.layout : List (Slot LinearObjectStatePdu) := [
  Slot.u16 12 (·.object_id.simulation_address.site_id),
  Slot.u16 14 (·.object_id.simulation_address.application_id),
  Slot.u16 16 (·.object_id.object_number),
  Slot.u16 18 (·.referenced_object_id.simulation_address.site_id),
  Slot.u16 20 (·.referenced_object_id.simulation_address.application_id),
  Slot.u16 22 (·.referenced_object_id.object_number),
  Slot.u16 24 (·.update_number),
  Slot.enum 26 1 (·.force_id),
  Slot.u8 27 (·.number_of_segments),
  Slot.u16 28 (·.requester_id.site_id),
  Slot.u16 30 (·.requester_id.application_id),
  Slot.u16 32 (·.receiving_id.site_id),
  Slot.u16 34 (·.receiving_id.application_id),
  Slot.u8 36 (·.object_type.domain),
  Slot.u8 37 (·.object_type.object_kind),
  Slot.u8 38 (·.object_type.category),
  Slot.u8 39 (·.object_type.subcategory)]

/-- src/synthetic_environment.rs:123-145 -/
def ArealObjectStatePdu.layout : List (Slot ArealObjectStatePdu) := [
  Slot.u16 12 (·.object_id.simulation_address.site_id),
  Slot.u16 14 (·.object_id.simulation_address.application_id),
  Slot.u16 16 (·.object_id.object_number),
  Slot.u16 18 (·.referenced_object_id.simulation_address.site_id),
  Slot.u16 20 (·.referenced_object_id.simulation_address.application_id),
  Slot.u16 22 (·.referenced_object_id.object_number),
  Slot.u16 24 (·.update_number),
  Slot.enum 26 1 (·.force_id),
  Slot.u8 27 (·.modifications),
  Slot.u8 28 (·.object_type.domain),
  Slot.u8 29 (·.object_type.object_kind),
  Slot.u8 30 (·.object_type.category),
  Slot.u8 31 (·.object_type.subcategory),
  Slot.u32 32 (·.specific_object_appearance),
  Slot.flags 36 2 [0, 8, 10, 11, 12, 13, 14] (·.general_object_appearance.bits.toNat),
  Slot.u16 38 (·.number_of_points),
  Slot.u16 40 (·.requester_id.site_id),
  Slot.u16 42 (·.requester_id.application_id),
  Slot.u16 44 (·.receiving_id.site_id),
  Slot.u16 46 (·.receiving_id.application_id)]

/-- src/warfare.rs:23-42 -/
def FirePdu.layout : List (Slot FirePdu) := [
  Slot.u16 12 (·.firing_entity_id.simulation_address.site_id),
  Slot.u16 14 (·.firing_entity_id.simulation_address.application_id),
  Slot.u16 16 (·.firing_entity_id.entity_id),
  Slot.u16 18 (·.target_entity_id.simulation_address.site_id),
  Slot.u16 20 (·.target_entity_id.simulation_address.application_id),
  Slot.u16 22 (·.target_entity_id.entity_id),
  Slot.u16 24 (·.munition_expendable_id.simulation_address.site_id),
  Slot.u16 26 (·.munition_expendable_id.simulation_address.application_id),
  Slot.u16 28 (·.munition_expendable_id.entity_id),
  Slot.u16 30 (·.event_id.simulation_address.site_id),
  Slot.u16 32 (·.event_id.simulation_address.application_id),
  Slot.u16 34 (·.event_id.event_identifier),
  Slot.u32 36 (·.fire_mission_index),
  Slot.f64 40 (·.location_in_world_coordinates.x),
  Slot.f64 48 (·.location_in_world_coordinates.y),
  Slot.f64 56 (·.location_in_world_coordinates.z),
  Slot.enum 64 1 (·.descriptor.munition_type.kind),
  Slot.u8 65 (·.descriptor.munition_type.domain),
  Slot.enum 66 2 (·.descriptor.munition_type.country),
  Slot.u8 68 (·.descriptor.munition_type.category),
  Slot.u8 69 (·.descriptor.munition_type.subcategory),
  Slot.u8 70 (·.descriptor.munition_type.specific),
  Slot.u8 71 (·.descriptor.munition_type.extra),
  Slot.u16 72 (·.descriptor.warhead),
  Slot.u16 74 (·.descriptor.fuse),
  Slot.u16 76 (·.descriptor.quantity),
  Slot.u16 78 (·.descriptor.rate),
  Slot.f32 80 (·.velocity.first_vector_component),
  Slot.f32 84 (·.velocity.second_vector_component),
  Slot.f32 88 (·.velocity.third_vector_component),
  Slot.f32 92 (·.range)]

/-- src/warfare.rs:44-66 -/
def DetonationPdu.layout : List (Slot DetonationPdu) := [
  Slot.u16 12 (·.firing_entity_id.simulation_address.site_id),
  Slot.u16 14 (·.firing_entity_id.simulation_address.application_id),
  Slot.u16 16 (·.firing_entity_id.entity_id),
  Slot.u16 18 (·.target_entity_id.simulation_address.site_id),
  Slot.u16 20 (·.target_entity_id.simulation_address.application_id),
  Slot.u16 22 (·.target_entity_id.entity_id),
  Slot.u16 24 (·.exploding_entity_id.simulation_address.site_id),
  Slot.u16 26 (·.exploding_entity_id.simulation_address.application_id),
  Slot.u16 28 (·.exploding_entity_id.entity_id),
  Slot.u16 30 (·.event_id.simulation_address.site_id),
  Slot.u16 32 (·.event_id.simulation_address.application_id),
  Slot.u16 34 (·.event_id.event_identifier),
  Slot.f32 36 (·.velocity.first_vector_component),
  Slot.f32 40 (·.velocity.second_vector_component),
  Slot.f32 44 (·.velocity.third_vector_component),
  Slot.f64 48 (·.location_in_world_coordinates.x),
  Slot.f64 56 (·.location_in_world_coordinates.y),
  Slot.f64 64 (·.location_in_world_coordinates.z),
  Slot.enum 72 1 (·.descriptor.munition_type.kind),
  Slot.u8 73 (·.descriptor.munition_type.domain),
  Slot.enum 74 2 (·.descriptor.munition_type.country),
  Slot.u8 76 (·.descriptor.munition_type.category),
  Slot.u8 77 (·.descriptor.munition_type.subcategory),
  Slot.u8 78 (·.descriptor.munition_type.specific),
  Slot.u8 79 (·.descriptor.munition_type.extra),
  Slot.u16 80 (·.descriptor.warhead),
  Slot.u16 82 (·.descriptor.fuse),
  Slot.u16 84 (·.descriptor.quantity),
  Slot.u16 86 (·.descriptor.rate),
  Slot.f32 88 (·.location_in_entitys_coordinates.x_coordinate),
  Slot.f32 92 (·.location_in_entitys_coordinates.y_coordinate),
  Slot.f32 96 (·.location_in_entitys_coordinates.z_coordinate),
  Slot.enum 100 1 (·.detonation_result),
  Slot.u8 101 (·.number_of_variable_parameters),
  Slot.u16 102 (·.padding)]

/-- src/warfare.rs:68-96 -/
def DirectedEnergyFirePdu.layout : List (Slot DirectedEnergyFirePdu) := [
  Slot.u16 12 (·.firing_entity_id.simulation_address.site_id),
  Slot.u16 14 (·.firing_entity_id.simulation_address.application_id),
  Slot.u16 16 (·.firing_entity_id.entity_id),
  Slot.u16 18 (·.event_id.simulation_address.site_id),
  Slot.u16 20 (·.event_id.simulation_address.application_id),
  Slot.u16 22 (·.event_id.event_identifier),
  Slot.enum 24 1 (·.munition_type.kind),
  Slot.u8 25 (·.munition_type.domain),
  Slot.enum 26 2 (·.munition_type.country),
  Slot.u8 28 (·.munition_type.category),
  Slot.u8 29 (·.munition_type.subcategory),
  Slot.u8 30 (·.munition_type.specific),
  Slot.u8 31 (·.munition_type.extra),
  Slot.u32 32 (·.shot_start_time.hour),
  Slot.u32 36 (·.shot_start_time.time_past_hour),
  Slot.f32 40 (·.cumulative_shot_time),
  Slot.f32 44 (·.aperture_emitter_location.x_coordinate),
  Slot.f32 48 (·.aperture_emitter_location.y_coordinate),
  Slot.f32 52 (·.aperture_emitter_location.z_coordinate),
  Slot.f32 56 (·.aperture_diameter),
  Slot.f32 60 (·.wavelength),
  Slot.u32 64 (·.padding),
  Slot.f32 68 (·.pulse_repetition_frequency),
  Slot.f32 72 (·.pulse_width),
  Slot.u16 76 (·.flags),
  Slot.enum 78 1 (·.pulse_shape),
  Slot.u8 79 (·.padding2),
  Slot.u32 80 (·.padding3),
  Slot.u16 84 (·.padding4),
  Slot.u16 86 (·.number_of_de_records)]

/-- src/warfare.rs:98-113 -/
def EntityDamageStatusPdu.layout : List (Slot EntityDamageStatusPdu) := [
  Slot.u16 12 (·.damaged_entity_id.simulation_address.site_id),
  Slot.u16 14 (·.damaged_entity_id.simulation_address.application_id),
  Slot.u16 16 (·.damaged_entity_id.entity_id),
  Slot.u16 18 (·.padding),
  Slot.u16 20 (·.padding2),
  Slot.u16 22 (·.number_of_damage_descriptions)]

end Dis
