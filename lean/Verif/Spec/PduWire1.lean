import Verif.Model.Pdus1
import Verif.Spec.RecordWire
import Verif.Spec.PduCommon
/-
Generated by tools/gen_pdus.py from the `define_pdu!` field lists of /repo/src: a PDU body's wire image
is the concatenation of its fields' images in declaration order.
-/
set_option maxRecDepth 4000
namespace Dis

/-- the fields of src/distributed_emissions.rs:35-51 in declaration order -/
instance : Wire ElectromagneticEmissionsPdu := ⟨fun x =>
  wire x.emitting_entity_id ▹ wire x.event_id ▹ wire x.state_update_indicator ▹ wire x.number_of_systems ▹ wire x.padding ▹ wire x.systems⟩
instance : Enc ElectromagneticEmissionsPdu := .exact _
instance : Dec ElectromagneticEmissionsPdu :=
  ⟨fun _ => True, fun x => { x with systems := [] }⟩
instance : Tail ElectromagneticEmissionsPdu := ⟨fun x => wire x.systems⟩

/-- the fields of src/distributed_emissions.rs:53-75 in declaration order -/
instance : Wire DesignatorPdu := ⟨fun x =>
  wire x.designating_entity_id ▹ wire x.code_name ▹ wire x.designated_entity_id ▹ wire x.designator_code ▹ wire x.designator_power ▹ wire x.designator_wavelength ▹ wire x.designator_spot_wrt_designated ▹ wire x.designator_spot_location ▹ wire x.dead_reckoning_algorithm ▹ wire x.padding ▹ wire x.padding2 ▹ wire x.entity_linear_acceleration⟩
instance : Enc DesignatorPdu := .exact _
instance : Dec DesignatorPdu := .exact _
instance : Tail DesignatorPdu := ⟨fun _ => []⟩

/-- the fields of src/distributed_emissions.rs:77-99 in declaration order -/
instance : Wire UnderwaterAcousticPdu := ⟨fun x =>
  wire x.emitting_entity_id ▹ wire x.event_id ▹ wire x.state_change_update_indicator ▹ wire x.padding ▹ wire x.passive_parameter_index ▹ wire x.propulsion_plant_configuration ▹ wire x.number_of_shafts ▹ wire x.number_of_apas ▹ wire x.number_of_ua_emitter_systems ▹ wire x.shaft_rpms ▹ wire x.apa_data ▹ wire x.emitter_systems⟩
instance : Enc UnderwaterAcousticPdu := .exact _
instance : Dec UnderwaterAcousticPdu :=
  ⟨fun _ => True, fun x => { x with shaft_rpms := [], apa_data := [], emitter_systems := [] }⟩
instance : Tail UnderwaterAcousticPdu := ⟨fun x => wire x.shaft_rpms ▹ wire x.apa_data ▹ wire x.emitter_systems⟩

/-- the fields of src/distributed_emissions.rs:101-122 in declaration order -/
instance : Wire IFFPdu := ⟨fun x =>
  wire x.emitting_entity_id ▹ wire x.event_id ▹ wire x.relative_antenna_location ▹ wire x.system_id ▹ wire x.system_designator ▹ wire x.system_specific_data ▹ wire x.fundamental_operational_data ▹ wire x.layer_header ▹ wire x.beam_data ▹ wire x.secondary_operational_data ▹ wire x.iff_parameters⟩
instance : Enc IFFPdu := .exact _
instance : Dec IFFPdu :=
  ⟨fun _ => True, fun x => { x with iff_parameters := [] }⟩
instance : Tail IFFPdu := ⟨fun x => wire x.iff_parameters⟩

/-- the fields of src/distributed_emissions.rs:124-142 in declaration order -/
instance : Wire SupplementalEmissionPdu := ⟨fun x =>
  wire x.originating_entity_id ▹ wire x.infrared_signature_representation_index ▹ wire x.acoustic_signature_representation_index ▹ wire x.radar_cross_section_signature_representation_index ▹ wire x.number_of_propulsion_systems ▹ wire x.number_of_vectoring_nozzle_systems ▹ wire x.propulsion_system_data ▹ wire x.vectoring_nozzle_system_data⟩
instance : Enc SupplementalEmissionPdu := .exact _
instance : Dec SupplementalEmissionPdu :=
  ⟨fun _ => True, fun x => { x with propulsion_system_data := [], vectoring_nozzle_system_data := [] }⟩
instance : Tail SupplementalEmissionPdu := ⟨fun x => wire x.propulsion_system_data ▹ wire x.vectoring_nozzle_system_data⟩

/-- the fields of src/entity_information.rs:29-52 in declaration order -/
instance : Wire EntityStatePdu := ⟨fun x =>
  wire x.entity_id ▹ wire x.force_id ▹ wire x.number_of_articulation_parameters ▹ wire x.entity_type ▹ wire x.alternative_entity_type ▹ wire x.entity_linear_velocity ▹ wire x.entity_location ▹ wire x.entity_orientation ▹ wire x.entity_appearance ▹ wire x.dead_reckoning_parameters ▹ wire x.entity_marking ▹ wire x.entity_capabilities ▹ wire x.articulation_parameter⟩
instance : Enc EntityStatePdu :=
  ⟨fun _ => True, fun x => { x with dead_reckoning_parameters := sent x.dead_reckoning_parameters, entity_marking := sent x.entity_marking },
   fun x => surplus x.entity_marking⟩
/-- nothing is promised: the marking text is never recovered (see Properties.EntityState) -/
instance : Dec EntityStatePdu :=
  ⟨fun _ => False, fun x => { x with articulation_parameter := [] }⟩
instance : Tail EntityStatePdu := ⟨fun x => wire x.articulation_parameter⟩

/-- the fields of src/entity_information.rs:54-72 in declaration order -/
instance : Wire CollisionPdu := ⟨fun x =>
  wire x.issuing_entity_id ▹ wire x.colliding_entity_id ▹ wire x.event_id ▹ wire x.collision_type ▹ wire x.padding ▹ wire x.velocity ▹ wire x.mass ▹ wire x.location_wrt_entity⟩
instance : Enc CollisionPdu := .exact _
instance : Dec CollisionPdu := .exact _
instance : Tail CollisionPdu := ⟨fun _ => []⟩

/-- the fields of src/entity_information.rs:74-99 in declaration order -/
instance : Wire CollisionElasticPdu := ⟨fun x =>
  wire x.issuing_entity_id ▹ wire x.colliding_entity_id ▹ wire x.event_id ▹ wire x.padding ▹ wire x.contact_velocity ▹ wire x.mass ▹ wire x.location_of_impact ▹ wire x.collision_intermediate_result_xx ▹ wire x.collision_intermediate_result_xy ▹ wire x.collision_intermediate_result_xz ▹ wire x.collision_intermediate_result_yy ▹ wire x.collision_intermediate_result_yz ▹ wire x.collision_intermediate_result_zz ▹ wire x.unit_surface_normal ▹ wire x.coefficient_of_restitution⟩
instance : Enc CollisionElasticPdu := .exact _
instance : Dec CollisionElasticPdu := .exact _
instance : Tail CollisionElasticPdu := ⟨fun _ => []⟩

/-- the fields of src/entity_information.rs:101-119 in declaration order -/
instance : Wire EntityStateUpdatePdu := ⟨fun x =>
  wire x.entity_id ▹ wire x.padding ▹ wire x.number_of_variable_parameters ▹ wire x.entity_linear_velocity ▹ wire x.entity_location ▹ wire x.entity_orientation ▹ wire x.entity_appearance ▹ wire x.variable_parameter_records⟩
instance : Enc EntityStateUpdatePdu := .exact _
instance : Dec EntityStateUpdatePdu :=
  ⟨fun _ => True, fun x => { x with variable_parameter_records := [] }⟩
instance : Tail EntityStateUpdatePdu := ⟨fun x => wire x.variable_parameter_records⟩

/-- the fields of src/entity_information.rs:121-141 in declaration order -/
instance : Wire AttributePdu := ⟨fun x =>
  wire x.originating_simulation_address ▹ wire x.padding ▹ wire x.padding2 ▹ wire x.attribute_record_pdu_type ▹ wire x.attribute_record_protocol_version ▹ wire x.master_attribute_record_type ▹ wire x.action_code ▹ wire x.padding3 ▹ wire x.number_of_attribute_record_sets ▹ wire x.attribute_record_sets⟩
instance : Enc AttributePdu := .exact _
instance : Dec AttributePdu :=
  ⟨fun _ => True, fun x => { x with attribute_record_sets := [] }⟩
instance : Tail AttributePdu := ⟨fun x => wire x.attribute_record_sets⟩

/-- the fields of src/entity_management.rs:30-61 in declaration order -/
instance : Wire AggregateStatePdu := ⟨fun x =>
  wire x.aggregate_id ▹ wire x.force_id ▹ wire x.aggregate_state ▹ wire x.aggregate_type ▹ wire x.formation ▹ wire x.aggregate_marking ▹ wire x.dimensions ▹ wire x.orientation ▹ wire x.center_of_mass ▹ wire x.velocity ▹ wire x.number_of_dis_aggregates ▹ wire x.number_of_dis_entities ▹ wire x.number_of_silent_aggregate_types ▹ wire x.number_of_silent_entity_types ▹ wire x.aggregate_id_list ▹ wire x.entity_id_list ▹ wire x.padding ▹ wire x.silent_aggregate_system_list ▹ wire x.silent_entity_system_list ▹ wire x.number_of_variable_datum_records ▹ wire x.variable_datum_list⟩
instance : Enc AggregateStatePdu :=
  ⟨fun _ => True, fun x => { x with variable_datum_list := sent x.variable_datum_list },
   fun x => surplus x.variable_datum_list⟩
/-- recovered only when the lists in the middle are empty -/
instance : Dec AggregateStatePdu :=
  ⟨fun x => x.aggregate_id_list = [] ∧ x.entity_id_list = [] ∧ x.padding = [] ∧ x.silent_aggregate_system_list = [] ∧ x.silent_entity_system_list = [], fun x => { x with variable_datum_list := [] }⟩
instance : Tail AggregateStatePdu := ⟨fun x => wire x.variable_datum_list⟩

/-- the fields of src/entity_management.rs:63-80 in declaration order -/
instance : Wire IsGroupOfPdu := ⟨fun x =>
  wire x.group_entity_id ▹ wire x.grouped_entity_category ▹ wire x.number_of_grouped_entities ▹ wire x.padding ▹ wire x.latitude ▹ wire x.longitude ▹ wire x.grouped_entity_descriptions⟩
instance : Enc IsGroupOfPdu := .exact _
instance : Dec IsGroupOfPdu :=
  ⟨fun _ => True, fun x => { x with grouped_entity_descriptions := [] }⟩
instance : Tail IsGroupOfPdu := ⟨fun x => wire x.grouped_entity_descriptions⟩

/-- the fields of src/entity_management.rs:82-99 in declaration order -/
instance : Wire TransferOwnershipPdu := ⟨fun x =>
  wire x.originating_id ▹ wire x.receiving_id ▹ wire x.request_id ▹ wire x.required_reliability_service ▹ wire x.transfer_type ▹ wire x.transfer_entity_id ▹ wire x.record_information⟩
instance : Enc TransferOwnershipPdu :=
  ⟨fun x => encodable x.record_information, fun x => { x with originating_id := sent x.originating_id, receiving_id := sent x.receiving_id, record_information := sent x.record_information },
   fun x => surplus x.record_information⟩
instance : Dec TransferOwnershipPdu :=
  ⟨fun x => decodable x.record_information, id⟩
instance : Tail TransferOwnershipPdu := ⟨fun _ => []⟩

/-- the fields of src/entity_management.rs:101-117 in declaration order -/
instance : Wire IsPartOfPdu := ⟨fun x =>
  wire x.originating_entity_id ▹ wire x.receiving_entity_id ▹ wire x.relationship ▹ wire x.part_location ▹ wire x.named_location_id ▹ wire x.part_entity_type⟩
instance : Enc IsPartOfPdu := .exact _
instance : Dec IsPartOfPdu := .exact _
instance : Tail IsPartOfPdu := ⟨fun _ => []⟩

/-- the fields of src/information_operations.rs:25-44 in declaration order -/
instance : Wire InformationOperationsReportPdu := ⟨fun x =>
  wire x.originating_simulation_id ▹ wire x.io_simulation_source ▹ wire x.io_report_type ▹ wire x.padding ▹ wire x.io_attacker_entity_id ▹ wire x.primary_target_entity_id ▹ wire x.padding2 ▹ wire x.padding3 ▹ wire x.io_records⟩
instance : Enc InformationOperationsReportPdu :=
  ⟨fun _ => True, fun x => { x with originating_simulation_id := sent x.originating_simulation_id },
   fun _ => 0⟩
instance : Dec InformationOperationsReportPdu :=
  ⟨fun x => decodable x.io_records, id⟩
instance : Tail InformationOperationsReportPdu := ⟨fun _ => []⟩

/-- the fields of src/information_operations.rs:46-68 in declaration order -/
instance : Wire InformationOperationsActionPdu := ⟨fun x =>
  wire x.originating_simulation_id ▹ wire x.receiving_simulation_id ▹ wire x.request_id ▹ wire x.io_warfare_type ▹ wire x.io_simulation_source ▹ wire x.io_action_type ▹ wire x.io_action_phase ▹ wire x.padding ▹ wire x.io_attacker_entity_id ▹ wire x.io_primary_target_entity_id ▹ wire x.padding2 ▹ wire x.io_records⟩
instance : Enc InformationOperationsActionPdu :=
  ⟨fun _ => True, fun x => { x with originating_simulation_id := sent x.originating_simulation_id, receiving_simulation_id := sent x.receiving_simulation_id },
   fun _ => 0⟩
instance : Dec InformationOperationsActionPdu :=
  ⟨fun x => decodable x.io_records, id⟩
instance : Tail InformationOperationsActionPdu := ⟨fun _ => []⟩

end Dis
