import Verif.Model.Pdus4
import Verif.Spec.RecordWire
import Verif.Spec.PduCommon
/-
Generated by tools/gen_pdus.py from the `define_pdu!` field lists of /repo/src: a PDU body's wire image
is the concatenation of its fields' images in declaration order.
-/
set_option maxRecDepth 4000
namespace Dis

/-- the fields of src/simulation_management_with_reliability.rs:166-187 in declaration order -/
instance : Wire DataQueryReliablePdu := ⟨fun x =>
  wire x.originating_entity_id ▹ wire x.receiving_entity_id ▹ wire x.required_reliability_service ▹ wire x.padding ▹ wire x.padding2 ▹ wire x.request_id ▹ wire x.time_interval ▹ wire x.number_of_fixed_datum_records ▹ wire x.number_of_variable_datum_records ▹ wire x.fixed_datum_ids ▹ wire x.variable_datum_ids⟩
instance : Enc DataQueryReliablePdu := .exact _
instance : Dec DataQueryReliablePdu :=
  ⟨fun _ => True, fun x => { x with fixed_datum_ids := [], variable_datum_ids := [] }⟩
instance : Tail DataQueryReliablePdu := ⟨fun x => wire x.fixed_datum_ids ▹ wire x.variable_datum_ids⟩

/-- the fields of src/simulation_management_with_reliability.rs:189-209 in declaration order -/
instance : Wire SetDataReliablePdu := ⟨fun x =>
  wire x.originating_entity_id ▹ wire x.receiving_entity_id ▹ wire x.required_reliability_service ▹ wire x.padding ▹ wire x.padding2 ▹ wire x.request_id ▹ wire x.number_of_fixed_datum_records ▹ wire x.number_of_variable_datum_records ▹ wire x.fixed_datum_records ▹ wire x.variable_datum_records⟩
instance : Enc SetDataReliablePdu :=
  ⟨fun _ => True, fun x => { x with variable_datum_records := sent x.variable_datum_records },
   fun x => surplus x.variable_datum_records⟩
instance : Dec SetDataReliablePdu :=
  ⟨fun _ => True, fun x => { x with fixed_datum_records := [], variable_datum_records := [] }⟩
instance : Tail SetDataReliablePdu := ⟨fun x => wire x.fixed_datum_records ▹ wire x.variable_datum_records⟩

/-- the fields of src/simulation_management_with_reliability.rs:211-231 in declaration order -/
instance : Wire DataReliablePdu := ⟨fun x =>
  wire x.originating_entity_id ▹ wire x.receiving_entity_id ▹ wire x.request_id ▹ wire x.required_reliability_service ▹ wire x.padding ▹ wire x.padding2 ▹ wire x.number_of_fixed_datum_records ▹ wire x.number_of_variable_datum_records ▹ wire x.fixed_datum_records ▹ wire x.variable_datum_records⟩
instance : Enc DataReliablePdu :=
  ⟨fun _ => True, fun x => { x with variable_datum_records := sent x.variable_datum_records },
   fun x => surplus x.variable_datum_records⟩
instance : Dec DataReliablePdu :=
  ⟨fun _ => True, fun x => { x with fixed_datum_records := [], variable_datum_records := [] }⟩
instance : Tail DataReliablePdu := ⟨fun x => wire x.fixed_datum_records ▹ wire x.variable_datum_records⟩

/-- the fields of src/simulation_management_with_reliability.rs:233-251 in declaration order -/
instance : Wire EventReportReliablePdu := ⟨fun x =>
  wire x.originating_entity_id ▹ wire x.receiving_entity_id ▹ wire x.event_type ▹ wire x.padding ▹ wire x.number_of_fixed_datum_records ▹ wire x.number_of_variable_datum_records ▹ wire x.fixed_datum_records ▹ wire x.variable_datum_records⟩
instance : Enc EventReportReliablePdu :=
  ⟨fun _ => True, fun x => { x with variable_datum_records := sent x.variable_datum_records },
   fun x => surplus x.variable_datum_records⟩
instance : Dec EventReportReliablePdu :=
  ⟨fun _ => True, fun x => { x with fixed_datum_records := [], variable_datum_records := [] }⟩
instance : Tail EventReportReliablePdu := ⟨fun x => wire x.fixed_datum_records ▹ wire x.variable_datum_records⟩

/-- the fields of src/simulation_management_with_reliability.rs:253-269 in declaration order -/
instance : Wire CommentReliablePdu := ⟨fun x =>
  wire x.originating_entity_id ▹ wire x.receiving_entity_id ▹ wire x.number_of_fixed_datum_records ▹ wire x.number_of_variable_datum_records ▹ wire x.fixed_datum_records ▹ wire x.variable_datum_records⟩
instance : Enc CommentReliablePdu :=
  ⟨fun _ => True, fun x => { x with variable_datum_records := sent x.variable_datum_records },
   fun x => surplus x.variable_datum_records⟩
instance : Dec CommentReliablePdu :=
  ⟨fun _ => True, fun x => { x with fixed_datum_records := [], variable_datum_records := [] }⟩
instance : Tail CommentReliablePdu := ⟨fun x => wire x.fixed_datum_records ▹ wire x.variable_datum_records⟩

/-- the fields of src/simulation_management_with_reliability.rs:271-290 in declaration order -/
instance : Wire RecordQueryReliablePdu := ⟨fun x =>
  wire x.originating_entity_id ▹ wire x.receiving_entity_id ▹ wire x.request_id ▹ wire x.required_reliability_service ▹ wire x.padding ▹ wire x.event_type ▹ wire x.time ▹ wire x.number_of_records ▹ wire x.record_ids⟩
instance : Enc RecordQueryReliablePdu := .exact _
instance : Dec RecordQueryReliablePdu :=
  ⟨fun _ => True, fun x => { x with record_ids := [] }⟩
instance : Tail RecordQueryReliablePdu := ⟨fun x => wire x.record_ids⟩

/-- the fields of src/simulation_management_with_reliability.rs:292-310 in declaration order -/
instance : Wire SetRecordReliablePdu := ⟨fun x =>
  wire x.originating_entity_id ▹ wire x.receiving_entity_id ▹ wire x.request_id ▹ wire x.required_reliability_service ▹ wire x.padding ▹ wire x.padding2 ▹ wire x.padding3 ▹ wire x.record_sets⟩
instance : Enc SetRecordReliablePdu :=
  ⟨fun x => encodable x.record_sets, fun x => { x with record_sets := sent x.record_sets },
   fun x => surplus x.record_sets⟩
instance : Dec SetRecordReliablePdu :=
  ⟨fun x => decodable x.record_sets, id⟩
instance : Tail SetRecordReliablePdu := ⟨fun _ => []⟩

/-- the fields of src/synthetic_environment.rs:29-46 in declaration order -/
instance : Wire EnvironmentalProcessPdu := ⟨fun x =>
  wire x.environmental_process_id ▹ wire x.environment_type ▹ wire x.model_type ▹ wire x.environment_status ▹ wire x.number_of_environment_records ▹ wire x.sequence_number ▹ wire x.environment_records⟩
instance : Enc EnvironmentalProcessPdu := .exact _
instance : Dec EnvironmentalProcessPdu :=
  ⟨fun _ => True, fun x => { x with environment_records := [] }⟩
instance : Tail EnvironmentalProcessPdu := ⟨fun x => wire x.environment_records⟩

/-- the fields of src/synthetic_environment.rs:48-74 in declaration order -/
instance : Wire GriddedDataPdu := ⟨fun x =>
  wire x.environmental_simulation_id ▹ wire x.field_number ▹ wire x.pdu_number ▹ wire x.pdu_total ▹ wire x.coordinate_system ▹ wire x.number_of_grid_axes ▹ wire x.constant_grid ▹ wire x.environment_type ▹ wire x.orientation ▹ wire x.sample_time ▹ wire x.total_values ▹ wire x.vector_dimension ▹ wire x.padding ▹ wire x.padding2 ▹ wire x.grid_axis_descriptors ▹ wire x.grid_data_list⟩
instance : Enc GriddedDataPdu :=
  ⟨fun _ => True, fun x => { x with grid_data_list := sent x.grid_data_list },
   fun x => surplus x.grid_data_list⟩
instance : Dec GriddedDataPdu :=
  ⟨fun _ => True, fun x => { x with grid_axis_descriptors := [], grid_data_list := [] }⟩
instance : Tail GriddedDataPdu := ⟨fun x => wire x.grid_axis_descriptors ▹ wire x.grid_data_list⟩

/-- the fields of src/synthetic_environment.rs:76-100 in declaration order -/
instance : Wire PointObjectStatePdu := ⟨fun x =>
  wire x.object_id ▹ wire x.referenced_object_id ▹ wire x.update_number ▹ wire x.force_id ▹ wire x.modifications ▹ wire x.object_type ▹ wire x.object_location ▹ wire x.object_orientation ▹ wire x.specific_object_appearance ▹ wire x.general_object_appearance ▹ wire x.padding ▹ wire x.requester_id ▹ wire x.receiving_id ▹ wire x.padding2⟩
instance : Enc PointObjectStatePdu := .exact _
instance : Dec PointObjectStatePdu := .exact _
instance : Tail PointObjectStatePdu := ⟨fun _ => []⟩

/-- the fields of src/synthetic_environment.rs:102-121 in declaration order -/
instance : Wire LinearObjectStatePdu := ⟨fun x =>
  wire x.object_id ▹ wire x.referenced_object_id ▹ wire x.update_number ▹ wire x.force_id ▹ wire x.number_of_segments ▹ wire x.requester_id ▹ wire x.receiving_id ▹ wire x.object_type ▹ wire x.linear_segment_parameters⟩
instance : Enc LinearObjectStatePdu := .exact _
instance : Dec LinearObjectStatePdu :=
  ⟨fun _ => True, fun x => { x with linear_segment_parameters := [] }⟩
instance : Tail LinearObjectStatePdu := ⟨fun x => wire x.linear_segment_parameters⟩

/-- the fields of src/synthetic_environment.rs:123-145 in declaration order -/
instance : Wire ArealObjectStatePdu := ⟨fun x =>
  wire x.object_id ▹ wire x.referenced_object_id ▹ wire x.update_number ▹ wire x.force_id ▹ wire x.modifications ▹ wire x.object_type ▹ wire x.specific_object_appearance ▹ wire x.general_object_appearance ▹ wire x.number_of_points ▹ wire x.requester_id ▹ wire x.receiving_id ▹ wire x.object_location⟩
instance : Enc ArealObjectStatePdu := .exact _
instance : Dec ArealObjectStatePdu :=
  ⟨fun x => decodable x.general_object_appearance, fun x => { x with object_location := [] }⟩
instance : Tail ArealObjectStatePdu := ⟨fun x => wire x.object_location⟩

/-- the fields of src/warfare.rs:23-42 in declaration order -/
instance : Wire FirePdu := ⟨fun x =>
  wire x.firing_entity_id ▹ wire x.target_entity_id ▹ wire x.munition_expendable_id ▹ wire x.event_id ▹ wire x.fire_mission_index ▹ wire x.location_in_world_coordinates ▹ wire x.descriptor ▹ wire x.velocity ▹ wire x.range⟩
instance : Enc FirePdu := .exact _
instance : Dec FirePdu := .exact _
instance : Tail FirePdu := ⟨fun _ => []⟩

/-- the fields of src/warfare.rs:44-66 in declaration order -/
instance : Wire DetonationPdu := ⟨fun x =>
  wire x.firing_entity_id ▹ wire x.target_entity_id ▹ wire x.exploding_entity_id ▹ wire x.event_id ▹ wire x.velocity ▹ wire x.location_in_world_coordinates ▹ wire x.descriptor ▹ wire x.location_in_entitys_coordinates ▹ wire x.detonation_result ▹ wire x.number_of_variable_parameters ▹ wire x.padding ▹ wire x.variable_parameters⟩
instance : Enc DetonationPdu := .exact _
instance : Dec DetonationPdu :=
  ⟨fun _ => True, fun x => { x with variable_parameters := [] }⟩
instance : Tail DetonationPdu := ⟨fun x => wire x.variable_parameters⟩

/-- the fields of src/warfare.rs:68-96 in declaration order -/
instance : Wire DirectedEnergyFirePdu := ⟨fun x =>
  wire x.firing_entity_id ▹ wire x.event_id ▹ wire x.munition_type ▹ wire x.shot_start_time ▹ wire x.cumulative_shot_time ▹ wire x.aperture_emitter_location ▹ wire x.aperture_diameter ▹ wire x.wavelength ▹ wire x.padding ▹ wire x.pulse_repetition_frequency ▹ wire x.pulse_width ▹ wire x.flags ▹ wire x.pulse_shape ▹ wire x.padding2 ▹ wire x.padding3 ▹ wire x.padding4 ▹ wire x.number_of_de_records ▹ wire x.damage_descriptions⟩
instance : Enc DirectedEnergyFirePdu := .exact _
instance : Dec DirectedEnergyFirePdu :=
  ⟨fun _ => True, fun x => { x with damage_descriptions := [] }⟩
instance : Tail DirectedEnergyFirePdu := ⟨fun x => wire x.damage_descriptions⟩

/-- the fields of src/warfare.rs:98-113 in declaration order -/
instance : Wire EntityDamageStatusPdu := ⟨fun x =>
  wire x.damaged_entity_id ▹ wire x.padding ▹ wire x.padding2 ▹ wire x.number_of_damage_descriptions ▹ wire x.damage_descriptions⟩
instance : Enc EntityDamageStatusPdu := .exact _
instance : Dec EntityDamageStatusPdu :=
  ⟨fun _ => True, fun x => { x with damage_descriptions := [] }⟩
instance : Tail EntityDamageStatusPdu := ⟨fun x => wire x.damage_descriptions⟩

end Dis
