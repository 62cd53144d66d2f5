import Verif.Model.Records
import Verif.Spec.IrregularWire
/-
Generated by tools/gen_records.py from the structure declarations in /repo/src/common/data_types:
a record's wire image is the concatenation of its fields' images in declaration order.
-/
namespace Dis

/-- the fields of src/common/data_types/acoustic_beam_fundamental_parameter.rs:9-16 in declaration order -/
instance : Wire AcousticBeamFundamentalParameter := ⟨fun x => wire x.active_emission_parameter_index ▹ wire x.scan_pattern ▹ wire x.beam_center_azimuth ▹ wire x.azimuthal_beamwidth ▹ wire x.beam_center_de ▹ wire x.de_beamwidth⟩
instance : Enc AcousticBeamFundamentalParameter := .exact _
instance : Dec AcousticBeamFundamentalParameter := .exact _

/-- the fields of src/common/data_types/acoustic_beam_data.rs:12-17 in declaration order -/
instance : Wire AcousticBeamData := ⟨fun x => wire x.beam_data_length ▹ wire x.beam_id_number ▹ wire x.pad2 ▹ wire x.fundamental_data_parameters⟩
instance : Enc AcousticBeamData := .exact _
instance : Dec AcousticBeamData := .exact _

/-- the fields of src/common/data_types/acoustic_emitter_system.rs:16-20 in declaration order -/
instance : Wire AcousticEmitterSystem := ⟨fun x => wire x.acoustic_name ▹ wire x.acoustic_function ▹ wire x.acoustic_id⟩
instance : Enc AcousticEmitterSystem := .exact _
instance : Dec AcousticEmitterSystem := .exact _

/-- the fields of src/common/data_types/vector3_float.rs:13-20 in declaration order -/
instance : Wire Vector3Float := ⟨fun x => wire x.x ▹ wire x.y ▹ wire x.z⟩
instance : Enc Vector3Float := .exact _
instance : Dec Vector3Float := .exact _

/-- the fields of src/common/data_types/acoustic_emitter_system_data.rs:13-20 in declaration order -/
instance : Wire AcousticEmitterSystemData := ⟨fun x => wire x.emitter_system_data_length ▹ wire x.number_of_beams ▹ wire x.pad2 ▹ wire x.acoustic_emitter_system ▹ wire x.emitter_location ▹ wire x.beam_records⟩
instance : Enc AcousticEmitterSystemData := .exact _
/-- recovered when the count field agrees with the list -/
instance : Dec AcousticEmitterSystemData := ⟨fun x => x.number_of_beams.toNat = x.beam_records.length, id⟩

/-- the fields of src/common/data_types/aggregate_id.rs:11-15 in declaration order -/
instance : Wire AggregateId := ⟨fun x => wire x.site ▹ wire x.application ▹ wire x.aggregate_id⟩
instance : Enc AggregateId := .exact _
instance : Dec AggregateId := .exact _

/-- the fields of src/common/data_types/aggregate_marking.rs:11-14 in declaration order -/
instance : Wire AggregateMarking := ⟨fun x => wire x.character_set ▹ wire x.characters⟩
instance : Enc AggregateMarking := .exact _
instance : Dec AggregateMarking := .exact _

/-- the fields of src/common/data_types/angular_velocity_vector.rs:14-21 in declaration order -/
instance : Wire AngularVelocity := ⟨fun x => wire x.rate_about_x_axis ▹ wire x.rate_about_y_axis ▹ wire x.rate_about_z_axis⟩
instance : Enc AngularVelocity := .exact _
instance : Dec AngularVelocity := .exact _

/-- the fields of src/common/data_types/apa_data.rs:16-19 in declaration order -/
instance : Wire ApaData := ⟨fun x => wire x.parameter_index ▹ wire x.parameter_value⟩
instance : Enc ApaData := .exact _
instance : Dec ApaData := .exact _

/-- the fields of src/common/data_types/attribute_record.rs:12-16 in declaration order -/
instance : Wire AttributeRecord := ⟨fun x => wire x.record_type ▹ wire x.record_length ▹ wire x.record_specific_fields⟩
instance : Enc AttributeRecord := .exact _
/-- recovered when the count field agrees with the list -/
instance : Dec AttributeRecord := ⟨fun x => x.record_length.toNat = x.record_specific_fields.length, id⟩

/-- the fields of src/common/data_types/simulation_address.rs:16-25 in declaration order -/
instance : Wire SimulationAddress := ⟨fun x => wire x.site_id ▹ wire x.application_id⟩
instance : Enc SimulationAddress := .exact _
instance : Dec SimulationAddress := .exact _

/-- the fields of src/common/data_types/entity_id.rs:15-20 in declaration order -/
instance : Wire EntityId := ⟨fun x => wire x.simulation_address ▹ wire x.entity_id⟩
instance : Enc EntityId := .exact _
instance : Dec EntityId := .exact _

/-- the fields of src/common/data_types/attribute_record_set.rs:18-22 in declaration order -/
instance : Wire AttributeRecordSet := ⟨fun x => wire x.entity_id ▹ wire x.number_of_attribute_records ▹ wire x.attribute_records⟩
instance : Enc AttributeRecordSet := .exact _
/-- recovered when the count field agrees with the list -/
instance : Dec AttributeRecordSet := ⟨fun x => x.number_of_attribute_records.toNat = x.attribute_records.length ∧ ∀ e ∈ x.attribute_records, decodable e, id⟩

/-- the fields of src/common/data_types/beam_data.rs:16-22 in declaration order -/
instance : Wire BeamData := ⟨fun x => wire x.beam_azimuth_center ▹ wire x.beam_azimuth_sweep ▹ wire x.beam_elevation_center ▹ wire x.beam_elevation_sweep ▹ wire x.beam_sweep_sync⟩
instance : Enc BeamData := .exact _
instance : Dec BeamData := .exact _

/-- the fields of src/common/data_types/clock_time.rs:13-18 in declaration order -/
instance : Wire ClockTime := ⟨fun x => wire x.hour ▹ wire x.time_past_hour⟩
instance : Enc ClockTime := .exact _
instance : Dec ClockTime := .exact _

/-- the fields of src/common/data_types/linear_acceleration.rs:14-18 in declaration order -/
instance : Wire LinearAcceleration := ⟨fun x => wire x.first_vector_component ▹ wire x.second_vector_component ▹ wire x.third_vector_component⟩
instance : Enc LinearAcceleration := .exact _
instance : Dec LinearAcceleration := .exact _

/-- the fields of src/common/data_types/dead_reckoning_parameters.rs:21-26 in declaration order -/
instance : Wire DeadReckoningParameters := ⟨fun x => wire x.dead_reckoning_algorithm ▹ wire x.dead_reckoning_other_parameters ▹ wire x.entity_linear_acceleration ▹ wire x.entity_angular_velocity⟩
instance : Enc DeadReckoningParameters := ⟨fun _ => True, fun x => { x with dead_reckoning_other_parameters := .replicate 15 0 }, fun _ => 0⟩
instance : Dec DeadReckoningParameters := .exact _

/-- the fields of src/common/data_types/entity_coordinate_vector.rs:16-23 in declaration order -/
instance : Wire EntityCoordinateVector := ⟨fun x => wire x.x_coordinate ▹ wire x.y_coordinate ▹ wire x.z_coordinate⟩
instance : Enc EntityCoordinateVector := .exact _
instance : Dec EntityCoordinateVector := .exact _

/-- the fields of src/common/data_types/event_id.rs:16-19 in declaration order -/
instance : Wire EventId := ⟨fun x => wire x.simulation_address ▹ wire x.event_identifier⟩
instance : Enc EventId := .exact _
instance : Dec EventId := .exact _

/-- the fields of src/common/data_types/directed_energy_damage.rs:17-30 in declaration order -/
instance : Wire DirectedEnergyDamage := ⟨fun x => wire x.record_type ▹ wire x.record_length ▹ wire x.padding ▹ wire x.damage_location ▹ wire x.damage_diameter ▹ wire x.temperature ▹ wire x.component_identification ▹ wire x.component_damage_status ▹ wire x.component_visual_damage_status ▹ wire x.component_visual_smoke_color ▹ wire x.fire_event_id ▹ wire x.padding2⟩
instance : Enc DirectedEnergyDamage := .exact _
instance : Dec DirectedEnergyDamage := .exact _

/-- the fields of src/common/data_types/fundamental_parameter_data.rs:11-22 in declaration order -/
instance : Wire FundamentalParameterData := ⟨fun x => wire x.frequency ▹ wire x.frequency_range ▹ wire x.effective_radiated_power ▹ wire x.pulse_repetition_frequency ▹ wire x.pulse_width ▹ wire x.beam_azimuth_center ▹ wire x.beam_azimuth_sweep ▹ wire x.beam_elevation_center ▹ wire x.beam_elevation_sweep ▹ wire x.beam_sweep_sync⟩
instance : Enc FundamentalParameterData := .exact _
instance : Dec FundamentalParameterData := .exact _

/-- the fields of src/common/data_types/track_jam_target.rs:14-18 in declaration order -/
instance : Wire TrackJamTarget := ⟨fun x => wire x.track_jam ▹ wire x.emitter_id ▹ wire x.beam_id⟩
instance : Enc TrackJamTarget := .exact _
instance : Dec TrackJamTarget := .exact _

/-- the fields of src/common/data_types/electromagnetic_emission_beam_data.rs:10-21 in declaration order -/
instance : Wire ElectromagneticEmissionBeamData := ⟨fun x => wire x.beam_data_length ▹ wire x.beam_id_number ▹ wire x.beam_parameter_index ▹ wire x.fundamental_parameter_data ▹ wire x.beam_function ▹ wire x.number_of_track_jam_targets ▹ wire x.high_density_track_jam ▹ wire x.pad4 ▹ wire x.jamming_mode_sequence ▹ wire x.track_jam_targets⟩
instance : Enc ElectromagneticEmissionBeamData := .exact _
/-- recovered when the count field agrees with the list -/
instance : Dec ElectromagneticEmissionBeamData := ⟨fun x => x.number_of_track_jam_targets.toNat = x.track_jam_targets.length, id⟩

/-- the fields of src/common/data_types/emitter_system.rs:13-17 in declaration order -/
instance : Wire EmitterSystem := ⟨fun x => wire x.emitter_name ▹ wire x.function ▹ wire x.emitter_id_number⟩
instance : Enc EmitterSystem := .exact _
instance : Dec EmitterSystem := .exact _

/-- the fields of src/common/data_types/electromagnetic_emission_system_data.rs:13-20 in declaration order -/
instance : Wire ElectromagneticEmissionSystemData := ⟨fun x => wire x.system_data_length ▹ wire x.number_of_beams ▹ wire x.emissionspadding2 ▹ wire x.emitter_system ▹ wire x.location ▹ wire x.beam_data_records⟩
instance : Enc ElectromagneticEmissionSystemData := .exact _
/-- recovered when the count field agrees with the list -/
instance : Dec ElectromagneticEmissionSystemData := ⟨fun x => x.number_of_beams.toNat = x.beam_data_records.length ∧ ∀ e ∈ x.beam_data_records, decodable e, id⟩

/-- the fields of src/common/data_types/entity_type.rs:16-24 in declaration order -/
instance : Wire EntityType := ⟨fun x => wire x.kind ▹ wire x.domain ▹ wire x.country ▹ wire x.category ▹ wire x.subcategory ▹ wire x.specific ▹ wire x.extra⟩
instance : Enc EntityType := .exact _
instance : Dec EntityType := .exact _

/-- the fields of src/common/data_types/environment.rs:11-16 in declaration order -/
instance : Wire Environment := ⟨fun x => wire x.environment_type ▹ wire x.length ▹ wire x.index ▹ wire x.padding⟩
instance : Enc Environment := .exact _
instance : Dec Environment := .exact _

/-- the fields of src/common/data_types/euler_angles.rs:16-23 in declaration order -/
instance : Wire EulerAngles := ⟨fun x => wire x.psi ▹ wire x.theta ▹ wire x.phi⟩
instance : Enc EulerAngles := .exact _
instance : Dec EulerAngles := .exact _

/-- the fields of src/common/data_types/datum_records.rs:12-15 in declaration order -/
instance : Wire FixedDatumRecord := ⟨fun x => wire x.datum_id ▹ wire x.datum_value⟩
instance : Enc FixedDatumRecord := .exact _
instance : Dec FixedDatumRecord := .exact _

/-- the fields of src/common/data_types/fundamental_operational_data.rs:14-25 in declaration order -/
instance : Wire FundamentalOperationalData := ⟨fun x => wire x.system_status ▹ wire x.data_field1 ▹ wire x.information_layers ▹ wire x.data_field2 ▹ wire x.parameter1 ▹ wire x.parameter2 ▹ wire x.parameter3 ▹ wire x.parameter4 ▹ wire x.parameter5 ▹ wire x.parameter6⟩
instance : Enc FundamentalOperationalData := .exact _
instance : Dec FundamentalOperationalData := .exact _

/-- the fields of src/common/data_types/iff_fundamental_parameter_data.rs:14-22 in declaration order -/
instance : Wire IFFFundamentalParameterData := ⟨fun x => wire x.erp ▹ wire x.frequency ▹ wire x.pgrf ▹ wire x.pulse_width ▹ wire x.burst_length ▹ wire x.applicable_modes ▹ wire x.system_specific_data⟩
instance : Enc IFFFundamentalParameterData := .exact _
instance : Dec IFFFundamentalParameterData := .exact _

/-- the fields of src/common/data_types/intercom_communications_parameters.rs:10-14 in declaration order -/
instance : Wire IntercomCommunicationsParameters := ⟨fun x => wire x.record_type ▹ wire x.record_length ▹ wire x.record_specific_field⟩
instance : Enc IntercomCommunicationsParameters := .exact _
instance : Dec IntercomCommunicationsParameters := .exact _

/-- the fields of src/common/data_types/layer_header.rs:16-20 in declaration order -/
instance : Wire LayerHeader := ⟨fun x => wire x.layer_number ▹ wire x.layer_specific_information ▹ wire x.length⟩
instance : Enc LayerHeader := .exact _
instance : Dec LayerHeader := .exact _

/-- the fields of src/common/data_types/world_coordinate.rs:16-23 in declaration order -/
instance : Wire WorldCoordinate := ⟨fun x => wire x.x ▹ wire x.y ▹ wire x.z⟩
instance : Enc WorldCoordinate := .exact _
instance : Dec WorldCoordinate := .exact _

/-- the fields of src/common/data_types/linear_segment_parameter.rs:14-26 in declaration order -/
instance : Wire LinearSegmentParameter := ⟨fun x => wire x.segment_number ▹ wire x.segment_modification ▹ wire x.general_segment_appearance ▹ wire x.specific_segment_appearance ▹ wire x.segment_location ▹ wire x.segment_orientation ▹ wire x.segment_length ▹ wire x.segment_width ▹ wire x.segment_height ▹ wire x.segment_depth ▹ wire x.padding⟩
instance : Enc LinearSegmentParameter := .exact _
instance : Dec LinearSegmentParameter := .exact _

/-- the fields of src/common/data_types/linear_velocity.rs:14-18 in declaration order -/
instance : Wire LinearVelocity := ⟨fun x => wire x.first_vector_component ▹ wire x.second_vector_component ▹ wire x.third_vector_component⟩
instance : Enc LinearVelocity := .exact _
instance : Dec LinearVelocity := .exact _

/-- the fields of src/common/data_types/minefield_identifier.rs:14-17 in declaration order -/
instance : Wire MinefieldIdentifier := ⟨fun x => wire x.simulation_address ▹ wire x.minefield_number⟩
instance : Enc MinefieldIdentifier := .exact _
instance : Dec MinefieldIdentifier := .exact _

/-- the fields of src/common/data_types/modulation_type.rs:11-16 in declaration order -/
instance : Wire ModulationType := ⟨fun x => wire x.spread_spectrum ▹ wire x.major ▹ wire x.detail ▹ wire x.system⟩
instance : Enc ModulationType := .exact _
instance : Dec ModulationType := .exact _

/-- the fields of src/common/data_types/munition_descriptor.rs:14-20 in declaration order -/
instance : Wire MunitionDescriptor := ⟨fun x => wire x.munition_type ▹ wire x.warhead ▹ wire x.fuse ▹ wire x.quantity ▹ wire x.rate⟩
instance : Enc MunitionDescriptor := .exact _
instance : Dec MunitionDescriptor := .exact _

/-- the fields of src/common/data_types/named_location.rs:11-14 in declaration order -/
instance : Wire NamedLocation := ⟨fun x => wire x.station_name ▹ wire x.station_number⟩
instance : Enc NamedLocation := .exact _
instance : Dec NamedLocation := .exact _

/-- the fields of src/common/data_types/object_identifier.rs:14-17 in declaration order -/
instance : Wire ObjectIdentifier := ⟨fun x => wire x.simulation_address ▹ wire x.object_number⟩
instance : Enc ObjectIdentifier := .exact _
instance : Dec ObjectIdentifier := .exact _

/-- the fields of src/common/data_types/object_type.rs:11-16 in declaration order -/
instance : Wire ObjectType := ⟨fun x => wire x.domain ▹ wire x.object_kind ▹ wire x.category ▹ wire x.subcategory⟩
instance : Enc ObjectType := .exact _
instance : Dec ObjectType := .exact _

/-- the fields of src/common/data_types/point.rs:11-14 in declaration order -/
instance : Wire Point := ⟨fun x => wire x.x ▹ wire x.y⟩
instance : Enc Point := .exact _
instance : Dec Point := .exact _

/-- the fields of src/common/data_types/propulsion_system_data.rs:14-17 in declaration order -/
instance : Wire PropulsionSystemData := ⟨fun x => wire x.power_setting ▹ wire x.engine_rpm⟩
instance : Enc PropulsionSystemData := .exact _
instance : Dec PropulsionSystemData := .exact _

/-- the fields of src/common/data_types/radio_entity_type.rs:11-18 in declaration order -/
instance : Wire RadioEntityType := ⟨fun x => wire x.entity_kind ▹ wire x.domain ▹ wire x.country ▹ wire x.category ▹ wire x.nomenclature_version ▹ wire x.nomenclature⟩
instance : Enc RadioEntityType := .exact _
instance : Dec RadioEntityType := .exact _

/-- the fields of src/common/data_types/record_specification.rs:13-16 in declaration order -/
instance : Wire RecordSpecification := ⟨fun x => wire x.number_of_record_sets ▹ wire x.record_sets⟩
instance : Enc RecordSpecification := ⟨fun x => encodable x.record_sets, fun x => { x with record_sets := sent x.record_sets }, fun x => surplus x.record_sets⟩
/-- recovered when the count field agrees with the list -/
instance : Dec RecordSpecification := ⟨fun x => x.number_of_record_sets.toNat = x.record_sets.length ∧ ∀ e ∈ x.record_sets, decodable e, id⟩

/-- the fields of src/common/data_types/relationship.rs:11-14 in declaration order -/
instance : Wire Relationship := ⟨fun x => wire x.nature ▹ wire x.position⟩
instance : Enc Relationship := .exact _
instance : Dec Relationship := .exact _

/-- the fields of src/common/data_types/secondary_operational_data.rs:14-18 in declaration order -/
instance : Wire SecondaryOperationalData := ⟨fun x => wire x.operational_data1 ▹ wire x.operational_data2 ▹ wire x.number_of_iff_fundamental_parameter_records⟩
instance : Enc SecondaryOperationalData := .exact _
instance : Dec SecondaryOperationalData := .exact _

/-- the fields of src/common/data_types/shaft_rpms.rs:16-20 in declaration order -/
instance : Wire ShaftRPMs := ⟨fun x => wire x.current_shaft_rpms ▹ wire x.ordered_shaft_rpms ▹ wire x.shaft_rpm_rate_of_change⟩
instance : Enc ShaftRPMs := .exact _
instance : Dec ShaftRPMs := .exact _

/-- the fields of src/common/data_types/simulation_id.rs:15-18 in declaration order -/
instance : Wire SimulationIdentifier := ⟨fun x => wire x.simulation_address ▹ wire x.reference_number⟩
instance : Enc SimulationIdentifier := ⟨fun _ => True, fun x => { x with reference_number := 0 }, fun _ => 0⟩
instance : Dec SimulationIdentifier := .exact _

/-- the fields of src/common/data_types/standard_variable_records.rs:11-15 in declaration order -/
instance : Wire StandardVariableRecords := ⟨fun x => wire x.record_type ▹ wire x.record_length ▹ wire x.record_specific_fields⟩
instance : Enc StandardVariableRecords := .exact _
/-- recovered when the count field agrees with the list -/
instance : Dec StandardVariableRecords := ⟨fun x => x.record_length.toNat = x.record_specific_fields.length, id⟩

/-- the fields of src/common/data_types/standard_variable_specification.rs:11-14 in declaration order -/
instance : Wire StandardVariableSpecification := ⟨fun x => wire x.number_of_standard_variable_records ▹ wire x.standard_variable_records⟩
instance : Enc StandardVariableSpecification := .exact _
/-- recovered when the count field agrees with the list -/
instance : Dec StandardVariableSpecification := ⟨fun x => x.number_of_standard_variable_records.toNat = x.standard_variable_records.length ∧ ∀ e ∈ x.standard_variable_records, decodable e, id⟩

/-- the fields of src/common/data_types/supply_quantity.rs:14-17 in declaration order -/
instance : Wire SupplyQuantity := ⟨fun x => wire x.supply_type ▹ wire x.quantity⟩
instance : Enc SupplyQuantity := .exact _
instance : Dec SupplyQuantity := .exact _

/-- the fields of src/common/data_types/system_id.rs:14-19 in declaration order -/
instance : Wire SystemId := ⟨fun x => wire x.system_type ▹ wire x.system_name ▹ wire x.system_mode ▹ wire x.change_options⟩
instance : Enc SystemId := .exact _
instance : Dec SystemId := .exact _

/-- the fields of src/common/data_types/variable_parameter.rs:14-20 in declaration order -/
instance : Wire VariableParameter := ⟨fun x => wire x.record_type ▹ wire x.variable_parameter_field1 ▹ wire x.variable_parameter_field2 ▹ wire x.variable_parameter_field3 ▹ wire x.variable_parameter_field4⟩
instance : Enc VariableParameter := .exact _
instance : Dec VariableParameter := .exact _

/-- src/common/data_types/variable_transmitter_parameters.rs:11-15; the record type is a 32-bit field -/
instance : Wire VariableTransmitterParameters :=
  ⟨fun x => octets 4 x.record_type.code ▹ wire x.record_length ▹ wire x.record_specific_fields⟩
instance : Enc VariableTransmitterParameters := .exact _

/-- the fields of src/common/data_types/vector3_double.rs:13-20 in declaration order -/
instance : Wire Vector3Double := ⟨fun x => wire x.x ▹ wire x.y ▹ wire x.z⟩
instance : Enc Vector3Double := .exact _
instance : Dec Vector3Double := .exact _

/-- the fields of src/common/data_types/vectoring_nozzle_system_data.rs:14-17 in declaration order -/
instance : Wire VectoringNozzleSystemData := ⟨fun x => wire x.horizontal_deflection_angle ▹ wire x.vertical_deflection_angle⟩
instance : Enc VectoringNozzleSystemData := .exact _
instance : Dec VectoringNozzleSystemData := .exact _

/-- the fields of src/common/data_types/velocity_vector.rs:9-13 in declaration order -/
instance : Wire VelocityVector := ⟨fun x => wire x.first_vector_component ▹ wire x.second_vector_component ▹ wire x.third_vector_component⟩
instance : Enc VelocityVector := .exact _
instance : Dec VelocityVector := .exact _

end Dis
