import Verif.Model.Printing
import Verif.Model.Records
/- Generated by tools/gen_printing.py: the derived `Debug` of the records of src/common/data_types. -/
namespace Dis

/-- src/common/data_types/acoustic_beam_fundamental_parameter.rs:9-16 (derived) -/
instance : RDebug AcousticBeamFundamentalParameter := ⟨fun σ x => structText σ "AcousticBeamFundamentalParameter" [
  ("active_emission_parameter_index", text σ x.active_emission_parameter_index),
  ("scan_pattern", text σ x.scan_pattern), ("beam_center_azimuth", text σ x.beam_center_azimuth),
  ("azimuthal_beamwidth", text σ x.azimuthal_beamwidth), ("beam_center_de", text σ x.beam_center_de),
  ("de_beamwidth", text σ x.de_beamwidth)]⟩
/-- src/common/data_types/acoustic_beam_data.rs:12-17 (derived) -/
instance : RDebug AcousticBeamData := ⟨fun σ x => structText σ "AcousticBeamData" [
  ("beam_data_length", text σ x.beam_data_length), ("beam_id_number", text σ x.beam_id_number),
  ("pad2", text σ x.pad2), ("fundamental_data_parameters", text σ x.fundamental_data_parameters)]⟩
/-- src/common/data_types/acoustic_emitter_system.rs:16-20 (derived) -/
instance : RDebug AcousticEmitterSystem := ⟨fun σ x => structText σ "AcousticEmitterSystem" [
  ("acoustic_name", text σ x.acoustic_name), ("acoustic_function", text σ x.acoustic_function),
  ("acoustic_id", text σ x.acoustic_id)]⟩
/-- src/common/data_types/vector3_float.rs:13-20 (derived) -/
instance : RDebug Vector3Float := ⟨fun σ x => structText σ "Vector3Float" [
  ("x", text σ x.x), ("y", text σ x.y), ("z", text σ x.z)]⟩
/-- src/common/data_types/acoustic_emitter_system_data.rs:13-20 (derived) -/
instance : RDebug AcousticEmitterSystemData := ⟨fun σ x => structText σ "AcousticEmitterSystemData" [
  ("emitter_system_data_length", text σ x.emitter_system_data_length),
  ("number_of_beams", text σ x.number_of_beams), ("pad2", text σ x.pad2),
  ("acoustic_emitter_system", text σ x.acoustic_emitter_system), ("emitter_location", text σ x.emitter_location),
  ("beam_records", text σ x.beam_records)]⟩
/-- src/common/data_types/aggregate_id.rs:11-15 (derived) -/
instance : RDebug AggregateId := ⟨fun σ x => structText σ "AggregateId" [
  ("site", text σ x.site), ("application", text σ x.application), ("aggregate_id", text σ x.aggregate_id)]⟩
/-- src/common/data_types/aggregate_marking.rs:11-14 (derived) -/
instance : RDebug AggregateMarking := ⟨fun σ x => structText σ "AggregateMarking" [
  ("character_set", text σ x.character_set), ("characters", text σ x.characters)]⟩
/-- src/common/data_types/angular_velocity_vector.rs:14-21 (derived) -/
instance : RDebug AngularVelocity := ⟨fun σ x => structText σ "AngularVelocity" [
  ("rate_about_x_axis", text σ x.rate_about_x_axis), ("rate_about_y_axis", text σ x.rate_about_y_axis),
  ("rate_about_z_axis", text σ x.rate_about_z_axis)]⟩
/-- src/common/data_types/antenna_pattern.rs:9-11 (derived) -/
instance : RDebug AntennaPattern := ⟨fun σ x => structText σ "AntennaPattern" [
  ("record_specific_fields", text σ x.record_specific_fields)]⟩
/-- src/common/data_types/apa_data.rs:16-19 (derived) -/
instance : RDebug ApaData := ⟨fun σ x => structText σ "ApaData" [
  ("parameter_index", text σ x.parameter_index), ("parameter_value", text σ x.parameter_value)]⟩
/-- src/common/data_types/attribute_record.rs:12-16 (derived) -/
instance : RDebug AttributeRecord := ⟨fun σ x => structText σ "AttributeRecord" [
  ("record_type", text σ x.record_type), ("record_length", text σ x.record_length),
  ("record_specific_fields", text σ x.record_specific_fields)]⟩
/-- src/common/data_types/simulation_address.rs:16-25 (derived) -/
instance : RDebug SimulationAddress := ⟨fun σ x => structText σ "SimulationAddress" [
  ("site_id", text σ x.site_id), ("application_id", text σ x.application_id)]⟩
/-- src/common/data_types/entity_id.rs:15-20 (derived) -/
instance : RDebug EntityId := ⟨fun σ x => structText σ "EntityId" [
  ("simulation_address", text σ x.simulation_address), ("entity_id", text σ x.entity_id)]⟩
/-- src/common/data_types/attribute_record_set.rs:18-22 (derived) -/
instance : RDebug AttributeRecordSet := ⟨fun σ x => structText σ "AttributeRecordSet" [
  ("entity_id", text σ x.entity_id), ("number_of_attribute_records", text σ x.number_of_attribute_records),
  ("attribute_records", text σ x.attribute_records)]⟩
/-- src/common/data_types/beam_data.rs:16-22 (derived) -/
instance : RDebug BeamData := ⟨fun σ x => structText σ "BeamData" [
  ("beam_azimuth_center", text σ x.beam_azimuth_center), ("beam_azimuth_sweep", text σ x.beam_azimuth_sweep),
  ("beam_elevation_center", text σ x.beam_elevation_center),
  ("beam_elevation_sweep", text σ x.beam_elevation_sweep), ("beam_sweep_sync", text σ x.beam_sweep_sync)]⟩
/-- src/common/data_types/clock_time.rs:13-18 (derived) -/
instance : RDebug ClockTime := ⟨fun σ x => structText σ "ClockTime" [
  ("hour", text σ x.hour), ("time_past_hour", text σ x.time_past_hour)]⟩
/-- src/common/data_types/datum_records.rs:12-15 (derived) -/
instance : RDebug FixedDatumRecord := ⟨fun σ x => structText σ "FixedDatumRecord" [
  ("datum_id", text σ x.datum_id), ("datum_value", text σ x.datum_value)]⟩
/-- src/common/data_types/datum_records.rs:52-56 (derived) -/
instance : RDebug VariableDatumRecord := ⟨fun σ x => structText σ "VariableDatumRecord" [
  ("datum_id", text σ x.datum_id), ("length_bits", text σ x.length_bits), ("value", text σ x.value)]⟩
/-- src/common/data_types/linear_acceleration.rs:14-18 (derived) -/
instance : RDebug LinearAcceleration := ⟨fun σ x => structText σ "LinearAcceleration" [
  ("first_vector_component", text σ x.first_vector_component),
  ("second_vector_component", text σ x.second_vector_component),
  ("third_vector_component", text σ x.third_vector_component)]⟩
/-- src/common/data_types/dead_reckoning_parameters.rs:21-26 (derived) -/
instance : RDebug DeadReckoningParameters := ⟨fun σ x => structText σ "DeadReckoningParameters" [
  ("dead_reckoning_algorithm", text σ x.dead_reckoning_algorithm),
  ("dead_reckoning_other_parameters", text σ x.dead_reckoning_other_parameters),
  ("entity_linear_acceleration", text σ x.entity_linear_acceleration),
  ("entity_angular_velocity", text σ x.entity_angular_velocity)]⟩
/-- src/common/data_types/entity_coordinate_vector.rs:16-23 (derived) -/
instance : RDebug EntityCoordinateVector := ⟨fun σ x => structText σ "EntityCoordinateVector" [
  ("x_coordinate", text σ x.x_coordinate), ("y_coordinate", text σ x.y_coordinate),
  ("z_coordinate", text σ x.z_coordinate)]⟩
/-- src/common/data_types/event_id.rs:16-19 (derived) -/
instance : RDebug EventId := ⟨fun σ x => structText σ "EventId" [
  ("simulation_address", text σ x.simulation_address), ("event_identifier", text σ x.event_identifier)]⟩
/-- src/common/data_types/directed_energy_damage.rs:17-30 (derived) -/
instance : RDebug DirectedEnergyDamage := ⟨fun σ x => structText σ "DirectedEnergyDamage" [
  ("record_type", text σ x.record_type), ("record_length", text σ x.record_length), ("padding", text σ x.padding),
  ("damage_location", text σ x.damage_location), ("damage_diameter", text σ x.damage_diameter),
  ("temperature", text σ x.temperature), ("component_identification", text σ x.component_identification),
  ("component_damage_status", text σ x.component_damage_status),
  ("component_visual_damage_status", text σ x.component_visual_damage_status),
  ("component_visual_smoke_color", text σ x.component_visual_smoke_color),
  ("fire_event_id", text σ x.fire_event_id), ("padding2", text σ x.padding2)]⟩
/-- src/common/data_types/fundamental_parameter_data.rs:11-22 (derived) -/
instance : RDebug FundamentalParameterData := ⟨fun σ x => structText σ "FundamentalParameterData" [
  ("frequency", text σ x.frequency), ("frequency_range", text σ x.frequency_range),
  ("effective_radiated_power", text σ x.effective_radiated_power),
  ("pulse_repetition_frequency", text σ x.pulse_repetition_frequency), ("pulse_width", text σ x.pulse_width),
  ("beam_azimuth_center", text σ x.beam_azimuth_center), ("beam_azimuth_sweep", text σ x.beam_azimuth_sweep),
  ("beam_elevation_center", text σ x.beam_elevation_center),
  ("beam_elevation_sweep", text σ x.beam_elevation_sweep), ("beam_sweep_sync", text σ x.beam_sweep_sync)]⟩
/-- src/common/data_types/track_jam_target.rs:14-18 (derived) -/
instance : RDebug TrackJamTarget := ⟨fun σ x => structText σ "TrackJamTarget" [
  ("track_jam", text σ x.track_jam), ("emitter_id", text σ x.emitter_id), ("beam_id", text σ x.beam_id)]⟩
/-- src/common/data_types/electromagnetic_emission_beam_data.rs:10-21 (derived) -/
instance : RDebug ElectromagneticEmissionBeamData := ⟨fun σ x => structText σ "ElectromagneticEmissionBeamData" [
  ("beam_data_length", text σ x.beam_data_length), ("beam_id_number", text σ x.beam_id_number),
  ("beam_parameter_index", text σ x.beam_parameter_index),
  ("fundamental_parameter_data", text σ x.fundamental_parameter_data), ("beam_function", text σ x.beam_function),
  ("number_of_track_jam_targets", text σ x.number_of_track_jam_targets),
  ("high_density_track_jam", text σ x.high_density_track_jam), ("pad4", text σ x.pad4),
  ("jamming_mode_sequence", text σ x.jamming_mode_sequence), ("track_jam_targets", text σ x.track_jam_targets)]⟩
/-- src/common/data_types/emitter_system.rs:13-17 (derived) -/
instance : RDebug EmitterSystem := ⟨fun σ x => structText σ "EmitterSystem" [
  ("emitter_name", text σ x.emitter_name), ("function", text σ x.function),
  ("emitter_id_number", text σ x.emitter_id_number)]⟩
/-- src/common/data_types/electromagnetic_emission_system_data.rs:13-20 (derived) -/
instance : RDebug ElectromagneticEmissionSystemData := ⟨fun σ x => structText σ "ElectromagneticEmissionSystemData" [
  ("system_data_length", text σ x.system_data_length), ("number_of_beams", text σ x.number_of_beams),
  ("emissionspadding2", text σ x.emissionspadding2), ("emitter_system", text σ x.emitter_system),
  ("location", text σ x.location), ("beam_data_records", text σ x.beam_data_records)]⟩
/-- src/common/data_types/entity_marking.rs:8-11 (derived) -/
instance : RDebug EntityMarking := ⟨fun σ x => structText σ "EntityMarking" [
  ("entity_marking_character_set", text σ x.entity_marking_character_set),
  ("entity_marking_string", text σ x.entity_marking_string)]⟩
/-- src/common/data_types/entity_type.rs:16-24 (derived) -/
instance : RDebug EntityType := ⟨fun σ x => structText σ "EntityType" [
  ("kind", text σ x.kind), ("domain", text σ x.domain), ("country", text σ x.country),
  ("category", text σ x.category), ("subcategory", text σ x.subcategory), ("specific", text σ x.specific),
  ("extra", text σ x.extra)]⟩
/-- src/common/data_types/environment.rs:11-16 (derived) -/
instance : RDebug Environment := ⟨fun σ x => structText σ "Environment" [
  ("environment_type", text σ x.environment_type), ("length", text σ x.length), ("index", text σ x.index),
  ("padding", text σ x.padding)]⟩
/-- src/common/data_types/euler_angles.rs:16-23 (derived) -/
instance : RDebug EulerAngles := ⟨fun σ x => structText σ "EulerAngles" [
  ("psi", text σ x.psi), ("theta", text σ x.theta), ("phi", text σ x.phi)]⟩
/-- src/common/data_types/fundamental_operational_data.rs:14-25 (derived) -/
instance : RDebug FundamentalOperationalData := ⟨fun σ x => structText σ "FundamentalOperationalData" [
  ("system_status", text σ x.system_status), ("data_field1", text σ x.data_field1),
  ("information_layers", text σ x.information_layers), ("data_field2", text σ x.data_field2),
  ("parameter1", text σ x.parameter1), ("parameter2", text σ x.parameter2), ("parameter3", text σ x.parameter3),
  ("parameter4", text σ x.parameter4), ("parameter5", text σ x.parameter5), ("parameter6", text σ x.parameter6)]⟩
/-- src/common/data_types/grid_axis_descriptor.rs:56-63 (derived) -/
instance : RDebug GridAxisDescriptor := ⟨fun σ x => structText σ "GridAxisDescriptor" [
  ("domain_initial", text σ x.domain_initial), ("domain_final", text σ x.domain_final),
  ("domain_points", text σ x.domain_points), ("interleaf_factor", text σ x.interleaf_factor),
  ("axis_type", text σ x.axis_type), ("data", text σ x.data)]⟩
/-- src/common/data_types/grid_data_record.rs:65-69 (derived) -/
instance : RDebug GridDataRecord := ⟨fun σ x => structText σ "GridDataRecord" [
  ("sample_type", text σ x.sample_type), ("data_representation", text σ x.data_representation),
  ("data", text σ x.data)]⟩
/-- src/common/data_types/iff_fundamental_parameter_data.rs:14-22 (derived) -/
instance : RDebug IFFFundamentalParameterData := ⟨fun σ x => structText σ "IFFFundamentalParameterData" [
  ("erp", text σ x.erp), ("frequency", text σ x.frequency), ("pgrf", text σ x.pgrf),
  ("pulse_width", text σ x.pulse_width), ("burst_length", text σ x.burst_length),
  ("applicable_modes", text σ x.applicable_modes), ("system_specific_data", text σ x.system_specific_data)]⟩
/-- src/common/data_types/intercom_communications_parameters.rs:10-14 (derived) -/
instance : RDebug IntercomCommunicationsParameters := ⟨fun σ x => structText σ "IntercomCommunicationsParameters" [
  ("record_type", text σ x.record_type), ("record_length", text σ x.record_length),
  ("record_specific_field", text σ x.record_specific_field)]⟩
/-- src/common/data_types/layer_header.rs:16-20 (derived) -/
instance : RDebug LayerHeader := ⟨fun σ x => structText σ "LayerHeader" [
  ("layer_number", text σ x.layer_number), ("layer_specific_information", text σ x.layer_specific_information),
  ("length", text σ x.length)]⟩
/-- src/common/data_types/world_coordinate.rs:16-23 (derived) -/
instance : RDebug WorldCoordinate := ⟨fun σ x => structText σ "WorldCoordinate" [
  ("x", text σ x.x), ("y", text σ x.y), ("z", text σ x.z)]⟩
/-- src/common/data_types/linear_segment_parameter.rs:14-26 (derived) -/
instance : RDebug LinearSegmentParameter := ⟨fun σ x => structText σ "LinearSegmentParameter" [
  ("segment_number", text σ x.segment_number), ("segment_modification", text σ x.segment_modification),
  ("general_segment_appearance", text σ x.general_segment_appearance),
  ("specific_segment_appearance", text σ x.specific_segment_appearance),
  ("segment_location", text σ x.segment_location), ("segment_orientation", text σ x.segment_orientation),
  ("segment_length", text σ x.segment_length), ("segment_width", text σ x.segment_width),
  ("segment_height", text σ x.segment_height), ("segment_depth", text σ x.segment_depth),
  ("padding", text σ x.padding)]⟩
/-- src/common/data_types/linear_velocity.rs:14-18 (derived) -/
instance : RDebug LinearVelocity := ⟨fun σ x => structText σ "LinearVelocity" [
  ("first_vector_component", text σ x.first_vector_component),
  ("second_vector_component", text σ x.second_vector_component),
  ("third_vector_component", text σ x.third_vector_component)]⟩
/-- src/common/data_types/minefield_identifier.rs:14-17 (derived) -/
instance : RDebug MinefieldIdentifier := ⟨fun σ x => structText σ "MinefieldIdentifier" [
  ("simulation_address", text σ x.simulation_address), ("minefield_number", text σ x.minefield_number)]⟩
/-- src/common/data_types/modulation_parameters.rs:11-13 (derived) -/
instance : RDebug ModulationParameters := ⟨fun σ x => structText σ "ModulationParameters" [
  ("record_specific_fields", text σ x.record_specific_fields)]⟩
/-- src/common/data_types/modulation_type.rs:11-16 (derived) -/
instance : RDebug ModulationType := ⟨fun σ x => structText σ "ModulationType" [
  ("spread_spectrum", text σ x.spread_spectrum), ("major", text σ x.major), ("detail", text σ x.detail),
  ("system", text σ x.system)]⟩
/-- src/common/data_types/munition_descriptor.rs:14-20 (derived) -/
instance : RDebug MunitionDescriptor := ⟨fun σ x => structText σ "MunitionDescriptor" [
  ("munition_type", text σ x.munition_type), ("warhead", text σ x.warhead), ("fuse", text σ x.fuse),
  ("quantity", text σ x.quantity), ("rate", text σ x.rate)]⟩
/-- src/common/data_types/named_location.rs:11-14 (derived) -/
instance : RDebug NamedLocation := ⟨fun σ x => structText σ "NamedLocation" [
  ("station_name", text σ x.station_name), ("station_number", text σ x.station_number)]⟩
/-- src/common/data_types/object_identifier.rs:14-17 (derived) -/
instance : RDebug ObjectIdentifier := ⟨fun σ x => structText σ "ObjectIdentifier" [
  ("simulation_address", text σ x.simulation_address), ("object_number", text σ x.object_number)]⟩
/-- src/common/data_types/object_type.rs:11-16 (derived) -/
instance : RDebug ObjectType := ⟨fun σ x => structText σ "ObjectType" [
  ("domain", text σ x.domain), ("object_kind", text σ x.object_kind), ("category", text σ x.category),
  ("subcategory", text σ x.subcategory)]⟩
/-- src/common/data_types/point.rs:11-14 (derived) -/
instance : RDebug Point := ⟨fun σ x => structText σ "Point" [
  ("x", text σ x.x), ("y", text σ x.y)]⟩
/-- src/common/data_types/propulsion_system_data.rs:14-17 (derived) -/
instance : RDebug PropulsionSystemData := ⟨fun σ x => structText σ "PropulsionSystemData" [
  ("power_setting", text σ x.power_setting), ("engine_rpm", text σ x.engine_rpm)]⟩
/-- src/common/data_types/radio_entity_type.rs:11-18 (derived) -/
instance : RDebug RadioEntityType := ⟨fun σ x => structText σ "RadioEntityType" [
  ("entity_kind", text σ x.entity_kind), ("domain", text σ x.domain), ("country", text σ x.country),
  ("category", text σ x.category), ("nomenclature_version", text σ x.nomenclature_version),
  ("nomenclature", text σ x.nomenclature)]⟩
/-- src/common/data_types/record_specification_element.rs:11-17 (derived) -/
instance : RDebug RecordSpecificationElement := ⟨fun σ x => structText σ "RecordSpecificationElement" [
  ("record_id", text σ x.record_id), ("record_set_serial_number", text σ x.record_set_serial_number),
  ("record_length", text σ x.record_length), ("record_count", text σ x.record_count),
  ("record_values", text σ x.record_values)]⟩
/-- src/common/data_types/record_specification.rs:13-16 (derived) -/
instance : RDebug RecordSpecification := ⟨fun σ x => structText σ "RecordSpecification" [
  ("number_of_record_sets", text σ x.number_of_record_sets), ("record_sets", text σ x.record_sets)]⟩
/-- src/common/data_types/relationship.rs:11-14 (derived) -/
instance : RDebug Relationship := ⟨fun σ x => structText σ "Relationship" [
  ("nature", text σ x.nature), ("position", text σ x.position)]⟩
/-- src/common/data_types/secondary_operational_data.rs:14-18 (derived) -/
instance : RDebug SecondaryOperationalData := ⟨fun σ x => structText σ "SecondaryOperationalData" [
  ("operational_data1", text σ x.operational_data1), ("operational_data2", text σ x.operational_data2),
  ("number_of_iff_fundamental_parameter_records", text σ x.number_of_iff_fundamental_parameter_records)]⟩
/-- src/common/data_types/shaft_rpms.rs:16-20 (derived) -/
instance : RDebug ShaftRPMs := ⟨fun σ x => structText σ "ShaftRPMs" [
  ("current_shaft_rpms", text σ x.current_shaft_rpms), ("ordered_shaft_rpms", text σ x.ordered_shaft_rpms),
  ("shaft_rpm_rate_of_change", text σ x.shaft_rpm_rate_of_change)]⟩
/-- src/common/data_types/simulation_id.rs:15-18 (derived) -/
instance : RDebug SimulationIdentifier := ⟨fun σ x => structText σ "SimulationIdentifier" [
  ("simulation_address", text σ x.simulation_address), ("reference_number", text σ x.reference_number)]⟩
/-- src/common/data_types/standard_variable_records.rs:11-15 (derived) -/
instance : RDebug StandardVariableRecords := ⟨fun σ x => structText σ "StandardVariableRecords" [
  ("record_type", text σ x.record_type), ("record_length", text σ x.record_length),
  ("record_specific_fields", text σ x.record_specific_fields)]⟩
/-- src/common/data_types/standard_variable_specification.rs:11-14 (derived) -/
instance : RDebug StandardVariableSpecification := ⟨fun σ x => structText σ "StandardVariableSpecification" [
  ("number_of_standard_variable_records", text σ x.number_of_standard_variable_records),
  ("standard_variable_records", text σ x.standard_variable_records)]⟩
/-- src/common/data_types/supply_quantity.rs:14-17 (derived) -/
instance : RDebug SupplyQuantity := ⟨fun σ x => structText σ "SupplyQuantity" [
  ("supply_type", text σ x.supply_type), ("quantity", text σ x.quantity)]⟩
/-- src/common/data_types/system_id.rs:14-19 (derived) -/
instance : RDebug SystemId := ⟨fun σ x => structText σ "SystemId" [
  ("system_type", text σ x.system_type), ("system_name", text σ x.system_name),
  ("system_mode", text σ x.system_mode), ("change_options", text σ x.change_options)]⟩
/-- src/common/data_types/variable_parameter.rs:14-20 (derived) -/
instance : RDebug VariableParameter := ⟨fun σ x => structText σ "VariableParameter" [
  ("record_type", text σ x.record_type), ("variable_parameter_field1", text σ x.variable_parameter_field1),
  ("variable_parameter_field2", text σ x.variable_parameter_field2),
  ("variable_parameter_field3", text σ x.variable_parameter_field3),
  ("variable_parameter_field4", text σ x.variable_parameter_field4)]⟩
/-- src/common/data_types/variable_transmitter_parameters.rs:11-15 (derived) -/
instance : RDebug VariableTransmitterParameters := ⟨fun σ x => structText σ "VariableTransmitterParameters" [
  ("record_type", text σ x.record_type), ("record_length", text σ x.record_length),
  ("record_specific_fields", text σ x.record_specific_fields)]⟩
/-- src/common/data_types/vector3_double.rs:13-20 (derived) -/
instance : RDebug Vector3Double := ⟨fun σ x => structText σ "Vector3Double" [
  ("x", text σ x.x), ("y", text σ x.y), ("z", text σ x.z)]⟩
/-- src/common/data_types/vectoring_nozzle_system_data.rs:14-17 (derived) -/
instance : RDebug VectoringNozzleSystemData := ⟨fun σ x => structText σ "VectoringNozzleSystemData" [
  ("horizontal_deflection_angle", text σ x.horizontal_deflection_angle),
  ("vertical_deflection_angle", text σ x.vertical_deflection_angle)]⟩
/-- src/common/data_types/velocity_vector.rs:9-13 (derived) -/
instance : RDebug VelocityVector := ⟨fun σ x => structText σ "VelocityVector" [
  ("first_vector_component", text σ x.first_vector_component),
  ("second_vector_component", text σ x.second_vector_component),
  ("third_vector_component", text σ x.third_vector_component)]⟩

end Dis
