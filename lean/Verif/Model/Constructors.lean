import Verif.Model.Records
/- Generated by tools/gen_constructors.py: the constructors of the records of /repo/src/common/data_types.
(`Vector3Float::new` is in Verif.Model.Vector3.) -/
namespace Dis

/-- src/common/data_types/simulation_address.rs:38-43 -/
def SimulationAddress.new (site_id : UInt16) (application_id : UInt16) : SimulationAddress := { site_id := site_id, application_id := application_id }
/-- src/common/data_types/acoustic_beam_data.rs:21-33 -/
def AcousticBeamData.new (beam_data_length : UInt16) (beam_id_number : UInt8) (pad2 : UInt16) (fundamental_data_parameters : AcousticBeamFundamentalParameter) : AcousticBeamData := { beam_data_length := beam_data_length, beam_id_number := beam_id_number, pad2 := pad2, fundamental_data_parameters := fundamental_data_parameters }
/-- src/common/data_types/acoustic_beam_fundamental_parameter.rs:20-36 -/
def AcousticBeamFundamentalParameter.new (active_emission_parameter_index : UInt16) (scan_pattern : UInt16) (beam_center_azimuth : F32) (azimuthal_beamwidth : F32) (beam_center_de : F32) (de_beamwidth : F32) : AcousticBeamFundamentalParameter := { active_emission_parameter_index := active_emission_parameter_index, scan_pattern := scan_pattern, beam_center_azimuth := beam_center_azimuth, azimuthal_beamwidth := azimuthal_beamwidth, beam_center_de := beam_center_de, de_beamwidth := de_beamwidth }
/-- src/common/data_types/acoustic_emitter_system.rs:24-34 -/
def AcousticEmitterSystem.new (acoustic_name : UAAcousticSystemName) (acoustic_function : UAAcousticEmitterSystemFunction) (acoustic_id : UInt8) : AcousticEmitterSystem := { acoustic_name := acoustic_name, acoustic_function := acoustic_function, acoustic_id := acoustic_id }
/-- src/common/data_types/acoustic_emitter_system_data.rs:24-40 -/
def AcousticEmitterSystemData.new (emitter_system_data_length : UInt8) (number_of_beams : UInt8) (pad2 : UInt16) (acoustic_emitter_system : AcousticEmitterSystem) (emitter_location : Vector3Float) (beam_records : List AcousticBeamData) : AcousticEmitterSystemData := { emitter_system_data_length := emitter_system_data_length, number_of_beams := number_of_beams, pad2 := pad2, acoustic_emitter_system := acoustic_emitter_system, emitter_location := emitter_location, beam_records := beam_records }
/-- src/common/data_types/aggregate_id.rs:19-25 -/
def AggregateId.new (site : UInt16) (application : UInt16) (aggregate_id : UInt16) : AggregateId := { site := site, application := application, aggregate_id := aggregate_id }
/-- src/common/data_types/aggregate_marking.rs:18-23 -/
def AggregateMarking.new (character_set : UInt8) (characters : Arr Int8 31) : AggregateMarking := { character_set := character_set, characters := characters }
/-- src/common/data_types/angular_velocity_vector.rs:26-28 -/
def AngularVelocity.new : AngularVelocity := dflt
/-- src/common/data_types/antenna_pattern.rs:40-44 -/
def AntennaPattern.new : AntennaPattern := { record_specific_fields := [] }
/-- src/common/data_types/apa_data.rs:23-28 -/
def ApaData.new (parameter_index : UInt16) (parameter_value : Int16) : ApaData := { parameter_index := parameter_index, parameter_value := parameter_value }
/-- src/common/data_types/attribute_record.rs:20-26 -/
def AttributeRecord.new : AttributeRecord := { record_type := 0, record_length := 0, record_specific_fields := [] }
/-- src/common/data_types/attribute_record_set.rs:26-32 -/
def AttributeRecordSet.new : AttributeRecordSet := { entity_id := dflt, number_of_attribute_records := 0, attribute_records := [] }
/-- src/common/data_types/beam_data.rs:26-40 -/
def BeamData.new (beam_azimuth_center : F32) (beam_azimuth_sweep : F32) (beam_elevation_center : F32) (beam_elevation_sweep : F32) (beam_sweep_sync : F32) : BeamData := { beam_azimuth_center := beam_azimuth_center, beam_azimuth_sweep := beam_azimuth_sweep, beam_elevation_center := beam_elevation_center, beam_elevation_sweep := beam_elevation_sweep, beam_sweep_sync := beam_sweep_sync }
/-- src/common/data_types/clock_time.rs:22-27 -/
def ClockTime.new (h : UInt32) (p : UInt32) : ClockTime := { hour := h, time_past_hour := p }
/-- src/common/data_types/dead_reckoning_parameters.rs:30-41 -/
def DeadReckoningParameters.new (dead_reckoning_algorithm : DeadReckoningAlgorithm) (entity_linear_acceleration : LinearAcceleration) (entity_angular_velocity : AngularVelocity) : DeadReckoningParameters := { dead_reckoning_algorithm := dead_reckoning_algorithm, dead_reckoning_other_parameters := .replicate 15 0, entity_linear_acceleration := entity_linear_acceleration, entity_angular_velocity := entity_angular_velocity }
/-- src/common/data_types/directed_energy_damage.rs:35-61 -/
def DirectedEnergyDamage.new (record_type : UInt32) (record_length : UInt16) (damage_location : EntityCoordinateVector) (damage_diameter : F32) (temperature : F32) (component_identification : ComponentIdentification) (component_damage_status : ComponentDamageStatus) (component_visual_damage_status : UInt8) (component_visual_smoke_color : ComponentVisualSmokeColor) (fire_event_id : EventId) : DirectedEnergyDamage := { record_type := record_type, record_length := record_length, padding := 0, damage_location := damage_location, damage_diameter := damage_diameter, temperature := temperature, component_identification := component_identification, component_damage_status := component_damage_status, component_visual_damage_status := component_visual_damage_status, component_visual_smoke_color := component_visual_smoke_color, fire_event_id := fire_event_id, padding2 := 0 }
/-- src/common/data_types/emitter_system.rs:31-37 -/
def EmitterSystem.new (name : EmitterName) (function_ : EmitterSystemFunction) (id : UInt8) : EmitterSystem := { emitter_name := name, function := function_, emitter_id_number := id }
/-- src/common/data_types/entity_coordinate_vector.rs:27-33 -/
def EntityCoordinateVector.new (x : F32) (y : F32) (z : F32) : EntityCoordinateVector := { x_coordinate := x, y_coordinate := y, z_coordinate := z }
/-- src/common/data_types/entity_id.rs:24-29 -/
def EntityId.new (site_id : UInt16) (application_id : UInt16) (entity_id : UInt16) : EntityId := { simulation_address := .new site_id application_id, entity_id := entity_id }
/-- src/common/data_types/entity_marking.rs:15-23 -/
def EntityMarking.new (entity_marking_character_set : EntityMarkingCharacterSet) (entity_marking_string : String) : EntityMarking := { entity_marking_character_set := entity_marking_character_set, entity_marking_string := entity_marking_string }
/-- src/common/data_types/entity_type.rs:28-46 -/
def EntityType.new (kind : EntityKind) (domain : UInt8) (country : Country) (category : UInt8) (subcategory : UInt8) (specific : UInt8) (extra : UInt8) : EntityType := { kind := kind, domain := domain, country := country, category := category, subcategory := subcategory, specific := specific, extra := extra }
/-- src/common/data_types/environment.rs:20-27 -/
def Environment.new (environment_type : UInt32) (length : UInt16) (index : UInt8) (padding : UInt8) : Environment := { environment_type := environment_type, length := length, index := index, padding := padding }
/-- src/common/data_types/euler_angles.rs:28-30 -/
def EulerAngles.new (psi : F32) (theta : F32) (phi : F32) : EulerAngles := { psi := psi, theta := theta, phi := phi }
/-- src/common/data_types/event_id.rs:23-32 -/
def EventId.new (site_identifier : UInt16) (application_identifier : UInt16) (event_identifier : UInt16) : EventId := { simulation_address := .new site_identifier application_identifier, event_identifier := event_identifier }
/-- src/common/data_types/fundamental_operational_data.rs:30-54 -/
def FundamentalOperationalData.new (system_status : UInt8) (data_field1 : UInt8) (information_layers : UInt8) (data_field2 : UInt8) (parameter1 : UInt16) (parameter2 : UInt16) (parameter3 : UInt16) (parameter4 : UInt16) (parameter5 : UInt16) (parameter6 : UInt16) : FundamentalOperationalData := { system_status := system_status, data_field1 := data_field1, information_layers := information_layers, data_field2 := data_field2, parameter1 := parameter1, parameter2 := parameter2, parameter3 := parameter3, parameter4 := parameter4, parameter5 := parameter5, parameter6 := parameter6 }
/-- src/common/data_types/grid_axis_descriptor.rs:67-83 -/
def GridAxisDescriptor.new (domain_initial : F64) (domain_final : F64) (domain_points : UInt16) (interleaf_factor : UInt8) (axis_type : GridAxisDescriptorAxisType) (data : GridAxisType) : GridAxisDescriptor := { domain_initial := domain_initial, domain_final := domain_final, domain_points := domain_points, interleaf_factor := interleaf_factor, axis_type := axis_type, data := data }
/-- src/common/data_types/grid_data_record.rs:73-83 -/
def GridDataRecord.new (sample_type : GriddedDataSampleType) (data_representation : GriddedDataDataRepresentation) (data : DataRepresentationType) : GridDataRecord := { sample_type := sample_type, data_representation := data_representation, data := data }
/-- src/common/data_types/iff_fundamental_parameter_data.rs:40-58 -/
def IFFFundamentalParameterData.new (erp : F32) (frequency : F32) (pgrf : F32) (pulse_width : F32) (burst_length : UInt32) (applicable_modes : UInt8) (system_specific_data : Arr UInt8 3) : IFFFundamentalParameterData := { erp := erp, frequency := frequency, pgrf := pgrf, pulse_width := pulse_width, burst_length := burst_length, applicable_modes := applicable_modes, system_specific_data := system_specific_data }
/-- src/common/data_types/intercom_communications_parameters.rs:36-42 -/
def IntercomCommunicationsParameters.new (record_type : UInt16) (record_length : UInt16) (record_specific_field : UInt32) : IntercomCommunicationsParameters := { record_type := record_type, record_length := record_length, record_specific_field := record_specific_field }
/-- src/common/data_types/layer_header.rs:24-30 -/
def LayerHeader.new (layer_number : UInt8) (layer_specific_information : UInt8) (length : UInt16) : LayerHeader := { layer_number := layer_number, layer_specific_information := layer_specific_information, length := length }
/-- src/common/data_types/linear_acceleration.rs:22-28 -/
def LinearAcceleration.new (x : F32) (y : F32) (z : F32) : LinearAcceleration := { first_vector_component := x, second_vector_component := y, third_vector_component := z }
/-- src/common/data_types/linear_segment_parameter.rs:31-56 -/
def LinearSegmentParameter.new (segment_number : UInt8) (segment_modification : UInt8) (general_segment_appearance : UInt32) (specific_segment_appearance : UInt32) (segment_location : WorldCoordinate) (segment_orientation : EulerAngles) (segment_length : F32) (segment_width : F32) (segment_height : F32) (segment_depth : F32) : LinearSegmentParameter := { segment_number := segment_number, segment_modification := segment_modification, general_segment_appearance := general_segment_appearance, specific_segment_appearance := specific_segment_appearance, segment_location := segment_location, segment_orientation := segment_orientation, segment_length := segment_length, segment_width := segment_width, segment_height := segment_height, segment_depth := segment_depth, padding := 0 }
/-- src/common/data_types/linear_velocity.rs:22-28 -/
def LinearVelocity.new (x : F32) (y : F32) (z : F32) : LinearVelocity := { first_vector_component := x, second_vector_component := y, third_vector_component := z }
/-- src/common/data_types/minefield_identifier.rs:21-26 -/
def MinefieldIdentifier.new (simulation_address : SimulationAddress) (minefield_number : UInt16) : MinefieldIdentifier := { simulation_address := simulation_address, minefield_number := minefield_number }
/-- src/common/data_types/modulation_parameters.rs:17-21 -/
def ModulationParameters.new : ModulationParameters := { record_specific_fields := [] }
/-- src/common/data_types/modulation_type.rs:20-27 -/
def ModulationType.new (spread_spectrum : UInt16) (major : UInt16) (detail : UInt16) (system : UInt16) : ModulationType := { spread_spectrum := spread_spectrum, major := major, detail := detail, system := system }
/-- src/common/data_types/munition_descriptor.rs:24-38 -/
def MunitionDescriptor.new (munition_type : EntityType) (warhead : UInt16) (fuse : UInt16) (quantity : UInt16) (rate : UInt16) : MunitionDescriptor := { munition_type := munition_type, warhead := warhead, fuse := fuse, quantity := quantity, rate := rate }
/-- src/common/data_types/named_location.rs:18-23 -/
def NamedLocation.new (station_name : UInt16) (station_number : UInt16) : NamedLocation := { station_name := station_name, station_number := station_number }
/-- src/common/data_types/object_identifier.rs:21-23 -/
def ObjectIdentifier.new : ObjectIdentifier := dflt
/-- src/common/data_types/object_type.rs:20-27 -/
def ObjectType.new (domain : UInt8) (object_kind : UInt8) (category : UInt8) (subcategory : UInt8) : ObjectType := { domain := domain, object_kind := object_kind, category := category, subcategory := subcategory }
/-- src/common/data_types/point.rs:18-20 -/
def Point.new (x : F32) (y : F32) : Point := { x := x, y := y }
/-- src/common/data_types/propulsion_system_data.rs:21-26 -/
def PropulsionSystemData.new (power_setting : F32) (engine_rpm : F32) : PropulsionSystemData := { power_setting := power_setting, engine_rpm := engine_rpm }
/-- src/common/data_types/radio_entity_type.rs:22-38 -/
def RadioEntityType.new (entity_kind : UInt8) (domain : UInt8) (country : UInt16) (category : UInt8) (nomenclature_version : UInt8) (nomenclature : UInt16) : RadioEntityType := { entity_kind := entity_kind, domain := domain, country := country, category := category, nomenclature_version := nomenclature_version, nomenclature := nomenclature }
/-- src/common/data_types/record_specification.rs:20-28 -/
def RecordSpecification.new (number_of_record_sets : UInt32) (record_sets : List RecordSpecificationElement) : RecordSpecification := { number_of_record_sets := number_of_record_sets, record_sets := record_sets }
/-- src/common/data_types/record_specification_element.rs:21-35 -/
def RecordSpecificationElement.new (record_id : UInt32) (record_set_serial_number : UInt32) (record_length : UInt16) (record_count : UInt16) (record_values : List UInt8) : RecordSpecificationElement := { record_id := record_id, record_set_serial_number := record_set_serial_number, record_length := record_length, record_count := record_count, record_values := record_values }
/-- src/common/data_types/relationship.rs:18-20 -/
def Relationship.new (nature : UInt16) (position : UInt16) : Relationship := { nature := nature, position := position }
/-- src/common/data_types/secondary_operational_data.rs:22-32 -/
def SecondaryOperationalData.new (operational_data1 : UInt8) (operational_data2 : UInt8) (number_of_iff_fundamental_parameter_records : UInt16) : SecondaryOperationalData := { operational_data1 := operational_data1, operational_data2 := operational_data2, number_of_iff_fundamental_parameter_records := number_of_iff_fundamental_parameter_records }
/-- src/common/data_types/shaft_rpms.rs:24-34 -/
def ShaftRPMs.new (current_shaft_rpms : Int16) (ordered_shaft_rpms : Int16) (shaft_rpm_rate_of_change : Int32) : ShaftRPMs := { current_shaft_rpms := current_shaft_rpms, ordered_shaft_rpms := ordered_shaft_rpms, shaft_rpm_rate_of_change := shaft_rpm_rate_of_change }
/-- src/common/data_types/simulation_id.rs:22-27 -/
def SimulationIdentifier.new : SimulationIdentifier := { simulation_address := dflt, reference_number := 0 }
/-- src/common/data_types/standard_variable_records.rs:19-29 -/
def StandardVariableRecords.new (record_type : UInt32) (record_length : UInt16) (record_specific_fields : List UInt8) : StandardVariableRecords := { record_type := record_type, record_length := record_length, record_specific_fields := record_specific_fields }
/-- src/common/data_types/standard_variable_specification.rs:18-26 -/
def StandardVariableSpecification.new (number_of_standard_variable_records : UInt16) (standard_variable_records : List StandardVariableRecords) : StandardVariableSpecification := { number_of_standard_variable_records := number_of_standard_variable_records, standard_variable_records := standard_variable_records }
/-- src/common/data_types/supply_quantity.rs:21-26 -/
def SupplyQuantity.new (supply_type : EntityType) (quantity : F32) : SupplyQuantity := { supply_type := supply_type, quantity := quantity }
/-- src/common/data_types/system_id.rs:23-35 -/
def SystemId.new (system_type : UInt16) (system_name : UInt16) (system_mode : UInt8) (change_options : UInt8) : SystemId := { system_type := system_type, system_name := system_name, system_mode := system_mode, change_options := change_options }
/-- src/common/data_types/variable_parameter.rs:24-38 -/
def VariableParameter.new (record_type : UInt8) (variable_parameter_field1 : F64) (variable_parameter_field2 : UInt32) (variable_parameter_field3 : UInt16) (variable_parameter_field4 : UInt8) : VariableParameter := { record_type := record_type, variable_parameter_field1 := variable_parameter_field1, variable_parameter_field2 := variable_parameter_field2, variable_parameter_field3 := variable_parameter_field3, variable_parameter_field4 := variable_parameter_field4 }
/-- src/common/data_types/variable_transmitter_parameters.rs:37-39 -/
def VariableTransmitterParameters.new : VariableTransmitterParameters := dflt
/-- src/common/data_types/vector3_double.rs:24-26 -/
def Vector3Double.new (x : F64) (y : F64) (z : F64) : Vector3Double := { x := x, y := y, z := z }
/-- src/common/data_types/vectoring_nozzle_system_data.rs:21-26 -/
def VectoringNozzleSystemData.new (horizontal_deflection_angle : F32) (vertical_deflection_angle : F32) : VectoringNozzleSystemData := { horizontal_deflection_angle := horizontal_deflection_angle, vertical_deflection_angle := vertical_deflection_angle }
/-- src/common/data_types/velocity_vector.rs:17-23 -/
def VelocityVector.new (x : F32) (y : F32) (z : F32) : VelocityVector := { first_vector_component := x, second_vector_component := y, third_vector_component := z }
/-- src/common/data_types/world_coordinate.rs:37-39 -/
def WorldCoordinate.new (x : F64) (y : F64) (z : F64) : WorldCoordinate := { x := x, y := y, z := z }

end Dis
