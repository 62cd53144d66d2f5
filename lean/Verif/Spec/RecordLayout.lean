import Verif.Model.Records
import Verif.Spec.Layout
/-
Layout tables of the records of src/common/data_types.  Drafted by tools/gen_layout.py from the structure
declarations and read through by hand (the text of IEEE 1278.1 is not in the sandbox).
-/
namespace Dis

/-- src/common/data_types/acoustic_beam_fundamental_parameter.rs:9-16 -/
def AcousticBeamFundamentalParameter.layout : List (Slot AcousticBeamFundamentalParameter) := [
  Slot.u16 0 (·.active_emission_parameter_index),
  Slot.u16 2 (·.scan_pattern),
  Slot.f32 4 (·.beam_center_azimuth),
  Slot.f32 8 (·.azimuthal_beamwidth),
  Slot.f32 12 (·.beam_center_de),
  Slot.f32 16 (·.de_beamwidth)]

/-- src/common/data_types/acoustic_beam_data.rs:12-17 -/
def AcousticBeamData.layout : List (Slot AcousticBeamData) := [
  Slot.u16 0 (·.beam_data_length),
  Slot.u8 2 (·.beam_id_number),
  Slot.u16 3 (·.pad2),
  Slot.u16 5 (·.fundamental_data_parameters.active_emission_parameter_index),
  Slot.u16 7 (·.fundamental_data_parameters.scan_pattern),
  Slot.f32 9 (·.fundamental_data_parameters.beam_center_azimuth),
  Slot.f32 13 (·.fundamental_data_parameters.azimuthal_beamwidth),
  Slot.f32 17 (·.fundamental_data_parameters.beam_center_de),
  Slot.f32 21 (·.fundamental_data_parameters.de_beamwidth)]

/-- src/common/data_types/acoustic_emitter_system.rs:16-20 -/
def AcousticEmitterSystem.layout : List (Slot AcousticEmitterSystem) := [
  Slot.enum 0 2 (·.acoustic_name),
  Slot.enum 2 1 (·.acoustic_function),
  Slot.u8 3 (·.acoustic_id)]

/-- src/common/data_types/vector3_float.rs:13-20 -/
def Vector3Float.layout : List (Slot Vector3Float) := [
  Slot.f32 0 (·.x),
  Slot.f32 4 (·.y),
  Slot.f32 8 (·.z)]

/-- src/common/data_types/acoustic_emitter_system_data.rs:13-20 (up to the list) -/
def AcousticEmitterSystemData.layout : List (Slot AcousticEmitterSystemData) := [
  Slot.u8 0 (·.emitter_system_data_length),
  Slot.u8 1 (·.number_of_beams),
  Slot.u16 2 (·.pad2),
  Slot.enum 4 2 (·.acoustic_emitter_system.acoustic_name),
  Slot.enum 6 1 (·.acoustic_emitter_system.acoustic_function),
  Slot.u8 7 (·.acoustic_emitter_system.acoustic_id),
  Slot.f32 8 (·.emitter_location.x),
  Slot.f32 12 (·.emitter_location.y),
  Slot.f32 16 (·.emitter_location.z)]

/-- src/common/data_types/aggregate_id.rs:11-15 -/
def AggregateId.layout : List (Slot AggregateId) := [
  Slot.u16 0 (·.site),
  Slot.u16 2 (·.application),
  Slot.u16 4 (·.aggregate_id)]

/-- src/common/data_types/aggregate_marking.rs:11-14 -/
def AggregateMarking.layout : List (Slot AggregateMarking) := [
  Slot.u8 0 (·.character_set),
  Slot.signedOctets 1 31 (·.characters)]

/-- src/common/data_types/angular_velocity_vector.rs:14-21 -/
def AngularVelocity.layout : List (Slot AngularVelocity) := [
  Slot.f32 0 (·.rate_about_x_axis),
  Slot.f32 4 (·.rate_about_y_axis),
  Slot.f32 8 (·.rate_about_z_axis)]

/-- src/common/data_types/apa_data.rs:16-19 -/
def ApaData.layout : List (Slot ApaData) := [
  Slot.u16 0 (·.parameter_index),
  Slot.i16 2 (·.parameter_value)]

/-- src/common/data_types/attribute_record.rs:12-16 (up to the list) -/
def AttributeRecord.layout : List (Slot AttributeRecord) := [
  Slot.u32 0 (·.record_type),
  Slot.u16 4 (·.record_length)]

/-- src/common/data_types/simulation_address.rs:16-25 -/
def SimulationAddress.layout : List (Slot SimulationAddress) := [
  Slot.u16 0 (·.site_id),
  Slot.u16 2 (·.application_id)]

/-- src/common/data_types/entity_id.rs:15-20 -/
def EntityId.layout : List (Slot EntityId) := [
  Slot.u16 0 (·.simulation_address.site_id),
  Slot.u16 2 (·.simulation_address.application_id),
  Slot.u16 4 (·.entity_id)]

/-- src/common/data_types/attribute_record_set.rs:18-22 (up to the list) -/
def AttributeRecordSet.layout : List (Slot AttributeRecordSet) := [
  Slot.u16 0 (·.entity_id.simulation_address.site_id),
  Slot.u16 2 (·.entity_id.simulation_address.application_id),
  Slot.u16 4 (·.entity_id.entity_id),
  Slot.u16 6 (·.number_of_attribute_records)]

/-- src/common/data_types/beam_data.rs:16-22 -/
def BeamData.layout : List (Slot BeamData) := [
  Slot.f32 0 (·.beam_azimuth_center),
  Slot.f32 4 (·.beam_azimuth_sweep),
  Slot.f32 8 (·.beam_elevation_center),
  Slot.f32 12 (·.beam_elevation_sweep),
  Slot.f32 16 (·.beam_sweep_sync)]

/-- src/common/data_types/clock_time.rs:13-18 -/
def ClockTime.layout : List (Slot ClockTime) := [
  Slot.u32 0 (·.hour),
  Slot.u32 4 (·.time_past_hour)]

/-- src/common/data_types/linear_acceleration.rs:14-18 -/
def LinearAcceleration.layout : List (Slot LinearAcceleration) := [
  Slot.f32 0 (·.first_vector_component),
  Slot.f32 4 (·.second_vector_component),
  Slot.f32 8 (·.third_vector_component)]

/-- src/common/data_types/dead_reckoning_parameters.rs:21-26 -/
def DeadReckoningParameters.layout : List (Slot DeadReckoningParameters) := [
  Slot.enum 0 1 (·.dead_reckoning_algorithm),
  (Slot.octets 1 15 (·.dead_reckoning_other_parameters)).zeroed,
  Slot.f32 16 (·.entity_linear_acceleration.first_vector_component),
  Slot.f32 20 (·.entity_linear_acceleration.second_vector_component),
  Slot.f32 24 (·.entity_linear_acceleration.third_vector_component),
  Slot.f32 28 (·.entity_angular_velocity.rate_about_x_axis),
  Slot.f32 32 (·.entity_angular_velocity.rate_about_y_axis),
  Slot.f32 36 (·.entity_angular_velocity.rate_about_z_axis)]

/-- src/common/data_types/entity_coordinate_vector.rs:16-23 -/
def EntityCoordinateVector.layout : List (Slot EntityCoordinateVector) := [
  Slot.f32 0 (·.x_coordinate),
  Slot.f32 4 (·.y_coordinate),
  Slot.f32 8 (·.z_coordinate)]

/-- src/common/data_types/event_id.rs:16-19 -/
def EventId.layout : List (Slot EventId) := [
  Slot.u16 0 (·.simulation_address.site_id),
  Slot.u16 2 (·.simulation_address.application_id),
  Slot.u16 4 (·.event_identifier)]

/-- src/common/data_types/directed_energy_damage.rs:17-30 -/
def DirectedEnergyDamage.layout : List (Slot DirectedEnergyDamage) := [
  Slot.u32 0 (·.record_type),
  Slot.u16 4 (·.record_length),
  Slot.u16 6 (·.padding),
  Slot.f32 8 (·.damage_location.x_coordinate),
  Slot.f32 12 (·.damage_location.y_coordinate),
  Slot.f32 16 (·.damage_location.z_coordinate),
  Slot.f32 20 (·.damage_diameter),
  Slot.f32 24 (·.temperature),
  Slot.enum 28 1 (·.component_identification),
  Slot.enum 29 1 (·.component_damage_status),
  Slot.u8 30 (·.component_visual_damage_status),
  Slot.enum 31 1 (·.component_visual_smoke_color),
  Slot.u16 32 (·.fire_event_id.simulation_address.site_id),
  Slot.u16 34 (·.fire_event_id.simulation_address.application_id),
  Slot.u16 36 (·.fire_event_id.event_identifier),
  Slot.u16 38 (·.padding2)]

/-- src/common/data_types/fundamental_parameter_data.rs:11-22 -/
def FundamentalParameterData.layout : List (Slot FundamentalParameterData) := [
  Slot.f32 0 (·.frequency),
  Slot.f32 4 (·.frequency_range),
  Slot.f32 8 (·.effective_radiated_power),
  Slot.f32 12 (·.pulse_repetition_frequency),
  Slot.f32 16 (·.pulse_width),
  Slot.f32 20 (·.beam_azimuth_center),
  Slot.f32 24 (·.beam_azimuth_sweep),
  Slot.f32 28 (·.beam_elevation_center),
  Slot.f32 32 (·.beam_elevation_sweep),
  Slot.f32 36 (·.beam_sweep_sync)]

/-- src/common/data_types/track_jam_target.rs:14-18 -/
def TrackJamTarget.layout : List (Slot TrackJamTarget) := [
  Slot.u16 0 (·.track_jam.simulation_address.site_id),
  Slot.u16 2 (·.track_jam.simulation_address.application_id),
  Slot.u16 4 (·.track_jam.entity_id),
  Slot.u8 6 (·.emitter_id),
  Slot.u8 7 (·.beam_id)]

/-- src/common/data_types/electromagnetic_emission_beam_data.rs:10-21 (up to the list) -/
def ElectromagneticEmissionBeamData.layout : List (Slot ElectromagneticEmissionBeamData) := [
  Slot.u8 0 (·.beam_data_length),
  Slot.u8 1 (·.beam_id_number),
  Slot.u16 2 (·.beam_parameter_index),
  Slot.f32 4 (·.fundamental_parameter_data.frequency),
  Slot.f32 8 (·.fundamental_parameter_data.frequency_range),
  Slot.f32 12 (·.fundamental_parameter_data.effective_radiated_power),
  Slot.f32 16 (·.fundamental_parameter_data.pulse_repetition_frequency),
  Slot.f32 20 (·.fundamental_parameter_data.pulse_width),
  Slot.f32 24 (·.fundamental_parameter_data.beam_azimuth_center),
  Slot.f32 28 (·.fundamental_parameter_data.beam_azimuth_sweep),
  Slot.f32 32 (·.fundamental_parameter_data.beam_elevation_center),
  Slot.f32 36 (·.fundamental_parameter_data.beam_elevation_sweep),
  Slot.f32 40 (·.fundamental_parameter_data.beam_sweep_sync),
  Slot.u8 44 (·.beam_function),
  Slot.u8 45 (·.number_of_track_jam_targets),
  Slot.u8 46 (·.high_density_track_jam),
  Slot.u8 47 (·.pad4),
  Slot.u32 48 (·.jamming_mode_sequence)]

/-- src/common/data_types/emitter_system.rs:13-17 -/
def EmitterSystem.layout : List (Slot EmitterSystem) := [
  Slot.enum 0 2 (·.emitter_name),
  Slot.enum 2 1 (·.function),
  Slot.u8 3 (·.emitter_id_number)]

/-- src/common/data_types/electromagnetic_emission_system_data.rs:13-20 (up to the list) -/
def ElectromagneticEmissionSystemData.layout : List (Slot ElectromagneticEmissionSystemData) := [
  Slot.u8 0 (·.system_data_length),
  Slot.u8 1 (·.number_of_beams),
  Slot.u16 2 (·.emissionspadding2),
  Slot.enum 4 2 (·.emitter_system.emitter_name),
  Slot.enum 6 1 (·.emitter_system.function),
  Slot.u8 7 (·.emitter_system.emitter_id_number),
  Slot.f32 8 (·.location.x),
  Slot.f32 12 (·.location.y),
  Slot.f32 16 (·.location.z)]

/-- src/common/data_types/entity_type.rs:16-24 -/
def EntityType.layout : List (Slot EntityType) := [
  Slot.enum 0 1 (·.kind),
  Slot.u8 1 (·.domain),
  Slot.enum 2 2 (·.country),
  Slot.u8 4 (·.category),
  Slot.u8 5 (·.subcategory),
  Slot.u8 6 (·.specific),
  Slot.u8 7 (·.extra)]

/-- src/common/data_types/environment.rs:11-16 -/
def Environment.layout : List (Slot Environment) := [
  Slot.u32 0 (·.environment_type),
  Slot.u16 4 (·.length),
  Slot.u8 6 (·.index),
  Slot.u8 7 (·.padding)]

/-- src/common/data_types/euler_angles.rs:16-23 -/
def EulerAngles.layout : List (Slot EulerAngles) := [
  Slot.f32 0 (·.psi),
  Slot.f32 4 (·.theta),
  Slot.f32 8 (·.phi)]

/-- src/common/data_types/datum_records.rs:12-15 -/
def FixedDatumRecord.layout : List (Slot FixedDatumRecord) := [
  Slot.u32 0 (·.datum_id),
  Slot.u32 4 (·.datum_value)]

/-- src/common/data_types/fundamental_operational_data.rs:14-25 -/
def FundamentalOperationalData.layout : List (Slot FundamentalOperationalData) := [
  Slot.u8 0 (·.system_status),
  Slot.u8 1 (·.data_field1),
  Slot.u8 2 (·.information_layers),
  Slot.u8 3 (·.data_field2),
  Slot.u16 4 (·.parameter1),
  Slot.u16 6 (·.parameter2),
  Slot.u16 8 (·.parameter3),
  Slot.u16 10 (·.parameter4),
  Slot.u16 12 (·.parameter5),
  Slot.u16 14 (·.parameter6)]

/-- src/common/data_types/iff_fundamental_parameter_data.rs:14-22 -/
def IFFFundamentalParameterData.layout : List (Slot IFFFundamentalParameterData) := [
  Slot.f32 0 (·.erp),
  Slot.f32 4 (·.frequency),
  Slot.f32 8 (·.pgrf),
  Slot.f32 12 (·.pulse_width),
  Slot.u32 16 (·.burst_length),
  Slot.u8 20 (·.applicable_modes),
  Slot.octets 21 3 (·.system_specific_data)]

/-- src/common/data_types/intercom_communications_parameters.rs:10-14 -/
def IntercomCommunicationsParameters.layout : List (Slot IntercomCommunicationsParameters) := [
  Slot.u16 0 (·.record_type),
  Slot.u16 2 (·.record_length),
  Slot.u32 4 (·.record_specific_field)]

/-- src/common/data_types/layer_header.rs:16-20 -/
def LayerHeader.layout : List (Slot LayerHeader) := [
  Slot.u8 0 (·.layer_number),
  Slot.u8 1 (·.layer_specific_information),
  Slot.u16 2 (·.length)]

/-- src/common/data_types/world_coordinate.rs:16-23 -/
def WorldCoordinate.layout : List (Slot WorldCoordinate) := [
  Slot.f64 0 (·.x),
  Slot.f64 8 (·.y),
  Slot.f64 16 (·.z)]

/-- src/common/data_types/linear_segment_parameter.rs:14-26 -/
def LinearSegmentParameter.layout : List (Slot LinearSegmentParameter) := [
  Slot.u8 0 (·.segment_number),
  Slot.u8 1 (·.segment_modification),
  Slot.u32 2 (·.general_segment_appearance),
  Slot.u32 6 (·.specific_segment_appearance),
  Slot.f64 10 (·.segment_location.x),
  Slot.f64 18 (·.segment_location.y),
  Slot.f64 26 (·.segment_location.z),
  Slot.f32 34 (·.segment_orientation.psi),
  Slot.f32 38 (·.segment_orientation.theta),
  Slot.f32 42 (·.segment_orientation.phi),
  Slot.f32 46 (·.segment_length),
  Slot.f32 50 (·.segment_width),
  Slot.f32 54 (·.segment_height),
  Slot.f32 58 (·.segment_depth),
  Slot.u32 62 (·.padding)]

/-- src/common/data_types/linear_velocity.rs:14-18 -/
def LinearVelocity.layout : List (Slot LinearVelocity) := [
  Slot.f32 0 (·.first_vector_component),
  Slot.f32 4 (·.second_vector_component),
  Slot.f32 8 (·.third_vector_component)]

/-- src/common/data_types/minefield_identifier.rs:14-17 -/
def MinefieldIdentifier.layout : List (Slot MinefieldIdentifier) := [
  Slot.u16 0 (·.simulation_address.site_id),
  Slot.u16 2 (·.simulation_address.application_id),
  Slot.u16 4 (·.minefield_number)]

/-- src/common/data_types/modulation_type.rs:11-16 -/
def ModulationType.layout : List (Slot ModulationType) := [
  Slot.u16 0 (·.spread_spectrum),
  Slot.u16 2 (·.major),
  Slot.u16 4 (·.detail),
  Slot.u16 6 (·.system)]

/-- src/common/data_types/munition_descriptor.rs:14-20 -/
def MunitionDescriptor.layout : List (Slot MunitionDescriptor) := [
  Slot.enum 0 1 (·.munition_type.kind),
  Slot.u8 1 (·.munition_type.domain),
  Slot.enum 2 2 (·.munition_type.country),
  Slot.u8 4 (·.munition_type.category),
  Slot.u8 5 (·.munition_type.subcategory),
  Slot.u8 6 (·.munition_type.specific),
  Slot.u8 7 (·.munition_type.extra),
  Slot.u16 8 (·.warhead),
  Slot.u16 10 (·.fuse),
  Slot.u16 12 (·.quantity),
  Slot.u16 14 (·.rate)]

/-- src/common/data_types/named_location.rs:11-14 -/
def NamedLocation.layout : List (Slot NamedLocation) := [
  Slot.u16 0 (·.station_name),
  Slot.u16 2 (·.station_number)]

/-- src/common/data_types/object_identifier.rs:14-17 -/
def ObjectIdentifier.layout : List (Slot ObjectIdentifier) := [
  Slot.u16 0 (·.simulation_address.site_id),
  Slot.u16 2 (·.simulation_address.application_id),
  Slot.u16 4 (·.object_number)]

/-- src/common/data_types/object_type.rs:11-16 -/
def ObjectType.layout : List (Slot ObjectType) := [
  Slot.u8 0 (·.domain),
  Slot.u8 1 (·.object_kind),
  Slot.u8 2 (·.category),
  Slot.u8 3 (·.subcategory)]

/-- src/common/data_types/point.rs:11-14 -/
def Point.layout : List (Slot Point) := [
  Slot.f32 0 (·.x),
  Slot.f32 4 (·.y)]

/-- src/common/data_types/propulsion_system_data.rs:14-17 -/
def PropulsionSystemData.layout : List (Slot PropulsionSystemData) := [
  Slot.f32 0 (·.power_setting),
  Slot.f32 4 (·.engine_rpm)]

/-- src/common/data_types/radio_entity_type.rs:11-18 -/
def RadioEntityType.layout : List (Slot RadioEntityType) := [
  Slot.u8 0 (·.entity_kind),
  Slot.u8 1 (·.domain),
  Slot.u16 2 (·.country),
  Slot.u8 4 (·.category),
  Slot.u8 5 (·.nomenclature_version),
  Slot.u16 6 (·.nomenclature)]

/-- src/common/data_types/record_specification.rs:13-16 (up to the list) -/
def RecordSpecification.layout : List (Slot RecordSpecification) := [
  Slot.u32 0 (·.number_of_record_sets)]

/-- src/common/data_types/relationship.rs:11-14 -/
def Relationship.layout : List (Slot Relationship) := [
  Slot.u16 0 (·.nature),
  Slot.u16 2 (·.position)]

/-- src/common/data_types/secondary_operational_data.rs:14-18 -/
def SecondaryOperationalData.layout : List (Slot SecondaryOperationalData) := [
  Slot.u8 0 (·.operational_data1),
  Slot.u8 1 (·.operational_data2),
  Slot.u16 2 (·.number_of_iff_fundamental_parameter_records)]

/-- src/common/data_types/shaft_rpms.rs:16-20 -/
def ShaftRPMs.layout : List (Slot ShaftRPMs) := [
  Slot.i16 0 (·.current_shaft_rpms),
  Slot.i16 2 (·.ordered_shaft_rpms),
  Slot.i32 4 (·.shaft_rpm_rate_of_change)]

/-- src/common/data_types/simulation_id.rs:15-18 -/
def SimulationIdentifier.layout : List (Slot SimulationIdentifier) := [
  Slot.u16 0 (·.simulation_address.site_id),
  Slot.u16 2 (·.simulation_address.application_id),
  (Slot.u16 4 (·.reference_number)).zeroed]

/-- src/common/data_types/standard_variable_records.rs:11-15 (up to the list) -/
def StandardVariableRecords.layout : List (Slot StandardVariableRecords) := [
  Slot.u32 0 (·.record_type),
  Slot.u16 4 (·.record_length)]

/-- src/common/data_types/standard_variable_specification.rs:11-14 (up to the list) -/
def StandardVariableSpecification.layout : List (Slot StandardVariableSpecification) := [
  Slot.u16 0 (·.number_of_standard_variable_records)]

/-- src/common/data_types/supply_quantity.rs:14-17 -/
def SupplyQuantity.layout : List (Slot SupplyQuantity) := [
  Slot.enum 0 1 (·.supply_type.kind),
  Slot.u8 1 (·.supply_type.domain),
  Slot.enum 2 2 (·.supply_type.country),
  Slot.u8 4 (·.supply_type.category),
  Slot.u8 5 (·.supply_type.subcategory),
  Slot.u8 6 (·.supply_type.specific),
  Slot.u8 7 (·.supply_type.extra),
  Slot.f32 8 (·.quantity)]

/-- src/common/data_types/system_id.rs:14-19 -/
def SystemId.layout : List (Slot SystemId) := [
  Slot.u16 0 (·.system_type),
  Slot.u16 2 (·.system_name),
  Slot.u8 4 (·.system_mode),
  Slot.u8 5 (·.change_options)]

/-- src/common/data_types/variable_parameter.rs:14-20 -/
def VariableParameter.layout : List (Slot VariableParameter) := [
  Slot.u8 0 (·.record_type),
  Slot.f64 1 (·.variable_parameter_field1),
  Slot.u32 9 (·.variable_parameter_field2),
  Slot.u16 13 (·.variable_parameter_field3),
  Slot.u8 15 (·.variable_parameter_field4)]

/-- src/common/data_types/vector3_double.rs:13-20 -/
def Vector3Double.layout : List (Slot Vector3Double) := [
  Slot.f64 0 (·.x),
  Slot.f64 8 (·.y),
  Slot.f64 16 (·.z)]

/-- src/common/data_types/vectoring_nozzle_system_data.rs:14-17 -/
def VectoringNozzleSystemData.layout : List (Slot VectoringNozzleSystemData) := [
  Slot.f32 0 (·.horizontal_deflection_angle),
  Slot.f32 4 (·.vertical_deflection_angle)]

/-- src/common/data_types/velocity_vector.rs:9-13 -/
def VelocityVector.layout : List (Slot VelocityVector) := [
  Slot.f32 0 (·.first_vector_component),
  Slot.f32 4 (·.second_vector_component),
  Slot.f32 8 (·.third_vector_component)]

/-- src/common/data_types/entity_marking.rs:8-11 (the fixed part) -/
def EntityMarking.layout : List (Slot EntityMarking) := [
  Slot.enum 0 1 (·.entity_marking_character_set)]

/-- src/common/data_types/datum_records.rs:52-56 (the fixed part) -/
def VariableDatumRecord.layout : List (Slot VariableDatumRecord) := [
  Slot.u32 0 (·.datum_id),
  Slot.u32 4 (·.length_bits)]

/-- src/common/data_types/record_specification_element.rs:11-17 (the fixed part) -/
def RecordSpecificationElement.layout : List (Slot RecordSpecificationElement) := [
  Slot.u32 0 (·.record_id),
  Slot.u32 4 (·.record_set_serial_number),
  Slot.u16 8 (·.record_length),
  Slot.u16 10 (·.record_count)]

/-- A record type with its serializer and deserializer, and the layout of its fixed part. -/
structure LaidOut where
  name : String
  Val : Type
  ser : Val → Put
  de : Get Val
  layout : List (Slot Val)
  octets : Nat

/-- Records with a fixed number of octets. -/
def fixedLayouts : List LaidOut := [
  ⟨"AcousticBeamFundamentalParameter", AcousticBeamFundamentalParameter, AcousticBeamFundamentalParameter.serialize, AcousticBeamFundamentalParameter.deserialize, AcousticBeamFundamentalParameter.layout, 20⟩,
  ⟨"AcousticBeamData", AcousticBeamData, AcousticBeamData.serialize, AcousticBeamData.deserialize, AcousticBeamData.layout, 25⟩,
  ⟨"AcousticEmitterSystem", AcousticEmitterSystem, AcousticEmitterSystem.serialize, AcousticEmitterSystem.deserialize, AcousticEmitterSystem.layout, 4⟩,
  ⟨"Vector3Float", Vector3Float, Vector3Float.serialize, Vector3Float.deserialize, Vector3Float.layout, 12⟩,
  ⟨"AggregateId", AggregateId, AggregateId.serialize, AggregateId.deserialize, AggregateId.layout, 6⟩,
  ⟨"AggregateMarking", AggregateMarking, AggregateMarking.serialize, AggregateMarking.deserialize, AggregateMarking.layout, 32⟩,
  ⟨"AngularVelocity", AngularVelocity, AngularVelocity.serialize, AngularVelocity.deserialize, AngularVelocity.layout, 12⟩,
  ⟨"ApaData", ApaData, ApaData.serialize, ApaData.deserialize, ApaData.layout, 4⟩,
  ⟨"SimulationAddress", SimulationAddress, SimulationAddress.serialize, SimulationAddress.deserialize, SimulationAddress.layout, 4⟩,
  ⟨"EntityId", EntityId, EntityId.serialize, EntityId.deserialize, EntityId.layout, 6⟩,
  ⟨"BeamData", BeamData, BeamData.serialize, BeamData.deserialize, BeamData.layout, 20⟩,
  ⟨"ClockTime", ClockTime, ClockTime.serialize, ClockTime.deserialize, ClockTime.layout, 8⟩,
  ⟨"LinearAcceleration", LinearAcceleration, LinearAcceleration.serialize, LinearAcceleration.deserialize, LinearAcceleration.layout, 12⟩,
  ⟨"DeadReckoningParameters", DeadReckoningParameters, DeadReckoningParameters.serialize, DeadReckoningParameters.deserialize, DeadReckoningParameters.layout, 40⟩,
  ⟨"EntityCoordinateVector", EntityCoordinateVector, EntityCoordinateVector.serialize, EntityCoordinateVector.deserialize, EntityCoordinateVector.layout, 12⟩,
  ⟨"EventId", EventId, EventId.serialize, EventId.deserialize, EventId.layout, 6⟩,
  ⟨"DirectedEnergyDamage", DirectedEnergyDamage, DirectedEnergyDamage.serialize, DirectedEnergyDamage.deserialize, DirectedEnergyDamage.layout, 40⟩,
  ⟨"FundamentalParameterData", FundamentalParameterData, FundamentalParameterData.serialize, FundamentalParameterData.deserialize, FundamentalParameterData.layout, 40⟩,
  ⟨"TrackJamTarget", TrackJamTarget, TrackJamTarget.serialize, TrackJamTarget.deserialize, TrackJamTarget.layout, 8⟩,
  ⟨"EmitterSystem", EmitterSystem, EmitterSystem.serialize, EmitterSystem.deserialize, EmitterSystem.layout, 4⟩,
  ⟨"EntityType", EntityType, EntityType.serialize, EntityType.deserialize, EntityType.layout, 8⟩,
  ⟨"Environment", Environment, Environment.serialize, Environment.deserialize, Environment.layout, 8⟩,
  ⟨"EulerAngles", EulerAngles, EulerAngles.serialize, EulerAngles.deserialize, EulerAngles.layout, 12⟩,
  ⟨"FixedDatumRecord", FixedDatumRecord, FixedDatumRecord.serialize, FixedDatumRecord.deserialize, FixedDatumRecord.layout, 8⟩,
  ⟨"FundamentalOperationalData", FundamentalOperationalData, FundamentalOperationalData.serialize, FundamentalOperationalData.deserialize, FundamentalOperationalData.layout, 16⟩,
  ⟨"IFFFundamentalParameterData", IFFFundamentalParameterData, IFFFundamentalParameterData.serialize, IFFFundamentalParameterData.deserialize, IFFFundamentalParameterData.layout, 24⟩,
  ⟨"IntercomCommunicationsParameters", IntercomCommunicationsParameters, IntercomCommunicationsParameters.serialize, IntercomCommunicationsParameters.deserialize, IntercomCommunicationsParameters.layout, 8⟩,
  ⟨"LayerHeader", LayerHeader, LayerHeader.serialize, LayerHeader.deserialize, LayerHeader.layout, 4⟩,
  ⟨"WorldCoordinate", WorldCoordinate, WorldCoordinate.serialize, WorldCoordinate.deserialize, WorldCoordinate.layout, 24⟩,
  ⟨"LinearSegmentParameter", LinearSegmentParameter, LinearSegmentParameter.serialize, LinearSegmentParameter.deserialize, LinearSegmentParameter.layout, 66⟩,
  ⟨"LinearVelocity", LinearVelocity, LinearVelocity.serialize, LinearVelocity.deserialize, LinearVelocity.layout, 12⟩,
  ⟨"MinefieldIdentifier", MinefieldIdentifier, MinefieldIdentifier.serialize, MinefieldIdentifier.deserialize, MinefieldIdentifier.layout, 6⟩,
  ⟨"ModulationType", ModulationType, ModulationType.serialize, ModulationType.deserialize, ModulationType.layout, 8⟩,
  ⟨"MunitionDescriptor", MunitionDescriptor, MunitionDescriptor.serialize, MunitionDescriptor.deserialize, MunitionDescriptor.layout, 16⟩,
  ⟨"NamedLocation", NamedLocation, NamedLocation.serialize, NamedLocation.deserialize, NamedLocation.layout, 4⟩,
  ⟨"ObjectIdentifier", ObjectIdentifier, ObjectIdentifier.serialize, ObjectIdentifier.deserialize, ObjectIdentifier.layout, 6⟩,
  ⟨"ObjectType", ObjectType, ObjectType.serialize, ObjectType.deserialize, ObjectType.layout, 4⟩,
  ⟨"Point", Point, Point.serialize, Point.deserialize, Point.layout, 8⟩,
  ⟨"PropulsionSystemData", PropulsionSystemData, PropulsionSystemData.serialize, PropulsionSystemData.deserialize, PropulsionSystemData.layout, 8⟩,
  ⟨"RadioEntityType", RadioEntityType, RadioEntityType.serialize, RadioEntityType.deserialize, RadioEntityType.layout, 8⟩,
  ⟨"Relationship", Relationship, Relationship.serialize, Relationship.deserialize, Relationship.layout, 4⟩,
  ⟨"SecondaryOperationalData", SecondaryOperationalData, SecondaryOperationalData.serialize, SecondaryOperationalData.deserialize, SecondaryOperationalData.layout, 4⟩,
  ⟨"ShaftRPMs", ShaftRPMs, ShaftRPMs.serialize, ShaftRPMs.deserialize, ShaftRPMs.layout, 8⟩,
  ⟨"SimulationIdentifier", SimulationIdentifier, SimulationIdentifier.serialize, SimulationIdentifier.deserialize, SimulationIdentifier.layout, 6⟩,
  ⟨"SupplyQuantity", SupplyQuantity, SupplyQuantity.serialize, SupplyQuantity.deserialize, SupplyQuantity.layout, 12⟩,
  ⟨"SystemId", SystemId, SystemId.serialize, SystemId.deserialize, SystemId.layout, 6⟩,
  ⟨"VariableParameter", VariableParameter, VariableParameter.serialize, VariableParameter.deserialize, VariableParameter.layout, 16⟩,
  ⟨"Vector3Double", Vector3Double, Vector3Double.serialize, Vector3Double.deserialize, Vector3Double.layout, 24⟩,
  ⟨"VectoringNozzleSystemData", VectoringNozzleSystemData, VectoringNozzleSystemData.serialize, VectoringNozzleSystemData.deserialize, VectoringNozzleSystemData.layout, 8⟩,
  ⟨"VelocityVector", VelocityVector, VelocityVector.serialize, VelocityVector.deserialize, VelocityVector.layout, 12⟩]

/-- Records that end in a list or text: the layout of what comes before it. -/
def headLayouts : List LaidOut := [
  ⟨"AcousticEmitterSystemData", AcousticEmitterSystemData, AcousticEmitterSystemData.serialize, AcousticEmitterSystemData.deserialize, AcousticEmitterSystemData.layout, 20⟩,
  ⟨"AttributeRecord", AttributeRecord, AttributeRecord.serialize, AttributeRecord.deserialize, AttributeRecord.layout, 6⟩,
  ⟨"AttributeRecordSet", AttributeRecordSet, AttributeRecordSet.serialize, AttributeRecordSet.deserialize, AttributeRecordSet.layout, 8⟩,
  ⟨"ElectromagneticEmissionBeamData", ElectromagneticEmissionBeamData, ElectromagneticEmissionBeamData.serialize, ElectromagneticEmissionBeamData.deserialize, ElectromagneticEmissionBeamData.layout, 52⟩,
  ⟨"ElectromagneticEmissionSystemData", ElectromagneticEmissionSystemData, ElectromagneticEmissionSystemData.serialize, ElectromagneticEmissionSystemData.deserialize, ElectromagneticEmissionSystemData.layout, 20⟩,
  ⟨"RecordSpecification", RecordSpecification, RecordSpecification.serialize, RecordSpecification.deserialize, RecordSpecification.layout, 4⟩,
  ⟨"StandardVariableRecords", StandardVariableRecords, StandardVariableRecords.serialize, StandardVariableRecords.deserialize, StandardVariableRecords.layout, 6⟩,
  ⟨"StandardVariableSpecification", StandardVariableSpecification, StandardVariableSpecification.serialize, StandardVariableSpecification.deserialize, StandardVariableSpecification.layout, 2⟩,
  ⟨"EntityMarking", EntityMarking, EntityMarking.serialize, EntityMarking.deserialize, EntityMarking.layout, 1⟩,
  ⟨"VariableDatumRecord", VariableDatumRecord, VariableDatumRecord.serialize, VariableDatumRecord.deserialize, VariableDatumRecord.layout, 8⟩,
  ⟨"RecordSpecificationElement", RecordSpecificationElement, RecordSpecificationElement.serialize, RecordSpecificationElement.deserialize, RecordSpecificationElement.layout, 12⟩]

end Dis
