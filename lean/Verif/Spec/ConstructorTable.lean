import Verif.Model.Constructors
import Verif.Model.Vector3
import Verif.Spec.RecordWire
/-
Generated by tools/gen_constructors.py: the record constructors that take their whole content from arguments
of fixed size, with the octets a record made from these arguments is expected to have: the arguments in order,
zeros for the fields that are not arguments.
-/
namespace Dis

structure Constructor where
  name : String
  Args : Type
  Val : Type
  make : Args → Val
  ser : Val → Put
  de : Get Val
  octets : Args → Bytes

def constructors : List Constructor := [
  ⟨"AcousticBeamData", UInt16 × UInt8 × UInt16 × AcousticBeamFundamentalParameter, AcousticBeamData, fun (beam_data_length, beam_id_number, pad2, fundamental_data_parameters) => .new beam_data_length beam_id_number pad2 fundamental_data_parameters, AcousticBeamData.serialize, AcousticBeamData.deserialize,
    fun (beam_data_length, beam_id_number, pad2, fundamental_data_parameters) => wire beam_data_length ▹ wire beam_id_number ▹ wire pad2 ▹ wire fundamental_data_parameters⟩,
  ⟨"AcousticBeamFundamentalParameter", UInt16 × UInt16 × F32 × F32 × F32 × F32, AcousticBeamFundamentalParameter, fun (active_emission_parameter_index, scan_pattern, beam_center_azimuth, azimuthal_beamwidth, beam_center_de, de_beamwidth) => .new active_emission_parameter_index scan_pattern beam_center_azimuth azimuthal_beamwidth beam_center_de de_beamwidth, AcousticBeamFundamentalParameter.serialize, AcousticBeamFundamentalParameter.deserialize,
    fun (active_emission_parameter_index, scan_pattern, beam_center_azimuth, azimuthal_beamwidth, beam_center_de, de_beamwidth) => wire active_emission_parameter_index ▹ wire scan_pattern ▹ wire beam_center_azimuth ▹ wire azimuthal_beamwidth ▹ wire beam_center_de ▹ wire de_beamwidth⟩,
  ⟨"AcousticEmitterSystem", UAAcousticSystemName × UAAcousticEmitterSystemFunction × UInt8, AcousticEmitterSystem, fun (acoustic_name, acoustic_function, acoustic_id) => .new acoustic_name acoustic_function acoustic_id, AcousticEmitterSystem.serialize, AcousticEmitterSystem.deserialize,
    fun (acoustic_name, acoustic_function, acoustic_id) => wire acoustic_name ▹ wire acoustic_function ▹ wire acoustic_id⟩,
  ⟨"AggregateId", UInt16 × UInt16 × UInt16, AggregateId, fun (site, application, aggregate_id) => .new site application aggregate_id, AggregateId.serialize, AggregateId.deserialize,
    fun (site, application, aggregate_id) => wire site ▹ wire application ▹ wire aggregate_id⟩,
  ⟨"AggregateMarking", UInt8 × Arr Int8 31, AggregateMarking, fun (character_set, characters) => .new character_set characters, AggregateMarking.serialize, AggregateMarking.deserialize,
    fun (character_set, characters) => wire character_set ▹ wire characters⟩,
  ⟨"ApaData", UInt16 × Int16, ApaData, fun (parameter_index, parameter_value) => .new parameter_index parameter_value, ApaData.serialize, ApaData.deserialize,
    fun (parameter_index, parameter_value) => wire parameter_index ▹ wire parameter_value⟩,
  ⟨"BeamData", F32 × F32 × F32 × F32 × F32, BeamData, fun (beam_azimuth_center, beam_azimuth_sweep, beam_elevation_center, beam_elevation_sweep, beam_sweep_sync) => .new beam_azimuth_center beam_azimuth_sweep beam_elevation_center beam_elevation_sweep beam_sweep_sync, BeamData.serialize, BeamData.deserialize,
    fun (beam_azimuth_center, beam_azimuth_sweep, beam_elevation_center, beam_elevation_sweep, beam_sweep_sync) => wire beam_azimuth_center ▹ wire beam_azimuth_sweep ▹ wire beam_elevation_center ▹ wire beam_elevation_sweep ▹ wire beam_sweep_sync⟩,
  ⟨"ClockTime", UInt32 × UInt32, ClockTime, fun (h, p) => .new h p, ClockTime.serialize, ClockTime.deserialize,
    fun (h, p) => wire h ▹ wire p⟩,
  ⟨"DeadReckoningParameters", DeadReckoningAlgorithm × LinearAcceleration × AngularVelocity, DeadReckoningParameters, fun (dead_reckoning_algorithm, entity_linear_acceleration, entity_angular_velocity) => .new dead_reckoning_algorithm entity_linear_acceleration entity_angular_velocity, DeadReckoningParameters.serialize, DeadReckoningParameters.deserialize,
    fun (dead_reckoning_algorithm, entity_linear_acceleration, entity_angular_velocity) => wire dead_reckoning_algorithm ▹ List.replicate 15 0 ▹ wire entity_linear_acceleration ▹ wire entity_angular_velocity⟩,
  ⟨"DirectedEnergyDamage", UInt32 × UInt16 × EntityCoordinateVector × F32 × F32 × ComponentIdentification × ComponentDamageStatus × UInt8 × ComponentVisualSmokeColor × EventId, DirectedEnergyDamage, fun (record_type, record_length, damage_location, damage_diameter, temperature, component_identification, component_damage_status, component_visual_damage_status, component_visual_smoke_color, fire_event_id) => .new record_type record_length damage_location damage_diameter temperature component_identification component_damage_status component_visual_damage_status component_visual_smoke_color fire_event_id, DirectedEnergyDamage.serialize, DirectedEnergyDamage.deserialize,
    fun (record_type, record_length, damage_location, damage_diameter, temperature, component_identification, component_damage_status, component_visual_damage_status, component_visual_smoke_color, fire_event_id) => wire record_type ▹ wire record_length ▹ octets 2 0 ▹ wire damage_location ▹ wire damage_diameter ▹ wire temperature ▹ wire component_identification ▹ wire component_damage_status ▹ wire component_visual_damage_status ▹ wire component_visual_smoke_color ▹ wire fire_event_id ▹ octets 2 0⟩,
  ⟨"EmitterSystem", EmitterName × EmitterSystemFunction × UInt8, EmitterSystem, fun (name, function_, id) => .new name function_ id, EmitterSystem.serialize, EmitterSystem.deserialize,
    fun (name, function_, id) => wire name ▹ wire function_ ▹ wire id⟩,
  ⟨"EntityCoordinateVector", F32 × F32 × F32, EntityCoordinateVector, fun (x, y, z) => .new x y z, EntityCoordinateVector.serialize, EntityCoordinateVector.deserialize,
    fun (x, y, z) => wire x ▹ wire y ▹ wire z⟩,
  ⟨"EntityId", UInt16 × UInt16 × UInt16, EntityId, fun (site_id, application_id, entity_id) => .new site_id application_id entity_id, EntityId.serialize, EntityId.deserialize,
    fun (site_id, application_id, entity_id) => wire site_id ▹ wire application_id ▹ wire entity_id⟩,
  ⟨"EntityType", EntityKind × UInt8 × Country × UInt8 × UInt8 × UInt8 × UInt8, EntityType, fun (kind, domain, country, category, subcategory, specific, extra) => .new kind domain country category subcategory specific extra, EntityType.serialize, EntityType.deserialize,
    fun (kind, domain, country, category, subcategory, specific, extra) => wire kind ▹ wire domain ▹ wire country ▹ wire category ▹ wire subcategory ▹ wire specific ▹ wire extra⟩,
  ⟨"Environment", UInt32 × UInt16 × UInt8 × UInt8, Environment, fun (environment_type, length, index, padding) => .new environment_type length index padding, Environment.serialize, Environment.deserialize,
    fun (environment_type, length, index, padding) => wire environment_type ▹ wire length ▹ wire index ▹ wire padding⟩,
  ⟨"EulerAngles", F32 × F32 × F32, EulerAngles, fun (psi, theta, phi) => .new psi theta phi, EulerAngles.serialize, EulerAngles.deserialize,
    fun (psi, theta, phi) => wire psi ▹ wire theta ▹ wire phi⟩,
  ⟨"EventId", UInt16 × UInt16 × UInt16, EventId, fun (site_identifier, application_identifier, event_identifier) => .new site_identifier application_identifier event_identifier, EventId.serialize, EventId.deserialize,
    fun (site_identifier, application_identifier, event_identifier) => wire site_identifier ▹ wire application_identifier ▹ wire event_identifier⟩,
  ⟨"FundamentalOperationalData", UInt8 × UInt8 × UInt8 × UInt8 × UInt16 × UInt16 × UInt16 × UInt16 × UInt16 × UInt16, FundamentalOperationalData, fun (system_status, data_field1, information_layers, data_field2, parameter1, parameter2, parameter3, parameter4, parameter5, parameter6) => .new system_status data_field1 information_layers data_field2 parameter1 parameter2 parameter3 parameter4 parameter5 parameter6, FundamentalOperationalData.serialize, FundamentalOperationalData.deserialize,
    fun (system_status, data_field1, information_layers, data_field2, parameter1, parameter2, parameter3, parameter4, parameter5, parameter6) => wire system_status ▹ wire data_field1 ▹ wire information_layers ▹ wire data_field2 ▹ wire parameter1 ▹ wire parameter2 ▹ wire parameter3 ▹ wire parameter4 ▹ wire parameter5 ▹ wire parameter6⟩,
  ⟨"IFFFundamentalParameterData", F32 × F32 × F32 × F32 × UInt32 × UInt8 × Arr UInt8 3, IFFFundamentalParameterData, fun (erp, frequency, pgrf, pulse_width, burst_length, applicable_modes, system_specific_data) => .new erp frequency pgrf pulse_width burst_length applicable_modes system_specific_data, IFFFundamentalParameterData.serialize, IFFFundamentalParameterData.deserialize,
    fun (erp, frequency, pgrf, pulse_width, burst_length, applicable_modes, system_specific_data) => wire erp ▹ wire frequency ▹ wire pgrf ▹ wire pulse_width ▹ wire burst_length ▹ wire applicable_modes ▹ wire system_specific_data⟩,
  ⟨"IntercomCommunicationsParameters", UInt16 × UInt16 × UInt32, IntercomCommunicationsParameters, fun (record_type, record_length, record_specific_field) => .new record_type record_length record_specific_field, IntercomCommunicationsParameters.serialize, IntercomCommunicationsParameters.deserialize,
    fun (record_type, record_length, record_specific_field) => wire record_type ▹ wire record_length ▹ wire record_specific_field⟩,
  ⟨"LayerHeader", UInt8 × UInt8 × UInt16, LayerHeader, fun (layer_number, layer_specific_information, length) => .new layer_number layer_specific_information length, LayerHeader.serialize, LayerHeader.deserialize,
    fun (layer_number, layer_specific_information, length) => wire layer_number ▹ wire layer_specific_information ▹ wire length⟩,
  ⟨"LinearAcceleration", F32 × F32 × F32, LinearAcceleration, fun (x, y, z) => .new x y z, LinearAcceleration.serialize, LinearAcceleration.deserialize,
    fun (x, y, z) => wire x ▹ wire y ▹ wire z⟩,
  ⟨"LinearSegmentParameter", UInt8 × UInt8 × UInt32 × UInt32 × WorldCoordinate × EulerAngles × F32 × F32 × F32 × F32, LinearSegmentParameter, fun (segment_number, segment_modification, general_segment_appearance, specific_segment_appearance, segment_location, segment_orientation, segment_length, segment_width, segment_height, segment_depth) => .new segment_number segment_modification general_segment_appearance specific_segment_appearance segment_location segment_orientation segment_length segment_width segment_height segment_depth, LinearSegmentParameter.serialize, LinearSegmentParameter.deserialize,
    fun (segment_number, segment_modification, general_segment_appearance, specific_segment_appearance, segment_location, segment_orientation, segment_length, segment_width, segment_height, segment_depth) => wire segment_number ▹ wire segment_modification ▹ wire general_segment_appearance ▹ wire specific_segment_appearance ▹ wire segment_location ▹ wire segment_orientation ▹ wire segment_length ▹ wire segment_width ▹ wire segment_height ▹ wire segment_depth ▹ octets 4 0⟩,
  ⟨"LinearVelocity", F32 × F32 × F32, LinearVelocity, fun (x, y, z) => .new x y z, LinearVelocity.serialize, LinearVelocity.deserialize,
    fun (x, y, z) => wire x ▹ wire y ▹ wire z⟩,
  ⟨"MinefieldIdentifier", SimulationAddress × UInt16, MinefieldIdentifier, fun (simulation_address, minefield_number) => .new simulation_address minefield_number, MinefieldIdentifier.serialize, MinefieldIdentifier.deserialize,
    fun (simulation_address, minefield_number) => wire simulation_address ▹ wire minefield_number⟩,
  ⟨"ModulationType", UInt16 × UInt16 × UInt16 × UInt16, ModulationType, fun (spread_spectrum, major, detail, system) => .new spread_spectrum major detail system, ModulationType.serialize, ModulationType.deserialize,
    fun (spread_spectrum, major, detail, system) => wire spread_spectrum ▹ wire major ▹ wire detail ▹ wire system⟩,
  ⟨"MunitionDescriptor", EntityType × UInt16 × UInt16 × UInt16 × UInt16, MunitionDescriptor, fun (munition_type, warhead, fuse, quantity, rate) => .new munition_type warhead fuse quantity rate, MunitionDescriptor.serialize, MunitionDescriptor.deserialize,
    fun (munition_type, warhead, fuse, quantity, rate) => wire munition_type ▹ wire warhead ▹ wire fuse ▹ wire quantity ▹ wire rate⟩,
  ⟨"NamedLocation", UInt16 × UInt16, NamedLocation, fun (station_name, station_number) => .new station_name station_number, NamedLocation.serialize, NamedLocation.deserialize,
    fun (station_name, station_number) => wire station_name ▹ wire station_number⟩,
  ⟨"ObjectType", UInt8 × UInt8 × UInt8 × UInt8, ObjectType, fun (domain, object_kind, category, subcategory) => .new domain object_kind category subcategory, ObjectType.serialize, ObjectType.deserialize,
    fun (domain, object_kind, category, subcategory) => wire domain ▹ wire object_kind ▹ wire category ▹ wire subcategory⟩,
  ⟨"Point", F32 × F32, Point, fun (x, y) => .new x y, Point.serialize, Point.deserialize,
    fun (x, y) => wire x ▹ wire y⟩,
  ⟨"PropulsionSystemData", F32 × F32, PropulsionSystemData, fun (power_setting, engine_rpm) => .new power_setting engine_rpm, PropulsionSystemData.serialize, PropulsionSystemData.deserialize,
    fun (power_setting, engine_rpm) => wire power_setting ▹ wire engine_rpm⟩,
  ⟨"RadioEntityType", UInt8 × UInt8 × UInt16 × UInt8 × UInt8 × UInt16, RadioEntityType, fun (entity_kind, domain, country, category, nomenclature_version, nomenclature) => .new entity_kind domain country category nomenclature_version nomenclature, RadioEntityType.serialize, RadioEntityType.deserialize,
    fun (entity_kind, domain, country, category, nomenclature_version, nomenclature) => wire entity_kind ▹ wire domain ▹ wire country ▹ wire category ▹ wire nomenclature_version ▹ wire nomenclature⟩,
  ⟨"Relationship", UInt16 × UInt16, Relationship, fun (nature, position) => .new nature position, Relationship.serialize, Relationship.deserialize,
    fun (nature, position) => wire nature ▹ wire position⟩,
  ⟨"SecondaryOperationalData", UInt8 × UInt8 × UInt16, SecondaryOperationalData, fun (operational_data1, operational_data2, number_of_iff_fundamental_parameter_records) => .new operational_data1 operational_data2 number_of_iff_fundamental_parameter_records, SecondaryOperationalData.serialize, SecondaryOperationalData.deserialize,
    fun (operational_data1, operational_data2, number_of_iff_fundamental_parameter_records) => wire operational_data1 ▹ wire operational_data2 ▹ wire number_of_iff_fundamental_parameter_records⟩,
  ⟨"ShaftRPMs", Int16 × Int16 × Int32, ShaftRPMs, fun (current_shaft_rpms, ordered_shaft_rpms, shaft_rpm_rate_of_change) => .new current_shaft_rpms ordered_shaft_rpms shaft_rpm_rate_of_change, ShaftRPMs.serialize, ShaftRPMs.deserialize,
    fun (current_shaft_rpms, ordered_shaft_rpms, shaft_rpm_rate_of_change) => wire current_shaft_rpms ▹ wire ordered_shaft_rpms ▹ wire shaft_rpm_rate_of_change⟩,
  ⟨"SimulationAddress", UInt16 × UInt16, SimulationAddress, fun (site_id, application_id) => .new site_id application_id, SimulationAddress.serialize, SimulationAddress.deserialize,
    fun (site_id, application_id) => wire site_id ▹ wire application_id⟩,
  ⟨"SupplyQuantity", EntityType × F32, SupplyQuantity, fun (supply_type, quantity) => .new supply_type quantity, SupplyQuantity.serialize, SupplyQuantity.deserialize,
    fun (supply_type, quantity) => wire supply_type ▹ wire quantity⟩,
  ⟨"SystemId", UInt16 × UInt16 × UInt8 × UInt8, SystemId, fun (system_type, system_name, system_mode, change_options) => .new system_type system_name system_mode change_options, SystemId.serialize, SystemId.deserialize,
    fun (system_type, system_name, system_mode, change_options) => wire system_type ▹ wire system_name ▹ wire system_mode ▹ wire change_options⟩,
  ⟨"VariableParameter", UInt8 × F64 × UInt32 × UInt16 × UInt8, VariableParameter, fun (record_type, variable_parameter_field1, variable_parameter_field2, variable_parameter_field3, variable_parameter_field4) => .new record_type variable_parameter_field1 variable_parameter_field2 variable_parameter_field3 variable_parameter_field4, VariableParameter.serialize, VariableParameter.deserialize,
    fun (record_type, variable_parameter_field1, variable_parameter_field2, variable_parameter_field3, variable_parameter_field4) => wire record_type ▹ wire variable_parameter_field1 ▹ wire variable_parameter_field2 ▹ wire variable_parameter_field3 ▹ wire variable_parameter_field4⟩,
  ⟨"Vector3Double", F64 × F64 × F64, Vector3Double, fun (x, y, z) => .new x y z, Vector3Double.serialize, Vector3Double.deserialize,
    fun (x, y, z) => wire x ▹ wire y ▹ wire z⟩,
  ⟨"Vector3Float", F32 × F32 × F32, Vector3Float, fun (x, y, z) => .new x y z, Vector3Float.serialize, Vector3Float.deserialize,
    fun (x, y, z) => wire x ▹ wire y ▹ wire z⟩,
  ⟨"VectoringNozzleSystemData", F32 × F32, VectoringNozzleSystemData, fun (horizontal_deflection_angle, vertical_deflection_angle) => .new horizontal_deflection_angle vertical_deflection_angle, VectoringNozzleSystemData.serialize, VectoringNozzleSystemData.deserialize,
    fun (horizontal_deflection_angle, vertical_deflection_angle) => wire horizontal_deflection_angle ▹ wire vertical_deflection_angle⟩,
  ⟨"VelocityVector", F32 × F32 × F32, VelocityVector, fun (x, y, z) => .new x y z, VelocityVector.serialize, VelocityVector.deserialize,
    fun (x, y, z) => wire x ▹ wire y ▹ wire z⟩,
  ⟨"WorldCoordinate", F64 × F64 × F64, WorldCoordinate, fun (x, y, z) => .new x y z, WorldCoordinate.serialize, WorldCoordinate.deserialize,
    fun (x, y, z) => wire x ▹ wire y ▹ wire z⟩]

end Dis
