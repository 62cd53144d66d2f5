import Verif.Spec.Printing
import Verif.Model.PrintedRecords
import Verif.Model.PduKind
/-
Generated by tools/gen_printing.py: `calm` for records and PDUs, member by member.  (Members that hold no number with
a fraction and no list are not mentioned: they are kept.)
-/
namespace Dis

instance : Calm AcousticBeamFundamentalParameter := ⟨fun x => { x with
    beam_center_azimuth := calm x.beam_center_azimuth, azimuthal_beamwidth := calm x.azimuthal_beamwidth,
    beam_center_de := calm x.beam_center_de, de_beamwidth := calm x.de_beamwidth }⟩
instance : Calm AcousticBeamData := ⟨fun x => { x with
    fundamental_data_parameters := calm x.fundamental_data_parameters }⟩
instance : Calm AcousticEmitterSystem := ⟨id⟩
instance : Calm Vector3Float := ⟨fun x => { x with x := calm x.x, y := calm x.y, z := calm x.z }⟩
instance : Calm AcousticEmitterSystemData := ⟨fun x => { x with
    emitter_location := calm x.emitter_location, beam_records := calm x.beam_records }⟩
instance : Calm AggregateId := ⟨id⟩
instance : Calm AggregateMarking := ⟨fun x => { x with characters := calm x.characters }⟩
instance : Calm AngularVelocity := ⟨fun x => { x with
    rate_about_x_axis := calm x.rate_about_x_axis, rate_about_y_axis := calm x.rate_about_y_axis,
    rate_about_z_axis := calm x.rate_about_z_axis }⟩
instance : Calm AntennaPattern := ⟨fun x => { x with record_specific_fields := calm x.record_specific_fields }⟩
instance : Calm ApaData := ⟨id⟩
instance : Calm AttributeRecord := ⟨fun x => { x with record_specific_fields := calm x.record_specific_fields }⟩
instance : Calm SimulationAddress := ⟨id⟩
instance : Calm EntityId := ⟨id⟩
instance : Calm AttributeRecordSet := ⟨fun x => { x with attribute_records := calm x.attribute_records }⟩
instance : Calm BeamData := ⟨fun x => { x with
    beam_azimuth_center := calm x.beam_azimuth_center, beam_azimuth_sweep := calm x.beam_azimuth_sweep,
    beam_elevation_center := calm x.beam_elevation_center, beam_elevation_sweep := calm x.beam_elevation_sweep,
    beam_sweep_sync := calm x.beam_sweep_sync }⟩
instance : Calm ClockTime := ⟨id⟩
instance : Calm FixedDatumRecord := ⟨id⟩
instance : Calm VariableDatumRecord := ⟨fun x => { x with value := calm x.value }⟩
instance : Calm LinearAcceleration := ⟨fun x => { x with
    first_vector_component := calm x.first_vector_component,
    second_vector_component := calm x.second_vector_component,
    third_vector_component := calm x.third_vector_component }⟩
instance : Calm DeadReckoningParameters := ⟨fun x => { x with
    dead_reckoning_other_parameters := calm x.dead_reckoning_other_parameters,
    entity_linear_acceleration := calm x.entity_linear_acceleration,
    entity_angular_velocity := calm x.entity_angular_velocity }⟩
instance : Calm EntityCoordinateVector := ⟨fun x => { x with
    x_coordinate := calm x.x_coordinate, y_coordinate := calm x.y_coordinate, z_coordinate := calm x.z_coordinate }⟩
instance : Calm EventId := ⟨id⟩
instance : Calm DirectedEnergyDamage := ⟨fun x => { x with
    damage_location := calm x.damage_location, damage_diameter := calm x.damage_diameter,
    temperature := calm x.temperature }⟩
instance : Calm FundamentalParameterData := ⟨fun x => { x with
    frequency := calm x.frequency, frequency_range := calm x.frequency_range,
    effective_radiated_power := calm x.effective_radiated_power,
    pulse_repetition_frequency := calm x.pulse_repetition_frequency, pulse_width := calm x.pulse_width,
    beam_azimuth_center := calm x.beam_azimuth_center, beam_azimuth_sweep := calm x.beam_azimuth_sweep,
    beam_elevation_center := calm x.beam_elevation_center, beam_elevation_sweep := calm x.beam_elevation_sweep,
    beam_sweep_sync := calm x.beam_sweep_sync }⟩
instance : Calm TrackJamTarget := ⟨id⟩
instance : Calm ElectromagneticEmissionBeamData := ⟨fun x => { x with
    fundamental_parameter_data := calm x.fundamental_parameter_data, track_jam_targets := calm x.track_jam_targets }⟩
instance : Calm EmitterSystem := ⟨id⟩
instance : Calm ElectromagneticEmissionSystemData := ⟨fun x => { x with
    location := calm x.location, beam_data_records := calm x.beam_data_records }⟩
instance : Calm EntityMarking := ⟨id⟩
instance : Calm EntityType := ⟨id⟩
instance : Calm Environment := ⟨id⟩
instance : Calm EulerAngles := ⟨fun x => { x with psi := calm x.psi, theta := calm x.theta, phi := calm x.phi }⟩
instance : Calm FundamentalOperationalData := ⟨id⟩
instance : Calm GridAxisDescriptor := ⟨fun x => { x with
    domain_initial := calm x.domain_initial, domain_final := calm x.domain_final, data := calm x.data }⟩
instance : Calm GridDataRecord := ⟨fun x => { x with data := calm x.data }⟩
instance : Calm IFFFundamentalParameterData := ⟨fun x => { x with
    erp := calm x.erp, frequency := calm x.frequency, pgrf := calm x.pgrf, pulse_width := calm x.pulse_width,
    system_specific_data := calm x.system_specific_data }⟩
instance : Calm IntercomCommunicationsParameters := ⟨id⟩
instance : Calm LayerHeader := ⟨id⟩
instance : Calm WorldCoordinate := ⟨fun x => { x with x := calm x.x, y := calm x.y, z := calm x.z }⟩
instance : Calm LinearSegmentParameter := ⟨fun x => { x with
    segment_location := calm x.segment_location, segment_orientation := calm x.segment_orientation,
    segment_length := calm x.segment_length, segment_width := calm x.segment_width,
    segment_height := calm x.segment_height, segment_depth := calm x.segment_depth }⟩
instance : Calm LinearVelocity := ⟨fun x => { x with
    first_vector_component := calm x.first_vector_component,
    second_vector_component := calm x.second_vector_component,
    third_vector_component := calm x.third_vector_component }⟩
instance : Calm MinefieldIdentifier := ⟨id⟩
instance : Calm ModulationParameters := ⟨fun x => { x with record_specific_fields := calm x.record_specific_fields }⟩
instance : Calm ModulationType := ⟨id⟩
instance : Calm MunitionDescriptor := ⟨id⟩
instance : Calm NamedLocation := ⟨id⟩
instance : Calm ObjectIdentifier := ⟨id⟩
instance : Calm ObjectType := ⟨id⟩
instance : Calm Point := ⟨fun x => { x with x := calm x.x, y := calm x.y }⟩
instance : Calm PropulsionSystemData := ⟨fun x => { x with
    power_setting := calm x.power_setting, engine_rpm := calm x.engine_rpm }⟩
instance : Calm RadioEntityType := ⟨id⟩
instance : Calm RecordSpecificationElement := ⟨fun x => { x with record_values := calm x.record_values }⟩
instance : Calm RecordSpecification := ⟨fun x => { x with record_sets := calm x.record_sets }⟩
instance : Calm Relationship := ⟨id⟩
instance : Calm SecondaryOperationalData := ⟨id⟩
instance : Calm ShaftRPMs := ⟨id⟩
instance : Calm SimulationIdentifier := ⟨id⟩
instance : Calm StandardVariableRecords := ⟨fun x => { x with
    record_specific_fields := calm x.record_specific_fields }⟩
instance : Calm StandardVariableSpecification := ⟨fun x => { x with
    standard_variable_records := calm x.standard_variable_records }⟩
instance : Calm SupplyQuantity := ⟨fun x => { x with quantity := calm x.quantity }⟩
instance : Calm SystemId := ⟨id⟩
instance : Calm VariableParameter := ⟨fun x => { x with
    variable_parameter_field1 := calm x.variable_parameter_field1 }⟩
instance : Calm VariableTransmitterParameters := ⟨fun x => { x with
    record_specific_fields := calm x.record_specific_fields }⟩
instance : Calm Vector3Double := ⟨fun x => { x with x := calm x.x, y := calm x.y, z := calm x.z }⟩
instance : Calm VectoringNozzleSystemData := ⟨fun x => { x with
    horizontal_deflection_angle := calm x.horizontal_deflection_angle,
    vertical_deflection_angle := calm x.vertical_deflection_angle }⟩
instance : Calm VelocityVector := ⟨fun x => { x with
    first_vector_component := calm x.first_vector_component,
    second_vector_component := calm x.second_vector_component,
    third_vector_component := calm x.third_vector_component }⟩

instance : Calm ElectromagneticEmissionsPdu := ⟨fun x => { x with systems := calm x.systems }⟩
instance : Calm DesignatorPdu := ⟨fun x => { x with
    designator_power := calm x.designator_power, designator_wavelength := calm x.designator_wavelength,
    designator_spot_wrt_designated := calm x.designator_spot_wrt_designated,
    designator_spot_location := calm x.designator_spot_location,
    entity_linear_acceleration := calm x.entity_linear_acceleration }⟩
instance : Calm UnderwaterAcousticPdu := ⟨fun x => { x with
    shaft_rpms := calm x.shaft_rpms, apa_data := calm x.apa_data, emitter_systems := calm x.emitter_systems }⟩
instance : Calm IFFPdu := ⟨fun x => { x with
    relative_antenna_location := calm x.relative_antenna_location, beam_data := calm x.beam_data,
    iff_parameters := calm x.iff_parameters }⟩
instance : Calm SupplementalEmissionPdu := ⟨fun x => { x with
    propulsion_system_data := calm x.propulsion_system_data,
    vectoring_nozzle_system_data := calm x.vectoring_nozzle_system_data }⟩
instance : Calm EntityStatePdu := ⟨fun x => { x with
    entity_linear_velocity := calm x.entity_linear_velocity, entity_location := calm x.entity_location,
    entity_orientation := calm x.entity_orientation, dead_reckoning_parameters := calm x.dead_reckoning_parameters,
    articulation_parameter := calm x.articulation_parameter }⟩
instance : Calm CollisionPdu := ⟨fun x => { x with
    velocity := calm x.velocity, mass := calm x.mass, location_wrt_entity := calm x.location_wrt_entity }⟩
instance : Calm CollisionElasticPdu := ⟨fun x => { x with
    contact_velocity := calm x.contact_velocity, mass := calm x.mass,
    location_of_impact := calm x.location_of_impact,
    collision_intermediate_result_xx := calm x.collision_intermediate_result_xx,
    collision_intermediate_result_xy := calm x.collision_intermediate_result_xy,
    collision_intermediate_result_xz := calm x.collision_intermediate_result_xz,
    collision_intermediate_result_yy := calm x.collision_intermediate_result_yy,
    collision_intermediate_result_yz := calm x.collision_intermediate_result_yz,
    collision_intermediate_result_zz := calm x.collision_intermediate_result_zz,
    unit_surface_normal := calm x.unit_surface_normal,
    coefficient_of_restitution := calm x.coefficient_of_restitution }⟩
instance : Calm EntityStateUpdatePdu := ⟨fun x => { x with
    entity_linear_velocity := calm x.entity_linear_velocity, entity_location := calm x.entity_location,
    entity_orientation := calm x.entity_orientation,
    variable_parameter_records := calm x.variable_parameter_records }⟩
instance : Calm AttributePdu := ⟨fun x => { x with attribute_record_sets := calm x.attribute_record_sets }⟩
instance : Calm AggregateStatePdu := ⟨fun x => { x with
    aggregate_marking := calm x.aggregate_marking, dimensions := calm x.dimensions,
    orientation := calm x.orientation, center_of_mass := calm x.center_of_mass, velocity := calm x.velocity,
    aggregate_id_list := calm x.aggregate_id_list, entity_id_list := calm x.entity_id_list,
    padding := calm x.padding, silent_aggregate_system_list := calm x.silent_aggregate_system_list,
    silent_entity_system_list := calm x.silent_entity_system_list,
    variable_datum_list := calm x.variable_datum_list }⟩
instance : Calm IsGroupOfPdu := ⟨fun x => { x with
    latitude := calm x.latitude, longitude := calm x.longitude,
    grouped_entity_descriptions := calm x.grouped_entity_descriptions }⟩
instance : Calm TransferOwnershipPdu := ⟨fun x => { x with record_information := calm x.record_information }⟩
instance : Calm IsPartOfPdu := ⟨fun x => { x with part_location := calm x.part_location }⟩
instance : Calm InformationOperationsReportPdu := ⟨fun x => { x with io_records := calm x.io_records }⟩
instance : Calm InformationOperationsActionPdu := ⟨fun x => { x with io_records := calm x.io_records }⟩
instance : Calm ServiceRequestPdu := ⟨fun x => { x with supplies := calm x.supplies }⟩
instance : Calm ResupplyOfferPdu := ⟨fun x => { x with supplies := calm x.supplies }⟩
instance : Calm ResupplyReceivedPdu := ⟨fun x => { x with supplies := calm x.supplies }⟩
instance : Calm ResupplyCancelPdu := ⟨id⟩
instance : Calm RepairCompletePdu := ⟨id⟩
instance : Calm RepairResponsePdu := ⟨id⟩
instance : Calm MinefieldStatePdu := ⟨fun x => { x with
    minefield_location := calm x.minefield_location, minefield_orientation := calm x.minefield_orientation,
    perimeter_points := calm x.perimeter_points, mine_type := calm x.mine_type }⟩
instance : Calm MinefieldQueryPdu := ⟨fun x => { x with
    requested_perimeter_points := calm x.requested_perimeter_points, sensor_types := calm x.sensor_types }⟩
instance : Calm MinefieldDataPdu := ⟨fun x => { x with
    sensor_types := calm x.sensor_types, mine_location := calm x.mine_location,
    ground_burial_depth_offset := calm x.ground_burial_depth_offset,
    water_burial_depth_offset := calm x.water_burial_depth_offset,
    snow_burial_depth_offset := calm x.snow_burial_depth_offset, mine_orientation := calm x.mine_orientation,
    thermal_contrast := calm x.thermal_contrast, reflectance := calm x.reflectance,
    mine_emplacement_time := calm x.mine_emplacement_time, mine_entity_id := calm x.mine_entity_id,
    fusing := calm x.fusing, scalar_detection_coefficient := calm x.scalar_detection_coefficient,
    paint_scheme := calm x.paint_scheme, number_of_trip_wires := calm x.number_of_trip_wires,
    number_of_vertices := calm x.number_of_vertices, vertices := calm x.vertices }⟩
instance : Calm MinefieldResponseNackPdu := ⟨fun x => { x with
    missing_pdu_sequence_numbers := calm x.missing_pdu_sequence_numbers }⟩
instance : Calm TransmitterPdu := ⟨fun x => { x with
    antenna_location := calm x.antenna_location, relative_antenna_location := calm x.relative_antenna_location,
    transmit_frequency_bandwidth := calm x.transmit_frequency_bandwidth, power := calm x.power,
    modulation_parameters := calm x.modulation_parameters, antenna_pattern := calm x.antenna_pattern,
    variable_transmitter_parameters := calm x.variable_transmitter_parameters }⟩
instance : Calm SignalPdu := ⟨fun x => { x with data := calm x.data }⟩
instance : Calm ReceiverPdu := ⟨fun x => { x with received_power := calm x.received_power }⟩
instance : Calm IntercomSignalPdu := ⟨fun x => { x with data := calm x.data }⟩
instance : Calm IntercomControlPdu := ⟨fun x => { x with intercom_parameters := calm x.intercom_parameters }⟩
instance : Calm CreateEntityPdu := ⟨id⟩
instance : Calm RemoveEntityPdu := ⟨id⟩
instance : Calm StartResumePdu := ⟨id⟩
instance : Calm StopFreezePdu := ⟨id⟩
instance : Calm AcknowledgePdu := ⟨id⟩
instance : Calm ActionRequestPdu := ⟨fun x => { x with
    fixed_datum_records := calm x.fixed_datum_records, variable_datum_records := calm x.variable_datum_records }⟩
instance : Calm ActionResponsePdu := ⟨fun x => { x with
    fixed_datum_records := calm x.fixed_datum_records, variable_datum_records := calm x.variable_datum_records }⟩
instance : Calm DataQueryPdu := ⟨fun x => { x with
    fixed_datum_records := calm x.fixed_datum_records, variable_datum_records := calm x.variable_datum_records }⟩
instance : Calm SetDataPdu := ⟨fun x => { x with
    fixed_datum_records := calm x.fixed_datum_records, variable_datum_records := calm x.variable_datum_records }⟩
instance : Calm DataPdu := ⟨fun x => { x with
    fixed_datum_records := calm x.fixed_datum_records, variable_datum_records := calm x.variable_datum_records }⟩
instance : Calm EventReportPdu := ⟨fun x => { x with
    fixed_datum_records := calm x.fixed_datum_records, variable_datum_records := calm x.variable_datum_records }⟩
instance : Calm CommentPdu := ⟨fun x => { x with
    fixed_datum_records := calm x.fixed_datum_records, variable_datum_records := calm x.variable_datum_records }⟩
instance : Calm CreateEntityReliablePdu := ⟨id⟩
instance : Calm RemoveEntityReliablePdu := ⟨id⟩
instance : Calm StartResumeReliablePdu := ⟨id⟩
instance : Calm StopFreezeReliablePdu := ⟨id⟩
instance : Calm AcknowledgeReliablePdu := ⟨id⟩
instance : Calm ActionRequestReliablePdu := ⟨fun x => { x with
    fixed_datum_records := calm x.fixed_datum_records, variable_datum_records := calm x.variable_datum_records }⟩
instance : Calm ActionResponseReliablePdu := ⟨fun x => { x with
    fixed_datum_records := calm x.fixed_datum_records, variable_datum_records := calm x.variable_datum_records }⟩
instance : Calm DataQueryReliablePdu := ⟨fun x => { x with
    fixed_datum_ids := calm x.fixed_datum_ids, variable_datum_ids := calm x.variable_datum_ids }⟩
instance : Calm SetDataReliablePdu := ⟨fun x => { x with
    fixed_datum_records := calm x.fixed_datum_records, variable_datum_records := calm x.variable_datum_records }⟩
instance : Calm DataReliablePdu := ⟨fun x => { x with
    fixed_datum_records := calm x.fixed_datum_records, variable_datum_records := calm x.variable_datum_records }⟩
instance : Calm EventReportReliablePdu := ⟨fun x => { x with
    fixed_datum_records := calm x.fixed_datum_records, variable_datum_records := calm x.variable_datum_records }⟩
instance : Calm CommentReliablePdu := ⟨fun x => { x with
    fixed_datum_records := calm x.fixed_datum_records, variable_datum_records := calm x.variable_datum_records }⟩
instance : Calm RecordQueryReliablePdu := ⟨fun x => { x with record_ids := calm x.record_ids }⟩
instance : Calm SetRecordReliablePdu := ⟨fun x => { x with record_sets := calm x.record_sets }⟩
instance : Calm EnvironmentalProcessPdu := ⟨fun x => { x with environment_records := calm x.environment_records }⟩
instance : Calm GriddedDataPdu := ⟨fun x => { x with
    orientation := calm x.orientation, grid_axis_descriptors := calm x.grid_axis_descriptors,
    grid_data_list := calm x.grid_data_list }⟩
instance : Calm PointObjectStatePdu := ⟨fun x => { x with
    object_location := calm x.object_location, object_orientation := calm x.object_orientation }⟩
instance : Calm LinearObjectStatePdu := ⟨fun x => { x with
    linear_segment_parameters := calm x.linear_segment_parameters }⟩
instance : Calm ArealObjectStatePdu := ⟨fun x => { x with object_location := calm x.object_location }⟩
instance : Calm FirePdu := ⟨fun x => { x with
    location_in_world_coordinates := calm x.location_in_world_coordinates, velocity := calm x.velocity,
    range := calm x.range }⟩
instance : Calm DetonationPdu := ⟨fun x => { x with
    velocity := calm x.velocity, location_in_world_coordinates := calm x.location_in_world_coordinates,
    location_in_entitys_coordinates := calm x.location_in_entitys_coordinates,
    variable_parameters := calm x.variable_parameters }⟩
instance : Calm DirectedEnergyFirePdu := ⟨fun x => { x with
    cumulative_shot_time := calm x.cumulative_shot_time,
    aperture_emitter_location := calm x.aperture_emitter_location, aperture_diameter := calm x.aperture_diameter,
    wavelength := calm x.wavelength, pulse_repetition_frequency := calm x.pulse_repetition_frequency,
    pulse_width := calm x.pulse_width, damage_descriptions := calm x.damage_descriptions }⟩
instance : Calm EntityDamageStatusPdu := ⟨fun x => { x with damage_descriptions := calm x.damage_descriptions }⟩

/-- a PDU: its header and its fields -/
instance {B : Type} [Calm B] : Calm (Pdu B) := ⟨fun p => ⟨calm p.header, calm p.body⟩⟩

/-- `calm` of each kind -/
instance PduKind.calmBody : (k : PduKind) → Calm k.Body
  | .ElectromagneticEmissions => inferInstanceAs (Calm ElectromagneticEmissionsPdu)
  | .Designator => inferInstanceAs (Calm DesignatorPdu)
  | .UnderwaterAcoustic => inferInstanceAs (Calm UnderwaterAcousticPdu)
  | .IFF => inferInstanceAs (Calm IFFPdu)
  | .SupplementalEmission => inferInstanceAs (Calm SupplementalEmissionPdu)
  | .EntityState => inferInstanceAs (Calm EntityStatePdu)
  | .Collision => inferInstanceAs (Calm CollisionPdu)
  | .CollisionElastic => inferInstanceAs (Calm CollisionElasticPdu)
  | .EntityStateUpdate => inferInstanceAs (Calm EntityStateUpdatePdu)
  | .Attribute => inferInstanceAs (Calm AttributePdu)
  | .AggregateState => inferInstanceAs (Calm AggregateStatePdu)
  | .IsGroupOf => inferInstanceAs (Calm IsGroupOfPdu)
  | .TransferOwnership => inferInstanceAs (Calm TransferOwnershipPdu)
  | .IsPartOf => inferInstanceAs (Calm IsPartOfPdu)
  | .InformationOperationsReport => inferInstanceAs (Calm InformationOperationsReportPdu)
  | .InformationOperationsAction => inferInstanceAs (Calm InformationOperationsActionPdu)
  | .ServiceRequest => inferInstanceAs (Calm ServiceRequestPdu)
  | .ResupplyOffer => inferInstanceAs (Calm ResupplyOfferPdu)
  | .ResupplyReceived => inferInstanceAs (Calm ResupplyReceivedPdu)
  | .ResupplyCancel => inferInstanceAs (Calm ResupplyCancelPdu)
  | .RepairComplete => inferInstanceAs (Calm RepairCompletePdu)
  | .RepairResponse => inferInstanceAs (Calm RepairResponsePdu)
  | .MinefieldState => inferInstanceAs (Calm MinefieldStatePdu)
  | .MinefieldQuery => inferInstanceAs (Calm MinefieldQueryPdu)
  | .MinefieldData => inferInstanceAs (Calm MinefieldDataPdu)
  | .MinefieldResponseNack => inferInstanceAs (Calm MinefieldResponseNackPdu)
  | .Transmitter => inferInstanceAs (Calm TransmitterPdu)
  | .Signal => inferInstanceAs (Calm SignalPdu)
  | .Receiver => inferInstanceAs (Calm ReceiverPdu)
  | .IntercomSignal => inferInstanceAs (Calm IntercomSignalPdu)
  | .IntercomControl => inferInstanceAs (Calm IntercomControlPdu)
  | .CreateEntity => inferInstanceAs (Calm CreateEntityPdu)
  | .RemoveEntity => inferInstanceAs (Calm RemoveEntityPdu)
  | .StartResume => inferInstanceAs (Calm StartResumePdu)
  | .StopFreeze => inferInstanceAs (Calm StopFreezePdu)
  | .Acknowledge => inferInstanceAs (Calm AcknowledgePdu)
  | .ActionRequest => inferInstanceAs (Calm ActionRequestPdu)
  | .ActionResponse => inferInstanceAs (Calm ActionResponsePdu)
  | .DataQuery => inferInstanceAs (Calm DataQueryPdu)
  | .SetData => inferInstanceAs (Calm SetDataPdu)
  | .Data => inferInstanceAs (Calm DataPdu)
  | .EventReport => inferInstanceAs (Calm EventReportPdu)
  | .Comment => inferInstanceAs (Calm CommentPdu)
  | .CreateEntityReliable => inferInstanceAs (Calm CreateEntityReliablePdu)
  | .RemoveEntityReliable => inferInstanceAs (Calm RemoveEntityReliablePdu)
  | .StartResumeReliable => inferInstanceAs (Calm StartResumeReliablePdu)
  | .StopFreezeReliable => inferInstanceAs (Calm StopFreezeReliablePdu)
  | .AcknowledgeReliable => inferInstanceAs (Calm AcknowledgeReliablePdu)
  | .ActionRequestReliable => inferInstanceAs (Calm ActionRequestReliablePdu)
  | .ActionResponseReliable => inferInstanceAs (Calm ActionResponseReliablePdu)
  | .DataQueryReliable => inferInstanceAs (Calm DataQueryReliablePdu)
  | .SetDataReliable => inferInstanceAs (Calm SetDataReliablePdu)
  | .DataReliable => inferInstanceAs (Calm DataReliablePdu)
  | .EventReportReliable => inferInstanceAs (Calm EventReportReliablePdu)
  | .CommentReliable => inferInstanceAs (Calm CommentReliablePdu)
  | .RecordQueryReliable => inferInstanceAs (Calm RecordQueryReliablePdu)
  | .SetRecordReliable => inferInstanceAs (Calm SetRecordReliablePdu)
  | .EnvironmentalProcess => inferInstanceAs (Calm EnvironmentalProcessPdu)
  | .GriddedData => inferInstanceAs (Calm GriddedDataPdu)
  | .PointObjectState => inferInstanceAs (Calm PointObjectStatePdu)
  | .LinearObjectState => inferInstanceAs (Calm LinearObjectStatePdu)
  | .ArealObjectState => inferInstanceAs (Calm ArealObjectStatePdu)
  | .Fire => inferInstanceAs (Calm FirePdu)
  | .Detonation => inferInstanceAs (Calm DetonationPdu)
  | .DirectedEnergyFire => inferInstanceAs (Calm DirectedEnergyFirePdu)
  | .EntityDamageStatus => inferInstanceAs (Calm EntityDamageStatusPdu)

/-- Kinds with a floating-point member. -/
def PduKind.hasFloats : PduKind → Bool
  | .UnderwaterAcoustic | .Attribute | .TransferOwnership | .InformationOperationsReport
  | .InformationOperationsAction | .ResupplyCancel | .RepairComplete | .RepairResponse
  | .MinefieldResponseNack | .Signal | .IntercomSignal | .IntercomControl | .CreateEntity
  | .RemoveEntity | .StartResume | .StopFreeze | .Acknowledge | .ActionRequest | .ActionResponse
  | .DataQuery | .SetData | .Data | .EventReport | .Comment | .CreateEntityReliable
  | .RemoveEntityReliable | .StartResumeReliable | .StopFreezeReliable | .AcknowledgeReliable
  | .ActionRequestReliable | .ActionResponseReliable | .DataQueryReliable | .SetDataReliable
  | .DataReliable | .EventReportReliable | .CommentReliable | .RecordQueryReliable
  | .SetRecordReliable | .EnvironmentalProcess => false
  | _ => true

/-- a type of the crate that is printed -/
structure Printed where
  {α : Type}
  [debug : RDebug α]
  [calm : Calm α]

/-- The flags, headers and records of the crate (all public structures and enumerations with data that are not PDUs). -/
def allPrinted : List Printed := [
  { α := FrozenBehavior },
  { α := ObjectStateAppearanceGeneral },
  { α := LandPlatformAppearance },
  { α := PduState },
  { α := PduStatusRecord },
  { α := PduHeader },
  { α := LiveEntityPduHeader },
  { α := GridAxisType },
  { α := DataRepresentationType },
  { α := AcousticBeamFundamentalParameter },
  { α := AcousticBeamData },
  { α := AcousticEmitterSystem },
  { α := Vector3Float },
  { α := AcousticEmitterSystemData },
  { α := AggregateId },
  { α := AggregateMarking },
  { α := AngularVelocity },
  { α := AntennaPattern },
  { α := ApaData },
  { α := AttributeRecord },
  { α := SimulationAddress },
  { α := EntityId },
  { α := AttributeRecordSet },
  { α := BeamData },
  { α := ClockTime },
  { α := FixedDatumRecord },
  { α := VariableDatumRecord },
  { α := LinearAcceleration },
  { α := DeadReckoningParameters },
  { α := EntityCoordinateVector },
  { α := EventId },
  { α := DirectedEnergyDamage },
  { α := FundamentalParameterData },
  { α := TrackJamTarget },
  { α := ElectromagneticEmissionBeamData },
  { α := EmitterSystem },
  { α := ElectromagneticEmissionSystemData },
  { α := EntityMarking },
  { α := EntityType },
  { α := Environment },
  { α := EulerAngles },
  { α := FundamentalOperationalData },
  { α := GridAxisDescriptor },
  { α := GridDataRecord },
  { α := IFFFundamentalParameterData },
  { α := IntercomCommunicationsParameters },
  { α := LayerHeader },
  { α := WorldCoordinate },
  { α := LinearSegmentParameter },
  { α := LinearVelocity },
  { α := MinefieldIdentifier },
  { α := ModulationParameters },
  { α := ModulationType },
  { α := MunitionDescriptor },
  { α := NamedLocation },
  { α := ObjectIdentifier },
  { α := ObjectType },
  { α := Point },
  { α := PropulsionSystemData },
  { α := RadioEntityType },
  { α := RecordSpecificationElement },
  { α := RecordSpecification },
  { α := Relationship },
  { α := SecondaryOperationalData },
  { α := ShaftRPMs },
  { α := SimulationIdentifier },
  { α := StandardVariableRecords },
  { α := StandardVariableSpecification },
  { α := SupplyQuantity },
  { α := SystemId },
  { α := VariableParameter },
  { α := VariableTransmitterParameters },
  { α := Vector3Double },
  { α := VectoringNozzleSystemData },
  { α := VelocityVector }]

end Dis
