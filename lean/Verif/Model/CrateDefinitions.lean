import Verif.Model.DefinePdu
import Verif.Model.PduKind
/- Generated by tools/gen_definitions.py from the `define_pdu!` blocks of /repo/src. -/
set_option maxRecDepth 4000
namespace Dis

/-- src/distributed_emissions.rs:35-51: one entry per field line (emitting_entity_id, event_id, state_update_indicator, number_of_systems, padding, systems) -/
def ElectromagneticEmissionsPdu.definition : Definition where
  type := ⟨23, by decide⟩
  family := ⟨6, by decide⟩
  fields := [.of EntityId,
    .of EventId,
    .of EEAttributeStateIndicator,
    .byte,
    .of UInt16,
    .of (List ElectromagneticEmissionSystemData)]
  resolved := trivial
/-- the structure of src/distributed_emissions.rs:35-51 from its fields in order -/
def ElectromagneticEmissionsPdu.ofFields : ElectromagneticEmissionsPdu.definition.Body → ElectromagneticEmissionsPdu :=
  fun (x0, x1, x2, x3, x4, x5, ()) => ⟨x0, x1, x2, x3, x4, x5⟩
/-- the fields of src/distributed_emissions.rs:35-51 in order -/
def ElectromagneticEmissionsPdu.toFields (x : ElectromagneticEmissionsPdu) : ElectromagneticEmissionsPdu.definition.Body :=
  (x.emitting_entity_id, x.event_id, x.state_update_indicator, x.number_of_systems, x.padding, x.systems, ())

/-- src/distributed_emissions.rs:53-75: one entry per field line (designating_entity_id, code_name, designated_entity_id, designator_code, designator_power, designator_wavelength, designator_spot_wrt_designated, designator_spot_location, dead_reckoning_algorithm, padding, padding2, entity_linear_acceleration) -/
def DesignatorPdu.definition : Definition where
  type := ⟨24, by decide⟩
  family := ⟨6, by decide⟩
  fields := [.of EntityId,
    .of DesignatorSystemName,
    .of EntityId,
    .of DesignatorCode,
    .of F32,
    .of F32,
    .of EntityCoordinateVector,
    .of WorldCoordinate,
    .of DeadReckoningAlgorithm,
    .byte,
    .of UInt16,
    .of LinearAcceleration]
  resolved := trivial
/-- the structure of src/distributed_emissions.rs:53-75 from its fields in order -/
def DesignatorPdu.ofFields : DesignatorPdu.definition.Body → DesignatorPdu :=
  fun (x0, x1, x2, x3, x4, x5, x6, x7, x8, x9, x10, x11, ()) => ⟨x0, x1, x2, x3, x4, x5, x6, x7, x8, x9, x10, x11⟩
/-- the fields of src/distributed_emissions.rs:53-75 in order -/
def DesignatorPdu.toFields (x : DesignatorPdu) : DesignatorPdu.definition.Body :=
  (x.designating_entity_id, x.code_name, x.designated_entity_id, x.designator_code, x.designator_power, x.designator_wavelength, x.designator_spot_wrt_designated, x.designator_spot_location, x.dead_reckoning_algorithm, x.padding, x.padding2, x.entity_linear_acceleration, ())

/-- src/distributed_emissions.rs:77-99: one entry per field line (emitting_entity_id, event_id, state_change_update_indicator, padding, passive_parameter_index, propulsion_plant_configuration, number_of_shafts, number_of_apas, number_of_ua_emitter_systems, shaft_rpms, apa_data, emitter_systems) -/
def UnderwaterAcousticPdu.definition : Definition where
  type := ⟨29, by decide⟩
  family := ⟨6, by decide⟩
  fields := [.of EntityId,
    .of EventId,
    .of UAStateChangeUpdateIndicator,
    .byte,
    .of UAPassiveParameterIndex,
    .byte,
    .byte,
    .byte,
    .byte,
    .of (List ShaftRPMs),
    .of (List ApaData),
    .of (List AcousticEmitterSystem)]
  resolved := trivial
/-- the structure of src/distributed_emissions.rs:77-99 from its fields in order -/
def UnderwaterAcousticPdu.ofFields : UnderwaterAcousticPdu.definition.Body → UnderwaterAcousticPdu :=
  fun (x0, x1, x2, x3, x4, x5, x6, x7, x8, x9, x10, x11, ()) => ⟨x0, x1, x2, x3, x4, x5, x6, x7, x8, x9, x10, x11⟩
/-- the fields of src/distributed_emissions.rs:77-99 in order -/
def UnderwaterAcousticPdu.toFields (x : UnderwaterAcousticPdu) : UnderwaterAcousticPdu.definition.Body :=
  (x.emitting_entity_id, x.event_id, x.state_change_update_indicator, x.padding, x.passive_parameter_index, x.propulsion_plant_configuration, x.number_of_shafts, x.number_of_apas, x.number_of_ua_emitter_systems, x.shaft_rpms, x.apa_data, x.emitter_systems, ())

/-- src/distributed_emissions.rs:101-122: one entry per field line (emitting_entity_id, event_id, relative_antenna_location, system_id, system_designator, system_specific_data, fundamental_operational_data, layer_header, beam_data, secondary_operational_data, iff_parameters) -/
def IFFPdu.definition : Definition where
  type := ⟨28, by decide⟩
  family := ⟨6, by decide⟩
  fields := [.of EntityId,
    .of EventId,
    .of EntityCoordinateVector,
    .of SystemId,
    .byte,
    .byte,
    .of FundamentalOperationalData,
    .of LayerHeader,
    .of BeamData,
    .of SecondaryOperationalData,
    .of (List IFFFundamentalParameterData)]
  resolved := trivial
/-- the structure of src/distributed_emissions.rs:101-122 from its fields in order -/
def IFFPdu.ofFields : IFFPdu.definition.Body → IFFPdu :=
  fun (x0, x1, x2, x3, x4, x5, x6, x7, x8, x9, x10, ()) => ⟨x0, x1, x2, x3, x4, x5, x6, x7, x8, x9, x10⟩
/-- the fields of src/distributed_emissions.rs:101-122 in order -/
def IFFPdu.toFields (x : IFFPdu) : IFFPdu.definition.Body :=
  (x.emitting_entity_id, x.event_id, x.relative_antenna_location, x.system_id, x.system_designator, x.system_specific_data, x.fundamental_operational_data, x.layer_header, x.beam_data, x.secondary_operational_data, x.iff_parameters, ())

/-- src/distributed_emissions.rs:124-142: one entry per field line (originating_entity_id, infrared_signature_representation_index, acoustic_signature_representation_index, radar_cross_section_signature_representation_index, number_of_propulsion_systems, number_of_vectoring_nozzle_systems, propulsion_system_data, vectoring_nozzle_system_data) -/
def SupplementalEmissionPdu.definition : Definition where
  type := ⟨30, by decide⟩
  family := ⟨6, by decide⟩
  fields := [.of EntityId,
    .of UInt16,
    .of UInt16,
    .of UInt16,
    .of UInt16,
    .of UInt16,
    .of (List PropulsionSystemData),
    .of (List VectoringNozzleSystemData)]
  resolved := trivial
/-- the structure of src/distributed_emissions.rs:124-142 from its fields in order -/
def SupplementalEmissionPdu.ofFields : SupplementalEmissionPdu.definition.Body → SupplementalEmissionPdu :=
  fun (x0, x1, x2, x3, x4, x5, x6, x7, ()) => ⟨x0, x1, x2, x3, x4, x5, x6, x7⟩
/-- the fields of src/distributed_emissions.rs:124-142 in order -/
def SupplementalEmissionPdu.toFields (x : SupplementalEmissionPdu) : SupplementalEmissionPdu.definition.Body :=
  (x.originating_entity_id, x.infrared_signature_representation_index, x.acoustic_signature_representation_index, x.radar_cross_section_signature_representation_index, x.number_of_propulsion_systems, x.number_of_vectoring_nozzle_systems, x.propulsion_system_data, x.vectoring_nozzle_system_data, ())

/-- src/entity_information.rs:29-52: one entry per field line (entity_id, force_id, number_of_articulation_parameters, entity_type, alternative_entity_type, entity_linear_velocity, entity_location, entity_orientation, entity_appearance, dead_reckoning_parameters, entity_marking, entity_capabilities, articulation_parameter) -/
def EntityStatePdu.definition : Definition where
  type := ⟨1, by decide⟩
  family := ⟨1, by decide⟩
  fields := [.of EntityId,
    .of ForceId,
    .byte,
    .of EntityType,
    .of EntityType,
    .of LinearVelocity,
    .of WorldCoordinate,
    .of EulerAngles,
    .of UInt32,
    .of DeadReckoningParameters,
    .of EntityMarking,
    .of EntityCapabilities,
    .of (List VariableParameter)]
  resolved := trivial
/-- the structure of src/entity_information.rs:29-52 from its fields in order -/
def EntityStatePdu.ofFields : EntityStatePdu.definition.Body → EntityStatePdu :=
  fun (x0, x1, x2, x3, x4, x5, x6, x7, x8, x9, x10, x11, x12, ()) => ⟨x0, x1, x2, x3, x4, x5, x6, x7, x8, x9, x10, x11, x12⟩
/-- the fields of src/entity_information.rs:29-52 in order -/
def EntityStatePdu.toFields (x : EntityStatePdu) : EntityStatePdu.definition.Body :=
  (x.entity_id, x.force_id, x.number_of_articulation_parameters, x.entity_type, x.alternative_entity_type, x.entity_linear_velocity, x.entity_location, x.entity_orientation, x.entity_appearance, x.dead_reckoning_parameters, x.entity_marking, x.entity_capabilities, x.articulation_parameter, ())

/-- src/entity_information.rs:54-72: one entry per field line (issuing_entity_id, colliding_entity_id, event_id, collision_type, padding, velocity, mass, location_wrt_entity) -/
def CollisionPdu.definition : Definition where
  type := ⟨4, by decide⟩
  family := ⟨1, by decide⟩
  fields := [.of EntityId,
    .of EntityId,
    .of EventId,
    .byte,
    .byte,
    .of LinearVelocity,
    .of F32,
    .of EntityCoordinateVector]
  resolved := trivial
/-- the structure of src/entity_information.rs:54-72 from its fields in order -/
def CollisionPdu.ofFields : CollisionPdu.definition.Body → CollisionPdu :=
  fun (x0, x1, x2, x3, x4, x5, x6, x7, ()) => ⟨x0, x1, x2, x3, x4, x5, x6, x7⟩
/-- the fields of src/entity_information.rs:54-72 in order -/
def CollisionPdu.toFields (x : CollisionPdu) : CollisionPdu.definition.Body :=
  (x.issuing_entity_id, x.colliding_entity_id, x.event_id, x.collision_type, x.padding, x.velocity, x.mass, x.location_wrt_entity, ())

/-- src/entity_information.rs:74-99: one entry per field line (issuing_entity_id, colliding_entity_id, event_id, padding, contact_velocity, mass, location_of_impact, collision_intermediate_result_xx, collision_intermediate_result_xy, collision_intermediate_result_xz, collision_intermediate_result_yy, collision_intermediate_result_yz, collision_intermediate_result_zz, unit_surface_normal, coefficient_of_restitution) -/
def CollisionElasticPdu.definition : Definition where
  type := ⟨66, by decide⟩
  family := ⟨1, by decide⟩
  fields := [.of EntityId,
    .of EntityId,
    .of EventId,
    .of UInt16,
    .of LinearVelocity,
    .of F32,
    .of EntityCoordinateVector,
    .of F32,
    .of F32,
    .of F32,
    .of F32,
    .of F32,
    .of F32,
    .of EntityCoordinateVector,
    .of F32]
  resolved := trivial
/-- the structure of src/entity_information.rs:74-99 from its fields in order -/
def CollisionElasticPdu.ofFields : CollisionElasticPdu.definition.Body → CollisionElasticPdu :=
  fun (x0, x1, x2, x3, x4, x5, x6, x7, x8, x9, x10, x11, x12, x13, x14, ()) => ⟨x0, x1, x2, x3, x4, x5, x6, x7, x8, x9, x10, x11, x12, x13, x14⟩
/-- the fields of src/entity_information.rs:74-99 in order -/
def CollisionElasticPdu.toFields (x : CollisionElasticPdu) : CollisionElasticPdu.definition.Body :=
  (x.issuing_entity_id, x.colliding_entity_id, x.event_id, x.padding, x.contact_velocity, x.mass, x.location_of_impact, x.collision_intermediate_result_xx, x.collision_intermediate_result_xy, x.collision_intermediate_result_xz, x.collision_intermediate_result_yy, x.collision_intermediate_result_yz, x.collision_intermediate_result_zz, x.unit_surface_normal, x.coefficient_of_restitution, ())

/-- src/entity_information.rs:101-119: one entry per field line (entity_id, padding, number_of_variable_parameters, entity_linear_velocity, entity_location, entity_orientation, entity_appearance, variable_parameter_records) -/
def EntityStateUpdatePdu.definition : Definition where
  type := ⟨67, by decide⟩
  family := ⟨1, by decide⟩
  fields := [.of EntityId,
    .byte,
    .byte,
    .of LinearVelocity,
    .of WorldCoordinate,
    .of EulerAngles,
    .of UInt32,
    .of (List VariableParameter)]
  resolved := trivial
/-- the structure of src/entity_information.rs:101-119 from its fields in order -/
def EntityStateUpdatePdu.ofFields : EntityStateUpdatePdu.definition.Body → EntityStateUpdatePdu :=
  fun (x0, x1, x2, x3, x4, x5, x6, x7, ()) => ⟨x0, x1, x2, x3, x4, x5, x6, x7⟩
/-- the fields of src/entity_information.rs:101-119 in order -/
def EntityStateUpdatePdu.toFields (x : EntityStateUpdatePdu) : EntityStateUpdatePdu.definition.Body :=
  (x.entity_id, x.padding, x.number_of_variable_parameters, x.entity_linear_velocity, x.entity_location, x.entity_orientation, x.entity_appearance, x.variable_parameter_records, ())

/-- src/entity_information.rs:121-141: one entry per field line (originating_simulation_address, padding, padding2, attribute_record_pdu_type, attribute_record_protocol_version, master_attribute_record_type, action_code, padding3, number_of_attribute_record_sets, attribute_record_sets) -/
def AttributePdu.definition : Definition where
  type := ⟨72, by decide⟩
  family := ⟨1, by decide⟩
  fields := [.of SimulationAddress,
    .of UInt32,
    .of UInt16,
    .byte,
    .byte,
    .of UInt32,
    .of DISAttributeActionCode,
    .byte,
    .of UInt16,
    .of (List AttributeRecordSet)]
  resolved := trivial
/-- the structure of src/entity_information.rs:121-141 from its fields in order -/
def AttributePdu.ofFields : AttributePdu.definition.Body → AttributePdu :=
  fun (x0, x1, x2, x3, x4, x5, x6, x7, x8, x9, ()) => ⟨x0, x1, x2, x3, x4, x5, x6, x7, x8, x9⟩
/-- the fields of src/entity_information.rs:121-141 in order -/
def AttributePdu.toFields (x : AttributePdu) : AttributePdu.definition.Body :=
  (x.originating_simulation_address, x.padding, x.padding2, x.attribute_record_pdu_type, x.attribute_record_protocol_version, x.master_attribute_record_type, x.action_code, x.padding3, x.number_of_attribute_record_sets, x.attribute_record_sets, ())

/-- src/entity_management.rs:30-61: one entry per field line (aggregate_id, force_id, aggregate_state, aggregate_type, formation, aggregate_marking, dimensions, orientation, center_of_mass, velocity, number_of_dis_aggregates, number_of_dis_entities, number_of_silent_aggregate_types, number_of_silent_entity_types, aggregate_id_list, entity_id_list, padding, silent_aggregate_system_list, silent_entity_system_list, number_of_variable_datum_records, variable_datum_list) -/
def AggregateStatePdu.definition : Definition where
  type := ⟨33, by decide⟩
  family := ⟨7, by decide⟩
  fields := [.of AggregateId,
    .of ForceId,
    .of AggregateStateAggregateState,
    .of EntityType,
    .of AggregateStateFormation,
    .of AggregateMarking,
    .of Vector3Float,
    .of EulerAngles,
    .of WorldCoordinate,
    .of LinearVelocity,
    .of UInt16,
    .of UInt16,
    .of UInt16,
    .of UInt16,
    .of (List AggregateId),
    .of (List EntityId),
    .of (List UInt8),
    .of (List EntityType),
    .of (List EntityType),
    .of UInt32,
    .of (List VariableDatumRecord)]
  resolved := trivial
/-- the structure of src/entity_management.rs:30-61 from its fields in order -/
def AggregateStatePdu.ofFields : AggregateStatePdu.definition.Body → AggregateStatePdu :=
  fun (x0, x1, x2, x3, x4, x5, x6, x7, x8, x9, x10, x11, x12, x13, x14, x15, x16, x17, x18, x19, x20, ()) => ⟨x0, x1, x2, x3, x4, x5, x6, x7, x8, x9, x10, x11, x12, x13, x14, x15, x16, x17, x18, x19, x20⟩
/-- the fields of src/entity_management.rs:30-61 in order -/
def AggregateStatePdu.toFields (x : AggregateStatePdu) : AggregateStatePdu.definition.Body :=
  (x.aggregate_id, x.force_id, x.aggregate_state, x.aggregate_type, x.formation, x.aggregate_marking, x.dimensions, x.orientation, x.center_of_mass, x.velocity, x.number_of_dis_aggregates, x.number_of_dis_entities, x.number_of_silent_aggregate_types, x.number_of_silent_entity_types, x.aggregate_id_list, x.entity_id_list, x.padding, x.silent_aggregate_system_list, x.silent_entity_system_list, x.number_of_variable_datum_records, x.variable_datum_list, ())

/-- src/entity_management.rs:63-80: one entry per field line (group_entity_id, grouped_entity_category, number_of_grouped_entities, padding, latitude, longitude, grouped_entity_descriptions) -/
def IsGroupOfPdu.definition : Definition where
  type := ⟨34, by decide⟩
  family := ⟨7, by decide⟩
  fields := [.of EntityId,
    .of IsGroupOfGroupedEntityCategory,
    .byte,
    .of UInt32,
    .of F64,
    .of F64,
    .of (List UInt64)]
  resolved := trivial
/-- the structure of src/entity_management.rs:63-80 from its fields in order -/
def IsGroupOfPdu.ofFields : IsGroupOfPdu.definition.Body → IsGroupOfPdu :=
  fun (x0, x1, x2, x3, x4, x5, x6, ()) => ⟨x0, x1, x2, x3, x4, x5, x6⟩
/-- the fields of src/entity_management.rs:63-80 in order -/
def IsGroupOfPdu.toFields (x : IsGroupOfPdu) : IsGroupOfPdu.definition.Body :=
  (x.group_entity_id, x.grouped_entity_category, x.number_of_grouped_entities, x.padding, x.latitude, x.longitude, x.grouped_entity_descriptions, ())

/-- src/entity_management.rs:82-99: one entry per field line (originating_id, receiving_id, request_id, required_reliability_service, transfer_type, transfer_entity_id, record_information) -/
def TransferOwnershipPdu.definition : Definition where
  type := ⟨35, by decide⟩
  family := ⟨7, by decide⟩
  fields := [.of SimulationIdentifier,
    .of SimulationIdentifier,
    .of UInt32,
    .of RequiredReliabilityService,
    .of TransferControlTransferType,
    .of EntityId,
    .of RecordSpecification]
  resolved := trivial
/-- the structure of src/entity_management.rs:82-99 from its fields in order -/
def TransferOwnershipPdu.ofFields : TransferOwnershipPdu.definition.Body → TransferOwnershipPdu :=
  fun (x0, x1, x2, x3, x4, x5, x6, ()) => ⟨x0, x1, x2, x3, x4, x5, x6⟩
/-- the fields of src/entity_management.rs:82-99 in order -/
def TransferOwnershipPdu.toFields (x : TransferOwnershipPdu) : TransferOwnershipPdu.definition.Body :=
  (x.originating_id, x.receiving_id, x.request_id, x.required_reliability_service, x.transfer_type, x.transfer_entity_id, x.record_information, ())

/-- src/entity_management.rs:101-117: one entry per field line (originating_entity_id, receiving_entity_id, relationship, part_location, named_location_id, part_entity_type) -/
def IsPartOfPdu.definition : Definition where
  type := ⟨36, by decide⟩
  family := ⟨7, by decide⟩
  fields := [.of EntityId,
    .of EntityId,
    .of Relationship,
    .of Vector3Float,
    .of NamedLocation,
    .of EntityType]
  resolved := trivial
/-- the structure of src/entity_management.rs:101-117 from its fields in order -/
def IsPartOfPdu.ofFields : IsPartOfPdu.definition.Body → IsPartOfPdu :=
  fun (x0, x1, x2, x3, x4, x5, ()) => ⟨x0, x1, x2, x3, x4, x5⟩
/-- the fields of src/entity_management.rs:101-117 in order -/
def IsPartOfPdu.toFields (x : IsPartOfPdu) : IsPartOfPdu.definition.Body :=
  (x.originating_entity_id, x.receiving_entity_id, x.relationship, x.part_location, x.named_location_id, x.part_entity_type, ())

/-- src/information_operations.rs:25-44: one entry per field line (originating_simulation_id, io_simulation_source, io_report_type, padding, io_attacker_entity_id, primary_target_entity_id, padding2, padding3, io_records) -/
def InformationOperationsReportPdu.definition : Definition where
  type := ⟨71, by decide⟩
  family := ⟨13, by decide⟩
  fields := [.of SimulationIdentifier,
    .of IOActionIOSimulationSource,
    .of IOReportIOReportType,
    .byte,
    .of EntityId,
    .of EntityId,
    .of UInt16,
    .of UInt16,
    .of StandardVariableSpecification]
  resolved := trivial
/-- the structure of src/information_operations.rs:25-44 from its fields in order -/
def InformationOperationsReportPdu.ofFields : InformationOperationsReportPdu.definition.Body → InformationOperationsReportPdu :=
  fun (x0, x1, x2, x3, x4, x5, x6, x7, x8, ()) => ⟨x0, x1, x2, x3, x4, x5, x6, x7, x8⟩
/-- the fields of src/information_operations.rs:25-44 in order -/
def InformationOperationsReportPdu.toFields (x : InformationOperationsReportPdu) : InformationOperationsReportPdu.definition.Body :=
  (x.originating_simulation_id, x.io_simulation_source, x.io_report_type, x.padding, x.io_attacker_entity_id, x.primary_target_entity_id, x.padding2, x.padding3, x.io_records, ())

/-- src/information_operations.rs:46-68: one entry per field line (originating_simulation_id, receiving_simulation_id, request_id, io_warfare_type, io_simulation_source, io_action_type, io_action_phase, padding, io_attacker_entity_id, io_primary_target_entity_id, padding2, io_records) -/
def InformationOperationsActionPdu.definition : Definition where
  type := ⟨70, by decide⟩
  family := ⟨13, by decide⟩
  fields := [.of SimulationIdentifier,
    .of SimulationIdentifier,
    .of UInt32,
    .of IOActionIOWarfareType,
    .of IOActionIOSimulationSource,
    .of IOActionIOActionType,
    .of IOActionIOActionPhase,
    .of UInt32,
    .of EntityId,
    .of EntityId,
    .of UInt16,
    .of StandardVariableSpecification]
  resolved := trivial
/-- the structure of src/information_operations.rs:46-68 from its fields in order -/
def InformationOperationsActionPdu.ofFields : InformationOperationsActionPdu.definition.Body → InformationOperationsActionPdu :=
  fun (x0, x1, x2, x3, x4, x5, x6, x7, x8, x9, x10, x11, ()) => ⟨x0, x1, x2, x3, x4, x5, x6, x7, x8, x9, x10, x11⟩
/-- the fields of src/information_operations.rs:46-68 in order -/
def InformationOperationsActionPdu.toFields (x : InformationOperationsActionPdu) : InformationOperationsActionPdu.definition.Body :=
  (x.originating_simulation_id, x.receiving_simulation_id, x.request_id, x.io_warfare_type, x.io_simulation_source, x.io_action_type, x.io_action_phase, x.padding, x.io_attacker_entity_id, x.io_primary_target_entity_id, x.padding2, x.io_records, ())

/-- src/logistics.rs:22-38: one entry per field line (receiving_entity_id, servicing_entity_id, service_type_requested, number_of_supply_types, padding, supplies) -/
def ServiceRequestPdu.definition : Definition where
  type := ⟨5, by decide⟩
  family := ⟨3, by decide⟩
  fields := [.of EntityId,
    .of EntityId,
    .of ServiceRequestServiceTypeRequested,
    .byte,
    .of UInt16,
    .of (List SupplyQuantity)]
  resolved := trivial
/-- the structure of src/logistics.rs:22-38 from its fields in order -/
def ServiceRequestPdu.ofFields : ServiceRequestPdu.definition.Body → ServiceRequestPdu :=
  fun (x0, x1, x2, x3, x4, x5, ()) => ⟨x0, x1, x2, x3, x4, x5⟩
/-- the fields of src/logistics.rs:22-38 in order -/
def ServiceRequestPdu.toFields (x : ServiceRequestPdu) : ServiceRequestPdu.definition.Body :=
  (x.receiving_entity_id, x.servicing_entity_id, x.service_type_requested, x.number_of_supply_types, x.padding, x.supplies, ())

/-- src/logistics.rs:40-56: one entry per field line (receiving_entity_id, supplying_entity_id, number_of_supply_types, padding, padding2, supplies) -/
def ResupplyOfferPdu.definition : Definition where
  type := ⟨6, by decide⟩
  family := ⟨3, by decide⟩
  fields := [.of EntityId,
    .of EntityId,
    .byte,
    .byte,
    .of UInt16,
    .of (List SupplyQuantity)]
  resolved := trivial
/-- the structure of src/logistics.rs:40-56 from its fields in order -/
def ResupplyOfferPdu.ofFields : ResupplyOfferPdu.definition.Body → ResupplyOfferPdu :=
  fun (x0, x1, x2, x3, x4, x5, ()) => ⟨x0, x1, x2, x3, x4, x5⟩
/-- the fields of src/logistics.rs:40-56 in order -/
def ResupplyOfferPdu.toFields (x : ResupplyOfferPdu) : ResupplyOfferPdu.definition.Body :=
  (x.receiving_entity_id, x.supplying_entity_id, x.number_of_supply_types, x.padding, x.padding2, x.supplies, ())

/-- src/logistics.rs:58-74: one entry per field line (receiving_entity_id, supplying_entity_id, number_of_supply_types, padding, padding2, supplies) -/
def ResupplyReceivedPdu.definition : Definition where
  type := ⟨7, by decide⟩
  family := ⟨3, by decide⟩
  fields := [.of EntityId,
    .of EntityId,
    .byte,
    .byte,
    .of UInt16,
    .of (List SupplyQuantity)]
  resolved := trivial
/-- the structure of src/logistics.rs:58-74 from its fields in order -/
def ResupplyReceivedPdu.ofFields : ResupplyReceivedPdu.definition.Body → ResupplyReceivedPdu :=
  fun (x0, x1, x2, x3, x4, x5, ()) => ⟨x0, x1, x2, x3, x4, x5⟩
/-- the fields of src/logistics.rs:58-74 in order -/
def ResupplyReceivedPdu.toFields (x : ResupplyReceivedPdu) : ResupplyReceivedPdu.definition.Body :=
  (x.receiving_entity_id, x.supplying_entity_id, x.number_of_supply_types, x.padding, x.padding2, x.supplies, ())

/-- src/logistics.rs:76-88: one entry per field line (receiving_entity_id, supplying_entity_id) -/
def ResupplyCancelPdu.definition : Definition where
  type := ⟨8, by decide⟩
  family := ⟨3, by decide⟩
  fields := [.of EntityId,
    .of EntityId]
  resolved := trivial
/-- the structure of src/logistics.rs:76-88 from its fields in order -/
def ResupplyCancelPdu.ofFields : ResupplyCancelPdu.definition.Body → ResupplyCancelPdu :=
  fun (x0, x1, ()) => ⟨x0, x1⟩
/-- the fields of src/logistics.rs:76-88 in order -/
def ResupplyCancelPdu.toFields (x : ResupplyCancelPdu) : ResupplyCancelPdu.definition.Body :=
  (x.receiving_entity_id, x.supplying_entity_id, ())

/-- src/logistics.rs:90-104: one entry per field line (receiving_entity_id, repairing_entity_id, repair, padding) -/
def RepairCompletePdu.definition : Definition where
  type := ⟨9, by decide⟩
  family := ⟨3, by decide⟩
  fields := [.of EntityId,
    .of EntityId,
    .of RepairCompleteRepair,
    .of UInt16]
  resolved := trivial
/-- the structure of src/logistics.rs:90-104 from its fields in order -/
def RepairCompletePdu.ofFields : RepairCompletePdu.definition.Body → RepairCompletePdu :=
  fun (x0, x1, x2, x3, ()) => ⟨x0, x1, x2, x3⟩
/-- the fields of src/logistics.rs:90-104 in order -/
def RepairCompletePdu.toFields (x : RepairCompletePdu) : RepairCompletePdu.definition.Body :=
  (x.receiving_entity_id, x.repairing_entity_id, x.repair, x.padding, ())

/-- src/logistics.rs:106-121: one entry per field line (receiving_entity_id, repairing_entity_id, repair_result, padding, padding2) -/
def RepairResponsePdu.definition : Definition where
  type := ⟨10, by decide⟩
  family := ⟨3, by decide⟩
  fields := [.of EntityId,
    .of EntityId,
    .of RepairResponseRepairResult,
    .byte,
    .of UInt16]
  resolved := trivial
/-- the structure of src/logistics.rs:106-121 from its fields in order -/
def RepairResponsePdu.ofFields : RepairResponsePdu.definition.Body → RepairResponsePdu :=
  fun (x0, x1, x2, x3, x4, ()) => ⟨x0, x1, x2, x3, x4⟩
/-- the fields of src/logistics.rs:106-121 in order -/
def RepairResponsePdu.toFields (x : RepairResponsePdu) : RepairResponsePdu.definition.Body :=
  (x.receiving_entity_id, x.repairing_entity_id, x.repair_result, x.padding, x.padding2, ())

/-- src/minefield.rs:23-45: one entry per field line (minefield_id, minefield_sequence, force_id, number_of_perimeter_points, minefield_type, number_of_mine_types, minefield_location, minefield_orientation, appearance, protocol_mode, perimeter_points, mine_type) -/
def MinefieldStatePdu.definition : Definition where
  type := ⟨37, by decide⟩
  family := ⟨8, by decide⟩
  fields := [.of MinefieldIdentifier,
    .of UInt16,
    .of ForceId,
    .byte,
    .of EntityType,
    .of UInt16,
    .of WorldCoordinate,
    .of EulerAngles,
    .of UInt16,
    .of MinefieldStateProtocolMode,
    .of (List Point),
    .of (List EntityType)]
  resolved := trivial
/-- the structure of src/minefield.rs:23-45 from its fields in order -/
def MinefieldStatePdu.ofFields : MinefieldStatePdu.definition.Body → MinefieldStatePdu :=
  fun (x0, x1, x2, x3, x4, x5, x6, x7, x8, x9, x10, x11, ()) => ⟨x0, x1, x2, x3, x4, x5, x6, x7, x8, x9, x10, x11⟩
/-- the fields of src/minefield.rs:23-45 in order -/
def MinefieldStatePdu.toFields (x : MinefieldStatePdu) : MinefieldStatePdu.definition.Body :=
  (x.minefield_id, x.minefield_sequence, x.force_id, x.number_of_perimeter_points, x.minefield_type, x.number_of_mine_types, x.minefield_location, x.minefield_orientation, x.appearance, x.protocol_mode, x.perimeter_points, x.mine_type, ())

/-- src/minefield.rs:47-67: one entry per field line (minefield_id, requesting_entity_id, request_id, number_of_perimeter_points, padding, number_of_sensor_types, data_filter, requested_mine_type, requested_perimeter_points, sensor_types) -/
def MinefieldQueryPdu.definition : Definition where
  type := ⟨38, by decide⟩
  family := ⟨8, by decide⟩
  fields := [.of MinefieldIdentifier,
    .of EntityId,
    .byte,
    .byte,
    .byte,
    .byte,
    .of UInt32,
    .of EntityType,
    .of (List Point),
    .of (List MinefieldSensorTypes)]
  resolved := trivial
/-- the structure of src/minefield.rs:47-67 from its fields in order -/
def MinefieldQueryPdu.ofFields : MinefieldQueryPdu.definition.Body → MinefieldQueryPdu :=
  fun (x0, x1, x2, x3, x4, x5, x6, x7, x8, x9, ()) => ⟨x0, x1, x2, x3, x4, x5, x6, x7, x8, x9⟩
/-- the fields of src/minefield.rs:47-67 in order -/
def MinefieldQueryPdu.toFields (x : MinefieldQueryPdu) : MinefieldQueryPdu.definition.Body :=
  (x.minefield_id, x.requesting_entity_id, x.request_id, x.number_of_perimeter_points, x.padding, x.number_of_sensor_types, x.data_filter, x.requested_mine_type, x.requested_perimeter_points, x.sensor_types, ())

/-- src/minefield.rs:69-106: one entry per field line (minefield_id, requesting_entity_id, minefield_sequence_number, request_id, pdu_sequence_number, number_of_pdus, number_of_mines_in_this_pdu, number_of_sensor_types, padding, data_filter, mine_type, sensor_types, mine_location, ground_burial_depth_offset, water_burial_depth_offset, snow_burial_depth_offset, mine_orientation, thermal_contrast, reflectance, mine_emplacement_time, mine_entity_id, fusing, scalar_detection_coefficient, paint_scheme, number_of_trip_wires, number_of_vertices, vertices) -/
def MinefieldDataPdu.definition : Definition where
  type := ⟨39, by decide⟩
  family := ⟨8, by decide⟩
  fields := [.of MinefieldIdentifier,
    .of EntityId,
    .of UInt16,
    .byte,
    .byte,
    .byte,
    .byte,
    .byte,
    .byte,
    .of UInt32,
    .of EntityType,
    .of (List MinefieldSensorTypes),
    .of (List EntityCoordinateVector),
    .of (List (Option F32)),
    .of (List (Option F32)),
    .of (List (Option F32)),
    .of (List (Option EulerAngles)),
    .of (List (Option F32)),
    .of (List (Option F32)),
    .of (List (Option ClockTime)),
    .of (List (Option UInt16)),
    .of (List (Option UInt16)),
    .of (List (Option UInt8)),
    .of (List (Option UInt8)),
    .of (List (Option UInt8)),
    .of (List (Option UInt8)),
    .of (List (Option (List EntityCoordinateVector)))]
  resolved := trivial
/-- the structure of src/minefield.rs:69-106 from its fields in order -/
def MinefieldDataPdu.ofFields : MinefieldDataPdu.definition.Body → MinefieldDataPdu :=
  fun (x0, x1, x2, x3, x4, x5, x6, x7, x8, x9, x10, x11, x12, x13, x14, x15, x16, x17, x18, x19, x20, x21, x22, x23, x24, x25, x26, ()) => ⟨x0, x1, x2, x3, x4, x5, x6, x7, x8, x9, x10, x11, x12, x13, x14, x15, x16, x17, x18, x19, x20, x21, x22, x23, x24, x25, x26⟩
/-- the fields of src/minefield.rs:69-106 in order -/
def MinefieldDataPdu.toFields (x : MinefieldDataPdu) : MinefieldDataPdu.definition.Body :=
  (x.minefield_id, x.requesting_entity_id, x.minefield_sequence_number, x.request_id, x.pdu_sequence_number, x.number_of_pdus, x.number_of_mines_in_this_pdu, x.number_of_sensor_types, x.padding, x.data_filter, x.mine_type, x.sensor_types, x.mine_location, x.ground_burial_depth_offset, x.water_burial_depth_offset, x.snow_burial_depth_offset, x.mine_orientation, x.thermal_contrast, x.reflectance, x.mine_emplacement_time, x.mine_entity_id, x.fusing, x.scalar_detection_coefficient, x.paint_scheme, x.number_of_trip_wires, x.number_of_vertices, x.vertices, ())

/-- src/minefield.rs:108-123: one entry per field line (minefield_id, requesting_entity_id, request_id, number_of_missing_pdus, missing_pdu_sequence_numbers) -/
def MinefieldResponseNackPdu.definition : Definition where
  type := ⟨40, by decide⟩
  family := ⟨8, by decide⟩
  fields := [.of EntityId,
    .of EntityId,
    .byte,
    .byte,
    .of (List UInt64)]
  resolved := trivial
/-- the structure of src/minefield.rs:108-123 from its fields in order -/
def MinefieldResponseNackPdu.ofFields : MinefieldResponseNackPdu.definition.Body → MinefieldResponseNackPdu :=
  fun (x0, x1, x2, x3, x4, ()) => ⟨x0, x1, x2, x3, x4⟩
/-- the fields of src/minefield.rs:108-123 in order -/
def MinefieldResponseNackPdu.toFields (x : MinefieldResponseNackPdu) : MinefieldResponseNackPdu.definition.Body :=
  (x.minefield_id, x.requesting_entity_id, x.request_id, x.number_of_missing_pdus, x.missing_pdu_sequence_numbers, ())

/-- src/radio_communications.rs:32-65: one entry per field line (entity_id, radio_id, radio_entity_type, transmit_state, input_source, number_of_variable_transmitter_parameters_records, antenna_location, relative_antenna_location, antenna_pattern_type, antenna_pattern_length, frequency, transmit_frequency_bandwidth, power, modulation_type, crypto_system, crypto_key_id, modulation_parameter_length, padding, padding2, modulation_parameters, antenna_pattern, variable_transmitter_parameters) -/
def TransmitterPdu.definition : Definition where
  type := ⟨25, by decide⟩
  family := ⟨4, by decide⟩
  fields := [.of EntityId,
    .of UInt16,
    .of RadioEntityType,
    .of TransmitterTransmitState,
    .of TransmitterInputSource,
    .of UInt16,
    .of WorldCoordinate,
    .of EntityCoordinateVector,
    .of TransmitterAntennaPatternType,
    .of UInt16,
    .of UInt64,
    .of F32,
    .of F32,
    .of ModulationType,
    .of TransmitterCryptoSystem,
    .of UInt16,
    .byte,
    .byte,
    .of UInt16,
    .ofLen (Option ModulationParameters) 16,
    .of (Option AntennaPattern),
    .of (List VariableTransmitterParameters)]
  resolved := ⟨rfl, trivial⟩
/-- the structure of src/radio_communications.rs:32-65 from its fields in order -/
def TransmitterPdu.ofFields : TransmitterPdu.definition.Body → TransmitterPdu :=
  fun (x0, x1, x2, x3, x4, x5, x6, x7, x8, x9, x10, x11, x12, x13, x14, x15, x16, x17, x18, x19, x20, x21, ()) => ⟨x0, x1, x2, x3, x4, x5, x6, x7, x8, x9, x10, x11, x12, x13, x14, x15, x16, x17, x18, x19, x20, x21⟩
/-- the fields of src/radio_communications.rs:32-65 in order -/
def TransmitterPdu.toFields (x : TransmitterPdu) : TransmitterPdu.definition.Body :=
  (x.entity_id, x.radio_id, x.radio_entity_type, x.transmit_state, x.input_source, x.number_of_variable_transmitter_parameters_records, x.antenna_location, x.relative_antenna_location, x.antenna_pattern_type, x.antenna_pattern_length, x.frequency, x.transmit_frequency_bandwidth, x.power, x.modulation_type, x.crypto_system, x.crypto_key_id, x.modulation_parameter_length, x.padding, x.padding2, x.modulation_parameters, x.antenna_pattern, x.variable_transmitter_parameters, ())

/-- src/radio_communications.rs:67-85: one entry per field line (entity_id, radio_id, encoding_scheme, tdl_type, sample_rate, data_length, samples, data) -/
def SignalPdu.definition : Definition where
  type := ⟨26, by decide⟩
  family := ⟨4, by decide⟩
  fields := [.of EntityId,
    .of UInt16,
    .of UInt16,
    .of SignalTDLType,
    .of UInt32,
    .of UInt16,
    .of UInt16,
    .of (List UInt8)]
  resolved := trivial
/-- the structure of src/radio_communications.rs:67-85 from its fields in order -/
def SignalPdu.ofFields : SignalPdu.definition.Body → SignalPdu :=
  fun (x0, x1, x2, x3, x4, x5, x6, x7, ()) => ⟨x0, x1, x2, x3, x4, x5, x6, x7⟩
/-- the fields of src/radio_communications.rs:67-85 in order -/
def SignalPdu.toFields (x : SignalPdu) : SignalPdu.definition.Body :=
  (x.entity_id, x.radio_id, x.encoding_scheme, x.tdl_type, x.sample_rate, x.data_length, x.samples, x.data, ())

/-- src/radio_communications.rs:87-104: one entry per field line (entity_id, radio_id, receiver_state, padding, received_power, transmitter_radio_reference_id, transmitter_radio_id) -/
def ReceiverPdu.definition : Definition where
  type := ⟨27, by decide⟩
  family := ⟨4, by decide⟩
  fields := [.of EntityId,
    .of UInt16,
    .of ReceiverReceiverState,
    .of UInt16,
    .of F32,
    .of EntityId,
    .of UInt16]
  resolved := trivial
/-- the structure of src/radio_communications.rs:87-104 from its fields in order -/
def ReceiverPdu.ofFields : ReceiverPdu.definition.Body → ReceiverPdu :=
  fun (x0, x1, x2, x3, x4, x5, x6, ()) => ⟨x0, x1, x2, x3, x4, x5, x6⟩
/-- the fields of src/radio_communications.rs:87-104 in order -/
def ReceiverPdu.toFields (x : ReceiverPdu) : ReceiverPdu.definition.Body :=
  (x.entity_id, x.radio_id, x.receiver_state, x.padding, x.received_power, x.transmitter_radio_reference_id, x.transmitter_radio_id, ())

/-- src/radio_communications.rs:106-124: one entry per field line (intercom_reference_id, intercom_number, encoding_scheme, tdl_type, sample_rate, data_length, samples, data) -/
def IntercomSignalPdu.definition : Definition where
  type := ⟨31, by decide⟩
  family := ⟨4, by decide⟩
  fields := [.of EntityId,
    .of UInt16,
    .of UInt16,
    .of SignalTDLType,
    .of UInt32,
    .of UInt16,
    .of UInt16,
    .of (List UInt8)]
  resolved := trivial
/-- the structure of src/radio_communications.rs:106-124 from its fields in order -/
def IntercomSignalPdu.ofFields : IntercomSignalPdu.definition.Body → IntercomSignalPdu :=
  fun (x0, x1, x2, x3, x4, x5, x6, x7, ()) => ⟨x0, x1, x2, x3, x4, x5, x6, x7⟩
/-- the fields of src/radio_communications.rs:106-124 in order -/
def IntercomSignalPdu.toFields (x : IntercomSignalPdu) : IntercomSignalPdu.definition.Body :=
  (x.intercom_reference_id, x.intercom_number, x.encoding_scheme, x.tdl_type, x.sample_rate, x.data_length, x.samples, x.data, ())

/-- src/radio_communications.rs:126-149: one entry per field line (control_type, communications_channel_type, source_intercom_reference_id, source_intercom_number, source_line_id, transmit_priority, transmit_line_state, command, master_intercom_reference_id, master_intercom_number, master_channel_id, intercom_parameters_length, intercom_parameters) -/
def IntercomControlPdu.definition : Definition where
  type := ⟨32, by decide⟩
  family := ⟨4, by decide⟩
  fields := [.of IntercomControlControlType,
    .byte,
    .of EntityId,
    .of UInt16,
    .byte,
    .byte,
    .of IntercomControlTransmitLineState,
    .of IntercomControlCommand,
    .of EntityId,
    .of UInt16,
    .of UInt16,
    .of UInt32,
    .of (List IntercomCommunicationsParameters)]
  resolved := trivial
/-- the structure of src/radio_communications.rs:126-149 from its fields in order -/
def IntercomControlPdu.ofFields : IntercomControlPdu.definition.Body → IntercomControlPdu :=
  fun (x0, x1, x2, x3, x4, x5, x6, x7, x8, x9, x10, x11, x12, ()) => ⟨x0, x1, x2, x3, x4, x5, x6, x7, x8, x9, x10, x11, x12⟩
/-- the fields of src/radio_communications.rs:126-149 in order -/
def IntercomControlPdu.toFields (x : IntercomControlPdu) : IntercomControlPdu.definition.Body :=
  (x.control_type, x.communications_channel_type, x.source_intercom_reference_id, x.source_intercom_number, x.source_line_id, x.transmit_priority, x.transmit_line_state, x.command, x.master_intercom_reference_id, x.master_intercom_number, x.master_channel_id, x.intercom_parameters_length, x.intercom_parameters, ())

/-- src/simulation_management.rs:24-37: one entry per field line (originating_entity_id, receiving_entity_id, request_id) -/
def CreateEntityPdu.definition : Definition where
  type := ⟨11, by decide⟩
  family := ⟨5, by decide⟩
  fields := [.of EntityId,
    .of EntityId,
    .of UInt32]
  resolved := trivial
/-- the structure of src/simulation_management.rs:24-37 from its fields in order -/
def CreateEntityPdu.ofFields : CreateEntityPdu.definition.Body → CreateEntityPdu :=
  fun (x0, x1, x2, ()) => ⟨x0, x1, x2⟩
/-- the fields of src/simulation_management.rs:24-37 in order -/
def CreateEntityPdu.toFields (x : CreateEntityPdu) : CreateEntityPdu.definition.Body :=
  (x.originating_entity_id, x.receiving_entity_id, x.request_id, ())

/-- src/simulation_management.rs:39-52: one entry per field line (originating_entity_id, receiving_entity_id, request_id) -/
def RemoveEntityPdu.definition : Definition where
  type := ⟨12, by decide⟩
  family := ⟨5, by decide⟩
  fields := [.of EntityId,
    .of EntityId,
    .of UInt32]
  resolved := trivial
/-- the structure of src/simulation_management.rs:39-52 from its fields in order -/
def RemoveEntityPdu.ofFields : RemoveEntityPdu.definition.Body → RemoveEntityPdu :=
  fun (x0, x1, x2, ()) => ⟨x0, x1, x2⟩
/-- the fields of src/simulation_management.rs:39-52 in order -/
def RemoveEntityPdu.toFields (x : RemoveEntityPdu) : RemoveEntityPdu.definition.Body :=
  (x.originating_entity_id, x.receiving_entity_id, x.request_id, ())

/-- src/simulation_management.rs:54-69: one entry per field line (originating_entity_id, receiving_entity_id, real_world_time, simulation_time, request_id) -/
def StartResumePdu.definition : Definition where
  type := ⟨13, by decide⟩
  family := ⟨5, by decide⟩
  fields := [.of EntityId,
    .of EntityId,
    .of ClockTime,
    .of ClockTime,
    .of UInt32]
  resolved := trivial
/-- the structure of src/simulation_management.rs:54-69 from its fields in order -/
def StartResumePdu.ofFields : StartResumePdu.definition.Body → StartResumePdu :=
  fun (x0, x1, x2, x3, x4, ()) => ⟨x0, x1, x2, x3, x4⟩
/-- the fields of src/simulation_management.rs:54-69 in order -/
def StartResumePdu.toFields (x : StartResumePdu) : StartResumePdu.definition.Body :=
  (x.originating_entity_id, x.receiving_entity_id, x.real_world_time, x.simulation_time, x.request_id, ())

/-- src/simulation_management.rs:71-88: one entry per field line (originating_entity_id, receiving_entity_id, real_world_time, reason, frozen_behavior, padding, request_id) -/
def StopFreezePdu.definition : Definition where
  type := ⟨14, by decide⟩
  family := ⟨5, by decide⟩
  fields := [.of EntityId,
    .of EntityId,
    .of ClockTime,
    .of Reason,
    .of FrozenBehavior,
    .of UInt16,
    .of UInt32]
  resolved := trivial
/-- the structure of src/simulation_management.rs:71-88 from its fields in order -/
def StopFreezePdu.ofFields : StopFreezePdu.definition.Body → StopFreezePdu :=
  fun (x0, x1, x2, x3, x4, x5, x6, ()) => ⟨x0, x1, x2, x3, x4, x5, x6⟩
/-- the fields of src/simulation_management.rs:71-88 in order -/
def StopFreezePdu.toFields (x : StopFreezePdu) : StopFreezePdu.definition.Body :=
  (x.originating_entity_id, x.receiving_entity_id, x.real_world_time, x.reason, x.frozen_behavior, x.padding, x.request_id, ())

/-- src/simulation_management.rs:90-105: one entry per field line (originating_entity_id, receiving_entity_id, acknowledge_flag, response_flag, request_id) -/
def AcknowledgePdu.definition : Definition where
  type := ⟨15, by decide⟩
  family := ⟨5, by decide⟩
  fields := [.of EntityId,
    .of EntityId,
    .of AcknowledgeFlag,
    .of AcknowledgeResponseFlag,
    .of UInt32]
  resolved := trivial
/-- the structure of src/simulation_management.rs:90-105 from its fields in order -/
def AcknowledgePdu.ofFields : AcknowledgePdu.definition.Body → AcknowledgePdu :=
  fun (x0, x1, x2, x3, x4, ()) => ⟨x0, x1, x2, x3, x4⟩
/-- the fields of src/simulation_management.rs:90-105 in order -/
def AcknowledgePdu.toFields (x : AcknowledgePdu) : AcknowledgePdu.definition.Body :=
  (x.originating_entity_id, x.receiving_entity_id, x.acknowledge_flag, x.response_flag, x.request_id, ())

/-- src/simulation_management.rs:107-125: one entry per field line (originating_entity_id, receiving_entity_id, request_id, action_id, number_of_fixed_datum_records, number_of_variable_datum_records, fixed_datum_records, variable_datum_records) -/
def ActionRequestPdu.definition : Definition where
  type := ⟨16, by decide⟩
  family := ⟨5, by decide⟩
  fields := [.of EntityId,
    .of EntityId,
    .of UInt32,
    .of UInt32,
    .of UInt32,
    .of UInt32,
    .of (List FixedDatumRecord),
    .of (List VariableDatumRecord)]
  resolved := trivial
/-- the structure of src/simulation_management.rs:107-125 from its fields in order -/
def ActionRequestPdu.ofFields : ActionRequestPdu.definition.Body → ActionRequestPdu :=
  fun (x0, x1, x2, x3, x4, x5, x6, x7, ()) => ⟨x0, x1, x2, x3, x4, x5, x6, x7⟩
/-- the fields of src/simulation_management.rs:107-125 in order -/
def ActionRequestPdu.toFields (x : ActionRequestPdu) : ActionRequestPdu.definition.Body :=
  (x.originating_entity_id, x.receiving_entity_id, x.request_id, x.action_id, x.number_of_fixed_datum_records, x.number_of_variable_datum_records, x.fixed_datum_records, x.variable_datum_records, ())

/-- src/simulation_management.rs:127-145: one entry per field line (originating_entity_id, receiving_entity_id, request_id, request_status, number_of_fixed_datum_records, number_of_variable_datum_records, fixed_datum_records, variable_datum_records) -/
def ActionResponsePdu.definition : Definition where
  type := ⟨17, by decide⟩
  family := ⟨5, by decide⟩
  fields := [.of EntityId,
    .of EntityId,
    .of UInt32,
    .of ActionResponseRequestStatus,
    .of UInt32,
    .of UInt32,
    .of (List FixedDatumRecord),
    .of (List VariableDatumRecord)]
  resolved := trivial
/-- the structure of src/simulation_management.rs:127-145 from its fields in order -/
def ActionResponsePdu.ofFields : ActionResponsePdu.definition.Body → ActionResponsePdu :=
  fun (x0, x1, x2, x3, x4, x5, x6, x7, ()) => ⟨x0, x1, x2, x3, x4, x5, x6, x7⟩
/-- the fields of src/simulation_management.rs:127-145 in order -/
def ActionResponsePdu.toFields (x : ActionResponsePdu) : ActionResponsePdu.definition.Body :=
  (x.originating_entity_id, x.receiving_entity_id, x.request_id, x.request_status, x.number_of_fixed_datum_records, x.number_of_variable_datum_records, x.fixed_datum_records, x.variable_datum_records, ())

/-- src/simulation_management.rs:147-165: one entry per field line (originating_entity_id, receiving_entity_id, request_id, time_interval, number_of_fixed_datum_records, number_of_variable_datum_records, fixed_datum_records, variable_datum_records) -/
def DataQueryPdu.definition : Definition where
  type := ⟨18, by decide⟩
  family := ⟨5, by decide⟩
  fields := [.of EntityId,
    .of EntityId,
    .of UInt32,
    .of UInt32,
    .of UInt32,
    .of UInt32,
    .of (List FixedDatumRecord),
    .of (List VariableDatumRecord)]
  resolved := trivial
/-- the structure of src/simulation_management.rs:147-165 from its fields in order -/
def DataQueryPdu.ofFields : DataQueryPdu.definition.Body → DataQueryPdu :=
  fun (x0, x1, x2, x3, x4, x5, x6, x7, ()) => ⟨x0, x1, x2, x3, x4, x5, x6, x7⟩
/-- the fields of src/simulation_management.rs:147-165 in order -/
def DataQueryPdu.toFields (x : DataQueryPdu) : DataQueryPdu.definition.Body :=
  (x.originating_entity_id, x.receiving_entity_id, x.request_id, x.time_interval, x.number_of_fixed_datum_records, x.number_of_variable_datum_records, x.fixed_datum_records, x.variable_datum_records, ())

/-- src/simulation_management.rs:167-185: one entry per field line (originating_entity_id, receiving_entity_id, request_id, padding, number_of_fixed_datum_records, number_of_variable_datum_records, fixed_datum_records, variable_datum_records) -/
def SetDataPdu.definition : Definition where
  type := ⟨19, by decide⟩
  family := ⟨5, by decide⟩
  fields := [.of EntityId,
    .of EntityId,
    .of UInt32,
    .of UInt32,
    .of UInt32,
    .of UInt32,
    .of (List FixedDatumRecord),
    .of (List VariableDatumRecord)]
  resolved := trivial
/-- the structure of src/simulation_management.rs:167-185 from its fields in order -/
def SetDataPdu.ofFields : SetDataPdu.definition.Body → SetDataPdu :=
  fun (x0, x1, x2, x3, x4, x5, x6, x7, ()) => ⟨x0, x1, x2, x3, x4, x5, x6, x7⟩
/-- the fields of src/simulation_management.rs:167-185 in order -/
def SetDataPdu.toFields (x : SetDataPdu) : SetDataPdu.definition.Body :=
  (x.originating_entity_id, x.receiving_entity_id, x.request_id, x.padding, x.number_of_fixed_datum_records, x.number_of_variable_datum_records, x.fixed_datum_records, x.variable_datum_records, ())

/-- src/simulation_management.rs:187-205: one entry per field line (originating_entity_id, receiving_entity_id, request_id, padding, number_of_fixed_datum_records, number_of_variable_datum_records, fixed_datum_records, variable_datum_records) -/
def DataPdu.definition : Definition where
  type := ⟨20, by decide⟩
  family := ⟨5, by decide⟩
  fields := [.of EntityId,
    .of EntityId,
    .of UInt32,
    .of UInt32,
    .of UInt32,
    .of UInt32,
    .of (List FixedDatumRecord),
    .of (List VariableDatumRecord)]
  resolved := trivial
/-- the structure of src/simulation_management.rs:187-205 from its fields in order -/
def DataPdu.ofFields : DataPdu.definition.Body → DataPdu :=
  fun (x0, x1, x2, x3, x4, x5, x6, x7, ()) => ⟨x0, x1, x2, x3, x4, x5, x6, x7⟩
/-- the fields of src/simulation_management.rs:187-205 in order -/
def DataPdu.toFields (x : DataPdu) : DataPdu.definition.Body :=
  (x.originating_entity_id, x.receiving_entity_id, x.request_id, x.padding, x.number_of_fixed_datum_records, x.number_of_variable_datum_records, x.fixed_datum_records, x.variable_datum_records, ())

/-- src/simulation_management.rs:207-225: one entry per field line (originating_entity_id, receiving_entity_id, event_type, padding, number_of_fixed_datum_records, number_of_variable_datum_records, fixed_datum_records, variable_datum_records) -/
def EventReportPdu.definition : Definition where
  type := ⟨21, by decide⟩
  family := ⟨5, by decide⟩
  fields := [.of EntityId,
    .of EntityId,
    .of EventType,
    .of UInt32,
    .of UInt32,
    .of UInt32,
    .of (List FixedDatumRecord),
    .of (List VariableDatumRecord)]
  resolved := trivial
/-- the structure of src/simulation_management.rs:207-225 from its fields in order -/
def EventReportPdu.ofFields : EventReportPdu.definition.Body → EventReportPdu :=
  fun (x0, x1, x2, x3, x4, x5, x6, x7, ()) => ⟨x0, x1, x2, x3, x4, x5, x6, x7⟩
/-- the fields of src/simulation_management.rs:207-225 in order -/
def EventReportPdu.toFields (x : EventReportPdu) : EventReportPdu.definition.Body :=
  (x.originating_entity_id, x.receiving_entity_id, x.event_type, x.padding, x.number_of_fixed_datum_records, x.number_of_variable_datum_records, x.fixed_datum_records, x.variable_datum_records, ())

/-- src/simulation_management.rs:227-243: one entry per field line (originating_entity_id, receiving_entity_id, number_of_fixed_datum_records, number_of_variable_datum_records, fixed_datum_records, variable_datum_records) -/
def CommentPdu.definition : Definition where
  type := ⟨22, by decide⟩
  family := ⟨5, by decide⟩
  fields := [.of EntityId,
    .of EntityId,
    .of UInt32,
    .of UInt32,
    .of (List FixedDatumRecord),
    .of (List VariableDatumRecord)]
  resolved := trivial
/-- the structure of src/simulation_management.rs:227-243 from its fields in order -/
def CommentPdu.ofFields : CommentPdu.definition.Body → CommentPdu :=
  fun (x0, x1, x2, x3, x4, x5, ()) => ⟨x0, x1, x2, x3, x4, x5⟩
/-- the fields of src/simulation_management.rs:227-243 in order -/
def CommentPdu.toFields (x : CommentPdu) : CommentPdu.definition.Body :=
  (x.originating_entity_id, x.receiving_entity_id, x.number_of_fixed_datum_records, x.number_of_variable_datum_records, x.fixed_datum_records, x.variable_datum_records, ())

/-- src/simulation_management_with_reliability.rs:29-45: one entry per field line (originating_entity_id, receiving_entity_id, required_reliability_service, padding, padding2, request_id) -/
def CreateEntityReliablePdu.definition : Definition where
  type := ⟨51, by decide⟩
  family := ⟨10, by decide⟩
  fields := [.of EntityId,
    .of EntityId,
    .of RequiredReliabilityService,
    .byte,
    .of UInt16,
    .of UInt32]
  resolved := trivial
/-- the structure of src/simulation_management_with_reliability.rs:29-45 from its fields in order -/
def CreateEntityReliablePdu.ofFields : CreateEntityReliablePdu.definition.Body → CreateEntityReliablePdu :=
  fun (x0, x1, x2, x3, x4, x5, ()) => ⟨x0, x1, x2, x3, x4, x5⟩
/-- the fields of src/simulation_management_with_reliability.rs:29-45 in order -/
def CreateEntityReliablePdu.toFields (x : CreateEntityReliablePdu) : CreateEntityReliablePdu.definition.Body :=
  (x.originating_entity_id, x.receiving_entity_id, x.required_reliability_service, x.padding, x.padding2, x.request_id, ())

/-- src/simulation_management_with_reliability.rs:47-63: one entry per field line (originating_entity_id, receiving_entity_id, required_reliability_service, padding, padding2, request_id) -/
def RemoveEntityReliablePdu.definition : Definition where
  type := ⟨52, by decide⟩
  family := ⟨10, by decide⟩
  fields := [.of EntityId,
    .of EntityId,
    .of RequiredReliabilityService,
    .byte,
    .of UInt16,
    .of UInt32]
  resolved := trivial
/-- the structure of src/simulation_management_with_reliability.rs:47-63 from its fields in order -/
def RemoveEntityReliablePdu.ofFields : RemoveEntityReliablePdu.definition.Body → RemoveEntityReliablePdu :=
  fun (x0, x1, x2, x3, x4, x5, ()) => ⟨x0, x1, x2, x3, x4, x5⟩
/-- the fields of src/simulation_management_with_reliability.rs:47-63 in order -/
def RemoveEntityReliablePdu.toFields (x : RemoveEntityReliablePdu) : RemoveEntityReliablePdu.definition.Body :=
  (x.originating_entity_id, x.receiving_entity_id, x.required_reliability_service, x.padding, x.padding2, x.request_id, ())

/-- src/simulation_management_with_reliability.rs:65-83: one entry per field line (originating_entity_id, receiving_entity_id, real_world_time, simulation_time, required_reliability_service, padding, padding2, request_id) -/
def StartResumeReliablePdu.definition : Definition where
  type := ⟨53, by decide⟩
  family := ⟨10, by decide⟩
  fields := [.of EntityId,
    .of EntityId,
    .of ClockTime,
    .of ClockTime,
    .of RequiredReliabilityService,
    .byte,
    .of UInt16,
    .of UInt32]
  resolved := trivial
/-- the structure of src/simulation_management_with_reliability.rs:65-83 from its fields in order -/
def StartResumeReliablePdu.ofFields : StartResumeReliablePdu.definition.Body → StartResumeReliablePdu :=
  fun (x0, x1, x2, x3, x4, x5, x6, x7, ()) => ⟨x0, x1, x2, x3, x4, x5, x6, x7⟩
/-- the fields of src/simulation_management_with_reliability.rs:65-83 in order -/
def StartResumeReliablePdu.toFields (x : StartResumeReliablePdu) : StartResumeReliablePdu.definition.Body :=
  (x.originating_entity_id, x.receiving_entity_id, x.real_world_time, x.simulation_time, x.required_reliability_service, x.padding, x.padding2, x.request_id, ())

/-- src/simulation_management_with_reliability.rs:85-103: one entry per field line (originating_entity_id, receiving_entity_id, real_world_time, reason, frozen_behavior, required_reliability_service, padding, request_id) -/
def StopFreezeReliablePdu.definition : Definition where
  type := ⟨54, by decide⟩
  family := ⟨10, by decide⟩
  fields := [.of EntityId,
    .of EntityId,
    .of ClockTime,
    .of Reason,
    .of FrozenBehavior,
    .byte,
    .byte,
    .of UInt32]
  resolved := trivial
/-- the structure of src/simulation_management_with_reliability.rs:85-103 from its fields in order -/
def StopFreezeReliablePdu.ofFields : StopFreezeReliablePdu.definition.Body → StopFreezeReliablePdu :=
  fun (x0, x1, x2, x3, x4, x5, x6, x7, ()) => ⟨x0, x1, x2, x3, x4, x5, x6, x7⟩
/-- the fields of src/simulation_management_with_reliability.rs:85-103 in order -/
def StopFreezeReliablePdu.toFields (x : StopFreezeReliablePdu) : StopFreezeReliablePdu.definition.Body :=
  (x.originating_entity_id, x.receiving_entity_id, x.real_world_time, x.reason, x.frozen_behavior, x.required_reliability_service, x.padding, x.request_id, ())

/-- src/simulation_management_with_reliability.rs:105-120: one entry per field line (originating_entity_id, receiving_entity_id, acknowledge_flag, response_flag, request_id) -/
def AcknowledgeReliablePdu.definition : Definition where
  type := ⟨55, by decide⟩
  family := ⟨10, by decide⟩
  fields := [.of EntityId,
    .of EntityId,
    .of AcknowledgeFlag,
    .of AcknowledgeResponseFlag,
    .of UInt32]
  resolved := trivial
/-- the structure of src/simulation_management_with_reliability.rs:105-120 from its fields in order -/
def AcknowledgeReliablePdu.ofFields : AcknowledgeReliablePdu.definition.Body → AcknowledgeReliablePdu :=
  fun (x0, x1, x2, x3, x4, ()) => ⟨x0, x1, x2, x3, x4⟩
/-- the fields of src/simulation_management_with_reliability.rs:105-120 in order -/
def AcknowledgeReliablePdu.toFields (x : AcknowledgeReliablePdu) : AcknowledgeReliablePdu.definition.Body :=
  (x.originating_entity_id, x.receiving_entity_id, x.acknowledge_flag, x.response_flag, x.request_id, ())

/-- src/simulation_management_with_reliability.rs:122-144: one entry per field line (originating_entity_id, receiving_entity_id, required_reliability_service, padding, padding2, request_id, action_id, padding3, number_of_fixed_datum_records, number_of_variable_datum_records, fixed_datum_records, variable_datum_records) -/
def ActionRequestReliablePdu.definition : Definition where
  type := ⟨56, by decide⟩
  family := ⟨10, by decide⟩
  fields := [.of EntityId,
    .of EntityId,
    .of RequiredReliabilityService,
    .byte,
    .of UInt16,
    .of UInt32,
    .of UInt32,
    .of UInt32,
    .of UInt32,
    .of UInt32,
    .of (List FixedDatumRecord),
    .of (List VariableDatumRecord)]
  resolved := trivial
/-- the structure of src/simulation_management_with_reliability.rs:122-144 from its fields in order -/
def ActionRequestReliablePdu.ofFields : ActionRequestReliablePdu.definition.Body → ActionRequestReliablePdu :=
  fun (x0, x1, x2, x3, x4, x5, x6, x7, x8, x9, x10, x11, ()) => ⟨x0, x1, x2, x3, x4, x5, x6, x7, x8, x9, x10, x11⟩
/-- the fields of src/simulation_management_with_reliability.rs:122-144 in order -/
def ActionRequestReliablePdu.toFields (x : ActionRequestReliablePdu) : ActionRequestReliablePdu.definition.Body :=
  (x.originating_entity_id, x.receiving_entity_id, x.required_reliability_service, x.padding, x.padding2, x.request_id, x.action_id, x.padding3, x.number_of_fixed_datum_records, x.number_of_variable_datum_records, x.fixed_datum_records, x.variable_datum_records, ())

/-- src/simulation_management_with_reliability.rs:146-164: one entry per field line (originating_entity_id, receiving_entity_id, request_id, request_status, number_of_fixed_datum_records, number_of_variable_datum_records, fixed_datum_records, variable_datum_records) -/
def ActionResponseReliablePdu.definition : Definition where
  type := ⟨57, by decide⟩
  family := ⟨10, by decide⟩
  fields := [.of EntityId,
    .of EntityId,
    .of UInt32,
    .of ActionResponseRequestStatus,
    .of UInt32,
    .of UInt32,
    .of (List FixedDatumRecord),
    .of (List VariableDatumRecord)]
  resolved := trivial
/-- the structure of src/simulation_management_with_reliability.rs:146-164 from its fields in order -/
def ActionResponseReliablePdu.ofFields : ActionResponseReliablePdu.definition.Body → ActionResponseReliablePdu :=
  fun (x0, x1, x2, x3, x4, x5, x6, x7, ()) => ⟨x0, x1, x2, x3, x4, x5, x6, x7⟩
/-- the fields of src/simulation_management_with_reliability.rs:146-164 in order -/
def ActionResponseReliablePdu.toFields (x : ActionResponseReliablePdu) : ActionResponseReliablePdu.definition.Body :=
  (x.originating_entity_id, x.receiving_entity_id, x.request_id, x.request_status, x.number_of_fixed_datum_records, x.number_of_variable_datum_records, x.fixed_datum_records, x.variable_datum_records, ())

/-- src/simulation_management_with_reliability.rs:166-187: one entry per field line (originating_entity_id, receiving_entity_id, required_reliability_service, padding, padding2, request_id, time_interval, number_of_fixed_datum_records, number_of_variable_datum_records, fixed_datum_ids, variable_datum_ids) -/
def DataQueryReliablePdu.definition : Definition where
  type := ⟨58, by decide⟩
  family := ⟨10, by decide⟩
  fields := [.of EntityId,
    .of EntityId,
    .of RequiredReliabilityService,
    .byte,
    .of UInt16,
    .of UInt32,
    .of UInt32,
    .of UInt32,
    .of UInt32,
    .of (List VariableRecordTypes),
    .of (List VariableRecordTypes)]
  resolved := trivial
/-- the structure of src/simulation_management_with_reliability.rs:166-187 from its fields in order -/
def DataQueryReliablePdu.ofFields : DataQueryReliablePdu.definition.Body → DataQueryReliablePdu :=
  fun (x0, x1, x2, x3, x4, x5, x6, x7, x8, x9, x10, ()) => ⟨x0, x1, x2, x3, x4, x5, x6, x7, x8, x9, x10⟩
/-- the fields of src/simulation_management_with_reliability.rs:166-187 in order -/
def DataQueryReliablePdu.toFields (x : DataQueryReliablePdu) : DataQueryReliablePdu.definition.Body :=
  (x.originating_entity_id, x.receiving_entity_id, x.required_reliability_service, x.padding, x.padding2, x.request_id, x.time_interval, x.number_of_fixed_datum_records, x.number_of_variable_datum_records, x.fixed_datum_ids, x.variable_datum_ids, ())

/-- src/simulation_management_with_reliability.rs:189-209: one entry per field line (originating_entity_id, receiving_entity_id, required_reliability_service, padding, padding2, request_id, number_of_fixed_datum_records, number_of_variable_datum_records, fixed_datum_records, variable_datum_records) -/
def SetDataReliablePdu.definition : Definition where
  type := ⟨59, by decide⟩
  family := ⟨10, by decide⟩
  fields := [.of EntityId,
    .of EntityId,
    .of RequiredReliabilityService,
    .byte,
    .of UInt16,
    .of UInt32,
    .of UInt32,
    .of UInt32,
    .of (List FixedDatumRecord),
    .of (List VariableDatumRecord)]
  resolved := trivial
/-- the structure of src/simulation_management_with_reliability.rs:189-209 from its fields in order -/
def SetDataReliablePdu.ofFields : SetDataReliablePdu.definition.Body → SetDataReliablePdu :=
  fun (x0, x1, x2, x3, x4, x5, x6, x7, x8, x9, ()) => ⟨x0, x1, x2, x3, x4, x5, x6, x7, x8, x9⟩
/-- the fields of src/simulation_management_with_reliability.rs:189-209 in order -/
def SetDataReliablePdu.toFields (x : SetDataReliablePdu) : SetDataReliablePdu.definition.Body :=
  (x.originating_entity_id, x.receiving_entity_id, x.required_reliability_service, x.padding, x.padding2, x.request_id, x.number_of_fixed_datum_records, x.number_of_variable_datum_records, x.fixed_datum_records, x.variable_datum_records, ())

/-- src/simulation_management_with_reliability.rs:211-231: one entry per field line (originating_entity_id, receiving_entity_id, request_id, required_reliability_service, padding, padding2, number_of_fixed_datum_records, number_of_variable_datum_records, fixed_datum_records, variable_datum_records) -/
def DataReliablePdu.definition : Definition where
  type := ⟨60, by decide⟩
  family := ⟨10, by decide⟩
  fields := [.of EntityId,
    .of EntityId,
    .of UInt32,
    .of RequiredReliabilityService,
    .byte,
    .of UInt16,
    .of UInt32,
    .of UInt32,
    .of (List FixedDatumRecord),
    .of (List VariableDatumRecord)]
  resolved := trivial
/-- the structure of src/simulation_management_with_reliability.rs:211-231 from its fields in order -/
def DataReliablePdu.ofFields : DataReliablePdu.definition.Body → DataReliablePdu :=
  fun (x0, x1, x2, x3, x4, x5, x6, x7, x8, x9, ()) => ⟨x0, x1, x2, x3, x4, x5, x6, x7, x8, x9⟩
/-- the fields of src/simulation_management_with_reliability.rs:211-231 in order -/
def DataReliablePdu.toFields (x : DataReliablePdu) : DataReliablePdu.definition.Body :=
  (x.originating_entity_id, x.receiving_entity_id, x.request_id, x.required_reliability_service, x.padding, x.padding2, x.number_of_fixed_datum_records, x.number_of_variable_datum_records, x.fixed_datum_records, x.variable_datum_records, ())

/-- src/simulation_management_with_reliability.rs:233-251: one entry per field line (originating_entity_id, receiving_entity_id, event_type, padding, number_of_fixed_datum_records, number_of_variable_datum_records, fixed_datum_records, variable_datum_records) -/
def EventReportReliablePdu.definition : Definition where
  type := ⟨61, by decide⟩
  family := ⟨10, by decide⟩
  fields := [.of EntityId,
    .of EntityId,
    .of EventType,
    .of UInt32,
    .of UInt32,
    .of UInt32,
    .of (List FixedDatumRecord),
    .of (List VariableDatumRecord)]
  resolved := trivial
/-- the structure of src/simulation_management_with_reliability.rs:233-251 from its fields in order -/
def EventReportReliablePdu.ofFields : EventReportReliablePdu.definition.Body → EventReportReliablePdu :=
  fun (x0, x1, x2, x3, x4, x5, x6, x7, ()) => ⟨x0, x1, x2, x3, x4, x5, x6, x7⟩
/-- the fields of src/simulation_management_with_reliability.rs:233-251 in order -/
def EventReportReliablePdu.toFields (x : EventReportReliablePdu) : EventReportReliablePdu.definition.Body :=
  (x.originating_entity_id, x.receiving_entity_id, x.event_type, x.padding, x.number_of_fixed_datum_records, x.number_of_variable_datum_records, x.fixed_datum_records, x.variable_datum_records, ())

/-- src/simulation_management_with_reliability.rs:253-269: one entry per field line (originating_entity_id, receiving_entity_id, number_of_fixed_datum_records, number_of_variable_datum_records, fixed_datum_records, variable_datum_records) -/
def CommentReliablePdu.definition : Definition where
  type := ⟨62, by decide⟩
  family := ⟨10, by decide⟩
  fields := [.of EntityId,
    .of EntityId,
    .of UInt32,
    .of UInt32,
    .of (List FixedDatumRecord),
    .of (List VariableDatumRecord)]
  resolved := trivial
/-- the structure of src/simulation_management_with_reliability.rs:253-269 from its fields in order -/
def CommentReliablePdu.ofFields : CommentReliablePdu.definition.Body → CommentReliablePdu :=
  fun (x0, x1, x2, x3, x4, x5, ()) => ⟨x0, x1, x2, x3, x4, x5⟩
/-- the fields of src/simulation_management_with_reliability.rs:253-269 in order -/
def CommentReliablePdu.toFields (x : CommentReliablePdu) : CommentReliablePdu.definition.Body :=
  (x.originating_entity_id, x.receiving_entity_id, x.number_of_fixed_datum_records, x.number_of_variable_datum_records, x.fixed_datum_records, x.variable_datum_records, ())

/-- src/simulation_management_with_reliability.rs:271-290: one entry per field line (originating_entity_id, receiving_entity_id, request_id, required_reliability_service, padding, event_type, time, number_of_records, record_ids) -/
def RecordQueryReliablePdu.definition : Definition where
  type := ⟨65, by decide⟩
  family := ⟨10, by decide⟩
  fields := [.of EntityId,
    .of EntityId,
    .of UInt32,
    .of RequiredReliabilityService,
    .byte,
    .of RecordQueryREventType,
    .of UInt32,
    .of UInt32,
    .of (List UInt32)]
  resolved := trivial
/-- the structure of src/simulation_management_with_reliability.rs:271-290 from its fields in order -/
def RecordQueryReliablePdu.ofFields : RecordQueryReliablePdu.definition.Body → RecordQueryReliablePdu :=
  fun (x0, x1, x2, x3, x4, x5, x6, x7, x8, ()) => ⟨x0, x1, x2, x3, x4, x5, x6, x7, x8⟩
/-- the fields of src/simulation_management_with_reliability.rs:271-290 in order -/
def RecordQueryReliablePdu.toFields (x : RecordQueryReliablePdu) : RecordQueryReliablePdu.definition.Body :=
  (x.originating_entity_id, x.receiving_entity_id, x.request_id, x.required_reliability_service, x.padding, x.event_type, x.time, x.number_of_records, x.record_ids, ())

/-- src/simulation_management_with_reliability.rs:292-310: one entry per field line (originating_entity_id, receiving_entity_id, request_id, required_reliability_service, padding, padding2, padding3, record_sets) -/
def SetRecordReliablePdu.definition : Definition where
  type := ⟨64, by decide⟩
  family := ⟨10, by decide⟩
  fields := [.of EntityId,
    .of EntityId,
    .of UInt32,
    .of RequiredReliabilityService,
    .byte,
    .of UInt16,
    .of UInt32,
    .of RecordSpecification]
  resolved := trivial
/-- the structure of src/simulation_management_with_reliability.rs:292-310 from its fields in order -/
def SetRecordReliablePdu.ofFields : SetRecordReliablePdu.definition.Body → SetRecordReliablePdu :=
  fun (x0, x1, x2, x3, x4, x5, x6, x7, ()) => ⟨x0, x1, x2, x3, x4, x5, x6, x7⟩
/-- the fields of src/simulation_management_with_reliability.rs:292-310 in order -/
def SetRecordReliablePdu.toFields (x : SetRecordReliablePdu) : SetRecordReliablePdu.definition.Body :=
  (x.originating_entity_id, x.receiving_entity_id, x.request_id, x.required_reliability_service, x.padding, x.padding2, x.padding3, x.record_sets, ())

/-- src/synthetic_environment.rs:29-46: one entry per field line (environmental_process_id, environment_type, model_type, environment_status, number_of_environment_records, sequence_number, environment_records) -/
def EnvironmentalProcessPdu.definition : Definition where
  type := ⟨41, by decide⟩
  family := ⟨9, by decide⟩
  fields := [.of EntityId,
    .of EntityType,
    .byte,
    .byte,
    .of UInt16,
    .of UInt16,
    .of (List Environment)]
  resolved := trivial
/-- the structure of src/synthetic_environment.rs:29-46 from its fields in order -/
def EnvironmentalProcessPdu.ofFields : EnvironmentalProcessPdu.definition.Body → EnvironmentalProcessPdu :=
  fun (x0, x1, x2, x3, x4, x5, x6, ()) => ⟨x0, x1, x2, x3, x4, x5, x6⟩
/-- the fields of src/synthetic_environment.rs:29-46 in order -/
def EnvironmentalProcessPdu.toFields (x : EnvironmentalProcessPdu) : EnvironmentalProcessPdu.definition.Body :=
  (x.environmental_process_id, x.environment_type, x.model_type, x.environment_status, x.number_of_environment_records, x.sequence_number, x.environment_records, ())

/-- src/synthetic_environment.rs:48-74: one entry per field line (environmental_simulation_id, field_number, pdu_number, pdu_total, coordinate_system, number_of_grid_axes, constant_grid, environment_type, orientation, sample_time, total_values, vector_dimension, padding, padding2, grid_axis_descriptors, grid_data_list) -/
def GriddedDataPdu.definition : Definition where
  type := ⟨42, by decide⟩
  family := ⟨9, by decide⟩
  fields := [.of EntityId,
    .of UInt16,
    .of UInt16,
    .of UInt16,
    .of GriddedDataCoordinateSystem,
    .byte,
    .of GriddedDataConstantGrid,
    .of EntityType,
    .of EulerAngles,
    .of ClockTime,
    .of UInt32,
    .byte,
    .byte,
    .of UInt16,
    .of (List GridAxisDescriptor),
    .of (List GridDataRecord)]
  resolved := trivial
/-- the structure of src/synthetic_environment.rs:48-74 from its fields in order -/
def GriddedDataPdu.ofFields : GriddedDataPdu.definition.Body → GriddedDataPdu :=
  fun (x0, x1, x2, x3, x4, x5, x6, x7, x8, x9, x10, x11, x12, x13, x14, x15, ()) => ⟨x0, x1, x2, x3, x4, x5, x6, x7, x8, x9, x10, x11, x12, x13, x14, x15⟩
/-- the fields of src/synthetic_environment.rs:48-74 in order -/
def GriddedDataPdu.toFields (x : GriddedDataPdu) : GriddedDataPdu.definition.Body :=
  (x.environmental_simulation_id, x.field_number, x.pdu_number, x.pdu_total, x.coordinate_system, x.number_of_grid_axes, x.constant_grid, x.environment_type, x.orientation, x.sample_time, x.total_values, x.vector_dimension, x.padding, x.padding2, x.grid_axis_descriptors, x.grid_data_list, ())

/-- src/synthetic_environment.rs:76-100: one entry per field line (object_id, referenced_object_id, update_number, force_id, modifications, object_type, object_location, object_orientation, specific_object_appearance, general_object_appearance, padding, requester_id, receiving_id, padding2) -/
def PointObjectStatePdu.definition : Definition where
  type := ⟨43, by decide⟩
  family := ⟨9, by decide⟩
  fields := [.of EntityId,
    .of EntityId,
    .of UInt16,
    .of ForceId,
    .byte,
    .of ObjectType,
    .of WorldCoordinate,
    .of EulerAngles,
    .of UInt32,
    .of UInt16,
    .of UInt16,
    .of SimulationAddress,
    .of SimulationAddress,
    .of UInt32]
  resolved := trivial
/-- the structure of src/synthetic_environment.rs:76-100 from its fields in order -/
def PointObjectStatePdu.ofFields : PointObjectStatePdu.definition.Body → PointObjectStatePdu :=
  fun (x0, x1, x2, x3, x4, x5, x6, x7, x8, x9, x10, x11, x12, x13, ()) => ⟨x0, x1, x2, x3, x4, x5, x6, x7, x8, x9, x10, x11, x12, x13⟩
/-- the fields of src/synthetic_environment.rs:76-100 in order -/
def PointObjectStatePdu.toFields (x : PointObjectStatePdu) : PointObjectStatePdu.definition.Body :=
  (x.object_id, x.referenced_object_id, x.update_number, x.force_id, x.modifications, x.object_type, x.object_location, x.object_orientation, x.specific_object_appearance, x.general_object_appearance, x.padding, x.requester_id, x.receiving_id, x.padding2, ())

/-- src/synthetic_environment.rs:102-121: one entry per field line (object_id, referenced_object_id, update_number, force_id, number_of_segments, requester_id, receiving_id, object_type, linear_segment_parameters) -/
def LinearObjectStatePdu.definition : Definition where
  type := ⟨44, by decide⟩
  family := ⟨9, by decide⟩
  fields := [.of ObjectIdentifier,
    .of ObjectIdentifier,
    .of UInt16,
    .of ForceId,
    .byte,
    .of SimulationAddress,
    .of SimulationAddress,
    .of ObjectType,
    .of (List LinearSegmentParameter)]
  resolved := trivial
/-- the structure of src/synthetic_environment.rs:102-121 from its fields in order -/
def LinearObjectStatePdu.ofFields : LinearObjectStatePdu.definition.Body → LinearObjectStatePdu :=
  fun (x0, x1, x2, x3, x4, x5, x6, x7, x8, ()) => ⟨x0, x1, x2, x3, x4, x5, x6, x7, x8⟩
/-- the fields of src/synthetic_environment.rs:102-121 in order -/
def LinearObjectStatePdu.toFields (x : LinearObjectStatePdu) : LinearObjectStatePdu.definition.Body :=
  (x.object_id, x.referenced_object_id, x.update_number, x.force_id, x.number_of_segments, x.requester_id, x.receiving_id, x.object_type, x.linear_segment_parameters, ())

/-- src/synthetic_environment.rs:123-145: one entry per field line (object_id, referenced_object_id, update_number, force_id, modifications, object_type, specific_object_appearance, general_object_appearance, number_of_points, requester_id, receiving_id, object_location) -/
def ArealObjectStatePdu.definition : Definition where
  type := ⟨45, by decide⟩
  family := ⟨9, by decide⟩
  fields := [.of ObjectIdentifier,
    .of ObjectIdentifier,
    .of UInt16,
    .of ForceId,
    .byte,
    .of ObjectType,
    .of UInt32,
    .of ObjectStateAppearanceGeneral,
    .of UInt16,
    .of SimulationAddress,
    .of SimulationAddress,
    .of (List WorldCoordinate)]
  resolved := trivial
/-- the structure of src/synthetic_environment.rs:123-145 from its fields in order -/
def ArealObjectStatePdu.ofFields : ArealObjectStatePdu.definition.Body → ArealObjectStatePdu :=
  fun (x0, x1, x2, x3, x4, x5, x6, x7, x8, x9, x10, x11, ()) => ⟨x0, x1, x2, x3, x4, x5, x6, x7, x8, x9, x10, x11⟩
/-- the fields of src/synthetic_environment.rs:123-145 in order -/
def ArealObjectStatePdu.toFields (x : ArealObjectStatePdu) : ArealObjectStatePdu.definition.Body :=
  (x.object_id, x.referenced_object_id, x.update_number, x.force_id, x.modifications, x.object_type, x.specific_object_appearance, x.general_object_appearance, x.number_of_points, x.requester_id, x.receiving_id, x.object_location, ())

/-- src/warfare.rs:23-42: one entry per field line (firing_entity_id, target_entity_id, munition_expendable_id, event_id, fire_mission_index, location_in_world_coordinates, descriptor, velocity, range) -/
def FirePdu.definition : Definition where
  type := ⟨2, by decide⟩
  family := ⟨2, by decide⟩
  fields := [.of EntityId,
    .of EntityId,
    .of EntityId,
    .of EventId,
    .of UInt32,
    .of WorldCoordinate,
    .of MunitionDescriptor,
    .of LinearVelocity,
    .of F32]
  resolved := trivial
/-- the structure of src/warfare.rs:23-42 from its fields in order -/
def FirePdu.ofFields : FirePdu.definition.Body → FirePdu :=
  fun (x0, x1, x2, x3, x4, x5, x6, x7, x8, ()) => ⟨x0, x1, x2, x3, x4, x5, x6, x7, x8⟩
/-- the fields of src/warfare.rs:23-42 in order -/
def FirePdu.toFields (x : FirePdu) : FirePdu.definition.Body :=
  (x.firing_entity_id, x.target_entity_id, x.munition_expendable_id, x.event_id, x.fire_mission_index, x.location_in_world_coordinates, x.descriptor, x.velocity, x.range, ())

/-- src/warfare.rs:44-66: one entry per field line (firing_entity_id, target_entity_id, exploding_entity_id, event_id, velocity, location_in_world_coordinates, descriptor, location_in_entitys_coordinates, detonation_result, number_of_variable_parameters, padding, variable_parameters) -/
def DetonationPdu.definition : Definition where
  type := ⟨3, by decide⟩
  family := ⟨2, by decide⟩
  fields := [.of EntityId,
    .of EntityId,
    .of EntityId,
    .of EventId,
    .of LinearVelocity,
    .of WorldCoordinate,
    .of MunitionDescriptor,
    .of EntityCoordinateVector,
    .of DetonationResult,
    .byte,
    .of UInt16,
    .of (List VariableParameter)]
  resolved := trivial
/-- the structure of src/warfare.rs:44-66 from its fields in order -/
def DetonationPdu.ofFields : DetonationPdu.definition.Body → DetonationPdu :=
  fun (x0, x1, x2, x3, x4, x5, x6, x7, x8, x9, x10, x11, ()) => ⟨x0, x1, x2, x3, x4, x5, x6, x7, x8, x9, x10, x11⟩
/-- the fields of src/warfare.rs:44-66 in order -/
def DetonationPdu.toFields (x : DetonationPdu) : DetonationPdu.definition.Body :=
  (x.firing_entity_id, x.target_entity_id, x.exploding_entity_id, x.event_id, x.velocity, x.location_in_world_coordinates, x.descriptor, x.location_in_entitys_coordinates, x.detonation_result, x.number_of_variable_parameters, x.padding, x.variable_parameters, ())

/-- src/warfare.rs:68-96: one entry per field line (firing_entity_id, event_id, munition_type, shot_start_time, cumulative_shot_time, aperture_emitter_location, aperture_diameter, wavelength, padding, pulse_repetition_frequency, pulse_width, flags, pulse_shape, padding2, padding3, padding4, number_of_de_records, damage_descriptions) -/
def DirectedEnergyFirePdu.definition : Definition where
  type := ⟨68, by decide⟩
  family := ⟨2, by decide⟩
  fields := [.of EntityId,
    .of EventId,
    .of EntityType,
    .of ClockTime,
    .of F32,
    .of EntityCoordinateVector,
    .of F32,
    .of F32,
    .of UInt32,
    .of F32,
    .of F32,
    .of UInt16,
    .of DEFirePulseShape,
    .byte,
    .of UInt32,
    .of UInt16,
    .of UInt16,
    .of (List DirectedEnergyDamage)]
  resolved := trivial
/-- the structure of src/warfare.rs:68-96 from its fields in order -/
def DirectedEnergyFirePdu.ofFields : DirectedEnergyFirePdu.definition.Body → DirectedEnergyFirePdu :=
  fun (x0, x1, x2, x3, x4, x5, x6, x7, x8, x9, x10, x11, x12, x13, x14, x15, x16, x17, ()) => ⟨x0, x1, x2, x3, x4, x5, x6, x7, x8, x9, x10, x11, x12, x13, x14, x15, x16, x17⟩
/-- the fields of src/warfare.rs:68-96 in order -/
def DirectedEnergyFirePdu.toFields (x : DirectedEnergyFirePdu) : DirectedEnergyFirePdu.definition.Body :=
  (x.firing_entity_id, x.event_id, x.munition_type, x.shot_start_time, x.cumulative_shot_time, x.aperture_emitter_location, x.aperture_diameter, x.wavelength, x.padding, x.pulse_repetition_frequency, x.pulse_width, x.flags, x.pulse_shape, x.padding2, x.padding3, x.padding4, x.number_of_de_records, x.damage_descriptions, ())

/-- src/warfare.rs:98-113: one entry per field line (damaged_entity_id, padding, padding2, number_of_damage_descriptions, damage_descriptions) -/
def EntityDamageStatusPdu.definition : Definition where
  type := ⟨69, by decide⟩
  family := ⟨2, by decide⟩
  fields := [.of EntityId,
    .of UInt16,
    .of UInt16,
    .of UInt16,
    .of (List DirectedEnergyDamage)]
  resolved := trivial
/-- the structure of src/warfare.rs:98-113 from its fields in order -/
def EntityDamageStatusPdu.ofFields : EntityDamageStatusPdu.definition.Body → EntityDamageStatusPdu :=
  fun (x0, x1, x2, x3, x4, ()) => ⟨x0, x1, x2, x3, x4⟩
/-- the fields of src/warfare.rs:98-113 in order -/
def EntityDamageStatusPdu.toFields (x : EntityDamageStatusPdu) : EntityDamageStatusPdu.definition.Body :=
  (x.damaged_entity_id, x.padding, x.padding2, x.number_of_damage_descriptions, x.damage_descriptions, ())

namespace PduKind
/-- the `define_pdu!` block of each kind (cited at the definitions above) -/
def definition : PduKind → Definition
  | .ElectromagneticEmissions => ElectromagneticEmissionsPdu.definition
  | .Designator => DesignatorPdu.definition
  | .UnderwaterAcoustic => UnderwaterAcousticPdu.definition
  | .IFF => IFFPdu.definition
  | .SupplementalEmission => SupplementalEmissionPdu.definition
  | .EntityState => EntityStatePdu.definition
  | .Collision => CollisionPdu.definition
  | .CollisionElastic => CollisionElasticPdu.definition
  | .EntityStateUpdate => EntityStateUpdatePdu.definition
  | .Attribute => AttributePdu.definition
  | .AggregateState => AggregateStatePdu.definition
  | .IsGroupOf => IsGroupOfPdu.definition
  | .TransferOwnership => TransferOwnershipPdu.definition
  | .IsPartOf => IsPartOfPdu.definition
  | .InformationOperationsReport => InformationOperationsReportPdu.definition
  | .InformationOperationsAction => InformationOperationsActionPdu.definition
  | .ServiceRequest => ServiceRequestPdu.definition
  | .ResupplyOffer => ResupplyOfferPdu.definition
  | .ResupplyReceived => ResupplyReceivedPdu.definition
  | .ResupplyCancel => ResupplyCancelPdu.definition
  | .RepairComplete => RepairCompletePdu.definition
  | .RepairResponse => RepairResponsePdu.definition
  | .MinefieldState => MinefieldStatePdu.definition
  | .MinefieldQuery => MinefieldQueryPdu.definition
  | .MinefieldData => MinefieldDataPdu.definition
  | .MinefieldResponseNack => MinefieldResponseNackPdu.definition
  | .Transmitter => TransmitterPdu.definition
  | .Signal => SignalPdu.definition
  | .Receiver => ReceiverPdu.definition
  | .IntercomSignal => IntercomSignalPdu.definition
  | .IntercomControl => IntercomControlPdu.definition
  | .CreateEntity => CreateEntityPdu.definition
  | .RemoveEntity => RemoveEntityPdu.definition
  | .StartResume => StartResumePdu.definition
  | .StopFreeze => StopFreezePdu.definition
  | .Acknowledge => AcknowledgePdu.definition
  | .ActionRequest => ActionRequestPdu.definition
  | .ActionResponse => ActionResponsePdu.definition
  | .DataQuery => DataQueryPdu.definition
  | .SetData => SetDataPdu.definition
  | .Data => DataPdu.definition
  | .EventReport => EventReportPdu.definition
  | .Comment => CommentPdu.definition
  | .CreateEntityReliable => CreateEntityReliablePdu.definition
  | .RemoveEntityReliable => RemoveEntityReliablePdu.definition
  | .StartResumeReliable => StartResumeReliablePdu.definition
  | .StopFreezeReliable => StopFreezeReliablePdu.definition
  | .AcknowledgeReliable => AcknowledgeReliablePdu.definition
  | .ActionRequestReliable => ActionRequestReliablePdu.definition
  | .ActionResponseReliable => ActionResponseReliablePdu.definition
  | .DataQueryReliable => DataQueryReliablePdu.definition
  | .SetDataReliable => SetDataReliablePdu.definition
  | .DataReliable => DataReliablePdu.definition
  | .EventReportReliable => EventReportReliablePdu.definition
  | .CommentReliable => CommentReliablePdu.definition
  | .RecordQueryReliable => RecordQueryReliablePdu.definition
  | .SetRecordReliable => SetRecordReliablePdu.definition
  | .EnvironmentalProcess => EnvironmentalProcessPdu.definition
  | .GriddedData => GriddedDataPdu.definition
  | .PointObjectState => PointObjectStatePdu.definition
  | .LinearObjectState => LinearObjectStatePdu.definition
  | .ArealObjectState => ArealObjectStatePdu.definition
  | .Fire => FirePdu.definition
  | .Detonation => DetonationPdu.definition
  | .DirectedEnergyFire => DirectedEnergyFirePdu.definition
  | .EntityDamageStatus => EntityDamageStatusPdu.definition
/-- the structure of each kind from its fields in order (cited above) -/
def ofFields : (k : PduKind) → k.definition.Body → k.Body
  | .ElectromagneticEmissions => ElectromagneticEmissionsPdu.ofFields
  | .Designator => DesignatorPdu.ofFields
  | .UnderwaterAcoustic => UnderwaterAcousticPdu.ofFields
  | .IFF => IFFPdu.ofFields
  | .SupplementalEmission => SupplementalEmissionPdu.ofFields
  | .EntityState => EntityStatePdu.ofFields
  | .Collision => CollisionPdu.ofFields
  | .CollisionElastic => CollisionElasticPdu.ofFields
  | .EntityStateUpdate => EntityStateUpdatePdu.ofFields
  | .Attribute => AttributePdu.ofFields
  | .AggregateState => AggregateStatePdu.ofFields
  | .IsGroupOf => IsGroupOfPdu.ofFields
  | .TransferOwnership => TransferOwnershipPdu.ofFields
  | .IsPartOf => IsPartOfPdu.ofFields
  | .InformationOperationsReport => InformationOperationsReportPdu.ofFields
  | .InformationOperationsAction => InformationOperationsActionPdu.ofFields
  | .ServiceRequest => ServiceRequestPdu.ofFields
  | .ResupplyOffer => ResupplyOfferPdu.ofFields
  | .ResupplyReceived => ResupplyReceivedPdu.ofFields
  | .ResupplyCancel => ResupplyCancelPdu.ofFields
  | .RepairComplete => RepairCompletePdu.ofFields
  | .RepairResponse => RepairResponsePdu.ofFields
  | .MinefieldState => MinefieldStatePdu.ofFields
  | .MinefieldQuery => MinefieldQueryPdu.ofFields
  | .MinefieldData => MinefieldDataPdu.ofFields
  | .MinefieldResponseNack => MinefieldResponseNackPdu.ofFields
  | .Transmitter => TransmitterPdu.ofFields
  | .Signal => SignalPdu.ofFields
  | .Receiver => ReceiverPdu.ofFields
  | .IntercomSignal => IntercomSignalPdu.ofFields
  | .IntercomControl => IntercomControlPdu.ofFields
  | .CreateEntity => CreateEntityPdu.ofFields
  | .RemoveEntity => RemoveEntityPdu.ofFields
  | .StartResume => StartResumePdu.ofFields
  | .StopFreeze => StopFreezePdu.ofFields
  | .Acknowledge => AcknowledgePdu.ofFields
  | .ActionRequest => ActionRequestPdu.ofFields
  | .ActionResponse => ActionResponsePdu.ofFields
  | .DataQuery => DataQueryPdu.ofFields
  | .SetData => SetDataPdu.ofFields
  | .Data => DataPdu.ofFields
  | .EventReport => EventReportPdu.ofFields
  | .Comment => CommentPdu.ofFields
  | .CreateEntityReliable => CreateEntityReliablePdu.ofFields
  | .RemoveEntityReliable => RemoveEntityReliablePdu.ofFields
  | .StartResumeReliable => StartResumeReliablePdu.ofFields
  | .StopFreezeReliable => StopFreezeReliablePdu.ofFields
  | .AcknowledgeReliable => AcknowledgeReliablePdu.ofFields
  | .ActionRequestReliable => ActionRequestReliablePdu.ofFields
  | .ActionResponseReliable => ActionResponseReliablePdu.ofFields
  | .DataQueryReliable => DataQueryReliablePdu.ofFields
  | .SetDataReliable => SetDataReliablePdu.ofFields
  | .DataReliable => DataReliablePdu.ofFields
  | .EventReportReliable => EventReportReliablePdu.ofFields
  | .CommentReliable => CommentReliablePdu.ofFields
  | .RecordQueryReliable => RecordQueryReliablePdu.ofFields
  | .SetRecordReliable => SetRecordReliablePdu.ofFields
  | .EnvironmentalProcess => EnvironmentalProcessPdu.ofFields
  | .GriddedData => GriddedDataPdu.ofFields
  | .PointObjectState => PointObjectStatePdu.ofFields
  | .LinearObjectState => LinearObjectStatePdu.ofFields
  | .ArealObjectState => ArealObjectStatePdu.ofFields
  | .Fire => FirePdu.ofFields
  | .Detonation => DetonationPdu.ofFields
  | .DirectedEnergyFire => DirectedEnergyFirePdu.ofFields
  | .EntityDamageStatus => EntityDamageStatusPdu.ofFields
/-- the fields of each kind in order (cited above) -/
def toFields : (k : PduKind) → k.Body → k.definition.Body
  | .ElectromagneticEmissions => ElectromagneticEmissionsPdu.toFields
  | .Designator => DesignatorPdu.toFields
  | .UnderwaterAcoustic => UnderwaterAcousticPdu.toFields
  | .IFF => IFFPdu.toFields
  | .SupplementalEmission => SupplementalEmissionPdu.toFields
  | .EntityState => EntityStatePdu.toFields
  | .Collision => CollisionPdu.toFields
  | .CollisionElastic => CollisionElasticPdu.toFields
  | .EntityStateUpdate => EntityStateUpdatePdu.toFields
  | .Attribute => AttributePdu.toFields
  | .AggregateState => AggregateStatePdu.toFields
  | .IsGroupOf => IsGroupOfPdu.toFields
  | .TransferOwnership => TransferOwnershipPdu.toFields
  | .IsPartOf => IsPartOfPdu.toFields
  | .InformationOperationsReport => InformationOperationsReportPdu.toFields
  | .InformationOperationsAction => InformationOperationsActionPdu.toFields
  | .ServiceRequest => ServiceRequestPdu.toFields
  | .ResupplyOffer => ResupplyOfferPdu.toFields
  | .ResupplyReceived => ResupplyReceivedPdu.toFields
  | .ResupplyCancel => ResupplyCancelPdu.toFields
  | .RepairComplete => RepairCompletePdu.toFields
  | .RepairResponse => RepairResponsePdu.toFields
  | .MinefieldState => MinefieldStatePdu.toFields
  | .MinefieldQuery => MinefieldQueryPdu.toFields
  | .MinefieldData => MinefieldDataPdu.toFields
  | .MinefieldResponseNack => MinefieldResponseNackPdu.toFields
  | .Transmitter => TransmitterPdu.toFields
  | .Signal => SignalPdu.toFields
  | .Receiver => ReceiverPdu.toFields
  | .IntercomSignal => IntercomSignalPdu.toFields
  | .IntercomControl => IntercomControlPdu.toFields
  | .CreateEntity => CreateEntityPdu.toFields
  | .RemoveEntity => RemoveEntityPdu.toFields
  | .StartResume => StartResumePdu.toFields
  | .StopFreeze => StopFreezePdu.toFields
  | .Acknowledge => AcknowledgePdu.toFields
  | .ActionRequest => ActionRequestPdu.toFields
  | .ActionResponse => ActionResponsePdu.toFields
  | .DataQuery => DataQueryPdu.toFields
  | .SetData => SetDataPdu.toFields
  | .Data => DataPdu.toFields
  | .EventReport => EventReportPdu.toFields
  | .Comment => CommentPdu.toFields
  | .CreateEntityReliable => CreateEntityReliablePdu.toFields
  | .RemoveEntityReliable => RemoveEntityReliablePdu.toFields
  | .StartResumeReliable => StartResumeReliablePdu.toFields
  | .StopFreezeReliable => StopFreezeReliablePdu.toFields
  | .AcknowledgeReliable => AcknowledgeReliablePdu.toFields
  | .ActionRequestReliable => ActionRequestReliablePdu.toFields
  | .ActionResponseReliable => ActionResponseReliablePdu.toFields
  | .DataQueryReliable => DataQueryReliablePdu.toFields
  | .SetDataReliable => SetDataReliablePdu.toFields
  | .DataReliable => DataReliablePdu.toFields
  | .EventReportReliable => EventReportReliablePdu.toFields
  | .CommentReliable => CommentReliablePdu.toFields
  | .RecordQueryReliable => RecordQueryReliablePdu.toFields
  | .SetRecordReliable => SetRecordReliablePdu.toFields
  | .EnvironmentalProcess => EnvironmentalProcessPdu.toFields
  | .GriddedData => GriddedDataPdu.toFields
  | .PointObjectState => PointObjectStatePdu.toFields
  | .LinearObjectState => LinearObjectStatePdu.toFields
  | .ArealObjectState => ArealObjectStatePdu.toFields
  | .Fire => FirePdu.toFields
  | .Detonation => DetonationPdu.toFields
  | .DirectedEnergyFire => DirectedEnergyFirePdu.toFields
  | .EntityDamageStatus => EntityDamageStatusPdu.toFields
end PduKind
end Dis
