import Verif.Model.PduCore
import Verif.Model.Records
/- Generated by tools/gen_pdus.py from the `define_pdu!` blocks of /repo/src. -/
set_option maxRecDepth 4000
namespace Dis

/-- src/distributed_emissions.rs:35-51: the fields after the header -/
structure ElectromagneticEmissionsPdu where
  emitting_entity_id : EntityId
  event_id : EventId
  state_update_indicator : EEAttributeStateIndicator
  number_of_systems : UInt8
  padding : UInt16
  systems : List ElectromagneticEmissionSystemData
  deriving DecidableEq
/-- src/pdu_macro.rs:283-285 with the fields of src/distributed_emissions.rs:43-48 -/
def ElectromagneticEmissionsPdu.fieldsLen (self : ElectromagneticEmissionsPdu) : Nat :=
  field_len self.emitting_entity_id +
  field_len self.event_id +
  field_len self.state_update_indicator +
  field_len self.number_of_systems +
  field_len self.padding +
  field_len self.systems
/-- src/pdu_macro.rs:319-321 with the fields of src/distributed_emissions.rs:43-48 -/
def ElectromagneticEmissionsPdu.serializeBody (self : ElectromagneticEmissionsPdu) : Put := do
  serialize_field self.emitting_entity_id
  serialize_field self.event_id
  serialize_field self.state_update_indicator
  serialize_field self.number_of_systems
  serialize_field self.padding
  serialize_field self.systems
/-- src/pdu_macro.rs:257-272 with the fields of src/distributed_emissions.rs:43-48 -/
def ElectromagneticEmissionsPdu.deserializeBody : Get ElectromagneticEmissionsPdu := do
  let emitting_entity_id ← (deserialize_field : Get EntityId)
  let event_id ← (deserialize_field : Get EventId)
  let state_update_indicator ← (deserialize_field : Get EEAttributeStateIndicator)
  let number_of_systems ← (deserialize_field : Get UInt8)
  let padding ← (deserialize_field : Get UInt16)
  let systems ← (deserialize_field : Get (List ElectromagneticEmissionSystemData))
  return { emitting_entity_id, event_id, state_update_indicator, number_of_systems, padding, systems }
/-- src/distributed_emissions.rs:35-51 (`PduType::ElectromagneticEmission`, `ProtocolFamily::DistributedEmissionRegeneration`) -/
instance : PduBody ElectromagneticEmissionsPdu where
  pduType := ⟨23, by decide⟩
  family := ⟨6, by decide⟩
  default := { emitting_entity_id := dflt, event_id := dflt, state_update_indicator := dflt, number_of_systems := dflt, padding := dflt, systems := dflt }
  fieldsLen := ElectromagneticEmissionsPdu.fieldsLen
  prep := id
  serializeBody := ElectromagneticEmissionsPdu.serializeBody
  deserializeBody := ElectromagneticEmissionsPdu.deserializeBody

/-- src/distributed_emissions.rs:53-75: the fields after the header -/
structure DesignatorPdu where
  designating_entity_id : EntityId
  code_name : DesignatorSystemName
  designated_entity_id : EntityId
  designator_code : DesignatorCode
  designator_power : F32
  designator_wavelength : F32
  designator_spot_wrt_designated : EntityCoordinateVector
  designator_spot_location : WorldCoordinate
  dead_reckoning_algorithm : DeadReckoningAlgorithm
  padding : UInt8
  padding2 : UInt16
  entity_linear_acceleration : LinearAcceleration
  deriving DecidableEq
/-- src/pdu_macro.rs:283-285 with the fields of src/distributed_emissions.rs:61-72 -/
def DesignatorPdu.fieldsLen (self : DesignatorPdu) : Nat :=
  field_len self.designating_entity_id +
  field_len self.code_name +
  field_len self.designated_entity_id +
  field_len self.designator_code +
  field_len self.designator_power +
  field_len self.designator_wavelength +
  field_len self.designator_spot_wrt_designated +
  field_len self.designator_spot_location +
  field_len self.dead_reckoning_algorithm +
  field_len self.padding +
  field_len self.padding2 +
  field_len self.entity_linear_acceleration
/-- src/pdu_macro.rs:319-321 with the fields of src/distributed_emissions.rs:61-72 -/
def DesignatorPdu.serializeBody (self : DesignatorPdu) : Put := do
  serialize_field self.designating_entity_id
  serialize_field self.code_name
  serialize_field self.designated_entity_id
  serialize_field self.designator_code
  serialize_field self.designator_power
  serialize_field self.designator_wavelength
  serialize_field self.designator_spot_wrt_designated
  serialize_field self.designator_spot_location
  serialize_field self.dead_reckoning_algorithm
  serialize_field self.padding
  serialize_field self.padding2
  serialize_field self.entity_linear_acceleration
/-- src/pdu_macro.rs:257-272 with the fields of src/distributed_emissions.rs:61-72 -/
def DesignatorPdu.deserializeBody : Get DesignatorPdu := do
  let designating_entity_id ← (deserialize_field : Get EntityId)
  let code_name ← (deserialize_field : Get DesignatorSystemName)
  let designated_entity_id ← (deserialize_field : Get EntityId)
  let designator_code ← (deserialize_field : Get DesignatorCode)
  let designator_power ← (deserialize_field : Get F32)
  let designator_wavelength ← (deserialize_field : Get F32)
  let designator_spot_wrt_designated ← (deserialize_field : Get EntityCoordinateVector)
  let designator_spot_location ← (deserialize_field : Get WorldCoordinate)
  let dead_reckoning_algorithm ← (deserialize_field : Get DeadReckoningAlgorithm)
  let padding ← (deserialize_field : Get UInt8)
  let padding2 ← (deserialize_field : Get UInt16)
  let entity_linear_acceleration ← (deserialize_field : Get LinearAcceleration)
  return { designating_entity_id, code_name, designated_entity_id, designator_code, designator_power, designator_wavelength, designator_spot_wrt_designated, designator_spot_location, dead_reckoning_algorithm, padding, padding2, entity_linear_acceleration }
/-- src/distributed_emissions.rs:53-75 (`PduType::Designator`, `ProtocolFamily::DistributedEmissionRegeneration`) -/
instance : PduBody DesignatorPdu where
  pduType := ⟨24, by decide⟩
  family := ⟨6, by decide⟩
  default := { designating_entity_id := dflt, code_name := dflt, designated_entity_id := dflt, designator_code := dflt, designator_power := dflt, designator_wavelength := dflt, designator_spot_wrt_designated := dflt, designator_spot_location := dflt, dead_reckoning_algorithm := dflt, padding := dflt, padding2 := dflt, entity_linear_acceleration := dflt }
  fieldsLen := DesignatorPdu.fieldsLen
  prep := id
  serializeBody := DesignatorPdu.serializeBody
  deserializeBody := DesignatorPdu.deserializeBody

/-- src/distributed_emissions.rs:77-99: the fields after the header -/
structure UnderwaterAcousticPdu where
  emitting_entity_id : EntityId
  event_id : EventId
  state_change_update_indicator : UAStateChangeUpdateIndicator
  padding : UInt8
  passive_parameter_index : UAPassiveParameterIndex
  propulsion_plant_configuration : UInt8
  number_of_shafts : UInt8
  number_of_apas : UInt8
  number_of_ua_emitter_systems : UInt8
  shaft_rpms : List ShaftRPMs
  apa_data : List ApaData
  emitter_systems : List AcousticEmitterSystem
  deriving DecidableEq
/-- src/pdu_macro.rs:283-285 with the fields of src/distributed_emissions.rs:85-96 -/
def UnderwaterAcousticPdu.fieldsLen (self : UnderwaterAcousticPdu) : Nat :=
  field_len self.emitting_entity_id +
  field_len self.event_id +
  field_len self.state_change_update_indicator +
  field_len self.padding +
  field_len self.passive_parameter_index +
  field_len self.propulsion_plant_configuration +
  field_len self.number_of_shafts +
  field_len self.number_of_apas +
  field_len self.number_of_ua_emitter_systems +
  field_len self.shaft_rpms +
  field_len self.apa_data +
  field_len self.emitter_systems
/-- src/pdu_macro.rs:319-321 with the fields of src/distributed_emissions.rs:85-96 -/
def UnderwaterAcousticPdu.serializeBody (self : UnderwaterAcousticPdu) : Put := do
  serialize_field self.emitting_entity_id
  serialize_field self.event_id
  serialize_field self.state_change_update_indicator
  serialize_field self.padding
  serialize_field self.passive_parameter_index
  serialize_field self.propulsion_plant_configuration
  serialize_field self.number_of_shafts
  serialize_field self.number_of_apas
  serialize_field self.number_of_ua_emitter_systems
  serialize_field self.shaft_rpms
  serialize_field self.apa_data
  serialize_field self.emitter_systems
/-- src/pdu_macro.rs:257-272 with the fields of src/distributed_emissions.rs:85-96 -/
def UnderwaterAcousticPdu.deserializeBody : Get UnderwaterAcousticPdu := do
  let emitting_entity_id ← (deserialize_field : Get EntityId)
  let event_id ← (deserialize_field : Get EventId)
  let state_change_update_indicator ← (deserialize_field : Get UAStateChangeUpdateIndicator)
  let padding ← (deserialize_field : Get UInt8)
  let passive_parameter_index ← (deserialize_field : Get UAPassiveParameterIndex)
  let propulsion_plant_configuration ← (deserialize_field : Get UInt8)
  let number_of_shafts ← (deserialize_field : Get UInt8)
  let number_of_apas ← (deserialize_field : Get UInt8)
  let number_of_ua_emitter_systems ← (deserialize_field : Get UInt8)
  let shaft_rpms ← (deserialize_field : Get (List ShaftRPMs))
  let apa_data ← (deserialize_field : Get (List ApaData))
  let emitter_systems ← (deserialize_field : Get (List AcousticEmitterSystem))
  return { emitting_entity_id, event_id, state_change_update_indicator, padding, passive_parameter_index, propulsion_plant_configuration, number_of_shafts, number_of_apas, number_of_ua_emitter_systems, shaft_rpms, apa_data, emitter_systems }
/-- src/distributed_emissions.rs:77-99 (`PduType::UnderwaterAcoustic`, `ProtocolFamily::DistributedEmissionRegeneration`) -/
instance : PduBody UnderwaterAcousticPdu where
  pduType := ⟨29, by decide⟩
  family := ⟨6, by decide⟩
  default := { emitting_entity_id := dflt, event_id := dflt, state_change_update_indicator := dflt, padding := dflt, passive_parameter_index := dflt, propulsion_plant_configuration := dflt, number_of_shafts := dflt, number_of_apas := dflt, number_of_ua_emitter_systems := dflt, shaft_rpms := dflt, apa_data := dflt, emitter_systems := dflt }
  fieldsLen := UnderwaterAcousticPdu.fieldsLen
  prep := id
  serializeBody := UnderwaterAcousticPdu.serializeBody
  deserializeBody := UnderwaterAcousticPdu.deserializeBody

/-- src/distributed_emissions.rs:101-122: the fields after the header -/
structure IFFPdu where
  emitting_entity_id : EntityId
  event_id : EventId
  relative_antenna_location : EntityCoordinateVector
  system_id : SystemId
  system_designator : UInt8
  system_specific_data : UInt8
  fundamental_operational_data : FundamentalOperationalData
  layer_header : LayerHeader
  beam_data : BeamData
  secondary_operational_data : SecondaryOperationalData
  iff_parameters : List IFFFundamentalParameterData
  deriving DecidableEq
/-- src/pdu_macro.rs:283-285 with the fields of src/distributed_emissions.rs:109-119 -/
def IFFPdu.fieldsLen (self : IFFPdu) : Nat :=
  field_len self.emitting_entity_id +
  field_len self.event_id +
  field_len self.relative_antenna_location +
  field_len self.system_id +
  field_len self.system_designator +
  field_len self.system_specific_data +
  field_len self.fundamental_operational_data +
  field_len self.layer_header +
  field_len self.beam_data +
  field_len self.secondary_operational_data +
  field_len self.iff_parameters
/-- src/pdu_macro.rs:319-321 with the fields of src/distributed_emissions.rs:109-119 -/
def IFFPdu.serializeBody (self : IFFPdu) : Put := do
  serialize_field self.emitting_entity_id
  serialize_field self.event_id
  serialize_field self.relative_antenna_location
  serialize_field self.system_id
  serialize_field self.system_designator
  serialize_field self.system_specific_data
  serialize_field self.fundamental_operational_data
  serialize_field self.layer_header
  serialize_field self.beam_data
  serialize_field self.secondary_operational_data
  serialize_field self.iff_parameters
/-- src/pdu_macro.rs:257-272 with the fields of src/distributed_emissions.rs:109-119 -/
def IFFPdu.deserializeBody : Get IFFPdu := do
  let emitting_entity_id ← (deserialize_field : Get EntityId)
  let event_id ← (deserialize_field : Get EventId)
  let relative_antenna_location ← (deserialize_field : Get EntityCoordinateVector)
  let system_id ← (deserialize_field : Get SystemId)
  let system_designator ← (deserialize_field : Get UInt8)
  let system_specific_data ← (deserialize_field : Get UInt8)
  let fundamental_operational_data ← (deserialize_field : Get FundamentalOperationalData)
  let layer_header ← (deserialize_field : Get LayerHeader)
  let beam_data ← (deserialize_field : Get BeamData)
  let secondary_operational_data ← (deserialize_field : Get SecondaryOperationalData)
  let iff_parameters ← (deserialize_field : Get (List IFFFundamentalParameterData))
  return { emitting_entity_id, event_id, relative_antenna_location, system_id, system_designator, system_specific_data, fundamental_operational_data, layer_header, beam_data, secondary_operational_data, iff_parameters }
/-- src/distributed_emissions.rs:101-122 (`PduType::IFF`, `ProtocolFamily::DistributedEmissionRegeneration`) -/
instance : PduBody IFFPdu where
  pduType := ⟨28, by decide⟩
  family := ⟨6, by decide⟩
  default := { emitting_entity_id := dflt, event_id := dflt, relative_antenna_location := dflt, system_id := dflt, system_designator := dflt, system_specific_data := dflt, fundamental_operational_data := dflt, layer_header := dflt, beam_data := dflt, secondary_operational_data := dflt, iff_parameters := dflt }
  fieldsLen := IFFPdu.fieldsLen
  prep := id
  serializeBody := IFFPdu.serializeBody
  deserializeBody := IFFPdu.deserializeBody

/-- src/distributed_emissions.rs:124-142: the fields after the header -/
structure SupplementalEmissionPdu where
  originating_entity_id : EntityId
  infrared_signature_representation_index : UInt16
  acoustic_signature_representation_index : UInt16
  radar_cross_section_signature_representation_index : UInt16
  number_of_propulsion_systems : UInt16
  number_of_vectoring_nozzle_systems : UInt16
  propulsion_system_data : List PropulsionSystemData
  vectoring_nozzle_system_data : List VectoringNozzleSystemData
  deriving DecidableEq
/-- src/pdu_macro.rs:283-285 with the fields of src/distributed_emissions.rs:132-139 -/
def SupplementalEmissionPdu.fieldsLen (self : SupplementalEmissionPdu) : Nat :=
  field_len self.originating_entity_id +
  field_len self.infrared_signature_representation_index +
  field_len self.acoustic_signature_representation_index +
  field_len self.radar_cross_section_signature_representation_index +
  field_len self.number_of_propulsion_systems +
  field_len self.number_of_vectoring_nozzle_systems +
  field_len self.propulsion_system_data +
  field_len self.vectoring_nozzle_system_data
/-- src/pdu_macro.rs:319-321 with the fields of src/distributed_emissions.rs:132-139 -/
def SupplementalEmissionPdu.serializeBody (self : SupplementalEmissionPdu) : Put := do
  serialize_field self.originating_entity_id
  serialize_field self.infrared_signature_representation_index
  serialize_field self.acoustic_signature_representation_index
  serialize_field self.radar_cross_section_signature_representation_index
  serialize_field self.number_of_propulsion_systems
  serialize_field self.number_of_vectoring_nozzle_systems
  serialize_field self.propulsion_system_data
  serialize_field self.vectoring_nozzle_system_data
/-- src/pdu_macro.rs:257-272 with the fields of src/distributed_emissions.rs:132-139 -/
def SupplementalEmissionPdu.deserializeBody : Get SupplementalEmissionPdu := do
  let originating_entity_id ← (deserialize_field : Get EntityId)
  let infrared_signature_representation_index ← (deserialize_field : Get UInt16)
  let acoustic_signature_representation_index ← (deserialize_field : Get UInt16)
  let radar_cross_section_signature_representation_index ← (deserialize_field : Get UInt16)
  let number_of_propulsion_systems ← (deserialize_field : Get UInt16)
  let number_of_vectoring_nozzle_systems ← (deserialize_field : Get UInt16)
  let propulsion_system_data ← (deserialize_field : Get (List PropulsionSystemData))
  let vectoring_nozzle_system_data ← (deserialize_field : Get (List VectoringNozzleSystemData))
  return { originating_entity_id, infrared_signature_representation_index, acoustic_signature_representation_index, radar_cross_section_signature_representation_index, number_of_propulsion_systems, number_of_vectoring_nozzle_systems, propulsion_system_data, vectoring_nozzle_system_data }
/-- src/distributed_emissions.rs:124-142 (`PduType::SupplementalEmission`, `ProtocolFamily::DistributedEmissionRegeneration`) -/
instance : PduBody SupplementalEmissionPdu where
  pduType := ⟨30, by decide⟩
  family := ⟨6, by decide⟩
  default := { originating_entity_id := dflt, infrared_signature_representation_index := dflt, acoustic_signature_representation_index := dflt, radar_cross_section_signature_representation_index := dflt, number_of_propulsion_systems := dflt, number_of_vectoring_nozzle_systems := dflt, propulsion_system_data := dflt, vectoring_nozzle_system_data := dflt }
  fieldsLen := SupplementalEmissionPdu.fieldsLen
  prep := id
  serializeBody := SupplementalEmissionPdu.serializeBody
  deserializeBody := SupplementalEmissionPdu.deserializeBody

/-- src/entity_information.rs:29-52: the fields after the header -/
structure EntityStatePdu where
  entity_id : EntityId
  force_id : ForceId
  number_of_articulation_parameters : UInt8
  entity_type : EntityType
  alternative_entity_type : EntityType
  entity_linear_velocity : LinearVelocity
  entity_location : WorldCoordinate
  entity_orientation : EulerAngles
  entity_appearance : UInt32
  dead_reckoning_parameters : DeadReckoningParameters
  entity_marking : EntityMarking
  entity_capabilities : EntityCapabilities
  articulation_parameter : List VariableParameter
  deriving DecidableEq
/-- src/pdu_macro.rs:283-285 with the fields of src/entity_information.rs:37-49 -/
def EntityStatePdu.fieldsLen (self : EntityStatePdu) : Nat :=
  field_len self.entity_id +
  field_len self.force_id +
  field_len self.number_of_articulation_parameters +
  field_len self.entity_type +
  field_len self.alternative_entity_type +
  field_len self.entity_linear_velocity +
  field_len self.entity_location +
  field_len self.entity_orientation +
  field_len self.entity_appearance +
  field_len self.dead_reckoning_parameters +
  field_len self.entity_marking +
  field_len self.entity_capabilities +
  field_len self.articulation_parameter
/-- src/pdu_macro.rs:319-321 with the fields of src/entity_information.rs:37-49 -/
def EntityStatePdu.serializeBody (self : EntityStatePdu) : Put := do
  serialize_field self.entity_id
  serialize_field self.force_id
  serialize_field self.number_of_articulation_parameters
  serialize_field self.entity_type
  serialize_field self.alternative_entity_type
  serialize_field self.entity_linear_velocity
  serialize_field self.entity_location
  serialize_field self.entity_orientation
  serialize_field self.entity_appearance
  serialize_field self.dead_reckoning_parameters
  serialize_field self.entity_marking
  serialize_field self.entity_capabilities
  serialize_field self.articulation_parameter
/-- src/pdu_macro.rs:257-272 with the fields of src/entity_information.rs:37-49 -/
def EntityStatePdu.deserializeBody : Get EntityStatePdu := do
  let entity_id ← (deserialize_field : Get EntityId)
  let force_id ← (deserialize_field : Get ForceId)
  let number_of_articulation_parameters ← (deserialize_field : Get UInt8)
  let entity_type ← (deserialize_field : Get EntityType)
  let alternative_entity_type ← (deserialize_field : Get EntityType)
  let entity_linear_velocity ← (deserialize_field : Get LinearVelocity)
  let entity_location ← (deserialize_field : Get WorldCoordinate)
  let entity_orientation ← (deserialize_field : Get EulerAngles)
  let entity_appearance ← (deserialize_field : Get UInt32)
  let dead_reckoning_parameters ← (deserialize_field : Get DeadReckoningParameters)
  let entity_marking ← (deserialize_field : Get EntityMarking)
  let entity_capabilities ← (deserialize_field : Get EntityCapabilities)
  let articulation_parameter ← (deserialize_field : Get (List VariableParameter))
  return { entity_id, force_id, number_of_articulation_parameters, entity_type, alternative_entity_type, entity_linear_velocity, entity_location, entity_orientation, entity_appearance, dead_reckoning_parameters, entity_marking, entity_capabilities, articulation_parameter }
/-- src/entity_information.rs:29-52 (`PduType::EntityState`, `ProtocolFamily::EntityInformation`) -/
instance : PduBody EntityStatePdu where
  pduType := ⟨1, by decide⟩
  family := ⟨1, by decide⟩
  default := { entity_id := dflt, force_id := dflt, number_of_articulation_parameters := dflt, entity_type := dflt, alternative_entity_type := dflt, entity_linear_velocity := dflt, entity_location := dflt, entity_orientation := dflt, entity_appearance := dflt, dead_reckoning_parameters := dflt, entity_marking := dflt, entity_capabilities := dflt, articulation_parameter := dflt }
  fieldsLen := EntityStatePdu.fieldsLen
  prep := id
  serializeBody := EntityStatePdu.serializeBody
  deserializeBody := EntityStatePdu.deserializeBody

/-- src/entity_information.rs:54-72: the fields after the header -/
structure CollisionPdu where
  issuing_entity_id : EntityId
  colliding_entity_id : EntityId
  event_id : EventId
  collision_type : UInt8
  padding : UInt8
  velocity : LinearVelocity
  mass : F32
  location_wrt_entity : EntityCoordinateVector
  deriving DecidableEq
/-- src/pdu_macro.rs:283-285 with the fields of src/entity_information.rs:62-69 -/
def CollisionPdu.fieldsLen (self : CollisionPdu) : Nat :=
  field_len self.issuing_entity_id +
  field_len self.colliding_entity_id +
  field_len self.event_id +
  field_len self.collision_type +
  field_len self.padding +
  field_len self.velocity +
  field_len self.mass +
  field_len self.location_wrt_entity
/-- src/pdu_macro.rs:319-321 with the fields of src/entity_information.rs:62-69 -/
def CollisionPdu.serializeBody (self : CollisionPdu) : Put := do
  serialize_field self.issuing_entity_id
  serialize_field self.colliding_entity_id
  serialize_field self.event_id
  serialize_field self.collision_type
  serialize_field self.padding
  serialize_field self.velocity
  serialize_field self.mass
  serialize_field self.location_wrt_entity
/-- src/pdu_macro.rs:257-272 with the fields of src/entity_information.rs:62-69 -/
def CollisionPdu.deserializeBody : Get CollisionPdu := do
  let issuing_entity_id ← (deserialize_field : Get EntityId)
  let colliding_entity_id ← (deserialize_field : Get EntityId)
  let event_id ← (deserialize_field : Get EventId)
  let collision_type ← (deserialize_field : Get UInt8)
  let padding ← (deserialize_field : Get UInt8)
  let velocity ← (deserialize_field : Get LinearVelocity)
  let mass ← (deserialize_field : Get F32)
  let location_wrt_entity ← (deserialize_field : Get EntityCoordinateVector)
  return { issuing_entity_id, colliding_entity_id, event_id, collision_type, padding, velocity, mass, location_wrt_entity }
/-- src/entity_information.rs:54-72 (`PduType::Collision`, `ProtocolFamily::EntityInformation`) -/
instance : PduBody CollisionPdu where
  pduType := ⟨4, by decide⟩
  family := ⟨1, by decide⟩
  default := { issuing_entity_id := dflt, colliding_entity_id := dflt, event_id := dflt, collision_type := dflt, padding := dflt, velocity := dflt, mass := dflt, location_wrt_entity := dflt }
  fieldsLen := CollisionPdu.fieldsLen
  prep := id
  serializeBody := CollisionPdu.serializeBody
  deserializeBody := CollisionPdu.deserializeBody

/-- src/entity_information.rs:74-99: the fields after the header -/
structure CollisionElasticPdu where
  issuing_entity_id : EntityId
  colliding_entity_id : EntityId
  event_id : EventId
  padding : UInt16
  contact_velocity : LinearVelocity
  mass : F32
  location_of_impact : EntityCoordinateVector
  collision_intermediate_result_xx : F32
  collision_intermediate_result_xy : F32
  collision_intermediate_result_xz : F32
  collision_intermediate_result_yy : F32
  collision_intermediate_result_yz : F32
  collision_intermediate_result_zz : F32
  unit_surface_normal : EntityCoordinateVector
  coefficient_of_restitution : F32
  deriving DecidableEq
/-- src/pdu_macro.rs:283-285 with the fields of src/entity_information.rs:82-96 -/
def CollisionElasticPdu.fieldsLen (self : CollisionElasticPdu) : Nat :=
  field_len self.issuing_entity_id +
  field_len self.colliding_entity_id +
  field_len self.event_id +
  field_len self.padding +
  field_len self.contact_velocity +
  field_len self.mass +
  field_len self.location_of_impact +
  field_len self.collision_intermediate_result_xx +
  field_len self.collision_intermediate_result_xy +
  field_len self.collision_intermediate_result_xz +
  field_len self.collision_intermediate_result_yy +
  field_len self.collision_intermediate_result_yz +
  field_len self.collision_intermediate_result_zz +
  field_len self.unit_surface_normal +
  field_len self.coefficient_of_restitution
/-- src/pdu_macro.rs:319-321 with the fields of src/entity_information.rs:82-96 -/
def CollisionElasticPdu.serializeBody (self : CollisionElasticPdu) : Put := do
  serialize_field self.issuing_entity_id
  serialize_field self.colliding_entity_id
  serialize_field self.event_id
  serialize_field self.padding
  serialize_field self.contact_velocity
  serialize_field self.mass
  serialize_field self.location_of_impact
  serialize_field self.collision_intermediate_result_xx
  serialize_field self.collision_intermediate_result_xy
  serialize_field self.collision_intermediate_result_xz
  serialize_field self.collision_intermediate_result_yy
  serialize_field self.collision_intermediate_result_yz
  serialize_field self.collision_intermediate_result_zz
  serialize_field self.unit_surface_normal
  serialize_field self.coefficient_of_restitution
/-- src/pdu_macro.rs:257-272 with the fields of src/entity_information.rs:82-96 -/
def CollisionElasticPdu.deserializeBody : Get CollisionElasticPdu := do
  let issuing_entity_id ← (deserialize_field : Get EntityId)
  let colliding_entity_id ← (deserialize_field : Get EntityId)
  let event_id ← (deserialize_field : Get EventId)
  let padding ← (deserialize_field : Get UInt16)
  let contact_velocity ← (deserialize_field : Get LinearVelocity)
  let mass ← (deserialize_field : Get F32)
  let location_of_impact ← (deserialize_field : Get EntityCoordinateVector)
  let collision_intermediate_result_xx ← (deserialize_field : Get F32)
  let collision_intermediate_result_xy ← (deserialize_field : Get F32)
  let collision_intermediate_result_xz ← (deserialize_field : Get F32)
  let collision_intermediate_result_yy ← (deserialize_field : Get F32)
  let collision_intermediate_result_yz ← (deserialize_field : Get F32)
  let collision_intermediate_result_zz ← (deserialize_field : Get F32)
  let unit_surface_normal ← (deserialize_field : Get EntityCoordinateVector)
  let coefficient_of_restitution ← (deserialize_field : Get F32)
  return { issuing_entity_id, colliding_entity_id, event_id, padding, contact_velocity, mass, location_of_impact, collision_intermediate_result_xx, collision_intermediate_result_xy, collision_intermediate_result_xz, collision_intermediate_result_yy, collision_intermediate_result_yz, collision_intermediate_result_zz, unit_surface_normal, coefficient_of_restitution }
/-- src/entity_information.rs:74-99 (`PduType::CollisionElastic`, `ProtocolFamily::EntityInformation`) -/
instance : PduBody CollisionElasticPdu where
  pduType := ⟨66, by decide⟩
  family := ⟨1, by decide⟩
  default := { issuing_entity_id := dflt, colliding_entity_id := dflt, event_id := dflt, padding := dflt, contact_velocity := dflt, mass := dflt, location_of_impact := dflt, collision_intermediate_result_xx := dflt, collision_intermediate_result_xy := dflt, collision_intermediate_result_xz := dflt, collision_intermediate_result_yy := dflt, collision_intermediate_result_yz := dflt, collision_intermediate_result_zz := dflt, unit_surface_normal := dflt, coefficient_of_restitution := dflt }
  fieldsLen := CollisionElasticPdu.fieldsLen
  prep := id
  serializeBody := CollisionElasticPdu.serializeBody
  deserializeBody := CollisionElasticPdu.deserializeBody

/-- src/entity_information.rs:101-119: the fields after the header -/
structure EntityStateUpdatePdu where
  entity_id : EntityId
  padding : UInt8
  number_of_variable_parameters : UInt8
  entity_linear_velocity : LinearVelocity
  entity_location : WorldCoordinate
  entity_orientation : EulerAngles
  entity_appearance : UInt32
  variable_parameter_records : List VariableParameter
  deriving DecidableEq
/-- src/pdu_macro.rs:283-285 with the fields of src/entity_information.rs:109-116 -/
def EntityStateUpdatePdu.fieldsLen (self : EntityStateUpdatePdu) : Nat :=
  field_len self.entity_id +
  field_len self.padding +
  field_len self.number_of_variable_parameters +
  field_len self.entity_linear_velocity +
  field_len self.entity_location +
  field_len self.entity_orientation +
  field_len self.entity_appearance +
  field_len self.variable_parameter_records
/-- src/pdu_macro.rs:319-321 with the fields of src/entity_information.rs:109-116 -/
def EntityStateUpdatePdu.serializeBody (self : EntityStateUpdatePdu) : Put := do
  serialize_field self.entity_id
  serialize_field self.padding
  serialize_field self.number_of_variable_parameters
  serialize_field self.entity_linear_velocity
  serialize_field self.entity_location
  serialize_field self.entity_orientation
  serialize_field self.entity_appearance
  serialize_field self.variable_parameter_records
/-- src/pdu_macro.rs:257-272 with the fields of src/entity_information.rs:109-116 -/
def EntityStateUpdatePdu.deserializeBody : Get EntityStateUpdatePdu := do
  let entity_id ← (deserialize_field : Get EntityId)
  let padding ← (deserialize_field : Get UInt8)
  let number_of_variable_parameters ← (deserialize_field : Get UInt8)
  let entity_linear_velocity ← (deserialize_field : Get LinearVelocity)
  let entity_location ← (deserialize_field : Get WorldCoordinate)
  let entity_orientation ← (deserialize_field : Get EulerAngles)
  let entity_appearance ← (deserialize_field : Get UInt32)
  let variable_parameter_records ← (deserialize_field : Get (List VariableParameter))
  return { entity_id, padding, number_of_variable_parameters, entity_linear_velocity, entity_location, entity_orientation, entity_appearance, variable_parameter_records }
/-- src/entity_information.rs:101-119 (`PduType::EntityStateUpdate`, `ProtocolFamily::EntityInformation`) -/
instance : PduBody EntityStateUpdatePdu where
  pduType := ⟨67, by decide⟩
  family := ⟨1, by decide⟩
  default := { entity_id := dflt, padding := dflt, number_of_variable_parameters := dflt, entity_linear_velocity := dflt, entity_location := dflt, entity_orientation := dflt, entity_appearance := dflt, variable_parameter_records := dflt }
  fieldsLen := EntityStateUpdatePdu.fieldsLen
  prep := id
  serializeBody := EntityStateUpdatePdu.serializeBody
  deserializeBody := EntityStateUpdatePdu.deserializeBody

/-- src/entity_information.rs:121-141: the fields after the header -/
structure AttributePdu where
  originating_simulation_address : SimulationAddress
  padding : UInt32
  padding2 : UInt16
  attribute_record_pdu_type : UInt8
  attribute_record_protocol_version : UInt8
  master_attribute_record_type : UInt32
  action_code : DISAttributeActionCode
  padding3 : UInt8
  number_of_attribute_record_sets : UInt16
  attribute_record_sets : List AttributeRecordSet
  deriving DecidableEq
/-- src/pdu_macro.rs:283-285 with the fields of src/entity_information.rs:129-138 -/
def AttributePdu.fieldsLen (self : AttributePdu) : Nat :=
  field_len self.originating_simulation_address +
  field_len self.padding +
  field_len self.padding2 +
  field_len self.attribute_record_pdu_type +
  field_len self.attribute_record_protocol_version +
  field_len self.master_attribute_record_type +
  field_len self.action_code +
  field_len self.padding3 +
  field_len self.number_of_attribute_record_sets +
  field_len self.attribute_record_sets
/-- src/pdu_macro.rs:319-321 with the fields of src/entity_information.rs:129-138 -/
def AttributePdu.serializeBody (self : AttributePdu) : Put := do
  serialize_field self.originating_simulation_address
  serialize_field self.padding
  serialize_field self.padding2
  serialize_field self.attribute_record_pdu_type
  serialize_field self.attribute_record_protocol_version
  serialize_field self.master_attribute_record_type
  serialize_field self.action_code
  serialize_field self.padding3
  serialize_field self.number_of_attribute_record_sets
  serialize_field self.attribute_record_sets
/-- src/pdu_macro.rs:257-272 with the fields of src/entity_information.rs:129-138 -/
def AttributePdu.deserializeBody : Get AttributePdu := do
  let originating_simulation_address ← (deserialize_field : Get SimulationAddress)
  let padding ← (deserialize_field : Get UInt32)
  let padding2 ← (deserialize_field : Get UInt16)
  let attribute_record_pdu_type ← (deserialize_field : Get UInt8)
  let attribute_record_protocol_version ← (deserialize_field : Get UInt8)
  let master_attribute_record_type ← (deserialize_field : Get UInt32)
  let action_code ← (deserialize_field : Get DISAttributeActionCode)
  let padding3 ← (deserialize_field : Get UInt8)
  let number_of_attribute_record_sets ← (deserialize_field : Get UInt16)
  let attribute_record_sets ← (deserialize_field : Get (List AttributeRecordSet))
  return { originating_simulation_address, padding, padding2, attribute_record_pdu_type, attribute_record_protocol_version, master_attribute_record_type, action_code, padding3, number_of_attribute_record_sets, attribute_record_sets }
/-- src/entity_information.rs:121-141 (`PduType::Attribute`, `ProtocolFamily::EntityInformation`) -/
instance : PduBody AttributePdu where
  pduType := ⟨72, by decide⟩
  family := ⟨1, by decide⟩
  default := { originating_simulation_address := dflt, padding := dflt, padding2 := dflt, attribute_record_pdu_type := dflt, attribute_record_protocol_version := dflt, master_attribute_record_type := dflt, action_code := dflt, padding3 := dflt, number_of_attribute_record_sets := dflt, attribute_record_sets := dflt }
  fieldsLen := AttributePdu.fieldsLen
  prep := id
  serializeBody := AttributePdu.serializeBody
  deserializeBody := AttributePdu.deserializeBody

/-- src/entity_management.rs:30-61: the fields after the header -/
structure AggregateStatePdu where
  aggregate_id : AggregateId
  force_id : ForceId
  aggregate_state : AggregateStateAggregateState
  aggregate_type : EntityType
  formation : AggregateStateFormation
  aggregate_marking : AggregateMarking
  dimensions : Vector3Float
  orientation : EulerAngles
  center_of_mass : WorldCoordinate
  velocity : LinearVelocity
  number_of_dis_aggregates : UInt16
  number_of_dis_entities : UInt16
  number_of_silent_aggregate_types : UInt16
  number_of_silent_entity_types : UInt16
  aggregate_id_list : List AggregateId
  entity_id_list : List EntityId
  padding : List UInt8
  silent_aggregate_system_list : List EntityType
  silent_entity_system_list : List EntityType
  number_of_variable_datum_records : UInt32
  variable_datum_list : List VariableDatumRecord
  deriving DecidableEq
/-- src/pdu_macro.rs:283-285 with the fields of src/entity_management.rs:38-58 -/
def AggregateStatePdu.fieldsLen (self : AggregateStatePdu) : Nat :=
  field_len self.aggregate_id +
  field_len self.force_id +
  field_len self.aggregate_state +
  field_len self.aggregate_type +
  field_len self.formation +
  field_len self.aggregate_marking +
  field_len self.dimensions +
  field_len self.orientation +
  field_len self.center_of_mass +
  field_len self.velocity +
  field_len self.number_of_dis_aggregates +
  field_len self.number_of_dis_entities +
  field_len self.number_of_silent_aggregate_types +
  field_len self.number_of_silent_entity_types +
  field_len self.aggregate_id_list +
  field_len self.entity_id_list +
  field_len self.padding +
  field_len self.silent_aggregate_system_list +
  field_len self.silent_entity_system_list +
  field_len self.number_of_variable_datum_records +
  field_len self.variable_datum_list
/-- src/pdu_macro.rs:319-321 with the fields of src/entity_management.rs:38-58 -/
def AggregateStatePdu.serializeBody (self : AggregateStatePdu) : Put := do
  serialize_field self.aggregate_id
  serialize_field self.force_id
  serialize_field self.aggregate_state
  serialize_field self.aggregate_type
  serialize_field self.formation
  serialize_field self.aggregate_marking
  serialize_field self.dimensions
  serialize_field self.orientation
  serialize_field self.center_of_mass
  serialize_field self.velocity
  serialize_field self.number_of_dis_aggregates
  serialize_field self.number_of_dis_entities
  serialize_field self.number_of_silent_aggregate_types
  serialize_field self.number_of_silent_entity_types
  serialize_field self.aggregate_id_list
  serialize_field self.entity_id_list
  serialize_field self.padding
  serialize_field self.silent_aggregate_system_list
  serialize_field self.silent_entity_system_list
  serialize_field self.number_of_variable_datum_records
  serialize_field self.variable_datum_list
/-- src/pdu_macro.rs:257-272 with the fields of src/entity_management.rs:38-58 -/
def AggregateStatePdu.deserializeBody : Get AggregateStatePdu := do
  let aggregate_id ← (deserialize_field : Get AggregateId)
  let force_id ← (deserialize_field : Get ForceId)
  let aggregate_state ← (deserialize_field : Get AggregateStateAggregateState)
  let aggregate_type ← (deserialize_field : Get EntityType)
  let formation ← (deserialize_field : Get AggregateStateFormation)
  let aggregate_marking ← (deserialize_field : Get AggregateMarking)
  let dimensions ← (deserialize_field : Get Vector3Float)
  let orientation ← (deserialize_field : Get EulerAngles)
  let center_of_mass ← (deserialize_field : Get WorldCoordinate)
  let velocity ← (deserialize_field : Get LinearVelocity)
  let number_of_dis_aggregates ← (deserialize_field : Get UInt16)
  let number_of_dis_entities ← (deserialize_field : Get UInt16)
  let number_of_silent_aggregate_types ← (deserialize_field : Get UInt16)
  let number_of_silent_entity_types ← (deserialize_field : Get UInt16)
  let aggregate_id_list ← (deserialize_field : Get (List AggregateId))
  let entity_id_list ← (deserialize_field : Get (List EntityId))
  let padding ← (deserialize_field : Get (List UInt8))
  let silent_aggregate_system_list ← (deserialize_field : Get (List EntityType))
  let silent_entity_system_list ← (deserialize_field : Get (List EntityType))
  let number_of_variable_datum_records ← (deserialize_field : Get UInt32)
  let variable_datum_list ← (deserialize_field : Get (List VariableDatumRecord))
  return { aggregate_id, force_id, aggregate_state, aggregate_type, formation, aggregate_marking, dimensions, orientation, center_of_mass, velocity, number_of_dis_aggregates, number_of_dis_entities, number_of_silent_aggregate_types, number_of_silent_entity_types, aggregate_id_list, entity_id_list, padding, silent_aggregate_system_list, silent_entity_system_list, number_of_variable_datum_records, variable_datum_list }
/-- src/entity_management.rs:30-61 (`PduType::AggregateState`, `ProtocolFamily::EntityManagement`) -/
instance : PduBody AggregateStatePdu where
  pduType := ⟨33, by decide⟩
  family := ⟨7, by decide⟩
  default := { aggregate_id := dflt, force_id := dflt, aggregate_state := dflt, aggregate_type := dflt, formation := dflt, aggregate_marking := dflt, dimensions := dflt, orientation := dflt, center_of_mass := dflt, velocity := dflt, number_of_dis_aggregates := dflt, number_of_dis_entities := dflt, number_of_silent_aggregate_types := dflt, number_of_silent_entity_types := dflt, aggregate_id_list := dflt, entity_id_list := dflt, padding := dflt, silent_aggregate_system_list := dflt, silent_entity_system_list := dflt, number_of_variable_datum_records := dflt, variable_datum_list := dflt }
  fieldsLen := AggregateStatePdu.fieldsLen
  prep := id
  serializeBody := AggregateStatePdu.serializeBody
  deserializeBody := AggregateStatePdu.deserializeBody

/-- src/entity_management.rs:63-80: the fields after the header -/
structure IsGroupOfPdu where
  group_entity_id : EntityId
  grouped_entity_category : IsGroupOfGroupedEntityCategory
  number_of_grouped_entities : UInt8
  padding : UInt32
  latitude : F64
  longitude : F64
  grouped_entity_descriptions : List UInt64
  deriving DecidableEq
/-- src/pdu_macro.rs:283-285 with the fields of src/entity_management.rs:71-77 -/
def IsGroupOfPdu.fieldsLen (self : IsGroupOfPdu) : Nat :=
  field_len self.group_entity_id +
  field_len self.grouped_entity_category +
  field_len self.number_of_grouped_entities +
  field_len self.padding +
  field_len self.latitude +
  field_len self.longitude +
  field_len self.grouped_entity_descriptions
/-- src/pdu_macro.rs:319-321 with the fields of src/entity_management.rs:71-77 -/
def IsGroupOfPdu.serializeBody (self : IsGroupOfPdu) : Put := do
  serialize_field self.group_entity_id
  serialize_field self.grouped_entity_category
  serialize_field self.number_of_grouped_entities
  serialize_field self.padding
  serialize_field self.latitude
  serialize_field self.longitude
  serialize_field self.grouped_entity_descriptions
/-- src/pdu_macro.rs:257-272 with the fields of src/entity_management.rs:71-77 -/
def IsGroupOfPdu.deserializeBody : Get IsGroupOfPdu := do
  let group_entity_id ← (deserialize_field : Get EntityId)
  let grouped_entity_category ← (deserialize_field : Get IsGroupOfGroupedEntityCategory)
  let number_of_grouped_entities ← (deserialize_field : Get UInt8)
  let padding ← (deserialize_field : Get UInt32)
  let latitude ← (deserialize_field : Get F64)
  let longitude ← (deserialize_field : Get F64)
  let grouped_entity_descriptions ← (deserialize_field : Get (List UInt64))
  return { group_entity_id, grouped_entity_category, number_of_grouped_entities, padding, latitude, longitude, grouped_entity_descriptions }
/-- src/entity_management.rs:63-80 (`PduType::IsGroupOf`, `ProtocolFamily::EntityManagement`) -/
instance : PduBody IsGroupOfPdu where
  pduType := ⟨34, by decide⟩
  family := ⟨7, by decide⟩
  default := { group_entity_id := dflt, grouped_entity_category := dflt, number_of_grouped_entities := dflt, padding := dflt, latitude := dflt, longitude := dflt, grouped_entity_descriptions := dflt }
  fieldsLen := IsGroupOfPdu.fieldsLen
  prep := id
  serializeBody := IsGroupOfPdu.serializeBody
  deserializeBody := IsGroupOfPdu.deserializeBody

/-- src/entity_management.rs:82-99: the fields after the header -/
structure TransferOwnershipPdu where
  originating_id : SimulationIdentifier
  receiving_id : SimulationIdentifier
  request_id : UInt32
  required_reliability_service : RequiredReliabilityService
  transfer_type : TransferControlTransferType
  transfer_entity_id : EntityId
  record_information : RecordSpecification
  deriving DecidableEq
/-- src/pdu_macro.rs:283-285 with the fields of src/entity_management.rs:90-96 -/
def TransferOwnershipPdu.fieldsLen (self : TransferOwnershipPdu) : Nat :=
  field_len self.originating_id +
  field_len self.receiving_id +
  field_len self.request_id +
  field_len self.required_reliability_service +
  field_len self.transfer_type +
  field_len self.transfer_entity_id +
  field_len self.record_information
/-- src/pdu_macro.rs:319-321 with the fields of src/entity_management.rs:90-96 -/
def TransferOwnershipPdu.serializeBody (self : TransferOwnershipPdu) : Put := do
  serialize_field self.originating_id
  serialize_field self.receiving_id
  serialize_field self.request_id
  serialize_field self.required_reliability_service
  serialize_field self.transfer_type
  serialize_field self.transfer_entity_id
  serialize_field self.record_information
/-- src/pdu_macro.rs:257-272 with the fields of src/entity_management.rs:90-96 -/
def TransferOwnershipPdu.deserializeBody : Get TransferOwnershipPdu := do
  let originating_id ← (deserialize_field : Get SimulationIdentifier)
  let receiving_id ← (deserialize_field : Get SimulationIdentifier)
  let request_id ← (deserialize_field : Get UInt32)
  let required_reliability_service ← (deserialize_field : Get RequiredReliabilityService)
  let transfer_type ← (deserialize_field : Get TransferControlTransferType)
  let transfer_entity_id ← (deserialize_field : Get EntityId)
  let record_information ← (deserialize_field : Get RecordSpecification)
  return { originating_id, receiving_id, request_id, required_reliability_service, transfer_type, transfer_entity_id, record_information }
/-- src/entity_management.rs:82-99 (`PduType::TransferOwnership`, `ProtocolFamily::EntityManagement`) -/
instance : PduBody TransferOwnershipPdu where
  pduType := ⟨35, by decide⟩
  family := ⟨7, by decide⟩
  default := { originating_id := dflt, receiving_id := dflt, request_id := dflt, required_reliability_service := dflt, transfer_type := dflt, transfer_entity_id := dflt, record_information := dflt }
  fieldsLen := TransferOwnershipPdu.fieldsLen
  prep := id
  serializeBody := TransferOwnershipPdu.serializeBody
  deserializeBody := TransferOwnershipPdu.deserializeBody

/-- src/entity_management.rs:101-117: the fields after the header -/
structure IsPartOfPdu where
  originating_entity_id : EntityId
  receiving_entity_id : EntityId
  relationship : Relationship
  part_location : Vector3Float
  named_location_id : NamedLocation
  part_entity_type : EntityType
  deriving DecidableEq
/-- src/pdu_macro.rs:283-285 with the fields of src/entity_management.rs:109-114 -/
def IsPartOfPdu.fieldsLen (self : IsPartOfPdu) : Nat :=
  field_len self.originating_entity_id +
  field_len self.receiving_entity_id +
  field_len self.relationship +
  field_len self.part_location +
  field_len self.named_location_id +
  field_len self.part_entity_type
/-- src/pdu_macro.rs:319-321 with the fields of src/entity_management.rs:109-114 -/
def IsPartOfPdu.serializeBody (self : IsPartOfPdu) : Put := do
  serialize_field self.originating_entity_id
  serialize_field self.receiving_entity_id
  serialize_field self.relationship
  serialize_field self.part_location
  serialize_field self.named_location_id
  serialize_field self.part_entity_type
/-- src/pdu_macro.rs:257-272 with the fields of src/entity_management.rs:109-114 -/
def IsPartOfPdu.deserializeBody : Get IsPartOfPdu := do
  let originating_entity_id ← (deserialize_field : Get EntityId)
  let receiving_entity_id ← (deserialize_field : Get EntityId)
  let relationship ← (deserialize_field : Get Relationship)
  let part_location ← (deserialize_field : Get Vector3Float)
  let named_location_id ← (deserialize_field : Get NamedLocation)
  let part_entity_type ← (deserialize_field : Get EntityType)
  return { originating_entity_id, receiving_entity_id, relationship, part_location, named_location_id, part_entity_type }
/-- src/entity_management.rs:101-117 (`PduType::IsPartOf`, `ProtocolFamily::EntityManagement`) -/
instance : PduBody IsPartOfPdu where
  pduType := ⟨36, by decide⟩
  family := ⟨7, by decide⟩
  default := { originating_entity_id := dflt, receiving_entity_id := dflt, relationship := dflt, part_location := dflt, named_location_id := dflt, part_entity_type := dflt }
  fieldsLen := IsPartOfPdu.fieldsLen
  prep := id
  serializeBody := IsPartOfPdu.serializeBody
  deserializeBody := IsPartOfPdu.deserializeBody

/-- src/information_operations.rs:25-44: the fields after the header -/
structure InformationOperationsReportPdu where
  originating_simulation_id : SimulationIdentifier
  io_simulation_source : IOActionIOSimulationSource
  io_report_type : IOReportIOReportType
  padding : UInt8
  io_attacker_entity_id : EntityId
  primary_target_entity_id : EntityId
  padding2 : UInt16
  padding3 : UInt16
  io_records : StandardVariableSpecification
  deriving DecidableEq
/-- src/pdu_macro.rs:283-285 with the fields of src/information_operations.rs:33-41 -/
def InformationOperationsReportPdu.fieldsLen (self : InformationOperationsReportPdu) : Nat :=
  field_len self.originating_simulation_id +
  field_len self.io_simulation_source +
  field_len self.io_report_type +
  field_len self.padding +
  field_len self.io_attacker_entity_id +
  field_len self.primary_target_entity_id +
  field_len self.padding2 +
  field_len self.padding3 +
  field_len self.io_records
/-- src/pdu_macro.rs:319-321 with the fields of src/information_operations.rs:33-41 -/
def InformationOperationsReportPdu.serializeBody (self : InformationOperationsReportPdu) : Put := do
  serialize_field self.originating_simulation_id
  serialize_field self.io_simulation_source
  serialize_field self.io_report_type
  serialize_field self.padding
  serialize_field self.io_attacker_entity_id
  serialize_field self.primary_target_entity_id
  serialize_field self.padding2
  serialize_field self.padding3
  serialize_field self.io_records
/-- src/pdu_macro.rs:257-272 with the fields of src/information_operations.rs:33-41 -/
def InformationOperationsReportPdu.deserializeBody : Get InformationOperationsReportPdu := do
  let originating_simulation_id ← (deserialize_field : Get SimulationIdentifier)
  let io_simulation_source ← (deserialize_field : Get IOActionIOSimulationSource)
  let io_report_type ← (deserialize_field : Get IOReportIOReportType)
  let padding ← (deserialize_field : Get UInt8)
  let io_attacker_entity_id ← (deserialize_field : Get EntityId)
  let primary_target_entity_id ← (deserialize_field : Get EntityId)
  let padding2 ← (deserialize_field : Get UInt16)
  let padding3 ← (deserialize_field : Get UInt16)
  let io_records ← (deserialize_field : Get StandardVariableSpecification)
  return { originating_simulation_id, io_simulation_source, io_report_type, padding, io_attacker_entity_id, primary_target_entity_id, padding2, padding3, io_records }
/-- src/information_operations.rs:25-44 (`PduType::InformationOperationsReport`, `ProtocolFamily::InformationOperations`) -/
instance : PduBody InformationOperationsReportPdu where
  pduType := ⟨71, by decide⟩
  family := ⟨13, by decide⟩
  default := { originating_simulation_id := dflt, io_simulation_source := dflt, io_report_type := dflt, padding := dflt, io_attacker_entity_id := dflt, primary_target_entity_id := dflt, padding2 := dflt, padding3 := dflt, io_records := dflt }
  fieldsLen := InformationOperationsReportPdu.fieldsLen
  prep := id
  serializeBody := InformationOperationsReportPdu.serializeBody
  deserializeBody := InformationOperationsReportPdu.deserializeBody

/-- src/information_operations.rs:46-68: the fields after the header -/
structure InformationOperationsActionPdu where
  originating_simulation_id : SimulationIdentifier
  receiving_simulation_id : SimulationIdentifier
  request_id : UInt32
  io_warfare_type : IOActionIOWarfareType
  io_simulation_source : IOActionIOSimulationSource
  io_action_type : IOActionIOActionType
  io_action_phase : IOActionIOActionPhase
  padding : UInt32
  io_attacker_entity_id : EntityId
  io_primary_target_entity_id : EntityId
  padding2 : UInt16
  io_records : StandardVariableSpecification
  deriving DecidableEq
/-- src/pdu_macro.rs:283-285 with the fields of src/information_operations.rs:54-65 -/
def InformationOperationsActionPdu.fieldsLen (self : InformationOperationsActionPdu) : Nat :=
  field_len self.originating_simulation_id +
  field_len self.receiving_simulation_id +
  field_len self.request_id +
  field_len self.io_warfare_type +
  field_len self.io_simulation_source +
  field_len self.io_action_type +
  field_len self.io_action_phase +
  field_len self.padding +
  field_len self.io_attacker_entity_id +
  field_len self.io_primary_target_entity_id +
  field_len self.padding2 +
  field_len self.io_records
/-- src/pdu_macro.rs:319-321 with the fields of src/information_operations.rs:54-65 -/
def InformationOperationsActionPdu.serializeBody (self : InformationOperationsActionPdu) : Put := do
  serialize_field self.originating_simulation_id
  serialize_field self.receiving_simulation_id
  serialize_field self.request_id
  serialize_field self.io_warfare_type
  serialize_field self.io_simulation_source
  serialize_field self.io_action_type
  serialize_field self.io_action_phase
  serialize_field self.padding
  serialize_field self.io_attacker_entity_id
  serialize_field self.io_primary_target_entity_id
  serialize_field self.padding2
  serialize_field self.io_records
/-- src/pdu_macro.rs:257-272 with the fields of src/information_operations.rs:54-65 -/
def InformationOperationsActionPdu.deserializeBody : Get InformationOperationsActionPdu := do
  let originating_simulation_id ← (deserialize_field : Get SimulationIdentifier)
  let receiving_simulation_id ← (deserialize_field : Get SimulationIdentifier)
  let request_id ← (deserialize_field : Get UInt32)
  let io_warfare_type ← (deserialize_field : Get IOActionIOWarfareType)
  let io_simulation_source ← (deserialize_field : Get IOActionIOSimulationSource)
  let io_action_type ← (deserialize_field : Get IOActionIOActionType)
  let io_action_phase ← (deserialize_field : Get IOActionIOActionPhase)
  let padding ← (deserialize_field : Get UInt32)
  let io_attacker_entity_id ← (deserialize_field : Get EntityId)
  let io_primary_target_entity_id ← (deserialize_field : Get EntityId)
  let padding2 ← (deserialize_field : Get UInt16)
  let io_records ← (deserialize_field : Get StandardVariableSpecification)
  return { originating_simulation_id, receiving_simulation_id, request_id, io_warfare_type, io_simulation_source, io_action_type, io_action_phase, padding, io_attacker_entity_id, io_primary_target_entity_id, padding2, io_records }
/-- src/information_operations.rs:46-68 (`PduType::InformationOperationsAction`, `ProtocolFamily::InformationOperations`) -/
instance : PduBody InformationOperationsActionPdu where
  pduType := ⟨70, by decide⟩
  family := ⟨13, by decide⟩
  default := { originating_simulation_id := dflt, receiving_simulation_id := dflt, request_id := dflt, io_warfare_type := dflt, io_simulation_source := dflt, io_action_type := dflt, io_action_phase := dflt, padding := dflt, io_attacker_entity_id := dflt, io_primary_target_entity_id := dflt, padding2 := dflt, io_records := dflt }
  fieldsLen := InformationOperationsActionPdu.fieldsLen
  prep := id
  serializeBody := InformationOperationsActionPdu.serializeBody
  deserializeBody := InformationOperationsActionPdu.deserializeBody

end Dis
