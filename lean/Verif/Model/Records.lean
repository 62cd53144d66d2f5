import Verif.Model.Irregular
/- Generated by tools/gen_records.py from /repo/src/common/data_types. -/
namespace Dis

/-- src/common/data_types/acoustic_beam_fundamental_parameter.rs:9-16 -/
structure AcousticBeamFundamentalParameter where
  active_emission_parameter_index : UInt16
  scan_pattern : UInt16
  beam_center_azimuth : F32
  azimuthal_beamwidth : F32
  beam_center_de : F32
  de_beamwidth : F32
  deriving DecidableEq
/-- src/common/data_types/acoustic_beam_fundamental_parameter.rs:9-16 (derived) -/
instance : RDefault AcousticBeamFundamentalParameter := ⟨{ active_emission_parameter_index := dflt, scan_pattern := dflt, beam_center_azimuth := dflt, azimuthal_beamwidth := dflt, beam_center_de := dflt, de_beamwidth := dflt }⟩
/-- src/common/data_types/acoustic_beam_fundamental_parameter.rs:38-45 -/
def AcousticBeamFundamentalParameter.serialize (self : AcousticBeamFundamentalParameter) : Put := do
  putU16 self.active_emission_parameter_index
  putU16 self.scan_pattern
  putF32 self.beam_center_azimuth
  putF32 self.azimuthal_beamwidth
  putF32 self.beam_center_de
  putF32 self.de_beamwidth
/-- src/common/data_types/acoustic_beam_fundamental_parameter.rs:47-56 -/
def AcousticBeamFundamentalParameter.deserialize : Get AcousticBeamFundamentalParameter := do
  let active_emission_parameter_index ← getU16
  let scan_pattern ← getU16
  let beam_center_azimuth ← getF32
  let azimuthal_beamwidth ← getF32
  let beam_center_de ← getF32
  let de_beamwidth ← getF32
  return { active_emission_parameter_index, scan_pattern, beam_center_azimuth, azimuthal_beamwidth, beam_center_de, de_beamwidth }

/-- src/common/data_types/acoustic_beam_data.rs:12-17 -/
structure AcousticBeamData where
  beam_data_length : UInt16
  beam_id_number : UInt8
  pad2 : UInt16
  fundamental_data_parameters : AcousticBeamFundamentalParameter
  deriving DecidableEq
/-- src/common/data_types/acoustic_beam_data.rs:12-17 (derived) -/
instance : RDefault AcousticBeamData := ⟨{ beam_data_length := dflt, beam_id_number := dflt, pad2 := dflt, fundamental_data_parameters := dflt }⟩
/-- src/common/data_types/acoustic_beam_data.rs:35-40 -/
def AcousticBeamData.serialize (self : AcousticBeamData) : Put := do
  putU16 self.beam_data_length
  putU8 self.beam_id_number
  putU16 self.pad2
  self.fundamental_data_parameters.serialize
/-- src/common/data_types/acoustic_beam_data.rs:42-49 -/
def AcousticBeamData.deserialize : Get AcousticBeamData := do
  let beam_data_length ← getU16
  let beam_id_number ← getU8
  let pad2 ← getU16
  let fundamental_data_parameters ← AcousticBeamFundamentalParameter.deserialize
  return { beam_data_length, beam_id_number, pad2, fundamental_data_parameters }

/-- src/common/data_types/acoustic_emitter_system.rs:16-20 -/
structure AcousticEmitterSystem where
  acoustic_name : UAAcousticSystemName
  acoustic_function : UAAcousticEmitterSystemFunction
  acoustic_id : UInt8
  deriving DecidableEq
/-- src/common/data_types/acoustic_emitter_system.rs:16-20 (derived) -/
instance : RDefault AcousticEmitterSystem := ⟨{ acoustic_name := dflt, acoustic_function := dflt, acoustic_id := dflt }⟩
/-- src/common/data_types/acoustic_emitter_system.rs:36-40 -/
def AcousticEmitterSystem.serialize (self : AcousticEmitterSystem) : Put := do
  putU16 self.acoustic_name.asU16
  putU8 self.acoustic_function.asU8
  putU8 self.acoustic_id
/-- src/common/data_types/acoustic_emitter_system.rs:42-48 -/
def AcousticEmitterSystem.deserialize : Get AcousticEmitterSystem := do
  let acoustic_name ← UAAcousticSystemName.deserialize
  let acoustic_function ← UAAcousticEmitterSystemFunction.deserialize
  let acoustic_id ← getU8
  return { acoustic_name, acoustic_function, acoustic_id }
/-- src/common/data_types/acoustic_emitter_system.rs:52-54 -/
instance : FieldSerialize AcousticEmitterSystem := ⟨AcousticEmitterSystem.serialize⟩
/-- src/common/data_types/acoustic_emitter_system.rs:58-60 -/
instance : FieldDeserialize AcousticEmitterSystem := ⟨AcousticEmitterSystem.deserialize⟩
/-- src/common/data_types/acoustic_emitter_system.rs:64-66 -/
instance : FieldLen AcousticEmitterSystem := ⟨fun self => field_len self.acoustic_name + field_len self.acoustic_function + 1⟩

/-- src/common/data_types/vector3_float.rs:13-20 -/
structure Vector3Float where
  x : F32
  y : F32
  z : F32
  deriving DecidableEq
/-- src/common/data_types/vector3_float.rs:13-20 (derived) -/
instance : RDefault Vector3Float := ⟨{ x := dflt, y := dflt, z := dflt }⟩
/-- src/common/data_types/vector3_float.rs:95-99 -/
def Vector3Float.serialize (self : Vector3Float) : Put := do
  putF32 self.x
  putF32 self.y
  putF32 self.z
/-- src/common/data_types/vector3_float.rs:101-107 -/
def Vector3Float.deserialize : Get Vector3Float := do
  let x ← getF32
  let y ← getF32
  let z ← getF32
  return { x, y, z }
/-- src/common/data_types/vector3_float.rs:143-145 -/
instance : FieldSerialize Vector3Float := ⟨Vector3Float.serialize⟩
/-- src/common/data_types/vector3_float.rs:149-151 -/
instance : FieldDeserialize Vector3Float := ⟨Vector3Float.deserialize⟩
/-- src/common/data_types/vector3_float.rs:155-157 -/
instance : FieldLen Vector3Float := ⟨fun _ => 12⟩

/-- src/common/data_types/acoustic_emitter_system_data.rs:13-20 -/
structure AcousticEmitterSystemData where
  emitter_system_data_length : UInt8
  number_of_beams : UInt8
  pad2 : UInt16
  acoustic_emitter_system : AcousticEmitterSystem
  emitter_location : Vector3Float
  beam_records : List AcousticBeamData
  deriving DecidableEq
/-- src/common/data_types/acoustic_emitter_system_data.rs:13-20 (derived) -/
instance : RDefault AcousticEmitterSystemData := ⟨{ emitter_system_data_length := dflt, number_of_beams := dflt, pad2 := dflt, acoustic_emitter_system := dflt, emitter_location := dflt, beam_records := dflt }⟩
/-- src/common/data_types/acoustic_emitter_system_data.rs:42-51 -/
def AcousticEmitterSystemData.serialize (self : AcousticEmitterSystemData) : Put := do
  putU8 self.emitter_system_data_length
  putU8 self.number_of_beams
  putU16 self.pad2
  self.acoustic_emitter_system.serialize
  self.emitter_location.serialize
  putEach AcousticBeamData.serialize self.beam_records
/-- src/common/data_types/acoustic_emitter_system_data.rs:53-71 -/
def AcousticEmitterSystemData.deserialize : Get AcousticEmitterSystemData := do
  let emitter_system_data_length ← getU8
  let number_of_beams ← getU8
  let pad2 ← getU16
  let acoustic_emitter_system ← AcousticEmitterSystem.deserialize
  let emitter_location ← Vector3Float.deserialize
  let beam_records ← getN AcousticBeamData.deserialize number_of_beams.toNat
  return { emitter_system_data_length, number_of_beams, pad2, acoustic_emitter_system, emitter_location, beam_records }

/-- src/common/data_types/aggregate_id.rs:11-15 -/
structure AggregateId where
  site : UInt16
  application : UInt16
  aggregate_id : UInt16
  deriving DecidableEq
/-- src/common/data_types/aggregate_id.rs:11-15 (derived) -/
instance : RDefault AggregateId := ⟨{ site := dflt, application := dflt, aggregate_id := dflt }⟩
/-- src/common/data_types/aggregate_id.rs:27-31 -/
def AggregateId.serialize (self : AggregateId) : Put := do
  putU16 self.site
  putU16 self.application
  putU16 self.aggregate_id
/-- src/common/data_types/aggregate_id.rs:33-39 -/
def AggregateId.deserialize : Get AggregateId := do
  let site ← getU16
  let application ← getU16
  let aggregate_id ← getU16
  return { site, application, aggregate_id }
/-- src/common/data_types/aggregate_id.rs:43-45 -/
instance : FieldSerialize AggregateId := ⟨AggregateId.serialize⟩
/-- src/common/data_types/aggregate_id.rs:49-51 -/
instance : FieldDeserialize AggregateId := ⟨AggregateId.deserialize⟩
/-- src/common/data_types/aggregate_id.rs:55-57 -/
instance : FieldLen AggregateId := ⟨fun _ => 6⟩

/-- src/common/data_types/aggregate_marking.rs:11-14 -/
structure AggregateMarking where
  character_set : UInt8
  characters : Arr Int8 31
  deriving DecidableEq
/-- src/common/data_types/aggregate_marking.rs:11-14 (derived) -/
instance : RDefault AggregateMarking := ⟨{ character_set := dflt, characters := dflt }⟩
/-- src/common/data_types/aggregate_marking.rs:25-30 -/
def AggregateMarking.serialize (self : AggregateMarking) : Put := do
  putU8 self.character_set
  putEach putI8 self.characters.toList
/-- src/common/data_types/aggregate_marking.rs:32-43 -/
def AggregateMarking.deserialize : Get AggregateMarking := do
  let character_set ← getU8
  let characters ← getArr getI8 31
  return { character_set, characters }
/-- src/common/data_types/aggregate_marking.rs:47-49 -/
instance : FieldSerialize AggregateMarking := ⟨AggregateMarking.serialize⟩
/-- src/common/data_types/aggregate_marking.rs:53-55 -/
instance : FieldDeserialize AggregateMarking := ⟨AggregateMarking.deserialize⟩
/-- src/common/data_types/aggregate_marking.rs:59-61 -/
instance : FieldLen AggregateMarking := ⟨fun _ => 32⟩

/-- src/common/data_types/angular_velocity_vector.rs:14-21 -/
structure AngularVelocity where
  rate_about_x_axis : F32
  rate_about_y_axis : F32
  rate_about_z_axis : F32
  deriving DecidableEq
/-- src/common/data_types/angular_velocity_vector.rs:14-21 (derived) -/
instance : RDefault AngularVelocity := ⟨{ rate_about_x_axis := dflt, rate_about_y_axis := dflt, rate_about_z_axis := dflt }⟩
/-- src/common/data_types/angular_velocity_vector.rs:48 -/
def AngularVelocity.LENGTH : Nat := 12
/-- src/common/data_types/angular_velocity_vector.rs:31-35 -/
def AngularVelocity.serialize (self : AngularVelocity) : Put := do
  putF32 self.rate_about_x_axis
  putF32 self.rate_about_y_axis
  putF32 self.rate_about_z_axis
/-- src/common/data_types/angular_velocity_vector.rs:38-44 -/
def AngularVelocity.deserialize : Get AngularVelocity := do
  let rate_about_x_axis ← getF32
  let rate_about_y_axis ← getF32
  let rate_about_z_axis ← getF32
  return { rate_about_x_axis, rate_about_y_axis, rate_about_z_axis }

/-- src/common/data_types/apa_data.rs:16-19 -/
structure ApaData where
  parameter_index : UInt16
  parameter_value : Int16
  deriving DecidableEq
/-- src/common/data_types/apa_data.rs:16-19 (derived) -/
instance : RDefault ApaData := ⟨{ parameter_index := dflt, parameter_value := dflt }⟩
/-- src/common/data_types/apa_data.rs:62 -/
def ApaData.LENGTH : Nat := 4
/-- src/common/data_types/apa_data.rs:30-33 -/
def ApaData.serialize (self : ApaData) : Put := do
  putU16 self.parameter_index
  putI16 self.parameter_value
/-- src/common/data_types/apa_data.rs:35-40 -/
def ApaData.deserialize : Get ApaData := do
  let parameter_index ← getU16
  let parameter_value ← getI16
  return { parameter_index, parameter_value }
/-- src/common/data_types/apa_data.rs:44-46 -/
instance : FieldSerialize ApaData := ⟨ApaData.serialize⟩
/-- src/common/data_types/apa_data.rs:50-52 -/
instance : FieldDeserialize ApaData := ⟨ApaData.deserialize⟩
/-- src/common/data_types/apa_data.rs:56-58 -/
instance : FieldLen ApaData := ⟨fun _ => ApaData.LENGTH⟩

/-- src/common/data_types/attribute_record.rs:12-16 -/
structure AttributeRecord where
  record_type : UInt32
  record_length : UInt16
  record_specific_fields : List UInt8
  deriving DecidableEq
/-- src/common/data_types/attribute_record.rs:12-16 (derived) -/
instance : RDefault AttributeRecord := ⟨{ record_type := dflt, record_length := dflt, record_specific_fields := dflt }⟩
/-- src/common/data_types/attribute_record.rs:28-34 -/
def AttributeRecord.serialize (self : AttributeRecord) : Put := do
  putU32 self.record_type
  putU16 self.record_length
  putEach putU8 self.record_specific_fields
/-- src/common/data_types/attribute_record.rs:36-48 -/
def AttributeRecord.deserialize : Get AttributeRecord := do
  let record_type ← getU32
  let record_length ← getU16
  let record_specific_fields ← getN getU8 record_length.toNat
  return { record_type, record_length, record_specific_fields }
/-- src/common/data_types/attribute_record.rs:52-54 -/
instance : FieldSerialize AttributeRecord := ⟨AttributeRecord.serialize⟩
/-- src/common/data_types/attribute_record.rs:58-60 -/
instance : FieldDeserialize AttributeRecord := ⟨AttributeRecord.deserialize⟩
/-- src/common/data_types/attribute_record.rs:64-66 -/
instance : FieldLen AttributeRecord := ⟨fun self => 4 + 2 + field_len self.record_specific_fields⟩

/-- src/common/data_types/simulation_address.rs:16-25 -/
structure SimulationAddress where
  site_id : UInt16
  application_id : UInt16
  deriving DecidableEq
/-- src/common/data_types/simulation_address.rs:28-33 -/
instance : RDefault SimulationAddress := ⟨{ site_id := 1, application_id := 1 }⟩
/-- src/common/data_types/simulation_address.rs:77 -/
def SimulationAddress.LENGTH : Nat := 4
/-- src/common/data_types/simulation_address.rs:45-48 -/
def SimulationAddress.serialize (self : SimulationAddress) : Put := do
  putU16 self.site_id
  putU16 self.application_id
/-- src/common/data_types/simulation_address.rs:50-55 -/
def SimulationAddress.deserialize : Get SimulationAddress := do
  let site_id ← getU16
  let application_id ← getU16
  return { site_id, application_id }
/-- src/common/data_types/simulation_address.rs:59-61 -/
instance : FieldSerialize SimulationAddress := ⟨SimulationAddress.serialize⟩
/-- src/common/data_types/simulation_address.rs:65-67 -/
instance : FieldDeserialize SimulationAddress := ⟨SimulationAddress.deserialize⟩
/-- src/common/data_types/simulation_address.rs:71-73 -/
instance : FieldLen SimulationAddress := ⟨fun _ => SimulationAddress.LENGTH⟩

/-- src/common/data_types/entity_id.rs:15-20 -/
structure EntityId where
  simulation_address : SimulationAddress
  entity_id : UInt16
  deriving DecidableEq
/-- src/common/data_types/entity_id.rs:15-20 (derived) -/
instance : RDefault EntityId := ⟨{ simulation_address := dflt, entity_id := dflt }⟩
/-- src/common/data_types/entity_id.rs:70 -/
def EntityId.LENGTH : Nat := 6
/-- src/common/data_types/entity_id.rs:31-34 -/
def EntityId.serialize (self : EntityId) : Put := do
  self.simulation_address.serialize
  putU16 self.entity_id
/-- src/common/data_types/entity_id.rs:43-48 -/
def EntityId.deserialize_simulation_address : Get SimulationAddress := do
  let site_id ← getU16
  let application_id ← getU16
  return { site_id, application_id }
/-- src/common/data_types/entity_id.rs:36-41 -/
def EntityId.deserialize : Get EntityId := do
  let simulation_address ← EntityId.deserialize_simulation_address
  let entity_id ← getU16
  return { simulation_address, entity_id }
/-- src/common/data_types/entity_id.rs:52-54 -/
instance : FieldSerialize EntityId := ⟨EntityId.serialize⟩
/-- src/common/data_types/entity_id.rs:58-60 -/
instance : FieldDeserialize EntityId := ⟨EntityId.deserialize⟩
/-- src/common/data_types/entity_id.rs:64-66 -/
instance : FieldLen EntityId := ⟨fun _ => EntityId.LENGTH⟩

/-- src/common/data_types/attribute_record_set.rs:18-22 -/
structure AttributeRecordSet where
  entity_id : EntityId
  number_of_attribute_records : UInt16
  attribute_records : List AttributeRecord
  deriving DecidableEq
/-- src/common/data_types/attribute_record_set.rs:18-22 (derived) -/
instance : RDefault AttributeRecordSet := ⟨{ entity_id := dflt, number_of_attribute_records := dflt, attribute_records := dflt }⟩
/-- src/common/data_types/attribute_record_set.rs:34-40 -/
def AttributeRecordSet.serialize (self : AttributeRecordSet) : Put := do
  self.entity_id.serialize
  putU16 self.number_of_attribute_records
  putEach AttributeRecord.serialize self.attribute_records
/-- src/common/data_types/attribute_record_set.rs:42-54 -/
def AttributeRecordSet.deserialize : Get AttributeRecordSet := do
  let entity_id ← EntityId.deserialize
  let number_of_attribute_records ← getU16
  let attribute_records ← getN AttributeRecord.deserialize number_of_attribute_records.toNat
  return { entity_id, number_of_attribute_records, attribute_records }
/-- src/common/data_types/attribute_record_set.rs:58-60 -/
instance : FieldSerialize AttributeRecordSet := ⟨AttributeRecordSet.serialize⟩
/-- src/common/data_types/attribute_record_set.rs:64-66 -/
instance : FieldDeserialize AttributeRecordSet := ⟨AttributeRecordSet.deserialize⟩
/-- src/common/data_types/attribute_record_set.rs:70-72 -/
instance : FieldLen AttributeRecordSet := ⟨fun self => EntityId.LENGTH + 2 + field_len self.attribute_records⟩

/-- src/common/data_types/beam_data.rs:16-22 -/
structure BeamData where
  beam_azimuth_center : F32
  beam_azimuth_sweep : F32
  beam_elevation_center : F32
  beam_elevation_sweep : F32
  beam_sweep_sync : F32
  deriving DecidableEq
/-- src/common/data_types/beam_data.rs:16-22 (derived) -/
instance : RDefault BeamData := ⟨{ beam_azimuth_center := dflt, beam_azimuth_sweep := dflt, beam_elevation_center := dflt, beam_elevation_sweep := dflt, beam_sweep_sync := dflt }⟩
/-- src/common/data_types/beam_data.rs:80 -/
def BeamData.LENGTH : Nat := 20
/-- src/common/data_types/beam_data.rs:42-48 -/
def BeamData.serialize (self : BeamData) : Put := do
  putF32 self.beam_azimuth_center
  putF32 self.beam_azimuth_sweep
  putF32 self.beam_elevation_center
  putF32 self.beam_elevation_sweep
  putF32 self.beam_sweep_sync
/-- src/common/data_types/beam_data.rs:50-58 -/
def BeamData.deserialize : Get BeamData := do
  let beam_azimuth_center ← getF32
  let beam_azimuth_sweep ← getF32
  let beam_elevation_center ← getF32
  let beam_elevation_sweep ← getF32
  let beam_sweep_sync ← getF32
  return { beam_azimuth_center, beam_azimuth_sweep, beam_elevation_center, beam_elevation_sweep, beam_sweep_sync }
/-- src/common/data_types/beam_data.rs:62-64 -/
instance : FieldSerialize BeamData := ⟨BeamData.serialize⟩
/-- src/common/data_types/beam_data.rs:68-70 -/
instance : FieldDeserialize BeamData := ⟨BeamData.deserialize⟩
/-- src/common/data_types/beam_data.rs:74-76 -/
instance : FieldLen BeamData := ⟨fun _ => BeamData.LENGTH⟩

/-- src/common/data_types/clock_time.rs:13-18 -/
structure ClockTime where
  hour : UInt32
  time_past_hour : UInt32
  deriving DecidableEq
/-- src/common/data_types/clock_time.rs:13-18 (derived) -/
instance : RDefault ClockTime := ⟨{ hour := dflt, time_past_hour := dflt }⟩
/-- src/common/data_types/clock_time.rs:29-32 -/
def ClockTime.serialize (self : ClockTime) : Put := do
  putU32 self.hour
  putU32 self.time_past_hour
/-- src/common/data_types/clock_time.rs:34-39 -/
def ClockTime.deserialize : Get ClockTime := do
  let hour ← getU32
  let time_past_hour ← getU32
  return { hour, time_past_hour }
/-- src/common/data_types/clock_time.rs:43-45 -/
instance : FieldSerialize ClockTime := ⟨ClockTime.serialize⟩
/-- src/common/data_types/clock_time.rs:49-51 -/
instance : FieldDeserialize ClockTime := ⟨ClockTime.deserialize⟩
/-- src/common/data_types/clock_time.rs:55-57 -/
instance : FieldLen ClockTime := ⟨fun _ => 8⟩

/-- src/common/data_types/linear_acceleration.rs:14-18 -/
structure LinearAcceleration where
  first_vector_component : F32
  second_vector_component : F32
  third_vector_component : F32
  deriving DecidableEq
/-- src/common/data_types/linear_acceleration.rs:14-18 (derived) -/
instance : RDefault LinearAcceleration := ⟨{ first_vector_component := dflt, second_vector_component := dflt, third_vector_component := dflt }⟩
/-- src/common/data_types/linear_acceleration.rs:64 -/
def LinearAcceleration.LENGTH : Nat := 12
/-- src/common/data_types/linear_acceleration.rs:30-34 -/
def LinearAcceleration.serialize (self : LinearAcceleration) : Put := do
  putF32 self.first_vector_component
  putF32 self.second_vector_component
  putF32 self.third_vector_component
/-- src/common/data_types/linear_acceleration.rs:36-42 -/
def LinearAcceleration.deserialize : Get LinearAcceleration := do
  let first_vector_component ← getF32
  let second_vector_component ← getF32
  let third_vector_component ← getF32
  return { first_vector_component, second_vector_component, third_vector_component }
/-- src/common/data_types/linear_acceleration.rs:46-48 -/
instance : FieldSerialize LinearAcceleration := ⟨LinearAcceleration.serialize⟩
/-- src/common/data_types/linear_acceleration.rs:52-54 -/
instance : FieldDeserialize LinearAcceleration := ⟨LinearAcceleration.deserialize⟩
/-- src/common/data_types/linear_acceleration.rs:58-60 -/
instance : FieldLen LinearAcceleration := ⟨fun _ => LinearAcceleration.LENGTH⟩

/-- src/common/data_types/dead_reckoning_parameters.rs:21-26 -/
structure DeadReckoningParameters where
  dead_reckoning_algorithm : DeadReckoningAlgorithm
  dead_reckoning_other_parameters : Arr UInt8 15
  entity_linear_acceleration : LinearAcceleration
  entity_angular_velocity : AngularVelocity
  deriving DecidableEq
/-- src/common/data_types/dead_reckoning_parameters.rs:21-26 (derived) -/
instance : RDefault DeadReckoningParameters := ⟨{ dead_reckoning_algorithm := dflt, dead_reckoning_other_parameters := dflt, entity_linear_acceleration := dflt, entity_angular_velocity := dflt }⟩
/-- src/common/data_types/dead_reckoning_parameters.rs:86 -/
def DeadReckoningParameters.LENGTH : Nat := 40
/-- src/common/data_types/dead_reckoning_parameters.rs:43-48 -/
def DeadReckoningParameters.serialize (self : DeadReckoningParameters) : Put := do
  putU8 self.dead_reckoning_algorithm.asU8
  putBytes (List.replicate 15 0)
  self.entity_linear_acceleration.serialize
  self.entity_angular_velocity.serialize
/-- src/common/data_types/dead_reckoning_parameters.rs:50-64 -/
def DeadReckoningParameters.deserialize : Get DeadReckoningParameters := do
  let dead_reckoning_algorithm ← DeadReckoningAlgorithm.deserialize
  let dead_reckoning_other_parameters ← getArr getU8 15
  let entity_linear_acceleration ← LinearAcceleration.deserialize
  let entity_angular_velocity ← AngularVelocity.deserialize
  return { dead_reckoning_algorithm, dead_reckoning_other_parameters, entity_linear_acceleration, entity_angular_velocity }
/-- src/common/data_types/dead_reckoning_parameters.rs:68-70 -/
instance : FieldSerialize DeadReckoningParameters := ⟨DeadReckoningParameters.serialize⟩
/-- src/common/data_types/dead_reckoning_parameters.rs:74-76 -/
instance : FieldDeserialize DeadReckoningParameters := ⟨DeadReckoningParameters.deserialize⟩
/-- src/common/data_types/dead_reckoning_parameters.rs:80-82 -/
instance : FieldLen DeadReckoningParameters := ⟨fun _ => DeadReckoningParameters.LENGTH⟩

/-- src/common/data_types/entity_coordinate_vector.rs:16-23 -/
structure EntityCoordinateVector where
  x_coordinate : F32
  y_coordinate : F32
  z_coordinate : F32
  deriving DecidableEq
/-- src/common/data_types/entity_coordinate_vector.rs:16-23 (derived) -/
instance : RDefault EntityCoordinateVector := ⟨{ x_coordinate := dflt, y_coordinate := dflt, z_coordinate := dflt }⟩
/-- src/common/data_types/entity_coordinate_vector.rs:69 -/
def EntityCoordinateVector.LENGTH : Nat := 12
/-- src/common/data_types/entity_coordinate_vector.rs:35-39 -/
def EntityCoordinateVector.serialize (self : EntityCoordinateVector) : Put := do
  putF32 self.x_coordinate
  putF32 self.y_coordinate
  putF32 self.z_coordinate
/-- src/common/data_types/entity_coordinate_vector.rs:41-47 -/
def EntityCoordinateVector.deserialize : Get EntityCoordinateVector := do
  let x_coordinate ← getF32
  let y_coordinate ← getF32
  let z_coordinate ← getF32
  return { x_coordinate, y_coordinate, z_coordinate }
/-- src/common/data_types/entity_coordinate_vector.rs:51-53 -/
instance : FieldSerialize EntityCoordinateVector := ⟨EntityCoordinateVector.serialize⟩
/-- src/common/data_types/entity_coordinate_vector.rs:57-59 -/
instance : FieldDeserialize EntityCoordinateVector := ⟨EntityCoordinateVector.deserialize⟩
/-- src/common/data_types/entity_coordinate_vector.rs:63-65 -/
instance : FieldLen EntityCoordinateVector := ⟨fun _ => EntityCoordinateVector.LENGTH⟩

/-- src/common/data_types/event_id.rs:16-19 -/
structure EventId where
  simulation_address : SimulationAddress
  event_identifier : UInt16
  deriving DecidableEq
/-- src/common/data_types/event_id.rs:16-19 (derived) -/
instance : RDefault EventId := ⟨{ simulation_address := dflt, event_identifier := dflt }⟩
/-- src/common/data_types/event_id.rs:66 -/
def EventId.LENGTH : Nat := SimulationAddress.LENGTH + 2
/-- src/common/data_types/event_id.rs:34-37 -/
def EventId.serialize (self : EventId) : Put := do
  self.simulation_address.serialize
  putU16 self.event_identifier
/-- src/common/data_types/event_id.rs:39-44 -/
def EventId.deserialize : Get EventId := do
  let simulation_address ← SimulationAddress.deserialize
  let event_identifier ← getU16
  return { simulation_address, event_identifier }
/-- src/common/data_types/event_id.rs:48-50 -/
instance : FieldSerialize EventId := ⟨EventId.serialize⟩
/-- src/common/data_types/event_id.rs:54-56 -/
instance : FieldDeserialize EventId := ⟨EventId.deserialize⟩
/-- src/common/data_types/event_id.rs:60-62 -/
instance : FieldLen EventId := ⟨fun _ => EventId.LENGTH⟩

/-- src/common/data_types/directed_energy_damage.rs:17-30 -/
structure DirectedEnergyDamage where
  record_type : UInt32
  record_length : UInt16
  padding : UInt16
  damage_location : EntityCoordinateVector
  damage_diameter : F32
  temperature : F32
  component_identification : ComponentIdentification
  component_damage_status : ComponentDamageStatus
  component_visual_damage_status : UInt8
  component_visual_smoke_color : ComponentVisualSmokeColor
  fire_event_id : EventId
  padding2 : UInt16
  deriving DecidableEq
/-- src/common/data_types/directed_energy_damage.rs:17-30 (derived) -/
instance : RDefault DirectedEnergyDamage := ⟨{ record_type := dflt, record_length := dflt, padding := dflt, damage_location := dflt, damage_diameter := dflt, temperature := dflt, component_identification := dflt, component_damage_status := dflt, component_visual_damage_status := dflt, component_visual_smoke_color := dflt, fire_event_id := dflt, padding2 := dflt }⟩
/-- src/common/data_types/directed_energy_damage.rs:63-76 -/
def DirectedEnergyDamage.serialize (self : DirectedEnergyDamage) : Put := do
  putU32 self.record_type
  putU16 self.record_length
  putU16 self.padding
  self.damage_location.serialize
  putF32 self.damage_diameter
  putF32 self.temperature
  putU8 self.component_identification.asU8
  putU8 self.component_damage_status.asU8
  putU8 self.component_visual_damage_status
  putU8 self.component_visual_smoke_color.asU8
  self.fire_event_id.serialize
  putU16 self.padding2
/-- src/common/data_types/directed_energy_damage.rs:78-93 -/
def DirectedEnergyDamage.deserialize : Get DirectedEnergyDamage := do
  let record_type ← getU32
  let record_length ← getU16
  let padding ← getU16
  let damage_location ← EntityCoordinateVector.deserialize
  let damage_diameter ← getF32
  let temperature ← getF32
  let component_identification ← ComponentIdentification.deserialize
  let component_damage_status ← ComponentDamageStatus.deserialize
  let component_visual_damage_status ← getU8
  let component_visual_smoke_color ← ComponentVisualSmokeColor.deserialize
  let fire_event_id ← EventId.deserialize
  let padding2 ← getU16
  return { record_type, record_length, padding, damage_location, damage_diameter, temperature, component_identification, component_damage_status, component_visual_damage_status, component_visual_smoke_color, fire_event_id, padding2 }
/-- src/common/data_types/directed_energy_damage.rs:97-99 -/
instance : FieldSerialize DirectedEnergyDamage := ⟨DirectedEnergyDamage.serialize⟩
/-- src/common/data_types/directed_energy_damage.rs:103-105 -/
instance : FieldDeserialize DirectedEnergyDamage := ⟨DirectedEnergyDamage.deserialize⟩
/-- src/common/data_types/directed_energy_damage.rs:109-122 -/
instance : FieldLen DirectedEnergyDamage := ⟨fun self => field_len self.record_type + field_len self.record_length + field_len self.padding + field_len self.damage_location + field_len self.damage_diameter + field_len self.temperature + field_len self.component_identification + field_len self.component_damage_status + field_len self.component_visual_damage_status + field_len self.component_visual_smoke_color + field_len self.fire_event_id + field_len self.padding2⟩

/-- src/common/data_types/fundamental_parameter_data.rs:11-22 -/
structure FundamentalParameterData where
  frequency : F32
  frequency_range : F32
  effective_radiated_power : F32
  pulse_repetition_frequency : F32
  pulse_width : F32
  beam_azimuth_center : F32
  beam_azimuth_sweep : F32
  beam_elevation_center : F32
  beam_elevation_sweep : F32
  beam_sweep_sync : F32
  deriving DecidableEq
/-- src/common/data_types/fundamental_parameter_data.rs:11-22 (derived) -/
instance : RDefault FundamentalParameterData := ⟨{ frequency := dflt, frequency_range := dflt, effective_radiated_power := dflt, pulse_repetition_frequency := dflt, pulse_width := dflt, beam_azimuth_center := dflt, beam_azimuth_sweep := dflt, beam_elevation_center := dflt, beam_elevation_sweep := dflt, beam_sweep_sync := dflt }⟩
/-- src/common/data_types/fundamental_parameter_data.rs:25-36 -/
def FundamentalParameterData.serialize (self : FundamentalParameterData) : Put := do
  putF32 self.frequency
  putF32 self.frequency_range
  putF32 self.effective_radiated_power
  putF32 self.pulse_repetition_frequency
  putF32 self.pulse_width
  putF32 self.beam_azimuth_center
  putF32 self.beam_azimuth_sweep
  putF32 self.beam_elevation_center
  putF32 self.beam_elevation_sweep
  putF32 self.beam_sweep_sync
/-- src/common/data_types/fundamental_parameter_data.rs:38-51 -/
def FundamentalParameterData.deserialize : Get FundamentalParameterData := do
  let frequency ← getF32
  let frequency_range ← getF32
  let effective_radiated_power ← getF32
  let pulse_repetition_frequency ← getF32
  let pulse_width ← getF32
  let beam_azimuth_center ← getF32
  let beam_azimuth_sweep ← getF32
  let beam_elevation_center ← getF32
  let beam_elevation_sweep ← getF32
  let beam_sweep_sync ← getF32
  return { frequency, frequency_range, effective_radiated_power, pulse_repetition_frequency, pulse_width, beam_azimuth_center, beam_azimuth_sweep, beam_elevation_center, beam_elevation_sweep, beam_sweep_sync }
/-- src/common/data_types/fundamental_parameter_data.rs:55-57 -/
instance : FieldSerialize FundamentalParameterData := ⟨FundamentalParameterData.serialize⟩
/-- src/common/data_types/fundamental_parameter_data.rs:61-63 -/
instance : FieldDeserialize FundamentalParameterData := ⟨FundamentalParameterData.deserialize⟩
/-- src/common/data_types/fundamental_parameter_data.rs:67-69 -/
instance : FieldLen FundamentalParameterData := ⟨fun _ => 40⟩

/-- src/common/data_types/track_jam_target.rs:14-18 -/
structure TrackJamTarget where
  track_jam : EntityId
  emitter_id : UInt8
  beam_id : UInt8
  deriving DecidableEq
/-- src/common/data_types/track_jam_target.rs:14-18 (derived) -/
instance : RDefault TrackJamTarget := ⟨{ track_jam := dflt, emitter_id := dflt, beam_id := dflt }⟩
/-- src/common/data_types/track_jam_target.rs:21-25 -/
def TrackJamTarget.serialize (self : TrackJamTarget) : Put := do
  self.track_jam.serialize
  putU8 self.emitter_id
  putU8 self.beam_id
/-- src/common/data_types/track_jam_target.rs:27-33 -/
def TrackJamTarget.deserialize : Get TrackJamTarget := do
  let track_jam ← EntityId.deserialize
  let emitter_id ← getU8
  let beam_id ← getU8
  return { track_jam, emitter_id, beam_id }
/-- src/common/data_types/track_jam_target.rs:37-39 -/
instance : FieldSerialize TrackJamTarget := ⟨TrackJamTarget.serialize⟩
/-- src/common/data_types/track_jam_target.rs:43-45 -/
instance : FieldDeserialize TrackJamTarget := ⟨TrackJamTarget.deserialize⟩
/-- src/common/data_types/track_jam_target.rs:49-51 -/
instance : FieldLen TrackJamTarget := ⟨fun _ => EntityId.LENGTH + 1 + 1⟩

/-- src/common/data_types/electromagnetic_emission_beam_data.rs:10-21 -/
structure ElectromagneticEmissionBeamData where
  beam_data_length : UInt8
  beam_id_number : UInt8
  beam_parameter_index : UInt16
  fundamental_parameter_data : FundamentalParameterData
  beam_function : UInt8
  number_of_track_jam_targets : UInt8
  high_density_track_jam : UInt8
  pad4 : UInt8
  jamming_mode_sequence : UInt32
  track_jam_targets : List TrackJamTarget
  deriving DecidableEq
/-- src/common/data_types/electromagnetic_emission_beam_data.rs:10-21 (derived) -/
instance : RDefault ElectromagneticEmissionBeamData := ⟨{ beam_data_length := dflt, beam_id_number := dflt, beam_parameter_index := dflt, fundamental_parameter_data := dflt, beam_function := dflt, number_of_track_jam_targets := dflt, high_density_track_jam := dflt, pad4 := dflt, jamming_mode_sequence := dflt, track_jam_targets := dflt }⟩
/-- src/common/data_types/electromagnetic_emission_beam_data.rs:24-37 -/
def ElectromagneticEmissionBeamData.serialize (self : ElectromagneticEmissionBeamData) : Put := do
  putU8 self.beam_data_length
  putU8 self.beam_id_number
  putU16 self.beam_parameter_index
  self.fundamental_parameter_data.serialize
  putU8 self.beam_function
  putU8 self.number_of_track_jam_targets
  putU8 self.high_density_track_jam
  putU8 self.pad4
  putU32 self.jamming_mode_sequence
  putEach TrackJamTarget.serialize self.track_jam_targets
/-- src/common/data_types/electromagnetic_emission_beam_data.rs:39-66 -/
def ElectromagneticEmissionBeamData.deserialize : Get ElectromagneticEmissionBeamData := do
  let beam_data_length ← getU8
  let beam_id_number ← getU8
  let beam_parameter_index ← getU16
  let fundamental_parameter_data ← FundamentalParameterData.deserialize
  let beam_function ← getU8
  let number_of_track_jam_targets ← getU8
  let high_density_track_jam ← getU8
  let pad4 ← getU8
  let jamming_mode_sequence ← getU32
  let track_jam_targets ← getN TrackJamTarget.deserialize number_of_track_jam_targets.toNat
  return { beam_data_length, beam_id_number, beam_parameter_index, fundamental_parameter_data, beam_function, number_of_track_jam_targets, high_density_track_jam, pad4, jamming_mode_sequence, track_jam_targets }
/-- src/common/data_types/electromagnetic_emission_beam_data.rs:70-72 -/
instance : FieldSerialize ElectromagneticEmissionBeamData := ⟨ElectromagneticEmissionBeamData.serialize⟩
/-- src/common/data_types/electromagnetic_emission_beam_data.rs:76-78 -/
instance : FieldDeserialize ElectromagneticEmissionBeamData := ⟨ElectromagneticEmissionBeamData.deserialize⟩
/-- src/common/data_types/electromagnetic_emission_beam_data.rs:82-92 -/
instance : FieldLen ElectromagneticEmissionBeamData := ⟨fun self => 1 + 1 + 2 + field_len self.fundamental_parameter_data + 1 + 1 + 1 + 1 + 4 + field_len self.track_jam_targets⟩

/-- src/common/data_types/emitter_system.rs:13-17 -/
structure EmitterSystem where
  emitter_name : EmitterName
  function : EmitterSystemFunction
  emitter_id_number : UInt8
  deriving DecidableEq
/-- src/common/data_types/emitter_system.rs:20-26 -/
instance : RDefault EmitterSystem := ⟨{ emitter_name := dflt, function := ⟨0, by decide⟩, emitter_id_number := 0 }⟩
/-- src/common/data_types/emitter_system.rs:56 -/
def EmitterSystem.LENGTH : Nat := 4
/-- src/common/data_types/emitter_system.rs:39-43 -/
def EmitterSystem.serialize (self : EmitterSystem) : Put := do
  putU16 self.emitter_name.asU16
  putU8 self.function.asU8
  putU8 self.emitter_id_number
/-- src/common/data_types/emitter_system.rs:46-52 -/
def EmitterSystem.deserialize : Get EmitterSystem := do
  let emitter_name ← EmitterName.deserialize
  let function ← EmitterSystemFunction.deserialize
  let emitter_id_number ← getU8
  return { emitter_name, function, emitter_id_number }

/-- src/common/data_types/electromagnetic_emission_system_data.rs:13-20 -/
structure ElectromagneticEmissionSystemData where
  system_data_length : UInt8
  number_of_beams : UInt8
  emissionspadding2 : UInt16
  emitter_system : EmitterSystem
  location : Vector3Float
  beam_data_records : List ElectromagneticEmissionBeamData
  deriving DecidableEq
/-- src/common/data_types/electromagnetic_emission_system_data.rs:13-20 (derived) -/
instance : RDefault ElectromagneticEmissionSystemData := ⟨{ system_data_length := dflt, number_of_beams := dflt, emissionspadding2 := dflt, emitter_system := dflt, location := dflt, beam_data_records := dflt }⟩
/-- src/common/data_types/electromagnetic_emission_system_data.rs:23-32 -/
def ElectromagneticEmissionSystemData.serialize (self : ElectromagneticEmissionSystemData) : Put := do
  putU8 self.system_data_length
  putU8 self.number_of_beams
  putU16 self.emissionspadding2
  self.emitter_system.serialize
  self.location.serialize
  putEach ElectromagneticEmissionBeamData.serialize self.beam_data_records
/-- src/common/data_types/electromagnetic_emission_system_data.rs:34-53 -/
def ElectromagneticEmissionSystemData.deserialize : Get ElectromagneticEmissionSystemData := do
  let system_data_length ← getU8
  let number_of_beams ← getU8
  let emissionspadding2 ← getU16
  let emitter_system ← EmitterSystem.deserialize
  let location ← Vector3Float.deserialize
  let beam_data_records ← getN ElectromagneticEmissionBeamData.deserialize number_of_beams.toNat
  return { system_data_length, number_of_beams, emissionspadding2, emitter_system, location, beam_data_records }
/-- src/common/data_types/electromagnetic_emission_system_data.rs:57-59 -/
instance : FieldSerialize ElectromagneticEmissionSystemData := ⟨ElectromagneticEmissionSystemData.serialize⟩
/-- src/common/data_types/electromagnetic_emission_system_data.rs:63-65 -/
instance : FieldDeserialize ElectromagneticEmissionSystemData := ⟨ElectromagneticEmissionSystemData.deserialize⟩
/-- src/common/data_types/electromagnetic_emission_system_data.rs:69-75 -/
instance : FieldLen ElectromagneticEmissionSystemData := ⟨fun self => 1 + 1 + 2 + EmitterSystem.LENGTH + field_len self.location + field_len self.beam_data_records⟩

/-- src/common/data_types/entity_type.rs:16-24 -/
structure EntityType where
  kind : EntityKind
  domain : UInt8
  country : Country
  category : UInt8
  subcategory : UInt8
  specific : UInt8
  extra : UInt8
  deriving DecidableEq
/-- src/common/data_types/entity_type.rs:16-24 (derived) -/
instance : RDefault EntityType := ⟨{ kind := dflt, domain := dflt, country := dflt, category := dflt, subcategory := dflt, specific := dflt, extra := dflt }⟩
/-- src/common/data_types/entity_type.rs:90 -/
def EntityType.LENGTH : Nat := 8
/-- src/common/data_types/entity_type.rs:48-56 -/
def EntityType.serialize (self : EntityType) : Put := do
  putU8 self.kind.asU8
  putU8 self.domain
  putU16 self.country.asU16
  putU8 self.category
  putU8 self.subcategory
  putU8 self.specific
  putU8 self.extra
/-- src/common/data_types/entity_type.rs:58-68 -/
def EntityType.deserialize : Get EntityType := do
  let kind ← EntityKind.deserialize
  let domain ← getU8
  let country ← Country.deserialize
  let category ← getU8
  let subcategory ← getU8
  let specific ← getU8
  let extra ← getU8
  return { kind, domain, country, category, subcategory, specific, extra }
/-- src/common/data_types/entity_type.rs:72-74 -/
instance : FieldSerialize EntityType := ⟨EntityType.serialize⟩
/-- src/common/data_types/entity_type.rs:78-80 -/
instance : FieldDeserialize EntityType := ⟨EntityType.deserialize⟩
/-- src/common/data_types/entity_type.rs:84-86 -/
instance : FieldLen EntityType := ⟨fun _ => EntityType.LENGTH⟩

/-- src/common/data_types/environment.rs:11-16 -/
structure Environment where
  environment_type : UInt32
  length : UInt16
  index : UInt8
  padding : UInt8
  deriving DecidableEq
/-- src/common/data_types/environment.rs:11-16 (derived) -/
instance : RDefault Environment := ⟨{ environment_type := dflt, length := dflt, index := dflt, padding := dflt }⟩
/-- src/common/data_types/environment.rs:29-34 -/
def Environment.serialize (self : Environment) : Put := do
  putU32 self.environment_type
  putU16 self.length
  putU8 self.index
  putU8 self.padding
/-- src/common/data_types/environment.rs:36-43 -/
def Environment.deserialize : Get Environment := do
  let environment_type ← getU32
  let length ← getU16
  let index ← getU8
  let padding ← getU8
  return { environment_type, length, index, padding }
/-- src/common/data_types/environment.rs:47-49 -/
instance : FieldSerialize Environment := ⟨Environment.serialize⟩
/-- src/common/data_types/environment.rs:53-55 -/
instance : FieldDeserialize Environment := ⟨Environment.deserialize⟩
/-- src/common/data_types/environment.rs:59-64 -/
instance : FieldLen Environment := ⟨fun self => field_len self.environment_type + field_len self.length + field_len self.index + field_len self.padding⟩

/-- src/common/data_types/euler_angles.rs:16-23 -/
structure EulerAngles where
  psi : F32
  theta : F32
  phi : F32
  deriving DecidableEq
/-- src/common/data_types/euler_angles.rs:16-23 (derived) -/
instance : RDefault EulerAngles := ⟨{ psi := dflt, theta := dflt, phi := dflt }⟩
/-- src/common/data_types/euler_angles.rs:66 -/
def EulerAngles.LENGTH : Nat := 12
/-- src/common/data_types/euler_angles.rs:32-36 -/
def EulerAngles.serialize (self : EulerAngles) : Put := do
  putF32 self.psi
  putF32 self.theta
  putF32 self.phi
/-- src/common/data_types/euler_angles.rs:38-44 -/
def EulerAngles.deserialize : Get EulerAngles := do
  let psi ← getF32
  let theta ← getF32
  let phi ← getF32
  return { psi, theta, phi }
/-- src/common/data_types/euler_angles.rs:48-50 -/
instance : FieldSerialize EulerAngles := ⟨EulerAngles.serialize⟩
/-- src/common/data_types/euler_angles.rs:54-56 -/
instance : FieldDeserialize EulerAngles := ⟨EulerAngles.deserialize⟩
/-- src/common/data_types/euler_angles.rs:60-62 -/
instance : FieldLen EulerAngles := ⟨fun _ => EulerAngles.LENGTH⟩

/-- src/common/data_types/datum_records.rs:12-15 -/
structure FixedDatumRecord where
  datum_id : UInt32
  datum_value : UInt32
  deriving DecidableEq
/-- src/common/data_types/datum_records.rs:18-21 -/
def FixedDatumRecord.serialize (self : FixedDatumRecord) : Put := do
  putU32 self.datum_id
  putU32 self.datum_value
/-- src/common/data_types/datum_records.rs:23-30 -/
def FixedDatumRecord.deserialize : Get FixedDatumRecord := do
  let datum_id ← getU32
  let datum_value ← getU32
  return { datum_id, datum_value }
/-- src/common/data_types/datum_records.rs:34-36 -/
instance : FieldSerialize FixedDatumRecord := ⟨FixedDatumRecord.serialize⟩
/-- src/common/data_types/datum_records.rs:40-42 -/
instance : FieldDeserialize FixedDatumRecord := ⟨FixedDatumRecord.deserialize⟩
/-- src/common/data_types/datum_records.rs:46-48 -/
instance : FieldLen FixedDatumRecord := ⟨fun _ => 8⟩

/-- src/common/data_types/fundamental_operational_data.rs:14-25 -/
structure FundamentalOperationalData where
  system_status : UInt8
  data_field1 : UInt8
  information_layers : UInt8
  data_field2 : UInt8
  parameter1 : UInt16
  parameter2 : UInt16
  parameter3 : UInt16
  parameter4 : UInt16
  parameter5 : UInt16
  parameter6 : UInt16
  deriving DecidableEq
/-- src/common/data_types/fundamental_operational_data.rs:14-25 (derived) -/
instance : RDefault FundamentalOperationalData := ⟨{ system_status := dflt, data_field1 := dflt, information_layers := dflt, data_field2 := dflt, parameter1 := dflt, parameter2 := dflt, parameter3 := dflt, parameter4 := dflt, parameter5 := dflt, parameter6 := dflt }⟩
/-- src/common/data_types/fundamental_operational_data.rs:104 -/
def FundamentalOperationalData.LENGTH : Nat := 16
/-- src/common/data_types/fundamental_operational_data.rs:56-67 -/
def FundamentalOperationalData.serialize (self : FundamentalOperationalData) : Put := do
  putU8 self.system_status
  putU8 self.data_field1
  putU8 self.information_layers
  putU8 self.data_field2
  putU16 self.parameter1
  putU16 self.parameter2
  putU16 self.parameter3
  putU16 self.parameter4
  putU16 self.parameter5
  putU16 self.parameter6
/-- src/common/data_types/fundamental_operational_data.rs:69-82 -/
def FundamentalOperationalData.deserialize : Get FundamentalOperationalData := do
  let system_status ← getU8
  let data_field1 ← getU8
  let information_layers ← getU8
  let data_field2 ← getU8
  let parameter1 ← getU16
  let parameter2 ← getU16
  let parameter3 ← getU16
  let parameter4 ← getU16
  let parameter5 ← getU16
  let parameter6 ← getU16
  return { system_status, data_field1, information_layers, data_field2, parameter1, parameter2, parameter3, parameter4, parameter5, parameter6 }
/-- src/common/data_types/fundamental_operational_data.rs:86-88 -/
instance : FieldSerialize FundamentalOperationalData := ⟨FundamentalOperationalData.serialize⟩
/-- src/common/data_types/fundamental_operational_data.rs:92-94 -/
instance : FieldDeserialize FundamentalOperationalData := ⟨FundamentalOperationalData.deserialize⟩
/-- src/common/data_types/fundamental_operational_data.rs:98-100 -/
instance : FieldLen FundamentalOperationalData := ⟨fun _ => FundamentalOperationalData.LENGTH⟩

/-- src/common/data_types/iff_fundamental_parameter_data.rs:14-22 -/
structure IFFFundamentalParameterData where
  erp : F32
  frequency : F32
  pgrf : F32
  pulse_width : F32
  burst_length : UInt32
  applicable_modes : UInt8
  system_specific_data : Arr UInt8 3
  deriving DecidableEq
/-- src/common/data_types/iff_fundamental_parameter_data.rs:25-35 -/
instance : RDefault IFFFundamentalParameterData := ⟨{ erp := ⟨0⟩, frequency := ⟨0⟩, pgrf := ⟨0⟩, pulse_width := ⟨0⟩, burst_length := 0, applicable_modes := 0, system_specific_data := .replicate 3 0 }⟩
/-- src/common/data_types/iff_fundamental_parameter_data.rs:114 -/
def IFFFundamentalParameterData.LENGTH : Nat := 24
/-- src/common/data_types/iff_fundamental_parameter_data.rs:60-70 -/
def IFFFundamentalParameterData.serialize (self : IFFFundamentalParameterData) : Put := do
  putF32 self.erp
  putF32 self.frequency
  putF32 self.pgrf
  putF32 self.pulse_width
  putU32 self.burst_length
  putU8 self.applicable_modes
  putEach putU8 self.system_specific_data.toList
/-- src/common/data_types/iff_fundamental_parameter_data.rs:72-92 -/
def IFFFundamentalParameterData.deserialize : Get IFFFundamentalParameterData := do
  let erp ← getF32
  let frequency ← getF32
  let pgrf ← getF32
  let pulse_width ← getF32
  let burst_length ← getU32
  let applicable_modes ← getU8
  let system_specific_data ← getArr getU8 3
  return { erp, frequency, pgrf, pulse_width, burst_length, applicable_modes, system_specific_data }
/-- src/common/data_types/iff_fundamental_parameter_data.rs:96-98 -/
instance : FieldSerialize IFFFundamentalParameterData := ⟨IFFFundamentalParameterData.serialize⟩
/-- src/common/data_types/iff_fundamental_parameter_data.rs:102-104 -/
instance : FieldDeserialize IFFFundamentalParameterData := ⟨IFFFundamentalParameterData.deserialize⟩
/-- src/common/data_types/iff_fundamental_parameter_data.rs:108-110 -/
instance : FieldLen IFFFundamentalParameterData := ⟨fun _ => IFFFundamentalParameterData.LENGTH⟩

/-- src/common/data_types/intercom_communications_parameters.rs:10-14 -/
structure IntercomCommunicationsParameters where
  record_type : UInt16
  record_length : UInt16
  record_specific_field : UInt32
  deriving DecidableEq
/-- src/common/data_types/intercom_communications_parameters.rs:10-14 (derived) -/
instance : RDefault IntercomCommunicationsParameters := ⟨{ record_type := dflt, record_length := dflt, record_specific_field := dflt }⟩
/-- src/common/data_types/intercom_communications_parameters.rs:44-48 -/
def IntercomCommunicationsParameters.serialize (self : IntercomCommunicationsParameters) : Put := do
  putU16 self.record_type
  putU16 self.record_length
  putU32 self.record_specific_field
/-- src/common/data_types/intercom_communications_parameters.rs:50-56 -/
def IntercomCommunicationsParameters.deserialize : Get IntercomCommunicationsParameters := do
  let record_type ← getU16
  let record_length ← getU16
  let record_specific_field ← getU32
  return { record_type, record_length, record_specific_field }
/-- src/common/data_types/intercom_communications_parameters.rs:17-19 -/
instance : FieldSerialize IntercomCommunicationsParameters := ⟨IntercomCommunicationsParameters.serialize⟩
/-- src/common/data_types/intercom_communications_parameters.rs:23-25 -/
instance : FieldDeserialize IntercomCommunicationsParameters := ⟨IntercomCommunicationsParameters.deserialize⟩
/-- src/common/data_types/intercom_communications_parameters.rs:29-31 -/
instance : FieldLen IntercomCommunicationsParameters := ⟨fun _ => 2 + 2 + 4⟩

/-- src/common/data_types/layer_header.rs:16-20 -/
structure LayerHeader where
  layer_number : UInt8
  layer_specific_information : UInt8
  length : UInt16
  deriving DecidableEq
/-- src/common/data_types/layer_header.rs:16-20 (derived) -/
instance : RDefault LayerHeader := ⟨{ layer_number := dflt, layer_specific_information := dflt, length := dflt }⟩
/-- src/common/data_types/layer_header.rs:66 -/
def LayerHeader.LENGTH : Nat := 4
/-- src/common/data_types/layer_header.rs:32-36 -/
def LayerHeader.serialize (self : LayerHeader) : Put := do
  putU8 self.layer_number
  putU8 self.layer_specific_information
  putU16 self.length
/-- src/common/data_types/layer_header.rs:38-44 -/
def LayerHeader.deserialize : Get LayerHeader := do
  let layer_number ← getU8
  let layer_specific_information ← getU8
  let length ← getU16
  return { layer_number, layer_specific_information, length }
/-- src/common/data_types/layer_header.rs:48-50 -/
instance : FieldSerialize LayerHeader := ⟨LayerHeader.serialize⟩
/-- src/common/data_types/layer_header.rs:54-56 -/
instance : FieldDeserialize LayerHeader := ⟨LayerHeader.deserialize⟩
/-- src/common/data_types/layer_header.rs:60-62 -/
instance : FieldLen LayerHeader := ⟨fun _ => LayerHeader.LENGTH⟩

/-- src/common/data_types/world_coordinate.rs:16-23 -/
structure WorldCoordinate where
  x : F64
  y : F64
  z : F64
  deriving DecidableEq
/-- src/common/data_types/world_coordinate.rs:16-23 (derived) -/
instance : RDefault WorldCoordinate := ⟨{ x := dflt, y := dflt, z := dflt }⟩
/-- src/common/data_types/world_coordinate.rs:75 -/
def WorldCoordinate.LENGTH : Nat := 24
/-- src/common/data_types/world_coordinate.rs:41-45 -/
def WorldCoordinate.serialize (self : WorldCoordinate) : Put := do
  putF64 self.x
  putF64 self.y
  putF64 self.z
/-- src/common/data_types/world_coordinate.rs:47-53 -/
def WorldCoordinate.deserialize : Get WorldCoordinate := do
  let x ← getF64
  let y ← getF64
  let z ← getF64
  return { x, y, z }
/-- src/common/data_types/world_coordinate.rs:57-59 -/
instance : FieldSerialize WorldCoordinate := ⟨WorldCoordinate.serialize⟩
/-- src/common/data_types/world_coordinate.rs:63-65 -/
instance : FieldDeserialize WorldCoordinate := ⟨WorldCoordinate.deserialize⟩
/-- src/common/data_types/world_coordinate.rs:69-71 -/
instance : FieldLen WorldCoordinate := ⟨fun _ => WorldCoordinate.LENGTH⟩

/-- src/common/data_types/linear_segment_parameter.rs:14-26 -/
structure LinearSegmentParameter where
  segment_number : UInt8
  segment_modification : UInt8
  general_segment_appearance : UInt32
  specific_segment_appearance : UInt32
  segment_location : WorldCoordinate
  segment_orientation : EulerAngles
  segment_length : F32
  segment_width : F32
  segment_height : F32
  segment_depth : F32
  padding : UInt32
  deriving DecidableEq
/-- src/common/data_types/linear_segment_parameter.rs:14-26 (derived) -/
instance : RDefault LinearSegmentParameter := ⟨{ segment_number := dflt, segment_modification := dflt, general_segment_appearance := dflt, specific_segment_appearance := dflt, segment_location := dflt, segment_orientation := dflt, segment_length := dflt, segment_width := dflt, segment_height := dflt, segment_depth := dflt, padding := dflt }⟩
/-- src/common/data_types/linear_segment_parameter.rs:58-70 -/
def LinearSegmentParameter.serialize (self : LinearSegmentParameter) : Put := do
  putU8 self.segment_number
  putU8 self.segment_modification
  putU32 self.general_segment_appearance
  putU32 self.specific_segment_appearance
  self.segment_location.serialize
  self.segment_orientation.serialize
  putF32 self.segment_length
  putF32 self.segment_width
  putF32 self.segment_height
  putF32 self.segment_depth
  putU32 self.padding
/-- src/common/data_types/linear_segment_parameter.rs:72-86 -/
def LinearSegmentParameter.deserialize : Get LinearSegmentParameter := do
  let segment_number ← getU8
  let segment_modification ← getU8
  let general_segment_appearance ← getU32
  let specific_segment_appearance ← getU32
  let segment_location ← WorldCoordinate.deserialize
  let segment_orientation ← EulerAngles.deserialize
  let segment_length ← getF32
  let segment_width ← getF32
  let segment_height ← getF32
  let segment_depth ← getF32
  let padding ← getU32
  return { segment_number, segment_modification, general_segment_appearance, specific_segment_appearance, segment_location, segment_orientation, segment_length, segment_width, segment_height, segment_depth, padding }
/-- src/common/data_types/linear_segment_parameter.rs:90-92 -/
instance : FieldSerialize LinearSegmentParameter := ⟨LinearSegmentParameter.serialize⟩
/-- src/common/data_types/linear_segment_parameter.rs:96-98 -/
instance : FieldDeserialize LinearSegmentParameter := ⟨LinearSegmentParameter.deserialize⟩
/-- src/common/data_types/linear_segment_parameter.rs:102-114 -/
instance : FieldLen LinearSegmentParameter := ⟨fun self => field_len self.segment_number + field_len self.segment_modification + field_len self.general_segment_appearance + field_len self.specific_segment_appearance + field_len self.segment_location + field_len self.segment_orientation + field_len self.segment_length + field_len self.segment_width + field_len self.segment_height + field_len self.segment_depth + field_len self.padding⟩

/-- src/common/data_types/linear_velocity.rs:14-18 -/
structure LinearVelocity where
  first_vector_component : F32
  second_vector_component : F32
  third_vector_component : F32
  deriving DecidableEq
/-- src/common/data_types/linear_velocity.rs:14-18 (derived) -/
instance : RDefault LinearVelocity := ⟨{ first_vector_component := dflt, second_vector_component := dflt, third_vector_component := dflt }⟩
/-- src/common/data_types/linear_velocity.rs:64 -/
def LinearVelocity.LENGTH : Nat := 12
/-- src/common/data_types/linear_velocity.rs:30-34 -/
def LinearVelocity.serialize (self : LinearVelocity) : Put := do
  putF32 self.first_vector_component
  putF32 self.second_vector_component
  putF32 self.third_vector_component
/-- src/common/data_types/linear_velocity.rs:36-42 -/
def LinearVelocity.deserialize : Get LinearVelocity := do
  let first_vector_component ← getF32
  let second_vector_component ← getF32
  let third_vector_component ← getF32
  return { first_vector_component, second_vector_component, third_vector_component }
/-- src/common/data_types/linear_velocity.rs:46-48 -/
instance : FieldSerialize LinearVelocity := ⟨LinearVelocity.serialize⟩
/-- src/common/data_types/linear_velocity.rs:52-54 -/
instance : FieldDeserialize LinearVelocity := ⟨LinearVelocity.deserialize⟩
/-- src/common/data_types/linear_velocity.rs:58-60 -/
instance : FieldLen LinearVelocity := ⟨fun _ => LinearVelocity.LENGTH⟩

/-- src/common/data_types/minefield_identifier.rs:14-17 -/
structure MinefieldIdentifier where
  simulation_address : SimulationAddress
  minefield_number : UInt16
  deriving DecidableEq
/-- src/common/data_types/minefield_identifier.rs:14-17 (derived) -/
instance : RDefault MinefieldIdentifier := ⟨{ simulation_address := dflt, minefield_number := dflt }⟩
/-- src/common/data_types/minefield_identifier.rs:28-31 -/
def MinefieldIdentifier.serialize (self : MinefieldIdentifier) : Put := do
  self.simulation_address.serialize
  putU16 self.minefield_number
/-- src/common/data_types/minefield_identifier.rs:33-38 -/
def MinefieldIdentifier.deserialize : Get MinefieldIdentifier := do
  let simulation_address ← SimulationAddress.deserialize
  let minefield_number ← getU16
  return { simulation_address, minefield_number }
/-- src/common/data_types/minefield_identifier.rs:42-44 -/
instance : FieldSerialize MinefieldIdentifier := ⟨MinefieldIdentifier.serialize⟩
/-- src/common/data_types/minefield_identifier.rs:48-50 -/
instance : FieldDeserialize MinefieldIdentifier := ⟨MinefieldIdentifier.deserialize⟩
/-- src/common/data_types/minefield_identifier.rs:54-56 -/
instance : FieldLen MinefieldIdentifier := ⟨fun self => field_len self.simulation_address + field_len self.minefield_number⟩

/-- src/common/data_types/modulation_type.rs:11-16 -/
structure ModulationType where
  spread_spectrum : UInt16
  major : UInt16
  detail : UInt16
  system : UInt16
  deriving DecidableEq
/-- src/common/data_types/modulation_type.rs:11-16 (derived) -/
instance : RDefault ModulationType := ⟨{ spread_spectrum := dflt, major := dflt, detail := dflt, system := dflt }⟩
/-- src/common/data_types/modulation_type.rs:29-34 -/
def ModulationType.serialize (self : ModulationType) : Put := do
  putU16 self.spread_spectrum
  putU16 self.major
  putU16 self.detail
  putU16 self.system
/-- src/common/data_types/modulation_type.rs:36-43 -/
def ModulationType.deserialize : Get ModulationType := do
  let spread_spectrum ← getU16
  let major ← getU16
  let detail ← getU16
  let system ← getU16
  return { spread_spectrum, major, detail, system }
/-- src/common/data_types/modulation_type.rs:47-49 -/
instance : FieldSerialize ModulationType := ⟨ModulationType.serialize⟩
/-- src/common/data_types/modulation_type.rs:53-55 -/
instance : FieldDeserialize ModulationType := ⟨ModulationType.deserialize⟩
/-- src/common/data_types/modulation_type.rs:59-64 -/
instance : FieldLen ModulationType := ⟨fun self => field_len self.spread_spectrum + field_len self.major + field_len self.detail + field_len self.system⟩

/-- src/common/data_types/munition_descriptor.rs:14-20 -/
structure MunitionDescriptor where
  munition_type : EntityType
  warhead : UInt16
  fuse : UInt16
  quantity : UInt16
  rate : UInt16
  deriving DecidableEq
/-- src/common/data_types/munition_descriptor.rs:14-20 (derived) -/
instance : RDefault MunitionDescriptor := ⟨{ munition_type := dflt, warhead := dflt, fuse := dflt, quantity := dflt, rate := dflt }⟩
/-- src/common/data_types/munition_descriptor.rs:40-46 -/
def MunitionDescriptor.serialize (self : MunitionDescriptor) : Put := do
  self.munition_type.serialize
  putU16 self.warhead
  putU16 self.fuse
  putU16 self.quantity
  putU16 self.rate
/-- src/common/data_types/munition_descriptor.rs:48-56 -/
def MunitionDescriptor.deserialize : Get MunitionDescriptor := do
  let munition_type ← EntityType.deserialize
  let warhead ← getU16
  let fuse ← getU16
  let quantity ← getU16
  let rate ← getU16
  return { munition_type, warhead, fuse, quantity, rate }
/-- src/common/data_types/munition_descriptor.rs:60-62 -/
instance : FieldSerialize MunitionDescriptor := ⟨MunitionDescriptor.serialize⟩
/-- src/common/data_types/munition_descriptor.rs:66-68 -/
instance : FieldDeserialize MunitionDescriptor := ⟨MunitionDescriptor.deserialize⟩
/-- src/common/data_types/munition_descriptor.rs:72-78 -/
instance : FieldLen MunitionDescriptor := ⟨fun self => field_len self.munition_type + field_len self.warhead + field_len self.fuse + field_len self.quantity + field_len self.rate⟩

/-- src/common/data_types/named_location.rs:11-14 -/
structure NamedLocation where
  station_name : UInt16
  station_number : UInt16
  deriving DecidableEq
/-- src/common/data_types/named_location.rs:11-14 (derived) -/
instance : RDefault NamedLocation := ⟨{ station_name := dflt, station_number := dflt }⟩
/-- src/common/data_types/named_location.rs:25-28 -/
def NamedLocation.serialize (self : NamedLocation) : Put := do
  putU16 self.station_name
  putU16 self.station_number
/-- src/common/data_types/named_location.rs:30-35 -/
def NamedLocation.deserialize : Get NamedLocation := do
  let station_name ← getU16
  let station_number ← getU16
  return { station_name, station_number }
/-- src/common/data_types/named_location.rs:39-41 -/
instance : FieldSerialize NamedLocation := ⟨NamedLocation.serialize⟩
/-- src/common/data_types/named_location.rs:45-47 -/
instance : FieldDeserialize NamedLocation := ⟨NamedLocation.deserialize⟩
/-- src/common/data_types/named_location.rs:51-53 -/
instance : FieldLen NamedLocation := ⟨fun _ => 4⟩

/-- src/common/data_types/object_identifier.rs:14-17 -/
structure ObjectIdentifier where
  simulation_address : SimulationAddress
  object_number : UInt16
  deriving DecidableEq
/-- src/common/data_types/object_identifier.rs:14-17 (derived) -/
instance : RDefault ObjectIdentifier := ⟨{ simulation_address := dflt, object_number := dflt }⟩
/-- src/common/data_types/object_identifier.rs:25-28 -/
def ObjectIdentifier.serialize (self : ObjectIdentifier) : Put := do
  self.simulation_address.serialize
  putU16 self.object_number
/-- src/common/data_types/object_identifier.rs:30-35 -/
def ObjectIdentifier.deserialize : Get ObjectIdentifier := do
  let simulation_address ← SimulationAddress.deserialize
  let object_number ← getU16
  return { simulation_address, object_number }
/-- src/common/data_types/object_identifier.rs:39-41 -/
instance : FieldSerialize ObjectIdentifier := ⟨ObjectIdentifier.serialize⟩
/-- src/common/data_types/object_identifier.rs:45-47 -/
instance : FieldDeserialize ObjectIdentifier := ⟨ObjectIdentifier.deserialize⟩
/-- src/common/data_types/object_identifier.rs:51-53 -/
instance : FieldLen ObjectIdentifier := ⟨fun self => field_len self.simulation_address + field_len self.object_number⟩

/-- src/common/data_types/object_type.rs:11-16 -/
structure ObjectType where
  domain : UInt8
  object_kind : UInt8
  category : UInt8
  subcategory : UInt8
  deriving DecidableEq
/-- src/common/data_types/object_type.rs:11-16 (derived) -/
instance : RDefault ObjectType := ⟨{ domain := dflt, object_kind := dflt, category := dflt, subcategory := dflt }⟩
/-- src/common/data_types/object_type.rs:29-34 -/
def ObjectType.serialize (self : ObjectType) : Put := do
  putU8 self.domain
  putU8 self.object_kind
  putU8 self.category
  putU8 self.subcategory
/-- src/common/data_types/object_type.rs:36-43 -/
def ObjectType.deserialize : Get ObjectType := do
  let domain ← getU8
  let object_kind ← getU8
  let category ← getU8
  let subcategory ← getU8
  return { domain, object_kind, category, subcategory }
/-- src/common/data_types/object_type.rs:47-49 -/
instance : FieldSerialize ObjectType := ⟨ObjectType.serialize⟩
/-- src/common/data_types/object_type.rs:53-55 -/
instance : FieldDeserialize ObjectType := ⟨ObjectType.deserialize⟩
/-- src/common/data_types/object_type.rs:59-61 -/
instance : FieldLen ObjectType := ⟨fun _ => 4⟩

/-- src/common/data_types/point.rs:11-14 -/
structure Point where
  x : F32
  y : F32
  deriving DecidableEq
/-- src/common/data_types/point.rs:11-14 (derived) -/
instance : RDefault Point := ⟨{ x := dflt, y := dflt }⟩
/-- src/common/data_types/point.rs:22-25 -/
def Point.serialize (self : Point) : Put := do
  putF32 self.x
  putF32 self.y
/-- src/common/data_types/point.rs:27-32 -/
def Point.deserialize : Get Point := do
  let x ← getF32
  let y ← getF32
  return { x, y }
/-- src/common/data_types/point.rs:36-38 -/
instance : FieldSerialize Point := ⟨Point.serialize⟩
/-- src/common/data_types/point.rs:42-44 -/
instance : FieldDeserialize Point := ⟨Point.deserialize⟩
/-- src/common/data_types/point.rs:48-50 -/
instance : FieldLen Point := ⟨fun self => field_len self.x + field_len self.y⟩

/-- src/common/data_types/propulsion_system_data.rs:14-17 -/
structure PropulsionSystemData where
  power_setting : F32
  engine_rpm : F32
  deriving DecidableEq
/-- src/common/data_types/propulsion_system_data.rs:14-17 (derived) -/
instance : RDefault PropulsionSystemData := ⟨{ power_setting := dflt, engine_rpm := dflt }⟩
/-- src/common/data_types/propulsion_system_data.rs:60 -/
def PropulsionSystemData.LENGTH : Nat := 8
/-- src/common/data_types/propulsion_system_data.rs:28-31 -/
def PropulsionSystemData.serialize (self : PropulsionSystemData) : Put := do
  putF32 self.power_setting
  putF32 self.engine_rpm
/-- src/common/data_types/propulsion_system_data.rs:33-38 -/
def PropulsionSystemData.deserialize : Get PropulsionSystemData := do
  let power_setting ← getF32
  let engine_rpm ← getF32
  return { power_setting, engine_rpm }
/-- src/common/data_types/propulsion_system_data.rs:42-44 -/
instance : FieldSerialize PropulsionSystemData := ⟨PropulsionSystemData.serialize⟩
/-- src/common/data_types/propulsion_system_data.rs:48-50 -/
instance : FieldDeserialize PropulsionSystemData := ⟨PropulsionSystemData.deserialize⟩
/-- src/common/data_types/propulsion_system_data.rs:54-56 -/
instance : FieldLen PropulsionSystemData := ⟨fun _ => PropulsionSystemData.LENGTH⟩

/-- src/common/data_types/radio_entity_type.rs:11-18 -/
structure RadioEntityType where
  entity_kind : UInt8
  domain : UInt8
  country : UInt16
  category : UInt8
  nomenclature_version : UInt8
  nomenclature : UInt16
  deriving DecidableEq
/-- src/common/data_types/radio_entity_type.rs:11-18 (derived) -/
instance : RDefault RadioEntityType := ⟨{ entity_kind := dflt, domain := dflt, country := dflt, category := dflt, nomenclature_version := dflt, nomenclature := dflt }⟩
/-- src/common/data_types/radio_entity_type.rs:40-47 -/
def RadioEntityType.serialize (self : RadioEntityType) : Put := do
  putU8 self.entity_kind
  putU8 self.domain
  putU16 self.country
  putU8 self.category
  putU8 self.nomenclature_version
  putU16 self.nomenclature
/-- src/common/data_types/radio_entity_type.rs:49-58 -/
def RadioEntityType.deserialize : Get RadioEntityType := do
  let entity_kind ← getU8
  let domain ← getU8
  let country ← getU16
  let category ← getU8
  let nomenclature_version ← getU8
  let nomenclature ← getU16
  return { entity_kind, domain, country, category, nomenclature_version, nomenclature }
/-- src/common/data_types/radio_entity_type.rs:62-64 -/
instance : FieldSerialize RadioEntityType := ⟨RadioEntityType.serialize⟩
/-- src/common/data_types/radio_entity_type.rs:68-70 -/
instance : FieldDeserialize RadioEntityType := ⟨RadioEntityType.deserialize⟩
/-- src/common/data_types/radio_entity_type.rs:74-81 -/
instance : FieldLen RadioEntityType := ⟨fun self => field_len self.entity_kind + field_len self.domain + field_len self.country + field_len self.category + field_len self.nomenclature_version + field_len self.nomenclature⟩

/-- src/common/data_types/record_specification.rs:13-16 -/
structure RecordSpecification where
  number_of_record_sets : UInt32
  record_sets : List RecordSpecificationElement
  deriving DecidableEq
/-- src/common/data_types/record_specification.rs:13-16 (derived) -/
instance : RDefault RecordSpecification := ⟨{ number_of_record_sets := dflt, record_sets := dflt }⟩
/-- src/common/data_types/record_specification.rs:30-35 -/
def RecordSpecification.serialize (self : RecordSpecification) : Put := do
  putU32 self.number_of_record_sets
  putEach RecordSpecificationElement.serialize self.record_sets
/-- src/common/data_types/record_specification.rs:37-47 -/
def RecordSpecification.deserialize : Get RecordSpecification := do
  let number_of_record_sets ← getU32
  let record_sets ← getN RecordSpecificationElement.deserialize number_of_record_sets.toNat
  return { number_of_record_sets, record_sets }
/-- src/common/data_types/record_specification.rs:51-53 -/
instance : FieldSerialize RecordSpecification := ⟨RecordSpecification.serialize⟩
/-- src/common/data_types/record_specification.rs:57-59 -/
instance : FieldDeserialize RecordSpecification := ⟨RecordSpecification.deserialize⟩
/-- src/common/data_types/record_specification.rs:63-65 -/
instance : FieldLen RecordSpecification := ⟨fun self => 4 + field_len self.record_sets⟩

/-- src/common/data_types/relationship.rs:11-14 -/
structure Relationship where
  nature : UInt16
  position : UInt16
  deriving DecidableEq
/-- src/common/data_types/relationship.rs:11-14 (derived) -/
instance : RDefault Relationship := ⟨{ nature := dflt, position := dflt }⟩
/-- src/common/data_types/relationship.rs:22-25 -/
def Relationship.serialize (self : Relationship) : Put := do
  putU16 self.nature
  putU16 self.position
/-- src/common/data_types/relationship.rs:27-32 -/
def Relationship.deserialize : Get Relationship := do
  let nature ← getU16
  let position ← getU16
  return { nature, position }
/-- src/common/data_types/relationship.rs:36-38 -/
instance : FieldSerialize Relationship := ⟨Relationship.serialize⟩
/-- src/common/data_types/relationship.rs:42-44 -/
instance : FieldDeserialize Relationship := ⟨Relationship.deserialize⟩
/-- src/common/data_types/relationship.rs:48-50 -/
instance : FieldLen Relationship := ⟨fun _ => 4⟩

/-- src/common/data_types/secondary_operational_data.rs:14-18 -/
structure SecondaryOperationalData where
  operational_data1 : UInt8
  operational_data2 : UInt8
  number_of_iff_fundamental_parameter_records : UInt16
  deriving DecidableEq
/-- src/common/data_types/secondary_operational_data.rs:14-18 (derived) -/
instance : RDefault SecondaryOperationalData := ⟨{ operational_data1 := dflt, operational_data2 := dflt, number_of_iff_fundamental_parameter_records := dflt }⟩
/-- src/common/data_types/secondary_operational_data.rs:68 -/
def SecondaryOperationalData.LENGTH : Nat := 4
/-- src/common/data_types/secondary_operational_data.rs:34-38 -/
def SecondaryOperationalData.serialize (self : SecondaryOperationalData) : Put := do
  putU8 self.operational_data1
  putU8 self.operational_data2
  putU16 self.number_of_iff_fundamental_parameter_records
/-- src/common/data_types/secondary_operational_data.rs:40-46 -/
def SecondaryOperationalData.deserialize : Get SecondaryOperationalData := do
  let operational_data1 ← getU8
  let operational_data2 ← getU8
  let number_of_iff_fundamental_parameter_records ← getU16
  return { operational_data1, operational_data2, number_of_iff_fundamental_parameter_records }
/-- src/common/data_types/secondary_operational_data.rs:50-52 -/
instance : FieldSerialize SecondaryOperationalData := ⟨SecondaryOperationalData.serialize⟩
/-- src/common/data_types/secondary_operational_data.rs:56-58 -/
instance : FieldDeserialize SecondaryOperationalData := ⟨SecondaryOperationalData.deserialize⟩
/-- src/common/data_types/secondary_operational_data.rs:62-64 -/
instance : FieldLen SecondaryOperationalData := ⟨fun _ => SecondaryOperationalData.LENGTH⟩

/-- src/common/data_types/shaft_rpms.rs:16-20 -/
structure ShaftRPMs where
  current_shaft_rpms : Int16
  ordered_shaft_rpms : Int16
  shaft_rpm_rate_of_change : Int32
  deriving DecidableEq
/-- src/common/data_types/shaft_rpms.rs:16-20 (derived) -/
instance : RDefault ShaftRPMs := ⟨{ current_shaft_rpms := dflt, ordered_shaft_rpms := dflt, shaft_rpm_rate_of_change := dflt }⟩
/-- src/common/data_types/shaft_rpms.rs:70 -/
def ShaftRPMs.LENGTH : Nat := 8
/-- src/common/data_types/shaft_rpms.rs:36-40 -/
def ShaftRPMs.serialize (self : ShaftRPMs) : Put := do
  putI16 self.current_shaft_rpms
  putI16 self.ordered_shaft_rpms
  putI32 self.shaft_rpm_rate_of_change
/-- src/common/data_types/shaft_rpms.rs:42-48 -/
def ShaftRPMs.deserialize : Get ShaftRPMs := do
  let current_shaft_rpms ← getI16
  let ordered_shaft_rpms ← getI16
  let shaft_rpm_rate_of_change ← getI32
  return { current_shaft_rpms, ordered_shaft_rpms, shaft_rpm_rate_of_change }
/-- src/common/data_types/shaft_rpms.rs:52-54 -/
instance : FieldSerialize ShaftRPMs := ⟨ShaftRPMs.serialize⟩
/-- src/common/data_types/shaft_rpms.rs:58-60 -/
instance : FieldDeserialize ShaftRPMs := ⟨ShaftRPMs.deserialize⟩
/-- src/common/data_types/shaft_rpms.rs:64-66 -/
instance : FieldLen ShaftRPMs := ⟨fun _ => ShaftRPMs.LENGTH⟩

/-- src/common/data_types/simulation_id.rs:15-18 -/
structure SimulationIdentifier where
  simulation_address : SimulationAddress
  reference_number : UInt16
  deriving DecidableEq
/-- src/common/data_types/simulation_id.rs:15-18 (derived) -/
instance : RDefault SimulationIdentifier := ⟨{ simulation_address := dflt, reference_number := dflt }⟩
/-- src/common/data_types/simulation_id.rs:61 -/
def SimulationIdentifier.LENGTH : Nat := SimulationAddress.LENGTH + 2
/-- src/common/data_types/simulation_id.rs:29-32 -/
def SimulationIdentifier.serialize (self : SimulationIdentifier) : Put := do
  self.simulation_address.serialize
  putU16 0
/-- src/common/data_types/simulation_id.rs:34-39 -/
def SimulationIdentifier.deserialize : Get SimulationIdentifier := do
  let simulation_address ← SimulationAddress.deserialize
  let reference_number ← getU16
  return { simulation_address, reference_number }
/-- src/common/data_types/simulation_id.rs:43-45 -/
instance : FieldSerialize SimulationIdentifier := ⟨SimulationIdentifier.serialize⟩
/-- src/common/data_types/simulation_id.rs:49-51 -/
instance : FieldDeserialize SimulationIdentifier := ⟨SimulationIdentifier.deserialize⟩
/-- src/common/data_types/simulation_id.rs:55-57 -/
instance : FieldLen SimulationIdentifier := ⟨fun _ => SimulationIdentifier.LENGTH⟩

/-- src/common/data_types/standard_variable_records.rs:11-15 -/
structure StandardVariableRecords where
  record_type : UInt32
  record_length : UInt16
  record_specific_fields : List UInt8
  deriving DecidableEq
/-- src/common/data_types/standard_variable_records.rs:11-15 (derived) -/
instance : RDefault StandardVariableRecords := ⟨{ record_type := dflt, record_length := dflt, record_specific_fields := dflt }⟩
/-- src/common/data_types/standard_variable_records.rs:31-37 -/
def StandardVariableRecords.serialize (self : StandardVariableRecords) : Put := do
  putU32 self.record_type
  putU16 self.record_length
  putEach putU8 self.record_specific_fields
/-- src/common/data_types/standard_variable_records.rs:39-51 -/
def StandardVariableRecords.deserialize : Get StandardVariableRecords := do
  let record_type ← getU32
  let record_length ← getU16
  let record_specific_fields ← getN getU8 record_length.toNat
  return { record_type, record_length, record_specific_fields }
/-- src/common/data_types/standard_variable_records.rs:55-57 -/
instance : FieldSerialize StandardVariableRecords := ⟨StandardVariableRecords.serialize⟩
/-- src/common/data_types/standard_variable_records.rs:61-63 -/
instance : FieldDeserialize StandardVariableRecords := ⟨StandardVariableRecords.deserialize⟩
/-- src/common/data_types/standard_variable_records.rs:67-69 -/
instance : FieldLen StandardVariableRecords := ⟨fun self => 4 + 2 + field_len self.record_specific_fields⟩

/-- src/common/data_types/standard_variable_specification.rs:11-14 -/
structure StandardVariableSpecification where
  number_of_standard_variable_records : UInt16
  standard_variable_records : List StandardVariableRecords
  deriving DecidableEq
/-- src/common/data_types/standard_variable_specification.rs:11-14 (derived) -/
instance : RDefault StandardVariableSpecification := ⟨{ number_of_standard_variable_records := dflt, standard_variable_records := dflt }⟩
/-- src/common/data_types/standard_variable_specification.rs:28-33 -/
def StandardVariableSpecification.serialize (self : StandardVariableSpecification) : Put := do
  putU16 self.number_of_standard_variable_records
  putEach StandardVariableRecords.serialize self.standard_variable_records
/-- src/common/data_types/standard_variable_specification.rs:35-45 -/
def StandardVariableSpecification.deserialize : Get StandardVariableSpecification := do
  let number_of_standard_variable_records ← getU16
  let standard_variable_records ← getN StandardVariableRecords.deserialize number_of_standard_variable_records.toNat
  return { number_of_standard_variable_records, standard_variable_records }
/-- src/common/data_types/standard_variable_specification.rs:49-52 -/
def StandardVariableSpecification.serializeField (self : StandardVariableSpecification) : Put := do
  putU16 self.number_of_standard_variable_records
  serialize_field self.standard_variable_records
/-- src/common/data_types/standard_variable_specification.rs:49-52 -/
instance : FieldSerialize StandardVariableSpecification := ⟨StandardVariableSpecification.serializeField⟩
/-- src/common/data_types/standard_variable_specification.rs:56-66 -/
def StandardVariableSpecification.deserializeField : Get StandardVariableSpecification := do
  let number_of_standard_variable_records ← getU16
  M.reserve number_of_standard_variable_records.toNat
  let records ← getN (deserialize_field : Get StandardVariableRecords) number_of_standard_variable_records.toNat
  return { number_of_standard_variable_records, standard_variable_records := records }
/-- src/common/data_types/standard_variable_specification.rs:56-66 -/
instance : FieldDeserialize StandardVariableSpecification := ⟨StandardVariableSpecification.deserializeField⟩
/-- src/common/data_types/standard_variable_specification.rs:70-72 -/
instance : FieldLen StandardVariableSpecification := ⟨fun self => 2 + field_len self.standard_variable_records⟩

/-- src/common/data_types/supply_quantity.rs:14-17 -/
structure SupplyQuantity where
  supply_type : EntityType
  quantity : F32
  deriving DecidableEq
/-- src/common/data_types/supply_quantity.rs:14-17 (derived) -/
instance : RDefault SupplyQuantity := ⟨{ supply_type := dflt, quantity := dflt }⟩
/-- src/common/data_types/supply_quantity.rs:28-31 -/
def SupplyQuantity.serialize (self : SupplyQuantity) : Put := do
  self.supply_type.serialize
  putF32 self.quantity
/-- src/common/data_types/supply_quantity.rs:33-38 -/
def SupplyQuantity.deserialize : Get SupplyQuantity := do
  let supply_type ← EntityType.deserialize
  let quantity ← getF32
  return { supply_type, quantity }
/-- src/common/data_types/supply_quantity.rs:42-44 -/
instance : FieldSerialize SupplyQuantity := ⟨SupplyQuantity.serialize⟩
/-- src/common/data_types/supply_quantity.rs:48-50 -/
instance : FieldDeserialize SupplyQuantity := ⟨SupplyQuantity.deserialize⟩
/-- src/common/data_types/supply_quantity.rs:54-56 -/
instance : FieldLen SupplyQuantity := ⟨fun self => field_len self.supply_type + field_len self.quantity⟩

/-- src/common/data_types/system_id.rs:14-19 -/
structure SystemId where
  system_type : UInt16
  system_name : UInt16
  system_mode : UInt8
  change_options : UInt8
  deriving DecidableEq
/-- src/common/data_types/system_id.rs:14-19 (derived) -/
instance : RDefault SystemId := ⟨{ system_type := dflt, system_name := dflt, system_mode := dflt, change_options := dflt }⟩
/-- src/common/data_types/system_id.rs:73 -/
def SystemId.LENGTH : Nat := 6
/-- src/common/data_types/system_id.rs:37-42 -/
def SystemId.serialize (self : SystemId) : Put := do
  putU16 self.system_type
  putU16 self.system_name
  putU8 self.system_mode
  putU8 self.change_options
/-- src/common/data_types/system_id.rs:44-51 -/
def SystemId.deserialize : Get SystemId := do
  let system_type ← getU16
  let system_name ← getU16
  let system_mode ← getU8
  let change_options ← getU8
  return { system_type, system_name, system_mode, change_options }
/-- src/common/data_types/system_id.rs:55-57 -/
instance : FieldSerialize SystemId := ⟨SystemId.serialize⟩
/-- src/common/data_types/system_id.rs:61-63 -/
instance : FieldDeserialize SystemId := ⟨SystemId.deserialize⟩
/-- src/common/data_types/system_id.rs:67-69 -/
instance : FieldLen SystemId := ⟨fun _ => SystemId.LENGTH⟩

/-- src/common/data_types/variable_parameter.rs:14-20 -/
structure VariableParameter where
  record_type : UInt8
  variable_parameter_field1 : F64
  variable_parameter_field2 : UInt32
  variable_parameter_field3 : UInt16
  variable_parameter_field4 : UInt8
  deriving DecidableEq
/-- src/common/data_types/variable_parameter.rs:14-20 (derived) -/
instance : RDefault VariableParameter := ⟨{ record_type := dflt, variable_parameter_field1 := dflt, variable_parameter_field2 := dflt, variable_parameter_field3 := dflt, variable_parameter_field4 := dflt }⟩
/-- src/common/data_types/variable_parameter.rs:78 -/
def VariableParameter.LENGTH : Nat := 16
/-- src/common/data_types/variable_parameter.rs:40-46 -/
def VariableParameter.serialize (self : VariableParameter) : Put := do
  putU8 self.record_type
  putF64 self.variable_parameter_field1
  putU32 self.variable_parameter_field2
  putU16 self.variable_parameter_field3
  putU8 self.variable_parameter_field4
/-- src/common/data_types/variable_parameter.rs:48-56 -/
def VariableParameter.deserialize : Get VariableParameter := do
  let record_type ← getU8
  let variable_parameter_field1 ← getF64
  let variable_parameter_field2 ← getU32
  let variable_parameter_field3 ← getU16
  let variable_parameter_field4 ← getU8
  return { record_type, variable_parameter_field1, variable_parameter_field2, variable_parameter_field3, variable_parameter_field4 }
/-- src/common/data_types/variable_parameter.rs:60-62 -/
instance : FieldSerialize VariableParameter := ⟨VariableParameter.serialize⟩
/-- src/common/data_types/variable_parameter.rs:66-68 -/
instance : FieldDeserialize VariableParameter := ⟨VariableParameter.deserialize⟩
/-- src/common/data_types/variable_parameter.rs:72-74 -/
instance : FieldLen VariableParameter := ⟨fun _ => VariableParameter.LENGTH⟩

/-- src/common/data_types/variable_transmitter_parameters.rs:11-15 -/
structure VariableTransmitterParameters where
  record_type : VariableParameterRecordType
  record_length : UInt16
  record_specific_fields : List UInt8
  deriving DecidableEq
/-- src/common/data_types/variable_transmitter_parameters.rs:11-15 (derived) -/
instance : RDefault VariableTransmitterParameters := ⟨{ record_type := dflt, record_length := dflt, record_specific_fields := dflt }⟩
/-- src/common/data_types/variable_transmitter_parameters.rs:41-47 -/
def VariableTransmitterParameters.serialize (self : VariableTransmitterParameters) : Put := do
  putU32 self.record_type.asU32
  putU16 self.record_length
  putEach putU8 self.record_specific_fields
/-- src/common/data_types/variable_transmitter_parameters.rs:49-62 -/
def VariableTransmitterParameters.deserialize : Get VariableTransmitterParameters := do
  let record_type ← VariableParameterRecordType.deserialize
  let record_length ← getU16
  let record_specific_fields ← getN getU8 record_length.toNat
  return { record_type, record_length, record_specific_fields }
/-- src/common/data_types/variable_transmitter_parameters.rs:18-20 -/
instance : FieldSerialize VariableTransmitterParameters := ⟨VariableTransmitterParameters.serialize⟩
/-- src/common/data_types/variable_transmitter_parameters.rs:24-26 -/
instance : FieldDeserialize VariableTransmitterParameters := ⟨VariableTransmitterParameters.deserialize⟩
/-- src/common/data_types/variable_transmitter_parameters.rs:30-32 -/
instance : FieldLen VariableTransmitterParameters := ⟨fun self => 4 + 2 + self.record_specific_fields.length⟩

/-- src/common/data_types/vector3_double.rs:13-20 -/
structure Vector3Double where
  x : F64
  y : F64
  z : F64
  deriving DecidableEq
/-- src/common/data_types/vector3_double.rs:13-20 (derived) -/
instance : RDefault Vector3Double := ⟨{ x := dflt, y := dflt, z := dflt }⟩
/-- src/common/data_types/vector3_double.rs:44 -/
def Vector3Double.LENGTH : Nat := 24
/-- src/common/data_types/vector3_double.rs:28-32 -/
def Vector3Double.serialize (self : Vector3Double) : Put := do
  putF64 self.x
  putF64 self.y
  putF64 self.z
/-- src/common/data_types/vector3_double.rs:34-40 -/
def Vector3Double.deserialize : Get Vector3Double := do
  let x ← getF64
  let y ← getF64
  let z ← getF64
  return { x, y, z }

/-- src/common/data_types/vectoring_nozzle_system_data.rs:14-17 -/
structure VectoringNozzleSystemData where
  horizontal_deflection_angle : F32
  vertical_deflection_angle : F32
  deriving DecidableEq
/-- src/common/data_types/vectoring_nozzle_system_data.rs:14-17 (derived) -/
instance : RDefault VectoringNozzleSystemData := ⟨{ horizontal_deflection_angle := dflt, vertical_deflection_angle := dflt }⟩
/-- src/common/data_types/vectoring_nozzle_system_data.rs:60 -/
def VectoringNozzleSystemData.LENGTH : Nat := 8
/-- src/common/data_types/vectoring_nozzle_system_data.rs:28-31 -/
def VectoringNozzleSystemData.serialize (self : VectoringNozzleSystemData) : Put := do
  putF32 self.horizontal_deflection_angle
  putF32 self.vertical_deflection_angle
/-- src/common/data_types/vectoring_nozzle_system_data.rs:33-38 -/
def VectoringNozzleSystemData.deserialize : Get VectoringNozzleSystemData := do
  let horizontal_deflection_angle ← getF32
  let vertical_deflection_angle ← getF32
  return { horizontal_deflection_angle, vertical_deflection_angle }
/-- src/common/data_types/vectoring_nozzle_system_data.rs:42-44 -/
instance : FieldSerialize VectoringNozzleSystemData := ⟨VectoringNozzleSystemData.serialize⟩
/-- src/common/data_types/vectoring_nozzle_system_data.rs:48-50 -/
instance : FieldDeserialize VectoringNozzleSystemData := ⟨VectoringNozzleSystemData.deserialize⟩
/-- src/common/data_types/vectoring_nozzle_system_data.rs:54-56 -/
instance : FieldLen VectoringNozzleSystemData := ⟨fun _ => VectoringNozzleSystemData.LENGTH⟩

/-- src/common/data_types/velocity_vector.rs:9-13 -/
structure VelocityVector where
  first_vector_component : F32
  second_vector_component : F32
  third_vector_component : F32
  deriving DecidableEq
/-- src/common/data_types/velocity_vector.rs:9-13 (derived) -/
instance : RDefault VelocityVector := ⟨{ first_vector_component := dflt, second_vector_component := dflt, third_vector_component := dflt }⟩
/-- src/common/data_types/velocity_vector.rs:25-29 -/
def VelocityVector.serialize (self : VelocityVector) : Put := do
  putF32 self.first_vector_component
  putF32 self.second_vector_component
  putF32 self.third_vector_component
/-- src/common/data_types/velocity_vector.rs:31-37 -/
def VelocityVector.deserialize : Get VelocityVector := do
  let first_vector_component ← getF32
  let second_vector_component ← getF32
  let third_vector_component ← getF32
  return { first_vector_component, second_vector_component, third_vector_component }

end Dis
