import Verif.Model.PduCore
import Verif.Model.Records
/- Generated by tools/gen_pdus.py from the `define_pdu!` blocks of /repo/src. -/
set_option maxRecDepth 4000
namespace Dis

/-- src/simulation_management_with_reliability.rs:166-187: the fields after the header -/
structure DataQueryReliablePdu where
  originating_entity_id : EntityId
  receiving_entity_id : EntityId
  required_reliability_service : RequiredReliabilityService
  padding : UInt8
  padding2 : UInt16
  request_id : UInt32
  time_interval : UInt32
  number_of_fixed_datum_records : UInt32
  number_of_variable_datum_records : UInt32
  fixed_datum_ids : List VariableRecordTypes
  variable_datum_ids : List VariableRecordTypes
  deriving DecidableEq
/-- src/pdu_macro.rs:283-285 with the fields of src/simulation_management_with_reliability.rs:174-184 -/
def DataQueryReliablePdu.fieldsLen (self : DataQueryReliablePdu) : Nat :=
  field_len self.originating_entity_id +
  field_len self.receiving_entity_id +
  field_len self.required_reliability_service +
  field_len self.padding +
  field_len self.padding2 +
  field_len self.request_id +
  field_len self.time_interval +
  field_len self.number_of_fixed_datum_records +
  field_len self.number_of_variable_datum_records +
  field_len self.fixed_datum_ids +
  field_len self.variable_datum_ids
/-- src/pdu_macro.rs:319-321 with the fields of src/simulation_management_with_reliability.rs:174-184 -/
def DataQueryReliablePdu.serializeBody (self : DataQueryReliablePdu) : Put := do
  serialize_field self.originating_entity_id
  serialize_field self.receiving_entity_id
  serialize_field self.required_reliability_service
  serialize_field self.padding
  serialize_field self.padding2
  serialize_field self.request_id
  serialize_field self.time_interval
  serialize_field self.number_of_fixed_datum_records
  serialize_field self.number_of_variable_datum_records
  serialize_field self.fixed_datum_ids
  serialize_field self.variable_datum_ids
/-- src/pdu_macro.rs:257-272 with the fields of src/simulation_management_with_reliability.rs:174-184 -/
def DataQueryReliablePdu.deserializeBody : Get DataQueryReliablePdu := do
  let originating_entity_id ← (deserialize_field : Get EntityId)
  let receiving_entity_id ← (deserialize_field : Get EntityId)
  let required_reliability_service ← (deserialize_field : Get RequiredReliabilityService)
  let padding ← (deserialize_field : Get UInt8)
  let padding2 ← (deserialize_field : Get UInt16)
  let request_id ← (deserialize_field : Get UInt32)
  let time_interval ← (deserialize_field : Get UInt32)
  let number_of_fixed_datum_records ← (deserialize_field : Get UInt32)
  let number_of_variable_datum_records ← (deserialize_field : Get UInt32)
  let fixed_datum_ids ← (deserialize_field : Get (List VariableRecordTypes))
  let variable_datum_ids ← (deserialize_field : Get (List VariableRecordTypes))
  return { originating_entity_id, receiving_entity_id, required_reliability_service, padding, padding2, request_id, time_interval, number_of_fixed_datum_records, number_of_variable_datum_records, fixed_datum_ids, variable_datum_ids }
/-- src/simulation_management_with_reliability.rs:166-187 (`PduType::DataQueryReliable`, `ProtocolFamily::SimulationManagementWithReliability`) -/
instance : PduBody DataQueryReliablePdu where
  pduType := ⟨58, by decide⟩
  family := ⟨10, by decide⟩
  default := { originating_entity_id := dflt, receiving_entity_id := dflt, required_reliability_service := dflt, padding := dflt, padding2 := dflt, request_id := dflt, time_interval := dflt, number_of_fixed_datum_records := dflt, number_of_variable_datum_records := dflt, fixed_datum_ids := dflt, variable_datum_ids := dflt }
  fieldsLen := DataQueryReliablePdu.fieldsLen
  prep := id
  serializeBody := DataQueryReliablePdu.serializeBody
  deserializeBody := DataQueryReliablePdu.deserializeBody

/-- src/simulation_management_with_reliability.rs:189-209: the fields after the header -/
structure SetDataReliablePdu where
  originating_entity_id : EntityId
  receiving_entity_id : EntityId
  required_reliability_service : RequiredReliabilityService
  padding : UInt8
  padding2 : UInt16
  request_id : UInt32
  number_of_fixed_datum_records : UInt32
  number_of_variable_datum_records : UInt32
  fixed_datum_records : List FixedDatumRecord
  variable_datum_records : List VariableDatumRecord
  deriving DecidableEq
/-- src/pdu_macro.rs:283-285 with the fields of src/simulation_management_with_reliability.rs:197-206 -/
def SetDataReliablePdu.fieldsLen (self : SetDataReliablePdu) : Nat :=
  field_len self.originating_entity_id +
  field_len self.receiving_entity_id +
  field_len self.required_reliability_service +
  field_len self.padding +
  field_len self.padding2 +
  field_len self.request_id +
  field_len self.number_of_fixed_datum_records +
  field_len self.number_of_variable_datum_records +
  field_len self.fixed_datum_records +
  field_len self.variable_datum_records
/-- src/pdu_macro.rs:319-321 with the fields of src/simulation_management_with_reliability.rs:197-206 -/
def SetDataReliablePdu.serializeBody (self : SetDataReliablePdu) : Put := do
  serialize_field self.originating_entity_id
  serialize_field self.receiving_entity_id
  serialize_field self.required_reliability_service
  serialize_field self.padding
  serialize_field self.padding2
  serialize_field self.request_id
  serialize_field self.number_of_fixed_datum_records
  serialize_field self.number_of_variable_datum_records
  serialize_field self.fixed_datum_records
  serialize_field self.variable_datum_records
/-- src/pdu_macro.rs:257-272 with the fields of src/simulation_management_with_reliability.rs:197-206 -/
def SetDataReliablePdu.deserializeBody : Get SetDataReliablePdu := do
  let originating_entity_id ← (deserialize_field : Get EntityId)
  let receiving_entity_id ← (deserialize_field : Get EntityId)
  let required_reliability_service ← (deserialize_field : Get RequiredReliabilityService)
  let padding ← (deserialize_field : Get UInt8)
  let padding2 ← (deserialize_field : Get UInt16)
  let request_id ← (deserialize_field : Get UInt32)
  let number_of_fixed_datum_records ← (deserialize_field : Get UInt32)
  let number_of_variable_datum_records ← (deserialize_field : Get UInt32)
  let fixed_datum_records ← (deserialize_field : Get (List FixedDatumRecord))
  let variable_datum_records ← (deserialize_field : Get (List VariableDatumRecord))
  return { originating_entity_id, receiving_entity_id, required_reliability_service, padding, padding2, request_id, number_of_fixed_datum_records, number_of_variable_datum_records, fixed_datum_records, variable_datum_records }
/-- src/simulation_management_with_reliability.rs:189-209 (`PduType::SetDataReliable`, `ProtocolFamily::SimulationManagementWithReliability`) -/
instance : PduBody SetDataReliablePdu where
  pduType := ⟨59, by decide⟩
  family := ⟨10, by decide⟩
  default := { originating_entity_id := dflt, receiving_entity_id := dflt, required_reliability_service := dflt, padding := dflt, padding2 := dflt, request_id := dflt, number_of_fixed_datum_records := dflt, number_of_variable_datum_records := dflt, fixed_datum_records := dflt, variable_datum_records := dflt }
  fieldsLen := SetDataReliablePdu.fieldsLen
  prep := id
  serializeBody := SetDataReliablePdu.serializeBody
  deserializeBody := SetDataReliablePdu.deserializeBody

/-- src/simulation_management_with_reliability.rs:211-231: the fields after the header -/
structure DataReliablePdu where
  originating_entity_id : EntityId
  receiving_entity_id : EntityId
  request_id : UInt32
  required_reliability_service : RequiredReliabilityService
  padding : UInt8
  padding2 : UInt16
  number_of_fixed_datum_records : UInt32
  number_of_variable_datum_records : UInt32
  fixed_datum_records : List FixedDatumRecord
  variable_datum_records : List VariableDatumRecord
  deriving DecidableEq
/-- src/pdu_macro.rs:283-285 with the fields of src/simulation_management_with_reliability.rs:219-228 -/
def DataReliablePdu.fieldsLen (self : DataReliablePdu) : Nat :=
  field_len self.originating_entity_id +
  field_len self.receiving_entity_id +
  field_len self.request_id +
  field_len self.required_reliability_service +
  field_len self.padding +
  field_len self.padding2 +
  field_len self.number_of_fixed_datum_records +
  field_len self.number_of_variable_datum_records +
  field_len self.fixed_datum_records +
  field_len self.variable_datum_records
/-- src/pdu_macro.rs:319-321 with the fields of src/simulation_management_with_reliability.rs:219-228 -/
def DataReliablePdu.serializeBody (self : DataReliablePdu) : Put := do
  serialize_field self.originating_entity_id
  serialize_field self.receiving_entity_id
  serialize_field self.request_id
  serialize_field self.required_reliability_service
  serialize_field self.padding
  serialize_field self.padding2
  serialize_field self.number_of_fixed_datum_records
  serialize_field self.number_of_variable_datum_records
  serialize_field self.fixed_datum_records
  serialize_field self.variable_datum_records
/-- src/pdu_macro.rs:257-272 with the fields of src/simulation_management_with_reliability.rs:219-228 -/
def DataReliablePdu.deserializeBody : Get DataReliablePdu := do
  let originating_entity_id ← (deserialize_field : Get EntityId)
  let receiving_entity_id ← (deserialize_field : Get EntityId)
  let request_id ← (deserialize_field : Get UInt32)
  let required_reliability_service ← (deserialize_field : Get RequiredReliabilityService)
  let padding ← (deserialize_field : Get UInt8)
  let padding2 ← (deserialize_field : Get UInt16)
  let number_of_fixed_datum_records ← (deserialize_field : Get UInt32)
  let number_of_variable_datum_records ← (deserialize_field : Get UInt32)
  let fixed_datum_records ← (deserialize_field : Get (List FixedDatumRecord))
  let variable_datum_records ← (deserialize_field : Get (List VariableDatumRecord))
  return { originating_entity_id, receiving_entity_id, request_id, required_reliability_service, padding, padding2, number_of_fixed_datum_records, number_of_variable_datum_records, fixed_datum_records, variable_datum_records }
/-- src/simulation_management_with_reliability.rs:211-231 (`PduType::DataReliable`, `ProtocolFamily::SimulationManagementWithReliability`) -/
instance : PduBody DataReliablePdu where
  pduType := ⟨60, by decide⟩
  family := ⟨10, by decide⟩
  default := { originating_entity_id := dflt, receiving_entity_id := dflt, request_id := dflt, required_reliability_service := dflt, padding := dflt, padding2 := dflt, number_of_fixed_datum_records := dflt, number_of_variable_datum_records := dflt, fixed_datum_records := dflt, variable_datum_records := dflt }
  fieldsLen := DataReliablePdu.fieldsLen
  prep := id
  serializeBody := DataReliablePdu.serializeBody
  deserializeBody := DataReliablePdu.deserializeBody

/-- src/simulation_management_with_reliability.rs:233-251: the fields after the header -/
structure EventReportReliablePdu where
  originating_entity_id : EntityId
  receiving_entity_id : EntityId
  event_type : EventType
  padding : UInt32
  number_of_fixed_datum_records : UInt32
  number_of_variable_datum_records : UInt32
  fixed_datum_records : List FixedDatumRecord
  variable_datum_records : List VariableDatumRecord
  deriving DecidableEq
/-- src/pdu_macro.rs:283-285 with the fields of src/simulation_management_with_reliability.rs:241-248 -/
def EventReportReliablePdu.fieldsLen (self : EventReportReliablePdu) : Nat :=
  field_len self.originating_entity_id +
  field_len self.receiving_entity_id +
  field_len self.event_type +
  field_len self.padding +
  field_len self.number_of_fixed_datum_records +
  field_len self.number_of_variable_datum_records +
  field_len self.fixed_datum_records +
  field_len self.variable_datum_records
/-- src/pdu_macro.rs:319-321 with the fields of src/simulation_management_with_reliability.rs:241-248 -/
def EventReportReliablePdu.serializeBody (self : EventReportReliablePdu) : Put := do
  serialize_field self.originating_entity_id
  serialize_field self.receiving_entity_id
  serialize_field self.event_type
  serialize_field self.padding
  serialize_field self.number_of_fixed_datum_records
  serialize_field self.number_of_variable_datum_records
  serialize_field self.fixed_datum_records
  serialize_field self.variable_datum_records
/-- src/pdu_macro.rs:257-272 with the fields of src/simulation_management_with_reliability.rs:241-248 -/
def EventReportReliablePdu.deserializeBody : Get EventReportReliablePdu := do
  let originating_entity_id ← (deserialize_field : Get EntityId)
  let receiving_entity_id ← (deserialize_field : Get EntityId)
  let event_type ← (deserialize_field : Get EventType)
  let padding ← (deserialize_field : Get UInt32)
  let number_of_fixed_datum_records ← (deserialize_field : Get UInt32)
  let number_of_variable_datum_records ← (deserialize_field : Get UInt32)
  let fixed_datum_records ← (deserialize_field : Get (List FixedDatumRecord))
  let variable_datum_records ← (deserialize_field : Get (List VariableDatumRecord))
  return { originating_entity_id, receiving_entity_id, event_type, padding, number_of_fixed_datum_records, number_of_variable_datum_records, fixed_datum_records, variable_datum_records }
/-- src/simulation_management_with_reliability.rs:233-251 (`PduType::EventReportReliable`, `ProtocolFamily::SimulationManagementWithReliability`) -/
instance : PduBody EventReportReliablePdu where
  pduType := ⟨61, by decide⟩
  family := ⟨10, by decide⟩
  default := { originating_entity_id := dflt, receiving_entity_id := dflt, event_type := dflt, padding := dflt, number_of_fixed_datum_records := dflt, number_of_variable_datum_records := dflt, fixed_datum_records := dflt, variable_datum_records := dflt }
  fieldsLen := EventReportReliablePdu.fieldsLen
  prep := id
  serializeBody := EventReportReliablePdu.serializeBody
  deserializeBody := EventReportReliablePdu.deserializeBody

/-- src/simulation_management_with_reliability.rs:253-269: the fields after the header -/
structure CommentReliablePdu where
  originating_entity_id : EntityId
  receiving_entity_id : EntityId
  number_of_fixed_datum_records : UInt32
  number_of_variable_datum_records : UInt32
  fixed_datum_records : List FixedDatumRecord
  variable_datum_records : List VariableDatumRecord
  deriving DecidableEq
/-- src/pdu_macro.rs:283-285 with the fields of src/simulation_management_with_reliability.rs:261-266 -/
def CommentReliablePdu.fieldsLen (self : CommentReliablePdu) : Nat :=
  field_len self.originating_entity_id +
  field_len self.receiving_entity_id +
  field_len self.number_of_fixed_datum_records +
  field_len self.number_of_variable_datum_records +
  field_len self.fixed_datum_records +
  field_len self.variable_datum_records
/-- src/pdu_macro.rs:319-321 with the fields of src/simulation_management_with_reliability.rs:261-266 -/
def CommentReliablePdu.serializeBody (self : CommentReliablePdu) : Put := do
  serialize_field self.originating_entity_id
  serialize_field self.receiving_entity_id
  serialize_field self.number_of_fixed_datum_records
  serialize_field self.number_of_variable_datum_records
  serialize_field self.fixed_datum_records
  serialize_field self.variable_datum_records
/-- src/pdu_macro.rs:257-272 with the fields of src/simulation_management_with_reliability.rs:261-266 -/
def CommentReliablePdu.deserializeBody : Get CommentReliablePdu := do
  let originating_entity_id ← (deserialize_field : Get EntityId)
  let receiving_entity_id ← (deserialize_field : Get EntityId)
  let number_of_fixed_datum_records ← (deserialize_field : Get UInt32)
  let number_of_variable_datum_records ← (deserialize_field : Get UInt32)
  let fixed_datum_records ← (deserialize_field : Get (List FixedDatumRecord))
  let variable_datum_records ← (deserialize_field : Get (List VariableDatumRecord))
  return { originating_entity_id, receiving_entity_id, number_of_fixed_datum_records, number_of_variable_datum_records, fixed_datum_records, variable_datum_records }
/-- src/simulation_management_with_reliability.rs:253-269 (`PduType::CommentReliable`, `ProtocolFamily::SimulationManagementWithReliability`) -/
instance : PduBody CommentReliablePdu where
  pduType := ⟨62, by decide⟩
  family := ⟨10, by decide⟩
  default := { originating_entity_id := dflt, receiving_entity_id := dflt, number_of_fixed_datum_records := dflt, number_of_variable_datum_records := dflt, fixed_datum_records := dflt, variable_datum_records := dflt }
  fieldsLen := CommentReliablePdu.fieldsLen
  prep := id
  serializeBody := CommentReliablePdu.serializeBody
  deserializeBody := CommentReliablePdu.deserializeBody

/-- src/simulation_management_with_reliability.rs:271-290: the fields after the header -/
structure RecordQueryReliablePdu where
  originating_entity_id : EntityId
  receiving_entity_id : EntityId
  request_id : UInt32
  required_reliability_service : RequiredReliabilityService
  padding : UInt8
  event_type : RecordQueryREventType
  time : UInt32
  number_of_records : UInt32
  record_ids : List UInt32
  deriving DecidableEq
/-- src/pdu_macro.rs:283-285 with the fields of src/simulation_management_with_reliability.rs:279-287 -/
def RecordQueryReliablePdu.fieldsLen (self : RecordQueryReliablePdu) : Nat :=
  field_len self.originating_entity_id +
  field_len self.receiving_entity_id +
  field_len self.request_id +
  field_len self.required_reliability_service +
  field_len self.padding +
  field_len self.event_type +
  field_len self.time +
  field_len self.number_of_records +
  field_len self.record_ids
/-- src/pdu_macro.rs:319-321 with the fields of src/simulation_management_with_reliability.rs:279-287 -/
def RecordQueryReliablePdu.serializeBody (self : RecordQueryReliablePdu) : Put := do
  serialize_field self.originating_entity_id
  serialize_field self.receiving_entity_id
  serialize_field self.request_id
  serialize_field self.required_reliability_service
  serialize_field self.padding
  serialize_field self.event_type
  serialize_field self.time
  serialize_field self.number_of_records
  serialize_field self.record_ids
/-- src/pdu_macro.rs:257-272 with the fields of src/simulation_management_with_reliability.rs:279-287 -/
def RecordQueryReliablePdu.deserializeBody : Get RecordQueryReliablePdu := do
  let originating_entity_id ← (deserialize_field : Get EntityId)
  let receiving_entity_id ← (deserialize_field : Get EntityId)
  let request_id ← (deserialize_field : Get UInt32)
  let required_reliability_service ← (deserialize_field : Get RequiredReliabilityService)
  let padding ← (deserialize_field : Get UInt8)
  let event_type ← (deserialize_field : Get RecordQueryREventType)
  let time ← (deserialize_field : Get UInt32)
  let number_of_records ← (deserialize_field : Get UInt32)
  let record_ids ← (deserialize_field : Get (List UInt32))
  return { originating_entity_id, receiving_entity_id, request_id, required_reliability_service, padding, event_type, time, number_of_records, record_ids }
/-- src/simulation_management_with_reliability.rs:271-290 (`PduType::RecordQueryReliable`, `ProtocolFamily::SimulationManagementWithReliability`) -/
instance : PduBody RecordQueryReliablePdu where
  pduType := ⟨65, by decide⟩
  family := ⟨10, by decide⟩
  default := { originating_entity_id := dflt, receiving_entity_id := dflt, request_id := dflt, required_reliability_service := dflt, padding := dflt, event_type := dflt, time := dflt, number_of_records := dflt, record_ids := dflt }
  fieldsLen := RecordQueryReliablePdu.fieldsLen
  prep := id
  serializeBody := RecordQueryReliablePdu.serializeBody
  deserializeBody := RecordQueryReliablePdu.deserializeBody

/-- src/simulation_management_with_reliability.rs:292-310: the fields after the header -/
structure SetRecordReliablePdu where
  originating_entity_id : EntityId
  receiving_entity_id : EntityId
  request_id : UInt32
  required_reliability_service : RequiredReliabilityService
  padding : UInt8
  padding2 : UInt16
  padding3 : UInt32
  record_sets : RecordSpecification
  deriving DecidableEq
/-- src/pdu_macro.rs:283-285 with the fields of src/simulation_management_with_reliability.rs:300-307 -/
def SetRecordReliablePdu.fieldsLen (self : SetRecordReliablePdu) : Nat :=
  field_len self.originating_entity_id +
  field_len self.receiving_entity_id +
  field_len self.request_id +
  field_len self.required_reliability_service +
  field_len self.padding +
  field_len self.padding2 +
  field_len self.padding3 +
  field_len self.record_sets
/-- src/pdu_macro.rs:319-321 with the fields of src/simulation_management_with_reliability.rs:300-307 -/
def SetRecordReliablePdu.serializeBody (self : SetRecordReliablePdu) : Put := do
  serialize_field self.originating_entity_id
  serialize_field self.receiving_entity_id
  serialize_field self.request_id
  serialize_field self.required_reliability_service
  serialize_field self.padding
  serialize_field self.padding2
  serialize_field self.padding3
  serialize_field self.record_sets
/-- src/pdu_macro.rs:257-272 with the fields of src/simulation_management_with_reliability.rs:300-307 -/
def SetRecordReliablePdu.deserializeBody : Get SetRecordReliablePdu := do
  let originating_entity_id ← (deserialize_field : Get EntityId)
  let receiving_entity_id ← (deserialize_field : Get EntityId)
  let request_id ← (deserialize_field : Get UInt32)
  let required_reliability_service ← (deserialize_field : Get RequiredReliabilityService)
  let padding ← (deserialize_field : Get UInt8)
  let padding2 ← (deserialize_field : Get UInt16)
  let padding3 ← (deserialize_field : Get UInt32)
  let record_sets ← (deserialize_field : Get RecordSpecification)
  return { originating_entity_id, receiving_entity_id, request_id, required_reliability_service, padding, padding2, padding3, record_sets }
/-- src/simulation_management_with_reliability.rs:292-310 (`PduType::SetRecordReliable`, `ProtocolFamily::SimulationManagementWithReliability`) -/
instance : PduBody SetRecordReliablePdu where
  pduType := ⟨64, by decide⟩
  family := ⟨10, by decide⟩
  default := { originating_entity_id := dflt, receiving_entity_id := dflt, request_id := dflt, required_reliability_service := dflt, padding := dflt, padding2 := dflt, padding3 := dflt, record_sets := dflt }
  fieldsLen := SetRecordReliablePdu.fieldsLen
  prep := id
  serializeBody := SetRecordReliablePdu.serializeBody
  deserializeBody := SetRecordReliablePdu.deserializeBody

/-- src/synthetic_environment.rs:29-46: the fields after the header -/
structure EnvironmentalProcessPdu where
  environmental_process_id : EntityId
  environment_type : EntityType
  model_type : UInt8
  environment_status : UInt8
  number_of_environment_records : UInt16
  sequence_number : UInt16
  environment_records : List Environment
  deriving DecidableEq
/-- src/pdu_macro.rs:283-285 with the fields of src/synthetic_environment.rs:37-43 -/
def EnvironmentalProcessPdu.fieldsLen (self : EnvironmentalProcessPdu) : Nat :=
  field_len self.environmental_process_id +
  field_len self.environment_type +
  field_len self.model_type +
  field_len self.environment_status +
  field_len self.number_of_environment_records +
  field_len self.sequence_number +
  field_len self.environment_records
/-- src/pdu_macro.rs:319-321 with the fields of src/synthetic_environment.rs:37-43 -/
def EnvironmentalProcessPdu.serializeBody (self : EnvironmentalProcessPdu) : Put := do
  serialize_field self.environmental_process_id
  serialize_field self.environment_type
  serialize_field self.model_type
  serialize_field self.environment_status
  serialize_field self.number_of_environment_records
  serialize_field self.sequence_number
  serialize_field self.environment_records
/-- src/pdu_macro.rs:257-272 with the fields of src/synthetic_environment.rs:37-43 -/
def EnvironmentalProcessPdu.deserializeBody : Get EnvironmentalProcessPdu := do
  let environmental_process_id ← (deserialize_field : Get EntityId)
  let environment_type ← (deserialize_field : Get EntityType)
  let model_type ← (deserialize_field : Get UInt8)
  let environment_status ← (deserialize_field : Get UInt8)
  let number_of_environment_records ← (deserialize_field : Get UInt16)
  let sequence_number ← (deserialize_field : Get UInt16)
  let environment_records ← (deserialize_field : Get (List Environment))
  return { environmental_process_id, environment_type, model_type, environment_status, number_of_environment_records, sequence_number, environment_records }
/-- src/synthetic_environment.rs:29-46 (`PduType::EnvironmentalProcess`, `ProtocolFamily::SyntheticEnvironment`) -/
instance : PduBody EnvironmentalProcessPdu where
  pduType := ⟨41, by decide⟩
  family := ⟨9, by decide⟩
  default := { environmental_process_id := dflt, environment_type := dflt, model_type := dflt, environment_status := dflt, number_of_environment_records := dflt, sequence_number := dflt, environment_records := dflt }
  fieldsLen := EnvironmentalProcessPdu.fieldsLen
  prep := id
  serializeBody := EnvironmentalProcessPdu.serializeBody
  deserializeBody := EnvironmentalProcessPdu.deserializeBody

/-- src/synthetic_environment.rs:48-74: the fields after the header -/
structure GriddedDataPdu where
  environmental_simulation_id : EntityId
  field_number : UInt16
  pdu_number : UInt16
  pdu_total : UInt16
  coordinate_system : GriddedDataCoordinateSystem
  number_of_grid_axes : UInt8
  constant_grid : GriddedDataConstantGrid
  environment_type : EntityType
  orientation : EulerAngles
  sample_time : ClockTime
  total_values : UInt32
  vector_dimension : UInt8
  padding : UInt8
  padding2 : UInt16
  grid_axis_descriptors : List GridAxisDescriptor
  grid_data_list : List GridDataRecord
  deriving DecidableEq
/-- src/pdu_macro.rs:283-285 with the fields of src/synthetic_environment.rs:56-71 -/
def GriddedDataPdu.fieldsLen (self : GriddedDataPdu) : Nat :=
  field_len self.environmental_simulation_id +
  field_len self.field_number +
  field_len self.pdu_number +
  field_len self.pdu_total +
  field_len self.coordinate_system +
  field_len self.number_of_grid_axes +
  field_len self.constant_grid +
  field_len self.environment_type +
  field_len self.orientation +
  field_len self.sample_time +
  field_len self.total_values +
  field_len self.vector_dimension +
  field_len self.padding +
  field_len self.padding2 +
  field_len self.grid_axis_descriptors +
  field_len self.grid_data_list
/-- src/pdu_macro.rs:319-321 with the fields of src/synthetic_environment.rs:56-71 -/
def GriddedDataPdu.serializeBody (self : GriddedDataPdu) : Put := do
  serialize_field self.environmental_simulation_id
  serialize_field self.field_number
  serialize_field self.pdu_number
  serialize_field self.pdu_total
  serialize_field self.coordinate_system
  serialize_field self.number_of_grid_axes
  serialize_field self.constant_grid
  serialize_field self.environment_type
  serialize_field self.orientation
  serialize_field self.sample_time
  serialize_field self.total_values
  serialize_field self.vector_dimension
  serialize_field self.padding
  serialize_field self.padding2
  serialize_field self.grid_axis_descriptors
  serialize_field self.grid_data_list
/-- src/pdu_macro.rs:257-272 with the fields of src/synthetic_environment.rs:56-71 -/
def GriddedDataPdu.deserializeBody : Get GriddedDataPdu := do
  let environmental_simulation_id ← (deserialize_field : Get EntityId)
  let field_number ← (deserialize_field : Get UInt16)
  let pdu_number ← (deserialize_field : Get UInt16)
  let pdu_total ← (deserialize_field : Get UInt16)
  let coordinate_system ← (deserialize_field : Get GriddedDataCoordinateSystem)
  let number_of_grid_axes ← (deserialize_field : Get UInt8)
  let constant_grid ← (deserialize_field : Get GriddedDataConstantGrid)
  let environment_type ← (deserialize_field : Get EntityType)
  let orientation ← (deserialize_field : Get EulerAngles)
  let sample_time ← (deserialize_field : Get ClockTime)
  let total_values ← (deserialize_field : Get UInt32)
  let vector_dimension ← (deserialize_field : Get UInt8)
  let padding ← (deserialize_field : Get UInt8)
  let padding2 ← (deserialize_field : Get UInt16)
  let grid_axis_descriptors ← (deserialize_field : Get (List GridAxisDescriptor))
  let grid_data_list ← (deserialize_field : Get (List GridDataRecord))
  return { environmental_simulation_id, field_number, pdu_number, pdu_total, coordinate_system, number_of_grid_axes, constant_grid, environment_type, orientation, sample_time, total_values, vector_dimension, padding, padding2, grid_axis_descriptors, grid_data_list }
/-- src/synthetic_environment.rs:48-74 (`PduType::GriddedData`, `ProtocolFamily::SyntheticEnvironment`) -/
instance : PduBody GriddedDataPdu where
  pduType := ⟨42, by decide⟩
  family := ⟨9, by decide⟩
  default := { environmental_simulation_id := dflt, field_number := dflt, pdu_number := dflt, pdu_total := dflt, coordinate_system := dflt, number_of_grid_axes := dflt, constant_grid := dflt, environment_type := dflt, orientation := dflt, sample_time := dflt, total_values := dflt, vector_dimension := dflt, padding := dflt, padding2 := dflt, grid_axis_descriptors := dflt, grid_data_list := dflt }
  fieldsLen := GriddedDataPdu.fieldsLen
  prep := id
  serializeBody := GriddedDataPdu.serializeBody
  deserializeBody := GriddedDataPdu.deserializeBody

/-- src/synthetic_environment.rs:76-100: the fields after the header -/
structure PointObjectStatePdu where
  object_id : EntityId
  referenced_object_id : EntityId
  update_number : UInt16
  force_id : ForceId
  modifications : UInt8
  object_type : ObjectType
  object_location : WorldCoordinate
  object_orientation : EulerAngles
  specific_object_appearance : UInt32
  general_object_appearance : UInt16
  padding : UInt16
  requester_id : SimulationAddress
  receiving_id : SimulationAddress
  padding2 : UInt32
  deriving DecidableEq
/-- src/pdu_macro.rs:283-285 with the fields of src/synthetic_environment.rs:84-97 -/
def PointObjectStatePdu.fieldsLen (self : PointObjectStatePdu) : Nat :=
  field_len self.object_id +
  field_len self.referenced_object_id +
  field_len self.update_number +
  field_len self.force_id +
  field_len self.modifications +
  field_len self.object_type +
  field_len self.object_location +
  field_len self.object_orientation +
  field_len self.specific_object_appearance +
  field_len self.general_object_appearance +
  field_len self.padding +
  field_len self.requester_id +
  field_len self.receiving_id +
  field_len self.padding2
/-- src/pdu_macro.rs:319-321 with the fields of src/synthetic_environment.rs:84-97 -/
def PointObjectStatePdu.serializeBody (self : PointObjectStatePdu) : Put := do
  serialize_field self.object_id
  serialize_field self.referenced_object_id
  serialize_field self.update_number
  serialize_field self.force_id
  serialize_field self.modifications
  serialize_field self.object_type
  serialize_field self.object_location
  serialize_field self.object_orientation
  serialize_field self.specific_object_appearance
  serialize_field self.general_object_appearance
  serialize_field self.padding
  serialize_field self.requester_id
  serialize_field self.receiving_id
  serialize_field self.padding2
/-- src/pdu_macro.rs:257-272 with the fields of src/synthetic_environment.rs:84-97 -/
def PointObjectStatePdu.deserializeBody : Get PointObjectStatePdu := do
  let object_id ← (deserialize_field : Get EntityId)
  let referenced_object_id ← (deserialize_field : Get EntityId)
  let update_number ← (deserialize_field : Get UInt16)
  let force_id ← (deserialize_field : Get ForceId)
  let modifications ← (deserialize_field : Get UInt8)
  let object_type ← (deserialize_field : Get ObjectType)
  let object_location ← (deserialize_field : Get WorldCoordinate)
  let object_orientation ← (deserialize_field : Get EulerAngles)
  let specific_object_appearance ← (deserialize_field : Get UInt32)
  let general_object_appearance ← (deserialize_field : Get UInt16)
  let padding ← (deserialize_field : Get UInt16)
  let requester_id ← (deserialize_field : Get SimulationAddress)
  let receiving_id ← (deserialize_field : Get SimulationAddress)
  let padding2 ← (deserialize_field : Get UInt32)
  return { object_id, referenced_object_id, update_number, force_id, modifications, object_type, object_location, object_orientation, specific_object_appearance, general_object_appearance, padding, requester_id, receiving_id, padding2 }
/-- src/synthetic_environment.rs:76-100 (`PduType::PointObjectState`, `ProtocolFamily::SyntheticEnvironment`) -/
instance : PduBody PointObjectStatePdu where
  pduType := ⟨43, by decide⟩
  family := ⟨9, by decide⟩
  default := { object_id := dflt, referenced_object_id := dflt, update_number := dflt, force_id := dflt, modifications := dflt, object_type := dflt, object_location := dflt, object_orientation := dflt, specific_object_appearance := dflt, general_object_appearance := dflt, padding := dflt, requester_id := dflt, receiving_id := dflt, padding2 := dflt }
  fieldsLen := PointObjectStatePdu.fieldsLen
  prep := id
  serializeBody := PointObjectStatePdu.serializeBody
  deserializeBody := PointObjectStatePdu.deserializeBody

/-- src/synthetic_environment.rs:102-121: the fields after the header -/
structure LinearObjectStatePdu where
  object_id : ObjectIdentifier
  referenced_object_id : ObjectIdentifier
  update_number : UInt16
  force_id : ForceId
  number_of_segments : UInt8
  requester_id : SimulationAddress
  receiving_id : SimulationAddress
  object_type : ObjectType
  linear_segment_parameters : List LinearSegmentParameter
  deriving DecidableEq
/-- src/pdu_macro.rs:283-285 with the fields of src/synthetic_environment.rs:110-118 -/
def LinearObjectStatePdu.fieldsLen (self : LinearObjectStatePdu) : Nat :=
  field_len self.object_id +
  field_len self.referenced_object_id +
  field_len self.update_number +
  field_len self.force_id +
  field_len self.number_of_segments +
  field_len self.requester_id +
  field_len self.receiving_id +
  field_len self.object_type +
  field_len self.linear_segment_parameters
/-- src/pdu_macro.rs:319-321 with the fields of src/synthetic_environment.rs:110-118 -/
def LinearObjectStatePdu.serializeBody (self : LinearObjectStatePdu) : Put := do
  serialize_field self.object_id
  serialize_field self.referenced_object_id
  serialize_field self.update_number
  serialize_field self.force_id
  serialize_field self.number_of_segments
  serialize_field self.requester_id
  serialize_field self.receiving_id
  serialize_field self.object_type
  serialize_field self.linear_segment_parameters
/-- src/pdu_macro.rs:257-272 with the fields of src/synthetic_environment.rs:110-118 -/
def LinearObjectStatePdu.deserializeBody : Get LinearObjectStatePdu := do
  let object_id ← (deserialize_field : Get ObjectIdentifier)
  let referenced_object_id ← (deserialize_field : Get ObjectIdentifier)
  let update_number ← (deserialize_field : Get UInt16)
  let force_id ← (deserialize_field : Get ForceId)
  let number_of_segments ← (deserialize_field : Get UInt8)
  let requester_id ← (deserialize_field : Get SimulationAddress)
  let receiving_id ← (deserialize_field : Get SimulationAddress)
  let object_type ← (deserialize_field : Get ObjectType)
  let linear_segment_parameters ← (deserialize_field : Get (List LinearSegmentParameter))
  return { object_id, referenced_object_id, update_number, force_id, number_of_segments, requester_id, receiving_id, object_type, linear_segment_parameters }
/-- src/synthetic_environment.rs:102-121 (`PduType::LinearObjectState`, `ProtocolFamily::SyntheticEnvironment`) -/
instance : PduBody LinearObjectStatePdu where
  pduType := ⟨44, by decide⟩
  family := ⟨9, by decide⟩
  default := { object_id := dflt, referenced_object_id := dflt, update_number := dflt, force_id := dflt, number_of_segments := dflt, requester_id := dflt, receiving_id := dflt, object_type := dflt, linear_segment_parameters := dflt }
  fieldsLen := LinearObjectStatePdu.fieldsLen
  prep := id
  serializeBody := LinearObjectStatePdu.serializeBody
  deserializeBody := LinearObjectStatePdu.deserializeBody

/-- src/synthetic_environment.rs:123-145: the fields after the header -/
structure ArealObjectStatePdu where
  object_id : ObjectIdentifier
  referenced_object_id : ObjectIdentifier
  update_number : UInt16
  force_id : ForceId
  modifications : UInt8
  object_type : ObjectType
  specific_object_appearance : UInt32
  general_object_appearance : ObjectStateAppearanceGeneral
  number_of_points : UInt16
  requester_id : SimulationAddress
  receiving_id : SimulationAddress
  object_location : List WorldCoordinate
  deriving DecidableEq
/-- src/pdu_macro.rs:283-285 with the fields of src/synthetic_environment.rs:131-142 -/
def ArealObjectStatePdu.fieldsLen (self : ArealObjectStatePdu) : Nat :=
  field_len self.object_id +
  field_len self.referenced_object_id +
  field_len self.update_number +
  field_len self.force_id +
  field_len self.modifications +
  field_len self.object_type +
  field_len self.specific_object_appearance +
  field_len self.general_object_appearance +
  field_len self.number_of_points +
  field_len self.requester_id +
  field_len self.receiving_id +
  field_len self.object_location
/-- src/pdu_macro.rs:319-321 with the fields of src/synthetic_environment.rs:131-142 -/
def ArealObjectStatePdu.serializeBody (self : ArealObjectStatePdu) : Put := do
  serialize_field self.object_id
  serialize_field self.referenced_object_id
  serialize_field self.update_number
  serialize_field self.force_id
  serialize_field self.modifications
  serialize_field self.object_type
  serialize_field self.specific_object_appearance
  serialize_field self.general_object_appearance
  serialize_field self.number_of_points
  serialize_field self.requester_id
  serialize_field self.receiving_id
  serialize_field self.object_location
/-- src/pdu_macro.rs:257-272 with the fields of src/synthetic_environment.rs:131-142 -/
def ArealObjectStatePdu.deserializeBody : Get ArealObjectStatePdu := do
  let object_id ← (deserialize_field : Get ObjectIdentifier)
  let referenced_object_id ← (deserialize_field : Get ObjectIdentifier)
  let update_number ← (deserialize_field : Get UInt16)
  let force_id ← (deserialize_field : Get ForceId)
  let modifications ← (deserialize_field : Get UInt8)
  let object_type ← (deserialize_field : Get ObjectType)
  let specific_object_appearance ← (deserialize_field : Get UInt32)
  let general_object_appearance ← (deserialize_field : Get ObjectStateAppearanceGeneral)
  let number_of_points ← (deserialize_field : Get UInt16)
  let requester_id ← (deserialize_field : Get SimulationAddress)
  let receiving_id ← (deserialize_field : Get SimulationAddress)
  let object_location ← (deserialize_field : Get (List WorldCoordinate))
  return { object_id, referenced_object_id, update_number, force_id, modifications, object_type, specific_object_appearance, general_object_appearance, number_of_points, requester_id, receiving_id, object_location }
/-- src/synthetic_environment.rs:123-145 (`PduType::ArealObjectState`, `ProtocolFamily::SyntheticEnvironment`) -/
instance : PduBody ArealObjectStatePdu where
  pduType := ⟨45, by decide⟩
  family := ⟨9, by decide⟩
  default := { object_id := dflt, referenced_object_id := dflt, update_number := dflt, force_id := dflt, modifications := dflt, object_type := dflt, specific_object_appearance := dflt, general_object_appearance := dflt, number_of_points := dflt, requester_id := dflt, receiving_id := dflt, object_location := dflt }
  fieldsLen := ArealObjectStatePdu.fieldsLen
  prep := id
  serializeBody := ArealObjectStatePdu.serializeBody
  deserializeBody := ArealObjectStatePdu.deserializeBody

/-- src/warfare.rs:23-42: the fields after the header -/
structure FirePdu where
  firing_entity_id : EntityId
  target_entity_id : EntityId
  munition_expendable_id : EntityId
  event_id : EventId
  fire_mission_index : UInt32
  location_in_world_coordinates : WorldCoordinate
  descriptor : MunitionDescriptor
  velocity : LinearVelocity
  range : F32
  deriving DecidableEq
/-- src/pdu_macro.rs:283-285 with the fields of src/warfare.rs:31-39 -/
def FirePdu.fieldsLen (self : FirePdu) : Nat :=
  field_len self.firing_entity_id +
  field_len self.target_entity_id +
  field_len self.munition_expendable_id +
  field_len self.event_id +
  field_len self.fire_mission_index +
  field_len self.location_in_world_coordinates +
  field_len self.descriptor +
  field_len self.velocity +
  field_len self.range
/-- src/pdu_macro.rs:319-321 with the fields of src/warfare.rs:31-39 -/
def FirePdu.serializeBody (self : FirePdu) : Put := do
  serialize_field self.firing_entity_id
  serialize_field self.target_entity_id
  serialize_field self.munition_expendable_id
  serialize_field self.event_id
  serialize_field self.fire_mission_index
  serialize_field self.location_in_world_coordinates
  serialize_field self.descriptor
  serialize_field self.velocity
  serialize_field self.range
/-- src/pdu_macro.rs:257-272 with the fields of src/warfare.rs:31-39 -/
def FirePdu.deserializeBody : Get FirePdu := do
  let firing_entity_id ← (deserialize_field : Get EntityId)
  let target_entity_id ← (deserialize_field : Get EntityId)
  let munition_expendable_id ← (deserialize_field : Get EntityId)
  let event_id ← (deserialize_field : Get EventId)
  let fire_mission_index ← (deserialize_field : Get UInt32)
  let location_in_world_coordinates ← (deserialize_field : Get WorldCoordinate)
  let descriptor ← (deserialize_field : Get MunitionDescriptor)
  let velocity ← (deserialize_field : Get LinearVelocity)
  let range ← (deserialize_field : Get F32)
  return { firing_entity_id, target_entity_id, munition_expendable_id, event_id, fire_mission_index, location_in_world_coordinates, descriptor, velocity, range }
/-- src/warfare.rs:23-42 (`PduType::Fire`, `ProtocolFamily::Warfare`) -/
instance : PduBody FirePdu where
  pduType := ⟨2, by decide⟩
  family := ⟨2, by decide⟩
  default := { firing_entity_id := dflt, target_entity_id := dflt, munition_expendable_id := dflt, event_id := dflt, fire_mission_index := dflt, location_in_world_coordinates := dflt, descriptor := dflt, velocity := dflt, range := dflt }
  fieldsLen := FirePdu.fieldsLen
  prep := id
  serializeBody := FirePdu.serializeBody
  deserializeBody := FirePdu.deserializeBody

/-- src/warfare.rs:44-66: the fields after the header -/
structure DetonationPdu where
  firing_entity_id : EntityId
  target_entity_id : EntityId
  exploding_entity_id : EntityId
  event_id : EventId
  velocity : LinearVelocity
  location_in_world_coordinates : WorldCoordinate
  descriptor : MunitionDescriptor
  location_in_entitys_coordinates : EntityCoordinateVector
  detonation_result : DetonationResult
  number_of_variable_parameters : UInt8
  padding : UInt16
  variable_parameters : List VariableParameter
  deriving DecidableEq
/-- src/pdu_macro.rs:283-285 with the fields of src/warfare.rs:52-63 -/
def DetonationPdu.fieldsLen (self : DetonationPdu) : Nat :=
  field_len self.firing_entity_id +
  field_len self.target_entity_id +
  field_len self.exploding_entity_id +
  field_len self.event_id +
  field_len self.velocity +
  field_len self.location_in_world_coordinates +
  field_len self.descriptor +
  field_len self.location_in_entitys_coordinates +
  field_len self.detonation_result +
  field_len self.number_of_variable_parameters +
  field_len self.padding +
  field_len self.variable_parameters
/-- src/pdu_macro.rs:319-321 with the fields of src/warfare.rs:52-63 -/
def DetonationPdu.serializeBody (self : DetonationPdu) : Put := do
  serialize_field self.firing_entity_id
  serialize_field self.target_entity_id
  serialize_field self.exploding_entity_id
  serialize_field self.event_id
  serialize_field self.velocity
  serialize_field self.location_in_world_coordinates
  serialize_field self.descriptor
  serialize_field self.location_in_entitys_coordinates
  serialize_field self.detonation_result
  serialize_field self.number_of_variable_parameters
  serialize_field self.padding
  serialize_field self.variable_parameters
/-- src/pdu_macro.rs:257-272 with the fields of src/warfare.rs:52-63 -/
def DetonationPdu.deserializeBody : Get DetonationPdu := do
  let firing_entity_id ← (deserialize_field : Get EntityId)
  let target_entity_id ← (deserialize_field : Get EntityId)
  let exploding_entity_id ← (deserialize_field : Get EntityId)
  let event_id ← (deserialize_field : Get EventId)
  let velocity ← (deserialize_field : Get LinearVelocity)
  let location_in_world_coordinates ← (deserialize_field : Get WorldCoordinate)
  let descriptor ← (deserialize_field : Get MunitionDescriptor)
  let location_in_entitys_coordinates ← (deserialize_field : Get EntityCoordinateVector)
  let detonation_result ← (deserialize_field : Get DetonationResult)
  let number_of_variable_parameters ← (deserialize_field : Get UInt8)
  let padding ← (deserialize_field : Get UInt16)
  let variable_parameters ← (deserialize_field : Get (List VariableParameter))
  return { firing_entity_id, target_entity_id, exploding_entity_id, event_id, velocity, location_in_world_coordinates, descriptor, location_in_entitys_coordinates, detonation_result, number_of_variable_parameters, padding, variable_parameters }
/-- src/warfare.rs:44-66 (`PduType::Detonation`, `ProtocolFamily::Warfare`) -/
instance : PduBody DetonationPdu where
  pduType := ⟨3, by decide⟩
  family := ⟨2, by decide⟩
  default := { firing_entity_id := dflt, target_entity_id := dflt, exploding_entity_id := dflt, event_id := dflt, velocity := dflt, location_in_world_coordinates := dflt, descriptor := dflt, location_in_entitys_coordinates := dflt, detonation_result := dflt, number_of_variable_parameters := dflt, padding := dflt, variable_parameters := dflt }
  fieldsLen := DetonationPdu.fieldsLen
  prep := id
  serializeBody := DetonationPdu.serializeBody
  deserializeBody := DetonationPdu.deserializeBody

/-- src/warfare.rs:68-96: the fields after the header -/
structure DirectedEnergyFirePdu where
  firing_entity_id : EntityId
  event_id : EventId
  munition_type : EntityType
  shot_start_time : ClockTime
  cumulative_shot_time : F32
  aperture_emitter_location : EntityCoordinateVector
  aperture_diameter : F32
  wavelength : F32
  padding : UInt32
  pulse_repetition_frequency : F32
  pulse_width : F32
  flags : UInt16
  pulse_shape : DEFirePulseShape
  padding2 : UInt8
  padding3 : UInt32
  padding4 : UInt16
  number_of_de_records : UInt16
  damage_descriptions : List DirectedEnergyDamage
  deriving DecidableEq
/-- src/pdu_macro.rs:283-285 with the fields of src/warfare.rs:76-93 -/
def DirectedEnergyFirePdu.fieldsLen (self : DirectedEnergyFirePdu) : Nat :=
  field_len self.firing_entity_id +
  field_len self.event_id +
  field_len self.munition_type +
  field_len self.shot_start_time +
  field_len self.cumulative_shot_time +
  field_len self.aperture_emitter_location +
  field_len self.aperture_diameter +
  field_len self.wavelength +
  field_len self.padding +
  field_len self.pulse_repetition_frequency +
  field_len self.pulse_width +
  field_len self.flags +
  field_len self.pulse_shape +
  field_len self.padding2 +
  field_len self.padding3 +
  field_len self.padding4 +
  field_len self.number_of_de_records +
  field_len self.damage_descriptions
/-- src/pdu_macro.rs:319-321 with the fields of src/warfare.rs:76-93 -/
def DirectedEnergyFirePdu.serializeBody (self : DirectedEnergyFirePdu) : Put := do
  serialize_field self.firing_entity_id
  serialize_field self.event_id
  serialize_field self.munition_type
  serialize_field self.shot_start_time
  serialize_field self.cumulative_shot_time
  serialize_field self.aperture_emitter_location
  serialize_field self.aperture_diameter
  serialize_field self.wavelength
  serialize_field self.padding
  serialize_field self.pulse_repetition_frequency
  serialize_field self.pulse_width
  serialize_field self.flags
  serialize_field self.pulse_shape
  serialize_field self.padding2
  serialize_field self.padding3
  serialize_field self.padding4
  serialize_field self.number_of_de_records
  serialize_field self.damage_descriptions
/-- src/pdu_macro.rs:257-272 with the fields of src/warfare.rs:76-93 -/
def DirectedEnergyFirePdu.deserializeBody : Get DirectedEnergyFirePdu := do
  let firing_entity_id ← (deserialize_field : Get EntityId)
  let event_id ← (deserialize_field : Get EventId)
  let munition_type ← (deserialize_field : Get EntityType)
  let shot_start_time ← (deserialize_field : Get ClockTime)
  let cumulative_shot_time ← (deserialize_field : Get F32)
  let aperture_emitter_location ← (deserialize_field : Get EntityCoordinateVector)
  let aperture_diameter ← (deserialize_field : Get F32)
  let wavelength ← (deserialize_field : Get F32)
  let padding ← (deserialize_field : Get UInt32)
  let pulse_repetition_frequency ← (deserialize_field : Get F32)
  let pulse_width ← (deserialize_field : Get F32)
  let flags ← (deserialize_field : Get UInt16)
  let pulse_shape ← (deserialize_field : Get DEFirePulseShape)
  let padding2 ← (deserialize_field : Get UInt8)
  let padding3 ← (deserialize_field : Get UInt32)
  let padding4 ← (deserialize_field : Get UInt16)
  let number_of_de_records ← (deserialize_field : Get UInt16)
  let damage_descriptions ← (deserialize_field : Get (List DirectedEnergyDamage))
  return { firing_entity_id, event_id, munition_type, shot_start_time, cumulative_shot_time, aperture_emitter_location, aperture_diameter, wavelength, padding, pulse_repetition_frequency, pulse_width, flags, pulse_shape, padding2, padding3, padding4, number_of_de_records, damage_descriptions }
/-- src/warfare.rs:68-96 (`PduType::DirectedEnergyFire`, `ProtocolFamily::Warfare`) -/
instance : PduBody DirectedEnergyFirePdu where
  pduType := ⟨68, by decide⟩
  family := ⟨2, by decide⟩
  default := { firing_entity_id := dflt, event_id := dflt, munition_type := dflt, shot_start_time := dflt, cumulative_shot_time := dflt, aperture_emitter_location := dflt, aperture_diameter := dflt, wavelength := dflt, padding := dflt, pulse_repetition_frequency := dflt, pulse_width := dflt, flags := dflt, pulse_shape := dflt, padding2 := dflt, padding3 := dflt, padding4 := dflt, number_of_de_records := dflt, damage_descriptions := dflt }
  fieldsLen := DirectedEnergyFirePdu.fieldsLen
  prep := id
  serializeBody := DirectedEnergyFirePdu.serializeBody
  deserializeBody := DirectedEnergyFirePdu.deserializeBody

/-- src/warfare.rs:98-113: the fields after the header -/
structure EntityDamageStatusPdu where
  damaged_entity_id : EntityId
  padding : UInt16
  padding2 : UInt16
  number_of_damage_descriptions : UInt16
  damage_descriptions : List DirectedEnergyDamage
  deriving DecidableEq
/-- src/pdu_macro.rs:283-285 with the fields of src/warfare.rs:106-110 -/
def EntityDamageStatusPdu.fieldsLen (self : EntityDamageStatusPdu) : Nat :=
  field_len self.damaged_entity_id +
  field_len self.padding +
  field_len self.padding2 +
  field_len self.number_of_damage_descriptions +
  field_len self.damage_descriptions
/-- src/pdu_macro.rs:319-321 with the fields of src/warfare.rs:106-110 -/
def EntityDamageStatusPdu.serializeBody (self : EntityDamageStatusPdu) : Put := do
  serialize_field self.damaged_entity_id
  serialize_field self.padding
  serialize_field self.padding2
  serialize_field self.number_of_damage_descriptions
  serialize_field self.damage_descriptions
/-- src/pdu_macro.rs:257-272 with the fields of src/warfare.rs:106-110 -/
def EntityDamageStatusPdu.deserializeBody : Get EntityDamageStatusPdu := do
  let damaged_entity_id ← (deserialize_field : Get EntityId)
  let padding ← (deserialize_field : Get UInt16)
  let padding2 ← (deserialize_field : Get UInt16)
  let number_of_damage_descriptions ← (deserialize_field : Get UInt16)
  let damage_descriptions ← (deserialize_field : Get (List DirectedEnergyDamage))
  return { damaged_entity_id, padding, padding2, number_of_damage_descriptions, damage_descriptions }
/-- src/warfare.rs:98-113 (`PduType::EntityDamageStatus`, `ProtocolFamily::Warfare`) -/
instance : PduBody EntityDamageStatusPdu where
  pduType := ⟨69, by decide⟩
  family := ⟨2, by decide⟩
  default := { damaged_entity_id := dflt, padding := dflt, padding2 := dflt, number_of_damage_descriptions := dflt, damage_descriptions := dflt }
  fieldsLen := EntityDamageStatusPdu.fieldsLen
  prep := id
  serializeBody := EntityDamageStatusPdu.serializeBody
  deserializeBody := EntityDamageStatusPdu.deserializeBody

end Dis
