import Verif.Model.PduCore
import Verif.Model.Records
/- Generated by tools/gen_pdus.py from the `define_pdu!` blocks of /repo/src. -/
set_option maxRecDepth 4000
namespace Dis

/-- src/simulation_management.rs:54-69: the fields after the header -/
structure StartResumePdu where
  originating_entity_id : EntityId
  receiving_entity_id : EntityId
  real_world_time : ClockTime
  simulation_time : ClockTime
  request_id : UInt32
  deriving DecidableEq
/-- src/pdu_macro.rs:283-285 with the fields of src/simulation_management.rs:62-66 -/
def StartResumePdu.fieldsLen (self : StartResumePdu) : Nat :=
  field_len self.originating_entity_id +
  field_len self.receiving_entity_id +
  field_len self.real_world_time +
  field_len self.simulation_time +
  field_len self.request_id
/-- src/pdu_macro.rs:319-321 with the fields of src/simulation_management.rs:62-66 -/
def StartResumePdu.serializeBody (self : StartResumePdu) : Put := do
  serialize_field self.originating_entity_id
  serialize_field self.receiving_entity_id
  serialize_field self.real_world_time
  serialize_field self.simulation_time
  serialize_field self.request_id
/-- src/pdu_macro.rs:257-272 with the fields of src/simulation_management.rs:62-66 -/
def StartResumePdu.deserializeBody : Get StartResumePdu := do
  let originating_entity_id ← (deserialize_field : Get EntityId)
  let receiving_entity_id ← (deserialize_field : Get EntityId)
  let real_world_time ← (deserialize_field : Get ClockTime)
  let simulation_time ← (deserialize_field : Get ClockTime)
  let request_id ← (deserialize_field : Get UInt32)
  return { originating_entity_id, receiving_entity_id, real_world_time, simulation_time, request_id }
/-- src/simulation_management.rs:54-69 (`PduType::StartResume`, `ProtocolFamily::SimulationManagement`) -/
instance : PduBody StartResumePdu where
  pduType := ⟨13, by decide⟩
  family := ⟨5, by decide⟩
  default := { originating_entity_id := dflt, receiving_entity_id := dflt, real_world_time := dflt, simulation_time := dflt, request_id := dflt }
  fieldsLen := StartResumePdu.fieldsLen
  prep := id
  serializeBody := StartResumePdu.serializeBody
  deserializeBody := StartResumePdu.deserializeBody

/-- src/simulation_management.rs:71-88: the fields after the header -/
structure StopFreezePdu where
  originating_entity_id : EntityId
  receiving_entity_id : EntityId
  real_world_time : ClockTime
  reason : Reason
  frozen_behavior : FrozenBehavior
  padding : UInt16
  request_id : UInt32
  deriving DecidableEq
/-- src/pdu_macro.rs:283-285 with the fields of src/simulation_management.rs:79-85 -/
def StopFreezePdu.fieldsLen (self : StopFreezePdu) : Nat :=
  field_len self.originating_entity_id +
  field_len self.receiving_entity_id +
  field_len self.real_world_time +
  field_len self.reason +
  field_len self.frozen_behavior +
  field_len self.padding +
  field_len self.request_id
/-- src/pdu_macro.rs:319-321 with the fields of src/simulation_management.rs:79-85 -/
def StopFreezePdu.serializeBody (self : StopFreezePdu) : Put := do
  serialize_field self.originating_entity_id
  serialize_field self.receiving_entity_id
  serialize_field self.real_world_time
  serialize_field self.reason
  serialize_field self.frozen_behavior
  serialize_field self.padding
  serialize_field self.request_id
/-- src/pdu_macro.rs:257-272 with the fields of src/simulation_management.rs:79-85 -/
def StopFreezePdu.deserializeBody : Get StopFreezePdu := do
  let originating_entity_id ← (deserialize_field : Get EntityId)
  let receiving_entity_id ← (deserialize_field : Get EntityId)
  let real_world_time ← (deserialize_field : Get ClockTime)
  let reason ← (deserialize_field : Get Reason)
  let frozen_behavior ← (deserialize_field : Get FrozenBehavior)
  let padding ← (deserialize_field : Get UInt16)
  let request_id ← (deserialize_field : Get UInt32)
  return { originating_entity_id, receiving_entity_id, real_world_time, reason, frozen_behavior, padding, request_id }
/-- src/simulation_management.rs:71-88 (`PduType::StopFreeze`, `ProtocolFamily::SimulationManagement`) -/
instance : PduBody StopFreezePdu where
  pduType := ⟨14, by decide⟩
  family := ⟨5, by decide⟩
  default := { originating_entity_id := dflt, receiving_entity_id := dflt, real_world_time := dflt, reason := dflt, frozen_behavior := dflt, padding := dflt, request_id := dflt }
  fieldsLen := StopFreezePdu.fieldsLen
  prep := id
  serializeBody := StopFreezePdu.serializeBody
  deserializeBody := StopFreezePdu.deserializeBody

/-- src/simulation_management.rs:90-105: the fields after the header -/
structure AcknowledgePdu where
  originating_entity_id : EntityId
  receiving_entity_id : EntityId
  acknowledge_flag : AcknowledgeFlag
  response_flag : AcknowledgeResponseFlag
  request_id : UInt32
  deriving DecidableEq
/-- src/pdu_macro.rs:283-285 with the fields of src/simulation_management.rs:98-102 -/
def AcknowledgePdu.fieldsLen (self : AcknowledgePdu) : Nat :=
  field_len self.originating_entity_id +
  field_len self.receiving_entity_id +
  field_len self.acknowledge_flag +
  field_len self.response_flag +
  field_len self.request_id
/-- src/pdu_macro.rs:319-321 with the fields of src/simulation_management.rs:98-102 -/
def AcknowledgePdu.serializeBody (self : AcknowledgePdu) : Put := do
  serialize_field self.originating_entity_id
  serialize_field self.receiving_entity_id
  serialize_field self.acknowledge_flag
  serialize_field self.response_flag
  serialize_field self.request_id
/-- src/pdu_macro.rs:257-272 with the fields of src/simulation_management.rs:98-102 -/
def AcknowledgePdu.deserializeBody : Get AcknowledgePdu := do
  let originating_entity_id ← (deserialize_field : Get EntityId)
  let receiving_entity_id ← (deserialize_field : Get EntityId)
  let acknowledge_flag ← (deserialize_field : Get AcknowledgeFlag)
  let response_flag ← (deserialize_field : Get AcknowledgeResponseFlag)
  let request_id ← (deserialize_field : Get UInt32)
  return { originating_entity_id, receiving_entity_id, acknowledge_flag, response_flag, request_id }
/-- src/simulation_management.rs:90-105 (`PduType::Acknowledge`, `ProtocolFamily::SimulationManagement`) -/
instance : PduBody AcknowledgePdu where
  pduType := ⟨15, by decide⟩
  family := ⟨5, by decide⟩
  default := { originating_entity_id := dflt, receiving_entity_id := dflt, acknowledge_flag := dflt, response_flag := dflt, request_id := dflt }
  fieldsLen := AcknowledgePdu.fieldsLen
  prep := id
  serializeBody := AcknowledgePdu.serializeBody
  deserializeBody := AcknowledgePdu.deserializeBody

/-- src/simulation_management.rs:107-125: the fields after the header -/
structure ActionRequestPdu where
  originating_entity_id : EntityId
  receiving_entity_id : EntityId
  request_id : UInt32
  action_id : UInt32
  number_of_fixed_datum_records : UInt32
  number_of_variable_datum_records : UInt32
  fixed_datum_records : List FixedDatumRecord
  variable_datum_records : List VariableDatumRecord
  deriving DecidableEq
/-- src/pdu_macro.rs:283-285 with the fields of src/simulation_management.rs:115-122 -/
def ActionRequestPdu.fieldsLen (self : ActionRequestPdu) : Nat :=
  field_len self.originating_entity_id +
  field_len self.receiving_entity_id +
  field_len self.request_id +
  field_len self.action_id +
  field_len self.number_of_fixed_datum_records +
  field_len self.number_of_variable_datum_records +
  field_len self.fixed_datum_records +
  field_len self.variable_datum_records
/-- src/pdu_macro.rs:319-321 with the fields of src/simulation_management.rs:115-122 -/
def ActionRequestPdu.serializeBody (self : ActionRequestPdu) : Put := do
  serialize_field self.originating_entity_id
  serialize_field self.receiving_entity_id
  serialize_field self.request_id
  serialize_field self.action_id
  serialize_field self.number_of_fixed_datum_records
  serialize_field self.number_of_variable_datum_records
  serialize_field self.fixed_datum_records
  serialize_field self.variable_datum_records
/-- src/pdu_macro.rs:257-272 with the fields of src/simulation_management.rs:115-122 -/
def ActionRequestPdu.deserializeBody : Get ActionRequestPdu := do
  let originating_entity_id ← (deserialize_field : Get EntityId)
  let receiving_entity_id ← (deserialize_field : Get EntityId)
  let request_id ← (deserialize_field : Get UInt32)
  let action_id ← (deserialize_field : Get UInt32)
  let number_of_fixed_datum_records ← (deserialize_field : Get UInt32)
  let number_of_variable_datum_records ← (deserialize_field : Get UInt32)
  let fixed_datum_records ← (deserialize_field : Get (List FixedDatumRecord))
  let variable_datum_records ← (deserialize_field : Get (List VariableDatumRecord))
  return { originating_entity_id, receiving_entity_id, request_id, action_id, number_of_fixed_datum_records, number_of_variable_datum_records, fixed_datum_records, variable_datum_records }
/-- src/simulation_management.rs:107-125 (`PduType::ActionRequest`, `ProtocolFamily::SimulationManagement`) -/
instance : PduBody ActionRequestPdu where
  pduType := ⟨16, by decide⟩
  family := ⟨5, by decide⟩
  default := { originating_entity_id := dflt, receiving_entity_id := dflt, request_id := dflt, action_id := dflt, number_of_fixed_datum_records := dflt, number_of_variable_datum_records := dflt, fixed_datum_records := dflt, variable_datum_records := dflt }
  fieldsLen := ActionRequestPdu.fieldsLen
  prep := id
  serializeBody := ActionRequestPdu.serializeBody
  deserializeBody := ActionRequestPdu.deserializeBody

/-- src/simulation_management.rs:127-145: the fields after the header -/
structure ActionResponsePdu where
  originating_entity_id : EntityId
  receiving_entity_id : EntityId
  request_id : UInt32
  request_status : ActionResponseRequestStatus
  number_of_fixed_datum_records : UInt32
  number_of_variable_datum_records : UInt32
  fixed_datum_records : List FixedDatumRecord
  variable_datum_records : List VariableDatumRecord
  deriving DecidableEq
/-- src/pdu_macro.rs:283-285 with the fields of src/simulation_management.rs:135-142 -/
def ActionResponsePdu.fieldsLen (self : ActionResponsePdu) : Nat :=
  field_len self.originating_entity_id +
  field_len self.receiving_entity_id +
  field_len self.request_id +
  field_len self.request_status +
  field_len self.number_of_fixed_datum_records +
  field_len self.number_of_variable_datum_records +
  field_len self.fixed_datum_records +
  field_len self.variable_datum_records
/-- src/pdu_macro.rs:319-321 with the fields of src/simulation_management.rs:135-142 -/
def ActionResponsePdu.serializeBody (self : ActionResponsePdu) : Put := do
  serialize_field self.originating_entity_id
  serialize_field self.receiving_entity_id
  serialize_field self.request_id
  serialize_field self.request_status
  serialize_field self.number_of_fixed_datum_records
  serialize_field self.number_of_variable_datum_records
  serialize_field self.fixed_datum_records
  serialize_field self.variable_datum_records
/-- src/pdu_macro.rs:257-272 with the fields of src/simulation_management.rs:135-142 -/
def ActionResponsePdu.deserializeBody : Get ActionResponsePdu := do
  let originating_entity_id ← (deserialize_field : Get EntityId)
  let receiving_entity_id ← (deserialize_field : Get EntityId)
  let request_id ← (deserialize_field : Get UInt32)
  let request_status ← (deserialize_field : Get ActionResponseRequestStatus)
  let number_of_fixed_datum_records ← (deserialize_field : Get UInt32)
  let number_of_variable_datum_records ← (deserialize_field : Get UInt32)
  let fixed_datum_records ← (deserialize_field : Get (List FixedDatumRecord))
  let variable_datum_records ← (deserialize_field : Get (List VariableDatumRecord))
  return { originating_entity_id, receiving_entity_id, request_id, request_status, number_of_fixed_datum_records, number_of_variable_datum_records, fixed_datum_records, variable_datum_records }
/-- src/simulation_management.rs:127-145 (`PduType::ActionResponse`, `ProtocolFamily::SimulationManagement`) -/
instance : PduBody ActionResponsePdu where
  pduType := ⟨17, by decide⟩
  family := ⟨5, by decide⟩
  default := { originating_entity_id := dflt, receiving_entity_id := dflt, request_id := dflt, request_status := dflt, number_of_fixed_datum_records := dflt, number_of_variable_datum_records := dflt, fixed_datum_records := dflt, variable_datum_records := dflt }
  fieldsLen := ActionResponsePdu.fieldsLen
  prep := id
  serializeBody := ActionResponsePdu.serializeBody
  deserializeBody := ActionResponsePdu.deserializeBody

/-- src/simulation_management.rs:147-165: the fields after the header -/
structure DataQueryPdu where
  originating_entity_id : EntityId
  receiving_entity_id : EntityId
  request_id : UInt32
  time_interval : UInt32
  number_of_fixed_datum_records : UInt32
  number_of_variable_datum_records : UInt32
  fixed_datum_records : List FixedDatumRecord
  variable_datum_records : List VariableDatumRecord
  deriving DecidableEq
/-- src/pdu_macro.rs:283-285 with the fields of src/simulation_management.rs:155-162 -/
def DataQueryPdu.fieldsLen (self : DataQueryPdu) : Nat :=
  field_len self.originating_entity_id +
  field_len self.receiving_entity_id +
  field_len self.request_id +
  field_len self.time_interval +
  field_len self.number_of_fixed_datum_records +
  field_len self.number_of_variable_datum_records +
  field_len self.fixed_datum_records +
  field_len self.variable_datum_records
/-- src/pdu_macro.rs:319-321 with the fields of src/simulation_management.rs:155-162 -/
def DataQueryPdu.serializeBody (self : DataQueryPdu) : Put := do
  serialize_field self.originating_entity_id
  serialize_field self.receiving_entity_id
  serialize_field self.request_id
  serialize_field self.time_interval
  serialize_field self.number_of_fixed_datum_records
  serialize_field self.number_of_variable_datum_records
  serialize_field self.fixed_datum_records
  serialize_field self.variable_datum_records
/-- src/pdu_macro.rs:257-272 with the fields of src/simulation_management.rs:155-162 -/
def DataQueryPdu.deserializeBody : Get DataQueryPdu := do
  let originating_entity_id ← (deserialize_field : Get EntityId)
  let receiving_entity_id ← (deserialize_field : Get EntityId)
  let request_id ← (deserialize_field : Get UInt32)
  let time_interval ← (deserialize_field : Get UInt32)
  let number_of_fixed_datum_records ← (deserialize_field : Get UInt32)
  let number_of_variable_datum_records ← (deserialize_field : Get UInt32)
  let fixed_datum_records ← (deserialize_field : Get (List FixedDatumRecord))
  let variable_datum_records ← (deserialize_field : Get (List VariableDatumRecord))
  return { originating_entity_id, receiving_entity_id, request_id, time_interval, number_of_fixed_datum_records, number_of_variable_datum_records, fixed_datum_records, variable_datum_records }
/-- src/simulation_management.rs:147-165 (`PduType::DataQuery`, `ProtocolFamily::SimulationManagement`) -/
instance : PduBody DataQueryPdu where
  pduType := ⟨18, by decide⟩
  family := ⟨5, by decide⟩
  default := { originating_entity_id := dflt, receiving_entity_id := dflt, request_id := dflt, time_interval := dflt, number_of_fixed_datum_records := dflt, number_of_variable_datum_records := dflt, fixed_datum_records := dflt, variable_datum_records := dflt }
  fieldsLen := DataQueryPdu.fieldsLen
  prep := id
  serializeBody := DataQueryPdu.serializeBody
  deserializeBody := DataQueryPdu.deserializeBody

/-- src/simulation_management.rs:167-185: the fields after the header -/
structure SetDataPdu where
  originating_entity_id : EntityId
  receiving_entity_id : EntityId
  request_id : UInt32
  padding : UInt32
  number_of_fixed_datum_records : UInt32
  number_of_variable_datum_records : UInt32
  fixed_datum_records : List FixedDatumRecord
  variable_datum_records : List VariableDatumRecord
  deriving DecidableEq
/-- src/pdu_macro.rs:283-285 with the fields of src/simulation_management.rs:175-182 -/
def SetDataPdu.fieldsLen (self : SetDataPdu) : Nat :=
  field_len self.originating_entity_id +
  field_len self.receiving_entity_id +
  field_len self.request_id +
  field_len self.padding +
  field_len self.number_of_fixed_datum_records +
  field_len self.number_of_variable_datum_records +
  field_len self.fixed_datum_records +
  field_len self.variable_datum_records
/-- src/pdu_macro.rs:319-321 with the fields of src/simulation_management.rs:175-182 -/
def SetDataPdu.serializeBody (self : SetDataPdu) : Put := do
  serialize_field self.originating_entity_id
  serialize_field self.receiving_entity_id
  serialize_field self.request_id
  serialize_field self.padding
  serialize_field self.number_of_fixed_datum_records
  serialize_field self.number_of_variable_datum_records
  serialize_field self.fixed_datum_records
  serialize_field self.variable_datum_records
/-- src/pdu_macro.rs:257-272 with the fields of src/simulation_management.rs:175-182 -/
def SetDataPdu.deserializeBody : Get SetDataPdu := do
  let originating_entity_id ← (deserialize_field : Get EntityId)
  let receiving_entity_id ← (deserialize_field : Get EntityId)
  let request_id ← (deserialize_field : Get UInt32)
  let padding ← (deserialize_field : Get UInt32)
  let number_of_fixed_datum_records ← (deserialize_field : Get UInt32)
  let number_of_variable_datum_records ← (deserialize_field : Get UInt32)
  let fixed_datum_records ← (deserialize_field : Get (List FixedDatumRecord))
  let variable_datum_records ← (deserialize_field : Get (List VariableDatumRecord))
  return { originating_entity_id, receiving_entity_id, request_id, padding, number_of_fixed_datum_records, number_of_variable_datum_records, fixed_datum_records, variable_datum_records }
/-- src/simulation_management.rs:167-185 (`PduType::SetData`, `ProtocolFamily::SimulationManagement`) -/
instance : PduBody SetDataPdu where
  pduType := ⟨19, by decide⟩
  family := ⟨5, by decide⟩
  default := { originating_entity_id := dflt, receiving_entity_id := dflt, request_id := dflt, padding := dflt, number_of_fixed_datum_records := dflt, number_of_variable_datum_records := dflt, fixed_datum_records := dflt, variable_datum_records := dflt }
  fieldsLen := SetDataPdu.fieldsLen
  prep := id
  serializeBody := SetDataPdu.serializeBody
  deserializeBody := SetDataPdu.deserializeBody

/-- src/simulation_management.rs:187-205: the fields after the header -/
structure DataPdu where
  originating_entity_id : EntityId
  receiving_entity_id : EntityId
  request_id : UInt32
  padding : UInt32
  number_of_fixed_datum_records : UInt32
  number_of_variable_datum_records : UInt32
  fixed_datum_records : List FixedDatumRecord
  variable_datum_records : List VariableDatumRecord
  deriving DecidableEq
/-- src/pdu_macro.rs:283-285 with the fields of src/simulation_management.rs:195-202 -/
def DataPdu.fieldsLen (self : DataPdu) : Nat :=
  field_len self.originating_entity_id +
  field_len self.receiving_entity_id +
  field_len self.request_id +
  field_len self.padding +
  field_len self.number_of_fixed_datum_records +
  field_len self.number_of_variable_datum_records +
  field_len self.fixed_datum_records +
  field_len self.variable_datum_records
/-- src/pdu_macro.rs:319-321 with the fields of src/simulation_management.rs:195-202 -/
def DataPdu.serializeBody (self : DataPdu) : Put := do
  serialize_field self.originating_entity_id
  serialize_field self.receiving_entity_id
  serialize_field self.request_id
  serialize_field self.padding
  serialize_field self.number_of_fixed_datum_records
  serialize_field self.number_of_variable_datum_records
  serialize_field self.fixed_datum_records
  serialize_field self.variable_datum_records
/-- src/pdu_macro.rs:257-272 with the fields of src/simulation_management.rs:195-202 -/
def DataPdu.deserializeBody : Get DataPdu := do
  let originating_entity_id ← (deserialize_field : Get EntityId)
  let receiving_entity_id ← (deserialize_field : Get EntityId)
  let request_id ← (deserialize_field : Get UInt32)
  let padding ← (deserialize_field : Get UInt32)
  let number_of_fixed_datum_records ← (deserialize_field : Get UInt32)
  let number_of_variable_datum_records ← (deserialize_field : Get UInt32)
  let fixed_datum_records ← (deserialize_field : Get (List FixedDatumRecord))
  let variable_datum_records ← (deserialize_field : Get (List VariableDatumRecord))
  return { originating_entity_id, receiving_entity_id, request_id, padding, number_of_fixed_datum_records, number_of_variable_datum_records, fixed_datum_records, variable_datum_records }
/-- src/simulation_management.rs:187-205 (`PduType::Data`, `ProtocolFamily::SimulationManagement`) -/
instance : PduBody DataPdu where
  pduType := ⟨20, by decide⟩
  family := ⟨5, by decide⟩
  default := { originating_entity_id := dflt, receiving_entity_id := dflt, request_id := dflt, padding := dflt, number_of_fixed_datum_records := dflt, number_of_variable_datum_records := dflt, fixed_datum_records := dflt, variable_datum_records := dflt }
  fieldsLen := DataPdu.fieldsLen
  prep := id
  serializeBody := DataPdu.serializeBody
  deserializeBody := DataPdu.deserializeBody

/-- src/simulation_management.rs:207-225: the fields after the header -/
structure EventReportPdu where
  originating_entity_id : EntityId
  receiving_entity_id : EntityId
  event_type : EventType
  padding : UInt32
  number_of_fixed_datum_records : UInt32
  number_of_variable_datum_records : UInt32
  fixed_datum_records : List FixedDatumRecord
  variable_datum_records : List VariableDatumRecord
  deriving DecidableEq
/-- src/pdu_macro.rs:283-285 with the fields of src/simulation_management.rs:215-222 -/
def EventReportPdu.fieldsLen (self : EventReportPdu) : Nat :=
  field_len self.originating_entity_id +
  field_len self.receiving_entity_id +
  field_len self.event_type +
  field_len self.padding +
  field_len self.number_of_fixed_datum_records +
  field_len self.number_of_variable_datum_records +
  field_len self.fixed_datum_records +
  field_len self.variable_datum_records
/-- src/pdu_macro.rs:319-321 with the fields of src/simulation_management.rs:215-222 -/
def EventReportPdu.serializeBody (self : EventReportPdu) : Put := do
  serialize_field self.originating_entity_id
  serialize_field self.receiving_entity_id
  serialize_field self.event_type
  serialize_field self.padding
  serialize_field self.number_of_fixed_datum_records
  serialize_field self.number_of_variable_datum_records
  serialize_field self.fixed_datum_records
  serialize_field self.variable_datum_records
/-- src/pdu_macro.rs:257-272 with the fields of src/simulation_management.rs:215-222 -/
def EventReportPdu.deserializeBody : Get EventReportPdu := do
  let originating_entity_id ← (deserialize_field : Get EntityId)
  let receiving_entity_id ← (deserialize_field : Get EntityId)
  let event_type ← (deserialize_field : Get EventType)
  let padding ← (deserialize_field : Get UInt32)
  let number_of_fixed_datum_records ← (deserialize_field : Get UInt32)
  let number_of_variable_datum_records ← (deserialize_field : Get UInt32)
  let fixed_datum_records ← (deserialize_field : Get (List FixedDatumRecord))
  let variable_datum_records ← (deserialize_field : Get (List VariableDatumRecord))
  return { originating_entity_id, receiving_entity_id, event_type, padding, number_of_fixed_datum_records, number_of_variable_datum_records, fixed_datum_records, variable_datum_records }
/-- src/simulation_management.rs:207-225 (`PduType::EventReport`, `ProtocolFamily::SimulationManagement`) -/
instance : PduBody EventReportPdu where
  pduType := ⟨21, by decide⟩
  family := ⟨5, by decide⟩
  default := { originating_entity_id := dflt, receiving_entity_id := dflt, event_type := dflt, padding := dflt, number_of_fixed_datum_records := dflt, number_of_variable_datum_records := dflt, fixed_datum_records := dflt, variable_datum_records := dflt }
  fieldsLen := EventReportPdu.fieldsLen
  prep := id
  serializeBody := EventReportPdu.serializeBody
  deserializeBody := EventReportPdu.deserializeBody

/-- src/simulation_management.rs:227-243: the fields after the header -/
structure CommentPdu where
  originating_entity_id : EntityId
  receiving_entity_id : EntityId
  number_of_fixed_datum_records : UInt32
  number_of_variable_datum_records : UInt32
  fixed_datum_records : List FixedDatumRecord
  variable_datum_records : List VariableDatumRecord
  deriving DecidableEq
/-- src/pdu_macro.rs:283-285 with the fields of src/simulation_management.rs:235-240 -/
def CommentPdu.fieldsLen (self : CommentPdu) : Nat :=
  field_len self.originating_entity_id +
  field_len self.receiving_entity_id +
  field_len self.number_of_fixed_datum_records +
  field_len self.number_of_variable_datum_records +
  field_len self.fixed_datum_records +
  field_len self.variable_datum_records
/-- src/pdu_macro.rs:319-321 with the fields of src/simulation_management.rs:235-240 -/
def CommentPdu.serializeBody (self : CommentPdu) : Put := do
  serialize_field self.originating_entity_id
  serialize_field self.receiving_entity_id
  serialize_field self.number_of_fixed_datum_records
  serialize_field self.number_of_variable_datum_records
  serialize_field self.fixed_datum_records
  serialize_field self.variable_datum_records
/-- src/pdu_macro.rs:257-272 with the fields of src/simulation_management.rs:235-240 -/
def CommentPdu.deserializeBody : Get CommentPdu := do
  let originating_entity_id ← (deserialize_field : Get EntityId)
  let receiving_entity_id ← (deserialize_field : Get EntityId)
  let number_of_fixed_datum_records ← (deserialize_field : Get UInt32)
  let number_of_variable_datum_records ← (deserialize_field : Get UInt32)
  let fixed_datum_records ← (deserialize_field : Get (List FixedDatumRecord))
  let variable_datum_records ← (deserialize_field : Get (List VariableDatumRecord))
  return { originating_entity_id, receiving_entity_id, number_of_fixed_datum_records, number_of_variable_datum_records, fixed_datum_records, variable_datum_records }
/-- src/simulation_management.rs:227-243 (`PduType::Comment`, `ProtocolFamily::SimulationManagement`) -/
instance : PduBody CommentPdu where
  pduType := ⟨22, by decide⟩
  family := ⟨5, by decide⟩
  default := { originating_entity_id := dflt, receiving_entity_id := dflt, number_of_fixed_datum_records := dflt, number_of_variable_datum_records := dflt, fixed_datum_records := dflt, variable_datum_records := dflt }
  fieldsLen := CommentPdu.fieldsLen
  prep := id
  serializeBody := CommentPdu.serializeBody
  deserializeBody := CommentPdu.deserializeBody

/-- src/simulation_management_with_reliability.rs:29-45: the fields after the header -/
structure CreateEntityReliablePdu where
  originating_entity_id : EntityId
  receiving_entity_id : EntityId
  required_reliability_service : RequiredReliabilityService
  padding : UInt8
  padding2 : UInt16
  request_id : UInt32
  deriving DecidableEq
/-- src/pdu_macro.rs:283-285 with the fields of src/simulation_management_with_reliability.rs:37-42 -/
def CreateEntityReliablePdu.fieldsLen (self : CreateEntityReliablePdu) : Nat :=
  field_len self.originating_entity_id +
  field_len self.receiving_entity_id +
  field_len self.required_reliability_service +
  field_len self.padding +
  field_len self.padding2 +
  field_len self.request_id
/-- src/pdu_macro.rs:319-321 with the fields of src/simulation_management_with_reliability.rs:37-42 -/
def CreateEntityReliablePdu.serializeBody (self : CreateEntityReliablePdu) : Put := do
  serialize_field self.originating_entity_id
  serialize_field self.receiving_entity_id
  serialize_field self.required_reliability_service
  serialize_field self.padding
  serialize_field self.padding2
  serialize_field self.request_id
/-- src/pdu_macro.rs:257-272 with the fields of src/simulation_management_with_reliability.rs:37-42 -/
def CreateEntityReliablePdu.deserializeBody : Get CreateEntityReliablePdu := do
  let originating_entity_id ← (deserialize_field : Get EntityId)
  let receiving_entity_id ← (deserialize_field : Get EntityId)
  let required_reliability_service ← (deserialize_field : Get RequiredReliabilityService)
  let padding ← (deserialize_field : Get UInt8)
  let padding2 ← (deserialize_field : Get UInt16)
  let request_id ← (deserialize_field : Get UInt32)
  return { originating_entity_id, receiving_entity_id, required_reliability_service, padding, padding2, request_id }
/-- src/simulation_management_with_reliability.rs:29-45 (`PduType::CreateEntityReliable`, `ProtocolFamily::SimulationManagementWithReliability`) -/
instance : PduBody CreateEntityReliablePdu where
  pduType := ⟨51, by decide⟩
  family := ⟨10, by decide⟩
  default := { originating_entity_id := dflt, receiving_entity_id := dflt, required_reliability_service := dflt, padding := dflt, padding2 := dflt, request_id := dflt }
  fieldsLen := CreateEntityReliablePdu.fieldsLen
  prep := id
  serializeBody := CreateEntityReliablePdu.serializeBody
  deserializeBody := CreateEntityReliablePdu.deserializeBody

/-- src/simulation_management_with_reliability.rs:47-63: the fields after the header -/
structure RemoveEntityReliablePdu where
  originating_entity_id : EntityId
  receiving_entity_id : EntityId
  required_reliability_service : RequiredReliabilityService
  padding : UInt8
  padding2 : UInt16
  request_id : UInt32
  deriving DecidableEq
/-- src/pdu_macro.rs:283-285 with the fields of src/simulation_management_with_reliability.rs:55-60 -/
def RemoveEntityReliablePdu.fieldsLen (self : RemoveEntityReliablePdu) : Nat :=
  field_len self.originating_entity_id +
  field_len self.receiving_entity_id +
  field_len self.required_reliability_service +
  field_len self.padding +
  field_len self.padding2 +
  field_len self.request_id
/-- src/pdu_macro.rs:319-321 with the fields of src/simulation_management_with_reliability.rs:55-60 -/
def RemoveEntityReliablePdu.serializeBody (self : RemoveEntityReliablePdu) : Put := do
  serialize_field self.originating_entity_id
  serialize_field self.receiving_entity_id
  serialize_field self.required_reliability_service
  serialize_field self.padding
  serialize_field self.padding2
  serialize_field self.request_id
/-- src/pdu_macro.rs:257-272 with the fields of src/simulation_management_with_reliability.rs:55-60 -/
def RemoveEntityReliablePdu.deserializeBody : Get RemoveEntityReliablePdu := do
  let originating_entity_id ← (deserialize_field : Get EntityId)
  let receiving_entity_id ← (deserialize_field : Get EntityId)
  let required_reliability_service ← (deserialize_field : Get RequiredReliabilityService)
  let padding ← (deserialize_field : Get UInt8)
  let padding2 ← (deserialize_field : Get UInt16)
  let request_id ← (deserialize_field : Get UInt32)
  return { originating_entity_id, receiving_entity_id, required_reliability_service, padding, padding2, request_id }
/-- src/simulation_management_with_reliability.rs:47-63 (`PduType::RemoveEntityReliable`, `ProtocolFamily::SimulationManagementWithReliability`) -/
instance : PduBody RemoveEntityReliablePdu where
  pduType := ⟨52, by decide⟩
  family := ⟨10, by decide⟩
  default := { originating_entity_id := dflt, receiving_entity_id := dflt, required_reliability_service := dflt, padding := dflt, padding2 := dflt, request_id := dflt }
  fieldsLen := RemoveEntityReliablePdu.fieldsLen
  prep := id
  serializeBody := RemoveEntityReliablePdu.serializeBody
  deserializeBody := RemoveEntityReliablePdu.deserializeBody

/-- src/simulation_management_with_reliability.rs:65-83: the fields after the header -/
structure StartResumeReliablePdu where
  originating_entity_id : EntityId
  receiving_entity_id : EntityId
  real_world_time : ClockTime
  simulation_time : ClockTime
  required_reliability_service : RequiredReliabilityService
  padding : UInt8
  padding2 : UInt16
  request_id : UInt32
  deriving DecidableEq
/-- src/pdu_macro.rs:283-285 with the fields of src/simulation_management_with_reliability.rs:73-80 -/
def StartResumeReliablePdu.fieldsLen (self : StartResumeReliablePdu) : Nat :=
  field_len self.originating_entity_id +
  field_len self.receiving_entity_id +
  field_len self.real_world_time +
  field_len self.simulation_time +
  field_len self.required_reliability_service +
  field_len self.padding +
  field_len self.padding2 +
  field_len self.request_id
/-- src/pdu_macro.rs:319-321 with the fields of src/simulation_management_with_reliability.rs:73-80 -/
def StartResumeReliablePdu.serializeBody (self : StartResumeReliablePdu) : Put := do
  serialize_field self.originating_entity_id
  serialize_field self.receiving_entity_id
  serialize_field self.real_world_time
  serialize_field self.simulation_time
  serialize_field self.required_reliability_service
  serialize_field self.padding
  serialize_field self.padding2
  serialize_field self.request_id
/-- src/pdu_macro.rs:257-272 with the fields of src/simulation_management_with_reliability.rs:73-80 -/
def StartResumeReliablePdu.deserializeBody : Get StartResumeReliablePdu := do
  let originating_entity_id ← (deserialize_field : Get EntityId)
  let receiving_entity_id ← (deserialize_field : Get EntityId)
  let real_world_time ← (deserialize_field : Get ClockTime)
  let simulation_time ← (deserialize_field : Get ClockTime)
  let required_reliability_service ← (deserialize_field : Get RequiredReliabilityService)
  let padding ← (deserialize_field : Get UInt8)
  let padding2 ← (deserialize_field : Get UInt16)
  let request_id ← (deserialize_field : Get UInt32)
  return { originating_entity_id, receiving_entity_id, real_world_time, simulation_time, required_reliability_service, padding, padding2, request_id }
/-- src/simulation_management_with_reliability.rs:65-83 (`PduType::StartResumeReliable`, `ProtocolFamily::SimulationManagementWithReliability`) -/
instance : PduBody StartResumeReliablePdu where
  pduType := ⟨53, by decide⟩
  family := ⟨10, by decide⟩
  default := { originating_entity_id := dflt, receiving_entity_id := dflt, real_world_time := dflt, simulation_time := dflt, required_reliability_service := dflt, padding := dflt, padding2 := dflt, request_id := dflt }
  fieldsLen := StartResumeReliablePdu.fieldsLen
  prep := id
  serializeBody := StartResumeReliablePdu.serializeBody
  deserializeBody := StartResumeReliablePdu.deserializeBody

/-- src/simulation_management_with_reliability.rs:85-103: the fields after the header -/
structure StopFreezeReliablePdu where
  originating_entity_id : EntityId
  receiving_entity_id : EntityId
  real_world_time : ClockTime
  reason : Reason
  frozen_behavior : FrozenBehavior
  required_reliability_service : UInt8
  padding : UInt8
  request_id : UInt32
  deriving DecidableEq
/-- src/pdu_macro.rs:283-285 with the fields of src/simulation_management_with_reliability.rs:93-100 -/
def StopFreezeReliablePdu.fieldsLen (self : StopFreezeReliablePdu) : Nat :=
  field_len self.originating_entity_id +
  field_len self.receiving_entity_id +
  field_len self.real_world_time +
  field_len self.reason +
  field_len self.frozen_behavior +
  field_len self.required_reliability_service +
  field_len self.padding +
  field_len self.request_id
/-- src/pdu_macro.rs:319-321 with the fields of src/simulation_management_with_reliability.rs:93-100 -/
def StopFreezeReliablePdu.serializeBody (self : StopFreezeReliablePdu) : Put := do
  serialize_field self.originating_entity_id
  serialize_field self.receiving_entity_id
  serialize_field self.real_world_time
  serialize_field self.reason
  serialize_field self.frozen_behavior
  serialize_field self.required_reliability_service
  serialize_field self.padding
  serialize_field self.request_id
/-- src/pdu_macro.rs:257-272 with the fields of src/simulation_management_with_reliability.rs:93-100 -/
def StopFreezeReliablePdu.deserializeBody : Get StopFreezeReliablePdu := do
  let originating_entity_id ← (deserialize_field : Get EntityId)
  let receiving_entity_id ← (deserialize_field : Get EntityId)
  let real_world_time ← (deserialize_field : Get ClockTime)
  let reason ← (deserialize_field : Get Reason)
  let frozen_behavior ← (deserialize_field : Get FrozenBehavior)
  let required_reliability_service ← (deserialize_field : Get UInt8)
  let padding ← (deserialize_field : Get UInt8)
  let request_id ← (deserialize_field : Get UInt32)
  return { originating_entity_id, receiving_entity_id, real_world_time, reason, frozen_behavior, required_reliability_service, padding, request_id }
/-- src/simulation_management_with_reliability.rs:85-103 (`PduType::StopFreezeReliable`, `ProtocolFamily::SimulationManagementWithReliability`) -/
instance : PduBody StopFreezeReliablePdu where
  pduType := ⟨54, by decide⟩
  family := ⟨10, by decide⟩
  default := { originating_entity_id := dflt, receiving_entity_id := dflt, real_world_time := dflt, reason := dflt, frozen_behavior := dflt, required_reliability_service := dflt, padding := dflt, request_id := dflt }
  fieldsLen := StopFreezeReliablePdu.fieldsLen
  prep := id
  serializeBody := StopFreezeReliablePdu.serializeBody
  deserializeBody := StopFreezeReliablePdu.deserializeBody

/-- src/simulation_management_with_reliability.rs:105-120: the fields after the header -/
structure AcknowledgeReliablePdu where
  originating_entity_id : EntityId
  receiving_entity_id : EntityId
  acknowledge_flag : AcknowledgeFlag
  response_flag : AcknowledgeResponseFlag
  request_id : UInt32
  deriving DecidableEq
/-- src/pdu_macro.rs:283-285 with the fields of src/simulation_management_with_reliability.rs:113-117 -/
def AcknowledgeReliablePdu.fieldsLen (self : AcknowledgeReliablePdu) : Nat :=
  field_len self.originating_entity_id +
  field_len self.receiving_entity_id +
  field_len self.acknowledge_flag +
  field_len self.response_flag +
  field_len self.request_id
/-- src/pdu_macro.rs:319-321 with the fields of src/simulation_management_with_reliability.rs:113-117 -/
def AcknowledgeReliablePdu.serializeBody (self : AcknowledgeReliablePdu) : Put := do
  serialize_field self.originating_entity_id
  serialize_field self.receiving_entity_id
  serialize_field self.acknowledge_flag
  serialize_field self.response_flag
  serialize_field self.request_id
/-- src/pdu_macro.rs:257-272 with the fields of src/simulation_management_with_reliability.rs:113-117 -/
def AcknowledgeReliablePdu.deserializeBody : Get AcknowledgeReliablePdu := do
  let originating_entity_id ← (deserialize_field : Get EntityId)
  let receiving_entity_id ← (deserialize_field : Get EntityId)
  let acknowledge_flag ← (deserialize_field : Get AcknowledgeFlag)
  let response_flag ← (deserialize_field : Get AcknowledgeResponseFlag)
  let request_id ← (deserialize_field : Get UInt32)
  return { originating_entity_id, receiving_entity_id, acknowledge_flag, response_flag, request_id }
/-- src/simulation_management_with_reliability.rs:105-120 (`PduType::AcknowledgeReliable`, `ProtocolFamily::SimulationManagementWithReliability`) -/
instance : PduBody AcknowledgeReliablePdu where
  pduType := ⟨55, by decide⟩
  family := ⟨10, by decide⟩
  default := { originating_entity_id := dflt, receiving_entity_id := dflt, acknowledge_flag := dflt, response_flag := dflt, request_id := dflt }
  fieldsLen := AcknowledgeReliablePdu.fieldsLen
  prep := id
  serializeBody := AcknowledgeReliablePdu.serializeBody
  deserializeBody := AcknowledgeReliablePdu.deserializeBody

/-- src/simulation_management_with_reliability.rs:122-144: the fields after the header -/
structure ActionRequestReliablePdu where
  originating_entity_id : EntityId
  receiving_entity_id : EntityId
  required_reliability_service : RequiredReliabilityService
  padding : UInt8
  padding2 : UInt16
  request_id : UInt32
  action_id : UInt32
  padding3 : UInt32
  number_of_fixed_datum_records : UInt32
  number_of_variable_datum_records : UInt32
  fixed_datum_records : List FixedDatumRecord
  variable_datum_records : List VariableDatumRecord
  deriving DecidableEq
/-- src/pdu_macro.rs:283-285 with the fields of src/simulation_management_with_reliability.rs:130-141 -/
def ActionRequestReliablePdu.fieldsLen (self : ActionRequestReliablePdu) : Nat :=
  field_len self.originating_entity_id +
  field_len self.receiving_entity_id +
  field_len self.required_reliability_service +
  field_len self.padding +
  field_len self.padding2 +
  field_len self.request_id +
  field_len self.action_id +
  field_len self.padding3 +
  field_len self.number_of_fixed_datum_records +
  field_len self.number_of_variable_datum_records +
  field_len self.fixed_datum_records +
  field_len self.variable_datum_records
/-- src/pdu_macro.rs:319-321 with the fields of src/simulation_management_with_reliability.rs:130-141 -/
def ActionRequestReliablePdu.serializeBody (self : ActionRequestReliablePdu) : Put := do
  serialize_field self.originating_entity_id
  serialize_field self.receiving_entity_id
  serialize_field self.required_reliability_service
  serialize_field self.padding
  serialize_field self.padding2
  serialize_field self.request_id
  serialize_field self.action_id
  serialize_field self.padding3
  serialize_field self.number_of_fixed_datum_records
  serialize_field self.number_of_variable_datum_records
  serialize_field self.fixed_datum_records
  serialize_field self.variable_datum_records
/-- src/pdu_macro.rs:257-272 with the fields of src/simulation_management_with_reliability.rs:130-141 -/
def ActionRequestReliablePdu.deserializeBody : Get ActionRequestReliablePdu := do
  let originating_entity_id ← (deserialize_field : Get EntityId)
  let receiving_entity_id ← (deserialize_field : Get EntityId)
  let required_reliability_service ← (deserialize_field : Get RequiredReliabilityService)
  let padding ← (deserialize_field : Get UInt8)
  let padding2 ← (deserialize_field : Get UInt16)
  let request_id ← (deserialize_field : Get UInt32)
  let action_id ← (deserialize_field : Get UInt32)
  let padding3 ← (deserialize_field : Get UInt32)
  let number_of_fixed_datum_records ← (deserialize_field : Get UInt32)
  let number_of_variable_datum_records ← (deserialize_field : Get UInt32)
  let fixed_datum_records ← (deserialize_field : Get (List FixedDatumRecord))
  let variable_datum_records ← (deserialize_field : Get (List VariableDatumRecord))
  return { originating_entity_id, receiving_entity_id, required_reliability_service, padding, padding2, request_id, action_id, padding3, number_of_fixed_datum_records, number_of_variable_datum_records, fixed_datum_records, variable_datum_records }
/-- src/simulation_management_with_reliability.rs:122-144 (`PduType::ActionRequestReliable`, `ProtocolFamily::SimulationManagementWithReliability`) -/
instance : PduBody ActionRequestReliablePdu where
  pduType := ⟨56, by decide⟩
  family := ⟨10, by decide⟩
  default := { originating_entity_id := dflt, receiving_entity_id := dflt, required_reliability_service := dflt, padding := dflt, padding2 := dflt, request_id := dflt, action_id := dflt, padding3 := dflt, number_of_fixed_datum_records := dflt, number_of_variable_datum_records := dflt, fixed_datum_records := dflt, variable_datum_records := dflt }
  fieldsLen := ActionRequestReliablePdu.fieldsLen
  prep := id
  serializeBody := ActionRequestReliablePdu.serializeBody
  deserializeBody := ActionRequestReliablePdu.deserializeBody

/-- src/simulation_management_with_reliability.rs:146-164: the fields after the header -/
structure ActionResponseReliablePdu where
  originating_entity_id : EntityId
  receiving_entity_id : EntityId
  request_id : UInt32
  request_status : ActionResponseRequestStatus
  number_of_fixed_datum_records : UInt32
  number_of_variable_datum_records : UInt32
  fixed_datum_records : List FixedDatumRecord
  variable_datum_records : List VariableDatumRecord
  deriving DecidableEq
/-- src/pdu_macro.rs:283-285 with the fields of src/simulation_management_with_reliability.rs:154-161 -/
def ActionResponseReliablePdu.fieldsLen (self : ActionResponseReliablePdu) : Nat :=
  field_len self.originating_entity_id +
  field_len self.receiving_entity_id +
  field_len self.request_id +
  field_len self.request_status +
  field_len self.number_of_fixed_datum_records +
  field_len self.number_of_variable_datum_records +
  field_len self.fixed_datum_records +
  field_len self.variable_datum_records
/-- src/pdu_macro.rs:319-321 with the fields of src/simulation_management_with_reliability.rs:154-161 -/
def ActionResponseReliablePdu.serializeBody (self : ActionResponseReliablePdu) : Put := do
  serialize_field self.originating_entity_id
  serialize_field self.receiving_entity_id
  serialize_field self.request_id
  serialize_field self.request_status
  serialize_field self.number_of_fixed_datum_records
  serialize_field self.number_of_variable_datum_records
  serialize_field self.fixed_datum_records
  serialize_field self.variable_datum_records
/-- src/pdu_macro.rs:257-272 with the fields of src/simulation_management_with_reliability.rs:154-161 -/
def ActionResponseReliablePdu.deserializeBody : Get ActionResponseReliablePdu := do
  let originating_entity_id ← (deserialize_field : Get EntityId)
  let receiving_entity_id ← (deserialize_field : Get EntityId)
  let request_id ← (deserialize_field : Get UInt32)
  let request_status ← (deserialize_field : Get ActionResponseRequestStatus)
  let number_of_fixed_datum_records ← (deserialize_field : Get UInt32)
  let number_of_variable_datum_records ← (deserialize_field : Get UInt32)
  let fixed_datum_records ← (deserialize_field : Get (List FixedDatumRecord))
  let variable_datum_records ← (deserialize_field : Get (List VariableDatumRecord))
  return { originating_entity_id, receiving_entity_id, request_id, request_status, number_of_fixed_datum_records, number_of_variable_datum_records, fixed_datum_records, variable_datum_records }
/-- src/simulation_management_with_reliability.rs:146-164 (`PduType::ActionResponseReliable`, `ProtocolFamily::SimulationManagementWithReliability`) -/
instance : PduBody ActionResponseReliablePdu where
  pduType := ⟨57, by decide⟩
  family := ⟨10, by decide⟩
  default := { originating_entity_id := dflt, receiving_entity_id := dflt, request_id := dflt, request_status := dflt, number_of_fixed_datum_records := dflt, number_of_variable_datum_records := dflt, fixed_datum_records := dflt, variable_datum_records := dflt }
  fieldsLen := ActionResponseReliablePdu.fieldsLen
  prep := id
  serializeBody := ActionResponseReliablePdu.serializeBody
  deserializeBody := ActionResponseReliablePdu.deserializeBody

end Dis
