import Verif.Model.Pdus3
import Verif.Spec.RecordWire
import Verif.Spec.PduCommon
/-
Generated by tools/gen_pdus.py from the `define_pdu!` field lists of /repo/src: a PDU body's wire image
is the concatenation of its fields' images in declaration order.
-/
set_option maxRecDepth 4000
namespace Dis

/-- the fields of src/simulation_management.rs:54-69 in declaration order -/
instance : Wire StartResumePdu := ⟨fun x =>
  wire x.originating_entity_id ▹ wire x.receiving_entity_id ▹ wire x.real_world_time ▹ wire x.simulation_time ▹ wire x.request_id⟩
instance : Enc StartResumePdu := .exact _
instance : Dec StartResumePdu := .exact _
instance : Tail StartResumePdu := ⟨fun _ => []⟩

/-- the fields of src/simulation_management.rs:71-88 in declaration order -/
instance : Wire StopFreezePdu := ⟨fun x =>
  wire x.originating_entity_id ▹ wire x.receiving_entity_id ▹ wire x.real_world_time ▹ wire x.reason ▹ wire x.frozen_behavior ▹ wire x.padding ▹ wire x.request_id⟩
instance : Enc StopFreezePdu := .exact _
instance : Dec StopFreezePdu :=
  ⟨fun x => decodable x.frozen_behavior, id⟩
instance : Tail StopFreezePdu := ⟨fun _ => []⟩

/-- the fields of src/simulation_management.rs:90-105 in declaration order -/
instance : Wire AcknowledgePdu := ⟨fun x =>
  wire x.originating_entity_id ▹ wire x.receiving_entity_id ▹ wire x.acknowledge_flag ▹ wire x.response_flag ▹ wire x.request_id⟩
instance : Enc AcknowledgePdu := .exact _
instance : Dec AcknowledgePdu := .exact _
instance : Tail AcknowledgePdu := ⟨fun _ => []⟩

/-- the fields of src/simulation_management.rs:107-125 in declaration order -/
instance : Wire ActionRequestPdu := ⟨fun x =>
  wire x.originating_entity_id ▹ wire x.receiving_entity_id ▹ wire x.request_id ▹ wire x.action_id ▹ wire x.number_of_fixed_datum_records ▹ wire x.number_of_variable_datum_records ▹ wire x.fixed_datum_records ▹ wire x.variable_datum_records⟩
instance : Enc ActionRequestPdu :=
  ⟨fun _ => True, fun x => { x with variable_datum_records := sent x.variable_datum_records },
   fun x => surplus x.variable_datum_records⟩
instance : Dec ActionRequestPdu :=
  ⟨fun _ => True, fun x => { x with fixed_datum_records := [], variable_datum_records := [] }⟩
instance : Tail ActionRequestPdu := ⟨fun x => wire x.fixed_datum_records ▹ wire x.variable_datum_records⟩

/-- the fields of src/simulation_management.rs:127-145 in declaration order -/
instance : Wire ActionResponsePdu := ⟨fun x =>
  wire x.originating_entity_id ▹ wire x.receiving_entity_id ▹ wire x.request_id ▹ wire x.request_status ▹ wire x.number_of_fixed_datum_records ▹ wire x.number_of_variable_datum_records ▹ wire x.fixed_datum_records ▹ wire x.variable_datum_records⟩
instance : Enc ActionResponsePdu :=
  ⟨fun _ => True, fun x => { x with variable_datum_records := sent x.variable_datum_records },
   fun x => surplus x.variable_datum_records⟩
instance : Dec ActionResponsePdu :=
  ⟨fun _ => True, fun x => { x with fixed_datum_records := [], variable_datum_records := [] }⟩
instance : Tail ActionResponsePdu := ⟨fun x => wire x.fixed_datum_records ▹ wire x.variable_datum_records⟩

/-- the fields of src/simulation_management.rs:147-165 in declaration order -/
instance : Wire DataQueryPdu := ⟨fun x =>
  wire x.originating_entity_id ▹ wire x.receiving_entity_id ▹ wire x.request_id ▹ wire x.time_interval ▹ wire x.number_of_fixed_datum_records ▹ wire x.number_of_variable_datum_records ▹ wire x.fixed_datum_records ▹ wire x.variable_datum_records⟩
instance : Enc DataQueryPdu :=
  ⟨fun _ => True, fun x => { x with variable_datum_records := sent x.variable_datum_records },
   fun x => surplus x.variable_datum_records⟩
instance : Dec DataQueryPdu :=
  ⟨fun _ => True, fun x => { x with fixed_datum_records := [], variable_datum_records := [] }⟩
instance : Tail DataQueryPdu := ⟨fun x => wire x.fixed_datum_records ▹ wire x.variable_datum_records⟩

/-- the fields of src/simulation_management.rs:167-185 in declaration order -/
instance : Wire SetDataPdu := ⟨fun x =>
  wire x.originating_entity_id ▹ wire x.receiving_entity_id ▹ wire x.request_id ▹ wire x.padding ▹ wire x.number_of_fixed_datum_records ▹ wire x.number_of_variable_datum_records ▹ wire x.fixed_datum_records ▹ wire x.variable_datum_records⟩
instance : Enc SetDataPdu :=
  ⟨fun _ => True, fun x => { x with variable_datum_records := sent x.variable_datum_records },
   fun x => surplus x.variable_datum_records⟩
instance : Dec SetDataPdu :=
  ⟨fun _ => True, fun x => { x with fixed_datum_records := [], variable_datum_records := [] }⟩
instance : Tail SetDataPdu := ⟨fun x => wire x.fixed_datum_records ▹ wire x.variable_datum_records⟩

/-- the fields of src/simulation_management.rs:187-205 in declaration order -/
instance : Wire DataPdu := ⟨fun x =>
  wire x.originating_entity_id ▹ wire x.receiving_entity_id ▹ wire x.request_id ▹ wire x.padding ▹ wire x.number_of_fixed_datum_records ▹ wire x.number_of_variable_datum_records ▹ wire x.fixed_datum_records ▹ wire x.variable_datum_records⟩
instance : Enc DataPdu :=
  ⟨fun _ => True, fun x => { x with variable_datum_records := sent x.variable_datum_records },
   fun x => surplus x.variable_datum_records⟩
instance : Dec DataPdu :=
  ⟨fun _ => True, fun x => { x with fixed_datum_records := [], variable_datum_records := [] }⟩
instance : Tail DataPdu := ⟨fun x => wire x.fixed_datum_records ▹ wire x.variable_datum_records⟩

/-- the fields of src/simulation_management.rs:207-225 in declaration order -/
instance : Wire EventReportPdu := ⟨fun x =>
  wire x.originating_entity_id ▹ wire x.receiving_entity_id ▹ wire x.event_type ▹ wire x.padding ▹ wire x.number_of_fixed_datum_records ▹ wire x.number_of_variable_datum_records ▹ wire x.fixed_datum_records ▹ wire x.variable_datum_records⟩
instance : Enc EventReportPdu :=
  ⟨fun _ => True, fun x => { x with variable_datum_records := sent x.variable_datum_records },
   fun x => surplus x.variable_datum_records⟩
instance : Dec EventReportPdu :=
  ⟨fun _ => True, fun x => { x with fixed_datum_records := [], variable_datum_records := [] }⟩
instance : Tail EventReportPdu := ⟨fun x => wire x.fixed_datum_records ▹ wire x.variable_datum_records⟩

/-- the fields of src/simulation_management.rs:227-243 in declaration order -/
instance : Wire CommentPdu := ⟨fun x =>
  wire x.originating_entity_id ▹ wire x.receiving_entity_id ▹ wire x.number_of_fixed_datum_records ▹ wire x.number_of_variable_datum_records ▹ wire x.fixed_datum_records ▹ wire x.variable_datum_records⟩
instance : Enc CommentPdu :=
  ⟨fun _ => True, fun x => { x with variable_datum_records := sent x.variable_datum_records },
   fun x => surplus x.variable_datum_records⟩
instance : Dec CommentPdu :=
  ⟨fun _ => True, fun x => { x with fixed_datum_records := [], variable_datum_records := [] }⟩
instance : Tail CommentPdu := ⟨fun x => wire x.fixed_datum_records ▹ wire x.variable_datum_records⟩

/-- the fields of src/simulation_management_with_reliability.rs:29-45 in declaration order -/
instance : Wire CreateEntityReliablePdu := ⟨fun x =>
  wire x.originating_entity_id ▹ wire x.receiving_entity_id ▹ wire x.required_reliability_service ▹ wire x.padding ▹ wire x.padding2 ▹ wire x.request_id⟩
instance : Enc CreateEntityReliablePdu := .exact _
instance : Dec CreateEntityReliablePdu := .exact _
instance : Tail CreateEntityReliablePdu := ⟨fun _ => []⟩

/-- the fields of src/simulation_management_with_reliability.rs:47-63 in declaration order -/
instance : Wire RemoveEntityReliablePdu := ⟨fun x =>
  wire x.originating_entity_id ▹ wire x.receiving_entity_id ▹ wire x.required_reliability_service ▹ wire x.padding ▹ wire x.padding2 ▹ wire x.request_id⟩
instance : Enc RemoveEntityReliablePdu := .exact _
instance : Dec RemoveEntityReliablePdu := .exact _
instance : Tail RemoveEntityReliablePdu := ⟨fun _ => []⟩

/-- the fields of src/simulation_management_with_reliability.rs:65-83 in declaration order -/
instance : Wire StartResumeReliablePdu := ⟨fun x =>
  wire x.originating_entity_id ▹ wire x.receiving_entity_id ▹ wire x.real_world_time ▹ wire x.simulation_time ▹ wire x.required_reliability_service ▹ wire x.padding ▹ wire x.padding2 ▹ wire x.request_id⟩
instance : Enc StartResumeReliablePdu := .exact _
instance : Dec StartResumeReliablePdu := .exact _
instance : Tail StartResumeReliablePdu := ⟨fun _ => []⟩

/-- the fields of src/simulation_management_with_reliability.rs:85-103 in declaration order -/
instance : Wire StopFreezeReliablePdu := ⟨fun x =>
  wire x.originating_entity_id ▹ wire x.receiving_entity_id ▹ wire x.real_world_time ▹ wire x.reason ▹ wire x.frozen_behavior ▹ wire x.required_reliability_service ▹ wire x.padding ▹ wire x.request_id⟩
instance : Enc StopFreezeReliablePdu := .exact _
instance : Dec StopFreezeReliablePdu :=
  ⟨fun x => decodable x.frozen_behavior, id⟩
instance : Tail StopFreezeReliablePdu := ⟨fun _ => []⟩

/-- the fields of src/simulation_management_with_reliability.rs:105-120 in declaration order -/
instance : Wire AcknowledgeReliablePdu := ⟨fun x =>
  wire x.originating_entity_id ▹ wire x.receiving_entity_id ▹ wire x.acknowledge_flag ▹ wire x.response_flag ▹ wire x.request_id⟩
instance : Enc AcknowledgeReliablePdu := .exact _
instance : Dec AcknowledgeReliablePdu := .exact _
instance : Tail AcknowledgeReliablePdu := ⟨fun _ => []⟩

/-- the fields of src/simulation_management_with_reliability.rs:122-144 in declaration order -/
instance : Wire ActionRequestReliablePdu := ⟨fun x =>
  wire x.originating_entity_id ▹ wire x.receiving_entity_id ▹ wire x.required_reliability_service ▹ wire x.padding ▹ wire x.padding2 ▹ wire x.request_id ▹ wire x.action_id ▹ wire x.padding3 ▹ wire x.number_of_fixed_datum_records ▹ wire x.number_of_variable_datum_records ▹ wire x.fixed_datum_records ▹ wire x.variable_datum_records⟩
instance : Enc ActionRequestReliablePdu :=
  ⟨fun _ => True, fun x => { x with variable_datum_records := sent x.variable_datum_records },
   fun x => surplus x.variable_datum_records⟩
instance : Dec ActionRequestReliablePdu :=
  ⟨fun _ => True, fun x => { x with fixed_datum_records := [], variable_datum_records := [] }⟩
instance : Tail ActionRequestReliablePdu := ⟨fun x => wire x.fixed_datum_records ▹ wire x.variable_datum_records⟩

/-- the fields of src/simulation_management_with_reliability.rs:146-164 in declaration order -/
instance : Wire ActionResponseReliablePdu := ⟨fun x =>
  wire x.originating_entity_id ▹ wire x.receiving_entity_id ▹ wire x.request_id ▹ wire x.request_status ▹ wire x.number_of_fixed_datum_records ▹ wire x.number_of_variable_datum_records ▹ wire x.fixed_datum_records ▹ wire x.variable_datum_records⟩
instance : Enc ActionResponseReliablePdu :=
  ⟨fun _ => True, fun x => { x with variable_datum_records := sent x.variable_datum_records },
   fun x => surplus x.variable_datum_records⟩
instance : Dec ActionResponseReliablePdu :=
  ⟨fun _ => True, fun x => { x with fixed_datum_records := [], variable_datum_records := [] }⟩
instance : Tail ActionResponseReliablePdu := ⟨fun x => wire x.fixed_datum_records ▹ wire x.variable_datum_records⟩

end Dis
