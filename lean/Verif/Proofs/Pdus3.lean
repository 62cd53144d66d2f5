import Verif.Spec.PduWire3
import Verif.Proofs.Records
/- Generated by tools/gen_pdus.py. -/
set_option linter.unusedSimpArgs false
set_option maxRecDepth 8000
namespace Dis

theorem StartResumePdu.writes (x : StartResumePdu) : Writes x.serializeBody (wire (sent x)) :=
    Writes.seq (writes_exact x.originating_entity_id) <|
    Writes.seq (writes_exact x.receiving_entity_id) <|
    Writes.seq (writes_exact x.real_world_time) <|
    Writes.seq (writes_exact x.simulation_time) <|
    writes_exact x.request_id
theorem StartResumePdu.len (x : StartResumePdu) : ((wire (sent x)).length : Int) = (x.fieldsLen : Nat) + surplus x := by
  show ((wire x.originating_entity_id ++ (wire x.receiving_entity_id ++ (wire x.real_world_time ++ (wire x.simulation_time ++ (wire x.request_id))))).length : Int) = (x.fieldsLen : Nat) + ((0 : Int))
  simp only [List.length_append, StartResumePdu.fieldsLen]
  have h_originating_entity_id := len_exact x.originating_entity_id
  have h_receiving_entity_id := len_exact x.receiving_entity_id
  have h_real_world_time := len_exact x.real_world_time
  have h_simulation_time := len_exact x.simulation_time
  have h_request_id := len_exact x.request_id
  omega
theorem StartResumePdu.appends (x : StartResumePdu) : Appends x.serializeBody :=
    Appends.seq (LawfulEnc.appends x.originating_entity_id) <|
    Appends.seq (LawfulEnc.appends x.receiving_entity_id) <|
    Appends.seq (LawfulEnc.appends x.real_world_time) <|
    Appends.seq (LawfulEnc.appends x.simulation_time) <|
    LawfulEnc.appends x.request_id
theorem StartResumePdu.ifOk (x : StartResumePdu) : WritesIfOk x.serializeBody (wire (sent x)) :=
    (StartResumePdu.writes x).ifOk
theorem StartResumePdu.reads (x : StartResumePdu) : Reads StartResumePdu.deserializeBody (wire (kept x)) (kept x) :=
    Reads.bind (reads_exact x.originating_entity_id) <|
    Reads.bind (reads_exact x.receiving_entity_id) <|
    Reads.bind (reads_exact x.real_world_time) <|
    Reads.bind (reads_exact x.simulation_time) <|
    Reads.last (reads_exact x.request_id) (Reads.ret _)
theorem StartResumePdu.fixed : Fixed StartResumePdu.deserializeBody 32 := Fixed.congr (
    Fixed.bind (FixedDec.fixed) fun _ =>
    Fixed.bind (FixedDec.fixed) fun _ =>
    Fixed.bind (FixedDec.fixed) fun _ =>
    Fixed.bind (FixedDec.fixed) fun _ =>
    Fixed.bind (FixedDec.fixed) fun _ =>
    Fixed.ret _) rfl
theorem StartResumePdu.loc : Local StartResumePdu.deserializeBody :=
    Local.bind (LocalDec.loc) fun _ =>
    Local.bind (LocalDec.loc) fun _ =>
    Local.bind (LocalDec.loc) fun _ =>
    Local.bind (LocalDec.loc) fun _ =>
    Local.bind (LocalDec.loc) fun _ =>
    Local.ret _
theorem StartResumePdu.under : OnlyUnderflow StartResumePdu.deserializeBody :=
    OnlyUnderflow.bind (UnderflowDec.under) fun _ =>
    OnlyUnderflow.bind (UnderflowDec.under) fun _ =>
    OnlyUnderflow.bind (UnderflowDec.under) fun _ =>
    OnlyUnderflow.bind (UnderflowDec.under) fun _ =>
    OnlyUnderflow.bind (UnderflowDec.under) fun _ =>
    OnlyUnderflow.ret _
theorem StartResumePdu.split (x : StartResumePdu) : wire x = wire (kept x) ++ tail x := (List.append_nil _).symm

theorem StopFreezePdu.writes (x : StopFreezePdu) : Writes x.serializeBody (wire (sent x)) :=
    Writes.seq (writes_exact x.originating_entity_id) <|
    Writes.seq (writes_exact x.receiving_entity_id) <|
    Writes.seq (writes_exact x.real_world_time) <|
    Writes.seq (writes_exact x.reason) <|
    Writes.seq (writes_exact x.frozen_behavior) <|
    Writes.seq (writes_exact x.padding) <|
    writes_exact x.request_id
theorem StopFreezePdu.len (x : StopFreezePdu) : ((wire (sent x)).length : Int) = (x.fieldsLen : Nat) + surplus x := by
  show ((wire x.originating_entity_id ++ (wire x.receiving_entity_id ++ (wire x.real_world_time ++ (wire x.reason ++ (wire x.frozen_behavior ++ (wire x.padding ++ (wire x.request_id))))))).length : Int) = (x.fieldsLen : Nat) + ((0 : Int))
  simp only [List.length_append, StopFreezePdu.fieldsLen]
  have h_originating_entity_id := len_exact x.originating_entity_id
  have h_receiving_entity_id := len_exact x.receiving_entity_id
  have h_real_world_time := len_exact x.real_world_time
  have h_reason := len_exact x.reason
  have h_frozen_behavior := len_exact x.frozen_behavior
  have h_padding := len_exact x.padding
  have h_request_id := len_exact x.request_id
  omega
theorem StopFreezePdu.appends (x : StopFreezePdu) : Appends x.serializeBody :=
    Appends.seq (LawfulEnc.appends x.originating_entity_id) <|
    Appends.seq (LawfulEnc.appends x.receiving_entity_id) <|
    Appends.seq (LawfulEnc.appends x.real_world_time) <|
    Appends.seq (LawfulEnc.appends x.reason) <|
    Appends.seq (LawfulEnc.appends x.frozen_behavior) <|
    Appends.seq (LawfulEnc.appends x.padding) <|
    LawfulEnc.appends x.request_id
theorem StopFreezePdu.ifOk (x : StopFreezePdu) : WritesIfOk x.serializeBody (wire (sent x)) :=
    (StopFreezePdu.writes x).ifOk
theorem StopFreezePdu.reads (x : StopFreezePdu) (h : decodable x) : Reads StopFreezePdu.deserializeBody (wire (kept x)) (kept x) :=
    Reads.bind (reads_exact x.originating_entity_id) <|
    Reads.bind (reads_exact x.receiving_entity_id) <|
    Reads.bind (reads_exact x.real_world_time) <|
    Reads.bind (reads_exact x.reason) <|
    Reads.bind (LawfulDec.reads x.frozen_behavior h) <|
    Reads.bind (reads_exact x.padding) <|
    Reads.last (reads_exact x.request_id) (Reads.ret _)
theorem StopFreezePdu.fixed : Fixed StopFreezePdu.deserializeBody 28 := Fixed.congr (
    Fixed.bind (FixedDec.fixed) fun _ =>
    Fixed.bind (FixedDec.fixed) fun _ =>
    Fixed.bind (FixedDec.fixed) fun _ =>
    Fixed.bind (FixedDec.fixed) fun _ =>
    Fixed.bind (FixedDec.fixed) fun _ =>
    Fixed.bind (FixedDec.fixed) fun _ =>
    Fixed.bind (FixedDec.fixed) fun _ =>
    Fixed.ret _) rfl
theorem StopFreezePdu.loc : Local StopFreezePdu.deserializeBody :=
    Local.bind (LocalDec.loc) fun _ =>
    Local.bind (LocalDec.loc) fun _ =>
    Local.bind (LocalDec.loc) fun _ =>
    Local.bind (LocalDec.loc) fun _ =>
    Local.bind (LocalDec.loc) fun _ =>
    Local.bind (LocalDec.loc) fun _ =>
    Local.bind (LocalDec.loc) fun _ =>
    Local.ret _
theorem StopFreezePdu.under : OnlyUnderflow StopFreezePdu.deserializeBody :=
    OnlyUnderflow.bind (UnderflowDec.under) fun _ =>
    OnlyUnderflow.bind (UnderflowDec.under) fun _ =>
    OnlyUnderflow.bind (UnderflowDec.under) fun _ =>
    OnlyUnderflow.bind (UnderflowDec.under) fun _ =>
    OnlyUnderflow.bind (UnderflowDec.under) fun _ =>
    OnlyUnderflow.bind (UnderflowDec.under) fun _ =>
    OnlyUnderflow.bind (UnderflowDec.under) fun _ =>
    OnlyUnderflow.ret _
theorem StopFreezePdu.split (x : StopFreezePdu) : wire x = wire (kept x) ++ tail x := (List.append_nil _).symm

theorem AcknowledgePdu.writes (x : AcknowledgePdu) : Writes x.serializeBody (wire (sent x)) :=
    Writes.seq (writes_exact x.originating_entity_id) <|
    Writes.seq (writes_exact x.receiving_entity_id) <|
    Writes.seq (writes_exact x.acknowledge_flag) <|
    Writes.seq (writes_exact x.response_flag) <|
    writes_exact x.request_id
theorem AcknowledgePdu.len (x : AcknowledgePdu) : ((wire (sent x)).length : Int) = (x.fieldsLen : Nat) + surplus x := by
  show ((wire x.originating_entity_id ++ (wire x.receiving_entity_id ++ (wire x.acknowledge_flag ++ (wire x.response_flag ++ (wire x.request_id))))).length : Int) = (x.fieldsLen : Nat) + ((0 : Int))
  simp only [List.length_append, AcknowledgePdu.fieldsLen]
  have h_originating_entity_id := len_exact x.originating_entity_id
  have h_receiving_entity_id := len_exact x.receiving_entity_id
  have h_acknowledge_flag := len_exact x.acknowledge_flag
  have h_response_flag := len_exact x.response_flag
  have h_request_id := len_exact x.request_id
  omega
theorem AcknowledgePdu.appends (x : AcknowledgePdu) : Appends x.serializeBody :=
    Appends.seq (LawfulEnc.appends x.originating_entity_id) <|
    Appends.seq (LawfulEnc.appends x.receiving_entity_id) <|
    Appends.seq (LawfulEnc.appends x.acknowledge_flag) <|
    Appends.seq (LawfulEnc.appends x.response_flag) <|
    LawfulEnc.appends x.request_id
theorem AcknowledgePdu.ifOk (x : AcknowledgePdu) : WritesIfOk x.serializeBody (wire (sent x)) :=
    (AcknowledgePdu.writes x).ifOk
theorem AcknowledgePdu.reads (x : AcknowledgePdu) : Reads AcknowledgePdu.deserializeBody (wire (kept x)) (kept x) :=
    Reads.bind (reads_exact x.originating_entity_id) <|
    Reads.bind (reads_exact x.receiving_entity_id) <|
    Reads.bind (reads_exact x.acknowledge_flag) <|
    Reads.bind (reads_exact x.response_flag) <|
    Reads.last (reads_exact x.request_id) (Reads.ret _)
theorem AcknowledgePdu.fixed : Fixed AcknowledgePdu.deserializeBody 20 := Fixed.congr (
    Fixed.bind (FixedDec.fixed) fun _ =>
    Fixed.bind (FixedDec.fixed) fun _ =>
    Fixed.bind (FixedDec.fixed) fun _ =>
    Fixed.bind (FixedDec.fixed) fun _ =>
    Fixed.bind (FixedDec.fixed) fun _ =>
    Fixed.ret _) rfl
theorem AcknowledgePdu.loc : Local AcknowledgePdu.deserializeBody :=
    Local.bind (LocalDec.loc) fun _ =>
    Local.bind (LocalDec.loc) fun _ =>
    Local.bind (LocalDec.loc) fun _ =>
    Local.bind (LocalDec.loc) fun _ =>
    Local.bind (LocalDec.loc) fun _ =>
    Local.ret _
theorem AcknowledgePdu.under : OnlyUnderflow AcknowledgePdu.deserializeBody :=
    OnlyUnderflow.bind (UnderflowDec.under) fun _ =>
    OnlyUnderflow.bind (UnderflowDec.under) fun _ =>
    OnlyUnderflow.bind (UnderflowDec.under) fun _ =>
    OnlyUnderflow.bind (UnderflowDec.under) fun _ =>
    OnlyUnderflow.bind (UnderflowDec.under) fun _ =>
    OnlyUnderflow.ret _
theorem AcknowledgePdu.split (x : AcknowledgePdu) : wire x = wire (kept x) ++ tail x := (List.append_nil _).symm

theorem ActionRequestPdu.writes (x : ActionRequestPdu) : Writes x.serializeBody (wire (sent x)) :=
    Writes.seq (writes_exact x.originating_entity_id) <|
    Writes.seq (writes_exact x.receiving_entity_id) <|
    Writes.seq (writes_exact x.request_id) <|
    Writes.seq (writes_exact x.action_id) <|
    Writes.seq (writes_exact x.number_of_fixed_datum_records) <|
    Writes.seq (writes_exact x.number_of_variable_datum_records) <|
    Writes.seq (writes_exact x.fixed_datum_records) <|
    LawfulEnc.writes x.variable_datum_records (fun _ _ => trivial)
theorem ActionRequestPdu.len (x : ActionRequestPdu) : ((wire (sent x)).length : Int) = (x.fieldsLen : Nat) + surplus x := by
  show ((wire x.originating_entity_id ++ (wire x.receiving_entity_id ++ (wire x.request_id ++ (wire x.action_id ++ (wire x.number_of_fixed_datum_records ++ (wire x.number_of_variable_datum_records ++ (wire x.fixed_datum_records ++ (wire (sent x.variable_datum_records))))))))).length : Int) = (x.fieldsLen : Nat) + (surplus x.variable_datum_records)
  simp only [List.length_append, ActionRequestPdu.fieldsLen]
  have h_originating_entity_id := len_exact x.originating_entity_id
  have h_receiving_entity_id := len_exact x.receiving_entity_id
  have h_request_id := len_exact x.request_id
  have h_action_id := len_exact x.action_id
  have h_number_of_fixed_datum_records := len_exact x.number_of_fixed_datum_records
  have h_number_of_variable_datum_records := len_exact x.number_of_variable_datum_records
  have h_fixed_datum_records := len_exact x.fixed_datum_records
  have h_variable_datum_records : ((wire (sent x.variable_datum_records)).length : Int) = field_len x.variable_datum_records + surplus x.variable_datum_records := LawfulEnc.len x.variable_datum_records
  omega
theorem ActionRequestPdu.appends (x : ActionRequestPdu) : Appends x.serializeBody :=
    Appends.seq (LawfulEnc.appends x.originating_entity_id) <|
    Appends.seq (LawfulEnc.appends x.receiving_entity_id) <|
    Appends.seq (LawfulEnc.appends x.request_id) <|
    Appends.seq (LawfulEnc.appends x.action_id) <|
    Appends.seq (LawfulEnc.appends x.number_of_fixed_datum_records) <|
    Appends.seq (LawfulEnc.appends x.number_of_variable_datum_records) <|
    Appends.seq (LawfulEnc.appends x.fixed_datum_records) <|
    LawfulEnc.appends x.variable_datum_records
theorem ActionRequestPdu.ifOk (x : ActionRequestPdu) : WritesIfOk x.serializeBody (wire (sent x)) :=
    (ActionRequestPdu.writes x).ifOk
theorem ActionRequestPdu.reads (x : ActionRequestPdu) : Reads ActionRequestPdu.deserializeBody (wire (kept x)) (kept x) :=
    Reads.bind (reads_exact x.originating_entity_id) <|
    Reads.bind (reads_exact x.receiving_entity_id) <|
    Reads.bind (reads_exact x.request_id) <|
    Reads.bind (reads_exact x.action_id) <|
    Reads.bind (reads_exact x.number_of_fixed_datum_records) <|
    Reads.bind (reads_exact x.number_of_variable_datum_records) <|
    Reads.bind (Reads.ret _) <|
    Reads.last (Reads.ret _) (Reads.ret _)
theorem ActionRequestPdu.fixed : Fixed ActionRequestPdu.deserializeBody 28 := Fixed.congr (
    Fixed.bind (FixedDec.fixed) fun _ =>
    Fixed.bind (FixedDec.fixed) fun _ =>
    Fixed.bind (FixedDec.fixed) fun _ =>
    Fixed.bind (FixedDec.fixed) fun _ =>
    Fixed.bind (FixedDec.fixed) fun _ =>
    Fixed.bind (FixedDec.fixed) fun _ =>
    Fixed.bind (FixedDec.fixed) fun _ =>
    Fixed.bind (FixedDec.fixed) fun _ =>
    Fixed.ret _) rfl
theorem ActionRequestPdu.loc : Local ActionRequestPdu.deserializeBody :=
    Local.bind (LocalDec.loc) fun _ =>
    Local.bind (LocalDec.loc) fun _ =>
    Local.bind (LocalDec.loc) fun _ =>
    Local.bind (LocalDec.loc) fun _ =>
    Local.bind (LocalDec.loc) fun _ =>
    Local.bind (LocalDec.loc) fun _ =>
    Local.bind (LocalDec.loc) fun _ =>
    Local.bind (LocalDec.loc) fun _ =>
    Local.ret _
theorem ActionRequestPdu.under : OnlyUnderflow ActionRequestPdu.deserializeBody :=
    OnlyUnderflow.bind (UnderflowDec.under) fun _ =>
    OnlyUnderflow.bind (UnderflowDec.under) fun _ =>
    OnlyUnderflow.bind (UnderflowDec.under) fun _ =>
    OnlyUnderflow.bind (UnderflowDec.under) fun _ =>
    OnlyUnderflow.bind (UnderflowDec.under) fun _ =>
    OnlyUnderflow.bind (UnderflowDec.under) fun _ =>
    OnlyUnderflow.bind (UnderflowDec.under) fun _ =>
    OnlyUnderflow.bind (UnderflowDec.under) fun _ =>
    OnlyUnderflow.ret _
theorem ActionRequestPdu.split (x : ActionRequestPdu) : wire x = wire (kept x) ++ tail x := by
  show wire x.originating_entity_id ++ (wire x.receiving_entity_id ++ (wire x.request_id ++ (wire x.action_id ++ (wire x.number_of_fixed_datum_records ++ (wire x.number_of_variable_datum_records ++ (wire x.fixed_datum_records ++ (wire x.variable_datum_records)))))))
    = (wire x.originating_entity_id ++ (wire x.receiving_entity_id ++ (wire x.request_id ++ (wire x.action_id ++ (wire x.number_of_fixed_datum_records ++ (wire x.number_of_variable_datum_records ++ ([] ++ ([]))))))))
      ++ (wire x.fixed_datum_records ++ (wire x.variable_datum_records))
  simp only [List.append_assoc, List.append_nil, List.nil_append]

theorem ActionResponsePdu.writes (x : ActionResponsePdu) : Writes x.serializeBody (wire (sent x)) :=
    Writes.seq (writes_exact x.originating_entity_id) <|
    Writes.seq (writes_exact x.receiving_entity_id) <|
    Writes.seq (writes_exact x.request_id) <|
    Writes.seq (writes_exact x.request_status) <|
    Writes.seq (writes_exact x.number_of_fixed_datum_records) <|
    Writes.seq (writes_exact x.number_of_variable_datum_records) <|
    Writes.seq (writes_exact x.fixed_datum_records) <|
    LawfulEnc.writes x.variable_datum_records (fun _ _ => trivial)
theorem ActionResponsePdu.len (x : ActionResponsePdu) : ((wire (sent x)).length : Int) = (x.fieldsLen : Nat) + surplus x := by
  show ((wire x.originating_entity_id ++ (wire x.receiving_entity_id ++ (wire x.request_id ++ (wire x.request_status ++ (wire x.number_of_fixed_datum_records ++ (wire x.number_of_variable_datum_records ++ (wire x.fixed_datum_records ++ (wire (sent x.variable_datum_records))))))))).length : Int) = (x.fieldsLen : Nat) + (surplus x.variable_datum_records)
  simp only [List.length_append, ActionResponsePdu.fieldsLen]
  have h_originating_entity_id := len_exact x.originating_entity_id
  have h_receiving_entity_id := len_exact x.receiving_entity_id
  have h_request_id := len_exact x.request_id
  have h_request_status := len_exact x.request_status
  have h_number_of_fixed_datum_records := len_exact x.number_of_fixed_datum_records
  have h_number_of_variable_datum_records := len_exact x.number_of_variable_datum_records
  have h_fixed_datum_records := len_exact x.fixed_datum_records
  have h_variable_datum_records : ((wire (sent x.variable_datum_records)).length : Int) = field_len x.variable_datum_records + surplus x.variable_datum_records := LawfulEnc.len x.variable_datum_records
  omega
theorem ActionResponsePdu.appends (x : ActionResponsePdu) : Appends x.serializeBody :=
    Appends.seq (LawfulEnc.appends x.originating_entity_id) <|
    Appends.seq (LawfulEnc.appends x.receiving_entity_id) <|
    Appends.seq (LawfulEnc.appends x.request_id) <|
    Appends.seq (LawfulEnc.appends x.request_status) <|
    Appends.seq (LawfulEnc.appends x.number_of_fixed_datum_records) <|
    Appends.seq (LawfulEnc.appends x.number_of_variable_datum_records) <|
    Appends.seq (LawfulEnc.appends x.fixed_datum_records) <|
    LawfulEnc.appends x.variable_datum_records
theorem ActionResponsePdu.ifOk (x : ActionResponsePdu) : WritesIfOk x.serializeBody (wire (sent x)) :=
    (ActionResponsePdu.writes x).ifOk
theorem ActionResponsePdu.reads (x : ActionResponsePdu) : Reads ActionResponsePdu.deserializeBody (wire (kept x)) (kept x) :=
    Reads.bind (reads_exact x.originating_entity_id) <|
    Reads.bind (reads_exact x.receiving_entity_id) <|
    Reads.bind (reads_exact x.request_id) <|
    Reads.bind (reads_exact x.request_status) <|
    Reads.bind (reads_exact x.number_of_fixed_datum_records) <|
    Reads.bind (reads_exact x.number_of_variable_datum_records) <|
    Reads.bind (Reads.ret _) <|
    Reads.last (Reads.ret _) (Reads.ret _)
theorem ActionResponsePdu.fixed : Fixed ActionResponsePdu.deserializeBody 28 := Fixed.congr (
    Fixed.bind (FixedDec.fixed) fun _ =>
    Fixed.bind (FixedDec.fixed) fun _ =>
    Fixed.bind (FixedDec.fixed) fun _ =>
    Fixed.bind (FixedDec.fixed) fun _ =>
    Fixed.bind (FixedDec.fixed) fun _ =>
    Fixed.bind (FixedDec.fixed) fun _ =>
    Fixed.bind (FixedDec.fixed) fun _ =>
    Fixed.bind (FixedDec.fixed) fun _ =>
    Fixed.ret _) rfl
theorem ActionResponsePdu.loc : Local ActionResponsePdu.deserializeBody :=
    Local.bind (LocalDec.loc) fun _ =>
    Local.bind (LocalDec.loc) fun _ =>
    Local.bind (LocalDec.loc) fun _ =>
    Local.bind (LocalDec.loc) fun _ =>
    Local.bind (LocalDec.loc) fun _ =>
    Local.bind (LocalDec.loc) fun _ =>
    Local.bind (LocalDec.loc) fun _ =>
    Local.bind (LocalDec.loc) fun _ =>
    Local.ret _
theorem ActionResponsePdu.under : OnlyUnderflow ActionResponsePdu.deserializeBody :=
    OnlyUnderflow.bind (UnderflowDec.under) fun _ =>
    OnlyUnderflow.bind (UnderflowDec.under) fun _ =>
    OnlyUnderflow.bind (UnderflowDec.under) fun _ =>
    OnlyUnderflow.bind (UnderflowDec.under) fun _ =>
    OnlyUnderflow.bind (UnderflowDec.under) fun _ =>
    OnlyUnderflow.bind (UnderflowDec.under) fun _ =>
    OnlyUnderflow.bind (UnderflowDec.under) fun _ =>
    OnlyUnderflow.bind (UnderflowDec.under) fun _ =>
    OnlyUnderflow.ret _
theorem ActionResponsePdu.split (x : ActionResponsePdu) : wire x = wire (kept x) ++ tail x := by
  show wire x.originating_entity_id ++ (wire x.receiving_entity_id ++ (wire x.request_id ++ (wire x.request_status ++ (wire x.number_of_fixed_datum_records ++ (wire x.number_of_variable_datum_records ++ (wire x.fixed_datum_records ++ (wire x.variable_datum_records)))))))
    = (wire x.originating_entity_id ++ (wire x.receiving_entity_id ++ (wire x.request_id ++ (wire x.request_status ++ (wire x.number_of_fixed_datum_records ++ (wire x.number_of_variable_datum_records ++ ([] ++ ([]))))))))
      ++ (wire x.fixed_datum_records ++ (wire x.variable_datum_records))
  simp only [List.append_assoc, List.append_nil, List.nil_append]

theorem DataQueryPdu.writes (x : DataQueryPdu) : Writes x.serializeBody (wire (sent x)) :=
    Writes.seq (writes_exact x.originating_entity_id) <|
    Writes.seq (writes_exact x.receiving_entity_id) <|
    Writes.seq (writes_exact x.request_id) <|
    Writes.seq (writes_exact x.time_interval) <|
    Writes.seq (writes_exact x.number_of_fixed_datum_records) <|
    Writes.seq (writes_exact x.number_of_variable_datum_records) <|
    Writes.seq (writes_exact x.fixed_datum_records) <|
    LawfulEnc.writes x.variable_datum_records (fun _ _ => trivial)
theorem DataQueryPdu.len (x : DataQueryPdu) : ((wire (sent x)).length : Int) = (x.fieldsLen : Nat) + surplus x := by
  show ((wire x.originating_entity_id ++ (wire x.receiving_entity_id ++ (wire x.request_id ++ (wire x.time_interval ++ (wire x.number_of_fixed_datum_records ++ (wire x.number_of_variable_datum_records ++ (wire x.fixed_datum_records ++ (wire (sent x.variable_datum_records))))))))).length : Int) = (x.fieldsLen : Nat) + (surplus x.variable_datum_records)
  simp only [List.length_append, DataQueryPdu.fieldsLen]
  have h_originating_entity_id := len_exact x.originating_entity_id
  have h_receiving_entity_id := len_exact x.receiving_entity_id
  have h_request_id := len_exact x.request_id
  have h_time_interval := len_exact x.time_interval
  have h_number_of_fixed_datum_records := len_exact x.number_of_fixed_datum_records
  have h_number_of_variable_datum_records := len_exact x.number_of_variable_datum_records
  have h_fixed_datum_records := len_exact x.fixed_datum_records
  have h_variable_datum_records : ((wire (sent x.variable_datum_records)).length : Int) = field_len x.variable_datum_records + surplus x.variable_datum_records := LawfulEnc.len x.variable_datum_records
  omega
theorem DataQueryPdu.appends (x : DataQueryPdu) : Appends x.serializeBody :=
    Appends.seq (LawfulEnc.appends x.originating_entity_id) <|
    Appends.seq (LawfulEnc.appends x.receiving_entity_id) <|
    Appends.seq (LawfulEnc.appends x.request_id) <|
    Appends.seq (LawfulEnc.appends x.time_interval) <|
    Appends.seq (LawfulEnc.appends x.number_of_fixed_datum_records) <|
    Appends.seq (LawfulEnc.appends x.number_of_variable_datum_records) <|
    Appends.seq (LawfulEnc.appends x.fixed_datum_records) <|
    LawfulEnc.appends x.variable_datum_records
theorem DataQueryPdu.ifOk (x : DataQueryPdu) : WritesIfOk x.serializeBody (wire (sent x)) :=
    (DataQueryPdu.writes x).ifOk
theorem DataQueryPdu.reads (x : DataQueryPdu) : Reads DataQueryPdu.deserializeBody (wire (kept x)) (kept x) :=
    Reads.bind (reads_exact x.originating_entity_id) <|
    Reads.bind (reads_exact x.receiving_entity_id) <|
    Reads.bind (reads_exact x.request_id) <|
    Reads.bind (reads_exact x.time_interval) <|
    Reads.bind (reads_exact x.number_of_fixed_datum_records) <|
    Reads.bind (reads_exact x.number_of_variable_datum_records) <|
    Reads.bind (Reads.ret _) <|
    Reads.last (Reads.ret _) (Reads.ret _)
theorem DataQueryPdu.fixed : Fixed DataQueryPdu.deserializeBody 28 := Fixed.congr (
    Fixed.bind (FixedDec.fixed) fun _ =>
    Fixed.bind (FixedDec.fixed) fun _ =>
    Fixed.bind (FixedDec.fixed) fun _ =>
    Fixed.bind (FixedDec.fixed) fun _ =>
    Fixed.bind (FixedDec.fixed) fun _ =>
    Fixed.bind (FixedDec.fixed) fun _ =>
    Fixed.bind (FixedDec.fixed) fun _ =>
    Fixed.bind (FixedDec.fixed) fun _ =>
    Fixed.ret _) rfl
theorem DataQueryPdu.loc : Local DataQueryPdu.deserializeBody :=
    Local.bind (LocalDec.loc) fun _ =>
    Local.bind (LocalDec.loc) fun _ =>
    Local.bind (LocalDec.loc) fun _ =>
    Local.bind (LocalDec.loc) fun _ =>
    Local.bind (LocalDec.loc) fun _ =>
    Local.bind (LocalDec.loc) fun _ =>
    Local.bind (LocalDec.loc) fun _ =>
    Local.bind (LocalDec.loc) fun _ =>
    Local.ret _
theorem DataQueryPdu.under : OnlyUnderflow DataQueryPdu.deserializeBody :=
    OnlyUnderflow.bind (UnderflowDec.under) fun _ =>
    OnlyUnderflow.bind (UnderflowDec.under) fun _ =>
    OnlyUnderflow.bind (UnderflowDec.under) fun _ =>
    OnlyUnderflow.bind (UnderflowDec.under) fun _ =>
    OnlyUnderflow.bind (UnderflowDec.under) fun _ =>
    OnlyUnderflow.bind (UnderflowDec.under) fun _ =>
    OnlyUnderflow.bind (UnderflowDec.under) fun _ =>
    OnlyUnderflow.bind (UnderflowDec.under) fun _ =>
    OnlyUnderflow.ret _
theorem DataQueryPdu.split (x : DataQueryPdu) : wire x = wire (kept x) ++ tail x := by
  show wire x.originating_entity_id ++ (wire x.receiving_entity_id ++ (wire x.request_id ++ (wire x.time_interval ++ (wire x.number_of_fixed_datum_records ++ (wire x.number_of_variable_datum_records ++ (wire x.fixed_datum_records ++ (wire x.variable_datum_records)))))))
    = (wire x.originating_entity_id ++ (wire x.receiving_entity_id ++ (wire x.request_id ++ (wire x.time_interval ++ (wire x.number_of_fixed_datum_records ++ (wire x.number_of_variable_datum_records ++ ([] ++ ([]))))))))
      ++ (wire x.fixed_datum_records ++ (wire x.variable_datum_records))
  simp only [List.append_assoc, List.append_nil, List.nil_append]

theorem SetDataPdu.writes (x : SetDataPdu) : Writes x.serializeBody (wire (sent x)) :=
    Writes.seq (writes_exact x.originating_entity_id) <|
    Writes.seq (writes_exact x.receiving_entity_id) <|
    Writes.seq (writes_exact x.request_id) <|
    Writes.seq (writes_exact x.padding) <|
    Writes.seq (writes_exact x.number_of_fixed_datum_records) <|
    Writes.seq (writes_exact x.number_of_variable_datum_records) <|
    Writes.seq (writes_exact x.fixed_datum_records) <|
    LawfulEnc.writes x.variable_datum_records (fun _ _ => trivial)
theorem SetDataPdu.len (x : SetDataPdu) : ((wire (sent x)).length : Int) = (x.fieldsLen : Nat) + surplus x := by
  show ((wire x.originating_entity_id ++ (wire x.receiving_entity_id ++ (wire x.request_id ++ (wire x.padding ++ (wire x.number_of_fixed_datum_records ++ (wire x.number_of_variable_datum_records ++ (wire x.fixed_datum_records ++ (wire (sent x.variable_datum_records))))))))).length : Int) = (x.fieldsLen : Nat) + (surplus x.variable_datum_records)
  simp only [List.length_append, SetDataPdu.fieldsLen]
  have h_originating_entity_id := len_exact x.originating_entity_id
  have h_receiving_entity_id := len_exact x.receiving_entity_id
  have h_request_id := len_exact x.request_id
  have h_padding := len_exact x.padding
  have h_number_of_fixed_datum_records := len_exact x.number_of_fixed_datum_records
  have h_number_of_variable_datum_records := len_exact x.number_of_variable_datum_records
  have h_fixed_datum_records := len_exact x.fixed_datum_records
  have h_variable_datum_records : ((wire (sent x.variable_datum_records)).length : Int) = field_len x.variable_datum_records + surplus x.variable_datum_records := LawfulEnc.len x.variable_datum_records
  omega
theorem SetDataPdu.appends (x : SetDataPdu) : Appends x.serializeBody :=
    Appends.seq (LawfulEnc.appends x.originating_entity_id) <|
    Appends.seq (LawfulEnc.appends x.receiving_entity_id) <|
    Appends.seq (LawfulEnc.appends x.request_id) <|
    Appends.seq (LawfulEnc.appends x.padding) <|
    Appends.seq (LawfulEnc.appends x.number_of_fixed_datum_records) <|
    Appends.seq (LawfulEnc.appends x.number_of_variable_datum_records) <|
    Appends.seq (LawfulEnc.appends x.fixed_datum_records) <|
    LawfulEnc.appends x.variable_datum_records
theorem SetDataPdu.ifOk (x : SetDataPdu) : WritesIfOk x.serializeBody (wire (sent x)) :=
    (SetDataPdu.writes x).ifOk
theorem SetDataPdu.reads (x : SetDataPdu) : Reads SetDataPdu.deserializeBody (wire (kept x)) (kept x) :=
    Reads.bind (reads_exact x.originating_entity_id) <|
    Reads.bind (reads_exact x.receiving_entity_id) <|
    Reads.bind (reads_exact x.request_id) <|
    Reads.bind (reads_exact x.padding) <|
    Reads.bind (reads_exact x.number_of_fixed_datum_records) <|
    Reads.bind (reads_exact x.number_of_variable_datum_records) <|
    Reads.bind (Reads.ret _) <|
    Reads.last (Reads.ret _) (Reads.ret _)
theorem SetDataPdu.fixed : Fixed SetDataPdu.deserializeBody 28 := Fixed.congr (
    Fixed.bind (FixedDec.fixed) fun _ =>
    Fixed.bind (FixedDec.fixed) fun _ =>
    Fixed.bind (FixedDec.fixed) fun _ =>
    Fixed.bind (FixedDec.fixed) fun _ =>
    Fixed.bind (FixedDec.fixed) fun _ =>
    Fixed.bind (FixedDec.fixed) fun _ =>
    Fixed.bind (FixedDec.fixed) fun _ =>
    Fixed.bind (FixedDec.fixed) fun _ =>
    Fixed.ret _) rfl
theorem SetDataPdu.loc : Local SetDataPdu.deserializeBody :=
    Local.bind (LocalDec.loc) fun _ =>
    Local.bind (LocalDec.loc) fun _ =>
    Local.bind (LocalDec.loc) fun _ =>
    Local.bind (LocalDec.loc) fun _ =>
    Local.bind (LocalDec.loc) fun _ =>
    Local.bind (LocalDec.loc) fun _ =>
    Local.bind (LocalDec.loc) fun _ =>
    Local.bind (LocalDec.loc) fun _ =>
    Local.ret _
theorem SetDataPdu.under : OnlyUnderflow SetDataPdu.deserializeBody :=
    OnlyUnderflow.bind (UnderflowDec.under) fun _ =>
    OnlyUnderflow.bind (UnderflowDec.under) fun _ =>
    OnlyUnderflow.bind (UnderflowDec.under) fun _ =>
    OnlyUnderflow.bind (UnderflowDec.under) fun _ =>
    OnlyUnderflow.bind (UnderflowDec.under) fun _ =>
    OnlyUnderflow.bind (UnderflowDec.under) fun _ =>
    OnlyUnderflow.bind (UnderflowDec.under) fun _ =>
    OnlyUnderflow.bind (UnderflowDec.under) fun _ =>
    OnlyUnderflow.ret _
theorem SetDataPdu.split (x : SetDataPdu) : wire x = wire (kept x) ++ tail x := by
  show wire x.originating_entity_id ++ (wire x.receiving_entity_id ++ (wire x.request_id ++ (wire x.padding ++ (wire x.number_of_fixed_datum_records ++ (wire x.number_of_variable_datum_records ++ (wire x.fixed_datum_records ++ (wire x.variable_datum_records)))))))
    = (wire x.originating_entity_id ++ (wire x.receiving_entity_id ++ (wire x.request_id ++ (wire x.padding ++ (wire x.number_of_fixed_datum_records ++ (wire x.number_of_variable_datum_records ++ ([] ++ ([]))))))))
      ++ (wire x.fixed_datum_records ++ (wire x.variable_datum_records))
  simp only [List.append_assoc, List.append_nil, List.nil_append]

theorem DataPdu.writes (x : DataPdu) : Writes x.serializeBody (wire (sent x)) :=
    Writes.seq (writes_exact x.originating_entity_id) <|
    Writes.seq (writes_exact x.receiving_entity_id) <|
    Writes.seq (writes_exact x.request_id) <|
    Writes.seq (writes_exact x.padding) <|
    Writes.seq (writes_exact x.number_of_fixed_datum_records) <|
    Writes.seq (writes_exact x.number_of_variable_datum_records) <|
    Writes.seq (writes_exact x.fixed_datum_records) <|
    LawfulEnc.writes x.variable_datum_records (fun _ _ => trivial)
theorem DataPdu.len (x : DataPdu) : ((wire (sent x)).length : Int) = (x.fieldsLen : Nat) + surplus x := by
  show ((wire x.originating_entity_id ++ (wire x.receiving_entity_id ++ (wire x.request_id ++ (wire x.padding ++ (wire x.number_of_fixed_datum_records ++ (wire x.number_of_variable_datum_records ++ (wire x.fixed_datum_records ++ (wire (sent x.variable_datum_records))))))))).length : Int) = (x.fieldsLen : Nat) + (surplus x.variable_datum_records)
  simp only [List.length_append, DataPdu.fieldsLen]
  have h_originating_entity_id := len_exact x.originating_entity_id
  have h_receiving_entity_id := len_exact x.receiving_entity_id
  have h_request_id := len_exact x.request_id
  have h_padding := len_exact x.padding
  have h_number_of_fixed_datum_records := len_exact x.number_of_fixed_datum_records
  have h_number_of_variable_datum_records := len_exact x.number_of_variable_datum_records
  have h_fixed_datum_records := len_exact x.fixed_datum_records
  have h_variable_datum_records : ((wire (sent x.variable_datum_records)).length : Int) = field_len x.variable_datum_records + surplus x.variable_datum_records := LawfulEnc.len x.variable_datum_records
  omega
theorem DataPdu.appends (x : DataPdu) : Appends x.serializeBody :=
    Appends.seq (LawfulEnc.appends x.originating_entity_id) <|
    Appends.seq (LawfulEnc.appends x.receiving_entity_id) <|
    Appends.seq (LawfulEnc.appends x.request_id) <|
    Appends.seq (LawfulEnc.appends x.padding) <|
    Appends.seq (LawfulEnc.appends x.number_of_fixed_datum_records) <|
    Appends.seq (LawfulEnc.appends x.number_of_variable_datum_records) <|
    Appends.seq (LawfulEnc.appends x.fixed_datum_records) <|
    LawfulEnc.appends x.variable_datum_records
theorem DataPdu.ifOk (x : DataPdu) : WritesIfOk x.serializeBody (wire (sent x)) :=
    (DataPdu.writes x).ifOk
theorem DataPdu.reads (x : DataPdu) : Reads DataPdu.deserializeBody (wire (kept x)) (kept x) :=
    Reads.bind (reads_exact x.originating_entity_id) <|
    Reads.bind (reads_exact x.receiving_entity_id) <|
    Reads.bind (reads_exact x.request_id) <|
    Reads.bind (reads_exact x.padding) <|
    Reads.bind (reads_exact x.number_of_fixed_datum_records) <|
    Reads.bind (reads_exact x.number_of_variable_datum_records) <|
    Reads.bind (Reads.ret _) <|
    Reads.last (Reads.ret _) (Reads.ret _)
theorem DataPdu.fixed : Fixed DataPdu.deserializeBody 28 := Fixed.congr (
    Fixed.bind (FixedDec.fixed) fun _ =>
    Fixed.bind (FixedDec.fixed) fun _ =>
    Fixed.bind (FixedDec.fixed) fun _ =>
    Fixed.bind (FixedDec.fixed) fun _ =>
    Fixed.bind (FixedDec.fixed) fun _ =>
    Fixed.bind (FixedDec.fixed) fun _ =>
    Fixed.bind (FixedDec.fixed) fun _ =>
    Fixed.bind (FixedDec.fixed) fun _ =>
    Fixed.ret _) rfl
theorem DataPdu.loc : Local DataPdu.deserializeBody :=
    Local.bind (LocalDec.loc) fun _ =>
    Local.bind (LocalDec.loc) fun _ =>
    Local.bind (LocalDec.loc) fun _ =>
    Local.bind (LocalDec.loc) fun _ =>
    Local.bind (LocalDec.loc) fun _ =>
    Local.bind (LocalDec.loc) fun _ =>
    Local.bind (LocalDec.loc) fun _ =>
    Local.bind (LocalDec.loc) fun _ =>
    Local.ret _
theorem DataPdu.under : OnlyUnderflow DataPdu.deserializeBody :=
    OnlyUnderflow.bind (UnderflowDec.under) fun _ =>
    OnlyUnderflow.bind (UnderflowDec.under) fun _ =>
    OnlyUnderflow.bind (UnderflowDec.under) fun _ =>
    OnlyUnderflow.bind (UnderflowDec.under) fun _ =>
    OnlyUnderflow.bind (UnderflowDec.under) fun _ =>
    OnlyUnderflow.bind (UnderflowDec.under) fun _ =>
    OnlyUnderflow.bind (UnderflowDec.under) fun _ =>
    OnlyUnderflow.bind (UnderflowDec.under) fun _ =>
    OnlyUnderflow.ret _
theorem DataPdu.split (x : DataPdu) : wire x = wire (kept x) ++ tail x := by
  show wire x.originating_entity_id ++ (wire x.receiving_entity_id ++ (wire x.request_id ++ (wire x.padding ++ (wire x.number_of_fixed_datum_records ++ (wire x.number_of_variable_datum_records ++ (wire x.fixed_datum_records ++ (wire x.variable_datum_records)))))))
    = (wire x.originating_entity_id ++ (wire x.receiving_entity_id ++ (wire x.request_id ++ (wire x.padding ++ (wire x.number_of_fixed_datum_records ++ (wire x.number_of_variable_datum_records ++ ([] ++ ([]))))))))
      ++ (wire x.fixed_datum_records ++ (wire x.variable_datum_records))
  simp only [List.append_assoc, List.append_nil, List.nil_append]

theorem EventReportPdu.writes (x : EventReportPdu) : Writes x.serializeBody (wire (sent x)) :=
    Writes.seq (writes_exact x.originating_entity_id) <|
    Writes.seq (writes_exact x.receiving_entity_id) <|
    Writes.seq (writes_exact x.event_type) <|
    Writes.seq (writes_exact x.padding) <|
    Writes.seq (writes_exact x.number_of_fixed_datum_records) <|
    Writes.seq (writes_exact x.number_of_variable_datum_records) <|
    Writes.seq (writes_exact x.fixed_datum_records) <|
    LawfulEnc.writes x.variable_datum_records (fun _ _ => trivial)
theorem EventReportPdu.len (x : EventReportPdu) : ((wire (sent x)).length : Int) = (x.fieldsLen : Nat) + surplus x := by
  show ((wire x.originating_entity_id ++ (wire x.receiving_entity_id ++ (wire x.event_type ++ (wire x.padding ++ (wire x.number_of_fixed_datum_records ++ (wire x.number_of_variable_datum_records ++ (wire x.fixed_datum_records ++ (wire (sent x.variable_datum_records))))))))).length : Int) = (x.fieldsLen : Nat) + (surplus x.variable_datum_records)
  simp only [List.length_append, EventReportPdu.fieldsLen]
  have h_originating_entity_id := len_exact x.originating_entity_id
  have h_receiving_entity_id := len_exact x.receiving_entity_id
  have h_event_type := len_exact x.event_type
  have h_padding := len_exact x.padding
  have h_number_of_fixed_datum_records := len_exact x.number_of_fixed_datum_records
  have h_number_of_variable_datum_records := len_exact x.number_of_variable_datum_records
  have h_fixed_datum_records := len_exact x.fixed_datum_records
  have h_variable_datum_records : ((wire (sent x.variable_datum_records)).length : Int) = field_len x.variable_datum_records + surplus x.variable_datum_records := LawfulEnc.len x.variable_datum_records
  omega
theorem EventReportPdu.appends (x : EventReportPdu) : Appends x.serializeBody :=
    Appends.seq (LawfulEnc.appends x.originating_entity_id) <|
    Appends.seq (LawfulEnc.appends x.receiving_entity_id) <|
    Appends.seq (LawfulEnc.appends x.event_type) <|
    Appends.seq (LawfulEnc.appends x.padding) <|
    Appends.seq (LawfulEnc.appends x.number_of_fixed_datum_records) <|
    Appends.seq (LawfulEnc.appends x.number_of_variable_datum_records) <|
    Appends.seq (LawfulEnc.appends x.fixed_datum_records) <|
    LawfulEnc.appends x.variable_datum_records
theorem EventReportPdu.ifOk (x : EventReportPdu) : WritesIfOk x.serializeBody (wire (sent x)) :=
    (EventReportPdu.writes x).ifOk
theorem EventReportPdu.reads (x : EventReportPdu) : Reads EventReportPdu.deserializeBody (wire (kept x)) (kept x) :=
    Reads.bind (reads_exact x.originating_entity_id) <|
    Reads.bind (reads_exact x.receiving_entity_id) <|
    Reads.bind (reads_exact x.event_type) <|
    Reads.bind (reads_exact x.padding) <|
    Reads.bind (reads_exact x.number_of_fixed_datum_records) <|
    Reads.bind (reads_exact x.number_of_variable_datum_records) <|
    Reads.bind (Reads.ret _) <|
    Reads.last (Reads.ret _) (Reads.ret _)
theorem EventReportPdu.fixed : Fixed EventReportPdu.deserializeBody 28 := Fixed.congr (
    Fixed.bind (FixedDec.fixed) fun _ =>
    Fixed.bind (FixedDec.fixed) fun _ =>
    Fixed.bind (FixedDec.fixed) fun _ =>
    Fixed.bind (FixedDec.fixed) fun _ =>
    Fixed.bind (FixedDec.fixed) fun _ =>
    Fixed.bind (FixedDec.fixed) fun _ =>
    Fixed.bind (FixedDec.fixed) fun _ =>
    Fixed.bind (FixedDec.fixed) fun _ =>
    Fixed.ret _) rfl
theorem EventReportPdu.loc : Local EventReportPdu.deserializeBody :=
    Local.bind (LocalDec.loc) fun _ =>
    Local.bind (LocalDec.loc) fun _ =>
    Local.bind (LocalDec.loc) fun _ =>
    Local.bind (LocalDec.loc) fun _ =>
    Local.bind (LocalDec.loc) fun _ =>
    Local.bind (LocalDec.loc) fun _ =>
    Local.bind (LocalDec.loc) fun _ =>
    Local.bind (LocalDec.loc) fun _ =>
    Local.ret _
theorem EventReportPdu.under : OnlyUnderflow EventReportPdu.deserializeBody :=
    OnlyUnderflow.bind (UnderflowDec.under) fun _ =>
    OnlyUnderflow.bind (UnderflowDec.under) fun _ =>
    OnlyUnderflow.bind (UnderflowDec.under) fun _ =>
    OnlyUnderflow.bind (UnderflowDec.under) fun _ =>
    OnlyUnderflow.bind (UnderflowDec.under) fun _ =>
    OnlyUnderflow.bind (UnderflowDec.under) fun _ =>
    OnlyUnderflow.bind (UnderflowDec.under) fun _ =>
    OnlyUnderflow.bind (UnderflowDec.under) fun _ =>
    OnlyUnderflow.ret _
theorem EventReportPdu.split (x : EventReportPdu) : wire x = wire (kept x) ++ tail x := by
  show wire x.originating_entity_id ++ (wire x.receiving_entity_id ++ (wire x.event_type ++ (wire x.padding ++ (wire x.number_of_fixed_datum_records ++ (wire x.number_of_variable_datum_records ++ (wire x.fixed_datum_records ++ (wire x.variable_datum_records)))))))
    = (wire x.originating_entity_id ++ (wire x.receiving_entity_id ++ (wire x.event_type ++ (wire x.padding ++ (wire x.number_of_fixed_datum_records ++ (wire x.number_of_variable_datum_records ++ ([] ++ ([]))))))))
      ++ (wire x.fixed_datum_records ++ (wire x.variable_datum_records))
  simp only [List.append_assoc, List.append_nil, List.nil_append]

theorem CommentPdu.writes (x : CommentPdu) : Writes x.serializeBody (wire (sent x)) :=
    Writes.seq (writes_exact x.originating_entity_id) <|
    Writes.seq (writes_exact x.receiving_entity_id) <|
    Writes.seq (writes_exact x.number_of_fixed_datum_records) <|
    Writes.seq (writes_exact x.number_of_variable_datum_records) <|
    Writes.seq (writes_exact x.fixed_datum_records) <|
    LawfulEnc.writes x.variable_datum_records (fun _ _ => trivial)
theorem CommentPdu.len (x : CommentPdu) : ((wire (sent x)).length : Int) = (x.fieldsLen : Nat) + surplus x := by
  show ((wire x.originating_entity_id ++ (wire x.receiving_entity_id ++ (wire x.number_of_fixed_datum_records ++ (wire x.number_of_variable_datum_records ++ (wire x.fixed_datum_records ++ (wire (sent x.variable_datum_records))))))).length : Int) = (x.fieldsLen : Nat) + (surplus x.variable_datum_records)
  simp only [List.length_append, CommentPdu.fieldsLen]
  have h_originating_entity_id := len_exact x.originating_entity_id
  have h_receiving_entity_id := len_exact x.receiving_entity_id
  have h_number_of_fixed_datum_records := len_exact x.number_of_fixed_datum_records
  have h_number_of_variable_datum_records := len_exact x.number_of_variable_datum_records
  have h_fixed_datum_records := len_exact x.fixed_datum_records
  have h_variable_datum_records : ((wire (sent x.variable_datum_records)).length : Int) = field_len x.variable_datum_records + surplus x.variable_datum_records := LawfulEnc.len x.variable_datum_records
  omega
theorem CommentPdu.appends (x : CommentPdu) : Appends x.serializeBody :=
    Appends.seq (LawfulEnc.appends x.originating_entity_id) <|
    Appends.seq (LawfulEnc.appends x.receiving_entity_id) <|
    Appends.seq (LawfulEnc.appends x.number_of_fixed_datum_records) <|
    Appends.seq (LawfulEnc.appends x.number_of_variable_datum_records) <|
    Appends.seq (LawfulEnc.appends x.fixed_datum_records) <|
    LawfulEnc.appends x.variable_datum_records
theorem CommentPdu.ifOk (x : CommentPdu) : WritesIfOk x.serializeBody (wire (sent x)) :=
    (CommentPdu.writes x).ifOk
theorem CommentPdu.reads (x : CommentPdu) : Reads CommentPdu.deserializeBody (wire (kept x)) (kept x) :=
    Reads.bind (reads_exact x.originating_entity_id) <|
    Reads.bind (reads_exact x.receiving_entity_id) <|
    Reads.bind (reads_exact x.number_of_fixed_datum_records) <|
    Reads.bind (reads_exact x.number_of_variable_datum_records) <|
    Reads.bind (Reads.ret _) <|
    Reads.last (Reads.ret _) (Reads.ret _)
theorem CommentPdu.fixed : Fixed CommentPdu.deserializeBody 20 := Fixed.congr (
    Fixed.bind (FixedDec.fixed) fun _ =>
    Fixed.bind (FixedDec.fixed) fun _ =>
    Fixed.bind (FixedDec.fixed) fun _ =>
    Fixed.bind (FixedDec.fixed) fun _ =>
    Fixed.bind (FixedDec.fixed) fun _ =>
    Fixed.bind (FixedDec.fixed) fun _ =>
    Fixed.ret _) rfl
theorem CommentPdu.loc : Local CommentPdu.deserializeBody :=
    Local.bind (LocalDec.loc) fun _ =>
    Local.bind (LocalDec.loc) fun _ =>
    Local.bind (LocalDec.loc) fun _ =>
    Local.bind (LocalDec.loc) fun _ =>
    Local.bind (LocalDec.loc) fun _ =>
    Local.bind (LocalDec.loc) fun _ =>
    Local.ret _
theorem CommentPdu.under : OnlyUnderflow CommentPdu.deserializeBody :=
    OnlyUnderflow.bind (UnderflowDec.under) fun _ =>
    OnlyUnderflow.bind (UnderflowDec.under) fun _ =>
    OnlyUnderflow.bind (UnderflowDec.under) fun _ =>
    OnlyUnderflow.bind (UnderflowDec.under) fun _ =>
    OnlyUnderflow.bind (UnderflowDec.under) fun _ =>
    OnlyUnderflow.bind (UnderflowDec.under) fun _ =>
    OnlyUnderflow.ret _
theorem CommentPdu.split (x : CommentPdu) : wire x = wire (kept x) ++ tail x := by
  show wire x.originating_entity_id ++ (wire x.receiving_entity_id ++ (wire x.number_of_fixed_datum_records ++ (wire x.number_of_variable_datum_records ++ (wire x.fixed_datum_records ++ (wire x.variable_datum_records)))))
    = (wire x.originating_entity_id ++ (wire x.receiving_entity_id ++ (wire x.number_of_fixed_datum_records ++ (wire x.number_of_variable_datum_records ++ ([] ++ ([]))))))
      ++ (wire x.fixed_datum_records ++ (wire x.variable_datum_records))
  simp only [List.append_assoc, List.append_nil, List.nil_append]

theorem CreateEntityReliablePdu.writes (x : CreateEntityReliablePdu) : Writes x.serializeBody (wire (sent x)) :=
    Writes.seq (writes_exact x.originating_entity_id) <|
    Writes.seq (writes_exact x.receiving_entity_id) <|
    Writes.seq (writes_exact x.required_reliability_service) <|
    Writes.seq (writes_exact x.padding) <|
    Writes.seq (writes_exact x.padding2) <|
    writes_exact x.request_id
theorem CreateEntityReliablePdu.len (x : CreateEntityReliablePdu) : ((wire (sent x)).length : Int) = (x.fieldsLen : Nat) + surplus x := by
  show ((wire x.originating_entity_id ++ (wire x.receiving_entity_id ++ (wire x.required_reliability_service ++ (wire x.padding ++ (wire x.padding2 ++ (wire x.request_id)))))).length : Int) = (x.fieldsLen : Nat) + ((0 : Int))
  simp only [List.length_append, CreateEntityReliablePdu.fieldsLen]
  have h_originating_entity_id := len_exact x.originating_entity_id
  have h_receiving_entity_id := len_exact x.receiving_entity_id
  have h_required_reliability_service := len_exact x.required_reliability_service
  have h_padding := len_exact x.padding
  have h_padding2 := len_exact x.padding2
  have h_request_id := len_exact x.request_id
  omega
theorem CreateEntityReliablePdu.appends (x : CreateEntityReliablePdu) : Appends x.serializeBody :=
    Appends.seq (LawfulEnc.appends x.originating_entity_id) <|
    Appends.seq (LawfulEnc.appends x.receiving_entity_id) <|
    Appends.seq (LawfulEnc.appends x.required_reliability_service) <|
    Appends.seq (LawfulEnc.appends x.padding) <|
    Appends.seq (LawfulEnc.appends x.padding2) <|
    LawfulEnc.appends x.request_id
theorem CreateEntityReliablePdu.ifOk (x : CreateEntityReliablePdu) : WritesIfOk x.serializeBody (wire (sent x)) :=
    (CreateEntityReliablePdu.writes x).ifOk
theorem CreateEntityReliablePdu.reads (x : CreateEntityReliablePdu) : Reads CreateEntityReliablePdu.deserializeBody (wire (kept x)) (kept x) :=
    Reads.bind (reads_exact x.originating_entity_id) <|
    Reads.bind (reads_exact x.receiving_entity_id) <|
    Reads.bind (reads_exact x.required_reliability_service) <|
    Reads.bind (reads_exact x.padding) <|
    Reads.bind (reads_exact x.padding2) <|
    Reads.last (reads_exact x.request_id) (Reads.ret _)
theorem CreateEntityReliablePdu.fixed : Fixed CreateEntityReliablePdu.deserializeBody 20 := Fixed.congr (
    Fixed.bind (FixedDec.fixed) fun _ =>
    Fixed.bind (FixedDec.fixed) fun _ =>
    Fixed.bind (FixedDec.fixed) fun _ =>
    Fixed.bind (FixedDec.fixed) fun _ =>
    Fixed.bind (FixedDec.fixed) fun _ =>
    Fixed.bind (FixedDec.fixed) fun _ =>
    Fixed.ret _) rfl
theorem CreateEntityReliablePdu.loc : Local CreateEntityReliablePdu.deserializeBody :=
    Local.bind (LocalDec.loc) fun _ =>
    Local.bind (LocalDec.loc) fun _ =>
    Local.bind (LocalDec.loc) fun _ =>
    Local.bind (LocalDec.loc) fun _ =>
    Local.bind (LocalDec.loc) fun _ =>
    Local.bind (LocalDec.loc) fun _ =>
    Local.ret _
theorem CreateEntityReliablePdu.under : OnlyUnderflow CreateEntityReliablePdu.deserializeBody :=
    OnlyUnderflow.bind (UnderflowDec.under) fun _ =>
    OnlyUnderflow.bind (UnderflowDec.under) fun _ =>
    OnlyUnderflow.bind (UnderflowDec.under) fun _ =>
    OnlyUnderflow.bind (UnderflowDec.under) fun _ =>
    OnlyUnderflow.bind (UnderflowDec.under) fun _ =>
    OnlyUnderflow.bind (UnderflowDec.under) fun _ =>
    OnlyUnderflow.ret _
theorem CreateEntityReliablePdu.split (x : CreateEntityReliablePdu) : wire x = wire (kept x) ++ tail x := (List.append_nil _).symm

theorem RemoveEntityReliablePdu.writes (x : RemoveEntityReliablePdu) : Writes x.serializeBody (wire (sent x)) :=
    Writes.seq (writes_exact x.originating_entity_id) <|
    Writes.seq (writes_exact x.receiving_entity_id) <|
    Writes.seq (writes_exact x.required_reliability_service) <|
    Writes.seq (writes_exact x.padding) <|
    Writes.seq (writes_exact x.padding2) <|
    writes_exact x.request_id
theorem RemoveEntityReliablePdu.len (x : RemoveEntityReliablePdu) : ((wire (sent x)).length : Int) = (x.fieldsLen : Nat) + surplus x := by
  show ((wire x.originating_entity_id ++ (wire x.receiving_entity_id ++ (wire x.required_reliability_service ++ (wire x.padding ++ (wire x.padding2 ++ (wire x.request_id)))))).length : Int) = (x.fieldsLen : Nat) + ((0 : Int))
  simp only [List.length_append, RemoveEntityReliablePdu.fieldsLen]
  have h_originating_entity_id := len_exact x.originating_entity_id
  have h_receiving_entity_id := len_exact x.receiving_entity_id
  have h_required_reliability_service := len_exact x.required_reliability_service
  have h_padding := len_exact x.padding
  have h_padding2 := len_exact x.padding2
  have h_request_id := len_exact x.request_id
  omega
theorem RemoveEntityReliablePdu.appends (x : RemoveEntityReliablePdu) : Appends x.serializeBody :=
    Appends.seq (LawfulEnc.appends x.originating_entity_id) <|
    Appends.seq (LawfulEnc.appends x.receiving_entity_id) <|
    Appends.seq (LawfulEnc.appends x.required_reliability_service) <|
    Appends.seq (LawfulEnc.appends x.padding) <|
    Appends.seq (LawfulEnc.appends x.padding2) <|
    LawfulEnc.appends x.request_id
theorem RemoveEntityReliablePdu.ifOk (x : RemoveEntityReliablePdu) : WritesIfOk x.serializeBody (wire (sent x)) :=
    (RemoveEntityReliablePdu.writes x).ifOk
theorem RemoveEntityReliablePdu.reads (x : RemoveEntityReliablePdu) : Reads RemoveEntityReliablePdu.deserializeBody (wire (kept x)) (kept x) :=
    Reads.bind (reads_exact x.originating_entity_id) <|
    Reads.bind (reads_exact x.receiving_entity_id) <|
    Reads.bind (reads_exact x.required_reliability_service) <|
    Reads.bind (reads_exact x.padding) <|
    Reads.bind (reads_exact x.padding2) <|
    Reads.last (reads_exact x.request_id) (Reads.ret _)
theorem RemoveEntityReliablePdu.fixed : Fixed RemoveEntityReliablePdu.deserializeBody 20 := Fixed.congr (
    Fixed.bind (FixedDec.fixed) fun _ =>
    Fixed.bind (FixedDec.fixed) fun _ =>
    Fixed.bind (FixedDec.fixed) fun _ =>
    Fixed.bind (FixedDec.fixed) fun _ =>
    Fixed.bind (FixedDec.fixed) fun _ =>
    Fixed.bind (FixedDec.fixed) fun _ =>
    Fixed.ret _) rfl
theorem RemoveEntityReliablePdu.loc : Local RemoveEntityReliablePdu.deserializeBody :=
    Local.bind (LocalDec.loc) fun _ =>
    Local.bind (LocalDec.loc) fun _ =>
    Local.bind (LocalDec.loc) fun _ =>
    Local.bind (LocalDec.loc) fun _ =>
    Local.bind (LocalDec.loc) fun _ =>
    Local.bind (LocalDec.loc) fun _ =>
    Local.ret _
theorem RemoveEntityReliablePdu.under : OnlyUnderflow RemoveEntityReliablePdu.deserializeBody :=
    OnlyUnderflow.bind (UnderflowDec.under) fun _ =>
    OnlyUnderflow.bind (UnderflowDec.under) fun _ =>
    OnlyUnderflow.bind (UnderflowDec.under) fun _ =>
    OnlyUnderflow.bind (UnderflowDec.under) fun _ =>
    OnlyUnderflow.bind (UnderflowDec.under) fun _ =>
    OnlyUnderflow.bind (UnderflowDec.under) fun _ =>
    OnlyUnderflow.ret _
theorem RemoveEntityReliablePdu.split (x : RemoveEntityReliablePdu) : wire x = wire (kept x) ++ tail x := (List.append_nil _).symm

theorem StartResumeReliablePdu.writes (x : StartResumeReliablePdu) : Writes x.serializeBody (wire (sent x)) :=
    Writes.seq (writes_exact x.originating_entity_id) <|
    Writes.seq (writes_exact x.receiving_entity_id) <|
    Writes.seq (writes_exact x.real_world_time) <|
    Writes.seq (writes_exact x.simulation_time) <|
    Writes.seq (writes_exact x.required_reliability_service) <|
    Writes.seq (writes_exact x.padding) <|
    Writes.seq (writes_exact x.padding2) <|
    writes_exact x.request_id
theorem StartResumeReliablePdu.len (x : StartResumeReliablePdu) : ((wire (sent x)).length : Int) = (x.fieldsLen : Nat) + surplus x := by
  show ((wire x.originating_entity_id ++ (wire x.receiving_entity_id ++ (wire x.real_world_time ++ (wire x.simulation_time ++ (wire x.required_reliability_service ++ (wire x.padding ++ (wire x.padding2 ++ (wire x.request_id)))))))).length : Int) = (x.fieldsLen : Nat) + ((0 : Int))
  simp only [List.length_append, StartResumeReliablePdu.fieldsLen]
  have h_originating_entity_id := len_exact x.originating_entity_id
  have h_receiving_entity_id := len_exact x.receiving_entity_id
  have h_real_world_time := len_exact x.real_world_time
  have h_simulation_time := len_exact x.simulation_time
  have h_required_reliability_service := len_exact x.required_reliability_service
  have h_padding := len_exact x.padding
  have h_padding2 := len_exact x.padding2
  have h_request_id := len_exact x.request_id
  omega
theorem StartResumeReliablePdu.appends (x : StartResumeReliablePdu) : Appends x.serializeBody :=
    Appends.seq (LawfulEnc.appends x.originating_entity_id) <|
    Appends.seq (LawfulEnc.appends x.receiving_entity_id) <|
    Appends.seq (LawfulEnc.appends x.real_world_time) <|
    Appends.seq (LawfulEnc.appends x.simulation_time) <|
    Appends.seq (LawfulEnc.appends x.required_reliability_service) <|
    Appends.seq (LawfulEnc.appends x.padding) <|
    Appends.seq (LawfulEnc.appends x.padding2) <|
    LawfulEnc.appends x.request_id
theorem StartResumeReliablePdu.ifOk (x : StartResumeReliablePdu) : WritesIfOk x.serializeBody (wire (sent x)) :=
    (StartResumeReliablePdu.writes x).ifOk
theorem StartResumeReliablePdu.reads (x : StartResumeReliablePdu) : Reads StartResumeReliablePdu.deserializeBody (wire (kept x)) (kept x) :=
    Reads.bind (reads_exact x.originating_entity_id) <|
    Reads.bind (reads_exact x.receiving_entity_id) <|
    Reads.bind (reads_exact x.real_world_time) <|
    Reads.bind (reads_exact x.simulation_time) <|
    Reads.bind (reads_exact x.required_reliability_service) <|
    Reads.bind (reads_exact x.padding) <|
    Reads.bind (reads_exact x.padding2) <|
    Reads.last (reads_exact x.request_id) (Reads.ret _)
theorem StartResumeReliablePdu.fixed : Fixed StartResumeReliablePdu.deserializeBody 36 := Fixed.congr (
    Fixed.bind (FixedDec.fixed) fun _ =>
    Fixed.bind (FixedDec.fixed) fun _ =>
    Fixed.bind (FixedDec.fixed) fun _ =>
    Fixed.bind (FixedDec.fixed) fun _ =>
    Fixed.bind (FixedDec.fixed) fun _ =>
    Fixed.bind (FixedDec.fixed) fun _ =>
    Fixed.bind (FixedDec.fixed) fun _ =>
    Fixed.bind (FixedDec.fixed) fun _ =>
    Fixed.ret _) rfl
theorem StartResumeReliablePdu.loc : Local StartResumeReliablePdu.deserializeBody :=
    Local.bind (LocalDec.loc) fun _ =>
    Local.bind (LocalDec.loc) fun _ =>
    Local.bind (LocalDec.loc) fun _ =>
    Local.bind (LocalDec.loc) fun _ =>
    Local.bind (LocalDec.loc) fun _ =>
    Local.bind (LocalDec.loc) fun _ =>
    Local.bind (LocalDec.loc) fun _ =>
    Local.bind (LocalDec.loc) fun _ =>
    Local.ret _
theorem StartResumeReliablePdu.under : OnlyUnderflow StartResumeReliablePdu.deserializeBody :=
    OnlyUnderflow.bind (UnderflowDec.under) fun _ =>
    OnlyUnderflow.bind (UnderflowDec.under) fun _ =>
    OnlyUnderflow.bind (UnderflowDec.under) fun _ =>
    OnlyUnderflow.bind (UnderflowDec.under) fun _ =>
    OnlyUnderflow.bind (UnderflowDec.under) fun _ =>
    OnlyUnderflow.bind (UnderflowDec.under) fun _ =>
    OnlyUnderflow.bind (UnderflowDec.under) fun _ =>
    OnlyUnderflow.bind (UnderflowDec.under) fun _ =>
    OnlyUnderflow.ret _
theorem StartResumeReliablePdu.split (x : StartResumeReliablePdu) : wire x = wire (kept x) ++ tail x := (List.append_nil _).symm

theorem StopFreezeReliablePdu.writes (x : StopFreezeReliablePdu) : Writes x.serializeBody (wire (sent x)) :=
    Writes.seq (writes_exact x.originating_entity_id) <|
    Writes.seq (writes_exact x.receiving_entity_id) <|
    Writes.seq (writes_exact x.real_world_time) <|
    Writes.seq (writes_exact x.reason) <|
    Writes.seq (writes_exact x.frozen_behavior) <|
    Writes.seq (writes_exact x.required_reliability_service) <|
    Writes.seq (writes_exact x.padding) <|
    writes_exact x.request_id
theorem StopFreezeReliablePdu.len (x : StopFreezeReliablePdu) : ((wire (sent x)).length : Int) = (x.fieldsLen : Nat) + surplus x := by
  show ((wire x.originating_entity_id ++ (wire x.receiving_entity_id ++ (wire x.real_world_time ++ (wire x.reason ++ (wire x.frozen_behavior ++ (wire x.required_reliability_service ++ (wire x.padding ++ (wire x.request_id)))))))).length : Int) = (x.fieldsLen : Nat) + ((0 : Int))
  simp only [List.length_append, StopFreezeReliablePdu.fieldsLen]
  have h_originating_entity_id := len_exact x.originating_entity_id
  have h_receiving_entity_id := len_exact x.receiving_entity_id
  have h_real_world_time := len_exact x.real_world_time
  have h_reason := len_exact x.reason
  have h_frozen_behavior := len_exact x.frozen_behavior
  have h_required_reliability_service := len_exact x.required_reliability_service
  have h_padding := len_exact x.padding
  have h_request_id := len_exact x.request_id
  omega
theorem StopFreezeReliablePdu.appends (x : StopFreezeReliablePdu) : Appends x.serializeBody :=
    Appends.seq (LawfulEnc.appends x.originating_entity_id) <|
    Appends.seq (LawfulEnc.appends x.receiving_entity_id) <|
    Appends.seq (LawfulEnc.appends x.real_world_time) <|
    Appends.seq (LawfulEnc.appends x.reason) <|
    Appends.seq (LawfulEnc.appends x.frozen_behavior) <|
    Appends.seq (LawfulEnc.appends x.required_reliability_service) <|
    Appends.seq (LawfulEnc.appends x.padding) <|
    LawfulEnc.appends x.request_id
theorem StopFreezeReliablePdu.ifOk (x : StopFreezeReliablePdu) : WritesIfOk x.serializeBody (wire (sent x)) :=
    (StopFreezeReliablePdu.writes x).ifOk
theorem StopFreezeReliablePdu.reads (x : StopFreezeReliablePdu) (h : decodable x) : Reads StopFreezeReliablePdu.deserializeBody (wire (kept x)) (kept x) :=
    Reads.bind (reads_exact x.originating_entity_id) <|
    Reads.bind (reads_exact x.receiving_entity_id) <|
    Reads.bind (reads_exact x.real_world_time) <|
    Reads.bind (reads_exact x.reason) <|
    Reads.bind (LawfulDec.reads x.frozen_behavior h) <|
    Reads.bind (reads_exact x.required_reliability_service) <|
    Reads.bind (reads_exact x.padding) <|
    Reads.last (reads_exact x.request_id) (Reads.ret _)
theorem StopFreezeReliablePdu.fixed : Fixed StopFreezeReliablePdu.deserializeBody 28 := Fixed.congr (
    Fixed.bind (FixedDec.fixed) fun _ =>
    Fixed.bind (FixedDec.fixed) fun _ =>
    Fixed.bind (FixedDec.fixed) fun _ =>
    Fixed.bind (FixedDec.fixed) fun _ =>
    Fixed.bind (FixedDec.fixed) fun _ =>
    Fixed.bind (FixedDec.fixed) fun _ =>
    Fixed.bind (FixedDec.fixed) fun _ =>
    Fixed.bind (FixedDec.fixed) fun _ =>
    Fixed.ret _) rfl
theorem StopFreezeReliablePdu.loc : Local StopFreezeReliablePdu.deserializeBody :=
    Local.bind (LocalDec.loc) fun _ =>
    Local.bind (LocalDec.loc) fun _ =>
    Local.bind (LocalDec.loc) fun _ =>
    Local.bind (LocalDec.loc) fun _ =>
    Local.bind (LocalDec.loc) fun _ =>
    Local.bind (LocalDec.loc) fun _ =>
    Local.bind (LocalDec.loc) fun _ =>
    Local.bind (LocalDec.loc) fun _ =>
    Local.ret _
theorem StopFreezeReliablePdu.under : OnlyUnderflow StopFreezeReliablePdu.deserializeBody :=
    OnlyUnderflow.bind (UnderflowDec.under) fun _ =>
    OnlyUnderflow.bind (UnderflowDec.under) fun _ =>
    OnlyUnderflow.bind (UnderflowDec.under) fun _ =>
    OnlyUnderflow.bind (UnderflowDec.under) fun _ =>
    OnlyUnderflow.bind (UnderflowDec.under) fun _ =>
    OnlyUnderflow.bind (UnderflowDec.under) fun _ =>
    OnlyUnderflow.bind (UnderflowDec.under) fun _ =>
    OnlyUnderflow.bind (UnderflowDec.under) fun _ =>
    OnlyUnderflow.ret _
theorem StopFreezeReliablePdu.split (x : StopFreezeReliablePdu) : wire x = wire (kept x) ++ tail x := (List.append_nil _).symm

theorem AcknowledgeReliablePdu.writes (x : AcknowledgeReliablePdu) : Writes x.serializeBody (wire (sent x)) :=
    Writes.seq (writes_exact x.originating_entity_id) <|
    Writes.seq (writes_exact x.receiving_entity_id) <|
    Writes.seq (writes_exact x.acknowledge_flag) <|
    Writes.seq (writes_exact x.response_flag) <|
    writes_exact x.request_id
theorem AcknowledgeReliablePdu.len (x : AcknowledgeReliablePdu) : ((wire (sent x)).length : Int) = (x.fieldsLen : Nat) + surplus x := by
  show ((wire x.originating_entity_id ++ (wire x.receiving_entity_id ++ (wire x.acknowledge_flag ++ (wire x.response_flag ++ (wire x.request_id))))).length : Int) = (x.fieldsLen : Nat) + ((0 : Int))
  simp only [List.length_append, AcknowledgeReliablePdu.fieldsLen]
  have h_originating_entity_id := len_exact x.originating_entity_id
  have h_receiving_entity_id := len_exact x.receiving_entity_id
  have h_acknowledge_flag := len_exact x.acknowledge_flag
  have h_response_flag := len_exact x.response_flag
  have h_request_id := len_exact x.request_id
  omega
theorem AcknowledgeReliablePdu.appends (x : AcknowledgeReliablePdu) : Appends x.serializeBody :=
    Appends.seq (LawfulEnc.appends x.originating_entity_id) <|
    Appends.seq (LawfulEnc.appends x.receiving_entity_id) <|
    Appends.seq (LawfulEnc.appends x.acknowledge_flag) <|
    Appends.seq (LawfulEnc.appends x.response_flag) <|
    LawfulEnc.appends x.request_id
theorem AcknowledgeReliablePdu.ifOk (x : AcknowledgeReliablePdu) : WritesIfOk x.serializeBody (wire (sent x)) :=
    (AcknowledgeReliablePdu.writes x).ifOk
theorem AcknowledgeReliablePdu.reads (x : AcknowledgeReliablePdu) : Reads AcknowledgeReliablePdu.deserializeBody (wire (kept x)) (kept x) :=
    Reads.bind (reads_exact x.originating_entity_id) <|
    Reads.bind (reads_exact x.receiving_entity_id) <|
    Reads.bind (reads_exact x.acknowledge_flag) <|
    Reads.bind (reads_exact x.response_flag) <|
    Reads.last (reads_exact x.request_id) (Reads.ret _)
theorem AcknowledgeReliablePdu.fixed : Fixed AcknowledgeReliablePdu.deserializeBody 20 := Fixed.congr (
    Fixed.bind (FixedDec.fixed) fun _ =>
    Fixed.bind (FixedDec.fixed) fun _ =>
    Fixed.bind (FixedDec.fixed) fun _ =>
    Fixed.bind (FixedDec.fixed) fun _ =>
    Fixed.bind (FixedDec.fixed) fun _ =>
    Fixed.ret _) rfl
theorem AcknowledgeReliablePdu.loc : Local AcknowledgeReliablePdu.deserializeBody :=
    Local.bind (LocalDec.loc) fun _ =>
    Local.bind (LocalDec.loc) fun _ =>
    Local.bind (LocalDec.loc) fun _ =>
    Local.bind (LocalDec.loc) fun _ =>
    Local.bind (LocalDec.loc) fun _ =>
    Local.ret _
theorem AcknowledgeReliablePdu.under : OnlyUnderflow AcknowledgeReliablePdu.deserializeBody :=
    OnlyUnderflow.bind (UnderflowDec.under) fun _ =>
    OnlyUnderflow.bind (UnderflowDec.under) fun _ =>
    OnlyUnderflow.bind (UnderflowDec.under) fun _ =>
    OnlyUnderflow.bind (UnderflowDec.under) fun _ =>
    OnlyUnderflow.bind (UnderflowDec.under) fun _ =>
    OnlyUnderflow.ret _
theorem AcknowledgeReliablePdu.split (x : AcknowledgeReliablePdu) : wire x = wire (kept x) ++ tail x := (List.append_nil _).symm

theorem ActionRequestReliablePdu.writes (x : ActionRequestReliablePdu) : Writes x.serializeBody (wire (sent x)) :=
    Writes.seq (writes_exact x.originating_entity_id) <|
    Writes.seq (writes_exact x.receiving_entity_id) <|
    Writes.seq (writes_exact x.required_reliability_service) <|
    Writes.seq (writes_exact x.padding) <|
    Writes.seq (writes_exact x.padding2) <|
    Writes.seq (writes_exact x.request_id) <|
    Writes.seq (writes_exact x.action_id) <|
    Writes.seq (writes_exact x.padding3) <|
    Writes.seq (writes_exact x.number_of_fixed_datum_records) <|
    Writes.seq (writes_exact x.number_of_variable_datum_records) <|
    Writes.seq (writes_exact x.fixed_datum_records) <|
    LawfulEnc.writes x.variable_datum_records (fun _ _ => trivial)
theorem ActionRequestReliablePdu.len (x : ActionRequestReliablePdu) : ((wire (sent x)).length : Int) = (x.fieldsLen : Nat) + surplus x := by
  show ((wire x.originating_entity_id ++ (wire x.receiving_entity_id ++ (wire x.required_reliability_service ++ (wire x.padding ++ (wire x.padding2 ++ (wire x.request_id ++ (wire x.action_id ++ (wire x.padding3 ++ (wire x.number_of_fixed_datum_records ++ (wire x.number_of_variable_datum_records ++ (wire x.fixed_datum_records ++ (wire (sent x.variable_datum_records))))))))))))).length : Int) = (x.fieldsLen : Nat) + (surplus x.variable_datum_records)
  simp only [List.length_append, ActionRequestReliablePdu.fieldsLen]
  have h_originating_entity_id := len_exact x.originating_entity_id
  have h_receiving_entity_id := len_exact x.receiving_entity_id
  have h_required_reliability_service := len_exact x.required_reliability_service
  have h_padding := len_exact x.padding
  have h_padding2 := len_exact x.padding2
  have h_request_id := len_exact x.request_id
  have h_action_id := len_exact x.action_id
  have h_padding3 := len_exact x.padding3
  have h_number_of_fixed_datum_records := len_exact x.number_of_fixed_datum_records
  have h_number_of_variable_datum_records := len_exact x.number_of_variable_datum_records
  have h_fixed_datum_records := len_exact x.fixed_datum_records
  have h_variable_datum_records : ((wire (sent x.variable_datum_records)).length : Int) = field_len x.variable_datum_records + surplus x.variable_datum_records := LawfulEnc.len x.variable_datum_records
  omega
theorem ActionRequestReliablePdu.appends (x : ActionRequestReliablePdu) : Appends x.serializeBody :=
    Appends.seq (LawfulEnc.appends x.originating_entity_id) <|
    Appends.seq (LawfulEnc.appends x.receiving_entity_id) <|
    Appends.seq (LawfulEnc.appends x.required_reliability_service) <|
    Appends.seq (LawfulEnc.appends x.padding) <|
    Appends.seq (LawfulEnc.appends x.padding2) <|
    Appends.seq (LawfulEnc.appends x.request_id) <|
    Appends.seq (LawfulEnc.appends x.action_id) <|
    Appends.seq (LawfulEnc.appends x.padding3) <|
    Appends.seq (LawfulEnc.appends x.number_of_fixed_datum_records) <|
    Appends.seq (LawfulEnc.appends x.number_of_variable_datum_records) <|
    Appends.seq (LawfulEnc.appends x.fixed_datum_records) <|
    LawfulEnc.appends x.variable_datum_records
theorem ActionRequestReliablePdu.ifOk (x : ActionRequestReliablePdu) : WritesIfOk x.serializeBody (wire (sent x)) :=
    (ActionRequestReliablePdu.writes x).ifOk
theorem ActionRequestReliablePdu.reads (x : ActionRequestReliablePdu) : Reads ActionRequestReliablePdu.deserializeBody (wire (kept x)) (kept x) :=
    Reads.bind (reads_exact x.originating_entity_id) <|
    Reads.bind (reads_exact x.receiving_entity_id) <|
    Reads.bind (reads_exact x.required_reliability_service) <|
    Reads.bind (reads_exact x.padding) <|
    Reads.bind (reads_exact x.padding2) <|
    Reads.bind (reads_exact x.request_id) <|
    Reads.bind (reads_exact x.action_id) <|
    Reads.bind (reads_exact x.padding3) <|
    Reads.bind (reads_exact x.number_of_fixed_datum_records) <|
    Reads.bind (reads_exact x.number_of_variable_datum_records) <|
    Reads.bind (Reads.ret _) <|
    Reads.last (Reads.ret _) (Reads.ret _)
theorem ActionRequestReliablePdu.fixed : Fixed ActionRequestReliablePdu.deserializeBody 36 := Fixed.congr (
    Fixed.bind (FixedDec.fixed) fun _ =>
    Fixed.bind (FixedDec.fixed) fun _ =>
    Fixed.bind (FixedDec.fixed) fun _ =>
    Fixed.bind (FixedDec.fixed) fun _ =>
    Fixed.bind (FixedDec.fixed) fun _ =>
    Fixed.bind (FixedDec.fixed) fun _ =>
    Fixed.bind (FixedDec.fixed) fun _ =>
    Fixed.bind (FixedDec.fixed) fun _ =>
    Fixed.bind (FixedDec.fixed) fun _ =>
    Fixed.bind (FixedDec.fixed) fun _ =>
    Fixed.bind (FixedDec.fixed) fun _ =>
    Fixed.bind (FixedDec.fixed) fun _ =>
    Fixed.ret _) rfl
theorem ActionRequestReliablePdu.loc : Local ActionRequestReliablePdu.deserializeBody :=
    Local.bind (LocalDec.loc) fun _ =>
    Local.bind (LocalDec.loc) fun _ =>
    Local.bind (LocalDec.loc) fun _ =>
    Local.bind (LocalDec.loc) fun _ =>
    Local.bind (LocalDec.loc) fun _ =>
    Local.bind (LocalDec.loc) fun _ =>
    Local.bind (LocalDec.loc) fun _ =>
    Local.bind (LocalDec.loc) fun _ =>
    Local.bind (LocalDec.loc) fun _ =>
    Local.bind (LocalDec.loc) fun _ =>
    Local.bind (LocalDec.loc) fun _ =>
    Local.bind (LocalDec.loc) fun _ =>
    Local.ret _
theorem ActionRequestReliablePdu.under : OnlyUnderflow ActionRequestReliablePdu.deserializeBody :=
    OnlyUnderflow.bind (UnderflowDec.under) fun _ =>
    OnlyUnderflow.bind (UnderflowDec.under) fun _ =>
    OnlyUnderflow.bind (UnderflowDec.under) fun _ =>
    OnlyUnderflow.bind (UnderflowDec.under) fun _ =>
    OnlyUnderflow.bind (UnderflowDec.under) fun _ =>
    OnlyUnderflow.bind (UnderflowDec.under) fun _ =>
    OnlyUnderflow.bind (UnderflowDec.under) fun _ =>
    OnlyUnderflow.bind (UnderflowDec.under) fun _ =>
    OnlyUnderflow.bind (UnderflowDec.under) fun _ =>
    OnlyUnderflow.bind (UnderflowDec.under) fun _ =>
    OnlyUnderflow.bind (UnderflowDec.under) fun _ =>
    OnlyUnderflow.bind (UnderflowDec.under) fun _ =>
    OnlyUnderflow.ret _
theorem ActionRequestReliablePdu.split (x : ActionRequestReliablePdu) : wire x = wire (kept x) ++ tail x := by
  show wire x.originating_entity_id ++ (wire x.receiving_entity_id ++ (wire x.required_reliability_service ++ (wire x.padding ++ (wire x.padding2 ++ (wire x.request_id ++ (wire x.action_id ++ (wire x.padding3 ++ (wire x.number_of_fixed_datum_records ++ (wire x.number_of_variable_datum_records ++ (wire x.fixed_datum_records ++ (wire x.variable_datum_records)))))))))))
    = (wire x.originating_entity_id ++ (wire x.receiving_entity_id ++ (wire x.required_reliability_service ++ (wire x.padding ++ (wire x.padding2 ++ (wire x.request_id ++ (wire x.action_id ++ (wire x.padding3 ++ (wire x.number_of_fixed_datum_records ++ (wire x.number_of_variable_datum_records ++ ([] ++ ([]))))))))))))
      ++ (wire x.fixed_datum_records ++ (wire x.variable_datum_records))
  simp only [List.append_assoc, List.append_nil, List.nil_append]

theorem ActionResponseReliablePdu.writes (x : ActionResponseReliablePdu) : Writes x.serializeBody (wire (sent x)) :=
    Writes.seq (writes_exact x.originating_entity_id) <|
    Writes.seq (writes_exact x.receiving_entity_id) <|
    Writes.seq (writes_exact x.request_id) <|
    Writes.seq (writes_exact x.request_status) <|
    Writes.seq (writes_exact x.number_of_fixed_datum_records) <|
    Writes.seq (writes_exact x.number_of_variable_datum_records) <|
    Writes.seq (writes_exact x.fixed_datum_records) <|
    LawfulEnc.writes x.variable_datum_records (fun _ _ => trivial)
theorem ActionResponseReliablePdu.len (x : ActionResponseReliablePdu) : ((wire (sent x)).length : Int) = (x.fieldsLen : Nat) + surplus x := by
  show ((wire x.originating_entity_id ++ (wire x.receiving_entity_id ++ (wire x.request_id ++ (wire x.request_status ++ (wire x.number_of_fixed_datum_records ++ (wire x.number_of_variable_datum_records ++ (wire x.fixed_datum_records ++ (wire (sent x.variable_datum_records))))))))).length : Int) = (x.fieldsLen : Nat) + (surplus x.variable_datum_records)
  simp only [List.length_append, ActionResponseReliablePdu.fieldsLen]
  have h_originating_entity_id := len_exact x.originating_entity_id
  have h_receiving_entity_id := len_exact x.receiving_entity_id
  have h_request_id := len_exact x.request_id
  have h_request_status := len_exact x.request_status
  have h_number_of_fixed_datum_records := len_exact x.number_of_fixed_datum_records
  have h_number_of_variable_datum_records := len_exact x.number_of_variable_datum_records
  have h_fixed_datum_records := len_exact x.fixed_datum_records
  have h_variable_datum_records : ((wire (sent x.variable_datum_records)).length : Int) = field_len x.variable_datum_records + surplus x.variable_datum_records := LawfulEnc.len x.variable_datum_records
  omega
theorem ActionResponseReliablePdu.appends (x : ActionResponseReliablePdu) : Appends x.serializeBody :=
    Appends.seq (LawfulEnc.appends x.originating_entity_id) <|
    Appends.seq (LawfulEnc.appends x.receiving_entity_id) <|
    Appends.seq (LawfulEnc.appends x.request_id) <|
    Appends.seq (LawfulEnc.appends x.request_status) <|
    Appends.seq (LawfulEnc.appends x.number_of_fixed_datum_records) <|
    Appends.seq (LawfulEnc.appends x.number_of_variable_datum_records) <|
    Appends.seq (LawfulEnc.appends x.fixed_datum_records) <|
    LawfulEnc.appends x.variable_datum_records
theorem ActionResponseReliablePdu.ifOk (x : ActionResponseReliablePdu) : WritesIfOk x.serializeBody (wire (sent x)) :=
    (ActionResponseReliablePdu.writes x).ifOk
theorem ActionResponseReliablePdu.reads (x : ActionResponseReliablePdu) : Reads ActionResponseReliablePdu.deserializeBody (wire (kept x)) (kept x) :=
    Reads.bind (reads_exact x.originating_entity_id) <|
    Reads.bind (reads_exact x.receiving_entity_id) <|
    Reads.bind (reads_exact x.request_id) <|
    Reads.bind (reads_exact x.request_status) <|
    Reads.bind (reads_exact x.number_of_fixed_datum_records) <|
    Reads.bind (reads_exact x.number_of_variable_datum_records) <|
    Reads.bind (Reads.ret _) <|
    Reads.last (Reads.ret _) (Reads.ret _)
theorem ActionResponseReliablePdu.fixed : Fixed ActionResponseReliablePdu.deserializeBody 28 := Fixed.congr (
    Fixed.bind (FixedDec.fixed) fun _ =>
    Fixed.bind (FixedDec.fixed) fun _ =>
    Fixed.bind (FixedDec.fixed) fun _ =>
    Fixed.bind (FixedDec.fixed) fun _ =>
    Fixed.bind (FixedDec.fixed) fun _ =>
    Fixed.bind (FixedDec.fixed) fun _ =>
    Fixed.bind (FixedDec.fixed) fun _ =>
    Fixed.bind (FixedDec.fixed) fun _ =>
    Fixed.ret _) rfl
theorem ActionResponseReliablePdu.loc : Local ActionResponseReliablePdu.deserializeBody :=
    Local.bind (LocalDec.loc) fun _ =>
    Local.bind (LocalDec.loc) fun _ =>
    Local.bind (LocalDec.loc) fun _ =>
    Local.bind (LocalDec.loc) fun _ =>
    Local.bind (LocalDec.loc) fun _ =>
    Local.bind (LocalDec.loc) fun _ =>
    Local.bind (LocalDec.loc) fun _ =>
    Local.bind (LocalDec.loc) fun _ =>
    Local.ret _
theorem ActionResponseReliablePdu.under : OnlyUnderflow ActionResponseReliablePdu.deserializeBody :=
    OnlyUnderflow.bind (UnderflowDec.under) fun _ =>
    OnlyUnderflow.bind (UnderflowDec.under) fun _ =>
    OnlyUnderflow.bind (UnderflowDec.under) fun _ =>
    OnlyUnderflow.bind (UnderflowDec.under) fun _ =>
    OnlyUnderflow.bind (UnderflowDec.under) fun _ =>
    OnlyUnderflow.bind (UnderflowDec.under) fun _ =>
    OnlyUnderflow.bind (UnderflowDec.under) fun _ =>
    OnlyUnderflow.bind (UnderflowDec.under) fun _ =>
    OnlyUnderflow.ret _
theorem ActionResponseReliablePdu.split (x : ActionResponseReliablePdu) : wire x = wire (kept x) ++ tail x := by
  show wire x.originating_entity_id ++ (wire x.receiving_entity_id ++ (wire x.request_id ++ (wire x.request_status ++ (wire x.number_of_fixed_datum_records ++ (wire x.number_of_variable_datum_records ++ (wire x.fixed_datum_records ++ (wire x.variable_datum_records)))))))
    = (wire x.originating_entity_id ++ (wire x.receiving_entity_id ++ (wire x.request_id ++ (wire x.request_status ++ (wire x.number_of_fixed_datum_records ++ (wire x.number_of_variable_datum_records ++ ([] ++ ([]))))))))
      ++ (wire x.fixed_datum_records ++ (wire x.variable_datum_records))
  simp only [List.append_assoc, List.append_nil, List.nil_append]

end Dis
