import Verif.Spec.PduWire4
import Verif.Proofs.Records
/- Generated by tools/gen_pdus.py. -/
set_option linter.unusedSimpArgs false
set_option maxRecDepth 8000
namespace Dis

theorem DataQueryReliablePdu.writes (x : DataQueryReliablePdu) : Writes x.serializeBody (wire (sent x)) :=
    Writes.seq (writes_exact x.originating_entity_id) <|
    Writes.seq (writes_exact x.receiving_entity_id) <|
    Writes.seq (writes_exact x.required_reliability_service) <|
    Writes.seq (writes_exact x.padding) <|
    Writes.seq (writes_exact x.padding2) <|
    Writes.seq (writes_exact x.request_id) <|
    Writes.seq (writes_exact x.time_interval) <|
    Writes.seq (writes_exact x.number_of_fixed_datum_records) <|
    Writes.seq (writes_exact x.number_of_variable_datum_records) <|
    Writes.seq (writes_exact x.fixed_datum_ids) <|
    writes_exact x.variable_datum_ids
theorem DataQueryReliablePdu.len (x : DataQueryReliablePdu) : ((wire (sent x)).length : Int) = (x.fieldsLen : Nat) + surplus x := by
  show ((wire x.originating_entity_id ++ (wire x.receiving_entity_id ++ (wire x.required_reliability_service ++ (wire x.padding ++ (wire x.padding2 ++ (wire x.request_id ++ (wire x.time_interval ++ (wire x.number_of_fixed_datum_records ++ (wire x.number_of_variable_datum_records ++ (wire x.fixed_datum_ids ++ (wire x.variable_datum_ids))))))))))).length : Int) = (x.fieldsLen : Nat) + ((0 : Int))
  simp only [List.length_append, DataQueryReliablePdu.fieldsLen]
  have h_originating_entity_id := len_exact x.originating_entity_id
  have h_receiving_entity_id := len_exact x.receiving_entity_id
  have h_required_reliability_service := len_exact x.required_reliability_service
  have h_padding := len_exact x.padding
  have h_padding2 := len_exact x.padding2
  have h_request_id := len_exact x.request_id
  have h_time_interval := len_exact x.time_interval
  have h_number_of_fixed_datum_records := len_exact x.number_of_fixed_datum_records
  have h_number_of_variable_datum_records := len_exact x.number_of_variable_datum_records
  have h_fixed_datum_ids := len_exact x.fixed_datum_ids
  have h_variable_datum_ids := len_exact x.variable_datum_ids
  omega
theorem DataQueryReliablePdu.appends (x : DataQueryReliablePdu) : Appends x.serializeBody :=
    Appends.seq (LawfulEnc.appends x.originating_entity_id) <|
    Appends.seq (LawfulEnc.appends x.receiving_entity_id) <|
    Appends.seq (LawfulEnc.appends x.required_reliability_service) <|
    Appends.seq (LawfulEnc.appends x.padding) <|
    Appends.seq (LawfulEnc.appends x.padding2) <|
    Appends.seq (LawfulEnc.appends x.request_id) <|
    Appends.seq (LawfulEnc.appends x.time_interval) <|
    Appends.seq (LawfulEnc.appends x.number_of_fixed_datum_records) <|
    Appends.seq (LawfulEnc.appends x.number_of_variable_datum_records) <|
    Appends.seq (LawfulEnc.appends x.fixed_datum_ids) <|
    LawfulEnc.appends x.variable_datum_ids
theorem DataQueryReliablePdu.ifOk (x : DataQueryReliablePdu) : WritesIfOk x.serializeBody (wire (sent x)) :=
    (DataQueryReliablePdu.writes x).ifOk
theorem DataQueryReliablePdu.reads (x : DataQueryReliablePdu) : Reads DataQueryReliablePdu.deserializeBody (wire (kept x)) (kept x) :=
    Reads.bind (reads_exact x.originating_entity_id) <|
    Reads.bind (reads_exact x.receiving_entity_id) <|
    Reads.bind (reads_exact x.required_reliability_service) <|
    Reads.bind (reads_exact x.padding) <|
    Reads.bind (reads_exact x.padding2) <|
    Reads.bind (reads_exact x.request_id) <|
    Reads.bind (reads_exact x.time_interval) <|
    Reads.bind (reads_exact x.number_of_fixed_datum_records) <|
    Reads.bind (reads_exact x.number_of_variable_datum_records) <|
    Reads.bind (Reads.ret _) <|
    Reads.last (Reads.ret _) (Reads.ret _)
theorem DataQueryReliablePdu.fixed : Fixed DataQueryReliablePdu.deserializeBody 32 := Fixed.congr (
    Fixed.bind (FixedDec.fixed) fun _ =>
    Fixed.bind (FixedDec.fixed) fun _ =>
    Fixed.bind (FixedDec.fixed) fun _ =>
    Fixed.bind (FixedDec.fixed) fun _ =>
    Fixed.bind (FixedDec.fixed) fun _ =>
    Fixed.bind (FixedDec.fixed) fun _ =>
    Fixed.bind (FixedDec.fixed) fun _ =>
    Fixed.bind (FixedDec.fixed) fun _ =>
    Fixed.bind (FixedDec.fixed) fun _ =>
    Fixed.bind (FixedDec.fixed) fun _ =>
    Fixed.bind (FixedDec.fixed) fun _ =>
    Fixed.ret _) rfl
theorem DataQueryReliablePdu.loc : Local DataQueryReliablePdu.deserializeBody :=
    Local.bind (LocalDec.loc) fun _ =>
    Local.bind (LocalDec.loc) fun _ =>
    Local.bind (LocalDec.loc) fun _ =>
    Local.bind (LocalDec.loc) fun _ =>
    Local.bind (LocalDec.loc) fun _ =>
    Local.bind (LocalDec.loc) fun _ =>
    Local.bind (LocalDec.loc) fun _ =>
    Local.bind (LocalDec.loc) fun _ =>
    Local.bind (LocalDec.loc) fun _ =>
    Local.bind (LocalDec.loc) fun _ =>
    Local.bind (LocalDec.loc) fun _ =>
    Local.ret _
theorem DataQueryReliablePdu.under : OnlyUnderflow DataQueryReliablePdu.deserializeBody :=
    OnlyUnderflow.bind (UnderflowDec.under) fun _ =>
    OnlyUnderflow.bind (UnderflowDec.under) fun _ =>
    OnlyUnderflow.bind (UnderflowDec.under) fun _ =>
    OnlyUnderflow.bind (UnderflowDec.under) fun _ =>
    OnlyUnderflow.bind (UnderflowDec.under) fun _ =>
    OnlyUnderflow.bind (UnderflowDec.under) fun _ =>
    OnlyUnderflow.bind (UnderflowDec.under) fun _ =>
    OnlyUnderflow.bind (UnderflowDec.under) fun _ =>
    OnlyUnderflow.bind (UnderflowDec.under) fun _ =>
    OnlyUnderflow.bind (UnderflowDec.under) fun _ =>
    OnlyUnderflow.bind (UnderflowDec.under) fun _ =>
    OnlyUnderflow.ret _
theorem DataQueryReliablePdu.split (x : DataQueryReliablePdu) : wire x = wire (kept x) ++ tail x := by
  show wire x.originating_entity_id ++ (wire x.receiving_entity_id ++ (wire x.required_reliability_service ++ (wire x.padding ++ (wire x.padding2 ++ (wire x.request_id ++ (wire x.time_interval ++ (wire x.number_of_fixed_datum_records ++ (wire x.number_of_variable_datum_records ++ (wire x.fixed_datum_ids ++ (wire x.variable_datum_ids))))))))))
    = (wire x.originating_entity_id ++ (wire x.receiving_entity_id ++ (wire x.required_reliability_service ++ (wire x.padding ++ (wire x.padding2 ++ (wire x.request_id ++ (wire x.time_interval ++ (wire x.number_of_fixed_datum_records ++ (wire x.number_of_variable_datum_records ++ ([] ++ ([])))))))))))
      ++ (wire x.fixed_datum_ids ++ (wire x.variable_datum_ids))
  simp only [List.append_assoc, List.append_nil, List.nil_append]

theorem SetDataReliablePdu.writes (x : SetDataReliablePdu) : Writes x.serializeBody (wire (sent x)) :=
    Writes.seq (writes_exact x.originating_entity_id) <|
    Writes.seq (writes_exact x.receiving_entity_id) <|
    Writes.seq (writes_exact x.required_reliability_service) <|
    Writes.seq (writes_exact x.padding) <|
    Writes.seq (writes_exact x.padding2) <|
    Writes.seq (writes_exact x.request_id) <|
    Writes.seq (writes_exact x.number_of_fixed_datum_records) <|
    Writes.seq (writes_exact x.number_of_variable_datum_records) <|
    Writes.seq (writes_exact x.fixed_datum_records) <|
    LawfulEnc.writes x.variable_datum_records (fun _ _ => trivial)
theorem SetDataReliablePdu.len (x : SetDataReliablePdu) : ((wire (sent x)).length : Int) = (x.fieldsLen : Nat) + surplus x := by
  show ((wire x.originating_entity_id ++ (wire x.receiving_entity_id ++ (wire x.required_reliability_service ++ (wire x.padding ++ (wire x.padding2 ++ (wire x.request_id ++ (wire x.number_of_fixed_datum_records ++ (wire x.number_of_variable_datum_records ++ (wire x.fixed_datum_records ++ (wire (sent x.variable_datum_records))))))))))).length : Int) = (x.fieldsLen : Nat) + (surplus x.variable_datum_records)
  simp only [List.length_append, SetDataReliablePdu.fieldsLen]
  have h_originating_entity_id := len_exact x.originating_entity_id
  have h_receiving_entity_id := len_exact x.receiving_entity_id
  have h_required_reliability_service := len_exact x.required_reliability_service
  have h_padding := len_exact x.padding
  have h_padding2 := len_exact x.padding2
  have h_request_id := len_exact x.request_id
  have h_number_of_fixed_datum_records := len_exact x.number_of_fixed_datum_records
  have h_number_of_variable_datum_records := len_exact x.number_of_variable_datum_records
  have h_fixed_datum_records := len_exact x.fixed_datum_records
  have h_variable_datum_records : ((wire (sent x.variable_datum_records)).length : Int) = field_len x.variable_datum_records + surplus x.variable_datum_records := LawfulEnc.len x.variable_datum_records
  omega
theorem SetDataReliablePdu.appends (x : SetDataReliablePdu) : Appends x.serializeBody :=
    Appends.seq (LawfulEnc.appends x.originating_entity_id) <|
    Appends.seq (LawfulEnc.appends x.receiving_entity_id) <|
    Appends.seq (LawfulEnc.appends x.required_reliability_service) <|
    Appends.seq (LawfulEnc.appends x.padding) <|
    Appends.seq (LawfulEnc.appends x.padding2) <|
    Appends.seq (LawfulEnc.appends x.request_id) <|
    Appends.seq (LawfulEnc.appends x.number_of_fixed_datum_records) <|
    Appends.seq (LawfulEnc.appends x.number_of_variable_datum_records) <|
    Appends.seq (LawfulEnc.appends x.fixed_datum_records) <|
    LawfulEnc.appends x.variable_datum_records
theorem SetDataReliablePdu.ifOk (x : SetDataReliablePdu) : WritesIfOk x.serializeBody (wire (sent x)) :=
    (SetDataReliablePdu.writes x).ifOk
theorem SetDataReliablePdu.reads (x : SetDataReliablePdu) : Reads SetDataReliablePdu.deserializeBody (wire (kept x)) (kept x) :=
    Reads.bind (reads_exact x.originating_entity_id) <|
    Reads.bind (reads_exact x.receiving_entity_id) <|
    Reads.bind (reads_exact x.required_reliability_service) <|
    Reads.bind (reads_exact x.padding) <|
    Reads.bind (reads_exact x.padding2) <|
    Reads.bind (reads_exact x.request_id) <|
    Reads.bind (reads_exact x.number_of_fixed_datum_records) <|
    Reads.bind (reads_exact x.number_of_variable_datum_records) <|
    Reads.bind (Reads.ret _) <|
    Reads.last (Reads.ret _) (Reads.ret _)
theorem SetDataReliablePdu.fixed : Fixed SetDataReliablePdu.deserializeBody 28 := Fixed.congr (
    Fixed.bind (FixedDec.fixed) fun _ =>
    Fixed.bind (FixedDec.fixed) fun _ =>
    Fixed.bind (FixedDec.fixed) fun _ =>
    Fixed.bind (FixedDec.fixed) fun _ =>
    Fixed.bind (FixedDec.fixed) fun _ =>
    Fixed.bind (FixedDec.fixed) fun _ =>
    Fixed.bind (FixedDec.fixed) fun _ =>
    Fixed.bind (FixedDec.fixed) fun _ =>
    Fixed.bind (FixedDec.fixed) fun _ =>
    Fixed.bind (FixedDec.fixed) fun _ =>
    Fixed.ret _) rfl
theorem SetDataReliablePdu.loc : Local SetDataReliablePdu.deserializeBody :=
    Local.bind (LocalDec.loc) fun _ =>
    Local.bind (LocalDec.loc) fun _ =>
    Local.bind (LocalDec.loc) fun _ =>
    Local.bind (LocalDec.loc) fun _ =>
    Local.bind (LocalDec.loc) fun _ =>
    Local.bind (LocalDec.loc) fun _ =>
    Local.bind (LocalDec.loc) fun _ =>
    Local.bind (LocalDec.loc) fun _ =>
    Local.bind (LocalDec.loc) fun _ =>
    Local.bind (LocalDec.loc) fun _ =>
    Local.ret _
theorem SetDataReliablePdu.under : OnlyUnderflow SetDataReliablePdu.deserializeBody :=
    OnlyUnderflow.bind (UnderflowDec.under) fun _ =>
    OnlyUnderflow.bind (UnderflowDec.under) fun _ =>
    OnlyUnderflow.bind (UnderflowDec.under) fun _ =>
    OnlyUnderflow.bind (UnderflowDec.under) fun _ =>
    OnlyUnderflow.bind (UnderflowDec.under) fun _ =>
    OnlyUnderflow.bind (UnderflowDec.under) fun _ =>
    OnlyUnderflow.bind (UnderflowDec.under) fun _ =>
    OnlyUnderflow.bind (UnderflowDec.under) fun _ =>
    OnlyUnderflow.bind (UnderflowDec.under) fun _ =>
    OnlyUnderflow.bind (UnderflowDec.under) fun _ =>
    OnlyUnderflow.ret _
theorem SetDataReliablePdu.split (x : SetDataReliablePdu) : wire x = wire (kept x) ++ tail x := by
  show wire x.originating_entity_id ++ (wire x.receiving_entity_id ++ (wire x.required_reliability_service ++ (wire x.padding ++ (wire x.padding2 ++ (wire x.request_id ++ (wire x.number_of_fixed_datum_records ++ (wire x.number_of_variable_datum_records ++ (wire x.fixed_datum_records ++ (wire x.variable_datum_records)))))))))
    = (wire x.originating_entity_id ++ (wire x.receiving_entity_id ++ (wire x.required_reliability_service ++ (wire x.padding ++ (wire x.padding2 ++ (wire x.request_id ++ (wire x.number_of_fixed_datum_records ++ (wire x.number_of_variable_datum_records ++ ([] ++ ([]))))))))))
      ++ (wire x.fixed_datum_records ++ (wire x.variable_datum_records))
  simp only [List.append_assoc, List.append_nil, List.nil_append]

theorem DataReliablePdu.writes (x : DataReliablePdu) : Writes x.serializeBody (wire (sent x)) :=
    Writes.seq (writes_exact x.originating_entity_id) <|
    Writes.seq (writes_exact x.receiving_entity_id) <|
    Writes.seq (writes_exact x.request_id) <|
    Writes.seq (writes_exact x.required_reliability_service) <|
    Writes.seq (writes_exact x.padding) <|
    Writes.seq (writes_exact x.padding2) <|
    Writes.seq (writes_exact x.number_of_fixed_datum_records) <|
    Writes.seq (writes_exact x.number_of_variable_datum_records) <|
    Writes.seq (writes_exact x.fixed_datum_records) <|
    LawfulEnc.writes x.variable_datum_records (fun _ _ => trivial)
theorem DataReliablePdu.len (x : DataReliablePdu) : ((wire (sent x)).length : Int) = (x.fieldsLen : Nat) + surplus x := by
  show ((wire x.originating_entity_id ++ (wire x.receiving_entity_id ++ (wire x.request_id ++ (wire x.required_reliability_service ++ (wire x.padding ++ (wire x.padding2 ++ (wire x.number_of_fixed_datum_records ++ (wire x.number_of_variable_datum_records ++ (wire x.fixed_datum_records ++ (wire (sent x.variable_datum_records))))))))))).length : Int) = (x.fieldsLen : Nat) + (surplus x.variable_datum_records)
  simp only [List.length_append, DataReliablePdu.fieldsLen]
  have h_originating_entity_id := len_exact x.originating_entity_id
  have h_receiving_entity_id := len_exact x.receiving_entity_id
  have h_request_id := len_exact x.request_id
  have h_required_reliability_service := len_exact x.required_reliability_service
  have h_padding := len_exact x.padding
  have h_padding2 := len_exact x.padding2
  have h_number_of_fixed_datum_records := len_exact x.number_of_fixed_datum_records
  have h_number_of_variable_datum_records := len_exact x.number_of_variable_datum_records
  have h_fixed_datum_records := len_exact x.fixed_datum_records
  have h_variable_datum_records : ((wire (sent x.variable_datum_records)).length : Int) = field_len x.variable_datum_records + surplus x.variable_datum_records := LawfulEnc.len x.variable_datum_records
  omega
theorem DataReliablePdu.appends (x : DataReliablePdu) : Appends x.serializeBody :=
    Appends.seq (LawfulEnc.appends x.originating_entity_id) <|
    Appends.seq (LawfulEnc.appends x.receiving_entity_id) <|
    Appends.seq (LawfulEnc.appends x.request_id) <|
    Appends.seq (LawfulEnc.appends x.required_reliability_service) <|
    Appends.seq (LawfulEnc.appends x.padding) <|
    Appends.seq (LawfulEnc.appends x.padding2) <|
    Appends.seq (LawfulEnc.appends x.number_of_fixed_datum_records) <|
    Appends.seq (LawfulEnc.appends x.number_of_variable_datum_records) <|
    Appends.seq (LawfulEnc.appends x.fixed_datum_records) <|
    LawfulEnc.appends x.variable_datum_records
theorem DataReliablePdu.ifOk (x : DataReliablePdu) : WritesIfOk x.serializeBody (wire (sent x)) :=
    (DataReliablePdu.writes x).ifOk
theorem DataReliablePdu.reads (x : DataReliablePdu) : Reads DataReliablePdu.deserializeBody (wire (kept x)) (kept x) :=
    Reads.bind (reads_exact x.originating_entity_id) <|
    Reads.bind (reads_exact x.receiving_entity_id) <|
    Reads.bind (reads_exact x.request_id) <|
    Reads.bind (reads_exact x.required_reliability_service) <|
    Reads.bind (reads_exact x.padding) <|
    Reads.bind (reads_exact x.padding2) <|
    Reads.bind (reads_exact x.number_of_fixed_datum_records) <|
    Reads.bind (reads_exact x.number_of_variable_datum_records) <|
    Reads.bind (Reads.ret _) <|
    Reads.last (Reads.ret _) (Reads.ret _)
theorem DataReliablePdu.fixed : Fixed DataReliablePdu.deserializeBody 28 := Fixed.congr (
    Fixed.bind (FixedDec.fixed) fun _ =>
    Fixed.bind (FixedDec.fixed) fun _ =>
    Fixed.bind (FixedDec.fixed) fun _ =>
    Fixed.bind (FixedDec.fixed) fun _ =>
    Fixed.bind (FixedDec.fixed) fun _ =>
    Fixed.bind (FixedDec.fixed) fun _ =>
    Fixed.bind (FixedDec.fixed) fun _ =>
    Fixed.bind (FixedDec.fixed) fun _ =>
    Fixed.bind (FixedDec.fixed) fun _ =>
    Fixed.bind (FixedDec.fixed) fun _ =>
    Fixed.ret _) rfl
theorem DataReliablePdu.loc : Local DataReliablePdu.deserializeBody :=
    Local.bind (LocalDec.loc) fun _ =>
    Local.bind (LocalDec.loc) fun _ =>
    Local.bind (LocalDec.loc) fun _ =>
    Local.bind (LocalDec.loc) fun _ =>
    Local.bind (LocalDec.loc) fun _ =>
    Local.bind (LocalDec.loc) fun _ =>
    Local.bind (LocalDec.loc) fun _ =>
    Local.bind (LocalDec.loc) fun _ =>
    Local.bind (LocalDec.loc) fun _ =>
    Local.bind (LocalDec.loc) fun _ =>
    Local.ret _
theorem DataReliablePdu.under : OnlyUnderflow DataReliablePdu.deserializeBody :=
    OnlyUnderflow.bind (UnderflowDec.under) fun _ =>
    OnlyUnderflow.bind (UnderflowDec.under) fun _ =>
    OnlyUnderflow.bind (UnderflowDec.under) fun _ =>
    OnlyUnderflow.bind (UnderflowDec.under) fun _ =>
    OnlyUnderflow.bind (UnderflowDec.under) fun _ =>
    OnlyUnderflow.bind (UnderflowDec.under) fun _ =>
    OnlyUnderflow.bind (UnderflowDec.under) fun _ =>
    OnlyUnderflow.bind (UnderflowDec.under) fun _ =>
    OnlyUnderflow.bind (UnderflowDec.under) fun _ =>
    OnlyUnderflow.bind (UnderflowDec.under) fun _ =>
    OnlyUnderflow.ret _
theorem DataReliablePdu.split (x : DataReliablePdu) : wire x = wire (kept x) ++ tail x := by
  show wire x.originating_entity_id ++ (wire x.receiving_entity_id ++ (wire x.request_id ++ (wire x.required_reliability_service ++ (wire x.padding ++ (wire x.padding2 ++ (wire x.number_of_fixed_datum_records ++ (wire x.number_of_variable_datum_records ++ (wire x.fixed_datum_records ++ (wire x.variable_datum_records)))))))))
    = (wire x.originating_entity_id ++ (wire x.receiving_entity_id ++ (wire x.request_id ++ (wire x.required_reliability_service ++ (wire x.padding ++ (wire x.padding2 ++ (wire x.number_of_fixed_datum_records ++ (wire x.number_of_variable_datum_records ++ ([] ++ ([]))))))))))
      ++ (wire x.fixed_datum_records ++ (wire x.variable_datum_records))
  simp only [List.append_assoc, List.append_nil, List.nil_append]

theorem EventReportReliablePdu.writes (x : EventReportReliablePdu) : Writes x.serializeBody (wire (sent x)) :=
    Writes.seq (writes_exact x.originating_entity_id) <|
    Writes.seq (writes_exact x.receiving_entity_id) <|
    Writes.seq (writes_exact x.event_type) <|
    Writes.seq (writes_exact x.padding) <|
    Writes.seq (writes_exact x.number_of_fixed_datum_records) <|
    Writes.seq (writes_exact x.number_of_variable_datum_records) <|
    Writes.seq (writes_exact x.fixed_datum_records) <|
    LawfulEnc.writes x.variable_datum_records (fun _ _ => trivial)
theorem EventReportReliablePdu.len (x : EventReportReliablePdu) : ((wire (sent x)).length : Int) = (x.fieldsLen : Nat) + surplus x := by
  show ((wire x.originating_entity_id ++ (wire x.receiving_entity_id ++ (wire x.event_type ++ (wire x.padding ++ (wire x.number_of_fixed_datum_records ++ (wire x.number_of_variable_datum_records ++ (wire x.fixed_datum_records ++ (wire (sent x.variable_datum_records))))))))).length : Int) = (x.fieldsLen : Nat) + (surplus x.variable_datum_records)
  simp only [List.length_append, EventReportReliablePdu.fieldsLen]
  have h_originating_entity_id := len_exact x.originating_entity_id
  have h_receiving_entity_id := len_exact x.receiving_entity_id
  have h_event_type := len_exact x.event_type
  have h_padding := len_exact x.padding
  have h_number_of_fixed_datum_records := len_exact x.number_of_fixed_datum_records
  have h_number_of_variable_datum_records := len_exact x.number_of_variable_datum_records
  have h_fixed_datum_records := len_exact x.fixed_datum_records
  have h_variable_datum_records : ((wire (sent x.variable_datum_records)).length : Int) = field_len x.variable_datum_records + surplus x.variable_datum_records := LawfulEnc.len x.variable_datum_records
  omega
theorem EventReportReliablePdu.appends (x : EventReportReliablePdu) : Appends x.serializeBody :=
    Appends.seq (LawfulEnc.appends x.originating_entity_id) <|
    Appends.seq (LawfulEnc.appends x.receiving_entity_id) <|
    Appends.seq (LawfulEnc.appends x.event_type) <|
    Appends.seq (LawfulEnc.appends x.padding) <|
    Appends.seq (LawfulEnc.appends x.number_of_fixed_datum_records) <|
    Appends.seq (LawfulEnc.appends x.number_of_variable_datum_records) <|
    Appends.seq (LawfulEnc.appends x.fixed_datum_records) <|
    LawfulEnc.appends x.variable_datum_records
theorem EventReportReliablePdu.ifOk (x : EventReportReliablePdu) : WritesIfOk x.serializeBody (wire (sent x)) :=
    (EventReportReliablePdu.writes x).ifOk
theorem EventReportReliablePdu.reads (x : EventReportReliablePdu) : Reads EventReportReliablePdu.deserializeBody (wire (kept x)) (kept x) :=
    Reads.bind (reads_exact x.originating_entity_id) <|
    Reads.bind (reads_exact x.receiving_entity_id) <|
    Reads.bind (reads_exact x.event_type) <|
    Reads.bind (reads_exact x.padding) <|
    Reads.bind (reads_exact x.number_of_fixed_datum_records) <|
    Reads.bind (reads_exact x.number_of_variable_datum_records) <|
    Reads.bind (Reads.ret _) <|
    Reads.last (Reads.ret _) (Reads.ret _)
theorem EventReportReliablePdu.fixed : Fixed EventReportReliablePdu.deserializeBody 28 := Fixed.congr (
    Fixed.bind (FixedDec.fixed) fun _ =>
    Fixed.bind (FixedDec.fixed) fun _ =>
    Fixed.bind (FixedDec.fixed) fun _ =>
    Fixed.bind (FixedDec.fixed) fun _ =>
    Fixed.bind (FixedDec.fixed) fun _ =>
    Fixed.bind (FixedDec.fixed) fun _ =>
    Fixed.bind (FixedDec.fixed) fun _ =>
    Fixed.bind (FixedDec.fixed) fun _ =>
    Fixed.ret _) rfl
theorem EventReportReliablePdu.loc : Local EventReportReliablePdu.deserializeBody :=
    Local.bind (LocalDec.loc) fun _ =>
    Local.bind (LocalDec.loc) fun _ =>
    Local.bind (LocalDec.loc) fun _ =>
    Local.bind (LocalDec.loc) fun _ =>
    Local.bind (LocalDec.loc) fun _ =>
    Local.bind (LocalDec.loc) fun _ =>
    Local.bind (LocalDec.loc) fun _ =>
    Local.bind (LocalDec.loc) fun _ =>
    Local.ret _
theorem EventReportReliablePdu.under : OnlyUnderflow EventReportReliablePdu.deserializeBody :=
    OnlyUnderflow.bind (UnderflowDec.under) fun _ =>
    OnlyUnderflow.bind (UnderflowDec.under) fun _ =>
    OnlyUnderflow.bind (UnderflowDec.under) fun _ =>
    OnlyUnderflow.bind (UnderflowDec.under) fun _ =>
    OnlyUnderflow.bind (UnderflowDec.under) fun _ =>
    OnlyUnderflow.bind (UnderflowDec.under) fun _ =>
    OnlyUnderflow.bind (UnderflowDec.under) fun _ =>
    OnlyUnderflow.bind (UnderflowDec.under) fun _ =>
    OnlyUnderflow.ret _
theorem EventReportReliablePdu.split (x : EventReportReliablePdu) : wire x = wire (kept x) ++ tail x := by
  show wire x.originating_entity_id ++ (wire x.receiving_entity_id ++ (wire x.event_type ++ (wire x.padding ++ (wire x.number_of_fixed_datum_records ++ (wire x.number_of_variable_datum_records ++ (wire x.fixed_datum_records ++ (wire x.variable_datum_records)))))))
    = (wire x.originating_entity_id ++ (wire x.receiving_entity_id ++ (wire x.event_type ++ (wire x.padding ++ (wire x.number_of_fixed_datum_records ++ (wire x.number_of_variable_datum_records ++ ([] ++ ([]))))))))
      ++ (wire x.fixed_datum_records ++ (wire x.variable_datum_records))
  simp only [List.append_assoc, List.append_nil, List.nil_append]

theorem CommentReliablePdu.writes (x : CommentReliablePdu) : Writes x.serializeBody (wire (sent x)) :=
    Writes.seq (writes_exact x.originating_entity_id) <|
    Writes.seq (writes_exact x.receiving_entity_id) <|
    Writes.seq (writes_exact x.number_of_fixed_datum_records) <|
    Writes.seq (writes_exact x.number_of_variable_datum_records) <|
    Writes.seq (writes_exact x.fixed_datum_records) <|
    LawfulEnc.writes x.variable_datum_records (fun _ _ => trivial)
theorem CommentReliablePdu.len (x : CommentReliablePdu) : ((wire (sent x)).length : Int) = (x.fieldsLen : Nat) + surplus x := by
  show ((wire x.originating_entity_id ++ (wire x.receiving_entity_id ++ (wire x.number_of_fixed_datum_records ++ (wire x.number_of_variable_datum_records ++ (wire x.fixed_datum_records ++ (wire (sent x.variable_datum_records))))))).length : Int) = (x.fieldsLen : Nat) + (surplus x.variable_datum_records)
  simp only [List.length_append, CommentReliablePdu.fieldsLen]
  have h_originating_entity_id := len_exact x.originating_entity_id
  have h_receiving_entity_id := len_exact x.receiving_entity_id
  have h_number_of_fixed_datum_records := len_exact x.number_of_fixed_datum_records
  have h_number_of_variable_datum_records := len_exact x.number_of_variable_datum_records
  have h_fixed_datum_records := len_exact x.fixed_datum_records
  have h_variable_datum_records : ((wire (sent x.variable_datum_records)).length : Int) = field_len x.variable_datum_records + surplus x.variable_datum_records := LawfulEnc.len x.variable_datum_records
  omega
theorem CommentReliablePdu.appends (x : CommentReliablePdu) : Appends x.serializeBody :=
    Appends.seq (LawfulEnc.appends x.originating_entity_id) <|
    Appends.seq (LawfulEnc.appends x.receiving_entity_id) <|
    Appends.seq (LawfulEnc.appends x.number_of_fixed_datum_records) <|
    Appends.seq (LawfulEnc.appends x.number_of_variable_datum_records) <|
    Appends.seq (LawfulEnc.appends x.fixed_datum_records) <|
    LawfulEnc.appends x.variable_datum_records
theorem CommentReliablePdu.ifOk (x : CommentReliablePdu) : WritesIfOk x.serializeBody (wire (sent x)) :=
    (CommentReliablePdu.writes x).ifOk
theorem CommentReliablePdu.reads (x : CommentReliablePdu) : Reads CommentReliablePdu.deserializeBody (wire (kept x)) (kept x) :=
    Reads.bind (reads_exact x.originating_entity_id) <|
    Reads.bind (reads_exact x.receiving_entity_id) <|
    Reads.bind (reads_exact x.number_of_fixed_datum_records) <|
    Reads.bind (reads_exact x.number_of_variable_datum_records) <|
    Reads.bind (Reads.ret _) <|
    Reads.last (Reads.ret _) (Reads.ret _)
theorem CommentReliablePdu.fixed : Fixed CommentReliablePdu.deserializeBody 20 := Fixed.congr (
    Fixed.bind (FixedDec.fixed) fun _ =>
    Fixed.bind (FixedDec.fixed) fun _ =>
    Fixed.bind (FixedDec.fixed) fun _ =>
    Fixed.bind (FixedDec.fixed) fun _ =>
    Fixed.bind (FixedDec.fixed) fun _ =>
    Fixed.bind (FixedDec.fixed) fun _ =>
    Fixed.ret _) rfl
theorem CommentReliablePdu.loc : Local CommentReliablePdu.deserializeBody :=
    Local.bind (LocalDec.loc) fun _ =>
    Local.bind (LocalDec.loc) fun _ =>
    Local.bind (LocalDec.loc) fun _ =>
    Local.bind (LocalDec.loc) fun _ =>
    Local.bind (LocalDec.loc) fun _ =>
    Local.bind (LocalDec.loc) fun _ =>
    Local.ret _
theorem CommentReliablePdu.under : OnlyUnderflow CommentReliablePdu.deserializeBody :=
    OnlyUnderflow.bind (UnderflowDec.under) fun _ =>
    OnlyUnderflow.bind (UnderflowDec.under) fun _ =>
    OnlyUnderflow.bind (UnderflowDec.under) fun _ =>
    OnlyUnderflow.bind (UnderflowDec.under) fun _ =>
    OnlyUnderflow.bind (UnderflowDec.under) fun _ =>
    OnlyUnderflow.bind (UnderflowDec.under) fun _ =>
    OnlyUnderflow.ret _
theorem CommentReliablePdu.split (x : CommentReliablePdu) : wire x = wire (kept x) ++ tail x := by
  show wire x.originating_entity_id ++ (wire x.receiving_entity_id ++ (wire x.number_of_fixed_datum_records ++ (wire x.number_of_variable_datum_records ++ (wire x.fixed_datum_records ++ (wire x.variable_datum_records)))))
    = (wire x.originating_entity_id ++ (wire x.receiving_entity_id ++ (wire x.number_of_fixed_datum_records ++ (wire x.number_of_variable_datum_records ++ ([] ++ ([]))))))
      ++ (wire x.fixed_datum_records ++ (wire x.variable_datum_records))
  simp only [List.append_assoc, List.append_nil, List.nil_append]

theorem RecordQueryReliablePdu.writes (x : RecordQueryReliablePdu) : Writes x.serializeBody (wire (sent x)) :=
    Writes.seq (writes_exact x.originating_entity_id) <|
    Writes.seq (writes_exact x.receiving_entity_id) <|
    Writes.seq (writes_exact x.request_id) <|
    Writes.seq (writes_exact x.required_reliability_service) <|
    Writes.seq (writes_exact x.padding) <|
    Writes.seq (writes_exact x.event_type) <|
    Writes.seq (writes_exact x.time) <|
    Writes.seq (writes_exact x.number_of_records) <|
    writes_exact x.record_ids
theorem RecordQueryReliablePdu.len (x : RecordQueryReliablePdu) : ((wire (sent x)).length : Int) = (x.fieldsLen : Nat) + surplus x := by
  show ((wire x.originating_entity_id ++ (wire x.receiving_entity_id ++ (wire x.request_id ++ (wire x.required_reliability_service ++ (wire x.padding ++ (wire x.event_type ++ (wire x.time ++ (wire x.number_of_records ++ (wire x.record_ids))))))))).length : Int) = (x.fieldsLen : Nat) + ((0 : Int))
  simp only [List.length_append, RecordQueryReliablePdu.fieldsLen]
  have h_originating_entity_id := len_exact x.originating_entity_id
  have h_receiving_entity_id := len_exact x.receiving_entity_id
  have h_request_id := len_exact x.request_id
  have h_required_reliability_service := len_exact x.required_reliability_service
  have h_padding := len_exact x.padding
  have h_event_type := len_exact x.event_type
  have h_time := len_exact x.time
  have h_number_of_records := len_exact x.number_of_records
  have h_record_ids := len_exact x.record_ids
  omega
theorem RecordQueryReliablePdu.appends (x : RecordQueryReliablePdu) : Appends x.serializeBody :=
    Appends.seq (LawfulEnc.appends x.originating_entity_id) <|
    Appends.seq (LawfulEnc.appends x.receiving_entity_id) <|
    Appends.seq (LawfulEnc.appends x.request_id) <|
    Appends.seq (LawfulEnc.appends x.required_reliability_service) <|
    Appends.seq (LawfulEnc.appends x.padding) <|
    Appends.seq (LawfulEnc.appends x.event_type) <|
    Appends.seq (LawfulEnc.appends x.time) <|
    Appends.seq (LawfulEnc.appends x.number_of_records) <|
    LawfulEnc.appends x.record_ids
theorem RecordQueryReliablePdu.ifOk (x : RecordQueryReliablePdu) : WritesIfOk x.serializeBody (wire (sent x)) :=
    (RecordQueryReliablePdu.writes x).ifOk
theorem RecordQueryReliablePdu.reads (x : RecordQueryReliablePdu) : Reads RecordQueryReliablePdu.deserializeBody (wire (kept x)) (kept x) :=
    Reads.bind (reads_exact x.originating_entity_id) <|
    Reads.bind (reads_exact x.receiving_entity_id) <|
    Reads.bind (reads_exact x.request_id) <|
    Reads.bind (reads_exact x.required_reliability_service) <|
    Reads.bind (reads_exact x.padding) <|
    Reads.bind (reads_exact x.event_type) <|
    Reads.bind (reads_exact x.time) <|
    Reads.bind (reads_exact x.number_of_records) <|
    Reads.last (Reads.ret _) (Reads.ret _)
theorem RecordQueryReliablePdu.fixed : Fixed RecordQueryReliablePdu.deserializeBody 28 := Fixed.congr (
    Fixed.bind (FixedDec.fixed) fun _ =>
    Fixed.bind (FixedDec.fixed) fun _ =>
    Fixed.bind (FixedDec.fixed) fun _ =>
    Fixed.bind (FixedDec.fixed) fun _ =>
    Fixed.bind (FixedDec.fixed) fun _ =>
    Fixed.bind (FixedDec.fixed) fun _ =>
    Fixed.bind (FixedDec.fixed) fun _ =>
    Fixed.bind (FixedDec.fixed) fun _ =>
    Fixed.bind (FixedDec.fixed) fun _ =>
    Fixed.ret _) rfl
theorem RecordQueryReliablePdu.loc : Local RecordQueryReliablePdu.deserializeBody :=
    Local.bind (LocalDec.loc) fun _ =>
    Local.bind (LocalDec.loc) fun _ =>
    Local.bind (LocalDec.loc) fun _ =>
    Local.bind (LocalDec.loc) fun _ =>
    Local.bind (LocalDec.loc) fun _ =>
    Local.bind (LocalDec.loc) fun _ =>
    Local.bind (LocalDec.loc) fun _ =>
    Local.bind (LocalDec.loc) fun _ =>
    Local.bind (LocalDec.loc) fun _ =>
    Local.ret _
theorem RecordQueryReliablePdu.under : OnlyUnderflow RecordQueryReliablePdu.deserializeBody :=
    OnlyUnderflow.bind (UnderflowDec.under) fun _ =>
    OnlyUnderflow.bind (UnderflowDec.under) fun _ =>
    OnlyUnderflow.bind (UnderflowDec.under) fun _ =>
    OnlyUnderflow.bind (UnderflowDec.under) fun _ =>
    OnlyUnderflow.bind (UnderflowDec.under) fun _ =>
    OnlyUnderflow.bind (UnderflowDec.under) fun _ =>
    OnlyUnderflow.bind (UnderflowDec.under) fun _ =>
    OnlyUnderflow.bind (UnderflowDec.under) fun _ =>
    OnlyUnderflow.bind (UnderflowDec.under) fun _ =>
    OnlyUnderflow.ret _
theorem RecordQueryReliablePdu.split (x : RecordQueryReliablePdu) : wire x = wire (kept x) ++ tail x := by
  show wire x.originating_entity_id ++ (wire x.receiving_entity_id ++ (wire x.request_id ++ (wire x.required_reliability_service ++ (wire x.padding ++ (wire x.event_type ++ (wire x.time ++ (wire x.number_of_records ++ (wire x.record_ids))))))))
    = (wire x.originating_entity_id ++ (wire x.receiving_entity_id ++ (wire x.request_id ++ (wire x.required_reliability_service ++ (wire x.padding ++ (wire x.event_type ++ (wire x.time ++ (wire x.number_of_records ++ ([])))))))))
      ++ (wire x.record_ids)
  simp only [List.append_assoc, List.append_nil, List.nil_append]

theorem SetRecordReliablePdu.writes (x : SetRecordReliablePdu) (h : encodable x) : Writes x.serializeBody (wire (sent x)) :=
    Writes.seq (writes_exact x.originating_entity_id) <|
    Writes.seq (writes_exact x.receiving_entity_id) <|
    Writes.seq (writes_exact x.request_id) <|
    Writes.seq (writes_exact x.required_reliability_service) <|
    Writes.seq (writes_exact x.padding) <|
    Writes.seq (writes_exact x.padding2) <|
    Writes.seq (writes_exact x.padding3) <|
    LawfulEnc.writes x.record_sets h
theorem SetRecordReliablePdu.len (x : SetRecordReliablePdu) : ((wire (sent x)).length : Int) = (x.fieldsLen : Nat) + surplus x := by
  show ((wire x.originating_entity_id ++ (wire x.receiving_entity_id ++ (wire x.request_id ++ (wire x.required_reliability_service ++ (wire x.padding ++ (wire x.padding2 ++ (wire x.padding3 ++ (wire (sent x.record_sets))))))))).length : Int) = (x.fieldsLen : Nat) + (surplus x.record_sets)
  simp only [List.length_append, SetRecordReliablePdu.fieldsLen]
  have h_originating_entity_id := len_exact x.originating_entity_id
  have h_receiving_entity_id := len_exact x.receiving_entity_id
  have h_request_id := len_exact x.request_id
  have h_required_reliability_service := len_exact x.required_reliability_service
  have h_padding := len_exact x.padding
  have h_padding2 := len_exact x.padding2
  have h_padding3 := len_exact x.padding3
  have h_record_sets : ((wire (sent x.record_sets)).length : Int) = field_len x.record_sets + surplus x.record_sets := LawfulEnc.len x.record_sets
  omega
theorem SetRecordReliablePdu.appends (x : SetRecordReliablePdu) : Appends x.serializeBody :=
    Appends.seq (LawfulEnc.appends x.originating_entity_id) <|
    Appends.seq (LawfulEnc.appends x.receiving_entity_id) <|
    Appends.seq (LawfulEnc.appends x.request_id) <|
    Appends.seq (LawfulEnc.appends x.required_reliability_service) <|
    Appends.seq (LawfulEnc.appends x.padding) <|
    Appends.seq (LawfulEnc.appends x.padding2) <|
    Appends.seq (LawfulEnc.appends x.padding3) <|
    LawfulEnc.appends x.record_sets
theorem SetRecordReliablePdu.ifOk (x : SetRecordReliablePdu) : WritesIfOk x.serializeBody (wire (sent x)) :=
    WritesIfOk.seq ((writes_exact x.originating_entity_id).ifOk) <|
    WritesIfOk.seq ((writes_exact x.receiving_entity_id).ifOk) <|
    WritesIfOk.seq ((writes_exact x.request_id).ifOk) <|
    WritesIfOk.seq ((writes_exact x.required_reliability_service).ifOk) <|
    WritesIfOk.seq ((writes_exact x.padding).ifOk) <|
    WritesIfOk.seq ((writes_exact x.padding2).ifOk) <|
    WritesIfOk.seq ((writes_exact x.padding3).ifOk) <|
    LawfulEnc.ok x.record_sets
theorem SetRecordReliablePdu.reads (x : SetRecordReliablePdu) (h : decodable x) : Reads SetRecordReliablePdu.deserializeBody (wire (kept x)) (kept x) :=
    Reads.bind (reads_exact x.originating_entity_id) <|
    Reads.bind (reads_exact x.receiving_entity_id) <|
    Reads.bind (reads_exact x.request_id) <|
    Reads.bind (reads_exact x.required_reliability_service) <|
    Reads.bind (reads_exact x.padding) <|
    Reads.bind (reads_exact x.padding2) <|
    Reads.bind (reads_exact x.padding3) <|
    Reads.last (LawfulDec.reads x.record_sets h) (Reads.ret _)
theorem SetRecordReliablePdu.loc : Local SetRecordReliablePdu.deserializeBody :=
    Local.bind (LocalDec.loc) fun _ =>
    Local.bind (LocalDec.loc) fun _ =>
    Local.bind (LocalDec.loc) fun _ =>
    Local.bind (LocalDec.loc) fun _ =>
    Local.bind (LocalDec.loc) fun _ =>
    Local.bind (LocalDec.loc) fun _ =>
    Local.bind (LocalDec.loc) fun _ =>
    Local.bind (LocalDec.loc) fun _ =>
    Local.ret _
theorem SetRecordReliablePdu.split (x : SetRecordReliablePdu) : wire x = wire (kept x) ++ tail x := (List.append_nil _).symm

theorem EnvironmentalProcessPdu.writes (x : EnvironmentalProcessPdu) : Writes x.serializeBody (wire (sent x)) :=
    Writes.seq (writes_exact x.environmental_process_id) <|
    Writes.seq (writes_exact x.environment_type) <|
    Writes.seq (writes_exact x.model_type) <|
    Writes.seq (writes_exact x.environment_status) <|
    Writes.seq (writes_exact x.number_of_environment_records) <|
    Writes.seq (writes_exact x.sequence_number) <|
    writes_exact x.environment_records
theorem EnvironmentalProcessPdu.len (x : EnvironmentalProcessPdu) : ((wire (sent x)).length : Int) = (x.fieldsLen : Nat) + surplus x := by
  show ((wire x.environmental_process_id ++ (wire x.environment_type ++ (wire x.model_type ++ (wire x.environment_status ++ (wire x.number_of_environment_records ++ (wire x.sequence_number ++ (wire x.environment_records))))))).length : Int) = (x.fieldsLen : Nat) + ((0 : Int))
  simp only [List.length_append, EnvironmentalProcessPdu.fieldsLen]
  have h_environmental_process_id := len_exact x.environmental_process_id
  have h_environment_type := len_exact x.environment_type
  have h_model_type := len_exact x.model_type
  have h_environment_status := len_exact x.environment_status
  have h_number_of_environment_records := len_exact x.number_of_environment_records
  have h_sequence_number := len_exact x.sequence_number
  have h_environment_records := len_exact x.environment_records
  omega
theorem EnvironmentalProcessPdu.appends (x : EnvironmentalProcessPdu) : Appends x.serializeBody :=
    Appends.seq (LawfulEnc.appends x.environmental_process_id) <|
    Appends.seq (LawfulEnc.appends x.environment_type) <|
    Appends.seq (LawfulEnc.appends x.model_type) <|
    Appends.seq (LawfulEnc.appends x.environment_status) <|
    Appends.seq (LawfulEnc.appends x.number_of_environment_records) <|
    Appends.seq (LawfulEnc.appends x.sequence_number) <|
    LawfulEnc.appends x.environment_records
theorem EnvironmentalProcessPdu.ifOk (x : EnvironmentalProcessPdu) : WritesIfOk x.serializeBody (wire (sent x)) :=
    (EnvironmentalProcessPdu.writes x).ifOk
theorem EnvironmentalProcessPdu.reads (x : EnvironmentalProcessPdu) : Reads EnvironmentalProcessPdu.deserializeBody (wire (kept x)) (kept x) :=
    Reads.bind (reads_exact x.environmental_process_id) <|
    Reads.bind (reads_exact x.environment_type) <|
    Reads.bind (reads_exact x.model_type) <|
    Reads.bind (reads_exact x.environment_status) <|
    Reads.bind (reads_exact x.number_of_environment_records) <|
    Reads.bind (reads_exact x.sequence_number) <|
    Reads.last (Reads.ret _) (Reads.ret _)
theorem EnvironmentalProcessPdu.fixed : Fixed EnvironmentalProcessPdu.deserializeBody 20 := Fixed.congr (
    Fixed.bind (FixedDec.fixed) fun _ =>
    Fixed.bind (FixedDec.fixed) fun _ =>
    Fixed.bind (FixedDec.fixed) fun _ =>
    Fixed.bind (FixedDec.fixed) fun _ =>
    Fixed.bind (FixedDec.fixed) fun _ =>
    Fixed.bind (FixedDec.fixed) fun _ =>
    Fixed.bind (FixedDec.fixed) fun _ =>
    Fixed.ret _) rfl
theorem EnvironmentalProcessPdu.loc : Local EnvironmentalProcessPdu.deserializeBody :=
    Local.bind (LocalDec.loc) fun _ =>
    Local.bind (LocalDec.loc) fun _ =>
    Local.bind (LocalDec.loc) fun _ =>
    Local.bind (LocalDec.loc) fun _ =>
    Local.bind (LocalDec.loc) fun _ =>
    Local.bind (LocalDec.loc) fun _ =>
    Local.bind (LocalDec.loc) fun _ =>
    Local.ret _
theorem EnvironmentalProcessPdu.under : OnlyUnderflow EnvironmentalProcessPdu.deserializeBody :=
    OnlyUnderflow.bind (UnderflowDec.under) fun _ =>
    OnlyUnderflow.bind (UnderflowDec.under) fun _ =>
    OnlyUnderflow.bind (UnderflowDec.under) fun _ =>
    OnlyUnderflow.bind (UnderflowDec.under) fun _ =>
    OnlyUnderflow.bind (UnderflowDec.under) fun _ =>
    OnlyUnderflow.bind (UnderflowDec.under) fun _ =>
    OnlyUnderflow.bind (UnderflowDec.under) fun _ =>
    OnlyUnderflow.ret _
theorem EnvironmentalProcessPdu.split (x : EnvironmentalProcessPdu) : wire x = wire (kept x) ++ tail x := by
  show wire x.environmental_process_id ++ (wire x.environment_type ++ (wire x.model_type ++ (wire x.environment_status ++ (wire x.number_of_environment_records ++ (wire x.sequence_number ++ (wire x.environment_records))))))
    = (wire x.environmental_process_id ++ (wire x.environment_type ++ (wire x.model_type ++ (wire x.environment_status ++ (wire x.number_of_environment_records ++ (wire x.sequence_number ++ ([])))))))
      ++ (wire x.environment_records)
  simp only [List.append_assoc, List.append_nil, List.nil_append]

theorem GriddedDataPdu.writes (x : GriddedDataPdu) : Writes x.serializeBody (wire (sent x)) :=
    Writes.seq (writes_exact x.environmental_simulation_id) <|
    Writes.seq (writes_exact x.field_number) <|
    Writes.seq (writes_exact x.pdu_number) <|
    Writes.seq (writes_exact x.pdu_total) <|
    Writes.seq (writes_exact x.coordinate_system) <|
    Writes.seq (writes_exact x.number_of_grid_axes) <|
    Writes.seq (writes_exact x.constant_grid) <|
    Writes.seq (writes_exact x.environment_type) <|
    Writes.seq (writes_exact x.orientation) <|
    Writes.seq (writes_exact x.sample_time) <|
    Writes.seq (writes_exact x.total_values) <|
    Writes.seq (writes_exact x.vector_dimension) <|
    Writes.seq (writes_exact x.padding) <|
    Writes.seq (writes_exact x.padding2) <|
    Writes.seq (writes_exact x.grid_axis_descriptors) <|
    LawfulEnc.writes x.grid_data_list (fun _ _ => trivial)
theorem GriddedDataPdu.len (x : GriddedDataPdu) : ((wire (sent x)).length : Int) = (x.fieldsLen : Nat) + surplus x := by
  show ((wire x.environmental_simulation_id ++ (wire x.field_number ++ (wire x.pdu_number ++ (wire x.pdu_total ++ (wire x.coordinate_system ++ (wire x.number_of_grid_axes ++ (wire x.constant_grid ++ (wire x.environment_type ++ (wire x.orientation ++ (wire x.sample_time ++ (wire x.total_values ++ (wire x.vector_dimension ++ (wire x.padding ++ (wire x.padding2 ++ (wire x.grid_axis_descriptors ++ (wire (sent x.grid_data_list))))))))))))))))).length : Int) = (x.fieldsLen : Nat) + (surplus x.grid_data_list)
  simp only [List.length_append, GriddedDataPdu.fieldsLen]
  have h_environmental_simulation_id := len_exact x.environmental_simulation_id
  have h_field_number := len_exact x.field_number
  have h_pdu_number := len_exact x.pdu_number
  have h_pdu_total := len_exact x.pdu_total
  have h_coordinate_system := len_exact x.coordinate_system
  have h_number_of_grid_axes := len_exact x.number_of_grid_axes
  have h_constant_grid := len_exact x.constant_grid
  have h_environment_type := len_exact x.environment_type
  have h_orientation := len_exact x.orientation
  have h_sample_time := len_exact x.sample_time
  have h_total_values := len_exact x.total_values
  have h_vector_dimension := len_exact x.vector_dimension
  have h_padding := len_exact x.padding
  have h_padding2 := len_exact x.padding2
  have h_grid_axis_descriptors := len_exact x.grid_axis_descriptors
  have h_grid_data_list : ((wire (sent x.grid_data_list)).length : Int) = field_len x.grid_data_list + surplus x.grid_data_list := LawfulEnc.len x.grid_data_list
  omega
theorem GriddedDataPdu.appends (x : GriddedDataPdu) : Appends x.serializeBody :=
    Appends.seq (LawfulEnc.appends x.environmental_simulation_id) <|
    Appends.seq (LawfulEnc.appends x.field_number) <|
    Appends.seq (LawfulEnc.appends x.pdu_number) <|
    Appends.seq (LawfulEnc.appends x.pdu_total) <|
    Appends.seq (LawfulEnc.appends x.coordinate_system) <|
    Appends.seq (LawfulEnc.appends x.number_of_grid_axes) <|
    Appends.seq (LawfulEnc.appends x.constant_grid) <|
    Appends.seq (LawfulEnc.appends x.environment_type) <|
    Appends.seq (LawfulEnc.appends x.orientation) <|
    Appends.seq (LawfulEnc.appends x.sample_time) <|
    Appends.seq (LawfulEnc.appends x.total_values) <|
    Appends.seq (LawfulEnc.appends x.vector_dimension) <|
    Appends.seq (LawfulEnc.appends x.padding) <|
    Appends.seq (LawfulEnc.appends x.padding2) <|
    Appends.seq (LawfulEnc.appends x.grid_axis_descriptors) <|
    LawfulEnc.appends x.grid_data_list
theorem GriddedDataPdu.ifOk (x : GriddedDataPdu) : WritesIfOk x.serializeBody (wire (sent x)) :=
    (GriddedDataPdu.writes x).ifOk
theorem GriddedDataPdu.reads (x : GriddedDataPdu) : Reads GriddedDataPdu.deserializeBody (wire (kept x)) (kept x) :=
    Reads.bind (reads_exact x.environmental_simulation_id) <|
    Reads.bind (reads_exact x.field_number) <|
    Reads.bind (reads_exact x.pdu_number) <|
    Reads.bind (reads_exact x.pdu_total) <|
    Reads.bind (reads_exact x.coordinate_system) <|
    Reads.bind (reads_exact x.number_of_grid_axes) <|
    Reads.bind (reads_exact x.constant_grid) <|
    Reads.bind (reads_exact x.environment_type) <|
    Reads.bind (reads_exact x.orientation) <|
    Reads.bind (reads_exact x.sample_time) <|
    Reads.bind (reads_exact x.total_values) <|
    Reads.bind (reads_exact x.vector_dimension) <|
    Reads.bind (reads_exact x.padding) <|
    Reads.bind (reads_exact x.padding2) <|
    Reads.bind (Reads.ret _) <|
    Reads.last (Reads.ret _) (Reads.ret _)
theorem GriddedDataPdu.fixed : Fixed GriddedDataPdu.deserializeBody 52 := Fixed.congr (
    Fixed.bind (FixedDec.fixed) fun _ =>
    Fixed.bind (FixedDec.fixed) fun _ =>
    Fixed.bind (FixedDec.fixed) fun _ =>
    Fixed.bind (FixedDec.fixed) fun _ =>
    Fixed.bind (FixedDec.fixed) fun _ =>
    Fixed.bind (FixedDec.fixed) fun _ =>
    Fixed.bind (FixedDec.fixed) fun _ =>
    Fixed.bind (FixedDec.fixed) fun _ =>
    Fixed.bind (FixedDec.fixed) fun _ =>
    Fixed.bind (FixedDec.fixed) fun _ =>
    Fixed.bind (FixedDec.fixed) fun _ =>
    Fixed.bind (FixedDec.fixed) fun _ =>
    Fixed.bind (FixedDec.fixed) fun _ =>
    Fixed.bind (FixedDec.fixed) fun _ =>
    Fixed.bind (FixedDec.fixed) fun _ =>
    Fixed.bind (FixedDec.fixed) fun _ =>
    Fixed.ret _) rfl
theorem GriddedDataPdu.loc : Local GriddedDataPdu.deserializeBody :=
    Local.bind (LocalDec.loc) fun _ =>
    Local.bind (LocalDec.loc) fun _ =>
    Local.bind (LocalDec.loc) fun _ =>
    Local.bind (LocalDec.loc) fun _ =>
    Local.bind (LocalDec.loc) fun _ =>
    Local.bind (LocalDec.loc) fun _ =>
    Local.bind (LocalDec.loc) fun _ =>
    Local.bind (LocalDec.loc) fun _ =>
    Local.bind (LocalDec.loc) fun _ =>
    Local.bind (LocalDec.loc) fun _ =>
    Local.bind (LocalDec.loc) fun _ =>
    Local.bind (LocalDec.loc) fun _ =>
    Local.bind (LocalDec.loc) fun _ =>
    Local.bind (LocalDec.loc) fun _ =>
    Local.bind (LocalDec.loc) fun _ =>
    Local.bind (LocalDec.loc) fun _ =>
    Local.ret _
theorem GriddedDataPdu.under : OnlyUnderflow GriddedDataPdu.deserializeBody :=
    OnlyUnderflow.bind (UnderflowDec.under) fun _ =>
    OnlyUnderflow.bind (UnderflowDec.under) fun _ =>
    OnlyUnderflow.bind (UnderflowDec.under) fun _ =>
    OnlyUnderflow.bind (UnderflowDec.under) fun _ =>
    OnlyUnderflow.bind (UnderflowDec.under) fun _ =>
    OnlyUnderflow.bind (UnderflowDec.under) fun _ =>
    OnlyUnderflow.bind (UnderflowDec.under) fun _ =>
    OnlyUnderflow.bind (UnderflowDec.under) fun _ =>
    OnlyUnderflow.bind (UnderflowDec.under) fun _ =>
    OnlyUnderflow.bind (UnderflowDec.under) fun _ =>
    OnlyUnderflow.bind (UnderflowDec.under) fun _ =>
    OnlyUnderflow.bind (UnderflowDec.under) fun _ =>
    OnlyUnderflow.bind (UnderflowDec.under) fun _ =>
    OnlyUnderflow.bind (UnderflowDec.under) fun _ =>
    OnlyUnderflow.bind (UnderflowDec.under) fun _ =>
    OnlyUnderflow.bind (UnderflowDec.under) fun _ =>
    OnlyUnderflow.ret _
theorem GriddedDataPdu.split (x : GriddedDataPdu) : wire x = wire (kept x) ++ tail x := by
  show wire x.environmental_simulation_id ++ (wire x.field_number ++ (wire x.pdu_number ++ (wire x.pdu_total ++ (wire x.coordinate_system ++ (wire x.number_of_grid_axes ++ (wire x.constant_grid ++ (wire x.environment_type ++ (wire x.orientation ++ (wire x.sample_time ++ (wire x.total_values ++ (wire x.vector_dimension ++ (wire x.padding ++ (wire x.padding2 ++ (wire x.grid_axis_descriptors ++ (wire x.grid_data_list)))))))))))))))
    = (wire x.environmental_simulation_id ++ (wire x.field_number ++ (wire x.pdu_number ++ (wire x.pdu_total ++ (wire x.coordinate_system ++ (wire x.number_of_grid_axes ++ (wire x.constant_grid ++ (wire x.environment_type ++ (wire x.orientation ++ (wire x.sample_time ++ (wire x.total_values ++ (wire x.vector_dimension ++ (wire x.padding ++ (wire x.padding2 ++ ([] ++ ([]))))))))))))))))
      ++ (wire x.grid_axis_descriptors ++ (wire x.grid_data_list))
  simp only [List.append_assoc, List.append_nil, List.nil_append]

theorem PointObjectStatePdu.writes (x : PointObjectStatePdu) : Writes x.serializeBody (wire (sent x)) :=
    Writes.seq (writes_exact x.object_id) <|
    Writes.seq (writes_exact x.referenced_object_id) <|
    Writes.seq (writes_exact x.update_number) <|
    Writes.seq (writes_exact x.force_id) <|
    Writes.seq (writes_exact x.modifications) <|
    Writes.seq (writes_exact x.object_type) <|
    Writes.seq (writes_exact x.object_location) <|
    Writes.seq (writes_exact x.object_orientation) <|
    Writes.seq (writes_exact x.specific_object_appearance) <|
    Writes.seq (writes_exact x.general_object_appearance) <|
    Writes.seq (writes_exact x.padding) <|
    Writes.seq (writes_exact x.requester_id) <|
    Writes.seq (writes_exact x.receiving_id) <|
    writes_exact x.padding2
theorem PointObjectStatePdu.len (x : PointObjectStatePdu) : ((wire (sent x)).length : Int) = (x.fieldsLen : Nat) + surplus x := by
  show ((wire x.object_id ++ (wire x.referenced_object_id ++ (wire x.update_number ++ (wire x.force_id ++ (wire x.modifications ++ (wire x.object_type ++ (wire x.object_location ++ (wire x.object_orientation ++ (wire x.specific_object_appearance ++ (wire x.general_object_appearance ++ (wire x.padding ++ (wire x.requester_id ++ (wire x.receiving_id ++ (wire x.padding2)))))))))))))).length : Int) = (x.fieldsLen : Nat) + ((0 : Int))
  simp only [List.length_append, PointObjectStatePdu.fieldsLen]
  have h_object_id := len_exact x.object_id
  have h_referenced_object_id := len_exact x.referenced_object_id
  have h_update_number := len_exact x.update_number
  have h_force_id := len_exact x.force_id
  have h_modifications := len_exact x.modifications
  have h_object_type := len_exact x.object_type
  have h_object_location := len_exact x.object_location
  have h_object_orientation := len_exact x.object_orientation
  have h_specific_object_appearance := len_exact x.specific_object_appearance
  have h_general_object_appearance := len_exact x.general_object_appearance
  have h_padding := len_exact x.padding
  have h_requester_id := len_exact x.requester_id
  have h_receiving_id := len_exact x.receiving_id
  have h_padding2 := len_exact x.padding2
  omega
theorem PointObjectStatePdu.appends (x : PointObjectStatePdu) : Appends x.serializeBody :=
    Appends.seq (LawfulEnc.appends x.object_id) <|
    Appends.seq (LawfulEnc.appends x.referenced_object_id) <|
    Appends.seq (LawfulEnc.appends x.update_number) <|
    Appends.seq (LawfulEnc.appends x.force_id) <|
    Appends.seq (LawfulEnc.appends x.modifications) <|
    Appends.seq (LawfulEnc.appends x.object_type) <|
    Appends.seq (LawfulEnc.appends x.object_location) <|
    Appends.seq (LawfulEnc.appends x.object_orientation) <|
    Appends.seq (LawfulEnc.appends x.specific_object_appearance) <|
    Appends.seq (LawfulEnc.appends x.general_object_appearance) <|
    Appends.seq (LawfulEnc.appends x.padding) <|
    Appends.seq (LawfulEnc.appends x.requester_id) <|
    Appends.seq (LawfulEnc.appends x.receiving_id) <|
    LawfulEnc.appends x.padding2
theorem PointObjectStatePdu.ifOk (x : PointObjectStatePdu) : WritesIfOk x.serializeBody (wire (sent x)) :=
    (PointObjectStatePdu.writes x).ifOk
theorem PointObjectStatePdu.reads (x : PointObjectStatePdu) : Reads PointObjectStatePdu.deserializeBody (wire (kept x)) (kept x) :=
    Reads.bind (reads_exact x.object_id) <|
    Reads.bind (reads_exact x.referenced_object_id) <|
    Reads.bind (reads_exact x.update_number) <|
    Reads.bind (reads_exact x.force_id) <|
    Reads.bind (reads_exact x.modifications) <|
    Reads.bind (reads_exact x.object_type) <|
    Reads.bind (reads_exact x.object_location) <|
    Reads.bind (reads_exact x.object_orientation) <|
    Reads.bind (reads_exact x.specific_object_appearance) <|
    Reads.bind (reads_exact x.general_object_appearance) <|
    Reads.bind (reads_exact x.padding) <|
    Reads.bind (reads_exact x.requester_id) <|
    Reads.bind (reads_exact x.receiving_id) <|
    Reads.last (reads_exact x.padding2) (Reads.ret _)
theorem PointObjectStatePdu.fixed : Fixed PointObjectStatePdu.deserializeBody 76 := Fixed.congr (
    Fixed.bind (FixedDec.fixed) fun _ =>
    Fixed.bind (FixedDec.fixed) fun _ =>
    Fixed.bind (FixedDec.fixed) fun _ =>
    Fixed.bind (FixedDec.fixed) fun _ =>
    Fixed.bind (FixedDec.fixed) fun _ =>
    Fixed.bind (FixedDec.fixed) fun _ =>
    Fixed.bind (FixedDec.fixed) fun _ =>
    Fixed.bind (FixedDec.fixed) fun _ =>
    Fixed.bind (FixedDec.fixed) fun _ =>
    Fixed.bind (FixedDec.fixed) fun _ =>
    Fixed.bind (FixedDec.fixed) fun _ =>
    Fixed.bind (FixedDec.fixed) fun _ =>
    Fixed.bind (FixedDec.fixed) fun _ =>
    Fixed.bind (FixedDec.fixed) fun _ =>
    Fixed.ret _) rfl
theorem PointObjectStatePdu.loc : Local PointObjectStatePdu.deserializeBody :=
    Local.bind (LocalDec.loc) fun _ =>
    Local.bind (LocalDec.loc) fun _ =>
    Local.bind (LocalDec.loc) fun _ =>
    Local.bind (LocalDec.loc) fun _ =>
    Local.bind (LocalDec.loc) fun _ =>
    Local.bind (LocalDec.loc) fun _ =>
    Local.bind (LocalDec.loc) fun _ =>
    Local.bind (LocalDec.loc) fun _ =>
    Local.bind (LocalDec.loc) fun _ =>
    Local.bind (LocalDec.loc) fun _ =>
    Local.bind (LocalDec.loc) fun _ =>
    Local.bind (LocalDec.loc) fun _ =>
    Local.bind (LocalDec.loc) fun _ =>
    Local.bind (LocalDec.loc) fun _ =>
    Local.ret _
theorem PointObjectStatePdu.under : OnlyUnderflow PointObjectStatePdu.deserializeBody :=
    OnlyUnderflow.bind (UnderflowDec.under) fun _ =>
    OnlyUnderflow.bind (UnderflowDec.under) fun _ =>
    OnlyUnderflow.bind (UnderflowDec.under) fun _ =>
    OnlyUnderflow.bind (UnderflowDec.under) fun _ =>
    OnlyUnderflow.bind (UnderflowDec.under) fun _ =>
    OnlyUnderflow.bind (UnderflowDec.under) fun _ =>
    OnlyUnderflow.bind (UnderflowDec.under) fun _ =>
    OnlyUnderflow.bind (UnderflowDec.under) fun _ =>
    OnlyUnderflow.bind (UnderflowDec.under) fun _ =>
    OnlyUnderflow.bind (UnderflowDec.under) fun _ =>
    OnlyUnderflow.bind (UnderflowDec.under) fun _ =>
    OnlyUnderflow.bind (UnderflowDec.under) fun _ =>
    OnlyUnderflow.bind (UnderflowDec.under) fun _ =>
    OnlyUnderflow.bind (UnderflowDec.under) fun _ =>
    OnlyUnderflow.ret _
theorem PointObjectStatePdu.split (x : PointObjectStatePdu) : wire x = wire (kept x) ++ tail x := (List.append_nil _).symm

theorem LinearObjectStatePdu.writes (x : LinearObjectStatePdu) : Writes x.serializeBody (wire (sent x)) :=
    Writes.seq (writes_exact x.object_id) <|
    Writes.seq (writes_exact x.referenced_object_id) <|
    Writes.seq (writes_exact x.update_number) <|
    Writes.seq (writes_exact x.force_id) <|
    Writes.seq (writes_exact x.number_of_segments) <|
    Writes.seq (writes_exact x.requester_id) <|
    Writes.seq (writes_exact x.receiving_id) <|
    Writes.seq (writes_exact x.object_type) <|
    writes_exact x.linear_segment_parameters
theorem LinearObjectStatePdu.len (x : LinearObjectStatePdu) : ((wire (sent x)).length : Int) = (x.fieldsLen : Nat) + surplus x := by
  show ((wire x.object_id ++ (wire x.referenced_object_id ++ (wire x.update_number ++ (wire x.force_id ++ (wire x.number_of_segments ++ (wire x.requester_id ++ (wire x.receiving_id ++ (wire x.object_type ++ (wire x.linear_segment_parameters))))))))).length : Int) = (x.fieldsLen : Nat) + ((0 : Int))
  simp only [List.length_append, LinearObjectStatePdu.fieldsLen]
  have h_object_id := len_exact x.object_id
  have h_referenced_object_id := len_exact x.referenced_object_id
  have h_update_number := len_exact x.update_number
  have h_force_id := len_exact x.force_id
  have h_number_of_segments := len_exact x.number_of_segments
  have h_requester_id := len_exact x.requester_id
  have h_receiving_id := len_exact x.receiving_id
  have h_object_type := len_exact x.object_type
  have h_linear_segment_parameters := len_exact x.linear_segment_parameters
  omega
theorem LinearObjectStatePdu.appends (x : LinearObjectStatePdu) : Appends x.serializeBody :=
    Appends.seq (LawfulEnc.appends x.object_id) <|
    Appends.seq (LawfulEnc.appends x.referenced_object_id) <|
    Appends.seq (LawfulEnc.appends x.update_number) <|
    Appends.seq (LawfulEnc.appends x.force_id) <|
    Appends.seq (LawfulEnc.appends x.number_of_segments) <|
    Appends.seq (LawfulEnc.appends x.requester_id) <|
    Appends.seq (LawfulEnc.appends x.receiving_id) <|
    Appends.seq (LawfulEnc.appends x.object_type) <|
    LawfulEnc.appends x.linear_segment_parameters
theorem LinearObjectStatePdu.ifOk (x : LinearObjectStatePdu) : WritesIfOk x.serializeBody (wire (sent x)) :=
    (LinearObjectStatePdu.writes x).ifOk
theorem LinearObjectStatePdu.reads (x : LinearObjectStatePdu) : Reads LinearObjectStatePdu.deserializeBody (wire (kept x)) (kept x) :=
    Reads.bind (reads_exact x.object_id) <|
    Reads.bind (reads_exact x.referenced_object_id) <|
    Reads.bind (reads_exact x.update_number) <|
    Reads.bind (reads_exact x.force_id) <|
    Reads.bind (reads_exact x.number_of_segments) <|
    Reads.bind (reads_exact x.requester_id) <|
    Reads.bind (reads_exact x.receiving_id) <|
    Reads.bind (reads_exact x.object_type) <|
    Reads.last (Reads.ret _) (Reads.ret _)
theorem LinearObjectStatePdu.fixed : Fixed LinearObjectStatePdu.deserializeBody 28 := Fixed.congr (
    Fixed.bind (FixedDec.fixed) fun _ =>
    Fixed.bind (FixedDec.fixed) fun _ =>
    Fixed.bind (FixedDec.fixed) fun _ =>
    Fixed.bind (FixedDec.fixed) fun _ =>
    Fixed.bind (FixedDec.fixed) fun _ =>
    Fixed.bind (FixedDec.fixed) fun _ =>
    Fixed.bind (FixedDec.fixed) fun _ =>
    Fixed.bind (FixedDec.fixed) fun _ =>
    Fixed.bind (FixedDec.fixed) fun _ =>
    Fixed.ret _) rfl
theorem LinearObjectStatePdu.loc : Local LinearObjectStatePdu.deserializeBody :=
    Local.bind (LocalDec.loc) fun _ =>
    Local.bind (LocalDec.loc) fun _ =>
    Local.bind (LocalDec.loc) fun _ =>
    Local.bind (LocalDec.loc) fun _ =>
    Local.bind (LocalDec.loc) fun _ =>
    Local.bind (LocalDec.loc) fun _ =>
    Local.bind (LocalDec.loc) fun _ =>
    Local.bind (LocalDec.loc) fun _ =>
    Local.bind (LocalDec.loc) fun _ =>
    Local.ret _
theorem LinearObjectStatePdu.under : OnlyUnderflow LinearObjectStatePdu.deserializeBody :=
    OnlyUnderflow.bind (UnderflowDec.under) fun _ =>
    OnlyUnderflow.bind (UnderflowDec.under) fun _ =>
    OnlyUnderflow.bind (UnderflowDec.under) fun _ =>
    OnlyUnderflow.bind (UnderflowDec.under) fun _ =>
    OnlyUnderflow.bind (UnderflowDec.under) fun _ =>
    OnlyUnderflow.bind (UnderflowDec.under) fun _ =>
    OnlyUnderflow.bind (UnderflowDec.under) fun _ =>
    OnlyUnderflow.bind (UnderflowDec.under) fun _ =>
    OnlyUnderflow.bind (UnderflowDec.under) fun _ =>
    OnlyUnderflow.ret _
theorem LinearObjectStatePdu.split (x : LinearObjectStatePdu) : wire x = wire (kept x) ++ tail x := by
  show wire x.object_id ++ (wire x.referenced_object_id ++ (wire x.update_number ++ (wire x.force_id ++ (wire x.number_of_segments ++ (wire x.requester_id ++ (wire x.receiving_id ++ (wire x.object_type ++ (wire x.linear_segment_parameters))))))))
    = (wire x.object_id ++ (wire x.referenced_object_id ++ (wire x.update_number ++ (wire x.force_id ++ (wire x.number_of_segments ++ (wire x.requester_id ++ (wire x.receiving_id ++ (wire x.object_type ++ ([])))))))))
      ++ (wire x.linear_segment_parameters)
  simp only [List.append_assoc, List.append_nil, List.nil_append]

theorem ArealObjectStatePdu.writes (x : ArealObjectStatePdu) : Writes x.serializeBody (wire (sent x)) :=
    Writes.seq (writes_exact x.object_id) <|
    Writes.seq (writes_exact x.referenced_object_id) <|
    Writes.seq (writes_exact x.update_number) <|
    Writes.seq (writes_exact x.force_id) <|
    Writes.seq (writes_exact x.modifications) <|
    Writes.seq (writes_exact x.object_type) <|
    Writes.seq (writes_exact x.specific_object_appearance) <|
    Writes.seq (writes_exact x.general_object_appearance) <|
    Writes.seq (writes_exact x.number_of_points) <|
    Writes.seq (writes_exact x.requester_id) <|
    Writes.seq (writes_exact x.receiving_id) <|
    writes_exact x.object_location
theorem ArealObjectStatePdu.len (x : ArealObjectStatePdu) : ((wire (sent x)).length : Int) = (x.fieldsLen : Nat) + surplus x := by
  show ((wire x.object_id ++ (wire x.referenced_object_id ++ (wire x.update_number ++ (wire x.force_id ++ (wire x.modifications ++ (wire x.object_type ++ (wire x.specific_object_appearance ++ (wire x.general_object_appearance ++ (wire x.number_of_points ++ (wire x.requester_id ++ (wire x.receiving_id ++ (wire x.object_location)))))))))))).length : Int) = (x.fieldsLen : Nat) + ((0 : Int))
  simp only [List.length_append, ArealObjectStatePdu.fieldsLen]
  have h_object_id := len_exact x.object_id
  have h_referenced_object_id := len_exact x.referenced_object_id
  have h_update_number := len_exact x.update_number
  have h_force_id := len_exact x.force_id
  have h_modifications := len_exact x.modifications
  have h_object_type := len_exact x.object_type
  have h_specific_object_appearance := len_exact x.specific_object_appearance
  have h_general_object_appearance := len_exact x.general_object_appearance
  have h_number_of_points := len_exact x.number_of_points
  have h_requester_id := len_exact x.requester_id
  have h_receiving_id := len_exact x.receiving_id
  have h_object_location := len_exact x.object_location
  omega
theorem ArealObjectStatePdu.appends (x : ArealObjectStatePdu) : Appends x.serializeBody :=
    Appends.seq (LawfulEnc.appends x.object_id) <|
    Appends.seq (LawfulEnc.appends x.referenced_object_id) <|
    Appends.seq (LawfulEnc.appends x.update_number) <|
    Appends.seq (LawfulEnc.appends x.force_id) <|
    Appends.seq (LawfulEnc.appends x.modifications) <|
    Appends.seq (LawfulEnc.appends x.object_type) <|
    Appends.seq (LawfulEnc.appends x.specific_object_appearance) <|
    Appends.seq (LawfulEnc.appends x.general_object_appearance) <|
    Appends.seq (LawfulEnc.appends x.number_of_points) <|
    Appends.seq (LawfulEnc.appends x.requester_id) <|
    Appends.seq (LawfulEnc.appends x.receiving_id) <|
    LawfulEnc.appends x.object_location
theorem ArealObjectStatePdu.ifOk (x : ArealObjectStatePdu) : WritesIfOk x.serializeBody (wire (sent x)) :=
    (ArealObjectStatePdu.writes x).ifOk
theorem ArealObjectStatePdu.reads (x : ArealObjectStatePdu) (h : decodable x) : Reads ArealObjectStatePdu.deserializeBody (wire (kept x)) (kept x) :=
    Reads.bind (reads_exact x.object_id) <|
    Reads.bind (reads_exact x.referenced_object_id) <|
    Reads.bind (reads_exact x.update_number) <|
    Reads.bind (reads_exact x.force_id) <|
    Reads.bind (reads_exact x.modifications) <|
    Reads.bind (reads_exact x.object_type) <|
    Reads.bind (reads_exact x.specific_object_appearance) <|
    Reads.bind (LawfulDec.reads x.general_object_appearance h) <|
    Reads.bind (reads_exact x.number_of_points) <|
    Reads.bind (reads_exact x.requester_id) <|
    Reads.bind (reads_exact x.receiving_id) <|
    Reads.last (Reads.ret _) (Reads.ret _)
theorem ArealObjectStatePdu.fixed : Fixed ArealObjectStatePdu.deserializeBody 36 := Fixed.congr (
    Fixed.bind (FixedDec.fixed) fun _ =>
    Fixed.bind (FixedDec.fixed) fun _ =>
    Fixed.bind (FixedDec.fixed) fun _ =>
    Fixed.bind (FixedDec.fixed) fun _ =>
    Fixed.bind (FixedDec.fixed) fun _ =>
    Fixed.bind (FixedDec.fixed) fun _ =>
    Fixed.bind (FixedDec.fixed) fun _ =>
    Fixed.bind (FixedDec.fixed) fun _ =>
    Fixed.bind (FixedDec.fixed) fun _ =>
    Fixed.bind (FixedDec.fixed) fun _ =>
    Fixed.bind (FixedDec.fixed) fun _ =>
    Fixed.bind (FixedDec.fixed) fun _ =>
    Fixed.ret _) rfl
theorem ArealObjectStatePdu.loc : Local ArealObjectStatePdu.deserializeBody :=
    Local.bind (LocalDec.loc) fun _ =>
    Local.bind (LocalDec.loc) fun _ =>
    Local.bind (LocalDec.loc) fun _ =>
    Local.bind (LocalDec.loc) fun _ =>
    Local.bind (LocalDec.loc) fun _ =>
    Local.bind (LocalDec.loc) fun _ =>
    Local.bind (LocalDec.loc) fun _ =>
    Local.bind (LocalDec.loc) fun _ =>
    Local.bind (LocalDec.loc) fun _ =>
    Local.bind (LocalDec.loc) fun _ =>
    Local.bind (LocalDec.loc) fun _ =>
    Local.bind (LocalDec.loc) fun _ =>
    Local.ret _
theorem ArealObjectStatePdu.under : OnlyUnderflow ArealObjectStatePdu.deserializeBody :=
    OnlyUnderflow.bind (UnderflowDec.under) fun _ =>
    OnlyUnderflow.bind (UnderflowDec.under) fun _ =>
    OnlyUnderflow.bind (UnderflowDec.under) fun _ =>
    OnlyUnderflow.bind (UnderflowDec.under) fun _ =>
    OnlyUnderflow.bind (UnderflowDec.under) fun _ =>
    OnlyUnderflow.bind (UnderflowDec.under) fun _ =>
    OnlyUnderflow.bind (UnderflowDec.under) fun _ =>
    OnlyUnderflow.bind (UnderflowDec.under) fun _ =>
    OnlyUnderflow.bind (UnderflowDec.under) fun _ =>
    OnlyUnderflow.bind (UnderflowDec.under) fun _ =>
    OnlyUnderflow.bind (UnderflowDec.under) fun _ =>
    OnlyUnderflow.bind (UnderflowDec.under) fun _ =>
    OnlyUnderflow.ret _
theorem ArealObjectStatePdu.split (x : ArealObjectStatePdu) : wire x = wire (kept x) ++ tail x := by
  show wire x.object_id ++ (wire x.referenced_object_id ++ (wire x.update_number ++ (wire x.force_id ++ (wire x.modifications ++ (wire x.object_type ++ (wire x.specific_object_appearance ++ (wire x.general_object_appearance ++ (wire x.number_of_points ++ (wire x.requester_id ++ (wire x.receiving_id ++ (wire x.object_location)))))))))))
    = (wire x.object_id ++ (wire x.referenced_object_id ++ (wire x.update_number ++ (wire x.force_id ++ (wire x.modifications ++ (wire x.object_type ++ (wire x.specific_object_appearance ++ (wire x.general_object_appearance ++ (wire x.number_of_points ++ (wire x.requester_id ++ (wire x.receiving_id ++ ([]))))))))))))
      ++ (wire x.object_location)
  simp only [List.append_assoc, List.append_nil, List.nil_append]

theorem FirePdu.writes (x : FirePdu) : Writes x.serializeBody (wire (sent x)) :=
    Writes.seq (writes_exact x.firing_entity_id) <|
    Writes.seq (writes_exact x.target_entity_id) <|
    Writes.seq (writes_exact x.munition_expendable_id) <|
    Writes.seq (writes_exact x.event_id) <|
    Writes.seq (writes_exact x.fire_mission_index) <|
    Writes.seq (writes_exact x.location_in_world_coordinates) <|
    Writes.seq (writes_exact x.descriptor) <|
    Writes.seq (writes_exact x.velocity) <|
    writes_exact x.range
theorem FirePdu.len (x : FirePdu) : ((wire (sent x)).length : Int) = (x.fieldsLen : Nat) + surplus x := by
  show ((wire x.firing_entity_id ++ (wire x.target_entity_id ++ (wire x.munition_expendable_id ++ (wire x.event_id ++ (wire x.fire_mission_index ++ (wire x.location_in_world_coordinates ++ (wire x.descriptor ++ (wire x.velocity ++ (wire x.range))))))))).length : Int) = (x.fieldsLen : Nat) + ((0 : Int))
  simp only [List.length_append, FirePdu.fieldsLen]
  have h_firing_entity_id := len_exact x.firing_entity_id
  have h_target_entity_id := len_exact x.target_entity_id
  have h_munition_expendable_id := len_exact x.munition_expendable_id
  have h_event_id := len_exact x.event_id
  have h_fire_mission_index := len_exact x.fire_mission_index
  have h_location_in_world_coordinates := len_exact x.location_in_world_coordinates
  have h_descriptor := len_exact x.descriptor
  have h_velocity := len_exact x.velocity
  have h_range := len_exact x.range
  omega
theorem FirePdu.appends (x : FirePdu) : Appends x.serializeBody :=
    Appends.seq (LawfulEnc.appends x.firing_entity_id) <|
    Appends.seq (LawfulEnc.appends x.target_entity_id) <|
    Appends.seq (LawfulEnc.appends x.munition_expendable_id) <|
    Appends.seq (LawfulEnc.appends x.event_id) <|
    Appends.seq (LawfulEnc.appends x.fire_mission_index) <|
    Appends.seq (LawfulEnc.appends x.location_in_world_coordinates) <|
    Appends.seq (LawfulEnc.appends x.descriptor) <|
    Appends.seq (LawfulEnc.appends x.velocity) <|
    LawfulEnc.appends x.range
theorem FirePdu.ifOk (x : FirePdu) : WritesIfOk x.serializeBody (wire (sent x)) :=
    (FirePdu.writes x).ifOk
theorem FirePdu.reads (x : FirePdu) : Reads FirePdu.deserializeBody (wire (kept x)) (kept x) :=
    Reads.bind (reads_exact x.firing_entity_id) <|
    Reads.bind (reads_exact x.target_entity_id) <|
    Reads.bind (reads_exact x.munition_expendable_id) <|
    Reads.bind (reads_exact x.event_id) <|
    Reads.bind (reads_exact x.fire_mission_index) <|
    Reads.bind (reads_exact x.location_in_world_coordinates) <|
    Reads.bind (reads_exact x.descriptor) <|
    Reads.bind (reads_exact x.velocity) <|
    Reads.last (reads_exact x.range) (Reads.ret _)
theorem FirePdu.fixed : Fixed FirePdu.deserializeBody 84 := Fixed.congr (
    Fixed.bind (FixedDec.fixed) fun _ =>
    Fixed.bind (FixedDec.fixed) fun _ =>
    Fixed.bind (FixedDec.fixed) fun _ =>
    Fixed.bind (FixedDec.fixed) fun _ =>
    Fixed.bind (FixedDec.fixed) fun _ =>
    Fixed.bind (FixedDec.fixed) fun _ =>
    Fixed.bind (FixedDec.fixed) fun _ =>
    Fixed.bind (FixedDec.fixed) fun _ =>
    Fixed.bind (FixedDec.fixed) fun _ =>
    Fixed.ret _) rfl
theorem FirePdu.loc : Local FirePdu.deserializeBody :=
    Local.bind (LocalDec.loc) fun _ =>
    Local.bind (LocalDec.loc) fun _ =>
    Local.bind (LocalDec.loc) fun _ =>
    Local.bind (LocalDec.loc) fun _ =>
    Local.bind (LocalDec.loc) fun _ =>
    Local.bind (LocalDec.loc) fun _ =>
    Local.bind (LocalDec.loc) fun _ =>
    Local.bind (LocalDec.loc) fun _ =>
    Local.bind (LocalDec.loc) fun _ =>
    Local.ret _
theorem FirePdu.under : OnlyUnderflow FirePdu.deserializeBody :=
    OnlyUnderflow.bind (UnderflowDec.under) fun _ =>
    OnlyUnderflow.bind (UnderflowDec.under) fun _ =>
    OnlyUnderflow.bind (UnderflowDec.under) fun _ =>
    OnlyUnderflow.bind (UnderflowDec.under) fun _ =>
    OnlyUnderflow.bind (UnderflowDec.under) fun _ =>
    OnlyUnderflow.bind (UnderflowDec.under) fun _ =>
    OnlyUnderflow.bind (UnderflowDec.under) fun _ =>
    OnlyUnderflow.bind (UnderflowDec.under) fun _ =>
    OnlyUnderflow.bind (UnderflowDec.under) fun _ =>
    OnlyUnderflow.ret _
theorem FirePdu.split (x : FirePdu) : wire x = wire (kept x) ++ tail x := (List.append_nil _).symm

theorem DetonationPdu.writes (x : DetonationPdu) : Writes x.serializeBody (wire (sent x)) :=
    Writes.seq (writes_exact x.firing_entity_id) <|
    Writes.seq (writes_exact x.target_entity_id) <|
    Writes.seq (writes_exact x.exploding_entity_id) <|
    Writes.seq (writes_exact x.event_id) <|
    Writes.seq (writes_exact x.velocity) <|
    Writes.seq (writes_exact x.location_in_world_coordinates) <|
    Writes.seq (writes_exact x.descriptor) <|
    Writes.seq (writes_exact x.location_in_entitys_coordinates) <|
    Writes.seq (writes_exact x.detonation_result) <|
    Writes.seq (writes_exact x.number_of_variable_parameters) <|
    Writes.seq (writes_exact x.padding) <|
    writes_exact x.variable_parameters
theorem DetonationPdu.len (x : DetonationPdu) : ((wire (sent x)).length : Int) = (x.fieldsLen : Nat) + surplus x := by
  show ((wire x.firing_entity_id ++ (wire x.target_entity_id ++ (wire x.exploding_entity_id ++ (wire x.event_id ++ (wire x.velocity ++ (wire x.location_in_world_coordinates ++ (wire x.descriptor ++ (wire x.location_in_entitys_coordinates ++ (wire x.detonation_result ++ (wire x.number_of_variable_parameters ++ (wire x.padding ++ (wire x.variable_parameters)))))))))))).length : Int) = (x.fieldsLen : Nat) + ((0 : Int))
  simp only [List.length_append, DetonationPdu.fieldsLen]
  have h_firing_entity_id := len_exact x.firing_entity_id
  have h_target_entity_id := len_exact x.target_entity_id
  have h_exploding_entity_id := len_exact x.exploding_entity_id
  have h_event_id := len_exact x.event_id
  have h_velocity := len_exact x.velocity
  have h_location_in_world_coordinates := len_exact x.location_in_world_coordinates
  have h_descriptor := len_exact x.descriptor
  have h_location_in_entitys_coordinates := len_exact x.location_in_entitys_coordinates
  have h_detonation_result := len_exact x.detonation_result
  have h_number_of_variable_parameters := len_exact x.number_of_variable_parameters
  have h_padding := len_exact x.padding
  have h_variable_parameters := len_exact x.variable_parameters
  omega
theorem DetonationPdu.appends (x : DetonationPdu) : Appends x.serializeBody :=
    Appends.seq (LawfulEnc.appends x.firing_entity_id) <|
    Appends.seq (LawfulEnc.appends x.target_entity_id) <|
    Appends.seq (LawfulEnc.appends x.exploding_entity_id) <|
    Appends.seq (LawfulEnc.appends x.event_id) <|
    Appends.seq (LawfulEnc.appends x.velocity) <|
    Appends.seq (LawfulEnc.appends x.location_in_world_coordinates) <|
    Appends.seq (LawfulEnc.appends x.descriptor) <|
    Appends.seq (LawfulEnc.appends x.location_in_entitys_coordinates) <|
    Appends.seq (LawfulEnc.appends x.detonation_result) <|
    Appends.seq (LawfulEnc.appends x.number_of_variable_parameters) <|
    Appends.seq (LawfulEnc.appends x.padding) <|
    LawfulEnc.appends x.variable_parameters
theorem DetonationPdu.ifOk (x : DetonationPdu) : WritesIfOk x.serializeBody (wire (sent x)) :=
    (DetonationPdu.writes x).ifOk
theorem DetonationPdu.reads (x : DetonationPdu) : Reads DetonationPdu.deserializeBody (wire (kept x)) (kept x) :=
    Reads.bind (reads_exact x.firing_entity_id) <|
    Reads.bind (reads_exact x.target_entity_id) <|
    Reads.bind (reads_exact x.exploding_entity_id) <|
    Reads.bind (reads_exact x.event_id) <|
    Reads.bind (reads_exact x.velocity) <|
    Reads.bind (reads_exact x.location_in_world_coordinates) <|
    Reads.bind (reads_exact x.descriptor) <|
    Reads.bind (reads_exact x.location_in_entitys_coordinates) <|
    Reads.bind (reads_exact x.detonation_result) <|
    Reads.bind (reads_exact x.number_of_variable_parameters) <|
    Reads.bind (reads_exact x.padding) <|
    Reads.last (Reads.ret _) (Reads.ret _)
theorem DetonationPdu.fixed : Fixed DetonationPdu.deserializeBody 92 := Fixed.congr (
    Fixed.bind (FixedDec.fixed) fun _ =>
    Fixed.bind (FixedDec.fixed) fun _ =>
    Fixed.bind (FixedDec.fixed) fun _ =>
    Fixed.bind (FixedDec.fixed) fun _ =>
    Fixed.bind (FixedDec.fixed) fun _ =>
    Fixed.bind (FixedDec.fixed) fun _ =>
    Fixed.bind (FixedDec.fixed) fun _ =>
    Fixed.bind (FixedDec.fixed) fun _ =>
    Fixed.bind (FixedDec.fixed) fun _ =>
    Fixed.bind (FixedDec.fixed) fun _ =>
    Fixed.bind (FixedDec.fixed) fun _ =>
    Fixed.bind (FixedDec.fixed) fun _ =>
    Fixed.ret _) rfl
theorem DetonationPdu.loc : Local DetonationPdu.deserializeBody :=
    Local.bind (LocalDec.loc) fun _ =>
    Local.bind (LocalDec.loc) fun _ =>
    Local.bind (LocalDec.loc) fun _ =>
    Local.bind (LocalDec.loc) fun _ =>
    Local.bind (LocalDec.loc) fun _ =>
    Local.bind (LocalDec.loc) fun _ =>
    Local.bind (LocalDec.loc) fun _ =>
    Local.bind (LocalDec.loc) fun _ =>
    Local.bind (LocalDec.loc) fun _ =>
    Local.bind (LocalDec.loc) fun _ =>
    Local.bind (LocalDec.loc) fun _ =>
    Local.bind (LocalDec.loc) fun _ =>
    Local.ret _
theorem DetonationPdu.under : OnlyUnderflow DetonationPdu.deserializeBody :=
    OnlyUnderflow.bind (UnderflowDec.under) fun _ =>
    OnlyUnderflow.bind (UnderflowDec.under) fun _ =>
    OnlyUnderflow.bind (UnderflowDec.under) fun _ =>
    OnlyUnderflow.bind (UnderflowDec.under) fun _ =>
    OnlyUnderflow.bind (UnderflowDec.under) fun _ =>
    OnlyUnderflow.bind (UnderflowDec.under) fun _ =>
    OnlyUnderflow.bind (UnderflowDec.under) fun _ =>
    OnlyUnderflow.bind (UnderflowDec.under) fun _ =>
    OnlyUnderflow.bind (UnderflowDec.under) fun _ =>
    OnlyUnderflow.bind (UnderflowDec.under) fun _ =>
    OnlyUnderflow.bind (UnderflowDec.under) fun _ =>
    OnlyUnderflow.bind (UnderflowDec.under) fun _ =>
    OnlyUnderflow.ret _
theorem DetonationPdu.split (x : DetonationPdu) : wire x = wire (kept x) ++ tail x := by
  show wire x.firing_entity_id ++ (wire x.target_entity_id ++ (wire x.exploding_entity_id ++ (wire x.event_id ++ (wire x.velocity ++ (wire x.location_in_world_coordinates ++ (wire x.descriptor ++ (wire x.location_in_entitys_coordinates ++ (wire x.detonation_result ++ (wire x.number_of_variable_parameters ++ (wire x.padding ++ (wire x.variable_parameters)))))))))))
    = (wire x.firing_entity_id ++ (wire x.target_entity_id ++ (wire x.exploding_entity_id ++ (wire x.event_id ++ (wire x.velocity ++ (wire x.location_in_world_coordinates ++ (wire x.descriptor ++ (wire x.location_in_entitys_coordinates ++ (wire x.detonation_result ++ (wire x.number_of_variable_parameters ++ (wire x.padding ++ ([]))))))))))))
      ++ (wire x.variable_parameters)
  simp only [List.append_assoc, List.append_nil, List.nil_append]

theorem DirectedEnergyFirePdu.writes (x : DirectedEnergyFirePdu) : Writes x.serializeBody (wire (sent x)) :=
    Writes.seq (writes_exact x.firing_entity_id) <|
    Writes.seq (writes_exact x.event_id) <|
    Writes.seq (writes_exact x.munition_type) <|
    Writes.seq (writes_exact x.shot_start_time) <|
    Writes.seq (writes_exact x.cumulative_shot_time) <|
    Writes.seq (writes_exact x.aperture_emitter_location) <|
    Writes.seq (writes_exact x.aperture_diameter) <|
    Writes.seq (writes_exact x.wavelength) <|
    Writes.seq (writes_exact x.padding) <|
    Writes.seq (writes_exact x.pulse_repetition_frequency) <|
    Writes.seq (writes_exact x.pulse_width) <|
    Writes.seq (writes_exact x.flags) <|
    Writes.seq (writes_exact x.pulse_shape) <|
    Writes.seq (writes_exact x.padding2) <|
    Writes.seq (writes_exact x.padding3) <|
    Writes.seq (writes_exact x.padding4) <|
    Writes.seq (writes_exact x.number_of_de_records) <|
    writes_exact x.damage_descriptions
theorem DirectedEnergyFirePdu.len (x : DirectedEnergyFirePdu) : ((wire (sent x)).length : Int) = (x.fieldsLen : Nat) + surplus x := by
  show ((wire x.firing_entity_id ++ (wire x.event_id ++ (wire x.munition_type ++ (wire x.shot_start_time ++ (wire x.cumulative_shot_time ++ (wire x.aperture_emitter_location ++ (wire x.aperture_diameter ++ (wire x.wavelength ++ (wire x.padding ++ (wire x.pulse_repetition_frequency ++ (wire x.pulse_width ++ (wire x.flags ++ (wire x.pulse_shape ++ (wire x.padding2 ++ (wire x.padding3 ++ (wire x.padding4 ++ (wire x.number_of_de_records ++ (wire x.damage_descriptions)))))))))))))))))).length : Int) = (x.fieldsLen : Nat) + ((0 : Int))
  simp only [List.length_append, DirectedEnergyFirePdu.fieldsLen]
  have h_firing_entity_id := len_exact x.firing_entity_id
  have h_event_id := len_exact x.event_id
  have h_munition_type := len_exact x.munition_type
  have h_shot_start_time := len_exact x.shot_start_time
  have h_cumulative_shot_time := len_exact x.cumulative_shot_time
  have h_aperture_emitter_location := len_exact x.aperture_emitter_location
  have h_aperture_diameter := len_exact x.aperture_diameter
  have h_wavelength := len_exact x.wavelength
  have h_padding := len_exact x.padding
  have h_pulse_repetition_frequency := len_exact x.pulse_repetition_frequency
  have h_pulse_width := len_exact x.pulse_width
  have h_flags := len_exact x.flags
  have h_pulse_shape := len_exact x.pulse_shape
  have h_padding2 := len_exact x.padding2
  have h_padding3 := len_exact x.padding3
  have h_padding4 := len_exact x.padding4
  have h_number_of_de_records := len_exact x.number_of_de_records
  have h_damage_descriptions := len_exact x.damage_descriptions
  omega
theorem DirectedEnergyFirePdu.appends (x : DirectedEnergyFirePdu) : Appends x.serializeBody :=
    Appends.seq (LawfulEnc.appends x.firing_entity_id) <|
    Appends.seq (LawfulEnc.appends x.event_id) <|
    Appends.seq (LawfulEnc.appends x.munition_type) <|
    Appends.seq (LawfulEnc.appends x.shot_start_time) <|
    Appends.seq (LawfulEnc.appends x.cumulative_shot_time) <|
    Appends.seq (LawfulEnc.appends x.aperture_emitter_location) <|
    Appends.seq (LawfulEnc.appends x.aperture_diameter) <|
    Appends.seq (LawfulEnc.appends x.wavelength) <|
    Appends.seq (LawfulEnc.appends x.padding) <|
    Appends.seq (LawfulEnc.appends x.pulse_repetition_frequency) <|
    Appends.seq (LawfulEnc.appends x.pulse_width) <|
    Appends.seq (LawfulEnc.appends x.flags) <|
    Appends.seq (LawfulEnc.appends x.pulse_shape) <|
    Appends.seq (LawfulEnc.appends x.padding2) <|
    Appends.seq (LawfulEnc.appends x.padding3) <|
    Appends.seq (LawfulEnc.appends x.padding4) <|
    Appends.seq (LawfulEnc.appends x.number_of_de_records) <|
    LawfulEnc.appends x.damage_descriptions
theorem DirectedEnergyFirePdu.ifOk (x : DirectedEnergyFirePdu) : WritesIfOk x.serializeBody (wire (sent x)) :=
    (DirectedEnergyFirePdu.writes x).ifOk
theorem DirectedEnergyFirePdu.reads (x : DirectedEnergyFirePdu) : Reads DirectedEnergyFirePdu.deserializeBody (wire (kept x)) (kept x) :=
    Reads.bind (reads_exact x.firing_entity_id) <|
    Reads.bind (reads_exact x.event_id) <|
    Reads.bind (reads_exact x.munition_type) <|
    Reads.bind (reads_exact x.shot_start_time) <|
    Reads.bind (reads_exact x.cumulative_shot_time) <|
    Reads.bind (reads_exact x.aperture_emitter_location) <|
    Reads.bind (reads_exact x.aperture_diameter) <|
    Reads.bind (reads_exact x.wavelength) <|
    Reads.bind (reads_exact x.padding) <|
    Reads.bind (reads_exact x.pulse_repetition_frequency) <|
    Reads.bind (reads_exact x.pulse_width) <|
    Reads.bind (reads_exact x.flags) <|
    Reads.bind (reads_exact x.pulse_shape) <|
    Reads.bind (reads_exact x.padding2) <|
    Reads.bind (reads_exact x.padding3) <|
    Reads.bind (reads_exact x.padding4) <|
    Reads.bind (reads_exact x.number_of_de_records) <|
    Reads.last (Reads.ret _) (Reads.ret _)
theorem DirectedEnergyFirePdu.fixed : Fixed DirectedEnergyFirePdu.deserializeBody 76 := Fixed.congr (
    Fixed.bind (FixedDec.fixed) fun _ =>
    Fixed.bind (FixedDec.fixed) fun _ =>
    Fixed.bind (FixedDec.fixed) fun _ =>
    Fixed.bind (FixedDec.fixed) fun _ =>
    Fixed.bind (FixedDec.fixed) fun _ =>
    Fixed.bind (FixedDec.fixed) fun _ =>
    Fixed.bind (FixedDec.fixed) fun _ =>
    Fixed.bind (FixedDec.fixed) fun _ =>
    Fixed.bind (FixedDec.fixed) fun _ =>
    Fixed.bind (FixedDec.fixed) fun _ =>
    Fixed.bind (FixedDec.fixed) fun _ =>
    Fixed.bind (FixedDec.fixed) fun _ =>
    Fixed.bind (FixedDec.fixed) fun _ =>
    Fixed.bind (FixedDec.fixed) fun _ =>
    Fixed.bind (FixedDec.fixed) fun _ =>
    Fixed.bind (FixedDec.fixed) fun _ =>
    Fixed.bind (FixedDec.fixed) fun _ =>
    Fixed.bind (FixedDec.fixed) fun _ =>
    Fixed.ret _) rfl
theorem DirectedEnergyFirePdu.loc : Local DirectedEnergyFirePdu.deserializeBody :=
    Local.bind (LocalDec.loc) fun _ =>
    Local.bind (LocalDec.loc) fun _ =>
    Local.bind (LocalDec.loc) fun _ =>
    Local.bind (LocalDec.loc) fun _ =>
    Local.bind (LocalDec.loc) fun _ =>
    Local.bind (LocalDec.loc) fun _ =>
    Local.bind (LocalDec.loc) fun _ =>
    Local.bind (LocalDec.loc) fun _ =>
    Local.bind (LocalDec.loc) fun _ =>
    Local.bind (LocalDec.loc) fun _ =>
    Local.bind (LocalDec.loc) fun _ =>
    Local.bind (LocalDec.loc) fun _ =>
    Local.bind (LocalDec.loc) fun _ =>
    Local.bind (LocalDec.loc) fun _ =>
    Local.bind (LocalDec.loc) fun _ =>
    Local.bind (LocalDec.loc) fun _ =>
    Local.bind (LocalDec.loc) fun _ =>
    Local.bind (LocalDec.loc) fun _ =>
    Local.ret _
theorem DirectedEnergyFirePdu.under : OnlyUnderflow DirectedEnergyFirePdu.deserializeBody :=
    OnlyUnderflow.bind (UnderflowDec.under) fun _ =>
    OnlyUnderflow.bind (UnderflowDec.under) fun _ =>
    OnlyUnderflow.bind (UnderflowDec.under) fun _ =>
    OnlyUnderflow.bind (UnderflowDec.under) fun _ =>
    OnlyUnderflow.bind (UnderflowDec.under) fun _ =>
    OnlyUnderflow.bind (UnderflowDec.under) fun _ =>
    OnlyUnderflow.bind (UnderflowDec.under) fun _ =>
    OnlyUnderflow.bind (UnderflowDec.under) fun _ =>
    OnlyUnderflow.bind (UnderflowDec.under) fun _ =>
    OnlyUnderflow.bind (UnderflowDec.under) fun _ =>
    OnlyUnderflow.bind (UnderflowDec.under) fun _ =>
    OnlyUnderflow.bind (UnderflowDec.under) fun _ =>
    OnlyUnderflow.bind (UnderflowDec.under) fun _ =>
    OnlyUnderflow.bind (UnderflowDec.under) fun _ =>
    OnlyUnderflow.bind (UnderflowDec.under) fun _ =>
    OnlyUnderflow.bind (UnderflowDec.under) fun _ =>
    OnlyUnderflow.bind (UnderflowDec.under) fun _ =>
    OnlyUnderflow.bind (UnderflowDec.under) fun _ =>
    OnlyUnderflow.ret _
theorem DirectedEnergyFirePdu.split (x : DirectedEnergyFirePdu) : wire x = wire (kept x) ++ tail x := by
  show wire x.firing_entity_id ++ (wire x.event_id ++ (wire x.munition_type ++ (wire x.shot_start_time ++ (wire x.cumulative_shot_time ++ (wire x.aperture_emitter_location ++ (wire x.aperture_diameter ++ (wire x.wavelength ++ (wire x.padding ++ (wire x.pulse_repetition_frequency ++ (wire x.pulse_width ++ (wire x.flags ++ (wire x.pulse_shape ++ (wire x.padding2 ++ (wire x.padding3 ++ (wire x.padding4 ++ (wire x.number_of_de_records ++ (wire x.damage_descriptions)))))))))))))))))
    = (wire x.firing_entity_id ++ (wire x.event_id ++ (wire x.munition_type ++ (wire x.shot_start_time ++ (wire x.cumulative_shot_time ++ (wire x.aperture_emitter_location ++ (wire x.aperture_diameter ++ (wire x.wavelength ++ (wire x.padding ++ (wire x.pulse_repetition_frequency ++ (wire x.pulse_width ++ (wire x.flags ++ (wire x.pulse_shape ++ (wire x.padding2 ++ (wire x.padding3 ++ (wire x.padding4 ++ (wire x.number_of_de_records ++ ([]))))))))))))))))))
      ++ (wire x.damage_descriptions)
  simp only [List.append_assoc, List.append_nil, List.nil_append]

theorem EntityDamageStatusPdu.writes (x : EntityDamageStatusPdu) : Writes x.serializeBody (wire (sent x)) :=
    Writes.seq (writes_exact x.damaged_entity_id) <|
    Writes.seq (writes_exact x.padding) <|
    Writes.seq (writes_exact x.padding2) <|
    Writes.seq (writes_exact x.number_of_damage_descriptions) <|
    writes_exact x.damage_descriptions
theorem EntityDamageStatusPdu.len (x : EntityDamageStatusPdu) : ((wire (sent x)).length : Int) = (x.fieldsLen : Nat) + surplus x := by
  show ((wire x.damaged_entity_id ++ (wire x.padding ++ (wire x.padding2 ++ (wire x.number_of_damage_descriptions ++ (wire x.damage_descriptions))))).length : Int) = (x.fieldsLen : Nat) + ((0 : Int))
  simp only [List.length_append, EntityDamageStatusPdu.fieldsLen]
  have h_damaged_entity_id := len_exact x.damaged_entity_id
  have h_padding := len_exact x.padding
  have h_padding2 := len_exact x.padding2
  have h_number_of_damage_descriptions := len_exact x.number_of_damage_descriptions
  have h_damage_descriptions := len_exact x.damage_descriptions
  omega
theorem EntityDamageStatusPdu.appends (x : EntityDamageStatusPdu) : Appends x.serializeBody :=
    Appends.seq (LawfulEnc.appends x.damaged_entity_id) <|
    Appends.seq (LawfulEnc.appends x.padding) <|
    Appends.seq (LawfulEnc.appends x.padding2) <|
    Appends.seq (LawfulEnc.appends x.number_of_damage_descriptions) <|
    LawfulEnc.appends x.damage_descriptions
theorem EntityDamageStatusPdu.ifOk (x : EntityDamageStatusPdu) : WritesIfOk x.serializeBody (wire (sent x)) :=
    (EntityDamageStatusPdu.writes x).ifOk
theorem EntityDamageStatusPdu.reads (x : EntityDamageStatusPdu) : Reads EntityDamageStatusPdu.deserializeBody (wire (kept x)) (kept x) :=
    Reads.bind (reads_exact x.damaged_entity_id) <|
    Reads.bind (reads_exact x.padding) <|
    Reads.bind (reads_exact x.padding2) <|
    Reads.bind (reads_exact x.number_of_damage_descriptions) <|
    Reads.last (Reads.ret _) (Reads.ret _)
theorem EntityDamageStatusPdu.fixed : Fixed EntityDamageStatusPdu.deserializeBody 12 := Fixed.congr (
    Fixed.bind (FixedDec.fixed) fun _ =>
    Fixed.bind (FixedDec.fixed) fun _ =>
    Fixed.bind (FixedDec.fixed) fun _ =>
    Fixed.bind (FixedDec.fixed) fun _ =>
    Fixed.bind (FixedDec.fixed) fun _ =>
    Fixed.ret _) rfl
theorem EntityDamageStatusPdu.loc : Local EntityDamageStatusPdu.deserializeBody :=
    Local.bind (LocalDec.loc) fun _ =>
    Local.bind (LocalDec.loc) fun _ =>
    Local.bind (LocalDec.loc) fun _ =>
    Local.bind (LocalDec.loc) fun _ =>
    Local.bind (LocalDec.loc) fun _ =>
    Local.ret _
theorem EntityDamageStatusPdu.under : OnlyUnderflow EntityDamageStatusPdu.deserializeBody :=
    OnlyUnderflow.bind (UnderflowDec.under) fun _ =>
    OnlyUnderflow.bind (UnderflowDec.under) fun _ =>
    OnlyUnderflow.bind (UnderflowDec.under) fun _ =>
    OnlyUnderflow.bind (UnderflowDec.under) fun _ =>
    OnlyUnderflow.bind (UnderflowDec.under) fun _ =>
    OnlyUnderflow.ret _
theorem EntityDamageStatusPdu.split (x : EntityDamageStatusPdu) : wire x = wire (kept x) ++ tail x := by
  show wire x.damaged_entity_id ++ (wire x.padding ++ (wire x.padding2 ++ (wire x.number_of_damage_descriptions ++ (wire x.damage_descriptions))))
    = (wire x.damaged_entity_id ++ (wire x.padding ++ (wire x.padding2 ++ (wire x.number_of_damage_descriptions ++ ([])))))
      ++ (wire x.damage_descriptions)
  simp only [List.append_assoc, List.append_nil, List.nil_append]

end Dis
