import Verif.Model.PduKind
/-
Specification for C04: which PDUs carry records whose octets are not all counted.
-/
namespace Dis

/-- The variable datum records of a PDU (fourteen kinds have them). -/
def PduKind.datums : (k : PduKind) → k.Body → Option (List VariableDatumRecord)
  | .AggregateState => fun (x : AggregateStatePdu) => some x.variable_datum_list
  | .ActionRequest => fun (x : ActionRequestPdu) => some x.variable_datum_records
  | .ActionResponse => fun (x : ActionResponsePdu) => some x.variable_datum_records
  | .DataQuery => fun (x : DataQueryPdu) => some x.variable_datum_records
  | .SetData => fun (x : SetDataPdu) => some x.variable_datum_records
  | .Data => fun (x : DataPdu) => some x.variable_datum_records
  | .EventReport => fun (x : EventReportPdu) => some x.variable_datum_records
  | .Comment => fun (x : CommentPdu) => some x.variable_datum_records
  | .ActionRequestReliable => fun (x : ActionRequestReliablePdu) => some x.variable_datum_records
  | .ActionResponseReliable => fun (x : ActionResponseReliablePdu) => some x.variable_datum_records
  | .SetDataReliable => fun (x : SetDataReliablePdu) => some x.variable_datum_records
  | .DataReliable => fun (x : DataReliablePdu) => some x.variable_datum_records
  | .EventReportReliable => fun (x : EventReportReliablePdu) => some x.variable_datum_records
  | .CommentReliable => fun (x : CommentReliablePdu) => some x.variable_datum_records
  | _ => fun _ => none

/-- The record sets of a PDU (two kinds have them). -/
def PduKind.recordSets : (k : PduKind) → k.Body → Option (List RecordSpecificationElement)
  | .TransferOwnership => fun (x : TransferOwnershipPdu) => some x.record_information.record_sets
  | .SetRecordReliable => fun (x : SetRecordReliablePdu) => some x.record_sets.record_sets
  | _ => fun _ => none

/-- Zero octets written after a datum of so many bits: up to the next multiple of eight octets. -/
def datumPadding (bits : Nat) : Nat := (8 - (bits + 7) / 8 % 8) % 8

end Dis
