import Verif.Spec.PduLayout4
import Verif.Proofs.LayoutRecords
import Verif.Proofs.Pdus4
/- Generated by tools/gen_layout.py. -/
set_option maxRecDepth 8000
namespace Dis

def DataQueryReliablePdu.slots : List (Slot DataQueryReliablePdu) :=
  Slot.cons (·.originating_entity_id) EntityId.slots 6 <|
  Slot.cons (·.receiving_entity_id) EntityId.slots 6 <|
  Slot.cons (·.required_reliability_service) [Slot.enum 0 1 id] 1 <|
  Slot.cons (·.padding) [Slot.u8 0 id] 1 <|
  Slot.cons (·.padding2) [Slot.u16 0 id] 2 <|
  Slot.cons (·.request_id) [Slot.u32 0 id] 4 <|
  Slot.cons (·.time_interval) [Slot.u32 0 id] 4 <|
  Slot.cons (·.number_of_fixed_datum_records) [Slot.u32 0 id] 4 <|
  Slot.cons (·.number_of_variable_datum_records) [Slot.u32 0 id] 4 <|
  []
theorem DataQueryReliablePdu.layout_eq : DataQueryReliablePdu.layout = DataQueryReliablePdu.slots.map (Slot.shift 12) := (rfl)
theorem DataQueryReliablePdu.written (x : DataQueryReliablePdu) : Written DataQueryReliablePdu.slots x (wire (sent x)) :=
    Written.cons (EntityId.written x.originating_entity_id) (EntityId.wire_length _) <|
    Written.cons (EntityId.written x.receiving_entity_id) (EntityId.wire_length _) <|
    Written.cons (written_enum rfl x.required_reliability_service) (octets_length _ _) <|
    Written.cons (written_u8 x.padding) (octets_length _ _) <|
    Written.cons (written_u16 x.padding2) (octets_length _ _) <|
    Written.cons (written_u32 x.request_id) (octets_length _ _) <|
    Written.cons (written_u32 x.time_interval) (octets_length _ _) <|
    Written.cons (written_u32 x.number_of_fixed_datum_records) (octets_length _ _) <|
    Written.cons (written_u32 x.number_of_variable_datum_records) (octets_length _ _) <|
    Written.nil _ _
theorem DataQueryReliablePdu.finds : Finds DataQueryReliablePdu.deserializeBody (ReadFrom DataQueryReliablePdu.slots) := FindsAt.finds <|
    FindsAt.cons (π := fun x : DataQueryReliablePdu => x.originating_entity_id) (EntityId.fixed) (EntityId.finds) fun _ =>
    FindsAt.cons (π := fun x : DataQueryReliablePdu => x.receiving_entity_id) (EntityId.fixed) (EntityId.finds) fun _ =>
    FindsAt.cons (π := fun x : DataQueryReliablePdu => x.required_reliability_service) (EnumSpec.fixed _) (EnumSpec.finds _ rfl) fun _ =>
    FindsAt.cons (π := fun x : DataQueryReliablePdu => x.padding) (fixed_u8) (finds_u8) fun _ =>
    FindsAt.cons (π := fun x : DataQueryReliablePdu => x.padding2) (fixed_u16) (finds_u16) fun _ =>
    FindsAt.cons (π := fun x : DataQueryReliablePdu => x.request_id) (fixed_u32) (finds_u32) fun _ =>
    FindsAt.cons (π := fun x : DataQueryReliablePdu => x.time_interval) (fixed_u32) (finds_u32) fun _ =>
    FindsAt.cons (π := fun x : DataQueryReliablePdu => x.number_of_fixed_datum_records) (fixed_u32) (finds_u32) fun _ =>
    FindsAt.cons (π := fun x : DataQueryReliablePdu => x.number_of_variable_datum_records) (fixed_u32) (finds_u32) fun _ =>
    FindsAt.skip fun _ =>
    FindsAt.skip fun _ =>
    FindsAt.ret ⟨⟨⟨⟨⟨⟨⟨⟨⟨trivial, rfl⟩, rfl⟩, rfl⟩, rfl⟩, rfl⟩, rfl⟩, rfl⟩, rfl⟩, rfl⟩

def SetDataReliablePdu.slots : List (Slot SetDataReliablePdu) :=
  Slot.cons (·.originating_entity_id) EntityId.slots 6 <|
  Slot.cons (·.receiving_entity_id) EntityId.slots 6 <|
  Slot.cons (·.required_reliability_service) [Slot.enum 0 1 id] 1 <|
  Slot.cons (·.padding) [Slot.u8 0 id] 1 <|
  Slot.cons (·.padding2) [Slot.u16 0 id] 2 <|
  Slot.cons (·.request_id) [Slot.u32 0 id] 4 <|
  Slot.cons (·.number_of_fixed_datum_records) [Slot.u32 0 id] 4 <|
  Slot.cons (·.number_of_variable_datum_records) [Slot.u32 0 id] 4 <|
  []
theorem SetDataReliablePdu.layout_eq : SetDataReliablePdu.layout = SetDataReliablePdu.slots.map (Slot.shift 12) := (rfl)
theorem SetDataReliablePdu.written (x : SetDataReliablePdu) : Written SetDataReliablePdu.slots x (wire (sent x)) :=
    Written.cons (EntityId.written x.originating_entity_id) (EntityId.wire_length _) <|
    Written.cons (EntityId.written x.receiving_entity_id) (EntityId.wire_length _) <|
    Written.cons (written_enum rfl x.required_reliability_service) (octets_length _ _) <|
    Written.cons (written_u8 x.padding) (octets_length _ _) <|
    Written.cons (written_u16 x.padding2) (octets_length _ _) <|
    Written.cons (written_u32 x.request_id) (octets_length _ _) <|
    Written.cons (written_u32 x.number_of_fixed_datum_records) (octets_length _ _) <|
    Written.cons (written_u32 x.number_of_variable_datum_records) (octets_length _ _) <|
    Written.nil _ _
theorem SetDataReliablePdu.finds : Finds SetDataReliablePdu.deserializeBody (ReadFrom SetDataReliablePdu.slots) := FindsAt.finds <|
    FindsAt.cons (π := fun x : SetDataReliablePdu => x.originating_entity_id) (EntityId.fixed) (EntityId.finds) fun _ =>
    FindsAt.cons (π := fun x : SetDataReliablePdu => x.receiving_entity_id) (EntityId.fixed) (EntityId.finds) fun _ =>
    FindsAt.cons (π := fun x : SetDataReliablePdu => x.required_reliability_service) (EnumSpec.fixed _) (EnumSpec.finds _ rfl) fun _ =>
    FindsAt.cons (π := fun x : SetDataReliablePdu => x.padding) (fixed_u8) (finds_u8) fun _ =>
    FindsAt.cons (π := fun x : SetDataReliablePdu => x.padding2) (fixed_u16) (finds_u16) fun _ =>
    FindsAt.cons (π := fun x : SetDataReliablePdu => x.request_id) (fixed_u32) (finds_u32) fun _ =>
    FindsAt.cons (π := fun x : SetDataReliablePdu => x.number_of_fixed_datum_records) (fixed_u32) (finds_u32) fun _ =>
    FindsAt.cons (π := fun x : SetDataReliablePdu => x.number_of_variable_datum_records) (fixed_u32) (finds_u32) fun _ =>
    FindsAt.skip fun _ =>
    FindsAt.skip fun _ =>
    FindsAt.ret ⟨⟨⟨⟨⟨⟨⟨⟨trivial, rfl⟩, rfl⟩, rfl⟩, rfl⟩, rfl⟩, rfl⟩, rfl⟩, rfl⟩

def DataReliablePdu.slots : List (Slot DataReliablePdu) :=
  Slot.cons (·.originating_entity_id) EntityId.slots 6 <|
  Slot.cons (·.receiving_entity_id) EntityId.slots 6 <|
  Slot.cons (·.request_id) [Slot.u32 0 id] 4 <|
  Slot.cons (·.required_reliability_service) [Slot.enum 0 1 id] 1 <|
  Slot.cons (·.padding) [Slot.u8 0 id] 1 <|
  Slot.cons (·.padding2) [Slot.u16 0 id] 2 <|
  Slot.cons (·.number_of_fixed_datum_records) [Slot.u32 0 id] 4 <|
  Slot.cons (·.number_of_variable_datum_records) [Slot.u32 0 id] 4 <|
  []
theorem DataReliablePdu.layout_eq : DataReliablePdu.layout = DataReliablePdu.slots.map (Slot.shift 12) := (rfl)
theorem DataReliablePdu.written (x : DataReliablePdu) : Written DataReliablePdu.slots x (wire (sent x)) :=
    Written.cons (EntityId.written x.originating_entity_id) (EntityId.wire_length _) <|
    Written.cons (EntityId.written x.receiving_entity_id) (EntityId.wire_length _) <|
    Written.cons (written_u32 x.request_id) (octets_length _ _) <|
    Written.cons (written_enum rfl x.required_reliability_service) (octets_length _ _) <|
    Written.cons (written_u8 x.padding) (octets_length _ _) <|
    Written.cons (written_u16 x.padding2) (octets_length _ _) <|
    Written.cons (written_u32 x.number_of_fixed_datum_records) (octets_length _ _) <|
    Written.cons (written_u32 x.number_of_variable_datum_records) (octets_length _ _) <|
    Written.nil _ _
theorem DataReliablePdu.finds : Finds DataReliablePdu.deserializeBody (ReadFrom DataReliablePdu.slots) := FindsAt.finds <|
    FindsAt.cons (π := fun x : DataReliablePdu => x.originating_entity_id) (EntityId.fixed) (EntityId.finds) fun _ =>
    FindsAt.cons (π := fun x : DataReliablePdu => x.receiving_entity_id) (EntityId.fixed) (EntityId.finds) fun _ =>
    FindsAt.cons (π := fun x : DataReliablePdu => x.request_id) (fixed_u32) (finds_u32) fun _ =>
    FindsAt.cons (π := fun x : DataReliablePdu => x.required_reliability_service) (EnumSpec.fixed _) (EnumSpec.finds _ rfl) fun _ =>
    FindsAt.cons (π := fun x : DataReliablePdu => x.padding) (fixed_u8) (finds_u8) fun _ =>
    FindsAt.cons (π := fun x : DataReliablePdu => x.padding2) (fixed_u16) (finds_u16) fun _ =>
    FindsAt.cons (π := fun x : DataReliablePdu => x.number_of_fixed_datum_records) (fixed_u32) (finds_u32) fun _ =>
    FindsAt.cons (π := fun x : DataReliablePdu => x.number_of_variable_datum_records) (fixed_u32) (finds_u32) fun _ =>
    FindsAt.skip fun _ =>
    FindsAt.skip fun _ =>
    FindsAt.ret ⟨⟨⟨⟨⟨⟨⟨⟨trivial, rfl⟩, rfl⟩, rfl⟩, rfl⟩, rfl⟩, rfl⟩, rfl⟩, rfl⟩

def EventReportReliablePdu.slots : List (Slot EventReportReliablePdu) :=
  Slot.cons (·.originating_entity_id) EntityId.slots 6 <|
  Slot.cons (·.receiving_entity_id) EntityId.slots 6 <|
  Slot.cons (·.event_type) [Slot.enum 0 4 id] 4 <|
  Slot.cons (·.padding) [Slot.u32 0 id] 4 <|
  Slot.cons (·.number_of_fixed_datum_records) [Slot.u32 0 id] 4 <|
  Slot.cons (·.number_of_variable_datum_records) [Slot.u32 0 id] 4 <|
  []
theorem EventReportReliablePdu.layout_eq : EventReportReliablePdu.layout = EventReportReliablePdu.slots.map (Slot.shift 12) := (rfl)
theorem EventReportReliablePdu.written (x : EventReportReliablePdu) : Written EventReportReliablePdu.slots x (wire (sent x)) :=
    Written.cons (EntityId.written x.originating_entity_id) (EntityId.wire_length _) <|
    Written.cons (EntityId.written x.receiving_entity_id) (EntityId.wire_length _) <|
    Written.cons (written_enum rfl x.event_type) (octets_length _ _) <|
    Written.cons (written_u32 x.padding) (octets_length _ _) <|
    Written.cons (written_u32 x.number_of_fixed_datum_records) (octets_length _ _) <|
    Written.cons (written_u32 x.number_of_variable_datum_records) (octets_length _ _) <|
    Written.nil _ _
theorem EventReportReliablePdu.finds : Finds EventReportReliablePdu.deserializeBody (ReadFrom EventReportReliablePdu.slots) := FindsAt.finds <|
    FindsAt.cons (π := fun x : EventReportReliablePdu => x.originating_entity_id) (EntityId.fixed) (EntityId.finds) fun _ =>
    FindsAt.cons (π := fun x : EventReportReliablePdu => x.receiving_entity_id) (EntityId.fixed) (EntityId.finds) fun _ =>
    FindsAt.cons (π := fun x : EventReportReliablePdu => x.event_type) (EnumSpec.fixed _) (EnumSpec.finds _ rfl) fun _ =>
    FindsAt.cons (π := fun x : EventReportReliablePdu => x.padding) (fixed_u32) (finds_u32) fun _ =>
    FindsAt.cons (π := fun x : EventReportReliablePdu => x.number_of_fixed_datum_records) (fixed_u32) (finds_u32) fun _ =>
    FindsAt.cons (π := fun x : EventReportReliablePdu => x.number_of_variable_datum_records) (fixed_u32) (finds_u32) fun _ =>
    FindsAt.skip fun _ =>
    FindsAt.skip fun _ =>
    FindsAt.ret ⟨⟨⟨⟨⟨⟨trivial, rfl⟩, rfl⟩, rfl⟩, rfl⟩, rfl⟩, rfl⟩

def CommentReliablePdu.slots : List (Slot CommentReliablePdu) :=
  Slot.cons (·.originating_entity_id) EntityId.slots 6 <|
  Slot.cons (·.receiving_entity_id) EntityId.slots 6 <|
  Slot.cons (·.number_of_fixed_datum_records) [Slot.u32 0 id] 4 <|
  Slot.cons (·.number_of_variable_datum_records) [Slot.u32 0 id] 4 <|
  []
theorem CommentReliablePdu.layout_eq : CommentReliablePdu.layout = CommentReliablePdu.slots.map (Slot.shift 12) := (rfl)
theorem CommentReliablePdu.written (x : CommentReliablePdu) : Written CommentReliablePdu.slots x (wire (sent x)) :=
    Written.cons (EntityId.written x.originating_entity_id) (EntityId.wire_length _) <|
    Written.cons (EntityId.written x.receiving_entity_id) (EntityId.wire_length _) <|
    Written.cons (written_u32 x.number_of_fixed_datum_records) (octets_length _ _) <|
    Written.cons (written_u32 x.number_of_variable_datum_records) (octets_length _ _) <|
    Written.nil _ _
theorem CommentReliablePdu.finds : Finds CommentReliablePdu.deserializeBody (ReadFrom CommentReliablePdu.slots) := FindsAt.finds <|
    FindsAt.cons (π := fun x : CommentReliablePdu => x.originating_entity_id) (EntityId.fixed) (EntityId.finds) fun _ =>
    FindsAt.cons (π := fun x : CommentReliablePdu => x.receiving_entity_id) (EntityId.fixed) (EntityId.finds) fun _ =>
    FindsAt.cons (π := fun x : CommentReliablePdu => x.number_of_fixed_datum_records) (fixed_u32) (finds_u32) fun _ =>
    FindsAt.cons (π := fun x : CommentReliablePdu => x.number_of_variable_datum_records) (fixed_u32) (finds_u32) fun _ =>
    FindsAt.skip fun _ =>
    FindsAt.skip fun _ =>
    FindsAt.ret ⟨⟨⟨⟨trivial, rfl⟩, rfl⟩, rfl⟩, rfl⟩

def RecordQueryReliablePdu.slots : List (Slot RecordQueryReliablePdu) :=
  Slot.cons (·.originating_entity_id) EntityId.slots 6 <|
  Slot.cons (·.receiving_entity_id) EntityId.slots 6 <|
  Slot.cons (·.request_id) [Slot.u32 0 id] 4 <|
  Slot.cons (·.required_reliability_service) [Slot.enum 0 1 id] 1 <|
  Slot.cons (·.padding) [Slot.u8 0 id] 1 <|
  Slot.cons (·.event_type) [Slot.enum 0 2 id] 2 <|
  Slot.cons (·.time) [Slot.u32 0 id] 4 <|
  Slot.cons (·.number_of_records) [Slot.u32 0 id] 4 <|
  []
theorem RecordQueryReliablePdu.layout_eq : RecordQueryReliablePdu.layout = RecordQueryReliablePdu.slots.map (Slot.shift 12) := (rfl)
theorem RecordQueryReliablePdu.written (x : RecordQueryReliablePdu) : Written RecordQueryReliablePdu.slots x (wire (sent x)) :=
    Written.cons (EntityId.written x.originating_entity_id) (EntityId.wire_length _) <|
    Written.cons (EntityId.written x.receiving_entity_id) (EntityId.wire_length _) <|
    Written.cons (written_u32 x.request_id) (octets_length _ _) <|
    Written.cons (written_enum rfl x.required_reliability_service) (octets_length _ _) <|
    Written.cons (written_u8 x.padding) (octets_length _ _) <|
    Written.cons (written_enum rfl x.event_type) (octets_length _ _) <|
    Written.cons (written_u32 x.time) (octets_length _ _) <|
    Written.cons (written_u32 x.number_of_records) (octets_length _ _) <|
    Written.nil _ _
theorem RecordQueryReliablePdu.finds : Finds RecordQueryReliablePdu.deserializeBody (ReadFrom RecordQueryReliablePdu.slots) := FindsAt.finds <|
    FindsAt.cons (π := fun x : RecordQueryReliablePdu => x.originating_entity_id) (EntityId.fixed) (EntityId.finds) fun _ =>
    FindsAt.cons (π := fun x : RecordQueryReliablePdu => x.receiving_entity_id) (EntityId.fixed) (EntityId.finds) fun _ =>
    FindsAt.cons (π := fun x : RecordQueryReliablePdu => x.request_id) (fixed_u32) (finds_u32) fun _ =>
    FindsAt.cons (π := fun x : RecordQueryReliablePdu => x.required_reliability_service) (EnumSpec.fixed _) (EnumSpec.finds _ rfl) fun _ =>
    FindsAt.cons (π := fun x : RecordQueryReliablePdu => x.padding) (fixed_u8) (finds_u8) fun _ =>
    FindsAt.cons (π := fun x : RecordQueryReliablePdu => x.event_type) (EnumSpec.fixed _) (EnumSpec.finds _ rfl) fun _ =>
    FindsAt.cons (π := fun x : RecordQueryReliablePdu => x.time) (fixed_u32) (finds_u32) fun _ =>
    FindsAt.cons (π := fun x : RecordQueryReliablePdu => x.number_of_records) (fixed_u32) (finds_u32) fun _ =>
    FindsAt.skip fun _ =>
    FindsAt.ret ⟨⟨⟨⟨⟨⟨⟨⟨trivial, rfl⟩, rfl⟩, rfl⟩, rfl⟩, rfl⟩, rfl⟩, rfl⟩, rfl⟩

def SetRecordReliablePdu.slots : List (Slot SetRecordReliablePdu) :=
  Slot.cons (·.originating_entity_id) EntityId.slots 6 <|
  Slot.cons (·.receiving_entity_id) EntityId.slots 6 <|
  Slot.cons (·.request_id) [Slot.u32 0 id] 4 <|
  Slot.cons (·.required_reliability_service) [Slot.enum 0 1 id] 1 <|
  Slot.cons (·.padding) [Slot.u8 0 id] 1 <|
  Slot.cons (·.padding2) [Slot.u16 0 id] 2 <|
  Slot.cons (·.padding3) [Slot.u32 0 id] 4 <|
  Slot.cons (·.record_sets) RecordSpecification.slots 0 <|
  []
theorem SetRecordReliablePdu.layout_eq : SetRecordReliablePdu.layout = SetRecordReliablePdu.slots.map (Slot.shift 12) := (rfl)
theorem SetRecordReliablePdu.written (x : SetRecordReliablePdu) : Written SetRecordReliablePdu.slots x (wire (sent x)) :=
    Written.cons (EntityId.written x.originating_entity_id) (EntityId.wire_length _) <|
    Written.cons (EntityId.written x.receiving_entity_id) (EntityId.wire_length _) <|
    Written.cons (written_u32 x.request_id) (octets_length _ _) <|
    Written.cons (written_enum rfl x.required_reliability_service) (octets_length _ _) <|
    Written.cons (written_u8 x.padding) (octets_length _ _) <|
    Written.cons (written_u16 x.padding2) (octets_length _ _) <|
    Written.cons (written_u32 x.padding3) (octets_length _ _) <|
    Written.only (RecordSpecification.written x.record_sets)
theorem SetRecordReliablePdu.finds : Finds SetRecordReliablePdu.deserializeBody (ReadFrom SetRecordReliablePdu.slots) := FindsAt.finds <|
    FindsAt.cons (π := fun x : SetRecordReliablePdu => x.originating_entity_id) (EntityId.fixed) (EntityId.finds) fun _ =>
    FindsAt.cons (π := fun x : SetRecordReliablePdu => x.receiving_entity_id) (EntityId.fixed) (EntityId.finds) fun _ =>
    FindsAt.cons (π := fun x : SetRecordReliablePdu => x.request_id) (fixed_u32) (finds_u32) fun _ =>
    FindsAt.cons (π := fun x : SetRecordReliablePdu => x.required_reliability_service) (EnumSpec.fixed _) (EnumSpec.finds _ rfl) fun _ =>
    FindsAt.cons (π := fun x : SetRecordReliablePdu => x.padding) (fixed_u8) (finds_u8) fun _ =>
    FindsAt.cons (π := fun x : SetRecordReliablePdu => x.padding2) (fixed_u16) (finds_u16) fun _ =>
    FindsAt.cons (π := fun x : SetRecordReliablePdu => x.padding3) (fixed_u32) (finds_u32) fun _ =>
    FindsAt.head (π := fun x : SetRecordReliablePdu => x.record_sets) (RecordSpecification.finds) fun _ =>
    FindsAt.ret ⟨⟨⟨⟨⟨⟨⟨⟨trivial, rfl⟩, rfl⟩, rfl⟩, rfl⟩, rfl⟩, rfl⟩, rfl⟩, rfl⟩

def EnvironmentalProcessPdu.slots : List (Slot EnvironmentalProcessPdu) :=
  Slot.cons (·.environmental_process_id) EntityId.slots 6 <|
  Slot.cons (·.environment_type) EntityType.slots 8 <|
  Slot.cons (·.model_type) [Slot.u8 0 id] 1 <|
  Slot.cons (·.environment_status) [Slot.u8 0 id] 1 <|
  Slot.cons (·.number_of_environment_records) [Slot.u16 0 id] 2 <|
  Slot.cons (·.sequence_number) [Slot.u16 0 id] 2 <|
  []
theorem EnvironmentalProcessPdu.layout_eq : EnvironmentalProcessPdu.layout = EnvironmentalProcessPdu.slots.map (Slot.shift 12) := (rfl)
theorem EnvironmentalProcessPdu.written (x : EnvironmentalProcessPdu) : Written EnvironmentalProcessPdu.slots x (wire (sent x)) :=
    Written.cons (EntityId.written x.environmental_process_id) (EntityId.wire_length _) <|
    Written.cons (EntityType.written x.environment_type) (EntityType.wire_length _) <|
    Written.cons (written_u8 x.model_type) (octets_length _ _) <|
    Written.cons (written_u8 x.environment_status) (octets_length _ _) <|
    Written.cons (written_u16 x.number_of_environment_records) (octets_length _ _) <|
    Written.cons (written_u16 x.sequence_number) (octets_length _ _) <|
    Written.nil _ _
theorem EnvironmentalProcessPdu.finds : Finds EnvironmentalProcessPdu.deserializeBody (ReadFrom EnvironmentalProcessPdu.slots) := FindsAt.finds <|
    FindsAt.cons (π := fun x : EnvironmentalProcessPdu => x.environmental_process_id) (EntityId.fixed) (EntityId.finds) fun _ =>
    FindsAt.cons (π := fun x : EnvironmentalProcessPdu => x.environment_type) (EntityType.fixed) (EntityType.finds) fun _ =>
    FindsAt.cons (π := fun x : EnvironmentalProcessPdu => x.model_type) (fixed_u8) (finds_u8) fun _ =>
    FindsAt.cons (π := fun x : EnvironmentalProcessPdu => x.environment_status) (fixed_u8) (finds_u8) fun _ =>
    FindsAt.cons (π := fun x : EnvironmentalProcessPdu => x.number_of_environment_records) (fixed_u16) (finds_u16) fun _ =>
    FindsAt.cons (π := fun x : EnvironmentalProcessPdu => x.sequence_number) (fixed_u16) (finds_u16) fun _ =>
    FindsAt.skip fun _ =>
    FindsAt.ret ⟨⟨⟨⟨⟨⟨trivial, rfl⟩, rfl⟩, rfl⟩, rfl⟩, rfl⟩, rfl⟩

def GriddedDataPdu.slots : List (Slot GriddedDataPdu) :=
  Slot.cons (·.environmental_simulation_id) EntityId.slots 6 <|
  Slot.cons (·.field_number) [Slot.u16 0 id] 2 <|
  Slot.cons (·.pdu_number) [Slot.u16 0 id] 2 <|
  Slot.cons (·.pdu_total) [Slot.u16 0 id] 2 <|
  Slot.cons (·.coordinate_system) [Slot.enum 0 2 id] 2 <|
  Slot.cons (·.number_of_grid_axes) [Slot.u8 0 id] 1 <|
  Slot.cons (·.constant_grid) [Slot.enum 0 1 id] 1 <|
  Slot.cons (·.environment_type) EntityType.slots 8 <|
  Slot.cons (·.orientation) EulerAngles.slots 12 <|
  Slot.cons (·.sample_time) ClockTime.slots 8 <|
  Slot.cons (·.total_values) [Slot.u32 0 id] 4 <|
  Slot.cons (·.vector_dimension) [Slot.u8 0 id] 1 <|
  Slot.cons (·.padding) [Slot.u8 0 id] 1 <|
  Slot.cons (·.padding2) [Slot.u16 0 id] 2 <|
  []
theorem GriddedDataPdu.layout_eq : GriddedDataPdu.layout = GriddedDataPdu.slots.map (Slot.shift 12) := (rfl)
theorem GriddedDataPdu.written (x : GriddedDataPdu) : Written GriddedDataPdu.slots x (wire (sent x)) :=
    Written.cons (EntityId.written x.environmental_simulation_id) (EntityId.wire_length _) <|
    Written.cons (written_u16 x.field_number) (octets_length _ _) <|
    Written.cons (written_u16 x.pdu_number) (octets_length _ _) <|
    Written.cons (written_u16 x.pdu_total) (octets_length _ _) <|
    Written.cons (written_enum rfl x.coordinate_system) (octets_length _ _) <|
    Written.cons (written_u8 x.number_of_grid_axes) (octets_length _ _) <|
    Written.cons (written_enum rfl x.constant_grid) (octets_length _ _) <|
    Written.cons (EntityType.written x.environment_type) (EntityType.wire_length _) <|
    Written.cons (EulerAngles.written x.orientation) (EulerAngles.wire_length _) <|
    Written.cons (ClockTime.written x.sample_time) (ClockTime.wire_length _) <|
    Written.cons (written_u32 x.total_values) (octets_length _ _) <|
    Written.cons (written_u8 x.vector_dimension) (octets_length _ _) <|
    Written.cons (written_u8 x.padding) (octets_length _ _) <|
    Written.cons (written_u16 x.padding2) (octets_length _ _) <|
    Written.nil _ _
theorem GriddedDataPdu.finds : Finds GriddedDataPdu.deserializeBody (ReadFrom GriddedDataPdu.slots) := FindsAt.finds <|
    FindsAt.cons (π := fun x : GriddedDataPdu => x.environmental_simulation_id) (EntityId.fixed) (EntityId.finds) fun _ =>
    FindsAt.cons (π := fun x : GriddedDataPdu => x.field_number) (fixed_u16) (finds_u16) fun _ =>
    FindsAt.cons (π := fun x : GriddedDataPdu => x.pdu_number) (fixed_u16) (finds_u16) fun _ =>
    FindsAt.cons (π := fun x : GriddedDataPdu => x.pdu_total) (fixed_u16) (finds_u16) fun _ =>
    FindsAt.cons (π := fun x : GriddedDataPdu => x.coordinate_system) (EnumSpec.fixed _) (EnumSpec.finds _ rfl) fun _ =>
    FindsAt.cons (π := fun x : GriddedDataPdu => x.number_of_grid_axes) (fixed_u8) (finds_u8) fun _ =>
    FindsAt.cons (π := fun x : GriddedDataPdu => x.constant_grid) (EnumSpec.fixed _) (EnumSpec.finds _ rfl) fun _ =>
    FindsAt.cons (π := fun x : GriddedDataPdu => x.environment_type) (EntityType.fixed) (EntityType.finds) fun _ =>
    FindsAt.cons (π := fun x : GriddedDataPdu => x.orientation) (EulerAngles.fixed) (EulerAngles.finds) fun _ =>
    FindsAt.cons (π := fun x : GriddedDataPdu => x.sample_time) (ClockTime.fixed) (ClockTime.finds) fun _ =>
    FindsAt.cons (π := fun x : GriddedDataPdu => x.total_values) (fixed_u32) (finds_u32) fun _ =>
    FindsAt.cons (π := fun x : GriddedDataPdu => x.vector_dimension) (fixed_u8) (finds_u8) fun _ =>
    FindsAt.cons (π := fun x : GriddedDataPdu => x.padding) (fixed_u8) (finds_u8) fun _ =>
    FindsAt.cons (π := fun x : GriddedDataPdu => x.padding2) (fixed_u16) (finds_u16) fun _ =>
    FindsAt.skip fun _ =>
    FindsAt.skip fun _ =>
    FindsAt.ret ⟨⟨⟨⟨⟨⟨⟨⟨⟨⟨⟨⟨⟨⟨trivial, rfl⟩, rfl⟩, rfl⟩, rfl⟩, rfl⟩, rfl⟩, rfl⟩, rfl⟩, rfl⟩, rfl⟩, rfl⟩, rfl⟩, rfl⟩, rfl⟩

def PointObjectStatePdu.slots : List (Slot PointObjectStatePdu) :=
  Slot.cons (·.object_id) EntityId.slots 6 <|
  Slot.cons (·.referenced_object_id) EntityId.slots 6 <|
  Slot.cons (·.update_number) [Slot.u16 0 id] 2 <|
  Slot.cons (·.force_id) [Slot.enum 0 1 id] 1 <|
  Slot.cons (·.modifications) [Slot.u8 0 id] 1 <|
  Slot.cons (·.object_type) ObjectType.slots 4 <|
  Slot.cons (·.object_location) WorldCoordinate.slots 24 <|
  Slot.cons (·.object_orientation) EulerAngles.slots 12 <|
  Slot.cons (·.specific_object_appearance) [Slot.u32 0 id] 4 <|
  Slot.cons (·.general_object_appearance) [Slot.u16 0 id] 2 <|
  Slot.cons (·.padding) [Slot.u16 0 id] 2 <|
  Slot.cons (·.requester_id) SimulationAddress.slots 4 <|
  Slot.cons (·.receiving_id) SimulationAddress.slots 4 <|
  Slot.cons (·.padding2) [Slot.u32 0 id] 4 <|
  []
theorem PointObjectStatePdu.layout_eq : PointObjectStatePdu.layout = PointObjectStatePdu.slots.map (Slot.shift 12) := (rfl)
theorem PointObjectStatePdu.written (x : PointObjectStatePdu) : Written PointObjectStatePdu.slots x (wire (sent x)) :=
    Written.cons (EntityId.written x.object_id) (EntityId.wire_length _) <|
    Written.cons (EntityId.written x.referenced_object_id) (EntityId.wire_length _) <|
    Written.cons (written_u16 x.update_number) (octets_length _ _) <|
    Written.cons (written_enum rfl x.force_id) (octets_length _ _) <|
    Written.cons (written_u8 x.modifications) (octets_length _ _) <|
    Written.cons (ObjectType.written x.object_type) (ObjectType.wire_length _) <|
    Written.cons (WorldCoordinate.written x.object_location) (WorldCoordinate.wire_length _) <|
    Written.cons (EulerAngles.written x.object_orientation) (EulerAngles.wire_length _) <|
    Written.cons (written_u32 x.specific_object_appearance) (octets_length _ _) <|
    Written.cons (written_u16 x.general_object_appearance) (octets_length _ _) <|
    Written.cons (written_u16 x.padding) (octets_length _ _) <|
    Written.cons (SimulationAddress.written x.requester_id) (SimulationAddress.wire_length _) <|
    Written.cons (SimulationAddress.written x.receiving_id) (SimulationAddress.wire_length _) <|
    Written.last (written_u32 x.padding2)
theorem PointObjectStatePdu.finds : Finds PointObjectStatePdu.deserializeBody (ReadFrom PointObjectStatePdu.slots) := FindsAt.finds <|
    FindsAt.cons (π := fun x : PointObjectStatePdu => x.object_id) (EntityId.fixed) (EntityId.finds) fun _ =>
    FindsAt.cons (π := fun x : PointObjectStatePdu => x.referenced_object_id) (EntityId.fixed) (EntityId.finds) fun _ =>
    FindsAt.cons (π := fun x : PointObjectStatePdu => x.update_number) (fixed_u16) (finds_u16) fun _ =>
    FindsAt.cons (π := fun x : PointObjectStatePdu => x.force_id) (EnumSpec.fixed _) (EnumSpec.finds _ rfl) fun _ =>
    FindsAt.cons (π := fun x : PointObjectStatePdu => x.modifications) (fixed_u8) (finds_u8) fun _ =>
    FindsAt.cons (π := fun x : PointObjectStatePdu => x.object_type) (ObjectType.fixed) (ObjectType.finds) fun _ =>
    FindsAt.cons (π := fun x : PointObjectStatePdu => x.object_location) (WorldCoordinate.fixed) (WorldCoordinate.finds) fun _ =>
    FindsAt.cons (π := fun x : PointObjectStatePdu => x.object_orientation) (EulerAngles.fixed) (EulerAngles.finds) fun _ =>
    FindsAt.cons (π := fun x : PointObjectStatePdu => x.specific_object_appearance) (fixed_u32) (finds_u32) fun _ =>
    FindsAt.cons (π := fun x : PointObjectStatePdu => x.general_object_appearance) (fixed_u16) (finds_u16) fun _ =>
    FindsAt.cons (π := fun x : PointObjectStatePdu => x.padding) (fixed_u16) (finds_u16) fun _ =>
    FindsAt.cons (π := fun x : PointObjectStatePdu => x.requester_id) (SimulationAddress.fixed) (SimulationAddress.finds) fun _ =>
    FindsAt.cons (π := fun x : PointObjectStatePdu => x.receiving_id) (SimulationAddress.fixed) (SimulationAddress.finds) fun _ =>
    FindsAt.cons (π := fun x : PointObjectStatePdu => x.padding2) (fixed_u32) (finds_u32) fun _ =>
    FindsAt.ret ⟨⟨⟨⟨⟨⟨⟨⟨⟨⟨⟨⟨⟨⟨trivial, rfl⟩, rfl⟩, rfl⟩, rfl⟩, rfl⟩, rfl⟩, rfl⟩, rfl⟩, rfl⟩, rfl⟩, rfl⟩, rfl⟩, rfl⟩, rfl⟩
theorem PointObjectStatePdu.agree {x y : PointObjectStatePdu} (h : Agree PointObjectStatePdu.slots x y) : x = y := by
  have h0 := h
  have e0 : x.object_id = y.object_id := EntityId.agree (Agree.left h0)
  have h1 := Agree.right h0
  have e1 : x.referenced_object_id = y.referenced_object_id := EntityId.agree (Agree.left h1)
  have h2 := Agree.right h1
  have e2 : x.update_number = y.update_number := agree_u16 (Agree.left h2)
  have h3 := Agree.right h2
  have e3 : x.force_id = y.force_id := agree_enum (Agree.left h3)
  have h4 := Agree.right h3
  have e4 : x.modifications = y.modifications := agree_u8 (Agree.left h4)
  have h5 := Agree.right h4
  have e5 : x.object_type = y.object_type := ObjectType.agree (Agree.left h5)
  have h6 := Agree.right h5
  have e6 : x.object_location = y.object_location := WorldCoordinate.agree (Agree.left h6)
  have h7 := Agree.right h6
  have e7 : x.object_orientation = y.object_orientation := EulerAngles.agree (Agree.left h7)
  have h8 := Agree.right h7
  have e8 : x.specific_object_appearance = y.specific_object_appearance := agree_u32 (Agree.left h8)
  have h9 := Agree.right h8
  have e9 : x.general_object_appearance = y.general_object_appearance := agree_u16 (Agree.left h9)
  have h10 := Agree.right h9
  have e10 : x.padding = y.padding := agree_u16 (Agree.left h10)
  have h11 := Agree.right h10
  have e11 : x.requester_id = y.requester_id := SimulationAddress.agree (Agree.left h11)
  have h12 := Agree.right h11
  have e12 : x.receiving_id = y.receiving_id := SimulationAddress.agree (Agree.left h12)
  have h13 := Agree.right h12
  have e13 : x.padding2 = y.padding2 := agree_u32 (Agree.left h13)
  cases x; cases y
  dsimp only at e0 e1 e2 e3 e4 e5 e6 e7 e8 e9 e10 e11 e12 e13
  subst e0 e1 e2 e3 e4 e5 e6 e7 e8 e9 e10 e11 e12 e13
  rfl

def LinearObjectStatePdu.slots : List (Slot LinearObjectStatePdu) :=
  Slot.cons (·.object_id) ObjectIdentifier.slots 6 <|
  Slot.cons (·.referenced_object_id) ObjectIdentifier.slots 6 <|
  Slot.cons (·.update_number) [Slot.u16 0 id] 2 <|
  Slot.cons (·.force_id) [Slot.enum 0 1 id] 1 <|
  Slot.cons (·.number_of_segments) [Slot.u8 0 id] 1 <|
  Slot.cons (·.requester_id) SimulationAddress.slots 4 <|
  Slot.cons (·.receiving_id) SimulationAddress.slots 4 <|
  Slot.cons (·.object_type) ObjectType.slots 4 <|
  []
theorem LinearObjectStatePdu.layout_eq : LinearObjectStatePdu.layout = LinearObjectStatePdu.slots.map (Slot.shift 12) := (rfl)
theorem LinearObjectStatePdu.written (x : LinearObjectStatePdu) : Written LinearObjectStatePdu.slots x (wire (sent x)) :=
    Written.cons (ObjectIdentifier.written x.object_id) (ObjectIdentifier.wire_length _) <|
    Written.cons (ObjectIdentifier.written x.referenced_object_id) (ObjectIdentifier.wire_length _) <|
    Written.cons (written_u16 x.update_number) (octets_length _ _) <|
    Written.cons (written_enum rfl x.force_id) (octets_length _ _) <|
    Written.cons (written_u8 x.number_of_segments) (octets_length _ _) <|
    Written.cons (SimulationAddress.written x.requester_id) (SimulationAddress.wire_length _) <|
    Written.cons (SimulationAddress.written x.receiving_id) (SimulationAddress.wire_length _) <|
    Written.cons (ObjectType.written x.object_type) (ObjectType.wire_length _) <|
    Written.nil _ _
theorem LinearObjectStatePdu.finds : Finds LinearObjectStatePdu.deserializeBody (ReadFrom LinearObjectStatePdu.slots) := FindsAt.finds <|
    FindsAt.cons (π := fun x : LinearObjectStatePdu => x.object_id) (ObjectIdentifier.fixed) (ObjectIdentifier.finds) fun _ =>
    FindsAt.cons (π := fun x : LinearObjectStatePdu => x.referenced_object_id) (ObjectIdentifier.fixed) (ObjectIdentifier.finds) fun _ =>
    FindsAt.cons (π := fun x : LinearObjectStatePdu => x.update_number) (fixed_u16) (finds_u16) fun _ =>
    FindsAt.cons (π := fun x : LinearObjectStatePdu => x.force_id) (EnumSpec.fixed _) (EnumSpec.finds _ rfl) fun _ =>
    FindsAt.cons (π := fun x : LinearObjectStatePdu => x.number_of_segments) (fixed_u8) (finds_u8) fun _ =>
    FindsAt.cons (π := fun x : LinearObjectStatePdu => x.requester_id) (SimulationAddress.fixed) (SimulationAddress.finds) fun _ =>
    FindsAt.cons (π := fun x : LinearObjectStatePdu => x.receiving_id) (SimulationAddress.fixed) (SimulationAddress.finds) fun _ =>
    FindsAt.cons (π := fun x : LinearObjectStatePdu => x.object_type) (ObjectType.fixed) (ObjectType.finds) fun _ =>
    FindsAt.skip fun _ =>
    FindsAt.ret ⟨⟨⟨⟨⟨⟨⟨⟨trivial, rfl⟩, rfl⟩, rfl⟩, rfl⟩, rfl⟩, rfl⟩, rfl⟩, rfl⟩

def ArealObjectStatePdu.slots : List (Slot ArealObjectStatePdu) :=
  Slot.cons (·.object_id) ObjectIdentifier.slots 6 <|
  Slot.cons (·.referenced_object_id) ObjectIdentifier.slots 6 <|
  Slot.cons (·.update_number) [Slot.u16 0 id] 2 <|
  Slot.cons (·.force_id) [Slot.enum 0 1 id] 1 <|
  Slot.cons (·.modifications) [Slot.u8 0 id] 1 <|
  Slot.cons (·.object_type) ObjectType.slots 4 <|
  Slot.cons (·.specific_object_appearance) [Slot.u32 0 id] 4 <|
  Slot.cons (·.general_object_appearance) ObjectStateAppearanceGeneral.slots 2 <|
  Slot.cons (·.number_of_points) [Slot.u16 0 id] 2 <|
  Slot.cons (·.requester_id) SimulationAddress.slots 4 <|
  Slot.cons (·.receiving_id) SimulationAddress.slots 4 <|
  []
theorem ArealObjectStatePdu.layout_eq : ArealObjectStatePdu.layout = ArealObjectStatePdu.slots.map (Slot.shift 12) := (rfl)
theorem ArealObjectStatePdu.written (x : ArealObjectStatePdu) : Written ArealObjectStatePdu.slots x (wire (sent x)) :=
    Written.cons (ObjectIdentifier.written x.object_id) (ObjectIdentifier.wire_length _) <|
    Written.cons (ObjectIdentifier.written x.referenced_object_id) (ObjectIdentifier.wire_length _) <|
    Written.cons (written_u16 x.update_number) (octets_length _ _) <|
    Written.cons (written_enum rfl x.force_id) (octets_length _ _) <|
    Written.cons (written_u8 x.modifications) (octets_length _ _) <|
    Written.cons (ObjectType.written x.object_type) (ObjectType.wire_length _) <|
    Written.cons (written_u32 x.specific_object_appearance) (octets_length _ _) <|
    Written.cons (ObjectStateAppearanceGeneral.written x.general_object_appearance) (octets_length _ _) <|
    Written.cons (written_u16 x.number_of_points) (octets_length _ _) <|
    Written.cons (SimulationAddress.written x.requester_id) (SimulationAddress.wire_length _) <|
    Written.cons (SimulationAddress.written x.receiving_id) (SimulationAddress.wire_length _) <|
    Written.nil _ _
theorem ArealObjectStatePdu.finds : Finds ArealObjectStatePdu.deserializeBody (ReadFrom ArealObjectStatePdu.slots) := FindsAt.finds <|
    FindsAt.cons (π := fun x : ArealObjectStatePdu => x.object_id) (ObjectIdentifier.fixed) (ObjectIdentifier.finds) fun _ =>
    FindsAt.cons (π := fun x : ArealObjectStatePdu => x.referenced_object_id) (ObjectIdentifier.fixed) (ObjectIdentifier.finds) fun _ =>
    FindsAt.cons (π := fun x : ArealObjectStatePdu => x.update_number) (fixed_u16) (finds_u16) fun _ =>
    FindsAt.cons (π := fun x : ArealObjectStatePdu => x.force_id) (EnumSpec.fixed _) (EnumSpec.finds _ rfl) fun _ =>
    FindsAt.cons (π := fun x : ArealObjectStatePdu => x.modifications) (fixed_u8) (finds_u8) fun _ =>
    FindsAt.cons (π := fun x : ArealObjectStatePdu => x.object_type) (ObjectType.fixed) (ObjectType.finds) fun _ =>
    FindsAt.cons (π := fun x : ArealObjectStatePdu => x.specific_object_appearance) (fixed_u32) (finds_u32) fun _ =>
    FindsAt.cons (π := fun x : ArealObjectStatePdu => x.general_object_appearance) (FixedDec.fixed) (ObjectStateAppearanceGeneral.finds) fun _ =>
    FindsAt.cons (π := fun x : ArealObjectStatePdu => x.number_of_points) (fixed_u16) (finds_u16) fun _ =>
    FindsAt.cons (π := fun x : ArealObjectStatePdu => x.requester_id) (SimulationAddress.fixed) (SimulationAddress.finds) fun _ =>
    FindsAt.cons (π := fun x : ArealObjectStatePdu => x.receiving_id) (SimulationAddress.fixed) (SimulationAddress.finds) fun _ =>
    FindsAt.skip fun _ =>
    FindsAt.ret ⟨⟨⟨⟨⟨⟨⟨⟨⟨⟨⟨trivial, rfl⟩, rfl⟩, rfl⟩, rfl⟩, rfl⟩, rfl⟩, rfl⟩, rfl⟩, rfl⟩, rfl⟩, rfl⟩

def FirePdu.slots : List (Slot FirePdu) :=
  Slot.cons (·.firing_entity_id) EntityId.slots 6 <|
  Slot.cons (·.target_entity_id) EntityId.slots 6 <|
  Slot.cons (·.munition_expendable_id) EntityId.slots 6 <|
  Slot.cons (·.event_id) EventId.slots 6 <|
  Slot.cons (·.fire_mission_index) [Slot.u32 0 id] 4 <|
  Slot.cons (·.location_in_world_coordinates) WorldCoordinate.slots 24 <|
  Slot.cons (·.descriptor) MunitionDescriptor.slots 16 <|
  Slot.cons (·.velocity) LinearVelocity.slots 12 <|
  Slot.cons (·.range) [Slot.f32 0 id] 4 <|
  []
theorem FirePdu.layout_eq : FirePdu.layout = FirePdu.slots.map (Slot.shift 12) := (rfl)
theorem FirePdu.written (x : FirePdu) : Written FirePdu.slots x (wire (sent x)) :=
    Written.cons (EntityId.written x.firing_entity_id) (EntityId.wire_length _) <|
    Written.cons (EntityId.written x.target_entity_id) (EntityId.wire_length _) <|
    Written.cons (EntityId.written x.munition_expendable_id) (EntityId.wire_length _) <|
    Written.cons (EventId.written x.event_id) (EventId.wire_length _) <|
    Written.cons (written_u32 x.fire_mission_index) (octets_length _ _) <|
    Written.cons (WorldCoordinate.written x.location_in_world_coordinates) (WorldCoordinate.wire_length _) <|
    Written.cons (MunitionDescriptor.written x.descriptor) (MunitionDescriptor.wire_length _) <|
    Written.cons (LinearVelocity.written x.velocity) (LinearVelocity.wire_length _) <|
    Written.last (written_f32 x.range)
theorem FirePdu.finds : Finds FirePdu.deserializeBody (ReadFrom FirePdu.slots) := FindsAt.finds <|
    FindsAt.cons (π := fun x : FirePdu => x.firing_entity_id) (EntityId.fixed) (EntityId.finds) fun _ =>
    FindsAt.cons (π := fun x : FirePdu => x.target_entity_id) (EntityId.fixed) (EntityId.finds) fun _ =>
    FindsAt.cons (π := fun x : FirePdu => x.munition_expendable_id) (EntityId.fixed) (EntityId.finds) fun _ =>
    FindsAt.cons (π := fun x : FirePdu => x.event_id) (EventId.fixed) (EventId.finds) fun _ =>
    FindsAt.cons (π := fun x : FirePdu => x.fire_mission_index) (fixed_u32) (finds_u32) fun _ =>
    FindsAt.cons (π := fun x : FirePdu => x.location_in_world_coordinates) (WorldCoordinate.fixed) (WorldCoordinate.finds) fun _ =>
    FindsAt.cons (π := fun x : FirePdu => x.descriptor) (MunitionDescriptor.fixed) (MunitionDescriptor.finds) fun _ =>
    FindsAt.cons (π := fun x : FirePdu => x.velocity) (LinearVelocity.fixed) (LinearVelocity.finds) fun _ =>
    FindsAt.cons (π := fun x : FirePdu => x.range) (fixed_f32) (finds_f32) fun _ =>
    FindsAt.ret ⟨⟨⟨⟨⟨⟨⟨⟨⟨trivial, rfl⟩, rfl⟩, rfl⟩, rfl⟩, rfl⟩, rfl⟩, rfl⟩, rfl⟩, rfl⟩
theorem FirePdu.agree {x y : FirePdu} (h : Agree FirePdu.slots x y) : x = y := by
  have h0 := h
  have e0 : x.firing_entity_id = y.firing_entity_id := EntityId.agree (Agree.left h0)
  have h1 := Agree.right h0
  have e1 : x.target_entity_id = y.target_entity_id := EntityId.agree (Agree.left h1)
  have h2 := Agree.right h1
  have e2 : x.munition_expendable_id = y.munition_expendable_id := EntityId.agree (Agree.left h2)
  have h3 := Agree.right h2
  have e3 : x.event_id = y.event_id := EventId.agree (Agree.left h3)
  have h4 := Agree.right h3
  have e4 : x.fire_mission_index = y.fire_mission_index := agree_u32 (Agree.left h4)
  have h5 := Agree.right h4
  have e5 : x.location_in_world_coordinates = y.location_in_world_coordinates := WorldCoordinate.agree (Agree.left h5)
  have h6 := Agree.right h5
  have e6 : x.descriptor = y.descriptor := MunitionDescriptor.agree (Agree.left h6)
  have h7 := Agree.right h6
  have e7 : x.velocity = y.velocity := LinearVelocity.agree (Agree.left h7)
  have h8 := Agree.right h7
  have e8 : x.range = y.range := agree_f32 (Agree.left h8)
  cases x; cases y
  dsimp only at e0 e1 e2 e3 e4 e5 e6 e7 e8
  subst e0 e1 e2 e3 e4 e5 e6 e7 e8
  rfl

def DetonationPdu.slots : List (Slot DetonationPdu) :=
  Slot.cons (·.firing_entity_id) EntityId.slots 6 <|
  Slot.cons (·.target_entity_id) EntityId.slots 6 <|
  Slot.cons (·.exploding_entity_id) EntityId.slots 6 <|
  Slot.cons (·.event_id) EventId.slots 6 <|
  Slot.cons (·.velocity) LinearVelocity.slots 12 <|
  Slot.cons (·.location_in_world_coordinates) WorldCoordinate.slots 24 <|
  Slot.cons (·.descriptor) MunitionDescriptor.slots 16 <|
  Slot.cons (·.location_in_entitys_coordinates) EntityCoordinateVector.slots 12 <|
  Slot.cons (·.detonation_result) [Slot.enum 0 1 id] 1 <|
  Slot.cons (·.number_of_variable_parameters) [Slot.u8 0 id] 1 <|
  Slot.cons (·.padding) [Slot.u16 0 id] 2 <|
  []
theorem DetonationPdu.layout_eq : DetonationPdu.layout = DetonationPdu.slots.map (Slot.shift 12) := (rfl)
theorem DetonationPdu.written (x : DetonationPdu) : Written DetonationPdu.slots x (wire (sent x)) :=
    Written.cons (EntityId.written x.firing_entity_id) (EntityId.wire_length _) <|
    Written.cons (EntityId.written x.target_entity_id) (EntityId.wire_length _) <|
    Written.cons (EntityId.written x.exploding_entity_id) (EntityId.wire_length _) <|
    Written.cons (EventId.written x.event_id) (EventId.wire_length _) <|
    Written.cons (LinearVelocity.written x.velocity) (LinearVelocity.wire_length _) <|
    Written.cons (WorldCoordinate.written x.location_in_world_coordinates) (WorldCoordinate.wire_length _) <|
    Written.cons (MunitionDescriptor.written x.descriptor) (MunitionDescriptor.wire_length _) <|
    Written.cons (EntityCoordinateVector.written x.location_in_entitys_coordinates) (EntityCoordinateVector.wire_length _) <|
    Written.cons (written_enum rfl x.detonation_result) (octets_length _ _) <|
    Written.cons (written_u8 x.number_of_variable_parameters) (octets_length _ _) <|
    Written.cons (written_u16 x.padding) (octets_length _ _) <|
    Written.nil _ _
theorem DetonationPdu.finds : Finds DetonationPdu.deserializeBody (ReadFrom DetonationPdu.slots) := FindsAt.finds <|
    FindsAt.cons (π := fun x : DetonationPdu => x.firing_entity_id) (EntityId.fixed) (EntityId.finds) fun _ =>
    FindsAt.cons (π := fun x : DetonationPdu => x.target_entity_id) (EntityId.fixed) (EntityId.finds) fun _ =>
    FindsAt.cons (π := fun x : DetonationPdu => x.exploding_entity_id) (EntityId.fixed) (EntityId.finds) fun _ =>
    FindsAt.cons (π := fun x : DetonationPdu => x.event_id) (EventId.fixed) (EventId.finds) fun _ =>
    FindsAt.cons (π := fun x : DetonationPdu => x.velocity) (LinearVelocity.fixed) (LinearVelocity.finds) fun _ =>
    FindsAt.cons (π := fun x : DetonationPdu => x.location_in_world_coordinates) (WorldCoordinate.fixed) (WorldCoordinate.finds) fun _ =>
    FindsAt.cons (π := fun x : DetonationPdu => x.descriptor) (MunitionDescriptor.fixed) (MunitionDescriptor.finds) fun _ =>
    FindsAt.cons (π := fun x : DetonationPdu => x.location_in_entitys_coordinates) (EntityCoordinateVector.fixed) (EntityCoordinateVector.finds) fun _ =>
    FindsAt.cons (π := fun x : DetonationPdu => x.detonation_result) (EnumSpec.fixed _) (EnumSpec.finds _ rfl) fun _ =>
    FindsAt.cons (π := fun x : DetonationPdu => x.number_of_variable_parameters) (fixed_u8) (finds_u8) fun _ =>
    FindsAt.cons (π := fun x : DetonationPdu => x.padding) (fixed_u16) (finds_u16) fun _ =>
    FindsAt.skip fun _ =>
    FindsAt.ret ⟨⟨⟨⟨⟨⟨⟨⟨⟨⟨⟨trivial, rfl⟩, rfl⟩, rfl⟩, rfl⟩, rfl⟩, rfl⟩, rfl⟩, rfl⟩, rfl⟩, rfl⟩, rfl⟩

def DirectedEnergyFirePdu.slots : List (Slot DirectedEnergyFirePdu) :=
  Slot.cons (·.firing_entity_id) EntityId.slots 6 <|
  Slot.cons (·.event_id) EventId.slots 6 <|
  Slot.cons (·.munition_type) EntityType.slots 8 <|
  Slot.cons (·.shot_start_time) ClockTime.slots 8 <|
  Slot.cons (·.cumulative_shot_time) [Slot.f32 0 id] 4 <|
  Slot.cons (·.aperture_emitter_location) EntityCoordinateVector.slots 12 <|
  Slot.cons (·.aperture_diameter) [Slot.f32 0 id] 4 <|
  Slot.cons (·.wavelength) [Slot.f32 0 id] 4 <|
  Slot.cons (·.padding) [Slot.u32 0 id] 4 <|
  Slot.cons (·.pulse_repetition_frequency) [Slot.f32 0 id] 4 <|
  Slot.cons (·.pulse_width) [Slot.f32 0 id] 4 <|
  Slot.cons (·.flags) [Slot.u16 0 id] 2 <|
  Slot.cons (·.pulse_shape) [Slot.enum 0 1 id] 1 <|
  Slot.cons (·.padding2) [Slot.u8 0 id] 1 <|
  Slot.cons (·.padding3) [Slot.u32 0 id] 4 <|
  Slot.cons (·.padding4) [Slot.u16 0 id] 2 <|
  Slot.cons (·.number_of_de_records) [Slot.u16 0 id] 2 <|
  []
theorem DirectedEnergyFirePdu.layout_eq : DirectedEnergyFirePdu.layout = DirectedEnergyFirePdu.slots.map (Slot.shift 12) := (rfl)
theorem DirectedEnergyFirePdu.written (x : DirectedEnergyFirePdu) : Written DirectedEnergyFirePdu.slots x (wire (sent x)) :=
    Written.cons (EntityId.written x.firing_entity_id) (EntityId.wire_length _) <|
    Written.cons (EventId.written x.event_id) (EventId.wire_length _) <|
    Written.cons (EntityType.written x.munition_type) (EntityType.wire_length _) <|
    Written.cons (ClockTime.written x.shot_start_time) (ClockTime.wire_length _) <|
    Written.cons (written_f32 x.cumulative_shot_time) (octets_length _ _) <|
    Written.cons (EntityCoordinateVector.written x.aperture_emitter_location) (EntityCoordinateVector.wire_length _) <|
    Written.cons (written_f32 x.aperture_diameter) (octets_length _ _) <|
    Written.cons (written_f32 x.wavelength) (octets_length _ _) <|
    Written.cons (written_u32 x.padding) (octets_length _ _) <|
    Written.cons (written_f32 x.pulse_repetition_frequency) (octets_length _ _) <|
    Written.cons (written_f32 x.pulse_width) (octets_length _ _) <|
    Written.cons (written_u16 x.flags) (octets_length _ _) <|
    Written.cons (written_enum rfl x.pulse_shape) (octets_length _ _) <|
    Written.cons (written_u8 x.padding2) (octets_length _ _) <|
    Written.cons (written_u32 x.padding3) (octets_length _ _) <|
    Written.cons (written_u16 x.padding4) (octets_length _ _) <|
    Written.cons (written_u16 x.number_of_de_records) (octets_length _ _) <|
    Written.nil _ _
theorem DirectedEnergyFirePdu.finds : Finds DirectedEnergyFirePdu.deserializeBody (ReadFrom DirectedEnergyFirePdu.slots) := FindsAt.finds <|
    FindsAt.cons (π := fun x : DirectedEnergyFirePdu => x.firing_entity_id) (EntityId.fixed) (EntityId.finds) fun _ =>
    FindsAt.cons (π := fun x : DirectedEnergyFirePdu => x.event_id) (EventId.fixed) (EventId.finds) fun _ =>
    FindsAt.cons (π := fun x : DirectedEnergyFirePdu => x.munition_type) (EntityType.fixed) (EntityType.finds) fun _ =>
    FindsAt.cons (π := fun x : DirectedEnergyFirePdu => x.shot_start_time) (ClockTime.fixed) (ClockTime.finds) fun _ =>
    FindsAt.cons (π := fun x : DirectedEnergyFirePdu => x.cumulative_shot_time) (fixed_f32) (finds_f32) fun _ =>
    FindsAt.cons (π := fun x : DirectedEnergyFirePdu => x.aperture_emitter_location) (EntityCoordinateVector.fixed) (EntityCoordinateVector.finds) fun _ =>
    FindsAt.cons (π := fun x : DirectedEnergyFirePdu => x.aperture_diameter) (fixed_f32) (finds_f32) fun _ =>
    FindsAt.cons (π := fun x : DirectedEnergyFirePdu => x.wavelength) (fixed_f32) (finds_f32) fun _ =>
    FindsAt.cons (π := fun x : DirectedEnergyFirePdu => x.padding) (fixed_u32) (finds_u32) fun _ =>
    FindsAt.cons (π := fun x : DirectedEnergyFirePdu => x.pulse_repetition_frequency) (fixed_f32) (finds_f32) fun _ =>
    FindsAt.cons (π := fun x : DirectedEnergyFirePdu => x.pulse_width) (fixed_f32) (finds_f32) fun _ =>
    FindsAt.cons (π := fun x : DirectedEnergyFirePdu => x.flags) (fixed_u16) (finds_u16) fun _ =>
    FindsAt.cons (π := fun x : DirectedEnergyFirePdu => x.pulse_shape) (EnumSpec.fixed _) (EnumSpec.finds _ rfl) fun _ =>
    FindsAt.cons (π := fun x : DirectedEnergyFirePdu => x.padding2) (fixed_u8) (finds_u8) fun _ =>
    FindsAt.cons (π := fun x : DirectedEnergyFirePdu => x.padding3) (fixed_u32) (finds_u32) fun _ =>
    FindsAt.cons (π := fun x : DirectedEnergyFirePdu => x.padding4) (fixed_u16) (finds_u16) fun _ =>
    FindsAt.cons (π := fun x : DirectedEnergyFirePdu => x.number_of_de_records) (fixed_u16) (finds_u16) fun _ =>
    FindsAt.skip fun _ =>
    FindsAt.ret ⟨⟨⟨⟨⟨⟨⟨⟨⟨⟨⟨⟨⟨⟨⟨⟨⟨trivial, rfl⟩, rfl⟩, rfl⟩, rfl⟩, rfl⟩, rfl⟩, rfl⟩, rfl⟩, rfl⟩, rfl⟩, rfl⟩, rfl⟩, rfl⟩, rfl⟩, rfl⟩, rfl⟩, rfl⟩

def EntityDamageStatusPdu.slots : List (Slot EntityDamageStatusPdu) :=
  Slot.cons (·.damaged_entity_id) EntityId.slots 6 <|
  Slot.cons (·.padding) [Slot.u16 0 id] 2 <|
  Slot.cons (·.padding2) [Slot.u16 0 id] 2 <|
  Slot.cons (·.number_of_damage_descriptions) [Slot.u16 0 id] 2 <|
  []
theorem EntityDamageStatusPdu.layout_eq : EntityDamageStatusPdu.layout = EntityDamageStatusPdu.slots.map (Slot.shift 12) := (rfl)
theorem EntityDamageStatusPdu.written (x : EntityDamageStatusPdu) : Written EntityDamageStatusPdu.slots x (wire (sent x)) :=
    Written.cons (EntityId.written x.damaged_entity_id) (EntityId.wire_length _) <|
    Written.cons (written_u16 x.padding) (octets_length _ _) <|
    Written.cons (written_u16 x.padding2) (octets_length _ _) <|
    Written.cons (written_u16 x.number_of_damage_descriptions) (octets_length _ _) <|
    Written.nil _ _
theorem EntityDamageStatusPdu.finds : Finds EntityDamageStatusPdu.deserializeBody (ReadFrom EntityDamageStatusPdu.slots) := FindsAt.finds <|
    FindsAt.cons (π := fun x : EntityDamageStatusPdu => x.damaged_entity_id) (EntityId.fixed) (EntityId.finds) fun _ =>
    FindsAt.cons (π := fun x : EntityDamageStatusPdu => x.padding) (fixed_u16) (finds_u16) fun _ =>
    FindsAt.cons (π := fun x : EntityDamageStatusPdu => x.padding2) (fixed_u16) (finds_u16) fun _ =>
    FindsAt.cons (π := fun x : EntityDamageStatusPdu => x.number_of_damage_descriptions) (fixed_u16) (finds_u16) fun _ =>
    FindsAt.skip fun _ =>
    FindsAt.ret ⟨⟨⟨⟨trivial, rfl⟩, rfl⟩, rfl⟩, rfl⟩

end Dis
