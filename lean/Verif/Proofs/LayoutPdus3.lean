import Verif.Spec.PduLayout3
import Verif.Proofs.LayoutRecords
import Verif.Proofs.Pdus3
/- Generated by tools/gen_layout.py. -/
set_option maxRecDepth 8000
namespace Dis

def StartResumePdu.slots : List (Slot StartResumePdu) :=
  Slot.cons (·.originating_entity_id) EntityId.slots 6 <|
  Slot.cons (·.receiving_entity_id) EntityId.slots 6 <|
  Slot.cons (·.real_world_time) ClockTime.slots 8 <|
  Slot.cons (·.simulation_time) ClockTime.slots 8 <|
  Slot.cons (·.request_id) [Slot.u32 0 id] 4 <|
  []
theorem StartResumePdu.layout_eq : StartResumePdu.layout = StartResumePdu.slots.map (Slot.shift 12) := (rfl)
theorem StartResumePdu.written (x : StartResumePdu) : Written StartResumePdu.slots x (wire (sent x)) :=
    Written.cons (EntityId.written x.originating_entity_id) (EntityId.wire_length _) <|
    Written.cons (EntityId.written x.receiving_entity_id) (EntityId.wire_length _) <|
    Written.cons (ClockTime.written x.real_world_time) (ClockTime.wire_length _) <|
    Written.cons (ClockTime.written x.simulation_time) (ClockTime.wire_length _) <|
    Written.last (written_u32 x.request_id)
theorem StartResumePdu.finds : Finds StartResumePdu.deserializeBody (ReadFrom StartResumePdu.slots) := FindsAt.finds <|
    FindsAt.cons (π := fun x : StartResumePdu => x.originating_entity_id) (EntityId.fixed) (EntityId.finds) fun _ =>
    FindsAt.cons (π := fun x : StartResumePdu => x.receiving_entity_id) (EntityId.fixed) (EntityId.finds) fun _ =>
    FindsAt.cons (π := fun x : StartResumePdu => x.real_world_time) (ClockTime.fixed) (ClockTime.finds) fun _ =>
    FindsAt.cons (π := fun x : StartResumePdu => x.simulation_time) (ClockTime.fixed) (ClockTime.finds) fun _ =>
    FindsAt.cons (π := fun x : StartResumePdu => x.request_id) (fixed_u32) (finds_u32) fun _ =>
    FindsAt.ret ⟨⟨⟨⟨⟨trivial, rfl⟩, rfl⟩, rfl⟩, rfl⟩, rfl⟩
theorem StartResumePdu.agree {x y : StartResumePdu} (h : Agree StartResumePdu.slots x y) : x = y := by
  have h0 := h
  have e0 : x.originating_entity_id = y.originating_entity_id := EntityId.agree (Agree.left h0)
  have h1 := Agree.right h0
  have e1 : x.receiving_entity_id = y.receiving_entity_id := EntityId.agree (Agree.left h1)
  have h2 := Agree.right h1
  have e2 : x.real_world_time = y.real_world_time := ClockTime.agree (Agree.left h2)
  have h3 := Agree.right h2
  have e3 : x.simulation_time = y.simulation_time := ClockTime.agree (Agree.left h3)
  have h4 := Agree.right h3
  have e4 : x.request_id = y.request_id := agree_u32 (Agree.left h4)
  cases x; cases y
  dsimp only at e0 e1 e2 e3 e4
  subst e0 e1 e2 e3 e4
  rfl

def StopFreezePdu.slots : List (Slot StopFreezePdu) :=
  Slot.cons (·.originating_entity_id) EntityId.slots 6 <|
  Slot.cons (·.receiving_entity_id) EntityId.slots 6 <|
  Slot.cons (·.real_world_time) ClockTime.slots 8 <|
  Slot.cons (·.reason) [Slot.enum 0 1 id] 1 <|
  Slot.cons (·.frozen_behavior) FrozenBehavior.slots 1 <|
  Slot.cons (·.padding) [Slot.u16 0 id] 2 <|
  Slot.cons (·.request_id) [Slot.u32 0 id] 4 <|
  []
theorem StopFreezePdu.layout_eq : StopFreezePdu.layout = StopFreezePdu.slots.map (Slot.shift 12) := (rfl)
theorem StopFreezePdu.written (x : StopFreezePdu) : Written StopFreezePdu.slots x (wire (sent x)) :=
    Written.cons (EntityId.written x.originating_entity_id) (EntityId.wire_length _) <|
    Written.cons (EntityId.written x.receiving_entity_id) (EntityId.wire_length _) <|
    Written.cons (ClockTime.written x.real_world_time) (ClockTime.wire_length _) <|
    Written.cons (written_enum rfl x.reason) (octets_length _ _) <|
    Written.cons (FrozenBehavior.written x.frozen_behavior) (octets_length _ _) <|
    Written.cons (written_u16 x.padding) (octets_length _ _) <|
    Written.last (written_u32 x.request_id)
theorem StopFreezePdu.finds : Finds StopFreezePdu.deserializeBody (ReadFrom StopFreezePdu.slots) := FindsAt.finds <|
    FindsAt.cons (π := fun x : StopFreezePdu => x.originating_entity_id) (EntityId.fixed) (EntityId.finds) fun _ =>
    FindsAt.cons (π := fun x : StopFreezePdu => x.receiving_entity_id) (EntityId.fixed) (EntityId.finds) fun _ =>
    FindsAt.cons (π := fun x : StopFreezePdu => x.real_world_time) (ClockTime.fixed) (ClockTime.finds) fun _ =>
    FindsAt.cons (π := fun x : StopFreezePdu => x.reason) (EnumSpec.fixed _) (EnumSpec.finds _ rfl) fun _ =>
    FindsAt.cons (π := fun x : StopFreezePdu => x.frozen_behavior) (FixedDec.fixed) (FrozenBehavior.finds) fun _ =>
    FindsAt.cons (π := fun x : StopFreezePdu => x.padding) (fixed_u16) (finds_u16) fun _ =>
    FindsAt.cons (π := fun x : StopFreezePdu => x.request_id) (fixed_u32) (finds_u32) fun _ =>
    FindsAt.ret ⟨⟨⟨⟨⟨⟨⟨trivial, rfl⟩, rfl⟩, rfl⟩, rfl⟩, rfl⟩, rfl⟩, rfl⟩
theorem StopFreezePdu.agree {x y : StopFreezePdu} (h : Agree StopFreezePdu.slots x y) : x = y := by
  have h0 := h
  have e0 : x.originating_entity_id = y.originating_entity_id := EntityId.agree (Agree.left h0)
  have h1 := Agree.right h0
  have e1 : x.receiving_entity_id = y.receiving_entity_id := EntityId.agree (Agree.left h1)
  have h2 := Agree.right h1
  have e2 : x.real_world_time = y.real_world_time := ClockTime.agree (Agree.left h2)
  have h3 := Agree.right h2
  have e3 : x.reason = y.reason := agree_enum (Agree.left h3)
  have h4 := Agree.right h3
  have e4 : x.frozen_behavior = y.frozen_behavior := FrozenBehavior.agree (Agree.left h4)
  have h5 := Agree.right h4
  have e5 : x.padding = y.padding := agree_u16 (Agree.left h5)
  have h6 := Agree.right h5
  have e6 : x.request_id = y.request_id := agree_u32 (Agree.left h6)
  cases x; cases y
  dsimp only at e0 e1 e2 e3 e4 e5 e6
  subst e0 e1 e2 e3 e4 e5 e6
  rfl

def AcknowledgePdu.slots : List (Slot AcknowledgePdu) :=
  Slot.cons (·.originating_entity_id) EntityId.slots 6 <|
  Slot.cons (·.receiving_entity_id) EntityId.slots 6 <|
  Slot.cons (·.acknowledge_flag) [Slot.enum 0 2 id] 2 <|
  Slot.cons (·.response_flag) [Slot.enum 0 2 id] 2 <|
  Slot.cons (·.request_id) [Slot.u32 0 id] 4 <|
  []
theorem AcknowledgePdu.layout_eq : AcknowledgePdu.layout = AcknowledgePdu.slots.map (Slot.shift 12) := (rfl)
theorem AcknowledgePdu.written (x : AcknowledgePdu) : Written AcknowledgePdu.slots x (wire (sent x)) :=
    Written.cons (EntityId.written x.originating_entity_id) (EntityId.wire_length _) <|
    Written.cons (EntityId.written x.receiving_entity_id) (EntityId.wire_length _) <|
    Written.cons (written_enum rfl x.acknowledge_flag) (octets_length _ _) <|
    Written.cons (written_enum rfl x.response_flag) (octets_length _ _) <|
    Written.last (written_u32 x.request_id)
theorem AcknowledgePdu.finds : Finds AcknowledgePdu.deserializeBody (ReadFrom AcknowledgePdu.slots) := FindsAt.finds <|
    FindsAt.cons (π := fun x : AcknowledgePdu => x.originating_entity_id) (EntityId.fixed) (EntityId.finds) fun _ =>
    FindsAt.cons (π := fun x : AcknowledgePdu => x.receiving_entity_id) (EntityId.fixed) (EntityId.finds) fun _ =>
    FindsAt.cons (π := fun x : AcknowledgePdu => x.acknowledge_flag) (EnumSpec.fixed _) (EnumSpec.finds _ rfl) fun _ =>
    FindsAt.cons (π := fun x : AcknowledgePdu => x.response_flag) (EnumSpec.fixed _) (EnumSpec.finds _ rfl) fun _ =>
    FindsAt.cons (π := fun x : AcknowledgePdu => x.request_id) (fixed_u32) (finds_u32) fun _ =>
    FindsAt.ret ⟨⟨⟨⟨⟨trivial, rfl⟩, rfl⟩, rfl⟩, rfl⟩, rfl⟩
theorem AcknowledgePdu.agree {x y : AcknowledgePdu} (h : Agree AcknowledgePdu.slots x y) : x = y := by
  have h0 := h
  have e0 : x.originating_entity_id = y.originating_entity_id := EntityId.agree (Agree.left h0)
  have h1 := Agree.right h0
  have e1 : x.receiving_entity_id = y.receiving_entity_id := EntityId.agree (Agree.left h1)
  have h2 := Agree.right h1
  have e2 : x.acknowledge_flag = y.acknowledge_flag := agree_enum (Agree.left h2)
  have h3 := Agree.right h2
  have e3 : x.response_flag = y.response_flag := agree_enum (Agree.left h3)
  have h4 := Agree.right h3
  have e4 : x.request_id = y.request_id := agree_u32 (Agree.left h4)
  cases x; cases y
  dsimp only at e0 e1 e2 e3 e4
  subst e0 e1 e2 e3 e4
  rfl

def ActionRequestPdu.slots : List (Slot ActionRequestPdu) :=
  Slot.cons (·.originating_entity_id) EntityId.slots 6 <|
  Slot.cons (·.receiving_entity_id) EntityId.slots 6 <|
  Slot.cons (·.request_id) [Slot.u32 0 id] 4 <|
  Slot.cons (·.action_id) [Slot.u32 0 id] 4 <|
  Slot.cons (·.number_of_fixed_datum_records) [Slot.u32 0 id] 4 <|
  Slot.cons (·.number_of_variable_datum_records) [Slot.u32 0 id] 4 <|
  []
theorem ActionRequestPdu.layout_eq : ActionRequestPdu.layout = ActionRequestPdu.slots.map (Slot.shift 12) := (rfl)
theorem ActionRequestPdu.written (x : ActionRequestPdu) : Written ActionRequestPdu.slots x (wire (sent x)) :=
    Written.cons (EntityId.written x.originating_entity_id) (EntityId.wire_length _) <|
    Written.cons (EntityId.written x.receiving_entity_id) (EntityId.wire_length _) <|
    Written.cons (written_u32 x.request_id) (octets_length _ _) <|
    Written.cons (written_u32 x.action_id) (octets_length _ _) <|
    Written.cons (written_u32 x.number_of_fixed_datum_records) (octets_length _ _) <|
    Written.cons (written_u32 x.number_of_variable_datum_records) (octets_length _ _) <|
    Written.nil _ _
theorem ActionRequestPdu.finds : Finds ActionRequestPdu.deserializeBody (ReadFrom ActionRequestPdu.slots) := FindsAt.finds <|
    FindsAt.cons (π := fun x : ActionRequestPdu => x.originating_entity_id) (EntityId.fixed) (EntityId.finds) fun _ =>
    FindsAt.cons (π := fun x : ActionRequestPdu => x.receiving_entity_id) (EntityId.fixed) (EntityId.finds) fun _ =>
    FindsAt.cons (π := fun x : ActionRequestPdu => x.request_id) (fixed_u32) (finds_u32) fun _ =>
    FindsAt.cons (π := fun x : ActionRequestPdu => x.action_id) (fixed_u32) (finds_u32) fun _ =>
    FindsAt.cons (π := fun x : ActionRequestPdu => x.number_of_fixed_datum_records) (fixed_u32) (finds_u32) fun _ =>
    FindsAt.cons (π := fun x : ActionRequestPdu => x.number_of_variable_datum_records) (fixed_u32) (finds_u32) fun _ =>
    FindsAt.skip fun _ =>
    FindsAt.skip fun _ =>
    FindsAt.ret ⟨⟨⟨⟨⟨⟨trivial, rfl⟩, rfl⟩, rfl⟩, rfl⟩, rfl⟩, rfl⟩

def ActionResponsePdu.slots : List (Slot ActionResponsePdu) :=
  Slot.cons (·.originating_entity_id) EntityId.slots 6 <|
  Slot.cons (·.receiving_entity_id) EntityId.slots 6 <|
  Slot.cons (·.request_id) [Slot.u32 0 id] 4 <|
  Slot.cons (·.request_status) [Slot.enum 0 4 id] 4 <|
  Slot.cons (·.number_of_fixed_datum_records) [Slot.u32 0 id] 4 <|
  Slot.cons (·.number_of_variable_datum_records) [Slot.u32 0 id] 4 <|
  []
theorem ActionResponsePdu.layout_eq : ActionResponsePdu.layout = ActionResponsePdu.slots.map (Slot.shift 12) := (rfl)
theorem ActionResponsePdu.written (x : ActionResponsePdu) : Written ActionResponsePdu.slots x (wire (sent x)) :=
    Written.cons (EntityId.written x.originating_entity_id) (EntityId.wire_length _) <|
    Written.cons (EntityId.written x.receiving_entity_id) (EntityId.wire_length _) <|
    Written.cons (written_u32 x.request_id) (octets_length _ _) <|
    Written.cons (written_enum rfl x.request_status) (octets_length _ _) <|
    Written.cons (written_u32 x.number_of_fixed_datum_records) (octets_length _ _) <|
    Written.cons (written_u32 x.number_of_variable_datum_records) (octets_length _ _) <|
    Written.nil _ _
theorem ActionResponsePdu.finds : Finds ActionResponsePdu.deserializeBody (ReadFrom ActionResponsePdu.slots) := FindsAt.finds <|
    FindsAt.cons (π := fun x : ActionResponsePdu => x.originating_entity_id) (EntityId.fixed) (EntityId.finds) fun _ =>
    FindsAt.cons (π := fun x : ActionResponsePdu => x.receiving_entity_id) (EntityId.fixed) (EntityId.finds) fun _ =>
    FindsAt.cons (π := fun x : ActionResponsePdu => x.request_id) (fixed_u32) (finds_u32) fun _ =>
    FindsAt.cons (π := fun x : ActionResponsePdu => x.request_status) (EnumSpec.fixed _) (EnumSpec.finds _ rfl) fun _ =>
    FindsAt.cons (π := fun x : ActionResponsePdu => x.number_of_fixed_datum_records) (fixed_u32) (finds_u32) fun _ =>
    FindsAt.cons (π := fun x : ActionResponsePdu => x.number_of_variable_datum_records) (fixed_u32) (finds_u32) fun _ =>
    FindsAt.skip fun _ =>
    FindsAt.skip fun _ =>
    FindsAt.ret ⟨⟨⟨⟨⟨⟨trivial, rfl⟩, rfl⟩, rfl⟩, rfl⟩, rfl⟩, rfl⟩

def DataQueryPdu.slots : List (Slot DataQueryPdu) :=
  Slot.cons (·.originating_entity_id) EntityId.slots 6 <|
  Slot.cons (·.receiving_entity_id) EntityId.slots 6 <|
  Slot.cons (·.request_id) [Slot.u32 0 id] 4 <|
  Slot.cons (·.time_interval) [Slot.u32 0 id] 4 <|
  Slot.cons (·.number_of_fixed_datum_records) [Slot.u32 0 id] 4 <|
  Slot.cons (·.number_of_variable_datum_records) [Slot.u32 0 id] 4 <|
  []
theorem DataQueryPdu.layout_eq : DataQueryPdu.layout = DataQueryPdu.slots.map (Slot.shift 12) := (rfl)
theorem DataQueryPdu.written (x : DataQueryPdu) : Written DataQueryPdu.slots x (wire (sent x)) :=
    Written.cons (EntityId.written x.originating_entity_id) (EntityId.wire_length _) <|
    Written.cons (EntityId.written x.receiving_entity_id) (EntityId.wire_length _) <|
    Written.cons (written_u32 x.request_id) (octets_length _ _) <|
    Written.cons (written_u32 x.time_interval) (octets_length _ _) <|
    Written.cons (written_u32 x.number_of_fixed_datum_records) (octets_length _ _) <|
    Written.cons (written_u32 x.number_of_variable_datum_records) (octets_length _ _) <|
    Written.nil _ _
theorem DataQueryPdu.finds : Finds DataQueryPdu.deserializeBody (ReadFrom DataQueryPdu.slots) := FindsAt.finds <|
    FindsAt.cons (π := fun x : DataQueryPdu => x.originating_entity_id) (EntityId.fixed) (EntityId.finds) fun _ =>
    FindsAt.cons (π := fun x : DataQueryPdu => x.receiving_entity_id) (EntityId.fixed) (EntityId.finds) fun _ =>
    FindsAt.cons (π := fun x : DataQueryPdu => x.request_id) (fixed_u32) (finds_u32) fun _ =>
    FindsAt.cons (π := fun x : DataQueryPdu => x.time_interval) (fixed_u32) (finds_u32) fun _ =>
    FindsAt.cons (π := fun x : DataQueryPdu => x.number_of_fixed_datum_records) (fixed_u32) (finds_u32) fun _ =>
    FindsAt.cons (π := fun x : DataQueryPdu => x.number_of_variable_datum_records) (fixed_u32) (finds_u32) fun _ =>
    FindsAt.skip fun _ =>
    FindsAt.skip fun _ =>
    FindsAt.ret ⟨⟨⟨⟨⟨⟨trivial, rfl⟩, rfl⟩, rfl⟩, rfl⟩, rfl⟩, rfl⟩

def SetDataPdu.slots : List (Slot SetDataPdu) :=
  Slot.cons (·.originating_entity_id) EntityId.slots 6 <|
  Slot.cons (·.receiving_entity_id) EntityId.slots 6 <|
  Slot.cons (·.request_id) [Slot.u32 0 id] 4 <|
  Slot.cons (·.padding) [Slot.u32 0 id] 4 <|
  Slot.cons (·.number_of_fixed_datum_records) [Slot.u32 0 id] 4 <|
  Slot.cons (·.number_of_variable_datum_records) [Slot.u32 0 id] 4 <|
  []
theorem SetDataPdu.layout_eq : SetDataPdu.layout = SetDataPdu.slots.map (Slot.shift 12) := (rfl)
theorem SetDataPdu.written (x : SetDataPdu) : Written SetDataPdu.slots x (wire (sent x)) :=
    Written.cons (EntityId.written x.originating_entity_id) (EntityId.wire_length _) <|
    Written.cons (EntityId.written x.receiving_entity_id) (EntityId.wire_length _) <|
    Written.cons (written_u32 x.request_id) (octets_length _ _) <|
    Written.cons (written_u32 x.padding) (octets_length _ _) <|
    Written.cons (written_u32 x.number_of_fixed_datum_records) (octets_length _ _) <|
    Written.cons (written_u32 x.number_of_variable_datum_records) (octets_length _ _) <|
    Written.nil _ _
theorem SetDataPdu.finds : Finds SetDataPdu.deserializeBody (ReadFrom SetDataPdu.slots) := FindsAt.finds <|
    FindsAt.cons (π := fun x : SetDataPdu => x.originating_entity_id) (EntityId.fixed) (EntityId.finds) fun _ =>
    FindsAt.cons (π := fun x : SetDataPdu => x.receiving_entity_id) (EntityId.fixed) (EntityId.finds) fun _ =>
    FindsAt.cons (π := fun x : SetDataPdu => x.request_id) (fixed_u32) (finds_u32) fun _ =>
    FindsAt.cons (π := fun x : SetDataPdu => x.padding) (fixed_u32) (finds_u32) fun _ =>
    FindsAt.cons (π := fun x : SetDataPdu => x.number_of_fixed_datum_records) (fixed_u32) (finds_u32) fun _ =>
    FindsAt.cons (π := fun x : SetDataPdu => x.number_of_variable_datum_records) (fixed_u32) (finds_u32) fun _ =>
    FindsAt.skip fun _ =>
    FindsAt.skip fun _ =>
    FindsAt.ret ⟨⟨⟨⟨⟨⟨trivial, rfl⟩, rfl⟩, rfl⟩, rfl⟩, rfl⟩, rfl⟩

def DataPdu.slots : List (Slot DataPdu) :=
  Slot.cons (·.originating_entity_id) EntityId.slots 6 <|
  Slot.cons (·.receiving_entity_id) EntityId.slots 6 <|
  Slot.cons (·.request_id) [Slot.u32 0 id] 4 <|
  Slot.cons (·.padding) [Slot.u32 0 id] 4 <|
  Slot.cons (·.number_of_fixed_datum_records) [Slot.u32 0 id] 4 <|
  Slot.cons (·.number_of_variable_datum_records) [Slot.u32 0 id] 4 <|
  []
theorem DataPdu.layout_eq : DataPdu.layout = DataPdu.slots.map (Slot.shift 12) := (rfl)
theorem DataPdu.written (x : DataPdu) : Written DataPdu.slots x (wire (sent x)) :=
    Written.cons (EntityId.written x.originating_entity_id) (EntityId.wire_length _) <|
    Written.cons (EntityId.written x.receiving_entity_id) (EntityId.wire_length _) <|
    Written.cons (written_u32 x.request_id) (octets_length _ _) <|
    Written.cons (written_u32 x.padding) (octets_length _ _) <|
    Written.cons (written_u32 x.number_of_fixed_datum_records) (octets_length _ _) <|
    Written.cons (written_u32 x.number_of_variable_datum_records) (octets_length _ _) <|
    Written.nil _ _
theorem DataPdu.finds : Finds DataPdu.deserializeBody (ReadFrom DataPdu.slots) := FindsAt.finds <|
    FindsAt.cons (π := fun x : DataPdu => x.originating_entity_id) (EntityId.fixed) (EntityId.finds) fun _ =>
    FindsAt.cons (π := fun x : DataPdu => x.receiving_entity_id) (EntityId.fixed) (EntityId.finds) fun _ =>
    FindsAt.cons (π := fun x : DataPdu => x.request_id) (fixed_u32) (finds_u32) fun _ =>
    FindsAt.cons (π := fun x : DataPdu => x.padding) (fixed_u32) (finds_u32) fun _ =>
    FindsAt.cons (π := fun x : DataPdu => x.number_of_fixed_datum_records) (fixed_u32) (finds_u32) fun _ =>
    FindsAt.cons (π := fun x : DataPdu => x.number_of_variable_datum_records) (fixed_u32) (finds_u32) fun _ =>
    FindsAt.skip fun _ =>
    FindsAt.skip fun _ =>
    FindsAt.ret ⟨⟨⟨⟨⟨⟨trivial, rfl⟩, rfl⟩, rfl⟩, rfl⟩, rfl⟩, rfl⟩

def EventReportPdu.slots : List (Slot EventReportPdu) :=
  Slot.cons (·.originating_entity_id) EntityId.slots 6 <|
  Slot.cons (·.receiving_entity_id) EntityId.slots 6 <|
  Slot.cons (·.event_type) [Slot.enum 0 4 id] 4 <|
  Slot.cons (·.padding) [Slot.u32 0 id] 4 <|
  Slot.cons (·.number_of_fixed_datum_records) [Slot.u32 0 id] 4 <|
  Slot.cons (·.number_of_variable_datum_records) [Slot.u32 0 id] 4 <|
  []
theorem EventReportPdu.layout_eq : EventReportPdu.layout = EventReportPdu.slots.map (Slot.shift 12) := (rfl)
theorem EventReportPdu.written (x : EventReportPdu) : Written EventReportPdu.slots x (wire (sent x)) :=
    Written.cons (EntityId.written x.originating_entity_id) (EntityId.wire_length _) <|
    Written.cons (EntityId.written x.receiving_entity_id) (EntityId.wire_length _) <|
    Written.cons (written_enum rfl x.event_type) (octets_length _ _) <|
    Written.cons (written_u32 x.padding) (octets_length _ _) <|
    Written.cons (written_u32 x.number_of_fixed_datum_records) (octets_length _ _) <|
    Written.cons (written_u32 x.number_of_variable_datum_records) (octets_length _ _) <|
    Written.nil _ _
theorem EventReportPdu.finds : Finds EventReportPdu.deserializeBody (ReadFrom EventReportPdu.slots) := FindsAt.finds <|
    FindsAt.cons (π := fun x : EventReportPdu => x.originating_entity_id) (EntityId.fixed) (EntityId.finds) fun _ =>
    FindsAt.cons (π := fun x : EventReportPdu => x.receiving_entity_id) (EntityId.fixed) (EntityId.finds) fun _ =>
    FindsAt.cons (π := fun x : EventReportPdu => x.event_type) (EnumSpec.fixed _) (EnumSpec.finds _ rfl) fun _ =>
    FindsAt.cons (π := fun x : EventReportPdu => x.padding) (fixed_u32) (finds_u32) fun _ =>
    FindsAt.cons (π := fun x : EventReportPdu => x.number_of_fixed_datum_records) (fixed_u32) (finds_u32) fun _ =>
    FindsAt.cons (π := fun x : EventReportPdu => x.number_of_variable_datum_records) (fixed_u32) (finds_u32) fun _ =>
    FindsAt.skip fun _ =>
    FindsAt.skip fun _ =>
    FindsAt.ret ⟨⟨⟨⟨⟨⟨trivial, rfl⟩, rfl⟩, rfl⟩, rfl⟩, rfl⟩, rfl⟩

def CommentPdu.slots : List (Slot CommentPdu) :=
  Slot.cons (·.originating_entity_id) EntityId.slots 6 <|
  Slot.cons (·.receiving_entity_id) EntityId.slots 6 <|
  Slot.cons (·.number_of_fixed_datum_records) [Slot.u32 0 id] 4 <|
  Slot.cons (·.number_of_variable_datum_records) [Slot.u32 0 id] 4 <|
  []
theorem CommentPdu.layout_eq : CommentPdu.layout = CommentPdu.slots.map (Slot.shift 12) := (rfl)
theorem CommentPdu.written (x : CommentPdu) : Written CommentPdu.slots x (wire (sent x)) :=
    Written.cons (EntityId.written x.originating_entity_id) (EntityId.wire_length _) <|
    Written.cons (EntityId.written x.receiving_entity_id) (EntityId.wire_length _) <|
    Written.cons (written_u32 x.number_of_fixed_datum_records) (octets_length _ _) <|
    Written.cons (written_u32 x.number_of_variable_datum_records) (octets_length _ _) <|
    Written.nil _ _
theorem CommentPdu.finds : Finds CommentPdu.deserializeBody (ReadFrom CommentPdu.slots) := FindsAt.finds <|
    FindsAt.cons (π := fun x : CommentPdu => x.originating_entity_id) (EntityId.fixed) (EntityId.finds) fun _ =>
    FindsAt.cons (π := fun x : CommentPdu => x.receiving_entity_id) (EntityId.fixed) (EntityId.finds) fun _ =>
    FindsAt.cons (π := fun x : CommentPdu => x.number_of_fixed_datum_records) (fixed_u32) (finds_u32) fun _ =>
    FindsAt.cons (π := fun x : CommentPdu => x.number_of_variable_datum_records) (fixed_u32) (finds_u32) fun _ =>
    FindsAt.skip fun _ =>
    FindsAt.skip fun _ =>
    FindsAt.ret ⟨⟨⟨⟨trivial, rfl⟩, rfl⟩, rfl⟩, rfl⟩

def CreateEntityReliablePdu.slots : List (Slot CreateEntityReliablePdu) :=
  Slot.cons (·.originating_entity_id) EntityId.slots 6 <|
  Slot.cons (·.receiving_entity_id) EntityId.slots 6 <|
  Slot.cons (·.required_reliability_service) [Slot.enum 0 1 id] 1 <|
  Slot.cons (·.padding) [Slot.u8 0 id] 1 <|
  Slot.cons (·.padding2) [Slot.u16 0 id] 2 <|
  Slot.cons (·.request_id) [Slot.u32 0 id] 4 <|
  []
theorem CreateEntityReliablePdu.layout_eq : CreateEntityReliablePdu.layout = CreateEntityReliablePdu.slots.map (Slot.shift 12) := (rfl)
theorem CreateEntityReliablePdu.written (x : CreateEntityReliablePdu) : Written CreateEntityReliablePdu.slots x (wire (sent x)) :=
    Written.cons (EntityId.written x.originating_entity_id) (EntityId.wire_length _) <|
    Written.cons (EntityId.written x.receiving_entity_id) (EntityId.wire_length _) <|
    Written.cons (written_enum rfl x.required_reliability_service) (octets_length _ _) <|
    Written.cons (written_u8 x.padding) (octets_length _ _) <|
    Written.cons (written_u16 x.padding2) (octets_length _ _) <|
    Written.last (written_u32 x.request_id)
theorem CreateEntityReliablePdu.finds : Finds CreateEntityReliablePdu.deserializeBody (ReadFrom CreateEntityReliablePdu.slots) := FindsAt.finds <|
    FindsAt.cons (π := fun x : CreateEntityReliablePdu => x.originating_entity_id) (EntityId.fixed) (EntityId.finds) fun _ =>
    FindsAt.cons (π := fun x : CreateEntityReliablePdu => x.receiving_entity_id) (EntityId.fixed) (EntityId.finds) fun _ =>
    FindsAt.cons (π := fun x : CreateEntityReliablePdu => x.required_reliability_service) (EnumSpec.fixed _) (EnumSpec.finds _ rfl) fun _ =>
    FindsAt.cons (π := fun x : CreateEntityReliablePdu => x.padding) (fixed_u8) (finds_u8) fun _ =>
    FindsAt.cons (π := fun x : CreateEntityReliablePdu => x.padding2) (fixed_u16) (finds_u16) fun _ =>
    FindsAt.cons (π := fun x : CreateEntityReliablePdu => x.request_id) (fixed_u32) (finds_u32) fun _ =>
    FindsAt.ret ⟨⟨⟨⟨⟨⟨trivial, rfl⟩, rfl⟩, rfl⟩, rfl⟩, rfl⟩, rfl⟩
theorem CreateEntityReliablePdu.agree {x y : CreateEntityReliablePdu} (h : Agree CreateEntityReliablePdu.slots x y) : x = y := by
  have h0 := h
  have e0 : x.originating_entity_id = y.originating_entity_id := EntityId.agree (Agree.left h0)
  have h1 := Agree.right h0
  have e1 : x.receiving_entity_id = y.receiving_entity_id := EntityId.agree (Agree.left h1)
  have h2 := Agree.right h1
  have e2 : x.required_reliability_service = y.required_reliability_service := agree_enum (Agree.left h2)
  have h3 := Agree.right h2
  have e3 : x.padding = y.padding := agree_u8 (Agree.left h3)
  have h4 := Agree.right h3
  have e4 : x.padding2 = y.padding2 := agree_u16 (Agree.left h4)
  have h5 := Agree.right h4
  have e5 : x.request_id = y.request_id := agree_u32 (Agree.left h5)
  cases x; cases y
  dsimp only at e0 e1 e2 e3 e4 e5
  subst e0 e1 e2 e3 e4 e5
  rfl

def RemoveEntityReliablePdu.slots : List (Slot RemoveEntityReliablePdu) :=
  Slot.cons (·.originating_entity_id) EntityId.slots 6 <|
  Slot.cons (·.receiving_entity_id) EntityId.slots 6 <|
  Slot.cons (·.required_reliability_service) [Slot.enum 0 1 id] 1 <|
  Slot.cons (·.padding) [Slot.u8 0 id] 1 <|
  Slot.cons (·.padding2) [Slot.u16 0 id] 2 <|
  Slot.cons (·.request_id) [Slot.u32 0 id] 4 <|
  []
theorem RemoveEntityReliablePdu.layout_eq : RemoveEntityReliablePdu.layout = RemoveEntityReliablePdu.slots.map (Slot.shift 12) := (rfl)
theorem RemoveEntityReliablePdu.written (x : RemoveEntityReliablePdu) : Written RemoveEntityReliablePdu.slots x (wire (sent x)) :=
    Written.cons (EntityId.written x.originating_entity_id) (EntityId.wire_length _) <|
    Written.cons (EntityId.written x.receiving_entity_id) (EntityId.wire_length _) <|
    Written.cons (written_enum rfl x.required_reliability_service) (octets_length _ _) <|
    Written.cons (written_u8 x.padding) (octets_length _ _) <|
    Written.cons (written_u16 x.padding2) (octets_length _ _) <|
    Written.last (written_u32 x.request_id)
theorem RemoveEntityReliablePdu.finds : Finds RemoveEntityReliablePdu.deserializeBody (ReadFrom RemoveEntityReliablePdu.slots) := FindsAt.finds <|
    FindsAt.cons (π := fun x : RemoveEntityReliablePdu => x.originating_entity_id) (EntityId.fixed) (EntityId.finds) fun _ =>
    FindsAt.cons (π := fun x : RemoveEntityReliablePdu => x.receiving_entity_id) (EntityId.fixed) (EntityId.finds) fun _ =>
    FindsAt.cons (π := fun x : RemoveEntityReliablePdu => x.required_reliability_service) (EnumSpec.fixed _) (EnumSpec.finds _ rfl) fun _ =>
    FindsAt.cons (π := fun x : RemoveEntityReliablePdu => x.padding) (fixed_u8) (finds_u8) fun _ =>
    FindsAt.cons (π := fun x : RemoveEntityReliablePdu => x.padding2) (fixed_u16) (finds_u16) fun _ =>
    FindsAt.cons (π := fun x : RemoveEntityReliablePdu => x.request_id) (fixed_u32) (finds_u32) fun _ =>
    FindsAt.ret ⟨⟨⟨⟨⟨⟨trivial, rfl⟩, rfl⟩, rfl⟩, rfl⟩, rfl⟩, rfl⟩
theorem RemoveEntityReliablePdu.agree {x y : RemoveEntityReliablePdu} (h : Agree RemoveEntityReliablePdu.slots x y) : x = y := by
  have h0 := h
  have e0 : x.originating_entity_id = y.originating_entity_id := EntityId.agree (Agree.left h0)
  have h1 := Agree.right h0
  have e1 : x.receiving_entity_id = y.receiving_entity_id := EntityId.agree (Agree.left h1)
  have h2 := Agree.right h1
  have e2 : x.required_reliability_service = y.required_reliability_service := agree_enum (Agree.left h2)
  have h3 := Agree.right h2
  have e3 : x.padding = y.padding := agree_u8 (Agree.left h3)
  have h4 := Agree.right h3
  have e4 : x.padding2 = y.padding2 := agree_u16 (Agree.left h4)
  have h5 := Agree.right h4
  have e5 : x.request_id = y.request_id := agree_u32 (Agree.left h5)
  cases x; cases y
  dsimp only at e0 e1 e2 e3 e4 e5
  subst e0 e1 e2 e3 e4 e5
  rfl

def StartResumeReliablePdu.slots : List (Slot StartResumeReliablePdu) :=
  Slot.cons (·.originating_entity_id) EntityId.slots 6 <|
  Slot.cons (·.receiving_entity_id) EntityId.slots 6 <|
  Slot.cons (·.real_world_time) ClockTime.slots 8 <|
  Slot.cons (·.simulation_time) ClockTime.slots 8 <|
  Slot.cons (·.required_reliability_service) [Slot.enum 0 1 id] 1 <|
  Slot.cons (·.padding) [Slot.u8 0 id] 1 <|
  Slot.cons (·.padding2) [Slot.u16 0 id] 2 <|
  Slot.cons (·.request_id) [Slot.u32 0 id] 4 <|
  []
theorem StartResumeReliablePdu.layout_eq : StartResumeReliablePdu.layout = StartResumeReliablePdu.slots.map (Slot.shift 12) := (rfl)
theorem StartResumeReliablePdu.written (x : StartResumeReliablePdu) : Written StartResumeReliablePdu.slots x (wire (sent x)) :=
    Written.cons (EntityId.written x.originating_entity_id) (EntityId.wire_length _) <|
    Written.cons (EntityId.written x.receiving_entity_id) (EntityId.wire_length _) <|
    Written.cons (ClockTime.written x.real_world_time) (ClockTime.wire_length _) <|
    Written.cons (ClockTime.written x.simulation_time) (ClockTime.wire_length _) <|
    Written.cons (written_enum rfl x.required_reliability_service) (octets_length _ _) <|
    Written.cons (written_u8 x.padding) (octets_length _ _) <|
    Written.cons (written_u16 x.padding2) (octets_length _ _) <|
    Written.last (written_u32 x.request_id)
theorem StartResumeReliablePdu.finds : Finds StartResumeReliablePdu.deserializeBody (ReadFrom StartResumeReliablePdu.slots) := FindsAt.finds <|
    FindsAt.cons (π := fun x : StartResumeReliablePdu => x.originating_entity_id) (EntityId.fixed) (EntityId.finds) fun _ =>
    FindsAt.cons (π := fun x : StartResumeReliablePdu => x.receiving_entity_id) (EntityId.fixed) (EntityId.finds) fun _ =>
    FindsAt.cons (π := fun x : StartResumeReliablePdu => x.real_world_time) (ClockTime.fixed) (ClockTime.finds) fun _ =>
    FindsAt.cons (π := fun x : StartResumeReliablePdu => x.simulation_time) (ClockTime.fixed) (ClockTime.finds) fun _ =>
    FindsAt.cons (π := fun x : StartResumeReliablePdu => x.required_reliability_service) (EnumSpec.fixed _) (EnumSpec.finds _ rfl) fun _ =>
    FindsAt.cons (π := fun x : StartResumeReliablePdu => x.padding) (fixed_u8) (finds_u8) fun _ =>
    FindsAt.cons (π := fun x : StartResumeReliablePdu => x.padding2) (fixed_u16) (finds_u16) fun _ =>
    FindsAt.cons (π := fun x : StartResumeReliablePdu => x.request_id) (fixed_u32) (finds_u32) fun _ =>
    FindsAt.ret ⟨⟨⟨⟨⟨⟨⟨⟨trivial, rfl⟩, rfl⟩, rfl⟩, rfl⟩, rfl⟩, rfl⟩, rfl⟩, rfl⟩
theorem StartResumeReliablePdu.agree {x y : StartResumeReliablePdu} (h : Agree StartResumeReliablePdu.slots x y) : x = y := by
  have h0 := h
  have e0 : x.originating_entity_id = y.originating_entity_id := EntityId.agree (Agree.left h0)
  have h1 := Agree.right h0
  have e1 : x.receiving_entity_id = y.receiving_entity_id := EntityId.agree (Agree.left h1)
  have h2 := Agree.right h1
  have e2 : x.real_world_time = y.real_world_time := ClockTime.agree (Agree.left h2)
  have h3 := Agree.right h2
  have e3 : x.simulation_time = y.simulation_time := ClockTime.agree (Agree.left h3)
  have h4 := Agree.right h3
  have e4 : x.required_reliability_service = y.required_reliability_service := agree_enum (Agree.left h4)
  have h5 := Agree.right h4
  have e5 : x.padding = y.padding := agree_u8 (Agree.left h5)
  have h6 := Agree.right h5
  have e6 : x.padding2 = y.padding2 := agree_u16 (Agree.left h6)
  have h7 := Agree.right h6
  have e7 : x.request_id = y.request_id := agree_u32 (Agree.left h7)
  cases x; cases y
  dsimp only at e0 e1 e2 e3 e4 e5 e6 e7
  subst e0 e1 e2 e3 e4 e5 e6 e7
  rfl

def StopFreezeReliablePdu.slots : List (Slot StopFreezeReliablePdu) :=
  Slot.cons (·.originating_entity_id) EntityId.slots 6 <|
  Slot.cons (·.receiving_entity_id) EntityId.slots 6 <|
  Slot.cons (·.real_world_time) ClockTime.slots 8 <|
  Slot.cons (·.reason) [Slot.enum 0 1 id] 1 <|
  Slot.cons (·.frozen_behavior) FrozenBehavior.slots 1 <|
  Slot.cons (·.required_reliability_service) [Slot.u8 0 id] 1 <|
  Slot.cons (·.padding) [Slot.u8 0 id] 1 <|
  Slot.cons (·.request_id) [Slot.u32 0 id] 4 <|
  []
theorem StopFreezeReliablePdu.layout_eq : StopFreezeReliablePdu.layout = StopFreezeReliablePdu.slots.map (Slot.shift 12) := (rfl)
theorem StopFreezeReliablePdu.written (x : StopFreezeReliablePdu) : Written StopFreezeReliablePdu.slots x (wire (sent x)) :=
    Written.cons (EntityId.written x.originating_entity_id) (EntityId.wire_length _) <|
    Written.cons (EntityId.written x.receiving_entity_id) (EntityId.wire_length _) <|
    Written.cons (ClockTime.written x.real_world_time) (ClockTime.wire_length _) <|
    Written.cons (written_enum rfl x.reason) (octets_length _ _) <|
    Written.cons (FrozenBehavior.written x.frozen_behavior) (octets_length _ _) <|
    Written.cons (written_u8 x.required_reliability_service) (octets_length _ _) <|
    Written.cons (written_u8 x.padding) (octets_length _ _) <|
    Written.last (written_u32 x.request_id)
theorem StopFreezeReliablePdu.finds : Finds StopFreezeReliablePdu.deserializeBody (ReadFrom StopFreezeReliablePdu.slots) := FindsAt.finds <|
    FindsAt.cons (π := fun x : StopFreezeReliablePdu => x.originating_entity_id) (EntityId.fixed) (EntityId.finds) fun _ =>
    FindsAt.cons (π := fun x : StopFreezeReliablePdu => x.receiving_entity_id) (EntityId.fixed) (EntityId.finds) fun _ =>
    FindsAt.cons (π := fun x : StopFreezeReliablePdu => x.real_world_time) (ClockTime.fixed) (ClockTime.finds) fun _ =>
    FindsAt.cons (π := fun x : StopFreezeReliablePdu => x.reason) (EnumSpec.fixed _) (EnumSpec.finds _ rfl) fun _ =>
    FindsAt.cons (π := fun x : StopFreezeReliablePdu => x.frozen_behavior) (FixedDec.fixed) (FrozenBehavior.finds) fun _ =>
    FindsAt.cons (π := fun x : StopFreezeReliablePdu => x.required_reliability_service) (fixed_u8) (finds_u8) fun _ =>
    FindsAt.cons (π := fun x : StopFreezeReliablePdu => x.padding) (fixed_u8) (finds_u8) fun _ =>
    FindsAt.cons (π := fun x : StopFreezeReliablePdu => x.request_id) (fixed_u32) (finds_u32) fun _ =>
    FindsAt.ret ⟨⟨⟨⟨⟨⟨⟨⟨trivial, rfl⟩, rfl⟩, rfl⟩, rfl⟩, rfl⟩, rfl⟩, rfl⟩, rfl⟩
theorem StopFreezeReliablePdu.agree {x y : StopFreezeReliablePdu} (h : Agree StopFreezeReliablePdu.slots x y) : x = y := by
  have h0 := h
  have e0 : x.originating_entity_id = y.originating_entity_id := EntityId.agree (Agree.left h0)
  have h1 := Agree.right h0
  have e1 : x.receiving_entity_id = y.receiving_entity_id := EntityId.agree (Agree.left h1)
  have h2 := Agree.right h1
  have e2 : x.real_world_time = y.real_world_time := ClockTime.agree (Agree.left h2)
  have h3 := Agree.right h2
  have e3 : x.reason = y.reason := agree_enum (Agree.left h3)
  have h4 := Agree.right h3
  have e4 : x.frozen_behavior = y.frozen_behavior := FrozenBehavior.agree (Agree.left h4)
  have h5 := Agree.right h4
  have e5 : x.required_reliability_service = y.required_reliability_service := agree_u8 (Agree.left h5)
  have h6 := Agree.right h5
  have e6 : x.padding = y.padding := agree_u8 (Agree.left h6)
  have h7 := Agree.right h6
  have e7 : x.request_id = y.request_id := agree_u32 (Agree.left h7)
  cases x; cases y
  dsimp only at e0 e1 e2 e3 e4 e5 e6 e7
  subst e0 e1 e2 e3 e4 e5 e6 e7
  rfl

def AcknowledgeReliablePdu.slots : List (Slot AcknowledgeReliablePdu) :=
  Slot.cons (·.originating_entity_id) EntityId.slots 6 <|
  Slot.cons (·.receiving_entity_id) EntityId.slots 6 <|
  Slot.cons (·.acknowledge_flag) [Slot.enum 0 2 id] 2 <|
  Slot.cons (·.response_flag) [Slot.enum 0 2 id] 2 <|
  Slot.cons (·.request_id) [Slot.u32 0 id] 4 <|
  []
theorem AcknowledgeReliablePdu.layout_eq : AcknowledgeReliablePdu.layout = AcknowledgeReliablePdu.slots.map (Slot.shift 12) := (rfl)
theorem AcknowledgeReliablePdu.written (x : AcknowledgeReliablePdu) : Written AcknowledgeReliablePdu.slots x (wire (sent x)) :=
    Written.cons (EntityId.written x.originating_entity_id) (EntityId.wire_length _) <|
    Written.cons (EntityId.written x.receiving_entity_id) (EntityId.wire_length _) <|
    Written.cons (written_enum rfl x.acknowledge_flag) (octets_length _ _) <|
    Written.cons (written_enum rfl x.response_flag) (octets_length _ _) <|
    Written.last (written_u32 x.request_id)
theorem AcknowledgeReliablePdu.finds : Finds AcknowledgeReliablePdu.deserializeBody (ReadFrom AcknowledgeReliablePdu.slots) := FindsAt.finds <|
    FindsAt.cons (π := fun x : AcknowledgeReliablePdu => x.originating_entity_id) (EntityId.fixed) (EntityId.finds) fun _ =>
    FindsAt.cons (π := fun x : AcknowledgeReliablePdu => x.receiving_entity_id) (EntityId.fixed) (EntityId.finds) fun _ =>
    FindsAt.cons (π := fun x : AcknowledgeReliablePdu => x.acknowledge_flag) (EnumSpec.fixed _) (EnumSpec.finds _ rfl) fun _ =>
    FindsAt.cons (π := fun x : AcknowledgeReliablePdu => x.response_flag) (EnumSpec.fixed _) (EnumSpec.finds _ rfl) fun _ =>
    FindsAt.cons (π := fun x : AcknowledgeReliablePdu => x.request_id) (fixed_u32) (finds_u32) fun _ =>
    FindsAt.ret ⟨⟨⟨⟨⟨trivial, rfl⟩, rfl⟩, rfl⟩, rfl⟩, rfl⟩
theorem AcknowledgeReliablePdu.agree {x y : AcknowledgeReliablePdu} (h : Agree AcknowledgeReliablePdu.slots x y) : x = y := by
  have h0 := h
  have e0 : x.originating_entity_id = y.originating_entity_id := EntityId.agree (Agree.left h0)
  have h1 := Agree.right h0
  have e1 : x.receiving_entity_id = y.receiving_entity_id := EntityId.agree (Agree.left h1)
  have h2 := Agree.right h1
  have e2 : x.acknowledge_flag = y.acknowledge_flag := agree_enum (Agree.left h2)
  have h3 := Agree.right h2
  have e3 : x.response_flag = y.response_flag := agree_enum (Agree.left h3)
  have h4 := Agree.right h3
  have e4 : x.request_id = y.request_id := agree_u32 (Agree.left h4)
  cases x; cases y
  dsimp only at e0 e1 e2 e3 e4
  subst e0 e1 e2 e3 e4
  rfl

def ActionRequestReliablePdu.slots : List (Slot ActionRequestReliablePdu) :=
  Slot.cons (·.originating_entity_id) EntityId.slots 6 <|
  Slot.cons (·.receiving_entity_id) EntityId.slots 6 <|
  Slot.cons (·.required_reliability_service) [Slot.enum 0 1 id] 1 <|
  Slot.cons (·.padding) [Slot.u8 0 id] 1 <|
  Slot.cons (·.padding2) [Slot.u16 0 id] 2 <|
  Slot.cons (·.request_id) [Slot.u32 0 id] 4 <|
  Slot.cons (·.action_id) [Slot.u32 0 id] 4 <|
  Slot.cons (·.padding3) [Slot.u32 0 id] 4 <|
  Slot.cons (·.number_of_fixed_datum_records) [Slot.u32 0 id] 4 <|
  Slot.cons (·.number_of_variable_datum_records) [Slot.u32 0 id] 4 <|
  []
theorem ActionRequestReliablePdu.layout_eq : ActionRequestReliablePdu.layout = ActionRequestReliablePdu.slots.map (Slot.shift 12) := (rfl)
theorem ActionRequestReliablePdu.written (x : ActionRequestReliablePdu) : Written ActionRequestReliablePdu.slots x (wire (sent x)) :=
    Written.cons (EntityId.written x.originating_entity_id) (EntityId.wire_length _) <|
    Written.cons (EntityId.written x.receiving_entity_id) (EntityId.wire_length _) <|
    Written.cons (written_enum rfl x.required_reliability_service) (octets_length _ _) <|
    Written.cons (written_u8 x.padding) (octets_length _ _) <|
    Written.cons (written_u16 x.padding2) (octets_length _ _) <|
    Written.cons (written_u32 x.request_id) (octets_length _ _) <|
    Written.cons (written_u32 x.action_id) (octets_length _ _) <|
    Written.cons (written_u32 x.padding3) (octets_length _ _) <|
    Written.cons (written_u32 x.number_of_fixed_datum_records) (octets_length _ _) <|
    Written.cons (written_u32 x.number_of_variable_datum_records) (octets_length _ _) <|
    Written.nil _ _
theorem ActionRequestReliablePdu.finds : Finds ActionRequestReliablePdu.deserializeBody (ReadFrom ActionRequestReliablePdu.slots) := FindsAt.finds <|
    FindsAt.cons (π := fun x : ActionRequestReliablePdu => x.originating_entity_id) (EntityId.fixed) (EntityId.finds) fun _ =>
    FindsAt.cons (π := fun x : ActionRequestReliablePdu => x.receiving_entity_id) (EntityId.fixed) (EntityId.finds) fun _ =>
    FindsAt.cons (π := fun x : ActionRequestReliablePdu => x.required_reliability_service) (EnumSpec.fixed _) (EnumSpec.finds _ rfl) fun _ =>
    FindsAt.cons (π := fun x : ActionRequestReliablePdu => x.padding) (fixed_u8) (finds_u8) fun _ =>
    FindsAt.cons (π := fun x : ActionRequestReliablePdu => x.padding2) (fixed_u16) (finds_u16) fun _ =>
    FindsAt.cons (π := fun x : ActionRequestReliablePdu => x.request_id) (fixed_u32) (finds_u32) fun _ =>
    FindsAt.cons (π := fun x : ActionRequestReliablePdu => x.action_id) (fixed_u32) (finds_u32) fun _ =>
    FindsAt.cons (π := fun x : ActionRequestReliablePdu => x.padding3) (fixed_u32) (finds_u32) fun _ =>
    FindsAt.cons (π := fun x : ActionRequestReliablePdu => x.number_of_fixed_datum_records) (fixed_u32) (finds_u32) fun _ =>
    FindsAt.cons (π := fun x : ActionRequestReliablePdu => x.number_of_variable_datum_records) (fixed_u32) (finds_u32) fun _ =>
    FindsAt.skip fun _ =>
    FindsAt.skip fun _ =>
    FindsAt.ret ⟨⟨⟨⟨⟨⟨⟨⟨⟨⟨trivial, rfl⟩, rfl⟩, rfl⟩, rfl⟩, rfl⟩, rfl⟩, rfl⟩, rfl⟩, rfl⟩, rfl⟩

def ActionResponseReliablePdu.slots : List (Slot ActionResponseReliablePdu) :=
  Slot.cons (·.originating_entity_id) EntityId.slots 6 <|
  Slot.cons (·.receiving_entity_id) EntityId.slots 6 <|
  Slot.cons (·.request_id) [Slot.u32 0 id] 4 <|
  Slot.cons (·.request_status) [Slot.enum 0 4 id] 4 <|
  Slot.cons (·.number_of_fixed_datum_records) [Slot.u32 0 id] 4 <|
  Slot.cons (·.number_of_variable_datum_records) [Slot.u32 0 id] 4 <|
  []
theorem ActionResponseReliablePdu.layout_eq : ActionResponseReliablePdu.layout = ActionResponseReliablePdu.slots.map (Slot.shift 12) := (rfl)
theorem ActionResponseReliablePdu.written (x : ActionResponseReliablePdu) : Written ActionResponseReliablePdu.slots x (wire (sent x)) :=
    Written.cons (EntityId.written x.originating_entity_id) (EntityId.wire_length _) <|
    Written.cons (EntityId.written x.receiving_entity_id) (EntityId.wire_length _) <|
    Written.cons (written_u32 x.request_id) (octets_length _ _) <|
    Written.cons (written_enum rfl x.request_status) (octets_length _ _) <|
    Written.cons (written_u32 x.number_of_fixed_datum_records) (octets_length _ _) <|
    Written.cons (written_u32 x.number_of_variable_datum_records) (octets_length _ _) <|
    Written.nil _ _
theorem ActionResponseReliablePdu.finds : Finds ActionResponseReliablePdu.deserializeBody (ReadFrom ActionResponseReliablePdu.slots) := FindsAt.finds <|
    FindsAt.cons (π := fun x : ActionResponseReliablePdu => x.originating_entity_id) (EntityId.fixed) (EntityId.finds) fun _ =>
    FindsAt.cons (π := fun x : ActionResponseReliablePdu => x.receiving_entity_id) (EntityId.fixed) (EntityId.finds) fun _ =>
    FindsAt.cons (π := fun x : ActionResponseReliablePdu => x.request_id) (fixed_u32) (finds_u32) fun _ =>
    FindsAt.cons (π := fun x : ActionResponseReliablePdu => x.request_status) (EnumSpec.fixed _) (EnumSpec.finds _ rfl) fun _ =>
    FindsAt.cons (π := fun x : ActionResponseReliablePdu => x.number_of_fixed_datum_records) (fixed_u32) (finds_u32) fun _ =>
    FindsAt.cons (π := fun x : ActionResponseReliablePdu => x.number_of_variable_datum_records) (fixed_u32) (finds_u32) fun _ =>
    FindsAt.skip fun _ =>
    FindsAt.skip fun _ =>
    FindsAt.ret ⟨⟨⟨⟨⟨⟨trivial, rfl⟩, rfl⟩, rfl⟩, rfl⟩, rfl⟩, rfl⟩

end Dis
