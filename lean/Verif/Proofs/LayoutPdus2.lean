import Verif.Spec.PduLayout2
import Verif.Proofs.LayoutRecords
import Verif.Proofs.Pdus2
/- Generated by tools/gen_layout.py. -/
set_option maxRecDepth 8000
namespace Dis

def ServiceRequestPdu.slots : List (Slot ServiceRequestPdu) :=
  Slot.cons (·.receiving_entity_id) EntityId.slots 6 <|
  Slot.cons (·.servicing_entity_id) EntityId.slots 6 <|
  Slot.cons (·.service_type_requested) [Slot.enum 0 1 id] 1 <|
  Slot.cons (·.number_of_supply_types) [Slot.u8 0 id] 1 <|
  Slot.cons (·.padding) [Slot.u16 0 id] 2 <|
  []
theorem ServiceRequestPdu.layout_eq : ServiceRequestPdu.layout = ServiceRequestPdu.slots.map (Slot.shift 12) := (rfl)
theorem ServiceRequestPdu.written (x : ServiceRequestPdu) : Written ServiceRequestPdu.slots x (wire (sent x)) :=
    Written.cons (EntityId.written x.receiving_entity_id) (EntityId.wire_length _) <|
    Written.cons (EntityId.written x.servicing_entity_id) (EntityId.wire_length _) <|
    Written.cons (written_enum rfl x.service_type_requested) (octets_length _ _) <|
    Written.cons (written_u8 x.number_of_supply_types) (octets_length _ _) <|
    Written.cons (written_u16 x.padding) (octets_length _ _) <|
    Written.nil _ _
theorem ServiceRequestPdu.finds : Finds ServiceRequestPdu.deserializeBody (ReadFrom ServiceRequestPdu.slots) := FindsAt.finds <|
    FindsAt.cons (π := fun x : ServiceRequestPdu => x.receiving_entity_id) (EntityId.fixed) (EntityId.finds) fun _ =>
    FindsAt.cons (π := fun x : ServiceRequestPdu => x.servicing_entity_id) (EntityId.fixed) (EntityId.finds) fun _ =>
    FindsAt.cons (π := fun x : ServiceRequestPdu => x.service_type_requested) (EnumSpec.fixed _) (EnumSpec.finds _ rfl) fun _ =>
    FindsAt.cons (π := fun x : ServiceRequestPdu => x.number_of_supply_types) (fixed_u8) (finds_u8) fun _ =>
    FindsAt.cons (π := fun x : ServiceRequestPdu => x.padding) (fixed_u16) (finds_u16) fun _ =>
    FindsAt.skip fun _ =>
    FindsAt.ret ⟨⟨⟨⟨⟨trivial, rfl⟩, rfl⟩, rfl⟩, rfl⟩, rfl⟩

def ResupplyOfferPdu.slots : List (Slot ResupplyOfferPdu) :=
  Slot.cons (·.receiving_entity_id) EntityId.slots 6 <|
  Slot.cons (·.supplying_entity_id) EntityId.slots 6 <|
  Slot.cons (·.number_of_supply_types) [Slot.u8 0 id] 1 <|
  Slot.cons (·.padding) [Slot.u8 0 id] 1 <|
  Slot.cons (·.padding2) [Slot.u16 0 id] 2 <|
  []
theorem ResupplyOfferPdu.layout_eq : ResupplyOfferPdu.layout = ResupplyOfferPdu.slots.map (Slot.shift 12) := (rfl)
theorem ResupplyOfferPdu.written (x : ResupplyOfferPdu) : Written ResupplyOfferPdu.slots x (wire (sent x)) :=
    Written.cons (EntityId.written x.receiving_entity_id) (EntityId.wire_length _) <|
    Written.cons (EntityId.written x.supplying_entity_id) (EntityId.wire_length _) <|
    Written.cons (written_u8 x.number_of_supply_types) (octets_length _ _) <|
    Written.cons (written_u8 x.padding) (octets_length _ _) <|
    Written.cons (written_u16 x.padding2) (octets_length _ _) <|
    Written.nil _ _
theorem ResupplyOfferPdu.finds : Finds ResupplyOfferPdu.deserializeBody (ReadFrom ResupplyOfferPdu.slots) := FindsAt.finds <|
    FindsAt.cons (π := fun x : ResupplyOfferPdu => x.receiving_entity_id) (EntityId.fixed) (EntityId.finds) fun _ =>
    FindsAt.cons (π := fun x : ResupplyOfferPdu => x.supplying_entity_id) (EntityId.fixed) (EntityId.finds) fun _ =>
    FindsAt.cons (π := fun x : ResupplyOfferPdu => x.number_of_supply_types) (fixed_u8) (finds_u8) fun _ =>
    FindsAt.cons (π := fun x : ResupplyOfferPdu => x.padding) (fixed_u8) (finds_u8) fun _ =>
    FindsAt.cons (π := fun x : ResupplyOfferPdu => x.padding2) (fixed_u16) (finds_u16) fun _ =>
    FindsAt.skip fun _ =>
    FindsAt.ret ⟨⟨⟨⟨⟨trivial, rfl⟩, rfl⟩, rfl⟩, rfl⟩, rfl⟩

def ResupplyReceivedPdu.slots : List (Slot ResupplyReceivedPdu) :=
  Slot.cons (·.receiving_entity_id) EntityId.slots 6 <|
  Slot.cons (·.supplying_entity_id) EntityId.slots 6 <|
  Slot.cons (·.number_of_supply_types) [Slot.u8 0 id] 1 <|
  Slot.cons (·.padding) [Slot.u8 0 id] 1 <|
  Slot.cons (·.padding2) [Slot.u16 0 id] 2 <|
  []
theorem ResupplyReceivedPdu.layout_eq : ResupplyReceivedPdu.layout = ResupplyReceivedPdu.slots.map (Slot.shift 12) := (rfl)
theorem ResupplyReceivedPdu.written (x : ResupplyReceivedPdu) : Written ResupplyReceivedPdu.slots x (wire (sent x)) :=
    Written.cons (EntityId.written x.receiving_entity_id) (EntityId.wire_length _) <|
    Written.cons (EntityId.written x.supplying_entity_id) (EntityId.wire_length _) <|
    Written.cons (written_u8 x.number_of_supply_types) (octets_length _ _) <|
    Written.cons (written_u8 x.padding) (octets_length _ _) <|
    Written.cons (written_u16 x.padding2) (octets_length _ _) <|
    Written.nil _ _
theorem ResupplyReceivedPdu.finds : Finds ResupplyReceivedPdu.deserializeBody (ReadFrom ResupplyReceivedPdu.slots) := FindsAt.finds <|
    FindsAt.cons (π := fun x : ResupplyReceivedPdu => x.receiving_entity_id) (EntityId.fixed) (EntityId.finds) fun _ =>
    FindsAt.cons (π := fun x : ResupplyReceivedPdu => x.supplying_entity_id) (EntityId.fixed) (EntityId.finds) fun _ =>
    FindsAt.cons (π := fun x : ResupplyReceivedPdu => x.number_of_supply_types) (fixed_u8) (finds_u8) fun _ =>
    FindsAt.cons (π := fun x : ResupplyReceivedPdu => x.padding) (fixed_u8) (finds_u8) fun _ =>
    FindsAt.cons (π := fun x : ResupplyReceivedPdu => x.padding2) (fixed_u16) (finds_u16) fun _ =>
    FindsAt.skip fun _ =>
    FindsAt.ret ⟨⟨⟨⟨⟨trivial, rfl⟩, rfl⟩, rfl⟩, rfl⟩, rfl⟩

def ResupplyCancelPdu.slots : List (Slot ResupplyCancelPdu) :=
  Slot.cons (·.receiving_entity_id) EntityId.slots 6 <|
  Slot.cons (·.supplying_entity_id) EntityId.slots 6 <|
  []
theorem ResupplyCancelPdu.layout_eq : ResupplyCancelPdu.layout = ResupplyCancelPdu.slots.map (Slot.shift 12) := (rfl)
theorem ResupplyCancelPdu.written (x : ResupplyCancelPdu) : Written ResupplyCancelPdu.slots x (wire (sent x)) :=
    Written.cons (EntityId.written x.receiving_entity_id) (EntityId.wire_length _) <|
    Written.last (EntityId.written x.supplying_entity_id)
theorem ResupplyCancelPdu.finds : Finds ResupplyCancelPdu.deserializeBody (ReadFrom ResupplyCancelPdu.slots) := FindsAt.finds <|
    FindsAt.cons (π := fun x : ResupplyCancelPdu => x.receiving_entity_id) (EntityId.fixed) (EntityId.finds) fun _ =>
    FindsAt.cons (π := fun x : ResupplyCancelPdu => x.supplying_entity_id) (EntityId.fixed) (EntityId.finds) fun _ =>
    FindsAt.ret ⟨⟨trivial, rfl⟩, rfl⟩
theorem ResupplyCancelPdu.agree {x y : ResupplyCancelPdu} (h : Agree ResupplyCancelPdu.slots x y) : x = y := by
  have h0 := h
  have e0 : x.receiving_entity_id = y.receiving_entity_id := EntityId.agree (Agree.left h0)
  have h1 := Agree.right h0
  have e1 : x.supplying_entity_id = y.supplying_entity_id := EntityId.agree (Agree.left h1)
  cases x; cases y
  dsimp only at e0 e1
  subst e0 e1
  rfl

def RepairCompletePdu.slots : List (Slot RepairCompletePdu) :=
  Slot.cons (·.receiving_entity_id) EntityId.slots 6 <|
  Slot.cons (·.repairing_entity_id) EntityId.slots 6 <|
  Slot.cons (·.repair) [Slot.enum 0 2 id] 2 <|
  Slot.cons (·.padding) [Slot.u16 0 id] 2 <|
  []
theorem RepairCompletePdu.layout_eq : RepairCompletePdu.layout = RepairCompletePdu.slots.map (Slot.shift 12) := (rfl)
theorem RepairCompletePdu.written (x : RepairCompletePdu) : Written RepairCompletePdu.slots x (wire (sent x)) :=
    Written.cons (EntityId.written x.receiving_entity_id) (EntityId.wire_length _) <|
    Written.cons (EntityId.written x.repairing_entity_id) (EntityId.wire_length _) <|
    Written.cons (written_enum rfl x.repair) (octets_length _ _) <|
    Written.last (written_u16 x.padding)
theorem RepairCompletePdu.finds : Finds RepairCompletePdu.deserializeBody (ReadFrom RepairCompletePdu.slots) := FindsAt.finds <|
    FindsAt.cons (π := fun x : RepairCompletePdu => x.receiving_entity_id) (EntityId.fixed) (EntityId.finds) fun _ =>
    FindsAt.cons (π := fun x : RepairCompletePdu => x.repairing_entity_id) (EntityId.fixed) (EntityId.finds) fun _ =>
    FindsAt.cons (π := fun x : RepairCompletePdu => x.repair) (EnumSpec.fixed _) (EnumSpec.finds _ rfl) fun _ =>
    FindsAt.cons (π := fun x : RepairCompletePdu => x.padding) (fixed_u16) (finds_u16) fun _ =>
    FindsAt.ret ⟨⟨⟨⟨trivial, rfl⟩, rfl⟩, rfl⟩, rfl⟩
theorem RepairCompletePdu.agree {x y : RepairCompletePdu} (h : Agree RepairCompletePdu.slots x y) : x = y := by
  have h0 := h
  have e0 : x.receiving_entity_id = y.receiving_entity_id := EntityId.agree (Agree.left h0)
  have h1 := Agree.right h0
  have e1 : x.repairing_entity_id = y.repairing_entity_id := EntityId.agree (Agree.left h1)
  have h2 := Agree.right h1
  have e2 : x.repair = y.repair := agree_enum (Agree.left h2)
  have h3 := Agree.right h2
  have e3 : x.padding = y.padding := agree_u16 (Agree.left h3)
  cases x; cases y
  dsimp only at e0 e1 e2 e3
  subst e0 e1 e2 e3
  rfl

def RepairResponsePdu.slots : List (Slot RepairResponsePdu) :=
  Slot.cons (·.receiving_entity_id) EntityId.slots 6 <|
  Slot.cons (·.repairing_entity_id) EntityId.slots 6 <|
  Slot.cons (·.repair_result) [Slot.enum 0 1 id] 1 <|
  Slot.cons (·.padding) [Slot.u8 0 id] 1 <|
  Slot.cons (·.padding2) [Slot.u16 0 id] 2 <|
  []
theorem RepairResponsePdu.layout_eq : RepairResponsePdu.layout = RepairResponsePdu.slots.map (Slot.shift 12) := (rfl)
theorem RepairResponsePdu.written (x : RepairResponsePdu) : Written RepairResponsePdu.slots x (wire (sent x)) :=
    Written.cons (EntityId.written x.receiving_entity_id) (EntityId.wire_length _) <|
    Written.cons (EntityId.written x.repairing_entity_id) (EntityId.wire_length _) <|
    Written.cons (written_enum rfl x.repair_result) (octets_length _ _) <|
    Written.cons (written_u8 x.padding) (octets_length _ _) <|
    Written.last (written_u16 x.padding2)
theorem RepairResponsePdu.finds : Finds RepairResponsePdu.deserializeBody (ReadFrom RepairResponsePdu.slots) := FindsAt.finds <|
    FindsAt.cons (π := fun x : RepairResponsePdu => x.receiving_entity_id) (EntityId.fixed) (EntityId.finds) fun _ =>
    FindsAt.cons (π := fun x : RepairResponsePdu => x.repairing_entity_id) (EntityId.fixed) (EntityId.finds) fun _ =>
    FindsAt.cons (π := fun x : RepairResponsePdu => x.repair_result) (EnumSpec.fixed _) (EnumSpec.finds _ rfl) fun _ =>
    FindsAt.cons (π := fun x : RepairResponsePdu => x.padding) (fixed_u8) (finds_u8) fun _ =>
    FindsAt.cons (π := fun x : RepairResponsePdu => x.padding2) (fixed_u16) (finds_u16) fun _ =>
    FindsAt.ret ⟨⟨⟨⟨⟨trivial, rfl⟩, rfl⟩, rfl⟩, rfl⟩, rfl⟩
theorem RepairResponsePdu.agree {x y : RepairResponsePdu} (h : Agree RepairResponsePdu.slots x y) : x = y := by
  have h0 := h
  have e0 : x.receiving_entity_id = y.receiving_entity_id := EntityId.agree (Agree.left h0)
  have h1 := Agree.right h0
  have e1 : x.repairing_entity_id = y.repairing_entity_id := EntityId.agree (Agree.left h1)
  have h2 := Agree.right h1
  have e2 : x.repair_result = y.repair_result := agree_enum (Agree.left h2)
  have h3 := Agree.right h2
  have e3 : x.padding = y.padding := agree_u8 (Agree.left h3)
  have h4 := Agree.right h3
  have e4 : x.padding2 = y.padding2 := agree_u16 (Agree.left h4)
  cases x; cases y
  dsimp only at e0 e1 e2 e3 e4
  subst e0 e1 e2 e3 e4
  rfl

def MinefieldStatePdu.slots : List (Slot MinefieldStatePdu) :=
  Slot.cons (·.minefield_id) MinefieldIdentifier.slots 6 <|
  Slot.cons (·.minefield_sequence) [Slot.u16 0 id] 2 <|
  Slot.cons (·.force_id) [Slot.enum 0 1 id] 1 <|
  Slot.cons (·.number_of_perimeter_points) [Slot.u8 0 id] 1 <|
  Slot.cons (·.minefield_type) EntityType.slots 8 <|
  Slot.cons (·.number_of_mine_types) [Slot.u16 0 id] 2 <|
  Slot.cons (·.minefield_location) WorldCoordinate.slots 24 <|
  Slot.cons (·.minefield_orientation) EulerAngles.slots 12 <|
  Slot.cons (·.appearance) [Slot.u16 0 id] 2 <|
  Slot.cons (·.protocol_mode) [Slot.enum 0 2 id] 2 <|
  []
theorem MinefieldStatePdu.layout_eq : MinefieldStatePdu.layout = MinefieldStatePdu.slots.map (Slot.shift 12) := (rfl)
theorem MinefieldStatePdu.written (x : MinefieldStatePdu) : Written MinefieldStatePdu.slots x (wire (sent x)) :=
    Written.cons (MinefieldIdentifier.written x.minefield_id) (MinefieldIdentifier.wire_length _) <|
    Written.cons (written_u16 x.minefield_sequence) (octets_length _ _) <|
    Written.cons (written_enum rfl x.force_id) (octets_length _ _) <|
    Written.cons (written_u8 x.number_of_perimeter_points) (octets_length _ _) <|
    Written.cons (EntityType.written x.minefield_type) (EntityType.wire_length _) <|
    Written.cons (written_u16 x.number_of_mine_types) (octets_length _ _) <|
    Written.cons (WorldCoordinate.written x.minefield_location) (WorldCoordinate.wire_length _) <|
    Written.cons (EulerAngles.written x.minefield_orientation) (EulerAngles.wire_length _) <|
    Written.cons (written_u16 x.appearance) (octets_length _ _) <|
    Written.cons (written_enum rfl x.protocol_mode) (octets_length _ _) <|
    Written.nil _ _
theorem MinefieldStatePdu.finds : Finds MinefieldStatePdu.deserializeBody (ReadFrom MinefieldStatePdu.slots) := FindsAt.finds <|
    FindsAt.cons (π := fun x : MinefieldStatePdu => x.minefield_id) (MinefieldIdentifier.fixed) (MinefieldIdentifier.finds) fun _ =>
    FindsAt.cons (π := fun x : MinefieldStatePdu => x.minefield_sequence) (fixed_u16) (finds_u16) fun _ =>
    FindsAt.cons (π := fun x : MinefieldStatePdu => x.force_id) (EnumSpec.fixed _) (EnumSpec.finds _ rfl) fun _ =>
    FindsAt.cons (π := fun x : MinefieldStatePdu => x.number_of_perimeter_points) (fixed_u8) (finds_u8) fun _ =>
    FindsAt.cons (π := fun x : MinefieldStatePdu => x.minefield_type) (EntityType.fixed) (EntityType.finds) fun _ =>
    FindsAt.cons (π := fun x : MinefieldStatePdu => x.number_of_mine_types) (fixed_u16) (finds_u16) fun _ =>
    FindsAt.cons (π := fun x : MinefieldStatePdu => x.minefield_location) (WorldCoordinate.fixed) (WorldCoordinate.finds) fun _ =>
    FindsAt.cons (π := fun x : MinefieldStatePdu => x.minefield_orientation) (EulerAngles.fixed) (EulerAngles.finds) fun _ =>
    FindsAt.cons (π := fun x : MinefieldStatePdu => x.appearance) (fixed_u16) (finds_u16) fun _ =>
    FindsAt.cons (π := fun x : MinefieldStatePdu => x.protocol_mode) (EnumSpec.fixed _) (EnumSpec.finds _ rfl) fun _ =>
    FindsAt.skip fun _ =>
    FindsAt.skip fun _ =>
    FindsAt.ret ⟨⟨⟨⟨⟨⟨⟨⟨⟨⟨trivial, rfl⟩, rfl⟩, rfl⟩, rfl⟩, rfl⟩, rfl⟩, rfl⟩, rfl⟩, rfl⟩, rfl⟩

def MinefieldQueryPdu.slots : List (Slot MinefieldQueryPdu) :=
  Slot.cons (·.minefield_id) MinefieldIdentifier.slots 6 <|
  Slot.cons (·.requesting_entity_id) EntityId.slots 6 <|
  Slot.cons (·.request_id) [Slot.u8 0 id] 1 <|
  Slot.cons (·.number_of_perimeter_points) [Slot.u8 0 id] 1 <|
  Slot.cons (·.padding) [Slot.u8 0 id] 1 <|
  Slot.cons (·.number_of_sensor_types) [Slot.u8 0 id] 1 <|
  Slot.cons (·.data_filter) [Slot.u32 0 id] 4 <|
  Slot.cons (·.requested_mine_type) EntityType.slots 8 <|
  []
theorem MinefieldQueryPdu.layout_eq : MinefieldQueryPdu.layout = MinefieldQueryPdu.slots.map (Slot.shift 12) := (rfl)
theorem MinefieldQueryPdu.written (x : MinefieldQueryPdu) : Written MinefieldQueryPdu.slots x (wire (sent x)) :=
    Written.cons (MinefieldIdentifier.written x.minefield_id) (MinefieldIdentifier.wire_length _) <|
    Written.cons (EntityId.written x.requesting_entity_id) (EntityId.wire_length _) <|
    Written.cons (written_u8 x.request_id) (octets_length _ _) <|
    Written.cons (written_u8 x.number_of_perimeter_points) (octets_length _ _) <|
    Written.cons (written_u8 x.padding) (octets_length _ _) <|
    Written.cons (written_u8 x.number_of_sensor_types) (octets_length _ _) <|
    Written.cons (written_u32 x.data_filter) (octets_length _ _) <|
    Written.cons (EntityType.written x.requested_mine_type) (EntityType.wire_length _) <|
    Written.nil _ _
theorem MinefieldQueryPdu.finds : Finds MinefieldQueryPdu.deserializeBody (ReadFrom MinefieldQueryPdu.slots) := FindsAt.finds <|
    FindsAt.cons (π := fun x : MinefieldQueryPdu => x.minefield_id) (MinefieldIdentifier.fixed) (MinefieldIdentifier.finds) fun _ =>
    FindsAt.cons (π := fun x : MinefieldQueryPdu => x.requesting_entity_id) (EntityId.fixed) (EntityId.finds) fun _ =>
    FindsAt.cons (π := fun x : MinefieldQueryPdu => x.request_id) (fixed_u8) (finds_u8) fun _ =>
    FindsAt.cons (π := fun x : MinefieldQueryPdu => x.number_of_perimeter_points) (fixed_u8) (finds_u8) fun _ =>
    FindsAt.cons (π := fun x : MinefieldQueryPdu => x.padding) (fixed_u8) (finds_u8) fun _ =>
    FindsAt.cons (π := fun x : MinefieldQueryPdu => x.number_of_sensor_types) (fixed_u8) (finds_u8) fun _ =>
    FindsAt.cons (π := fun x : MinefieldQueryPdu => x.data_filter) (fixed_u32) (finds_u32) fun _ =>
    FindsAt.cons (π := fun x : MinefieldQueryPdu => x.requested_mine_type) (EntityType.fixed) (EntityType.finds) fun _ =>
    FindsAt.skip fun _ =>
    FindsAt.skip fun _ =>
    FindsAt.ret ⟨⟨⟨⟨⟨⟨⟨⟨trivial, rfl⟩, rfl⟩, rfl⟩, rfl⟩, rfl⟩, rfl⟩, rfl⟩, rfl⟩

def MinefieldDataPdu.slots : List (Slot MinefieldDataPdu) :=
  Slot.cons (·.minefield_id) MinefieldIdentifier.slots 6 <|
  Slot.cons (·.requesting_entity_id) EntityId.slots 6 <|
  Slot.cons (·.minefield_sequence_number) [Slot.u16 0 id] 2 <|
  Slot.cons (·.request_id) [Slot.u8 0 id] 1 <|
  Slot.cons (·.pdu_sequence_number) [Slot.u8 0 id] 1 <|
  Slot.cons (·.number_of_pdus) [Slot.u8 0 id] 1 <|
  Slot.cons (·.number_of_mines_in_this_pdu) [Slot.u8 0 id] 1 <|
  Slot.cons (·.number_of_sensor_types) [Slot.u8 0 id] 1 <|
  Slot.cons (·.padding) [Slot.u8 0 id] 1 <|
  Slot.cons (·.data_filter) [Slot.u32 0 id] 4 <|
  Slot.cons (·.mine_type) EntityType.slots 8 <|
  []
theorem MinefieldDataPdu.layout_eq : MinefieldDataPdu.layout = MinefieldDataPdu.slots.map (Slot.shift 12) := (rfl)
theorem MinefieldDataPdu.written (x : MinefieldDataPdu) : Written MinefieldDataPdu.slots x (wire (sent x)) :=
    Written.cons (MinefieldIdentifier.written x.minefield_id) (MinefieldIdentifier.wire_length _) <|
    Written.cons (EntityId.written x.requesting_entity_id) (EntityId.wire_length _) <|
    Written.cons (written_u16 x.minefield_sequence_number) (octets_length _ _) <|
    Written.cons (written_u8 x.request_id) (octets_length _ _) <|
    Written.cons (written_u8 x.pdu_sequence_number) (octets_length _ _) <|
    Written.cons (written_u8 x.number_of_pdus) (octets_length _ _) <|
    Written.cons (written_u8 x.number_of_mines_in_this_pdu) (octets_length _ _) <|
    Written.cons (written_u8 x.number_of_sensor_types) (octets_length _ _) <|
    Written.cons (written_u8 x.padding) (octets_length _ _) <|
    Written.cons (written_u32 x.data_filter) (octets_length _ _) <|
    Written.cons (EntityType.written x.mine_type) (EntityType.wire_length _) <|
    Written.nil _ _
theorem MinefieldDataPdu.finds : Finds MinefieldDataPdu.deserializeBody (ReadFrom MinefieldDataPdu.slots) := FindsAt.finds <|
    FindsAt.cons (π := fun x : MinefieldDataPdu => x.minefield_id) (MinefieldIdentifier.fixed) (MinefieldIdentifier.finds) fun _ =>
    FindsAt.cons (π := fun x : MinefieldDataPdu => x.requesting_entity_id) (EntityId.fixed) (EntityId.finds) fun _ =>
    FindsAt.cons (π := fun x : MinefieldDataPdu => x.minefield_sequence_number) (fixed_u16) (finds_u16) fun _ =>
    FindsAt.cons (π := fun x : MinefieldDataPdu => x.request_id) (fixed_u8) (finds_u8) fun _ =>
    FindsAt.cons (π := fun x : MinefieldDataPdu => x.pdu_sequence_number) (fixed_u8) (finds_u8) fun _ =>
    FindsAt.cons (π := fun x : MinefieldDataPdu => x.number_of_pdus) (fixed_u8) (finds_u8) fun _ =>
    FindsAt.cons (π := fun x : MinefieldDataPdu => x.number_of_mines_in_this_pdu) (fixed_u8) (finds_u8) fun _ =>
    FindsAt.cons (π := fun x : MinefieldDataPdu => x.number_of_sensor_types) (fixed_u8) (finds_u8) fun _ =>
    FindsAt.cons (π := fun x : MinefieldDataPdu => x.padding) (fixed_u8) (finds_u8) fun _ =>
    FindsAt.cons (π := fun x : MinefieldDataPdu => x.data_filter) (fixed_u32) (finds_u32) fun _ =>
    FindsAt.cons (π := fun x : MinefieldDataPdu => x.mine_type) (EntityType.fixed) (EntityType.finds) fun _ =>
    FindsAt.skip fun _ =>
    FindsAt.skip fun _ =>
    FindsAt.skip fun _ =>
    FindsAt.skip fun _ =>
    FindsAt.skip fun _ =>
    FindsAt.skip fun _ =>
    FindsAt.skip fun _ =>
    FindsAt.skip fun _ =>
    FindsAt.skip fun _ =>
    FindsAt.skip fun _ =>
    FindsAt.skip fun _ =>
    FindsAt.skip fun _ =>
    FindsAt.skip fun _ =>
    FindsAt.skip fun _ =>
    FindsAt.skip fun _ =>
    FindsAt.skip fun _ =>
    FindsAt.ret ⟨⟨⟨⟨⟨⟨⟨⟨⟨⟨⟨trivial, rfl⟩, rfl⟩, rfl⟩, rfl⟩, rfl⟩, rfl⟩, rfl⟩, rfl⟩, rfl⟩, rfl⟩, rfl⟩

def MinefieldResponseNackPdu.slots : List (Slot MinefieldResponseNackPdu) :=
  Slot.cons (·.minefield_id) EntityId.slots 6 <|
  Slot.cons (·.requesting_entity_id) EntityId.slots 6 <|
  Slot.cons (·.request_id) [Slot.u8 0 id] 1 <|
  Slot.cons (·.number_of_missing_pdus) [Slot.u8 0 id] 1 <|
  []
theorem MinefieldResponseNackPdu.layout_eq : MinefieldResponseNackPdu.layout = MinefieldResponseNackPdu.slots.map (Slot.shift 12) := (rfl)
theorem MinefieldResponseNackPdu.written (x : MinefieldResponseNackPdu) : Written MinefieldResponseNackPdu.slots x (wire (sent x)) :=
    Written.cons (EntityId.written x.minefield_id) (EntityId.wire_length _) <|
    Written.cons (EntityId.written x.requesting_entity_id) (EntityId.wire_length _) <|
    Written.cons (written_u8 x.request_id) (octets_length _ _) <|
    Written.cons (written_u8 x.number_of_missing_pdus) (octets_length _ _) <|
    Written.nil _ _
theorem MinefieldResponseNackPdu.finds : Finds MinefieldResponseNackPdu.deserializeBody (ReadFrom MinefieldResponseNackPdu.slots) := FindsAt.finds <|
    FindsAt.cons (π := fun x : MinefieldResponseNackPdu => x.minefield_id) (EntityId.fixed) (EntityId.finds) fun _ =>
    FindsAt.cons (π := fun x : MinefieldResponseNackPdu => x.requesting_entity_id) (EntityId.fixed) (EntityId.finds) fun _ =>
    FindsAt.cons (π := fun x : MinefieldResponseNackPdu => x.request_id) (fixed_u8) (finds_u8) fun _ =>
    FindsAt.cons (π := fun x : MinefieldResponseNackPdu => x.number_of_missing_pdus) (fixed_u8) (finds_u8) fun _ =>
    FindsAt.skip fun _ =>
    FindsAt.ret ⟨⟨⟨⟨trivial, rfl⟩, rfl⟩, rfl⟩, rfl⟩

def TransmitterPdu.slots : List (Slot TransmitterPdu) :=
  Slot.cons (·.entity_id) EntityId.slots 6 <|
  Slot.cons (·.radio_id) [Slot.u16 0 id] 2 <|
  Slot.cons (·.radio_entity_type) RadioEntityType.slots 8 <|
  Slot.cons (·.transmit_state) [Slot.enum 0 1 id] 1 <|
  Slot.cons (·.input_source) [Slot.enum 0 1 id] 1 <|
  Slot.cons (·.number_of_variable_transmitter_parameters_records) [Slot.u16 0 id] 2 <|
  Slot.cons (·.antenna_location) WorldCoordinate.slots 24 <|
  Slot.cons (·.relative_antenna_location) EntityCoordinateVector.slots 12 <|
  Slot.cons (·.antenna_pattern_type) [Slot.enum 0 2 id] 2 <|
  Slot.cons (·.antenna_pattern_length) [Slot.u16 0 id] 2 <|
  Slot.cons (·.frequency) [Slot.u64 0 id] 8 <|
  Slot.cons (·.transmit_frequency_bandwidth) [Slot.f32 0 id] 4 <|
  Slot.cons (·.power) [Slot.f32 0 id] 4 <|
  Slot.cons (·.modulation_type) ModulationType.slots 8 <|
  Slot.cons (·.crypto_system) [Slot.enum 0 2 id] 2 <|
  Slot.cons (·.crypto_key_id) [Slot.u16 0 id] 2 <|
  Slot.cons (·.modulation_parameter_length) [Slot.u8 0 id] 1 <|
  Slot.cons (·.padding) [Slot.u8 0 id] 1 <|
  Slot.cons (·.padding2) [Slot.u16 0 id] 2 <|
  []
theorem TransmitterPdu.layout_eq : TransmitterPdu.layout = TransmitterPdu.slots.map (Slot.shift 12) := (rfl)
theorem TransmitterPdu.written (x : TransmitterPdu) : Written TransmitterPdu.slots x (wire (sent x)) :=
    Written.cons (EntityId.written x.entity_id) (EntityId.wire_length _) <|
    Written.cons (written_u16 x.radio_id) (octets_length _ _) <|
    Written.cons (RadioEntityType.written x.radio_entity_type) (RadioEntityType.wire_length _) <|
    Written.cons (written_enum rfl x.transmit_state) (octets_length _ _) <|
    Written.cons (written_enum rfl x.input_source) (octets_length _ _) <|
    Written.cons (written_u16 x.number_of_variable_transmitter_parameters_records) (octets_length _ _) <|
    Written.cons (WorldCoordinate.written x.antenna_location) (WorldCoordinate.wire_length _) <|
    Written.cons (EntityCoordinateVector.written x.relative_antenna_location) (EntityCoordinateVector.wire_length _) <|
    Written.cons (written_enum rfl x.antenna_pattern_type) (octets_length _ _) <|
    Written.cons (written_u16 x.antenna_pattern_length) (octets_length _ _) <|
    Written.cons (written_u64 x.frequency) (octets_length _ _) <|
    Written.cons (written_f32 x.transmit_frequency_bandwidth) (octets_length _ _) <|
    Written.cons (written_f32 x.power) (octets_length _ _) <|
    Written.cons (ModulationType.written x.modulation_type) (ModulationType.wire_length _) <|
    Written.cons (written_enum rfl x.crypto_system) (octets_length _ _) <|
    Written.cons (written_u16 x.crypto_key_id) (octets_length _ _) <|
    Written.cons (written_u8 x.modulation_parameter_length) (octets_length _ _) <|
    Written.cons (written_u8 x.padding) (octets_length _ _) <|
    Written.cons (written_u16 x.padding2) (octets_length _ _) <|
    Written.nil _ _
theorem TransmitterPdu.finds : Finds TransmitterPdu.deserializeBody (ReadFrom TransmitterPdu.slots) := FindsAt.finds <|
    FindsAt.cons (π := fun x : TransmitterPdu => x.entity_id) (EntityId.fixed) (EntityId.finds) fun _ =>
    FindsAt.cons (π := fun x : TransmitterPdu => x.radio_id) (fixed_u16) (finds_u16) fun _ =>
    FindsAt.cons (π := fun x : TransmitterPdu => x.radio_entity_type) (RadioEntityType.fixed) (RadioEntityType.finds) fun _ =>
    FindsAt.cons (π := fun x : TransmitterPdu => x.transmit_state) (EnumSpec.fixed _) (EnumSpec.finds _ rfl) fun _ =>
    FindsAt.cons (π := fun x : TransmitterPdu => x.input_source) (EnumSpec.fixed _) (EnumSpec.finds _ rfl) fun _ =>
    FindsAt.cons (π := fun x : TransmitterPdu => x.number_of_variable_transmitter_parameters_records) (fixed_u16) (finds_u16) fun _ =>
    FindsAt.cons (π := fun x : TransmitterPdu => x.antenna_location) (WorldCoordinate.fixed) (WorldCoordinate.finds) fun _ =>
    FindsAt.cons (π := fun x : TransmitterPdu => x.relative_antenna_location) (EntityCoordinateVector.fixed) (EntityCoordinateVector.finds) fun _ =>
    FindsAt.cons (π := fun x : TransmitterPdu => x.antenna_pattern_type) (EnumSpec.fixed _) (EnumSpec.finds _ rfl) fun _ =>
    FindsAt.cons (π := fun x : TransmitterPdu => x.antenna_pattern_length) (fixed_u16) (finds_u16) fun _ =>
    FindsAt.cons (π := fun x : TransmitterPdu => x.frequency) (fixed_u64) (finds_u64) fun _ =>
    FindsAt.cons (π := fun x : TransmitterPdu => x.transmit_frequency_bandwidth) (fixed_f32) (finds_f32) fun _ =>
    FindsAt.cons (π := fun x : TransmitterPdu => x.power) (fixed_f32) (finds_f32) fun _ =>
    FindsAt.cons (π := fun x : TransmitterPdu => x.modulation_type) (ModulationType.fixed) (ModulationType.finds) fun _ =>
    FindsAt.cons (π := fun x : TransmitterPdu => x.crypto_system) (EnumSpec.fixed _) (EnumSpec.finds _ rfl) fun _ =>
    FindsAt.cons (π := fun x : TransmitterPdu => x.crypto_key_id) (fixed_u16) (finds_u16) fun _ =>
    FindsAt.cons (π := fun x : TransmitterPdu => x.modulation_parameter_length) (fixed_u8) (finds_u8) fun _ =>
    FindsAt.cons (π := fun x : TransmitterPdu => x.padding) (fixed_u8) (finds_u8) fun _ =>
    FindsAt.cons (π := fun x : TransmitterPdu => x.padding2) (fixed_u16) (finds_u16) fun _ =>
    FindsAt.skip fun _ =>
    FindsAt.skip fun _ =>
    FindsAt.skip fun _ =>
    FindsAt.ret ⟨⟨⟨⟨⟨⟨⟨⟨⟨⟨⟨⟨⟨⟨⟨⟨⟨⟨⟨trivial, rfl⟩, rfl⟩, rfl⟩, rfl⟩, rfl⟩, rfl⟩, rfl⟩, rfl⟩, rfl⟩, rfl⟩, rfl⟩, rfl⟩, rfl⟩, rfl⟩, rfl⟩, rfl⟩, rfl⟩, rfl⟩, rfl⟩

def SignalPdu.slots : List (Slot SignalPdu) :=
  Slot.cons (·.entity_id) EntityId.slots 6 <|
  Slot.cons (·.radio_id) [Slot.u16 0 id] 2 <|
  Slot.cons (·.encoding_scheme) [Slot.u16 0 id] 2 <|
  Slot.cons (·.tdl_type) [Slot.enum 0 2 id] 2 <|
  Slot.cons (·.sample_rate) [Slot.u32 0 id] 4 <|
  Slot.cons (·.data_length) [Slot.u16 0 id] 2 <|
  Slot.cons (·.samples) [Slot.u16 0 id] 2 <|
  []
theorem SignalPdu.layout_eq : SignalPdu.layout = SignalPdu.slots.map (Slot.shift 12) := (rfl)
theorem SignalPdu.written (x : SignalPdu) : Written SignalPdu.slots x (wire (sent x)) :=
    Written.cons (EntityId.written x.entity_id) (EntityId.wire_length _) <|
    Written.cons (written_u16 x.radio_id) (octets_length _ _) <|
    Written.cons (written_u16 x.encoding_scheme) (octets_length _ _) <|
    Written.cons (written_enum rfl x.tdl_type) (octets_length _ _) <|
    Written.cons (written_u32 x.sample_rate) (octets_length _ _) <|
    Written.cons (written_u16 x.data_length) (octets_length _ _) <|
    Written.cons (written_u16 x.samples) (octets_length _ _) <|
    Written.nil _ _
theorem SignalPdu.finds : Finds SignalPdu.deserializeBody (ReadFrom SignalPdu.slots) := FindsAt.finds <|
    FindsAt.cons (π := fun x : SignalPdu => x.entity_id) (EntityId.fixed) (EntityId.finds) fun _ =>
    FindsAt.cons (π := fun x : SignalPdu => x.radio_id) (fixed_u16) (finds_u16) fun _ =>
    FindsAt.cons (π := fun x : SignalPdu => x.encoding_scheme) (fixed_u16) (finds_u16) fun _ =>
    FindsAt.cons (π := fun x : SignalPdu => x.tdl_type) (EnumSpec.fixed _) (EnumSpec.finds _ rfl) fun _ =>
    FindsAt.cons (π := fun x : SignalPdu => x.sample_rate) (fixed_u32) (finds_u32) fun _ =>
    FindsAt.cons (π := fun x : SignalPdu => x.data_length) (fixed_u16) (finds_u16) fun _ =>
    FindsAt.cons (π := fun x : SignalPdu => x.samples) (fixed_u16) (finds_u16) fun _ =>
    FindsAt.skip fun _ =>
    FindsAt.ret ⟨⟨⟨⟨⟨⟨⟨trivial, rfl⟩, rfl⟩, rfl⟩, rfl⟩, rfl⟩, rfl⟩, rfl⟩

def ReceiverPdu.slots : List (Slot ReceiverPdu) :=
  Slot.cons (·.entity_id) EntityId.slots 6 <|
  Slot.cons (·.radio_id) [Slot.u16 0 id] 2 <|
  Slot.cons (·.receiver_state) [Slot.enum 0 2 id] 2 <|
  Slot.cons (·.padding) [Slot.u16 0 id] 2 <|
  Slot.cons (·.received_power) [Slot.f32 0 id] 4 <|
  Slot.cons (·.transmitter_radio_reference_id) EntityId.slots 6 <|
  Slot.cons (·.transmitter_radio_id) [Slot.u16 0 id] 2 <|
  []
theorem ReceiverPdu.layout_eq : ReceiverPdu.layout = ReceiverPdu.slots.map (Slot.shift 12) := (rfl)
theorem ReceiverPdu.written (x : ReceiverPdu) : Written ReceiverPdu.slots x (wire (sent x)) :=
    Written.cons (EntityId.written x.entity_id) (EntityId.wire_length _) <|
    Written.cons (written_u16 x.radio_id) (octets_length _ _) <|
    Written.cons (written_enum rfl x.receiver_state) (octets_length _ _) <|
    Written.cons (written_u16 x.padding) (octets_length _ _) <|
    Written.cons (written_f32 x.received_power) (octets_length _ _) <|
    Written.cons (EntityId.written x.transmitter_radio_reference_id) (EntityId.wire_length _) <|
    Written.last (written_u16 x.transmitter_radio_id)
theorem ReceiverPdu.finds : Finds ReceiverPdu.deserializeBody (ReadFrom ReceiverPdu.slots) := FindsAt.finds <|
    FindsAt.cons (π := fun x : ReceiverPdu => x.entity_id) (EntityId.fixed) (EntityId.finds) fun _ =>
    FindsAt.cons (π := fun x : ReceiverPdu => x.radio_id) (fixed_u16) (finds_u16) fun _ =>
    FindsAt.cons (π := fun x : ReceiverPdu => x.receiver_state) (EnumSpec.fixed _) (EnumSpec.finds _ rfl) fun _ =>
    FindsAt.cons (π := fun x : ReceiverPdu => x.padding) (fixed_u16) (finds_u16) fun _ =>
    FindsAt.cons (π := fun x : ReceiverPdu => x.received_power) (fixed_f32) (finds_f32) fun _ =>
    FindsAt.cons (π := fun x : ReceiverPdu => x.transmitter_radio_reference_id) (EntityId.fixed) (EntityId.finds) fun _ =>
    FindsAt.cons (π := fun x : ReceiverPdu => x.transmitter_radio_id) (fixed_u16) (finds_u16) fun _ =>
    FindsAt.ret ⟨⟨⟨⟨⟨⟨⟨trivial, rfl⟩, rfl⟩, rfl⟩, rfl⟩, rfl⟩, rfl⟩, rfl⟩
theorem ReceiverPdu.agree {x y : ReceiverPdu} (h : Agree ReceiverPdu.slots x y) : x = y := by
  have h0 := h
  have e0 : x.entity_id = y.entity_id := EntityId.agree (Agree.left h0)
  have h1 := Agree.right h0
  have e1 : x.radio_id = y.radio_id := agree_u16 (Agree.left h1)
  have h2 := Agree.right h1
  have e2 : x.receiver_state = y.receiver_state := agree_enum (Agree.left h2)
  have h3 := Agree.right h2
  have e3 : x.padding = y.padding := agree_u16 (Agree.left h3)
  have h4 := Agree.right h3
  have e4 : x.received_power = y.received_power := agree_f32 (Agree.left h4)
  have h5 := Agree.right h4
  have e5 : x.transmitter_radio_reference_id = y.transmitter_radio_reference_id := EntityId.agree (Agree.left h5)
  have h6 := Agree.right h5
  have e6 : x.transmitter_radio_id = y.transmitter_radio_id := agree_u16 (Agree.left h6)
  cases x; cases y
  dsimp only at e0 e1 e2 e3 e4 e5 e6
  subst e0 e1 e2 e3 e4 e5 e6
  rfl

def IntercomSignalPdu.slots : List (Slot IntercomSignalPdu) :=
  Slot.cons (·.intercom_reference_id) EntityId.slots 6 <|
  Slot.cons (·.intercom_number) [Slot.u16 0 id] 2 <|
  Slot.cons (·.encoding_scheme) [Slot.u16 0 id] 2 <|
  Slot.cons (·.tdl_type) [Slot.enum 0 2 id] 2 <|
  Slot.cons (·.sample_rate) [Slot.u32 0 id] 4 <|
  Slot.cons (·.data_length) [Slot.u16 0 id] 2 <|
  Slot.cons (·.samples) [Slot.u16 0 id] 2 <|
  []
theorem IntercomSignalPdu.layout_eq : IntercomSignalPdu.layout = IntercomSignalPdu.slots.map (Slot.shift 12) := (rfl)
theorem IntercomSignalPdu.written (x : IntercomSignalPdu) : Written IntercomSignalPdu.slots x (wire (sent x)) :=
    Written.cons (EntityId.written x.intercom_reference_id) (EntityId.wire_length _) <|
    Written.cons (written_u16 x.intercom_number) (octets_length _ _) <|
    Written.cons (written_u16 x.encoding_scheme) (octets_length _ _) <|
    Written.cons (written_enum rfl x.tdl_type) (octets_length _ _) <|
    Written.cons (written_u32 x.sample_rate) (octets_length _ _) <|
    Written.cons (written_u16 x.data_length) (octets_length _ _) <|
    Written.cons (written_u16 x.samples) (octets_length _ _) <|
    Written.nil _ _
theorem IntercomSignalPdu.finds : Finds IntercomSignalPdu.deserializeBody (ReadFrom IntercomSignalPdu.slots) := FindsAt.finds <|
    FindsAt.cons (π := fun x : IntercomSignalPdu => x.intercom_reference_id) (EntityId.fixed) (EntityId.finds) fun _ =>
    FindsAt.cons (π := fun x : IntercomSignalPdu => x.intercom_number) (fixed_u16) (finds_u16) fun _ =>
    FindsAt.cons (π := fun x : IntercomSignalPdu => x.encoding_scheme) (fixed_u16) (finds_u16) fun _ =>
    FindsAt.cons (π := fun x : IntercomSignalPdu => x.tdl_type) (EnumSpec.fixed _) (EnumSpec.finds _ rfl) fun _ =>
    FindsAt.cons (π := fun x : IntercomSignalPdu => x.sample_rate) (fixed_u32) (finds_u32) fun _ =>
    FindsAt.cons (π := fun x : IntercomSignalPdu => x.data_length) (fixed_u16) (finds_u16) fun _ =>
    FindsAt.cons (π := fun x : IntercomSignalPdu => x.samples) (fixed_u16) (finds_u16) fun _ =>
    FindsAt.skip fun _ =>
    FindsAt.ret ⟨⟨⟨⟨⟨⟨⟨trivial, rfl⟩, rfl⟩, rfl⟩, rfl⟩, rfl⟩, rfl⟩, rfl⟩

def IntercomControlPdu.slots : List (Slot IntercomControlPdu) :=
  Slot.cons (·.control_type) [Slot.enum 0 1 id] 1 <|
  Slot.cons (·.communications_channel_type) [Slot.u8 0 id] 1 <|
  Slot.cons (·.source_intercom_reference_id) EntityId.slots 6 <|
  Slot.cons (·.source_intercom_number) [Slot.u16 0 id] 2 <|
  Slot.cons (·.source_line_id) [Slot.u8 0 id] 1 <|
  Slot.cons (·.transmit_priority) [Slot.u8 0 id] 1 <|
  Slot.cons (·.transmit_line_state) [Slot.enum 0 1 id] 1 <|
  Slot.cons (·.command) [Slot.enum 0 1 id] 1 <|
  Slot.cons (·.master_intercom_reference_id) EntityId.slots 6 <|
  Slot.cons (·.master_intercom_number) [Slot.u16 0 id] 2 <|
  Slot.cons (·.master_channel_id) [Slot.u16 0 id] 2 <|
  Slot.cons (·.intercom_parameters_length) [Slot.u32 0 id] 4 <|
  []
theorem IntercomControlPdu.layout_eq : IntercomControlPdu.layout = IntercomControlPdu.slots.map (Slot.shift 12) := (rfl)
theorem IntercomControlPdu.written (x : IntercomControlPdu) : Written IntercomControlPdu.slots x (wire (sent x)) :=
    Written.cons (written_enum rfl x.control_type) (octets_length _ _) <|
    Written.cons (written_u8 x.communications_channel_type) (octets_length _ _) <|
    Written.cons (EntityId.written x.source_intercom_reference_id) (EntityId.wire_length _) <|
    Written.cons (written_u16 x.source_intercom_number) (octets_length _ _) <|
    Written.cons (written_u8 x.source_line_id) (octets_length _ _) <|
    Written.cons (written_u8 x.transmit_priority) (octets_length _ _) <|
    Written.cons (written_enum rfl x.transmit_line_state) (octets_length _ _) <|
    Written.cons (written_enum rfl x.command) (octets_length _ _) <|
    Written.cons (EntityId.written x.master_intercom_reference_id) (EntityId.wire_length _) <|
    Written.cons (written_u16 x.master_intercom_number) (octets_length _ _) <|
    Written.cons (written_u16 x.master_channel_id) (octets_length _ _) <|
    Written.cons (written_u32 x.intercom_parameters_length) (octets_length _ _) <|
    Written.nil _ _
theorem IntercomControlPdu.finds : Finds IntercomControlPdu.deserializeBody (ReadFrom IntercomControlPdu.slots) := FindsAt.finds <|
    FindsAt.cons (π := fun x : IntercomControlPdu => x.control_type) (EnumSpec.fixed _) (EnumSpec.finds _ rfl) fun _ =>
    FindsAt.cons (π := fun x : IntercomControlPdu => x.communications_channel_type) (fixed_u8) (finds_u8) fun _ =>
    FindsAt.cons (π := fun x : IntercomControlPdu => x.source_intercom_reference_id) (EntityId.fixed) (EntityId.finds) fun _ =>
    FindsAt.cons (π := fun x : IntercomControlPdu => x.source_intercom_number) (fixed_u16) (finds_u16) fun _ =>
    FindsAt.cons (π := fun x : IntercomControlPdu => x.source_line_id) (fixed_u8) (finds_u8) fun _ =>
    FindsAt.cons (π := fun x : IntercomControlPdu => x.transmit_priority) (fixed_u8) (finds_u8) fun _ =>
    FindsAt.cons (π := fun x : IntercomControlPdu => x.transmit_line_state) (EnumSpec.fixed _) (EnumSpec.finds _ rfl) fun _ =>
    FindsAt.cons (π := fun x : IntercomControlPdu => x.command) (EnumSpec.fixed _) (EnumSpec.finds _ rfl) fun _ =>
    FindsAt.cons (π := fun x : IntercomControlPdu => x.master_intercom_reference_id) (EntityId.fixed) (EntityId.finds) fun _ =>
    FindsAt.cons (π := fun x : IntercomControlPdu => x.master_intercom_number) (fixed_u16) (finds_u16) fun _ =>
    FindsAt.cons (π := fun x : IntercomControlPdu => x.master_channel_id) (fixed_u16) (finds_u16) fun _ =>
    FindsAt.cons (π := fun x : IntercomControlPdu => x.intercom_parameters_length) (fixed_u32) (finds_u32) fun _ =>
    FindsAt.skip fun _ =>
    FindsAt.ret ⟨⟨⟨⟨⟨⟨⟨⟨⟨⟨⟨⟨trivial, rfl⟩, rfl⟩, rfl⟩, rfl⟩, rfl⟩, rfl⟩, rfl⟩, rfl⟩, rfl⟩, rfl⟩, rfl⟩, rfl⟩

def CreateEntityPdu.slots : List (Slot CreateEntityPdu) :=
  Slot.cons (·.originating_entity_id) EntityId.slots 6 <|
  Slot.cons (·.receiving_entity_id) EntityId.slots 6 <|
  Slot.cons (·.request_id) [Slot.u32 0 id] 4 <|
  []
theorem CreateEntityPdu.layout_eq : CreateEntityPdu.layout = CreateEntityPdu.slots.map (Slot.shift 12) := (rfl)
theorem CreateEntityPdu.written (x : CreateEntityPdu) : Written CreateEntityPdu.slots x (wire (sent x)) :=
    Written.cons (EntityId.written x.originating_entity_id) (EntityId.wire_length _) <|
    Written.cons (EntityId.written x.receiving_entity_id) (EntityId.wire_length _) <|
    Written.last (written_u32 x.request_id)
theorem CreateEntityPdu.finds : Finds CreateEntityPdu.deserializeBody (ReadFrom CreateEntityPdu.slots) := FindsAt.finds <|
    FindsAt.cons (π := fun x : CreateEntityPdu => x.originating_entity_id) (EntityId.fixed) (EntityId.finds) fun _ =>
    FindsAt.cons (π := fun x : CreateEntityPdu => x.receiving_entity_id) (EntityId.fixed) (EntityId.finds) fun _ =>
    FindsAt.cons (π := fun x : CreateEntityPdu => x.request_id) (fixed_u32) (finds_u32) fun _ =>
    FindsAt.ret ⟨⟨⟨trivial, rfl⟩, rfl⟩, rfl⟩
theorem CreateEntityPdu.agree {x y : CreateEntityPdu} (h : Agree CreateEntityPdu.slots x y) : x = y := by
  have h0 := h
  have e0 : x.originating_entity_id = y.originating_entity_id := EntityId.agree (Agree.left h0)
  have h1 := Agree.right h0
  have e1 : x.receiving_entity_id = y.receiving_entity_id := EntityId.agree (Agree.left h1)
  have h2 := Agree.right h1
  have e2 : x.request_id = y.request_id := agree_u32 (Agree.left h2)
  cases x; cases y
  dsimp only at e0 e1 e2
  subst e0 e1 e2
  rfl

def RemoveEntityPdu.slots : List (Slot RemoveEntityPdu) :=
  Slot.cons (·.originating_entity_id) EntityId.slots 6 <|
  Slot.cons (·.receiving_entity_id) EntityId.slots 6 <|
  Slot.cons (·.request_id) [Slot.u32 0 id] 4 <|
  []
theorem RemoveEntityPdu.layout_eq : RemoveEntityPdu.layout = RemoveEntityPdu.slots.map (Slot.shift 12) := (rfl)
theorem RemoveEntityPdu.written (x : RemoveEntityPdu) : Written RemoveEntityPdu.slots x (wire (sent x)) :=
    Written.cons (EntityId.written x.originating_entity_id) (EntityId.wire_length _) <|
    Written.cons (EntityId.written x.receiving_entity_id) (EntityId.wire_length _) <|
    Written.last (written_u32 x.request_id)
theorem RemoveEntityPdu.finds : Finds RemoveEntityPdu.deserializeBody (ReadFrom RemoveEntityPdu.slots) := FindsAt.finds <|
    FindsAt.cons (π := fun x : RemoveEntityPdu => x.originating_entity_id) (EntityId.fixed) (EntityId.finds) fun _ =>
    FindsAt.cons (π := fun x : RemoveEntityPdu => x.receiving_entity_id) (EntityId.fixed) (EntityId.finds) fun _ =>
    FindsAt.cons (π := fun x : RemoveEntityPdu => x.request_id) (fixed_u32) (finds_u32) fun _ =>
    FindsAt.ret ⟨⟨⟨trivial, rfl⟩, rfl⟩, rfl⟩
theorem RemoveEntityPdu.agree {x y : RemoveEntityPdu} (h : Agree RemoveEntityPdu.slots x y) : x = y := by
  have h0 := h
  have e0 : x.originating_entity_id = y.originating_entity_id := EntityId.agree (Agree.left h0)
  have h1 := Agree.right h0
  have e1 : x.receiving_entity_id = y.receiving_entity_id := EntityId.agree (Agree.left h1)
  have h2 := Agree.right h1
  have e2 : x.request_id = y.request_id := agree_u32 (Agree.left h2)
  cases x; cases y
  dsimp only at e0 e1 e2
  subst e0 e1 e2
  rfl

end Dis
