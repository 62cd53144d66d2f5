import Verif.Spec.PduWire2
import Verif.Proofs.Records
/- Generated by tools/gen_pdus.py. -/
set_option linter.unusedSimpArgs false
set_option maxRecDepth 8000
namespace Dis

theorem ServiceRequestPdu.writes (x : ServiceRequestPdu) : Writes x.serializeBody (wire (sent x)) :=
    Writes.seq (writes_exact x.receiving_entity_id) <|
    Writes.seq (writes_exact x.servicing_entity_id) <|
    Writes.seq (writes_exact x.service_type_requested) <|
    Writes.seq (writes_exact x.number_of_supply_types) <|
    Writes.seq (writes_exact x.padding) <|
    writes_exact x.supplies
theorem ServiceRequestPdu.len (x : ServiceRequestPdu) : ((wire (sent x)).length : Int) = (x.fieldsLen : Nat) + surplus x := by
  show ((wire x.receiving_entity_id ++ (wire x.servicing_entity_id ++ (wire x.service_type_requested ++ (wire x.number_of_supply_types ++ (wire x.padding ++ (wire x.supplies)))))).length : Int) = (x.fieldsLen : Nat) + ((0 : Int))
  simp only [List.length_append, ServiceRequestPdu.fieldsLen]
  have h_receiving_entity_id := len_exact x.receiving_entity_id
  have h_servicing_entity_id := len_exact x.servicing_entity_id
  have h_service_type_requested := len_exact x.service_type_requested
  have h_number_of_supply_types := len_exact x.number_of_supply_types
  have h_padding := len_exact x.padding
  have h_supplies := len_exact x.supplies
  omega
theorem ServiceRequestPdu.appends (x : ServiceRequestPdu) : Appends x.serializeBody :=
    Appends.seq (LawfulEnc.appends x.receiving_entity_id) <|
    Appends.seq (LawfulEnc.appends x.servicing_entity_id) <|
    Appends.seq (LawfulEnc.appends x.service_type_requested) <|
    Appends.seq (LawfulEnc.appends x.number_of_supply_types) <|
    Appends.seq (LawfulEnc.appends x.padding) <|
    LawfulEnc.appends x.supplies
theorem ServiceRequestPdu.ifOk (x : ServiceRequestPdu) : WritesIfOk x.serializeBody (wire (sent x)) :=
    (ServiceRequestPdu.writes x).ifOk
theorem ServiceRequestPdu.reads (x : ServiceRequestPdu) : Reads ServiceRequestPdu.deserializeBody (wire (kept x)) (kept x) :=
    Reads.bind (reads_exact x.receiving_entity_id) <|
    Reads.bind (reads_exact x.servicing_entity_id) <|
    Reads.bind (reads_exact x.service_type_requested) <|
    Reads.bind (reads_exact x.number_of_supply_types) <|
    Reads.bind (reads_exact x.padding) <|
    Reads.last (Reads.ret _) (Reads.ret _)
theorem ServiceRequestPdu.fixed : Fixed ServiceRequestPdu.deserializeBody 16 := Fixed.congr (
    Fixed.bind (FixedDec.fixed) fun _ =>
    Fixed.bind (FixedDec.fixed) fun _ =>
    Fixed.bind (FixedDec.fixed) fun _ =>
    Fixed.bind (FixedDec.fixed) fun _ =>
    Fixed.bind (FixedDec.fixed) fun _ =>
    Fixed.bind (FixedDec.fixed) fun _ =>
    Fixed.ret _) rfl
theorem ServiceRequestPdu.loc : Local ServiceRequestPdu.deserializeBody :=
    Local.bind (LocalDec.loc) fun _ =>
    Local.bind (LocalDec.loc) fun _ =>
    Local.bind (LocalDec.loc) fun _ =>
    Local.bind (LocalDec.loc) fun _ =>
    Local.bind (LocalDec.loc) fun _ =>
    Local.bind (LocalDec.loc) fun _ =>
    Local.ret _
theorem ServiceRequestPdu.under : OnlyUnderflow ServiceRequestPdu.deserializeBody :=
    OnlyUnderflow.bind (UnderflowDec.under) fun _ =>
    OnlyUnderflow.bind (UnderflowDec.under) fun _ =>
    OnlyUnderflow.bind (UnderflowDec.under) fun _ =>
    OnlyUnderflow.bind (UnderflowDec.under) fun _ =>
    OnlyUnderflow.bind (UnderflowDec.under) fun _ =>
    OnlyUnderflow.bind (UnderflowDec.under) fun _ =>
    OnlyUnderflow.ret _
theorem ServiceRequestPdu.split (x : ServiceRequestPdu) : wire x = wire (kept x) ++ tail x := by
  show wire x.receiving_entity_id ++ (wire x.servicing_entity_id ++ (wire x.service_type_requested ++ (wire x.number_of_supply_types ++ (wire x.padding ++ (wire x.supplies)))))
    = (wire x.receiving_entity_id ++ (wire x.servicing_entity_id ++ (wire x.service_type_requested ++ (wire x.number_of_supply_types ++ (wire x.padding ++ ([]))))))
      ++ (wire x.supplies)
  simp only [List.append_assoc, List.append_nil, List.nil_append]

theorem ResupplyOfferPdu.writes (x : ResupplyOfferPdu) : Writes x.serializeBody (wire (sent x)) :=
    Writes.seq (writes_exact x.receiving_entity_id) <|
    Writes.seq (writes_exact x.supplying_entity_id) <|
    Writes.seq (writes_exact x.number_of_supply_types) <|
    Writes.seq (writes_exact x.padding) <|
    Writes.seq (writes_exact x.padding2) <|
    writes_exact x.supplies
theorem ResupplyOfferPdu.len (x : ResupplyOfferPdu) : ((wire (sent x)).length : Int) = (x.fieldsLen : Nat) + surplus x := by
  show ((wire x.receiving_entity_id ++ (wire x.supplying_entity_id ++ (wire x.number_of_supply_types ++ (wire x.padding ++ (wire x.padding2 ++ (wire x.supplies)))))).length : Int) = (x.fieldsLen : Nat) + ((0 : Int))
  simp only [List.length_append, ResupplyOfferPdu.fieldsLen]
  have h_receiving_entity_id := len_exact x.receiving_entity_id
  have h_supplying_entity_id := len_exact x.supplying_entity_id
  have h_number_of_supply_types := len_exact x.number_of_supply_types
  have h_padding := len_exact x.padding
  have h_padding2 := len_exact x.padding2
  have h_supplies := len_exact x.supplies
  omega
theorem ResupplyOfferPdu.appends (x : ResupplyOfferPdu) : Appends x.serializeBody :=
    Appends.seq (LawfulEnc.appends x.receiving_entity_id) <|
    Appends.seq (LawfulEnc.appends x.supplying_entity_id) <|
    Appends.seq (LawfulEnc.appends x.number_of_supply_types) <|
    Appends.seq (LawfulEnc.appends x.padding) <|
    Appends.seq (LawfulEnc.appends x.padding2) <|
    LawfulEnc.appends x.supplies
theorem ResupplyOfferPdu.ifOk (x : ResupplyOfferPdu) : WritesIfOk x.serializeBody (wire (sent x)) :=
    (ResupplyOfferPdu.writes x).ifOk
theorem ResupplyOfferPdu.reads (x : ResupplyOfferPdu) : Reads ResupplyOfferPdu.deserializeBody (wire (kept x)) (kept x) :=
    Reads.bind (reads_exact x.receiving_entity_id) <|
    Reads.bind (reads_exact x.supplying_entity_id) <|
    Reads.bind (reads_exact x.number_of_supply_types) <|
    Reads.bind (reads_exact x.padding) <|
    Reads.bind (reads_exact x.padding2) <|
    Reads.last (Reads.ret _) (Reads.ret _)
theorem ResupplyOfferPdu.fixed : Fixed ResupplyOfferPdu.deserializeBody 16 := Fixed.congr (
    Fixed.bind (FixedDec.fixed) fun _ =>
    Fixed.bind (FixedDec.fixed) fun _ =>
    Fixed.bind (FixedDec.fixed) fun _ =>
    Fixed.bind (FixedDec.fixed) fun _ =>
    Fixed.bind (FixedDec.fixed) fun _ =>
    Fixed.bind (FixedDec.fixed) fun _ =>
    Fixed.ret _) rfl
theorem ResupplyOfferPdu.loc : Local ResupplyOfferPdu.deserializeBody :=
    Local.bind (LocalDec.loc) fun _ =>
    Local.bind (LocalDec.loc) fun _ =>
    Local.bind (LocalDec.loc) fun _ =>
    Local.bind (LocalDec.loc) fun _ =>
    Local.bind (LocalDec.loc) fun _ =>
    Local.bind (LocalDec.loc) fun _ =>
    Local.ret _
theorem ResupplyOfferPdu.under : OnlyUnderflow ResupplyOfferPdu.deserializeBody :=
    OnlyUnderflow.bind (UnderflowDec.under) fun _ =>
    OnlyUnderflow.bind (UnderflowDec.under) fun _ =>
    OnlyUnderflow.bind (UnderflowDec.under) fun _ =>
    OnlyUnderflow.bind (UnderflowDec.under) fun _ =>
    OnlyUnderflow.bind (UnderflowDec.under) fun _ =>
    OnlyUnderflow.bind (UnderflowDec.under) fun _ =>
    OnlyUnderflow.ret _
theorem ResupplyOfferPdu.split (x : ResupplyOfferPdu) : wire x = wire (kept x) ++ tail x := by
  show wire x.receiving_entity_id ++ (wire x.supplying_entity_id ++ (wire x.number_of_supply_types ++ (wire x.padding ++ (wire x.padding2 ++ (wire x.supplies)))))
    = (wire x.receiving_entity_id ++ (wire x.supplying_entity_id ++ (wire x.number_of_supply_types ++ (wire x.padding ++ (wire x.padding2 ++ ([]))))))
      ++ (wire x.supplies)
  simp only [List.append_assoc, List.append_nil, List.nil_append]

theorem ResupplyReceivedPdu.writes (x : ResupplyReceivedPdu) : Writes x.serializeBody (wire (sent x)) :=
    Writes.seq (writes_exact x.receiving_entity_id) <|
    Writes.seq (writes_exact x.supplying_entity_id) <|
    Writes.seq (writes_exact x.number_of_supply_types) <|
    Writes.seq (writes_exact x.padding) <|
    Writes.seq (writes_exact x.padding2) <|
    writes_exact x.supplies
theorem ResupplyReceivedPdu.len (x : ResupplyReceivedPdu) : ((wire (sent x)).length : Int) = (x.fieldsLen : Nat) + surplus x := by
  show ((wire x.receiving_entity_id ++ (wire x.supplying_entity_id ++ (wire x.number_of_supply_types ++ (wire x.padding ++ (wire x.padding2 ++ (wire x.supplies)))))).length : Int) = (x.fieldsLen : Nat) + ((0 : Int))
  simp only [List.length_append, ResupplyReceivedPdu.fieldsLen]
  have h_receiving_entity_id := len_exact x.receiving_entity_id
  have h_supplying_entity_id := len_exact x.supplying_entity_id
  have h_number_of_supply_types := len_exact x.number_of_supply_types
  have h_padding := len_exact x.padding
  have h_padding2 := len_exact x.padding2
  have h_supplies := len_exact x.supplies
  omega
theorem ResupplyReceivedPdu.appends (x : ResupplyReceivedPdu) : Appends x.serializeBody :=
    Appends.seq (LawfulEnc.appends x.receiving_entity_id) <|
    Appends.seq (LawfulEnc.appends x.supplying_entity_id) <|
    Appends.seq (LawfulEnc.appends x.number_of_supply_types) <|
    Appends.seq (LawfulEnc.appends x.padding) <|
    Appends.seq (LawfulEnc.appends x.padding2) <|
    LawfulEnc.appends x.supplies
theorem ResupplyReceivedPdu.ifOk (x : ResupplyReceivedPdu) : WritesIfOk x.serializeBody (wire (sent x)) :=
    (ResupplyReceivedPdu.writes x).ifOk
theorem ResupplyReceivedPdu.reads (x : ResupplyReceivedPdu) : Reads ResupplyReceivedPdu.deserializeBody (wire (kept x)) (kept x) :=
    Reads.bind (reads_exact x.receiving_entity_id) <|
    Reads.bind (reads_exact x.supplying_entity_id) <|
    Reads.bind (reads_exact x.number_of_supply_types) <|
    Reads.bind (reads_exact x.padding) <|
    Reads.bind (reads_exact x.padding2) <|
    Reads.last (Reads.ret _) (Reads.ret _)
theorem ResupplyReceivedPdu.fixed : Fixed ResupplyReceivedPdu.deserializeBody 16 := Fixed.congr (
    Fixed.bind (FixedDec.fixed) fun _ =>
    Fixed.bind (FixedDec.fixed) fun _ =>
    Fixed.bind (FixedDec.fixed) fun _ =>
    Fixed.bind (FixedDec.fixed) fun _ =>
    Fixed.bind (FixedDec.fixed) fun _ =>
    Fixed.bind (FixedDec.fixed) fun _ =>
    Fixed.ret _) rfl
theorem ResupplyReceivedPdu.loc : Local ResupplyReceivedPdu.deserializeBody :=
    Local.bind (LocalDec.loc) fun _ =>
    Local.bind (LocalDec.loc) fun _ =>
    Local.bind (LocalDec.loc) fun _ =>
    Local.bind (LocalDec.loc) fun _ =>
    Local.bind (LocalDec.loc) fun _ =>
    Local.bind (LocalDec.loc) fun _ =>
    Local.ret _
theorem ResupplyReceivedPdu.under : OnlyUnderflow ResupplyReceivedPdu.deserializeBody :=
    OnlyUnderflow.bind (UnderflowDec.under) fun _ =>
    OnlyUnderflow.bind (UnderflowDec.under) fun _ =>
    OnlyUnderflow.bind (UnderflowDec.under) fun _ =>
    OnlyUnderflow.bind (UnderflowDec.under) fun _ =>
    OnlyUnderflow.bind (UnderflowDec.under) fun _ =>
    OnlyUnderflow.bind (UnderflowDec.under) fun _ =>
    OnlyUnderflow.ret _
theorem ResupplyReceivedPdu.split (x : ResupplyReceivedPdu) : wire x = wire (kept x) ++ tail x := by
  show wire x.receiving_entity_id ++ (wire x.supplying_entity_id ++ (wire x.number_of_supply_types ++ (wire x.padding ++ (wire x.padding2 ++ (wire x.supplies)))))
    = (wire x.receiving_entity_id ++ (wire x.supplying_entity_id ++ (wire x.number_of_supply_types ++ (wire x.padding ++ (wire x.padding2 ++ ([]))))))
      ++ (wire x.supplies)
  simp only [List.append_assoc, List.append_nil, List.nil_append]

theorem ResupplyCancelPdu.writes (x : ResupplyCancelPdu) : Writes x.serializeBody (wire (sent x)) :=
    Writes.seq (writes_exact x.receiving_entity_id) <|
    writes_exact x.supplying_entity_id
theorem ResupplyCancelPdu.len (x : ResupplyCancelPdu) : ((wire (sent x)).length : Int) = (x.fieldsLen : Nat) + surplus x := by
  show ((wire x.receiving_entity_id ++ (wire x.supplying_entity_id)).length : Int) = (x.fieldsLen : Nat) + ((0 : Int))
  simp only [List.length_append, ResupplyCancelPdu.fieldsLen]
  have h_receiving_entity_id := len_exact x.receiving_entity_id
  have h_supplying_entity_id := len_exact x.supplying_entity_id
  omega
theorem ResupplyCancelPdu.appends (x : ResupplyCancelPdu) : Appends x.serializeBody :=
    Appends.seq (LawfulEnc.appends x.receiving_entity_id) <|
    LawfulEnc.appends x.supplying_entity_id
theorem ResupplyCancelPdu.ifOk (x : ResupplyCancelPdu) : WritesIfOk x.serializeBody (wire (sent x)) :=
    (ResupplyCancelPdu.writes x).ifOk
theorem ResupplyCancelPdu.reads (x : ResupplyCancelPdu) : Reads ResupplyCancelPdu.deserializeBody (wire (kept x)) (kept x) :=
    Reads.bind (reads_exact x.receiving_entity_id) <|
    Reads.last (reads_exact x.supplying_entity_id) (Reads.ret _)
theorem ResupplyCancelPdu.fixed : Fixed ResupplyCancelPdu.deserializeBody 12 := Fixed.congr (
    Fixed.bind (FixedDec.fixed) fun _ =>
    Fixed.bind (FixedDec.fixed) fun _ =>
    Fixed.ret _) rfl
theorem ResupplyCancelPdu.loc : Local ResupplyCancelPdu.deserializeBody :=
    Local.bind (LocalDec.loc) fun _ =>
    Local.bind (LocalDec.loc) fun _ =>
    Local.ret _
theorem ResupplyCancelPdu.under : OnlyUnderflow ResupplyCancelPdu.deserializeBody :=
    OnlyUnderflow.bind (UnderflowDec.under) fun _ =>
    OnlyUnderflow.bind (UnderflowDec.under) fun _ =>
    OnlyUnderflow.ret _
theorem ResupplyCancelPdu.split (x : ResupplyCancelPdu) : wire x = wire (kept x) ++ tail x := (List.append_nil _).symm

theorem RepairCompletePdu.writes (x : RepairCompletePdu) : Writes x.serializeBody (wire (sent x)) :=
    Writes.seq (writes_exact x.receiving_entity_id) <|
    Writes.seq (writes_exact x.repairing_entity_id) <|
    Writes.seq (writes_exact x.repair) <|
    writes_exact x.padding
theorem RepairCompletePdu.len (x : RepairCompletePdu) : ((wire (sent x)).length : Int) = (x.fieldsLen : Nat) + surplus x := by
  show ((wire x.receiving_entity_id ++ (wire x.repairing_entity_id ++ (wire x.repair ++ (wire x.padding)))).length : Int) = (x.fieldsLen : Nat) + ((0 : Int))
  simp only [List.length_append, RepairCompletePdu.fieldsLen]
  have h_receiving_entity_id := len_exact x.receiving_entity_id
  have h_repairing_entity_id := len_exact x.repairing_entity_id
  have h_repair := len_exact x.repair
  have h_padding := len_exact x.padding
  omega
theorem RepairCompletePdu.appends (x : RepairCompletePdu) : Appends x.serializeBody :=
    Appends.seq (LawfulEnc.appends x.receiving_entity_id) <|
    Appends.seq (LawfulEnc.appends x.repairing_entity_id) <|
    Appends.seq (LawfulEnc.appends x.repair) <|
    LawfulEnc.appends x.padding
theorem RepairCompletePdu.ifOk (x : RepairCompletePdu) : WritesIfOk x.serializeBody (wire (sent x)) :=
    (RepairCompletePdu.writes x).ifOk
theorem RepairCompletePdu.reads (x : RepairCompletePdu) : Reads RepairCompletePdu.deserializeBody (wire (kept x)) (kept x) :=
    Reads.bind (reads_exact x.receiving_entity_id) <|
    Reads.bind (reads_exact x.repairing_entity_id) <|
    Reads.bind (reads_exact x.repair) <|
    Reads.last (reads_exact x.padding) (Reads.ret _)
theorem RepairCompletePdu.fixed : Fixed RepairCompletePdu.deserializeBody 16 := Fixed.congr (
    Fixed.bind (FixedDec.fixed) fun _ =>
    Fixed.bind (FixedDec.fixed) fun _ =>
    Fixed.bind (FixedDec.fixed) fun _ =>
    Fixed.bind (FixedDec.fixed) fun _ =>
    Fixed.ret _) rfl
theorem RepairCompletePdu.loc : Local RepairCompletePdu.deserializeBody :=
    Local.bind (LocalDec.loc) fun _ =>
    Local.bind (LocalDec.loc) fun _ =>
    Local.bind (LocalDec.loc) fun _ =>
    Local.bind (LocalDec.loc) fun _ =>
    Local.ret _
theorem RepairCompletePdu.under : OnlyUnderflow RepairCompletePdu.deserializeBody :=
    OnlyUnderflow.bind (UnderflowDec.under) fun _ =>
    OnlyUnderflow.bind (UnderflowDec.under) fun _ =>
    OnlyUnderflow.bind (UnderflowDec.under) fun _ =>
    OnlyUnderflow.bind (UnderflowDec.under) fun _ =>
    OnlyUnderflow.ret _
theorem RepairCompletePdu.split (x : RepairCompletePdu) : wire x = wire (kept x) ++ tail x := (List.append_nil _).symm

theorem RepairResponsePdu.writes (x : RepairResponsePdu) : Writes x.serializeBody (wire (sent x)) :=
    Writes.seq (writes_exact x.receiving_entity_id) <|
    Writes.seq (writes_exact x.repairing_entity_id) <|
    Writes.seq (writes_exact x.repair_result) <|
    Writes.seq (writes_exact x.padding) <|
    writes_exact x.padding2
theorem RepairResponsePdu.len (x : RepairResponsePdu) : ((wire (sent x)).length : Int) = (x.fieldsLen : Nat) + surplus x := by
  show ((wire x.receiving_entity_id ++ (wire x.repairing_entity_id ++ (wire x.repair_result ++ (wire x.padding ++ (wire x.padding2))))).length : Int) = (x.fieldsLen : Nat) + ((0 : Int))
  simp only [List.length_append, RepairResponsePdu.fieldsLen]
  have h_receiving_entity_id := len_exact x.receiving_entity_id
  have h_repairing_entity_id := len_exact x.repairing_entity_id
  have h_repair_result := len_exact x.repair_result
  have h_padding := len_exact x.padding
  have h_padding2 := len_exact x.padding2
  omega
theorem RepairResponsePdu.appends (x : RepairResponsePdu) : Appends x.serializeBody :=
    Appends.seq (LawfulEnc.appends x.receiving_entity_id) <|
    Appends.seq (LawfulEnc.appends x.repairing_entity_id) <|
    Appends.seq (LawfulEnc.appends x.repair_result) <|
    Appends.seq (LawfulEnc.appends x.padding) <|
    LawfulEnc.appends x.padding2
theorem RepairResponsePdu.ifOk (x : RepairResponsePdu) : WritesIfOk x.serializeBody (wire (sent x)) :=
    (RepairResponsePdu.writes x).ifOk
theorem RepairResponsePdu.reads (x : RepairResponsePdu) : Reads RepairResponsePdu.deserializeBody (wire (kept x)) (kept x) :=
    Reads.bind (reads_exact x.receiving_entity_id) <|
    Reads.bind (reads_exact x.repairing_entity_id) <|
    Reads.bind (reads_exact x.repair_result) <|
    Reads.bind (reads_exact x.padding) <|
    Reads.last (reads_exact x.padding2) (Reads.ret _)
theorem RepairResponsePdu.fixed : Fixed RepairResponsePdu.deserializeBody 16 := Fixed.congr (
    Fixed.bind (FixedDec.fixed) fun _ =>
    Fixed.bind (FixedDec.fixed) fun _ =>
    Fixed.bind (FixedDec.fixed) fun _ =>
    Fixed.bind (FixedDec.fixed) fun _ =>
    Fixed.bind (FixedDec.fixed) fun _ =>
    Fixed.ret _) rfl
theorem RepairResponsePdu.loc : Local RepairResponsePdu.deserializeBody :=
    Local.bind (LocalDec.loc) fun _ =>
    Local.bind (LocalDec.loc) fun _ =>
    Local.bind (LocalDec.loc) fun _ =>
    Local.bind (LocalDec.loc) fun _ =>
    Local.bind (LocalDec.loc) fun _ =>
    Local.ret _
theorem RepairResponsePdu.under : OnlyUnderflow RepairResponsePdu.deserializeBody :=
    OnlyUnderflow.bind (UnderflowDec.under) fun _ =>
    OnlyUnderflow.bind (UnderflowDec.under) fun _ =>
    OnlyUnderflow.bind (UnderflowDec.under) fun _ =>
    OnlyUnderflow.bind (UnderflowDec.under) fun _ =>
    OnlyUnderflow.bind (UnderflowDec.under) fun _ =>
    OnlyUnderflow.ret _
theorem RepairResponsePdu.split (x : RepairResponsePdu) : wire x = wire (kept x) ++ tail x := (List.append_nil _).symm

theorem MinefieldStatePdu.writes (x : MinefieldStatePdu) : Writes x.serializeBody (wire (sent x)) :=
    Writes.seq (writes_exact x.minefield_id) <|
    Writes.seq (writes_exact x.minefield_sequence) <|
    Writes.seq (writes_exact x.force_id) <|
    Writes.seq (writes_exact x.number_of_perimeter_points) <|
    Writes.seq (writes_exact x.minefield_type) <|
    Writes.seq (writes_exact x.number_of_mine_types) <|
    Writes.seq (writes_exact x.minefield_location) <|
    Writes.seq (writes_exact x.minefield_orientation) <|
    Writes.seq (writes_exact x.appearance) <|
    Writes.seq (writes_exact x.protocol_mode) <|
    Writes.seq (writes_exact x.perimeter_points) <|
    writes_exact x.mine_type
theorem MinefieldStatePdu.len (x : MinefieldStatePdu) : ((wire (sent x)).length : Int) = (x.fieldsLen : Nat) + surplus x := by
  show ((wire x.minefield_id ++ (wire x.minefield_sequence ++ (wire x.force_id ++ (wire x.number_of_perimeter_points ++ (wire x.minefield_type ++ (wire x.number_of_mine_types ++ (wire x.minefield_location ++ (wire x.minefield_orientation ++ (wire x.appearance ++ (wire x.protocol_mode ++ (wire x.perimeter_points ++ (wire x.mine_type)))))))))))).length : Int) = (x.fieldsLen : Nat) + ((0 : Int))
  simp only [List.length_append, MinefieldStatePdu.fieldsLen]
  have h_minefield_id := len_exact x.minefield_id
  have h_minefield_sequence := len_exact x.minefield_sequence
  have h_force_id := len_exact x.force_id
  have h_number_of_perimeter_points := len_exact x.number_of_perimeter_points
  have h_minefield_type := len_exact x.minefield_type
  have h_number_of_mine_types := len_exact x.number_of_mine_types
  have h_minefield_location := len_exact x.minefield_location
  have h_minefield_orientation := len_exact x.minefield_orientation
  have h_appearance := len_exact x.appearance
  have h_protocol_mode := len_exact x.protocol_mode
  have h_perimeter_points := len_exact x.perimeter_points
  have h_mine_type := len_exact x.mine_type
  omega
theorem MinefieldStatePdu.appends (x : MinefieldStatePdu) : Appends x.serializeBody :=
    Appends.seq (LawfulEnc.appends x.minefield_id) <|
    Appends.seq (LawfulEnc.appends x.minefield_sequence) <|
    Appends.seq (LawfulEnc.appends x.force_id) <|
    Appends.seq (LawfulEnc.appends x.number_of_perimeter_points) <|
    Appends.seq (LawfulEnc.appends x.minefield_type) <|
    Appends.seq (LawfulEnc.appends x.number_of_mine_types) <|
    Appends.seq (LawfulEnc.appends x.minefield_location) <|
    Appends.seq (LawfulEnc.appends x.minefield_orientation) <|
    Appends.seq (LawfulEnc.appends x.appearance) <|
    Appends.seq (LawfulEnc.appends x.protocol_mode) <|
    Appends.seq (LawfulEnc.appends x.perimeter_points) <|
    LawfulEnc.appends x.mine_type
theorem MinefieldStatePdu.ifOk (x : MinefieldStatePdu) : WritesIfOk x.serializeBody (wire (sent x)) :=
    (MinefieldStatePdu.writes x).ifOk
theorem MinefieldStatePdu.reads (x : MinefieldStatePdu) : Reads MinefieldStatePdu.deserializeBody (wire (kept x)) (kept x) :=
    Reads.bind (reads_exact x.minefield_id) <|
    Reads.bind (reads_exact x.minefield_sequence) <|
    Reads.bind (reads_exact x.force_id) <|
    Reads.bind (reads_exact x.number_of_perimeter_points) <|
    Reads.bind (reads_exact x.minefield_type) <|
    Reads.bind (reads_exact x.number_of_mine_types) <|
    Reads.bind (reads_exact x.minefield_location) <|
    Reads.bind (reads_exact x.minefield_orientation) <|
    Reads.bind (reads_exact x.appearance) <|
    Reads.bind (reads_exact x.protocol_mode) <|
    Reads.bind (Reads.ret _) <|
    Reads.last (Reads.ret _) (Reads.ret _)
theorem MinefieldStatePdu.fixed : Fixed MinefieldStatePdu.deserializeBody 60 := Fixed.congr (
    Fixed.bind (FixedDec.fixed) fun _ =>
    Fixed.bind (FixedDec.fixed) fun _ =>
    Fixed.bind (FixedDec.fixed) fun _ =>
    Fixed.bind (FixedDec.fixed) fun _ =>
    Fixed.bind (FixedDec.fixed) fun _ =>
    Fixed.bind (FixedDec.fixed) fun _ =>
    Fixed.bind (FixedDec.fixed) fun _ =>
    Fixed.bind (FixedDec.fixed) fun _ =>
    Fixed.bind (FixedDec.fixed) fun _ =>
    Fixed.bind (FixedDec.fixed) fun _ =>
    Fixed.bind (FixedDec.fixed) fun _ =>
    Fixed.bind (FixedDec.fixed) fun _ =>
    Fixed.ret _) rfl
theorem MinefieldStatePdu.loc : Local MinefieldStatePdu.deserializeBody :=
    Local.bind (LocalDec.loc) fun _ =>
    Local.bind (LocalDec.loc) fun _ =>
    Local.bind (LocalDec.loc) fun _ =>
    Local.bind (LocalDec.loc) fun _ =>
    Local.bind (LocalDec.loc) fun _ =>
    Local.bind (LocalDec.loc) fun _ =>
    Local.bind (LocalDec.loc) fun _ =>
    Local.bind (LocalDec.loc) fun _ =>
    Local.bind (LocalDec.loc) fun _ =>
    Local.bind (LocalDec.loc) fun _ =>
    Local.bind (LocalDec.loc) fun _ =>
    Local.bind (LocalDec.loc) fun _ =>
    Local.ret _
theorem MinefieldStatePdu.under : OnlyUnderflow MinefieldStatePdu.deserializeBody :=
    OnlyUnderflow.bind (UnderflowDec.under) fun _ =>
    OnlyUnderflow.bind (UnderflowDec.under) fun _ =>
    OnlyUnderflow.bind (UnderflowDec.under) fun _ =>
    OnlyUnderflow.bind (UnderflowDec.under) fun _ =>
    OnlyUnderflow.bind (UnderflowDec.under) fun _ =>
    OnlyUnderflow.bind (UnderflowDec.under) fun _ =>
    OnlyUnderflow.bind (UnderflowDec.under) fun _ =>
    OnlyUnderflow.bind (UnderflowDec.under) fun _ =>
    OnlyUnderflow.bind (UnderflowDec.under) fun _ =>
    OnlyUnderflow.bind (UnderflowDec.under) fun _ =>
    OnlyUnderflow.bind (UnderflowDec.under) fun _ =>
    OnlyUnderflow.bind (UnderflowDec.under) fun _ =>
    OnlyUnderflow.ret _
theorem MinefieldStatePdu.split (x : MinefieldStatePdu) : wire x = wire (kept x) ++ tail x := by
  show wire x.minefield_id ++ (wire x.minefield_sequence ++ (wire x.force_id ++ (wire x.number_of_perimeter_points ++ (wire x.minefield_type ++ (wire x.number_of_mine_types ++ (wire x.minefield_location ++ (wire x.minefield_orientation ++ (wire x.appearance ++ (wire x.protocol_mode ++ (wire x.perimeter_points ++ (wire x.mine_type)))))))))))
    = (wire x.minefield_id ++ (wire x.minefield_sequence ++ (wire x.force_id ++ (wire x.number_of_perimeter_points ++ (wire x.minefield_type ++ (wire x.number_of_mine_types ++ (wire x.minefield_location ++ (wire x.minefield_orientation ++ (wire x.appearance ++ (wire x.protocol_mode ++ ([] ++ ([]))))))))))))
      ++ (wire x.perimeter_points ++ (wire x.mine_type))
  simp only [List.append_assoc, List.append_nil, List.nil_append]

theorem MinefieldQueryPdu.writes (x : MinefieldQueryPdu) : Writes x.serializeBody (wire (sent x)) :=
    Writes.seq (writes_exact x.minefield_id) <|
    Writes.seq (writes_exact x.requesting_entity_id) <|
    Writes.seq (writes_exact x.request_id) <|
    Writes.seq (writes_exact x.number_of_perimeter_points) <|
    Writes.seq (writes_exact x.padding) <|
    Writes.seq (writes_exact x.number_of_sensor_types) <|
    Writes.seq (writes_exact x.data_filter) <|
    Writes.seq (writes_exact x.requested_mine_type) <|
    Writes.seq (writes_exact x.requested_perimeter_points) <|
    writes_exact x.sensor_types
theorem MinefieldQueryPdu.len (x : MinefieldQueryPdu) : ((wire (sent x)).length : Int) = (x.fieldsLen : Nat) + surplus x := by
  show ((wire x.minefield_id ++ (wire x.requesting_entity_id ++ (wire x.request_id ++ (wire x.number_of_perimeter_points ++ (wire x.padding ++ (wire x.number_of_sensor_types ++ (wire x.data_filter ++ (wire x.requested_mine_type ++ (wire x.requested_perimeter_points ++ (wire x.sensor_types)))))))))).length : Int) = (x.fieldsLen : Nat) + ((0 : Int))
  simp only [List.length_append, MinefieldQueryPdu.fieldsLen]
  have h_minefield_id := len_exact x.minefield_id
  have h_requesting_entity_id := len_exact x.requesting_entity_id
  have h_request_id := len_exact x.request_id
  have h_number_of_perimeter_points := len_exact x.number_of_perimeter_points
  have h_padding := len_exact x.padding
  have h_number_of_sensor_types := len_exact x.number_of_sensor_types
  have h_data_filter := len_exact x.data_filter
  have h_requested_mine_type := len_exact x.requested_mine_type
  have h_requested_perimeter_points := len_exact x.requested_perimeter_points
  have h_sensor_types := len_exact x.sensor_types
  omega
theorem MinefieldQueryPdu.appends (x : MinefieldQueryPdu) : Appends x.serializeBody :=
    Appends.seq (LawfulEnc.appends x.minefield_id) <|
    Appends.seq (LawfulEnc.appends x.requesting_entity_id) <|
    Appends.seq (LawfulEnc.appends x.request_id) <|
    Appends.seq (LawfulEnc.appends x.number_of_perimeter_points) <|
    Appends.seq (LawfulEnc.appends x.padding) <|
    Appends.seq (LawfulEnc.appends x.number_of_sensor_types) <|
    Appends.seq (LawfulEnc.appends x.data_filter) <|
    Appends.seq (LawfulEnc.appends x.requested_mine_type) <|
    Appends.seq (LawfulEnc.appends x.requested_perimeter_points) <|
    LawfulEnc.appends x.sensor_types
theorem MinefieldQueryPdu.ifOk (x : MinefieldQueryPdu) : WritesIfOk x.serializeBody (wire (sent x)) :=
    (MinefieldQueryPdu.writes x).ifOk
theorem MinefieldQueryPdu.reads (x : MinefieldQueryPdu) : Reads MinefieldQueryPdu.deserializeBody (wire (kept x)) (kept x) :=
    Reads.bind (reads_exact x.minefield_id) <|
    Reads.bind (reads_exact x.requesting_entity_id) <|
    Reads.bind (reads_exact x.request_id) <|
    Reads.bind (reads_exact x.number_of_perimeter_points) <|
    Reads.bind (reads_exact x.padding) <|
    Reads.bind (reads_exact x.number_of_sensor_types) <|
    Reads.bind (reads_exact x.data_filter) <|
    Reads.bind (reads_exact x.requested_mine_type) <|
    Reads.bind (Reads.ret _) <|
    Reads.last (Reads.ret _) (Reads.ret _)
theorem MinefieldQueryPdu.fixed : Fixed MinefieldQueryPdu.deserializeBody 28 := Fixed.congr (
    Fixed.bind (FixedDec.fixed) fun _ =>
    Fixed.bind (FixedDec.fixed) fun _ =>
    Fixed.bind (FixedDec.fixed) fun _ =>
    Fixed.bind (FixedDec.fixed) fun _ =>
    Fixed.bind (FixedDec.fixed) fun _ =>
    Fixed.bind (FixedDec.fixed) fun _ =>
    Fixed.bind (FixedDec.fixed) fun _ =>
    Fixed.bind (FixedDec.fixed) fun _ =>
    Fixed.bind (FixedDec.fixed) fun _ =>
    Fixed.bind (FixedDec.fixed) fun _ =>
    Fixed.ret _) rfl
theorem MinefieldQueryPdu.loc : Local MinefieldQueryPdu.deserializeBody :=
    Local.bind (LocalDec.loc) fun _ =>
    Local.bind (LocalDec.loc) fun _ =>
    Local.bind (LocalDec.loc) fun _ =>
    Local.bind (LocalDec.loc) fun _ =>
    Local.bind (LocalDec.loc) fun _ =>
    Local.bind (LocalDec.loc) fun _ =>
    Local.bind (LocalDec.loc) fun _ =>
    Local.bind (LocalDec.loc) fun _ =>
    Local.bind (LocalDec.loc) fun _ =>
    Local.bind (LocalDec.loc) fun _ =>
    Local.ret _
theorem MinefieldQueryPdu.under : OnlyUnderflow MinefieldQueryPdu.deserializeBody :=
    OnlyUnderflow.bind (UnderflowDec.under) fun _ =>
    OnlyUnderflow.bind (UnderflowDec.under) fun _ =>
    OnlyUnderflow.bind (UnderflowDec.under) fun _ =>
    OnlyUnderflow.bind (UnderflowDec.under) fun _ =>
    OnlyUnderflow.bind (UnderflowDec.under) fun _ =>
    OnlyUnderflow.bind (UnderflowDec.under) fun _ =>
    OnlyUnderflow.bind (UnderflowDec.under) fun _ =>
    OnlyUnderflow.bind (UnderflowDec.under) fun _ =>
    OnlyUnderflow.bind (UnderflowDec.under) fun _ =>
    OnlyUnderflow.bind (UnderflowDec.under) fun _ =>
    OnlyUnderflow.ret _
theorem MinefieldQueryPdu.split (x : MinefieldQueryPdu) : wire x = wire (kept x) ++ tail x := by
  show wire x.minefield_id ++ (wire x.requesting_entity_id ++ (wire x.request_id ++ (wire x.number_of_perimeter_points ++ (wire x.padding ++ (wire x.number_of_sensor_types ++ (wire x.data_filter ++ (wire x.requested_mine_type ++ (wire x.requested_perimeter_points ++ (wire x.sensor_types)))))))))
    = (wire x.minefield_id ++ (wire x.requesting_entity_id ++ (wire x.request_id ++ (wire x.number_of_perimeter_points ++ (wire x.padding ++ (wire x.number_of_sensor_types ++ (wire x.data_filter ++ (wire x.requested_mine_type ++ ([] ++ ([]))))))))))
      ++ (wire x.requested_perimeter_points ++ (wire x.sensor_types))
  simp only [List.append_assoc, List.append_nil, List.nil_append]

theorem MinefieldDataPdu.writes (x : MinefieldDataPdu) : Writes x.serializeBody (wire (sent x)) :=
    Writes.seq (writes_exact x.minefield_id) <|
    Writes.seq (writes_exact x.requesting_entity_id) <|
    Writes.seq (writes_exact x.minefield_sequence_number) <|
    Writes.seq (writes_exact x.request_id) <|
    Writes.seq (writes_exact x.pdu_sequence_number) <|
    Writes.seq (writes_exact x.number_of_pdus) <|
    Writes.seq (writes_exact x.number_of_mines_in_this_pdu) <|
    Writes.seq (writes_exact x.number_of_sensor_types) <|
    Writes.seq (writes_exact x.padding) <|
    Writes.seq (writes_exact x.data_filter) <|
    Writes.seq (writes_exact x.mine_type) <|
    Writes.seq (writes_exact x.sensor_types) <|
    Writes.seq (writes_exact x.mine_location) <|
    Writes.seq (writes_exact x.ground_burial_depth_offset) <|
    Writes.seq (writes_exact x.water_burial_depth_offset) <|
    Writes.seq (writes_exact x.snow_burial_depth_offset) <|
    Writes.seq (writes_exact x.mine_orientation) <|
    Writes.seq (writes_exact x.thermal_contrast) <|
    Writes.seq (writes_exact x.reflectance) <|
    Writes.seq (writes_exact x.mine_emplacement_time) <|
    Writes.seq (writes_exact x.mine_entity_id) <|
    Writes.seq (writes_exact x.fusing) <|
    Writes.seq (writes_exact x.scalar_detection_coefficient) <|
    Writes.seq (writes_exact x.paint_scheme) <|
    Writes.seq (writes_exact x.number_of_trip_wires) <|
    Writes.seq (writes_exact x.number_of_vertices) <|
    writes_exact x.vertices
theorem MinefieldDataPdu.len (x : MinefieldDataPdu) : ((wire (sent x)).length : Int) = (x.fieldsLen : Nat) + surplus x := by
  show ((wire x.minefield_id ++ (wire x.requesting_entity_id ++ (wire x.minefield_sequence_number ++ (wire x.request_id ++ (wire x.pdu_sequence_number ++ (wire x.number_of_pdus ++ (wire x.number_of_mines_in_this_pdu ++ (wire x.number_of_sensor_types ++ (wire x.padding ++ (wire x.data_filter ++ (wire x.mine_type ++ (wire x.sensor_types ++ (wire x.mine_location ++ (wire x.ground_burial_depth_offset ++ (wire x.water_burial_depth_offset ++ (wire x.snow_burial_depth_offset ++ (wire x.mine_orientation ++ (wire x.thermal_contrast ++ (wire x.reflectance ++ (wire x.mine_emplacement_time ++ (wire x.mine_entity_id ++ (wire x.fusing ++ (wire x.scalar_detection_coefficient ++ (wire x.paint_scheme ++ (wire x.number_of_trip_wires ++ (wire x.number_of_vertices ++ (wire x.vertices))))))))))))))))))))))))))).length : Int) = (x.fieldsLen : Nat) + ((0 : Int))
  simp only [List.length_append, MinefieldDataPdu.fieldsLen]
  have h_minefield_id := len_exact x.minefield_id
  have h_requesting_entity_id := len_exact x.requesting_entity_id
  have h_minefield_sequence_number := len_exact x.minefield_sequence_number
  have h_request_id := len_exact x.request_id
  have h_pdu_sequence_number := len_exact x.pdu_sequence_number
  have h_number_of_pdus := len_exact x.number_of_pdus
  have h_number_of_mines_in_this_pdu := len_exact x.number_of_mines_in_this_pdu
  have h_number_of_sensor_types := len_exact x.number_of_sensor_types
  have h_padding := len_exact x.padding
  have h_data_filter := len_exact x.data_filter
  have h_mine_type := len_exact x.mine_type
  have h_sensor_types := len_exact x.sensor_types
  have h_mine_location := len_exact x.mine_location
  have h_ground_burial_depth_offset := len_exact x.ground_burial_depth_offset
  have h_water_burial_depth_offset := len_exact x.water_burial_depth_offset
  have h_snow_burial_depth_offset := len_exact x.snow_burial_depth_offset
  have h_mine_orientation := len_exact x.mine_orientation
  have h_thermal_contrast := len_exact x.thermal_contrast
  have h_reflectance := len_exact x.reflectance
  have h_mine_emplacement_time := len_exact x.mine_emplacement_time
  have h_mine_entity_id := len_exact x.mine_entity_id
  have h_fusing := len_exact x.fusing
  have h_scalar_detection_coefficient := len_exact x.scalar_detection_coefficient
  have h_paint_scheme := len_exact x.paint_scheme
  have h_number_of_trip_wires := len_exact x.number_of_trip_wires
  have h_number_of_vertices := len_exact x.number_of_vertices
  have h_vertices := len_exact x.vertices
  omega
theorem MinefieldDataPdu.appends (x : MinefieldDataPdu) : Appends x.serializeBody :=
    Appends.seq (LawfulEnc.appends x.minefield_id) <|
    Appends.seq (LawfulEnc.appends x.requesting_entity_id) <|
    Appends.seq (LawfulEnc.appends x.minefield_sequence_number) <|
    Appends.seq (LawfulEnc.appends x.request_id) <|
    Appends.seq (LawfulEnc.appends x.pdu_sequence_number) <|
    Appends.seq (LawfulEnc.appends x.number_of_pdus) <|
    Appends.seq (LawfulEnc.appends x.number_of_mines_in_this_pdu) <|
    Appends.seq (LawfulEnc.appends x.number_of_sensor_types) <|
    Appends.seq (LawfulEnc.appends x.padding) <|
    Appends.seq (LawfulEnc.appends x.data_filter) <|
    Appends.seq (LawfulEnc.appends x.mine_type) <|
    Appends.seq (LawfulEnc.appends x.sensor_types) <|
    Appends.seq (LawfulEnc.appends x.mine_location) <|
    Appends.seq (LawfulEnc.appends x.ground_burial_depth_offset) <|
    Appends.seq (LawfulEnc.appends x.water_burial_depth_offset) <|
    Appends.seq (LawfulEnc.appends x.snow_burial_depth_offset) <|
    Appends.seq (LawfulEnc.appends x.mine_orientation) <|
    Appends.seq (LawfulEnc.appends x.thermal_contrast) <|
    Appends.seq (LawfulEnc.appends x.reflectance) <|
    Appends.seq (LawfulEnc.appends x.mine_emplacement_time) <|
    Appends.seq (LawfulEnc.appends x.mine_entity_id) <|
    Appends.seq (LawfulEnc.appends x.fusing) <|
    Appends.seq (LawfulEnc.appends x.scalar_detection_coefficient) <|
    Appends.seq (LawfulEnc.appends x.paint_scheme) <|
    Appends.seq (LawfulEnc.appends x.number_of_trip_wires) <|
    Appends.seq (LawfulEnc.appends x.number_of_vertices) <|
    LawfulEnc.appends x.vertices
theorem MinefieldDataPdu.ifOk (x : MinefieldDataPdu) : WritesIfOk x.serializeBody (wire (sent x)) :=
    (MinefieldDataPdu.writes x).ifOk
theorem MinefieldDataPdu.reads (x : MinefieldDataPdu) : Reads MinefieldDataPdu.deserializeBody (wire (kept x)) (kept x) :=
    Reads.bind (reads_exact x.minefield_id) <|
    Reads.bind (reads_exact x.requesting_entity_id) <|
    Reads.bind (reads_exact x.minefield_sequence_number) <|
    Reads.bind (reads_exact x.request_id) <|
    Reads.bind (reads_exact x.pdu_sequence_number) <|
    Reads.bind (reads_exact x.number_of_pdus) <|
    Reads.bind (reads_exact x.number_of_mines_in_this_pdu) <|
    Reads.bind (reads_exact x.number_of_sensor_types) <|
    Reads.bind (reads_exact x.padding) <|
    Reads.bind (reads_exact x.data_filter) <|
    Reads.bind (reads_exact x.mine_type) <|
    Reads.bind (Reads.ret _) <|
    Reads.bind (Reads.ret _) <|
    Reads.bind (Reads.ret _) <|
    Reads.bind (Reads.ret _) <|
    Reads.bind (Reads.ret _) <|
    Reads.bind (Reads.ret _) <|
    Reads.bind (Reads.ret _) <|
    Reads.bind (Reads.ret _) <|
    Reads.bind (Reads.ret _) <|
    Reads.bind (Reads.ret _) <|
    Reads.bind (Reads.ret _) <|
    Reads.bind (Reads.ret _) <|
    Reads.bind (Reads.ret _) <|
    Reads.bind (Reads.ret _) <|
    Reads.bind (Reads.ret _) <|
    Reads.last (Reads.ret _) (Reads.ret _)
theorem MinefieldDataPdu.fixed : Fixed MinefieldDataPdu.deserializeBody 32 := Fixed.congr (
    Fixed.bind (FixedDec.fixed) fun _ =>
    Fixed.bind (FixedDec.fixed) fun _ =>
    Fixed.bind (FixedDec.fixed) fun _ =>
    Fixed.bind (FixedDec.fixed) fun _ =>
    Fixed.bind (FixedDec.fixed) fun _ =>
    Fixed.bind (FixedDec.fixed) fun _ =>
    Fixed.bind (FixedDec.fixed) fun _ =>
    Fixed.bind (FixedDec.fixed) fun _ =>
    Fixed.bind (FixedDec.fixed) fun _ =>
    Fixed.bind (FixedDec.fixed) fun _ =>
    Fixed.bind (FixedDec.fixed) fun _ =>
    Fixed.bind (FixedDec.fixed) fun _ =>
    Fixed.bind (FixedDec.fixed) fun _ =>
    Fixed.bind (FixedDec.fixed) fun _ =>
    Fixed.bind (FixedDec.fixed) fun _ =>
    Fixed.bind (FixedDec.fixed) fun _ =>
    Fixed.bind (FixedDec.fixed) fun _ =>
    Fixed.bind (FixedDec.fixed) fun _ =>
    Fixed.bind (FixedDec.fixed) fun _ =>
    Fixed.bind (FixedDec.fixed) fun _ =>
    Fixed.bind (FixedDec.fixed) fun _ =>
    Fixed.bind (FixedDec.fixed) fun _ =>
    Fixed.bind (FixedDec.fixed) fun _ =>
    Fixed.bind (FixedDec.fixed) fun _ =>
    Fixed.bind (FixedDec.fixed) fun _ =>
    Fixed.bind (FixedDec.fixed) fun _ =>
    Fixed.bind (FixedDec.fixed) fun _ =>
    Fixed.ret _) rfl
theorem MinefieldDataPdu.loc : Local MinefieldDataPdu.deserializeBody :=
    Local.bind (LocalDec.loc) fun _ =>
    Local.bind (LocalDec.loc) fun _ =>
    Local.bind (LocalDec.loc) fun _ =>
    Local.bind (LocalDec.loc) fun _ =>
    Local.bind (LocalDec.loc) fun _ =>
    Local.bind (LocalDec.loc) fun _ =>
    Local.bind (LocalDec.loc) fun _ =>
    Local.bind (LocalDec.loc) fun _ =>
    Local.bind (LocalDec.loc) fun _ =>
    Local.bind (LocalDec.loc) fun _ =>
    Local.bind (LocalDec.loc) fun _ =>
    Local.bind (LocalDec.loc) fun _ =>
    Local.bind (LocalDec.loc) fun _ =>
    Local.bind (LocalDec.loc) fun _ =>
    Local.bind (LocalDec.loc) fun _ =>
    Local.bind (LocalDec.loc) fun _ =>
    Local.bind (LocalDec.loc) fun _ =>
    Local.bind (LocalDec.loc) fun _ =>
    Local.bind (LocalDec.loc) fun _ =>
    Local.bind (LocalDec.loc) fun _ =>
    Local.bind (LocalDec.loc) fun _ =>
    Local.bind (LocalDec.loc) fun _ =>
    Local.bind (LocalDec.loc) fun _ =>
    Local.bind (LocalDec.loc) fun _ =>
    Local.bind (LocalDec.loc) fun _ =>
    Local.bind (LocalDec.loc) fun _ =>
    Local.bind (LocalDec.loc) fun _ =>
    Local.ret _
theorem MinefieldDataPdu.under : OnlyUnderflow MinefieldDataPdu.deserializeBody :=
    OnlyUnderflow.bind (UnderflowDec.under) fun _ =>
    OnlyUnderflow.bind (UnderflowDec.under) fun _ =>
    OnlyUnderflow.bind (UnderflowDec.under) fun _ =>
    OnlyUnderflow.bind (UnderflowDec.under) fun _ =>
    OnlyUnderflow.bind (UnderflowDec.under) fun _ =>
    OnlyUnderflow.bind (UnderflowDec.under) fun _ =>
    OnlyUnderflow.bind (UnderflowDec.under) fun _ =>
    OnlyUnderflow.bind (UnderflowDec.under) fun _ =>
    OnlyUnderflow.bind (UnderflowDec.under) fun _ =>
    OnlyUnderflow.bind (UnderflowDec.under) fun _ =>
    OnlyUnderflow.bind (UnderflowDec.under) fun _ =>
    OnlyUnderflow.bind (UnderflowDec.under) fun _ =>
    OnlyUnderflow.bind (UnderflowDec.under) fun _ =>
    OnlyUnderflow.bind (UnderflowDec.under) fun _ =>
    OnlyUnderflow.bind (UnderflowDec.under) fun _ =>
    OnlyUnderflow.bind (UnderflowDec.under) fun _ =>
    OnlyUnderflow.bind (UnderflowDec.under) fun _ =>
    OnlyUnderflow.bind (UnderflowDec.under) fun _ =>
    OnlyUnderflow.bind (UnderflowDec.under) fun _ =>
    OnlyUnderflow.bind (UnderflowDec.under) fun _ =>
    OnlyUnderflow.bind (UnderflowDec.under) fun _ =>
    OnlyUnderflow.bind (UnderflowDec.under) fun _ =>
    OnlyUnderflow.bind (UnderflowDec.under) fun _ =>
    OnlyUnderflow.bind (UnderflowDec.under) fun _ =>
    OnlyUnderflow.bind (UnderflowDec.under) fun _ =>
    OnlyUnderflow.bind (UnderflowDec.under) fun _ =>
    OnlyUnderflow.bind (UnderflowDec.under) fun _ =>
    OnlyUnderflow.ret _
theorem MinefieldDataPdu.split (x : MinefieldDataPdu) : wire x = wire (kept x) ++ tail x := by
  show wire x.minefield_id ++ (wire x.requesting_entity_id ++ (wire x.minefield_sequence_number ++ (wire x.request_id ++ (wire x.pdu_sequence_number ++ (wire x.number_of_pdus ++ (wire x.number_of_mines_in_this_pdu ++ (wire x.number_of_sensor_types ++ (wire x.padding ++ (wire x.data_filter ++ (wire x.mine_type ++ (wire x.sensor_types ++ (wire x.mine_location ++ (wire x.ground_burial_depth_offset ++ (wire x.water_burial_depth_offset ++ (wire x.snow_burial_depth_offset ++ (wire x.mine_orientation ++ (wire x.thermal_contrast ++ (wire x.reflectance ++ (wire x.mine_emplacement_time ++ (wire x.mine_entity_id ++ (wire x.fusing ++ (wire x.scalar_detection_coefficient ++ (wire x.paint_scheme ++ (wire x.number_of_trip_wires ++ (wire x.number_of_vertices ++ (wire x.vertices))))))))))))))))))))))))))
    = (wire x.minefield_id ++ (wire x.requesting_entity_id ++ (wire x.minefield_sequence_number ++ (wire x.request_id ++ (wire x.pdu_sequence_number ++ (wire x.number_of_pdus ++ (wire x.number_of_mines_in_this_pdu ++ (wire x.number_of_sensor_types ++ (wire x.padding ++ (wire x.data_filter ++ (wire x.mine_type ++ ([] ++ ([] ++ ([] ++ ([] ++ ([] ++ ([] ++ ([] ++ ([] ++ ([] ++ ([] ++ ([] ++ ([] ++ ([] ++ ([] ++ ([] ++ ([])))))))))))))))))))))))))))
      ++ (wire x.sensor_types ++ (wire x.mine_location ++ (wire x.ground_burial_depth_offset ++ (wire x.water_burial_depth_offset ++ (wire x.snow_burial_depth_offset ++ (wire x.mine_orientation ++ (wire x.thermal_contrast ++ (wire x.reflectance ++ (wire x.mine_emplacement_time ++ (wire x.mine_entity_id ++ (wire x.fusing ++ (wire x.scalar_detection_coefficient ++ (wire x.paint_scheme ++ (wire x.number_of_trip_wires ++ (wire x.number_of_vertices ++ (wire x.vertices))))))))))))))))
  simp only [List.append_assoc, List.append_nil, List.nil_append]

theorem MinefieldResponseNackPdu.writes (x : MinefieldResponseNackPdu) : Writes x.serializeBody (wire (sent x)) :=
    Writes.seq (writes_exact x.minefield_id) <|
    Writes.seq (writes_exact x.requesting_entity_id) <|
    Writes.seq (writes_exact x.request_id) <|
    Writes.seq (writes_exact x.number_of_missing_pdus) <|
    writes_exact x.missing_pdu_sequence_numbers
theorem MinefieldResponseNackPdu.len (x : MinefieldResponseNackPdu) : ((wire (sent x)).length : Int) = (x.fieldsLen : Nat) + surplus x := by
  show ((wire x.minefield_id ++ (wire x.requesting_entity_id ++ (wire x.request_id ++ (wire x.number_of_missing_pdus ++ (wire x.missing_pdu_sequence_numbers))))).length : Int) = (x.fieldsLen : Nat) + ((0 : Int))
  simp only [List.length_append, MinefieldResponseNackPdu.fieldsLen]
  have h_minefield_id := len_exact x.minefield_id
  have h_requesting_entity_id := len_exact x.requesting_entity_id
  have h_request_id := len_exact x.request_id
  have h_number_of_missing_pdus := len_exact x.number_of_missing_pdus
  have h_missing_pdu_sequence_numbers := len_exact x.missing_pdu_sequence_numbers
  omega
theorem MinefieldResponseNackPdu.appends (x : MinefieldResponseNackPdu) : Appends x.serializeBody :=
    Appends.seq (LawfulEnc.appends x.minefield_id) <|
    Appends.seq (LawfulEnc.appends x.requesting_entity_id) <|
    Appends.seq (LawfulEnc.appends x.request_id) <|
    Appends.seq (LawfulEnc.appends x.number_of_missing_pdus) <|
    LawfulEnc.appends x.missing_pdu_sequence_numbers
theorem MinefieldResponseNackPdu.ifOk (x : MinefieldResponseNackPdu) : WritesIfOk x.serializeBody (wire (sent x)) :=
    (MinefieldResponseNackPdu.writes x).ifOk
theorem MinefieldResponseNackPdu.reads (x : MinefieldResponseNackPdu) : Reads MinefieldResponseNackPdu.deserializeBody (wire (kept x)) (kept x) :=
    Reads.bind (reads_exact x.minefield_id) <|
    Reads.bind (reads_exact x.requesting_entity_id) <|
    Reads.bind (reads_exact x.request_id) <|
    Reads.bind (reads_exact x.number_of_missing_pdus) <|
    Reads.last (Reads.ret _) (Reads.ret _)
theorem MinefieldResponseNackPdu.fixed : Fixed MinefieldResponseNackPdu.deserializeBody 14 := Fixed.congr (
    Fixed.bind (FixedDec.fixed) fun _ =>
    Fixed.bind (FixedDec.fixed) fun _ =>
    Fixed.bind (FixedDec.fixed) fun _ =>
    Fixed.bind (FixedDec.fixed) fun _ =>
    Fixed.bind (FixedDec.fixed) fun _ =>
    Fixed.ret _) rfl
theorem MinefieldResponseNackPdu.loc : Local MinefieldResponseNackPdu.deserializeBody :=
    Local.bind (LocalDec.loc) fun _ =>
    Local.bind (LocalDec.loc) fun _ =>
    Local.bind (LocalDec.loc) fun _ =>
    Local.bind (LocalDec.loc) fun _ =>
    Local.bind (LocalDec.loc) fun _ =>
    Local.ret _
theorem MinefieldResponseNackPdu.under : OnlyUnderflow MinefieldResponseNackPdu.deserializeBody :=
    OnlyUnderflow.bind (UnderflowDec.under) fun _ =>
    OnlyUnderflow.bind (UnderflowDec.under) fun _ =>
    OnlyUnderflow.bind (UnderflowDec.under) fun _ =>
    OnlyUnderflow.bind (UnderflowDec.under) fun _ =>
    OnlyUnderflow.bind (UnderflowDec.under) fun _ =>
    OnlyUnderflow.ret _
theorem MinefieldResponseNackPdu.split (x : MinefieldResponseNackPdu) : wire x = wire (kept x) ++ tail x := by
  show wire x.minefield_id ++ (wire x.requesting_entity_id ++ (wire x.request_id ++ (wire x.number_of_missing_pdus ++ (wire x.missing_pdu_sequence_numbers))))
    = (wire x.minefield_id ++ (wire x.requesting_entity_id ++ (wire x.request_id ++ (wire x.number_of_missing_pdus ++ ([])))))
      ++ (wire x.missing_pdu_sequence_numbers)
  simp only [List.append_assoc, List.append_nil, List.nil_append]

theorem TransmitterPdu.writes (x : TransmitterPdu) : Writes x.serializeBody (wire (sent x)) :=
    Writes.seq (writes_exact x.entity_id) <|
    Writes.seq (writes_exact x.radio_id) <|
    Writes.seq (writes_exact x.radio_entity_type) <|
    Writes.seq (writes_exact x.transmit_state) <|
    Writes.seq (writes_exact x.input_source) <|
    Writes.seq (writes_exact x.number_of_variable_transmitter_parameters_records) <|
    Writes.seq (writes_exact x.antenna_location) <|
    Writes.seq (writes_exact x.relative_antenna_location) <|
    Writes.seq (writes_exact x.antenna_pattern_type) <|
    Writes.seq (writes_exact x.antenna_pattern_length) <|
    Writes.seq (writes_exact x.frequency) <|
    Writes.seq (writes_exact x.transmit_frequency_bandwidth) <|
    Writes.seq (writes_exact x.power) <|
    Writes.seq (writes_exact x.modulation_type) <|
    Writes.seq (writes_exact x.crypto_system) <|
    Writes.seq (writes_exact x.crypto_key_id) <|
    Writes.seq (writes_exact x.modulation_parameter_length) <|
    Writes.seq (writes_exact x.padding) <|
    Writes.seq (writes_exact x.padding2) <|
    Writes.seq (writes_exact x.modulation_parameters) <|
    Writes.seq (writes_exact x.antenna_pattern) <|
    writes_exact x.variable_transmitter_parameters
theorem TransmitterPdu.len (x : TransmitterPdu) : ((wire (sent x)).length : Int) = (x.fieldsLen : Nat) + surplus x := by
  show ((wire x.entity_id ++ (wire x.radio_id ++ (wire x.radio_entity_type ++ (wire x.transmit_state ++ (wire x.input_source ++ (wire x.number_of_variable_transmitter_parameters_records ++ (wire x.antenna_location ++ (wire x.relative_antenna_location ++ (wire x.antenna_pattern_type ++ (wire x.antenna_pattern_length ++ (wire x.frequency ++ (wire x.transmit_frequency_bandwidth ++ (wire x.power ++ (wire x.modulation_type ++ (wire x.crypto_system ++ (wire x.crypto_key_id ++ (wire x.modulation_parameter_length ++ (wire x.padding ++ (wire x.padding2 ++ (wire x.modulation_parameters ++ (wire x.antenna_pattern ++ (wire x.variable_transmitter_parameters)))))))))))))))))))))).length : Int) = (x.fieldsLen : Nat) + ((0 : Int))
  simp only [List.length_append, TransmitterPdu.fieldsLen]
  have h_entity_id := len_exact x.entity_id
  have h_radio_id := len_exact x.radio_id
  have h_radio_entity_type := len_exact x.radio_entity_type
  have h_transmit_state := len_exact x.transmit_state
  have h_input_source := len_exact x.input_source
  have h_number_of_variable_transmitter_parameters_records := len_exact x.number_of_variable_transmitter_parameters_records
  have h_antenna_location := len_exact x.antenna_location
  have h_relative_antenna_location := len_exact x.relative_antenna_location
  have h_antenna_pattern_type := len_exact x.antenna_pattern_type
  have h_antenna_pattern_length := len_exact x.antenna_pattern_length
  have h_frequency := len_exact x.frequency
  have h_transmit_frequency_bandwidth := len_exact x.transmit_frequency_bandwidth
  have h_power := len_exact x.power
  have h_modulation_type := len_exact x.modulation_type
  have h_crypto_system := len_exact x.crypto_system
  have h_crypto_key_id := len_exact x.crypto_key_id
  have h_modulation_parameter_length := len_exact x.modulation_parameter_length
  have h_padding := len_exact x.padding
  have h_padding2 := len_exact x.padding2
  have h_modulation_parameters := len_exact x.modulation_parameters
  have h_antenna_pattern := len_exact x.antenna_pattern
  have h_variable_transmitter_parameters := len_exact x.variable_transmitter_parameters
  omega
theorem TransmitterPdu.appends (x : TransmitterPdu) : Appends x.serializeBody :=
    Appends.seq (LawfulEnc.appends x.entity_id) <|
    Appends.seq (LawfulEnc.appends x.radio_id) <|
    Appends.seq (LawfulEnc.appends x.radio_entity_type) <|
    Appends.seq (LawfulEnc.appends x.transmit_state) <|
    Appends.seq (LawfulEnc.appends x.input_source) <|
    Appends.seq (LawfulEnc.appends x.number_of_variable_transmitter_parameters_records) <|
    Appends.seq (LawfulEnc.appends x.antenna_location) <|
    Appends.seq (LawfulEnc.appends x.relative_antenna_location) <|
    Appends.seq (LawfulEnc.appends x.antenna_pattern_type) <|
    Appends.seq (LawfulEnc.appends x.antenna_pattern_length) <|
    Appends.seq (LawfulEnc.appends x.frequency) <|
    Appends.seq (LawfulEnc.appends x.transmit_frequency_bandwidth) <|
    Appends.seq (LawfulEnc.appends x.power) <|
    Appends.seq (LawfulEnc.appends x.modulation_type) <|
    Appends.seq (LawfulEnc.appends x.crypto_system) <|
    Appends.seq (LawfulEnc.appends x.crypto_key_id) <|
    Appends.seq (LawfulEnc.appends x.modulation_parameter_length) <|
    Appends.seq (LawfulEnc.appends x.padding) <|
    Appends.seq (LawfulEnc.appends x.padding2) <|
    Appends.seq (LawfulEnc.appends x.modulation_parameters) <|
    Appends.seq (LawfulEnc.appends x.antenna_pattern) <|
    LawfulEnc.appends x.variable_transmitter_parameters
theorem TransmitterPdu.ifOk (x : TransmitterPdu) : WritesIfOk x.serializeBody (wire (sent x)) :=
    (TransmitterPdu.writes x).ifOk
theorem TransmitterPdu.reads (x : TransmitterPdu) (h : decodable x) : Reads TransmitterPdu.deserializeBody (wire (kept x)) (kept x) :=
    Reads.bind (reads_exact x.entity_id) <|
    Reads.bind (reads_exact x.radio_id) <|
    Reads.bind (reads_exact x.radio_entity_type) <|
    Reads.bind (reads_exact x.transmit_state) <|
    Reads.bind (reads_exact x.input_source) <|
    Reads.bind (reads_exact x.number_of_variable_transmitter_parameters_records) <|
    Reads.bind (reads_exact x.antenna_location) <|
    Reads.bind (reads_exact x.relative_antenna_location) <|
    Reads.bind (reads_exact x.antenna_pattern_type) <|
    Reads.bind (reads_exact x.antenna_pattern_length) <|
    Reads.bind (reads_exact x.frequency) <|
    Reads.bind (reads_exact x.transmit_frequency_bandwidth) <|
    Reads.bind (reads_exact x.power) <|
    Reads.bind (reads_exact x.modulation_type) <|
    Reads.bind (reads_exact x.crypto_system) <|
    Reads.bind (reads_exact x.crypto_key_id) <|
    Reads.bind (reads_exact x.modulation_parameter_length) <|
    Reads.bind (reads_exact x.padding) <|
    Reads.bind (reads_exact x.padding2) <|
    Reads.bind (ModulationParameters.reads_with_len x.modulation_parameters h.1 h.2) <|
    Reads.bind (Reads.ret _) <|
    Reads.last (Reads.ret _) (Reads.ret _)
theorem TransmitterPdu.loc : Local TransmitterPdu.deserializeBody :=
    Local.bind (LocalDec.loc) fun _ =>
    Local.bind (LocalDec.loc) fun _ =>
    Local.bind (LocalDec.loc) fun _ =>
    Local.bind (LocalDec.loc) fun _ =>
    Local.bind (LocalDec.loc) fun _ =>
    Local.bind (LocalDec.loc) fun _ =>
    Local.bind (LocalDec.loc) fun _ =>
    Local.bind (LocalDec.loc) fun _ =>
    Local.bind (LocalDec.loc) fun _ =>
    Local.bind (LocalDec.loc) fun _ =>
    Local.bind (LocalDec.loc) fun _ =>
    Local.bind (LocalDec.loc) fun _ =>
    Local.bind (LocalDec.loc) fun _ =>
    Local.bind (LocalDec.loc) fun _ =>
    Local.bind (LocalDec.loc) fun _ =>
    Local.bind (LocalDec.loc) fun _ =>
    Local.bind (LocalDec.loc) fun _ =>
    Local.bind (LocalDec.loc) fun _ =>
    Local.bind (LocalDec.loc) fun _ =>
    Local.bind (ModulationParameters.with_len_local _) fun _ =>
    Local.bind (LocalDec.loc) fun _ =>
    Local.bind (LocalDec.loc) fun _ =>
    Local.ret _
theorem TransmitterPdu.under : OnlyUnderflow TransmitterPdu.deserializeBody :=
    OnlyUnderflow.bind (UnderflowDec.under) fun _ =>
    OnlyUnderflow.bind (UnderflowDec.under) fun _ =>
    OnlyUnderflow.bind (UnderflowDec.under) fun _ =>
    OnlyUnderflow.bind (UnderflowDec.under) fun _ =>
    OnlyUnderflow.bind (UnderflowDec.under) fun _ =>
    OnlyUnderflow.bind (UnderflowDec.under) fun _ =>
    OnlyUnderflow.bind (UnderflowDec.under) fun _ =>
    OnlyUnderflow.bind (UnderflowDec.under) fun _ =>
    OnlyUnderflow.bind (UnderflowDec.under) fun _ =>
    OnlyUnderflow.bind (UnderflowDec.under) fun _ =>
    OnlyUnderflow.bind (UnderflowDec.under) fun _ =>
    OnlyUnderflow.bind (UnderflowDec.under) fun _ =>
    OnlyUnderflow.bind (UnderflowDec.under) fun _ =>
    OnlyUnderflow.bind (UnderflowDec.under) fun _ =>
    OnlyUnderflow.bind (UnderflowDec.under) fun _ =>
    OnlyUnderflow.bind (UnderflowDec.under) fun _ =>
    OnlyUnderflow.bind (UnderflowDec.under) fun _ =>
    OnlyUnderflow.bind (UnderflowDec.under) fun _ =>
    OnlyUnderflow.bind (UnderflowDec.under) fun _ =>
    OnlyUnderflow.bind (ModulationParameters.with_len_under _ (UInt8.toNat_lt _)) fun _ =>
    OnlyUnderflow.bind (UnderflowDec.under) fun _ =>
    OnlyUnderflow.bind (UnderflowDec.under) fun _ =>
    OnlyUnderflow.ret _
theorem TransmitterPdu.split (x : TransmitterPdu) : wire x = wire (kept x) ++ tail x := by
  show wire x.entity_id ++ (wire x.radio_id ++ (wire x.radio_entity_type ++ (wire x.transmit_state ++ (wire x.input_source ++ (wire x.number_of_variable_transmitter_parameters_records ++ (wire x.antenna_location ++ (wire x.relative_antenna_location ++ (wire x.antenna_pattern_type ++ (wire x.antenna_pattern_length ++ (wire x.frequency ++ (wire x.transmit_frequency_bandwidth ++ (wire x.power ++ (wire x.modulation_type ++ (wire x.crypto_system ++ (wire x.crypto_key_id ++ (wire x.modulation_parameter_length ++ (wire x.padding ++ (wire x.padding2 ++ (wire x.modulation_parameters ++ (wire x.antenna_pattern ++ (wire x.variable_transmitter_parameters)))))))))))))))))))))
    = (wire x.entity_id ++ (wire x.radio_id ++ (wire x.radio_entity_type ++ (wire x.transmit_state ++ (wire x.input_source ++ (wire x.number_of_variable_transmitter_parameters_records ++ (wire x.antenna_location ++ (wire x.relative_antenna_location ++ (wire x.antenna_pattern_type ++ (wire x.antenna_pattern_length ++ (wire x.frequency ++ (wire x.transmit_frequency_bandwidth ++ (wire x.power ++ (wire x.modulation_type ++ (wire x.crypto_system ++ (wire x.crypto_key_id ++ (wire x.modulation_parameter_length ++ (wire x.padding ++ (wire x.padding2 ++ (wire x.modulation_parameters ++ ([] ++ ([]))))))))))))))))))))))
      ++ (wire x.antenna_pattern ++ (wire x.variable_transmitter_parameters))
  simp only [List.append_assoc, List.append_nil, List.nil_append]

theorem SignalPdu.writes (x : SignalPdu) : Writes x.serializeBody (wire (sent x)) :=
    Writes.seq (writes_exact x.entity_id) <|
    Writes.seq (writes_exact x.radio_id) <|
    Writes.seq (writes_exact x.encoding_scheme) <|
    Writes.seq (writes_exact x.tdl_type) <|
    Writes.seq (writes_exact x.sample_rate) <|
    Writes.seq (writes_exact x.data_length) <|
    Writes.seq (writes_exact x.samples) <|
    writes_exact x.data
theorem SignalPdu.len (x : SignalPdu) : ((wire (sent x)).length : Int) = (x.fieldsLen : Nat) + surplus x := by
  show ((wire x.entity_id ++ (wire x.radio_id ++ (wire x.encoding_scheme ++ (wire x.tdl_type ++ (wire x.sample_rate ++ (wire x.data_length ++ (wire x.samples ++ (wire x.data)))))))).length : Int) = (x.fieldsLen : Nat) + ((0 : Int))
  simp only [List.length_append, SignalPdu.fieldsLen]
  have h_entity_id := len_exact x.entity_id
  have h_radio_id := len_exact x.radio_id
  have h_encoding_scheme := len_exact x.encoding_scheme
  have h_tdl_type := len_exact x.tdl_type
  have h_sample_rate := len_exact x.sample_rate
  have h_data_length := len_exact x.data_length
  have h_samples := len_exact x.samples
  have h_data := len_exact x.data
  omega
theorem SignalPdu.appends (x : SignalPdu) : Appends x.serializeBody :=
    Appends.seq (LawfulEnc.appends x.entity_id) <|
    Appends.seq (LawfulEnc.appends x.radio_id) <|
    Appends.seq (LawfulEnc.appends x.encoding_scheme) <|
    Appends.seq (LawfulEnc.appends x.tdl_type) <|
    Appends.seq (LawfulEnc.appends x.sample_rate) <|
    Appends.seq (LawfulEnc.appends x.data_length) <|
    Appends.seq (LawfulEnc.appends x.samples) <|
    LawfulEnc.appends x.data
theorem SignalPdu.ifOk (x : SignalPdu) : WritesIfOk x.serializeBody (wire (sent x)) :=
    (SignalPdu.writes x).ifOk
theorem SignalPdu.reads (x : SignalPdu) : Reads SignalPdu.deserializeBody (wire (kept x)) (kept x) :=
    Reads.bind (reads_exact x.entity_id) <|
    Reads.bind (reads_exact x.radio_id) <|
    Reads.bind (reads_exact x.encoding_scheme) <|
    Reads.bind (reads_exact x.tdl_type) <|
    Reads.bind (reads_exact x.sample_rate) <|
    Reads.bind (reads_exact x.data_length) <|
    Reads.bind (reads_exact x.samples) <|
    Reads.last (Reads.ret _) (Reads.ret _)
theorem SignalPdu.fixed : Fixed SignalPdu.deserializeBody 20 := Fixed.congr (
    Fixed.bind (FixedDec.fixed) fun _ =>
    Fixed.bind (FixedDec.fixed) fun _ =>
    Fixed.bind (FixedDec.fixed) fun _ =>
    Fixed.bind (FixedDec.fixed) fun _ =>
    Fixed.bind (FixedDec.fixed) fun _ =>
    Fixed.bind (FixedDec.fixed) fun _ =>
    Fixed.bind (FixedDec.fixed) fun _ =>
    Fixed.bind (FixedDec.fixed) fun _ =>
    Fixed.ret _) rfl
theorem SignalPdu.loc : Local SignalPdu.deserializeBody :=
    Local.bind (LocalDec.loc) fun _ =>
    Local.bind (LocalDec.loc) fun _ =>
    Local.bind (LocalDec.loc) fun _ =>
    Local.bind (LocalDec.loc) fun _ =>
    Local.bind (LocalDec.loc) fun _ =>
    Local.bind (LocalDec.loc) fun _ =>
    Local.bind (LocalDec.loc) fun _ =>
    Local.bind (LocalDec.loc) fun _ =>
    Local.ret _
theorem SignalPdu.under : OnlyUnderflow SignalPdu.deserializeBody :=
    OnlyUnderflow.bind (UnderflowDec.under) fun _ =>
    OnlyUnderflow.bind (UnderflowDec.under) fun _ =>
    OnlyUnderflow.bind (UnderflowDec.under) fun _ =>
    OnlyUnderflow.bind (UnderflowDec.under) fun _ =>
    OnlyUnderflow.bind (UnderflowDec.under) fun _ =>
    OnlyUnderflow.bind (UnderflowDec.under) fun _ =>
    OnlyUnderflow.bind (UnderflowDec.under) fun _ =>
    OnlyUnderflow.bind (UnderflowDec.under) fun _ =>
    OnlyUnderflow.ret _
theorem SignalPdu.split (x : SignalPdu) : wire x = wire (kept x) ++ tail x := by
  show wire x.entity_id ++ (wire x.radio_id ++ (wire x.encoding_scheme ++ (wire x.tdl_type ++ (wire x.sample_rate ++ (wire x.data_length ++ (wire x.samples ++ (wire x.data)))))))
    = (wire x.entity_id ++ (wire x.radio_id ++ (wire x.encoding_scheme ++ (wire x.tdl_type ++ (wire x.sample_rate ++ (wire x.data_length ++ (wire x.samples ++ ([]))))))))
      ++ (wire x.data)
  simp only [List.append_assoc, List.append_nil, List.nil_append]

theorem ReceiverPdu.writes (x : ReceiverPdu) : Writes x.serializeBody (wire (sent x)) :=
    Writes.seq (writes_exact x.entity_id) <|
    Writes.seq (writes_exact x.radio_id) <|
    Writes.seq (writes_exact x.receiver_state) <|
    Writes.seq (writes_exact x.padding) <|
    Writes.seq (writes_exact x.received_power) <|
    Writes.seq (writes_exact x.transmitter_radio_reference_id) <|
    writes_exact x.transmitter_radio_id
theorem ReceiverPdu.len (x : ReceiverPdu) : ((wire (sent x)).length : Int) = (x.fieldsLen : Nat) + surplus x := by
  show ((wire x.entity_id ++ (wire x.radio_id ++ (wire x.receiver_state ++ (wire x.padding ++ (wire x.received_power ++ (wire x.transmitter_radio_reference_id ++ (wire x.transmitter_radio_id))))))).length : Int) = (x.fieldsLen : Nat) + ((0 : Int))
  simp only [List.length_append, ReceiverPdu.fieldsLen]
  have h_entity_id := len_exact x.entity_id
  have h_radio_id := len_exact x.radio_id
  have h_receiver_state := len_exact x.receiver_state
  have h_padding := len_exact x.padding
  have h_received_power := len_exact x.received_power
  have h_transmitter_radio_reference_id := len_exact x.transmitter_radio_reference_id
  have h_transmitter_radio_id := len_exact x.transmitter_radio_id
  omega
theorem ReceiverPdu.appends (x : ReceiverPdu) : Appends x.serializeBody :=
    Appends.seq (LawfulEnc.appends x.entity_id) <|
    Appends.seq (LawfulEnc.appends x.radio_id) <|
    Appends.seq (LawfulEnc.appends x.receiver_state) <|
    Appends.seq (LawfulEnc.appends x.padding) <|
    Appends.seq (LawfulEnc.appends x.received_power) <|
    Appends.seq (LawfulEnc.appends x.transmitter_radio_reference_id) <|
    LawfulEnc.appends x.transmitter_radio_id
theorem ReceiverPdu.ifOk (x : ReceiverPdu) : WritesIfOk x.serializeBody (wire (sent x)) :=
    (ReceiverPdu.writes x).ifOk
theorem ReceiverPdu.reads (x : ReceiverPdu) : Reads ReceiverPdu.deserializeBody (wire (kept x)) (kept x) :=
    Reads.bind (reads_exact x.entity_id) <|
    Reads.bind (reads_exact x.radio_id) <|
    Reads.bind (reads_exact x.receiver_state) <|
    Reads.bind (reads_exact x.padding) <|
    Reads.bind (reads_exact x.received_power) <|
    Reads.bind (reads_exact x.transmitter_radio_reference_id) <|
    Reads.last (reads_exact x.transmitter_radio_id) (Reads.ret _)
theorem ReceiverPdu.fixed : Fixed ReceiverPdu.deserializeBody 24 := Fixed.congr (
    Fixed.bind (FixedDec.fixed) fun _ =>
    Fixed.bind (FixedDec.fixed) fun _ =>
    Fixed.bind (FixedDec.fixed) fun _ =>
    Fixed.bind (FixedDec.fixed) fun _ =>
    Fixed.bind (FixedDec.fixed) fun _ =>
    Fixed.bind (FixedDec.fixed) fun _ =>
    Fixed.bind (FixedDec.fixed) fun _ =>
    Fixed.ret _) rfl
theorem ReceiverPdu.loc : Local ReceiverPdu.deserializeBody :=
    Local.bind (LocalDec.loc) fun _ =>
    Local.bind (LocalDec.loc) fun _ =>
    Local.bind (LocalDec.loc) fun _ =>
    Local.bind (LocalDec.loc) fun _ =>
    Local.bind (LocalDec.loc) fun _ =>
    Local.bind (LocalDec.loc) fun _ =>
    Local.bind (LocalDec.loc) fun _ =>
    Local.ret _
theorem ReceiverPdu.under : OnlyUnderflow ReceiverPdu.deserializeBody :=
    OnlyUnderflow.bind (UnderflowDec.under) fun _ =>
    OnlyUnderflow.bind (UnderflowDec.under) fun _ =>
    OnlyUnderflow.bind (UnderflowDec.under) fun _ =>
    OnlyUnderflow.bind (UnderflowDec.under) fun _ =>
    OnlyUnderflow.bind (UnderflowDec.under) fun _ =>
    OnlyUnderflow.bind (UnderflowDec.under) fun _ =>
    OnlyUnderflow.bind (UnderflowDec.under) fun _ =>
    OnlyUnderflow.ret _
theorem ReceiverPdu.split (x : ReceiverPdu) : wire x = wire (kept x) ++ tail x := (List.append_nil _).symm

theorem IntercomSignalPdu.writes (x : IntercomSignalPdu) : Writes x.serializeBody (wire (sent x)) :=
    Writes.seq (writes_exact x.intercom_reference_id) <|
    Writes.seq (writes_exact x.intercom_number) <|
    Writes.seq (writes_exact x.encoding_scheme) <|
    Writes.seq (writes_exact x.tdl_type) <|
    Writes.seq (writes_exact x.sample_rate) <|
    Writes.seq (writes_exact x.data_length) <|
    Writes.seq (writes_exact x.samples) <|
    writes_exact x.data
theorem IntercomSignalPdu.len (x : IntercomSignalPdu) : ((wire (sent x)).length : Int) = (x.fieldsLen : Nat) + surplus x := by
  show ((wire x.intercom_reference_id ++ (wire x.intercom_number ++ (wire x.encoding_scheme ++ (wire x.tdl_type ++ (wire x.sample_rate ++ (wire x.data_length ++ (wire x.samples ++ (wire x.data)))))))).length : Int) = (x.fieldsLen : Nat) + ((0 : Int))
  simp only [List.length_append, IntercomSignalPdu.fieldsLen]
  have h_intercom_reference_id := len_exact x.intercom_reference_id
  have h_intercom_number := len_exact x.intercom_number
  have h_encoding_scheme := len_exact x.encoding_scheme
  have h_tdl_type := len_exact x.tdl_type
  have h_sample_rate := len_exact x.sample_rate
  have h_data_length := len_exact x.data_length
  have h_samples := len_exact x.samples
  have h_data := len_exact x.data
  omega
theorem IntercomSignalPdu.appends (x : IntercomSignalPdu) : Appends x.serializeBody :=
    Appends.seq (LawfulEnc.appends x.intercom_reference_id) <|
    Appends.seq (LawfulEnc.appends x.intercom_number) <|
    Appends.seq (LawfulEnc.appends x.encoding_scheme) <|
    Appends.seq (LawfulEnc.appends x.tdl_type) <|
    Appends.seq (LawfulEnc.appends x.sample_rate) <|
    Appends.seq (LawfulEnc.appends x.data_length) <|
    Appends.seq (LawfulEnc.appends x.samples) <|
    LawfulEnc.appends x.data
theorem IntercomSignalPdu.ifOk (x : IntercomSignalPdu) : WritesIfOk x.serializeBody (wire (sent x)) :=
    (IntercomSignalPdu.writes x).ifOk
theorem IntercomSignalPdu.reads (x : IntercomSignalPdu) : Reads IntercomSignalPdu.deserializeBody (wire (kept x)) (kept x) :=
    Reads.bind (reads_exact x.intercom_reference_id) <|
    Reads.bind (reads_exact x.intercom_number) <|
    Reads.bind (reads_exact x.encoding_scheme) <|
    Reads.bind (reads_exact x.tdl_type) <|
    Reads.bind (reads_exact x.sample_rate) <|
    Reads.bind (reads_exact x.data_length) <|
    Reads.bind (reads_exact x.samples) <|
    Reads.last (Reads.ret _) (Reads.ret _)
theorem IntercomSignalPdu.fixed : Fixed IntercomSignalPdu.deserializeBody 20 := Fixed.congr (
    Fixed.bind (FixedDec.fixed) fun _ =>
    Fixed.bind (FixedDec.fixed) fun _ =>
    Fixed.bind (FixedDec.fixed) fun _ =>
    Fixed.bind (FixedDec.fixed) fun _ =>
    Fixed.bind (FixedDec.fixed) fun _ =>
    Fixed.bind (FixedDec.fixed) fun _ =>
    Fixed.bind (FixedDec.fixed) fun _ =>
    Fixed.bind (FixedDec.fixed) fun _ =>
    Fixed.ret _) rfl
theorem IntercomSignalPdu.loc : Local IntercomSignalPdu.deserializeBody :=
    Local.bind (LocalDec.loc) fun _ =>
    Local.bind (LocalDec.loc) fun _ =>
    Local.bind (LocalDec.loc) fun _ =>
    Local.bind (LocalDec.loc) fun _ =>
    Local.bind (LocalDec.loc) fun _ =>
    Local.bind (LocalDec.loc) fun _ =>
    Local.bind (LocalDec.loc) fun _ =>
    Local.bind (LocalDec.loc) fun _ =>
    Local.ret _
theorem IntercomSignalPdu.under : OnlyUnderflow IntercomSignalPdu.deserializeBody :=
    OnlyUnderflow.bind (UnderflowDec.under) fun _ =>
    OnlyUnderflow.bind (UnderflowDec.under) fun _ =>
    OnlyUnderflow.bind (UnderflowDec.under) fun _ =>
    OnlyUnderflow.bind (UnderflowDec.under) fun _ =>
    OnlyUnderflow.bind (UnderflowDec.under) fun _ =>
    OnlyUnderflow.bind (UnderflowDec.under) fun _ =>
    OnlyUnderflow.bind (UnderflowDec.under) fun _ =>
    OnlyUnderflow.bind (UnderflowDec.under) fun _ =>
    OnlyUnderflow.ret _
theorem IntercomSignalPdu.split (x : IntercomSignalPdu) : wire x = wire (kept x) ++ tail x := by
  show wire x.intercom_reference_id ++ (wire x.intercom_number ++ (wire x.encoding_scheme ++ (wire x.tdl_type ++ (wire x.sample_rate ++ (wire x.data_length ++ (wire x.samples ++ (wire x.data)))))))
    = (wire x.intercom_reference_id ++ (wire x.intercom_number ++ (wire x.encoding_scheme ++ (wire x.tdl_type ++ (wire x.sample_rate ++ (wire x.data_length ++ (wire x.samples ++ ([]))))))))
      ++ (wire x.data)
  simp only [List.append_assoc, List.append_nil, List.nil_append]

theorem IntercomControlPdu.writes (x : IntercomControlPdu) : Writes x.serializeBody (wire (sent x)) :=
    Writes.seq (writes_exact x.control_type) <|
    Writes.seq (writes_exact x.communications_channel_type) <|
    Writes.seq (writes_exact x.source_intercom_reference_id) <|
    Writes.seq (writes_exact x.source_intercom_number) <|
    Writes.seq (writes_exact x.source_line_id) <|
    Writes.seq (writes_exact x.transmit_priority) <|
    Writes.seq (writes_exact x.transmit_line_state) <|
    Writes.seq (writes_exact x.command) <|
    Writes.seq (writes_exact x.master_intercom_reference_id) <|
    Writes.seq (writes_exact x.master_intercom_number) <|
    Writes.seq (writes_exact x.master_channel_id) <|
    Writes.seq (writes_exact x.intercom_parameters_length) <|
    writes_exact x.intercom_parameters
theorem IntercomControlPdu.len (x : IntercomControlPdu) : ((wire (sent x)).length : Int) = (x.fieldsLen : Nat) + surplus x := by
  show ((wire x.control_type ++ (wire x.communications_channel_type ++ (wire x.source_intercom_reference_id ++ (wire x.source_intercom_number ++ (wire x.source_line_id ++ (wire x.transmit_priority ++ (wire x.transmit_line_state ++ (wire x.command ++ (wire x.master_intercom_reference_id ++ (wire x.master_intercom_number ++ (wire x.master_channel_id ++ (wire x.intercom_parameters_length ++ (wire x.intercom_parameters))))))))))))).length : Int) = (x.fieldsLen : Nat) + ((0 : Int))
  simp only [List.length_append, IntercomControlPdu.fieldsLen]
  have h_control_type := len_exact x.control_type
  have h_communications_channel_type := len_exact x.communications_channel_type
  have h_source_intercom_reference_id := len_exact x.source_intercom_reference_id
  have h_source_intercom_number := len_exact x.source_intercom_number
  have h_source_line_id := len_exact x.source_line_id
  have h_transmit_priority := len_exact x.transmit_priority
  have h_transmit_line_state := len_exact x.transmit_line_state
  have h_command := len_exact x.command
  have h_master_intercom_reference_id := len_exact x.master_intercom_reference_id
  have h_master_intercom_number := len_exact x.master_intercom_number
  have h_master_channel_id := len_exact x.master_channel_id
  have h_intercom_parameters_length := len_exact x.intercom_parameters_length
  have h_intercom_parameters := len_exact x.intercom_parameters
  omega
theorem IntercomControlPdu.appends (x : IntercomControlPdu) : Appends x.serializeBody :=
    Appends.seq (LawfulEnc.appends x.control_type) <|
    Appends.seq (LawfulEnc.appends x.communications_channel_type) <|
    Appends.seq (LawfulEnc.appends x.source_intercom_reference_id) <|
    Appends.seq (LawfulEnc.appends x.source_intercom_number) <|
    Appends.seq (LawfulEnc.appends x.source_line_id) <|
    Appends.seq (LawfulEnc.appends x.transmit_priority) <|
    Appends.seq (LawfulEnc.appends x.transmit_line_state) <|
    Appends.seq (LawfulEnc.appends x.command) <|
    Appends.seq (LawfulEnc.appends x.master_intercom_reference_id) <|
    Appends.seq (LawfulEnc.appends x.master_intercom_number) <|
    Appends.seq (LawfulEnc.appends x.master_channel_id) <|
    Appends.seq (LawfulEnc.appends x.intercom_parameters_length) <|
    LawfulEnc.appends x.intercom_parameters
theorem IntercomControlPdu.ifOk (x : IntercomControlPdu) : WritesIfOk x.serializeBody (wire (sent x)) :=
    (IntercomControlPdu.writes x).ifOk
theorem IntercomControlPdu.reads (x : IntercomControlPdu) : Reads IntercomControlPdu.deserializeBody (wire (kept x)) (kept x) :=
    Reads.bind (reads_exact x.control_type) <|
    Reads.bind (reads_exact x.communications_channel_type) <|
    Reads.bind (reads_exact x.source_intercom_reference_id) <|
    Reads.bind (reads_exact x.source_intercom_number) <|
    Reads.bind (reads_exact x.source_line_id) <|
    Reads.bind (reads_exact x.transmit_priority) <|
    Reads.bind (reads_exact x.transmit_line_state) <|
    Reads.bind (reads_exact x.command) <|
    Reads.bind (reads_exact x.master_intercom_reference_id) <|
    Reads.bind (reads_exact x.master_intercom_number) <|
    Reads.bind (reads_exact x.master_channel_id) <|
    Reads.bind (reads_exact x.intercom_parameters_length) <|
    Reads.last (Reads.ret _) (Reads.ret _)
theorem IntercomControlPdu.fixed : Fixed IntercomControlPdu.deserializeBody 28 := Fixed.congr (
    Fixed.bind (FixedDec.fixed) fun _ =>
    Fixed.bind (FixedDec.fixed) fun _ =>
    Fixed.bind (FixedDec.fixed) fun _ =>
    Fixed.bind (FixedDec.fixed) fun _ =>
    Fixed.bind (FixedDec.fixed) fun _ =>
    Fixed.bind (FixedDec.fixed) fun _ =>
    Fixed.bind (FixedDec.fixed) fun _ =>
    Fixed.bind (FixedDec.fixed) fun _ =>
    Fixed.bind (FixedDec.fixed) fun _ =>
    Fixed.bind (FixedDec.fixed) fun _ =>
    Fixed.bind (FixedDec.fixed) fun _ =>
    Fixed.bind (FixedDec.fixed) fun _ =>
    Fixed.bind (FixedDec.fixed) fun _ =>
    Fixed.ret _) rfl
theorem IntercomControlPdu.loc : Local IntercomControlPdu.deserializeBody :=
    Local.bind (LocalDec.loc) fun _ =>
    Local.bind (LocalDec.loc) fun _ =>
    Local.bind (LocalDec.loc) fun _ =>
    Local.bind (LocalDec.loc) fun _ =>
    Local.bind (LocalDec.loc) fun _ =>
    Local.bind (LocalDec.loc) fun _ =>
    Local.bind (LocalDec.loc) fun _ =>
    Local.bind (LocalDec.loc) fun _ =>
    Local.bind (LocalDec.loc) fun _ =>
    Local.bind (LocalDec.loc) fun _ =>
    Local.bind (LocalDec.loc) fun _ =>
    Local.bind (LocalDec.loc) fun _ =>
    Local.bind (LocalDec.loc) fun _ =>
    Local.ret _
theorem IntercomControlPdu.under : OnlyUnderflow IntercomControlPdu.deserializeBody :=
    OnlyUnderflow.bind (UnderflowDec.under) fun _ =>
    OnlyUnderflow.bind (UnderflowDec.under) fun _ =>
    OnlyUnderflow.bind (UnderflowDec.under) fun _ =>
    OnlyUnderflow.bind (UnderflowDec.under) fun _ =>
    OnlyUnderflow.bind (UnderflowDec.under) fun _ =>
    OnlyUnderflow.bind (UnderflowDec.under) fun _ =>
    OnlyUnderflow.bind (UnderflowDec.under) fun _ =>
    OnlyUnderflow.bind (UnderflowDec.under) fun _ =>
    OnlyUnderflow.bind (UnderflowDec.under) fun _ =>
    OnlyUnderflow.bind (UnderflowDec.under) fun _ =>
    OnlyUnderflow.bind (UnderflowDec.under) fun _ =>
    OnlyUnderflow.bind (UnderflowDec.under) fun _ =>
    OnlyUnderflow.bind (UnderflowDec.under) fun _ =>
    OnlyUnderflow.ret _
theorem IntercomControlPdu.split (x : IntercomControlPdu) : wire x = wire (kept x) ++ tail x := by
  show wire x.control_type ++ (wire x.communications_channel_type ++ (wire x.source_intercom_reference_id ++ (wire x.source_intercom_number ++ (wire x.source_line_id ++ (wire x.transmit_priority ++ (wire x.transmit_line_state ++ (wire x.command ++ (wire x.master_intercom_reference_id ++ (wire x.master_intercom_number ++ (wire x.master_channel_id ++ (wire x.intercom_parameters_length ++ (wire x.intercom_parameters))))))))))))
    = (wire x.control_type ++ (wire x.communications_channel_type ++ (wire x.source_intercom_reference_id ++ (wire x.source_intercom_number ++ (wire x.source_line_id ++ (wire x.transmit_priority ++ (wire x.transmit_line_state ++ (wire x.command ++ (wire x.master_intercom_reference_id ++ (wire x.master_intercom_number ++ (wire x.master_channel_id ++ (wire x.intercom_parameters_length ++ ([])))))))))))))
      ++ (wire x.intercom_parameters)
  simp only [List.append_assoc, List.append_nil, List.nil_append]

theorem CreateEntityPdu.writes (x : CreateEntityPdu) : Writes x.serializeBody (wire (sent x)) :=
    Writes.seq (writes_exact x.originating_entity_id) <|
    Writes.seq (writes_exact x.receiving_entity_id) <|
    writes_exact x.request_id
theorem CreateEntityPdu.len (x : CreateEntityPdu) : ((wire (sent x)).length : Int) = (x.fieldsLen : Nat) + surplus x := by
  show ((wire x.originating_entity_id ++ (wire x.receiving_entity_id ++ (wire x.request_id))).length : Int) = (x.fieldsLen : Nat) + ((0 : Int))
  simp only [List.length_append, CreateEntityPdu.fieldsLen]
  have h_originating_entity_id := len_exact x.originating_entity_id
  have h_receiving_entity_id := len_exact x.receiving_entity_id
  have h_request_id := len_exact x.request_id
  omega
theorem CreateEntityPdu.appends (x : CreateEntityPdu) : Appends x.serializeBody :=
    Appends.seq (LawfulEnc.appends x.originating_entity_id) <|
    Appends.seq (LawfulEnc.appends x.receiving_entity_id) <|
    LawfulEnc.appends x.request_id
theorem CreateEntityPdu.ifOk (x : CreateEntityPdu) : WritesIfOk x.serializeBody (wire (sent x)) :=
    (CreateEntityPdu.writes x).ifOk
theorem CreateEntityPdu.reads (x : CreateEntityPdu) : Reads CreateEntityPdu.deserializeBody (wire (kept x)) (kept x) :=
    Reads.bind (reads_exact x.originating_entity_id) <|
    Reads.bind (reads_exact x.receiving_entity_id) <|
    Reads.last (reads_exact x.request_id) (Reads.ret _)
theorem CreateEntityPdu.fixed : Fixed CreateEntityPdu.deserializeBody 16 := Fixed.congr (
    Fixed.bind (FixedDec.fixed) fun _ =>
    Fixed.bind (FixedDec.fixed) fun _ =>
    Fixed.bind (FixedDec.fixed) fun _ =>
    Fixed.ret _) rfl
theorem CreateEntityPdu.loc : Local CreateEntityPdu.deserializeBody :=
    Local.bind (LocalDec.loc) fun _ =>
    Local.bind (LocalDec.loc) fun _ =>
    Local.bind (LocalDec.loc) fun _ =>
    Local.ret _
theorem CreateEntityPdu.under : OnlyUnderflow CreateEntityPdu.deserializeBody :=
    OnlyUnderflow.bind (UnderflowDec.under) fun _ =>
    OnlyUnderflow.bind (UnderflowDec.under) fun _ =>
    OnlyUnderflow.bind (UnderflowDec.under) fun _ =>
    OnlyUnderflow.ret _
theorem CreateEntityPdu.split (x : CreateEntityPdu) : wire x = wire (kept x) ++ tail x := (List.append_nil _).symm

theorem RemoveEntityPdu.writes (x : RemoveEntityPdu) : Writes x.serializeBody (wire (sent x)) :=
    Writes.seq (writes_exact x.originating_entity_id) <|
    Writes.seq (writes_exact x.receiving_entity_id) <|
    writes_exact x.request_id
theorem RemoveEntityPdu.len (x : RemoveEntityPdu) : ((wire (sent x)).length : Int) = (x.fieldsLen : Nat) + surplus x := by
  show ((wire x.originating_entity_id ++ (wire x.receiving_entity_id ++ (wire x.request_id))).length : Int) = (x.fieldsLen : Nat) + ((0 : Int))
  simp only [List.length_append, RemoveEntityPdu.fieldsLen]
  have h_originating_entity_id := len_exact x.originating_entity_id
  have h_receiving_entity_id := len_exact x.receiving_entity_id
  have h_request_id := len_exact x.request_id
  omega
theorem RemoveEntityPdu.appends (x : RemoveEntityPdu) : Appends x.serializeBody :=
    Appends.seq (LawfulEnc.appends x.originating_entity_id) <|
    Appends.seq (LawfulEnc.appends x.receiving_entity_id) <|
    LawfulEnc.appends x.request_id
theorem RemoveEntityPdu.ifOk (x : RemoveEntityPdu) : WritesIfOk x.serializeBody (wire (sent x)) :=
    (RemoveEntityPdu.writes x).ifOk
theorem RemoveEntityPdu.reads (x : RemoveEntityPdu) : Reads RemoveEntityPdu.deserializeBody (wire (kept x)) (kept x) :=
    Reads.bind (reads_exact x.originating_entity_id) <|
    Reads.bind (reads_exact x.receiving_entity_id) <|
    Reads.last (reads_exact x.request_id) (Reads.ret _)
theorem RemoveEntityPdu.fixed : Fixed RemoveEntityPdu.deserializeBody 16 := Fixed.congr (
    Fixed.bind (FixedDec.fixed) fun _ =>
    Fixed.bind (FixedDec.fixed) fun _ =>
    Fixed.bind (FixedDec.fixed) fun _ =>
    Fixed.ret _) rfl
theorem RemoveEntityPdu.loc : Local RemoveEntityPdu.deserializeBody :=
    Local.bind (LocalDec.loc) fun _ =>
    Local.bind (LocalDec.loc) fun _ =>
    Local.bind (LocalDec.loc) fun _ =>
    Local.ret _
theorem RemoveEntityPdu.under : OnlyUnderflow RemoveEntityPdu.deserializeBody :=
    OnlyUnderflow.bind (UnderflowDec.under) fun _ =>
    OnlyUnderflow.bind (UnderflowDec.under) fun _ =>
    OnlyUnderflow.bind (UnderflowDec.under) fun _ =>
    OnlyUnderflow.ret _
theorem RemoveEntityPdu.split (x : RemoveEntityPdu) : wire x = wire (kept x) ++ tail x := (List.append_nil _).symm

end Dis
