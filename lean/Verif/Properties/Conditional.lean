import Verif.Properties.RoundTrip
import Verif.Proofs.Counted
/-
C12 for the kinds whose recovery depends on the value: areal object state (flags), information operations
(counted records), transfer ownership and set record (record sets).  (Transmitter: C29.)
-/
namespace Dis

/-! ### Areal object state -/

theorem ArealObjectStatePdu.reads_any (x : ArealObjectStatePdu) {f : ObjectStateAppearanceGeneral}
    (hf : Reads (deserialize_field : Get ObjectStateAppearanceGeneral) (wire x.general_object_appearance) f)
    (prof : Profile) (rest : Bytes) :
    ArealObjectStatePdu.deserializeBody prof (wire x ++ rest) =
      .ok ({ x with general_object_appearance := f, object_location := [] }, wire x.object_location ++ rest) := by
  have h : Reads ArealObjectStatePdu.deserializeBody
      (wire x.object_id ++ (wire x.referenced_object_id ++ (wire x.update_number ++ (wire x.force_id ++
        (wire x.modifications ++ (wire x.object_type ++ (wire x.specific_object_appearance ++
        (wire x.general_object_appearance ++ (wire x.number_of_points ++ (wire x.requester_id ++
        (wire x.receiving_id)))))))))))
      { x with general_object_appearance := f, object_location := [] } :=
    Reads.bind (reads_exact x.object_id) <|
    Reads.bind (reads_exact x.referenced_object_id) <|
    Reads.bind (reads_exact x.update_number) <|
    Reads.bind (reads_exact x.force_id) <|
    Reads.bind (reads_exact x.modifications) <|
    Reads.bind (reads_exact x.object_type) <|
    Reads.bind (reads_exact x.specific_object_appearance) <|
    Reads.bind hf <|
    Reads.bind (reads_exact x.number_of_points) <|
    Reads.bind (reads_exact x.requester_id) <|
    Reads.last (reads_exact x.receiving_id) (Reads.last (w := []) (Reads.ret _) (Reads.ret _))
  have := h prof (wire x.object_location ++ rest)
  rw [← this]
  congr 1

/-- Areal object state: the list of points is left unread; the general appearance is recovered when only
named flags (bits 0, 8 and 10 to 14) are set, and is otherwise empty; everything else is recovered. -/
theorem C12_areal_object_state (p q : Pdu ArealObjectStatePdu) (prof : Profile) (buf w : Bytes)
    (h : p.serialize prof buf = .ok ((q, .ok ()), buf ++ w)) :
    ∃ f : ObjectStateAppearanceGeneral,
      (OnlyFlags [0, 8, 10, 11, 12, 13, 14] p.body.general_object_appearance.bits.toNat →
        f = p.body.general_object_appearance) ∧
      (¬ OnlyFlags [0, 8, 10, 11, 12, 13, 14] p.body.general_object_appearance.bits.toNat → f = ⟨0⟩) ∧
      ∀ prof' rest, decodeAs ArealObjectStatePdu prof' (w ++ rest) =
        .ok (.ok ⟨q.header, { p.body with general_object_appearance := f, object_location := [] }⟩,
          wire p.body.object_location ++ rest) := by
  obtain ⟨rfl, _, hw⟩ := Pdu.serialize_ok h
  rw [List.append_assoc] at hw
  have hw := List.append_cancel_left hw
  obtain ⟨f, hf1, hf2, hf3⟩ := ObjectStateAppearanceGeneral.reads_any p.body.general_object_appearance
  refine ⟨f, hf1, hf2, fun prof' rest => ?_⟩
  have hb : wire (sent p.after.body) = wire p.body :=
    congrArg wire (PduKind.sent_id_all .ArealObjectState rfl rfl _)
  rw [hw, hb, List.append_assoc]
  show Pdu.deserialize prof' _ = _
  rw [Pdu.deserialize_of_wire _ rfl]
  rw [show (PduBody.deserializeBody : Get ArealObjectStatePdu) prof' _ = _ from
    ArealObjectStatePdu.reads_any p.body hf3 prof' rest]

/-- Two points; of the appearance, bits 0 and 10 are named, bit 1 is not. -/
example (bits : UInt16) (hb : bits = 0x0401 ∨ bits = 2) : ∃ (p q : Pdu ArealObjectStatePdu) (w : Bytes),
    p.body.object_location.length = 2 ∧ p.body.general_object_appearance = ⟨bits⟩ ∧
    p.serialize ⟨true⟩ [9] = .ok ((q, .ok ()), [9] ++ w) := by
  have hs := Pdu.serialize_of_encodable (⟨PduHeader.default 7, { (PduBody.default : ArealObjectStatePdu) with
      general_object_appearance := ⟨bits⟩, object_location := [dflt, dflt] }⟩ : Pdu ArealObjectStatePdu)
    (PduKind.encodable .ArealObjectState rfl _) (by
      show 12 + ArealObjectStatePdu.fieldsLen _ < 65536
      rcases hb with rfl | rfl <;> decide +kernel) ⟨true⟩ [9]
  rw [List.append_assoc] at hs
  exact ⟨_, _, _, rfl, rfl, hs⟩

/-! ### The kinds that end in a counted record -/

/-- From `Continues` for a body to the whole message. -/
theorem Pdu.decode_continues {B β : Type} [PduBody B] [Wire B] [Enc B] [Dec B] [Tail B] [LawfulBody B]
    {p q : Pdu B} {prof : Profile} {buf w : Bytes}
    (h : p.serialize prof buf = .ok ((q, .ok ()), buf ++ w)) {front back : Bytes} {g : Get β} {f : β → B}
    (hw : wire (sent q.body) = front ++ back)
    (hc : Continues (PduBody.deserializeBody : Get B) front g f) (prof' : Profile) (rest : Bytes) :
    decodeAs B prof' (w ++ rest) = match g prof' (back ++ rest) with
      | .error e => .error e
      | .ok (v, r) => .ok (.ok ⟨q.header, f v⟩, r) := by
  obtain ⟨rfl, _, hb⟩ := Pdu.serialize_ok h
  rw [List.append_assoc] at hb
  have hb := List.append_cancel_left hb
  rw [hb, hw, List.append_assoc, List.append_assoc]
  show Pdu.deserialize prof' _ = _
  rw [Pdu.deserialize_of_wire _ rfl, hc prof' (back ++ rest)]
  cases g prof' (back ++ rest) <;> rfl

/-- Information operations report: everything before the records is recovered, but for the reference
number of the originating simulation, which is zero; then the record decoder runs on what was written for
the records. -/
theorem C12_information_operations_report (p q : Pdu InformationOperationsReportPdu) (prof : Profile)
    (buf w : Bytes) (h : p.serialize prof buf = .ok ((q, .ok ()), buf ++ w)) (prof' : Profile) (rest : Bytes) :
    let x : InformationOperationsReportPdu := p.body
    decodeAs InformationOperationsReportPdu prof' (w ++ rest) =
      match StandardVariableSpecification.deserialize prof' (wire x.io_records ++ rest) with
      | .error e => .error e
      | .ok (v, r) => .ok (.ok ⟨q.header,
          { x with originating_simulation_id := { x.originating_simulation_id with reference_number := 0 }
                   io_records := v }⟩, r) := by
  intro x
  obtain ⟨hq, _, _⟩ := Pdu.serialize_ok h
  have hb : q.body = x := by rw [hq]; exact PduKind.prep_id .InformationOperationsReport (by decide) p.body
  refine (Pdu.decode_continues h (back := wire x.io_records)
    (g := StandardVariableSpecification.deserialize)
    (front := wire (sent x.originating_simulation_id) ++ (wire x.io_simulation_source ++
      (wire x.io_report_type ++ (wire x.padding ++ (wire x.io_attacker_entity_id ++
      (wire x.primary_target_entity_id ++ (wire x.padding2 ++ wire x.padding3)))))))
    (f := fun v => { x with
      originating_simulation_id := { x.originating_simulation_id with reference_number := 0 }
      io_records := v }) ?_ ?_ prof' rest).trans ?_
  · rw [hb]
    simp only [List.append_assoc]
    rfl
  · exact Continues.bind (SimulationIdentifier.reads (sent x.originating_simulation_id)) <|
      Continues.bind (reads_exact x.io_simulation_source) <|
      Continues.bind (reads_exact x.io_report_type) <|
      Continues.bind (reads_exact x.padding) <|
      Continues.bind (reads_exact x.io_attacker_entity_id) <|
      Continues.bind (reads_exact x.primary_target_entity_id) <|
      Continues.bind (reads_exact x.padding2) <|
      Continues.last (reads_exact x.padding3) (Continues.ret _ _)
  · cases StandardVariableSpecification.deserialize prof' (wire x.io_records ++ rest) <;> rfl

/-- The count says one record, there are two. -/
example : ∃ (p q : Pdu InformationOperationsReportPdu) (w : Bytes), p.body.io_records = ⟨1, [⟨1, 3, [7, 8, 9]⟩, ⟨2, 0, []⟩]⟩ ∧
    p.serialize ⟨true⟩ [9] = .ok ((q, .ok ()), [9] ++ w) := by
  have hs := Pdu.serialize_of_encodable (⟨PduHeader.default 7, { (PduBody.default : InformationOperationsReportPdu) with
      io_records := ⟨1, [⟨1, 3, [7, 8, 9]⟩, ⟨2, 0, []⟩]⟩ }⟩ : Pdu InformationOperationsReportPdu)
    (PduKind.encodable .InformationOperationsReport rfl _) (by
      show 12 + InformationOperationsReportPdu.fieldsLen _ < 65536; decide +kernel) ⟨true⟩ [9]
  rw [List.append_assoc] at hs
  exact ⟨_, _, _, rfl, hs⟩

/-- Information operations action likewise. -/
theorem C12_information_operations_action (p q : Pdu InformationOperationsActionPdu) (prof : Profile)
    (buf w : Bytes) (h : p.serialize prof buf = .ok ((q, .ok ()), buf ++ w)) (prof' : Profile) (rest : Bytes) :
    let x : InformationOperationsActionPdu := p.body
    decodeAs InformationOperationsActionPdu prof' (w ++ rest) =
      match StandardVariableSpecification.deserialize prof' (wire x.io_records ++ rest) with
      | .error e => .error e
      | .ok (v, r) => .ok (.ok ⟨q.header,
          { x with originating_simulation_id := { x.originating_simulation_id with reference_number := 0 }
                   receiving_simulation_id := { x.receiving_simulation_id with reference_number := 0 }
                   io_records := v }⟩, r) := by
  intro x
  obtain ⟨hq, _, _⟩ := Pdu.serialize_ok h
  have hb : q.body = x := by rw [hq]; exact PduKind.prep_id .InformationOperationsAction (by decide) p.body
  refine (Pdu.decode_continues h (back := wire x.io_records)
    (g := StandardVariableSpecification.deserialize)
    (front := wire (sent x.originating_simulation_id) ++ (wire (sent x.receiving_simulation_id) ++
      (wire x.request_id ++ (wire x.io_warfare_type ++ (wire x.io_simulation_source ++
      (wire x.io_action_type ++ (wire x.io_action_phase ++ (wire x.padding ++ (wire x.io_attacker_entity_id ++
      (wire x.io_primary_target_entity_id ++ wire x.padding2))))))))))
    (f := fun v => { x with
      originating_simulation_id := { x.originating_simulation_id with reference_number := 0 }
      receiving_simulation_id := { x.receiving_simulation_id with reference_number := 0 }
      io_records := v }) ?_ ?_ prof' rest).trans ?_
  · rw [hb]
    simp only [List.append_assoc]
    rfl
  · exact Continues.bind (SimulationIdentifier.reads (sent x.originating_simulation_id)) <|
      Continues.bind (SimulationIdentifier.reads (sent x.receiving_simulation_id)) <|
      Continues.bind (reads_exact x.request_id) <|
      Continues.bind (reads_exact x.io_warfare_type) <|
      Continues.bind (reads_exact x.io_simulation_source) <|
      Continues.bind (reads_exact x.io_action_type) <|
      Continues.bind (reads_exact x.io_action_phase) <|
      Continues.bind (reads_exact x.padding) <|
      Continues.bind (reads_exact x.io_attacker_entity_id) <|
      Continues.bind (reads_exact x.io_primary_target_entity_id) <|
      Continues.last (reads_exact x.padding2) (Continues.ret _ _)
  · cases StandardVariableSpecification.deserialize prof' (wire x.io_records ++ rest) <;> rfl

example : ∃ (p q : Pdu InformationOperationsActionPdu) (w : Bytes), p.body.io_records = ⟨1, [⟨1, 3, [7, 8, 9]⟩, ⟨2, 0, []⟩]⟩ ∧
    p.serialize ⟨true⟩ [9] = .ok ((q, .ok ()), [9] ++ w) := by
  have hs := Pdu.serialize_of_encodable (⟨PduHeader.default 7, { (PduBody.default : InformationOperationsActionPdu) with
      io_records := ⟨1, [⟨1, 3, [7, 8, 9]⟩, ⟨2, 0, []⟩]⟩ }⟩ : Pdu InformationOperationsActionPdu)
    (PduKind.encodable .InformationOperationsAction rfl _) (by
      show 12 + InformationOperationsActionPdu.fieldsLen _ < 65536; decide +kernel) ⟨true⟩ [9]
  rw [List.append_assoc] at hs
  exact ⟨_, _, _, rfl, hs⟩

/-- The records are counted right: their number, and the length of each. -/
def WellCounted (r : StandardVariableSpecification) : Prop :=
  r.number_of_standard_variable_records.toNat = r.standard_variable_records.length ∧
  ∀ e ∈ r.standard_variable_records, e.record_length.toNat = e.record_specific_fields.length

/-- So when the records are counted right, the report survives, but for the reference number. -/
theorem C12_information_operations_report_counted (p : Pdu InformationOperationsReportPdu)
    (hc : WellCounted p.body.io_records) (hl : declaredOctets p ≤ 65535) (prof : Profile) (buf : Bytes) :
    ∃ q w, p.serialize prof buf = .ok ((q, .ok ()), buf ++ w) ∧ q.body = p.body ∧
      ∀ prof' rest, decodeAs InformationOperationsReportPdu prof' (w ++ rest) = .ok (.ok ⟨q.header,
        { p.body with originating_simulation_id :=
            { p.body.originating_simulation_id with reference_number := 0 } }⟩, rest) := by
  rw [declaredOctets_eq] at hl
  have hs := Pdu.serialize_of_encodable p (PduKind.encodable .InformationOperationsReport rfl p.body)
    (by omega) prof buf
  rw [List.append_assoc] at hs
  refine ⟨_, _, hs, PduKind.prep_id .InformationOperationsReport (by decide) p.body, fun prof' rest => ?_⟩
  rw [C12_information_operations_report p _ prof buf _ hs prof' rest,
    StandardVariableSpecification.reads p.body.io_records hc prof' rest]

/-- A record of three octets and an empty one; the count is true. -/
example := C12_information_operations_report_counted ⟨PduHeader.default 7, { (PduBody.default : InformationOperationsReportPdu) with
    io_records := ⟨2, [⟨1, 3, [7, 8, 9]⟩, ⟨2, 0, []⟩]⟩ }⟩ (by unfold WellCounted; decide +kernel) (by decide +kernel) ⟨true⟩ [9]

/-- And the action. -/
theorem C12_information_operations_action_counted (p : Pdu InformationOperationsActionPdu)
    (hc : WellCounted p.body.io_records) (hl : declaredOctets p ≤ 65535) (prof : Profile) (buf : Bytes) :
    ∃ q w, p.serialize prof buf = .ok ((q, .ok ()), buf ++ w) ∧ q.body = p.body ∧
      ∀ prof' rest, decodeAs InformationOperationsActionPdu prof' (w ++ rest) = .ok (.ok ⟨q.header,
        { p.body with
            originating_simulation_id := { p.body.originating_simulation_id with reference_number := 0 }
            receiving_simulation_id := { p.body.receiving_simulation_id with reference_number := 0 } }⟩,
        rest) := by
  rw [declaredOctets_eq] at hl
  have hs := Pdu.serialize_of_encodable p (PduKind.encodable .InformationOperationsAction rfl p.body)
    (by omega) prof buf
  rw [List.append_assoc] at hs
  refine ⟨_, _, hs, PduKind.prep_id .InformationOperationsAction (by decide) p.body, fun prof' rest => ?_⟩
  rw [C12_information_operations_action p _ prof buf _ hs prof' rest,
    StandardVariableSpecification.reads p.body.io_records hc prof' rest]

example := C12_information_operations_action_counted ⟨PduHeader.default 7, { (PduBody.default : InformationOperationsActionPdu) with
    io_records := ⟨2, [⟨1, 3, [7, 8, 9]⟩, ⟨2, 0, []⟩]⟩ }⟩ (by unfold WellCounted; decide +kernel) (by decide +kernel) ⟨true⟩ [9]

/-- Transfer ownership: everything before the record sets is recovered, but for the two reference numbers;
then the record-set decoder runs on what was written for the record sets. -/
theorem C12_transfer_ownership (p q : Pdu TransferOwnershipPdu) (prof : Profile)
    (buf w : Bytes) (h : p.serialize prof buf = .ok ((q, .ok ()), buf ++ w)) (prof' : Profile) (rest : Bytes) :
    let x : TransferOwnershipPdu := p.body
    decodeAs TransferOwnershipPdu prof' (w ++ rest) =
      match RecordSpecification.deserialize prof' (wire (sent x.record_information) ++ rest) with
      | .error e => .error e
      | .ok (v, r) => .ok (.ok ⟨q.header,
          { x with originating_id := { x.originating_id with reference_number := 0 }
                   receiving_id := { x.receiving_id with reference_number := 0 }
                   record_information := v }⟩, r) := by
  intro x
  obtain ⟨hq, _, _⟩ := Pdu.serialize_ok h
  have hb : q.body = x := by rw [hq]; exact PduKind.prep_id .TransferOwnership (by decide) p.body
  refine (Pdu.decode_continues h (back := wire (sent x.record_information))
    (g := RecordSpecification.deserialize)
    (front := wire (sent x.originating_id) ++ (wire (sent x.receiving_id) ++
      (wire x.request_id ++ (wire x.required_reliability_service ++ (wire x.transfer_type ++
      wire x.transfer_entity_id)))))
    (f := fun v => { x with
      originating_id := { x.originating_id with reference_number := 0 }
      receiving_id := { x.receiving_id with reference_number := 0 }
      record_information := v }) ?_ ?_ prof' rest).trans ?_
  · rw [hb]
    simp only [List.append_assoc]
    rfl
  · exact Continues.bind (SimulationIdentifier.reads (sent x.originating_id)) <|
      Continues.bind (SimulationIdentifier.reads (sent x.receiving_id)) <|
      Continues.bind (reads_exact x.request_id) <|
      Continues.bind (reads_exact x.required_reliability_service) <|
      Continues.bind (reads_exact x.transfer_type) <|
      Continues.last (reads_exact x.transfer_entity_id) (Continues.ret _ _)
  · cases RecordSpecification.deserialize prof' (wire (sent x.record_information) ++ rest) <;> rfl

/-- Set record likewise. -/
theorem C12_set_record (p q : Pdu SetRecordReliablePdu) (prof : Profile)
    (buf w : Bytes) (h : p.serialize prof buf = .ok ((q, .ok ()), buf ++ w)) (prof' : Profile) (rest : Bytes) :
    let x : SetRecordReliablePdu := p.body
    decodeAs SetRecordReliablePdu prof' (w ++ rest) =
      match RecordSpecification.deserialize prof' (wire (sent x.record_sets) ++ rest) with
      | .error e => .error e
      | .ok (v, r) => .ok (.ok ⟨q.header, { x with record_sets := v }⟩, r) := by
  intro x
  obtain ⟨hq, _, _⟩ := Pdu.serialize_ok h
  have hb : q.body = x := by rw [hq]; exact PduKind.prep_id .SetRecordReliable (by decide) p.body
  refine (Pdu.decode_continues h (back := wire (sent x.record_sets))
    (g := RecordSpecification.deserialize)
    (front := wire x.originating_entity_id ++ (wire x.receiving_entity_id ++
      (wire x.request_id ++ (wire x.required_reliability_service ++ (wire x.padding ++ (wire x.padding2 ++
      wire x.padding3))))))
    (f := fun v => { x with record_sets := v }) ?_ ?_ prof' rest).trans ?_
  · rw [hb]
    simp only [List.append_assoc]
    rfl
  · exact Continues.bind (reads_exact x.originating_entity_id) <|
      Continues.bind (reads_exact x.receiving_entity_id) <|
      Continues.bind (reads_exact x.request_id) <|
      Continues.bind (reads_exact x.required_reliability_service) <|
      Continues.bind (reads_exact x.padding) <|
      Continues.bind (reads_exact x.padding2) <|
      Continues.last (reads_exact x.padding3) (Continues.ret _ _)
  · cases RecordSpecification.deserialize prof' (wire (sent x.record_sets) ++ rest) <;> rfl

/-- The record sets are counted right: their number, and length × count of each, within 16 bits. -/
def SetsWellCounted (r : RecordSpecification) : Prop :=
  r.number_of_record_sets.toNat = r.record_sets.length ∧
  ∀ e ∈ r.record_sets, e.record_length.toNat * e.record_count.toNat < 65536 ∧
    e.record_length.toNat * e.record_count.toNat = e.record_values.length

theorem SetsWellCounted.sent {r : RecordSpecification} (h : SetsWellCounted r) :
    encodable r ∧ sent r = r ∧ decodable r := by
  have h1 : encodable r.record_sets ∧ Enc.sent r.record_sets = r.record_sets := by
    obtain ⟨_, h⟩ := h
    revert h
    induction r.record_sets with
    | nil => intro _; exact ⟨fun _ h => (nomatch h), rfl⟩
    | cons e l ih =>
      intro h
      have he := RecordSpecificationElement.sent_of_ok e (h e List.mem_cons_self)
      have ih := ih fun x hx => h x (List.mem_cons_of_mem _ hx)
      refine ⟨List.forall_mem_cons.mpr ⟨he.1, ih.1⟩, ?_⟩
      show Enc.sent e :: Enc.sent l = _
      rw [he.2, ih.2]
  refine ⟨h1.1, ?_, h⟩
  show { r with record_sets := Enc.sent r.record_sets } = r
  rw [h1.2]

/-- So when the record sets are counted right, a transfer ownership PDU survives, but for the reference
numbers. -/
theorem C12_transfer_ownership_counted (p : Pdu TransferOwnershipPdu)
    (hc : SetsWellCounted p.body.record_information) (hl : declaredOctets p ≤ 65535) (prof : Profile)
    (buf : Bytes) :
    ∃ q w, p.serialize prof buf = .ok ((q, .ok ()), buf ++ w) ∧ q.body = p.body ∧
      ∀ prof' rest, decodeAs TransferOwnershipPdu prof' (w ++ rest) = .ok (.ok ⟨q.header,
        { p.body with
            originating_id := { p.body.originating_id with reference_number := 0 }
            receiving_id := { p.body.receiving_id with reference_number := 0 } }⟩, rest) := by
  rw [declaredOctets_eq] at hl
  have hs := Pdu.serialize_of_encodable p hc.sent.1 (by omega) prof buf
  rw [List.append_assoc] at hs
  refine ⟨_, _, hs, PduKind.prep_id .TransferOwnership (by decide) p.body, fun prof' rest => ?_⟩
  rw [C12_transfer_ownership p _ prof buf _ hs prof' rest, hc.sent.2.1,
    RecordSpecification.reads p.body.record_information hc.sent.2.2 prof' rest]

/-- A set of three records of two octets, and one without records. -/
example := C12_transfer_ownership_counted ⟨PduHeader.default 7, { (PduBody.default : TransferOwnershipPdu) with
    record_information := ⟨2, [⟨1, 2, 2, 3, [1, 2, 3, 4, 5, 6]⟩, ⟨3, 4, 0, 9, []⟩]⟩ }⟩
  (by unfold SetsWellCounted; decide +kernel) (by decide +kernel) ⟨true⟩ [9]
/-- So there is a PDU as `C12_transfer_ownership` wants it. -/
example : ∃ (p q : Pdu TransferOwnershipPdu) (w : Bytes), p.body.record_information.record_sets.length = 2 ∧
    p.serialize ⟨true⟩ [9] = .ok ((q, .ok ()), [9] ++ w) := by
  obtain ⟨q, w, h, _⟩ := C12_transfer_ownership_counted ⟨PduHeader.default 7, { (PduBody.default : TransferOwnershipPdu) with
      record_information := ⟨2, [⟨1, 2, 2, 3, [1, 2, 3, 4, 5, 6]⟩, ⟨3, 4, 0, 9, []⟩]⟩ }⟩
    (by unfold SetsWellCounted; decide +kernel) (by decide +kernel) ⟨true⟩ [9]
  exact ⟨_, q, w, rfl, h⟩

/-- And a set record PDU survives completely. -/
theorem C12_set_record_counted (p : Pdu SetRecordReliablePdu)
    (hc : SetsWellCounted p.body.record_sets) (hl : declaredOctets p ≤ 65535) (prof : Profile)
    (buf : Bytes) :
    ∃ q w, p.serialize prof buf = .ok ((q, .ok ()), buf ++ w) ∧ q.body = p.body ∧
      ∀ prof' rest, decodeAs SetRecordReliablePdu prof' (w ++ rest) = .ok (.ok q, rest) := by
  rw [declaredOctets_eq] at hl
  have hs := Pdu.serialize_of_encodable p hc.sent.1 (by omega) prof buf
  rw [List.append_assoc] at hs
  have hb : p.after.body = p.body := PduKind.prep_id .SetRecordReliable (by decide) p.body
  refine ⟨_, _, hs, hb, fun prof' rest => ?_⟩
  rw [C12_set_record p _ prof buf _ hs prof' rest, hc.sent.2.1,
    RecordSpecification.reads p.body.record_sets hc.sent.2.2 prof' rest]
  show Except.ok (Except.ok (Pdu.mk p.after.header p.body), rest) = _
  rw [← hb]

example := C12_set_record_counted ⟨PduHeader.default 7, { (PduBody.default : SetRecordReliablePdu) with
    record_sets := ⟨2, [⟨1, 2, 2, 3, [1, 2, 3, 4, 5, 6]⟩, ⟨3, 4, 0, 9, []⟩]⟩ }⟩
  (by unfold SetsWellCounted; decide +kernel) (by decide +kernel) ⟨true⟩ [9]
/-- So there is a PDU as `C12_set_record` wants it. -/
example : ∃ (p q : Pdu SetRecordReliablePdu) (w : Bytes), p.body.record_sets.record_sets.length = 2 ∧
    p.serialize ⟨true⟩ [9] = .ok ((q, .ok ()), [9] ++ w) := by
  obtain ⟨q, w, h, _⟩ := C12_set_record_counted ⟨PduHeader.default 7, { (PduBody.default : SetRecordReliablePdu) with
      record_sets := ⟨2, [⟨1, 2, 2, 3, [1, 2, 3, 4, 5, 6]⟩, ⟨3, 4, 0, 9, []⟩]⟩ }⟩
    (by unfold SetsWellCounted; decide +kernel) (by decide +kernel) ⟨true⟩ [9]
  exact ⟨_, q, w, rfl, h⟩

/-- Two records, two record sets. -/
example : WellCounted ⟨2, [⟨1, 3, [7, 8, 9]⟩, ⟨2, 0, []⟩]⟩ ∧
    SetsWellCounted ⟨2, [⟨1, 2, 2, 3, [1, 2, 3, 4, 5, 6]⟩, ⟨3, 4, 0, 9, []⟩]⟩ := by
  unfold WellCounted SetsWellCounted
  decide +kernel

end Dis
