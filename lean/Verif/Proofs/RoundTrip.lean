import Verif.Proofs.EntityState
import Verif.Spec.KindTables
/-
Decoding what was encoded: facts for any kind.
-/
namespace Dis
open PduBody (pduType family fieldsLen prep serializeBody deserializeBody)

theorem map_sent_vdr (l : List VariableDatumRecord) : sent l = l := List.map_id _
theorem map_sent_gdr (l : List GridDataRecord) : sent l = l := List.map_id _

theorem PduKind.sent_id_all (k : PduKind) (h1 : k.zeroesFields = false) (h2 : k.hasRecordSets = false)
    (x : k.Body) : sent x = x := by
  cases he : k.exactLength with
  | true => exact k.sent_id he h1 x
  | false =>
    cases k <;> first
      | exact absurd he (by decide)
      | exact absurd h1 (by decide)
      | exact absurd h2 (by decide)
      | exact congrArg (fun l => ({ (show AggregateStatePdu from x) with variable_datum_list := l } : AggregateStatePdu)) (map_sent_vdr _)
      | exact congrArg (fun l => ({ (show ActionRequestPdu from x) with variable_datum_records := l } : ActionRequestPdu)) (map_sent_vdr _)
      | exact congrArg (fun l => ({ (show ActionResponsePdu from x) with variable_datum_records := l } : ActionResponsePdu)) (map_sent_vdr _)
      | exact congrArg (fun l => ({ (show DataQueryPdu from x) with variable_datum_records := l } : DataQueryPdu)) (map_sent_vdr _)
      | exact congrArg (fun l => ({ (show SetDataPdu from x) with variable_datum_records := l } : SetDataPdu)) (map_sent_vdr _)
      | exact congrArg (fun l => ({ (show DataPdu from x) with variable_datum_records := l } : DataPdu)) (map_sent_vdr _)
      | exact congrArg (fun l => ({ (show EventReportPdu from x) with variable_datum_records := l } : EventReportPdu)) (map_sent_vdr _)
      | exact congrArg (fun l => ({ (show CommentPdu from x) with variable_datum_records := l } : CommentPdu)) (map_sent_vdr _)
      | exact congrArg (fun l => ({ (show ActionRequestReliablePdu from x) with variable_datum_records := l } : ActionRequestReliablePdu)) (map_sent_vdr _)
      | exact congrArg (fun l => ({ (show ActionResponseReliablePdu from x) with variable_datum_records := l } : ActionResponseReliablePdu)) (map_sent_vdr _)
      | exact congrArg (fun l => ({ (show SetDataReliablePdu from x) with variable_datum_records := l } : SetDataReliablePdu)) (map_sent_vdr _)
      | exact congrArg (fun l => ({ (show DataReliablePdu from x) with variable_datum_records := l } : DataReliablePdu)) (map_sent_vdr _)
      | exact congrArg (fun l => ({ (show EventReportReliablePdu from x) with variable_datum_records := l } : EventReportReliablePdu)) (map_sent_vdr _)
      | exact congrArg (fun l => ({ (show CommentReliablePdu from x) with variable_datum_records := l } : CommentReliablePdu)) (map_sent_vdr _)
      | exact congrArg (fun l => ({ (show GriddedDataPdu from x) with grid_data_list := l } : GriddedDataPdu)) (map_sent_gdr _)

theorem PduKind.layout_len (k : PduKind) (h : k.fixedLayout = true) (x : k.Body) :
    12 + fieldsLen x = k.ieeeOctets := by
  cases k <;> first
    | exact absurd h (by decide)
    | rfl

theorem PduKind.ieeeOctets_lt (k : PduKind) : k.ieeeOctets < 65536 := by cases k <;> decide

theorem PduKind.layout_no_sets (k : PduKind) (h : k.fixedLayout = true) : k.hasRecordSets = false := by
  cases k <;> first
    | exact absurd h (by decide)
    | rfl
theorem PduKind.layout_exact (k : PduKind) (h : k.fixedLayout = true) : k.exactLength = true := by
  cases k <;> first
    | exact absurd h (by decide)
    | rfl
theorem PduKind.layout_not_variable (k : PduKind) (h : k.fixedLayout = true) : k.variableDecoder = false := by
  cases k <;> first
    | exact absurd h (by decide)
    | rfl

theorem PduKind.unconditional_decodable (k : PduKind) (h : k.unconditional = true) (x : k.Body) :
    decodable x := by
  cases k <;> first
    | exact absurd h (by decide)
    | exact trivial
theorem PduKind.unconditional_sent (k : PduKind) (h : k.unconditional = true) (x : k.Body) : sent x = x :=
  k.sent_id_all (by cases k <;> first | exact absurd h (by decide) | rfl)
    (by cases k <;> first | exact absurd h (by decide) | rfl) x
theorem PduKind.unconditional_prep (k : PduKind) (h : k.unconditional = true) (x : k.Body) : prep x = x :=
  k.prep_id (by rintro rfl; exact absurd h (by decide)) x
theorem PduKind.unconditional_no_sets (k : PduKind) (h : k.unconditional = true) :
    k.hasRecordSets = false := by cases k <;> first | exact absurd h (by decide) | rfl

theorem beBytes_mod (n v : Nat) : ∀ m, n ≤ m → beBytes n (v % 256 ^ m) = beBytes n v := by
  induction n with
  | zero => intros; rfl
  | succ n ih =>
    intro m hm
    show UInt8.ofNat _ :: _ = UInt8.ofNat _ :: _
    rw [ih m (by omega), ← uint8_ofNat_mod, ← uint8_ofNat_mod (v / 256 ^ n)]
    congr 2
    have h1 : (256 : Nat) ^ m = 256 ^ n * 256 ^ (m - n) := by rw [← Nat.pow_add]; congr 1; omega
    have h2 : (256 : Nat) ∣ 256 ^ (m - n) := by
      obtain ⟨d, hd⟩ : ∃ d, m - n = d + 1 := ⟨m - n - 1, by omega⟩
      rw [hd]; exact ⟨256 ^ d, by rw [Nat.pow_succ, Nat.mul_comm]⟩
    rw [h1, Nat.mod_mul_right_div_self, Nat.mod_mod_of_dvd _ h2]

theorem beBytes_beVal (w : Bytes) : beBytes w.length (beVal w) = w := by
  induction w with
  | nil => rfl
  | cons x w ih =>
    rw [beVal_cons]
    show UInt8.ofNat _ :: _ = _
    have hlt := beVal_lt w
    have hpos : 0 < 256 ^ w.length := Nat.pos_of_ne_zero (by simp)
    congr 1
    · rw [Nat.add_comm, Nat.add_mul_div_right _ _ hpos, Nat.div_eq_of_lt hlt, Nat.zero_add,
        UInt8.ofNat_toNat]
    · rw [← beBytes_mod _ _ _ (Nat.le_refl _), Nat.add_comm, Nat.add_mul_mod_self_right,
        Nat.mod_eq_of_lt hlt, ih]

/-- Any octets are the octets of a number. -/
theorem exists_octets (w : Bytes) : ∃ n < 256 ^ w.length, octets w.length n = w :=
  ⟨beVal w, beVal_lt w, by rw [octets_eq, beBytes_beVal]⟩

theorem exists_octets_take {n : Nat} (b : Bytes) (h : n ≤ b.length) :
    ∃ v < 256 ^ n, octets n v = b.take n := by
  have := exists_octets (b.take n)
  rwa [List.length_take, Nat.min_eq_left h] at this

/-! Flag sets with undefined bits -/

theorem FrozenBehavior.reads_any (x : FrozenBehavior) : ∃ f : FrozenBehavior,
    (OnlyFlags [0, 1, 2] x.bits.toNat → f = x) ∧ (¬ OnlyFlags [0, 1, 2] x.bits.toNat → f = ⟨0⟩) ∧
    Reads (deserialize_field : Get FrozenBehavior) (wire x) f := by
  refine ⟨(FrozenBehavior.from_u8 x.bits).getD dflt, fun h => ?_, fun h => ?_,
    Reads.map (f := fun bits => (FrozenBehavior.from_u8 bits).getD dflt) (reads_u8 x.bits)⟩
  · simp [FrozenBehavior.from_u8, flagsFromBits_some FrozenBehavior.all_iff h]
  · simp only [FrozenBehavior.from_u8, flagsFromBits_none FrozenBehavior.all_iff h]
    rfl

theorem ObjectStateAppearanceGeneral.reads_any (x : ObjectStateAppearanceGeneral) :
    ∃ f : ObjectStateAppearanceGeneral,
    (OnlyFlags [0, 8, 10, 11, 12, 13, 14] x.bits.toNat → f = x) ∧
    (¬ OnlyFlags [0, 8, 10, 11, 12, 13, 14] x.bits.toNat → f = ⟨0⟩) ∧
    Reads (deserialize_field : Get ObjectStateAppearanceGeneral) (wire x) f := by
  refine ⟨(ObjectStateAppearanceGeneral.from_u16 x.bits).getD dflt, fun h => ?_, fun h => ?_,
    Reads.map (f := fun bits => (ObjectStateAppearanceGeneral.from_u16 bits).getD dflt) (reads_u16 x.bits)⟩
  · simp [ObjectStateAppearanceGeneral.from_u16, flagsFromBits_some ObjectStateAppearanceGeneral.all_iff h]
  · simp only [ObjectStateAppearanceGeneral.from_u16, flagsFromBits_none ObjectStateAppearanceGeneral.all_iff h]
    rfl

theorem StopFreezePdu.reads_any (x : StopFreezePdu) {f : FrozenBehavior}
    (hf : Reads (deserialize_field : Get FrozenBehavior) (wire x.frozen_behavior) f) :
    Reads StopFreezePdu.deserializeBody (wire x) { x with frozen_behavior := f } :=
  Reads.bind (reads_exact x.originating_entity_id) <|
  Reads.bind (reads_exact x.receiving_entity_id) <|
  Reads.bind (reads_exact x.real_world_time) <|
  Reads.bind (reads_exact x.reason) <|
  Reads.bind hf <|
  Reads.bind (reads_exact x.padding) <|
  Reads.last (reads_exact x.request_id) (Reads.ret _)

theorem StopFreezeReliablePdu.reads_any (x : StopFreezeReliablePdu) {f : FrozenBehavior}
    (hf : Reads (deserialize_field : Get FrozenBehavior) (wire x.frozen_behavior) f) :
    Reads StopFreezeReliablePdu.deserializeBody (wire x) { x with frozen_behavior := f } :=
  Reads.bind (reads_exact x.originating_entity_id) <|
  Reads.bind (reads_exact x.receiving_entity_id) <|
  Reads.bind (reads_exact x.real_world_time) <|
  Reads.bind (reads_exact x.reason) <|
  Reads.bind hf <|
  Reads.bind (reads_exact x.required_reliability_service) <|
  Reads.bind (reads_exact x.padding) <|
  Reads.last (reads_exact x.request_id) (Reads.ret _)

/-! ### Settled values are encodable -/

theorem RecordSpecificationElement.settled {x : RecordSpecificationElement} (h : decodable x) :
    Dis.encodable x ∧ sent x = x := by
  obtain ⟨h1, h2⟩ := h
  refine ⟨⟨h1, by rw [h2]; exact Nat.le_refl _⟩, ?_⟩
  show ({ x with record_values := x.record_values.take x.octetsSent } : RecordSpecificationElement) = x
  rw [RecordSpecificationElement.octetsSent, Nat.mod_eq_of_lt h1, h2, List.take_length]

theorem RecordSpecification.settled {x : RecordSpecification} (h : decodable x) :
    Dis.encodable x ∧ sent x = x := by
  refine ⟨fun e he => (RecordSpecificationElement.settled (h.2 e he)).1, ?_⟩
  have : sent x.record_sets = x.record_sets := by
    show x.record_sets.map sent = _
    rw [List.map_congr_left (g := id) (fun e he => (RecordSpecificationElement.settled (h.2 e he)).2), List.map_id]
  show ({ x with record_sets := sent x.record_sets } : RecordSpecification) = x
  rw [this]

theorem PduKind.settled_sent (k : PduKind) (he : k ≠ .EntityState) (x : k.Body) (h : Settled x) :
    Dis.encodable x ∧ Settled (sent x) ∧ sent (sent x) = sent x ∧ (k.zeroesFields = false → sent x = x) := by
  by_cases h1 : k.zeroesFields = false ∧ k.hasRecordSets = false
  · have hs := k.sent_id_all h1.1 h1.2
    exact ⟨k.encodable h1.2 x, by rwa [hs], by rw [hs, hs], fun _ => hs x⟩
  · cases k
    case EntityState => exact absurd rfl he
    case InformationOperationsReport =>
      exact ⟨trivial, ⟨h.1, rfl, rfl, rfl⟩, rfl, fun e => absurd e (by decide)⟩
    case InformationOperationsAction =>
      exact ⟨trivial, ⟨h.1, rfl, rfl, rfl⟩, rfl, fun e => absurd e (by decide)⟩
    case TransferOwnership =>
      change TransferOwnershipPdu at x
      obtain ⟨r1, r2⟩ := RecordSpecification.settled (x := x.record_information) h.1
      have hx : sent x = ({ x with originating_id := sent x.originating_id, receiving_id := sent x.receiving_id } : TransferOwnershipPdu) := by
        show ({ x with originating_id := sent x.originating_id, receiving_id := sent x.receiving_id, record_information := sent x.record_information } : TransferOwnershipPdu) = _
        rw [r2]
      refine ⟨r1, ?_, ?_, fun e => absurd e (by decide)⟩
      · rw [show (sent x : PduKind.TransferOwnership.Body) = _ from hx]
        exact ⟨h.1, rfl, rfl, rfl⟩
      · show ({ x with originating_id := sent (sent x.originating_id), receiving_id := sent (sent x.receiving_id), record_information := sent (sent x.record_information) } : TransferOwnershipPdu) = ({ x with originating_id := sent x.originating_id, receiving_id := sent x.receiving_id, record_information := sent x.record_information } : TransferOwnershipPdu)
        rw [r2, r2]
        rfl
    case SetRecordReliable =>
      change SetRecordReliablePdu at x
      obtain ⟨r1, r2⟩ := RecordSpecification.settled (x := x.record_sets) h.1
      have hx : sent x = x := by
        show ({ x with record_sets := sent x.record_sets } : SetRecordReliablePdu) = _
        rw [r2]
      have hx' : (sent x : PduKind.SetRecordReliable.Body) = x := hx
      exact ⟨r1, by rw [hx']; exact h, by rw [hx', hx'], fun _ => hx'⟩
    all_goals exact absurd ⟨rfl, rfl⟩ h1

theorem PduKind.settled_len (k : PduKind) (he : k ≠ .EntityState) (x : k.Body) (h : Settled x) :
    fieldsLen (sent x) = fieldsLen x := by
  by_cases h1 : k.zeroesFields = false ∧ k.hasRecordSets = false
  · rw [k.sent_id_all h1.1 h1.2]
  · cases k
    case EntityState => exact absurd rfl he
    case InformationOperationsReport => rfl
    case InformationOperationsAction => rfl
    case TransferOwnership =>
      change TransferOwnershipPdu at x
      have r2 := (RecordSpecification.settled (x := x.record_information) h.1).2
      show TransferOwnershipPdu.fieldsLen { x with originating_id := sent x.originating_id, receiving_id := sent x.receiving_id, record_information := sent x.record_information } = TransferOwnershipPdu.fieldsLen x
      rw [r2]
      rfl
    case SetRecordReliable =>
      have hx := (PduKind.settled_sent .SetRecordReliable he x h).2.2.2 rfl
      rw [hx]
    all_goals exact absurd ⟨rfl, rfl⟩ h1

namespace Pdu
variable {B : Type} [PduBody B] [Wire B] [Enc B] [Dec B] [Tail B] [LawfulBody B]

/-- Decoding the octets a successful `serialize` appended. -/
theorem decode_encoded {p q : Pdu B} {prof : Profile} {buf buf' : Bytes}
    (h : p.serialize prof buf = .ok ((q, .ok ()), buf')) (hd : decodable (sent q.body))
    (prof' : Profile) (rest : Bytes) :
    (Pdu.deserialize : Get (Except DISError (Pdu B))) prof' (buf'.drop buf.length ++ rest) =
      .ok (.ok ⟨q.header, kept (sent q.body)⟩, tail (sent q.body) ++ rest) := by
  obtain ⟨rfl, _, rfl⟩ := serialize_ok h
  rw [List.append_assoc, List.drop_left, List.append_assoc, deserialize_of_wire _ rfl,
    LawfulBody.split (sent p.after.body), List.append_assoc, LawfulBody.reads _ hd]

end Pdu
end Dis
