import Verif.Model.Constants
import Verif.Properties.Fresh
import Verif.Properties.Guide
import Verif.Properties.Equality
/-
The crate's own tests, on the model.  They validate the model: the crate passes its tests, so the model has to.  A
test runs at some time of day, in some build; the statements are for every time and build.
-/
set_option maxRecDepth 20000
namespace Dis
namespace CrateTest

/-- The test `cast_to_any` of a PDU kind (e.g. src/warfare.rs:124-130). -/
def CastToAny (k : PduKind) : Prop := ∀ now, (Pdu.new now : Pdu k.Body).as_any.is k = true

/-- The test `serialize_then_deserialize` of a PDU kind (e.g. src/warfare.rs:132-141; some say
`unwrap_or_default()`, some `expect`, which asks for more): the header received is the header sent. -/
def SerializeThenDeserialize (k : PduKind) : Prop := ∀ now prof,
  ∃ p r buf new_pdu rest, (Pdu.new now : Pdu k.Body).serialize prof [] = .ok ((p, r), buf) ∧
    k.decode prof buf = .ok (.ok new_pdu, rest) ∧ new_pdu.header = p.header

/-- The test `check_default_pdu_length` of a PDU kind (e.g. src/warfare.rs:143-148). -/
def CheckDefaultPduLength (k : PduKind) (default_length : UInt16) : Prop :=
  ∀ now, (Pdu.new now : Pdu k.Body).header.length = default_length

theorem castToAny (k : PduKind) : CastToAny k := fun now =>
  ((C50_downcast k k (Pdu.new now) (Pdu.new now)).1).mpr rfl

theorem serializeThenDeserialize (k : PduKind) : SerializeThenDeserialize k := by
  intro now prof
  by_cases hk : k = .EntityState
  · subst hk
    obtain ⟨w, hs, hd⟩ := C21_new_received_entity_state now prof []
    have := hd prof []
    rw [List.append_nil] at this
    exact ⟨_, _, _, _, _, hs, this, rfl⟩
  · obtain ⟨w, hs, hd⟩ := C21_new_received k hk now prof []
    have := hd prof []
    rw [List.append_nil] at this
    exact ⟨_, _, _, _, _, hs, this, rfl⟩

theorem checkLength (k : PduKind) (n : UInt16) (h : k.ieeeOctets = n.toNat) : CheckDefaultPduLength k n := by
  intro now
  obtain ⟨_, _, _, _, _, hl, _⟩ := C21_new_header k now
  exact UInt16.toNat.inj (hl.trans h)

/-- src/common/constants.rs:83-88 -/
example : validate_pdu_size 1000 = true ∧ validate_pdu_size 8192 = true ∧ validate_pdu_size (8192 + 1) = false := by
  decide

/-- src/common/constants.rs:90-94 -/
example (prof : Profile) : total_pdu_size 100 prof = .ok (PDU_HEADER_SIZE + 100) ∧
    total_pdu_size 0 prof = .ok PDU_HEADER_SIZE := by
  obtain ⟨c⟩ := prof
  cases c <;> decide

/-- src/common/constants.rs:96-101 -/
example : validate_marking_length 31 = true ∧ validate_marking_length MAX_ENTITY_MARKING_LENGTH = true ∧
    validate_marking_length (MAX_ENTITY_MARKING_LENGTH + 1) = false := by
  decide

/-- src/common/pdu_header.rs:294-300, 307-314, `get_pdu_type_returns_correct_type` and `get_pdu_type_ignores_trailing_bytes` (with
`PduType::EntityState`, code 1, and `PduType::Detonation`, code 3) -/
example (prof : Profile) (now : UInt32) (t : PduType) (f : ProtocolFamily) (trailing : Bytes) :
    ∃ buf, (PduHeader.new now t f 1 12).serialize prof [] = .ok ((), buf) ∧
      PduHeader.get_pdu_type prof (buf ++ trailing) = .ok (some t) := by
  obtain ⟨w, hl, hw, hr⟩ := C01_header_roundtrip (PduHeader.new now t f 1 12)
  refine ⟨w, hw prof [], ?_⟩
  obtain ⟨t', h1, _, _, hd, rest, h2, h3⟩ := C03_get_pdu_type prof (w ++ trailing) (by rw [List.length_append]; omega)
  rw [hr] at h2
  cases h2
  rw [h1, ← h3]
  rfl

/-- src/common/pdu_header.rs:302-305, `get_pdu_type_too_short_returns_none` -/
example (prof : Profile) : PduHeader.get_pdu_type prof (List.replicate 11 0) = .ok none :=
  (C03_get_pdu_type_short prof _).mpr (by decide)

/-- src/common/pdu_header.rs:316-320, `get_pdu_type_all_zeros_returns_other` -/
example (prof : Profile) :
    ∃ t, PduHeader.get_pdu_type prof (List.replicate 12 0) = .ok (some t) ∧ t.debug = "Other" := by
  obtain ⟨c⟩ := prof
  cases c <;> exact ⟨⟨0, by decide⟩, by decide +kernel, by decide +kernel⟩

/-- src/common/data_types/vector3_float.rs:168-193, `test_vector_operations`: `F32.ofNat n` is the literal `n.0`;
`f32::EPSILON` is 2^-23, that is 2^126 units of 2^-149 -/
example :
    let v1 := Vector3Float.new (F32.ofNat 1) (F32.ofNat 2) (F32.ofNat 3)
    let v2 := Vector3Float.new (F32.ofNat 4) (F32.ofNat 5) (F32.ofNat 6)
    REq.eq (v1.add v2) (Vector3Float.new (F32.ofNat 5) (F32.ofNat 7) (F32.ofNat 9)) = true ∧
    REq.eq (v1.dot v2) (F32.ofNat 32) = true ∧
    REq.eq (v1.cross v2) (Vector3Float.new (F32.ofNat 3).negate (F32.ofNat 6) (F32.ofNat 3).negate) = true ∧
    REq.eq (v1.mul (F32.ofNat 2)) (Vector3Float.new (F32.ofNat 2) (F32.ofNat 4) (F32.ofNat 6)) = true ∧
    (((v1.normalize.getD ⟨.zero, .zero, .zero⟩).magnitude.sub F32.one).value).natAbs < 2 ^ 126 := by
  decide +kernel

/-- src/common/data_types/vector3_float.rs:195-202, `test_const_constructors` -/
example : REq.eq Vector3Float.zero (Vector3Float.new (F32.ofNat 0) (F32.ofNat 0) (F32.ofNat 0)) = true ∧
    REq.eq Vector3Float.unit_x (Vector3Float.new (F32.ofNat 1) (F32.ofNat 0) (F32.ofNat 0)) = true := by
  decide +kernel

/-- tests/integration_test.rs:6-16, 18-28, 30-40 -/
example (now : UInt32) :
    (let h := (Pdu.new now : Pdu AcknowledgePdu).header
     h.pdu_type.debug = "Acknowledge" ∧ h.protocol_family.debug = "SimulationManagement") ∧
    (let h := (Pdu.new now : Pdu InformationOperationsActionPdu).header
     h.pdu_type.debug = "InformationOperationsAction" ∧ h.protocol_family.debug = "InformationOperations") ∧
    (let h := (Pdu.new now : Pdu InformationOperationsReportPdu).header
     h.pdu_type.debug = "InformationOperationsReport" ∧ h.protocol_family.debug = "InformationOperations") := by
  show ((PduBody.pduType AcknowledgePdu).debug = "Acknowledge" ∧
      (PduBody.family AcknowledgePdu).debug = "SimulationManagement") ∧
    ((PduBody.pduType InformationOperationsActionPdu).debug = "InformationOperationsAction" ∧
      (PduBody.family InformationOperationsActionPdu).debug = "InformationOperations") ∧
    ((PduBody.pduType InformationOperationsReportPdu).debug = "InformationOperationsReport" ∧
      (PduBody.family InformationOperationsReportPdu).debug = "InformationOperations")
  decide +kernel

end CrateTest
end Dis
