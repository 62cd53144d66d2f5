import Verif.Model.PduCore
/-
Model of the helper functions of src/common/constants.rs. `usize` is 64 bits wide.
(`MAX_PDU_SIZE_OCTETS`, src/common/constants.rs:19, is in Verif.Model.PduCore.)
-/
namespace Dis

/-- src/common/constants.rs:20 -/
def MAX_PDU_SIZE_BITS : Nat := 65536
/-- src/common/constants.rs:24 -/
def PDU_HEADER_SIZE : UInt64 := 12
/-- src/common/constants.rs:30 -/
def MAX_ENTITY_MARKING_LENGTH : UInt64 := 32

/-- src/common/constants.rs:61-65 -/
def validate_pdu_size (size : UInt64) : Bool := decide (size.toNat ≤ MAX_PDU_SIZE_OCTETS)

/-- src/common/constants.rs:67-71: the sum panics on overflow when overflow checks are on, wraps otherwise. -/
def total_pdu_size (payload_size : UInt64) (prof : Profile) : Except Panic UInt64 :=
  if prof.overflowChecks ∧ 2 ^ 64 ≤ PDU_HEADER_SIZE.toNat + payload_size.toNat then .error .arithmeticOverflow
  else .ok (PDU_HEADER_SIZE + payload_size)

/-- src/common/constants.rs:73-77 -/
def validate_marking_length (len : UInt64) : Bool := decide (len ≤ MAX_ENTITY_MARKING_LENGTH)

end Dis
