import Verif.Model.Float32
/-
Model of `calculate_dis_timestamp`: src/common/pdu_header.rs:248-254, and the same code again at
src/common/live_entity_pdu_header.rs:126-132.

The clock (`chrono::Utc::now()`) is read three times; the model takes the three readings as arguments.
-/
namespace Dis

/-- `a * b` on `u32`: panics on overflow when overflow checks are on, wraps otherwise. -/
def mulU32 (prof : Profile) (a b : UInt32) : Except Panic UInt32 :=
  if prof.overflowChecks ∧ 4294967296 ≤ a.toNat * b.toNat then .error .arithmeticOverflow
  else .ok (a * b)

/-- The literal `1.68` of src/common/pdu_header.rs:252 as an `f32`. -/
def dis_1_68 : F32 := ⟨0x3FD70A3D⟩

/-- src/common/pdu_header.rs:252-253 for a sum of microseconds (a `u64`) -/
def stampOf (micros : Nat) : UInt32 := ((F32.ofNat micros).div dis_1_68).toU32

/-- src/common/pdu_header.rs:248-254.  The `u64` sum of three `u32` cannot overflow, so `Nat`. -/
def calculate_dis_timestamp (minute second nanosecond : UInt32) (prof : Profile) : Except Panic UInt32 := do
  let minute_curr ← mulU32 prof (← mulU32 prof minute 60) 1000000
  let second_curr ← mulU32 prof second 1000000
  let nanosecond_curr := nanosecond / 1000
  return stampOf (second_curr.toNat + minute_curr.toNat + nanosecond_curr.toNat)

end Dis
