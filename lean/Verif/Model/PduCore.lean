import Verif.Model.Errors
/-
Model of src/pdu_macro.rs:215-369 (`define_pdu!`) and of the provided method of the `Pdu` trait,
src/common/pdu.rs:24-27.

What the macro generates for one PDU kind is split into the part that depends on the field list
(class `PduBody`, instances in Verif.Model.Pdus) and the part that does not (this file).
-/
namespace Dis

/-- src/common/constants.rs:19 -/
def MAX_PDU_SIZE_OCTETS : Nat := 8192

/-- The field-dependent code generated by one `define_pdu!` invocation; `B` is the structure without
its header. -/
class PduBody (B : Type) where
  /-- the macro argument `pdu_type` -/
  pduType : PduType
  /-- the macro argument `protocol_family` -/
  family : ProtocolFamily
  /-- src/pdu_macro.rs:244-246 -/
  default : B
  /-- src/pdu_macro.rs:283-285 -/
  fieldsLen : B → Nat
  /-- src/pdu_macro.rs:309 -/
  prep : B → B
  /-- src/pdu_macro.rs:319-321 -/
  serializeBody : B → Put
  /-- src/pdu_macro.rs:257-272.  The header built at line 267 is overwritten by every caller and
  therefore omitted (building it reads the clock and cannot panic, see Verif.Model.Timestamp). -/
  deserializeBody : Get B

/-- src/pdu_macro.rs:232-237 -/
structure Pdu (B : Type) where
  header : PduHeader
  body : B
  deriving DecidableEq

namespace Pdu
variable {B : Type} [PduBody B]
open PduBody (pduType family fieldsLen prep serializeBody deserializeBody)

/-- src/pdu_macro.rs:240-249 -/
def default (now : UInt32) : Pdu B := ⟨PduHeader.default now, PduBody.default⟩

/-- src/pdu_macro.rs:279-291.  `usize` sums are modelled in `Nat` (a sum over values held in memory
does not overflow `usize`). -/
def calculate_length (self : Pdu B) : Except DISError UInt16 :=
  let len := PduHeader.LENGTH + fieldsLen self.body
  if len < 65536 then .ok (UInt16.ofNat len) else .error (.PduSizeExceeded len MAX_PDU_SIZE_OCTETS)

/-- src/common/pdu.rs:24-27 -/
def finalize (self : Pdu B) : Pdu B :=
  let len := match self.calculate_length with
    | .ok n => n
    | .error _ => 0
  { self with header := self.header.set_length len }

/-- src/pdu_macro.rs:301-324.  `&mut self` is modelled by returning the updated value beside the
result. -/
def serialize (self : Pdu B) : M (Pdu B × Except DISError Unit) :=
  let s1 := { self with header := self.header.set_pdu_type (pduType B) }
  let s2 := { s1 with header := s1.header.set_protocol_family (family B) }
  let s3 := { s2 with body := prep s2.body }
  match s3.calculate_length with
  | .error e => pure (s3, .error e)
  | .ok len => do
    let s4 := { s3 with header := s3.header.set_length len }
    s4.header.serialize
    serializeBody s4.body
    return (s4, .ok ())

/-- src/pdu_macro.rs:303-313, by themselves: what `serialize` does to `self`, and the error with which it gives up at line
312.  All assignments to `self` come before the first write, so this is the caller's value however the call ends, also
when line 316 or 320 panics.  (C54_assignments_returned: it is the value that `serialize` above returns, if it returns.) -/
def assigned (self : Pdu B) : Pdu B × Except DISError Unit :=
  let s1 := { self with header := self.header.set_pdu_type (pduType B) }
  let s2 := { s1 with header := s1.header.set_protocol_family (family B) }
  let s3 := { s2 with body := prep s2.body }
  match s3.calculate_length with
  | .error e => (s3, .error e)
  | .ok len => ({ s3 with header := s3.header.set_length len }, .ok ())

/-- the message of src/pdu_macro.rs:334 -/
def wrongType (expected got : PduType) : String :=
  "Expected PDU type " ++ expected.debug ++ ", got " ++ got.debug

/-- src/pdu_macro.rs:326-343 -/
def deserialize : Get (Except DISError (Pdu B)) := do
  let header ← (deserialize_field : Get PduHeader)
  if header.pdu_type ≠ pduType B then
    return .error (.invalid_header (wrongType (pduType B) header.pdu_type) none)
  else
    let body ← (deserializeBody : Get B)
    return .ok ⟨header, body⟩

/-- src/pdu_macro.rs:345-350 -/
def deserialize_without_header (header : PduHeader) : Get (Except DISError (Pdu B)) := do
  let body ← (deserializeBody : Get B)
  return .ok ⟨header, body⟩

/-- src/pdu_macro.rs:360-366 -/
def new (now : UInt32) : Pdu B :=
  let pdu : Pdu B := default now
  let pdu := { pdu with header := pdu.header.set_pdu_type (pduType B) }
  let pdu := { pdu with header := pdu.header.set_protocol_family (family B) }
  pdu.finalize

end Pdu
end Dis
