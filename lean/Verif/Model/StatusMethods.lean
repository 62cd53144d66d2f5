import Verif.Model.Header
/-
The other methods `modular_bitfield` writes for each public field of the PDU status record
(src/common/pdu_header.rs:27-36): `with_*` (a setter that takes and returns the record), `set_*_checked` and
`with_*_checked` (which return an error instead of panicking) and `*_or_err` (a getter that returns an error for
a bit pattern without a variant).  Their source is in the dependency, not in /repo; they are modelled as its
documentation describes them.
-/
namespace Dis

/-- The error types of `modular_bitfield`: `OutOfBounds` and `InvalidBitPattern`. -/
inductive BitfieldError where
  | OutOfBounds
  | InvalidBitPattern (bits : Nat)
  deriving DecidableEq, Repr

namespace PduStatusRecord

/-- src/common/pdu_header.rs:27 (generated checked setter): the record afterwards, and the result -/
def setFieldChecked (self : PduStatusRecord) (offset width v : Nat) :
    PduStatusRecord × Except BitfieldError Unit :=
  if v < 2 ^ width then
    (⟨UInt8.ofNat (self.bits.toNat - self.getField offset width * 2 ^ offset + v * 2 ^ offset)⟩, .ok ())
  else (self, .error .OutOfBounds)
/-- src/common/pdu_header.rs:27 (generated consuming checked setter) -/
def withFieldChecked (self : PduStatusRecord) (offset width v : Nat) : Except BitfieldError PduStatusRecord :=
  match self.setFieldChecked offset width v with
  | (r, .ok ()) => .ok r
  | (_, .error e) => .error e
/-- src/common/pdu_header.rs:27 (generated fallible getter of an enumeration) -/
def specifierOrErr (s : EnumSpec) (v : Nat) : Except BitfieldError (EnumVal s) :=
  match s.fromPrimitive v with
  | some x => .ok x
  | none => .error (.InvalidBitPattern v)

/-- src/common/pdu_header.rs:30 (generated) -/
def with_tei (self : PduStatusRecord) (v : TransferredEntityIndicator) := self.setField 0 1 v.code
/-- src/common/pdu_header.rs:30 (generated) -/
def set_tei_checked (self : PduStatusRecord) (v : TransferredEntityIndicator) := self.setFieldChecked 0 1 v.code
/-- src/common/pdu_header.rs:30 (generated) -/
def with_tei_checked (self : PduStatusRecord) (v : TransferredEntityIndicator) := self.withFieldChecked 0 1 v.code
/-- src/common/pdu_header.rs:30 (generated) -/
def tei_or_err (self : PduStatusRecord) : Except BitfieldError TransferredEntityIndicator :=
  specifierOrErr _ (self.getField 0 1)
/-- src/common/pdu_header.rs:31 (generated) -/
def with_lvc (self : PduStatusRecord) (v : LVCIndicator) := self.setField 1 2 v.code
/-- src/common/pdu_header.rs:31 (generated) -/
def set_lvc_checked (self : PduStatusRecord) (v : LVCIndicator) := self.setFieldChecked 1 2 v.code
/-- src/common/pdu_header.rs:31 (generated) -/
def with_lvc_checked (self : PduStatusRecord) (v : LVCIndicator) := self.withFieldChecked 1 2 v.code
/-- src/common/pdu_header.rs:31 (generated) -/
def lvc_or_err (self : PduStatusRecord) : Except BitfieldError LVCIndicator :=
  specifierOrErr _ (self.getField 1 2)
/-- src/common/pdu_header.rs:32 (generated) -/
def with_cei (self : PduStatusRecord) (v : CoupledExtensionIndicator) := self.setField 3 1 v.code
/-- src/common/pdu_header.rs:32 (generated) -/
def set_cei_checked (self : PduStatusRecord) (v : CoupledExtensionIndicator) := self.setFieldChecked 3 1 v.code
/-- src/common/pdu_header.rs:32 (generated) -/
def with_cei_checked (self : PduStatusRecord) (v : CoupledExtensionIndicator) := self.withFieldChecked 3 1 v.code
/-- src/common/pdu_header.rs:32 (generated) -/
def cei_or_err (self : PduStatusRecord) : Except BitfieldError CoupledExtensionIndicator :=
  specifierOrErr _ (self.getField 3 1)
/-- src/common/pdu_header.rs:33 (generated) -/
def with_bit4_5 (self : PduStatusRecord) (v : UInt8) := self.setField 4 2 v.toNat
/-- src/common/pdu_header.rs:33 (generated) -/
def set_bit4_5_checked (self : PduStatusRecord) (v : UInt8) := self.setFieldChecked 4 2 v.toNat
/-- src/common/pdu_header.rs:33 (generated) -/
def with_bit4_5_checked (self : PduStatusRecord) (v : UInt8) := self.withFieldChecked 4 2 v.toNat
/-- src/common/pdu_header.rs:33 (generated) -/
def bit4_5_or_err (self : PduStatusRecord) : Except BitfieldError UInt8 := .ok (UInt8.ofNat (self.getField 4 2))

end PduStatusRecord

/-! ### The derived trait `Specifier` -/

/-- The enumerations with `#[derive(Specifier)]` and their `#[bits = ...]`: src/common/enums.rs:10325-10327, 10341-10343,
10359-10361, 10375-10377, 10391-10393, 10424-10426, 10457-10459, 10490-10492, 12084-12086 -/
def specifiers : List (EnumSpec × Nat) := [
  (TransferredEntityIndicator.spec, 1), (LVCIndicator.spec, 2), (CoupledExtensionIndicator.spec, 1),
  (FireTypeIndicator.spec, 1), (DetonationTypeIndicator.spec, 2), (RadioAttachedIndicator.spec, 2),
  (IntercomAttachedIndicator.spec, 2), (PduStatusIFFSimulationMode.spec, 1), (ActiveInterrogationIndicator.spec, 1)]

/-- src/common/enums.rs:10325 (generated `Specifier::into_bytes`): the discriminant, as the octet `Self::Bytes` -/
def EnumVal.into_bytes {s : EnumSpec} (x : EnumVal s) : Except BitfieldError UInt8 := .ok (UInt8.ofNat x.code)
/-- src/common/enums.rs:10325 (generated `Specifier::from_bytes`) -/
def EnumSpec.from_bytes (s : EnumSpec) (bytes : UInt8) : Except BitfieldError (EnumVal s) :=
  PduStatusRecord.specifierOrErr s bytes.toNat

end Dis
