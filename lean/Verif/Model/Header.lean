import Verif.Model.Traits
import Verif.Model.Enums.All
/-
Model of src/common/pdu_header.rs (PDU status record and PDU header), src/common/
live_entity_pdu_header.rs.

The clock: `calculate_dis_timestamp` is modelled in Verif.Model.Timestamp; here its result is the
parameter `now`.
-/
namespace Dis

/-! ### The PDU status record -/

/-- src/common/pdu_header.rs:27-36.  `modular_bitfield` packs the fields from bit 0 upwards into
one octet: `tei` bit 0, `lvc` bits 1-2, `cei` bit 3, `bit4_5` bits 4-5, reserved bits 6-7. -/
structure PduStatusRecord where
  bits : UInt8
  deriving DecidableEq, Repr

namespace PduStatusRecord

/-- `modular_bitfield`'s generated getter: `width` bits at `offset`. -/
def getField (self : PduStatusRecord) (offset width : Nat) : Nat :=
  self.bits.toNat / 2 ^ offset % 2 ^ width

/-- `modular_bitfield`'s generated setter: replaces `width` bits at `offset`; panics when the value
does not fit. -/
def setField (self : PduStatusRecord) (offset width v : Nat) : Except Panic PduStatusRecord :=
  if v < 2 ^ width then
    .ok ⟨UInt8.ofNat (self.bits.toNat - self.getField offset width * 2 ^ offset + v * 2 ^ offset)⟩
  else .error .bitfieldOutOfBounds

/-- The enumeration value of a bit pattern (`Specifier::from_bytes`); every pattern of the field's
width is assigned for the three enumerations used, so the fallback is not reached. -/
def specifier (s : EnumSpec) (v : Nat) : EnumVal s := s.ofCode v

/-- src/common/pdu_header.rs:40-42 -/
def new_zero : PduStatusRecord := ⟨0⟩
/-- src/common/pdu_header.rs:30 (generated getter) -/
def tei (self : PduStatusRecord) : TransferredEntityIndicator := specifier _ (self.getField 0 1)
/-- src/common/pdu_header.rs:30 (generated setter) -/
def set_tei (self : PduStatusRecord) (v : TransferredEntityIndicator) : Except Panic PduStatusRecord :=
  self.setField 0 1 v.code
/-- src/common/pdu_header.rs:31 (generated getter) -/
def lvc (self : PduStatusRecord) : LVCIndicator := specifier _ (self.getField 1 2)
/-- src/common/pdu_header.rs:31 (generated setter) -/
def set_lvc (self : PduStatusRecord) (v : LVCIndicator) : Except Panic PduStatusRecord :=
  self.setField 1 2 v.code
/-- src/common/pdu_header.rs:32 (generated getter) -/
def cei (self : PduStatusRecord) : CoupledExtensionIndicator := specifier _ (self.getField 3 1)
/-- src/common/pdu_header.rs:32 (generated setter) -/
def set_cei (self : PduStatusRecord) (v : CoupledExtensionIndicator) : Except Panic PduStatusRecord :=
  self.setField 3 1 v.code
/-- src/common/pdu_header.rs:33 (generated getter) -/
def bit4_5 (self : PduStatusRecord) : UInt8 := UInt8.ofNat (self.getField 4 2)
/-- src/common/pdu_header.rs:33 (generated setter) -/
def set_bit4_5 (self : PduStatusRecord) (v : UInt8) : Except Panic PduStatusRecord :=
  self.setField 4 2 v.toNat

/-- src/common/enums.rs:10400-10408 `DetonationTypeIndicator::from(u8)` -/
def dtiOfU8 (v : UInt8) : DetonationTypeIndicator :=
  if v &&& 3 = 1 then ⟨1, by decide⟩ else if v &&& 3 = 2 then ⟨2, by decide⟩ else ⟨0, by decide⟩
/-- src/common/enums.rs:10433-10441 `RadioAttachedIndicator::from(u8)` -/
def raiOfU8 (v : UInt8) : RadioAttachedIndicator :=
  if v &&& 3 = 1 then ⟨1, by decide⟩ else if v &&& 3 = 2 then ⟨2, by decide⟩ else ⟨0, by decide⟩
/-- src/common/enums.rs:10466-10474 `IntercomAttachedIndicator::from(u8)` -/
def iaiOfU8 (v : UInt8) : IntercomAttachedIndicator :=
  if v &&& 3 = 1 then ⟨1, by decide⟩ else if v &&& 3 = 2 then ⟨2, by decide⟩ else ⟨0, by decide⟩

/-- src/common/pdu_header.rs:45-47 -/
def get_dti (self : PduStatusRecord) : DetonationTypeIndicator := dtiOfU8 self.bit4_5
/-- src/common/pdu_header.rs:49-51 -/
def set_dti (self : PduStatusRecord) (dti : DetonationTypeIndicator) : Except Panic PduStatusRecord :=
  self.set_bit4_5 dti.asU8
/-- src/common/pdu_header.rs:54-56 -/
def get_rai (self : PduStatusRecord) : RadioAttachedIndicator := raiOfU8 self.bit4_5
/-- src/common/pdu_header.rs:58-60 -/
def set_rai (self : PduStatusRecord) (rai : RadioAttachedIndicator) : Except Panic PduStatusRecord :=
  self.set_bit4_5 rai.asU8
/-- src/common/pdu_header.rs:63-65 -/
def get_iai (self : PduStatusRecord) : IntercomAttachedIndicator := iaiOfU8 self.bit4_5
/-- src/common/pdu_header.rs:67-69 -/
def set_iai (self : PduStatusRecord) (iai : IntercomAttachedIndicator) : Except Panic PduStatusRecord :=
  self.set_bit4_5 iai.asU8
/-- src/common/pdu_header.rs:72-79 -/
def get_fti (self : PduStatusRecord) : FireTypeIndicator :=
  if self.bit4_5 &&& 1 = 0 then ⟨0, by decide⟩ else ⟨1, by decide⟩
/-- src/common/pdu_header.rs:81-85 -/
def set_fti (self : PduStatusRecord) (fti : FireTypeIndicator) : Except Panic PduStatusRecord :=
  self.set_bit4_5 ((self.bit4_5 &&& 2) ||| (fti.asU8 &&& 1))
/-- src/common/pdu_header.rs:88-95 -/
def get_ism (self : PduStatusRecord) : PduStatusIFFSimulationMode :=
  if self.bit4_5 &&& 1 = 0 then ⟨0, by decide⟩ else ⟨1, by decide⟩
/-- src/common/pdu_header.rs:97-101 -/
def set_ism (self : PduStatusRecord) (ism : PduStatusIFFSimulationMode) : Except Panic PduStatusRecord :=
  self.set_bit4_5 ((self.bit4_5 &&& 2) ||| (ism.asU8 &&& 1))
/-- src/common/pdu_header.rs:104-111 -/
def get_aii (self : PduStatusRecord) : ActiveInterrogationIndicator :=
  if (self.bit4_5 >>> (1 : UInt8)) &&& 1 = 0 then ⟨0, by decide⟩ else ⟨1, by decide⟩
/-- src/common/pdu_header.rs:113-117 -/
def set_aii (self : PduStatusRecord) (aii : ActiveInterrogationIndicator) : Except Panic PduStatusRecord :=
  self.set_bit4_5 ((self.bit4_5 &&& 1) ||| (aii.asU8 <<< (1 : UInt8)))
/-- src/common/pdu_header.rs:120-122 -/
def to_u8 (self : PduStatusRecord) : UInt8 := self.bits
/-- src/common/pdu_header.rs:125-127 -/
def from_u8 (b : UInt8) : PduStatusRecord := ⟨b⟩

end PduStatusRecord

/-- src/common/pdu_header.rs:130-134 -/
instance : RDefault PduStatusRecord := ⟨PduStatusRecord.new_zero⟩

/-! ### The PDU header -/

/-- src/common/pdu_header.rs:136-154 -/
structure PduHeader where
  protocol_version : ProtocolVersion
  exercise_id : UInt8
  pdu_type : PduType
  protocol_family : ProtocolFamily
  timestamp : UInt32
  length : UInt16
  status_record : PduStatusRecord
  padding : UInt8
  deriving DecidableEq

namespace PduHeader

/-- src/common/enums.rs:29 -/
def IEEE1278_1_2012 : ProtocolVersion := ⟨7, by decide⟩

/-- src/common/pdu_header.rs:287 -/
def LENGTH : Nat := 12
/-- src/common/pdu_header.rs:156-169; `now` is what `calculate_dis_timestamp` returned. -/
def default (now : UInt32) : PduHeader where
  protocol_version := IEEE1278_1_2012
  exercise_id := 1
  pdu_type := dflt
  protocol_family := dflt
  timestamp := now
  length := 0
  status_record := dflt
  padding := 0
/-- src/common/pdu_header.rs:223-239 -/
def new (now : UInt32) (pdu_type : PduType) (protocol_family : ProtocolFamily) (exercise_id : UInt8)
    (length : UInt16) : PduHeader where
  protocol_version := IEEE1278_1_2012
  exercise_id := exercise_id
  pdu_type := pdu_type
  protocol_family := protocol_family
  timestamp := now
  length := length
  status_record := dflt
  padding := 0
/-- src/common/pdu_header.rs:176-178 -/
def set_pdu_type (self : PduHeader) (value : PduType) : PduHeader := { self with pdu_type := value }
/-- src/common/pdu_header.rs:184-186 -/
def set_protocol_family (self : PduHeader) (value : ProtocolFamily) : PduHeader :=
  { self with protocol_family := value }
/-- src/common/pdu_header.rs:192-194 -/
def set_length (self : PduHeader) (value : UInt16) : PduHeader := { self with length := value }
/-- src/common/pdu_header.rs:172-174 (`GenericHeader::pdu_type`) -/
def get_type (self : PduHeader) : PduType := self.pdu_type
/-- src/common/pdu_header.rs:180-182 (`GenericHeader::protocol_family`) -/
def get_family (self : PduHeader) : ProtocolFamily := self.protocol_family
/-- src/common/pdu_header.rs:188-190 (`GenericHeader::length`) -/
def get_length (self : PduHeader) : UInt16 := self.length
/-- src/common/pdu_header.rs:196-205 -/
def serialize (self : PduHeader) : Put := do
  putU8 self.protocol_version.asU8
  putU8 self.exercise_id
  putU8 self.pdu_type.asU8
  putU8 self.protocol_family.asU8
  putU32 self.timestamp
  putU16 self.length
  putU8 self.status_record.to_u8
  putU8 self.padding
/-- src/common/pdu_header.rs:207-218 -/
def deserialize : Get PduHeader := do
  let protocol_version ← ProtocolVersion.deserialize
  let exercise_id ← getU8
  let pdu_type ← PduType.deserialize
  let protocol_family ← ProtocolFamily.deserialize
  let timestamp ← getU32
  let length ← getU16
  let status_record ← getU8
  let padding ← getU8
  return { protocol_version, exercise_id, pdu_type, protocol_family, timestamp, length,
           status_record := .from_u8 status_record, padding }
/-- src/common/pdu_header.rs:259-265 -/
def get_pdu_type (prof : Profile) (bytes : Bytes) : Except Panic (Option PduType) :=
  if bytes.length < LENGTH then .ok none
  else match deserialize prof (bytes.take LENGTH) with
    | .error e => .error e
    | .ok (h, _) => .ok (some h.pdu_type)

end PduHeader

/-- src/common/pdu_header.rs:268-272 -/
instance : FieldSerialize PduHeader := ⟨PduHeader.serialize⟩
/-- src/common/pdu_header.rs:274-278 -/
instance : FieldDeserialize PduHeader := ⟨PduHeader.deserialize⟩
/-- src/common/pdu_header.rs:280-284 -/
instance : FieldLen PduHeader := ⟨fun _ => PduHeader.LENGTH⟩

/-! ### The live-entity header -/

/-- src/common/live_entity_pdu_header.rs:15-33 -/
structure LiveEntityPduHeader where
  protocol_version : ProtocolVersion
  exercise_id : UInt8
  pdu_type : PduType
  protocol_family : ProtocolFamily
  timestamp : UInt32
  length : UInt16
  subprotocol_number : DISLiveEntitySubprotocolNumber
  padding : UInt8
  deriving DecidableEq

namespace LiveEntityPduHeader

/-- src/common/live_entity_pdu_header.rs:136 -/
def LENGTH : Nat := 12
/-- src/common/live_entity_pdu_header.rs:35-48 -/
def default (now : UInt32) : LiveEntityPduHeader where
  protocol_version := PduHeader.IEEE1278_1_2012
  exercise_id := 1
  pdu_type := dflt
  protocol_family := dflt
  timestamp := now
  length := 0
  subprotocol_number := dflt
  padding := 0
/-- src/common/live_entity_pdu_header.rs:101-117 (the second clock reading, by `..Default::default()`,
is discarded) -/
def new (now : UInt32) (pdu_type : PduType) (protocol_family : ProtocolFamily) (exercise_id : UInt8)
    (length : UInt16) : LiveEntityPduHeader :=
  { default now with protocol_version := PduHeader.IEEE1278_1_2012, exercise_id, pdu_type,
                     protocol_family, timestamp := now, length }
/-- src/common/live_entity_pdu_header.rs:51-53 (`GenericHeader::pdu_type`) -/
def get_type (self : LiveEntityPduHeader) : PduType := self.pdu_type
/-- src/common/live_entity_pdu_header.rs:55-57 -/
def set_pdu_type (self : LiveEntityPduHeader) (value : PduType) : LiveEntityPduHeader :=
  { self with pdu_type := value }
/-- src/common/live_entity_pdu_header.rs:59-61 (`GenericHeader::protocol_family`) -/
def get_family (self : LiveEntityPduHeader) : ProtocolFamily := self.protocol_family
/-- src/common/live_entity_pdu_header.rs:63-65 -/
def set_protocol_family (self : LiveEntityPduHeader) (value : ProtocolFamily) : LiveEntityPduHeader :=
  { self with protocol_family := value }
/-- src/common/live_entity_pdu_header.rs:67-69 (`GenericHeader::length`) -/
def get_length (self : LiveEntityPduHeader) : UInt16 := self.length
/-- src/common/live_entity_pdu_header.rs:71-73 -/
def set_length (self : LiveEntityPduHeader) (value : UInt16) : LiveEntityPduHeader :=
  { self with length := value }
/-- src/common/live_entity_pdu_header.rs:75-84 -/
def serialize (self : LiveEntityPduHeader) : Put := do
  putU8 self.protocol_version.asU8
  putU8 self.exercise_id
  putU8 self.pdu_type.asU8
  putU8 self.protocol_family.asU8
  putU32 self.timestamp
  putU16 self.length
  putU8 self.subprotocol_number.asU8
  putU8 self.padding
/-- src/common/live_entity_pdu_header.rs:86-97 -/
def deserialize : Get LiveEntityPduHeader := do
  let protocol_version ← ProtocolVersion.deserialize
  let exercise_id ← getU8
  let pdu_type ← PduType.deserialize
  let protocol_family ← ProtocolFamily.deserialize
  let timestamp ← getU32
  let length ← getU16
  let subprotocol_number ← DISLiveEntitySubprotocolNumber.deserialize
  let padding ← getU8
  return { protocol_version, exercise_id, pdu_type, protocol_family, timestamp, length,
           subprotocol_number, padding }

end LiveEntityPduHeader

end Dis
