import Verif.Model.Flags
import Verif.Model.Enums.All
/-
Records of src/common/data_types whose code is more than a list of fields.
-/
namespace Dis

/-! ### src/common/data_types/entity_marking.rs -/

/-- src/common/data_types/entity_marking.rs:8-11 -/
structure EntityMarking where
  entity_marking_character_set : EntityMarkingCharacterSet
  entity_marking_string : String
  deriving DecidableEq
/-- src/common/data_types/entity_marking.rs:7 (derived) -/
instance : RDefault EntityMarking := ⟨⟨dflt, dflt⟩⟩
/-- src/common/data_types/entity_marking.rs:58 -/
def EntityMarking.LENGTH : Nat := 12
/-- src/common/data_types/entity_marking.rs:25-29 -/
def EntityMarking.serialize (self : EntityMarking) : Put := do
  putU8 self.entity_marking_character_set.asU8
  putBytes (strBytes self.entity_marking_string)
/-- src/common/data_types/entity_marking.rs:31-36: the text is the decimal number of octets that
remain in the buffer; no octet of the text itself is read. -/
def EntityMarking.deserialize : Get EntityMarking := do
  let cs ← EntityMarkingCharacterSet.deserialize
  let r ← remaining
  return ⟨cs, toString r⟩
/-- src/common/data_types/entity_marking.rs:39-43 -/
instance : FieldSerialize EntityMarking := ⟨EntityMarking.serialize⟩
/-- src/common/data_types/entity_marking.rs:45-49 -/
instance : FieldDeserialize EntityMarking := ⟨EntityMarking.deserialize⟩
/-- src/common/data_types/entity_marking.rs:51-55 -/
instance : FieldLen EntityMarking := ⟨fun _ => EntityMarking.LENGTH⟩

/-! ### src/common/data_types/datum_records.rs -/

/-- src/common/data_types/datum_records.rs:52-56 -/
structure VariableDatumRecord where
  datum_id : UInt32
  length_bits : UInt32
  value : Bytes
  deriving DecidableEq
/-- src/common/data_types/datum_records.rs:59-61 -/
def VariableDatumRecord.bytes_count (length_bits : UInt32) : Nat := (length_bits.toNat + 7) / 8
/-- src/common/data_types/datum_records.rs:63-83.  The comparison at lines 68-70 has an empty body
and is omitted.  `pad_bits` is computed on `u32`; all its operands are at most 64, so `Nat`. -/
def VariableDatumRecord.serialize (self : VariableDatumRecord) : Put := do
  putU32 self.datum_id
  putU32 self.length_bits
  putEach putU8 self.value
  let pad_bits := (64 - self.length_bits.toNat % 64) % 64
  let pad_bytes := pad_bits / 8
  if pad_bytes > 0 then
    putEach putU8 (List.replicate pad_bytes 0)
/-- src/common/data_types/datum_records.rs:85-100.  `value` starts as `value_bytes` zeros and the
octets read are pushed after them. -/
def VariableDatumRecord.deserialize : Get VariableDatumRecord := do
  let datum_id ← getU32
  let length_bits ← getU32
  let value_bytes := VariableDatumRecord.bytes_count length_bits
  M.reserve value_bytes
  let pushed ← getN getU8 value_bytes
  return { datum_id, length_bits, value := List.replicate value_bytes 0 ++ pushed }
/-- src/common/data_types/datum_records.rs:103-107 -/
instance : FieldSerialize VariableDatumRecord := ⟨VariableDatumRecord.serialize⟩
/-- src/common/data_types/datum_records.rs:109-113 -/
instance : FieldDeserialize VariableDatumRecord := ⟨VariableDatumRecord.deserialize⟩
/-- src/common/data_types/datum_records.rs:115-119 -/
instance : FieldLen VariableDatumRecord :=
  ⟨fun self => field_len self.datum_id + field_len self.length_bits + field_len self.value⟩

/-! ### src/common/data_types/record_specification_element.rs -/

/-- src/common/data_types/record_specification_element.rs:11-17 -/
structure RecordSpecificationElement where
  record_id : UInt32
  record_set_serial_number : UInt32
  record_length : UInt16
  record_count : UInt16
  record_values : Bytes
  deriving DecidableEq
/-- `a * b` on `u16`: panics on overflow when overflow checks are on, wraps otherwise. -/
def mulU16 (a b : UInt16) : M UInt16 where
  run prof buf :=
    if prof.overflowChecks ∧ 65536 ≤ a.toNat * b.toNat then .error .arithmeticOverflow
    else .ok (a * b, buf)
  log _ _ := []
  sound _ _ _ _ h := by
    split at h
    · cases h
    · cases h; rfl
/-- `buf.put_u8(xs[i])` -/
def putIndex (xs : Bytes) (i : Nat) : Put :=
  match xs[i]? with
  | some b => putU8 b
  | none => M.panic .indexOutOfBounds
/-- src/common/data_types/record_specification_element.rs:37-46 -/
def RecordSpecificationElement.serialize (self : RecordSpecificationElement) : Put := do
  putU32 self.record_id
  putU32 self.record_set_serial_number
  putU16 self.record_length
  putU16 self.record_count
  let num_record_values ← mulU16 self.record_length self.record_count
  putEach (putIndex self.record_values) (List.range num_record_values.toNat)
/-- src/common/data_types/record_specification_element.rs:48-66 -/
def RecordSpecificationElement.deserialize : Get RecordSpecificationElement := do
  let record_id ← getU32
  let record_set_serial_number ← getU32
  let record_length ← getU16
  let record_count ← getU16
  let num_record_values ← mulU16 record_length record_count
  let record_values ← getN getU8 num_record_values.toNat
  return { record_id, record_set_serial_number, record_length, record_count, record_values }
/-- src/common/data_types/record_specification_element.rs:69-73 -/
instance : FieldSerialize RecordSpecificationElement := ⟨RecordSpecificationElement.serialize⟩
/-- src/common/data_types/record_specification_element.rs:75-79 -/
instance : FieldDeserialize RecordSpecificationElement := ⟨RecordSpecificationElement.deserialize⟩
/-- src/common/data_types/record_specification_element.rs:81-89 -/
instance : FieldLen RecordSpecificationElement := ⟨fun self =>
  field_len self.record_id + field_len self.record_set_serial_number + field_len self.record_length
    + field_len self.record_count + field_len self.record_values⟩

/-! ### src/common/data_types/grid_axis_descriptor.rs -/

/-- src/common/enums.rs:11873 -/
def GridAxisDescriptorAxisType.RegularAxis : GridAxisDescriptorAxisType := ⟨0, by decide⟩
/-- src/common/enums.rs:11874 -/
def GridAxisDescriptorAxisType.IrregularAxis : GridAxisDescriptorAxisType := ⟨1, by decide⟩

/-- src/common/data_types/grid_axis_descriptor.rs:14-27 -/
inductive GridAxisType where
  | FixedSpacing (number_of_points_on_x_axis initial_index : UInt16)
  | VariableSpacing (number_of_points_on_x_axis initial_index : UInt16)
      (coordinate_scale_x coordinate_offset_x : F64) (x_values : List UInt16) (padding : Bytes)
  deriving DecidableEq
/-- src/common/data_types/grid_axis_descriptor.rs:29-53 -/
instance : FieldLen GridAxisType where
  field_len
    | .FixedSpacing n i => field_len n + field_len i
    | .VariableSpacing n i s o xs p =>
      field_len n + field_len i + field_len s + field_len o + field_len xs + field_len p
/-- src/common/data_types/grid_axis_descriptor.rs:56-63 -/
structure GridAxisDescriptor where
  domain_initial : F64
  domain_final : F64
  domain_points : UInt16
  interleaf_factor : UInt8
  axis_type : GridAxisDescriptorAxisType
  data : GridAxisType
  deriving DecidableEq
/-- src/common/data_types/grid_axis_descriptor.rs:85-119 -/
def GridAxisDescriptor.serialize (self : GridAxisDescriptor) : Put := do
  putF64 self.domain_initial
  putF64 self.domain_final
  putU16 self.domain_points
  putU8 self.interleaf_factor
  putU8 self.axis_type.asU8
  match self.data with
  | .FixedSpacing n i => do
    putU16 n
    putU16 i
  | .VariableSpacing n i s o xs p => do
    putU16 n
    putU16 i
    putF64 s
    putF64 o
    putEach putU16 xs
    putEach putU8 p
/-- src/common/data_types/grid_axis_descriptor.rs:127-155: the `match axis_type` expression. -/
def GridAxisDescriptor.deserializeData (axis_type : GridAxisDescriptorAxisType) : Get GridAxisType :=
  if axis_type = .RegularAxis then do
    let n ← getU16
    let i ← getU16
    return .FixedSpacing n i
  else do
    let n ← getU16
    let i ← getU16
    let s ← getF64
    let o ← getF64
    let xs ← getN getU16 n.toNat
    let p ← getRest
    return .VariableSpacing n i s o xs p
/-- src/common/data_types/grid_axis_descriptor.rs:121-165 -/
def GridAxisDescriptor.deserialize : Get GridAxisDescriptor := do
  let domain_initial ← getF64
  let domain_final ← getF64
  let domain_points ← getU16
  let interleaf_factor ← getU8
  let axis_type ← GridAxisDescriptorAxisType.deserialize
  let data ← GridAxisDescriptor.deserializeData axis_type
  return { domain_initial, domain_final, domain_points, interleaf_factor, axis_type, data }
/-- src/common/data_types/grid_axis_descriptor.rs:168-172 -/
instance : FieldSerialize GridAxisDescriptor := ⟨GridAxisDescriptor.serialize⟩
/-- src/common/data_types/grid_axis_descriptor.rs:174-178 -/
instance : FieldDeserialize GridAxisDescriptor := ⟨GridAxisDescriptor.deserialize⟩
/-- src/common/data_types/grid_axis_descriptor.rs:180-189 -/
instance : FieldLen GridAxisDescriptor := ⟨fun self =>
  field_len self.domain_initial + field_len self.domain_final + field_len self.domain_points
    + field_len self.interleaf_factor + field_len self.axis_type + field_len self.data⟩

/-! ### src/common/data_types/grid_data_record.rs -/

/-- src/common/enums.rs:9579 -/
def GriddedDataDataRepresentation.Type0 : GriddedDataDataRepresentation := ⟨0, by decide⟩
/-- src/common/enums.rs:9580 -/
def GriddedDataDataRepresentation.Type1 : GriddedDataDataRepresentation := ⟨1, by decide⟩
/-- src/common/enums.rs:9581 -/
def GriddedDataDataRepresentation.Type2 : GriddedDataDataRepresentation := ⟨2, by decide⟩

/-- src/common/data_types/grid_data_record.rs:14-32 -/
inductive DataRepresentationType where
  | Type0 (number_of_octets : UInt16) (data_values padding : Bytes)
  | Type1 (field_scale field_offset : F32) (number_of_values : UInt16) (data_values : List UInt16)
      (padding : Bytes)
  | Type2 (number_of_values padding : UInt16) (data_values : List F32)
  deriving DecidableEq
/-- src/common/data_types/grid_data_record.rs:34-62 -/
instance : FieldLen DataRepresentationType where
  field_len
    | .Type0 n d p => field_len n + field_len d + field_len p
    | .Type1 s o n d p => field_len s + field_len o + field_len n + field_len d + field_len p
    | .Type2 n p d => field_len n + field_len p + field_len d
/-- src/common/data_types/grid_data_record.rs:65-69 -/
structure GridDataRecord where
  sample_type : GriddedDataSampleType
  data_representation : GriddedDataDataRepresentation
  data : DataRepresentationType
  deriving DecidableEq
/-- src/common/data_types/grid_data_record.rs:85-131 -/
def GridDataRecord.serialize (self : GridDataRecord) : Put := do
  putU16 self.sample_type.asU16
  putU16 self.data_representation.asU16
  match self.data with
  | .Type0 n d p => do
    putU16 n
    putEach putU8 d
    putEach putU8 p
  | .Type1 s o n d p => do
    putF32 s
    putF32 o
    putU16 n
    putEach putU16 d
    putEach putU8 p
  | .Type2 n p d => do
    putU16 n
    putU16 p
    putEach putF32 d
/-- src/common/data_types/grid_data_record.rs:136-189: the `match data_representation` expression. -/
def GridDataRecord.deserializeData (r : GriddedDataDataRepresentation) : Get DataRepresentationType :=
  if r = .Type0 then do
    let n ← getU16
    let d ← getN getU8 n.toNat
    let p ← getRest
    return .Type0 n d p
  else if r = .Type1 then do
    let s ← getF32
    let o ← getF32
    let n ← getU16
    let d ← getN getU16 n.toNat
    let p ← getRest
    return .Type1 s o n d p
  else do
    let n ← getU16
    let p ← getU16
    let d ← getN getF32 n.toNat
    return .Type2 n p d
/-- src/common/data_types/grid_data_record.rs:133-196.  Both enumerations are read as one octet
each (src/common/enums.rs:9551-9553, 9586-9588) although `serialize` wrote two. -/
def GridDataRecord.deserialize : Get GridDataRecord := do
  let sample_type ← GriddedDataSampleType.deserialize
  let data_representation ← GriddedDataDataRepresentation.deserialize
  let data ← GridDataRecord.deserializeData data_representation
  return { sample_type, data_representation, data }
/-- src/common/data_types/grid_data_record.rs:199-203 -/
instance : FieldSerialize GridDataRecord := ⟨GridDataRecord.serialize⟩
/-- src/common/data_types/grid_data_record.rs:205-209 -/
instance : FieldDeserialize GridDataRecord := ⟨GridDataRecord.deserialize⟩
/-- src/common/data_types/grid_data_record.rs:211-215 -/
instance : FieldLen GridDataRecord := ⟨fun self =>
  field_len self.sample_type + field_len self.data_representation + field_len self.data⟩

/-! ### src/common/data_types/modulation_parameters.rs -/

/-- src/common/data_types/modulation_parameters.rs:11-13 -/
structure ModulationParameters where
  record_specific_fields : Bytes
  deriving DecidableEq
/-- src/common/data_types/modulation_parameters.rs:10 (derived) -/
instance : RDefault ModulationParameters := ⟨⟨[]⟩⟩
/-- src/common/data_types/modulation_parameters.rs:23-27 -/
def ModulationParameters.serialize (self : ModulationParameters) : Put :=
  putEach putU8 self.record_specific_fields
/-- src/common/data_types/modulation_parameters.rs:29-42 -/
def ModulationParameters.deserialize (length : UInt8) : Get (Option ModulationParameters) :=
  if length = 0 then pure none
  else do return some ⟨← getN getU8 length.toNat⟩
/-- src/common/data_types/modulation_parameters.rs:45-49 -/
instance : FieldSerialize ModulationParameters := ⟨ModulationParameters.serialize⟩
/-- src/common/data_types/modulation_parameters.rs:51-56: reads nothing. -/
instance : FieldDeserialize ModulationParameters := ⟨pure dflt⟩
/-- src/common/data_types/modulation_parameters.rs:58-64 -/
instance : FieldDeserializeWithLen ModulationParameters := ⟨fun len =>
  if len < 256 then do return (← ModulationParameters.deserialize (UInt8.ofNat len)).getD dflt
  else M.panic .expectFailed⟩
/-- src/common/data_types/modulation_parameters.rs:66-70 -/
instance : FieldLen ModulationParameters := ⟨fun self => field_len self.record_specific_fields⟩

/-! ### src/common/data_types/antenna_pattern.rs -/

/-- src/common/data_types/antenna_pattern.rs:9-11 -/
structure AntennaPattern where
  record_specific_fields : Bytes
  deriving DecidableEq
/-- src/common/data_types/antenna_pattern.rs:8 (derived) -/
instance : RDefault AntennaPattern := ⟨⟨[]⟩⟩
/-- src/common/data_types/antenna_pattern.rs:46-50 -/
def AntennaPattern.serialize (self : AntennaPattern) : Put :=
  putEach putU8 self.record_specific_fields
/-- src/common/data_types/antenna_pattern.rs:52-65 -/
def AntennaPattern.deserialize (length : UInt16) : Get (Option AntennaPattern) :=
  if length = 0 then pure none
  else do return some ⟨← getN getU8 length.toNat⟩
/-- src/common/data_types/antenna_pattern.rs:13-17 -/
instance : FieldSerialize AntennaPattern := ⟨AntennaPattern.serialize⟩
/-- src/common/data_types/antenna_pattern.rs:19-23: reads nothing. -/
instance : FieldDeserialize AntennaPattern := ⟨pure dflt⟩
/-- src/common/data_types/antenna_pattern.rs:25-30 -/
instance : FieldDeserializeWithLen AntennaPattern := ⟨fun len =>
  if len < 65536 then do return (← AntennaPattern.deserialize (UInt16.ofNat len)).getD dflt
  else M.panic .expectFailed⟩
/-- src/common/data_types/antenna_pattern.rs:32-36 -/
instance : FieldLen AntennaPattern := ⟨fun self => self.record_specific_fields.length⟩

end Dis
