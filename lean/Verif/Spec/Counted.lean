import Verif.Spec.RecordWire
/-
The records of src/common/data_types that end in a list whose length another field is meant to give.
-/
namespace Dis

/-- A record ending in a list: its codec; its count field and its list; the record with another list in
place; the wire image of everything before the list; and an element's codec, wire image, and the
condition under which an element is itself recovered. -/
structure CountedRecord where
  name : String
  Val : Type
  Elem : Type
  ser : Val → Put
  de : Get Val
  count : Val → Nat
  list : Val → List Elem
  withList : Val → List Elem → Val
  head : Val → Bytes
  elemDe : Get Elem
  elemWire : Elem → Bytes
  elemOk : Elem → Prop

/-- The octets the standard assigns to the record: everything before the list, then the elements. -/
def CountedRecord.image (r : CountedRecord) (x : r.Val) : Bytes := r.head x ++ (r.list x).flatMap r.elemWire

def AcousticEmitterSystemData.counted : CountedRecord where
  name := "AcousticEmitterSystemData"
  Val := AcousticEmitterSystemData
  Elem := AcousticBeamData
  ser := AcousticEmitterSystemData.serialize
  de := AcousticEmitterSystemData.deserialize
  count x := x.number_of_beams.toNat
  list x := x.beam_records
  withList x l := { x with beam_records := l }
  head x := wire x.emitter_system_data_length ▹ wire x.number_of_beams ▹ wire x.pad2 ▹
    wire x.acoustic_emitter_system ▹ wire x.emitter_location
  elemDe := AcousticBeamData.deserialize
  elemWire := wire
  elemOk _ := True

def AttributeRecord.counted : CountedRecord where
  name := "AttributeRecord"
  Val := AttributeRecord
  Elem := UInt8
  ser := AttributeRecord.serialize
  de := AttributeRecord.deserialize
  count x := x.record_length.toNat
  list x := x.record_specific_fields
  withList x l := { x with record_specific_fields := l }
  head x := wire x.record_type ▹ wire x.record_length
  elemDe := getU8
  elemWire := wire
  elemOk _ := True

def AttributeRecordSet.counted : CountedRecord where
  name := "AttributeRecordSet"
  Val := AttributeRecordSet
  Elem := AttributeRecord
  ser := AttributeRecordSet.serialize
  de := AttributeRecordSet.deserialize
  count x := x.number_of_attribute_records.toNat
  list x := x.attribute_records
  withList x l := { x with attribute_records := l }
  head x := wire x.entity_id ▹ wire x.number_of_attribute_records
  elemDe := AttributeRecord.deserialize
  elemWire := wire
  elemOk e := e.record_length.toNat = e.record_specific_fields.length

def ElectromagneticEmissionBeamData.counted : CountedRecord where
  name := "ElectromagneticEmissionBeamData"
  Val := ElectromagneticEmissionBeamData
  Elem := TrackJamTarget
  ser := ElectromagneticEmissionBeamData.serialize
  de := ElectromagneticEmissionBeamData.deserialize
  count x := x.number_of_track_jam_targets.toNat
  list x := x.track_jam_targets
  withList x l := { x with track_jam_targets := l }
  head x := wire x.beam_data_length ▹ wire x.beam_id_number ▹ wire x.beam_parameter_index ▹
    wire x.fundamental_parameter_data ▹ wire x.beam_function ▹ wire x.number_of_track_jam_targets ▹
    wire x.high_density_track_jam ▹ wire x.pad4 ▹ wire x.jamming_mode_sequence
  elemDe := TrackJamTarget.deserialize
  elemWire := wire
  elemOk _ := True

def ElectromagneticEmissionSystemData.counted : CountedRecord where
  name := "ElectromagneticEmissionSystemData"
  Val := ElectromagneticEmissionSystemData
  Elem := ElectromagneticEmissionBeamData
  ser := ElectromagneticEmissionSystemData.serialize
  de := ElectromagneticEmissionSystemData.deserialize
  count x := x.number_of_beams.toNat
  list x := x.beam_data_records
  withList x l := { x with beam_data_records := l }
  head x := wire x.system_data_length ▹ wire x.number_of_beams ▹ wire x.emissionspadding2 ▹
    wire x.emitter_system ▹ wire x.location
  elemDe := ElectromagneticEmissionBeamData.deserialize
  elemWire := wire
  elemOk e := e.number_of_track_jam_targets.toNat = e.track_jam_targets.length

def RecordSpecification.counted : CountedRecord where
  name := "RecordSpecification"
  Val := RecordSpecification
  Elem := RecordSpecificationElement
  ser := RecordSpecification.serialize
  de := RecordSpecification.deserialize
  count x := x.number_of_record_sets.toNat
  list x := x.record_sets
  withList x l := { x with record_sets := l }
  head x := wire x.number_of_record_sets
  elemDe := RecordSpecificationElement.deserialize
  elemWire := wire
  elemOk e := e.record_length.toNat * e.record_count.toNat < 65536 ∧
    e.record_length.toNat * e.record_count.toNat = e.record_values.length

def StandardVariableRecords.counted : CountedRecord where
  name := "StandardVariableRecords"
  Val := StandardVariableRecords
  Elem := UInt8
  ser := StandardVariableRecords.serialize
  de := StandardVariableRecords.deserialize
  count x := x.record_length.toNat
  list x := x.record_specific_fields
  withList x l := { x with record_specific_fields := l }
  head x := wire x.record_type ▹ wire x.record_length
  elemDe := getU8
  elemWire := wire
  elemOk _ := True

def StandardVariableSpecification.counted : CountedRecord where
  name := "StandardVariableSpecification"
  Val := StandardVariableSpecification
  Elem := StandardVariableRecords
  ser := StandardVariableSpecification.serialize
  de := StandardVariableSpecification.deserialize
  count x := x.number_of_standard_variable_records.toNat
  list x := x.standard_variable_records
  withList x l := { x with standard_variable_records := l }
  head x := wire x.number_of_standard_variable_records
  elemDe := StandardVariableRecords.deserialize
  elemWire := wire
  elemOk e := e.record_length.toNat = e.record_specific_fields.length

/-- All of them (`VariableTransmitterParameters` and `RecordSpecificationElement` have theorems of their
own). -/
def countedRecords : List CountedRecord := [
  AcousticEmitterSystemData.counted, AttributeRecord.counted, AttributeRecordSet.counted,
  ElectromagneticEmissionBeamData.counted, ElectromagneticEmissionSystemData.counted,
  RecordSpecification.counted, StandardVariableRecords.counted, StandardVariableSpecification.counted]

end Dis
