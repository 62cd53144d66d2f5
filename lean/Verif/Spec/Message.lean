import Verif.Spec.PduLayout
import Verif.Spec.RecordLayout
import Verif.Spec.HeaderLayout
import Verif.Spec.Wire
/-
Whole messages: which numbers a message holds, in order, and in how many octets each.

The part of a message before its first list or text is described by the layout tables (Spec/HeaderLayout,
Spec/PduLayout1-4); `PduKind.rest` describes what follows, kind by kind, with the records of
src/common/data_types described by their layout tables (Spec/RecordLayout) as far as these go.  Read through
against the field lists in /repo/src; nothing here refers to the code that writes the octets.
-/
namespace Dis

/-- A number, and how many octets it has in the message. -/
structure Field where
  octets : Nat
  number : Nat

/-- The octets of the fields, one after the other, each most significant octet first. -/
def Field.octetsOf (l : List Field) : Bytes := l.flatMap fun f => Dis.octets f.octets f.number

/-- The fields of a layout table. -/
def fieldsOf {B : Type} (table : List (Slot B)) (x : B) : List Field :=
  table.map fun s => ⟨s.width, s.transmitted x⟩

/-! Lists of numbers -/
def Field.u8s (l : List UInt8) : List Field := l.map fun v => ⟨1, v.toNat⟩
def Field.u16s (l : List UInt16) : List Field := l.map fun v => ⟨2, v.toNat⟩
def Field.u32s (l : List UInt32) : List Field := l.map fun v => ⟨4, v.toNat⟩
def Field.u64s (l : List UInt64) : List Field := l.map fun v => ⟨8, v.toNat⟩
def Field.f32s (l : List F32) : List Field := l.map fun v => ⟨4, v.bits.toNat⟩
def Field.enums {s : EnumSpec} (octets : Nat) (l : List (EnumVal s)) : List Field := l.map fun v => ⟨octets, v.code⟩

/-! Records with lists -/

/-- src/common/data_types/attribute_record.rs:12-16 -/
def AttributeRecord.fields (x : AttributeRecord) : List Field :=
  fieldsOf AttributeRecord.layout x ++ Field.u8s x.record_specific_fields
/-- src/common/data_types/attribute_record_set.rs:18-22 -/
def AttributeRecordSet.fields (x : AttributeRecordSet) : List Field :=
  fieldsOf AttributeRecordSet.layout x ++ x.attribute_records.flatMap AttributeRecord.fields
/-- src/common/data_types/electromagnetic_emission_beam_data.rs:10-21 -/
def ElectromagneticEmissionBeamData.fields (x : ElectromagneticEmissionBeamData) : List Field :=
  fieldsOf ElectromagneticEmissionBeamData.layout x ++ x.track_jam_targets.flatMap (fieldsOf TrackJamTarget.layout)
/-- src/common/data_types/electromagnetic_emission_system_data.rs:13-20 -/
def ElectromagneticEmissionSystemData.fields (x : ElectromagneticEmissionSystemData) : List Field :=
  fieldsOf ElectromagneticEmissionSystemData.layout x ++
    x.beam_data_records.flatMap ElectromagneticEmissionBeamData.fields
/-- src/common/data_types/standard_variable_records.rs:11-15 -/
def StandardVariableRecords.fields (x : StandardVariableRecords) : List Field :=
  fieldsOf StandardVariableRecords.layout x ++ Field.u8s x.record_specific_fields
/-- src/common/data_types/variable_transmitter_parameters.rs:11-15 -/
def VariableTransmitterParameters.fields (x : VariableTransmitterParameters) : List Field :=
  [⟨4, x.record_type.code⟩, ⟨2, x.record_length.toNat⟩] ++ Field.u8s x.record_specific_fields
/-- src/common/data_types/record_specification_element.rs:11-17: of the stored octets, as many as length times
count says, computed in 16 bits -/
def RecordSpecificationElement.fields (x : RecordSpecificationElement) : List Field :=
  fieldsOf RecordSpecificationElement.layout x ++
    Field.u8s (x.record_values.take (x.record_length.toNat * x.record_count.toNat % 65536))
/-- src/common/data_types/datum_records.rs:52-56: the value is followed by zeros, as many octets as fill up to
a multiple of 64 bits what the record says the value has -/
def VariableDatumRecord.fields (x : VariableDatumRecord) : List Field :=
  let full := (x.length_bits.toNat + 7) / 8
  fieldsOf VariableDatumRecord.layout x ++ Field.u8s x.value ++ List.replicate ((full + 7) / 8 * 8 - full) ⟨1, 0⟩
/-- src/common/data_types/grid_axis_descriptor.rs:14-27, 56-63 -/
def GridAxisDescriptor.fields (x : GridAxisDescriptor) : List Field :=
  [⟨8, x.domain_initial.bits.toNat⟩, ⟨8, x.domain_final.bits.toNat⟩, ⟨2, x.domain_points.toNat⟩,
    ⟨1, x.interleaf_factor.toNat⟩, ⟨1, x.axis_type.code⟩] ++
  match x.data with
  | .FixedSpacing points initial => [⟨2, points.toNat⟩, ⟨2, initial.toNat⟩]
  | .VariableSpacing points initial scale offset values padding =>
    [⟨2, points.toNat⟩, ⟨2, initial.toNat⟩, ⟨8, scale.bits.toNat⟩, ⟨8, offset.bits.toNat⟩] ++
      Field.u16s values ++ Field.u8s padding
/-- src/common/data_types/grid_data_record.rs:14-32, 65-69 -/
def GridDataRecord.fields (x : GridDataRecord) : List Field :=
  [⟨2, x.sample_type.code⟩, ⟨2, x.data_representation.code⟩] ++
  match x.data with
  | .Type0 n values padding => [⟨2, n.toNat⟩] ++ Field.u8s values ++ Field.u8s padding
  | .Type1 scale offset n values padding =>
    [⟨4, scale.bits.toNat⟩, ⟨4, offset.bits.toNat⟩, ⟨2, n.toNat⟩] ++ Field.u16s values ++ Field.u8s padding
  | .Type2 n padding values => [⟨2, n.toNat⟩, ⟨2, padding.toNat⟩] ++ Field.f32s values

/-- The fields of the values that are present. -/
def present {α : Type} (fields : α → List Field) (l : List (Option α)) : List Field :=
  l.flatMap fun
    | none => []
    | some x => fields x

/-! What follows the part of the message described by the layout table -/

def ElectromagneticEmissionsPdu.rest (x : ElectromagneticEmissionsPdu) : List Field :=
  x.systems.flatMap ElectromagneticEmissionSystemData.fields
def UnderwaterAcousticPdu.rest (x : UnderwaterAcousticPdu) : List Field :=
  x.shaft_rpms.flatMap (fieldsOf ShaftRPMs.layout) ++ x.apa_data.flatMap (fieldsOf ApaData.layout) ++
    x.emitter_systems.flatMap (fieldsOf AcousticEmitterSystem.layout)
def IFFPdu.rest (x : IFFPdu) : List Field :=
  x.iff_parameters.flatMap (fieldsOf IFFFundamentalParameterData.layout)
def SupplementalEmissionPdu.rest (x : SupplementalEmissionPdu) : List Field :=
  x.propulsion_system_data.flatMap (fieldsOf PropulsionSystemData.layout) ++
    x.vectoring_nozzle_system_data.flatMap (fieldsOf VectoringNozzleSystemData.layout)
def EntityStatePdu.rest (x : EntityStatePdu) : List Field :=
  Field.u8s (strBytes x.entity_marking.entity_marking_string) ++ [⟨4, x.entity_capabilities.code⟩] ++
    x.articulation_parameter.flatMap (fieldsOf VariableParameter.layout)
def EntityStateUpdatePdu.rest (x : EntityStateUpdatePdu) : List Field :=
  x.variable_parameter_records.flatMap (fieldsOf VariableParameter.layout)
def AttributePdu.rest (x : AttributePdu) : List Field := x.attribute_record_sets.flatMap AttributeRecordSet.fields
def AggregateStatePdu.rest (x : AggregateStatePdu) : List Field :=
  x.aggregate_id_list.flatMap (fieldsOf AggregateId.layout) ++ x.entity_id_list.flatMap (fieldsOf EntityId.layout) ++
    Field.u8s x.padding ++ x.silent_aggregate_system_list.flatMap (fieldsOf EntityType.layout) ++
    x.silent_entity_system_list.flatMap (fieldsOf EntityType.layout) ++
    [⟨4, x.number_of_variable_datum_records.toNat⟩] ++ x.variable_datum_list.flatMap VariableDatumRecord.fields
def IsGroupOfPdu.rest (x : IsGroupOfPdu) : List Field := Field.u64s x.grouped_entity_descriptions
def TransferOwnershipPdu.rest (x : TransferOwnershipPdu) : List Field :=
  x.record_information.record_sets.flatMap RecordSpecificationElement.fields
def InformationOperationsReportPdu.rest (x : InformationOperationsReportPdu) : List Field :=
  x.io_records.standard_variable_records.flatMap StandardVariableRecords.fields
def InformationOperationsActionPdu.rest (x : InformationOperationsActionPdu) : List Field :=
  x.io_records.standard_variable_records.flatMap StandardVariableRecords.fields
def ServiceRequestPdu.rest (x : ServiceRequestPdu) : List Field := x.supplies.flatMap (fieldsOf SupplyQuantity.layout)
def ResupplyOfferPdu.rest (x : ResupplyOfferPdu) : List Field := x.supplies.flatMap (fieldsOf SupplyQuantity.layout)
def ResupplyReceivedPdu.rest (x : ResupplyReceivedPdu) : List Field :=
  x.supplies.flatMap (fieldsOf SupplyQuantity.layout)
def MinefieldStatePdu.rest (x : MinefieldStatePdu) : List Field :=
  x.perimeter_points.flatMap (fieldsOf Point.layout) ++ x.mine_type.flatMap (fieldsOf EntityType.layout)
def MinefieldQueryPdu.rest (x : MinefieldQueryPdu) : List Field :=
  x.requested_perimeter_points.flatMap (fieldsOf Point.layout) ++ Field.enums 1 x.sensor_types
def MinefieldDataPdu.rest (x : MinefieldDataPdu) : List Field :=
  Field.enums 1 x.sensor_types ++ x.mine_location.flatMap (fieldsOf EntityCoordinateVector.layout) ++
    present (fun v => [⟨4, v.bits.toNat⟩]) x.ground_burial_depth_offset ++
    present (fun v => [⟨4, v.bits.toNat⟩]) x.water_burial_depth_offset ++
    present (fun v => [⟨4, v.bits.toNat⟩]) x.snow_burial_depth_offset ++
    present (fieldsOf EulerAngles.layout) x.mine_orientation ++
    present (fun v => [⟨4, v.bits.toNat⟩]) x.thermal_contrast ++
    present (fun v => [⟨4, v.bits.toNat⟩]) x.reflectance ++
    present (fieldsOf ClockTime.layout) x.mine_emplacement_time ++
    present (fun v => [⟨2, v.toNat⟩]) x.mine_entity_id ++
    present (fun v => [⟨2, v.toNat⟩]) x.fusing ++
    present (fun v => [⟨1, v.toNat⟩]) x.scalar_detection_coefficient ++
    present (fun v => [⟨1, v.toNat⟩]) x.paint_scheme ++
    present (fun v => [⟨1, v.toNat⟩]) x.number_of_trip_wires ++
    present (fun v => [⟨1, v.toNat⟩]) x.number_of_vertices ++
    present (fun l => l.flatMap (fieldsOf EntityCoordinateVector.layout)) x.vertices
def MinefieldResponseNackPdu.rest (x : MinefieldResponseNackPdu) : List Field :=
  Field.u64s x.missing_pdu_sequence_numbers
def TransmitterPdu.rest (x : TransmitterPdu) : List Field :=
  present (fun m => Field.u8s m.record_specific_fields) [x.modulation_parameters] ++
    present (fun a => Field.u8s a.record_specific_fields) [x.antenna_pattern] ++
    x.variable_transmitter_parameters.flatMap VariableTransmitterParameters.fields
def SignalPdu.rest (x : SignalPdu) : List Field := Field.u8s x.data
def IntercomSignalPdu.rest (x : IntercomSignalPdu) : List Field := Field.u8s x.data
def IntercomControlPdu.rest (x : IntercomControlPdu) : List Field :=
  x.intercom_parameters.flatMap (fieldsOf IntercomCommunicationsParameters.layout)
/-- fixed and variable datum records -/
def datums (fixed : List FixedDatumRecord) (variables : List VariableDatumRecord) : List Field :=
  fixed.flatMap (fieldsOf FixedDatumRecord.layout) ++ variables.flatMap VariableDatumRecord.fields
def DataQueryReliablePdu.rest (x : DataQueryReliablePdu) : List Field :=
  Field.enums 4 x.fixed_datum_ids ++ Field.enums 4 x.variable_datum_ids
def RecordQueryReliablePdu.rest (x : RecordQueryReliablePdu) : List Field := Field.u32s x.record_ids
def SetRecordReliablePdu.rest (x : SetRecordReliablePdu) : List Field :=
  x.record_sets.record_sets.flatMap RecordSpecificationElement.fields
def EnvironmentalProcessPdu.rest (x : EnvironmentalProcessPdu) : List Field :=
  x.environment_records.flatMap (fieldsOf Environment.layout)
def GriddedDataPdu.rest (x : GriddedDataPdu) : List Field :=
  x.grid_axis_descriptors.flatMap GridAxisDescriptor.fields ++ x.grid_data_list.flatMap GridDataRecord.fields
def LinearObjectStatePdu.rest (x : LinearObjectStatePdu) : List Field :=
  x.linear_segment_parameters.flatMap (fieldsOf LinearSegmentParameter.layout)
def ArealObjectStatePdu.rest (x : ArealObjectStatePdu) : List Field :=
  x.object_location.flatMap (fieldsOf WorldCoordinate.layout)
def DetonationPdu.rest (x : DetonationPdu) : List Field :=
  x.variable_parameters.flatMap (fieldsOf VariableParameter.layout)
def DirectedEnergyFirePdu.rest (x : DirectedEnergyFirePdu) : List Field :=
  x.damage_descriptions.flatMap (fieldsOf DirectedEnergyDamage.layout)
def EntityDamageStatusPdu.rest (x : EntityDamageStatusPdu) : List Field :=
  x.damage_descriptions.flatMap (fieldsOf DirectedEnergyDamage.layout)

/-- What follows the part of the message described by the layout table; nothing for kinds not listed. -/
def PduKind.rest : (k : PduKind) → k.Body → List Field
  | .ElectromagneticEmissions => ElectromagneticEmissionsPdu.rest
  | .UnderwaterAcoustic => UnderwaterAcousticPdu.rest
  | .IFF => IFFPdu.rest
  | .SupplementalEmission => SupplementalEmissionPdu.rest
  | .EntityState => EntityStatePdu.rest
  | .EntityStateUpdate => EntityStateUpdatePdu.rest
  | .Attribute => AttributePdu.rest
  | .AggregateState => AggregateStatePdu.rest
  | .IsGroupOf => IsGroupOfPdu.rest
  | .TransferOwnership => TransferOwnershipPdu.rest
  | .InformationOperationsReport => InformationOperationsReportPdu.rest
  | .InformationOperationsAction => InformationOperationsActionPdu.rest
  | .ServiceRequest => ServiceRequestPdu.rest
  | .ResupplyOffer => ResupplyOfferPdu.rest
  | .ResupplyReceived => ResupplyReceivedPdu.rest
  | .MinefieldState => MinefieldStatePdu.rest
  | .MinefieldQuery => MinefieldQueryPdu.rest
  | .MinefieldData => MinefieldDataPdu.rest
  | .MinefieldResponseNack => MinefieldResponseNackPdu.rest
  | .Transmitter => TransmitterPdu.rest
  | .Signal => SignalPdu.rest
  | .IntercomSignal => IntercomSignalPdu.rest
  | .IntercomControl => IntercomControlPdu.rest
  | .ActionRequest => fun x => datums x.fixed_datum_records x.variable_datum_records
  | .ActionResponse => fun x => datums x.fixed_datum_records x.variable_datum_records
  | .DataQuery => fun x => datums x.fixed_datum_records x.variable_datum_records
  | .SetData => fun x => datums x.fixed_datum_records x.variable_datum_records
  | .Data => fun x => datums x.fixed_datum_records x.variable_datum_records
  | .EventReport => fun x => datums x.fixed_datum_records x.variable_datum_records
  | .Comment => fun x => datums x.fixed_datum_records x.variable_datum_records
  | .ActionRequestReliable => fun x => datums x.fixed_datum_records x.variable_datum_records
  | .ActionResponseReliable => fun x => datums x.fixed_datum_records x.variable_datum_records
  | .DataQueryReliable => DataQueryReliablePdu.rest
  | .SetDataReliable => fun x => datums x.fixed_datum_records x.variable_datum_records
  | .DataReliable => fun x => datums x.fixed_datum_records x.variable_datum_records
  | .EventReportReliable => fun x => datums x.fixed_datum_records x.variable_datum_records
  | .CommentReliable => fun x => datums x.fixed_datum_records x.variable_datum_records
  | .RecordQueryReliable => RecordQueryReliablePdu.rest
  | .SetRecordReliable => SetRecordReliablePdu.rest
  | .EnvironmentalProcess => EnvironmentalProcessPdu.rest
  | .GriddedData => GriddedDataPdu.rest
  | .LinearObjectState => LinearObjectStatePdu.rest
  | .ArealObjectState => ArealObjectStatePdu.rest
  | .Detonation => DetonationPdu.rest
  | .DirectedEnergyFire => DirectedEnergyFirePdu.rest
  | .EntityDamageStatus => EntityDamageStatusPdu.rest
  | _ => fun _ => []

/-- All fields of a message, in order: the twelve octets of the header, the part of the body before its first
list or text, and the rest. -/
def PduKind.message (k : PduKind) (p : Pdu k.Body) : List Field :=
  fieldsOf PduHeader.layout p.header ++ fieldsOf k.layoutTable p.body ++ k.rest p.body

end Dis
