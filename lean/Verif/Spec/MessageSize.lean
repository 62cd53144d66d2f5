import Verif.Spec.PduKindWire
import Verif.Spec.Surplus
/-
How many octets a message has, as a user would count them: the fixed part of its kind (`PduKind.ieeeOctets`,
Spec/PduKindWire) and, for every list, the number of its elements times the octets of an element.

Written from the field lists of /repo/src and the record sizes of IEEE 1278.1; nothing here refers to the
code that computes lengths or writes octets.
-/
namespace Dis

/-- How many of the optional values are there. -/
def presentCount {α : Type} (l : List (Option α)) : Nat := l.countP Option.isSome

/-- An emission system is 20 octets, each of its beams 52, each track/jam target of a beam 8. -/
def ElectromagneticEmissionsPdu.listOctets (x : ElectromagneticEmissionsPdu) : Nat :=
  20 * x.systems.length +
  52 * (x.systems.flatMap fun s => s.beam_data_records).length +
  8 * (x.systems.flatMap fun s => s.beam_data_records.flatMap fun b => b.track_jam_targets).length
/-- A set of attributes is 8 octets, each of its records 6 and the octets it holds. -/
def AttributePdu.listOctets (x : AttributePdu) : Nat :=
  8 * x.attribute_record_sets.length +
  6 * (x.attribute_record_sets.flatMap fun s => s.attribute_records).length +
  (x.attribute_record_sets.flatMap fun s => s.attribute_records.flatMap fun r => r.record_specific_fields).length
def AggregateStatePdu.listOctets (x : AggregateStatePdu) : Nat :=
  6 * x.aggregate_id_list.length + 6 * x.entity_id_list.length + x.padding.length +
  8 * x.silent_aggregate_system_list.length + 8 * x.silent_entity_system_list.length +
  8 * x.variable_datum_list.length + (x.variable_datum_list.flatMap fun d => d.value).length
/-- Per mine what the sender chose to supply. -/
def MinefieldDataPdu.listOctets (x : MinefieldDataPdu) : Nat :=
  x.sensor_types.length + 12 * x.mine_location.length +
  4 * presentCount x.ground_burial_depth_offset + 4 * presentCount x.water_burial_depth_offset +
  4 * presentCount x.snow_burial_depth_offset + 12 * presentCount x.mine_orientation +
  4 * presentCount x.thermal_contrast + 4 * presentCount x.reflectance +
  8 * presentCount x.mine_emplacement_time + 2 * presentCount x.mine_entity_id + 2 * presentCount x.fusing +
  presentCount x.scalar_detection_coefficient + presentCount x.paint_scheme +
  presentCount x.number_of_trip_wires + presentCount x.number_of_vertices +
  12 * (x.vertices.flatMap fun v => v.getD []).length
def TransmitterPdu.listOctets (x : TransmitterPdu) : Nat :=
  (x.modulation_parameters.elim 0 fun m => m.record_specific_fields.length) +
  (x.antenna_pattern.elim 0 fun a => a.record_specific_fields.length) +
  6 * x.variable_transmitter_parameters.length +
  (x.variable_transmitter_parameters.flatMap fun r => r.record_specific_fields).length
/-- Fixed datum records are 8 octets, variable ones 8 and the octets of the value. -/
def datumOctets (fixed : List FixedDatumRecord) (variables : List VariableDatumRecord) : Nat :=
  8 * fixed.length + 8 * variables.length + (variables.flatMap fun d => d.value).length
/-- A record set is 12 octets and its values. -/
def setsOctets (sets : List RecordSpecificationElement) : Nat :=
  12 * sets.length + (sets.flatMap fun s => s.record_values).length
/-- A standard variable record is 6 octets and what it holds. -/
def standardRecordOctets (records : List StandardVariableRecords) : Nat :=
  6 * records.length + (records.flatMap fun s => s.record_specific_fields).length
/-- A regular axis is 24 octets; an irregular one 40, its 16-bit values and its padding. -/
def gridAxisOctets (x : GridAxisDescriptor) : Nat :=
  match x.data with
  | .FixedSpacing _ _ => 24
  | .VariableSpacing _ _ _ _ values padding => 40 + 2 * values.length + padding.length
/-- Grid data, by representation. -/
def gridDataOctets (x : GridDataRecord) : Nat :=
  match x.data with
  | .Type0 _ values padding => 6 + values.length + padding.length
  | .Type1 _ _ _ values padding => 14 + 2 * values.length + padding.length
  | .Type2 _ _ values => 8 + 4 * values.length

/-- The octets of the lists (and optional values) of a message, as `calculate_length` counts them: grid data two
octets short per record. -/
def PduKind.listOctets : (k : PduKind) → k.Body → Nat
  | .ElectromagneticEmissions => ElectromagneticEmissionsPdu.listOctets
  | .UnderwaterAcoustic => fun (x : UnderwaterAcousticPdu) =>
    8 * x.shaft_rpms.length + 4 * x.apa_data.length + 4 * x.emitter_systems.length
  | .IFF => fun (x : IFFPdu) => 24 * x.iff_parameters.length
  | .SupplementalEmission => fun (x : SupplementalEmissionPdu) =>
    8 * x.propulsion_system_data.length + 8 * x.vectoring_nozzle_system_data.length
  | .EntityState => fun (x : EntityStatePdu) => 16 * x.articulation_parameter.length
  | .EntityStateUpdate => fun (x : EntityStateUpdatePdu) => 16 * x.variable_parameter_records.length
  | .Attribute => AttributePdu.listOctets
  | .AggregateState => AggregateStatePdu.listOctets
  | .IsGroupOf => fun (x : IsGroupOfPdu) => 8 * x.grouped_entity_descriptions.length
  | .TransferOwnership => fun (x : TransferOwnershipPdu) => setsOctets x.record_information.record_sets
  | .InformationOperationsReport => fun (x : InformationOperationsReportPdu) =>
    standardRecordOctets x.io_records.standard_variable_records
  | .InformationOperationsAction => fun (x : InformationOperationsActionPdu) =>
    standardRecordOctets x.io_records.standard_variable_records
  | .ServiceRequest => fun (x : ServiceRequestPdu) => 12 * x.supplies.length
  | .ResupplyOffer => fun (x : ResupplyOfferPdu) => 12 * x.supplies.length
  | .ResupplyReceived => fun (x : ResupplyReceivedPdu) => 12 * x.supplies.length
  | .MinefieldState => fun (x : MinefieldStatePdu) => 8 * x.perimeter_points.length + 8 * x.mine_type.length
  | .MinefieldQuery => fun (x : MinefieldQueryPdu) =>
    8 * x.requested_perimeter_points.length + x.sensor_types.length
  | .MinefieldData => MinefieldDataPdu.listOctets
  | .MinefieldResponseNack => fun (x : MinefieldResponseNackPdu) => 8 * x.missing_pdu_sequence_numbers.length
  | .Transmitter => TransmitterPdu.listOctets
  | .Signal => fun (x : SignalPdu) => x.data.length
  | .IntercomSignal => fun (x : IntercomSignalPdu) => x.data.length
  | .IntercomControl => fun (x : IntercomControlPdu) => 8 * x.intercom_parameters.length
  | .ActionRequest => fun (x : ActionRequestPdu) => datumOctets x.fixed_datum_records x.variable_datum_records
  | .ActionResponse => fun (x : ActionResponsePdu) => datumOctets x.fixed_datum_records x.variable_datum_records
  | .DataQuery => fun (x : DataQueryPdu) => datumOctets x.fixed_datum_records x.variable_datum_records
  | .SetData => fun (x : SetDataPdu) => datumOctets x.fixed_datum_records x.variable_datum_records
  | .Data => fun (x : DataPdu) => datumOctets x.fixed_datum_records x.variable_datum_records
  | .EventReport => fun (x : EventReportPdu) => datumOctets x.fixed_datum_records x.variable_datum_records
  | .Comment => fun (x : CommentPdu) => datumOctets x.fixed_datum_records x.variable_datum_records
  | .ActionRequestReliable => fun (x : ActionRequestReliablePdu) =>
    datumOctets x.fixed_datum_records x.variable_datum_records
  | .ActionResponseReliable => fun (x : ActionResponseReliablePdu) =>
    datumOctets x.fixed_datum_records x.variable_datum_records
  | .DataQueryReliable => fun (x : DataQueryReliablePdu) =>
    4 * x.fixed_datum_ids.length + 4 * x.variable_datum_ids.length
  | .SetDataReliable => fun (x : SetDataReliablePdu) => datumOctets x.fixed_datum_records x.variable_datum_records
  | .DataReliable => fun (x : DataReliablePdu) => datumOctets x.fixed_datum_records x.variable_datum_records
  | .EventReportReliable => fun (x : EventReportReliablePdu) =>
    datumOctets x.fixed_datum_records x.variable_datum_records
  | .CommentReliable => fun (x : CommentReliablePdu) => datumOctets x.fixed_datum_records x.variable_datum_records
  | .RecordQueryReliable => fun (x : RecordQueryReliablePdu) => 4 * x.record_ids.length
  | .SetRecordReliable => fun (x : SetRecordReliablePdu) => setsOctets x.record_sets.record_sets
  | .EnvironmentalProcess => fun (x : EnvironmentalProcessPdu) => 8 * x.environment_records.length
  | .GriddedData => fun (x : GriddedDataPdu) =>
    (x.grid_axis_descriptors.map gridAxisOctets).sum + (x.grid_data_list.map fun r => gridDataOctets r - 2).sum
  | .LinearObjectState => fun (x : LinearObjectStatePdu) => 66 * x.linear_segment_parameters.length
  | .ArealObjectState => fun (x : ArealObjectStatePdu) => 24 * x.object_location.length
  | .Detonation => fun (x : DetonationPdu) => 16 * x.variable_parameters.length
  | .DirectedEnergyFire => fun (x : DirectedEnergyFirePdu) => 40 * x.damage_descriptions.length
  | .EntityDamageStatus => fun (x : EntityDamageStatusPdu) => 40 * x.damage_descriptions.length
  | _ => fun _ => 0

/-- The octets `serialize` appends: the fixed part and the lists, where
- an entity state's marking is written as long as its text is (and not as the eleven octets of the fixed part);
- every variable datum value is followed by zeros, up to a multiple of eight octets;
- a record set is written with as many octets of values as its length times its count says (in 16 bits);
- grid data is written in full. -/
def PduKind.writtenOctets : (k : PduKind) → k.Body → Nat
  | .EntityState => fun (x : EntityStatePdu) =>
    133 + (strBytes x.entity_marking.entity_marking_string).length + 16 * x.articulation_parameter.length
  | .TransferOwnership => fun (x : TransferOwnershipPdu) =>
    40 + (x.record_information.record_sets.map fun s => 12 + s.record_length.toNat * s.record_count.toNat % 65536).sum
  | .SetRecordReliable => fun (x : SetRecordReliablePdu) =>
    40 + (x.record_sets.record_sets.map fun s => 12 + s.record_length.toNat * s.record_count.toNat % 65536).sum
  | .GriddedData => fun (x : GriddedDataPdu) =>
    64 + (x.grid_axis_descriptors.map gridAxisOctets).sum + (x.grid_data_list.map gridDataOctets).sum
  | k => fun x => k.ieeeOctets + k.listOctets x +
    (((k.datums x).getD []).map fun d => datumPadding d.length_bits.toNat).sum

end Dis
