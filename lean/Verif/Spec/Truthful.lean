import Verif.Model.PduKind
/-
When the counts and lengths in a message are true (C58).  Written from the field lists of /repo/src and from IEEE 1278.1;
nothing here refers to the code that writes or reads octets.
-/
namespace Dis

/-- The length of a variable datum is given in bits; this one is that of its value. -/
def VariableDatumRecord.truthful (d : VariableDatumRecord) : Prop := d.length_bits.toNat = 8 * d.value.length
/-- The two counts of a message with datums are those of its lists, and the length of every variable datum is right. -/
def datumsTruthful (nfixed nvariable : UInt32) (fixed : List FixedDatumRecord) (variables : List VariableDatumRecord) : Prop :=
  nfixed.toNat = fixed.length ∧ nvariable.toNat = variables.length ∧ ∀ d ∈ variables, d.truthful
/-- Beams count their targets, emission systems their beams. -/
def ElectromagneticEmissionsPdu.truthful (x : ElectromagneticEmissionsPdu) : Prop :=
  x.number_of_systems.toNat = x.systems.length ∧
  ∀ s ∈ x.systems, s.number_of_beams.toNat = s.beam_data_records.length ∧
    ∀ b ∈ s.beam_data_records, b.number_of_track_jam_targets.toNat = b.track_jam_targets.length
/-- Record sets count their records, attribute records their octets. -/
def AttributePdu.truthful (x : AttributePdu) : Prop :=
  x.number_of_attribute_record_sets.toNat = x.attribute_record_sets.length ∧
  ∀ s ∈ x.attribute_record_sets, s.number_of_attribute_records.toNat = s.attribute_records.length ∧
    ∀ r ∈ s.attribute_records, r.record_length.toNat = r.record_specific_fields.length
/-- There is no padding between the lists (no user of the crate can put any there, C57). -/
def AggregateStatePdu.truthful (x : AggregateStatePdu) : Prop :=
  x.number_of_dis_aggregates.toNat = x.aggregate_id_list.length ∧
  x.number_of_dis_entities.toNat = x.entity_id_list.length ∧ x.padding = [] ∧
  x.number_of_silent_aggregate_types.toNat = x.silent_aggregate_system_list.length ∧
  x.number_of_silent_entity_types.toNat = x.silent_entity_system_list.length ∧
  x.number_of_variable_datum_records.toNat = x.variable_datum_list.length ∧ ∀ d ∈ x.variable_datum_list, d.truthful
/-- The sets are counted, and each has as many octets of values as its record length times its record count (in 16 bits). -/
def RecordSpecification.truthful (x : RecordSpecification) : Prop :=
  x.number_of_record_sets.toNat = x.record_sets.length ∧
  ∀ s ∈ x.record_sets, s.record_length.toNat * s.record_count.toNat < 65536 ∧
    s.record_length.toNat * s.record_count.toNat = s.record_values.length
/-- The records are counted, and each gives the number of its octets. -/
def StandardVariableSpecification.truthful (x : StandardVariableSpecification) : Prop :=
  x.number_of_standard_variable_records.toNat = x.standard_variable_records.length ∧
  ∀ r ∈ x.standard_variable_records, r.record_length.toNat = r.record_specific_fields.length
/-- A list of what is reported of each mine: complete if bit `i` of the data filter is set, otherwise absent. -/
def reported {α : Type} (filter : UInt32) (i : Nat) (n : Nat) (l : List (Option α)) : Prop :=
  l.length = (if filter.toNat.testBit i then n else 0) ∧ ∀ o ∈ l, o.isSome
/-- Mines and sensors are counted; of each mine there is what the data filter says (IEEE 1278.1: bit 0 ground, 1 water, 2 snow
burial depth, 3 orientation, 4 thermal contrast, 5 reflectance, 6 emplacement time, 7 trip wires, 8 fusing, 9 detection
coefficient, 10 paint scheme) and its identifier; of each trip wire the number of vertices and as many vertices. -/
def MinefieldDataPdu.truthful (x : MinefieldDataPdu) : Prop :=
  let n := x.number_of_mines_in_this_pdu.toNat
  let wires := (x.number_of_trip_wires.map fun o => (o.getD 0).toNat).sum
  x.number_of_sensor_types.toNat = x.sensor_types.length ∧ n = x.mine_location.length ∧
  reported x.data_filter 0 n x.ground_burial_depth_offset ∧ reported x.data_filter 1 n x.water_burial_depth_offset ∧
  reported x.data_filter 2 n x.snow_burial_depth_offset ∧ reported x.data_filter 3 n x.mine_orientation ∧
  reported x.data_filter 4 n x.thermal_contrast ∧ reported x.data_filter 5 n x.reflectance ∧
  reported x.data_filter 6 n x.mine_emplacement_time ∧ (x.mine_entity_id.length = n ∧ ∀ o ∈ x.mine_entity_id, o.isSome) ∧
  reported x.data_filter 8 n x.fusing ∧ reported x.data_filter 9 n x.scalar_detection_coefficient ∧
  reported x.data_filter 10 n x.paint_scheme ∧ reported x.data_filter 7 n x.number_of_trip_wires ∧
  reported x.data_filter 7 wires x.number_of_vertices ∧
  (∀ o ∈ x.vertices, o.isSome) ∧
  (x.vertices.map fun o => (o.getD []).length) = x.number_of_vertices.map fun o => (o.getD 0).toNat
/-- Parameters and pattern are absent rather than empty, the former of at most 255 octets (their length is filled in by
`serialize`), the latter of the length given; the records are counted, and each gives the number of its octets. -/
def TransmitterPdu.truthful (x : TransmitterPdu) : Prop :=
  (∀ m, x.modulation_parameters = some m → m.record_specific_fields ≠ [] ∧ m.record_specific_fields.length ≤ 255) ∧
  (∀ a, x.antenna_pattern = some a → a.record_specific_fields ≠ []) ∧
  x.antenna_pattern_length.toNat = (x.antenna_pattern.elim 0 fun a => a.record_specific_fields.length) ∧
  x.number_of_variable_transmitter_parameters_records.toNat = x.variable_transmitter_parameters.length ∧
  ∀ r ∈ x.variable_transmitter_parameters, r.record_length.toNat = r.record_specific_fields.length
/-- A regular axis holds a regular axis's data; an irregular one an irregular axis's, its values counted, and padded to a
multiple of eight octets with less than eight. -/
def GridAxisDescriptor.truthful (x : GridAxisDescriptor) : Prop :=
  match x.data with
  | .FixedSpacing _ _ => x.axis_type = .RegularAxis
  | .VariableSpacing n _ _ _ values padding => x.axis_type = .IrregularAxis ∧ n.toNat = values.length ∧
    padding.length < 8 ∧ (40 + 2 * values.length + padding.length) % 8 = 0
/-- Grid data holds data in the representation it announces, its values counted, and padded to a multiple of four octets
with less than four. -/
def GridDataRecord.truthful (x : GridDataRecord) : Prop :=
  match x.data with
  | .Type0 n values padding => x.data_representation.code = 0 ∧ n.toNat = values.length ∧
    padding.length < 4 ∧ (6 + values.length + padding.length) % 4 = 0
  | .Type1 _ _ n values padding => x.data_representation.code = 1 ∧ n.toNat = values.length ∧
    padding.length < 4 ∧ (14 + 2 * values.length + padding.length) % 4 = 0
  | .Type2 n _ values => x.data_representation.code = 2 ∧ n.toNat = values.length
/-- The axes are counted, and so are the records of grid data, by the dimension of the values. -/
def GriddedDataPdu.truthful (x : GriddedDataPdu) : Prop :=
  x.number_of_grid_axes.toNat = x.grid_axis_descriptors.length ∧ (∀ a ∈ x.grid_axis_descriptors, a.truthful) ∧
  x.vector_dimension.toNat = x.grid_data_list.length ∧ ∀ d ∈ x.grid_data_list, d.truthful

/-- The counts and lengths in a PDU are true.  Nothing is asked of kinds without lists, nor of those with a single list of
records of fixed size at the end. -/
def PduKind.truthful : (k : PduKind) → k.Body → Prop
  | .ElectromagneticEmissions => ElectromagneticEmissionsPdu.truthful
  | .UnderwaterAcoustic => fun (x : UnderwaterAcousticPdu) =>
    x.number_of_shafts.toNat = x.shaft_rpms.length ∧ x.number_of_apas.toNat = x.apa_data.length ∧
    x.number_of_ua_emitter_systems.toNat = x.emitter_systems.length
  | .SupplementalEmission => fun (x : SupplementalEmissionPdu) =>
    x.number_of_propulsion_systems.toNat = x.propulsion_system_data.length ∧
    x.number_of_vectoring_nozzle_systems.toNat = x.vectoring_nozzle_system_data.length
  | .EntityState => fun (x : EntityStatePdu) =>
    (strBytes x.entity_marking.entity_marking_string).length = 11 ∧
    x.number_of_articulation_parameters.toNat = x.articulation_parameter.length
  | .Attribute => AttributePdu.truthful
  | .AggregateState => AggregateStatePdu.truthful
  | .TransferOwnership => fun (x : TransferOwnershipPdu) => x.record_information.truthful
  | .SetRecordReliable => fun (x : SetRecordReliablePdu) => x.record_sets.truthful
  | .InformationOperationsReport => fun (x : InformationOperationsReportPdu) => x.io_records.truthful
  | .InformationOperationsAction => fun (x : InformationOperationsActionPdu) => x.io_records.truthful
  | .MinefieldState => fun (x : MinefieldStatePdu) =>
    x.number_of_perimeter_points.toNat = x.perimeter_points.length ∧ x.number_of_mine_types.toNat = x.mine_type.length
  | .MinefieldQuery => fun (x : MinefieldQueryPdu) =>
    x.number_of_perimeter_points.toNat = x.requested_perimeter_points.length ∧
    x.number_of_sensor_types.toNat = x.sensor_types.length
  | .MinefieldData => MinefieldDataPdu.truthful
  | .Transmitter => TransmitterPdu.truthful
  | .GriddedData => GriddedDataPdu.truthful
  | .ArealObjectState => fun (x : ArealObjectStatePdu) => x.number_of_points.toNat = x.object_location.length
  | .ActionRequest => fun (x : ActionRequestPdu) =>
    datumsTruthful x.number_of_fixed_datum_records x.number_of_variable_datum_records x.fixed_datum_records x.variable_datum_records
  | .ActionResponse => fun (x : ActionResponsePdu) =>
    datumsTruthful x.number_of_fixed_datum_records x.number_of_variable_datum_records x.fixed_datum_records x.variable_datum_records
  | .DataQuery => fun (x : DataQueryPdu) =>
    datumsTruthful x.number_of_fixed_datum_records x.number_of_variable_datum_records x.fixed_datum_records x.variable_datum_records
  | .SetData => fun (x : SetDataPdu) =>
    datumsTruthful x.number_of_fixed_datum_records x.number_of_variable_datum_records x.fixed_datum_records x.variable_datum_records
  | .Data => fun (x : DataPdu) =>
    datumsTruthful x.number_of_fixed_datum_records x.number_of_variable_datum_records x.fixed_datum_records x.variable_datum_records
  | .EventReport => fun (x : EventReportPdu) =>
    datumsTruthful x.number_of_fixed_datum_records x.number_of_variable_datum_records x.fixed_datum_records x.variable_datum_records
  | .Comment => fun (x : CommentPdu) =>
    datumsTruthful x.number_of_fixed_datum_records x.number_of_variable_datum_records x.fixed_datum_records x.variable_datum_records
  | .ActionRequestReliable => fun (x : ActionRequestReliablePdu) =>
    datumsTruthful x.number_of_fixed_datum_records x.number_of_variable_datum_records x.fixed_datum_records x.variable_datum_records
  | .ActionResponseReliable => fun (x : ActionResponseReliablePdu) =>
    datumsTruthful x.number_of_fixed_datum_records x.number_of_variable_datum_records x.fixed_datum_records x.variable_datum_records
  | .DataQueryReliable => fun (x : DataQueryReliablePdu) =>
    x.number_of_fixed_datum_records.toNat = x.fixed_datum_ids.length ∧
    x.number_of_variable_datum_records.toNat = x.variable_datum_ids.length
  | .SetDataReliable => fun (x : SetDataReliablePdu) =>
    datumsTruthful x.number_of_fixed_datum_records x.number_of_variable_datum_records x.fixed_datum_records x.variable_datum_records
  | .DataReliable => fun (x : DataReliablePdu) =>
    datumsTruthful x.number_of_fixed_datum_records x.number_of_variable_datum_records x.fixed_datum_records x.variable_datum_records
  | .EventReportReliable => fun (x : EventReportReliablePdu) =>
    datumsTruthful x.number_of_fixed_datum_records x.number_of_variable_datum_records x.fixed_datum_records x.variable_datum_records
  | .CommentReliable => fun (x : CommentReliablePdu) =>
    datumsTruthful x.number_of_fixed_datum_records x.number_of_variable_datum_records x.fixed_datum_records x.variable_datum_records
  | _ => fun _ => True

/-- The fields of which nothing is sent: octets in their place are always zero (C03).  Two PDUs alike but for these are the
same message. -/
def PduKind.unsentBlank : (k : PduKind) → k.Body → k.Body
  | .EntityState => fun (x : EntityStatePdu) =>
    { x with dead_reckoning_parameters :=
      { x.dead_reckoning_parameters with dead_reckoning_other_parameters := Arr.replicate 15 0 } }
  | .TransferOwnership => fun (x : TransferOwnershipPdu) =>
    { x with originating_id := { x.originating_id with reference_number := 0 }
             receiving_id := { x.receiving_id with reference_number := 0 } }
  | .InformationOperationsReport => fun (x : InformationOperationsReportPdu) =>
    { x with originating_simulation_id := { x.originating_simulation_id with reference_number := 0 } }
  | .InformationOperationsAction => fun (x : InformationOperationsActionPdu) =>
    { x with originating_simulation_id := { x.originating_simulation_id with reference_number := 0 }
             receiving_simulation_id := { x.receiving_simulation_id with reference_number := 0 } }
  | _ => fun x => x

end Dis
