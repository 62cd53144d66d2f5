import Verif.Spec.MessageSize
import Verif.Properties.Length
import Verif.Properties.DeclaredLength
/-
Counting the octets of a message list by list (for Properties/MessageSize).
-/
namespace Dis

theorem field_len_each {α : Type} [FieldLen α] (c : Nat) (h : ∀ x : α, field_len x = c) (l : List α) :
    field_len l = c * l.length := by
  show (l.map field_len).sum = _
  induction l with
  | nil => rfl
  | cons a l ih => rw [List.map_cons, List.sum_cons, ih, h, List.length_cons, Nat.mul_succ]; omega

theorem field_len_cons {α : Type} [FieldLen α] (a : α) (l : List α) :
    field_len (a :: l) = field_len a + field_len l := rfl

theorem field_len_octets (l : List UInt8) : field_len l = l.length :=
  (field_len_each 1 (fun _ => rfl) l).trans (by omega)

theorem field_len_present {α : Type} [FieldLen α] (c : Nat) (h : ∀ x : α, field_len x = c) :
    ∀ l : List (Option α), field_len l = c * presentCount l
  | [] => rfl
  | none :: l => by
    rw [field_len_cons, field_len_present c h l]
    show 0 + _ = c * List.countP _ (none :: l)
    rw [List.countP_cons_of_neg (by simp)]; exact Nat.zero_add _
  | some a :: l => by
    rw [field_len_cons, field_len_present c h l]
    show field_len a + _ = c * List.countP _ (some a :: l)
    rw [List.countP_cons_of_pos (by rfl), h, Nat.mul_succ]; exact Nat.add_comm _ _

theorem field_len_vertices : ∀ l : List (Option (List EntityCoordinateVector)),
    field_len l = 12 * (l.flatMap fun v => v.getD []).length
  | [] => rfl
  | v :: l => by
    rw [field_len_cons, field_len_vertices l, List.flatMap_cons, List.length_append]
    cases v with
    | none => show 0 + _ = _; simp only [Option.getD_none, List.length_nil]; omega
    | some v =>
      show field_len v + _ = _
      rw [field_len_each 12 (fun _ => rfl) v]; simp only [Option.getD_some]; omega

theorem field_len_attributes : ∀ l : List AttributeRecord,
    field_len l = 6 * l.length + (l.flatMap fun r => r.record_specific_fields).length
  | [] => rfl
  | r :: l => by
    rw [field_len_cons, field_len_attributes l, List.flatMap_cons, List.length_append, List.length_cons]
    show 4 + 2 + field_len r.record_specific_fields + _ = _
    rw [field_len_octets]; omega

theorem field_len_attribute_sets : ∀ l : List AttributeRecordSet,
    field_len l = 8 * l.length + 6 * (l.flatMap fun s => s.attribute_records).length +
      (l.flatMap fun s => s.attribute_records.flatMap fun r => r.record_specific_fields).length
  | [] => rfl
  | s :: l => by
    rw [field_len_cons, field_len_attribute_sets l, List.flatMap_cons, List.flatMap_cons, List.length_append,
      List.length_append, List.length_cons]
    show 6 + 2 + field_len s.attribute_records + _ = _
    rw [field_len_attributes]; omega

theorem field_len_beams : ∀ l : List ElectromagneticEmissionBeamData,
    field_len l = 52 * l.length + 8 * (l.flatMap fun b => b.track_jam_targets).length
  | [] => rfl
  | b :: l => by
    rw [field_len_cons, field_len_beams l, List.flatMap_cons, List.length_append, List.length_cons]
    show 52 + field_len b.track_jam_targets + _ = _
    rw [field_len_each 8 (fun _ => rfl) b.track_jam_targets]; omega

theorem field_len_systems : ∀ l : List ElectromagneticEmissionSystemData,
    field_len l = 20 * l.length + 52 * (l.flatMap fun s => s.beam_data_records).length +
      8 * (l.flatMap fun s => s.beam_data_records.flatMap fun b => b.track_jam_targets).length
  | [] => rfl
  | s :: l => by
    rw [field_len_cons, field_len_systems l, List.flatMap_cons, List.flatMap_cons, List.length_append,
      List.length_append, List.length_cons]
    show 20 + field_len s.beam_data_records + _ = _
    rw [field_len_beams]; omega

theorem field_len_datums : ∀ l : List VariableDatumRecord,
    field_len l = 8 * l.length + (l.flatMap fun d => d.value).length
  | [] => rfl
  | d :: l => by
    rw [field_len_cons, field_len_datums l, List.flatMap_cons, List.length_append, List.length_cons]
    show 8 + field_len d.value + _ = _
    rw [field_len_octets]; omega

theorem field_len_record_sets : ∀ l : List RecordSpecificationElement, field_len l = setsOctets l
  | [] => rfl
  | d :: l => by
    rw [field_len_cons, field_len_record_sets l]
    unfold setsOctets
    rw [List.flatMap_cons, List.length_append, List.length_cons]
    show 12 + field_len d.record_values + _ = _
    rw [field_len_octets]; omega

theorem field_len_standard : ∀ l : List StandardVariableRecords, field_len l = standardRecordOctets l
  | [] => rfl
  | d :: l => by
    rw [field_len_cons, field_len_standard l]
    unfold standardRecordOctets
    rw [List.flatMap_cons, List.length_append, List.length_cons]
    show 6 + field_len d.record_specific_fields + _ = _
    rw [field_len_octets]; omega

theorem field_len_transmitter : ∀ l : List VariableTransmitterParameters,
    field_len l = 6 * l.length + (l.flatMap fun d => d.record_specific_fields).length
  | [] => rfl
  | d :: l => by
    rw [field_len_cons, field_len_transmitter l, List.flatMap_cons, List.length_append, List.length_cons]
    show 6 + d.record_specific_fields.length + _ = _
    omega

theorem field_len_axes : ∀ l : List GridAxisDescriptor, field_len l = (l.map gridAxisOctets).sum
  | [] => rfl
  | d :: l => by
    rw [field_len_cons, field_len_axes l, List.map_cons, List.sum_cons]
    congr 1
    obtain ⟨_, _, _, _, _, data⟩ := d
    cases data with
    | FixedSpacing => rfl
    | VariableSpacing a b c e values padding =>
      show 20 + (20 + field_len values + field_len padding) = 40 + 2 * values.length + padding.length
      rw [field_len_octets, field_len_each 2 (fun _ => rfl) values]; omega

theorem field_len_grids : ∀ l : List GridDataRecord, field_len l = (l.map fun r => gridDataOctets r - 2).sum
  | [] => rfl
  | d :: l => by
    rw [field_len_cons, field_len_grids l, List.map_cons, List.sum_cons]
    congr 1
    obtain ⟨_, _, data⟩ := d
    cases data with
    | Type0 n values padding =>
      show 2 + (2 + field_len values + field_len padding) = 6 + values.length + padding.length - 2
      rw [field_len_octets, field_len_octets]; omega
    | Type1 a b n values padding =>
      show 2 + (10 + field_len values + field_len padding) = 14 + 2 * values.length + padding.length - 2
      rw [field_len_octets, field_len_each 2 (fun _ => rfl) values]; omega
    | Type2 a b values =>
      show 2 + (4 + field_len values) = 8 + 4 * values.length - 2
      rw [field_len_each 4 (fun _ => rfl) values]; omega

theorem PduKind.listOctets_eq (k : PduKind) (x : k.Body) :
    12 + PduBody.fieldsLen x = k.ieeeOctets + k.listOctets x := by
  cases k
  case ElectromagneticEmissions =>
    let y : ElectromagneticEmissionsPdu := x
    show 12 + (16 + field_len y.systems) = 28 + y.listOctets
    rw [field_len_systems]; unfold ElectromagneticEmissionsPdu.listOctets; omega
  case UnderwaterAcoustic =>
    let y : UnderwaterAcousticPdu := x
    show 12 + (20 + field_len y.shaft_rpms + field_len y.apa_data + field_len y.emitter_systems) = 32 + (8 * y.shaft_rpms.length + 4 * y.apa_data.length + 4 * y.emitter_systems.length)
    rw [field_len_each 8 (fun _ => rfl) y.shaft_rpms, field_len_each 4 (fun _ => rfl) y.apa_data, field_len_each 4 (fun _ => rfl) y.emitter_systems]; omega
  case IFF =>
    let y : IFFPdu := x
    show 12 + (76 + field_len y.iff_parameters) = 88 + (24 * y.iff_parameters.length)
    rw [field_len_each 24 (fun _ => rfl) y.iff_parameters]; omega
  case SupplementalEmission =>
    let y : SupplementalEmissionPdu := x
    show 12 + (16 + field_len y.propulsion_system_data + field_len y.vectoring_nozzle_system_data) = 28 + (8 * y.propulsion_system_data.length + 8 * y.vectoring_nozzle_system_data.length)
    rw [field_len_each 8 (fun _ => rfl) y.propulsion_system_data, field_len_each 8 (fun _ => rfl) y.vectoring_nozzle_system_data]; omega
  case EntityState =>
    let y : EntityStatePdu := x
    show 12 + (132 + field_len y.articulation_parameter) = 144 + (16 * y.articulation_parameter.length)
    rw [field_len_each 16 (fun _ => rfl) y.articulation_parameter]; omega
  case EntityStateUpdate =>
    let y : EntityStateUpdatePdu := x
    show 12 + (60 + field_len y.variable_parameter_records) = 72 + (16 * y.variable_parameter_records.length)
    rw [field_len_each 16 (fun _ => rfl) y.variable_parameter_records]; omega
  case IsGroupOf =>
    let y : IsGroupOfPdu := x
    show 12 + (28 + field_len y.grouped_entity_descriptions) = 40 + (8 * y.grouped_entity_descriptions.length)
    rw [field_len_each 8 (fun _ => rfl) y.grouped_entity_descriptions]; omega
  case ServiceRequest =>
    let y : ServiceRequestPdu := x
    show 12 + (16 + field_len y.supplies) = 28 + (12 * y.supplies.length)
    rw [field_len_each 12 (fun _ => rfl) y.supplies]; omega
  case ResupplyOffer =>
    let y : ResupplyOfferPdu := x
    show 12 + (16 + field_len y.supplies) = 28 + (12 * y.supplies.length)
    rw [field_len_each 12 (fun _ => rfl) y.supplies]; omega
  case ResupplyReceived =>
    let y : ResupplyReceivedPdu := x
    show 12 + (16 + field_len y.supplies) = 28 + (12 * y.supplies.length)
    rw [field_len_each 12 (fun _ => rfl) y.supplies]; omega
  case MinefieldState =>
    let y : MinefieldStatePdu := x
    show 12 + (60 + field_len y.perimeter_points + field_len y.mine_type) = 72 + (8 * y.perimeter_points.length + 8 * y.mine_type.length)
    rw [field_len_each 8 (fun _ => rfl) y.perimeter_points, field_len_each 8 (fun _ => rfl) y.mine_type]; omega
  case MinefieldQuery =>
    let y : MinefieldQueryPdu := x
    show 12 + (28 + field_len y.requested_perimeter_points + field_len y.sensor_types) = 40 + (8 * y.requested_perimeter_points.length + y.sensor_types.length)
    rw [field_len_each 8 (fun _ => rfl) y.requested_perimeter_points, field_len_each 1 (fun _ => rfl) y.sensor_types]; omega
  case MinefieldResponseNack =>
    let y : MinefieldResponseNackPdu := x
    show 12 + (14 + field_len y.missing_pdu_sequence_numbers) = 26 + (8 * y.missing_pdu_sequence_numbers.length)
    rw [field_len_each 8 (fun _ => rfl) y.missing_pdu_sequence_numbers]; omega
  case Signal =>
    let y : SignalPdu := x
    show 12 + (20 + field_len y.data) = 32 + (y.data.length)
    rw [field_len_each 1 (fun _ => rfl) y.data]; omega
  case IntercomSignal =>
    let y : IntercomSignalPdu := x
    show 12 + (20 + field_len y.data) = 32 + (y.data.length)
    rw [field_len_each 1 (fun _ => rfl) y.data]; omega
  case IntercomControl =>
    let y : IntercomControlPdu := x
    show 12 + (28 + field_len y.intercom_parameters) = 40 + (8 * y.intercom_parameters.length)
    rw [field_len_each 8 (fun _ => rfl) y.intercom_parameters]; omega
  case DataQueryReliable =>
    let y : DataQueryReliablePdu := x
    show 12 + (32 + field_len y.fixed_datum_ids + field_len y.variable_datum_ids) = 44 + (4 * y.fixed_datum_ids.length + 4 * y.variable_datum_ids.length)
    rw [field_len_each 4 (fun _ => rfl) y.fixed_datum_ids, field_len_each 4 (fun _ => rfl) y.variable_datum_ids]; omega
  case RecordQueryReliable =>
    let y : RecordQueryReliablePdu := x
    show 12 + (28 + field_len y.record_ids) = 40 + (4 * y.record_ids.length)
    rw [field_len_each 4 (fun _ => rfl) y.record_ids]; omega
  case EnvironmentalProcess =>
    let y : EnvironmentalProcessPdu := x
    show 12 + (20 + field_len y.environment_records) = 32 + (8 * y.environment_records.length)
    rw [field_len_each 8 (fun _ => rfl) y.environment_records]; omega
  case LinearObjectState =>
    let y : LinearObjectStatePdu := x
    show 12 + (28 + field_len y.linear_segment_parameters) = 40 + (66 * y.linear_segment_parameters.length)
    rw [field_len_each 66 (fun _ => rfl) y.linear_segment_parameters]; omega
  case ArealObjectState =>
    let y : ArealObjectStatePdu := x
    show 12 + (36 + field_len y.object_location) = 48 + (24 * y.object_location.length)
    rw [field_len_each 24 (fun _ => rfl) y.object_location]; omega
  case Detonation =>
    let y : DetonationPdu := x
    show 12 + (92 + field_len y.variable_parameters) = 104 + (16 * y.variable_parameters.length)
    rw [field_len_each 16 (fun _ => rfl) y.variable_parameters]; omega
  case DirectedEnergyFire =>
    let y : DirectedEnergyFirePdu := x
    show 12 + (76 + field_len y.damage_descriptions) = 88 + (40 * y.damage_descriptions.length)
    rw [field_len_each 40 (fun _ => rfl) y.damage_descriptions]; omega
  case EntityDamageStatus =>
    let y : EntityDamageStatusPdu := x
    show 12 + (12 + field_len y.damage_descriptions) = 24 + (40 * y.damage_descriptions.length)
    rw [field_len_each 40 (fun _ => rfl) y.damage_descriptions]; omega
  case ActionRequest =>
    let y : ActionRequestPdu := x
    show 12 + (28 + field_len y.fixed_datum_records + field_len y.variable_datum_records) =
      40 + datumOctets y.fixed_datum_records y.variable_datum_records
    rw [field_len_each 8 (fun _ => rfl) y.fixed_datum_records, field_len_datums]; unfold datumOctets; omega
  case ActionResponse =>
    let y : ActionResponsePdu := x
    show 12 + (28 + field_len y.fixed_datum_records + field_len y.variable_datum_records) =
      40 + datumOctets y.fixed_datum_records y.variable_datum_records
    rw [field_len_each 8 (fun _ => rfl) y.fixed_datum_records, field_len_datums]; unfold datumOctets; omega
  case DataQuery =>
    let y : DataQueryPdu := x
    show 12 + (28 + field_len y.fixed_datum_records + field_len y.variable_datum_records) =
      40 + datumOctets y.fixed_datum_records y.variable_datum_records
    rw [field_len_each 8 (fun _ => rfl) y.fixed_datum_records, field_len_datums]; unfold datumOctets; omega
  case SetData =>
    let y : SetDataPdu := x
    show 12 + (28 + field_len y.fixed_datum_records + field_len y.variable_datum_records) =
      40 + datumOctets y.fixed_datum_records y.variable_datum_records
    rw [field_len_each 8 (fun _ => rfl) y.fixed_datum_records, field_len_datums]; unfold datumOctets; omega
  case Data =>
    let y : DataPdu := x
    show 12 + (28 + field_len y.fixed_datum_records + field_len y.variable_datum_records) =
      40 + datumOctets y.fixed_datum_records y.variable_datum_records
    rw [field_len_each 8 (fun _ => rfl) y.fixed_datum_records, field_len_datums]; unfold datumOctets; omega
  case EventReport =>
    let y : EventReportPdu := x
    show 12 + (28 + field_len y.fixed_datum_records + field_len y.variable_datum_records) =
      40 + datumOctets y.fixed_datum_records y.variable_datum_records
    rw [field_len_each 8 (fun _ => rfl) y.fixed_datum_records, field_len_datums]; unfold datumOctets; omega
  case Comment =>
    let y : CommentPdu := x
    show 12 + (20 + field_len y.fixed_datum_records + field_len y.variable_datum_records) =
      32 + datumOctets y.fixed_datum_records y.variable_datum_records
    rw [field_len_each 8 (fun _ => rfl) y.fixed_datum_records, field_len_datums]; unfold datumOctets; omega
  case ActionRequestReliable =>
    let y : ActionRequestReliablePdu := x
    show 12 + (36 + field_len y.fixed_datum_records + field_len y.variable_datum_records) =
      48 + datumOctets y.fixed_datum_records y.variable_datum_records
    rw [field_len_each 8 (fun _ => rfl) y.fixed_datum_records, field_len_datums]; unfold datumOctets; omega
  case ActionResponseReliable =>
    let y : ActionResponseReliablePdu := x
    show 12 + (28 + field_len y.fixed_datum_records + field_len y.variable_datum_records) =
      40 + datumOctets y.fixed_datum_records y.variable_datum_records
    rw [field_len_each 8 (fun _ => rfl) y.fixed_datum_records, field_len_datums]; unfold datumOctets; omega
  case SetDataReliable =>
    let y : SetDataReliablePdu := x
    show 12 + (28 + field_len y.fixed_datum_records + field_len y.variable_datum_records) =
      40 + datumOctets y.fixed_datum_records y.variable_datum_records
    rw [field_len_each 8 (fun _ => rfl) y.fixed_datum_records, field_len_datums]; unfold datumOctets; omega
  case DataReliable =>
    let y : DataReliablePdu := x
    show 12 + (28 + field_len y.fixed_datum_records + field_len y.variable_datum_records) =
      40 + datumOctets y.fixed_datum_records y.variable_datum_records
    rw [field_len_each 8 (fun _ => rfl) y.fixed_datum_records, field_len_datums]; unfold datumOctets; omega
  case EventReportReliable =>
    let y : EventReportReliablePdu := x
    show 12 + (28 + field_len y.fixed_datum_records + field_len y.variable_datum_records) =
      40 + datumOctets y.fixed_datum_records y.variable_datum_records
    rw [field_len_each 8 (fun _ => rfl) y.fixed_datum_records, field_len_datums]; unfold datumOctets; omega
  case CommentReliable =>
    let y : CommentReliablePdu := x
    show 12 + (20 + field_len y.fixed_datum_records + field_len y.variable_datum_records) =
      32 + datumOctets y.fixed_datum_records y.variable_datum_records
    rw [field_len_each 8 (fun _ => rfl) y.fixed_datum_records, field_len_datums]; unfold datumOctets; omega
  case TransferOwnership =>
    let y : TransferOwnershipPdu := x
    show 12 + (24 + (4 + field_len y.record_information.record_sets)) = 40 + setsOctets y.record_information.record_sets
    rw [field_len_record_sets]; omega
  case SetRecordReliable =>
    let y : SetRecordReliablePdu := x
    show 12 + (24 + (4 + field_len y.record_sets.record_sets)) = 40 + setsOctets y.record_sets.record_sets
    rw [field_len_record_sets]; omega
  case InformationOperationsReport =>
    let y : InformationOperationsReportPdu := x
    show 12 + (26 + (2 + field_len y.io_records.standard_variable_records)) =
      40 + standardRecordOctets y.io_records.standard_variable_records
    rw [field_len_standard]; omega
  case InformationOperationsAction =>
    let y : InformationOperationsActionPdu := x
    show 12 + (42 + (2 + field_len y.io_records.standard_variable_records)) =
      56 + standardRecordOctets y.io_records.standard_variable_records
    rw [field_len_standard]; omega
  case MinefieldData =>
    let y : MinefieldDataPdu := x
    show 12 + (32 + field_len y.sensor_types + field_len y.mine_location + field_len y.ground_burial_depth_offset +
      field_len y.water_burial_depth_offset +
      field_len y.snow_burial_depth_offset +
      field_len y.mine_orientation +
      field_len y.thermal_contrast +
      field_len y.reflectance +
      field_len y.mine_emplacement_time +
      field_len y.mine_entity_id +
      field_len y.fusing +
      field_len y.scalar_detection_coefficient +
      field_len y.paint_scheme +
      field_len y.number_of_trip_wires +
      field_len y.number_of_vertices + field_len y.vertices) = 44 + y.listOctets
    rw [field_len_each 1 (fun _ => rfl) y.sensor_types, field_len_each 12 (fun _ => rfl) y.mine_location,
      field_len_present 4 (fun _ => rfl) y.ground_burial_depth_offset,
      field_len_present 4 (fun _ => rfl) y.water_burial_depth_offset,
      field_len_present 4 (fun _ => rfl) y.snow_burial_depth_offset,
      field_len_present 12 (fun _ => rfl) y.mine_orientation,
      field_len_present 4 (fun _ => rfl) y.thermal_contrast,
      field_len_present 4 (fun _ => rfl) y.reflectance,
      field_len_present 8 (fun _ => rfl) y.mine_emplacement_time,
      field_len_present 2 (fun _ => rfl) y.mine_entity_id,
      field_len_present 2 (fun _ => rfl) y.fusing,
      field_len_present 1 (fun _ => rfl) y.scalar_detection_coefficient,
      field_len_present 1 (fun _ => rfl) y.paint_scheme,
      field_len_present 1 (fun _ => rfl) y.number_of_trip_wires,
      field_len_present 1 (fun _ => rfl) y.number_of_vertices, field_len_vertices]
    unfold MinefieldDataPdu.listOctets
    omega
  case AggregateState =>
    let y : AggregateStatePdu := x
    show 12 + (120 + field_len y.aggregate_id_list + field_len y.entity_id_list + field_len y.padding +
      field_len y.silent_aggregate_system_list + field_len y.silent_entity_system_list + 4 +
      field_len y.variable_datum_list) = 136 + y.listOctets
    rw [field_len_each 6 (fun _ => rfl) y.aggregate_id_list, field_len_each 6 (fun _ => rfl) y.entity_id_list,
      field_len_octets, field_len_each 8 (fun _ => rfl) y.silent_aggregate_system_list,
      field_len_each 8 (fun _ => rfl) y.silent_entity_system_list, field_len_datums]
    unfold AggregateStatePdu.listOctets
    omega
  case Attribute =>
    let y : AttributePdu := x
    show 12 + (20 + field_len y.attribute_record_sets) = 32 + y.listOctets
    rw [field_len_attribute_sets]; unfold AttributePdu.listOctets; omega
  case Transmitter =>
    let y : TransmitterPdu := x
    show 12 + (92 + field_len y.modulation_parameters + field_len y.antenna_pattern +
      field_len y.variable_transmitter_parameters) = 104 + y.listOctets
    rw [field_len_transmitter]
    unfold TransmitterPdu.listOctets
    have h1 : field_len y.modulation_parameters = y.modulation_parameters.elim 0 fun m => m.record_specific_fields.length := by
      cases y.modulation_parameters with
      | none => rfl
      | some m => exact field_len_octets m.record_specific_fields
    have h2 : field_len y.antenna_pattern = y.antenna_pattern.elim 0 fun m => m.record_specific_fields.length := by
      cases y.antenna_pattern with
      | none => rfl
      | some m => rfl
    rw [h1, h2]; omega
  case GriddedData =>
    let y : GriddedDataPdu := x
    show 12 + (52 + field_len y.grid_axis_descriptors + field_len y.grid_data_list) =
      64 + ((y.grid_axis_descriptors.map gridAxisOctets).sum + (y.grid_data_list.map fun r => gridDataOctets r - 2).sum)
    rw [field_len_axes, field_len_grids]; omega
  all_goals rfl

end Dis
