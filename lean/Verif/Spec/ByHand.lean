import Verif.Spec.Truthful
import Verif.Spec.MessageSize
import Verif.Spec.Dispatch
/-
A program a user writes around the crate: a receiver that gets the whole message.  The crate's decoders leave the lists at the
end of a message unread (C12); this program reads them from the rest of the buffer, with the records' own public decoders and
counts (`for _ in 0..pdu.number_of_... { pdu.list.push(X::deserialize(&mut buf)); }`), or, where there is just one list, of
records of fixed size, as many as the length in the header leaves room for.  Four record types and five kinds of PDU are read
number by number (`buf.get_u16()` and so on), because the crate's own decoder for them does not read what its encoder writes
(C27, C35, C66; C18, C34, C12).
-/
set_option maxRecDepth 4000
namespace Dis

/-! ### Records read by hand -/

/-- Identifier, number of bits, value, and zeros up to a multiple of 64 bits. -/
def VariableDatumRecord.byHand : Get VariableDatumRecord := do
  let datum_id ← getU32
  let length_bits ← getU32
  let value ← getN getU8 ((length_bits.toNat + 7) / 8)
  let _ ← getN getU8 ((64 - length_bits.toNat % 64) % 64 / 8)
  return { datum_id, length_bits, value }

/-- The type is sent in four octets; the crate's enumeration reads the last of them. -/
def VariableTransmitterParameters.byHand : Get VariableTransmitterParameters := do
  let _ ← getN getU8 3
  let record_type ← VariableParameterRecordType.deserialize
  let record_length ← getU16
  let record_specific_fields ← getN getU8 record_length.toNat
  return { record_type, record_length, record_specific_fields }

/-- An irregular axis is padded to a multiple of eight octets. -/
def GridAxisDescriptor.byHand : Get GridAxisDescriptor := do
  let domain_initial ← getF64
  let domain_final ← getF64
  let domain_points ← getU16
  let interleaf_factor ← getU8
  let axis_type ← GridAxisDescriptorAxisType.deserialize
  let number ← getU16
  let index ← getU16
  if axis_type = .RegularAxis then
    return { domain_initial, domain_final, domain_points, interleaf_factor, axis_type, data := .FixedSpacing number index }
  else do
    let scale ← getF64
    let offset ← getF64
    let values ← getN getU16 number.toNat
    let padding ← getN getU8 ((8 - (40 + 2 * number.toNat) % 8) % 8)
    return { domain_initial, domain_final, domain_points, interleaf_factor, axis_type
             data := .VariableSpacing number index scale offset values padding }

/-- Sample type and data representation are sent in two octets each; the crate's enumerations read the second of them.
Padded to a multiple of four octets. -/
def GridDataRecord.byHand : Get GridDataRecord := do
  let _ ← getU8
  let sample_type ← GriddedDataSampleType.deserialize
  let _ ← getU8
  let data_representation ← GriddedDataDataRepresentation.deserialize
  if data_representation.code = 0 then do
    let number ← getU16
    let values ← getN getU8 number.toNat
    let padding ← getN getU8 ((4 - (6 + number.toNat) % 4) % 4)
    return { sample_type, data_representation, data := .Type0 number values padding }
  else if data_representation.code = 1 then do
    let scale ← getF32
    let offset ← getF32
    let number ← getU16
    let values ← getN getU16 number.toNat
    let padding ← getN getU8 ((4 - (14 + 2 * number.toNat) % 4) % 4)
    return { sample_type, data_representation, data := .Type1 scale offset number values padding }
  else do
    let number ← getU16
    let padding ← getU16
    let values ← getN getF32 number.toNat
    return { sample_type, data_representation, data := .Type2 number padding values }

/-! ### PDUs read by hand -/

/-- The marking is a character set and eleven octets of UTF-8 text (`String::from_utf8`). -/
def EntityStatePdu.byHand : Get EntityStatePdu := do
  let entity_id ← EntityId.deserialize
  let force_id ← ForceId.deserialize
  let number_of_articulation_parameters ← getU8
  let entity_type ← EntityType.deserialize
  let alternative_entity_type ← EntityType.deserialize
  let entity_linear_velocity ← LinearVelocity.deserialize
  let entity_location ← WorldCoordinate.deserialize
  let entity_orientation ← EulerAngles.deserialize
  let entity_appearance ← getU32
  let dead_reckoning_parameters ← DeadReckoningParameters.deserialize
  let characters ← EntityMarkingCharacterSet.deserialize
  let text ← getN getU8 11
  let entity_capabilities ← (deserialize_field : Get EntityCapabilities)
  let articulation_parameter ← getN VariableParameter.deserialize number_of_articulation_parameters.toNat
  return { entity_id, force_id, number_of_articulation_parameters, entity_type, alternative_entity_type
           entity_linear_velocity, entity_location, entity_orientation, entity_appearance, dead_reckoning_parameters
           entity_marking := ⟨characters, (String.fromUTF8? ⟨text.toArray⟩).getD ""⟩
           entity_capabilities, articulation_parameter }

/-- The number of variable datums comes after the other lists. -/
def AggregateStatePdu.byHand : Get AggregateStatePdu := do
  let aggregate_id ← AggregateId.deserialize
  let force_id ← ForceId.deserialize
  let aggregate_state ← AggregateStateAggregateState.deserialize
  let aggregate_type ← EntityType.deserialize
  let formation ← AggregateStateFormation.deserialize
  let aggregate_marking ← AggregateMarking.deserialize
  let dimensions ← Vector3Float.deserialize
  let orientation ← EulerAngles.deserialize
  let center_of_mass ← WorldCoordinate.deserialize
  let velocity ← LinearVelocity.deserialize
  let number_of_dis_aggregates ← getU16
  let number_of_dis_entities ← getU16
  let number_of_silent_aggregate_types ← getU16
  let number_of_silent_entity_types ← getU16
  let aggregate_id_list ← getN AggregateId.deserialize number_of_dis_aggregates.toNat
  let entity_id_list ← getN EntityId.deserialize number_of_dis_entities.toNat
  let silent_aggregate_system_list ← getN EntityType.deserialize number_of_silent_aggregate_types.toNat
  let silent_entity_system_list ← getN EntityType.deserialize number_of_silent_entity_types.toNat
  let number_of_variable_datum_records ← getU32
  let variable_datum_list ← getN VariableDatumRecord.byHand number_of_variable_datum_records.toNat
  return { aggregate_id, force_id, aggregate_state, aggregate_type, formation, aggregate_marking, dimensions, orientation
           center_of_mass, velocity, number_of_dis_aggregates, number_of_dis_entities, number_of_silent_aggregate_types
           number_of_silent_entity_types, aggregate_id_list, entity_id_list, padding := [], silent_aggregate_system_list
           silent_entity_system_list, number_of_variable_datum_records, variable_datum_list }

/-- Flags without a name are kept (`FrozenBehavior::from_bits_retain`). -/
def StopFreezePdu.byHand : Get StopFreezePdu := do
  let originating_entity_id ← EntityId.deserialize
  let receiving_entity_id ← EntityId.deserialize
  let real_world_time ← ClockTime.deserialize
  let reason ← (deserialize_field : Get Reason)
  let flags ← getU8
  let padding ← getU16
  let request_id ← getU32
  return { originating_entity_id, receiving_entity_id, real_world_time, reason, frozen_behavior := ⟨flags⟩, padding, request_id }

/-- The same. -/
def StopFreezeReliablePdu.byHand : Get StopFreezeReliablePdu := do
  let originating_entity_id ← EntityId.deserialize
  let receiving_entity_id ← EntityId.deserialize
  let real_world_time ← ClockTime.deserialize
  let reason ← (deserialize_field : Get Reason)
  let flags ← getU8
  let required_reliability_service ← getU8
  let padding ← getU8
  let request_id ← getU32
  return { originating_entity_id, receiving_entity_id, real_world_time, reason, frozen_behavior := ⟨flags⟩
           required_reliability_service, padding, request_id }

/-- The same, with a list. -/
def ArealObjectStatePdu.byHand : Get ArealObjectStatePdu := do
  let object_id ← ObjectIdentifier.deserialize
  let referenced_object_id ← ObjectIdentifier.deserialize
  let update_number ← getU16
  let force_id ← ForceId.deserialize
  let modifications ← getU8
  let object_type ← ObjectType.deserialize
  let specific_object_appearance ← getU32
  let flags ← getU16
  let number_of_points ← getU16
  let requester_id ← SimulationAddress.deserialize
  let receiving_id ← SimulationAddress.deserialize
  let object_location ← getN WorldCoordinate.deserialize number_of_points.toNat
  return { object_id, referenced_object_id, update_number, force_id, modifications, object_type, specific_object_appearance
           general_object_appearance := ⟨flags⟩, number_of_points, requester_id, receiving_id, object_location }

/-! ### PDUs completed by hand -/

/-- What is reported of `n` mines, if bit `i` of the data filter says that it is. -/
def readReported {α : Type} (filter : UInt32) (i n : Nat) (read : Get α) : Get (List (Option α)) := do
  if filter.toNat.testBit i then return (← getN read n).map some else return []

/-- The vertices of each trip wire. -/
def readVertices : List (Option UInt8) → Get (List (Option (List EntityCoordinateVector)))
  | [] => return []
  | n :: ns => do
    let wire ← getN EntityCoordinateVector.deserialize (n.getD 0).toNat
    let wires ← readVertices ns
    return some wire :: wires

/-- The lists of a minefield data PDU, by its data filter. -/
def MinefieldDataPdu.complete (x : MinefieldDataPdu) : Get MinefieldDataPdu := do
  let n := x.number_of_mines_in_this_pdu.toNat
  let sensor_types ← getN MinefieldSensorTypes.deserialize x.number_of_sensor_types.toNat
  let mine_location ← getN EntityCoordinateVector.deserialize n
  let ground_burial_depth_offset ← readReported x.data_filter 0 n getF32
  let water_burial_depth_offset ← readReported x.data_filter 1 n getF32
  let snow_burial_depth_offset ← readReported x.data_filter 2 n getF32
  let mine_orientation ← readReported x.data_filter 3 n EulerAngles.deserialize
  let thermal_contrast ← readReported x.data_filter 4 n getF32
  let reflectance ← readReported x.data_filter 5 n getF32
  let mine_emplacement_time ← readReported x.data_filter 6 n ClockTime.deserialize
  let mine_entity_id ← (do return (← getN getU16 n).map some)
  let fusing ← readReported x.data_filter 8 n getU16
  let scalar_detection_coefficient ← readReported x.data_filter 9 n getU8
  let paint_scheme ← readReported x.data_filter 10 n getU8
  let number_of_trip_wires ← readReported x.data_filter 7 n getU8
  let wires := (number_of_trip_wires.map fun o => (o.getD 0).toNat).sum
  let number_of_vertices ← readReported x.data_filter 7 wires getU8
  let vertices ← readVertices number_of_vertices
  return { x with
    sensor_types, mine_location, ground_burial_depth_offset, water_burial_depth_offset, snow_burial_depth_offset
    mine_orientation, thermal_contrast, reflectance, mine_emplacement_time, mine_entity_id, fusing
    scalar_detection_coefficient, paint_scheme, number_of_trip_wires, number_of_vertices, vertices }

/-- Complete a decoded PDU from the rest of the buffer; `declared` is the length in its header. -/
def PduKind.complete : (k : PduKind) → (declared : Nat) → k.Body → Get k.Body
  | .IFF => fun declared (x : IFFPdu) => do
    let l ← getN IFFFundamentalParameterData.deserialize ((declared - PduKind.IFF.ieeeOctets) / 24)
    return { x with iff_parameters := l }
  | .EntityStateUpdate => fun declared (x : EntityStateUpdatePdu) => do
    let l ← getN VariableParameter.deserialize ((declared - PduKind.EntityStateUpdate.ieeeOctets) / 16)
    return { x with variable_parameter_records := l }
  | .IsGroupOf => fun declared (x : IsGroupOfPdu) => do
    let l ← getN getU64 ((declared - PduKind.IsGroupOf.ieeeOctets) / 8)
    return { x with grouped_entity_descriptions := l }
  | .ServiceRequest => fun declared (x : ServiceRequestPdu) => do
    let l ← getN SupplyQuantity.deserialize ((declared - PduKind.ServiceRequest.ieeeOctets) / 12)
    return { x with supplies := l }
  | .ResupplyOffer => fun declared (x : ResupplyOfferPdu) => do
    let l ← getN SupplyQuantity.deserialize ((declared - PduKind.ResupplyOffer.ieeeOctets) / 12)
    return { x with supplies := l }
  | .ResupplyReceived => fun declared (x : ResupplyReceivedPdu) => do
    let l ← getN SupplyQuantity.deserialize ((declared - PduKind.ResupplyReceived.ieeeOctets) / 12)
    return { x with supplies := l }
  | .MinefieldResponseNack => fun declared (x : MinefieldResponseNackPdu) => do
    let l ← getN getU64 ((declared - PduKind.MinefieldResponseNack.ieeeOctets) / 8)
    return { x with missing_pdu_sequence_numbers := l }
  | .Signal => fun declared (x : SignalPdu) => do
    let l ← getN getU8 ((declared - PduKind.Signal.ieeeOctets) / 1)
    return { x with data := l }
  | .IntercomSignal => fun declared (x : IntercomSignalPdu) => do
    let l ← getN getU8 ((declared - PduKind.IntercomSignal.ieeeOctets) / 1)
    return { x with data := l }
  | .IntercomControl => fun declared (x : IntercomControlPdu) => do
    let l ← getN IntercomCommunicationsParameters.deserialize ((declared - PduKind.IntercomControl.ieeeOctets) / 8)
    return { x with intercom_parameters := l }
  | .RecordQueryReliable => fun declared (x : RecordQueryReliablePdu) => do
    let l ← getN getU32 ((declared - PduKind.RecordQueryReliable.ieeeOctets) / 4)
    return { x with record_ids := l }
  | .EnvironmentalProcess => fun declared (x : EnvironmentalProcessPdu) => do
    let l ← getN Environment.deserialize ((declared - PduKind.EnvironmentalProcess.ieeeOctets) / 8)
    return { x with environment_records := l }
  | .LinearObjectState => fun declared (x : LinearObjectStatePdu) => do
    let l ← getN LinearSegmentParameter.deserialize ((declared - PduKind.LinearObjectState.ieeeOctets) / 66)
    return { x with linear_segment_parameters := l }
  | .Detonation => fun declared (x : DetonationPdu) => do
    let l ← getN VariableParameter.deserialize ((declared - PduKind.Detonation.ieeeOctets) / 16)
    return { x with variable_parameters := l }
  | .DirectedEnergyFire => fun declared (x : DirectedEnergyFirePdu) => do
    let l ← getN DirectedEnergyDamage.deserialize ((declared - PduKind.DirectedEnergyFire.ieeeOctets) / 40)
    return { x with damage_descriptions := l }
  | .EntityDamageStatus => fun declared (x : EntityDamageStatusPdu) => do
    let l ← getN DirectedEnergyDamage.deserialize ((declared - PduKind.EntityDamageStatus.ieeeOctets) / 40)
    return { x with damage_descriptions := l }
  | .ElectromagneticEmissions => fun _ (x : ElectromagneticEmissionsPdu) => do
    let l0 ← getN ElectromagneticEmissionSystemData.deserialize x.number_of_systems.toNat
    return { x with systems := l0 }
  | .Attribute => fun _ (x : AttributePdu) => do
    let l0 ← getN AttributeRecordSet.deserialize x.number_of_attribute_record_sets.toNat
    return { x with attribute_record_sets := l0 }
  | .UnderwaterAcoustic => fun _ (x : UnderwaterAcousticPdu) => do
    let l0 ← getN ShaftRPMs.deserialize x.number_of_shafts.toNat
    let l1 ← getN ApaData.deserialize x.number_of_apas.toNat
    let l2 ← getN AcousticEmitterSystem.deserialize x.number_of_ua_emitter_systems.toNat
    return { x with shaft_rpms := l0, apa_data := l1, emitter_systems := l2 }
  | .SupplementalEmission => fun _ (x : SupplementalEmissionPdu) => do
    let l0 ← getN PropulsionSystemData.deserialize x.number_of_propulsion_systems.toNat
    let l1 ← getN VectoringNozzleSystemData.deserialize x.number_of_vectoring_nozzle_systems.toNat
    return { x with propulsion_system_data := l0, vectoring_nozzle_system_data := l1 }
  | .MinefieldState => fun _ (x : MinefieldStatePdu) => do
    let l0 ← getN Point.deserialize x.number_of_perimeter_points.toNat
    let l1 ← getN EntityType.deserialize x.number_of_mine_types.toNat
    return { x with perimeter_points := l0, mine_type := l1 }
  | .MinefieldQuery => fun _ (x : MinefieldQueryPdu) => do
    let l0 ← getN Point.deserialize x.number_of_perimeter_points.toNat
    let l1 ← getN MinefieldSensorTypes.deserialize x.number_of_sensor_types.toNat
    return { x with requested_perimeter_points := l0, sensor_types := l1 }
  | .DataQueryReliable => fun _ (x : DataQueryReliablePdu) => do
    let l0 ← getN VariableRecordTypes.deserialize x.number_of_fixed_datum_records.toNat
    let l1 ← getN VariableRecordTypes.deserialize x.number_of_variable_datum_records.toNat
    return { x with fixed_datum_ids := l0, variable_datum_ids := l1 }
  | .GriddedData => fun _ (x : GriddedDataPdu) => do
    let l0 ← getN GridAxisDescriptor.byHand x.number_of_grid_axes.toNat
    let l1 ← getN GridDataRecord.byHand x.vector_dimension.toNat
    return { x with grid_axis_descriptors := l0, grid_data_list := l1 }
  | .ActionRequest => fun _ (x : ActionRequestPdu) => do
    let l0 ← getN FixedDatumRecord.deserialize x.number_of_fixed_datum_records.toNat
    let l1 ← getN VariableDatumRecord.byHand x.number_of_variable_datum_records.toNat
    return { x with fixed_datum_records := l0, variable_datum_records := l1 }
  | .ActionResponse => fun _ (x : ActionResponsePdu) => do
    let l0 ← getN FixedDatumRecord.deserialize x.number_of_fixed_datum_records.toNat
    let l1 ← getN VariableDatumRecord.byHand x.number_of_variable_datum_records.toNat
    return { x with fixed_datum_records := l0, variable_datum_records := l1 }
  | .DataQuery => fun _ (x : DataQueryPdu) => do
    let l0 ← getN FixedDatumRecord.deserialize x.number_of_fixed_datum_records.toNat
    let l1 ← getN VariableDatumRecord.byHand x.number_of_variable_datum_records.toNat
    return { x with fixed_datum_records := l0, variable_datum_records := l1 }
  | .SetData => fun _ (x : SetDataPdu) => do
    let l0 ← getN FixedDatumRecord.deserialize x.number_of_fixed_datum_records.toNat
    let l1 ← getN VariableDatumRecord.byHand x.number_of_variable_datum_records.toNat
    return { x with fixed_datum_records := l0, variable_datum_records := l1 }
  | .Data => fun _ (x : DataPdu) => do
    let l0 ← getN FixedDatumRecord.deserialize x.number_of_fixed_datum_records.toNat
    let l1 ← getN VariableDatumRecord.byHand x.number_of_variable_datum_records.toNat
    return { x with fixed_datum_records := l0, variable_datum_records := l1 }
  | .EventReport => fun _ (x : EventReportPdu) => do
    let l0 ← getN FixedDatumRecord.deserialize x.number_of_fixed_datum_records.toNat
    let l1 ← getN VariableDatumRecord.byHand x.number_of_variable_datum_records.toNat
    return { x with fixed_datum_records := l0, variable_datum_records := l1 }
  | .Comment => fun _ (x : CommentPdu) => do
    let l0 ← getN FixedDatumRecord.deserialize x.number_of_fixed_datum_records.toNat
    let l1 ← getN VariableDatumRecord.byHand x.number_of_variable_datum_records.toNat
    return { x with fixed_datum_records := l0, variable_datum_records := l1 }
  | .ActionRequestReliable => fun _ (x : ActionRequestReliablePdu) => do
    let l0 ← getN FixedDatumRecord.deserialize x.number_of_fixed_datum_records.toNat
    let l1 ← getN VariableDatumRecord.byHand x.number_of_variable_datum_records.toNat
    return { x with fixed_datum_records := l0, variable_datum_records := l1 }
  | .ActionResponseReliable => fun _ (x : ActionResponseReliablePdu) => do
    let l0 ← getN FixedDatumRecord.deserialize x.number_of_fixed_datum_records.toNat
    let l1 ← getN VariableDatumRecord.byHand x.number_of_variable_datum_records.toNat
    return { x with fixed_datum_records := l0, variable_datum_records := l1 }
  | .SetDataReliable => fun _ (x : SetDataReliablePdu) => do
    let l0 ← getN FixedDatumRecord.deserialize x.number_of_fixed_datum_records.toNat
    let l1 ← getN VariableDatumRecord.byHand x.number_of_variable_datum_records.toNat
    return { x with fixed_datum_records := l0, variable_datum_records := l1 }
  | .DataReliable => fun _ (x : DataReliablePdu) => do
    let l0 ← getN FixedDatumRecord.deserialize x.number_of_fixed_datum_records.toNat
    let l1 ← getN VariableDatumRecord.byHand x.number_of_variable_datum_records.toNat
    return { x with fixed_datum_records := l0, variable_datum_records := l1 }
  | .EventReportReliable => fun _ (x : EventReportReliablePdu) => do
    let l0 ← getN FixedDatumRecord.deserialize x.number_of_fixed_datum_records.toNat
    let l1 ← getN VariableDatumRecord.byHand x.number_of_variable_datum_records.toNat
    return { x with fixed_datum_records := l0, variable_datum_records := l1 }
  | .CommentReliable => fun _ (x : CommentReliablePdu) => do
    let l0 ← getN FixedDatumRecord.deserialize x.number_of_fixed_datum_records.toNat
    let l1 ← getN VariableDatumRecord.byHand x.number_of_variable_datum_records.toNat
    return { x with fixed_datum_records := l0, variable_datum_records := l1 }
  | .MinefieldData => fun _ => MinefieldDataPdu.complete
  | .Transmitter => fun _ (x : TransmitterPdu) => do
    let antenna_pattern ← AntennaPattern.deserialize x.antenna_pattern_length
    let l ← getN VariableTransmitterParameters.byHand x.number_of_variable_transmitter_parameters_records.toNat
    return { x with antenna_pattern, variable_transmitter_parameters := l }
  | _ => fun _ x => return x

/-- A PDU whose kind is known: five kinds by hand after the header, the others with the crate's decoder and then completed. -/
def PduKind.receiveWhole (k : PduKind) : Get (Except DISError (Pdu k.Body)) :=
  let byHand (read : Get k.Body) : Get (Except DISError (Pdu k.Body)) := do
    let header ← PduHeader.deserialize
    let body ← read
    return .ok ⟨header, body⟩
  let completed : Get (Except DISError (Pdu k.Body)) := do
    match ← (Pdu.deserialize : Get (Except DISError (Pdu k.Body))) with
    | .error e => return .error e
    | .ok p =>
      let body ← k.complete p.header.length.toNat p.body
      return .ok ⟨p.header, body⟩
  match k, byHand, completed with
  | .EntityState, byHand, _ => byHand EntityStatePdu.byHand
  | .AggregateState, byHand, _ => byHand AggregateStatePdu.byHand
  | .StopFreeze, byHand, _ => byHand StopFreezePdu.byHand
  | .StopFreezeReliable, byHand, _ => byHand StopFreezeReliablePdu.byHand
  | .ArealObjectState, byHand, _ => byHand ArealObjectStatePdu.byHand
  | _, _, completed => completed

/-- A PDU of any kind, at the front of the octets: look at the type with `PduHeader::get_pdu_type`, choose the kind. -/
def receiveWhole (prof : Profile) (b : Bytes) : Option (AnyPdu × Bytes) :=
  match PduHeader.get_pdu_type prof b with
  | .ok (some t) =>
    match PduKind.ofType t with
    | none => none
    | some k =>
      match k.receiveWhole prof b with
      | .ok (.ok p, rest) => some (⟨k, p⟩, rest)
      | _ => none
  | _ => none

/-- At most `n` PDUs from the front of the octets, and what is left. -/
def wholeSteps (prof : Profile) : (n : Nat) → Bytes → List AnyPdu × Bytes
  | 0, b => ([], b)
  | n + 1, b =>
    match receiveWhole prof b with
    | none => ([], b)
    | some (p, rest) =>
      let later := wholeSteps prof n rest
      (p :: later.1, later.2)

/-- All PDUs from the front of the octets, one after the other while they can be read, and what is left. -/
def receiveWholes (prof : Profile) (b : Bytes) : List AnyPdu × Bytes := wholeSteps prof b.length b

/-- Octets arrive in pieces: after each piece, read what can be read of what was kept and the piece, and keep the rest.  (A
message that is not yet there completely makes the decoders panic; the program catches that, and waits for more.) -/
def receiveWholePieces (prof : Profile) (kept : Bytes) : (pieces : List Bytes) → List AnyPdu × Bytes
  | [] => ([], kept)
  | piece :: pieces =>
    let now := receiveWholes prof (kept ++ piece)
    let later := receiveWholePieces prof now.2 pieces
    (now.1 ++ later.1, later.2)

/-- What the receiver ought to report of a PDU that was sent: the PDU, but for the fields of which nothing is sent (C58). -/
def AnyPdu.received (q : AnyPdu) : AnyPdu := ⟨q.kind, ⟨q.pdu.header, q.kind.unsentBlank q.pdu.body⟩⟩

end Dis
