import Verif.Spec.PduLayout
import Verif.Spec.RecordLayout
import Verif.Spec.Elements
/-
Places of the list elements, and of single fields after a list or text, by kind.  Drafted by
tools/gen_layout.py from the field lists and read through by hand.
-/
namespace Dis

def PduKind.elements : (k : PduKind) → List (Elements k.Body)
  | .UnderwaterAcoustic => [
      ⟨ShaftRPMs, (·.shaft_rpms), fun _ i => 32 + 8 * i, ShaftRPMs.layout⟩,
      ⟨ApaData, (·.apa_data), fun x i => 32 + 8 * x.shaft_rpms.length + 4 * i, ApaData.layout⟩,
      ⟨AcousticEmitterSystem, (·.emitter_systems), fun x i => 32 + 8 * x.shaft_rpms.length + 4 * x.apa_data.length + 4 * i, AcousticEmitterSystem.layout⟩]
  | .IFF => [
      ⟨IFFFundamentalParameterData, (·.iff_parameters), fun _ i => 88 + 24 * i, IFFFundamentalParameterData.layout⟩]
  | .SupplementalEmission => [
      ⟨PropulsionSystemData, (·.propulsion_system_data), fun _ i => 28 + 8 * i, PropulsionSystemData.layout⟩,
      ⟨VectoringNozzleSystemData, (·.vectoring_nozzle_system_data), fun x i => 28 + 8 * x.propulsion_system_data.length + 8 * i, VectoringNozzleSystemData.layout⟩]
  | .EntityState => [
      ⟨EntityCapabilities, fun x => [x.entity_capabilities], fun x _ => 129 + (strBytes x.entity_marking.entity_marking_string).length, [Slot.enum 0 4 id]⟩,
      ⟨VariableParameter, (·.articulation_parameter), fun x i => 133 + (strBytes x.entity_marking.entity_marking_string).length + 16 * i, VariableParameter.layout⟩]
  | .EntityStateUpdate => [
      ⟨VariableParameter, (·.variable_parameter_records), fun _ i => 72 + 16 * i, VariableParameter.layout⟩]
  | .AggregateState => [
      ⟨AggregateId, (·.aggregate_id_list), fun _ i => 132 + 6 * i, AggregateId.layout⟩,
      ⟨EntityId, (·.entity_id_list), fun x i => 132 + 6 * x.aggregate_id_list.length + 6 * i, EntityId.layout⟩,
      ⟨UInt8, (·.padding), fun x i => 132 + 6 * x.aggregate_id_list.length + 6 * x.entity_id_list.length + i, [Slot.u8 0 id]⟩,
      ⟨EntityType, (·.silent_aggregate_system_list), fun x i => 132 + 6 * x.aggregate_id_list.length + 6 * x.entity_id_list.length + x.padding.length + 8 * i, EntityType.layout⟩,
      ⟨EntityType, (·.silent_entity_system_list), fun x i => 132 + 6 * x.aggregate_id_list.length + 6 * x.entity_id_list.length + x.padding.length + 8 * x.silent_aggregate_system_list.length + 8 * i, EntityType.layout⟩,
      ⟨UInt32, fun x => [x.number_of_variable_datum_records], fun x _ => 132 + 6 * x.aggregate_id_list.length + 6 * x.entity_id_list.length + x.padding.length + 8 * x.silent_aggregate_system_list.length + 8 * x.silent_entity_system_list.length, [Slot.u32 0 id]⟩,
      ⟨VariableDatumRecord, (·.variable_datum_list), fun x i => 136 + 6 * x.aggregate_id_list.length + 6 * x.entity_id_list.length + x.padding.length + 8 * x.silent_aggregate_system_list.length + 8 * x.silent_entity_system_list.length + VariableDatumRecord.octetsOf (x.variable_datum_list.take i), VariableDatumRecord.layout⟩]
  | .IsGroupOf => [
      ⟨UInt64, (·.grouped_entity_descriptions), fun _ i => 40 + 8 * i, [Slot.u64 0 id]⟩]
  | .ServiceRequest => [
      ⟨SupplyQuantity, (·.supplies), fun _ i => 28 + 12 * i, SupplyQuantity.layout⟩]
  | .ResupplyOffer => [
      ⟨SupplyQuantity, (·.supplies), fun _ i => 28 + 12 * i, SupplyQuantity.layout⟩]
  | .ResupplyReceived => [
      ⟨SupplyQuantity, (·.supplies), fun _ i => 28 + 12 * i, SupplyQuantity.layout⟩]
  | .MinefieldState => [
      ⟨Point, (·.perimeter_points), fun _ i => 72 + 8 * i, Point.layout⟩,
      ⟨EntityType, (·.mine_type), fun x i => 72 + 8 * x.perimeter_points.length + 8 * i, EntityType.layout⟩]
  | .MinefieldQuery => [
      ⟨Point, (·.requested_perimeter_points), fun _ i => 40 + 8 * i, Point.layout⟩,
      ⟨MinefieldSensorTypes, (·.sensor_types), fun x i => 40 + 8 * x.requested_perimeter_points.length + i, [Slot.enum 0 1 id]⟩]
  | .MinefieldData => [
      ⟨MinefieldSensorTypes, (·.sensor_types), fun _ i => 44 + i, [Slot.enum 0 1 id]⟩,
      ⟨EntityCoordinateVector, (·.mine_location), fun x i => 44 + x.sensor_types.length + 12 * i, EntityCoordinateVector.layout⟩]
  | .MinefieldResponseNack => [
      ⟨UInt64, (·.missing_pdu_sequence_numbers), fun _ i => 26 + 8 * i, [Slot.u64 0 id]⟩]
  | .Signal => [
      ⟨UInt8, (·.data), fun _ i => 32 + i, [Slot.u8 0 id]⟩]
  | .IntercomSignal => [
      ⟨UInt8, (·.data), fun _ i => 32 + i, [Slot.u8 0 id]⟩]
  | .IntercomControl => [
      ⟨IntercomCommunicationsParameters, (·.intercom_parameters), fun _ i => 40 + 8 * i, IntercomCommunicationsParameters.layout⟩]
  | .ActionRequest => [
      ⟨FixedDatumRecord, (·.fixed_datum_records), fun _ i => 40 + 8 * i, FixedDatumRecord.layout⟩,
      ⟨VariableDatumRecord, (·.variable_datum_records), fun x i => 40 + 8 * x.fixed_datum_records.length + VariableDatumRecord.octetsOf (x.variable_datum_records.take i), VariableDatumRecord.layout⟩]
  | .ActionResponse => [
      ⟨FixedDatumRecord, (·.fixed_datum_records), fun _ i => 40 + 8 * i, FixedDatumRecord.layout⟩,
      ⟨VariableDatumRecord, (·.variable_datum_records), fun x i => 40 + 8 * x.fixed_datum_records.length + VariableDatumRecord.octetsOf (x.variable_datum_records.take i), VariableDatumRecord.layout⟩]
  | .DataQuery => [
      ⟨FixedDatumRecord, (·.fixed_datum_records), fun _ i => 40 + 8 * i, FixedDatumRecord.layout⟩,
      ⟨VariableDatumRecord, (·.variable_datum_records), fun x i => 40 + 8 * x.fixed_datum_records.length + VariableDatumRecord.octetsOf (x.variable_datum_records.take i), VariableDatumRecord.layout⟩]
  | .SetData => [
      ⟨FixedDatumRecord, (·.fixed_datum_records), fun _ i => 40 + 8 * i, FixedDatumRecord.layout⟩,
      ⟨VariableDatumRecord, (·.variable_datum_records), fun x i => 40 + 8 * x.fixed_datum_records.length + VariableDatumRecord.octetsOf (x.variable_datum_records.take i), VariableDatumRecord.layout⟩]
  | .Data => [
      ⟨FixedDatumRecord, (·.fixed_datum_records), fun _ i => 40 + 8 * i, FixedDatumRecord.layout⟩,
      ⟨VariableDatumRecord, (·.variable_datum_records), fun x i => 40 + 8 * x.fixed_datum_records.length + VariableDatumRecord.octetsOf (x.variable_datum_records.take i), VariableDatumRecord.layout⟩]
  | .EventReport => [
      ⟨FixedDatumRecord, (·.fixed_datum_records), fun _ i => 40 + 8 * i, FixedDatumRecord.layout⟩,
      ⟨VariableDatumRecord, (·.variable_datum_records), fun x i => 40 + 8 * x.fixed_datum_records.length + VariableDatumRecord.octetsOf (x.variable_datum_records.take i), VariableDatumRecord.layout⟩]
  | .Comment => [
      ⟨FixedDatumRecord, (·.fixed_datum_records), fun _ i => 32 + 8 * i, FixedDatumRecord.layout⟩,
      ⟨VariableDatumRecord, (·.variable_datum_records), fun x i => 32 + 8 * x.fixed_datum_records.length + VariableDatumRecord.octetsOf (x.variable_datum_records.take i), VariableDatumRecord.layout⟩]
  | .ActionRequestReliable => [
      ⟨FixedDatumRecord, (·.fixed_datum_records), fun _ i => 48 + 8 * i, FixedDatumRecord.layout⟩,
      ⟨VariableDatumRecord, (·.variable_datum_records), fun x i => 48 + 8 * x.fixed_datum_records.length + VariableDatumRecord.octetsOf (x.variable_datum_records.take i), VariableDatumRecord.layout⟩]
  | .ActionResponseReliable => [
      ⟨FixedDatumRecord, (·.fixed_datum_records), fun _ i => 40 + 8 * i, FixedDatumRecord.layout⟩,
      ⟨VariableDatumRecord, (·.variable_datum_records), fun x i => 40 + 8 * x.fixed_datum_records.length + VariableDatumRecord.octetsOf (x.variable_datum_records.take i), VariableDatumRecord.layout⟩]
  | .DataQueryReliable => [
      ⟨VariableRecordTypes, (·.fixed_datum_ids), fun _ i => 44 + 4 * i, [Slot.enum 0 4 id]⟩,
      ⟨VariableRecordTypes, (·.variable_datum_ids), fun x i => 44 + 4 * x.fixed_datum_ids.length + 4 * i, [Slot.enum 0 4 id]⟩]
  | .SetDataReliable => [
      ⟨FixedDatumRecord, (·.fixed_datum_records), fun _ i => 40 + 8 * i, FixedDatumRecord.layout⟩,
      ⟨VariableDatumRecord, (·.variable_datum_records), fun x i => 40 + 8 * x.fixed_datum_records.length + VariableDatumRecord.octetsOf (x.variable_datum_records.take i), VariableDatumRecord.layout⟩]
  | .DataReliable => [
      ⟨FixedDatumRecord, (·.fixed_datum_records), fun _ i => 40 + 8 * i, FixedDatumRecord.layout⟩,
      ⟨VariableDatumRecord, (·.variable_datum_records), fun x i => 40 + 8 * x.fixed_datum_records.length + VariableDatumRecord.octetsOf (x.variable_datum_records.take i), VariableDatumRecord.layout⟩]
  | .EventReportReliable => [
      ⟨FixedDatumRecord, (·.fixed_datum_records), fun _ i => 40 + 8 * i, FixedDatumRecord.layout⟩,
      ⟨VariableDatumRecord, (·.variable_datum_records), fun x i => 40 + 8 * x.fixed_datum_records.length + VariableDatumRecord.octetsOf (x.variable_datum_records.take i), VariableDatumRecord.layout⟩]
  | .CommentReliable => [
      ⟨FixedDatumRecord, (·.fixed_datum_records), fun _ i => 32 + 8 * i, FixedDatumRecord.layout⟩,
      ⟨VariableDatumRecord, (·.variable_datum_records), fun x i => 32 + 8 * x.fixed_datum_records.length + VariableDatumRecord.octetsOf (x.variable_datum_records.take i), VariableDatumRecord.layout⟩]
  | .RecordQueryReliable => [
      ⟨UInt32, (·.record_ids), fun _ i => 40 + 4 * i, [Slot.u32 0 id]⟩]
  | .EnvironmentalProcess => [
      ⟨Environment, (·.environment_records), fun _ i => 32 + 8 * i, Environment.layout⟩]
  | .LinearObjectState => [
      ⟨LinearSegmentParameter, (·.linear_segment_parameters), fun _ i => 40 + 66 * i, LinearSegmentParameter.layout⟩]
  | .ArealObjectState => [
      ⟨WorldCoordinate, (·.object_location), fun _ i => 48 + 24 * i, WorldCoordinate.layout⟩]
  | .Detonation => [
      ⟨VariableParameter, (·.variable_parameters), fun _ i => 104 + 16 * i, VariableParameter.layout⟩]
  | .DirectedEnergyFire => [
      ⟨DirectedEnergyDamage, (·.damage_descriptions), fun _ i => 88 + 40 * i, DirectedEnergyDamage.layout⟩]
  | .EntityDamageStatus => [
      ⟨DirectedEnergyDamage, (·.damage_descriptions), fun _ i => 24 + 40 * i, DirectedEnergyDamage.layout⟩]
  | _ => []

end Dis
