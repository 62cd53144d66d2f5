import Verif.Spec.RecordWire
/-
The field traits: tables of the types they are implemented for.
-/
namespace Dis

/-- A primitive type as a field: what the field traits do, how many octets it has and which. -/
structure FieldCodec where
  name : String
  Val : Type
  ser : Val → Put
  de : Get Val
  len : Val → Nat
  size : Nat
  image : Val → Bytes

/-- Unsigned numbers, signed numbers in two's complement, floats as bit patterns: most significant octet first. -/
def primitiveFields : List FieldCodec := [
  ⟨"u8", UInt8, serialize_field, deserialize_field, field_len, 1, fun v => octets 1 v.toNat⟩,
  ⟨"u16", UInt16, serialize_field, deserialize_field, field_len, 2, fun v => octets 2 v.toNat⟩,
  ⟨"u32", UInt32, serialize_field, deserialize_field, field_len, 4, fun v => octets 4 v.toNat⟩,
  ⟨"u64", UInt64, serialize_field, deserialize_field, field_len, 8, fun v => octets 8 v.toNat⟩,
  ⟨"i8", Int8, serialize_field, deserialize_field, field_len, 1, fun v => octets 1 (v.toInt % 256).toNat⟩,
  ⟨"i16", Int16, serialize_field, deserialize_field, field_len, 2, fun v => octets 2 (v.toInt % 65536).toNat⟩,
  ⟨"i32", Int32, serialize_field, deserialize_field, field_len, 4, fun v => octets 4 (v.toInt % 4294967296).toNat⟩,
  ⟨"i64", Int64, serialize_field, deserialize_field, field_len, 8, fun v => octets 8 (v.toInt % 18446744073709551616).toNat⟩,
  ⟨"f32", F32, serialize_field, deserialize_field, field_len, 4, fun v => octets 4 v.bits.toNat⟩,
  ⟨"f64", F64, serialize_field, deserialize_field, field_len, 8, fun v => octets 8 v.bits.toNat⟩]

/-- A record type that can be a field: its own methods and its field traits. -/
structure RecordField where
  name : String
  Val : Type
  ser : Val → Put
  de : Get Val
  fieldSer : Val → Put
  fieldDe : Get Val

def recordFields : List RecordField := [
  ⟨"AcousticEmitterSystem", AcousticEmitterSystem, AcousticEmitterSystem.serialize, AcousticEmitterSystem.deserialize, serialize_field, deserialize_field⟩,
  ⟨"AggregateId", AggregateId, AggregateId.serialize, AggregateId.deserialize, serialize_field, deserialize_field⟩,
  ⟨"AggregateMarking", AggregateMarking, AggregateMarking.serialize, AggregateMarking.deserialize, serialize_field, deserialize_field⟩,
  ⟨"ApaData", ApaData, ApaData.serialize, ApaData.deserialize, serialize_field, deserialize_field⟩,
  ⟨"AttributeRecord", AttributeRecord, AttributeRecord.serialize, AttributeRecord.deserialize, serialize_field, deserialize_field⟩,
  ⟨"AttributeRecordSet", AttributeRecordSet, AttributeRecordSet.serialize, AttributeRecordSet.deserialize, serialize_field, deserialize_field⟩,
  ⟨"BeamData", BeamData, BeamData.serialize, BeamData.deserialize, serialize_field, deserialize_field⟩,
  ⟨"ClockTime", ClockTime, ClockTime.serialize, ClockTime.deserialize, serialize_field, deserialize_field⟩,
  ⟨"DeadReckoningParameters", DeadReckoningParameters, DeadReckoningParameters.serialize, DeadReckoningParameters.deserialize, serialize_field, deserialize_field⟩,
  ⟨"DirectedEnergyDamage", DirectedEnergyDamage, DirectedEnergyDamage.serialize, DirectedEnergyDamage.deserialize, serialize_field, deserialize_field⟩,
  ⟨"ElectromagneticEmissionBeamData", ElectromagneticEmissionBeamData, ElectromagneticEmissionBeamData.serialize, ElectromagneticEmissionBeamData.deserialize, serialize_field, deserialize_field⟩,
  ⟨"ElectromagneticEmissionSystemData", ElectromagneticEmissionSystemData, ElectromagneticEmissionSystemData.serialize, ElectromagneticEmissionSystemData.deserialize, serialize_field, deserialize_field⟩,
  ⟨"EntityCoordinateVector", EntityCoordinateVector, EntityCoordinateVector.serialize, EntityCoordinateVector.deserialize, serialize_field, deserialize_field⟩,
  ⟨"EntityId", EntityId, EntityId.serialize, EntityId.deserialize, serialize_field, deserialize_field⟩,
  ⟨"EntityMarking", EntityMarking, EntityMarking.serialize, EntityMarking.deserialize, serialize_field, deserialize_field⟩,
  ⟨"EntityType", EntityType, EntityType.serialize, EntityType.deserialize, serialize_field, deserialize_field⟩,
  ⟨"Environment", Environment, Environment.serialize, Environment.deserialize, serialize_field, deserialize_field⟩,
  ⟨"EulerAngles", EulerAngles, EulerAngles.serialize, EulerAngles.deserialize, serialize_field, deserialize_field⟩,
  ⟨"EventId", EventId, EventId.serialize, EventId.deserialize, serialize_field, deserialize_field⟩,
  ⟨"FixedDatumRecord", FixedDatumRecord, FixedDatumRecord.serialize, FixedDatumRecord.deserialize, serialize_field, deserialize_field⟩,
  ⟨"FundamentalOperationalData", FundamentalOperationalData, FundamentalOperationalData.serialize, FundamentalOperationalData.deserialize, serialize_field, deserialize_field⟩,
  ⟨"FundamentalParameterData", FundamentalParameterData, FundamentalParameterData.serialize, FundamentalParameterData.deserialize, serialize_field, deserialize_field⟩,
  ⟨"GridAxisDescriptor", GridAxisDescriptor, GridAxisDescriptor.serialize, GridAxisDescriptor.deserialize, serialize_field, deserialize_field⟩,
  ⟨"GridDataRecord", GridDataRecord, GridDataRecord.serialize, GridDataRecord.deserialize, serialize_field, deserialize_field⟩,
  ⟨"IFFFundamentalParameterData", IFFFundamentalParameterData, IFFFundamentalParameterData.serialize, IFFFundamentalParameterData.deserialize, serialize_field, deserialize_field⟩,
  ⟨"IntercomCommunicationsParameters", IntercomCommunicationsParameters, IntercomCommunicationsParameters.serialize, IntercomCommunicationsParameters.deserialize, serialize_field, deserialize_field⟩,
  ⟨"LayerHeader", LayerHeader, LayerHeader.serialize, LayerHeader.deserialize, serialize_field, deserialize_field⟩,
  ⟨"LinearAcceleration", LinearAcceleration, LinearAcceleration.serialize, LinearAcceleration.deserialize, serialize_field, deserialize_field⟩,
  ⟨"LinearSegmentParameter", LinearSegmentParameter, LinearSegmentParameter.serialize, LinearSegmentParameter.deserialize, serialize_field, deserialize_field⟩,
  ⟨"LinearVelocity", LinearVelocity, LinearVelocity.serialize, LinearVelocity.deserialize, serialize_field, deserialize_field⟩,
  ⟨"MinefieldIdentifier", MinefieldIdentifier, MinefieldIdentifier.serialize, MinefieldIdentifier.deserialize, serialize_field, deserialize_field⟩,
  ⟨"ModulationType", ModulationType, ModulationType.serialize, ModulationType.deserialize, serialize_field, deserialize_field⟩,
  ⟨"MunitionDescriptor", MunitionDescriptor, MunitionDescriptor.serialize, MunitionDescriptor.deserialize, serialize_field, deserialize_field⟩,
  ⟨"NamedLocation", NamedLocation, NamedLocation.serialize, NamedLocation.deserialize, serialize_field, deserialize_field⟩,
  ⟨"ObjectIdentifier", ObjectIdentifier, ObjectIdentifier.serialize, ObjectIdentifier.deserialize, serialize_field, deserialize_field⟩,
  ⟨"ObjectType", ObjectType, ObjectType.serialize, ObjectType.deserialize, serialize_field, deserialize_field⟩,
  ⟨"Point", Point, Point.serialize, Point.deserialize, serialize_field, deserialize_field⟩,
  ⟨"PropulsionSystemData", PropulsionSystemData, PropulsionSystemData.serialize, PropulsionSystemData.deserialize, serialize_field, deserialize_field⟩,
  ⟨"RadioEntityType", RadioEntityType, RadioEntityType.serialize, RadioEntityType.deserialize, serialize_field, deserialize_field⟩,
  ⟨"RecordSpecification", RecordSpecification, RecordSpecification.serialize, RecordSpecification.deserialize, serialize_field, deserialize_field⟩,
  ⟨"RecordSpecificationElement", RecordSpecificationElement, RecordSpecificationElement.serialize, RecordSpecificationElement.deserialize, serialize_field, deserialize_field⟩,
  ⟨"Relationship", Relationship, Relationship.serialize, Relationship.deserialize, serialize_field, deserialize_field⟩,
  ⟨"SecondaryOperationalData", SecondaryOperationalData, SecondaryOperationalData.serialize, SecondaryOperationalData.deserialize, serialize_field, deserialize_field⟩,
  ⟨"ShaftRPMs", ShaftRPMs, ShaftRPMs.serialize, ShaftRPMs.deserialize, serialize_field, deserialize_field⟩,
  ⟨"SimulationAddress", SimulationAddress, SimulationAddress.serialize, SimulationAddress.deserialize, serialize_field, deserialize_field⟩,
  ⟨"SimulationIdentifier", SimulationIdentifier, SimulationIdentifier.serialize, SimulationIdentifier.deserialize, serialize_field, deserialize_field⟩,
  ⟨"StandardVariableRecords", StandardVariableRecords, StandardVariableRecords.serialize, StandardVariableRecords.deserialize, serialize_field, deserialize_field⟩,
  ⟨"StandardVariableSpecification", StandardVariableSpecification, StandardVariableSpecification.serialize, StandardVariableSpecification.deserialize, serialize_field, deserialize_field⟩,
  ⟨"SupplyQuantity", SupplyQuantity, SupplyQuantity.serialize, SupplyQuantity.deserialize, serialize_field, deserialize_field⟩,
  ⟨"SystemId", SystemId, SystemId.serialize, SystemId.deserialize, serialize_field, deserialize_field⟩,
  ⟨"TrackJamTarget", TrackJamTarget, TrackJamTarget.serialize, TrackJamTarget.deserialize, serialize_field, deserialize_field⟩,
  ⟨"VariableDatumRecord", VariableDatumRecord, VariableDatumRecord.serialize, VariableDatumRecord.deserialize, serialize_field, deserialize_field⟩,
  ⟨"VariableParameter", VariableParameter, VariableParameter.serialize, VariableParameter.deserialize, serialize_field, deserialize_field⟩,
  ⟨"VariableTransmitterParameters", VariableTransmitterParameters, VariableTransmitterParameters.serialize, VariableTransmitterParameters.deserialize, serialize_field, deserialize_field⟩,
  ⟨"Vector3Float", Vector3Float, Vector3Float.serialize, Vector3Float.deserialize, serialize_field, deserialize_field⟩,
  ⟨"VectoringNozzleSystemData", VectoringNozzleSystemData, VectoringNozzleSystemData.serialize, VectoringNozzleSystemData.deserialize, serialize_field, deserialize_field⟩,
  ⟨"WorldCoordinate", WorldCoordinate, WorldCoordinate.serialize, WorldCoordinate.deserialize, serialize_field, deserialize_field⟩]

end Dis
