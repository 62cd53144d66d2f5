import Verif.Spec.RecordWire
/-
Generated by tools/gen_records.py: tables of the record types of src/common/data_types.
-/
namespace Dis

/-- A record type with its serializer and its deserializer. -/
structure RawCodec where
  name : String
  Val : Type
  ser : Val → Put
  de : Get Val

/-- A record type of fixed size: its serializer, deserializer and (if it has one) `field_len`,
its `LENGTH` constant (if it has one); its wire image and its size in octets. -/
structure RecordCodec where
  name : String
  Val : Type
  ser : Val → Put
  de : Get Val
  len : Option (Val → Nat)
  declared : Option Nat
  wire : Val → Bytes
  size : Nat

/-- The records without lists or text which transmit all their fields. -/
def fixedRecords : List RecordCodec := [
  ⟨"AcousticBeamFundamentalParameter", AcousticBeamFundamentalParameter, AcousticBeamFundamentalParameter.serialize, AcousticBeamFundamentalParameter.deserialize, none, none, wire, 20⟩,
  ⟨"AcousticBeamData", AcousticBeamData, AcousticBeamData.serialize, AcousticBeamData.deserialize, none, none, wire, 25⟩,
  ⟨"AcousticEmitterSystem", AcousticEmitterSystem, AcousticEmitterSystem.serialize, AcousticEmitterSystem.deserialize, some field_len, none, wire, 4⟩,
  ⟨"Vector3Float", Vector3Float, Vector3Float.serialize, Vector3Float.deserialize, some field_len, none, wire, 12⟩,
  ⟨"AggregateId", AggregateId, AggregateId.serialize, AggregateId.deserialize, some field_len, none, wire, 6⟩,
  ⟨"AggregateMarking", AggregateMarking, AggregateMarking.serialize, AggregateMarking.deserialize, some field_len, none, wire, 32⟩,
  ⟨"AngularVelocity", AngularVelocity, AngularVelocity.serialize, AngularVelocity.deserialize, none, some AngularVelocity.LENGTH, wire, 12⟩,
  ⟨"ApaData", ApaData, ApaData.serialize, ApaData.deserialize, some field_len, some ApaData.LENGTH, wire, 4⟩,
  ⟨"SimulationAddress", SimulationAddress, SimulationAddress.serialize, SimulationAddress.deserialize, some field_len, some SimulationAddress.LENGTH, wire, 4⟩,
  ⟨"EntityId", EntityId, EntityId.serialize, EntityId.deserialize, some field_len, some EntityId.LENGTH, wire, 6⟩,
  ⟨"BeamData", BeamData, BeamData.serialize, BeamData.deserialize, some field_len, some BeamData.LENGTH, wire, 20⟩,
  ⟨"ClockTime", ClockTime, ClockTime.serialize, ClockTime.deserialize, some field_len, none, wire, 8⟩,
  ⟨"LinearAcceleration", LinearAcceleration, LinearAcceleration.serialize, LinearAcceleration.deserialize, some field_len, some LinearAcceleration.LENGTH, wire, 12⟩,
  ⟨"EntityCoordinateVector", EntityCoordinateVector, EntityCoordinateVector.serialize, EntityCoordinateVector.deserialize, some field_len, some EntityCoordinateVector.LENGTH, wire, 12⟩,
  ⟨"EventId", EventId, EventId.serialize, EventId.deserialize, some field_len, some EventId.LENGTH, wire, 6⟩,
  ⟨"DirectedEnergyDamage", DirectedEnergyDamage, DirectedEnergyDamage.serialize, DirectedEnergyDamage.deserialize, some field_len, none, wire, 40⟩,
  ⟨"FundamentalParameterData", FundamentalParameterData, FundamentalParameterData.serialize, FundamentalParameterData.deserialize, some field_len, none, wire, 40⟩,
  ⟨"TrackJamTarget", TrackJamTarget, TrackJamTarget.serialize, TrackJamTarget.deserialize, some field_len, none, wire, 8⟩,
  ⟨"EmitterSystem", EmitterSystem, EmitterSystem.serialize, EmitterSystem.deserialize, none, some EmitterSystem.LENGTH, wire, 4⟩,
  ⟨"EntityType", EntityType, EntityType.serialize, EntityType.deserialize, some field_len, some EntityType.LENGTH, wire, 8⟩,
  ⟨"Environment", Environment, Environment.serialize, Environment.deserialize, some field_len, none, wire, 8⟩,
  ⟨"EulerAngles", EulerAngles, EulerAngles.serialize, EulerAngles.deserialize, some field_len, some EulerAngles.LENGTH, wire, 12⟩,
  ⟨"FixedDatumRecord", FixedDatumRecord, FixedDatumRecord.serialize, FixedDatumRecord.deserialize, some field_len, none, wire, 8⟩,
  ⟨"FundamentalOperationalData", FundamentalOperationalData, FundamentalOperationalData.serialize, FundamentalOperationalData.deserialize, some field_len, some FundamentalOperationalData.LENGTH, wire, 16⟩,
  ⟨"IFFFundamentalParameterData", IFFFundamentalParameterData, IFFFundamentalParameterData.serialize, IFFFundamentalParameterData.deserialize, some field_len, some IFFFundamentalParameterData.LENGTH, wire, 24⟩,
  ⟨"IntercomCommunicationsParameters", IntercomCommunicationsParameters, IntercomCommunicationsParameters.serialize, IntercomCommunicationsParameters.deserialize, some field_len, none, wire, 8⟩,
  ⟨"LayerHeader", LayerHeader, LayerHeader.serialize, LayerHeader.deserialize, some field_len, some LayerHeader.LENGTH, wire, 4⟩,
  ⟨"WorldCoordinate", WorldCoordinate, WorldCoordinate.serialize, WorldCoordinate.deserialize, some field_len, some WorldCoordinate.LENGTH, wire, 24⟩,
  ⟨"LinearSegmentParameter", LinearSegmentParameter, LinearSegmentParameter.serialize, LinearSegmentParameter.deserialize, some field_len, none, wire, 66⟩,
  ⟨"LinearVelocity", LinearVelocity, LinearVelocity.serialize, LinearVelocity.deserialize, some field_len, some LinearVelocity.LENGTH, wire, 12⟩,
  ⟨"MinefieldIdentifier", MinefieldIdentifier, MinefieldIdentifier.serialize, MinefieldIdentifier.deserialize, some field_len, none, wire, 6⟩,
  ⟨"ModulationType", ModulationType, ModulationType.serialize, ModulationType.deserialize, some field_len, none, wire, 8⟩,
  ⟨"MunitionDescriptor", MunitionDescriptor, MunitionDescriptor.serialize, MunitionDescriptor.deserialize, some field_len, none, wire, 16⟩,
  ⟨"NamedLocation", NamedLocation, NamedLocation.serialize, NamedLocation.deserialize, some field_len, none, wire, 4⟩,
  ⟨"ObjectIdentifier", ObjectIdentifier, ObjectIdentifier.serialize, ObjectIdentifier.deserialize, some field_len, none, wire, 6⟩,
  ⟨"ObjectType", ObjectType, ObjectType.serialize, ObjectType.deserialize, some field_len, none, wire, 4⟩,
  ⟨"Point", Point, Point.serialize, Point.deserialize, some field_len, none, wire, 8⟩,
  ⟨"PropulsionSystemData", PropulsionSystemData, PropulsionSystemData.serialize, PropulsionSystemData.deserialize, some field_len, some PropulsionSystemData.LENGTH, wire, 8⟩,
  ⟨"RadioEntityType", RadioEntityType, RadioEntityType.serialize, RadioEntityType.deserialize, some field_len, none, wire, 8⟩,
  ⟨"Relationship", Relationship, Relationship.serialize, Relationship.deserialize, some field_len, none, wire, 4⟩,
  ⟨"SecondaryOperationalData", SecondaryOperationalData, SecondaryOperationalData.serialize, SecondaryOperationalData.deserialize, some field_len, some SecondaryOperationalData.LENGTH, wire, 4⟩,
  ⟨"ShaftRPMs", ShaftRPMs, ShaftRPMs.serialize, ShaftRPMs.deserialize, some field_len, some ShaftRPMs.LENGTH, wire, 8⟩,
  ⟨"SupplyQuantity", SupplyQuantity, SupplyQuantity.serialize, SupplyQuantity.deserialize, some field_len, none, wire, 12⟩,
  ⟨"SystemId", SystemId, SystemId.serialize, SystemId.deserialize, some field_len, some SystemId.LENGTH, wire, 6⟩,
  ⟨"VariableParameter", VariableParameter, VariableParameter.serialize, VariableParameter.deserialize, some field_len, some VariableParameter.LENGTH, wire, 16⟩,
  ⟨"Vector3Double", Vector3Double, Vector3Double.serialize, Vector3Double.deserialize, none, some Vector3Double.LENGTH, wire, 24⟩,
  ⟨"VectoringNozzleSystemData", VectoringNozzleSystemData, VectoringNozzleSystemData.serialize, VectoringNozzleSystemData.deserialize, some field_len, some VectoringNozzleSystemData.LENGTH, wire, 8⟩,
  ⟨"VelocityVector", VelocityVector, VelocityVector.serialize, VelocityVector.deserialize, none, none, wire, 12⟩]

/-- Every record type, with its serializer and its deserializer. -/
def allRecords : List RawCodec := [
  ⟨"AcousticBeamData", AcousticBeamData, AcousticBeamData.serialize, AcousticBeamData.deserialize⟩,
  ⟨"AcousticBeamFundamentalParameter", AcousticBeamFundamentalParameter, AcousticBeamFundamentalParameter.serialize, AcousticBeamFundamentalParameter.deserialize⟩,
  ⟨"AcousticEmitterSystem", AcousticEmitterSystem, AcousticEmitterSystem.serialize, AcousticEmitterSystem.deserialize⟩,
  ⟨"AcousticEmitterSystemData", AcousticEmitterSystemData, AcousticEmitterSystemData.serialize, AcousticEmitterSystemData.deserialize⟩,
  ⟨"AggregateId", AggregateId, AggregateId.serialize, AggregateId.deserialize⟩,
  ⟨"AggregateMarking", AggregateMarking, AggregateMarking.serialize, AggregateMarking.deserialize⟩,
  ⟨"AngularVelocity", AngularVelocity, AngularVelocity.serialize, AngularVelocity.deserialize⟩,
  ⟨"ApaData", ApaData, ApaData.serialize, ApaData.deserialize⟩,
  ⟨"AttributeRecord", AttributeRecord, AttributeRecord.serialize, AttributeRecord.deserialize⟩,
  ⟨"AttributeRecordSet", AttributeRecordSet, AttributeRecordSet.serialize, AttributeRecordSet.deserialize⟩,
  ⟨"BeamData", BeamData, BeamData.serialize, BeamData.deserialize⟩,
  ⟨"ClockTime", ClockTime, ClockTime.serialize, ClockTime.deserialize⟩,
  ⟨"DeadReckoningParameters", DeadReckoningParameters, DeadReckoningParameters.serialize, DeadReckoningParameters.deserialize⟩,
  ⟨"DirectedEnergyDamage", DirectedEnergyDamage, DirectedEnergyDamage.serialize, DirectedEnergyDamage.deserialize⟩,
  ⟨"ElectromagneticEmissionBeamData", ElectromagneticEmissionBeamData, ElectromagneticEmissionBeamData.serialize, ElectromagneticEmissionBeamData.deserialize⟩,
  ⟨"ElectromagneticEmissionSystemData", ElectromagneticEmissionSystemData, ElectromagneticEmissionSystemData.serialize, ElectromagneticEmissionSystemData.deserialize⟩,
  ⟨"EmitterSystem", EmitterSystem, EmitterSystem.serialize, EmitterSystem.deserialize⟩,
  ⟨"EntityCoordinateVector", EntityCoordinateVector, EntityCoordinateVector.serialize, EntityCoordinateVector.deserialize⟩,
  ⟨"EntityId", EntityId, EntityId.serialize, EntityId.deserialize⟩,
  ⟨"EntityMarking", EntityMarking, EntityMarking.serialize, EntityMarking.deserialize⟩,
  ⟨"EntityType", EntityType, EntityType.serialize, EntityType.deserialize⟩,
  ⟨"Environment", Environment, Environment.serialize, Environment.deserialize⟩,
  ⟨"EulerAngles", EulerAngles, EulerAngles.serialize, EulerAngles.deserialize⟩,
  ⟨"EventId", EventId, EventId.serialize, EventId.deserialize⟩,
  ⟨"FixedDatumRecord", FixedDatumRecord, FixedDatumRecord.serialize, FixedDatumRecord.deserialize⟩,
  ⟨"FundamentalOperationalData", FundamentalOperationalData, FundamentalOperationalData.serialize, FundamentalOperationalData.deserialize⟩,
  ⟨"FundamentalParameterData", FundamentalParameterData, FundamentalParameterData.serialize, FundamentalParameterData.deserialize⟩,
  ⟨"GridAxisDescriptor", GridAxisDescriptor, GridAxisDescriptor.serialize, GridAxisDescriptor.deserialize⟩,
  ⟨"GridDataRecord", GridDataRecord, GridDataRecord.serialize, GridDataRecord.deserialize⟩,
  ⟨"IFFFundamentalParameterData", IFFFundamentalParameterData, IFFFundamentalParameterData.serialize, IFFFundamentalParameterData.deserialize⟩,
  ⟨"IntercomCommunicationsParameters", IntercomCommunicationsParameters, IntercomCommunicationsParameters.serialize, IntercomCommunicationsParameters.deserialize⟩,
  ⟨"LayerHeader", LayerHeader, LayerHeader.serialize, LayerHeader.deserialize⟩,
  ⟨"LinearAcceleration", LinearAcceleration, LinearAcceleration.serialize, LinearAcceleration.deserialize⟩,
  ⟨"LinearSegmentParameter", LinearSegmentParameter, LinearSegmentParameter.serialize, LinearSegmentParameter.deserialize⟩,
  ⟨"LinearVelocity", LinearVelocity, LinearVelocity.serialize, LinearVelocity.deserialize⟩,
  ⟨"MinefieldIdentifier", MinefieldIdentifier, MinefieldIdentifier.serialize, MinefieldIdentifier.deserialize⟩,
  ⟨"ModulationType", ModulationType, ModulationType.serialize, ModulationType.deserialize⟩,
  ⟨"MunitionDescriptor", MunitionDescriptor, MunitionDescriptor.serialize, MunitionDescriptor.deserialize⟩,
  ⟨"NamedLocation", NamedLocation, NamedLocation.serialize, NamedLocation.deserialize⟩,
  ⟨"ObjectIdentifier", ObjectIdentifier, ObjectIdentifier.serialize, ObjectIdentifier.deserialize⟩,
  ⟨"ObjectType", ObjectType, ObjectType.serialize, ObjectType.deserialize⟩,
  ⟨"Point", Point, Point.serialize, Point.deserialize⟩,
  ⟨"PropulsionSystemData", PropulsionSystemData, PropulsionSystemData.serialize, PropulsionSystemData.deserialize⟩,
  ⟨"RadioEntityType", RadioEntityType, RadioEntityType.serialize, RadioEntityType.deserialize⟩,
  ⟨"RecordSpecification", RecordSpecification, RecordSpecification.serialize, RecordSpecification.deserialize⟩,
  ⟨"RecordSpecificationElement", RecordSpecificationElement, RecordSpecificationElement.serialize, RecordSpecificationElement.deserialize⟩,
  ⟨"Relationship", Relationship, Relationship.serialize, Relationship.deserialize⟩,
  ⟨"SecondaryOperationalData", SecondaryOperationalData, SecondaryOperationalData.serialize, SecondaryOperationalData.deserialize⟩,
  ⟨"ShaftRPMs", ShaftRPMs, ShaftRPMs.serialize, ShaftRPMs.deserialize⟩,
  ⟨"SimulationAddress", SimulationAddress, SimulationAddress.serialize, SimulationAddress.deserialize⟩,
  ⟨"SimulationIdentifier", SimulationIdentifier, SimulationIdentifier.serialize, SimulationIdentifier.deserialize⟩,
  ⟨"StandardVariableRecords", StandardVariableRecords, StandardVariableRecords.serialize, StandardVariableRecords.deserialize⟩,
  ⟨"StandardVariableSpecification", StandardVariableSpecification, StandardVariableSpecification.serialize, StandardVariableSpecification.deserialize⟩,
  ⟨"SupplyQuantity", SupplyQuantity, SupplyQuantity.serialize, SupplyQuantity.deserialize⟩,
  ⟨"SystemId", SystemId, SystemId.serialize, SystemId.deserialize⟩,
  ⟨"TrackJamTarget", TrackJamTarget, TrackJamTarget.serialize, TrackJamTarget.deserialize⟩,
  ⟨"VariableDatumRecord", VariableDatumRecord, VariableDatumRecord.serialize, VariableDatumRecord.deserialize⟩,
  ⟨"VariableParameter", VariableParameter, VariableParameter.serialize, VariableParameter.deserialize⟩,
  ⟨"VariableTransmitterParameters", VariableTransmitterParameters, VariableTransmitterParameters.serialize, VariableTransmitterParameters.deserialize⟩,
  ⟨"Vector3Double", Vector3Double, Vector3Double.serialize, Vector3Double.deserialize⟩,
  ⟨"Vector3Float", Vector3Float, Vector3Float.serialize, Vector3Float.deserialize⟩,
  ⟨"VectoringNozzleSystemData", VectoringNozzleSystemData, VectoringNozzleSystemData.serialize, VectoringNozzleSystemData.deserialize⟩,
  ⟨"VelocityVector", VelocityVector, VelocityVector.serialize, VelocityVector.deserialize⟩,
  ⟨"WorldCoordinate", WorldCoordinate, WorldCoordinate.serialize, WorldCoordinate.deserialize⟩]

end Dis
