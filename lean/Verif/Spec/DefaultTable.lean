import Verif.Model.Records
/-
The record types with a default value: the number of octets it is transmitted as, and which of them (from 0)
are not zero, with their values.  They are the site and application numbers of simulation addresses, which
default to 1, and the low octet of the default emitter name, 2.
-/
namespace Dis

structure DefaultRecord where
  name : String
  Val : Type
  default : Val
  ser : Val → Put
  de : Option (Get Val)
  size : Nat
  nonzero : List (Nat × UInt8)

/-- The octets described. -/
def DefaultRecord.octets (r : DefaultRecord) : Bytes :=
  (List.range r.size).map fun i => (r.nonzero.lookup i).getD 0

def defaultRecords : List DefaultRecord := [
  ⟨"AcousticBeamFundamentalParameter", AcousticBeamFundamentalParameter, dflt, AcousticBeamFundamentalParameter.serialize, some AcousticBeamFundamentalParameter.deserialize, 20, []⟩,
  ⟨"AcousticBeamData", AcousticBeamData, dflt, AcousticBeamData.serialize, some AcousticBeamData.deserialize, 25, []⟩,
  ⟨"AcousticEmitterSystem", AcousticEmitterSystem, dflt, AcousticEmitterSystem.serialize, some AcousticEmitterSystem.deserialize, 4, []⟩,
  ⟨"Vector3Float", Vector3Float, dflt, Vector3Float.serialize, some Vector3Float.deserialize, 12, []⟩,
  ⟨"AcousticEmitterSystemData", AcousticEmitterSystemData, dflt, AcousticEmitterSystemData.serialize, some AcousticEmitterSystemData.deserialize, 20, []⟩,
  ⟨"AggregateId", AggregateId, dflt, AggregateId.serialize, some AggregateId.deserialize, 6, []⟩,
  ⟨"AggregateMarking", AggregateMarking, dflt, AggregateMarking.serialize, some AggregateMarking.deserialize, 32, []⟩,
  ⟨"AngularVelocity", AngularVelocity, dflt, AngularVelocity.serialize, some AngularVelocity.deserialize, 12, []⟩,
  ⟨"ApaData", ApaData, dflt, ApaData.serialize, some ApaData.deserialize, 4, []⟩,
  ⟨"AttributeRecord", AttributeRecord, dflt, AttributeRecord.serialize, some AttributeRecord.deserialize, 6, []⟩,
  ⟨"SimulationAddress", SimulationAddress, dflt, SimulationAddress.serialize, some SimulationAddress.deserialize, 4, [(1, 1), (3, 1)]⟩,
  ⟨"EntityId", EntityId, dflt, EntityId.serialize, some EntityId.deserialize, 6, [(1, 1), (3, 1)]⟩,
  ⟨"AttributeRecordSet", AttributeRecordSet, dflt, AttributeRecordSet.serialize, some AttributeRecordSet.deserialize, 8, [(1, 1), (3, 1)]⟩,
  ⟨"BeamData", BeamData, dflt, BeamData.serialize, some BeamData.deserialize, 20, []⟩,
  ⟨"ClockTime", ClockTime, dflt, ClockTime.serialize, some ClockTime.deserialize, 8, []⟩,
  ⟨"LinearAcceleration", LinearAcceleration, dflt, LinearAcceleration.serialize, some LinearAcceleration.deserialize, 12, []⟩,
  ⟨"DeadReckoningParameters", DeadReckoningParameters, dflt, DeadReckoningParameters.serialize, some DeadReckoningParameters.deserialize, 40, []⟩,
  ⟨"EntityCoordinateVector", EntityCoordinateVector, dflt, EntityCoordinateVector.serialize, some EntityCoordinateVector.deserialize, 12, []⟩,
  ⟨"EventId", EventId, dflt, EventId.serialize, some EventId.deserialize, 6, [(1, 1), (3, 1)]⟩,
  ⟨"DirectedEnergyDamage", DirectedEnergyDamage, dflt, DirectedEnergyDamage.serialize, some DirectedEnergyDamage.deserialize, 40, [(33, 1), (35, 1)]⟩,
  ⟨"FundamentalParameterData", FundamentalParameterData, dflt, FundamentalParameterData.serialize, some FundamentalParameterData.deserialize, 40, []⟩,
  ⟨"TrackJamTarget", TrackJamTarget, dflt, TrackJamTarget.serialize, some TrackJamTarget.deserialize, 8, [(1, 1), (3, 1)]⟩,
  ⟨"ElectromagneticEmissionBeamData", ElectromagneticEmissionBeamData, dflt, ElectromagneticEmissionBeamData.serialize, some ElectromagneticEmissionBeamData.deserialize, 52, []⟩,
  ⟨"EmitterSystem", EmitterSystem, dflt, EmitterSystem.serialize, some EmitterSystem.deserialize, 4, [(1, 2)]⟩,
  ⟨"ElectromagneticEmissionSystemData", ElectromagneticEmissionSystemData, dflt, ElectromagneticEmissionSystemData.serialize, some ElectromagneticEmissionSystemData.deserialize, 20, [(5, 2)]⟩,
  ⟨"EntityType", EntityType, dflt, EntityType.serialize, some EntityType.deserialize, 8, []⟩,
  ⟨"Environment", Environment, dflt, Environment.serialize, some Environment.deserialize, 8, []⟩,
  ⟨"EulerAngles", EulerAngles, dflt, EulerAngles.serialize, some EulerAngles.deserialize, 12, []⟩,
  ⟨"FundamentalOperationalData", FundamentalOperationalData, dflt, FundamentalOperationalData.serialize, some FundamentalOperationalData.deserialize, 16, []⟩,
  ⟨"IFFFundamentalParameterData", IFFFundamentalParameterData, dflt, IFFFundamentalParameterData.serialize, some IFFFundamentalParameterData.deserialize, 24, []⟩,
  ⟨"IntercomCommunicationsParameters", IntercomCommunicationsParameters, dflt, IntercomCommunicationsParameters.serialize, some IntercomCommunicationsParameters.deserialize, 8, []⟩,
  ⟨"LayerHeader", LayerHeader, dflt, LayerHeader.serialize, some LayerHeader.deserialize, 4, []⟩,
  ⟨"WorldCoordinate", WorldCoordinate, dflt, WorldCoordinate.serialize, some WorldCoordinate.deserialize, 24, []⟩,
  ⟨"LinearSegmentParameter", LinearSegmentParameter, dflt, LinearSegmentParameter.serialize, some LinearSegmentParameter.deserialize, 66, []⟩,
  ⟨"LinearVelocity", LinearVelocity, dflt, LinearVelocity.serialize, some LinearVelocity.deserialize, 12, []⟩,
  ⟨"MinefieldIdentifier", MinefieldIdentifier, dflt, MinefieldIdentifier.serialize, some MinefieldIdentifier.deserialize, 6, [(1, 1), (3, 1)]⟩,
  ⟨"ModulationType", ModulationType, dflt, ModulationType.serialize, some ModulationType.deserialize, 8, []⟩,
  ⟨"MunitionDescriptor", MunitionDescriptor, dflt, MunitionDescriptor.serialize, some MunitionDescriptor.deserialize, 16, []⟩,
  ⟨"NamedLocation", NamedLocation, dflt, NamedLocation.serialize, some NamedLocation.deserialize, 4, []⟩,
  ⟨"ObjectIdentifier", ObjectIdentifier, dflt, ObjectIdentifier.serialize, some ObjectIdentifier.deserialize, 6, [(1, 1), (3, 1)]⟩,
  ⟨"ObjectType", ObjectType, dflt, ObjectType.serialize, some ObjectType.deserialize, 4, []⟩,
  ⟨"Point", Point, dflt, Point.serialize, some Point.deserialize, 8, []⟩,
  ⟨"PropulsionSystemData", PropulsionSystemData, dflt, PropulsionSystemData.serialize, some PropulsionSystemData.deserialize, 8, []⟩,
  ⟨"RadioEntityType", RadioEntityType, dflt, RadioEntityType.serialize, some RadioEntityType.deserialize, 8, []⟩,
  ⟨"RecordSpecification", RecordSpecification, dflt, RecordSpecification.serialize, some RecordSpecification.deserialize, 4, []⟩,
  ⟨"Relationship", Relationship, dflt, Relationship.serialize, some Relationship.deserialize, 4, []⟩,
  ⟨"SecondaryOperationalData", SecondaryOperationalData, dflt, SecondaryOperationalData.serialize, some SecondaryOperationalData.deserialize, 4, []⟩,
  ⟨"ShaftRPMs", ShaftRPMs, dflt, ShaftRPMs.serialize, some ShaftRPMs.deserialize, 8, []⟩,
  ⟨"SimulationIdentifier", SimulationIdentifier, dflt, SimulationIdentifier.serialize, some SimulationIdentifier.deserialize, 6, [(1, 1), (3, 1)]⟩,
  ⟨"StandardVariableRecords", StandardVariableRecords, dflt, StandardVariableRecords.serialize, some StandardVariableRecords.deserialize, 6, []⟩,
  ⟨"StandardVariableSpecification", StandardVariableSpecification, dflt, StandardVariableSpecification.serialize, some StandardVariableSpecification.deserialize, 2, []⟩,
  ⟨"SupplyQuantity", SupplyQuantity, dflt, SupplyQuantity.serialize, some SupplyQuantity.deserialize, 12, []⟩,
  ⟨"SystemId", SystemId, dflt, SystemId.serialize, some SystemId.deserialize, 6, []⟩,
  ⟨"VariableParameter", VariableParameter, dflt, VariableParameter.serialize, some VariableParameter.deserialize, 16, []⟩,
  ⟨"VariableTransmitterParameters", VariableTransmitterParameters, dflt, VariableTransmitterParameters.serialize, none, 6, []⟩,
  ⟨"Vector3Double", Vector3Double, dflt, Vector3Double.serialize, some Vector3Double.deserialize, 24, []⟩,
  ⟨"VectoringNozzleSystemData", VectoringNozzleSystemData, dflt, VectoringNozzleSystemData.serialize, some VectoringNozzleSystemData.deserialize, 8, []⟩,
  ⟨"VelocityVector", VelocityVector, dflt, VelocityVector.serialize, some VelocityVector.deserialize, 12, []⟩,
  ⟨"EntityMarking", EntityMarking, dflt, EntityMarking.serialize, none, 1, []⟩,
  ⟨"ModulationParameters", ModulationParameters, dflt, ModulationParameters.serialize, none, 0, []⟩,
  ⟨"AntennaPattern", AntennaPattern, dflt, AntennaPattern.serialize, none, 0, []⟩]

end Dis
