import Verif.Spec.RecordTable
import Verif.Proofs.Records
/- Generated by tools/gen_records.py. -/
set_option maxRecDepth 4000
namespace Dis

/-- What the theorems need of each entry. -/
structure RecordCodec.Lawful (r : RecordCodec) : Prop where
  writes : ∀ x, Writes (r.ser x) (r.wire x)
  wire_length : ∀ x, (r.wire x).length = r.size
  reads : ∀ x, Reads r.de (r.wire x) x
  fixed : Fixed r.de r.size
  len : ∀ x f, r.len = some f → f x = (r.wire x).length
  declared : ∀ n, r.declared = some n → n = r.size

theorem some_len {α : Type} {w : α → Bytes} {g : α → Nat} (h : ∀ x, g x = (w x).length) (x : α)
    (f : α → Nat) (hf : some g = some f) : f x = (w x).length := by
  cases hf; exact h x

theorem fixedRecords_lawful : ∀ r ∈ fixedRecords, r.Lawful := by
  unfold fixedRecords
  refine List.forall_mem_cons.mpr ⟨⟨AcousticBeamFundamentalParameter.writes, AcousticBeamFundamentalParameter.wire_length, AcousticBeamFundamentalParameter.reads, AcousticBeamFundamentalParameter.fixed, (fun _ _ h => nomatch h), (fun _ h => nomatch h)⟩, ?_⟩
  refine List.forall_mem_cons.mpr ⟨⟨AcousticBeamData.writes, AcousticBeamData.wire_length, AcousticBeamData.reads, AcousticBeamData.fixed, (fun _ _ h => nomatch h), (fun _ h => nomatch h)⟩, ?_⟩
  refine List.forall_mem_cons.mpr ⟨⟨AcousticEmitterSystem.writes, AcousticEmitterSystem.wire_length, AcousticEmitterSystem.reads, AcousticEmitterSystem.fixed, (fun x => some_len (fun x => len_exact (α := AcousticEmitterSystem) x) x), (fun _ h => nomatch h)⟩, ?_⟩
  refine List.forall_mem_cons.mpr ⟨⟨Vector3Float.writes, Vector3Float.wire_length, Vector3Float.reads, Vector3Float.fixed, (fun x => some_len (fun x => len_exact (α := Vector3Float) x) x), (fun _ h => nomatch h)⟩, ?_⟩
  refine List.forall_mem_cons.mpr ⟨⟨AggregateId.writes, AggregateId.wire_length, AggregateId.reads, AggregateId.fixed, (fun x => some_len (fun x => len_exact (α := AggregateId) x) x), (fun _ h => nomatch h)⟩, ?_⟩
  refine List.forall_mem_cons.mpr ⟨⟨AggregateMarking.writes, AggregateMarking.wire_length, AggregateMarking.reads, AggregateMarking.fixed, (fun x => some_len (fun x => len_exact (α := AggregateMarking) x) x), (fun _ h => nomatch h)⟩, ?_⟩
  refine List.forall_mem_cons.mpr ⟨⟨AngularVelocity.writes, AngularVelocity.wire_length, AngularVelocity.reads, AngularVelocity.fixed, (fun _ _ h => nomatch h), (fun _ h => (Option.some.inj h).symm)⟩, ?_⟩
  refine List.forall_mem_cons.mpr ⟨⟨ApaData.writes, ApaData.wire_length, ApaData.reads, ApaData.fixed, (fun x => some_len (fun x => len_exact (α := ApaData) x) x), (fun _ h => (Option.some.inj h).symm)⟩, ?_⟩
  refine List.forall_mem_cons.mpr ⟨⟨SimulationAddress.writes, SimulationAddress.wire_length, SimulationAddress.reads, SimulationAddress.fixed, (fun x => some_len (fun x => len_exact (α := SimulationAddress) x) x), (fun _ h => (Option.some.inj h).symm)⟩, ?_⟩
  refine List.forall_mem_cons.mpr ⟨⟨EntityId.writes, EntityId.wire_length, EntityId.reads, EntityId.fixed, (fun x => some_len (fun x => len_exact (α := EntityId) x) x), (fun _ h => (Option.some.inj h).symm)⟩, ?_⟩
  refine List.forall_mem_cons.mpr ⟨⟨BeamData.writes, BeamData.wire_length, BeamData.reads, BeamData.fixed, (fun x => some_len (fun x => len_exact (α := BeamData) x) x), (fun _ h => (Option.some.inj h).symm)⟩, ?_⟩
  refine List.forall_mem_cons.mpr ⟨⟨ClockTime.writes, ClockTime.wire_length, ClockTime.reads, ClockTime.fixed, (fun x => some_len (fun x => len_exact (α := ClockTime) x) x), (fun _ h => nomatch h)⟩, ?_⟩
  refine List.forall_mem_cons.mpr ⟨⟨LinearAcceleration.writes, LinearAcceleration.wire_length, LinearAcceleration.reads, LinearAcceleration.fixed, (fun x => some_len (fun x => len_exact (α := LinearAcceleration) x) x), (fun _ h => (Option.some.inj h).symm)⟩, ?_⟩
  refine List.forall_mem_cons.mpr ⟨⟨EntityCoordinateVector.writes, EntityCoordinateVector.wire_length, EntityCoordinateVector.reads, EntityCoordinateVector.fixed, (fun x => some_len (fun x => len_exact (α := EntityCoordinateVector) x) x), (fun _ h => (Option.some.inj h).symm)⟩, ?_⟩
  refine List.forall_mem_cons.mpr ⟨⟨EventId.writes, EventId.wire_length, EventId.reads, EventId.fixed, (fun x => some_len (fun x => len_exact (α := EventId) x) x), (fun _ h => (Option.some.inj h).symm)⟩, ?_⟩
  refine List.forall_mem_cons.mpr ⟨⟨DirectedEnergyDamage.writes, DirectedEnergyDamage.wire_length, DirectedEnergyDamage.reads, DirectedEnergyDamage.fixed, (fun x => some_len (fun x => len_exact (α := DirectedEnergyDamage) x) x), (fun _ h => nomatch h)⟩, ?_⟩
  refine List.forall_mem_cons.mpr ⟨⟨FundamentalParameterData.writes, FundamentalParameterData.wire_length, FundamentalParameterData.reads, FundamentalParameterData.fixed, (fun x => some_len (fun x => len_exact (α := FundamentalParameterData) x) x), (fun _ h => nomatch h)⟩, ?_⟩
  refine List.forall_mem_cons.mpr ⟨⟨TrackJamTarget.writes, TrackJamTarget.wire_length, TrackJamTarget.reads, TrackJamTarget.fixed, (fun x => some_len (fun x => len_exact (α := TrackJamTarget) x) x), (fun _ h => nomatch h)⟩, ?_⟩
  refine List.forall_mem_cons.mpr ⟨⟨EmitterSystem.writes, EmitterSystem.wire_length, EmitterSystem.reads, EmitterSystem.fixed, (fun _ _ h => nomatch h), (fun _ h => (Option.some.inj h).symm)⟩, ?_⟩
  refine List.forall_mem_cons.mpr ⟨⟨EntityType.writes, EntityType.wire_length, EntityType.reads, EntityType.fixed, (fun x => some_len (fun x => len_exact (α := EntityType) x) x), (fun _ h => (Option.some.inj h).symm)⟩, ?_⟩
  refine List.forall_mem_cons.mpr ⟨⟨Environment.writes, Environment.wire_length, Environment.reads, Environment.fixed, (fun x => some_len (fun x => len_exact (α := Environment) x) x), (fun _ h => nomatch h)⟩, ?_⟩
  refine List.forall_mem_cons.mpr ⟨⟨EulerAngles.writes, EulerAngles.wire_length, EulerAngles.reads, EulerAngles.fixed, (fun x => some_len (fun x => len_exact (α := EulerAngles) x) x), (fun _ h => (Option.some.inj h).symm)⟩, ?_⟩
  refine List.forall_mem_cons.mpr ⟨⟨FixedDatumRecord.writes, FixedDatumRecord.wire_length, FixedDatumRecord.reads, FixedDatumRecord.fixed, (fun x => some_len (fun x => len_exact (α := FixedDatumRecord) x) x), (fun _ h => nomatch h)⟩, ?_⟩
  refine List.forall_mem_cons.mpr ⟨⟨FundamentalOperationalData.writes, FundamentalOperationalData.wire_length, FundamentalOperationalData.reads, FundamentalOperationalData.fixed, (fun x => some_len (fun x => len_exact (α := FundamentalOperationalData) x) x), (fun _ h => (Option.some.inj h).symm)⟩, ?_⟩
  refine List.forall_mem_cons.mpr ⟨⟨IFFFundamentalParameterData.writes, IFFFundamentalParameterData.wire_length, IFFFundamentalParameterData.reads, IFFFundamentalParameterData.fixed, (fun x => some_len (fun x => len_exact (α := IFFFundamentalParameterData) x) x), (fun _ h => (Option.some.inj h).symm)⟩, ?_⟩
  refine List.forall_mem_cons.mpr ⟨⟨IntercomCommunicationsParameters.writes, IntercomCommunicationsParameters.wire_length, IntercomCommunicationsParameters.reads, IntercomCommunicationsParameters.fixed, (fun x => some_len (fun x => len_exact (α := IntercomCommunicationsParameters) x) x), (fun _ h => nomatch h)⟩, ?_⟩
  refine List.forall_mem_cons.mpr ⟨⟨LayerHeader.writes, LayerHeader.wire_length, LayerHeader.reads, LayerHeader.fixed, (fun x => some_len (fun x => len_exact (α := LayerHeader) x) x), (fun _ h => (Option.some.inj h).symm)⟩, ?_⟩
  refine List.forall_mem_cons.mpr ⟨⟨WorldCoordinate.writes, WorldCoordinate.wire_length, WorldCoordinate.reads, WorldCoordinate.fixed, (fun x => some_len (fun x => len_exact (α := WorldCoordinate) x) x), (fun _ h => (Option.some.inj h).symm)⟩, ?_⟩
  refine List.forall_mem_cons.mpr ⟨⟨LinearSegmentParameter.writes, LinearSegmentParameter.wire_length, LinearSegmentParameter.reads, LinearSegmentParameter.fixed, (fun x => some_len (fun x => len_exact (α := LinearSegmentParameter) x) x), (fun _ h => nomatch h)⟩, ?_⟩
  refine List.forall_mem_cons.mpr ⟨⟨LinearVelocity.writes, LinearVelocity.wire_length, LinearVelocity.reads, LinearVelocity.fixed, (fun x => some_len (fun x => len_exact (α := LinearVelocity) x) x), (fun _ h => (Option.some.inj h).symm)⟩, ?_⟩
  refine List.forall_mem_cons.mpr ⟨⟨MinefieldIdentifier.writes, MinefieldIdentifier.wire_length, MinefieldIdentifier.reads, MinefieldIdentifier.fixed, (fun x => some_len (fun x => len_exact (α := MinefieldIdentifier) x) x), (fun _ h => nomatch h)⟩, ?_⟩
  refine List.forall_mem_cons.mpr ⟨⟨ModulationType.writes, ModulationType.wire_length, ModulationType.reads, ModulationType.fixed, (fun x => some_len (fun x => len_exact (α := ModulationType) x) x), (fun _ h => nomatch h)⟩, ?_⟩
  refine List.forall_mem_cons.mpr ⟨⟨MunitionDescriptor.writes, MunitionDescriptor.wire_length, MunitionDescriptor.reads, MunitionDescriptor.fixed, (fun x => some_len (fun x => len_exact (α := MunitionDescriptor) x) x), (fun _ h => nomatch h)⟩, ?_⟩
  refine List.forall_mem_cons.mpr ⟨⟨NamedLocation.writes, NamedLocation.wire_length, NamedLocation.reads, NamedLocation.fixed, (fun x => some_len (fun x => len_exact (α := NamedLocation) x) x), (fun _ h => nomatch h)⟩, ?_⟩
  refine List.forall_mem_cons.mpr ⟨⟨ObjectIdentifier.writes, ObjectIdentifier.wire_length, ObjectIdentifier.reads, ObjectIdentifier.fixed, (fun x => some_len (fun x => len_exact (α := ObjectIdentifier) x) x), (fun _ h => nomatch h)⟩, ?_⟩
  refine List.forall_mem_cons.mpr ⟨⟨ObjectType.writes, ObjectType.wire_length, ObjectType.reads, ObjectType.fixed, (fun x => some_len (fun x => len_exact (α := ObjectType) x) x), (fun _ h => nomatch h)⟩, ?_⟩
  refine List.forall_mem_cons.mpr ⟨⟨Point.writes, Point.wire_length, Point.reads, Point.fixed, (fun x => some_len (fun x => len_exact (α := Point) x) x), (fun _ h => nomatch h)⟩, ?_⟩
  refine List.forall_mem_cons.mpr ⟨⟨PropulsionSystemData.writes, PropulsionSystemData.wire_length, PropulsionSystemData.reads, PropulsionSystemData.fixed, (fun x => some_len (fun x => len_exact (α := PropulsionSystemData) x) x), (fun _ h => (Option.some.inj h).symm)⟩, ?_⟩
  refine List.forall_mem_cons.mpr ⟨⟨RadioEntityType.writes, RadioEntityType.wire_length, RadioEntityType.reads, RadioEntityType.fixed, (fun x => some_len (fun x => len_exact (α := RadioEntityType) x) x), (fun _ h => nomatch h)⟩, ?_⟩
  refine List.forall_mem_cons.mpr ⟨⟨Relationship.writes, Relationship.wire_length, Relationship.reads, Relationship.fixed, (fun x => some_len (fun x => len_exact (α := Relationship) x) x), (fun _ h => nomatch h)⟩, ?_⟩
  refine List.forall_mem_cons.mpr ⟨⟨SecondaryOperationalData.writes, SecondaryOperationalData.wire_length, SecondaryOperationalData.reads, SecondaryOperationalData.fixed, (fun x => some_len (fun x => len_exact (α := SecondaryOperationalData) x) x), (fun _ h => (Option.some.inj h).symm)⟩, ?_⟩
  refine List.forall_mem_cons.mpr ⟨⟨ShaftRPMs.writes, ShaftRPMs.wire_length, ShaftRPMs.reads, ShaftRPMs.fixed, (fun x => some_len (fun x => len_exact (α := ShaftRPMs) x) x), (fun _ h => (Option.some.inj h).symm)⟩, ?_⟩
  refine List.forall_mem_cons.mpr ⟨⟨SupplyQuantity.writes, SupplyQuantity.wire_length, SupplyQuantity.reads, SupplyQuantity.fixed, (fun x => some_len (fun x => len_exact (α := SupplyQuantity) x) x), (fun _ h => nomatch h)⟩, ?_⟩
  refine List.forall_mem_cons.mpr ⟨⟨SystemId.writes, SystemId.wire_length, SystemId.reads, SystemId.fixed, (fun x => some_len (fun x => len_exact (α := SystemId) x) x), (fun _ h => (Option.some.inj h).symm)⟩, ?_⟩
  refine List.forall_mem_cons.mpr ⟨⟨VariableParameter.writes, VariableParameter.wire_length, VariableParameter.reads, VariableParameter.fixed, (fun x => some_len (fun x => len_exact (α := VariableParameter) x) x), (fun _ h => (Option.some.inj h).symm)⟩, ?_⟩
  refine List.forall_mem_cons.mpr ⟨⟨Vector3Double.writes, Vector3Double.wire_length, Vector3Double.reads, Vector3Double.fixed, (fun _ _ h => nomatch h), (fun _ h => (Option.some.inj h).symm)⟩, ?_⟩
  refine List.forall_mem_cons.mpr ⟨⟨VectoringNozzleSystemData.writes, VectoringNozzleSystemData.wire_length, VectoringNozzleSystemData.reads, VectoringNozzleSystemData.fixed, (fun x => some_len (fun x => len_exact (α := VectoringNozzleSystemData) x) x), (fun _ h => (Option.some.inj h).symm)⟩, ?_⟩
  refine List.forall_mem_cons.mpr ⟨⟨VelocityVector.writes, VelocityVector.wire_length, VelocityVector.reads, VelocityVector.fixed, (fun _ _ h => nomatch h), (fun _ h => nomatch h)⟩, ?_⟩
  exact fun _ h => nomatch h

theorem allRecords_lawful : ∀ r ∈ allRecords, (∀ x, Appends (r.ser x)) ∧ Consumes r.de := by
  unfold allRecords
  refine List.forall_mem_cons.mpr ⟨⟨fun (x : AcousticBeamData) => (AcousticBeamData.writes x).appends, AcousticBeamData.fixed.local.consumes⟩, ?_⟩
  refine List.forall_mem_cons.mpr ⟨⟨fun (x : AcousticBeamFundamentalParameter) => (AcousticBeamFundamentalParameter.writes x).appends, AcousticBeamFundamentalParameter.fixed.local.consumes⟩, ?_⟩
  refine List.forall_mem_cons.mpr ⟨⟨fun (x : AcousticEmitterSystem) => (AcousticEmitterSystem.writes x).appends, AcousticEmitterSystem.fixed.local.consumes⟩, ?_⟩
  refine List.forall_mem_cons.mpr ⟨⟨fun (x : AcousticEmitterSystemData) => (AcousticEmitterSystemData.writes x).appends, AcousticEmitterSystemData.loc.consumes⟩, ?_⟩
  refine List.forall_mem_cons.mpr ⟨⟨fun (x : AggregateId) => (AggregateId.writes x).appends, AggregateId.fixed.local.consumes⟩, ?_⟩
  refine List.forall_mem_cons.mpr ⟨⟨fun (x : AggregateMarking) => (AggregateMarking.writes x).appends, AggregateMarking.fixed.local.consumes⟩, ?_⟩
  refine List.forall_mem_cons.mpr ⟨⟨fun (x : AngularVelocity) => (AngularVelocity.writes x).appends, AngularVelocity.fixed.local.consumes⟩, ?_⟩
  refine List.forall_mem_cons.mpr ⟨⟨fun (x : ApaData) => (ApaData.writes x).appends, ApaData.fixed.local.consumes⟩, ?_⟩
  refine List.forall_mem_cons.mpr ⟨⟨fun (x : AttributeRecord) => (AttributeRecord.writes x).appends, AttributeRecord.loc.consumes⟩, ?_⟩
  refine List.forall_mem_cons.mpr ⟨⟨fun (x : AttributeRecordSet) => (AttributeRecordSet.writes x).appends, AttributeRecordSet.loc.consumes⟩, ?_⟩
  refine List.forall_mem_cons.mpr ⟨⟨fun (x : BeamData) => (BeamData.writes x).appends, BeamData.fixed.local.consumes⟩, ?_⟩
  refine List.forall_mem_cons.mpr ⟨⟨fun (x : ClockTime) => (ClockTime.writes x).appends, ClockTime.fixed.local.consumes⟩, ?_⟩
  refine List.forall_mem_cons.mpr ⟨⟨fun (x : DeadReckoningParameters) => (DeadReckoningParameters.writes x).appends, DeadReckoningParameters.fixed.local.consumes⟩, ?_⟩
  refine List.forall_mem_cons.mpr ⟨⟨fun (x : DirectedEnergyDamage) => (DirectedEnergyDamage.writes x).appends, DirectedEnergyDamage.fixed.local.consumes⟩, ?_⟩
  refine List.forall_mem_cons.mpr ⟨⟨fun (x : ElectromagneticEmissionBeamData) => (ElectromagneticEmissionBeamData.writes x).appends, ElectromagneticEmissionBeamData.loc.consumes⟩, ?_⟩
  refine List.forall_mem_cons.mpr ⟨⟨fun (x : ElectromagneticEmissionSystemData) => (ElectromagneticEmissionSystemData.writes x).appends, ElectromagneticEmissionSystemData.loc.consumes⟩, ?_⟩
  refine List.forall_mem_cons.mpr ⟨⟨fun (x : EmitterSystem) => (EmitterSystem.writes x).appends, EmitterSystem.fixed.local.consumes⟩, ?_⟩
  refine List.forall_mem_cons.mpr ⟨⟨fun (x : EntityCoordinateVector) => (EntityCoordinateVector.writes x).appends, EntityCoordinateVector.fixed.local.consumes⟩, ?_⟩
  refine List.forall_mem_cons.mpr ⟨⟨fun (x : EntityId) => (EntityId.writes x).appends, EntityId.fixed.local.consumes⟩, ?_⟩
  refine List.forall_mem_cons.mpr ⟨⟨fun (x : EntityMarking) => (EntityMarking.writes x).appends, EntityMarking.consumes⟩, ?_⟩
  refine List.forall_mem_cons.mpr ⟨⟨fun (x : EntityType) => (EntityType.writes x).appends, EntityType.fixed.local.consumes⟩, ?_⟩
  refine List.forall_mem_cons.mpr ⟨⟨fun (x : Environment) => (Environment.writes x).appends, Environment.fixed.local.consumes⟩, ?_⟩
  refine List.forall_mem_cons.mpr ⟨⟨fun (x : EulerAngles) => (EulerAngles.writes x).appends, EulerAngles.fixed.local.consumes⟩, ?_⟩
  refine List.forall_mem_cons.mpr ⟨⟨fun (x : EventId) => (EventId.writes x).appends, EventId.fixed.local.consumes⟩, ?_⟩
  refine List.forall_mem_cons.mpr ⟨⟨fun (x : FixedDatumRecord) => (FixedDatumRecord.writes x).appends, FixedDatumRecord.fixed.local.consumes⟩, ?_⟩
  refine List.forall_mem_cons.mpr ⟨⟨fun (x : FundamentalOperationalData) => (FundamentalOperationalData.writes x).appends, FundamentalOperationalData.fixed.local.consumes⟩, ?_⟩
  refine List.forall_mem_cons.mpr ⟨⟨fun (x : FundamentalParameterData) => (FundamentalParameterData.writes x).appends, FundamentalParameterData.fixed.local.consumes⟩, ?_⟩
  refine List.forall_mem_cons.mpr ⟨⟨fun (x : GridAxisDescriptor) => (GridAxisDescriptor.writes x).appends, GridAxisDescriptor.consumes⟩, ?_⟩
  refine List.forall_mem_cons.mpr ⟨⟨fun (x : GridDataRecord) => (GridDataRecord.writes x).appends, GridDataRecord.consumes⟩, ?_⟩
  refine List.forall_mem_cons.mpr ⟨⟨fun (x : IFFFundamentalParameterData) => (IFFFundamentalParameterData.writes x).appends, IFFFundamentalParameterData.fixed.local.consumes⟩, ?_⟩
  refine List.forall_mem_cons.mpr ⟨⟨fun (x : IntercomCommunicationsParameters) => (IntercomCommunicationsParameters.writes x).appends, IntercomCommunicationsParameters.fixed.local.consumes⟩, ?_⟩
  refine List.forall_mem_cons.mpr ⟨⟨fun (x : LayerHeader) => (LayerHeader.writes x).appends, LayerHeader.fixed.local.consumes⟩, ?_⟩
  refine List.forall_mem_cons.mpr ⟨⟨fun (x : LinearAcceleration) => (LinearAcceleration.writes x).appends, LinearAcceleration.fixed.local.consumes⟩, ?_⟩
  refine List.forall_mem_cons.mpr ⟨⟨fun (x : LinearSegmentParameter) => (LinearSegmentParameter.writes x).appends, LinearSegmentParameter.fixed.local.consumes⟩, ?_⟩
  refine List.forall_mem_cons.mpr ⟨⟨fun (x : LinearVelocity) => (LinearVelocity.writes x).appends, LinearVelocity.fixed.local.consumes⟩, ?_⟩
  refine List.forall_mem_cons.mpr ⟨⟨fun (x : MinefieldIdentifier) => (MinefieldIdentifier.writes x).appends, MinefieldIdentifier.fixed.local.consumes⟩, ?_⟩
  refine List.forall_mem_cons.mpr ⟨⟨fun (x : ModulationType) => (ModulationType.writes x).appends, ModulationType.fixed.local.consumes⟩, ?_⟩
  refine List.forall_mem_cons.mpr ⟨⟨fun (x : MunitionDescriptor) => (MunitionDescriptor.writes x).appends, MunitionDescriptor.fixed.local.consumes⟩, ?_⟩
  refine List.forall_mem_cons.mpr ⟨⟨fun (x : NamedLocation) => (NamedLocation.writes x).appends, NamedLocation.fixed.local.consumes⟩, ?_⟩
  refine List.forall_mem_cons.mpr ⟨⟨fun (x : ObjectIdentifier) => (ObjectIdentifier.writes x).appends, ObjectIdentifier.fixed.local.consumes⟩, ?_⟩
  refine List.forall_mem_cons.mpr ⟨⟨fun (x : ObjectType) => (ObjectType.writes x).appends, ObjectType.fixed.local.consumes⟩, ?_⟩
  refine List.forall_mem_cons.mpr ⟨⟨fun (x : Point) => (Point.writes x).appends, Point.fixed.local.consumes⟩, ?_⟩
  refine List.forall_mem_cons.mpr ⟨⟨fun (x : PropulsionSystemData) => (PropulsionSystemData.writes x).appends, PropulsionSystemData.fixed.local.consumes⟩, ?_⟩
  refine List.forall_mem_cons.mpr ⟨⟨fun (x : RadioEntityType) => (RadioEntityType.writes x).appends, RadioEntityType.fixed.local.consumes⟩, ?_⟩
  refine List.forall_mem_cons.mpr ⟨⟨fun (x : RecordSpecification) => LawfulEnc.appends x, RecordSpecification.loc.consumes⟩, ?_⟩
  refine List.forall_mem_cons.mpr ⟨⟨fun (x : RecordSpecificationElement) => RecordSpecificationElement.appends x, RecordSpecificationElement.loc.consumes⟩, ?_⟩
  refine List.forall_mem_cons.mpr ⟨⟨fun (x : Relationship) => (Relationship.writes x).appends, Relationship.fixed.local.consumes⟩, ?_⟩
  refine List.forall_mem_cons.mpr ⟨⟨fun (x : SecondaryOperationalData) => (SecondaryOperationalData.writes x).appends, SecondaryOperationalData.fixed.local.consumes⟩, ?_⟩
  refine List.forall_mem_cons.mpr ⟨⟨fun (x : ShaftRPMs) => (ShaftRPMs.writes x).appends, ShaftRPMs.fixed.local.consumes⟩, ?_⟩
  refine List.forall_mem_cons.mpr ⟨⟨fun (x : SimulationAddress) => (SimulationAddress.writes x).appends, SimulationAddress.fixed.local.consumes⟩, ?_⟩
  refine List.forall_mem_cons.mpr ⟨⟨fun (x : SimulationIdentifier) => (SimulationIdentifier.writes x).appends, SimulationIdentifier.fixed.local.consumes⟩, ?_⟩
  refine List.forall_mem_cons.mpr ⟨⟨fun (x : StandardVariableRecords) => (StandardVariableRecords.writes x).appends, StandardVariableRecords.loc.consumes⟩, ?_⟩
  refine List.forall_mem_cons.mpr ⟨⟨fun (x : StandardVariableSpecification) => (StandardVariableSpecification.writes x).appends, StandardVariableSpecification.loc.consumes⟩, ?_⟩
  refine List.forall_mem_cons.mpr ⟨⟨fun (x : SupplyQuantity) => (SupplyQuantity.writes x).appends, SupplyQuantity.fixed.local.consumes⟩, ?_⟩
  refine List.forall_mem_cons.mpr ⟨⟨fun (x : SystemId) => (SystemId.writes x).appends, SystemId.fixed.local.consumes⟩, ?_⟩
  refine List.forall_mem_cons.mpr ⟨⟨fun (x : TrackJamTarget) => (TrackJamTarget.writes x).appends, TrackJamTarget.fixed.local.consumes⟩, ?_⟩
  refine List.forall_mem_cons.mpr ⟨⟨fun (x : VariableDatumRecord) => (VariableDatumRecord.writes x).appends, VariableDatumRecord.loc.consumes⟩, ?_⟩
  refine List.forall_mem_cons.mpr ⟨⟨fun (x : VariableParameter) => (VariableParameter.writes x).appends, VariableParameter.fixed.local.consumes⟩, ?_⟩
  refine List.forall_mem_cons.mpr ⟨⟨fun (x : VariableTransmitterParameters) => (VariableTransmitterParameters.writes x).appends, VariableTransmitterParameters.loc.consumes⟩, ?_⟩
  refine List.forall_mem_cons.mpr ⟨⟨fun (x : Vector3Double) => (Vector3Double.writes x).appends, Vector3Double.fixed.local.consumes⟩, ?_⟩
  refine List.forall_mem_cons.mpr ⟨⟨fun (x : Vector3Float) => (Vector3Float.writes x).appends, Vector3Float.fixed.local.consumes⟩, ?_⟩
  refine List.forall_mem_cons.mpr ⟨⟨fun (x : VectoringNozzleSystemData) => (VectoringNozzleSystemData.writes x).appends, VectoringNozzleSystemData.fixed.local.consumes⟩, ?_⟩
  refine List.forall_mem_cons.mpr ⟨⟨fun (x : VelocityVector) => (VelocityVector.writes x).appends, VelocityVector.fixed.local.consumes⟩, ?_⟩
  refine List.forall_mem_cons.mpr ⟨⟨fun (x : WorldCoordinate) => (WorldCoordinate.writes x).appends, WorldCoordinate.fixed.local.consumes⟩, ?_⟩
  exact fun _ h => nomatch h

end Dis
