import Verif.Spec.ConstructorTable
import Verif.Proofs.Records
/- Generated by tools/gen_constructors.py. -/
set_option maxRecDepth 4000
namespace Dis

theorem made {α : Type} {p : Put} {g : Get α} {w w' : Bytes} {x : α} (h1 : Writes p w) (h2 : Reads g w x)
    (h : w = w') : Writes p w' ∧ Reads g w' x := h ▸ ⟨h1, h2⟩

theorem constructors_lawful : ∀ c ∈ constructors, ∀ a : c.Args,
    Writes (c.ser (c.make a)) (c.octets a) ∧ Reads c.de (c.octets a) (c.make a) := by
  unfold constructors
  refine List.forall_mem_cons.mpr ⟨fun ⟨a0, a1, a2, a3⟩ => made (AcousticBeamData.writes (AcousticBeamData.new a0 a1 a2 a3)) (AcousticBeamData.reads (AcousticBeamData.new a0 a1 a2 a3)) (rfl), ?_⟩
  refine List.forall_mem_cons.mpr ⟨fun ⟨a0, a1, a2, a3, a4, a5⟩ => made (AcousticBeamFundamentalParameter.writes (AcousticBeamFundamentalParameter.new a0 a1 a2 a3 a4 a5)) (AcousticBeamFundamentalParameter.reads (AcousticBeamFundamentalParameter.new a0 a1 a2 a3 a4 a5)) (rfl), ?_⟩
  refine List.forall_mem_cons.mpr ⟨fun ⟨a0, a1, a2⟩ => made (AcousticEmitterSystem.writes (AcousticEmitterSystem.new a0 a1 a2)) (AcousticEmitterSystem.reads (AcousticEmitterSystem.new a0 a1 a2)) (rfl), ?_⟩
  refine List.forall_mem_cons.mpr ⟨fun ⟨a0, a1, a2⟩ => made (AggregateId.writes (AggregateId.new a0 a1 a2)) (AggregateId.reads (AggregateId.new a0 a1 a2)) (rfl), ?_⟩
  refine List.forall_mem_cons.mpr ⟨fun ⟨a0, a1⟩ => made (AggregateMarking.writes (AggregateMarking.new a0 a1)) (AggregateMarking.reads (AggregateMarking.new a0 a1)) (rfl), ?_⟩
  refine List.forall_mem_cons.mpr ⟨fun ⟨a0, a1⟩ => made (ApaData.writes (ApaData.new a0 a1)) (ApaData.reads (ApaData.new a0 a1)) (rfl), ?_⟩
  refine List.forall_mem_cons.mpr ⟨fun ⟨a0, a1, a2, a3, a4⟩ => made (BeamData.writes (BeamData.new a0 a1 a2 a3 a4)) (BeamData.reads (BeamData.new a0 a1 a2 a3 a4)) (rfl), ?_⟩
  refine List.forall_mem_cons.mpr ⟨fun ⟨a0, a1⟩ => made (ClockTime.writes (ClockTime.new a0 a1)) (ClockTime.reads (ClockTime.new a0 a1)) (rfl), ?_⟩
  refine List.forall_mem_cons.mpr ⟨fun ⟨a0, a1, a2⟩ => made (DeadReckoningParameters.writes (DeadReckoningParameters.new a0 a1 a2)) (DeadReckoningParameters.reads (DeadReckoningParameters.new a0 a1 a2)) (by simp [wire, DeadReckoningParameters.new, SimulationAddress.new, sent] <;> rfl), ?_⟩
  refine List.forall_mem_cons.mpr ⟨fun ⟨a0, a1, a2, a3, a4, a5, a6, a7, a8, a9⟩ => made (DirectedEnergyDamage.writes (DirectedEnergyDamage.new a0 a1 a2 a3 a4 a5 a6 a7 a8 a9)) (DirectedEnergyDamage.reads (DirectedEnergyDamage.new a0 a1 a2 a3 a4 a5 a6 a7 a8 a9)) (rfl), ?_⟩
  refine List.forall_mem_cons.mpr ⟨fun ⟨a0, a1, a2⟩ => made (EmitterSystem.writes (EmitterSystem.new a0 a1 a2)) (EmitterSystem.reads (EmitterSystem.new a0 a1 a2)) (rfl), ?_⟩
  refine List.forall_mem_cons.mpr ⟨fun ⟨a0, a1, a2⟩ => made (EntityCoordinateVector.writes (EntityCoordinateVector.new a0 a1 a2)) (EntityCoordinateVector.reads (EntityCoordinateVector.new a0 a1 a2)) (rfl), ?_⟩
  refine List.forall_mem_cons.mpr ⟨fun ⟨a0, a1, a2⟩ => made (EntityId.writes (EntityId.new a0 a1 a2)) (EntityId.reads (EntityId.new a0 a1 a2)) (by simp [wire, EntityId.new, SimulationAddress.new, sent] <;> rfl), ?_⟩
  refine List.forall_mem_cons.mpr ⟨fun ⟨a0, a1, a2, a3, a4, a5, a6⟩ => made (EntityType.writes (EntityType.new a0 a1 a2 a3 a4 a5 a6)) (EntityType.reads (EntityType.new a0 a1 a2 a3 a4 a5 a6)) (rfl), ?_⟩
  refine List.forall_mem_cons.mpr ⟨fun ⟨a0, a1, a2, a3⟩ => made (Environment.writes (Environment.new a0 a1 a2 a3)) (Environment.reads (Environment.new a0 a1 a2 a3)) (rfl), ?_⟩
  refine List.forall_mem_cons.mpr ⟨fun ⟨a0, a1, a2⟩ => made (EulerAngles.writes (EulerAngles.new a0 a1 a2)) (EulerAngles.reads (EulerAngles.new a0 a1 a2)) (rfl), ?_⟩
  refine List.forall_mem_cons.mpr ⟨fun ⟨a0, a1, a2⟩ => made (EventId.writes (EventId.new a0 a1 a2)) (EventId.reads (EventId.new a0 a1 a2)) (by simp [wire, EventId.new, SimulationAddress.new, sent] <;> rfl), ?_⟩
  refine List.forall_mem_cons.mpr ⟨fun ⟨a0, a1, a2, a3, a4, a5, a6, a7, a8, a9⟩ => made (FundamentalOperationalData.writes (FundamentalOperationalData.new a0 a1 a2 a3 a4 a5 a6 a7 a8 a9)) (FundamentalOperationalData.reads (FundamentalOperationalData.new a0 a1 a2 a3 a4 a5 a6 a7 a8 a9)) (rfl), ?_⟩
  refine List.forall_mem_cons.mpr ⟨fun ⟨a0, a1, a2, a3, a4, a5, a6⟩ => made (IFFFundamentalParameterData.writes (IFFFundamentalParameterData.new a0 a1 a2 a3 a4 a5 a6)) (IFFFundamentalParameterData.reads (IFFFundamentalParameterData.new a0 a1 a2 a3 a4 a5 a6)) (rfl), ?_⟩
  refine List.forall_mem_cons.mpr ⟨fun ⟨a0, a1, a2⟩ => made (IntercomCommunicationsParameters.writes (IntercomCommunicationsParameters.new a0 a1 a2)) (IntercomCommunicationsParameters.reads (IntercomCommunicationsParameters.new a0 a1 a2)) (rfl), ?_⟩
  refine List.forall_mem_cons.mpr ⟨fun ⟨a0, a1, a2⟩ => made (LayerHeader.writes (LayerHeader.new a0 a1 a2)) (LayerHeader.reads (LayerHeader.new a0 a1 a2)) (rfl), ?_⟩
  refine List.forall_mem_cons.mpr ⟨fun ⟨a0, a1, a2⟩ => made (LinearAcceleration.writes (LinearAcceleration.new a0 a1 a2)) (LinearAcceleration.reads (LinearAcceleration.new a0 a1 a2)) (rfl), ?_⟩
  refine List.forall_mem_cons.mpr ⟨fun ⟨a0, a1, a2, a3, a4, a5, a6, a7, a8, a9⟩ => made (LinearSegmentParameter.writes (LinearSegmentParameter.new a0 a1 a2 a3 a4 a5 a6 a7 a8 a9)) (LinearSegmentParameter.reads (LinearSegmentParameter.new a0 a1 a2 a3 a4 a5 a6 a7 a8 a9)) (rfl), ?_⟩
  refine List.forall_mem_cons.mpr ⟨fun ⟨a0, a1, a2⟩ => made (LinearVelocity.writes (LinearVelocity.new a0 a1 a2)) (LinearVelocity.reads (LinearVelocity.new a0 a1 a2)) (rfl), ?_⟩
  refine List.forall_mem_cons.mpr ⟨fun ⟨a0, a1⟩ => made (MinefieldIdentifier.writes (MinefieldIdentifier.new a0 a1)) (MinefieldIdentifier.reads (MinefieldIdentifier.new a0 a1)) (rfl), ?_⟩
  refine List.forall_mem_cons.mpr ⟨fun ⟨a0, a1, a2, a3⟩ => made (ModulationType.writes (ModulationType.new a0 a1 a2 a3)) (ModulationType.reads (ModulationType.new a0 a1 a2 a3)) (rfl), ?_⟩
  refine List.forall_mem_cons.mpr ⟨fun ⟨a0, a1, a2, a3, a4⟩ => made (MunitionDescriptor.writes (MunitionDescriptor.new a0 a1 a2 a3 a4)) (MunitionDescriptor.reads (MunitionDescriptor.new a0 a1 a2 a3 a4)) (rfl), ?_⟩
  refine List.forall_mem_cons.mpr ⟨fun ⟨a0, a1⟩ => made (NamedLocation.writes (NamedLocation.new a0 a1)) (NamedLocation.reads (NamedLocation.new a0 a1)) (rfl), ?_⟩
  refine List.forall_mem_cons.mpr ⟨fun ⟨a0, a1, a2, a3⟩ => made (ObjectType.writes (ObjectType.new a0 a1 a2 a3)) (ObjectType.reads (ObjectType.new a0 a1 a2 a3)) (rfl), ?_⟩
  refine List.forall_mem_cons.mpr ⟨fun ⟨a0, a1⟩ => made (Point.writes (Point.new a0 a1)) (Point.reads (Point.new a0 a1)) (rfl), ?_⟩
  refine List.forall_mem_cons.mpr ⟨fun ⟨a0, a1⟩ => made (PropulsionSystemData.writes (PropulsionSystemData.new a0 a1)) (PropulsionSystemData.reads (PropulsionSystemData.new a0 a1)) (rfl), ?_⟩
  refine List.forall_mem_cons.mpr ⟨fun ⟨a0, a1, a2, a3, a4, a5⟩ => made (RadioEntityType.writes (RadioEntityType.new a0 a1 a2 a3 a4 a5)) (RadioEntityType.reads (RadioEntityType.new a0 a1 a2 a3 a4 a5)) (rfl), ?_⟩
  refine List.forall_mem_cons.mpr ⟨fun ⟨a0, a1⟩ => made (Relationship.writes (Relationship.new a0 a1)) (Relationship.reads (Relationship.new a0 a1)) (rfl), ?_⟩
  refine List.forall_mem_cons.mpr ⟨fun ⟨a0, a1, a2⟩ => made (SecondaryOperationalData.writes (SecondaryOperationalData.new a0 a1 a2)) (SecondaryOperationalData.reads (SecondaryOperationalData.new a0 a1 a2)) (rfl), ?_⟩
  refine List.forall_mem_cons.mpr ⟨fun ⟨a0, a1, a2⟩ => made (ShaftRPMs.writes (ShaftRPMs.new a0 a1 a2)) (ShaftRPMs.reads (ShaftRPMs.new a0 a1 a2)) (rfl), ?_⟩
  refine List.forall_mem_cons.mpr ⟨fun ⟨a0, a1⟩ => made (SimulationAddress.writes (SimulationAddress.new a0 a1)) (SimulationAddress.reads (SimulationAddress.new a0 a1)) (rfl), ?_⟩
  refine List.forall_mem_cons.mpr ⟨fun ⟨a0, a1⟩ => made (SupplyQuantity.writes (SupplyQuantity.new a0 a1)) (SupplyQuantity.reads (SupplyQuantity.new a0 a1)) (rfl), ?_⟩
  refine List.forall_mem_cons.mpr ⟨fun ⟨a0, a1, a2, a3⟩ => made (SystemId.writes (SystemId.new a0 a1 a2 a3)) (SystemId.reads (SystemId.new a0 a1 a2 a3)) (rfl), ?_⟩
  refine List.forall_mem_cons.mpr ⟨fun ⟨a0, a1, a2, a3, a4⟩ => made (VariableParameter.writes (VariableParameter.new a0 a1 a2 a3 a4)) (VariableParameter.reads (VariableParameter.new a0 a1 a2 a3 a4)) (rfl), ?_⟩
  refine List.forall_mem_cons.mpr ⟨fun ⟨a0, a1, a2⟩ => made (Vector3Double.writes (Vector3Double.new a0 a1 a2)) (Vector3Double.reads (Vector3Double.new a0 a1 a2)) (rfl), ?_⟩
  refine List.forall_mem_cons.mpr ⟨fun ⟨a0, a1, a2⟩ => made (Vector3Float.writes (Vector3Float.new a0 a1 a2)) (Vector3Float.reads (Vector3Float.new a0 a1 a2)) (rfl), ?_⟩
  refine List.forall_mem_cons.mpr ⟨fun ⟨a0, a1⟩ => made (VectoringNozzleSystemData.writes (VectoringNozzleSystemData.new a0 a1)) (VectoringNozzleSystemData.reads (VectoringNozzleSystemData.new a0 a1)) (rfl), ?_⟩
  refine List.forall_mem_cons.mpr ⟨fun ⟨a0, a1, a2⟩ => made (VelocityVector.writes (VelocityVector.new a0 a1 a2)) (VelocityVector.reads (VelocityVector.new a0 a1 a2)) (rfl), ?_⟩
  refine List.forall_mem_cons.mpr ⟨fun ⟨a0, a1, a2⟩ => made (WorldCoordinate.writes (WorldCoordinate.new a0 a1 a2)) (WorldCoordinate.reads (WorldCoordinate.new a0 a1 a2)) (rfl), ?_⟩
  exact fun _ h => nomatch h

end Dis
