import Verif.Proofs.Message
import Verif.Proofs.Pdus1
import Verif.Proofs.Pdus2
import Verif.Proofs.Pdus3
import Verif.Proofs.Pdus4
/- Generated by tools/gen_layout.py. -/
set_option maxRecDepth 8000
set_option linter.unusedSimpArgs false
namespace Dis

theorem ElectromagneticEmissionsPdu.ends (x : ElectromagneticEmissionsPdu) : EndsIn (wire (sent x)) 16 (x.rest) :=
    EndsIn.skip (a := 6) (EntityId.wire_length _) <|
    EndsIn.skip (a := 6) (EventId.wire_length _) <|
    EndsIn.skip (a := 1) (octets_length _ _) <|
    EndsIn.skip (a := 1) (octets_length _ _) <|
    EndsIn.skip (a := 2) (octets_length _ _) <|
    EndsIn.here (by
      simp only [ElectromagneticEmissionsPdu.rest, octetsOf_append, octetsOf_cons, octetsOf_nil, List.append_assoc, spelt_list ElectromagneticEmissionSystemData.spelt]
      rfl)

theorem DesignatorPdu.ends (x : DesignatorPdu) : EndsIn (wire (sent x)) 76 [] :=
    EndsIn.skip (a := 6) (EntityId.wire_length _) <|
    EndsIn.skip (a := 2) (octets_length _ _) <|
    EndsIn.skip (a := 6) (EntityId.wire_length _) <|
    EndsIn.skip (a := 2) (octets_length _ _) <|
    EndsIn.skip (a := 4) (octets_length _ _) <|
    EndsIn.skip (a := 4) (octets_length _ _) <|
    EndsIn.skip (a := 12) (EntityCoordinateVector.wire_length _) <|
    EndsIn.skip (a := 24) (WorldCoordinate.wire_length _) <|
    EndsIn.skip (a := 1) (octets_length _ _) <|
    EndsIn.skip (a := 1) (octets_length _ _) <|
    EndsIn.skip (a := 2) (octets_length _ _) <|
    EndsIn.last (LinearAcceleration.wire_length _)

theorem ShaftRPMs.spelt (x : ShaftRPMs) : Field.octetsOf (fieldsOf ShaftRPMs.layout x) = wire x :=
  spelt_fixed (T := ShaftRPMs.layout) (n := 8) (by decide) (ShaftRPMs.written x) (ShaftRPMs.wire_length x)

theorem ApaData.spelt (x : ApaData) : Field.octetsOf (fieldsOf ApaData.layout x) = wire x :=
  spelt_fixed (T := ApaData.layout) (n := 4) (by decide) (ApaData.written x) (ApaData.wire_length x)

theorem AcousticEmitterSystem.spelt (x : AcousticEmitterSystem) : Field.octetsOf (fieldsOf AcousticEmitterSystem.layout x) = wire x :=
  spelt_fixed (T := AcousticEmitterSystem.layout) (n := 4) (by decide) (AcousticEmitterSystem.written x) (AcousticEmitterSystem.wire_length x)

theorem UnderwaterAcousticPdu.ends (x : UnderwaterAcousticPdu) : EndsIn (wire (sent x)) 20 (x.rest) :=
    EndsIn.skip (a := 6) (EntityId.wire_length _) <|
    EndsIn.skip (a := 6) (EventId.wire_length _) <|
    EndsIn.skip (a := 1) (octets_length _ _) <|
    EndsIn.skip (a := 1) (octets_length _ _) <|
    EndsIn.skip (a := 2) (octets_length _ _) <|
    EndsIn.skip (a := 1) (octets_length _ _) <|
    EndsIn.skip (a := 1) (octets_length _ _) <|
    EndsIn.skip (a := 1) (octets_length _ _) <|
    EndsIn.skip (a := 1) (octets_length _ _) <|
    EndsIn.here (by
      simp only [UnderwaterAcousticPdu.rest, octetsOf_append, octetsOf_cons, octetsOf_nil, List.append_assoc, spelt_list ShaftRPMs.spelt, spelt_list ApaData.spelt, spelt_list AcousticEmitterSystem.spelt]
      rfl)

theorem IFFFundamentalParameterData.spelt (x : IFFFundamentalParameterData) : Field.octetsOf (fieldsOf IFFFundamentalParameterData.layout x) = wire x :=
  spelt_fixed (T := IFFFundamentalParameterData.layout) (n := 24) (by decide) (IFFFundamentalParameterData.written x) (IFFFundamentalParameterData.wire_length x)

theorem IFFPdu.ends (x : IFFPdu) : EndsIn (wire (sent x)) 76 (x.rest) :=
    EndsIn.skip (a := 6) (EntityId.wire_length _) <|
    EndsIn.skip (a := 6) (EventId.wire_length _) <|
    EndsIn.skip (a := 12) (EntityCoordinateVector.wire_length _) <|
    EndsIn.skip (a := 6) (SystemId.wire_length _) <|
    EndsIn.skip (a := 1) (octets_length _ _) <|
    EndsIn.skip (a := 1) (octets_length _ _) <|
    EndsIn.skip (a := 16) (FundamentalOperationalData.wire_length _) <|
    EndsIn.skip (a := 4) (LayerHeader.wire_length _) <|
    EndsIn.skip (a := 20) (BeamData.wire_length _) <|
    EndsIn.skip (a := 4) (SecondaryOperationalData.wire_length _) <|
    EndsIn.here (by
      simp only [IFFPdu.rest, octetsOf_append, octetsOf_cons, octetsOf_nil, List.append_assoc, spelt_list IFFFundamentalParameterData.spelt]
      rfl)

theorem PropulsionSystemData.spelt (x : PropulsionSystemData) : Field.octetsOf (fieldsOf PropulsionSystemData.layout x) = wire x :=
  spelt_fixed (T := PropulsionSystemData.layout) (n := 8) (by decide) (PropulsionSystemData.written x) (PropulsionSystemData.wire_length x)

theorem VectoringNozzleSystemData.spelt (x : VectoringNozzleSystemData) : Field.octetsOf (fieldsOf VectoringNozzleSystemData.layout x) = wire x :=
  spelt_fixed (T := VectoringNozzleSystemData.layout) (n := 8) (by decide) (VectoringNozzleSystemData.written x) (VectoringNozzleSystemData.wire_length x)

theorem SupplementalEmissionPdu.ends (x : SupplementalEmissionPdu) : EndsIn (wire (sent x)) 16 (x.rest) :=
    EndsIn.skip (a := 6) (EntityId.wire_length _) <|
    EndsIn.skip (a := 2) (octets_length _ _) <|
    EndsIn.skip (a := 2) (octets_length _ _) <|
    EndsIn.skip (a := 2) (octets_length _ _) <|
    EndsIn.skip (a := 2) (octets_length _ _) <|
    EndsIn.skip (a := 2) (octets_length _ _) <|
    EndsIn.here (by
      simp only [SupplementalEmissionPdu.rest, octetsOf_append, octetsOf_cons, octetsOf_nil, List.append_assoc, spelt_list PropulsionSystemData.spelt, spelt_list VectoringNozzleSystemData.spelt]
      rfl)

theorem VariableParameter.spelt (x : VariableParameter) : Field.octetsOf (fieldsOf VariableParameter.layout x) = wire x :=
  spelt_fixed (T := VariableParameter.layout) (n := 16) (by decide) (VariableParameter.written x) (VariableParameter.wire_length x)

theorem EntityStatePdu.ends (x : EntityStatePdu) : EndsIn (wire (sent x)) 117 (x.rest) :=
    EndsIn.skip (a := 6) (EntityId.wire_length _) <|
    EndsIn.skip (a := 1) (octets_length _ _) <|
    EndsIn.skip (a := 1) (octets_length _ _) <|
    EndsIn.skip (a := 8) (EntityType.wire_length _) <|
    EndsIn.skip (a := 8) (EntityType.wire_length _) <|
    EndsIn.skip (a := 12) (LinearVelocity.wire_length _) <|
    EndsIn.skip (a := 24) (WorldCoordinate.wire_length _) <|
    EndsIn.skip (a := 12) (EulerAngles.wire_length _) <|
    EndsIn.skip (a := 4) (octets_length _ _) <|
    EndsIn.skip (a := 40) (DeadReckoningParameters.wire_length _) <|
    EndsIn.into (a := 1) (octets_length _ _) <|
    EndsIn.here (by
      simp only [EntityStatePdu.rest, octetsOf_append, octetsOf_cons, octetsOf_nil, List.append_assoc, spelt_list VariableParameter.spelt, spelt_u8s, flatMap_wire_u8, List.nil_append]
      rfl)

theorem CollisionPdu.ends (x : CollisionPdu) : EndsIn (wire (sent x)) 48 [] :=
    EndsIn.skip (a := 6) (EntityId.wire_length _) <|
    EndsIn.skip (a := 6) (EntityId.wire_length _) <|
    EndsIn.skip (a := 6) (EventId.wire_length _) <|
    EndsIn.skip (a := 1) (octets_length _ _) <|
    EndsIn.skip (a := 1) (octets_length _ _) <|
    EndsIn.skip (a := 12) (LinearVelocity.wire_length _) <|
    EndsIn.skip (a := 4) (octets_length _ _) <|
    EndsIn.last (EntityCoordinateVector.wire_length _)

theorem CollisionElasticPdu.ends (x : CollisionElasticPdu) : EndsIn (wire (sent x)) 88 [] :=
    EndsIn.skip (a := 6) (EntityId.wire_length _) <|
    EndsIn.skip (a := 6) (EntityId.wire_length _) <|
    EndsIn.skip (a := 6) (EventId.wire_length _) <|
    EndsIn.skip (a := 2) (octets_length _ _) <|
    EndsIn.skip (a := 12) (LinearVelocity.wire_length _) <|
    EndsIn.skip (a := 4) (octets_length _ _) <|
    EndsIn.skip (a := 12) (EntityCoordinateVector.wire_length _) <|
    EndsIn.skip (a := 4) (octets_length _ _) <|
    EndsIn.skip (a := 4) (octets_length _ _) <|
    EndsIn.skip (a := 4) (octets_length _ _) <|
    EndsIn.skip (a := 4) (octets_length _ _) <|
    EndsIn.skip (a := 4) (octets_length _ _) <|
    EndsIn.skip (a := 4) (octets_length _ _) <|
    EndsIn.skip (a := 12) (EntityCoordinateVector.wire_length _) <|
    EndsIn.last (octets_length _ _)

theorem EntityStateUpdatePdu.ends (x : EntityStateUpdatePdu) : EndsIn (wire (sent x)) 60 (x.rest) :=
    EndsIn.skip (a := 6) (EntityId.wire_length _) <|
    EndsIn.skip (a := 1) (octets_length _ _) <|
    EndsIn.skip (a := 1) (octets_length _ _) <|
    EndsIn.skip (a := 12) (LinearVelocity.wire_length _) <|
    EndsIn.skip (a := 24) (WorldCoordinate.wire_length _) <|
    EndsIn.skip (a := 12) (EulerAngles.wire_length _) <|
    EndsIn.skip (a := 4) (octets_length _ _) <|
    EndsIn.here (by
      simp only [EntityStateUpdatePdu.rest, octetsOf_append, octetsOf_cons, octetsOf_nil, List.append_assoc, spelt_list VariableParameter.spelt]
      rfl)

theorem AttributePdu.ends (x : AttributePdu) : EndsIn (wire (sent x)) 20 (x.rest) :=
    EndsIn.skip (a := 4) (SimulationAddress.wire_length _) <|
    EndsIn.skip (a := 4) (octets_length _ _) <|
    EndsIn.skip (a := 2) (octets_length _ _) <|
    EndsIn.skip (a := 1) (octets_length _ _) <|
    EndsIn.skip (a := 1) (octets_length _ _) <|
    EndsIn.skip (a := 4) (octets_length _ _) <|
    EndsIn.skip (a := 1) (octets_length _ _) <|
    EndsIn.skip (a := 1) (octets_length _ _) <|
    EndsIn.skip (a := 2) (octets_length _ _) <|
    EndsIn.here (by
      simp only [AttributePdu.rest, octetsOf_append, octetsOf_cons, octetsOf_nil, List.append_assoc, spelt_list AttributeRecordSet.spelt]
      rfl)

theorem AggregateId.spelt (x : AggregateId) : Field.octetsOf (fieldsOf AggregateId.layout x) = wire x :=
  spelt_fixed (T := AggregateId.layout) (n := 6) (by decide) (AggregateId.written x) (AggregateId.wire_length x)

theorem EntityId.spelt (x : EntityId) : Field.octetsOf (fieldsOf EntityId.layout x) = wire x :=
  spelt_fixed (T := EntityId.layout) (n := 6) (by decide) (EntityId.written x) (EntityId.wire_length x)

theorem EntityType.spelt (x : EntityType) : Field.octetsOf (fieldsOf EntityType.layout x) = wire x :=
  spelt_fixed (T := EntityType.layout) (n := 8) (by decide) (EntityType.written x) (EntityType.wire_length x)

theorem AggregateStatePdu.ends (x : AggregateStatePdu) : EndsIn (wire (sent x)) 120 (x.rest) :=
    EndsIn.skip (a := 6) (AggregateId.wire_length _) <|
    EndsIn.skip (a := 1) (octets_length _ _) <|
    EndsIn.skip (a := 1) (octets_length _ _) <|
    EndsIn.skip (a := 8) (EntityType.wire_length _) <|
    EndsIn.skip (a := 4) (octets_length _ _) <|
    EndsIn.skip (a := 32) (AggregateMarking.wire_length _) <|
    EndsIn.skip (a := 12) (Vector3Float.wire_length _) <|
    EndsIn.skip (a := 12) (EulerAngles.wire_length _) <|
    EndsIn.skip (a := 24) (WorldCoordinate.wire_length _) <|
    EndsIn.skip (a := 12) (LinearVelocity.wire_length _) <|
    EndsIn.skip (a := 2) (octets_length _ _) <|
    EndsIn.skip (a := 2) (octets_length _ _) <|
    EndsIn.skip (a := 2) (octets_length _ _) <|
    EndsIn.skip (a := 2) (octets_length _ _) <|
    EndsIn.here (by
      simp only [AggregateStatePdu.rest, octetsOf_append, octetsOf_cons, octetsOf_nil, List.append_assoc, spelt_list AggregateId.spelt, spelt_list EntityId.spelt, spelt_u8s, spelt_list EntityType.spelt, spelt_sent VariableDatumRecord.spelt]
      rfl)

theorem IsGroupOfPdu.ends (x : IsGroupOfPdu) : EndsIn (wire (sent x)) 28 (x.rest) :=
    EndsIn.skip (a := 6) (EntityId.wire_length _) <|
    EndsIn.skip (a := 1) (octets_length _ _) <|
    EndsIn.skip (a := 1) (octets_length _ _) <|
    EndsIn.skip (a := 4) (octets_length _ _) <|
    EndsIn.skip (a := 8) (octets_length _ _) <|
    EndsIn.skip (a := 8) (octets_length _ _) <|
    EndsIn.here (by
      simp only [IsGroupOfPdu.rest, octetsOf_append, octetsOf_cons, octetsOf_nil, List.append_assoc, spelt_u64s]
      rfl)

theorem TransferOwnershipPdu.ends (x : TransferOwnershipPdu) : EndsIn (wire (sent x)) 28 (x.rest) :=
    EndsIn.skip (a := 6) (SimulationIdentifier.wire_length _) <|
    EndsIn.skip (a := 6) (SimulationIdentifier.wire_length _) <|
    EndsIn.skip (a := 4) (octets_length _ _) <|
    EndsIn.skip (a := 1) (octets_length _ _) <|
    EndsIn.skip (a := 1) (octets_length _ _) <|
    EndsIn.skip (a := 6) (EntityId.wire_length _) <|
    EndsIn.skip (a := 4) (octets_length _ _) <|
    EndsIn.here (by
      simp only [TransferOwnershipPdu.rest, octetsOf_append, octetsOf_cons, octetsOf_nil, List.append_assoc, spelt_sent RecordSpecificationElement.spelt]
      rfl)

theorem IsPartOfPdu.ends (x : IsPartOfPdu) : EndsIn (wire (sent x)) 40 [] :=
    EndsIn.skip (a := 6) (EntityId.wire_length _) <|
    EndsIn.skip (a := 6) (EntityId.wire_length _) <|
    EndsIn.skip (a := 4) (Relationship.wire_length _) <|
    EndsIn.skip (a := 12) (Vector3Float.wire_length _) <|
    EndsIn.skip (a := 4) (NamedLocation.wire_length _) <|
    EndsIn.last (EntityType.wire_length _)

theorem InformationOperationsReportPdu.ends (x : InformationOperationsReportPdu) : EndsIn (wire (sent x)) 28 (x.rest) :=
    EndsIn.skip (a := 6) (SimulationIdentifier.wire_length _) <|
    EndsIn.skip (a := 2) (octets_length _ _) <|
    EndsIn.skip (a := 1) (octets_length _ _) <|
    EndsIn.skip (a := 1) (octets_length _ _) <|
    EndsIn.skip (a := 6) (EntityId.wire_length _) <|
    EndsIn.skip (a := 6) (EntityId.wire_length _) <|
    EndsIn.skip (a := 2) (octets_length _ _) <|
    EndsIn.skip (a := 2) (octets_length _ _) <|
    EndsIn.skip (a := 2) (octets_length _ _) <|
    EndsIn.here (by
      simp only [InformationOperationsReportPdu.rest, octetsOf_append, octetsOf_cons, octetsOf_nil, List.append_assoc, spelt_list StandardVariableRecords.spelt]
      rfl)

theorem InformationOperationsActionPdu.ends (x : InformationOperationsActionPdu) : EndsIn (wire (sent x)) 44 (x.rest) :=
    EndsIn.skip (a := 6) (SimulationIdentifier.wire_length _) <|
    EndsIn.skip (a := 6) (SimulationIdentifier.wire_length _) <|
    EndsIn.skip (a := 4) (octets_length _ _) <|
    EndsIn.skip (a := 2) (octets_length _ _) <|
    EndsIn.skip (a := 2) (octets_length _ _) <|
    EndsIn.skip (a := 2) (octets_length _ _) <|
    EndsIn.skip (a := 2) (octets_length _ _) <|
    EndsIn.skip (a := 4) (octets_length _ _) <|
    EndsIn.skip (a := 6) (EntityId.wire_length _) <|
    EndsIn.skip (a := 6) (EntityId.wire_length _) <|
    EndsIn.skip (a := 2) (octets_length _ _) <|
    EndsIn.skip (a := 2) (octets_length _ _) <|
    EndsIn.here (by
      simp only [InformationOperationsActionPdu.rest, octetsOf_append, octetsOf_cons, octetsOf_nil, List.append_assoc, spelt_list StandardVariableRecords.spelt]
      rfl)

theorem SupplyQuantity.spelt (x : SupplyQuantity) : Field.octetsOf (fieldsOf SupplyQuantity.layout x) = wire x :=
  spelt_fixed (T := SupplyQuantity.layout) (n := 12) (by decide) (SupplyQuantity.written x) (SupplyQuantity.wire_length x)

theorem ServiceRequestPdu.ends (x : ServiceRequestPdu) : EndsIn (wire (sent x)) 16 (x.rest) :=
    EndsIn.skip (a := 6) (EntityId.wire_length _) <|
    EndsIn.skip (a := 6) (EntityId.wire_length _) <|
    EndsIn.skip (a := 1) (octets_length _ _) <|
    EndsIn.skip (a := 1) (octets_length _ _) <|
    EndsIn.skip (a := 2) (octets_length _ _) <|
    EndsIn.here (by
      simp only [ServiceRequestPdu.rest, octetsOf_append, octetsOf_cons, octetsOf_nil, List.append_assoc, spelt_list SupplyQuantity.spelt]
      rfl)

theorem ResupplyOfferPdu.ends (x : ResupplyOfferPdu) : EndsIn (wire (sent x)) 16 (x.rest) :=
    EndsIn.skip (a := 6) (EntityId.wire_length _) <|
    EndsIn.skip (a := 6) (EntityId.wire_length _) <|
    EndsIn.skip (a := 1) (octets_length _ _) <|
    EndsIn.skip (a := 1) (octets_length _ _) <|
    EndsIn.skip (a := 2) (octets_length _ _) <|
    EndsIn.here (by
      simp only [ResupplyOfferPdu.rest, octetsOf_append, octetsOf_cons, octetsOf_nil, List.append_assoc, spelt_list SupplyQuantity.spelt]
      rfl)

theorem ResupplyReceivedPdu.ends (x : ResupplyReceivedPdu) : EndsIn (wire (sent x)) 16 (x.rest) :=
    EndsIn.skip (a := 6) (EntityId.wire_length _) <|
    EndsIn.skip (a := 6) (EntityId.wire_length _) <|
    EndsIn.skip (a := 1) (octets_length _ _) <|
    EndsIn.skip (a := 1) (octets_length _ _) <|
    EndsIn.skip (a := 2) (octets_length _ _) <|
    EndsIn.here (by
      simp only [ResupplyReceivedPdu.rest, octetsOf_append, octetsOf_cons, octetsOf_nil, List.append_assoc, spelt_list SupplyQuantity.spelt]
      rfl)

theorem ResupplyCancelPdu.ends (x : ResupplyCancelPdu) : EndsIn (wire (sent x)) 12 [] :=
    EndsIn.skip (a := 6) (EntityId.wire_length _) <|
    EndsIn.last (EntityId.wire_length _)

theorem RepairCompletePdu.ends (x : RepairCompletePdu) : EndsIn (wire (sent x)) 16 [] :=
    EndsIn.skip (a := 6) (EntityId.wire_length _) <|
    EndsIn.skip (a := 6) (EntityId.wire_length _) <|
    EndsIn.skip (a := 2) (octets_length _ _) <|
    EndsIn.last (octets_length _ _)

theorem RepairResponsePdu.ends (x : RepairResponsePdu) : EndsIn (wire (sent x)) 16 [] :=
    EndsIn.skip (a := 6) (EntityId.wire_length _) <|
    EndsIn.skip (a := 6) (EntityId.wire_length _) <|
    EndsIn.skip (a := 1) (octets_length _ _) <|
    EndsIn.skip (a := 1) (octets_length _ _) <|
    EndsIn.last (octets_length _ _)

theorem Point.spelt (x : Point) : Field.octetsOf (fieldsOf Point.layout x) = wire x :=
  spelt_fixed (T := Point.layout) (n := 8) (by decide) (Point.written x) (Point.wire_length x)

theorem MinefieldStatePdu.ends (x : MinefieldStatePdu) : EndsIn (wire (sent x)) 60 (x.rest) :=
    EndsIn.skip (a := 6) (MinefieldIdentifier.wire_length _) <|
    EndsIn.skip (a := 2) (octets_length _ _) <|
    EndsIn.skip (a := 1) (octets_length _ _) <|
    EndsIn.skip (a := 1) (octets_length _ _) <|
    EndsIn.skip (a := 8) (EntityType.wire_length _) <|
    EndsIn.skip (a := 2) (octets_length _ _) <|
    EndsIn.skip (a := 24) (WorldCoordinate.wire_length _) <|
    EndsIn.skip (a := 12) (EulerAngles.wire_length _) <|
    EndsIn.skip (a := 2) (octets_length _ _) <|
    EndsIn.skip (a := 2) (octets_length _ _) <|
    EndsIn.here (by
      simp only [MinefieldStatePdu.rest, octetsOf_append, octetsOf_cons, octetsOf_nil, List.append_assoc, spelt_list Point.spelt, spelt_list EntityType.spelt]
      rfl)

theorem MinefieldQueryPdu.ends (x : MinefieldQueryPdu) : EndsIn (wire (sent x)) 28 (x.rest) :=
    EndsIn.skip (a := 6) (MinefieldIdentifier.wire_length _) <|
    EndsIn.skip (a := 6) (EntityId.wire_length _) <|
    EndsIn.skip (a := 1) (octets_length _ _) <|
    EndsIn.skip (a := 1) (octets_length _ _) <|
    EndsIn.skip (a := 1) (octets_length _ _) <|
    EndsIn.skip (a := 1) (octets_length _ _) <|
    EndsIn.skip (a := 4) (octets_length _ _) <|
    EndsIn.skip (a := 8) (EntityType.wire_length _) <|
    EndsIn.here (by
      simp only [MinefieldQueryPdu.rest, octetsOf_append, octetsOf_cons, octetsOf_nil, List.append_assoc, spelt_list Point.spelt, spelt_enums (s := MinefieldSensorTypes.spec) (n := 1) rfl]
      rfl)

theorem EntityCoordinateVector.spelt (x : EntityCoordinateVector) : Field.octetsOf (fieldsOf EntityCoordinateVector.layout x) = wire x :=
  spelt_fixed (T := EntityCoordinateVector.layout) (n := 12) (by decide) (EntityCoordinateVector.written x) (EntityCoordinateVector.wire_length x)

theorem EulerAngles.spelt (x : EulerAngles) : Field.octetsOf (fieldsOf EulerAngles.layout x) = wire x :=
  spelt_fixed (T := EulerAngles.layout) (n := 12) (by decide) (EulerAngles.written x) (EulerAngles.wire_length x)

theorem ClockTime.spelt (x : ClockTime) : Field.octetsOf (fieldsOf ClockTime.layout x) = wire x :=
  spelt_fixed (T := ClockTime.layout) (n := 8) (by decide) (ClockTime.written x) (ClockTime.wire_length x)

theorem MinefieldDataPdu.ends (x : MinefieldDataPdu) : EndsIn (wire (sent x)) 32 (x.rest) :=
    EndsIn.skip (a := 6) (MinefieldIdentifier.wire_length _) <|
    EndsIn.skip (a := 6) (EntityId.wire_length _) <|
    EndsIn.skip (a := 2) (octets_length _ _) <|
    EndsIn.skip (a := 1) (octets_length _ _) <|
    EndsIn.skip (a := 1) (octets_length _ _) <|
    EndsIn.skip (a := 1) (octets_length _ _) <|
    EndsIn.skip (a := 1) (octets_length _ _) <|
    EndsIn.skip (a := 1) (octets_length _ _) <|
    EndsIn.skip (a := 1) (octets_length _ _) <|
    EndsIn.skip (a := 4) (octets_length _ _) <|
    EndsIn.skip (a := 8) (EntityType.wire_length _) <|
    EndsIn.here (by
      simp only [MinefieldDataPdu.rest, octetsOf_append, octetsOf_cons, octetsOf_nil, List.append_assoc, spelt_enums (s := MinefieldSensorTypes.spec) (n := 1) rfl, spelt_list EntityCoordinateVector.spelt, spelt_present_f32, spelt_present EulerAngles.spelt, spelt_present ClockTime.spelt, spelt_present_u16, spelt_present_u8, spelt_present (spelt_list EntityCoordinateVector.spelt)]
      rfl)

theorem MinefieldResponseNackPdu.ends (x : MinefieldResponseNackPdu) : EndsIn (wire (sent x)) 14 (x.rest) :=
    EndsIn.skip (a := 6) (EntityId.wire_length _) <|
    EndsIn.skip (a := 6) (EntityId.wire_length _) <|
    EndsIn.skip (a := 1) (octets_length _ _) <|
    EndsIn.skip (a := 1) (octets_length _ _) <|
    EndsIn.here (by
      simp only [MinefieldResponseNackPdu.rest, octetsOf_append, octetsOf_cons, octetsOf_nil, List.append_assoc, spelt_u64s]
      rfl)

theorem TransmitterPdu.ends (x : TransmitterPdu) : EndsIn (wire (sent x)) 92 (x.rest) :=
    EndsIn.skip (a := 6) (EntityId.wire_length _) <|
    EndsIn.skip (a := 2) (octets_length _ _) <|
    EndsIn.skip (a := 8) (RadioEntityType.wire_length _) <|
    EndsIn.skip (a := 1) (octets_length _ _) <|
    EndsIn.skip (a := 1) (octets_length _ _) <|
    EndsIn.skip (a := 2) (octets_length _ _) <|
    EndsIn.skip (a := 24) (WorldCoordinate.wire_length _) <|
    EndsIn.skip (a := 12) (EntityCoordinateVector.wire_length _) <|
    EndsIn.skip (a := 2) (octets_length _ _) <|
    EndsIn.skip (a := 2) (octets_length _ _) <|
    EndsIn.skip (a := 8) (octets_length _ _) <|
    EndsIn.skip (a := 4) (octets_length _ _) <|
    EndsIn.skip (a := 4) (octets_length _ _) <|
    EndsIn.skip (a := 8) (ModulationType.wire_length _) <|
    EndsIn.skip (a := 2) (octets_length _ _) <|
    EndsIn.skip (a := 2) (octets_length _ _) <|
    EndsIn.skip (a := 1) (octets_length _ _) <|
    EndsIn.skip (a := 1) (octets_length _ _) <|
    EndsIn.skip (a := 2) (octets_length _ _) <|
    EndsIn.here (by
      simp only [TransmitterPdu.rest, octetsOf_append, octetsOf_cons, octetsOf_nil, List.append_assoc, spelt_present (α := ModulationParameters) (fun v => (spelt_u8s v.record_specific_fields :)), spelt_present (α := AntennaPattern) (fun v => (spelt_u8s v.record_specific_fields :)), spelt_list VariableTransmitterParameters.spelt, List.flatMap_cons, List.flatMap_nil, List.append_nil]
      rfl)

theorem SignalPdu.ends (x : SignalPdu) : EndsIn (wire (sent x)) 20 (x.rest) :=
    EndsIn.skip (a := 6) (EntityId.wire_length _) <|
    EndsIn.skip (a := 2) (octets_length _ _) <|
    EndsIn.skip (a := 2) (octets_length _ _) <|
    EndsIn.skip (a := 2) (octets_length _ _) <|
    EndsIn.skip (a := 4) (octets_length _ _) <|
    EndsIn.skip (a := 2) (octets_length _ _) <|
    EndsIn.skip (a := 2) (octets_length _ _) <|
    EndsIn.here (by
      simp only [SignalPdu.rest, octetsOf_append, octetsOf_cons, octetsOf_nil, List.append_assoc, spelt_u8s]
      rfl)

theorem ReceiverPdu.ends (x : ReceiverPdu) : EndsIn (wire (sent x)) 24 [] :=
    EndsIn.skip (a := 6) (EntityId.wire_length _) <|
    EndsIn.skip (a := 2) (octets_length _ _) <|
    EndsIn.skip (a := 2) (octets_length _ _) <|
    EndsIn.skip (a := 2) (octets_length _ _) <|
    EndsIn.skip (a := 4) (octets_length _ _) <|
    EndsIn.skip (a := 6) (EntityId.wire_length _) <|
    EndsIn.last (octets_length _ _)

theorem IntercomSignalPdu.ends (x : IntercomSignalPdu) : EndsIn (wire (sent x)) 20 (x.rest) :=
    EndsIn.skip (a := 6) (EntityId.wire_length _) <|
    EndsIn.skip (a := 2) (octets_length _ _) <|
    EndsIn.skip (a := 2) (octets_length _ _) <|
    EndsIn.skip (a := 2) (octets_length _ _) <|
    EndsIn.skip (a := 4) (octets_length _ _) <|
    EndsIn.skip (a := 2) (octets_length _ _) <|
    EndsIn.skip (a := 2) (octets_length _ _) <|
    EndsIn.here (by
      simp only [IntercomSignalPdu.rest, octetsOf_append, octetsOf_cons, octetsOf_nil, List.append_assoc, spelt_u8s]
      rfl)

theorem IntercomCommunicationsParameters.spelt (x : IntercomCommunicationsParameters) : Field.octetsOf (fieldsOf IntercomCommunicationsParameters.layout x) = wire x :=
  spelt_fixed (T := IntercomCommunicationsParameters.layout) (n := 8) (by decide) (IntercomCommunicationsParameters.written x) (IntercomCommunicationsParameters.wire_length x)

theorem IntercomControlPdu.ends (x : IntercomControlPdu) : EndsIn (wire (sent x)) 28 (x.rest) :=
    EndsIn.skip (a := 1) (octets_length _ _) <|
    EndsIn.skip (a := 1) (octets_length _ _) <|
    EndsIn.skip (a := 6) (EntityId.wire_length _) <|
    EndsIn.skip (a := 2) (octets_length _ _) <|
    EndsIn.skip (a := 1) (octets_length _ _) <|
    EndsIn.skip (a := 1) (octets_length _ _) <|
    EndsIn.skip (a := 1) (octets_length _ _) <|
    EndsIn.skip (a := 1) (octets_length _ _) <|
    EndsIn.skip (a := 6) (EntityId.wire_length _) <|
    EndsIn.skip (a := 2) (octets_length _ _) <|
    EndsIn.skip (a := 2) (octets_length _ _) <|
    EndsIn.skip (a := 4) (octets_length _ _) <|
    EndsIn.here (by
      simp only [IntercomControlPdu.rest, octetsOf_append, octetsOf_cons, octetsOf_nil, List.append_assoc, spelt_list IntercomCommunicationsParameters.spelt]
      rfl)

theorem CreateEntityPdu.ends (x : CreateEntityPdu) : EndsIn (wire (sent x)) 16 [] :=
    EndsIn.skip (a := 6) (EntityId.wire_length _) <|
    EndsIn.skip (a := 6) (EntityId.wire_length _) <|
    EndsIn.last (octets_length _ _)

theorem RemoveEntityPdu.ends (x : RemoveEntityPdu) : EndsIn (wire (sent x)) 16 [] :=
    EndsIn.skip (a := 6) (EntityId.wire_length _) <|
    EndsIn.skip (a := 6) (EntityId.wire_length _) <|
    EndsIn.last (octets_length _ _)

theorem StartResumePdu.ends (x : StartResumePdu) : EndsIn (wire (sent x)) 32 [] :=
    EndsIn.skip (a := 6) (EntityId.wire_length _) <|
    EndsIn.skip (a := 6) (EntityId.wire_length _) <|
    EndsIn.skip (a := 8) (ClockTime.wire_length _) <|
    EndsIn.skip (a := 8) (ClockTime.wire_length _) <|
    EndsIn.last (octets_length _ _)

theorem StopFreezePdu.ends (x : StopFreezePdu) : EndsIn (wire (sent x)) 28 [] :=
    EndsIn.skip (a := 6) (EntityId.wire_length _) <|
    EndsIn.skip (a := 6) (EntityId.wire_length _) <|
    EndsIn.skip (a := 8) (ClockTime.wire_length _) <|
    EndsIn.skip (a := 1) (octets_length _ _) <|
    EndsIn.skip (a := 1) (octets_length _ _) <|
    EndsIn.skip (a := 2) (octets_length _ _) <|
    EndsIn.last (octets_length _ _)

theorem AcknowledgePdu.ends (x : AcknowledgePdu) : EndsIn (wire (sent x)) 20 [] :=
    EndsIn.skip (a := 6) (EntityId.wire_length _) <|
    EndsIn.skip (a := 6) (EntityId.wire_length _) <|
    EndsIn.skip (a := 2) (octets_length _ _) <|
    EndsIn.skip (a := 2) (octets_length _ _) <|
    EndsIn.last (octets_length _ _)

theorem FixedDatumRecord.spelt (x : FixedDatumRecord) : Field.octetsOf (fieldsOf FixedDatumRecord.layout x) = wire x :=
  spelt_fixed (T := FixedDatumRecord.layout) (n := 8) (by decide) (FixedDatumRecord.written x) (FixedDatumRecord.wire_length x)

theorem ActionRequestPdu.ends (x : ActionRequestPdu) : EndsIn (wire (sent x)) 28 (datums x.fixed_datum_records x.variable_datum_records) :=
    EndsIn.skip (a := 6) (EntityId.wire_length _) <|
    EndsIn.skip (a := 6) (EntityId.wire_length _) <|
    EndsIn.skip (a := 4) (octets_length _ _) <|
    EndsIn.skip (a := 4) (octets_length _ _) <|
    EndsIn.skip (a := 4) (octets_length _ _) <|
    EndsIn.skip (a := 4) (octets_length _ _) <|
    EndsIn.here (by
      simp only [datums, octetsOf_append, octetsOf_cons, octetsOf_nil, List.append_assoc, spelt_list FixedDatumRecord.spelt, spelt_sent VariableDatumRecord.spelt]
      rfl)

theorem ActionResponsePdu.ends (x : ActionResponsePdu) : EndsIn (wire (sent x)) 28 (datums x.fixed_datum_records x.variable_datum_records) :=
    EndsIn.skip (a := 6) (EntityId.wire_length _) <|
    EndsIn.skip (a := 6) (EntityId.wire_length _) <|
    EndsIn.skip (a := 4) (octets_length _ _) <|
    EndsIn.skip (a := 4) (octets_length _ _) <|
    EndsIn.skip (a := 4) (octets_length _ _) <|
    EndsIn.skip (a := 4) (octets_length _ _) <|
    EndsIn.here (by
      simp only [datums, octetsOf_append, octetsOf_cons, octetsOf_nil, List.append_assoc, spelt_list FixedDatumRecord.spelt, spelt_sent VariableDatumRecord.spelt]
      rfl)

theorem DataQueryPdu.ends (x : DataQueryPdu) : EndsIn (wire (sent x)) 28 (datums x.fixed_datum_records x.variable_datum_records) :=
    EndsIn.skip (a := 6) (EntityId.wire_length _) <|
    EndsIn.skip (a := 6) (EntityId.wire_length _) <|
    EndsIn.skip (a := 4) (octets_length _ _) <|
    EndsIn.skip (a := 4) (octets_length _ _) <|
    EndsIn.skip (a := 4) (octets_length _ _) <|
    EndsIn.skip (a := 4) (octets_length _ _) <|
    EndsIn.here (by
      simp only [datums, octetsOf_append, octetsOf_cons, octetsOf_nil, List.append_assoc, spelt_list FixedDatumRecord.spelt, spelt_sent VariableDatumRecord.spelt]
      rfl)

theorem SetDataPdu.ends (x : SetDataPdu) : EndsIn (wire (sent x)) 28 (datums x.fixed_datum_records x.variable_datum_records) :=
    EndsIn.skip (a := 6) (EntityId.wire_length _) <|
    EndsIn.skip (a := 6) (EntityId.wire_length _) <|
    EndsIn.skip (a := 4) (octets_length _ _) <|
    EndsIn.skip (a := 4) (octets_length _ _) <|
    EndsIn.skip (a := 4) (octets_length _ _) <|
    EndsIn.skip (a := 4) (octets_length _ _) <|
    EndsIn.here (by
      simp only [datums, octetsOf_append, octetsOf_cons, octetsOf_nil, List.append_assoc, spelt_list FixedDatumRecord.spelt, spelt_sent VariableDatumRecord.spelt]
      rfl)

theorem DataPdu.ends (x : DataPdu) : EndsIn (wire (sent x)) 28 (datums x.fixed_datum_records x.variable_datum_records) :=
    EndsIn.skip (a := 6) (EntityId.wire_length _) <|
    EndsIn.skip (a := 6) (EntityId.wire_length _) <|
    EndsIn.skip (a := 4) (octets_length _ _) <|
    EndsIn.skip (a := 4) (octets_length _ _) <|
    EndsIn.skip (a := 4) (octets_length _ _) <|
    EndsIn.skip (a := 4) (octets_length _ _) <|
    EndsIn.here (by
      simp only [datums, octetsOf_append, octetsOf_cons, octetsOf_nil, List.append_assoc, spelt_list FixedDatumRecord.spelt, spelt_sent VariableDatumRecord.spelt]
      rfl)

theorem EventReportPdu.ends (x : EventReportPdu) : EndsIn (wire (sent x)) 28 (datums x.fixed_datum_records x.variable_datum_records) :=
    EndsIn.skip (a := 6) (EntityId.wire_length _) <|
    EndsIn.skip (a := 6) (EntityId.wire_length _) <|
    EndsIn.skip (a := 4) (octets_length _ _) <|
    EndsIn.skip (a := 4) (octets_length _ _) <|
    EndsIn.skip (a := 4) (octets_length _ _) <|
    EndsIn.skip (a := 4) (octets_length _ _) <|
    EndsIn.here (by
      simp only [datums, octetsOf_append, octetsOf_cons, octetsOf_nil, List.append_assoc, spelt_list FixedDatumRecord.spelt, spelt_sent VariableDatumRecord.spelt]
      rfl)

theorem CommentPdu.ends (x : CommentPdu) : EndsIn (wire (sent x)) 20 (datums x.fixed_datum_records x.variable_datum_records) :=
    EndsIn.skip (a := 6) (EntityId.wire_length _) <|
    EndsIn.skip (a := 6) (EntityId.wire_length _) <|
    EndsIn.skip (a := 4) (octets_length _ _) <|
    EndsIn.skip (a := 4) (octets_length _ _) <|
    EndsIn.here (by
      simp only [datums, octetsOf_append, octetsOf_cons, octetsOf_nil, List.append_assoc, spelt_list FixedDatumRecord.spelt, spelt_sent VariableDatumRecord.spelt]
      rfl)

theorem CreateEntityReliablePdu.ends (x : CreateEntityReliablePdu) : EndsIn (wire (sent x)) 20 [] :=
    EndsIn.skip (a := 6) (EntityId.wire_length _) <|
    EndsIn.skip (a := 6) (EntityId.wire_length _) <|
    EndsIn.skip (a := 1) (octets_length _ _) <|
    EndsIn.skip (a := 1) (octets_length _ _) <|
    EndsIn.skip (a := 2) (octets_length _ _) <|
    EndsIn.last (octets_length _ _)

theorem RemoveEntityReliablePdu.ends (x : RemoveEntityReliablePdu) : EndsIn (wire (sent x)) 20 [] :=
    EndsIn.skip (a := 6) (EntityId.wire_length _) <|
    EndsIn.skip (a := 6) (EntityId.wire_length _) <|
    EndsIn.skip (a := 1) (octets_length _ _) <|
    EndsIn.skip (a := 1) (octets_length _ _) <|
    EndsIn.skip (a := 2) (octets_length _ _) <|
    EndsIn.last (octets_length _ _)

theorem StartResumeReliablePdu.ends (x : StartResumeReliablePdu) : EndsIn (wire (sent x)) 36 [] :=
    EndsIn.skip (a := 6) (EntityId.wire_length _) <|
    EndsIn.skip (a := 6) (EntityId.wire_length _) <|
    EndsIn.skip (a := 8) (ClockTime.wire_length _) <|
    EndsIn.skip (a := 8) (ClockTime.wire_length _) <|
    EndsIn.skip (a := 1) (octets_length _ _) <|
    EndsIn.skip (a := 1) (octets_length _ _) <|
    EndsIn.skip (a := 2) (octets_length _ _) <|
    EndsIn.last (octets_length _ _)

theorem StopFreezeReliablePdu.ends (x : StopFreezeReliablePdu) : EndsIn (wire (sent x)) 28 [] :=
    EndsIn.skip (a := 6) (EntityId.wire_length _) <|
    EndsIn.skip (a := 6) (EntityId.wire_length _) <|
    EndsIn.skip (a := 8) (ClockTime.wire_length _) <|
    EndsIn.skip (a := 1) (octets_length _ _) <|
    EndsIn.skip (a := 1) (octets_length _ _) <|
    EndsIn.skip (a := 1) (octets_length _ _) <|
    EndsIn.skip (a := 1) (octets_length _ _) <|
    EndsIn.last (octets_length _ _)

theorem AcknowledgeReliablePdu.ends (x : AcknowledgeReliablePdu) : EndsIn (wire (sent x)) 20 [] :=
    EndsIn.skip (a := 6) (EntityId.wire_length _) <|
    EndsIn.skip (a := 6) (EntityId.wire_length _) <|
    EndsIn.skip (a := 2) (octets_length _ _) <|
    EndsIn.skip (a := 2) (octets_length _ _) <|
    EndsIn.last (octets_length _ _)

theorem ActionRequestReliablePdu.ends (x : ActionRequestReliablePdu) : EndsIn (wire (sent x)) 36 (datums x.fixed_datum_records x.variable_datum_records) :=
    EndsIn.skip (a := 6) (EntityId.wire_length _) <|
    EndsIn.skip (a := 6) (EntityId.wire_length _) <|
    EndsIn.skip (a := 1) (octets_length _ _) <|
    EndsIn.skip (a := 1) (octets_length _ _) <|
    EndsIn.skip (a := 2) (octets_length _ _) <|
    EndsIn.skip (a := 4) (octets_length _ _) <|
    EndsIn.skip (a := 4) (octets_length _ _) <|
    EndsIn.skip (a := 4) (octets_length _ _) <|
    EndsIn.skip (a := 4) (octets_length _ _) <|
    EndsIn.skip (a := 4) (octets_length _ _) <|
    EndsIn.here (by
      simp only [datums, octetsOf_append, octetsOf_cons, octetsOf_nil, List.append_assoc, spelt_list FixedDatumRecord.spelt, spelt_sent VariableDatumRecord.spelt]
      rfl)

theorem ActionResponseReliablePdu.ends (x : ActionResponseReliablePdu) : EndsIn (wire (sent x)) 28 (datums x.fixed_datum_records x.variable_datum_records) :=
    EndsIn.skip (a := 6) (EntityId.wire_length _) <|
    EndsIn.skip (a := 6) (EntityId.wire_length _) <|
    EndsIn.skip (a := 4) (octets_length _ _) <|
    EndsIn.skip (a := 4) (octets_length _ _) <|
    EndsIn.skip (a := 4) (octets_length _ _) <|
    EndsIn.skip (a := 4) (octets_length _ _) <|
    EndsIn.here (by
      simp only [datums, octetsOf_append, octetsOf_cons, octetsOf_nil, List.append_assoc, spelt_list FixedDatumRecord.spelt, spelt_sent VariableDatumRecord.spelt]
      rfl)

theorem DataQueryReliablePdu.ends (x : DataQueryReliablePdu) : EndsIn (wire (sent x)) 32 (x.rest) :=
    EndsIn.skip (a := 6) (EntityId.wire_length _) <|
    EndsIn.skip (a := 6) (EntityId.wire_length _) <|
    EndsIn.skip (a := 1) (octets_length _ _) <|
    EndsIn.skip (a := 1) (octets_length _ _) <|
    EndsIn.skip (a := 2) (octets_length _ _) <|
    EndsIn.skip (a := 4) (octets_length _ _) <|
    EndsIn.skip (a := 4) (octets_length _ _) <|
    EndsIn.skip (a := 4) (octets_length _ _) <|
    EndsIn.skip (a := 4) (octets_length _ _) <|
    EndsIn.here (by
      simp only [DataQueryReliablePdu.rest, octetsOf_append, octetsOf_cons, octetsOf_nil, List.append_assoc, spelt_enums (s := VariableRecordTypes.spec) (n := 4) rfl]
      rfl)

theorem SetDataReliablePdu.ends (x : SetDataReliablePdu) : EndsIn (wire (sent x)) 28 (datums x.fixed_datum_records x.variable_datum_records) :=
    EndsIn.skip (a := 6) (EntityId.wire_length _) <|
    EndsIn.skip (a := 6) (EntityId.wire_length _) <|
    EndsIn.skip (a := 1) (octets_length _ _) <|
    EndsIn.skip (a := 1) (octets_length _ _) <|
    EndsIn.skip (a := 2) (octets_length _ _) <|
    EndsIn.skip (a := 4) (octets_length _ _) <|
    EndsIn.skip (a := 4) (octets_length _ _) <|
    EndsIn.skip (a := 4) (octets_length _ _) <|
    EndsIn.here (by
      simp only [datums, octetsOf_append, octetsOf_cons, octetsOf_nil, List.append_assoc, spelt_list FixedDatumRecord.spelt, spelt_sent VariableDatumRecord.spelt]
      rfl)

theorem DataReliablePdu.ends (x : DataReliablePdu) : EndsIn (wire (sent x)) 28 (datums x.fixed_datum_records x.variable_datum_records) :=
    EndsIn.skip (a := 6) (EntityId.wire_length _) <|
    EndsIn.skip (a := 6) (EntityId.wire_length _) <|
    EndsIn.skip (a := 4) (octets_length _ _) <|
    EndsIn.skip (a := 1) (octets_length _ _) <|
    EndsIn.skip (a := 1) (octets_length _ _) <|
    EndsIn.skip (a := 2) (octets_length _ _) <|
    EndsIn.skip (a := 4) (octets_length _ _) <|
    EndsIn.skip (a := 4) (octets_length _ _) <|
    EndsIn.here (by
      simp only [datums, octetsOf_append, octetsOf_cons, octetsOf_nil, List.append_assoc, spelt_list FixedDatumRecord.spelt, spelt_sent VariableDatumRecord.spelt]
      rfl)

theorem EventReportReliablePdu.ends (x : EventReportReliablePdu) : EndsIn (wire (sent x)) 28 (datums x.fixed_datum_records x.variable_datum_records) :=
    EndsIn.skip (a := 6) (EntityId.wire_length _) <|
    EndsIn.skip (a := 6) (EntityId.wire_length _) <|
    EndsIn.skip (a := 4) (octets_length _ _) <|
    EndsIn.skip (a := 4) (octets_length _ _) <|
    EndsIn.skip (a := 4) (octets_length _ _) <|
    EndsIn.skip (a := 4) (octets_length _ _) <|
    EndsIn.here (by
      simp only [datums, octetsOf_append, octetsOf_cons, octetsOf_nil, List.append_assoc, spelt_list FixedDatumRecord.spelt, spelt_sent VariableDatumRecord.spelt]
      rfl)

theorem CommentReliablePdu.ends (x : CommentReliablePdu) : EndsIn (wire (sent x)) 20 (datums x.fixed_datum_records x.variable_datum_records) :=
    EndsIn.skip (a := 6) (EntityId.wire_length _) <|
    EndsIn.skip (a := 6) (EntityId.wire_length _) <|
    EndsIn.skip (a := 4) (octets_length _ _) <|
    EndsIn.skip (a := 4) (octets_length _ _) <|
    EndsIn.here (by
      simp only [datums, octetsOf_append, octetsOf_cons, octetsOf_nil, List.append_assoc, spelt_list FixedDatumRecord.spelt, spelt_sent VariableDatumRecord.spelt]
      rfl)

theorem RecordQueryReliablePdu.ends (x : RecordQueryReliablePdu) : EndsIn (wire (sent x)) 28 (x.rest) :=
    EndsIn.skip (a := 6) (EntityId.wire_length _) <|
    EndsIn.skip (a := 6) (EntityId.wire_length _) <|
    EndsIn.skip (a := 4) (octets_length _ _) <|
    EndsIn.skip (a := 1) (octets_length _ _) <|
    EndsIn.skip (a := 1) (octets_length _ _) <|
    EndsIn.skip (a := 2) (octets_length _ _) <|
    EndsIn.skip (a := 4) (octets_length _ _) <|
    EndsIn.skip (a := 4) (octets_length _ _) <|
    EndsIn.here (by
      simp only [RecordQueryReliablePdu.rest, octetsOf_append, octetsOf_cons, octetsOf_nil, List.append_assoc, spelt_u32s]
      rfl)

theorem SetRecordReliablePdu.ends (x : SetRecordReliablePdu) : EndsIn (wire (sent x)) 28 (x.rest) :=
    EndsIn.skip (a := 6) (EntityId.wire_length _) <|
    EndsIn.skip (a := 6) (EntityId.wire_length _) <|
    EndsIn.skip (a := 4) (octets_length _ _) <|
    EndsIn.skip (a := 1) (octets_length _ _) <|
    EndsIn.skip (a := 1) (octets_length _ _) <|
    EndsIn.skip (a := 2) (octets_length _ _) <|
    EndsIn.skip (a := 4) (octets_length _ _) <|
    EndsIn.skip (a := 4) (octets_length _ _) <|
    EndsIn.here (by
      simp only [SetRecordReliablePdu.rest, octetsOf_append, octetsOf_cons, octetsOf_nil, List.append_assoc, spelt_sent RecordSpecificationElement.spelt]
      rfl)

theorem Environment.spelt (x : Environment) : Field.octetsOf (fieldsOf Environment.layout x) = wire x :=
  spelt_fixed (T := Environment.layout) (n := 8) (by decide) (Environment.written x) (Environment.wire_length x)

theorem EnvironmentalProcessPdu.ends (x : EnvironmentalProcessPdu) : EndsIn (wire (sent x)) 20 (x.rest) :=
    EndsIn.skip (a := 6) (EntityId.wire_length _) <|
    EndsIn.skip (a := 8) (EntityType.wire_length _) <|
    EndsIn.skip (a := 1) (octets_length _ _) <|
    EndsIn.skip (a := 1) (octets_length _ _) <|
    EndsIn.skip (a := 2) (octets_length _ _) <|
    EndsIn.skip (a := 2) (octets_length _ _) <|
    EndsIn.here (by
      simp only [EnvironmentalProcessPdu.rest, octetsOf_append, octetsOf_cons, octetsOf_nil, List.append_assoc, spelt_list Environment.spelt]
      rfl)

theorem GriddedDataPdu.ends (x : GriddedDataPdu) : EndsIn (wire (sent x)) 52 (x.rest) :=
    EndsIn.skip (a := 6) (EntityId.wire_length _) <|
    EndsIn.skip (a := 2) (octets_length _ _) <|
    EndsIn.skip (a := 2) (octets_length _ _) <|
    EndsIn.skip (a := 2) (octets_length _ _) <|
    EndsIn.skip (a := 2) (octets_length _ _) <|
    EndsIn.skip (a := 1) (octets_length _ _) <|
    EndsIn.skip (a := 1) (octets_length _ _) <|
    EndsIn.skip (a := 8) (EntityType.wire_length _) <|
    EndsIn.skip (a := 12) (EulerAngles.wire_length _) <|
    EndsIn.skip (a := 8) (ClockTime.wire_length _) <|
    EndsIn.skip (a := 4) (octets_length _ _) <|
    EndsIn.skip (a := 1) (octets_length _ _) <|
    EndsIn.skip (a := 1) (octets_length _ _) <|
    EndsIn.skip (a := 2) (octets_length _ _) <|
    EndsIn.here (by
      simp only [GriddedDataPdu.rest, octetsOf_append, octetsOf_cons, octetsOf_nil, List.append_assoc, spelt_list GridAxisDescriptor.spelt, spelt_sent GridDataRecord.spelt]
      rfl)

theorem PointObjectStatePdu.ends (x : PointObjectStatePdu) : EndsIn (wire (sent x)) 76 [] :=
    EndsIn.skip (a := 6) (EntityId.wire_length _) <|
    EndsIn.skip (a := 6) (EntityId.wire_length _) <|
    EndsIn.skip (a := 2) (octets_length _ _) <|
    EndsIn.skip (a := 1) (octets_length _ _) <|
    EndsIn.skip (a := 1) (octets_length _ _) <|
    EndsIn.skip (a := 4) (ObjectType.wire_length _) <|
    EndsIn.skip (a := 24) (WorldCoordinate.wire_length _) <|
    EndsIn.skip (a := 12) (EulerAngles.wire_length _) <|
    EndsIn.skip (a := 4) (octets_length _ _) <|
    EndsIn.skip (a := 2) (octets_length _ _) <|
    EndsIn.skip (a := 2) (octets_length _ _) <|
    EndsIn.skip (a := 4) (SimulationAddress.wire_length _) <|
    EndsIn.skip (a := 4) (SimulationAddress.wire_length _) <|
    EndsIn.last (octets_length _ _)

theorem LinearSegmentParameter.spelt (x : LinearSegmentParameter) : Field.octetsOf (fieldsOf LinearSegmentParameter.layout x) = wire x :=
  spelt_fixed (T := LinearSegmentParameter.layout) (n := 66) (by decide) (LinearSegmentParameter.written x) (LinearSegmentParameter.wire_length x)

theorem LinearObjectStatePdu.ends (x : LinearObjectStatePdu) : EndsIn (wire (sent x)) 28 (x.rest) :=
    EndsIn.skip (a := 6) (ObjectIdentifier.wire_length _) <|
    EndsIn.skip (a := 6) (ObjectIdentifier.wire_length _) <|
    EndsIn.skip (a := 2) (octets_length _ _) <|
    EndsIn.skip (a := 1) (octets_length _ _) <|
    EndsIn.skip (a := 1) (octets_length _ _) <|
    EndsIn.skip (a := 4) (SimulationAddress.wire_length _) <|
    EndsIn.skip (a := 4) (SimulationAddress.wire_length _) <|
    EndsIn.skip (a := 4) (ObjectType.wire_length _) <|
    EndsIn.here (by
      simp only [LinearObjectStatePdu.rest, octetsOf_append, octetsOf_cons, octetsOf_nil, List.append_assoc, spelt_list LinearSegmentParameter.spelt]
      rfl)

theorem WorldCoordinate.spelt (x : WorldCoordinate) : Field.octetsOf (fieldsOf WorldCoordinate.layout x) = wire x :=
  spelt_fixed (T := WorldCoordinate.layout) (n := 24) (by decide) (WorldCoordinate.written x) (WorldCoordinate.wire_length x)

theorem ArealObjectStatePdu.ends (x : ArealObjectStatePdu) : EndsIn (wire (sent x)) 36 (x.rest) :=
    EndsIn.skip (a := 6) (ObjectIdentifier.wire_length _) <|
    EndsIn.skip (a := 6) (ObjectIdentifier.wire_length _) <|
    EndsIn.skip (a := 2) (octets_length _ _) <|
    EndsIn.skip (a := 1) (octets_length _ _) <|
    EndsIn.skip (a := 1) (octets_length _ _) <|
    EndsIn.skip (a := 4) (ObjectType.wire_length _) <|
    EndsIn.skip (a := 4) (octets_length _ _) <|
    EndsIn.skip (a := 2) (octets_length _ _) <|
    EndsIn.skip (a := 2) (octets_length _ _) <|
    EndsIn.skip (a := 4) (SimulationAddress.wire_length _) <|
    EndsIn.skip (a := 4) (SimulationAddress.wire_length _) <|
    EndsIn.here (by
      simp only [ArealObjectStatePdu.rest, octetsOf_append, octetsOf_cons, octetsOf_nil, List.append_assoc, spelt_list WorldCoordinate.spelt]
      rfl)

theorem FirePdu.ends (x : FirePdu) : EndsIn (wire (sent x)) 84 [] :=
    EndsIn.skip (a := 6) (EntityId.wire_length _) <|
    EndsIn.skip (a := 6) (EntityId.wire_length _) <|
    EndsIn.skip (a := 6) (EntityId.wire_length _) <|
    EndsIn.skip (a := 6) (EventId.wire_length _) <|
    EndsIn.skip (a := 4) (octets_length _ _) <|
    EndsIn.skip (a := 24) (WorldCoordinate.wire_length _) <|
    EndsIn.skip (a := 16) (MunitionDescriptor.wire_length _) <|
    EndsIn.skip (a := 12) (LinearVelocity.wire_length _) <|
    EndsIn.last (octets_length _ _)

theorem DetonationPdu.ends (x : DetonationPdu) : EndsIn (wire (sent x)) 92 (x.rest) :=
    EndsIn.skip (a := 6) (EntityId.wire_length _) <|
    EndsIn.skip (a := 6) (EntityId.wire_length _) <|
    EndsIn.skip (a := 6) (EntityId.wire_length _) <|
    EndsIn.skip (a := 6) (EventId.wire_length _) <|
    EndsIn.skip (a := 12) (LinearVelocity.wire_length _) <|
    EndsIn.skip (a := 24) (WorldCoordinate.wire_length _) <|
    EndsIn.skip (a := 16) (MunitionDescriptor.wire_length _) <|
    EndsIn.skip (a := 12) (EntityCoordinateVector.wire_length _) <|
    EndsIn.skip (a := 1) (octets_length _ _) <|
    EndsIn.skip (a := 1) (octets_length _ _) <|
    EndsIn.skip (a := 2) (octets_length _ _) <|
    EndsIn.here (by
      simp only [DetonationPdu.rest, octetsOf_append, octetsOf_cons, octetsOf_nil, List.append_assoc, spelt_list VariableParameter.spelt]
      rfl)

theorem DirectedEnergyDamage.spelt (x : DirectedEnergyDamage) : Field.octetsOf (fieldsOf DirectedEnergyDamage.layout x) = wire x :=
  spelt_fixed (T := DirectedEnergyDamage.layout) (n := 40) (by decide) (DirectedEnergyDamage.written x) (DirectedEnergyDamage.wire_length x)

theorem DirectedEnergyFirePdu.ends (x : DirectedEnergyFirePdu) : EndsIn (wire (sent x)) 76 (x.rest) :=
    EndsIn.skip (a := 6) (EntityId.wire_length _) <|
    EndsIn.skip (a := 6) (EventId.wire_length _) <|
    EndsIn.skip (a := 8) (EntityType.wire_length _) <|
    EndsIn.skip (a := 8) (ClockTime.wire_length _) <|
    EndsIn.skip (a := 4) (octets_length _ _) <|
    EndsIn.skip (a := 12) (EntityCoordinateVector.wire_length _) <|
    EndsIn.skip (a := 4) (octets_length _ _) <|
    EndsIn.skip (a := 4) (octets_length _ _) <|
    EndsIn.skip (a := 4) (octets_length _ _) <|
    EndsIn.skip (a := 4) (octets_length _ _) <|
    EndsIn.skip (a := 4) (octets_length _ _) <|
    EndsIn.skip (a := 2) (octets_length _ _) <|
    EndsIn.skip (a := 1) (octets_length _ _) <|
    EndsIn.skip (a := 1) (octets_length _ _) <|
    EndsIn.skip (a := 4) (octets_length _ _) <|
    EndsIn.skip (a := 2) (octets_length _ _) <|
    EndsIn.skip (a := 2) (octets_length _ _) <|
    EndsIn.here (by
      simp only [DirectedEnergyFirePdu.rest, octetsOf_append, octetsOf_cons, octetsOf_nil, List.append_assoc, spelt_list DirectedEnergyDamage.spelt]
      rfl)

theorem EntityDamageStatusPdu.ends (x : EntityDamageStatusPdu) : EndsIn (wire (sent x)) 12 (x.rest) :=
    EndsIn.skip (a := 6) (EntityId.wire_length _) <|
    EndsIn.skip (a := 2) (octets_length _ _) <|
    EndsIn.skip (a := 2) (octets_length _ _) <|
    EndsIn.skip (a := 2) (octets_length _ _) <|
    EndsIn.here (by
      simp only [EntityDamageStatusPdu.rest, octetsOf_append, octetsOf_cons, octetsOf_nil, List.append_assoc, spelt_list DirectedEnergyDamage.spelt]
      rfl)

/-- octets of the part of a message in the layout table -/
def PduKind.headOctets : PduKind → Nat
  | .ElectromagneticEmissions => 16
  | .Designator => 76
  | .UnderwaterAcoustic => 20
  | .IFF => 76
  | .SupplementalEmission => 16
  | .EntityState => 117
  | .Collision => 48
  | .CollisionElastic => 88
  | .EntityStateUpdate => 60
  | .Attribute => 20
  | .AggregateState => 120
  | .IsGroupOf => 28
  | .TransferOwnership => 28
  | .IsPartOf => 40
  | .InformationOperationsReport => 28
  | .InformationOperationsAction => 44
  | .ServiceRequest => 16
  | .ResupplyOffer => 16
  | .ResupplyReceived => 16
  | .ResupplyCancel => 12
  | .RepairComplete => 16
  | .RepairResponse => 16
  | .MinefieldState => 60
  | .MinefieldQuery => 28
  | .MinefieldData => 32
  | .MinefieldResponseNack => 14
  | .Transmitter => 92
  | .Signal => 20
  | .Receiver => 24
  | .IntercomSignal => 20
  | .IntercomControl => 28
  | .CreateEntity => 16
  | .RemoveEntity => 16
  | .StartResume => 32
  | .StopFreeze => 28
  | .Acknowledge => 20
  | .ActionRequest => 28
  | .ActionResponse => 28
  | .DataQuery => 28
  | .SetData => 28
  | .Data => 28
  | .EventReport => 28
  | .Comment => 20
  | .CreateEntityReliable => 20
  | .RemoveEntityReliable => 20
  | .StartResumeReliable => 36
  | .StopFreezeReliable => 28
  | .AcknowledgeReliable => 20
  | .ActionRequestReliable => 36
  | .ActionResponseReliable => 28
  | .DataQueryReliable => 32
  | .SetDataReliable => 28
  | .DataReliable => 28
  | .EventReportReliable => 28
  | .CommentReliable => 20
  | .RecordQueryReliable => 28
  | .SetRecordReliable => 28
  | .EnvironmentalProcess => 20
  | .GriddedData => 52
  | .PointObjectState => 76
  | .LinearObjectState => 28
  | .ArealObjectState => 36
  | .Fire => 84
  | .Detonation => 92
  | .DirectedEnergyFire => 76
  | .EntityDamageStatus => 12
theorem PduKind.ends : (k : PduKind) → ∀ x : k.Body, EndsIn (wire (sent x)) k.headOctets (k.rest x)
  | .ElectromagneticEmissions => ElectromagneticEmissionsPdu.ends
  | .Designator => DesignatorPdu.ends
  | .UnderwaterAcoustic => UnderwaterAcousticPdu.ends
  | .IFF => IFFPdu.ends
  | .SupplementalEmission => SupplementalEmissionPdu.ends
  | .EntityState => EntityStatePdu.ends
  | .Collision => CollisionPdu.ends
  | .CollisionElastic => CollisionElasticPdu.ends
  | .EntityStateUpdate => EntityStateUpdatePdu.ends
  | .Attribute => AttributePdu.ends
  | .AggregateState => AggregateStatePdu.ends
  | .IsGroupOf => IsGroupOfPdu.ends
  | .TransferOwnership => TransferOwnershipPdu.ends
  | .IsPartOf => IsPartOfPdu.ends
  | .InformationOperationsReport => InformationOperationsReportPdu.ends
  | .InformationOperationsAction => InformationOperationsActionPdu.ends
  | .ServiceRequest => ServiceRequestPdu.ends
  | .ResupplyOffer => ResupplyOfferPdu.ends
  | .ResupplyReceived => ResupplyReceivedPdu.ends
  | .ResupplyCancel => ResupplyCancelPdu.ends
  | .RepairComplete => RepairCompletePdu.ends
  | .RepairResponse => RepairResponsePdu.ends
  | .MinefieldState => MinefieldStatePdu.ends
  | .MinefieldQuery => MinefieldQueryPdu.ends
  | .MinefieldData => MinefieldDataPdu.ends
  | .MinefieldResponseNack => MinefieldResponseNackPdu.ends
  | .Transmitter => TransmitterPdu.ends
  | .Signal => SignalPdu.ends
  | .Receiver => ReceiverPdu.ends
  | .IntercomSignal => IntercomSignalPdu.ends
  | .IntercomControl => IntercomControlPdu.ends
  | .CreateEntity => CreateEntityPdu.ends
  | .RemoveEntity => RemoveEntityPdu.ends
  | .StartResume => StartResumePdu.ends
  | .StopFreeze => StopFreezePdu.ends
  | .Acknowledge => AcknowledgePdu.ends
  | .ActionRequest => ActionRequestPdu.ends
  | .ActionResponse => ActionResponsePdu.ends
  | .DataQuery => DataQueryPdu.ends
  | .SetData => SetDataPdu.ends
  | .Data => DataPdu.ends
  | .EventReport => EventReportPdu.ends
  | .Comment => CommentPdu.ends
  | .CreateEntityReliable => CreateEntityReliablePdu.ends
  | .RemoveEntityReliable => RemoveEntityReliablePdu.ends
  | .StartResumeReliable => StartResumeReliablePdu.ends
  | .StopFreezeReliable => StopFreezeReliablePdu.ends
  | .AcknowledgeReliable => AcknowledgeReliablePdu.ends
  | .ActionRequestReliable => ActionRequestReliablePdu.ends
  | .ActionResponseReliable => ActionResponseReliablePdu.ends
  | .DataQueryReliable => DataQueryReliablePdu.ends
  | .SetDataReliable => SetDataReliablePdu.ends
  | .DataReliable => DataReliablePdu.ends
  | .EventReportReliable => EventReportReliablePdu.ends
  | .CommentReliable => CommentReliablePdu.ends
  | .RecordQueryReliable => RecordQueryReliablePdu.ends
  | .SetRecordReliable => SetRecordReliablePdu.ends
  | .EnvironmentalProcess => EnvironmentalProcessPdu.ends
  | .GriddedData => GriddedDataPdu.ends
  | .PointObjectState => PointObjectStatePdu.ends
  | .LinearObjectState => LinearObjectStatePdu.ends
  | .ArealObjectState => ArealObjectStatePdu.ends
  | .Fire => FirePdu.ends
  | .Detonation => DetonationPdu.ends
  | .DirectedEnergyFire => DirectedEnergyFirePdu.ends
  | .EntityDamageStatus => EntityDamageStatusPdu.ends

end Dis
