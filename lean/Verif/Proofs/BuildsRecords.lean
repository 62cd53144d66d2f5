import Verif.Proofs.Builds
/- Generated by tools/gen_builds.py. -/
set_option synthInstance.maxSize 1000
set_option synthInstance.maxHeartbeats 400000
set_option maxRecDepth 4000
namespace Dis
variable {exact : Bool}

instance : Builds exact getU8 := by unfold getU8; infer_instance
instance (x) : Builds exact (putU8 x) := by unfold putU8; infer_instance
instance : Builds exact getU16 := by unfold getU16; infer_instance
instance (x) : Builds exact (putU16 x) := by unfold putU16; infer_instance
instance : Builds exact getU32 := by unfold getU32; infer_instance
instance (x) : Builds exact (putU32 x) := by unfold putU32; infer_instance
instance : Builds exact getU64 := by unfold getU64; infer_instance
instance (x) : Builds exact (putU64 x) := by unfold putU64; infer_instance
instance : Builds exact getI8 := by unfold getI8; infer_instance
instance (x) : Builds exact (putI8 x) := by unfold putI8; infer_instance
instance : Builds exact getI16 := by unfold getI16; infer_instance
instance (x) : Builds exact (putI16 x) := by unfold putI16; infer_instance
instance : Builds exact getI32 := by unfold getI32; infer_instance
instance (x) : Builds exact (putI32 x) := by unfold putI32; infer_instance
instance : Builds exact getI64 := by unfold getI64; infer_instance
instance (x) : Builds exact (putI64 x) := by unfold putI64; infer_instance
instance : Builds exact getF32 := by unfold getF32; infer_instance
instance (x) : Builds exact (putF32 x) := by unfold putF32; infer_instance
instance : Builds exact getF64 := by unfold getF64; infer_instance
instance (x) : Builds exact (putF64 x) := by unfold putF64; infer_instance
instance (s : EnumSpec) : Builds exact s.deserialize := by unfold EnumSpec.deserialize; cases s.repr <;> infer_instance
instance : Builds exact (deserialize_field : Get UInt8) := inferInstanceAs (Builds exact getU8)
instance (x : UInt8) : Builds exact (serialize_field x) := inferInstanceAs (Builds exact (putU8 x))
instance : Builds exact (deserialize_field : Get UInt16) := inferInstanceAs (Builds exact getU16)
instance (x : UInt16) : Builds exact (serialize_field x) := inferInstanceAs (Builds exact (putU16 x))
instance : Builds exact (deserialize_field : Get UInt32) := inferInstanceAs (Builds exact getU32)
instance (x : UInt32) : Builds exact (serialize_field x) := inferInstanceAs (Builds exact (putU32 x))
instance : Builds exact (deserialize_field : Get UInt64) := inferInstanceAs (Builds exact getU64)
instance (x : UInt64) : Builds exact (serialize_field x) := inferInstanceAs (Builds exact (putU64 x))
instance : Builds exact (deserialize_field : Get Int8) := inferInstanceAs (Builds exact getI8)
instance (x : Int8) : Builds exact (serialize_field x) := inferInstanceAs (Builds exact (putI8 x))
instance : Builds exact (deserialize_field : Get Int16) := inferInstanceAs (Builds exact getI16)
instance (x : Int16) : Builds exact (serialize_field x) := inferInstanceAs (Builds exact (putI16 x))
instance : Builds exact (deserialize_field : Get Int32) := inferInstanceAs (Builds exact getI32)
instance (x : Int32) : Builds exact (serialize_field x) := inferInstanceAs (Builds exact (putI32 x))
instance : Builds exact (deserialize_field : Get Int64) := inferInstanceAs (Builds exact getI64)
instance (x : Int64) : Builds exact (serialize_field x) := inferInstanceAs (Builds exact (putI64 x))
instance : Builds exact (deserialize_field : Get F32) := inferInstanceAs (Builds exact getF32)
instance (x : F32) : Builds exact (serialize_field x) := inferInstanceAs (Builds exact (putF32 x))
instance : Builds exact (deserialize_field : Get F64) := inferInstanceAs (Builds exact getF64)
instance (x : F64) : Builds exact (serialize_field x) := inferInstanceAs (Builds exact (putF64 x))

instance : Builds exact (deserialize_field : Get String) := inferInstanceAs (Builds exact (Pure.pure "" : M String))
instance (x : String) : Builds exact (serialize_field x) := inferInstanceAs (Builds exact (putBytes (strBytes x)))
instance {α : Type} [FieldDeserialize α] : Builds exact (deserialize_field : Get (List α)) :=
  inferInstanceAs (Builds exact (Pure.pure [] : M (List α)))
instance {α : Type} [FieldSerialize α] [∀ x : α, Builds exact (serialize_field x)] (x : List α) : Builds exact (serialize_field x) :=
  inferInstanceAs (Builds exact (putEach serialize_field x))
instance {α : Type} [FieldDeserialize α] : Builds exact (deserialize_field : Get (Option α)) :=
  inferInstanceAs (Builds exact (Pure.pure none : M (Option α)))
instance {α : Type} [FieldSerialize α] [h : ∀ x : α, Builds exact (serialize_field x)] : (x : Option α) → Builds exact (serialize_field x)
  | none => inferInstanceAs (Builds exact (Pure.pure ()))
  | some x => h x
instance {α : Type} [FieldDeserializeWithLen α] (n : Nat) [Builds exact (deserialize_with_len n : Get α)] :
    Builds exact (deserialize_with_len n : Get (Option α)) :=
  inferInstanceAs (Builds exact (if n = 0 then Pure.pure none else (deserialize_with_len n : Get α) >>= fun x => Pure.pure (some x)))
instance (xs : Bytes) (i : Nat) : Builds exact (putIndex xs i) := by unfold putIndex; split <;> infer_instance

instance (x : ForceId) : Builds exact (serialize_field x) := by dsimp only [serialize_field]; infer_instance
instance : Builds exact (deserialize_field : Get ForceId) := inferInstanceAs (Builds exact ForceId.deserialize)
instance (x : DeadReckoningAlgorithm) : Builds exact (serialize_field x) := by dsimp only [serialize_field]; infer_instance
instance : Builds exact (deserialize_field : Get DeadReckoningAlgorithm) := inferInstanceAs (Builds exact DeadReckoningAlgorithm.deserialize)
instance (x : EntityCapabilities) : Builds exact (serialize_field x) := by dsimp only [serialize_field]; infer_instance
instance : Builds exact (deserialize_field : Get EntityCapabilities) := inferInstanceAs (Builds exact EntityCapabilities.deserialize)
instance (x : DetonationResult) : Builds exact (serialize_field x) := by dsimp only [serialize_field]; infer_instance
instance : Builds exact (deserialize_field : Get DetonationResult) := inferInstanceAs (Builds exact DetonationResult.deserialize)
instance (x : ServiceRequestServiceTypeRequested) : Builds exact (serialize_field x) := by dsimp only [serialize_field]; infer_instance
instance : Builds exact (deserialize_field : Get ServiceRequestServiceTypeRequested) := inferInstanceAs (Builds exact ServiceRequestServiceTypeRequested.deserialize)
instance (x : RepairCompleteRepair) : Builds exact (serialize_field x) := by dsimp only [serialize_field]; infer_instance
instance : Builds exact (deserialize_field : Get RepairCompleteRepair) := inferInstanceAs (Builds exact RepairCompleteRepair.deserialize)
instance (x : RepairResponseRepairResult) : Builds exact (serialize_field x) := by dsimp only [serialize_field]; infer_instance
instance : Builds exact (deserialize_field : Get RepairResponseRepairResult) := inferInstanceAs (Builds exact RepairResponseRepairResult.deserialize)
instance (x : VariableRecordTypes) : Builds exact (serialize_field x) := by dsimp only [serialize_field]; infer_instance
instance : Builds exact (deserialize_field : Get VariableRecordTypes) := inferInstanceAs (Builds exact VariableRecordTypes.deserialize)
instance (x : Reason) : Builds exact (serialize_field x) := by dsimp only [serialize_field]; infer_instance
instance : Builds exact (deserialize_field : Get Reason) := inferInstanceAs (Builds exact Reason.deserialize)
instance (x : AcknowledgeFlag) : Builds exact (serialize_field x) := by dsimp only [serialize_field]; infer_instance
instance : Builds exact (deserialize_field : Get AcknowledgeFlag) := inferInstanceAs (Builds exact AcknowledgeFlag.deserialize)
instance (x : AcknowledgeResponseFlag) : Builds exact (serialize_field x) := by dsimp only [serialize_field]; infer_instance
instance : Builds exact (deserialize_field : Get AcknowledgeResponseFlag) := inferInstanceAs (Builds exact AcknowledgeResponseFlag.deserialize)
instance (x : ActionResponseRequestStatus) : Builds exact (serialize_field x) := by dsimp only [serialize_field]; infer_instance
instance : Builds exact (deserialize_field : Get ActionResponseRequestStatus) := inferInstanceAs (Builds exact ActionResponseRequestStatus.deserialize)
instance (x : EventType) : Builds exact (serialize_field x) := by dsimp only [serialize_field]; infer_instance
instance : Builds exact (deserialize_field : Get EventType) := inferInstanceAs (Builds exact EventType.deserialize)
instance (x : RequiredReliabilityService) : Builds exact (serialize_field x) := by dsimp only [serialize_field]; infer_instance
instance : Builds exact (deserialize_field : Get RequiredReliabilityService) := inferInstanceAs (Builds exact RequiredReliabilityService.deserialize)
instance (x : DesignatorSystemName) : Builds exact (serialize_field x) := by dsimp only [serialize_field]; infer_instance
instance : Builds exact (deserialize_field : Get DesignatorSystemName) := inferInstanceAs (Builds exact DesignatorSystemName.deserialize)
instance (x : DesignatorCode) : Builds exact (serialize_field x) := by dsimp only [serialize_field]; infer_instance
instance : Builds exact (deserialize_field : Get DesignatorCode) := inferInstanceAs (Builds exact DesignatorCode.deserialize)
instance (x : UAStateChangeUpdateIndicator) : Builds exact (serialize_field x) := by dsimp only [serialize_field]; infer_instance
instance : Builds exact (deserialize_field : Get UAStateChangeUpdateIndicator) := inferInstanceAs (Builds exact UAStateChangeUpdateIndicator.deserialize)
instance (x : UAAcousticSystemName) : Builds exact (serialize_field x) := by dsimp only [serialize_field]; infer_instance
instance : Builds exact (deserialize_field : Get UAAcousticSystemName) := inferInstanceAs (Builds exact UAAcousticSystemName.deserialize)
instance (x : UAAcousticEmitterSystemFunction) : Builds exact (serialize_field x) := by dsimp only [serialize_field]; infer_instance
instance : Builds exact (deserialize_field : Get UAAcousticEmitterSystemFunction) := inferInstanceAs (Builds exact UAAcousticEmitterSystemFunction.deserialize)
instance (x : UAPassiveParameterIndex) : Builds exact (serialize_field x) := by dsimp only [serialize_field]; infer_instance
instance : Builds exact (deserialize_field : Get UAPassiveParameterIndex) := inferInstanceAs (Builds exact UAPassiveParameterIndex.deserialize)
instance (x : TransmitterTransmitState) : Builds exact (serialize_field x) := by dsimp only [serialize_field]; infer_instance
instance : Builds exact (deserialize_field : Get TransmitterTransmitState) := inferInstanceAs (Builds exact TransmitterTransmitState.deserialize)
instance (x : TransmitterInputSource) : Builds exact (serialize_field x) := by dsimp only [serialize_field]; infer_instance
instance : Builds exact (deserialize_field : Get TransmitterInputSource) := inferInstanceAs (Builds exact TransmitterInputSource.deserialize)
instance (x : TransmitterCryptoSystem) : Builds exact (serialize_field x) := by dsimp only [serialize_field]; infer_instance
instance : Builds exact (deserialize_field : Get TransmitterCryptoSystem) := inferInstanceAs (Builds exact TransmitterCryptoSystem.deserialize)
instance (x : TransmitterAntennaPatternType) : Builds exact (serialize_field x) := by dsimp only [serialize_field]; infer_instance
instance : Builds exact (deserialize_field : Get TransmitterAntennaPatternType) := inferInstanceAs (Builds exact TransmitterAntennaPatternType.deserialize)
instance (x : TransmitterAntennaPatternReferenceSystem) : Builds exact (serialize_field x) := by dsimp only [serialize_field]; infer_instance
instance : Builds exact (deserialize_field : Get TransmitterAntennaPatternReferenceSystem) := inferInstanceAs (Builds exact TransmitterAntennaPatternReferenceSystem.deserialize)
instance (x : SignalTDLType) : Builds exact (serialize_field x) := by dsimp only [serialize_field]; infer_instance
instance : Builds exact (deserialize_field : Get SignalTDLType) := inferInstanceAs (Builds exact SignalTDLType.deserialize)
instance (x : ReceiverReceiverState) : Builds exact (serialize_field x) := by dsimp only [serialize_field]; infer_instance
instance : Builds exact (deserialize_field : Get ReceiverReceiverState) := inferInstanceAs (Builds exact ReceiverReceiverState.deserialize)
instance (x : IntercomControlControlType) : Builds exact (serialize_field x) := by dsimp only [serialize_field]; infer_instance
instance : Builds exact (deserialize_field : Get IntercomControlControlType) := inferInstanceAs (Builds exact IntercomControlControlType.deserialize)
instance (x : IntercomControlCommand) : Builds exact (serialize_field x) := by dsimp only [serialize_field]; infer_instance
instance : Builds exact (deserialize_field : Get IntercomControlCommand) := inferInstanceAs (Builds exact IntercomControlCommand.deserialize)
instance (x : IntercomControlTransmitLineState) : Builds exact (serialize_field x) := by dsimp only [serialize_field]; infer_instance
instance : Builds exact (deserialize_field : Get IntercomControlTransmitLineState) := inferInstanceAs (Builds exact IntercomControlTransmitLineState.deserialize)
instance (x : MinefieldSensorTypes) : Builds exact (serialize_field x) := by dsimp only [serialize_field]; infer_instance
instance : Builds exact (deserialize_field : Get MinefieldSensorTypes) := inferInstanceAs (Builds exact MinefieldSensorTypes.deserialize)
instance (x : AggregateStateAggregateState) : Builds exact (serialize_field x) := by dsimp only [serialize_field]; infer_instance
instance : Builds exact (deserialize_field : Get AggregateStateAggregateState) := inferInstanceAs (Builds exact AggregateStateAggregateState.deserialize)
instance (x : AggregateStateFormation) : Builds exact (serialize_field x) := by dsimp only [serialize_field]; infer_instance
instance : Builds exact (deserialize_field : Get AggregateStateFormation) := inferInstanceAs (Builds exact AggregateStateFormation.deserialize)
instance (x : IsGroupOfGroupedEntityCategory) : Builds exact (serialize_field x) := by dsimp only [serialize_field]; infer_instance
instance : Builds exact (deserialize_field : Get IsGroupOfGroupedEntityCategory) := inferInstanceAs (Builds exact IsGroupOfGroupedEntityCategory.deserialize)
instance (x : TransferControlTransferType) : Builds exact (serialize_field x) := by dsimp only [serialize_field]; infer_instance
instance : Builds exact (deserialize_field : Get TransferControlTransferType) := inferInstanceAs (Builds exact TransferControlTransferType.deserialize)
instance : Builds exact GriddedDataFieldNumber.deserialize := by unfold GriddedDataFieldNumber.deserialize; infer_instance
instance (x : GriddedDataCoordinateSystem) : Builds exact (serialize_field x) := by dsimp only [serialize_field]; infer_instance
instance : Builds exact (deserialize_field : Get GriddedDataCoordinateSystem) := inferInstanceAs (Builds exact GriddedDataCoordinateSystem.deserialize)
instance (x : GriddedDataConstantGrid) : Builds exact (serialize_field x) := by dsimp only [serialize_field]; infer_instance
instance : Builds exact (deserialize_field : Get GriddedDataConstantGrid) := inferInstanceAs (Builds exact GriddedDataConstantGrid.deserialize)
instance (x : GriddedDataSampleType) : Builds exact (serialize_field x) := by dsimp only [serialize_field]; infer_instance
instance : Builds exact (deserialize_field : Get GriddedDataSampleType) := inferInstanceAs (Builds exact GriddedDataSampleType.deserialize)
instance (x : GriddedDataDataRepresentation) : Builds exact (serialize_field x) := by dsimp only [serialize_field]; infer_instance
instance : Builds exact (deserialize_field : Get GriddedDataDataRepresentation) := inferInstanceAs (Builds exact GriddedDataDataRepresentation.deserialize)
instance (x : RepairGroups) : Builds exact (serialize_field x) := by dsimp only [serialize_field]; infer_instance
instance : Builds exact (deserialize_field : Get RepairGroups) := inferInstanceAs (Builds exact RepairGroups.deserialize)
instance (x : IOActionIOWarfareType) : Builds exact (serialize_field x) := by dsimp only [serialize_field]; infer_instance
instance : Builds exact (deserialize_field : Get IOActionIOWarfareType) := inferInstanceAs (Builds exact IOActionIOWarfareType.deserialize)
instance (x : IOActionIOSimulationSource) : Builds exact (serialize_field x) := by dsimp only [serialize_field]; infer_instance
instance : Builds exact (deserialize_field : Get IOActionIOSimulationSource) := inferInstanceAs (Builds exact IOActionIOSimulationSource.deserialize)
instance (x : IOActionIOActionType) : Builds exact (serialize_field x) := by dsimp only [serialize_field]; infer_instance
instance : Builds exact (deserialize_field : Get IOActionIOActionType) := inferInstanceAs (Builds exact IOActionIOActionType.deserialize)
instance (x : IOActionIOActionPhase) : Builds exact (serialize_field x) := by dsimp only [serialize_field]; infer_instance
instance : Builds exact (deserialize_field : Get IOActionIOActionPhase) := inferInstanceAs (Builds exact IOActionIOActionPhase.deserialize)
instance (x : IOReportIOReportType) : Builds exact (serialize_field x) := by dsimp only [serialize_field]; infer_instance
instance : Builds exact (deserialize_field : Get IOReportIOReportType) := inferInstanceAs (Builds exact IOReportIOReportType.deserialize)
instance (x : DISAttributeActionCode) : Builds exact (serialize_field x) := by dsimp only [serialize_field]; infer_instance
instance : Builds exact (deserialize_field : Get DISAttributeActionCode) := inferInstanceAs (Builds exact DISAttributeActionCode.deserialize)
instance (x : EEAttributeStateIndicator) : Builds exact (serialize_field x) := by dsimp only [serialize_field]; infer_instance
instance : Builds exact (deserialize_field : Get EEAttributeStateIndicator) := inferInstanceAs (Builds exact EEAttributeStateIndicator.deserialize)
instance (x : DEFirePulseShape) : Builds exact (serialize_field x) := by dsimp only [serialize_field]; infer_instance
instance : Builds exact (deserialize_field : Get DEFirePulseShape) := inferInstanceAs (Builds exact DEFirePulseShape.deserialize)
instance (x : ComponentIdentification) : Builds exact (serialize_field x) := by dsimp only [serialize_field]; infer_instance
instance : Builds exact (deserialize_field : Get ComponentIdentification) := inferInstanceAs (Builds exact ComponentIdentification.deserialize)
instance (x : ComponentDamageStatus) : Builds exact (serialize_field x) := by dsimp only [serialize_field]; infer_instance
instance : Builds exact (deserialize_field : Get ComponentDamageStatus) := inferInstanceAs (Builds exact ComponentDamageStatus.deserialize)
instance (x : ComponentVisualSmokeColor) : Builds exact (serialize_field x) := by dsimp only [serialize_field]; infer_instance
instance : Builds exact (deserialize_field : Get ComponentVisualSmokeColor) := inferInstanceAs (Builds exact ComponentVisualSmokeColor.deserialize)
instance (x : RecordQueryREventType) : Builds exact (serialize_field x) := by dsimp only [serialize_field]; infer_instance
instance : Builds exact (deserialize_field : Get RecordQueryREventType) := inferInstanceAs (Builds exact RecordQueryREventType.deserialize)
instance (x : MinefieldStateProtocolMode) : Builds exact (serialize_field x) := by dsimp only [serialize_field]; infer_instance
instance : Builds exact (deserialize_field : Get MinefieldStateProtocolMode) := inferInstanceAs (Builds exact MinefieldStateProtocolMode.deserialize)
instance (x : GridAxisDescriptorAxisType) : Builds exact (serialize_field x) := by dsimp only [serialize_field]; infer_instance
instance : Builds exact (deserialize_field : Get GridAxisDescriptorAxisType) := inferInstanceAs (Builds exact GridAxisDescriptorAxisType.deserialize)
instance : Builds exact CivilianSubmarineSubcategories.deserialize := by unfold CivilianSubmarineSubcategories.deserialize; infer_instance
instance : Builds exact CivilianSubmersibleSubcategories.deserialize := by unfold CivilianSubmersibleSubcategories.deserialize; infer_instance
instance (x : FrozenBehavior) : Builds exact (serialize_field x) := by dsimp only [serialize_field]; infer_instance
instance : Builds exact (deserialize_field : Get FrozenBehavior) := by dsimp only [deserialize_field]; infer_instance
instance (x : ObjectStateAppearanceGeneral) : Builds exact (serialize_field x) := by dsimp only [serialize_field]; infer_instance
instance : Builds exact (deserialize_field : Get ObjectStateAppearanceGeneral) := by dsimp only [deserialize_field]; infer_instance
instance (self : EntityMarking) : Builds exact (EntityMarking.serialize self) := by unfold EntityMarking.serialize; builds
instance : Builds exact EntityMarking.deserialize := by unfold EntityMarking.deserialize; infer_instance
instance (x : EntityMarking) : Builds exact (serialize_field x) := inferInstanceAs (Builds exact (EntityMarking.serialize x))
instance : Builds exact (deserialize_field : Get EntityMarking) := inferInstanceAs (Builds exact EntityMarking.deserialize)
instance (self : VariableDatumRecord) : Builds exact (VariableDatumRecord.serialize self) := by unfold VariableDatumRecord.serialize; builds
instance : Builds exact VariableDatumRecord.deserialize := by unfold VariableDatumRecord.deserialize; infer_instance
instance (x : VariableDatumRecord) : Builds exact (serialize_field x) := inferInstanceAs (Builds exact (VariableDatumRecord.serialize x))
instance : Builds exact (deserialize_field : Get VariableDatumRecord) := inferInstanceAs (Builds exact VariableDatumRecord.deserialize)
instance (self : RecordSpecificationElement) : Builds false (RecordSpecificationElement.serialize self) := by unfold RecordSpecificationElement.serialize; builds
instance : Builds false RecordSpecificationElement.deserialize := by unfold RecordSpecificationElement.deserialize; infer_instance
instance (x : RecordSpecificationElement) : Builds false (serialize_field x) := inferInstanceAs (Builds false (RecordSpecificationElement.serialize x))
instance : Builds false (deserialize_field : Get RecordSpecificationElement) := inferInstanceAs (Builds false RecordSpecificationElement.deserialize)
instance (self : GridAxisDescriptor) : Builds exact (GridAxisDescriptor.serialize self) := by unfold GridAxisDescriptor.serialize; cases self.data <;> dsimp only <;> builds
instance (axis_type : GridAxisDescriptorAxisType) : Builds exact (GridAxisDescriptor.deserializeData axis_type) := by unfold GridAxisDescriptor.deserializeData; infer_instance
instance : Builds exact GridAxisDescriptor.deserialize := by unfold GridAxisDescriptor.deserialize; infer_instance
instance (x : GridAxisDescriptor) : Builds exact (serialize_field x) := inferInstanceAs (Builds exact (GridAxisDescriptor.serialize x))
instance : Builds exact (deserialize_field : Get GridAxisDescriptor) := inferInstanceAs (Builds exact GridAxisDescriptor.deserialize)
instance (self : GridDataRecord) : Builds exact (GridDataRecord.serialize self) := by unfold GridDataRecord.serialize; cases self.data <;> dsimp only <;> builds
instance (r : GriddedDataDataRepresentation) : Builds exact (GridDataRecord.deserializeData r) := by unfold GridDataRecord.deserializeData; infer_instance
instance : Builds exact GridDataRecord.deserialize := by unfold GridDataRecord.deserialize; infer_instance
instance (x : GridDataRecord) : Builds exact (serialize_field x) := inferInstanceAs (Builds exact (GridDataRecord.serialize x))
instance : Builds exact (deserialize_field : Get GridDataRecord) := inferInstanceAs (Builds exact GridDataRecord.deserialize)
instance (self : ModulationParameters) : Builds exact (ModulationParameters.serialize self) := by unfold ModulationParameters.serialize; builds
instance (length : UInt8) : Builds exact (ModulationParameters.deserialize length) := by unfold ModulationParameters.deserialize; infer_instance
instance (x : ModulationParameters) : Builds exact (serialize_field x) := inferInstanceAs (Builds exact (ModulationParameters.serialize x))
instance : Builds exact (deserialize_field : Get ModulationParameters) := by dsimp only [deserialize_field]; infer_instance
instance (n : Nat) : Builds exact (deserialize_with_len n : Get ModulationParameters) := by dsimp only [deserialize_with_len]; infer_instance
instance (self : AntennaPattern) : Builds exact (AntennaPattern.serialize self) := by unfold AntennaPattern.serialize; builds
instance (length : UInt16) : Builds exact (AntennaPattern.deserialize length) := by unfold AntennaPattern.deserialize; infer_instance
instance (x : AntennaPattern) : Builds exact (serialize_field x) := inferInstanceAs (Builds exact (AntennaPattern.serialize x))
instance : Builds exact (deserialize_field : Get AntennaPattern) := by dsimp only [deserialize_field]; infer_instance
instance (n : Nat) : Builds exact (deserialize_with_len n : Get AntennaPattern) := by dsimp only [deserialize_with_len]; infer_instance
instance (self : AcousticBeamFundamentalParameter) : Builds exact (AcousticBeamFundamentalParameter.serialize self) := by unfold AcousticBeamFundamentalParameter.serialize; builds
instance : Builds exact AcousticBeamFundamentalParameter.deserialize := by unfold AcousticBeamFundamentalParameter.deserialize; infer_instance
instance (self : AcousticBeamData) : Builds exact (AcousticBeamData.serialize self) := by unfold AcousticBeamData.serialize; builds
instance : Builds exact AcousticBeamData.deserialize := by unfold AcousticBeamData.deserialize; infer_instance
instance (self : AcousticEmitterSystem) : Builds exact (AcousticEmitterSystem.serialize self) := by unfold AcousticEmitterSystem.serialize; builds
instance : Builds exact AcousticEmitterSystem.deserialize := by unfold AcousticEmitterSystem.deserialize; infer_instance
instance (x : AcousticEmitterSystem) : Builds exact (serialize_field x) := inferInstanceAs (Builds exact (AcousticEmitterSystem.serialize x))
instance : Builds exact (deserialize_field : Get AcousticEmitterSystem) := inferInstanceAs (Builds exact AcousticEmitterSystem.deserialize)
instance (self : Vector3Float) : Builds exact (Vector3Float.serialize self) := by unfold Vector3Float.serialize; builds
instance : Builds exact Vector3Float.deserialize := by unfold Vector3Float.deserialize; infer_instance
instance (x : Vector3Float) : Builds exact (serialize_field x) := inferInstanceAs (Builds exact (Vector3Float.serialize x))
instance : Builds exact (deserialize_field : Get Vector3Float) := inferInstanceAs (Builds exact Vector3Float.deserialize)
instance (self : AcousticEmitterSystemData) : Builds exact (AcousticEmitterSystemData.serialize self) := by unfold AcousticEmitterSystemData.serialize; builds
instance : Builds exact AcousticEmitterSystemData.deserialize := by unfold AcousticEmitterSystemData.deserialize; infer_instance
instance (self : AggregateId) : Builds exact (AggregateId.serialize self) := by unfold AggregateId.serialize; builds
instance : Builds exact AggregateId.deserialize := by unfold AggregateId.deserialize; infer_instance
instance (x : AggregateId) : Builds exact (serialize_field x) := inferInstanceAs (Builds exact (AggregateId.serialize x))
instance : Builds exact (deserialize_field : Get AggregateId) := inferInstanceAs (Builds exact AggregateId.deserialize)
instance (self : AggregateMarking) : Builds exact (AggregateMarking.serialize self) := by unfold AggregateMarking.serialize; builds
instance : Builds exact AggregateMarking.deserialize := by unfold AggregateMarking.deserialize; infer_instance
instance (x : AggregateMarking) : Builds exact (serialize_field x) := inferInstanceAs (Builds exact (AggregateMarking.serialize x))
instance : Builds exact (deserialize_field : Get AggregateMarking) := inferInstanceAs (Builds exact AggregateMarking.deserialize)
instance (self : AngularVelocity) : Builds exact (AngularVelocity.serialize self) := by unfold AngularVelocity.serialize; builds
instance : Builds exact AngularVelocity.deserialize := by unfold AngularVelocity.deserialize; infer_instance
instance (self : ApaData) : Builds exact (ApaData.serialize self) := by unfold ApaData.serialize; builds
instance : Builds exact ApaData.deserialize := by unfold ApaData.deserialize; infer_instance
instance (x : ApaData) : Builds exact (serialize_field x) := inferInstanceAs (Builds exact (ApaData.serialize x))
instance : Builds exact (deserialize_field : Get ApaData) := inferInstanceAs (Builds exact ApaData.deserialize)
instance (self : AttributeRecord) : Builds exact (AttributeRecord.serialize self) := by unfold AttributeRecord.serialize; builds
instance : Builds exact AttributeRecord.deserialize := by unfold AttributeRecord.deserialize; infer_instance
instance (x : AttributeRecord) : Builds exact (serialize_field x) := inferInstanceAs (Builds exact (AttributeRecord.serialize x))
instance : Builds exact (deserialize_field : Get AttributeRecord) := inferInstanceAs (Builds exact AttributeRecord.deserialize)
instance (self : SimulationAddress) : Builds exact (SimulationAddress.serialize self) := by unfold SimulationAddress.serialize; builds
instance : Builds exact SimulationAddress.deserialize := by unfold SimulationAddress.deserialize; infer_instance
instance (x : SimulationAddress) : Builds exact (serialize_field x) := inferInstanceAs (Builds exact (SimulationAddress.serialize x))
instance : Builds exact (deserialize_field : Get SimulationAddress) := inferInstanceAs (Builds exact SimulationAddress.deserialize)
instance (self : EntityId) : Builds exact (EntityId.serialize self) := by unfold EntityId.serialize; builds
instance : Builds exact EntityId.deserialize_simulation_address := by unfold EntityId.deserialize_simulation_address; infer_instance
instance : Builds exact EntityId.deserialize := by unfold EntityId.deserialize; infer_instance
instance (x : EntityId) : Builds exact (serialize_field x) := inferInstanceAs (Builds exact (EntityId.serialize x))
instance : Builds exact (deserialize_field : Get EntityId) := inferInstanceAs (Builds exact EntityId.deserialize)
instance (self : AttributeRecordSet) : Builds exact (AttributeRecordSet.serialize self) := by unfold AttributeRecordSet.serialize; builds
instance : Builds exact AttributeRecordSet.deserialize := by unfold AttributeRecordSet.deserialize; infer_instance
instance (x : AttributeRecordSet) : Builds exact (serialize_field x) := inferInstanceAs (Builds exact (AttributeRecordSet.serialize x))
instance : Builds exact (deserialize_field : Get AttributeRecordSet) := inferInstanceAs (Builds exact AttributeRecordSet.deserialize)
instance (self : BeamData) : Builds exact (BeamData.serialize self) := by unfold BeamData.serialize; builds
instance : Builds exact BeamData.deserialize := by unfold BeamData.deserialize; infer_instance
instance (x : BeamData) : Builds exact (serialize_field x) := inferInstanceAs (Builds exact (BeamData.serialize x))
instance : Builds exact (deserialize_field : Get BeamData) := inferInstanceAs (Builds exact BeamData.deserialize)
instance (self : ClockTime) : Builds exact (ClockTime.serialize self) := by unfold ClockTime.serialize; builds
instance : Builds exact ClockTime.deserialize := by unfold ClockTime.deserialize; infer_instance
instance (x : ClockTime) : Builds exact (serialize_field x) := inferInstanceAs (Builds exact (ClockTime.serialize x))
instance : Builds exact (deserialize_field : Get ClockTime) := inferInstanceAs (Builds exact ClockTime.deserialize)
instance (self : LinearAcceleration) : Builds exact (LinearAcceleration.serialize self) := by unfold LinearAcceleration.serialize; builds
instance : Builds exact LinearAcceleration.deserialize := by unfold LinearAcceleration.deserialize; infer_instance
instance (x : LinearAcceleration) : Builds exact (serialize_field x) := inferInstanceAs (Builds exact (LinearAcceleration.serialize x))
instance : Builds exact (deserialize_field : Get LinearAcceleration) := inferInstanceAs (Builds exact LinearAcceleration.deserialize)
instance (self : DeadReckoningParameters) : Builds exact (DeadReckoningParameters.serialize self) := by unfold DeadReckoningParameters.serialize; builds
instance : Builds exact DeadReckoningParameters.deserialize := by unfold DeadReckoningParameters.deserialize; infer_instance
instance (x : DeadReckoningParameters) : Builds exact (serialize_field x) := inferInstanceAs (Builds exact (DeadReckoningParameters.serialize x))
instance : Builds exact (deserialize_field : Get DeadReckoningParameters) := inferInstanceAs (Builds exact DeadReckoningParameters.deserialize)
instance (self : EntityCoordinateVector) : Builds exact (EntityCoordinateVector.serialize self) := by unfold EntityCoordinateVector.serialize; builds
instance : Builds exact EntityCoordinateVector.deserialize := by unfold EntityCoordinateVector.deserialize; infer_instance
instance (x : EntityCoordinateVector) : Builds exact (serialize_field x) := inferInstanceAs (Builds exact (EntityCoordinateVector.serialize x))
instance : Builds exact (deserialize_field : Get EntityCoordinateVector) := inferInstanceAs (Builds exact EntityCoordinateVector.deserialize)
instance (self : EventId) : Builds exact (EventId.serialize self) := by unfold EventId.serialize; builds
instance : Builds exact EventId.deserialize := by unfold EventId.deserialize; infer_instance
instance (x : EventId) : Builds exact (serialize_field x) := inferInstanceAs (Builds exact (EventId.serialize x))
instance : Builds exact (deserialize_field : Get EventId) := inferInstanceAs (Builds exact EventId.deserialize)
instance (self : DirectedEnergyDamage) : Builds exact (DirectedEnergyDamage.serialize self) := by unfold DirectedEnergyDamage.serialize; builds
instance : Builds exact DirectedEnergyDamage.deserialize := by unfold DirectedEnergyDamage.deserialize; infer_instance
instance (x : DirectedEnergyDamage) : Builds exact (serialize_field x) := inferInstanceAs (Builds exact (DirectedEnergyDamage.serialize x))
instance : Builds exact (deserialize_field : Get DirectedEnergyDamage) := inferInstanceAs (Builds exact DirectedEnergyDamage.deserialize)
instance (self : FundamentalParameterData) : Builds exact (FundamentalParameterData.serialize self) := by unfold FundamentalParameterData.serialize; builds
instance : Builds exact FundamentalParameterData.deserialize := by unfold FundamentalParameterData.deserialize; infer_instance
instance (x : FundamentalParameterData) : Builds exact (serialize_field x) := inferInstanceAs (Builds exact (FundamentalParameterData.serialize x))
instance : Builds exact (deserialize_field : Get FundamentalParameterData) := inferInstanceAs (Builds exact FundamentalParameterData.deserialize)
instance (self : TrackJamTarget) : Builds exact (TrackJamTarget.serialize self) := by unfold TrackJamTarget.serialize; builds
instance : Builds exact TrackJamTarget.deserialize := by unfold TrackJamTarget.deserialize; infer_instance
instance (x : TrackJamTarget) : Builds exact (serialize_field x) := inferInstanceAs (Builds exact (TrackJamTarget.serialize x))
instance : Builds exact (deserialize_field : Get TrackJamTarget) := inferInstanceAs (Builds exact TrackJamTarget.deserialize)
instance (self : ElectromagneticEmissionBeamData) : Builds exact (ElectromagneticEmissionBeamData.serialize self) := by unfold ElectromagneticEmissionBeamData.serialize; builds
instance : Builds exact ElectromagneticEmissionBeamData.deserialize := by unfold ElectromagneticEmissionBeamData.deserialize; infer_instance
instance (x : ElectromagneticEmissionBeamData) : Builds exact (serialize_field x) := inferInstanceAs (Builds exact (ElectromagneticEmissionBeamData.serialize x))
instance : Builds exact (deserialize_field : Get ElectromagneticEmissionBeamData) := inferInstanceAs (Builds exact ElectromagneticEmissionBeamData.deserialize)
instance (self : EmitterSystem) : Builds exact (EmitterSystem.serialize self) := by unfold EmitterSystem.serialize; builds
instance : Builds exact EmitterSystem.deserialize := by unfold EmitterSystem.deserialize; infer_instance
instance (self : ElectromagneticEmissionSystemData) : Builds exact (ElectromagneticEmissionSystemData.serialize self) := by unfold ElectromagneticEmissionSystemData.serialize; builds
instance : Builds exact ElectromagneticEmissionSystemData.deserialize := by unfold ElectromagneticEmissionSystemData.deserialize; infer_instance
instance (x : ElectromagneticEmissionSystemData) : Builds exact (serialize_field x) := inferInstanceAs (Builds exact (ElectromagneticEmissionSystemData.serialize x))
instance : Builds exact (deserialize_field : Get ElectromagneticEmissionSystemData) := inferInstanceAs (Builds exact ElectromagneticEmissionSystemData.deserialize)
instance (self : EntityType) : Builds exact (EntityType.serialize self) := by unfold EntityType.serialize; builds
instance : Builds exact EntityType.deserialize := by unfold EntityType.deserialize; infer_instance
instance (x : EntityType) : Builds exact (serialize_field x) := inferInstanceAs (Builds exact (EntityType.serialize x))
instance : Builds exact (deserialize_field : Get EntityType) := inferInstanceAs (Builds exact EntityType.deserialize)
instance (self : Environment) : Builds exact (Environment.serialize self) := by unfold Environment.serialize; builds
instance : Builds exact Environment.deserialize := by unfold Environment.deserialize; infer_instance
instance (x : Environment) : Builds exact (serialize_field x) := inferInstanceAs (Builds exact (Environment.serialize x))
instance : Builds exact (deserialize_field : Get Environment) := inferInstanceAs (Builds exact Environment.deserialize)
instance (self : EulerAngles) : Builds exact (EulerAngles.serialize self) := by unfold EulerAngles.serialize; builds
instance : Builds exact EulerAngles.deserialize := by unfold EulerAngles.deserialize; infer_instance
instance (x : EulerAngles) : Builds exact (serialize_field x) := inferInstanceAs (Builds exact (EulerAngles.serialize x))
instance : Builds exact (deserialize_field : Get EulerAngles) := inferInstanceAs (Builds exact EulerAngles.deserialize)
instance (self : FixedDatumRecord) : Builds exact (FixedDatumRecord.serialize self) := by unfold FixedDatumRecord.serialize; builds
instance : Builds exact FixedDatumRecord.deserialize := by unfold FixedDatumRecord.deserialize; infer_instance
instance (x : FixedDatumRecord) : Builds exact (serialize_field x) := inferInstanceAs (Builds exact (FixedDatumRecord.serialize x))
instance : Builds exact (deserialize_field : Get FixedDatumRecord) := inferInstanceAs (Builds exact FixedDatumRecord.deserialize)
instance (self : FundamentalOperationalData) : Builds exact (FundamentalOperationalData.serialize self) := by unfold FundamentalOperationalData.serialize; builds
instance : Builds exact FundamentalOperationalData.deserialize := by unfold FundamentalOperationalData.deserialize; infer_instance
instance (x : FundamentalOperationalData) : Builds exact (serialize_field x) := inferInstanceAs (Builds exact (FundamentalOperationalData.serialize x))
instance : Builds exact (deserialize_field : Get FundamentalOperationalData) := inferInstanceAs (Builds exact FundamentalOperationalData.deserialize)
instance (self : IFFFundamentalParameterData) : Builds exact (IFFFundamentalParameterData.serialize self) := by unfold IFFFundamentalParameterData.serialize; builds
instance : Builds exact IFFFundamentalParameterData.deserialize := by unfold IFFFundamentalParameterData.deserialize; infer_instance
instance (x : IFFFundamentalParameterData) : Builds exact (serialize_field x) := inferInstanceAs (Builds exact (IFFFundamentalParameterData.serialize x))
instance : Builds exact (deserialize_field : Get IFFFundamentalParameterData) := inferInstanceAs (Builds exact IFFFundamentalParameterData.deserialize)
instance (self : IntercomCommunicationsParameters) : Builds exact (IntercomCommunicationsParameters.serialize self) := by unfold IntercomCommunicationsParameters.serialize; builds
instance : Builds exact IntercomCommunicationsParameters.deserialize := by unfold IntercomCommunicationsParameters.deserialize; infer_instance
instance (x : IntercomCommunicationsParameters) : Builds exact (serialize_field x) := inferInstanceAs (Builds exact (IntercomCommunicationsParameters.serialize x))
instance : Builds exact (deserialize_field : Get IntercomCommunicationsParameters) := inferInstanceAs (Builds exact IntercomCommunicationsParameters.deserialize)
instance (self : LayerHeader) : Builds exact (LayerHeader.serialize self) := by unfold LayerHeader.serialize; builds
instance : Builds exact LayerHeader.deserialize := by unfold LayerHeader.deserialize; infer_instance
instance (x : LayerHeader) : Builds exact (serialize_field x) := inferInstanceAs (Builds exact (LayerHeader.serialize x))
instance : Builds exact (deserialize_field : Get LayerHeader) := inferInstanceAs (Builds exact LayerHeader.deserialize)
instance (self : WorldCoordinate) : Builds exact (WorldCoordinate.serialize self) := by unfold WorldCoordinate.serialize; builds
instance : Builds exact WorldCoordinate.deserialize := by unfold WorldCoordinate.deserialize; infer_instance
instance (x : WorldCoordinate) : Builds exact (serialize_field x) := inferInstanceAs (Builds exact (WorldCoordinate.serialize x))
instance : Builds exact (deserialize_field : Get WorldCoordinate) := inferInstanceAs (Builds exact WorldCoordinate.deserialize)
instance (self : LinearSegmentParameter) : Builds exact (LinearSegmentParameter.serialize self) := by unfold LinearSegmentParameter.serialize; builds
instance : Builds exact LinearSegmentParameter.deserialize := by unfold LinearSegmentParameter.deserialize; infer_instance
instance (x : LinearSegmentParameter) : Builds exact (serialize_field x) := inferInstanceAs (Builds exact (LinearSegmentParameter.serialize x))
instance : Builds exact (deserialize_field : Get LinearSegmentParameter) := inferInstanceAs (Builds exact LinearSegmentParameter.deserialize)
instance (self : LinearVelocity) : Builds exact (LinearVelocity.serialize self) := by unfold LinearVelocity.serialize; builds
instance : Builds exact LinearVelocity.deserialize := by unfold LinearVelocity.deserialize; infer_instance
instance (x : LinearVelocity) : Builds exact (serialize_field x) := inferInstanceAs (Builds exact (LinearVelocity.serialize x))
instance : Builds exact (deserialize_field : Get LinearVelocity) := inferInstanceAs (Builds exact LinearVelocity.deserialize)
instance (self : MinefieldIdentifier) : Builds exact (MinefieldIdentifier.serialize self) := by unfold MinefieldIdentifier.serialize; builds
instance : Builds exact MinefieldIdentifier.deserialize := by unfold MinefieldIdentifier.deserialize; infer_instance
instance (x : MinefieldIdentifier) : Builds exact (serialize_field x) := inferInstanceAs (Builds exact (MinefieldIdentifier.serialize x))
instance : Builds exact (deserialize_field : Get MinefieldIdentifier) := inferInstanceAs (Builds exact MinefieldIdentifier.deserialize)
instance (self : ModulationType) : Builds exact (ModulationType.serialize self) := by unfold ModulationType.serialize; builds
instance : Builds exact ModulationType.deserialize := by unfold ModulationType.deserialize; infer_instance
instance (x : ModulationType) : Builds exact (serialize_field x) := inferInstanceAs (Builds exact (ModulationType.serialize x))
instance : Builds exact (deserialize_field : Get ModulationType) := inferInstanceAs (Builds exact ModulationType.deserialize)
instance (self : MunitionDescriptor) : Builds exact (MunitionDescriptor.serialize self) := by unfold MunitionDescriptor.serialize; builds
instance : Builds exact MunitionDescriptor.deserialize := by unfold MunitionDescriptor.deserialize; infer_instance
instance (x : MunitionDescriptor) : Builds exact (serialize_field x) := inferInstanceAs (Builds exact (MunitionDescriptor.serialize x))
instance : Builds exact (deserialize_field : Get MunitionDescriptor) := inferInstanceAs (Builds exact MunitionDescriptor.deserialize)
instance (self : NamedLocation) : Builds exact (NamedLocation.serialize self) := by unfold NamedLocation.serialize; builds
instance : Builds exact NamedLocation.deserialize := by unfold NamedLocation.deserialize; infer_instance
instance (x : NamedLocation) : Builds exact (serialize_field x) := inferInstanceAs (Builds exact (NamedLocation.serialize x))
instance : Builds exact (deserialize_field : Get NamedLocation) := inferInstanceAs (Builds exact NamedLocation.deserialize)
instance (self : ObjectIdentifier) : Builds exact (ObjectIdentifier.serialize self) := by unfold ObjectIdentifier.serialize; builds
instance : Builds exact ObjectIdentifier.deserialize := by unfold ObjectIdentifier.deserialize; infer_instance
instance (x : ObjectIdentifier) : Builds exact (serialize_field x) := inferInstanceAs (Builds exact (ObjectIdentifier.serialize x))
instance : Builds exact (deserialize_field : Get ObjectIdentifier) := inferInstanceAs (Builds exact ObjectIdentifier.deserialize)
instance (self : ObjectType) : Builds exact (ObjectType.serialize self) := by unfold ObjectType.serialize; builds
instance : Builds exact ObjectType.deserialize := by unfold ObjectType.deserialize; infer_instance
instance (x : ObjectType) : Builds exact (serialize_field x) := inferInstanceAs (Builds exact (ObjectType.serialize x))
instance : Builds exact (deserialize_field : Get ObjectType) := inferInstanceAs (Builds exact ObjectType.deserialize)
instance (self : Point) : Builds exact (Point.serialize self) := by unfold Point.serialize; builds
instance : Builds exact Point.deserialize := by unfold Point.deserialize; infer_instance
instance (x : Point) : Builds exact (serialize_field x) := inferInstanceAs (Builds exact (Point.serialize x))
instance : Builds exact (deserialize_field : Get Point) := inferInstanceAs (Builds exact Point.deserialize)
instance (self : PropulsionSystemData) : Builds exact (PropulsionSystemData.serialize self) := by unfold PropulsionSystemData.serialize; builds
instance : Builds exact PropulsionSystemData.deserialize := by unfold PropulsionSystemData.deserialize; infer_instance
instance (x : PropulsionSystemData) : Builds exact (serialize_field x) := inferInstanceAs (Builds exact (PropulsionSystemData.serialize x))
instance : Builds exact (deserialize_field : Get PropulsionSystemData) := inferInstanceAs (Builds exact PropulsionSystemData.deserialize)
instance (self : RadioEntityType) : Builds exact (RadioEntityType.serialize self) := by unfold RadioEntityType.serialize; builds
instance : Builds exact RadioEntityType.deserialize := by unfold RadioEntityType.deserialize; infer_instance
instance (x : RadioEntityType) : Builds exact (serialize_field x) := inferInstanceAs (Builds exact (RadioEntityType.serialize x))
instance : Builds exact (deserialize_field : Get RadioEntityType) := inferInstanceAs (Builds exact RadioEntityType.deserialize)
instance (self : RecordSpecification) : Builds false (RecordSpecification.serialize self) := by unfold RecordSpecification.serialize; builds
instance : Builds false RecordSpecification.deserialize := by unfold RecordSpecification.deserialize; infer_instance
instance (x : RecordSpecification) : Builds false (serialize_field x) := inferInstanceAs (Builds false (RecordSpecification.serialize x))
instance : Builds false (deserialize_field : Get RecordSpecification) := inferInstanceAs (Builds false RecordSpecification.deserialize)
instance (self : Relationship) : Builds exact (Relationship.serialize self) := by unfold Relationship.serialize; builds
instance : Builds exact Relationship.deserialize := by unfold Relationship.deserialize; infer_instance
instance (x : Relationship) : Builds exact (serialize_field x) := inferInstanceAs (Builds exact (Relationship.serialize x))
instance : Builds exact (deserialize_field : Get Relationship) := inferInstanceAs (Builds exact Relationship.deserialize)
instance (self : SecondaryOperationalData) : Builds exact (SecondaryOperationalData.serialize self) := by unfold SecondaryOperationalData.serialize; builds
instance : Builds exact SecondaryOperationalData.deserialize := by unfold SecondaryOperationalData.deserialize; infer_instance
instance (x : SecondaryOperationalData) : Builds exact (serialize_field x) := inferInstanceAs (Builds exact (SecondaryOperationalData.serialize x))
instance : Builds exact (deserialize_field : Get SecondaryOperationalData) := inferInstanceAs (Builds exact SecondaryOperationalData.deserialize)
instance (self : ShaftRPMs) : Builds exact (ShaftRPMs.serialize self) := by unfold ShaftRPMs.serialize; builds
instance : Builds exact ShaftRPMs.deserialize := by unfold ShaftRPMs.deserialize; infer_instance
instance (x : ShaftRPMs) : Builds exact (serialize_field x) := inferInstanceAs (Builds exact (ShaftRPMs.serialize x))
instance : Builds exact (deserialize_field : Get ShaftRPMs) := inferInstanceAs (Builds exact ShaftRPMs.deserialize)
instance (self : SimulationIdentifier) : Builds exact (SimulationIdentifier.serialize self) := by unfold SimulationIdentifier.serialize; builds
instance : Builds exact SimulationIdentifier.deserialize := by unfold SimulationIdentifier.deserialize; infer_instance
instance (x : SimulationIdentifier) : Builds exact (serialize_field x) := inferInstanceAs (Builds exact (SimulationIdentifier.serialize x))
instance : Builds exact (deserialize_field : Get SimulationIdentifier) := inferInstanceAs (Builds exact SimulationIdentifier.deserialize)
instance (self : StandardVariableRecords) : Builds exact (StandardVariableRecords.serialize self) := by unfold StandardVariableRecords.serialize; builds
instance : Builds exact StandardVariableRecords.deserialize := by unfold StandardVariableRecords.deserialize; infer_instance
instance (x : StandardVariableRecords) : Builds exact (serialize_field x) := inferInstanceAs (Builds exact (StandardVariableRecords.serialize x))
instance : Builds exact (deserialize_field : Get StandardVariableRecords) := inferInstanceAs (Builds exact StandardVariableRecords.deserialize)
instance (self : StandardVariableSpecification) : Builds exact (StandardVariableSpecification.serialize self) := by unfold StandardVariableSpecification.serialize; builds
instance : Builds exact StandardVariableSpecification.deserialize := by unfold StandardVariableSpecification.deserialize; infer_instance
instance (self : StandardVariableSpecification) : Builds exact (StandardVariableSpecification.serializeField self) := by unfold StandardVariableSpecification.serializeField; builds
instance (x : StandardVariableSpecification) : Builds exact (serialize_field x) := inferInstanceAs (Builds exact (StandardVariableSpecification.serializeField x))
instance : Builds exact StandardVariableSpecification.deserializeField := by unfold StandardVariableSpecification.deserializeField; infer_instance
instance : Builds exact (deserialize_field : Get StandardVariableSpecification) := inferInstanceAs (Builds exact StandardVariableSpecification.deserializeField)
instance (self : SupplyQuantity) : Builds exact (SupplyQuantity.serialize self) := by unfold SupplyQuantity.serialize; builds
instance : Builds exact SupplyQuantity.deserialize := by unfold SupplyQuantity.deserialize; infer_instance
instance (x : SupplyQuantity) : Builds exact (serialize_field x) := inferInstanceAs (Builds exact (SupplyQuantity.serialize x))
instance : Builds exact (deserialize_field : Get SupplyQuantity) := inferInstanceAs (Builds exact SupplyQuantity.deserialize)
instance (self : SystemId) : Builds exact (SystemId.serialize self) := by unfold SystemId.serialize; builds
instance : Builds exact SystemId.deserialize := by unfold SystemId.deserialize; infer_instance
instance (x : SystemId) : Builds exact (serialize_field x) := inferInstanceAs (Builds exact (SystemId.serialize x))
instance : Builds exact (deserialize_field : Get SystemId) := inferInstanceAs (Builds exact SystemId.deserialize)
instance (self : VariableParameter) : Builds exact (VariableParameter.serialize self) := by unfold VariableParameter.serialize; builds
instance : Builds exact VariableParameter.deserialize := by unfold VariableParameter.deserialize; infer_instance
instance (x : VariableParameter) : Builds exact (serialize_field x) := inferInstanceAs (Builds exact (VariableParameter.serialize x))
instance : Builds exact (deserialize_field : Get VariableParameter) := inferInstanceAs (Builds exact VariableParameter.deserialize)
instance (self : VariableTransmitterParameters) : Builds exact (VariableTransmitterParameters.serialize self) := by unfold VariableTransmitterParameters.serialize; builds
instance : Builds exact VariableTransmitterParameters.deserialize := by unfold VariableTransmitterParameters.deserialize; infer_instance
instance (x : VariableTransmitterParameters) : Builds exact (serialize_field x) := inferInstanceAs (Builds exact (VariableTransmitterParameters.serialize x))
instance : Builds exact (deserialize_field : Get VariableTransmitterParameters) := inferInstanceAs (Builds exact VariableTransmitterParameters.deserialize)
instance (self : Vector3Double) : Builds exact (Vector3Double.serialize self) := by unfold Vector3Double.serialize; builds
instance : Builds exact Vector3Double.deserialize := by unfold Vector3Double.deserialize; infer_instance
instance (self : VectoringNozzleSystemData) : Builds exact (VectoringNozzleSystemData.serialize self) := by unfold VectoringNozzleSystemData.serialize; builds
instance : Builds exact VectoringNozzleSystemData.deserialize := by unfold VectoringNozzleSystemData.deserialize; infer_instance
instance (x : VectoringNozzleSystemData) : Builds exact (serialize_field x) := inferInstanceAs (Builds exact (VectoringNozzleSystemData.serialize x))
instance : Builds exact (deserialize_field : Get VectoringNozzleSystemData) := inferInstanceAs (Builds exact VectoringNozzleSystemData.deserialize)
instance (self : VelocityVector) : Builds exact (VelocityVector.serialize self) := by unfold VelocityVector.serialize; builds
instance : Builds exact VelocityVector.deserialize := by unfold VelocityVector.deserialize; infer_instance
instance (x : PduHeader) : Builds exact x.serialize := by unfold PduHeader.serialize; builds
instance : Builds exact PduHeader.deserialize := by unfold PduHeader.deserialize; infer_instance
instance (x : LiveEntityPduHeader) : Builds exact x.serialize := by unfold LiveEntityPduHeader.serialize; builds
instance : Builds exact LiveEntityPduHeader.deserialize := by unfold LiveEntityPduHeader.deserialize; infer_instance
instance (x : PduHeader) : Builds exact (serialize_field x) := inferInstanceAs (Builds exact x.serialize)
instance : Builds exact (deserialize_field : Get PduHeader) := inferInstanceAs (Builds exact PduHeader.deserialize)

end Dis
