import Verif.Proofs.Steps
/- Generated by tools/gen_steps.py. -/
set_option synthInstance.maxSize 1000
set_option synthInstance.maxHeartbeats 200000
set_option maxRecDepth 4000
namespace Dis

instance : Steps getU8 := by unfold getU8; infer_instance
instance : Reserves 0 getU8 := by unfold getU8; infer_instance
instance (x) : Puts (putU8 x) := by unfold putU8; infer_instance
instance : Steps getU16 := by unfold getU16; infer_instance
instance : Reserves 0 getU16 := by unfold getU16; infer_instance
instance (x) : Puts (putU16 x) := by unfold putU16; infer_instance
instance : Steps getU32 := by unfold getU32; infer_instance
instance : Reserves 0 getU32 := by unfold getU32; infer_instance
instance (x) : Puts (putU32 x) := by unfold putU32; infer_instance
instance : Steps getU64 := by unfold getU64; infer_instance
instance : Reserves 0 getU64 := by unfold getU64; infer_instance
instance (x) : Puts (putU64 x) := by unfold putU64; infer_instance
instance : Steps getI8 := by unfold getI8; infer_instance
instance : Reserves 0 getI8 := by unfold getI8; infer_instance
instance (x) : Puts (putI8 x) := by unfold putI8; infer_instance
instance : Steps getI16 := by unfold getI16; infer_instance
instance : Reserves 0 getI16 := by unfold getI16; infer_instance
instance (x) : Puts (putI16 x) := by unfold putI16; infer_instance
instance : Steps getI32 := by unfold getI32; infer_instance
instance : Reserves 0 getI32 := by unfold getI32; infer_instance
instance (x) : Puts (putI32 x) := by unfold putI32; infer_instance
instance : Steps getI64 := by unfold getI64; infer_instance
instance : Reserves 0 getI64 := by unfold getI64; infer_instance
instance (x) : Puts (putI64 x) := by unfold putI64; infer_instance
instance : Steps getF32 := by unfold getF32; infer_instance
instance : Reserves 0 getF32 := by unfold getF32; infer_instance
instance (x) : Puts (putF32 x) := by unfold putF32; infer_instance
instance : Steps getF64 := by unfold getF64; infer_instance
instance : Reserves 0 getF64 := by unfold getF64; infer_instance
instance (x) : Puts (putF64 x) := by unfold putF64; infer_instance

instance (s : EnumSpec) : Steps s.deserialize := by unfold EnumSpec.deserialize; cases s.repr <;> infer_instance
instance (s : EnumSpec) : Reserves 0 s.deserialize := by unfold EnumSpec.deserialize; cases s.repr <;> infer_instance

instance : Steps (deserialize_field : Get UInt8) := inferInstanceAs (Steps getU8)
instance : Reserves 0 (deserialize_field : Get UInt8) := inferInstanceAs (Reserves 0 getU8)
instance (x : UInt8) : Puts (serialize_field x) := inferInstanceAs (Puts (putU8 x))
instance : Steps (deserialize_field : Get UInt16) := inferInstanceAs (Steps getU16)
instance : Reserves 0 (deserialize_field : Get UInt16) := inferInstanceAs (Reserves 0 getU16)
instance (x : UInt16) : Puts (serialize_field x) := inferInstanceAs (Puts (putU16 x))
instance : Steps (deserialize_field : Get UInt32) := inferInstanceAs (Steps getU32)
instance : Reserves 0 (deserialize_field : Get UInt32) := inferInstanceAs (Reserves 0 getU32)
instance (x : UInt32) : Puts (serialize_field x) := inferInstanceAs (Puts (putU32 x))
instance : Steps (deserialize_field : Get UInt64) := inferInstanceAs (Steps getU64)
instance : Reserves 0 (deserialize_field : Get UInt64) := inferInstanceAs (Reserves 0 getU64)
instance (x : UInt64) : Puts (serialize_field x) := inferInstanceAs (Puts (putU64 x))
instance : Steps (deserialize_field : Get Int8) := inferInstanceAs (Steps getI8)
instance : Reserves 0 (deserialize_field : Get Int8) := inferInstanceAs (Reserves 0 getI8)
instance (x : Int8) : Puts (serialize_field x) := inferInstanceAs (Puts (putI8 x))
instance : Steps (deserialize_field : Get Int16) := inferInstanceAs (Steps getI16)
instance : Reserves 0 (deserialize_field : Get Int16) := inferInstanceAs (Reserves 0 getI16)
instance (x : Int16) : Puts (serialize_field x) := inferInstanceAs (Puts (putI16 x))
instance : Steps (deserialize_field : Get Int32) := inferInstanceAs (Steps getI32)
instance : Reserves 0 (deserialize_field : Get Int32) := inferInstanceAs (Reserves 0 getI32)
instance (x : Int32) : Puts (serialize_field x) := inferInstanceAs (Puts (putI32 x))
instance : Steps (deserialize_field : Get Int64) := inferInstanceAs (Steps getI64)
instance : Reserves 0 (deserialize_field : Get Int64) := inferInstanceAs (Reserves 0 getI64)
instance (x : Int64) : Puts (serialize_field x) := inferInstanceAs (Puts (putI64 x))
instance : Steps (deserialize_field : Get F32) := inferInstanceAs (Steps getF32)
instance : Reserves 0 (deserialize_field : Get F32) := inferInstanceAs (Reserves 0 getF32)
instance (x : F32) : Puts (serialize_field x) := inferInstanceAs (Puts (putF32 x))
instance : Steps (deserialize_field : Get F64) := inferInstanceAs (Steps getF64)
instance : Reserves 0 (deserialize_field : Get F64) := inferInstanceAs (Reserves 0 getF64)
instance (x : F64) : Puts (serialize_field x) := inferInstanceAs (Puts (putF64 x))

instance : Steps (deserialize_field : Get String) := inferInstanceAs (Steps (Pure.pure "" : M String))
instance : Reserves 0 (deserialize_field : Get String) := inferInstanceAs (Reserves 0 (Pure.pure "" : M String))
instance (x : String) : Puts (serialize_field x) := inferInstanceAs (Puts (putBytes (strBytes x)))
instance {α : Type} [FieldDeserialize α] : Steps (deserialize_field : Get (List α)) :=
  inferInstanceAs (Steps (Pure.pure [] : M (List α)))
instance {α : Type} [FieldDeserialize α] : Reserves 0 (deserialize_field : Get (List α)) :=
  inferInstanceAs (Reserves 0 (Pure.pure [] : M (List α)))
instance {α : Type} [FieldSerialize α] [∀ x : α, Puts (serialize_field x)] (x : List α) : Puts (serialize_field x) :=
  inferInstanceAs (Puts (putEach serialize_field x))
instance {α : Type} [FieldDeserialize α] : Steps (deserialize_field : Get (Option α)) :=
  inferInstanceAs (Steps (Pure.pure none : M (Option α)))
instance {α : Type} [FieldDeserialize α] : Reserves 0 (deserialize_field : Get (Option α)) :=
  inferInstanceAs (Reserves 0 (Pure.pure none : M (Option α)))
instance {α : Type} [FieldSerialize α] [h : ∀ x : α, Puts (serialize_field x)] : (x : Option α) → Puts (serialize_field x)
  | none => inferInstanceAs (Puts (Pure.pure ()))
  | some x => h x
instance {α : Type} [FieldDeserializeWithLen α] (n : Nat) [Steps (deserialize_with_len n : Get α)] :
    Steps (deserialize_with_len n : Get (Option α)) :=
  inferInstanceAs (Steps (if n = 0 then Pure.pure none else (deserialize_with_len n : Get α) >>= fun x => Pure.pure (some x)))
instance {α : Type} [FieldDeserializeWithLen α] (n : Nat) [Reserves 0 (deserialize_with_len n : Get α)] :
    Reserves 0 (deserialize_with_len n : Get (Option α)) :=
  inferInstanceAs (Reserves 0 (if n = 0 then Pure.pure none else (deserialize_with_len n : Get α) >>= fun x => Pure.pure (some x)))
instance (xs : Bytes) (i : Nat) : Puts (putIndex xs i) := by unfold putIndex; split <;> infer_instance

instance (x : ForceId) : Puts (serialize_field x) := by dsimp only [serialize_field]; infer_instance
instance : Steps (deserialize_field : Get ForceId) := inferInstanceAs (Steps ForceId.deserialize)
instance : Reserves 0 (deserialize_field : Get ForceId) := inferInstanceAs (Reserves 0 ForceId.deserialize)
instance (x : DeadReckoningAlgorithm) : Puts (serialize_field x) := by dsimp only [serialize_field]; infer_instance
instance : Steps (deserialize_field : Get DeadReckoningAlgorithm) := inferInstanceAs (Steps DeadReckoningAlgorithm.deserialize)
instance : Reserves 0 (deserialize_field : Get DeadReckoningAlgorithm) := inferInstanceAs (Reserves 0 DeadReckoningAlgorithm.deserialize)
instance (x : EntityCapabilities) : Puts (serialize_field x) := by dsimp only [serialize_field]; infer_instance
instance : Steps (deserialize_field : Get EntityCapabilities) := inferInstanceAs (Steps EntityCapabilities.deserialize)
instance : Reserves 0 (deserialize_field : Get EntityCapabilities) := inferInstanceAs (Reserves 0 EntityCapabilities.deserialize)
instance (x : DetonationResult) : Puts (serialize_field x) := by dsimp only [serialize_field]; infer_instance
instance : Steps (deserialize_field : Get DetonationResult) := inferInstanceAs (Steps DetonationResult.deserialize)
instance : Reserves 0 (deserialize_field : Get DetonationResult) := inferInstanceAs (Reserves 0 DetonationResult.deserialize)
instance (x : ServiceRequestServiceTypeRequested) : Puts (serialize_field x) := by dsimp only [serialize_field]; infer_instance
instance : Steps (deserialize_field : Get ServiceRequestServiceTypeRequested) := inferInstanceAs (Steps ServiceRequestServiceTypeRequested.deserialize)
instance : Reserves 0 (deserialize_field : Get ServiceRequestServiceTypeRequested) := inferInstanceAs (Reserves 0 ServiceRequestServiceTypeRequested.deserialize)
instance (x : RepairCompleteRepair) : Puts (serialize_field x) := by dsimp only [serialize_field]; infer_instance
instance : Steps (deserialize_field : Get RepairCompleteRepair) := inferInstanceAs (Steps RepairCompleteRepair.deserialize)
instance : Reserves 0 (deserialize_field : Get RepairCompleteRepair) := inferInstanceAs (Reserves 0 RepairCompleteRepair.deserialize)
instance (x : RepairResponseRepairResult) : Puts (serialize_field x) := by dsimp only [serialize_field]; infer_instance
instance : Steps (deserialize_field : Get RepairResponseRepairResult) := inferInstanceAs (Steps RepairResponseRepairResult.deserialize)
instance : Reserves 0 (deserialize_field : Get RepairResponseRepairResult) := inferInstanceAs (Reserves 0 RepairResponseRepairResult.deserialize)
instance (x : VariableRecordTypes) : Puts (serialize_field x) := by dsimp only [serialize_field]; infer_instance
instance : Steps (deserialize_field : Get VariableRecordTypes) := inferInstanceAs (Steps VariableRecordTypes.deserialize)
instance : Reserves 0 (deserialize_field : Get VariableRecordTypes) := inferInstanceAs (Reserves 0 VariableRecordTypes.deserialize)
instance (x : Reason) : Puts (serialize_field x) := by dsimp only [serialize_field]; infer_instance
instance : Steps (deserialize_field : Get Reason) := inferInstanceAs (Steps Reason.deserialize)
instance : Reserves 0 (deserialize_field : Get Reason) := inferInstanceAs (Reserves 0 Reason.deserialize)
instance (x : AcknowledgeFlag) : Puts (serialize_field x) := by dsimp only [serialize_field]; infer_instance
instance : Steps (deserialize_field : Get AcknowledgeFlag) := inferInstanceAs (Steps AcknowledgeFlag.deserialize)
instance : Reserves 0 (deserialize_field : Get AcknowledgeFlag) := inferInstanceAs (Reserves 0 AcknowledgeFlag.deserialize)
instance (x : AcknowledgeResponseFlag) : Puts (serialize_field x) := by dsimp only [serialize_field]; infer_instance
instance : Steps (deserialize_field : Get AcknowledgeResponseFlag) := inferInstanceAs (Steps AcknowledgeResponseFlag.deserialize)
instance : Reserves 0 (deserialize_field : Get AcknowledgeResponseFlag) := inferInstanceAs (Reserves 0 AcknowledgeResponseFlag.deserialize)
instance (x : ActionResponseRequestStatus) : Puts (serialize_field x) := by dsimp only [serialize_field]; infer_instance
instance : Steps (deserialize_field : Get ActionResponseRequestStatus) := inferInstanceAs (Steps ActionResponseRequestStatus.deserialize)
instance : Reserves 0 (deserialize_field : Get ActionResponseRequestStatus) := inferInstanceAs (Reserves 0 ActionResponseRequestStatus.deserialize)
instance (x : EventType) : Puts (serialize_field x) := by dsimp only [serialize_field]; infer_instance
instance : Steps (deserialize_field : Get EventType) := inferInstanceAs (Steps EventType.deserialize)
instance : Reserves 0 (deserialize_field : Get EventType) := inferInstanceAs (Reserves 0 EventType.deserialize)
instance (x : RequiredReliabilityService) : Puts (serialize_field x) := by dsimp only [serialize_field]; infer_instance
instance : Steps (deserialize_field : Get RequiredReliabilityService) := inferInstanceAs (Steps RequiredReliabilityService.deserialize)
instance : Reserves 0 (deserialize_field : Get RequiredReliabilityService) := inferInstanceAs (Reserves 0 RequiredReliabilityService.deserialize)
instance (x : DesignatorSystemName) : Puts (serialize_field x) := by dsimp only [serialize_field]; infer_instance
instance : Steps (deserialize_field : Get DesignatorSystemName) := inferInstanceAs (Steps DesignatorSystemName.deserialize)
instance : Reserves 0 (deserialize_field : Get DesignatorSystemName) := inferInstanceAs (Reserves 0 DesignatorSystemName.deserialize)
instance (x : DesignatorCode) : Puts (serialize_field x) := by dsimp only [serialize_field]; infer_instance
instance : Steps (deserialize_field : Get DesignatorCode) := inferInstanceAs (Steps DesignatorCode.deserialize)
instance : Reserves 0 (deserialize_field : Get DesignatorCode) := inferInstanceAs (Reserves 0 DesignatorCode.deserialize)
instance (x : UAStateChangeUpdateIndicator) : Puts (serialize_field x) := by dsimp only [serialize_field]; infer_instance
instance : Steps (deserialize_field : Get UAStateChangeUpdateIndicator) := inferInstanceAs (Steps UAStateChangeUpdateIndicator.deserialize)
instance : Reserves 0 (deserialize_field : Get UAStateChangeUpdateIndicator) := inferInstanceAs (Reserves 0 UAStateChangeUpdateIndicator.deserialize)
instance (x : UAAcousticSystemName) : Puts (serialize_field x) := by dsimp only [serialize_field]; infer_instance
instance : Steps (deserialize_field : Get UAAcousticSystemName) := inferInstanceAs (Steps UAAcousticSystemName.deserialize)
instance : Reserves 0 (deserialize_field : Get UAAcousticSystemName) := inferInstanceAs (Reserves 0 UAAcousticSystemName.deserialize)
instance (x : UAAcousticEmitterSystemFunction) : Puts (serialize_field x) := by dsimp only [serialize_field]; infer_instance
instance : Steps (deserialize_field : Get UAAcousticEmitterSystemFunction) := inferInstanceAs (Steps UAAcousticEmitterSystemFunction.deserialize)
instance : Reserves 0 (deserialize_field : Get UAAcousticEmitterSystemFunction) := inferInstanceAs (Reserves 0 UAAcousticEmitterSystemFunction.deserialize)
instance (x : UAPassiveParameterIndex) : Puts (serialize_field x) := by dsimp only [serialize_field]; infer_instance
instance : Steps (deserialize_field : Get UAPassiveParameterIndex) := inferInstanceAs (Steps UAPassiveParameterIndex.deserialize)
instance : Reserves 0 (deserialize_field : Get UAPassiveParameterIndex) := inferInstanceAs (Reserves 0 UAPassiveParameterIndex.deserialize)
instance (x : TransmitterTransmitState) : Puts (serialize_field x) := by dsimp only [serialize_field]; infer_instance
instance : Steps (deserialize_field : Get TransmitterTransmitState) := inferInstanceAs (Steps TransmitterTransmitState.deserialize)
instance : Reserves 0 (deserialize_field : Get TransmitterTransmitState) := inferInstanceAs (Reserves 0 TransmitterTransmitState.deserialize)
instance (x : TransmitterInputSource) : Puts (serialize_field x) := by dsimp only [serialize_field]; infer_instance
instance : Steps (deserialize_field : Get TransmitterInputSource) := inferInstanceAs (Steps TransmitterInputSource.deserialize)
instance : Reserves 0 (deserialize_field : Get TransmitterInputSource) := inferInstanceAs (Reserves 0 TransmitterInputSource.deserialize)
instance (x : TransmitterCryptoSystem) : Puts (serialize_field x) := by dsimp only [serialize_field]; infer_instance
instance : Steps (deserialize_field : Get TransmitterCryptoSystem) := inferInstanceAs (Steps TransmitterCryptoSystem.deserialize)
instance : Reserves 0 (deserialize_field : Get TransmitterCryptoSystem) := inferInstanceAs (Reserves 0 TransmitterCryptoSystem.deserialize)
instance (x : TransmitterAntennaPatternType) : Puts (serialize_field x) := by dsimp only [serialize_field]; infer_instance
instance : Steps (deserialize_field : Get TransmitterAntennaPatternType) := inferInstanceAs (Steps TransmitterAntennaPatternType.deserialize)
instance : Reserves 0 (deserialize_field : Get TransmitterAntennaPatternType) := inferInstanceAs (Reserves 0 TransmitterAntennaPatternType.deserialize)
instance (x : TransmitterAntennaPatternReferenceSystem) : Puts (serialize_field x) := by dsimp only [serialize_field]; infer_instance
instance : Steps (deserialize_field : Get TransmitterAntennaPatternReferenceSystem) := inferInstanceAs (Steps TransmitterAntennaPatternReferenceSystem.deserialize)
instance : Reserves 0 (deserialize_field : Get TransmitterAntennaPatternReferenceSystem) := inferInstanceAs (Reserves 0 TransmitterAntennaPatternReferenceSystem.deserialize)
instance (x : SignalTDLType) : Puts (serialize_field x) := by dsimp only [serialize_field]; infer_instance
instance : Steps (deserialize_field : Get SignalTDLType) := inferInstanceAs (Steps SignalTDLType.deserialize)
instance : Reserves 0 (deserialize_field : Get SignalTDLType) := inferInstanceAs (Reserves 0 SignalTDLType.deserialize)
instance (x : ReceiverReceiverState) : Puts (serialize_field x) := by dsimp only [serialize_field]; infer_instance
instance : Steps (deserialize_field : Get ReceiverReceiverState) := inferInstanceAs (Steps ReceiverReceiverState.deserialize)
instance : Reserves 0 (deserialize_field : Get ReceiverReceiverState) := inferInstanceAs (Reserves 0 ReceiverReceiverState.deserialize)
instance (x : IntercomControlControlType) : Puts (serialize_field x) := by dsimp only [serialize_field]; infer_instance
instance : Steps (deserialize_field : Get IntercomControlControlType) := inferInstanceAs (Steps IntercomControlControlType.deserialize)
instance : Reserves 0 (deserialize_field : Get IntercomControlControlType) := inferInstanceAs (Reserves 0 IntercomControlControlType.deserialize)
instance (x : IntercomControlCommand) : Puts (serialize_field x) := by dsimp only [serialize_field]; infer_instance
instance : Steps (deserialize_field : Get IntercomControlCommand) := inferInstanceAs (Steps IntercomControlCommand.deserialize)
instance : Reserves 0 (deserialize_field : Get IntercomControlCommand) := inferInstanceAs (Reserves 0 IntercomControlCommand.deserialize)
instance (x : IntercomControlTransmitLineState) : Puts (serialize_field x) := by dsimp only [serialize_field]; infer_instance
instance : Steps (deserialize_field : Get IntercomControlTransmitLineState) := inferInstanceAs (Steps IntercomControlTransmitLineState.deserialize)
instance : Reserves 0 (deserialize_field : Get IntercomControlTransmitLineState) := inferInstanceAs (Reserves 0 IntercomControlTransmitLineState.deserialize)
instance (x : MinefieldSensorTypes) : Puts (serialize_field x) := by dsimp only [serialize_field]; infer_instance
instance : Steps (deserialize_field : Get MinefieldSensorTypes) := inferInstanceAs (Steps MinefieldSensorTypes.deserialize)
instance : Reserves 0 (deserialize_field : Get MinefieldSensorTypes) := inferInstanceAs (Reserves 0 MinefieldSensorTypes.deserialize)
instance (x : AggregateStateAggregateState) : Puts (serialize_field x) := by dsimp only [serialize_field]; infer_instance
instance : Steps (deserialize_field : Get AggregateStateAggregateState) := inferInstanceAs (Steps AggregateStateAggregateState.deserialize)
instance : Reserves 0 (deserialize_field : Get AggregateStateAggregateState) := inferInstanceAs (Reserves 0 AggregateStateAggregateState.deserialize)
instance (x : AggregateStateFormation) : Puts (serialize_field x) := by dsimp only [serialize_field]; infer_instance
instance : Steps (deserialize_field : Get AggregateStateFormation) := inferInstanceAs (Steps AggregateStateFormation.deserialize)
instance : Reserves 0 (deserialize_field : Get AggregateStateFormation) := inferInstanceAs (Reserves 0 AggregateStateFormation.deserialize)
instance (x : IsGroupOfGroupedEntityCategory) : Puts (serialize_field x) := by dsimp only [serialize_field]; infer_instance
instance : Steps (deserialize_field : Get IsGroupOfGroupedEntityCategory) := inferInstanceAs (Steps IsGroupOfGroupedEntityCategory.deserialize)
instance : Reserves 0 (deserialize_field : Get IsGroupOfGroupedEntityCategory) := inferInstanceAs (Reserves 0 IsGroupOfGroupedEntityCategory.deserialize)
instance (x : TransferControlTransferType) : Puts (serialize_field x) := by dsimp only [serialize_field]; infer_instance
instance : Steps (deserialize_field : Get TransferControlTransferType) := inferInstanceAs (Steps TransferControlTransferType.deserialize)
instance : Reserves 0 (deserialize_field : Get TransferControlTransferType) := inferInstanceAs (Reserves 0 TransferControlTransferType.deserialize)
instance : Steps GriddedDataFieldNumber.deserialize := by unfold GriddedDataFieldNumber.deserialize; infer_instance
instance : Reserves 0 GriddedDataFieldNumber.deserialize := by unfold GriddedDataFieldNumber.deserialize; infer_instance
instance (x : GriddedDataCoordinateSystem) : Puts (serialize_field x) := by dsimp only [serialize_field]; infer_instance
instance : Steps (deserialize_field : Get GriddedDataCoordinateSystem) := inferInstanceAs (Steps GriddedDataCoordinateSystem.deserialize)
instance : Reserves 0 (deserialize_field : Get GriddedDataCoordinateSystem) := inferInstanceAs (Reserves 0 GriddedDataCoordinateSystem.deserialize)
instance (x : GriddedDataConstantGrid) : Puts (serialize_field x) := by dsimp only [serialize_field]; infer_instance
instance : Steps (deserialize_field : Get GriddedDataConstantGrid) := inferInstanceAs (Steps GriddedDataConstantGrid.deserialize)
instance : Reserves 0 (deserialize_field : Get GriddedDataConstantGrid) := inferInstanceAs (Reserves 0 GriddedDataConstantGrid.deserialize)
instance (x : GriddedDataSampleType) : Puts (serialize_field x) := by dsimp only [serialize_field]; infer_instance
instance : Steps (deserialize_field : Get GriddedDataSampleType) := inferInstanceAs (Steps GriddedDataSampleType.deserialize)
instance : Reserves 0 (deserialize_field : Get GriddedDataSampleType) := inferInstanceAs (Reserves 0 GriddedDataSampleType.deserialize)
instance (x : GriddedDataDataRepresentation) : Puts (serialize_field x) := by dsimp only [serialize_field]; infer_instance
instance : Steps (deserialize_field : Get GriddedDataDataRepresentation) := inferInstanceAs (Steps GriddedDataDataRepresentation.deserialize)
instance : Reserves 0 (deserialize_field : Get GriddedDataDataRepresentation) := inferInstanceAs (Reserves 0 GriddedDataDataRepresentation.deserialize)
instance (x : RepairGroups) : Puts (serialize_field x) := by dsimp only [serialize_field]; infer_instance
instance : Steps (deserialize_field : Get RepairGroups) := inferInstanceAs (Steps RepairGroups.deserialize)
instance : Reserves 0 (deserialize_field : Get RepairGroups) := inferInstanceAs (Reserves 0 RepairGroups.deserialize)
instance (x : IOActionIOWarfareType) : Puts (serialize_field x) := by dsimp only [serialize_field]; infer_instance
instance : Steps (deserialize_field : Get IOActionIOWarfareType) := inferInstanceAs (Steps IOActionIOWarfareType.deserialize)
instance : Reserves 0 (deserialize_field : Get IOActionIOWarfareType) := inferInstanceAs (Reserves 0 IOActionIOWarfareType.deserialize)
instance (x : IOActionIOSimulationSource) : Puts (serialize_field x) := by dsimp only [serialize_field]; infer_instance
instance : Steps (deserialize_field : Get IOActionIOSimulationSource) := inferInstanceAs (Steps IOActionIOSimulationSource.deserialize)
instance : Reserves 0 (deserialize_field : Get IOActionIOSimulationSource) := inferInstanceAs (Reserves 0 IOActionIOSimulationSource.deserialize)
instance (x : IOActionIOActionType) : Puts (serialize_field x) := by dsimp only [serialize_field]; infer_instance
instance : Steps (deserialize_field : Get IOActionIOActionType) := inferInstanceAs (Steps IOActionIOActionType.deserialize)
instance : Reserves 0 (deserialize_field : Get IOActionIOActionType) := inferInstanceAs (Reserves 0 IOActionIOActionType.deserialize)
instance (x : IOActionIOActionPhase) : Puts (serialize_field x) := by dsimp only [serialize_field]; infer_instance
instance : Steps (deserialize_field : Get IOActionIOActionPhase) := inferInstanceAs (Steps IOActionIOActionPhase.deserialize)
instance : Reserves 0 (deserialize_field : Get IOActionIOActionPhase) := inferInstanceAs (Reserves 0 IOActionIOActionPhase.deserialize)
instance (x : IOReportIOReportType) : Puts (serialize_field x) := by dsimp only [serialize_field]; infer_instance
instance : Steps (deserialize_field : Get IOReportIOReportType) := inferInstanceAs (Steps IOReportIOReportType.deserialize)
instance : Reserves 0 (deserialize_field : Get IOReportIOReportType) := inferInstanceAs (Reserves 0 IOReportIOReportType.deserialize)
instance (x : DISAttributeActionCode) : Puts (serialize_field x) := by dsimp only [serialize_field]; infer_instance
instance : Steps (deserialize_field : Get DISAttributeActionCode) := inferInstanceAs (Steps DISAttributeActionCode.deserialize)
instance : Reserves 0 (deserialize_field : Get DISAttributeActionCode) := inferInstanceAs (Reserves 0 DISAttributeActionCode.deserialize)
instance (x : EEAttributeStateIndicator) : Puts (serialize_field x) := by dsimp only [serialize_field]; infer_instance
instance : Steps (deserialize_field : Get EEAttributeStateIndicator) := inferInstanceAs (Steps EEAttributeStateIndicator.deserialize)
instance : Reserves 0 (deserialize_field : Get EEAttributeStateIndicator) := inferInstanceAs (Reserves 0 EEAttributeStateIndicator.deserialize)
instance (x : DEFirePulseShape) : Puts (serialize_field x) := by dsimp only [serialize_field]; infer_instance
instance : Steps (deserialize_field : Get DEFirePulseShape) := inferInstanceAs (Steps DEFirePulseShape.deserialize)
instance : Reserves 0 (deserialize_field : Get DEFirePulseShape) := inferInstanceAs (Reserves 0 DEFirePulseShape.deserialize)
instance (x : ComponentIdentification) : Puts (serialize_field x) := by dsimp only [serialize_field]; infer_instance
instance : Steps (deserialize_field : Get ComponentIdentification) := inferInstanceAs (Steps ComponentIdentification.deserialize)
instance : Reserves 0 (deserialize_field : Get ComponentIdentification) := inferInstanceAs (Reserves 0 ComponentIdentification.deserialize)
instance (x : ComponentDamageStatus) : Puts (serialize_field x) := by dsimp only [serialize_field]; infer_instance
instance : Steps (deserialize_field : Get ComponentDamageStatus) := inferInstanceAs (Steps ComponentDamageStatus.deserialize)
instance : Reserves 0 (deserialize_field : Get ComponentDamageStatus) := inferInstanceAs (Reserves 0 ComponentDamageStatus.deserialize)
instance (x : ComponentVisualSmokeColor) : Puts (serialize_field x) := by dsimp only [serialize_field]; infer_instance
instance : Steps (deserialize_field : Get ComponentVisualSmokeColor) := inferInstanceAs (Steps ComponentVisualSmokeColor.deserialize)
instance : Reserves 0 (deserialize_field : Get ComponentVisualSmokeColor) := inferInstanceAs (Reserves 0 ComponentVisualSmokeColor.deserialize)
instance (x : RecordQueryREventType) : Puts (serialize_field x) := by dsimp only [serialize_field]; infer_instance
instance : Steps (deserialize_field : Get RecordQueryREventType) := inferInstanceAs (Steps RecordQueryREventType.deserialize)
instance : Reserves 0 (deserialize_field : Get RecordQueryREventType) := inferInstanceAs (Reserves 0 RecordQueryREventType.deserialize)
instance (x : MinefieldStateProtocolMode) : Puts (serialize_field x) := by dsimp only [serialize_field]; infer_instance
instance : Steps (deserialize_field : Get MinefieldStateProtocolMode) := inferInstanceAs (Steps MinefieldStateProtocolMode.deserialize)
instance : Reserves 0 (deserialize_field : Get MinefieldStateProtocolMode) := inferInstanceAs (Reserves 0 MinefieldStateProtocolMode.deserialize)
instance (x : GridAxisDescriptorAxisType) : Puts (serialize_field x) := by dsimp only [serialize_field]; infer_instance
instance : Steps (deserialize_field : Get GridAxisDescriptorAxisType) := inferInstanceAs (Steps GridAxisDescriptorAxisType.deserialize)
instance : Reserves 0 (deserialize_field : Get GridAxisDescriptorAxisType) := inferInstanceAs (Reserves 0 GridAxisDescriptorAxisType.deserialize)
instance : Steps CivilianSubmarineSubcategories.deserialize := by unfold CivilianSubmarineSubcategories.deserialize; infer_instance
instance : Reserves 0 CivilianSubmarineSubcategories.deserialize := by unfold CivilianSubmarineSubcategories.deserialize; infer_instance
instance : Steps CivilianSubmersibleSubcategories.deserialize := by unfold CivilianSubmersibleSubcategories.deserialize; infer_instance
instance : Reserves 0 CivilianSubmersibleSubcategories.deserialize := by unfold CivilianSubmersibleSubcategories.deserialize; infer_instance
instance (x : FrozenBehavior) : Puts (serialize_field x) := by dsimp only [serialize_field]; infer_instance
instance : Steps (deserialize_field : Get FrozenBehavior) := by dsimp only [deserialize_field]; infer_instance
instance : Reserves 0 (deserialize_field : Get FrozenBehavior) := by dsimp only [deserialize_field]; infer_instance
instance (x : ObjectStateAppearanceGeneral) : Puts (serialize_field x) := by dsimp only [serialize_field]; infer_instance
instance : Steps (deserialize_field : Get ObjectStateAppearanceGeneral) := by dsimp only [deserialize_field]; infer_instance
instance : Reserves 0 (deserialize_field : Get ObjectStateAppearanceGeneral) := by dsimp only [deserialize_field]; infer_instance
instance (self : EntityMarking) : Puts (EntityMarking.serialize self) := by unfold EntityMarking.serialize; puts
instance : Steps EntityMarking.deserialize := by unfold EntityMarking.deserialize; infer_instance
instance : Reserves 0 EntityMarking.deserialize := by unfold EntityMarking.deserialize; infer_instance
instance (x : EntityMarking) : Puts (serialize_field x) := inferInstanceAs (Puts (EntityMarking.serialize x))
instance : Steps (deserialize_field : Get EntityMarking) := inferInstanceAs (Steps EntityMarking.deserialize)
instance : Reserves 0 (deserialize_field : Get EntityMarking) := inferInstanceAs (Reserves 0 EntityMarking.deserialize)
instance (self : VariableDatumRecord) : Puts (VariableDatumRecord.serialize self) := by unfold VariableDatumRecord.serialize; puts
instance : Steps VariableDatumRecord.deserialize := by unfold VariableDatumRecord.deserialize; infer_instance
theorem VariableDatumRecord.reserves : Reserves (2 ^ 29) VariableDatumRecord.deserialize := by
  unfold VariableDatumRecord.deserialize
  have h : ∀ n : UInt32, Reserves (2 ^ 29) (M.reserve (VariableDatumRecord.bytes_count n)) := fun n =>
    Reserves.reserve (by have := n.toNat_lt; unfold VariableDatumRecord.bytes_count; omega)
  have h2 := fun n (f : Unit → Get VariableDatumRecord) => Reserves.last _ f (h n)
  refine @Reserves.bind0 _ _ _ _ _ inferInstance fun _ => @Reserves.bind0 _ _ _ _ _ inferInstance fun n => h2 n _ fun _ => inferInstance
instance (x : VariableDatumRecord) : Puts (serialize_field x) := inferInstanceAs (Puts (VariableDatumRecord.serialize x))
instance : Steps (deserialize_field : Get VariableDatumRecord) := inferInstanceAs (Steps VariableDatumRecord.deserialize)
instance (self : RecordSpecificationElement) : Puts (RecordSpecificationElement.serialize self) := by unfold RecordSpecificationElement.serialize; puts
instance : Steps RecordSpecificationElement.deserialize := by unfold RecordSpecificationElement.deserialize; infer_instance
instance : Reserves 0 RecordSpecificationElement.deserialize := by unfold RecordSpecificationElement.deserialize; infer_instance
instance (x : RecordSpecificationElement) : Puts (serialize_field x) := inferInstanceAs (Puts (RecordSpecificationElement.serialize x))
instance : Steps (deserialize_field : Get RecordSpecificationElement) := inferInstanceAs (Steps RecordSpecificationElement.deserialize)
instance : Reserves 0 (deserialize_field : Get RecordSpecificationElement) := inferInstanceAs (Reserves 0 RecordSpecificationElement.deserialize)
instance (self : GridAxisDescriptor) : Puts (GridAxisDescriptor.serialize self) := by unfold GridAxisDescriptor.serialize; cases self.data <;> dsimp only <;> puts
instance (axis_type : GridAxisDescriptorAxisType) : Steps (GridAxisDescriptor.deserializeData axis_type) := by unfold GridAxisDescriptor.deserializeData; infer_instance
instance (axis_type : GridAxisDescriptorAxisType) : Reserves 0 (GridAxisDescriptor.deserializeData axis_type) := by unfold GridAxisDescriptor.deserializeData; infer_instance
instance : Steps GridAxisDescriptor.deserialize := by unfold GridAxisDescriptor.deserialize; infer_instance
instance : Reserves 0 GridAxisDescriptor.deserialize := by unfold GridAxisDescriptor.deserialize; infer_instance
instance (x : GridAxisDescriptor) : Puts (serialize_field x) := inferInstanceAs (Puts (GridAxisDescriptor.serialize x))
instance : Steps (deserialize_field : Get GridAxisDescriptor) := inferInstanceAs (Steps GridAxisDescriptor.deserialize)
instance : Reserves 0 (deserialize_field : Get GridAxisDescriptor) := inferInstanceAs (Reserves 0 GridAxisDescriptor.deserialize)
instance (self : GridDataRecord) : Puts (GridDataRecord.serialize self) := by unfold GridDataRecord.serialize; cases self.data <;> dsimp only <;> puts
instance (r : GriddedDataDataRepresentation) : Steps (GridDataRecord.deserializeData r) := by unfold GridDataRecord.deserializeData; infer_instance
instance (r : GriddedDataDataRepresentation) : Reserves 0 (GridDataRecord.deserializeData r) := by unfold GridDataRecord.deserializeData; infer_instance
instance : Steps GridDataRecord.deserialize := by unfold GridDataRecord.deserialize; infer_instance
instance : Reserves 0 GridDataRecord.deserialize := by unfold GridDataRecord.deserialize; infer_instance
instance (x : GridDataRecord) : Puts (serialize_field x) := inferInstanceAs (Puts (GridDataRecord.serialize x))
instance : Steps (deserialize_field : Get GridDataRecord) := inferInstanceAs (Steps GridDataRecord.deserialize)
instance : Reserves 0 (deserialize_field : Get GridDataRecord) := inferInstanceAs (Reserves 0 GridDataRecord.deserialize)
instance (self : ModulationParameters) : Puts (ModulationParameters.serialize self) := by unfold ModulationParameters.serialize; puts
instance (length : UInt8) : Steps (ModulationParameters.deserialize length) := by unfold ModulationParameters.deserialize; infer_instance
instance (length : UInt8) : Reserves 0 (ModulationParameters.deserialize length) := by unfold ModulationParameters.deserialize; infer_instance
instance (x : ModulationParameters) : Puts (serialize_field x) := inferInstanceAs (Puts (ModulationParameters.serialize x))
instance : Steps (deserialize_field : Get ModulationParameters) := by dsimp only [deserialize_field]; infer_instance
instance : Reserves 0 (deserialize_field : Get ModulationParameters) := by dsimp only [deserialize_field]; infer_instance
instance (n : Nat) : Steps (deserialize_with_len n : Get ModulationParameters) := by dsimp only [deserialize_with_len]; infer_instance
instance (n : Nat) : Reserves 0 (deserialize_with_len n : Get ModulationParameters) := by dsimp only [deserialize_with_len]; infer_instance
instance (self : AntennaPattern) : Puts (AntennaPattern.serialize self) := by unfold AntennaPattern.serialize; puts
instance (length : UInt16) : Steps (AntennaPattern.deserialize length) := by unfold AntennaPattern.deserialize; infer_instance
instance (length : UInt16) : Reserves 0 (AntennaPattern.deserialize length) := by unfold AntennaPattern.deserialize; infer_instance
instance (x : AntennaPattern) : Puts (serialize_field x) := inferInstanceAs (Puts (AntennaPattern.serialize x))
instance : Steps (deserialize_field : Get AntennaPattern) := by dsimp only [deserialize_field]; infer_instance
instance : Reserves 0 (deserialize_field : Get AntennaPattern) := by dsimp only [deserialize_field]; infer_instance
instance (n : Nat) : Steps (deserialize_with_len n : Get AntennaPattern) := by dsimp only [deserialize_with_len]; infer_instance
instance (n : Nat) : Reserves 0 (deserialize_with_len n : Get AntennaPattern) := by dsimp only [deserialize_with_len]; infer_instance
instance (self : AcousticBeamFundamentalParameter) : Puts (AcousticBeamFundamentalParameter.serialize self) := by unfold AcousticBeamFundamentalParameter.serialize; puts
instance : Steps AcousticBeamFundamentalParameter.deserialize := by unfold AcousticBeamFundamentalParameter.deserialize; infer_instance
instance : Reserves 0 AcousticBeamFundamentalParameter.deserialize := by unfold AcousticBeamFundamentalParameter.deserialize; infer_instance
instance (self : AcousticBeamData) : Puts (AcousticBeamData.serialize self) := by unfold AcousticBeamData.serialize; puts
instance : Steps AcousticBeamData.deserialize := by unfold AcousticBeamData.deserialize; infer_instance
instance : Reserves 0 AcousticBeamData.deserialize := by unfold AcousticBeamData.deserialize; infer_instance
instance (self : AcousticEmitterSystem) : Puts (AcousticEmitterSystem.serialize self) := by unfold AcousticEmitterSystem.serialize; puts
instance : Steps AcousticEmitterSystem.deserialize := by unfold AcousticEmitterSystem.deserialize; infer_instance
instance : Reserves 0 AcousticEmitterSystem.deserialize := by unfold AcousticEmitterSystem.deserialize; infer_instance
instance (x : AcousticEmitterSystem) : Puts (serialize_field x) := inferInstanceAs (Puts (AcousticEmitterSystem.serialize x))
instance : Steps (deserialize_field : Get AcousticEmitterSystem) := inferInstanceAs (Steps AcousticEmitterSystem.deserialize)
instance : Reserves 0 (deserialize_field : Get AcousticEmitterSystem) := inferInstanceAs (Reserves 0 AcousticEmitterSystem.deserialize)
instance (self : Vector3Float) : Puts (Vector3Float.serialize self) := by unfold Vector3Float.serialize; puts
instance : Steps Vector3Float.deserialize := by unfold Vector3Float.deserialize; infer_instance
instance : Reserves 0 Vector3Float.deserialize := by unfold Vector3Float.deserialize; infer_instance
instance (x : Vector3Float) : Puts (serialize_field x) := inferInstanceAs (Puts (Vector3Float.serialize x))
instance : Steps (deserialize_field : Get Vector3Float) := inferInstanceAs (Steps Vector3Float.deserialize)
instance : Reserves 0 (deserialize_field : Get Vector3Float) := inferInstanceAs (Reserves 0 Vector3Float.deserialize)
instance (self : AcousticEmitterSystemData) : Puts (AcousticEmitterSystemData.serialize self) := by unfold AcousticEmitterSystemData.serialize; puts
instance : Steps AcousticEmitterSystemData.deserialize := by unfold AcousticEmitterSystemData.deserialize; infer_instance
instance : Reserves 0 AcousticEmitterSystemData.deserialize := by unfold AcousticEmitterSystemData.deserialize; infer_instance
instance (self : AggregateId) : Puts (AggregateId.serialize self) := by unfold AggregateId.serialize; puts
instance : Steps AggregateId.deserialize := by unfold AggregateId.deserialize; infer_instance
instance : Reserves 0 AggregateId.deserialize := by unfold AggregateId.deserialize; infer_instance
instance (x : AggregateId) : Puts (serialize_field x) := inferInstanceAs (Puts (AggregateId.serialize x))
instance : Steps (deserialize_field : Get AggregateId) := inferInstanceAs (Steps AggregateId.deserialize)
instance : Reserves 0 (deserialize_field : Get AggregateId) := inferInstanceAs (Reserves 0 AggregateId.deserialize)
instance (self : AggregateMarking) : Puts (AggregateMarking.serialize self) := by unfold AggregateMarking.serialize; puts
instance : Steps AggregateMarking.deserialize := by unfold AggregateMarking.deserialize; infer_instance
instance : Reserves 0 AggregateMarking.deserialize := by unfold AggregateMarking.deserialize; infer_instance
instance (x : AggregateMarking) : Puts (serialize_field x) := inferInstanceAs (Puts (AggregateMarking.serialize x))
instance : Steps (deserialize_field : Get AggregateMarking) := inferInstanceAs (Steps AggregateMarking.deserialize)
instance : Reserves 0 (deserialize_field : Get AggregateMarking) := inferInstanceAs (Reserves 0 AggregateMarking.deserialize)
instance (self : AngularVelocity) : Puts (AngularVelocity.serialize self) := by unfold AngularVelocity.serialize; puts
instance : Steps AngularVelocity.deserialize := by unfold AngularVelocity.deserialize; infer_instance
instance : Reserves 0 AngularVelocity.deserialize := by unfold AngularVelocity.deserialize; infer_instance
instance (self : ApaData) : Puts (ApaData.serialize self) := by unfold ApaData.serialize; puts
instance : Steps ApaData.deserialize := by unfold ApaData.deserialize; infer_instance
instance : Reserves 0 ApaData.deserialize := by unfold ApaData.deserialize; infer_instance
instance (x : ApaData) : Puts (serialize_field x) := inferInstanceAs (Puts (ApaData.serialize x))
instance : Steps (deserialize_field : Get ApaData) := inferInstanceAs (Steps ApaData.deserialize)
instance : Reserves 0 (deserialize_field : Get ApaData) := inferInstanceAs (Reserves 0 ApaData.deserialize)
instance (self : AttributeRecord) : Puts (AttributeRecord.serialize self) := by unfold AttributeRecord.serialize; puts
instance : Steps AttributeRecord.deserialize := by unfold AttributeRecord.deserialize; infer_instance
instance : Reserves 0 AttributeRecord.deserialize := by unfold AttributeRecord.deserialize; infer_instance
instance (x : AttributeRecord) : Puts (serialize_field x) := inferInstanceAs (Puts (AttributeRecord.serialize x))
instance : Steps (deserialize_field : Get AttributeRecord) := inferInstanceAs (Steps AttributeRecord.deserialize)
instance : Reserves 0 (deserialize_field : Get AttributeRecord) := inferInstanceAs (Reserves 0 AttributeRecord.deserialize)
instance (self : SimulationAddress) : Puts (SimulationAddress.serialize self) := by unfold SimulationAddress.serialize; puts
instance : Steps SimulationAddress.deserialize := by unfold SimulationAddress.deserialize; infer_instance
instance : Reserves 0 SimulationAddress.deserialize := by unfold SimulationAddress.deserialize; infer_instance
instance (x : SimulationAddress) : Puts (serialize_field x) := inferInstanceAs (Puts (SimulationAddress.serialize x))
instance : Steps (deserialize_field : Get SimulationAddress) := inferInstanceAs (Steps SimulationAddress.deserialize)
instance : Reserves 0 (deserialize_field : Get SimulationAddress) := inferInstanceAs (Reserves 0 SimulationAddress.deserialize)
instance (self : EntityId) : Puts (EntityId.serialize self) := by unfold EntityId.serialize; puts
instance : Steps EntityId.deserialize_simulation_address := by unfold EntityId.deserialize_simulation_address; infer_instance
instance : Reserves 0 EntityId.deserialize_simulation_address := by unfold EntityId.deserialize_simulation_address; infer_instance
instance : Steps EntityId.deserialize := by unfold EntityId.deserialize; infer_instance
instance : Reserves 0 EntityId.deserialize := by unfold EntityId.deserialize; infer_instance
instance (x : EntityId) : Puts (serialize_field x) := inferInstanceAs (Puts (EntityId.serialize x))
instance : Steps (deserialize_field : Get EntityId) := inferInstanceAs (Steps EntityId.deserialize)
instance : Reserves 0 (deserialize_field : Get EntityId) := inferInstanceAs (Reserves 0 EntityId.deserialize)
instance (self : AttributeRecordSet) : Puts (AttributeRecordSet.serialize self) := by unfold AttributeRecordSet.serialize; puts
instance : Steps AttributeRecordSet.deserialize := by unfold AttributeRecordSet.deserialize; infer_instance
instance : Reserves 0 AttributeRecordSet.deserialize := by unfold AttributeRecordSet.deserialize; infer_instance
instance (x : AttributeRecordSet) : Puts (serialize_field x) := inferInstanceAs (Puts (AttributeRecordSet.serialize x))
instance : Steps (deserialize_field : Get AttributeRecordSet) := inferInstanceAs (Steps AttributeRecordSet.deserialize)
instance : Reserves 0 (deserialize_field : Get AttributeRecordSet) := inferInstanceAs (Reserves 0 AttributeRecordSet.deserialize)
instance (self : BeamData) : Puts (BeamData.serialize self) := by unfold BeamData.serialize; puts
instance : Steps BeamData.deserialize := by unfold BeamData.deserialize; infer_instance
instance : Reserves 0 BeamData.deserialize := by unfold BeamData.deserialize; infer_instance
instance (x : BeamData) : Puts (serialize_field x) := inferInstanceAs (Puts (BeamData.serialize x))
instance : Steps (deserialize_field : Get BeamData) := inferInstanceAs (Steps BeamData.deserialize)
instance : Reserves 0 (deserialize_field : Get BeamData) := inferInstanceAs (Reserves 0 BeamData.deserialize)
instance (self : ClockTime) : Puts (ClockTime.serialize self) := by unfold ClockTime.serialize; puts
instance : Steps ClockTime.deserialize := by unfold ClockTime.deserialize; infer_instance
instance : Reserves 0 ClockTime.deserialize := by unfold ClockTime.deserialize; infer_instance
instance (x : ClockTime) : Puts (serialize_field x) := inferInstanceAs (Puts (ClockTime.serialize x))
instance : Steps (deserialize_field : Get ClockTime) := inferInstanceAs (Steps ClockTime.deserialize)
instance : Reserves 0 (deserialize_field : Get ClockTime) := inferInstanceAs (Reserves 0 ClockTime.deserialize)
instance (self : LinearAcceleration) : Puts (LinearAcceleration.serialize self) := by unfold LinearAcceleration.serialize; puts
instance : Steps LinearAcceleration.deserialize := by unfold LinearAcceleration.deserialize; infer_instance
instance : Reserves 0 LinearAcceleration.deserialize := by unfold LinearAcceleration.deserialize; infer_instance
instance (x : LinearAcceleration) : Puts (serialize_field x) := inferInstanceAs (Puts (LinearAcceleration.serialize x))
instance : Steps (deserialize_field : Get LinearAcceleration) := inferInstanceAs (Steps LinearAcceleration.deserialize)
instance : Reserves 0 (deserialize_field : Get LinearAcceleration) := inferInstanceAs (Reserves 0 LinearAcceleration.deserialize)
instance (self : DeadReckoningParameters) : Puts (DeadReckoningParameters.serialize self) := by unfold DeadReckoningParameters.serialize; puts
instance : Steps DeadReckoningParameters.deserialize := by unfold DeadReckoningParameters.deserialize; infer_instance
instance : Reserves 0 DeadReckoningParameters.deserialize := by unfold DeadReckoningParameters.deserialize; infer_instance
instance (x : DeadReckoningParameters) : Puts (serialize_field x) := inferInstanceAs (Puts (DeadReckoningParameters.serialize x))
instance : Steps (deserialize_field : Get DeadReckoningParameters) := inferInstanceAs (Steps DeadReckoningParameters.deserialize)
instance : Reserves 0 (deserialize_field : Get DeadReckoningParameters) := inferInstanceAs (Reserves 0 DeadReckoningParameters.deserialize)
instance (self : EntityCoordinateVector) : Puts (EntityCoordinateVector.serialize self) := by unfold EntityCoordinateVector.serialize; puts
instance : Steps EntityCoordinateVector.deserialize := by unfold EntityCoordinateVector.deserialize; infer_instance
instance : Reserves 0 EntityCoordinateVector.deserialize := by unfold EntityCoordinateVector.deserialize; infer_instance
instance (x : EntityCoordinateVector) : Puts (serialize_field x) := inferInstanceAs (Puts (EntityCoordinateVector.serialize x))
instance : Steps (deserialize_field : Get EntityCoordinateVector) := inferInstanceAs (Steps EntityCoordinateVector.deserialize)
instance : Reserves 0 (deserialize_field : Get EntityCoordinateVector) := inferInstanceAs (Reserves 0 EntityCoordinateVector.deserialize)
instance (self : EventId) : Puts (EventId.serialize self) := by unfold EventId.serialize; puts
instance : Steps EventId.deserialize := by unfold EventId.deserialize; infer_instance
instance : Reserves 0 EventId.deserialize := by unfold EventId.deserialize; infer_instance
instance (x : EventId) : Puts (serialize_field x) := inferInstanceAs (Puts (EventId.serialize x))
instance : Steps (deserialize_field : Get EventId) := inferInstanceAs (Steps EventId.deserialize)
instance : Reserves 0 (deserialize_field : Get EventId) := inferInstanceAs (Reserves 0 EventId.deserialize)
instance (self : DirectedEnergyDamage) : Puts (DirectedEnergyDamage.serialize self) := by unfold DirectedEnergyDamage.serialize; puts
instance : Steps DirectedEnergyDamage.deserialize := by unfold DirectedEnergyDamage.deserialize; infer_instance
instance : Reserves 0 DirectedEnergyDamage.deserialize := by unfold DirectedEnergyDamage.deserialize; infer_instance
instance (x : DirectedEnergyDamage) : Puts (serialize_field x) := inferInstanceAs (Puts (DirectedEnergyDamage.serialize x))
instance : Steps (deserialize_field : Get DirectedEnergyDamage) := inferInstanceAs (Steps DirectedEnergyDamage.deserialize)
instance : Reserves 0 (deserialize_field : Get DirectedEnergyDamage) := inferInstanceAs (Reserves 0 DirectedEnergyDamage.deserialize)
instance (self : FundamentalParameterData) : Puts (FundamentalParameterData.serialize self) := by unfold FundamentalParameterData.serialize; puts
instance : Steps FundamentalParameterData.deserialize := by unfold FundamentalParameterData.deserialize; infer_instance
instance : Reserves 0 FundamentalParameterData.deserialize := by unfold FundamentalParameterData.deserialize; infer_instance
instance (x : FundamentalParameterData) : Puts (serialize_field x) := inferInstanceAs (Puts (FundamentalParameterData.serialize x))
instance : Steps (deserialize_field : Get FundamentalParameterData) := inferInstanceAs (Steps FundamentalParameterData.deserialize)
instance : Reserves 0 (deserialize_field : Get FundamentalParameterData) := inferInstanceAs (Reserves 0 FundamentalParameterData.deserialize)
instance (self : TrackJamTarget) : Puts (TrackJamTarget.serialize self) := by unfold TrackJamTarget.serialize; puts
instance : Steps TrackJamTarget.deserialize := by unfold TrackJamTarget.deserialize; infer_instance
instance : Reserves 0 TrackJamTarget.deserialize := by unfold TrackJamTarget.deserialize; infer_instance
instance (x : TrackJamTarget) : Puts (serialize_field x) := inferInstanceAs (Puts (TrackJamTarget.serialize x))
instance : Steps (deserialize_field : Get TrackJamTarget) := inferInstanceAs (Steps TrackJamTarget.deserialize)
instance : Reserves 0 (deserialize_field : Get TrackJamTarget) := inferInstanceAs (Reserves 0 TrackJamTarget.deserialize)
instance (self : ElectromagneticEmissionBeamData) : Puts (ElectromagneticEmissionBeamData.serialize self) := by unfold ElectromagneticEmissionBeamData.serialize; puts
instance : Steps ElectromagneticEmissionBeamData.deserialize := by unfold ElectromagneticEmissionBeamData.deserialize; infer_instance
instance : Reserves 0 ElectromagneticEmissionBeamData.deserialize := by unfold ElectromagneticEmissionBeamData.deserialize; infer_instance
instance (x : ElectromagneticEmissionBeamData) : Puts (serialize_field x) := inferInstanceAs (Puts (ElectromagneticEmissionBeamData.serialize x))
instance : Steps (deserialize_field : Get ElectromagneticEmissionBeamData) := inferInstanceAs (Steps ElectromagneticEmissionBeamData.deserialize)
instance : Reserves 0 (deserialize_field : Get ElectromagneticEmissionBeamData) := inferInstanceAs (Reserves 0 ElectromagneticEmissionBeamData.deserialize)
instance (self : EmitterSystem) : Puts (EmitterSystem.serialize self) := by unfold EmitterSystem.serialize; puts
instance : Steps EmitterSystem.deserialize := by unfold EmitterSystem.deserialize; infer_instance
instance : Reserves 0 EmitterSystem.deserialize := by unfold EmitterSystem.deserialize; infer_instance
instance (self : ElectromagneticEmissionSystemData) : Puts (ElectromagneticEmissionSystemData.serialize self) := by unfold ElectromagneticEmissionSystemData.serialize; puts
instance : Steps ElectromagneticEmissionSystemData.deserialize := by unfold ElectromagneticEmissionSystemData.deserialize; infer_instance
instance : Reserves 0 ElectromagneticEmissionSystemData.deserialize := by unfold ElectromagneticEmissionSystemData.deserialize; infer_instance
instance (x : ElectromagneticEmissionSystemData) : Puts (serialize_field x) := inferInstanceAs (Puts (ElectromagneticEmissionSystemData.serialize x))
instance : Steps (deserialize_field : Get ElectromagneticEmissionSystemData) := inferInstanceAs (Steps ElectromagneticEmissionSystemData.deserialize)
instance : Reserves 0 (deserialize_field : Get ElectromagneticEmissionSystemData) := inferInstanceAs (Reserves 0 ElectromagneticEmissionSystemData.deserialize)
instance (self : EntityType) : Puts (EntityType.serialize self) := by unfold EntityType.serialize; puts
instance : Steps EntityType.deserialize := by unfold EntityType.deserialize; infer_instance
instance : Reserves 0 EntityType.deserialize := by unfold EntityType.deserialize; infer_instance
instance (x : EntityType) : Puts (serialize_field x) := inferInstanceAs (Puts (EntityType.serialize x))
instance : Steps (deserialize_field : Get EntityType) := inferInstanceAs (Steps EntityType.deserialize)
instance : Reserves 0 (deserialize_field : Get EntityType) := inferInstanceAs (Reserves 0 EntityType.deserialize)
instance (self : Environment) : Puts (Environment.serialize self) := by unfold Environment.serialize; puts
instance : Steps Environment.deserialize := by unfold Environment.deserialize; infer_instance
instance : Reserves 0 Environment.deserialize := by unfold Environment.deserialize; infer_instance
instance (x : Environment) : Puts (serialize_field x) := inferInstanceAs (Puts (Environment.serialize x))
instance : Steps (deserialize_field : Get Environment) := inferInstanceAs (Steps Environment.deserialize)
instance : Reserves 0 (deserialize_field : Get Environment) := inferInstanceAs (Reserves 0 Environment.deserialize)
instance (self : EulerAngles) : Puts (EulerAngles.serialize self) := by unfold EulerAngles.serialize; puts
instance : Steps EulerAngles.deserialize := by unfold EulerAngles.deserialize; infer_instance
instance : Reserves 0 EulerAngles.deserialize := by unfold EulerAngles.deserialize; infer_instance
instance (x : EulerAngles) : Puts (serialize_field x) := inferInstanceAs (Puts (EulerAngles.serialize x))
instance : Steps (deserialize_field : Get EulerAngles) := inferInstanceAs (Steps EulerAngles.deserialize)
instance : Reserves 0 (deserialize_field : Get EulerAngles) := inferInstanceAs (Reserves 0 EulerAngles.deserialize)
instance (self : FixedDatumRecord) : Puts (FixedDatumRecord.serialize self) := by unfold FixedDatumRecord.serialize; puts
instance : Steps FixedDatumRecord.deserialize := by unfold FixedDatumRecord.deserialize; infer_instance
instance : Reserves 0 FixedDatumRecord.deserialize := by unfold FixedDatumRecord.deserialize; infer_instance
instance (x : FixedDatumRecord) : Puts (serialize_field x) := inferInstanceAs (Puts (FixedDatumRecord.serialize x))
instance : Steps (deserialize_field : Get FixedDatumRecord) := inferInstanceAs (Steps FixedDatumRecord.deserialize)
instance : Reserves 0 (deserialize_field : Get FixedDatumRecord) := inferInstanceAs (Reserves 0 FixedDatumRecord.deserialize)
instance (self : FundamentalOperationalData) : Puts (FundamentalOperationalData.serialize self) := by unfold FundamentalOperationalData.serialize; puts
instance : Steps FundamentalOperationalData.deserialize := by unfold FundamentalOperationalData.deserialize; infer_instance
instance : Reserves 0 FundamentalOperationalData.deserialize := by unfold FundamentalOperationalData.deserialize; infer_instance
instance (x : FundamentalOperationalData) : Puts (serialize_field x) := inferInstanceAs (Puts (FundamentalOperationalData.serialize x))
instance : Steps (deserialize_field : Get FundamentalOperationalData) := inferInstanceAs (Steps FundamentalOperationalData.deserialize)
instance : Reserves 0 (deserialize_field : Get FundamentalOperationalData) := inferInstanceAs (Reserves 0 FundamentalOperationalData.deserialize)
instance (self : IFFFundamentalParameterData) : Puts (IFFFundamentalParameterData.serialize self) := by unfold IFFFundamentalParameterData.serialize; puts
instance : Steps IFFFundamentalParameterData.deserialize := by unfold IFFFundamentalParameterData.deserialize; infer_instance
instance : Reserves 0 IFFFundamentalParameterData.deserialize := by unfold IFFFundamentalParameterData.deserialize; infer_instance
instance (x : IFFFundamentalParameterData) : Puts (serialize_field x) := inferInstanceAs (Puts (IFFFundamentalParameterData.serialize x))
instance : Steps (deserialize_field : Get IFFFundamentalParameterData) := inferInstanceAs (Steps IFFFundamentalParameterData.deserialize)
instance : Reserves 0 (deserialize_field : Get IFFFundamentalParameterData) := inferInstanceAs (Reserves 0 IFFFundamentalParameterData.deserialize)
instance (self : IntercomCommunicationsParameters) : Puts (IntercomCommunicationsParameters.serialize self) := by unfold IntercomCommunicationsParameters.serialize; puts
instance : Steps IntercomCommunicationsParameters.deserialize := by unfold IntercomCommunicationsParameters.deserialize; infer_instance
instance : Reserves 0 IntercomCommunicationsParameters.deserialize := by unfold IntercomCommunicationsParameters.deserialize; infer_instance
instance (x : IntercomCommunicationsParameters) : Puts (serialize_field x) := inferInstanceAs (Puts (IntercomCommunicationsParameters.serialize x))
instance : Steps (deserialize_field : Get IntercomCommunicationsParameters) := inferInstanceAs (Steps IntercomCommunicationsParameters.deserialize)
instance : Reserves 0 (deserialize_field : Get IntercomCommunicationsParameters) := inferInstanceAs (Reserves 0 IntercomCommunicationsParameters.deserialize)
instance (self : LayerHeader) : Puts (LayerHeader.serialize self) := by unfold LayerHeader.serialize; puts
instance : Steps LayerHeader.deserialize := by unfold LayerHeader.deserialize; infer_instance
instance : Reserves 0 LayerHeader.deserialize := by unfold LayerHeader.deserialize; infer_instance
instance (x : LayerHeader) : Puts (serialize_field x) := inferInstanceAs (Puts (LayerHeader.serialize x))
instance : Steps (deserialize_field : Get LayerHeader) := inferInstanceAs (Steps LayerHeader.deserialize)
instance : Reserves 0 (deserialize_field : Get LayerHeader) := inferInstanceAs (Reserves 0 LayerHeader.deserialize)
instance (self : WorldCoordinate) : Puts (WorldCoordinate.serialize self) := by unfold WorldCoordinate.serialize; puts
instance : Steps WorldCoordinate.deserialize := by unfold WorldCoordinate.deserialize; infer_instance
instance : Reserves 0 WorldCoordinate.deserialize := by unfold WorldCoordinate.deserialize; infer_instance
instance (x : WorldCoordinate) : Puts (serialize_field x) := inferInstanceAs (Puts (WorldCoordinate.serialize x))
instance : Steps (deserialize_field : Get WorldCoordinate) := inferInstanceAs (Steps WorldCoordinate.deserialize)
instance : Reserves 0 (deserialize_field : Get WorldCoordinate) := inferInstanceAs (Reserves 0 WorldCoordinate.deserialize)
instance (self : LinearSegmentParameter) : Puts (LinearSegmentParameter.serialize self) := by unfold LinearSegmentParameter.serialize; puts
instance : Steps LinearSegmentParameter.deserialize := by unfold LinearSegmentParameter.deserialize; infer_instance
instance : Reserves 0 LinearSegmentParameter.deserialize := by unfold LinearSegmentParameter.deserialize; infer_instance
instance (x : LinearSegmentParameter) : Puts (serialize_field x) := inferInstanceAs (Puts (LinearSegmentParameter.serialize x))
instance : Steps (deserialize_field : Get LinearSegmentParameter) := inferInstanceAs (Steps LinearSegmentParameter.deserialize)
instance : Reserves 0 (deserialize_field : Get LinearSegmentParameter) := inferInstanceAs (Reserves 0 LinearSegmentParameter.deserialize)
instance (self : LinearVelocity) : Puts (LinearVelocity.serialize self) := by unfold LinearVelocity.serialize; puts
instance : Steps LinearVelocity.deserialize := by unfold LinearVelocity.deserialize; infer_instance
instance : Reserves 0 LinearVelocity.deserialize := by unfold LinearVelocity.deserialize; infer_instance
instance (x : LinearVelocity) : Puts (serialize_field x) := inferInstanceAs (Puts (LinearVelocity.serialize x))
instance : Steps (deserialize_field : Get LinearVelocity) := inferInstanceAs (Steps LinearVelocity.deserialize)
instance : Reserves 0 (deserialize_field : Get LinearVelocity) := inferInstanceAs (Reserves 0 LinearVelocity.deserialize)
instance (self : MinefieldIdentifier) : Puts (MinefieldIdentifier.serialize self) := by unfold MinefieldIdentifier.serialize; puts
instance : Steps MinefieldIdentifier.deserialize := by unfold MinefieldIdentifier.deserialize; infer_instance
instance : Reserves 0 MinefieldIdentifier.deserialize := by unfold MinefieldIdentifier.deserialize; infer_instance
instance (x : MinefieldIdentifier) : Puts (serialize_field x) := inferInstanceAs (Puts (MinefieldIdentifier.serialize x))
instance : Steps (deserialize_field : Get MinefieldIdentifier) := inferInstanceAs (Steps MinefieldIdentifier.deserialize)
instance : Reserves 0 (deserialize_field : Get MinefieldIdentifier) := inferInstanceAs (Reserves 0 MinefieldIdentifier.deserialize)
instance (self : ModulationType) : Puts (ModulationType.serialize self) := by unfold ModulationType.serialize; puts
instance : Steps ModulationType.deserialize := by unfold ModulationType.deserialize; infer_instance
instance : Reserves 0 ModulationType.deserialize := by unfold ModulationType.deserialize; infer_instance
instance (x : ModulationType) : Puts (serialize_field x) := inferInstanceAs (Puts (ModulationType.serialize x))
instance : Steps (deserialize_field : Get ModulationType) := inferInstanceAs (Steps ModulationType.deserialize)
instance : Reserves 0 (deserialize_field : Get ModulationType) := inferInstanceAs (Reserves 0 ModulationType.deserialize)
instance (self : MunitionDescriptor) : Puts (MunitionDescriptor.serialize self) := by unfold MunitionDescriptor.serialize; puts
instance : Steps MunitionDescriptor.deserialize := by unfold MunitionDescriptor.deserialize; infer_instance
instance : Reserves 0 MunitionDescriptor.deserialize := by unfold MunitionDescriptor.deserialize; infer_instance
instance (x : MunitionDescriptor) : Puts (serialize_field x) := inferInstanceAs (Puts (MunitionDescriptor.serialize x))
instance : Steps (deserialize_field : Get MunitionDescriptor) := inferInstanceAs (Steps MunitionDescriptor.deserialize)
instance : Reserves 0 (deserialize_field : Get MunitionDescriptor) := inferInstanceAs (Reserves 0 MunitionDescriptor.deserialize)
instance (self : NamedLocation) : Puts (NamedLocation.serialize self) := by unfold NamedLocation.serialize; puts
instance : Steps NamedLocation.deserialize := by unfold NamedLocation.deserialize; infer_instance
instance : Reserves 0 NamedLocation.deserialize := by unfold NamedLocation.deserialize; infer_instance
instance (x : NamedLocation) : Puts (serialize_field x) := inferInstanceAs (Puts (NamedLocation.serialize x))
instance : Steps (deserialize_field : Get NamedLocation) := inferInstanceAs (Steps NamedLocation.deserialize)
instance : Reserves 0 (deserialize_field : Get NamedLocation) := inferInstanceAs (Reserves 0 NamedLocation.deserialize)
instance (self : ObjectIdentifier) : Puts (ObjectIdentifier.serialize self) := by unfold ObjectIdentifier.serialize; puts
instance : Steps ObjectIdentifier.deserialize := by unfold ObjectIdentifier.deserialize; infer_instance
instance : Reserves 0 ObjectIdentifier.deserialize := by unfold ObjectIdentifier.deserialize; infer_instance
instance (x : ObjectIdentifier) : Puts (serialize_field x) := inferInstanceAs (Puts (ObjectIdentifier.serialize x))
instance : Steps (deserialize_field : Get ObjectIdentifier) := inferInstanceAs (Steps ObjectIdentifier.deserialize)
instance : Reserves 0 (deserialize_field : Get ObjectIdentifier) := inferInstanceAs (Reserves 0 ObjectIdentifier.deserialize)
instance (self : ObjectType) : Puts (ObjectType.serialize self) := by unfold ObjectType.serialize; puts
instance : Steps ObjectType.deserialize := by unfold ObjectType.deserialize; infer_instance
instance : Reserves 0 ObjectType.deserialize := by unfold ObjectType.deserialize; infer_instance
instance (x : ObjectType) : Puts (serialize_field x) := inferInstanceAs (Puts (ObjectType.serialize x))
instance : Steps (deserialize_field : Get ObjectType) := inferInstanceAs (Steps ObjectType.deserialize)
instance : Reserves 0 (deserialize_field : Get ObjectType) := inferInstanceAs (Reserves 0 ObjectType.deserialize)
instance (self : Point) : Puts (Point.serialize self) := by unfold Point.serialize; puts
instance : Steps Point.deserialize := by unfold Point.deserialize; infer_instance
instance : Reserves 0 Point.deserialize := by unfold Point.deserialize; infer_instance
instance (x : Point) : Puts (serialize_field x) := inferInstanceAs (Puts (Point.serialize x))
instance : Steps (deserialize_field : Get Point) := inferInstanceAs (Steps Point.deserialize)
instance : Reserves 0 (deserialize_field : Get Point) := inferInstanceAs (Reserves 0 Point.deserialize)
instance (self : PropulsionSystemData) : Puts (PropulsionSystemData.serialize self) := by unfold PropulsionSystemData.serialize; puts
instance : Steps PropulsionSystemData.deserialize := by unfold PropulsionSystemData.deserialize; infer_instance
instance : Reserves 0 PropulsionSystemData.deserialize := by unfold PropulsionSystemData.deserialize; infer_instance
instance (x : PropulsionSystemData) : Puts (serialize_field x) := inferInstanceAs (Puts (PropulsionSystemData.serialize x))
instance : Steps (deserialize_field : Get PropulsionSystemData) := inferInstanceAs (Steps PropulsionSystemData.deserialize)
instance : Reserves 0 (deserialize_field : Get PropulsionSystemData) := inferInstanceAs (Reserves 0 PropulsionSystemData.deserialize)
instance (self : RadioEntityType) : Puts (RadioEntityType.serialize self) := by unfold RadioEntityType.serialize; puts
instance : Steps RadioEntityType.deserialize := by unfold RadioEntityType.deserialize; infer_instance
instance : Reserves 0 RadioEntityType.deserialize := by unfold RadioEntityType.deserialize; infer_instance
instance (x : RadioEntityType) : Puts (serialize_field x) := inferInstanceAs (Puts (RadioEntityType.serialize x))
instance : Steps (deserialize_field : Get RadioEntityType) := inferInstanceAs (Steps RadioEntityType.deserialize)
instance : Reserves 0 (deserialize_field : Get RadioEntityType) := inferInstanceAs (Reserves 0 RadioEntityType.deserialize)
instance (self : RecordSpecification) : Puts (RecordSpecification.serialize self) := by unfold RecordSpecification.serialize; puts
instance : Steps RecordSpecification.deserialize := by unfold RecordSpecification.deserialize; infer_instance
instance : Reserves 0 RecordSpecification.deserialize := by unfold RecordSpecification.deserialize; infer_instance
instance (x : RecordSpecification) : Puts (serialize_field x) := inferInstanceAs (Puts (RecordSpecification.serialize x))
instance : Steps (deserialize_field : Get RecordSpecification) := inferInstanceAs (Steps RecordSpecification.deserialize)
instance : Reserves 0 (deserialize_field : Get RecordSpecification) := inferInstanceAs (Reserves 0 RecordSpecification.deserialize)
instance (self : Relationship) : Puts (Relationship.serialize self) := by unfold Relationship.serialize; puts
instance : Steps Relationship.deserialize := by unfold Relationship.deserialize; infer_instance
instance : Reserves 0 Relationship.deserialize := by unfold Relationship.deserialize; infer_instance
instance (x : Relationship) : Puts (serialize_field x) := inferInstanceAs (Puts (Relationship.serialize x))
instance : Steps (deserialize_field : Get Relationship) := inferInstanceAs (Steps Relationship.deserialize)
instance : Reserves 0 (deserialize_field : Get Relationship) := inferInstanceAs (Reserves 0 Relationship.deserialize)
instance (self : SecondaryOperationalData) : Puts (SecondaryOperationalData.serialize self) := by unfold SecondaryOperationalData.serialize; puts
instance : Steps SecondaryOperationalData.deserialize := by unfold SecondaryOperationalData.deserialize; infer_instance
instance : Reserves 0 SecondaryOperationalData.deserialize := by unfold SecondaryOperationalData.deserialize; infer_instance
instance (x : SecondaryOperationalData) : Puts (serialize_field x) := inferInstanceAs (Puts (SecondaryOperationalData.serialize x))
instance : Steps (deserialize_field : Get SecondaryOperationalData) := inferInstanceAs (Steps SecondaryOperationalData.deserialize)
instance : Reserves 0 (deserialize_field : Get SecondaryOperationalData) := inferInstanceAs (Reserves 0 SecondaryOperationalData.deserialize)
instance (self : ShaftRPMs) : Puts (ShaftRPMs.serialize self) := by unfold ShaftRPMs.serialize; puts
instance : Steps ShaftRPMs.deserialize := by unfold ShaftRPMs.deserialize; infer_instance
instance : Reserves 0 ShaftRPMs.deserialize := by unfold ShaftRPMs.deserialize; infer_instance
instance (x : ShaftRPMs) : Puts (serialize_field x) := inferInstanceAs (Puts (ShaftRPMs.serialize x))
instance : Steps (deserialize_field : Get ShaftRPMs) := inferInstanceAs (Steps ShaftRPMs.deserialize)
instance : Reserves 0 (deserialize_field : Get ShaftRPMs) := inferInstanceAs (Reserves 0 ShaftRPMs.deserialize)
instance (self : SimulationIdentifier) : Puts (SimulationIdentifier.serialize self) := by unfold SimulationIdentifier.serialize; puts
instance : Steps SimulationIdentifier.deserialize := by unfold SimulationIdentifier.deserialize; infer_instance
instance : Reserves 0 SimulationIdentifier.deserialize := by unfold SimulationIdentifier.deserialize; infer_instance
instance (x : SimulationIdentifier) : Puts (serialize_field x) := inferInstanceAs (Puts (SimulationIdentifier.serialize x))
instance : Steps (deserialize_field : Get SimulationIdentifier) := inferInstanceAs (Steps SimulationIdentifier.deserialize)
instance : Reserves 0 (deserialize_field : Get SimulationIdentifier) := inferInstanceAs (Reserves 0 SimulationIdentifier.deserialize)
instance (self : StandardVariableRecords) : Puts (StandardVariableRecords.serialize self) := by unfold StandardVariableRecords.serialize; puts
instance : Steps StandardVariableRecords.deserialize := by unfold StandardVariableRecords.deserialize; infer_instance
instance : Reserves 0 StandardVariableRecords.deserialize := by unfold StandardVariableRecords.deserialize; infer_instance
instance (x : StandardVariableRecords) : Puts (serialize_field x) := inferInstanceAs (Puts (StandardVariableRecords.serialize x))
instance : Steps (deserialize_field : Get StandardVariableRecords) := inferInstanceAs (Steps StandardVariableRecords.deserialize)
instance : Reserves 0 (deserialize_field : Get StandardVariableRecords) := inferInstanceAs (Reserves 0 StandardVariableRecords.deserialize)
instance (self : StandardVariableSpecification) : Puts (StandardVariableSpecification.serialize self) := by unfold StandardVariableSpecification.serialize; puts
instance : Steps StandardVariableSpecification.deserialize := by unfold StandardVariableSpecification.deserialize; infer_instance
instance : Reserves 0 StandardVariableSpecification.deserialize := by unfold StandardVariableSpecification.deserialize; infer_instance
instance (self : StandardVariableSpecification) : Puts (StandardVariableSpecification.serializeField self) := by unfold StandardVariableSpecification.serializeField; puts
instance (x : StandardVariableSpecification) : Puts (serialize_field x) := inferInstanceAs (Puts (StandardVariableSpecification.serializeField x))
instance : Steps StandardVariableSpecification.deserializeField := by unfold StandardVariableSpecification.deserializeField; infer_instance
instance : Reserves 65535 StandardVariableSpecification.deserializeField := by
  unfold StandardVariableSpecification.deserializeField
  refine @Reserves.bind0 _ _ _ _ _ inferInstance fun n => Reserves.last _ _ (Reserves.reserve ?_) fun _ => inferInstance
  have := n.toNat_lt
  omega
instance : Steps (deserialize_field : Get StandardVariableSpecification) := inferInstanceAs (Steps StandardVariableSpecification.deserializeField)
instance : Reserves 65535 (deserialize_field : Get StandardVariableSpecification) := inferInstanceAs (Reserves 65535 StandardVariableSpecification.deserializeField)
instance (self : SupplyQuantity) : Puts (SupplyQuantity.serialize self) := by unfold SupplyQuantity.serialize; puts
instance : Steps SupplyQuantity.deserialize := by unfold SupplyQuantity.deserialize; infer_instance
instance : Reserves 0 SupplyQuantity.deserialize := by unfold SupplyQuantity.deserialize; infer_instance
instance (x : SupplyQuantity) : Puts (serialize_field x) := inferInstanceAs (Puts (SupplyQuantity.serialize x))
instance : Steps (deserialize_field : Get SupplyQuantity) := inferInstanceAs (Steps SupplyQuantity.deserialize)
instance : Reserves 0 (deserialize_field : Get SupplyQuantity) := inferInstanceAs (Reserves 0 SupplyQuantity.deserialize)
instance (self : SystemId) : Puts (SystemId.serialize self) := by unfold SystemId.serialize; puts
instance : Steps SystemId.deserialize := by unfold SystemId.deserialize; infer_instance
instance : Reserves 0 SystemId.deserialize := by unfold SystemId.deserialize; infer_instance
instance (x : SystemId) : Puts (serialize_field x) := inferInstanceAs (Puts (SystemId.serialize x))
instance : Steps (deserialize_field : Get SystemId) := inferInstanceAs (Steps SystemId.deserialize)
instance : Reserves 0 (deserialize_field : Get SystemId) := inferInstanceAs (Reserves 0 SystemId.deserialize)
instance (self : VariableParameter) : Puts (VariableParameter.serialize self) := by unfold VariableParameter.serialize; puts
instance : Steps VariableParameter.deserialize := by unfold VariableParameter.deserialize; infer_instance
instance : Reserves 0 VariableParameter.deserialize := by unfold VariableParameter.deserialize; infer_instance
instance (x : VariableParameter) : Puts (serialize_field x) := inferInstanceAs (Puts (VariableParameter.serialize x))
instance : Steps (deserialize_field : Get VariableParameter) := inferInstanceAs (Steps VariableParameter.deserialize)
instance : Reserves 0 (deserialize_field : Get VariableParameter) := inferInstanceAs (Reserves 0 VariableParameter.deserialize)
instance (self : VariableTransmitterParameters) : Puts (VariableTransmitterParameters.serialize self) := by unfold VariableTransmitterParameters.serialize; puts
instance : Steps VariableTransmitterParameters.deserialize := by unfold VariableTransmitterParameters.deserialize; infer_instance
instance : Reserves 0 VariableTransmitterParameters.deserialize := by unfold VariableTransmitterParameters.deserialize; infer_instance
instance (x : VariableTransmitterParameters) : Puts (serialize_field x) := inferInstanceAs (Puts (VariableTransmitterParameters.serialize x))
instance : Steps (deserialize_field : Get VariableTransmitterParameters) := inferInstanceAs (Steps VariableTransmitterParameters.deserialize)
instance : Reserves 0 (deserialize_field : Get VariableTransmitterParameters) := inferInstanceAs (Reserves 0 VariableTransmitterParameters.deserialize)
instance (self : Vector3Double) : Puts (Vector3Double.serialize self) := by unfold Vector3Double.serialize; puts
instance : Steps Vector3Double.deserialize := by unfold Vector3Double.deserialize; infer_instance
instance : Reserves 0 Vector3Double.deserialize := by unfold Vector3Double.deserialize; infer_instance
instance (self : VectoringNozzleSystemData) : Puts (VectoringNozzleSystemData.serialize self) := by unfold VectoringNozzleSystemData.serialize; puts
instance : Steps VectoringNozzleSystemData.deserialize := by unfold VectoringNozzleSystemData.deserialize; infer_instance
instance : Reserves 0 VectoringNozzleSystemData.deserialize := by unfold VectoringNozzleSystemData.deserialize; infer_instance
instance (x : VectoringNozzleSystemData) : Puts (serialize_field x) := inferInstanceAs (Puts (VectoringNozzleSystemData.serialize x))
instance : Steps (deserialize_field : Get VectoringNozzleSystemData) := inferInstanceAs (Steps VectoringNozzleSystemData.deserialize)
instance : Reserves 0 (deserialize_field : Get VectoringNozzleSystemData) := inferInstanceAs (Reserves 0 VectoringNozzleSystemData.deserialize)
instance (self : VelocityVector) : Puts (VelocityVector.serialize self) := by unfold VelocityVector.serialize; puts
instance : Steps VelocityVector.deserialize := by unfold VelocityVector.deserialize; infer_instance
instance : Reserves 0 VelocityVector.deserialize := by unfold VelocityVector.deserialize; infer_instance
instance (x : PduHeader) : Puts x.serialize := by unfold PduHeader.serialize; puts
instance : Steps PduHeader.deserialize := by unfold PduHeader.deserialize; infer_instance
instance : Steps (deserialize_field : Get PduHeader) := inferInstanceAs (Steps PduHeader.deserialize)
instance : Reserves 0 PduHeader.deserialize := by unfold PduHeader.deserialize; infer_instance
instance : Reserves 0 (deserialize_field : Get PduHeader) := inferInstanceAs (Reserves 0 PduHeader.deserialize)
instance (x : PduHeader) : Puts (serialize_field x) := inferInstanceAs (Puts x.serialize)
instance (x : LiveEntityPduHeader) : Puts x.serialize := by unfold LiveEntityPduHeader.serialize; puts
instance : Steps LiveEntityPduHeader.deserialize := by unfold LiveEntityPduHeader.deserialize; infer_instance
instance : Reserves 0 LiveEntityPduHeader.deserialize := by unfold LiveEntityPduHeader.deserialize; infer_instance

end Dis
