import Verif.Proofs.ViaBuf
/- Generated by tools/gen_viabuf.py. -/
set_option synthInstance.maxSize 1000
set_option synthInstance.maxHeartbeats 400000
set_option maxRecDepth 4000
namespace Dis

instance : ViaBuf getU8 := by unfold getU8; infer_instance
instance : ViaBuf getU16 := by unfold getU16; infer_instance
instance : ViaBuf getU32 := by unfold getU32; infer_instance
instance : ViaBuf getU64 := by unfold getU64; infer_instance
instance : ViaBuf getI8 := by unfold getI8; infer_instance
instance : ViaBuf getI16 := by unfold getI16; infer_instance
instance : ViaBuf getI32 := by unfold getI32; infer_instance
instance : ViaBuf getI64 := by unfold getI64; infer_instance
instance : ViaBuf getF32 := by unfold getF32; infer_instance
instance : ViaBuf getF64 := by unfold getF64; infer_instance
instance (s : EnumSpec) : ViaBuf s.deserialize := by unfold EnumSpec.deserialize; cases s.repr <;> infer_instance
instance : ViaBuf (deserialize_field : Get UInt8) := inferInstanceAs (ViaBuf getU8)
instance : ViaBuf (deserialize_field : Get UInt16) := inferInstanceAs (ViaBuf getU16)
instance : ViaBuf (deserialize_field : Get UInt32) := inferInstanceAs (ViaBuf getU32)
instance : ViaBuf (deserialize_field : Get UInt64) := inferInstanceAs (ViaBuf getU64)
instance : ViaBuf (deserialize_field : Get Int8) := inferInstanceAs (ViaBuf getI8)
instance : ViaBuf (deserialize_field : Get Int16) := inferInstanceAs (ViaBuf getI16)
instance : ViaBuf (deserialize_field : Get Int32) := inferInstanceAs (ViaBuf getI32)
instance : ViaBuf (deserialize_field : Get Int64) := inferInstanceAs (ViaBuf getI64)
instance : ViaBuf (deserialize_field : Get F32) := inferInstanceAs (ViaBuf getF32)
instance : ViaBuf (deserialize_field : Get F64) := inferInstanceAs (ViaBuf getF64)

instance : ViaBuf (deserialize_field : Get String) := inferInstanceAs (ViaBuf (Pure.pure "" : M String))
instance {α : Type} [FieldDeserialize α] : ViaBuf (deserialize_field : Get (List α)) :=
  inferInstanceAs (ViaBuf (Pure.pure [] : M (List α)))
instance {α : Type} [FieldDeserialize α] : ViaBuf (deserialize_field : Get (Option α)) :=
  inferInstanceAs (ViaBuf (Pure.pure none : M (Option α)))
instance {α : Type} [FieldDeserializeWithLen α] (n : Nat) [ViaBuf (deserialize_with_len n : Get α)] :
    ViaBuf (deserialize_with_len n : Get (Option α)) :=
  inferInstanceAs (ViaBuf (if n = 0 then Pure.pure none else (deserialize_with_len n : Get α) >>= fun x => Pure.pure (some x)))

instance : ViaBuf (deserialize_field : Get ForceId) := inferInstanceAs (ViaBuf ForceId.deserialize)
instance : ViaBuf (deserialize_field : Get DeadReckoningAlgorithm) := inferInstanceAs (ViaBuf DeadReckoningAlgorithm.deserialize)
instance : ViaBuf (deserialize_field : Get EntityCapabilities) := inferInstanceAs (ViaBuf EntityCapabilities.deserialize)
instance : ViaBuf (deserialize_field : Get DetonationResult) := inferInstanceAs (ViaBuf DetonationResult.deserialize)
instance : ViaBuf (deserialize_field : Get ServiceRequestServiceTypeRequested) := inferInstanceAs (ViaBuf ServiceRequestServiceTypeRequested.deserialize)
instance : ViaBuf (deserialize_field : Get RepairCompleteRepair) := inferInstanceAs (ViaBuf RepairCompleteRepair.deserialize)
instance : ViaBuf (deserialize_field : Get RepairResponseRepairResult) := inferInstanceAs (ViaBuf RepairResponseRepairResult.deserialize)
instance : ViaBuf (deserialize_field : Get VariableRecordTypes) := inferInstanceAs (ViaBuf VariableRecordTypes.deserialize)
instance : ViaBuf (deserialize_field : Get Reason) := inferInstanceAs (ViaBuf Reason.deserialize)
instance : ViaBuf (deserialize_field : Get AcknowledgeFlag) := inferInstanceAs (ViaBuf AcknowledgeFlag.deserialize)
instance : ViaBuf (deserialize_field : Get AcknowledgeResponseFlag) := inferInstanceAs (ViaBuf AcknowledgeResponseFlag.deserialize)
instance : ViaBuf (deserialize_field : Get ActionResponseRequestStatus) := inferInstanceAs (ViaBuf ActionResponseRequestStatus.deserialize)
instance : ViaBuf (deserialize_field : Get EventType) := inferInstanceAs (ViaBuf EventType.deserialize)
instance : ViaBuf (deserialize_field : Get RequiredReliabilityService) := inferInstanceAs (ViaBuf RequiredReliabilityService.deserialize)
instance : ViaBuf (deserialize_field : Get DesignatorSystemName) := inferInstanceAs (ViaBuf DesignatorSystemName.deserialize)
instance : ViaBuf (deserialize_field : Get DesignatorCode) := inferInstanceAs (ViaBuf DesignatorCode.deserialize)
instance : ViaBuf (deserialize_field : Get UAStateChangeUpdateIndicator) := inferInstanceAs (ViaBuf UAStateChangeUpdateIndicator.deserialize)
instance : ViaBuf (deserialize_field : Get UAAcousticSystemName) := inferInstanceAs (ViaBuf UAAcousticSystemName.deserialize)
instance : ViaBuf (deserialize_field : Get UAAcousticEmitterSystemFunction) := inferInstanceAs (ViaBuf UAAcousticEmitterSystemFunction.deserialize)
instance : ViaBuf (deserialize_field : Get UAPassiveParameterIndex) := inferInstanceAs (ViaBuf UAPassiveParameterIndex.deserialize)
instance : ViaBuf (deserialize_field : Get TransmitterTransmitState) := inferInstanceAs (ViaBuf TransmitterTransmitState.deserialize)
instance : ViaBuf (deserialize_field : Get TransmitterInputSource) := inferInstanceAs (ViaBuf TransmitterInputSource.deserialize)
instance : ViaBuf (deserialize_field : Get TransmitterCryptoSystem) := inferInstanceAs (ViaBuf TransmitterCryptoSystem.deserialize)
instance : ViaBuf (deserialize_field : Get TransmitterAntennaPatternType) := inferInstanceAs (ViaBuf TransmitterAntennaPatternType.deserialize)
instance : ViaBuf (deserialize_field : Get TransmitterAntennaPatternReferenceSystem) := inferInstanceAs (ViaBuf TransmitterAntennaPatternReferenceSystem.deserialize)
instance : ViaBuf (deserialize_field : Get SignalTDLType) := inferInstanceAs (ViaBuf SignalTDLType.deserialize)
instance : ViaBuf (deserialize_field : Get ReceiverReceiverState) := inferInstanceAs (ViaBuf ReceiverReceiverState.deserialize)
instance : ViaBuf (deserialize_field : Get IntercomControlControlType) := inferInstanceAs (ViaBuf IntercomControlControlType.deserialize)
instance : ViaBuf (deserialize_field : Get IntercomControlCommand) := inferInstanceAs (ViaBuf IntercomControlCommand.deserialize)
instance : ViaBuf (deserialize_field : Get IntercomControlTransmitLineState) := inferInstanceAs (ViaBuf IntercomControlTransmitLineState.deserialize)
instance : ViaBuf (deserialize_field : Get MinefieldSensorTypes) := inferInstanceAs (ViaBuf MinefieldSensorTypes.deserialize)
instance : ViaBuf (deserialize_field : Get AggregateStateAggregateState) := inferInstanceAs (ViaBuf AggregateStateAggregateState.deserialize)
instance : ViaBuf (deserialize_field : Get AggregateStateFormation) := inferInstanceAs (ViaBuf AggregateStateFormation.deserialize)
instance : ViaBuf (deserialize_field : Get IsGroupOfGroupedEntityCategory) := inferInstanceAs (ViaBuf IsGroupOfGroupedEntityCategory.deserialize)
instance : ViaBuf (deserialize_field : Get TransferControlTransferType) := inferInstanceAs (ViaBuf TransferControlTransferType.deserialize)
instance : ViaBuf GriddedDataFieldNumber.deserialize := by unfold GriddedDataFieldNumber.deserialize; infer_instance
instance : ViaBuf (deserialize_field : Get GriddedDataCoordinateSystem) := inferInstanceAs (ViaBuf GriddedDataCoordinateSystem.deserialize)
instance : ViaBuf (deserialize_field : Get GriddedDataConstantGrid) := inferInstanceAs (ViaBuf GriddedDataConstantGrid.deserialize)
instance : ViaBuf (deserialize_field : Get GriddedDataSampleType) := inferInstanceAs (ViaBuf GriddedDataSampleType.deserialize)
instance : ViaBuf (deserialize_field : Get GriddedDataDataRepresentation) := inferInstanceAs (ViaBuf GriddedDataDataRepresentation.deserialize)
instance : ViaBuf (deserialize_field : Get RepairGroups) := inferInstanceAs (ViaBuf RepairGroups.deserialize)
instance : ViaBuf (deserialize_field : Get IOActionIOWarfareType) := inferInstanceAs (ViaBuf IOActionIOWarfareType.deserialize)
instance : ViaBuf (deserialize_field : Get IOActionIOSimulationSource) := inferInstanceAs (ViaBuf IOActionIOSimulationSource.deserialize)
instance : ViaBuf (deserialize_field : Get IOActionIOActionType) := inferInstanceAs (ViaBuf IOActionIOActionType.deserialize)
instance : ViaBuf (deserialize_field : Get IOActionIOActionPhase) := inferInstanceAs (ViaBuf IOActionIOActionPhase.deserialize)
instance : ViaBuf (deserialize_field : Get IOReportIOReportType) := inferInstanceAs (ViaBuf IOReportIOReportType.deserialize)
instance : ViaBuf (deserialize_field : Get DISAttributeActionCode) := inferInstanceAs (ViaBuf DISAttributeActionCode.deserialize)
instance : ViaBuf (deserialize_field : Get EEAttributeStateIndicator) := inferInstanceAs (ViaBuf EEAttributeStateIndicator.deserialize)
instance : ViaBuf (deserialize_field : Get DEFirePulseShape) := inferInstanceAs (ViaBuf DEFirePulseShape.deserialize)
instance : ViaBuf (deserialize_field : Get ComponentIdentification) := inferInstanceAs (ViaBuf ComponentIdentification.deserialize)
instance : ViaBuf (deserialize_field : Get ComponentDamageStatus) := inferInstanceAs (ViaBuf ComponentDamageStatus.deserialize)
instance : ViaBuf (deserialize_field : Get ComponentVisualSmokeColor) := inferInstanceAs (ViaBuf ComponentVisualSmokeColor.deserialize)
instance : ViaBuf (deserialize_field : Get RecordQueryREventType) := inferInstanceAs (ViaBuf RecordQueryREventType.deserialize)
instance : ViaBuf (deserialize_field : Get MinefieldStateProtocolMode) := inferInstanceAs (ViaBuf MinefieldStateProtocolMode.deserialize)
instance : ViaBuf (deserialize_field : Get GridAxisDescriptorAxisType) := inferInstanceAs (ViaBuf GridAxisDescriptorAxisType.deserialize)
instance : ViaBuf CivilianSubmarineSubcategories.deserialize := by unfold CivilianSubmarineSubcategories.deserialize; infer_instance
instance : ViaBuf CivilianSubmersibleSubcategories.deserialize := by unfold CivilianSubmersibleSubcategories.deserialize; infer_instance
instance : ViaBuf (deserialize_field : Get FrozenBehavior) := by dsimp only [deserialize_field]; infer_instance
instance : ViaBuf (deserialize_field : Get ObjectStateAppearanceGeneral) := by dsimp only [deserialize_field]; infer_instance
instance : ViaBuf EntityMarking.deserialize := by unfold EntityMarking.deserialize; infer_instance
instance : ViaBuf (deserialize_field : Get EntityMarking) := inferInstanceAs (ViaBuf EntityMarking.deserialize)
instance : ViaBuf VariableDatumRecord.deserialize := by unfold VariableDatumRecord.deserialize; infer_instance
instance : ViaBuf (deserialize_field : Get VariableDatumRecord) := inferInstanceAs (ViaBuf VariableDatumRecord.deserialize)
instance : ViaBuf RecordSpecificationElement.deserialize := by unfold RecordSpecificationElement.deserialize; infer_instance
instance : ViaBuf (deserialize_field : Get RecordSpecificationElement) := inferInstanceAs (ViaBuf RecordSpecificationElement.deserialize)
instance (axis_type : GridAxisDescriptorAxisType) : ViaBuf (GridAxisDescriptor.deserializeData axis_type) := by unfold GridAxisDescriptor.deserializeData; infer_instance
instance : ViaBuf GridAxisDescriptor.deserialize := by unfold GridAxisDescriptor.deserialize; infer_instance
instance : ViaBuf (deserialize_field : Get GridAxisDescriptor) := inferInstanceAs (ViaBuf GridAxisDescriptor.deserialize)
instance (r : GriddedDataDataRepresentation) : ViaBuf (GridDataRecord.deserializeData r) := by unfold GridDataRecord.deserializeData; infer_instance
instance : ViaBuf GridDataRecord.deserialize := by unfold GridDataRecord.deserialize; infer_instance
instance : ViaBuf (deserialize_field : Get GridDataRecord) := inferInstanceAs (ViaBuf GridDataRecord.deserialize)
instance (length : UInt8) : ViaBuf (ModulationParameters.deserialize length) := by unfold ModulationParameters.deserialize; infer_instance
instance : ViaBuf (deserialize_field : Get ModulationParameters) := by dsimp only [deserialize_field]; infer_instance
instance (n : Nat) : ViaBuf (deserialize_with_len n : Get ModulationParameters) := by dsimp only [deserialize_with_len]; infer_instance
instance (length : UInt16) : ViaBuf (AntennaPattern.deserialize length) := by unfold AntennaPattern.deserialize; infer_instance
instance : ViaBuf (deserialize_field : Get AntennaPattern) := by dsimp only [deserialize_field]; infer_instance
instance (n : Nat) : ViaBuf (deserialize_with_len n : Get AntennaPattern) := by dsimp only [deserialize_with_len]; infer_instance
instance : ViaBuf AcousticBeamFundamentalParameter.deserialize := by unfold AcousticBeamFundamentalParameter.deserialize; infer_instance
instance : ViaBuf AcousticBeamData.deserialize := by unfold AcousticBeamData.deserialize; infer_instance
instance : ViaBuf AcousticEmitterSystem.deserialize := by unfold AcousticEmitterSystem.deserialize; infer_instance
instance : ViaBuf (deserialize_field : Get AcousticEmitterSystem) := inferInstanceAs (ViaBuf AcousticEmitterSystem.deserialize)
instance : ViaBuf Vector3Float.deserialize := by unfold Vector3Float.deserialize; infer_instance
instance : ViaBuf (deserialize_field : Get Vector3Float) := inferInstanceAs (ViaBuf Vector3Float.deserialize)
instance : ViaBuf AcousticEmitterSystemData.deserialize := by unfold AcousticEmitterSystemData.deserialize; infer_instance
instance : ViaBuf AggregateId.deserialize := by unfold AggregateId.deserialize; infer_instance
instance : ViaBuf (deserialize_field : Get AggregateId) := inferInstanceAs (ViaBuf AggregateId.deserialize)
instance : ViaBuf AggregateMarking.deserialize := by unfold AggregateMarking.deserialize; infer_instance
instance : ViaBuf (deserialize_field : Get AggregateMarking) := inferInstanceAs (ViaBuf AggregateMarking.deserialize)
instance : ViaBuf AngularVelocity.deserialize := by unfold AngularVelocity.deserialize; infer_instance
instance : ViaBuf ApaData.deserialize := by unfold ApaData.deserialize; infer_instance
instance : ViaBuf (deserialize_field : Get ApaData) := inferInstanceAs (ViaBuf ApaData.deserialize)
instance : ViaBuf AttributeRecord.deserialize := by unfold AttributeRecord.deserialize; infer_instance
instance : ViaBuf (deserialize_field : Get AttributeRecord) := inferInstanceAs (ViaBuf AttributeRecord.deserialize)
instance : ViaBuf SimulationAddress.deserialize := by unfold SimulationAddress.deserialize; infer_instance
instance : ViaBuf (deserialize_field : Get SimulationAddress) := inferInstanceAs (ViaBuf SimulationAddress.deserialize)
instance : ViaBuf EntityId.deserialize_simulation_address := by unfold EntityId.deserialize_simulation_address; infer_instance
instance : ViaBuf EntityId.deserialize := by unfold EntityId.deserialize; infer_instance
instance : ViaBuf (deserialize_field : Get EntityId) := inferInstanceAs (ViaBuf EntityId.deserialize)
instance : ViaBuf AttributeRecordSet.deserialize := by unfold AttributeRecordSet.deserialize; infer_instance
instance : ViaBuf (deserialize_field : Get AttributeRecordSet) := inferInstanceAs (ViaBuf AttributeRecordSet.deserialize)
instance : ViaBuf BeamData.deserialize := by unfold BeamData.deserialize; infer_instance
instance : ViaBuf (deserialize_field : Get BeamData) := inferInstanceAs (ViaBuf BeamData.deserialize)
instance : ViaBuf ClockTime.deserialize := by unfold ClockTime.deserialize; infer_instance
instance : ViaBuf (deserialize_field : Get ClockTime) := inferInstanceAs (ViaBuf ClockTime.deserialize)
instance : ViaBuf LinearAcceleration.deserialize := by unfold LinearAcceleration.deserialize; infer_instance
instance : ViaBuf (deserialize_field : Get LinearAcceleration) := inferInstanceAs (ViaBuf LinearAcceleration.deserialize)
instance : ViaBuf DeadReckoningParameters.deserialize := by unfold DeadReckoningParameters.deserialize; infer_instance
instance : ViaBuf (deserialize_field : Get DeadReckoningParameters) := inferInstanceAs (ViaBuf DeadReckoningParameters.deserialize)
instance : ViaBuf EntityCoordinateVector.deserialize := by unfold EntityCoordinateVector.deserialize; infer_instance
instance : ViaBuf (deserialize_field : Get EntityCoordinateVector) := inferInstanceAs (ViaBuf EntityCoordinateVector.deserialize)
instance : ViaBuf EventId.deserialize := by unfold EventId.deserialize; infer_instance
instance : ViaBuf (deserialize_field : Get EventId) := inferInstanceAs (ViaBuf EventId.deserialize)
instance : ViaBuf DirectedEnergyDamage.deserialize := by unfold DirectedEnergyDamage.deserialize; infer_instance
instance : ViaBuf (deserialize_field : Get DirectedEnergyDamage) := inferInstanceAs (ViaBuf DirectedEnergyDamage.deserialize)
instance : ViaBuf FundamentalParameterData.deserialize := by unfold FundamentalParameterData.deserialize; infer_instance
instance : ViaBuf (deserialize_field : Get FundamentalParameterData) := inferInstanceAs (ViaBuf FundamentalParameterData.deserialize)
instance : ViaBuf TrackJamTarget.deserialize := by unfold TrackJamTarget.deserialize; infer_instance
instance : ViaBuf (deserialize_field : Get TrackJamTarget) := inferInstanceAs (ViaBuf TrackJamTarget.deserialize)
instance : ViaBuf ElectromagneticEmissionBeamData.deserialize := by unfold ElectromagneticEmissionBeamData.deserialize; infer_instance
instance : ViaBuf (deserialize_field : Get ElectromagneticEmissionBeamData) := inferInstanceAs (ViaBuf ElectromagneticEmissionBeamData.deserialize)
instance : ViaBuf EmitterSystem.deserialize := by unfold EmitterSystem.deserialize; infer_instance
instance : ViaBuf ElectromagneticEmissionSystemData.deserialize := by unfold ElectromagneticEmissionSystemData.deserialize; infer_instance
instance : ViaBuf (deserialize_field : Get ElectromagneticEmissionSystemData) := inferInstanceAs (ViaBuf ElectromagneticEmissionSystemData.deserialize)
instance : ViaBuf EntityType.deserialize := by unfold EntityType.deserialize; infer_instance
instance : ViaBuf (deserialize_field : Get EntityType) := inferInstanceAs (ViaBuf EntityType.deserialize)
instance : ViaBuf Environment.deserialize := by unfold Environment.deserialize; infer_instance
instance : ViaBuf (deserialize_field : Get Environment) := inferInstanceAs (ViaBuf Environment.deserialize)
instance : ViaBuf EulerAngles.deserialize := by unfold EulerAngles.deserialize; infer_instance
instance : ViaBuf (deserialize_field : Get EulerAngles) := inferInstanceAs (ViaBuf EulerAngles.deserialize)
instance : ViaBuf FixedDatumRecord.deserialize := by unfold FixedDatumRecord.deserialize; infer_instance
instance : ViaBuf (deserialize_field : Get FixedDatumRecord) := inferInstanceAs (ViaBuf FixedDatumRecord.deserialize)
instance : ViaBuf FundamentalOperationalData.deserialize := by unfold FundamentalOperationalData.deserialize; infer_instance
instance : ViaBuf (deserialize_field : Get FundamentalOperationalData) := inferInstanceAs (ViaBuf FundamentalOperationalData.deserialize)
instance : ViaBuf IFFFundamentalParameterData.deserialize := by unfold IFFFundamentalParameterData.deserialize; infer_instance
instance : ViaBuf (deserialize_field : Get IFFFundamentalParameterData) := inferInstanceAs (ViaBuf IFFFundamentalParameterData.deserialize)
instance : ViaBuf IntercomCommunicationsParameters.deserialize := by unfold IntercomCommunicationsParameters.deserialize; infer_instance
instance : ViaBuf (deserialize_field : Get IntercomCommunicationsParameters) := inferInstanceAs (ViaBuf IntercomCommunicationsParameters.deserialize)
instance : ViaBuf LayerHeader.deserialize := by unfold LayerHeader.deserialize; infer_instance
instance : ViaBuf (deserialize_field : Get LayerHeader) := inferInstanceAs (ViaBuf LayerHeader.deserialize)
instance : ViaBuf WorldCoordinate.deserialize := by unfold WorldCoordinate.deserialize; infer_instance
instance : ViaBuf (deserialize_field : Get WorldCoordinate) := inferInstanceAs (ViaBuf WorldCoordinate.deserialize)
instance : ViaBuf LinearSegmentParameter.deserialize := by unfold LinearSegmentParameter.deserialize; infer_instance
instance : ViaBuf (deserialize_field : Get LinearSegmentParameter) := inferInstanceAs (ViaBuf LinearSegmentParameter.deserialize)
instance : ViaBuf LinearVelocity.deserialize := by unfold LinearVelocity.deserialize; infer_instance
instance : ViaBuf (deserialize_field : Get LinearVelocity) := inferInstanceAs (ViaBuf LinearVelocity.deserialize)
instance : ViaBuf MinefieldIdentifier.deserialize := by unfold MinefieldIdentifier.deserialize; infer_instance
instance : ViaBuf (deserialize_field : Get MinefieldIdentifier) := inferInstanceAs (ViaBuf MinefieldIdentifier.deserialize)
instance : ViaBuf ModulationType.deserialize := by unfold ModulationType.deserialize; infer_instance
instance : ViaBuf (deserialize_field : Get ModulationType) := inferInstanceAs (ViaBuf ModulationType.deserialize)
instance : ViaBuf MunitionDescriptor.deserialize := by unfold MunitionDescriptor.deserialize; infer_instance
instance : ViaBuf (deserialize_field : Get MunitionDescriptor) := inferInstanceAs (ViaBuf MunitionDescriptor.deserialize)
instance : ViaBuf NamedLocation.deserialize := by unfold NamedLocation.deserialize; infer_instance
instance : ViaBuf (deserialize_field : Get NamedLocation) := inferInstanceAs (ViaBuf NamedLocation.deserialize)
instance : ViaBuf ObjectIdentifier.deserialize := by unfold ObjectIdentifier.deserialize; infer_instance
instance : ViaBuf (deserialize_field : Get ObjectIdentifier) := inferInstanceAs (ViaBuf ObjectIdentifier.deserialize)
instance : ViaBuf ObjectType.deserialize := by unfold ObjectType.deserialize; infer_instance
instance : ViaBuf (deserialize_field : Get ObjectType) := inferInstanceAs (ViaBuf ObjectType.deserialize)
instance : ViaBuf Point.deserialize := by unfold Point.deserialize; infer_instance
instance : ViaBuf (deserialize_field : Get Point) := inferInstanceAs (ViaBuf Point.deserialize)
instance : ViaBuf PropulsionSystemData.deserialize := by unfold PropulsionSystemData.deserialize; infer_instance
instance : ViaBuf (deserialize_field : Get PropulsionSystemData) := inferInstanceAs (ViaBuf PropulsionSystemData.deserialize)
instance : ViaBuf RadioEntityType.deserialize := by unfold RadioEntityType.deserialize; infer_instance
instance : ViaBuf (deserialize_field : Get RadioEntityType) := inferInstanceAs (ViaBuf RadioEntityType.deserialize)
instance : ViaBuf RecordSpecification.deserialize := by unfold RecordSpecification.deserialize; infer_instance
instance : ViaBuf (deserialize_field : Get RecordSpecification) := inferInstanceAs (ViaBuf RecordSpecification.deserialize)
instance : ViaBuf Relationship.deserialize := by unfold Relationship.deserialize; infer_instance
instance : ViaBuf (deserialize_field : Get Relationship) := inferInstanceAs (ViaBuf Relationship.deserialize)
instance : ViaBuf SecondaryOperationalData.deserialize := by unfold SecondaryOperationalData.deserialize; infer_instance
instance : ViaBuf (deserialize_field : Get SecondaryOperationalData) := inferInstanceAs (ViaBuf SecondaryOperationalData.deserialize)
instance : ViaBuf ShaftRPMs.deserialize := by unfold ShaftRPMs.deserialize; infer_instance
instance : ViaBuf (deserialize_field : Get ShaftRPMs) := inferInstanceAs (ViaBuf ShaftRPMs.deserialize)
instance : ViaBuf SimulationIdentifier.deserialize := by unfold SimulationIdentifier.deserialize; infer_instance
instance : ViaBuf (deserialize_field : Get SimulationIdentifier) := inferInstanceAs (ViaBuf SimulationIdentifier.deserialize)
instance : ViaBuf StandardVariableRecords.deserialize := by unfold StandardVariableRecords.deserialize; infer_instance
instance : ViaBuf (deserialize_field : Get StandardVariableRecords) := inferInstanceAs (ViaBuf StandardVariableRecords.deserialize)
instance : ViaBuf StandardVariableSpecification.deserialize := by unfold StandardVariableSpecification.deserialize; infer_instance
instance : ViaBuf StandardVariableSpecification.deserializeField := by unfold StandardVariableSpecification.deserializeField; infer_instance
instance : ViaBuf (deserialize_field : Get StandardVariableSpecification) := inferInstanceAs (ViaBuf StandardVariableSpecification.deserializeField)
instance : ViaBuf SupplyQuantity.deserialize := by unfold SupplyQuantity.deserialize; infer_instance
instance : ViaBuf (deserialize_field : Get SupplyQuantity) := inferInstanceAs (ViaBuf SupplyQuantity.deserialize)
instance : ViaBuf SystemId.deserialize := by unfold SystemId.deserialize; infer_instance
instance : ViaBuf (deserialize_field : Get SystemId) := inferInstanceAs (ViaBuf SystemId.deserialize)
instance : ViaBuf VariableParameter.deserialize := by unfold VariableParameter.deserialize; infer_instance
instance : ViaBuf (deserialize_field : Get VariableParameter) := inferInstanceAs (ViaBuf VariableParameter.deserialize)
instance : ViaBuf VariableTransmitterParameters.deserialize := by unfold VariableTransmitterParameters.deserialize; infer_instance
instance : ViaBuf (deserialize_field : Get VariableTransmitterParameters) := inferInstanceAs (ViaBuf VariableTransmitterParameters.deserialize)
instance : ViaBuf Vector3Double.deserialize := by unfold Vector3Double.deserialize; infer_instance
instance : ViaBuf VectoringNozzleSystemData.deserialize := by unfold VectoringNozzleSystemData.deserialize; infer_instance
instance : ViaBuf (deserialize_field : Get VectoringNozzleSystemData) := inferInstanceAs (ViaBuf VectoringNozzleSystemData.deserialize)
instance : ViaBuf VelocityVector.deserialize := by unfold VelocityVector.deserialize; infer_instance
instance : ViaBuf PduHeader.deserialize := by unfold PduHeader.deserialize; infer_instance
instance : ViaBuf LiveEntityPduHeader.deserialize := by unfold LiveEntityPduHeader.deserialize; infer_instance
instance : ViaBuf (deserialize_field : Get PduHeader) := inferInstanceAs (ViaBuf PduHeader.deserialize)

end Dis
