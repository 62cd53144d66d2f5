import Verif.Model.Enums.All
import Verif.Proofs.Laws
/- Generated by tools/gen_enums.py: every code fits its width (checked by the kernel on the whole
table), and the laws of the enumerations that implement the field traits. -/
set_option maxRecDepth 20000
namespace Dis

local macro "enum_enc" w:ident : term => `(⟨fun x _ => $w x rfl, fun x => ($w x rfl).ifOk, fun x => by
  show ((octets _ x.code).length : Int) = _
  rw [octets_length]; rfl, fun x => ($w x rfl).appends⟩)

instance : EnumFits ProtocolVersion.spec := .of_all (by decide +kernel)
instance : EnumFits PduType.spec := .of_all (by decide +kernel)
instance : EnumFits ProtocolFamily.spec := .of_all (by decide +kernel)
instance : EnumFits ForceId.spec := .of_all (by decide +kernel)
instance : EnumFits EntityKind.spec := .of_all (by decide +kernel)
instance : EnumFits OtherKinds.spec := .of_all (by decide +kernel)
instance : EnumFits LandDomainCategories.spec := .of_all (by decide +kernel)
instance : EnumFits AirDomainCategories.spec := .of_all (by decide +kernel)
instance : EnumFits SurfaceDomainCategories.spec := .of_all (by decide +kernel)
instance : EnumFits SubsurfaceDomainCategories.spec := .of_all (by decide +kernel)
instance : EnumFits SpaceDomainCategories.spec := .of_all (by decide +kernel)
instance : EnumFits MunitionKind.spec := .of_all (by decide +kernel)
instance : EnumFits MunitionCategory.spec := .of_all (by decide +kernel)
instance : EnumFits USWeaponSubcategories.spec := .of_all (by decide +kernel)
instance : EnumFits RussiaWeaponSubcategories.spec := .of_all (by decide +kernel)
instance : EnumFits UKWeaponSubcategories.spec := .of_all (by decide +kernel)
instance : EnumFits FrenchWeaponSubcategories.spec := .of_all (by decide +kernel)
instance : EnumFits LifeFormsSubcategoryGermanWeapons.spec := .of_all (by decide +kernel)
instance : EnumFits EnvironmentalSubcategory.spec := .of_all (by decide +kernel)
instance : EnumFits RadioCategory.spec := .of_all (by decide +kernel)
instance : EnumFits RadioSubcategory.spec := .of_all (by decide +kernel)
instance : EnumFits ExpendableAirCategory.spec := .of_all (by decide +kernel)
instance : EnumFits ExpendableSurfaceCategory.spec := .of_all (by decide +kernel)
instance : EnumFits ExpendableSubsurfaceCategory.spec := .of_all (by decide +kernel)
instance : EnumFits SensorEmitterCategory.spec := .of_all (by decide +kernel)
instance : EnumFits Country.spec := .of_all (by decide +kernel)
instance : EnumFits DeadReckoningAlgorithm.spec := .of_all (by decide +kernel)
instance : EnumFits EntityMarkingCharacterSet.spec := .of_all (by decide +kernel)
instance : EnumFits EntityCapabilities.spec := .of_all (by decide +kernel)
instance : EnumFits VariableParameterRecordType.spec := .of_all (by decide +kernel)
instance : EnumFits AttachedParts.spec := .of_all (by decide +kernel)
instance : EnumFits ArticulatedPartsTypeMetric.spec := .of_all (by decide +kernel)
instance : EnumFits ArticulatedPartsTypeClass.spec := .of_all (by decide +kernel)
instance : EnumFits MunitionDescriptorWarhead.spec := .of_all (by decide +kernel)
instance : EnumFits MunitionDescriptorFuse.spec := .of_all (by decide +kernel)
instance : EnumFits DetonationResult.spec := .of_all (by decide +kernel)
instance : EnumFits ServiceRequestServiceTypeRequested.spec := .of_all (by decide +kernel)
instance : EnumFits RepairCompleteRepair.spec := .of_all (by decide +kernel)
instance : EnumFits RepairResponseRepairResult.spec := .of_all (by decide +kernel)
instance : EnumFits VariableRecordTypes.spec := .of_all (by decide +kernel)
instance : EnumFits Reason.spec := .of_all (by decide +kernel)
instance : EnumFits AcknowledgeFlag.spec := .of_all (by decide +kernel)
instance : EnumFits AcknowledgeResponseFlag.spec := .of_all (by decide +kernel)
instance : EnumFits ActionRequestActionID.spec := .of_all (by decide +kernel)
instance : EnumFits ActionResponseRequestStatus.spec := .of_all (by decide +kernel)
instance : EnumFits EventType.spec := .of_all (by decide +kernel)
instance : EnumFits RequiredReliabilityService.spec := .of_all (by decide +kernel)
instance : EnumFits EmitterName.spec := .of_all (by decide +kernel)
instance : EnumFits EmitterSystemFunction.spec := .of_all (by decide +kernel)
instance : EnumFits ElectromagneticEmissionStateUpdateIndicator.spec := .of_all (by decide +kernel)
instance : EnumFits ElectromagneticEmissionBeamFunction.spec := .of_all (by decide +kernel)
instance : EnumFits HighDensityTrackJam.spec := .of_all (by decide +kernel)
instance : EnumFits DesignatorSystemName.spec := .of_all (by decide +kernel)
instance : EnumFits DesignatorCode.spec := .of_all (by decide +kernel)
instance : EnumFits IFFSystemType.spec := .of_all (by decide +kernel)
instance : EnumFits IFFSystemName.spec := .of_all (by decide +kernel)
instance : EnumFits IFFSystemMode.spec := .of_all (by decide +kernel)
instance : EnumFits IFFLayerSpecificInformation.spec := .of_all (by decide +kernel)
instance : EnumFits IFFAlternateMode4ChallengeReply.spec := .of_all (by decide +kernel)
instance : EnumFits IFFSystemType1OperationalParameter1.spec := .of_all (by decide +kernel)
instance : EnumFits IFFSystemType1OperationalParameter2.spec := .of_all (by decide +kernel)
instance : EnumFits SubcategoriesforLandCategory200Mammal.spec := .of_all (by decide +kernel)
instance : EnumFits SubcategoriesforLandCategory201Reptile.spec := .of_all (by decide +kernel)
instance : EnumFits SubcategoriesforLandCategory202Amphibian.spec := .of_all (by decide +kernel)
instance : EnumFits SubcategoriesforLandCategory203Insect.spec := .of_all (by decide +kernel)
instance : EnumFits SubcategoriesforLandCategory204Arachnid.spec := .of_all (by decide +kernel)
instance : EnumFits SubcategoriesforLandCategory205Mollusk.spec := .of_all (by decide +kernel)
instance : EnumFits SubcategoriesforLandCategory206Marsupial.spec := .of_all (by decide +kernel)
instance : EnumFits SubcategoriesforAirCategory200Bird.spec := .of_all (by decide +kernel)
instance : EnumFits SubcategoriesforAirCategory201Insect.spec := .of_all (by decide +kernel)
instance : EnumFits SubcategoriesforAirCategory202Mammal.spec := .of_all (by decide +kernel)
instance : EnumFits SubcategoriesforSubsurfaceCategory200Fish.spec := .of_all (by decide +kernel)
instance : EnumFits SubcategoriesforSubsurfaceCategory201Mammal.spec := .of_all (by decide +kernel)
instance : EnumFits SubcategoriesforSubsurfaceCategory202Mollusk.spec := .of_all (by decide +kernel)
instance : EnumFits SubcategoriesforSubsurfaceCategory203Crustacean.spec := .of_all (by decide +kernel)
instance : EnumFits SubcategoriesforSubsurfaceCategory204Insect.spec := .of_all (by decide +kernel)
instance : EnumFits AnimalLifeformGroupSizeRangeEnumerationforallDomains.spec := .of_all (by decide +kernel)
instance : EnumFits SpecificDimensionEnumerationsforLandAreaSize.spec := .of_all (by decide +kernel)
instance : EnumFits SpecificDimensionEnumerationsforAirAreaSize.spec := .of_all (by decide +kernel)
instance : EnumFits AddSpecificDimensionEnumerationsforSubsurfaceAreaSize.spec := .of_all (by decide +kernel)
instance : EnumFits AddVariantsforLandCategory200Mammal.spec := .of_all (by decide +kernel)
instance : EnumFits VariantsforLandCategoriesReptilesAmphibiansInsectsandArachnids.spec := .of_all (by decide +kernel)
instance : EnumFits VariantsforAirCategory200Bird.spec := .of_all (by decide +kernel)
instance : EnumFits AddVariantsforAirCategory201Insect.spec := .of_all (by decide +kernel)
instance : EnumFits AddVariantsforSubsurfaceCategoriesFishMolluskCrustaceanandInsect.spec := .of_all (by decide +kernel)
instance : EnumFits VariantsforSubsurfaceCategory201Mammal.spec := .of_all (by decide +kernel)
instance : EnumFits UAStateChangeUpdateIndicator.spec := .of_all (by decide +kernel)
instance : EnumFits UAAcousticSystemName.spec := .of_all (by decide +kernel)
instance : EnumFits UAAcousticEmitterSystemFunction.spec := .of_all (by decide +kernel)
instance : EnumFits UAActiveEmissionParameterIndex.spec := .of_all (by decide +kernel)
instance : EnumFits UAScanPattern.spec := .of_all (by decide +kernel)
instance : EnumFits UAPassiveParameterIndex.spec := .of_all (by decide +kernel)
instance : EnumFits UAAdditionalPassiveActivityParameterIndex.spec := .of_all (by decide +kernel)
instance : EnumFits TransmitterMajorModulation.spec := .of_all (by decide +kernel)
instance : EnumFits TransmitterDetailAmplitudeModulation.spec := .of_all (by decide +kernel)
instance : EnumFits TransmitterDetailAmplitudeandAngleModulation.spec := .of_all (by decide +kernel)
instance : EnumFits TransmitterDetailAngleModulation.spec := .of_all (by decide +kernel)
instance : EnumFits TransmitterDetailCombinationModulation.spec := .of_all (by decide +kernel)
instance : EnumFits TransmitterDetailPulseModulation.spec := .of_all (by decide +kernel)
instance : EnumFits TransmitterDetailUnmodulatedModulation.spec := .of_all (by decide +kernel)
instance : EnumFits TransmitterDetailCarrierPhaseShiftModulation.spec := .of_all (by decide +kernel)
instance : EnumFits TransmitterModulationTypeSystem.spec := .of_all (by decide +kernel)
instance : EnumFits TransmitterTransmitState.spec := .of_all (by decide +kernel)
instance : EnumFits TransmitterInputSource.spec := .of_all (by decide +kernel)
instance : EnumFits TransmitterCryptoSystem.spec := .of_all (by decide +kernel)
instance : EnumFits TransmitterAntennaPatternType.spec := .of_all (by decide +kernel)
instance : EnumFits TransmitterAntennaPatternReferenceSystem.spec := .of_all (by decide +kernel)
instance : EnumFits CCTTSINCGARSStartofMessage.spec := .of_all (by decide +kernel)
instance : EnumFits CCTTSINCGARSClearChannel.spec := .of_all (by decide +kernel)
instance : EnumFits TimeSlotAllocationLevel.spec := .of_all (by decide +kernel)
instance : EnumFits JTIDSMIDSModulationParametersTransmittingTerminalPrimaryMode.spec := .of_all (by decide +kernel)
instance : EnumFits JTIDSMIDSModulationParametersTransmittingTerminalSecondaryMode.spec := .of_all (by decide +kernel)
instance : EnumFits JTIDSMIDSModulationParametersSynchronizationState.spec := .of_all (by decide +kernel)
instance : EnumFits MessageTypeIdentifier.spec := .of_all (by decide +kernel)
instance : EnumFits SignalUserProtocolIdentificationNumber.spec := .of_all (by decide +kernel)
instance : EnumFits SignalTDLType.spec := .of_all (by decide +kernel)
instance : EnumFits ReceiverReceiverState.spec := .of_all (by decide +kernel)
instance : EnumFits IntercomControlControlType.spec := .of_all (by decide +kernel)
instance : EnumFits IntercomControlCommunicationsType.spec := .of_all (by decide +kernel)
instance : EnumFits IntercomControlCommand.spec := .of_all (by decide +kernel)
instance : EnumFits IntercomControlTransmitLineState.spec := .of_all (by decide +kernel)
instance : EnumFits IntercomControlDestinationLineStateCommand.spec := .of_all (by decide +kernel)
instance : EnumFits IntercomControlRecordType.spec := .of_all (by decide +kernel)
instance : EnumFits CollisionType.spec := .of_all (by decide +kernel)
instance : EnumFits MinefieldSensorTypes.spec := .of_all (by decide +kernel)
instance : EnumFits MinefieldSensorTypesOptical.spec := .of_all (by decide +kernel)
instance : EnumFits MinefieldSensorTypesFLIR.spec := .of_all (by decide +kernel)
instance : EnumFits MinefieldSensorTypesRADAR.spec := .of_all (by decide +kernel)
instance : EnumFits MinefieldSensorTypesMagnetic.spec := .of_all (by decide +kernel)
instance : EnumFits MinefieldSensorTypesLaser.spec := .of_all (by decide +kernel)
instance : EnumFits MinefieldSensorTypesSONAR.spec := .of_all (by decide +kernel)
instance : EnumFits MinefieldSensorTypesPhysical.spec := .of_all (by decide +kernel)
instance : EnumFits MinefieldSensorTypesMultispectral.spec := .of_all (by decide +kernel)
instance : EnumFits AggregateStateAggregateState.spec := .of_all (by decide +kernel)
instance : EnumFits AggregateStateFormation.spec := .of_all (by decide +kernel)
instance : EnumFits AggregateStateAggregateKind.spec := .of_all (by decide +kernel)
instance : EnumFits AggregateStateSubcategory.spec := .of_all (by decide +kernel)
instance : EnumFits AggregateStateSpecific.spec := .of_all (by decide +kernel)
instance : EnumFits IsPartOfNature.spec := .of_all (by decide +kernel)
instance : EnumFits IsPartOfPosition.spec := .of_all (by decide +kernel)
instance : EnumFits IsPartOfStationName.spec := .of_all (by decide +kernel)
instance : EnumFits IsGroupOfGroupedEntityCategory.spec := .of_all (by decide +kernel)
instance : EnumFits IsGroupOfRestStatus.spec := .of_all (by decide +kernel)
instance : EnumFits TransferControlTransferType.spec := .of_all (by decide +kernel)
instance : EnumFits ObjectKind.spec := .of_all (by decide +kernel)
instance : EnumFits GriddedDataCoordinateSystem.spec := .of_all (by decide +kernel)
instance : EnumFits GriddedDataConstantGrid.spec := .of_all (by decide +kernel)
instance : EnumFits GriddedDataSampleType.spec := .of_all (by decide +kernel)
instance : EnumFits GriddedDataDataRepresentation.spec := .of_all (by decide +kernel)
instance : EnumFits EnvironmentalProcessModelType.spec := .of_all (by decide +kernel)
instance : EnumFits EnvironmentalProcessRecordType.spec := .of_all (by decide +kernel)
instance : EnumFits SignalEncodingClass.spec := .of_all (by decide +kernel)
instance : EnumFits SignalEncodingType.spec := .of_all (by decide +kernel)
instance : EnumFits RepairGroups.spec := .of_all (by decide +kernel)
instance : EnumFits EnvironmentRecordTypeGroups.spec := .of_all (by decide +kernel)
instance : EnumFits PlatformAirCivilianUltralightNonrigidWingAircraftSubcategories.spec := .of_all (by decide +kernel)
instance : EnumFits PlatformAirCivilianUltralightRigidWingAircraftSubcategories.spec := .of_all (by decide +kernel)
instance : EnumFits PlatformAirCivilianGliderSubcategories.spec := .of_all (by decide +kernel)
instance : EnumFits PlatformAirCivilianFixedWingAircraftSubcategories.spec := .of_all (by decide +kernel)
instance : EnumFits PlatformAirCivilianHelicopterSubcategories.spec := .of_all (by decide +kernel)
instance : EnumFits PlatformAirCivilianLighterthanAirBalloonSubcategories.spec := .of_all (by decide +kernel)
instance : EnumFits PlatformAirCivilianLighterthanAirAirshipSubcategories.spec := .of_all (by decide +kernel)
instance : EnumFits APAParameterIndexAPAStatus.spec := .of_all (by decide +kernel)
instance : EnumFits SeparationVPReasonforSeparation.spec := .of_all (by decide +kernel)
instance : EnumFits SeparationVPPreEntityIndicator.spec := .of_all (by decide +kernel)
instance : EnumFits IOActionIOWarfareType.spec := .of_all (by decide +kernel)
instance : EnumFits IOActionIOSimulationSource.spec := .of_all (by decide +kernel)
instance : EnumFits IOActionIOActionType.spec := .of_all (by decide +kernel)
instance : EnumFits IOActionIOActionPhase.spec := .of_all (by decide +kernel)
instance : EnumFits IOReportIOReportType.spec := .of_all (by decide +kernel)
instance : EnumFits IOEffectsRecordIOStatus.spec := .of_all (by decide +kernel)
instance : EnumFits IOEffectsRecordIOLinkType.spec := .of_all (by decide +kernel)
instance : EnumFits IOEffectsRecordIOEffect.spec := .of_all (by decide +kernel)
instance : EnumFits IOEffectsRecordIOProcess.spec := .of_all (by decide +kernel)
instance : EnumFits IOCommsNodeRecordCommsNodeType.spec := .of_all (by decide +kernel)
instance : EnumFits DISAttributeActionCode.spec := .of_all (by decide +kernel)
instance : EnumFits DRParametersType.spec := .of_all (by decide +kernel)
instance : EnumFits HighFidelityHAVEQUICKTODTransmitIndicator.spec := .of_all (by decide +kernel)
instance : EnumFits NETIDRecordMode.spec := .of_all (by decide +kernel)
instance : EnumFits NETIDRecordFrequencyTable.spec := .of_all (by decide +kernel)
instance : EnumFits EEAttributeStateIndicator.spec := .of_all (by decide +kernel)
instance : EnumFits TransferredEntityIndicator.spec := .of_all (by decide +kernel)
instance : EnumFits LVCIndicator.spec := .of_all (by decide +kernel)
instance : EnumFits CoupledExtensionIndicator.spec := .of_all (by decide +kernel)
instance : EnumFits FireTypeIndicator.spec := .of_all (by decide +kernel)
instance : EnumFits DetonationTypeIndicator.spec := .of_all (by decide +kernel)
instance : EnumFits RadioAttachedIndicator.spec := .of_all (by decide +kernel)
instance : EnumFits IntercomAttachedIndicator.spec := .of_all (by decide +kernel)
instance : EnumFits PduStatusIFFSimulationMode.spec := .of_all (by decide +kernel)
instance : EnumFits ExplosiveMaterialGroups.spec := .of_all (by decide +kernel)
instance : EnumFits ExplosiveMaterialCategories.spec := .of_all (by decide +kernel)
instance : EnumFits DEPrecisionAimpointBeamSpotType.spec := .of_all (by decide +kernel)
instance : EnumFits DEFirePulseShape.spec := .of_all (by decide +kernel)
instance : EnumFits ComponentIdentification.spec := .of_all (by decide +kernel)
instance : EnumFits ComponentDamageStatus.spec := .of_all (by decide +kernel)
instance : EnumFits ComponentVisualSmokeColor.spec := .of_all (by decide +kernel)
instance : EnumFits BeamStatusBeamState.spec := .of_all (by decide +kernel)
instance : EnumFits EntityAssociationAssociationStatus.spec := .of_all (by decide +kernel)
instance : EnumFits EntityVPRecordChangeIndicator.spec := .of_all (by decide +kernel)
instance : EnumFits EntityAssociationGroupMemberType.spec := .of_all (by decide +kernel)
instance : EnumFits PhysicalAssociationTypeGroups.spec := .of_all (by decide +kernel)
instance : EnumFits EntityAssociationPhysicalAssociationType.spec := .of_all (by decide +kernel)
instance : EnumFits EntityAssociationPhysicalConnectionType.spec := .of_all (by decide +kernel)
instance : EnumFits SensorRecordSensorTypeOtherActiveSensors.spec := .of_all (by decide +kernel)
instance : EnumFits SensorRecordSensorTypePassiveSensors.spec := .of_all (by decide +kernel)
instance : EnumFits MunitionExpendableStatus.spec := .of_all (by decide +kernel)
instance : EnumFits FuelMeasurementUnits.spec := .of_all (by decide +kernel)
instance : EnumFits FuelLocation.spec := .of_all (by decide +kernel)
instance : EnumFits EntityAssociationAssociationType.spec := .of_all (by decide +kernel)
instance : EnumFits SensorOnOffStatus.spec := .of_all (by decide +kernel)
instance : EnumFits OwnershipStatus.spec := .of_all (by decide +kernel)
instance : EnumFits RecordREventType.spec := .of_all (by decide +kernel)
instance : EnumFits RecordQueryREventType.spec := .of_all (by decide +kernel)
instance : EnumFits UAPropulsionPlantConfigurationConfiguration.spec := .of_all (by decide +kernel)
instance : EnumFits MinefieldStateProtocolMode.spec := .of_all (by decide +kernel)
instance : EnumFits TransponderInterrogatorIndicator.spec := .of_all (by decide +kernel)
instance : EnumFits IFFSimulationMode.spec := .of_all (by decide +kernel)
instance : EnumFits IFFApplicableModes.spec := .of_all (by decide +kernel)
instance : EnumFits ModeCAltitudeIndicator.spec := .of_all (by decide +kernel)
instance : EnumFits TCASACASBasicAdvancedIndicator.spec := .of_all (by decide +kernel)
instance : EnumFits TCASACASIndicator.spec := .of_all (by decide +kernel)
instance : EnumFits TCASACASSoftwareVersion.spec := .of_all (by decide +kernel)
instance : EnumFits TCASACASType.spec := .of_all (by decide +kernel)
instance : EnumFits TCASIIIType.spec := .of_all (by decide +kernel)
instance : EnumFits Mode5IFFMission.spec := .of_all (by decide +kernel)
instance : EnumFits ModeSInterrogatorStatusTransmitState.spec := .of_all (by decide +kernel)
instance : EnumFits ModeSInterrogatorIdentifierICType.spec := .of_all (by decide +kernel)
instance : EnumFits ISLSAntennaType.spec := .of_all (by decide +kernel)
instance : EnumFits Mode5Reply.spec := .of_all (by decide +kernel)
instance : EnumFits AntennaSelection.spec := .of_all (by decide +kernel)
instance : EnumFits Mode5SquitterType.spec := .of_all (by decide +kernel)
instance : EnumFits Level2SquitterStatus.spec := .of_all (by decide +kernel)
instance : EnumFits ModeSSquitterType.spec := .of_all (by decide +kernel)
instance : EnumFits ModeSSquitterRecordSource.spec := .of_all (by decide +kernel)
instance : EnumFits AircraftPresentDomain.spec := .of_all (by decide +kernel)
instance : EnumFits AircraftIdentificationType.spec := .of_all (by decide +kernel)
instance : EnumFits CapabilityReport.spec := .of_all (by decide +kernel)
instance : EnumFits NavigationSource.spec := .of_all (by decide +kernel)
instance : EnumFits IFFDataRecordAvailable.spec := .of_all (by decide +kernel)
instance : EnumFits Mode5SAltitudeResolution.spec := .of_all (by decide +kernel)
instance : EnumFits DeltaMode5SAltitudePositiveNegativeIndicator.spec := .of_all (by decide +kernel)
instance : EnumFits FormatType.spec := .of_all (by decide +kernel)
instance : EnumFits AircraftAddressSource.spec := .of_all (by decide +kernel)
instance : EnumFits SurveillanceStatus.spec := .of_all (by decide +kernel)
instance : EnumFits TurnRateSource.spec := .of_all (by decide +kernel)
instance : EnumFits TimeTypeSource.spec := .of_all (by decide +kernel)
instance : EnumFits AircraftTypeWake.spec := .of_all (by decide +kernel)
instance : EnumFits DataCategory.spec := .of_all (by decide +kernel)
instance : EnumFits TILinkType.spec := .of_all (by decide +kernel)
instance : EnumFits AntennaStatus.spec := .of_all (by decide +kernel)
instance : EnumFits TransmissionIndicator.spec := .of_all (by decide +kernel)
instance : EnumFits ReplyAmplification.spec := .of_all (by decide +kernel)
instance : EnumFits DEFireFlagsStateUpdateFlag.spec := .of_all (by decide +kernel)
instance : EnumFits ComponentVisualDamageStatusSmoke.spec := .of_all (by decide +kernel)
instance : EnumFits ComponentVisualDamageStatusSurfaceDamage.spec := .of_all (by decide +kernel)
instance : EnumFits GridAxisDescriptorAxisType.spec := .of_all (by decide +kernel)
instance : EnumFits AppearancePaintScheme.spec := .of_all (by decide +kernel)
instance : EnumFits AppearanceDamage.spec := .of_all (by decide +kernel)
instance : EnumFits Mode5MessageFormatsStatus.spec := .of_all (by decide +kernel)
instance : EnumFits AppearanceTrailingEffects.spec := .of_all (by decide +kernel)
instance : EnumFits AppearanceHatch.spec := .of_all (by decide +kernel)
instance : EnumFits AppearanceLauncherOperational.spec := .of_all (by decide +kernel)
instance : EnumFits AppearanceCamouflageType.spec := .of_all (by decide +kernel)
instance : EnumFits AppearanceConcealedPosition.spec := .of_all (by decide +kernel)
instance : EnumFits AppearanceEntityorObjectState.spec := .of_all (by decide +kernel)
instance : EnumFits AppearanceCanopy.spec := .of_all (by decide +kernel)
instance : EnumFits AppearanceSubsurfaceHatch.spec := .of_all (by decide +kernel)
instance : EnumFits ActiveInterrogationIndicator.spec := .of_all (by decide +kernel)
instance : EnumFits AppearanceLifeformHealth.spec := .of_all (by decide +kernel)
instance : EnumFits AppearanceLifeFormComplianceStatus.spec := .of_all (by decide +kernel)
instance : EnumFits AppearanceLifeFormPosture.spec := .of_all (by decide +kernel)
instance : EnumFits AppearanceLifeFormWeaponImplement.spec := .of_all (by decide +kernel)
instance : EnumFits AppearanceConcealedMovement.spec := .of_all (by decide +kernel)
instance : EnumFits AppearanceEnvironmentalDensity.spec := .of_all (by decide +kernel)
instance : EnumFits Mode5PlatformType.spec := .of_all (by decide +kernel)
instance : EnumFits AppearanceAntiCollisionDayNight.spec := .of_all (by decide +kernel)
instance : EnumFits AppearanceNavigationPositionBrightness.spec := .of_all (by decide +kernel)
instance : EnumFits AppearanceSupplyDeployed.spec := .of_all (by decide +kernel)
instance : EnumFits AppearanceNVGMode.spec := .of_all (by decide +kernel)
instance : EnumFits Parachute.spec := .of_all (by decide +kernel)
instance : EnumFits FlareSmokeColor.spec := .of_all (by decide +kernel)
instance : EnumFits FlareSmokeStatus.spec := .of_all (by decide +kernel)
instance : EnumFits SpotChaffStatus.spec := .of_all (by decide +kernel)
instance : EnumFits AppearanceObjectGeneralDamage.spec := .of_all (by decide +kernel)
instance : EnumFits AppearanceObjectGeneralPredistributed.spec := .of_all (by decide +kernel)
instance : EnumFits AppearanceObjectSpecificBreachState.spec := .of_all (by decide +kernel)
instance : EnumFits AppearanceObjectSpecificChemicalType.spec := .of_all (by decide +kernel)
instance : EnumFits AppearanceLinearObjectTankDitchBreach.spec := .of_all (by decide +kernel)
instance : EnumFits AppearanceLinearObjectLaneMarkerVisible.spec := .of_all (by decide +kernel)
instance : EnumFits AppearanceObjectGeneralIEDPresent.spec := .of_all (by decide +kernel)
instance : EnumFits Mode5LevelSelection.spec := .of_all (by decide +kernel)
instance : EnumFits SupplyFuelType.spec := .of_all (by decide +kernel)
instance : EnumFits SensorTypeSource.spec := .of_all (by decide +kernel)
instance : EnumFits AttachedPartDetachedIndicator.spec := .of_all (by decide +kernel)
instance : EnumFits IntercomControlCommunicationsClass.spec := .of_all (by decide +kernel)
instance : EnumFits DISLiveEntitySubprotocolNumber.spec := .of_all (by decide +kernel)
instance : EnumFits MinefieldAppearanceMinefieldType.spec := .of_all (by decide +kernel)
instance : EnumFits MinefieldAppearanceActiveStatus.spec := .of_all (by decide +kernel)
instance : EnumFits MinefieldAppearanceLane.spec := .of_all (by decide +kernel)
instance : EnumFits MinefieldAppearanceState.spec := .of_all (by decide +kernel)
instance : EnumFits MinefieldFusingFuseType.spec := .of_all (by decide +kernel)
instance : EnumFits Mode5LocationErrors.spec := .of_all (by decide +kernel)
instance : EnumFits MinefieldPaintSchemeAlgae.spec := .of_all (by decide +kernel)
instance : EnumFits MinefieldPaintSchemePaintScheme.spec := .of_all (by decide +kernel)
instance : EnumFits CoverShroudStatus.spec := .of_all (by decide +kernel)
instance : EnumFits PlatformLandMotorcycleSubcategories.spec := .of_all (by decide +kernel)
instance : EnumFits PlatformLandCarSubcategories.spec := .of_all (by decide +kernel)
instance : EnumFits PlatformLandBusSubcategories.spec := .of_all (by decide +kernel)
instance : EnumFits PlatformLandSingleUnitCargoTruckSubcategories.spec := .of_all (by decide +kernel)
instance : EnumFits PlatformLandSingleUnitUtilityEmergencyTruckSubcategories.spec := .of_all (by decide +kernel)
instance : EnumFits PlatformLandMultipleUnitCargoTruckSubcategories.spec := .of_all (by decide +kernel)
instance : EnumFits PlatformLandMultipleUnitUtilityEmergencyTruckSubcategories.spec := .of_all (by decide +kernel)
instance : EnumFits PlatformLandConstructionSpecialtyVehicleSubcategories.spec := .of_all (by decide +kernel)
instance : EnumFits PlatformLandFarmSpecialtyVehicleSubcategories.spec := .of_all (by decide +kernel)
instance : EnumFits PlatformLandTrailerSubcategories.spec := .of_all (by decide +kernel)
instance : EnumFits PlatformLandRecreationalSubcategories.spec := .of_all (by decide +kernel)
instance : EnumFits PlatformLandNonmotorizedSubcategories.spec := .of_all (by decide +kernel)
instance : EnumFits PlatformLandTrainsSubcategories.spec := .of_all (by decide +kernel)
instance : EnumFits PlatformLandUtilityEmergencyCarSubcategories.spec := .of_all (by decide +kernel)
instance : EnumFits PlatformSurfacePassengerVesselSubcategories.spec := .of_all (by decide +kernel)
instance : EnumFits PlatformSurfaceDryCargoShipSubcategories.spec := .of_all (by decide +kernel)
instance : EnumFits PlatformSurfaceTankerSubcategories.spec := .of_all (by decide +kernel)
instance : EnumFits PlatformSurfaceSupportVesselSubcategories.spec := .of_all (by decide +kernel)
instance : EnumFits PlatformSurfacePrivateMotorboatSubcategories.spec := .of_all (by decide +kernel)
instance : EnumFits PlatformSurfacePrivateSailboatSubcategories.spec := .of_all (by decide +kernel)
instance : EnumFits PlatformSurfaceFishingVesselSubcategories.spec := .of_all (by decide +kernel)
instance : EnumFits PlatformSurfaceOtherVesselsSubcategories.spec := .of_all (by decide +kernel)
instance : EnumFits CryptoKeyIDCryptoMode.spec := .of_all (by decide +kernel)
instance : EnumFits Color.spec := .of_all (by decide +kernel)
instance : EnumFits BuildingPaintScheme.spec := .of_all (by decide +kernel)
instance : EnumFits Season.spec := .of_all (by decide +kernel)
instance : EnumFits Material.spec := .of_all (by decide +kernel)
instance : EnumFits Link11_11BFidelityLevel.spec := .of_all (by decide +kernel)
instance : EnumFits Link11TerminalMode.spec := .of_all (by decide +kernel)
instance : EnumFits Link11DataTerminalSetIndicator.spec := .of_all (by decide +kernel)
instance : EnumFits Link11ModeofOperation.spec := .of_all (by decide +kernel)
instance : EnumFits LifeFormsSubcategoryIranianWeapons.spec := .of_all (by decide +kernel)
instance : EnumFits LifeFormLandCategories.spec := .of_all (by decide +kernel)
instance : EnumFits LifeFormHumanSubcategoryEquipmentClass.spec := .of_all (by decide +kernel)
instance : EnumFits LifeFormHumanSpecificAssaultRifles.spec := .of_all (by decide +kernel)
instance : EnumFits LifeFormHumanSpecificHighPowerRifles.spec := .of_all (by decide +kernel)
instance : EnumFits LifeFormCategoriesUS.spec := .of_all (by decide +kernel)
instance : EnumFits LifeFormExtraPersonalData.spec := .of_all (by decide +kernel)
instance : EnumFits LifeFormAirCategories.spec := .of_all (by decide +kernel)
instance : EnumFits LifeFormSubsurfaceCategories.spec := .of_all (by decide +kernel)
instance : EnumFits LifeFormHumanSpecificSniper.spec := .of_all (by decide +kernel)
instance : EnumFits LifeFormHumanSpecificSubMachineGun.spec := .of_all (by decide +kernel)
instance : EnumFits AustralianCategoryOverlay.spec := .of_all (by decide +kernel)
instance : EnumFits LifeFormCategoriesAfghanistan.spec := .of_all (by decide +kernel)
instance : EnumFits LifeFormHumanSpecificEquipmentClass.spec := .of_all (by decide +kernel)
instance : EnumFits PlatformSubsurfaceCivilianSemiSubmersiblesSubcategories.spec := .of_all (by decide +kernel)
instance : EnumFits LeafCoverage.spec := .of_all (by decide +kernel)
instance : EnumFits LifeFormHumanSpecificAntiMaterielRifles.spec := .of_all (by decide +kernel)
instance : EnumFits LifeFormHumanSpecificShotGuns.spec := .of_all (by decide +kernel)
instance : EnumFits LifeFormHumanSpecificMortars.spec := .of_all (by decide +kernel)
instance : EnumFits LifeFormHumanSpecificHandGuns.spec := .of_all (by decide +kernel)
instance : EnumFits LifeFormHumanSpecificWeaponNonspecific.spec := .of_all (by decide +kernel)
instance : EnumFits LifeFormHumanSpecificGrenadeLaunchers.spec := .of_all (by decide +kernel)
instance : EnumFits LifeFormHumanSpecificMachineGuns.spec := .of_all (by decide +kernel)
instance : EnumFits LifeFormHumanSpecificGrenadeLaunchingMachineGun.spec := .of_all (by decide +kernel)
instance : EnumFits LifeFormHumanSpecificAntiTankRockets.spec := .of_all (by decide +kernel)
instance : EnumFits LifeFormHumanSpecificAntiTankMissiles.spec := .of_all (by decide +kernel)
instance : EnumFits LifeFormHumanSpecificManPortableAirDefenseSystem.spec := .of_all (by decide +kernel)
instance : EnumFits LifeFormHumanSpecificRecoillessRifles.spec := .of_all (by decide +kernel)
instance : EnumFits LifeFormHumanSpecificFlameRockets.spec := .of_all (by decide +kernel)
instance : EnumFits LifeFormHumanSpecificFlameThrowers.spec := .of_all (by decide +kernel)
instance : EnumFits LifeFormHumanSpecificDroneGuns.spec := .of_all (by decide +kernel)
instance : EnumFits LifeFormHumanSpecificLogisticsEQClass.spec := .of_all (by decide +kernel)
instance : EnumFits LifeFormHumanSpecificPersonalElectronicsClass.spec := .of_all (by decide +kernel)
instance : EnumFits LifeFormHumanSpecificLasersClass.spec := .of_all (by decide +kernel)
instance : EnumFits TransmitterDetailSATCOMModulation.spec := .of_all (by decide +kernel)
instance : EnumFits SupplyDomain.spec := .of_all (by decide +kernel)
instance : EnumFits Class1SupplyCategorySubsistence.spec := .of_all (by decide +kernel)
instance : EnumFits Class2SupplyCategoryClothingIndividualEquipmentToolsAdminSupplies.spec := .of_all (by decide +kernel)
instance : EnumFits Class3SupplyCategoryPetroleumOilsLubricants.spec := .of_all (by decide +kernel)
instance : EnumFits Class4SupplyCategoryConstructionMaterials.spec := .of_all (by decide +kernel)
instance : EnumFits Class6SupplyCategoryPersonnelDemandItems.spec := .of_all (by decide +kernel)
instance : EnumFits Class7SupplyCategoryMajorItems.spec := .of_all (by decide +kernel)
instance : EnumFits Class8SupplyCategoryMedicalMaterial.spec := .of_all (by decide +kernel)
instance : EnumFits Class9SupplyCategoryRepairPartsandComponents.spec := .of_all (by decide +kernel)
instance : EnumFits Class10SupplyCategoryMaterialToSupportNonMilitaryPrograms.spec := .of_all (by decide +kernel)
instance : EnumFits Class11SupplyCategorySupplies.spec := .of_all (by decide +kernel)
instance : EnumFits Class12SupplyCategorySlingLoads.spec := .of_all (by decide +kernel)
instance : EnumFits LifeSavingEquipment.spec := .of_all (by decide +kernel)
instance : EnumFits IslandSubcategory.spec := .of_all (by decide +kernel)
instance : EnumFits Link11MessageSubType.spec := .of_all (by decide +kernel)
instance : EnumFits Link11MessageTypeIdentifier.spec := .of_all (by decide +kernel)
instance : EnumFits Link11DataSignallingRate.spec := .of_all (by decide +kernel)
instance : EnumFits Link11SignalIntegrationInterval.spec := .of_all (by decide +kernel)
instance : EnumFits Link11SignalWaveform.spec := .of_all (by decide +kernel)
instance : EnumFits Link11_11BEncryptionFlag.spec := .of_all (by decide +kernel)
instance : EnumFits SISOSTD002Version.spec := .of_all (by decide +kernel)
instance : EnumFits Link11BLinkState.spec := .of_all (by decide +kernel)
instance : EnumFits Link11BModeofOperation.spec := .of_all (by decide +kernel)
instance : EnumFits Link11BMessageSubType.spec := .of_all (by decide +kernel)
instance : EnumFits Link11BDataSignalingRate.spec := .of_all (by decide +kernel)
instance : EnumFits Link11BModulationStandard.spec := .of_all (by decide +kernel)
instance : EnumFits CIGIExtensionPacketID.spec := .of_all (by decide +kernel)
instance : EnumFits Link16Version.spec := .of_all (by decide +kernel)
instance : EnumFits AircraftIDSource.spec := .of_all (by decide +kernel)
instance : EnumFits ClothingIRSignature.spec := .of_all (by decide +kernel)
instance : EnumFits DamageArea.spec := .of_all (by decide +kernel)

instance : LawfulEnc ForceId := enum_enc writes_enum8
instance : LawfulDec ForceId := ⟨fun x _ => EnumSpec.reads x⟩
instance : FixedDec ForceId 1 := ⟨EnumSpec.fixed ForceId.spec⟩
instance : LawfulEnc DeadReckoningAlgorithm := enum_enc writes_enum8
instance : LawfulDec DeadReckoningAlgorithm := ⟨fun x _ => EnumSpec.reads x⟩
instance : FixedDec DeadReckoningAlgorithm 1 := ⟨EnumSpec.fixed DeadReckoningAlgorithm.spec⟩
instance : LawfulEnc EntityCapabilities := enum_enc writes_enum32
instance : LawfulDec EntityCapabilities := ⟨fun x _ => EnumSpec.reads x⟩
instance : FixedDec EntityCapabilities 4 := ⟨EnumSpec.fixed EntityCapabilities.spec⟩
instance : LawfulEnc DetonationResult := enum_enc writes_enum8
instance : LawfulDec DetonationResult := ⟨fun x _ => EnumSpec.reads x⟩
instance : FixedDec DetonationResult 1 := ⟨EnumSpec.fixed DetonationResult.spec⟩
instance : LawfulEnc ServiceRequestServiceTypeRequested := enum_enc writes_enum8
instance : LawfulDec ServiceRequestServiceTypeRequested := ⟨fun x _ => EnumSpec.reads x⟩
instance : FixedDec ServiceRequestServiceTypeRequested 1 := ⟨EnumSpec.fixed ServiceRequestServiceTypeRequested.spec⟩
instance : LawfulEnc RepairCompleteRepair := enum_enc writes_enum16
instance : LawfulDec RepairCompleteRepair := ⟨fun x _ => EnumSpec.reads x⟩
instance : FixedDec RepairCompleteRepair 2 := ⟨EnumSpec.fixed RepairCompleteRepair.spec⟩
instance : LawfulEnc RepairResponseRepairResult := enum_enc writes_enum8
instance : LawfulDec RepairResponseRepairResult := ⟨fun x _ => EnumSpec.reads x⟩
instance : FixedDec RepairResponseRepairResult 1 := ⟨EnumSpec.fixed RepairResponseRepairResult.spec⟩
instance : LawfulEnc VariableRecordTypes := enum_enc writes_enum32
instance : LawfulDec VariableRecordTypes := ⟨fun x _ => EnumSpec.reads x⟩
instance : FixedDec VariableRecordTypes 4 := ⟨EnumSpec.fixed VariableRecordTypes.spec⟩
instance : LawfulEnc Reason := enum_enc writes_enum8
instance : LawfulDec Reason := ⟨fun x _ => EnumSpec.reads x⟩
instance : FixedDec Reason 1 := ⟨EnumSpec.fixed Reason.spec⟩
instance : LawfulEnc AcknowledgeFlag := enum_enc writes_enum16
instance : LawfulDec AcknowledgeFlag := ⟨fun x _ => EnumSpec.reads x⟩
instance : FixedDec AcknowledgeFlag 2 := ⟨EnumSpec.fixed AcknowledgeFlag.spec⟩
instance : LawfulEnc AcknowledgeResponseFlag := enum_enc writes_enum16
instance : LawfulDec AcknowledgeResponseFlag := ⟨fun x _ => EnumSpec.reads x⟩
instance : FixedDec AcknowledgeResponseFlag 2 := ⟨EnumSpec.fixed AcknowledgeResponseFlag.spec⟩
instance : LawfulEnc ActionResponseRequestStatus := enum_enc writes_enum32
instance : LawfulDec ActionResponseRequestStatus := ⟨fun x _ => EnumSpec.reads x⟩
instance : FixedDec ActionResponseRequestStatus 4 := ⟨EnumSpec.fixed ActionResponseRequestStatus.spec⟩
instance : LawfulEnc EventType := enum_enc writes_enum32
instance : LawfulDec EventType := ⟨fun x _ => EnumSpec.reads x⟩
instance : FixedDec EventType 4 := ⟨EnumSpec.fixed EventType.spec⟩
instance : LawfulEnc RequiredReliabilityService := enum_enc writes_enum8
instance : LawfulDec RequiredReliabilityService := ⟨fun x _ => EnumSpec.reads x⟩
instance : FixedDec RequiredReliabilityService 1 := ⟨EnumSpec.fixed RequiredReliabilityService.spec⟩
instance : LawfulEnc DesignatorSystemName := enum_enc writes_enum16
instance : LawfulDec DesignatorSystemName := ⟨fun x _ => EnumSpec.reads x⟩
instance : FixedDec DesignatorSystemName 2 := ⟨EnumSpec.fixed DesignatorSystemName.spec⟩
instance : LawfulEnc DesignatorCode := enum_enc writes_enum16
instance : LawfulDec DesignatorCode := ⟨fun x _ => EnumSpec.reads x⟩
instance : FixedDec DesignatorCode 2 := ⟨EnumSpec.fixed DesignatorCode.spec⟩
instance : LawfulEnc UAStateChangeUpdateIndicator := enum_enc writes_enum8
instance : LawfulDec UAStateChangeUpdateIndicator := ⟨fun x _ => EnumSpec.reads x⟩
instance : FixedDec UAStateChangeUpdateIndicator 1 := ⟨EnumSpec.fixed UAStateChangeUpdateIndicator.spec⟩
instance : LawfulEnc UAAcousticSystemName := enum_enc writes_enum16
instance : LawfulDec UAAcousticSystemName := ⟨fun x _ => EnumSpec.reads x⟩
instance : FixedDec UAAcousticSystemName 2 := ⟨EnumSpec.fixed UAAcousticSystemName.spec⟩
instance : LawfulEnc UAAcousticEmitterSystemFunction := enum_enc writes_enum8
instance : LawfulDec UAAcousticEmitterSystemFunction := ⟨fun x _ => EnumSpec.reads x⟩
instance : FixedDec UAAcousticEmitterSystemFunction 1 := ⟨EnumSpec.fixed UAAcousticEmitterSystemFunction.spec⟩
instance : LawfulEnc UAPassiveParameterIndex := enum_enc writes_enum16
instance : LawfulDec UAPassiveParameterIndex := ⟨fun x _ => EnumSpec.reads x⟩
instance : FixedDec UAPassiveParameterIndex 2 := ⟨EnumSpec.fixed UAPassiveParameterIndex.spec⟩
instance : LawfulEnc TransmitterTransmitState := enum_enc writes_enum8
instance : LawfulDec TransmitterTransmitState := ⟨fun x _ => EnumSpec.reads x⟩
instance : FixedDec TransmitterTransmitState 1 := ⟨EnumSpec.fixed TransmitterTransmitState.spec⟩
instance : LawfulEnc TransmitterInputSource := enum_enc writes_enum8
instance : LawfulDec TransmitterInputSource := ⟨fun x _ => EnumSpec.reads x⟩
instance : FixedDec TransmitterInputSource 1 := ⟨EnumSpec.fixed TransmitterInputSource.spec⟩
instance : LawfulEnc TransmitterCryptoSystem := enum_enc writes_enum16
instance : LawfulDec TransmitterCryptoSystem := ⟨fun x _ => EnumSpec.reads x⟩
instance : FixedDec TransmitterCryptoSystem 2 := ⟨EnumSpec.fixed TransmitterCryptoSystem.spec⟩
instance : LawfulEnc TransmitterAntennaPatternType := enum_enc writes_enum16
instance : LawfulDec TransmitterAntennaPatternType := ⟨fun x _ => EnumSpec.reads x⟩
instance : FixedDec TransmitterAntennaPatternType 2 := ⟨EnumSpec.fixed TransmitterAntennaPatternType.spec⟩
instance : LawfulEnc TransmitterAntennaPatternReferenceSystem := enum_enc writes_enum8
instance : LawfulDec TransmitterAntennaPatternReferenceSystem := ⟨fun x _ => EnumSpec.reads x⟩
instance : FixedDec TransmitterAntennaPatternReferenceSystem 1 := ⟨EnumSpec.fixed TransmitterAntennaPatternReferenceSystem.spec⟩
instance : LawfulEnc SignalTDLType := enum_enc writes_enum16
instance : LawfulDec SignalTDLType := ⟨fun x _ => EnumSpec.reads x⟩
instance : FixedDec SignalTDLType 2 := ⟨EnumSpec.fixed SignalTDLType.spec⟩
instance : LawfulEnc ReceiverReceiverState := enum_enc writes_enum16
instance : LawfulDec ReceiverReceiverState := ⟨fun x _ => EnumSpec.reads x⟩
instance : FixedDec ReceiverReceiverState 2 := ⟨EnumSpec.fixed ReceiverReceiverState.spec⟩
instance : LawfulEnc IntercomControlControlType := enum_enc writes_enum8
instance : LawfulDec IntercomControlControlType := ⟨fun x _ => EnumSpec.reads x⟩
instance : FixedDec IntercomControlControlType 1 := ⟨EnumSpec.fixed IntercomControlControlType.spec⟩
instance : LawfulEnc IntercomControlCommand := enum_enc writes_enum8
instance : LawfulDec IntercomControlCommand := ⟨fun x _ => EnumSpec.reads x⟩
instance : FixedDec IntercomControlCommand 1 := ⟨EnumSpec.fixed IntercomControlCommand.spec⟩
instance : LawfulEnc IntercomControlTransmitLineState := enum_enc writes_enum8
instance : LawfulDec IntercomControlTransmitLineState := ⟨fun x _ => EnumSpec.reads x⟩
instance : FixedDec IntercomControlTransmitLineState 1 := ⟨EnumSpec.fixed IntercomControlTransmitLineState.spec⟩
instance : LawfulEnc MinefieldSensorTypes := enum_enc writes_enum8
instance : LawfulDec MinefieldSensorTypes := ⟨fun x _ => EnumSpec.reads x⟩
instance : FixedDec MinefieldSensorTypes 1 := ⟨EnumSpec.fixed MinefieldSensorTypes.spec⟩
instance : LawfulEnc AggregateStateAggregateState := enum_enc writes_enum8
instance : LawfulDec AggregateStateAggregateState := ⟨fun x _ => EnumSpec.reads x⟩
instance : FixedDec AggregateStateAggregateState 1 := ⟨EnumSpec.fixed AggregateStateAggregateState.spec⟩
instance : LawfulEnc AggregateStateFormation := enum_enc writes_enum32
instance : LawfulDec AggregateStateFormation := ⟨fun x _ => EnumSpec.reads x⟩
instance : FixedDec AggregateStateFormation 4 := ⟨EnumSpec.fixed AggregateStateFormation.spec⟩
instance : LawfulEnc IsGroupOfGroupedEntityCategory := enum_enc writes_enum8
instance : LawfulDec IsGroupOfGroupedEntityCategory := ⟨fun x _ => EnumSpec.reads x⟩
instance : FixedDec IsGroupOfGroupedEntityCategory 1 := ⟨EnumSpec.fixed IsGroupOfGroupedEntityCategory.spec⟩
instance : LawfulEnc TransferControlTransferType := enum_enc writes_enum8
instance : LawfulDec TransferControlTransferType := ⟨fun x _ => EnumSpec.reads x⟩
instance : FixedDec TransferControlTransferType 1 := ⟨EnumSpec.fixed TransferControlTransferType.spec⟩
instance : LawfulEnc GriddedDataCoordinateSystem := enum_enc writes_enum16
instance : LawfulDec GriddedDataCoordinateSystem := ⟨fun x _ => EnumSpec.reads x⟩
instance : FixedDec GriddedDataCoordinateSystem 2 := ⟨EnumSpec.fixed GriddedDataCoordinateSystem.spec⟩
instance : LawfulEnc GriddedDataConstantGrid := enum_enc writes_enum8
instance : LawfulDec GriddedDataConstantGrid := ⟨fun x _ => EnumSpec.reads x⟩
instance : FixedDec GriddedDataConstantGrid 1 := ⟨EnumSpec.fixed GriddedDataConstantGrid.spec⟩
instance : LawfulEnc GriddedDataSampleType := enum_enc writes_enum8
instance : LawfulDec GriddedDataSampleType := ⟨fun x _ => EnumSpec.reads x⟩
instance : FixedDec GriddedDataSampleType 1 := ⟨EnumSpec.fixed GriddedDataSampleType.spec⟩
instance : LawfulEnc GriddedDataDataRepresentation := enum_enc writes_enum8
instance : LawfulDec GriddedDataDataRepresentation := ⟨fun x _ => EnumSpec.reads x⟩
instance : FixedDec GriddedDataDataRepresentation 1 := ⟨EnumSpec.fixed GriddedDataDataRepresentation.spec⟩
instance : LawfulEnc RepairGroups := enum_enc writes_enum8
instance : LawfulDec RepairGroups := ⟨fun x _ => EnumSpec.reads x⟩
instance : FixedDec RepairGroups 1 := ⟨EnumSpec.fixed RepairGroups.spec⟩
instance : LawfulEnc IOActionIOWarfareType := enum_enc writes_enum16
instance : LawfulDec IOActionIOWarfareType := ⟨fun x _ => EnumSpec.reads x⟩
instance : FixedDec IOActionIOWarfareType 2 := ⟨EnumSpec.fixed IOActionIOWarfareType.spec⟩
instance : LawfulEnc IOActionIOSimulationSource := enum_enc writes_enum16
instance : LawfulDec IOActionIOSimulationSource := ⟨fun x _ => EnumSpec.reads x⟩
instance : FixedDec IOActionIOSimulationSource 2 := ⟨EnumSpec.fixed IOActionIOSimulationSource.spec⟩
instance : LawfulEnc IOActionIOActionType := enum_enc writes_enum16
instance : LawfulDec IOActionIOActionType := ⟨fun x _ => EnumSpec.reads x⟩
instance : FixedDec IOActionIOActionType 2 := ⟨EnumSpec.fixed IOActionIOActionType.spec⟩
instance : LawfulEnc IOActionIOActionPhase := enum_enc writes_enum16
instance : LawfulDec IOActionIOActionPhase := ⟨fun x _ => EnumSpec.reads x⟩
instance : FixedDec IOActionIOActionPhase 2 := ⟨EnumSpec.fixed IOActionIOActionPhase.spec⟩
instance : LawfulEnc IOReportIOReportType := enum_enc writes_enum8
instance : LawfulDec IOReportIOReportType := ⟨fun x _ => EnumSpec.reads x⟩
instance : FixedDec IOReportIOReportType 1 := ⟨EnumSpec.fixed IOReportIOReportType.spec⟩
instance : LawfulEnc DISAttributeActionCode := enum_enc writes_enum8
instance : LawfulDec DISAttributeActionCode := ⟨fun x _ => EnumSpec.reads x⟩
instance : FixedDec DISAttributeActionCode 1 := ⟨EnumSpec.fixed DISAttributeActionCode.spec⟩
instance : LawfulEnc EEAttributeStateIndicator := enum_enc writes_enum8
instance : LawfulDec EEAttributeStateIndicator := ⟨fun x _ => EnumSpec.reads x⟩
instance : FixedDec EEAttributeStateIndicator 1 := ⟨EnumSpec.fixed EEAttributeStateIndicator.spec⟩
instance : LawfulEnc DEFirePulseShape := enum_enc writes_enum8
instance : LawfulDec DEFirePulseShape := ⟨fun x _ => EnumSpec.reads x⟩
instance : FixedDec DEFirePulseShape 1 := ⟨EnumSpec.fixed DEFirePulseShape.spec⟩
instance : LawfulEnc ComponentIdentification := enum_enc writes_enum8
instance : LawfulDec ComponentIdentification := ⟨fun x _ => EnumSpec.reads x⟩
instance : FixedDec ComponentIdentification 1 := ⟨EnumSpec.fixed ComponentIdentification.spec⟩
instance : LawfulEnc ComponentDamageStatus := enum_enc writes_enum8
instance : LawfulDec ComponentDamageStatus := ⟨fun x _ => EnumSpec.reads x⟩
instance : FixedDec ComponentDamageStatus 1 := ⟨EnumSpec.fixed ComponentDamageStatus.spec⟩
instance : LawfulEnc ComponentVisualSmokeColor := enum_enc writes_enum8
instance : LawfulDec ComponentVisualSmokeColor := ⟨fun x _ => EnumSpec.reads x⟩
instance : FixedDec ComponentVisualSmokeColor 1 := ⟨EnumSpec.fixed ComponentVisualSmokeColor.spec⟩
instance : LawfulEnc RecordQueryREventType := enum_enc writes_enum16
instance : LawfulDec RecordQueryREventType := ⟨fun x _ => EnumSpec.reads x⟩
instance : FixedDec RecordQueryREventType 2 := ⟨EnumSpec.fixed RecordQueryREventType.spec⟩
instance : LawfulEnc MinefieldStateProtocolMode := enum_enc writes_enum16
instance : LawfulDec MinefieldStateProtocolMode := ⟨fun x _ => EnumSpec.reads x⟩
instance : FixedDec MinefieldStateProtocolMode 2 := ⟨EnumSpec.fixed MinefieldStateProtocolMode.spec⟩
instance : LawfulEnc GridAxisDescriptorAxisType := enum_enc writes_enum8
instance : LawfulDec GridAxisDescriptorAxisType := ⟨fun x _ => EnumSpec.reads x⟩
instance : FixedDec GridAxisDescriptorAxisType 1 := ⟨EnumSpec.fixed GridAxisDescriptorAxisType.spec⟩

end Dis
