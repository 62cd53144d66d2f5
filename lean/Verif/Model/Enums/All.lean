import Verif.Model.Enums.Part1
import Verif.Model.Enums.Part2
import Verif.Model.Enums.Part3
import Verif.Model.Enums.Part4
import Verif.Model.Enums.Part5
import Verif.Model.Enums.Part6
/- Generated by tools/gen_enums.py. -/
set_option maxRecDepth 20000
namespace Dis

/-- The 402 enumerations with variants of src/common/enums.rs, in source order. -/
def allEnums : List EnumSpec := [
  ProtocolVersion.spec,
  PduType.spec,
  ProtocolFamily.spec,
  ForceId.spec,
  EntityKind.spec,
  OtherKinds.spec,
  LandDomainCategories.spec,
  AirDomainCategories.spec,
  SurfaceDomainCategories.spec,
  SubsurfaceDomainCategories.spec,
  SpaceDomainCategories.spec,
  MunitionKind.spec,
  MunitionCategory.spec,
  USWeaponSubcategories.spec,
  RussiaWeaponSubcategories.spec,
  UKWeaponSubcategories.spec,
  FrenchWeaponSubcategories.spec,
  LifeFormsSubcategoryGermanWeapons.spec,
  EnvironmentalSubcategory.spec,
  RadioCategory.spec,
  RadioSubcategory.spec,
  ExpendableAirCategory.spec,
  ExpendableSurfaceCategory.spec,
  ExpendableSubsurfaceCategory.spec,
  SensorEmitterCategory.spec,
  Country.spec,
  DeadReckoningAlgorithm.spec,
  EntityMarkingCharacterSet.spec,
  EntityCapabilities.spec,
  VariableParameterRecordType.spec,
  AttachedParts.spec,
  ArticulatedPartsTypeMetric.spec,
  ArticulatedPartsTypeClass.spec,
  MunitionDescriptorWarhead.spec,
  MunitionDescriptorFuse.spec,
  DetonationResult.spec,
  ServiceRequestServiceTypeRequested.spec,
  RepairCompleteRepair.spec,
  RepairResponseRepairResult.spec,
  VariableRecordTypes.spec,
  Reason.spec,
  AcknowledgeFlag.spec,
  AcknowledgeResponseFlag.spec,
  ActionRequestActionID.spec,
  ActionResponseRequestStatus.spec,
  EventType.spec,
  RequiredReliabilityService.spec,
  EmitterName.spec,
  EmitterSystemFunction.spec,
  ElectromagneticEmissionStateUpdateIndicator.spec,
  ElectromagneticEmissionBeamFunction.spec,
  HighDensityTrackJam.spec,
  DesignatorSystemName.spec,
  DesignatorCode.spec,
  IFFSystemType.spec,
  IFFSystemName.spec,
  IFFSystemMode.spec,
  IFFLayerSpecificInformation.spec,
  IFFAlternateMode4ChallengeReply.spec,
  IFFSystemType1OperationalParameter1.spec,
  IFFSystemType1OperationalParameter2.spec,
  SubcategoriesforLandCategory200Mammal.spec,
  SubcategoriesforLandCategory201Reptile.spec,
  SubcategoriesforLandCategory202Amphibian.spec,
  SubcategoriesforLandCategory203Insect.spec,
  SubcategoriesforLandCategory204Arachnid.spec,
  SubcategoriesforLandCategory205Mollusk.spec,
  SubcategoriesforLandCategory206Marsupial.spec,
  SubcategoriesforAirCategory200Bird.spec,
  SubcategoriesforAirCategory201Insect.spec,
  SubcategoriesforAirCategory202Mammal.spec,
  SubcategoriesforSubsurfaceCategory200Fish.spec,
  SubcategoriesforSubsurfaceCategory201Mammal.spec,
  SubcategoriesforSubsurfaceCategory202Mollusk.spec,
  SubcategoriesforSubsurfaceCategory203Crustacean.spec,
  SubcategoriesforSubsurfaceCategory204Insect.spec,
  AnimalLifeformGroupSizeRangeEnumerationforallDomains.spec,
  SpecificDimensionEnumerationsforLandAreaSize.spec,
  SpecificDimensionEnumerationsforAirAreaSize.spec,
  AddSpecificDimensionEnumerationsforSubsurfaceAreaSize.spec,
  AddVariantsforLandCategory200Mammal.spec,
  VariantsforLandCategoriesReptilesAmphibiansInsectsandArachnids.spec,
  VariantsforAirCategory200Bird.spec,
  AddVariantsforAirCategory201Insect.spec,
  AddVariantsforSubsurfaceCategoriesFishMolluskCrustaceanandInsect.spec,
  VariantsforSubsurfaceCategory201Mammal.spec,
  UAStateChangeUpdateIndicator.spec,
  UAAcousticSystemName.spec,
  UAAcousticEmitterSystemFunction.spec,
  UAActiveEmissionParameterIndex.spec,
  UAScanPattern.spec,
  UAPassiveParameterIndex.spec,
  UAAdditionalPassiveActivityParameterIndex.spec,
  TransmitterMajorModulation.spec,
  TransmitterDetailAmplitudeModulation.spec,
  TransmitterDetailAmplitudeandAngleModulation.spec,
  TransmitterDetailAngleModulation.spec,
  TransmitterDetailCombinationModulation.spec,
  TransmitterDetailPulseModulation.spec,
  TransmitterDetailUnmodulatedModulation.spec,
  TransmitterDetailCarrierPhaseShiftModulation.spec,
  TransmitterModulationTypeSystem.spec,
  TransmitterTransmitState.spec,
  TransmitterInputSource.spec,
  TransmitterCryptoSystem.spec,
  TransmitterAntennaPatternType.spec,
  TransmitterAntennaPatternReferenceSystem.spec,
  CCTTSINCGARSStartofMessage.spec,
  CCTTSINCGARSClearChannel.spec,
  TimeSlotAllocationLevel.spec,
  JTIDSMIDSModulationParametersTransmittingTerminalPrimaryMode.spec,
  JTIDSMIDSModulationParametersTransmittingTerminalSecondaryMode.spec,
  JTIDSMIDSModulationParametersSynchronizationState.spec,
  MessageTypeIdentifier.spec,
  SignalUserProtocolIdentificationNumber.spec,
  SignalTDLType.spec,
  ReceiverReceiverState.spec,
  IntercomControlControlType.spec,
  IntercomControlCommunicationsType.spec,
  IntercomControlCommand.spec,
  IntercomControlTransmitLineState.spec,
  IntercomControlDestinationLineStateCommand.spec,
  IntercomControlRecordType.spec,
  CollisionType.spec,
  MinefieldSensorTypes.spec,
  MinefieldSensorTypesOptical.spec,
  MinefieldSensorTypesFLIR.spec,
  MinefieldSensorTypesRADAR.spec,
  MinefieldSensorTypesMagnetic.spec,
  MinefieldSensorTypesLaser.spec,
  MinefieldSensorTypesSONAR.spec,
  MinefieldSensorTypesPhysical.spec,
  MinefieldSensorTypesMultispectral.spec,
  AggregateStateAggregateState.spec,
  AggregateStateFormation.spec,
  AggregateStateAggregateKind.spec,
  AggregateStateSubcategory.spec,
  AggregateStateSpecific.spec,
  IsPartOfNature.spec,
  IsPartOfPosition.spec,
  IsPartOfStationName.spec,
  IsGroupOfGroupedEntityCategory.spec,
  IsGroupOfRestStatus.spec,
  TransferControlTransferType.spec,
  ObjectKind.spec,
  GriddedDataCoordinateSystem.spec,
  GriddedDataConstantGrid.spec,
  GriddedDataSampleType.spec,
  GriddedDataDataRepresentation.spec,
  EnvironmentalProcessModelType.spec,
  EnvironmentalProcessRecordType.spec,
  SignalEncodingClass.spec,
  SignalEncodingType.spec,
  RepairGroups.spec,
  EnvironmentRecordTypeGroups.spec,
  PlatformAirCivilianUltralightNonrigidWingAircraftSubcategories.spec,
  PlatformAirCivilianUltralightRigidWingAircraftSubcategories.spec,
  PlatformAirCivilianGliderSubcategories.spec,
  PlatformAirCivilianFixedWingAircraftSubcategories.spec,
  PlatformAirCivilianHelicopterSubcategories.spec,
  PlatformAirCivilianLighterthanAirBalloonSubcategories.spec,
  PlatformAirCivilianLighterthanAirAirshipSubcategories.spec,
  APAParameterIndexAPAStatus.spec,
  SeparationVPReasonforSeparation.spec,
  SeparationVPPreEntityIndicator.spec,
  IOActionIOWarfareType.spec,
  IOActionIOSimulationSource.spec,
  IOActionIOActionType.spec,
  IOActionIOActionPhase.spec,
  IOReportIOReportType.spec,
  IOEffectsRecordIOStatus.spec,
  IOEffectsRecordIOLinkType.spec,
  IOEffectsRecordIOEffect.spec,
  IOEffectsRecordIOProcess.spec,
  IOCommsNodeRecordCommsNodeType.spec,
  DISAttributeActionCode.spec,
  DRParametersType.spec,
  HighFidelityHAVEQUICKTODTransmitIndicator.spec,
  NETIDRecordMode.spec,
  NETIDRecordFrequencyTable.spec,
  EEAttributeStateIndicator.spec,
  TransferredEntityIndicator.spec,
  LVCIndicator.spec,
  CoupledExtensionIndicator.spec,
  FireTypeIndicator.spec,
  DetonationTypeIndicator.spec,
  RadioAttachedIndicator.spec,
  IntercomAttachedIndicator.spec,
  PduStatusIFFSimulationMode.spec,
  ExplosiveMaterialGroups.spec,
  ExplosiveMaterialCategories.spec,
  DEPrecisionAimpointBeamSpotType.spec,
  DEFirePulseShape.spec,
  ComponentIdentification.spec,
  ComponentDamageStatus.spec,
  ComponentVisualSmokeColor.spec,
  BeamStatusBeamState.spec,
  EntityAssociationAssociationStatus.spec,
  EntityVPRecordChangeIndicator.spec,
  EntityAssociationGroupMemberType.spec,
  PhysicalAssociationTypeGroups.spec,
  EntityAssociationPhysicalAssociationType.spec,
  EntityAssociationPhysicalConnectionType.spec,
  SensorRecordSensorTypeOtherActiveSensors.spec,
  SensorRecordSensorTypePassiveSensors.spec,
  MunitionExpendableStatus.spec,
  FuelMeasurementUnits.spec,
  FuelLocation.spec,
  EntityAssociationAssociationType.spec,
  SensorOnOffStatus.spec,
  OwnershipStatus.spec,
  RecordREventType.spec,
  RecordQueryREventType.spec,
  UAPropulsionPlantConfigurationConfiguration.spec,
  MinefieldStateProtocolMode.spec,
  TransponderInterrogatorIndicator.spec,
  IFFSimulationMode.spec,
  IFFApplicableModes.spec,
  ModeCAltitudeIndicator.spec,
  TCASACASBasicAdvancedIndicator.spec,
  TCASACASIndicator.spec,
  TCASACASSoftwareVersion.spec,
  TCASACASType.spec,
  TCASIIIType.spec,
  Mode5IFFMission.spec,
  ModeSInterrogatorStatusTransmitState.spec,
  ModeSInterrogatorIdentifierICType.spec,
  ISLSAntennaType.spec,
  Mode5Reply.spec,
  AntennaSelection.spec,
  Mode5SquitterType.spec,
  Level2SquitterStatus.spec,
  ModeSSquitterType.spec,
  ModeSSquitterRecordSource.spec,
  AircraftPresentDomain.spec,
  AircraftIdentificationType.spec,
  CapabilityReport.spec,
  NavigationSource.spec,
  IFFDataRecordAvailable.spec,
  Mode5SAltitudeResolution.spec,
  DeltaMode5SAltitudePositiveNegativeIndicator.spec,
  FormatType.spec,
  AircraftAddressSource.spec,
  SurveillanceStatus.spec,
  TurnRateSource.spec,
  TimeTypeSource.spec,
  AircraftTypeWake.spec,
  DataCategory.spec,
  TILinkType.spec,
  AntennaStatus.spec,
  TransmissionIndicator.spec,
  ReplyAmplification.spec,
  DEFireFlagsStateUpdateFlag.spec,
  ComponentVisualDamageStatusSmoke.spec,
  ComponentVisualDamageStatusSurfaceDamage.spec,
  GridAxisDescriptorAxisType.spec,
  AppearancePaintScheme.spec,
  AppearanceDamage.spec,
  Mode5MessageFormatsStatus.spec,
  AppearanceTrailingEffects.spec,
  AppearanceHatch.spec,
  AppearanceLauncherOperational.spec,
  AppearanceCamouflageType.spec,
  AppearanceConcealedPosition.spec,
  AppearanceEntityorObjectState.spec,
  AppearanceCanopy.spec,
  AppearanceSubsurfaceHatch.spec,
  ActiveInterrogationIndicator.spec,
  AppearanceLifeformHealth.spec,
  AppearanceLifeFormComplianceStatus.spec,
  AppearanceLifeFormPosture.spec,
  AppearanceLifeFormWeaponImplement.spec,
  AppearanceConcealedMovement.spec,
  AppearanceEnvironmentalDensity.spec,
  Mode5PlatformType.spec,
  AppearanceAntiCollisionDayNight.spec,
  AppearanceNavigationPositionBrightness.spec,
  AppearanceSupplyDeployed.spec,
  AppearanceNVGMode.spec,
  Parachute.spec,
  FlareSmokeColor.spec,
  FlareSmokeStatus.spec,
  SpotChaffStatus.spec,
  AppearanceObjectGeneralDamage.spec,
  AppearanceObjectGeneralPredistributed.spec,
  AppearanceObjectSpecificBreachState.spec,
  AppearanceObjectSpecificChemicalType.spec,
  AppearanceLinearObjectTankDitchBreach.spec,
  AppearanceLinearObjectLaneMarkerVisible.spec,
  AppearanceObjectGeneralIEDPresent.spec,
  Mode5LevelSelection.spec,
  SupplyFuelType.spec,
  SensorTypeSource.spec,
  AttachedPartDetachedIndicator.spec,
  IntercomControlCommunicationsClass.spec,
  DISLiveEntitySubprotocolNumber.spec,
  MinefieldAppearanceMinefieldType.spec,
  MinefieldAppearanceActiveStatus.spec,
  MinefieldAppearanceLane.spec,
  MinefieldAppearanceState.spec,
  MinefieldFusingFuseType.spec,
  Mode5LocationErrors.spec,
  MinefieldPaintSchemeAlgae.spec,
  MinefieldPaintSchemePaintScheme.spec,
  CoverShroudStatus.spec,
  PlatformLandMotorcycleSubcategories.spec,
  PlatformLandCarSubcategories.spec,
  PlatformLandBusSubcategories.spec,
  PlatformLandSingleUnitCargoTruckSubcategories.spec,
  PlatformLandSingleUnitUtilityEmergencyTruckSubcategories.spec,
  PlatformLandMultipleUnitCargoTruckSubcategories.spec,
  PlatformLandMultipleUnitUtilityEmergencyTruckSubcategories.spec,
  PlatformLandConstructionSpecialtyVehicleSubcategories.spec,
  PlatformLandFarmSpecialtyVehicleSubcategories.spec,
  PlatformLandTrailerSubcategories.spec,
  PlatformLandRecreationalSubcategories.spec,
  PlatformLandNonmotorizedSubcategories.spec,
  PlatformLandTrainsSubcategories.spec,
  PlatformLandUtilityEmergencyCarSubcategories.spec,
  PlatformSurfacePassengerVesselSubcategories.spec,
  PlatformSurfaceDryCargoShipSubcategories.spec,
  PlatformSurfaceTankerSubcategories.spec,
  PlatformSurfaceSupportVesselSubcategories.spec,
  PlatformSurfacePrivateMotorboatSubcategories.spec,
  PlatformSurfacePrivateSailboatSubcategories.spec,
  PlatformSurfaceFishingVesselSubcategories.spec,
  PlatformSurfaceOtherVesselsSubcategories.spec,
  CryptoKeyIDCryptoMode.spec,
  Color.spec,
  BuildingPaintScheme.spec,
  Season.spec,
  Material.spec,
  Link11_11BFidelityLevel.spec,
  Link11TerminalMode.spec,
  Link11DataTerminalSetIndicator.spec,
  Link11ModeofOperation.spec,
  LifeFormsSubcategoryIranianWeapons.spec,
  LifeFormLandCategories.spec,
  LifeFormHumanSubcategoryEquipmentClass.spec,
  LifeFormHumanSpecificAssaultRifles.spec,
  LifeFormHumanSpecificHighPowerRifles.spec,
  LifeFormCategoriesUS.spec,
  LifeFormExtraPersonalData.spec,
  LifeFormAirCategories.spec,
  LifeFormSubsurfaceCategories.spec,
  LifeFormHumanSpecificSniper.spec,
  LifeFormHumanSpecificSubMachineGun.spec,
  AustralianCategoryOverlay.spec,
  LifeFormCategoriesAfghanistan.spec,
  LifeFormHumanSpecificEquipmentClass.spec,
  PlatformSubsurfaceCivilianSemiSubmersiblesSubcategories.spec,
  LeafCoverage.spec,
  LifeFormHumanSpecificAntiMaterielRifles.spec,
  LifeFormHumanSpecificShotGuns.spec,
  LifeFormHumanSpecificMortars.spec,
  LifeFormHumanSpecificHandGuns.spec,
  LifeFormHumanSpecificWeaponNonspecific.spec,
  LifeFormHumanSpecificGrenadeLaunchers.spec,
  LifeFormHumanSpecificMachineGuns.spec,
  LifeFormHumanSpecificGrenadeLaunchingMachineGun.spec,
  LifeFormHumanSpecificAntiTankRockets.spec,
  LifeFormHumanSpecificAntiTankMissiles.spec,
  LifeFormHumanSpecificManPortableAirDefenseSystem.spec,
  LifeFormHumanSpecificRecoillessRifles.spec,
  LifeFormHumanSpecificFlameRockets.spec,
  LifeFormHumanSpecificFlameThrowers.spec,
  LifeFormHumanSpecificDroneGuns.spec,
  LifeFormHumanSpecificLogisticsEQClass.spec,
  LifeFormHumanSpecificPersonalElectronicsClass.spec,
  LifeFormHumanSpecificLasersClass.spec,
  TransmitterDetailSATCOMModulation.spec,
  SupplyDomain.spec,
  Class1SupplyCategorySubsistence.spec,
  Class2SupplyCategoryClothingIndividualEquipmentToolsAdminSupplies.spec,
  Class3SupplyCategoryPetroleumOilsLubricants.spec,
  Class4SupplyCategoryConstructionMaterials.spec,
  Class6SupplyCategoryPersonnelDemandItems.spec,
  Class7SupplyCategoryMajorItems.spec,
  Class8SupplyCategoryMedicalMaterial.spec,
  Class9SupplyCategoryRepairPartsandComponents.spec,
  Class10SupplyCategoryMaterialToSupportNonMilitaryPrograms.spec,
  Class11SupplyCategorySupplies.spec,
  Class12SupplyCategorySlingLoads.spec,
  LifeSavingEquipment.spec,
  IslandSubcategory.spec,
  Link11MessageSubType.spec,
  Link11MessageTypeIdentifier.spec,
  Link11DataSignallingRate.spec,
  Link11SignalIntegrationInterval.spec,
  Link11SignalWaveform.spec,
  Link11_11BEncryptionFlag.spec,
  SISOSTD002Version.spec,
  Link11BLinkState.spec,
  Link11BModeofOperation.spec,
  Link11BMessageSubType.spec,
  Link11BDataSignalingRate.spec,
  Link11BModulationStandard.spec,
  CIGIExtensionPacketID.spec,
  Link16Version.spec,
  AircraftIDSource.spec,
  ClothingIRSignature.spec,
  DamageArea.spec]

/-- An enumeration together with its three field-trait implementations. -/
structure FieldEnum where
  spec : EnumSpec
  ser : EnumVal spec → Put
  de : Get (EnumVal spec)
  len : EnumVal spec → Nat

/-- Package the trait implementations found for an enumeration. -/
def FieldEnum.of (s : EnumSpec) [FieldSerialize (EnumVal s)] [FieldDeserialize (EnumVal s)] [FieldLen (EnumVal s)] : FieldEnum :=
  ⟨s, serialize_field, deserialize_field, field_len⟩

/-- The 54 enumerations that implement the field traits (they are the ones usable as PDU fields). -/
def fieldEnums : List FieldEnum := [
  .of ForceId.spec,
  .of DeadReckoningAlgorithm.spec,
  .of EntityCapabilities.spec,
  .of DetonationResult.spec,
  .of ServiceRequestServiceTypeRequested.spec,
  .of RepairCompleteRepair.spec,
  .of RepairResponseRepairResult.spec,
  .of VariableRecordTypes.spec,
  .of Reason.spec,
  .of AcknowledgeFlag.spec,
  .of AcknowledgeResponseFlag.spec,
  .of ActionResponseRequestStatus.spec,
  .of EventType.spec,
  .of RequiredReliabilityService.spec,
  .of DesignatorSystemName.spec,
  .of DesignatorCode.spec,
  .of UAStateChangeUpdateIndicator.spec,
  .of UAAcousticSystemName.spec,
  .of UAAcousticEmitterSystemFunction.spec,
  .of UAPassiveParameterIndex.spec,
  .of TransmitterTransmitState.spec,
  .of TransmitterInputSource.spec,
  .of TransmitterCryptoSystem.spec,
  .of TransmitterAntennaPatternType.spec,
  .of TransmitterAntennaPatternReferenceSystem.spec,
  .of SignalTDLType.spec,
  .of ReceiverReceiverState.spec,
  .of IntercomControlControlType.spec,
  .of IntercomControlCommand.spec,
  .of IntercomControlTransmitLineState.spec,
  .of MinefieldSensorTypes.spec,
  .of AggregateStateAggregateState.spec,
  .of AggregateStateFormation.spec,
  .of IsGroupOfGroupedEntityCategory.spec,
  .of TransferControlTransferType.spec,
  .of GriddedDataCoordinateSystem.spec,
  .of GriddedDataConstantGrid.spec,
  .of GriddedDataSampleType.spec,
  .of GriddedDataDataRepresentation.spec,
  .of RepairGroups.spec,
  .of IOActionIOWarfareType.spec,
  .of IOActionIOSimulationSource.spec,
  .of IOActionIOActionType.spec,
  .of IOActionIOActionPhase.spec,
  .of IOReportIOReportType.spec,
  .of DISAttributeActionCode.spec,
  .of EEAttributeStateIndicator.spec,
  .of DEFirePulseShape.spec,
  .of ComponentIdentification.spec,
  .of ComponentDamageStatus.spec,
  .of ComponentVisualSmokeColor.spec,
  .of RecordQueryREventType.spec,
  .of MinefieldStateProtocolMode.spec,
  .of GridAxisDescriptorAxisType.spec]

end Dis
