import Verif.Spec.SisoCodesMore
/-
Specification for C47, continued: the enumerations that occur in no message (categories and subcategories of
entity types, appearances, records the crate does not decode, ...), in the order of src/common/enums.rs.
Drafted from the crate and read through against SISO-REF-010 from knowledge of it.  The octets are those the
crate's decoder of the enumeration reads; many of these are bit fields in the standard.
-/
set_option maxRecDepth 20000
namespace Dis

/-- The standard's tables for enumerations that occur in no message (1). -/
def restSisoTables1 : List (EnumSpec × SisoTable) := [
  (OtherKinds.spec, .numbered 1 [
     "Other", "Land", "Air", "Surface", "Subsurface", "Space"]),
  (LandDomainCategories.spec, ⟨1, 0, [
     ("Other", 0), ("Tank", 1), ("ArmoredFightingVehicle", 2), ("ArmoredUtilityVehicle", 3),
     ("SelfPropelledArtillery", 4), ("TowedArtillery", 5), ("SmallWheeledUtilityVehicle", 6),
     ("LargeWheeledUtilityVehicle", 7), ("SmallTrackedUtilityVehicle", 8), ("LargeTrackedUtilityVehicle", 9),
     ("Mortar", 10), ("MinePlow", 11), ("MineRake", 12), ("MineRoller", 13), ("CargoTrailer", 14),
     ("FuelTrailer", 15), ("GeneratorTrailer", 16), ("WaterTrailer", 17), ("EngineerEquipment", 18),
     ("HeavyEquipmentTransportTrailer", 19), ("MaintenanceEquipmentTrailer", 20), ("Limber", 21),
     ("ChemicalDecontaminationTrailer", 22), ("WarningSystem", 23), ("TrainEngine", 24), ("TrainCar", 25),
     ("TrainCaboose", 26), ("CivilianVehicle", 27), ("AirDefenseMissileDefenseUnitEquipment", 28),
     ("C3ISystem", 29), ("OperationsFacility", 30), ("IntelligenceFacility", 31),
     ("SurveillanceFacility", 32), ("CommunicationsFacility", 33), ("CommandFacility", 34),
     ("C4IFacility", 35), ("ControlFacility", 36), ("FireControlFacility", 37),
     ("MissileDefenseFacility", 38), ("FieldCommandPost", 39), ("ObservationPost", 40), ("MineFlail", 41),
     ("Unmanned", 50), ("Motorcycle", 80), ("Car", 81), ("Bus", 82), ("SingleUnitCargoTruck", 83),
     ("SingleUnitUtilityEmergencyTruck", 84), ("MultipleUnitCargoTruck", 85),
     ("MultipleUnitUtilityEmergencyTruck", 86), ("ConstructionSpecialtyVehicle", 87),
     ("FarmSpecialtyVehicle", 88), ("Trailer", 89), ("Recreational", 90), ("NonMotorized", 91),
     ("Trains", 92), ("UtilityEmergencyCar", 93)]⟩),
  (AirDomainCategories.spec, ⟨1, 0, [
     ("Other", 0), ("FighterAirDefense", 1), ("AttackStrike", 2), ("Bomber", 3), ("CargoTanker", 4),
     ("ASWPatrolObservation", 5), ("ElectronicWarfare", 6), ("Reconnaissance", 7), ("SurveillanceC2", 8),
     ("AirSeaRescue", 9), ("AttackHelicopter", 20), ("UtilityHelicopter", 21),
     ("AntiSubmarineWarfarePatrolHelicopter", 22), ("CargoHelicopter", 23), ("ObservationHelicopter", 24),
     ("SpecialOperationsHelicopter", 25), ("TrainingHelicopter", 26), ("Trainer", 40), ("Unmanned", 50),
     ("NonCombatantCommercialAircraft", 57), ("CivilianUltralightAircraftNonrigidWing", 80),
     ("CivilianUltralightAircraftRigidWing", 81), ("CivilianFixedWingAircraftGlider", 83),
     ("CivilianFixedWingAircraftLightSport", 84), ("CivilianFixedWingAircraftSmall", 85),
     ("CivilianFixedWingAircraftMedium", 86), ("CivilianFixedWingAircraftLarge", 87),
     ("CivilianFixedWingAircraftHeavy", 88), ("CivilianHelicopterSmall", 90),
     ("CivilianHelicopterMedium", 91), ("CivilianHelicopterLarge", 92), ("CivilianAutogyro", 93),
     ("CivilianLighterthanAirBalloon", 100), ("CivilianLighterthanAirAirship", 101)]⟩),
  (SurfaceDomainCategories.spec, ⟨1, 0, [
     ("Other", 0), ("Carrier", 1), ("CommandShipCruiser", 2), ("GuidedMissileCruiser", 3),
     ("GuidedMissileDestroyer", 4), ("Destroyer", 5), ("GuidedMissileFrigate", 6), ("LightPatrolCraft", 7),
     ("MineCountermeasureShipCraft", 8), ("DockLandingShip", 9), ("TankLandingShip", 10),
     ("LandingCraft", 11), ("LightCarrier", 12), ("CruiserHelicopterCarrier", 13), ("Hydrofoil", 14),
     ("AirCushionSurfaceEffect", 15), ("Auxiliary", 16), ("AuxiliaryMerchantMarine", 17), ("Utility", 18),
     ("UnmannedSurfaceVehicle", 19), ("LittoralCombatShips", 20), ("SurveillanceShip", 21), ("Frigate", 50),
     ("Battleship", 51), ("HeavyCruiser", 52), ("DestroyerTender", 53), ("AmphibiousAssaultShip", 54),
     ("AmphibiousCargoShip", 55), ("AmphibiousTransportDock", 56), ("AmmunitionShip", 57),
     ("CombatStoresShip", 58), ("SurveillanceTowedArraySonarSystem", 59), ("FastCombatSupportShip", 60),
     ("NonCombatantShip", 61), ("CoastGuardCutters", 62), ("CoastGuardBoats", 63), ("FastAttackCraft", 64),
     ("InflatableBoat", 65), ("PassengerVessel", 80), ("DryCargoShip", 81), ("Tanker", 82),
     ("OffshoreSupportVessel", 83), ("PrivateMotorboat", 84), ("PrivateSailboat", 85), ("FishingVessel", 86),
     ("OtherVessels", 87), ("SearchandRescueVessels", 100), ("LifeSavingEquipment", 101)]⟩),
  (SubsurfaceDomainCategories.spec, ⟨1, 0, [
     ("Other", 0), ("SSBN", 1), ("SSGN", 2), ("SSN", 3), ("SSG", 4), ("SS", 5), ("SSAN", 6), ("SSA", 7),
     ("UnmannedUnderwaterVehicle", 8), ("SSB", 9), ("SSC", 10), ("SSP", 11), ("SSM", 12), ("SSNR", 13),
     ("SST", 14), ("AGSS", 15), ("SemiSubmersibleBoats", 16), ("CivilianSubmarines", 80),
     ("CivilianSubmersibles", 81), ("CivilianSemiSubmersibleBoats", 82)]⟩),
  (SpaceDomainCategories.spec, ⟨1, 0, [
     ("Other", 0), ("MannedSpacecraft", 1), ("Unmanned", 2), ("Booster", 3), ("Debris", 10),
     ("SatelliteUnknownUnspecifiedMission", 11), ("SatelliteCommunication", 12), ("SatelliteNavigation", 13),
     ("SatelliteScienceExperimentalDemonstration", 14), ("SatelliteInert", 15),
     ("SatelliteEarthObservation", 16), ("SatelliteSpaceSurveillance", 17), ("SatelliteAstronomy", 18)]⟩),
  (MunitionKind.spec, .numbered 1 [
     "Other", "AntiAir", "AntiArmor", "AntiGuidedWeapon", "AntiRadar", "AntiSatellite", "AntiShip",
     "AntiSubmarine", "AntiPersonnel", "BattlefieldSupport", "Strategic", "Tactical", "DirectedEnergyWeapon"]),
  (MunitionCategory.spec, .numbered 1 [
     "Other", "Guided", "Ballistic", "Fixed"]),
  (USWeaponSubcategories.spec, ⟨1, 1, [
     ("AssaultMachinePistolKFAMP", 1), ("AutomaticModel1911A1_45", 2), ("CombatMasterMarkVI_45Detronics", 3),
     ("DecockerKP90DC_45", 4), ("DecockerKP91DC_40", 5), ("GeneralOfficersModel15_45", 6),
     ("Nova9mmLaFrance", 7), ("PersonalDefenseWeaponMP5KPDW9mm", 8), ("SilencedColt_45LaFrance", 9),
     ("_5900Series9mmSmithWessonSW", 10), ("M9", 11), ("Model1911A1SpringfieldArmory", 12),
     ("Model20009mm", 13), ("P99mmSpringfieldArmory", 14), ("P129mm", 15), ("P85MarkII9mmRuger", 16),
     ("AdvancedCombatRifle5_56mmAAI", 17), ("CommandoAssaultRifleModel7335_56mmColt", 18),
     ("InfantryRifleMini1420GB5_56mmRuger", 19), ("Mini145_56mmRuger", 20), ("MiniThirty7_62mmRuger", 21),
     ("SemiAutomaticModel82A2_50Barrett", 22), ("SniperWeaponSystemM247_62mm", 23),
     ("SnipingRifleM21SpringfieldArmory", 24), ("SnipingRifleM40A17_62mm", 25),
     ("SnipingRifleM6007_62mm", 26), ("AR15M165_56mm", 27), ("M1_30_1", 28), ("M147_62mmNATO", 29),
     ("M14M1AM1A1A1SpringfieldArmory", 30), ("M14KAssaultRifleLaFrance", 31),
     ("M16A2AssaultRifle5_56mmColt", 32), ("M217_62mmU_S_", 33), ("M77MarkII5_56mmRuger", 34),
     ("M77V7_62mmRuger", 35), ("S167_62x36mmGrendel", 36), ("SAR87_62mm", 37), ("SAR48007_62mm", 38),
     ("AssaultCarbineM16KLaFrance", 39), ("M1_30_2", 40), ("M4Model7205_56mmColt", 41),
     ("M9009mmCalico", 42), ("AC556F5_56mmRuger", 43), ("M3_45", 44), ("M11Cobray", 45),
     ("M9519mmCalico", 46), ("MP51010mm", 47), ("_9mmColt", 48), ("Ingram", 49),
     ("ExternallyPoweredEPG7_62mmAres", 50), ("GECAL50", 51), ("GeneralPurposeM607_62mm", 52),
     ("HeavyM2HBQCB_50RAMO", 53), ("LightassaultM60E3Enhanced7_62mm", 54), ("LightM16A25_56mmColt", 55),
     ("Light5_56mmAres", 56), ("LightweightM2_50RAMO", 57), ("LightweightAssaultM60E37_62mm", 58),
     ("MinigunM1347_62mmGeneralElectric", 59), ("MGsystemMK19Mod340mm", 60),
     ("MGsystemorkitM2HBQCB_50SacoDefense", 61), ("M1919A4_30calBrowning", 62), ("_50calBrowning", 63),
     ("ColoredSmokeHandGrenadeM18", 64), ("ColoredSmokeGrenadesFederalLaboratories", 65),
     ("InfraredSmokeGrenadeM76", 66), ("SmokeHandGrenadeANM8HC", 67),
     ("DelayFragmentationHandGrenadeM61", 68), ("DelayFragmentationHandGrenadeM67", 69),
     ("ImpactFragmentationHandGrenadeM57", 70), ("ImpactFragmentationHandGrenadeM68", 71),
     ("IncendiaryHandGrenadeANM14TH3", 72), ("LauncherIM20340mm", 73), ("LauncherM7940mm", 74),
     ("MultipleGrenadeLauncherMM140mm", 75), ("MultiShotPortableFlameWeaponM202A266mm", 76),
     ("PortableABCM97", 77), ("PortableM2A17", 78), ("PortableM9E17", 79),
     ("DragonMediumAntiArmorMissileM47FGM77A", 80), ("JavelinAAWSM", 81),
     ("LightAntiTankWeaponM72LAWII", 82), ("RedeyeFIM43GeneralDynamics", 83),
     ("SaberDualPurposeMissileSystem", 84), ("StingerFIM92GeneralDynamics", 85),
     ("TOWheavyAntiTankweapon", 86), ("BearTrapAPDevicePancor", 87),
     ("ChainGunAutomaticWeaponEX347_62mm", 88), ("CloseAssaultWeaponSystemCAWSAAI", 89),
     ("CAWSOlinHecklerAndKoch", 90), ("CrossfireSAMModel88", 91), ("DragonAndM16", 92),
     ("FiringPortWeaponM2315_56mmColt", 93), ("FoxholeDiggerExplosiveKitEXFODA", 94),
     ("InfantrySupportWeaponASP30RM30mm", 95), ("JackhammerMk3A2Pancor", 96),
     ("LightAntiArmorWeaponM136AT4", 97), ("M26A2", 98), ("MasterKeyS", 99), ("Minigun5_56mm", 100),
     ("MultipurposeIndividualMunitionMPIMMarquardt", 101), ("MultipurposeWeaponAT8", 102),
     ("RecoillessRifleM40M40A2andM40A4106mm", 103), ("RecoillessRifleM6790mm", 104), ("RevolverSP101", 105),
     ("RevolverSuperRedhawk_44MagnumRuger", 106), ("RAWRocket140mmBrunswick", 107),
     ("RifleLauncherAntiArmorMunitionRAAMOlin", 108), ("RocketLauncherM203_5in", 109),
     ("RocketLauncherEnhancedM72EseriesHEAT66mm", 110), ("SelectiveFireWeaponAC5565_56mmRuger", 111),
     ("SelectiveFireWeaponAC556F5_56mmRuger", 112), ("ShotgunM870Mk1U_S_MarineCorpsRemington", 113),
     ("SMAWMk19383mmMcDonnellDouglas", 114), ("SMAWDDisposableSMAW", 115),
     ("SquadAutomaticWeaponSAWM2495_56mm", 116), ("TacticalSupportWeapon5012_50calPeregrine", 117),
     ("TelescopedAmmunitionRevolverGunTARG_50calAres", 118), ("UltimateOverUnderCombinationCiener", 119),
     ("M18A1ClaymoreMine", 120), ("Mortar81mm", 121), ("MachinegunM2407_62mm", 134)]⟩),
  (RussiaWeaponSubcategories.spec, ⟨1, 201, [
     ("Automatic9mmStechkin", 201), ("PSM5_45mm", 202), ("Selfloading9mmMakarov", 203),
     ("TT337_62mmTokarev", 204), ("AssaultrifleAKandAKM7_62mm", 205),
     ("AssaultrifleAK74andAKS745_45mm", 206), ("Selfloadingrifle7_62mmSimonov", 207),
     ("SniperrifleSVD7_62mmDragunov", 208), ("AKSU745_45mm", 209), ("PPS437_62mm", 210),
     ("PPSh417_62mm", 211), ("GeneralpurposePK7_62mm", 212), ("HeavyDShK38andModel384612_7mmDegtyarev", 213),
     ("HeavyNSV12_7mm", 214), ("LightRPD7_62mm", 215), ("LightRPK7_62mm", 216), ("LightRPK745_45mm", 217),
     ("HandGrenadeM75", 218), ("HandGrenadeRGD5", 219), ("APHandGrenadeF1", 220), ("ATHandGrenadeRKG3", 221),
     ("ATHandGrenadeRKG3M", 222), ("ATHandGrenadeRKG3T", 223), ("FragmentationHandGrenadeRGN", 224),
     ("FragmentationHandGrenadeRGO", 225), ("SmokeHandGrenadeRDG1", 226), ("Plamyalauncher30mmAGS17", 227),
     ("RiflemountedlauncherBG1540mm", 228), ("LPO50", 229), ("ROKS3", 230), ("CartmountedTPO50", 231),
     ("GimletSA16", 232), ("GrailSA7", 233), ("GremlinSA14", 234), ("SaggerAT3", 235), ("SaxhornAT7", 236),
     ("SpigotABAT14", 237), ("SA18", 238), ("SA19", 239),
     ("Grad1PmanPortableTripodRocketLauncher122mm", 240), ("LightAntiArmorWeaponRPG18", 241),
     ("LightAntiTankWeaponRPG22", 242), ("MGRPG", 243), ("PortableRocketLauncherRPG16", 244),
     ("RecoillessGun73mmSPG9", 245), ("VATRocketLauncherRPG7", 246), ("Mon50AntiPersonnelMine", 248),
     ("RPG29Vampir", 249), ("LaserDesignator", 250), ("AT4Spigot", 251), ("SA24IglaS", 252),
     ("Type69RPG", 253)]⟩),
  (UKWeaponSubcategories.spec, ⟨1, 1, [
     ("LAW80", 1), ("Blowpipe", 2), ("Javelin", 3), ("_51mmmortar", 4), ("SLR7_62mmrifle", 5),
     ("Sterling9mmsubmachinegun", 6), ("L7A2generalpurposeMG", 7), ("L6WombatRecoillessrifle", 8),
     ("CarlGustav89mmrecoillessrifle", 9), ("SA80Individuallightsupportweapon", 10), ("Trigat", 11),
     ("MilanATmissile", 12)]⟩),
  (FrenchWeaponSubcategories.spec, ⟨1, 1, [
     ("ACLSTRIM", 1), ("Mistralmissile", 2), ("MilanATmissile", 3), ("LRACF189mmATrocketlauncher", 4),
     ("FAMASrifle", 5), ("AA52machinegun", 6), ("_58mmriflegrenade", 7), ("FRF1sniperrifle", 8)]⟩),
  (LifeFormsSubcategoryGermanWeapons.spec, ⟨1, 1, [
     ("G3rifle", 1), ("G11rifle", 2), ("P1pistol", 3), ("MG3machinegun", 4), ("Milanmissile", 5),
     ("MP1Uzisubmachinegun", 6), ("Panzerfaust3LightAntiTankWeapon", 7), ("DM19HandGrenade", 8),
     ("DM29HandGrenade", 9)]⟩),
  (EnvironmentalSubcategory.spec, ⟨1, 0, [
     ("Other", 0), ("VerySmall", 20), ("Small", 40), ("Medium", 60), ("Large", 80), ("VeryLarge", 100)]⟩),
  (RadioCategory.spec, ⟨1, 0, [
     ("Other", 0), ("VoiceTransmissionReception", 1), ("DataLinkTransmissionReception", 2),
     ("VoiceandDataLinkTransmissionReception", 3), ("InstrumentedLandingSystemGlideslopeTransmitter", 4),
     ("InstrumentedLandingSystemLocalizerTransmitter", 5), ("InstrumentedLandingSystemOuterMarkerBeacon", 6),
     ("InstrumentedLandingSystemMiddleMarkerBeacon", 7), ("InstrumentedLandingSystemInnerMarkerBeacon", 8),
     ("InstrumentedLandingSystem", 9), ("TacticalAirNavigationTACANTransmitter", 10),
     ("TacticalAirNavigationTACANReceiver", 11), ("TacticalAirNavigationTACANTransmitterReceiver", 12),
     ("VariableOmniRangingVORTransmitter", 13),
     ("VariableOmniRangingVORWithDistanceMeasuringEquipmentTransmitter", 14), ("CombinedVORILSReceiver", 15),
     ("CombinedVORTACANTransmitter", 16), ("NonDirectionalBeaconTransmitter", 17),
     ("NonDirectionalBeaconReceiver", 18),
     ("NonDirectionalBeaconWithDistanceMeasuringEquipmentTransmitter", 19),
     ("DistanceMeasuringEquipment", 20), ("Link16Terminal", 21), ("Link11Terminal", 22),
     ("Link11BTerminal", 23), ("EPLRSSADLTerminal", 24), ("F22IntraFlightDataLink", 25),
     ("F35MultifunctionAdvancedDataLink", 26), ("SINCGARSTerminal", 27), ("LBandSATCOMTerminal", 28),
     ("IBSTerminal", 29), ("GPS", 30), ("TacticalVideo", 31), ("AirtoAirMissileDatalink", 32),
     ("Link16SurrogateforNonNATOTDLTerminal", 33), ("MQ19CBandLOSDatalink", 34),
     ("MQ19KuBandSATCOMDatalink", 35), ("AirtoGroundWeaponDatalink", 36),
     ("AutomaticIdentificationSystem", 37), ("JPALSDataLink", 38), ("CombatSearchandRescueRadio", 40),
     ("CounterUnmannedAircraftSystemRadio", 41), ("EmergencyPositionIndicatingRadioBeacons", 42),
     ("ElectronicAttackSystems", 50), ("TacticalTargetingNetworkTechnology", 51)]⟩),
  (RadioSubcategory.spec, ⟨1, 0, [
     ("Other", 0), ("JointElectronicsTypeDesignationSystemNonspecificSeries", 1),
     ("ManufacturerDesignation", 2), ("NationalDesignation", 3), ("JETDSARCSet1", 11), ("JETDSARCSet2", 12),
     ("JETDSARCSet3", 13), ("JETDSARCSet4", 14), ("JETDSBRCSet1", 15), ("JETDSBRCSet2", 16),
     ("JETDSBRCSet3", 17), ("JETDSBRCSet4", 18), ("JETDSCRCSet1", 19), ("JETDSCRCSet2", 20),
     ("JETDSCRCSet3", 21), ("JETDSCRCSet4", 22), ("JETDSDRCSet1", 23), ("JETDSDRCSet2", 24),
     ("JETDSDRCSet3", 25), ("JETDSDRCSet4", 26), ("JETDSFRCSet1", 27), ("JETDSFRCSet2", 28),
     ("JETDSFRCSet3", 29), ("JETDSFRCSet4", 30), ("JETDSGRCSet1", 31), ("JETDSGRCSet2", 32),
     ("JETDSGRCSet3", 33), ("JETDSGRCSet4", 34), ("JETDSKRCSet1", 35), ("JETDSKRCSet2", 36),
     ("JETDSKRCSet3", 37), ("JETDSKRCSet4", 38), ("JETDSMRCSet1", 39), ("JETDSMRCSet2", 40),
     ("JETDSMRCSet3", 41), ("JETDSMRCSet4", 42), ("JETDSPRCSet1", 43), ("JETDSPRCSet2", 44),
     ("JETDSPRCSet3", 45), ("JETDSPRCSet4", 46), ("JETDSSRCSet1", 47), ("JETDSSRCSet2", 48),
     ("JETDSSRCSet3", 49), ("JETDSSRCSet4", 50), ("JETDSTRCSet1", 51), ("JETDSTRCSet2", 52),
     ("JETDSTRCSet3", 53), ("JETDSTRCSet4", 54), ("JETDSVRCSet1", 55), ("JETDSVRCSet2", 56),
     ("JETDSVRCSet3", 57), ("JETDSVRCSet4", 58), ("JETDSWRCSet1", 59), ("JETDSWRCSet2", 60),
     ("JETDSWRCSet3", 61), ("JETDSWRCSet4", 62), ("JETDSZRCSet1", 63), ("JETDSZRCSet2", 64),
     ("JETDSZRCSet3", 65), ("JETDSZRCSet4", 66)]⟩),
  (ExpendableAirCategory.spec, ⟨1, 0, [
     ("Other", 0), ("Chaff", 1), ("Flare", 2), ("CombinedChaffandFlare", 3), ("ActiveEmitter", 4),
     ("PassiveDecoy", 5), ("WingedDecoy", 6), ("SignalIlluminationFlare", 7), ("SmokeGenerator", 8),
     ("CombinedFlareandSmokeGenerator", 12), ("SARNightLight", 13), ("SARBuoy", 14)]⟩),
  (ExpendableSurfaceCategory.spec, ⟨1, 0, [
     ("Other", 0), ("Flare", 2), ("ActiveEmitter", 4), ("PassiveDecoy", 5), ("SmokeGenerator", 8),
     ("CombinedFlareandSmokeGenerator", 12), ("SARBuoy", 14)]⟩),
  (ExpendableSubsurfaceCategory.spec, ⟨1, 0, [
     ("Other", 0), ("Activeemitter", 4), ("Passivedecoy", 5), ("Signal", 7), ("NoiseMakerDecoy", 9),
     ("BubbleMakerDecoy", 10), ("MultiModeDecoy", 11)]⟩),
  (SensorEmitterCategory.spec, .numbered 1 [
     "Other", "Multispectral", "RFActive", "RFPassive", "Optical", "ElectroOptical", "Seismic",
     "Chemicalpointdetector", "Chemicalstandoff", "Thermal", "AcousticActive", "AcousticPassive",
     "ContactPressure", "ElectroMagneticRadiation", "ParticleRadiation", "Magnetic", "Gravitational"]),
  (AttachedParts.spec, ⟨4, 0, [
     ("NothingEmpty", 0), ("SequentialIDsformodelspecificstations", 1), ("FuselageStations", 512),
     ("LeftwingStations", 640), ("RightwingStations", 768), ("M16A42rifle", 896), ("M249SAW", 897),
     ("M60Machinegun", 898), ("M203GrenadeLauncher", 899), ("M136AT4", 900), ("M47Dragon", 901),
     ("AAWSMJavelin", 902), ("M18A1ClaymoreMine", 903), ("MK19GrenadeLauncher", 904), ("M2MachineGun", 905)]⟩),
  (ArticulatedPartsTypeMetric.spec, .numbered 1 [
     "NotSpecified", "Position", "PositionRate", "Extension", "ExtensionRate", "X", "XRate", "Y", "YRate",
     "Z", "ZRate", "Azimuth", "AzimuthRate", "Elevation", "ElevationRate", "Rotation1", "RotationRate"]),
  (ArticulatedPartsTypeClass.spec, ⟨4, 0, [
     ("NotSpecified", 0), ("Rudder", 1024), ("LeftFlap", 1056), ("RightFlap", 1088), ("LeftAileron", 1120),
     ("RightAileron", 1152), ("HelicopterMainRotor", 1184), ("HelicopterTailRotor", 1216),
     ("OtherAircraftControlSurfacesDefinedasNeeded", 1248), ("PropellerNumber1", 1280),
     ("PropellerNumber2", 1312), ("PropellerNumber3", 1344), ("PropellerNumber4", 1376),
     ("LeftStabilator", 1408), ("RightStabilator", 1440), ("LeftRuddervator", 1472),
     ("RightRuddervator", 1504), ("LeftLeadingEdgeFlapSlat", 1536), ("RightLeadingEdgeFlapSlat", 1568),
     ("LeftElevator", 1600), ("RightElevator", 1632), ("CanardLeft", 1664), ("CanardRight", 1696),
     ("ElevonInnerLeft", 1728), ("ElevonInnerRight", 1760), ("ElevonMiddleLeft", 1792),
     ("ElevonMiddleRight", 1824), ("ElevonOuterLeft", 1856), ("ElevonOuterRight", 1888), ("Canopy", 1920),
     ("SpoilerLeft", 1952), ("SpoilerRight", 1984), ("Periscope", 2048), ("GenericAntenna", 2080),
     ("Snorkel", 2112), ("OtherExtendiblePartsDefinedasNeeded", 2144), ("DivePlaneSailLeft", 2176),
     ("DivePlaneSailRight", 2208), ("DivePlaneBowLeft", 2240), ("DivePlaneBowRight", 2272),
     ("DivePlaneSternLeft", 2304), ("DivePlaneSternRight", 2336), ("LandingGear", 3072), ("TailHook", 3104),
     ("SpeedBrake", 3136), ("LeftDoorofPrimaryWeaponBay", 3168), ("RightDoorofPrimaryWeaponBay", 3200),
     ("TankorAPCHatch", 3232), ("Wingsweep", 3264), ("BridgeLauncher", 3296), ("BridgeSection1", 3328),
     ("BridgeSection2", 3360), ("BridgeSection3", 3392), ("PrimaryBlade1", 3424), ("PrimaryBlade2", 3456),
     ("PrimaryBoom", 3488), ("PrimaryLauncherArm", 3520), ("OtherFixedPositionPartsDefinedasNeeded", 3552),
     ("LandingGearNose", 3584), ("LandingGearLeftMain", 3616), ("LandingGearRightMain", 3648),
     ("DoorsofLeftSideWeaponBay", 3680), ("DoorsofRightSideWeaponBay", 3712), ("SpotSearchLight1", 3744),
     ("SpotSearchLight2", 3776), ("SpotSearchLight3", 3808), ("SpotSearchLight4", 3840),
     ("LandingLight", 3872), ("PrimaryTurretNumber1", 4096), ("PrimaryTurretNumber2", 4128),
     ("PrimaryTurretNumber3", 4160), ("PrimaryTurretNumber4", 4192), ("PrimaryTurretNumber5", 4224),
     ("PrimaryTurretNumber6", 4256), ("PrimaryTurretNumber7", 4288), ("PrimaryTurretNumber8", 4320),
     ("PrimaryTurretNumber9", 4352), ("PrimaryTurretNumber10", 4384), ("PrimaryGunNumber1", 4416),
     ("PrimaryGunNumber2", 4448), ("PrimaryGunNumber3", 4480), ("PrimaryGunNumber4", 4512),
     ("PrimaryGunNumber5", 4544), ("PrimaryGunNumber6", 4576), ("PrimaryGunNumber7", 4608),
     ("PrimaryGunNumber8", 4640), ("PrimaryGunNumber9", 4672), ("PrimaryGunNumber10", 4704),
     ("PrimaryLauncher1", 4736), ("PrimaryLauncher2", 4768), ("PrimaryLauncher3", 4800),
     ("PrimaryLauncher4", 4832), ("PrimaryLauncher5", 4864), ("PrimaryLauncher6", 4896),
     ("PrimaryLauncher7", 4928), ("PrimaryLauncher8", 4960), ("PrimaryLauncher9", 4992),
     ("PrimaryLauncher10", 5024), ("PrimaryDefenseSystems1", 5056), ("PrimaryDefenseSystems2", 5088),
     ("PrimaryDefenseSystems3", 5120), ("PrimaryDefenseSystems4", 5152), ("PrimaryDefenseSystems5", 5184),
     ("PrimaryDefenseSystems6", 5216), ("PrimaryDefenseSystems7", 5248), ("PrimaryDefenseSystems8", 5280),
     ("PrimaryDefenseSystems9", 5312), ("PrimaryDefenseSystems10", 5344), ("PrimaryRadar1", 5376),
     ("PrimaryRadar2", 5408), ("PrimaryRadar3", 5440), ("PrimaryRadar4", 5472), ("PrimaryRadar5", 5504),
     ("PrimaryRadar6", 5536), ("PrimaryRadar7", 5568), ("PrimaryRadar8", 5600), ("PrimaryRadar9", 5632),
     ("PrimaryRadar10", 5664), ("SecondaryTurretNumber1", 5696), ("SecondaryTurretNumber2", 5728),
     ("SecondaryTurretNumber3", 5760), ("SecondaryTurretNumber4", 5792), ("SecondaryTurretNumber5", 5824),
     ("SecondaryTurretNumber6", 5856), ("SecondaryTurretNumber7", 5888), ("SecondaryTurretNumber8", 5920),
     ("SecondaryTurretNumber9", 5952), ("SecondaryTurretNumber10", 5984), ("SecondaryGunNumber1", 6016),
     ("SecondaryGunNumber2", 6048), ("SecondaryGunNumber3", 6080), ("SecondaryGunNumber4", 6112),
     ("SecondaryGunNumber5", 6144), ("SecondaryGunNumber6", 6176), ("SecondaryGunNumber7", 6208),
     ("SecondaryGunNumber8", 6240), ("SecondaryGunNumber9", 6272), ("SecondaryGunNumber10", 6304),
     ("SecondaryLauncher1", 6336), ("SecondaryLauncher2", 6368), ("SecondaryLauncher3", 6400),
     ("SecondaryLauncher4", 6432), ("SecondaryLauncher5", 6464), ("SecondaryLauncher6", 6496),
     ("SecondaryLauncher7", 6528), ("SecondaryLauncher8", 6560), ("SecondaryLauncher9", 6592),
     ("SecondaryLauncher10", 6624), ("SecondaryDefenseSystems1", 6656), ("SecondaryDefenseSystems2", 6688),
     ("SecondaryDefenseSystems3", 6720), ("SecondaryDefenseSystems4", 6752),
     ("SecondaryDefenseSystems5", 6784), ("SecondaryDefenseSystems6", 6816),
     ("SecondaryDefenseSystems7", 6848), ("SecondaryDefenseSystems8", 6880),
     ("SecondaryDefenseSystems9", 6912), ("SecondaryDefenseSystems10", 6944), ("SecondaryRadar1", 6976),
     ("SecondaryRadar2", 7008), ("SecondaryRadar3", 7040), ("SecondaryRadar4", 7072),
     ("SecondaryRadar5", 7104), ("SecondaryRadar6", 7136), ("SecondaryRadar7", 7168),
     ("SecondaryRadar8", 7200), ("SecondaryRadar9", 7232), ("SecondaryRadar10", 7264),
     ("DeckElevator1", 7296), ("DeckElevator2", 7328), ("Catapult1", 7360), ("Catapult2", 7392),
     ("JetBlastDeflector1", 7424), ("JetBlastDeflector2", 7456), ("ArrestorWires1", 7488),
     ("ArrestorWires2", 7520), ("ArrestorWires3", 7552), ("WingFold", 7584), ("FuselageFold", 7616),
     ("MainCargoDoor", 7648), ("CargoRamp", 7680), ("AirtoAirRefuelingBoom", 7712),
     ("PrimaryAerialRefuelingReceptacleDoor", 7744), ("SecondaryAerialRefuelingReceptacleDoor", 7776),
     ("AerialRefuelingReceptacleLatch", 7808), ("CargoDoor1", 7840), ("CargoDoor2", 7872),
     ("CargoDoor3", 7904), ("CargoDoor4", 7936), ("CargoDoor5", 7968), ("CargoDoor6", 8000),
     ("CargoDoor7", 8032), ("CargoDoor8", 8064), ("CargoDoor9", 8096), ("CargoDoor10", 8128),
     ("CentreRefuellingDrogue", 8160), ("PortRefuellingDrogue", 8192), ("StarboardRefuellingDrogue", 8224),
     ("SubmarineEngineExhaustMast", 8256), ("SubmarineMast1", 8288), ("SubmarineMast2", 8320),
     ("SubmarineMast3", 8352), ("SubmarineMast4", 8384), ("SubmarineMast5", 8416), ("SubmarineMast6", 8448),
     ("SubmarineMast7", 8480), ("SubmarineMast8", 8512), ("SubmarineMast9", 8544), ("SubmarineMast10", 8576),
     ("VectoredThrustNozzle", 8608), ("LeftDooroftheLeftWeaponBay", 8640),
     ("RightDooroftheLeftWeaponBay", 8672), ("LeftDooroftheRightWeaponBay", 8704),
     ("RightDooroftheRightWeaponBay", 8736), ("GunDoor", 8768), ("CountermeasureDoorLeft", 8800),
     ("CountermeasureDoorRight", 8832), ("HookDoorForward", 8864), ("HookDoorAft", 8896),
     ("LiftFanUpperDoor", 8928), ("LiftFanLowerDoorLeft", 8960), ("LiftFanLowerDoorRight", 8992),
     ("RefuelProbeDoor", 9024), ("LeftEngineNacelle", 9056), ("RightEngineNacelle", 9088),
     ("_1stLeftWheel", 9120), ("_1stRightWheel", 9152), ("_2ndLeftWheel", 9184), ("_2ndRightWheel", 9216),
     ("_3rdLeftWheel", 9248), ("_3rdRightWheel", 9280), ("_4thLeftWheel", 9312), ("_4thRightWheel", 9344),
     ("_5thLeftWheel", 9376), ("_5thRightWheel", 9408), ("_6thLeftWheel", 9440), ("_6thRightWheel", 9472),
     ("_7thLeftWheel", 9504), ("_7thRightWheel", 9536), ("_8thLeftWheel", 9568), ("_8thRightWheel", 9600),
     ("_9thLeftWheel", 9632), ("_9thRightWheel", 9664), ("_10thLeftWheel", 9696), ("_10thRightWheel", 9728),
     ("RefuelingProbe", 9760), ("SteeringWheel", 9792), ("CraneBody", 9824), ("CraneArm1", 9856),
     ("CraneArm2", 9888), ("CraneArm3", 9920), ("CraneBoom", 9952), ("CraneHook", 9984), ("Trailer", 10016),
     ("RollerLeft", 10048), ("RollerRight", 10080), ("PrimaryGunRecoil", 10112),
     ("SecondaryGunRecoil", 10144)]⟩),
  (MunitionDescriptorWarhead.spec, ⟨2, 0, [
     ("Other", 0), ("Cargo", 10), ("FuelAirExplosive", 20), ("GlassBeads", 30), ("_1um", 31), ("_5um", 32),
     ("_10um", 33), ("HighExplosive", 1000), ("HEPlastic", 1100), ("HEIncendiary", 1200),
     ("HEFragmentation", 1300), ("HEAntiTank", 1400), ("HEBomblets", 1500), ("HEShapedCharge", 1600),
     ("HEContinuousRod", 1610), ("HETungstenBall", 1615), ("HEBlastFragmentation", 1620),
     ("HESteerableDartswithHE", 1625), ("HEDarts", 1630), ("HEFlechettes", 1635),
     ("HEDirectedFragmentation", 1640), ("HESemiArmorPiercing", 1645), ("HEShapedChargeFragmentation", 1650),
     ("HESemiArmorPiercingFragmentation", 1655), ("HEHollowCharge", 1660), ("HEDoubleHollowCharge", 1665),
     ("HEGeneralPurpose", 1670), ("HEBlastPenetrator", 1675), ("HERodPenetrator", 1680),
     ("HEAntiPersonnel", 1685), ("HEShapedChargeFragmentationIncendiary", 1690),
     ("HEPenetratorBlastFragmentation", 1695), ("Smoke", 2000), ("WP", 2005), ("FOGO", 2010), ("HC", 2015),
     ("Illumination", 3000), ("Practice", 4000), ("Blank", 4001), ("Dummy", 4002), ("Kinetic", 5000),
     ("Mines", 6000), ("Nuclear", 7000), ("NuclearIMT", 7010), ("NuclearVariousYields", 7011),
     ("ChemicalGeneral", 8000), ("ChemicalBlisterAgent", 8100), ("HD", 8110), ("ThickenedHD", 8115),
     ("DustyHD", 8120), ("L", 8125), ("HN3", 8130), ("HL", 8135), ("CX", 8140), ("DMMP", 8145),
     ("DMHP", 8150), ("DMA", 8155), ("DEM", 8160), ("PX", 8165), ("ChemicalBloodAgent", 8200), ("AC", 8210),
     ("CK", 8215), ("CG", 8220), ("ChemicalNerveAgent", 8300), ("VX", 8310), ("ThickenedVX", 8315),
     ("DustyVX", 8320), ("GA", 8325), ("ThickenedGA", 8330), ("DustyGA", 8335), ("GB", 8340),
     ("ThickenedGB", 8345), ("DustyGB", 8350), ("GD", 8355), ("ThickenedGD", 8360), ("DustyGD", 8365),
     ("GF", 8370), ("ThickenedGF", 8375), ("DustyGF", 8380), ("SVX", 8385), ("BIS", 8410), ("TCP", 8415),
     ("MS", 8425), ("TEP", 8430), ("H2O", 8445), ("TO1", 8450), ("TO2", 8455), ("TO3", 8460),
     ("SulfurHexafluoride", 8465), ("AA", 8470), ("HF", 8475), ("Biological", 9000),
     ("BiologicalVirus", 9100), ("BiologicalBacteria", 9200), ("BiologicalRickettsia", 9300),
     ("BiologicalGeneticallyModifiedMicroorganisms", 9400), ("BiologicalToxin", 9500)]⟩),
  (MunitionDescriptorFuse.spec, ⟨2, 0, [
     ("Other", 0), ("IntelligentInfluence", 10), ("Sensor", 20), ("Selfdestruct", 30), ("UltraQuick", 40),
     ("Body", 50), ("DeepIntrusion", 60), ("Multifunction", 100), ("PointDetonation", 200),
     ("BaseDetonation", 300), ("Contact", 1000), ("ContactInstant", 1100), ("ContactDelayed", 1200),
     ("_10msDelay", 1201), ("_20msDelay", 1202), ("_50msDelay", 1205), ("_60msDelay", 1206),
     ("_100msDelay", 1210), ("_125msDelay", 1212), ("_250msDelay", 1225), ("_5msDelay", 1250),
     ("_15msDelay", 1251), ("_25msDelay", 1252), ("_30msDelay", 1253), ("_35msDelay", 1254),
     ("_40msDelay", 1255), ("_45msDelay", 1256), ("_90msDelay", 1257), ("_120msDelay", 1258),
     ("_180msDelay", 1259), ("_240msDelay", 1260), ("ContactElectronic", 1300), ("ContactGraze", 1400),
     ("ContactCrush", 1500), ("ContactHydrostatic", 1600), ("ContactMechanical", 1700),
     ("ContactChemical", 1800), ("ContactPiezoelectric", 1900), ("ContactPointInitiating", 1910),
     ("ContactPointInitiatingBaseDetonating", 1920), ("ContactBaseDetonating", 1930),
     ("ContactBallisticCapandBase", 1940), ("ContactBase", 1950), ("ContactNose", 1960),
     ("ContactFittedinStandoffProbe", 1970), ("ContactNonaligned", 1980), ("Timed", 2000),
     ("TimedProgrammable", 2100), ("TimedBurnout", 2200), ("TimedPyrotechnic", 2300),
     ("TimedElectronic", 2400), ("TimedBaseDelay", 2500), ("TimedReinforcedNoseImpactDelay", 2600),
     ("TimedShortDelayImpact", 2700), ("_10msDelay2", 2701), ("_20msDelay2", 2702), ("_50msDelay2", 2705),
     ("_60msDelay2", 2706), ("_100msDelay2", 2710), ("_125msDelay2", 2712), ("_250msDelay2", 2725),
     ("TimedNoseMountedVariableDelay", 2800), ("TimedLongDelaySide", 2900), ("TimedSelectableDelay", 2910),
     ("TimedImpact", 2920), ("TimedSequence", 2930), ("Proximity", 3000), ("ProximityActiveLaser", 3100),
     ("ProximityMagnetic", 3200), ("ProximityActiveRadar", 3300), ("ProximityRadioFrequency", 3400),
     ("ProximityProgrammable", 3500), ("ProximityProgrammablePrefragmented", 3600),
     ("ProximityInfrared", 3700), ("Command", 4000), ("CommandElectronicRemotelySet", 4100),
     ("Altitude1", 5000), ("AltitudeRadioAltimeter", 5100), ("AltitudeAirBurst", 5200), ("Depth", 6000),
     ("Acoustic", 7000), ("Pressure", 8000), ("PressureDelay", 8010), ("Inert", 8100), ("Dummy", 8110),
     ("Practice", 8120), ("PlugRepresenting", 8130), ("Training", 8150), ("Pyrotechnic", 9000),
     ("PyrotechnicDelay", 9010), ("Electrooptical", 9100), ("Electromechanical", 9110),
     ("ElectromechanicalNose", 9120), ("Strikerless", 9200), ("StrikerlessNoseImpact", 9210),
     ("StrikerlessCompressionIgnition", 9220), ("CompressionIgnition", 9300),
     ("CompressionIgnitionStrikerlessNoseImpact", 9310), ("Percussion", 9400),
     ("PercussionInstantaneous", 9410), ("Electronic", 9500), ("ElectronicInternallyMounted", 9510),
     ("ElectronicRangeSetting", 9520), ("ElectronicProgrammed", 9530), ("Mechanical", 9600),
     ("MechanicalNose", 9610), ("MechanicalTail", 9620)]⟩),
  (ActionRequestActionID.spec, ⟨4, 0, [
     ("Other", 0), ("LocalStorageOfTherRequestedInformation", 1), ("InformSMofEventRanOutOfAmmunition", 2),
     ("InformSMofEventKilledInAction", 3), ("InformSMofEventDamage", 4),
     ("InformSMofEventMobilityDisabled", 5), ("InformSMofEventFiredDisabled", 6),
     ("InformSMofEventRanOutOfFuel", 7), ("RecallCheckpointData", 8), ("RecallInitialParameters", 9),
     ("InitiateTetherLead", 10), ("InitiateTetherFollow", 11), ("Unthether", 12),
     ("InitiateServiceStationResupply", 13), ("InitiateTailgateResupply", 14), ("InitiateHitchLead", 15),
     ("InitiateHitchFollow", 16), ("Unhitch", 17), ("Mount", 18), ("Dismount", 19), ("StartDRC", 20),
     ("StopDRC", 21), ("DataQuery", 22), ("StatusRequest", 23), ("SendObjectStateData", 24),
     ("Reconstitute", 25), ("LockSiteConfiguration", 26), ("UnlockSiteConfiguration", 27),
     ("UpdateSiteConfiguration", 28), ("QuerySiteConfiguration", 29), ("TetheringInformation", 30),
     ("MountIntent", 31), ("AcceptSubscription", 33), ("Unsubscribe", 34), ("TeleportEntity", 35),
     ("ChangeAggregateState", 36), ("RequestStartPDU", 37), ("WakeupGetReadyForInitialization", 38),
     ("InitializeInternalParameters", 39), ("SendPlanData", 40), ("SynchronizeInternalClocks", 41),
     ("Run", 42), ("SaveInternalParameters", 43), ("SimulateMalfunction", 44), ("JoinExercise", 45),
     ("ResignExercise", 46), ("TimeAdvance", 47), ("TACCSFLOSRequestType1", 100),
     ("TACCSFLOSRequestType2", 101), ("AirmountMountRequest", 4303), ("AirmountDismountRequest", 4304),
     ("AirmountInformationRequest", 4305)]⟩),
  (ElectromagneticEmissionStateUpdateIndicator.spec, .numbered 1 [
     "HeartbeatUpdate", "ChangedDataUpdate"]),
  (ElectromagneticEmissionBeamFunction.spec, ⟨1, 0, [
     ("Other", 0), ("Search", 1), ("HeightFinding", 2), ("Acquisition", 3), ("Tracking", 4),
     ("Acquisitionandtracking", 5), ("Commandguidance", 6), ("Illumination", 7), ("Ranging", 8),
     ("Missilebeacon", 9), ("MissileFusing", 10), ("Activeradarmissileseeker", 11), ("Jamming", 12),
     ("IFF", 13), ("NavigationWeather", 14), ("Meteorological", 15), ("Datatransmission", 16),
     ("Navigationaldirectionalbeacon", 17), ("TimeSharedSearch", 20), ("TimeSharedAcquisition", 21),
     ("TimeSharedTrack", 22), ("TimeSharedCommandGuidance", 23), ("TimeSharedIllumination", 24),
     ("TimeSharedJamming", 25)]⟩),
  (HighDensityTrackJam.spec, .numbered 1 [
     "NotSelected", "Selected"]),
  (IFFSystemType.spec, .numbered 2 [
     "NotUsed", "MarkXXIIATCRBSTransponder", "MarkXXIIATCRBSInterrogator", "SovietTransponder",
     "SovietInterrogator", "RRBTransponder", "MarkXIIAInterrogator", "Mode5Interrogator",
     "ModeSInterrogator", "MarkXIIATransponder", "Mode5Transponder", "ModeSTransponder",
     "MarkXIIACombinedInterrogatorTransponder", "MarkXIICombinedInterrogatorTransponder",
     "TCASACASTransceiver"]),
  (IFFSystemName.spec, .numbered 2 [
     "NotUsed", "GenericMarkX", "GenericMarkXII", "GenericATCRBS", "GenericSoviet", "GenericModeS",
     "GenericMarkXXIIATCRBS", "GenericMarkXXIIATCRBSModeS", "ARI5954", "ARI5983", "GenericRRB",
     "GenericMarkXIIA", "GenericMode5", "GenericMarkXIIACombinedInterrogatorTransponder",
     "GenericMarkXIICombinedInterrogatorTransponder", "GenericTCASIACASITransceiver",
     "GenericTCASIIACASIITransceiver", "GenericMarkXA", "GenericMarkXSIF"]),
  (IFFSystemMode.spec, .numbered 1 [
     "NoStatement", "Off", "Standby", "Normal", "Emergency", "LoworLowSensitivity"]),
  (IFFLayerSpecificInformation.spec, .numbered 1 [
     "NoLayerSpecificInformationIsPresent"]),
  (IFFAlternateMode4ChallengeReply.spec, .numbered 1 [
     "NoStatement", "Valid", "Invalid", "Noresponse", "UnabletoVerify"]),
  (IFFSystemType1OperationalParameter1.spec, .numbered 1 [
     "NoOperationalParameter1Data"]),
  (IFFSystemType1OperationalParameter2.spec, .numbered 1 [
     "NoOperationalParameter2Data"]),
  (SubcategoriesforLandCategory200Mammal.spec, ⟨1, 1, [
     ("SmallDog", 1), ("Chihuahua", 2), ("MediumDog", 10), ("AustralianCattleDog", 11), ("LargeDog", 20),
     ("GermanShepherd", 21), ("VeryLargeDog", 30), ("GiantTurkishKangal", 31), ("Sheep", 40), ("Goat", 41),
     ("Pig", 50), ("Cow", 60), ("Ox", 61), ("OxWithCart", 70), ("Horse", 80), ("Donkey", 81), ("Mule", 82),
     ("HorseWithRider", 90), ("HorseWithCargo", 91), ("DonkeyWithRider", 92), ("DonkeyWithCargo", 93),
     ("MuleWithRider", 94), ("MuleWithCargo", 95), ("Camel", 100), ("DromedaryCamel", 101),
     ("BactrianCamel", 102), ("DromedaryCamelWithRider", 110), ("DromedaryCamelWithCargo", 111), ("Rat", 200)]⟩),
  (SubcategoriesforLandCategory201Reptile.spec, ⟨1, 1, [
     ("NewZealandNorthernTuatara", 1), ("Monitor", 3), ("Gecko", 8), ("Iguana", 13), ("Chameleon", 17),
     ("NonVenomousSnake", 30), ("Boa", 31), ("Python", 35), ("Bullsnake", 39), ("Kingsnake", 43),
     ("VenomousSnake", 60), ("Rattlesnake", 61), ("Copperhead", 62), ("Cottonmouth", 63), ("Taipan", 64),
     ("Viper", 65), ("Cobra", 66), ("AustralianBrownSnake", 67), ("Tortoise", 90), ("Turtle", 100),
     ("AmericanAlligator", 120), ("Crocodile", 121), ("AustralianFreshwaterCrocodile", 122)]⟩),
  (SubcategoriesforLandCategory202Amphibian.spec, ⟨1, 1, [
     ("Frog", 1), ("Toad", 2), ("Salamander", 170), ("Caecilian", 230)]⟩),
  (SubcategoriesforLandCategory203Insect.spec, ⟨1, 1, [
     ("Beetle", 1), ("Mantis", 60), ("Cockroach", 70), ("ArmyAnt", 80), ("FireAnt", 81), ("Grasshopper", 90),
     ("Centipede", 100)]⟩),
  (SubcategoriesforLandCategory204Arachnid.spec, ⟨1, 1, [
     ("Spider", 1), ("Tick", 20), ("Scorpion", 30), ("Harvestmen", 40), ("Mite", 50)]⟩),
  (SubcategoriesforLandCategory205Mollusk.spec, ⟨1, 1, [
     ("Snail", 1), ("Slug", 50)]⟩),
  (SubcategoriesforLandCategory206Marsupial.spec, ⟨1, 1, [
     ("BrownFourEyedOpossum", 1), ("BushyTailedOpossum", 2), ("TatesShrewOpossum", 90),
     ("GreaterBilby", 100), ("TasmanianDevil", 110), ("BrushTailedRockWallaby", 150),
     ("EasternWallaroo", 160), ("RedKangaroo", 170), ("QueenslandKoala", 200),
     ("SouthernHairyNosedWombat", 205), ("BrushtailPossum", 210), ("SugarGlider", 211)]⟩),
  (SubcategoriesforAirCategory200Bird.spec, ⟨1, 1, [
     ("Penguin", 1), ("Seagull", 2), ("Pelican", 3), ("Albatross", 4), ("Swan", 5), ("Cormorant", 6),
     ("Heron", 7), ("Crane", 8), ("Osprey", 9), ("Loon", 10), ("Stork", 11), ("Flamingo", 12), ("Duck", 13),
     ("Ostrich", 20), ("Emu", 21), ("Chicken", 22), ("BlackBird", 30), ("Starling", 31), ("Budgerigar", 32),
     ("CanadianGoose", 40), ("Crow", 41), ("Eagle", 50), ("Vulture", 55), ("Falcon", 60), ("Hawk", 65),
     ("Owl", 70), ("Kite", 80)]⟩),
  (SubcategoriesforAirCategory201Insect.spec, ⟨1, 1, [
     ("Moth", 1), ("Butterfly", 2), ("Fly", 20), ("Mosquito", 30), ("Wasp", 40), ("Bee", 50), ("Beetle", 60),
     ("Dragonfly", 70), ("Locust", 80)]⟩),
  (SubcategoriesforAirCategory202Mammal.spec, ⟨1, 1, [
     ("Bat", 1), ("FlyingSquirrel", 10), ("GlidingPossum", 20)]⟩),
  (SubcategoriesforSubsurfaceCategory200Fish.spec, ⟨1, 1, [
     ("ForageFishSmallSchooling", 1), ("Herring", 2), ("Sardines", 3), ("Krill", 4), ("Squid", 5),
     ("MediumSchoolingFish", 30), ("Hake", 31), ("Cod", 32), ("Haddock", 33), ("Mackerel", 34),
     ("LargeSchoolingFish", 60), ("Tuna", 61), ("SmallShark", 90), ("DogfishShark", 91),
     ("MediumShark", 120), ("MakoShark", 121), ("HammerheadShark", 122), ("LargeShark", 150),
     ("GreatWhiteShark", 151), ("TigerShark", 152), ("BlueShark", 153), ("WhaleShark", 154), ("Skate", 180),
     ("Stingray", 181), ("Eel", 190), ("Marlin", 200), ("Swordfish", 201)]⟩),
  (SubcategoriesforSubsurfaceCategory201Mammal.spec, ⟨1, 1, [
     ("Whale", 1), ("BeakedWhale", 2), ("BelugaWhale", 3), ("BlueWhale", 4), ("BottlenoseWhale", 5),
     ("NorthernBottlenoseWhale", 6), ("SouthernBottlenoseWhale", 7), ("BowheadWhale", 8), ("BrydesWhale", 9),
     ("DwarfSpermWhale", 10), ("FinbackWhale", 11), ("GrayWhale", 12), ("HumpbackWhale", 13),
     ("LongFinnedPilotWhale", 14), ("MinkeWhale", 15), ("NorthernMinkeWhale", 16),
     ("SouthernMinkeWhale", 17), ("NarwhalWhale", 18), ("OrcaWhale", 19), ("PygmySpermWhale", 20),
     ("RightWhale", 21), ("NorthAtlanticRightWhale", 22), ("NorthPacificRightWhale", 23),
     ("SouthernRightWhale", 24), ("SeiWhale", 25), ("ShortFinnedPilotWhale", 26), ("SpermWhale", 27),
     ("Dolphin", 50), ("BottlenoseDolphin", 51), ("BottlenoseIndoPacificDolphin", 52),
     ("BottlenoseBurrunanDolphin", 53), ("AtlanticSpottedDolphin", 54), ("AustralianSnubfinDolphin", 55),
     ("ChileanBlackDolphin", 56), ("ChineseWhiteDolphin", 57), ("ClymeneDolphin", 58), ("Porpoise", 100),
     ("HarbourPorpoise", 101), ("CalifornianPorpoise", 102), ("DallsPorpoise", 103),
     ("BurmeistersPorpoise", 104), ("Seal", 120), ("BeardedSeal", 121), ("HarborSeal", 122),
     ("FurSeal", 123), ("WeddellSeal", 124), ("ElephantSeal", 125), ("SeaLion", 130),
     ("AustralianSeaLion", 131), ("CaliforniaSeaLion", 132), ("Walrus", 140), ("AtlanticWalrus", 141),
     ("PacificWalrus", 142), ("Otter", 150), ("SeaOtter", 151), ("Manatee", 160), ("FloridaManatee", 161),
     ("Dugongs", 162), ("PolarBear", 200)]⟩),
  (SubcategoriesforSubsurfaceCategory202Mollusk.spec, ⟨1, 1, [
     ("Snail", 1), ("Slug", 10), ("Octopus", 20), ("Squid", 30), ("Cuttlefish", 40), ("Clam", 50),
     ("Muscle", 60), ("Oyster", 70), ("Scallop", 80)]⟩),
  (SubcategoriesforSubsurfaceCategory203Crustacean.spec, ⟨1, 1, [
     ("Shrimp", 1), ("SnappingShrimp", 2), ("Crayfish", 10), ("Lobster", 20), ("Crab", 30)]⟩),
  (SubcategoriesforSubsurfaceCategory204Insect.spec, ⟨1, 1, [
     ("SeaSkater", 1), ("WaterBeetle", 2)]⟩),
  (AnimalLifeformGroupSizeRangeEnumerationforallDomains.spec, ⟨1, 201, [
     ("Numberofanimalsrangefrom201to249", 201), ("Numberofanimalsrangefrom250to299", 202),
     ("Numberofanimalsrangefrom300to399", 203), ("Numberofanimalsrangefrom400to499", 204),
     ("Numberofanimalsrangefrom500to999", 205), ("Numberofanimalsrangefrom1000to1499", 206),
     ("Numberofanimalsrangefrom1500to1999", 207), ("Numberofanimalsrangefrom2000to2999", 208),
     ("Numberofanimalsrangefrom3000to4999", 210), ("Numberofanimalsrangefrom5000to6999", 212),
     ("Numberofanimalsrangefrom7000to9999", 214), ("Numberofanimalsrangefrom10000to19999", 216),
     ("Numberofanimalsrangefrom20000to50000", 218), ("Numberofanimalsrangegreaterthan50000", 220)]⟩),
  (SpecificDimensionEnumerationsforLandAreaSize.spec, ⟨1, 222, [
     ("SmallArea", 222), ("SmallAreaDense", 223), ("MediumArea", 224), ("MediumAreaDense", 225),
     ("LargeArea", 226), ("LargeAreaDense", 227)]⟩),
  (SpecificDimensionEnumerationsforAirAreaSize.spec, ⟨1, 222, [
     ("SmallFlockSwarm", 222), ("SmallFlockSwarmDense", 223), ("MediumFlockSwarm", 224),
     ("MediumFlockSwarmDense", 225), ("LargeFlockSwarm", 226), ("LargeFlockSwarmDense", 227)]⟩),
  (AddSpecificDimensionEnumerationsforSubsurfaceAreaSize.spec, ⟨1, 222, [
     ("SmallSchool", 222), ("SmallSchoolDense", 223), ("MediumSchool", 224), ("MediumSchoolDense", 225),
     ("LargeSchool", 226), ("LargeSchoolDense", 227)]⟩),
  (AddVariantsforLandCategory200Mammal.spec, ⟨1, 1, [
     ("AnimalwithaMaleChildRider", 1), ("AnimalwithaFemaleChildRider", 2), ("AnimalwithanAdultMaleRider", 3),
     ("AnimalwithanAdultFemaleRider", 4), ("AnimalHarnessedtoaPlow", 5), ("AnimalHarnessedtoaCart", 6)]⟩),
  (VariantsforLandCategoriesReptilesAmphibiansInsectsandArachnids.spec, ⟨1, 1, [
     ("Black", 1), ("Green", 2), ("Spotted", 3), ("Red", 4), ("Brown", 5)]⟩),
  (VariantsforAirCategory200Bird.spec, ⟨1, 1, [
     ("BirdwithFish", 1), ("VPatternFlockShape", 2), ("CircularFlockShape", 3), ("IrregularFlockShape", 4)]⟩),
  (AddVariantsforAirCategory201Insect.spec, ⟨1, 1, [
     ("VerticalShapedInsectSwarm", 1), ("CircularShapedInsectSwarm", 2), ("IrregularShapedInsectSwarm", 3)]⟩),
  (AddVariantsforSubsurfaceCategoriesFishMolluskCrustaceanandInsect.spec, ⟨1, 1, [
     ("Black", 1), ("Green", 2), ("Spotted", 3), ("Red", 4), ("Brown", 5), ("Blue", 6), ("Silver", 7),
     ("Grey", 8)]⟩)]

/-- The standard's tables for enumerations that occur in no message (2). -/
def restSisoTables2 : List (EnumSpec × SisoTable) := [
  (VariantsforSubsurfaceCategory201Mammal.spec, ⟨1, 1, [
     ("Singing", 1), ("Spouting", 2)]⟩),
  (UAActiveEmissionParameterIndex.spec, .numbered 2 [
     "Other"]),
  (UAScanPattern.spec, .numbered 2 [
     "Scanpatternnotused", "Conical", "Helical", "Raster", "Sectorsearch", "Continuoussearch"]),
  (UAAdditionalPassiveActivityParameterIndex.spec, .numbered 2 [
     "Other"]),
  (TransmitterMajorModulation.spec, .numbered 2 [
     "NoStatement", "Amplitude", "AmplitudeandAngle", "Angle", "Combination", "Pulse", "Unmodulated",
     "CarrierPhaseShiftModulation", "SATCOM"]),
  (TransmitterDetailAmplitudeModulation.spec, .numbered 2 [
     "Other", "AFSK", "AM", "CW", "DSB", "ISB", "LSB", "SSBFull", "SSBReduc", "USB", "VSB"]),
  (TransmitterDetailAmplitudeandAngleModulation.spec, .numbered 2 [
     "Other", "AmplitudeandAngle"]),
  (TransmitterDetailAngleModulation.spec, .numbered 2 [
     "Other", "FM", "FSK", "PM", "MSK"]),
  (TransmitterDetailCombinationModulation.spec, .numbered 2 [
     "Other", "AmplitudeAnglePulse"]),
  (TransmitterDetailPulseModulation.spec, .numbered 2 [
     "Other", "Pulse", "XBandTACANPulse", "YBandTACANPulse"]),
  (TransmitterDetailUnmodulatedModulation.spec, .numbered 2 [
     "Other", "ContinuousWaveemissionofanunmodulatedcarrier"]),
  (TransmitterDetailCarrierPhaseShiftModulation.spec, .numbered 2 [
     "Other"]),
  (TransmitterModulationTypeSystem.spec, .numbered 2 [
     "Other", "GenericRadioorSimpleIntercom", "HAVEQUICKI", "HAVEQUICKII", "SATURN", "SINCGARS",
     "CCTTSINCGARS", "EPLRS", "JTIDSMIDS", "Link11", "Link11B", "LBandSATCOM", "EnhancedSINCGARS7_3",
     "NavigationAid"]),
  (TransmitterAntennaPatternReferenceSystem.spec, ⟨1, 1, [
     ("WorldCoordinates", 1), ("EntityCoordinates", 2)]⟩),
  (CCTTSINCGARSStartofMessage.spec, .numbered 1 [
     "Notstartofmessage", "StartofMessage"]),
  (CCTTSINCGARSClearChannel.spec, .numbered 1 [
     "Notclearchannel", "Clearchannel"]),
  (TimeSlotAllocationLevel.spec, .numbered 1 [
     "LowFidelityLevel0", "LowFidelityLevel1", "MediumFidelityLevel2", "MediumFidelityLevel3",
     "HighFidelityLevel4"]),
  (JTIDSMIDSModulationParametersTransmittingTerminalPrimaryMode.spec, ⟨1, 1, [
     ("NTR", 1), ("JTIDSUnitParticipant", 2)]⟩),
  (JTIDSMIDSModulationParametersTransmittingTerminalSecondaryMode.spec, .numbered 1 [
     "None", "NetPositionReference", "PrimaryNavigationController", "SecondaryNavigationController"]),
  (JTIDSMIDSModulationParametersSynchronizationState.spec, .numbered 1 [
     "NoStatement", "InitialNetEntry", "CoarseSynchronization", "FineSynchronization",
     "SynchronizationMaintenance"]),
  (MessageTypeIdentifier.spec, .numbered 1 [
     "JTIDSHeaderMessages", "RTTAB", "RTTReply", "JTIDSVoiceCVSD", "JTIDSVoiceLPC10", "JTIDSVoiceLPC12",
     "JTIDSLET", "VMF"]),
  (SignalUserProtocolIdentificationNumber.spec, ⟨4, 1, [
     ("CCSIL", 1), ("A2ATDSINCGARSERF", 5), ("A2ATDCAC2", 6), ("BattleCommand", 20),
     ("AFIWCIADSTrackReport", 30), ("AFIWCIADSCommC2Message", 31),
     ("AFIWCIADSGroundControlInterceptorCommand", 32), ("AFIWCVoiceTextMessage", 35),
     ("ModSAFTextRadio", 177), ("CCTTSINCGARSERFLOCKOUT", 200), ("CCTTSINCGARSERFHOPSET", 201),
     ("CCTTSINCGARSOTAR", 202), ("CCTTSINCGARSDATA", 203), ("ModSAFFWAForwardAirController", 546),
     ("ModSAFThreatADAC3", 832), ("F16MTCAFAPDProtocol", 1000), ("F16MTCIDLProtocol", 1100),
     ("AutomaticIdentificationSystem", 1371), ("ModSAFArtilleryFireControl", 4570), ("AGTS", 5361),
     ("GC3", 6000), ("WNCPdata", 6010), ("Spokentextmessage", 6020), ("LongbowIDMmessage", 6661),
     ("ComancheIDMmessage", 6662), ("LongbowAirborneTACFIREMessage", 6663),
     ("LongbowGroundTACFIREMessage", 6664), ("LongbowAFAPDMessage", 6665), ("LongbowERFmessage", 6666),
     ("VMFIDM", 7000), ("CSARRadioSurvivorMessage", 7010), ("CSARRadioInterrogatorMessage", 7020),
     ("ImageFileTransferMessage", 7030), ("GeotagDataMessage", 7040), ("TacticalVideoRegenerationData", 7050)]⟩),
  (IntercomControlCommunicationsType.spec, .numbered 1 [
     "Reserved", "ConnectionFDX", "ConnectionHDXDestinationisReceiveOnly",
     "ConnectionHDXDestinationisTransmitOnly", "ConnectionHDX"]),
  (IntercomControlDestinationLineStateCommand.spec, .numbered 1 [
     "None", "SetLineStateTransmitting", "SetLineStateNotTransmitting", "ReturntoLocalLineStateControl"]),
  (IntercomControlRecordType.spec, ⟨2, 1, [
     ("SpecificDestinationrecord", 1), ("GroupDestinationrecord", 2), ("GroupAssignmentrecord", 3)]⟩),
  (CollisionType.spec, ⟨1, 0, [
     ("Inelastic", 0), ("Elastic", 1), ("BoomNozzleHasClearedTheReceiversRefuelingReceptacle", 55)]⟩),
  (MinefieldSensorTypesOptical.spec, .numbered 2 [
     "UnaidedEyeActivelySearching", "UnaidedEyeNotActivelySearching", "Binoculars", "ImageIntensifier",
     "HMMWVoccupantActivelySearching", "HMMWVoccupantNotActivelySearching", "TruckoccupantActivelySearching",
     "TruckoccupantNotActivelySearching", "TrackedvehicleoccupantclosedhatchActivelySearching",
     "TrackedvehicleoccupantclosedhatchNotActivelySearching",
     "TrackedvehicleoccupantopenhatchActivelySearching",
     "TrackedvehicleoccupantopenhatchNotActivelySearching"]),
  (MinefieldSensorTypesFLIR.spec, .numbered 2 [
     "Generic35", "Generic812", "ASTAMIDSI", "ASTAMIDSII", "GSTAMIDS35", "GSTAMIDS812", "HSTAMIDS35",
     "HSTAMIDS812", "COBRA35", "COBRA812"]),
  (MinefieldSensorTypesRADAR.spec, .numbered 2 [
     "Generic", "GenericGPR", "GSTAMIDSI", "GSTAMIDSII", "HSTAMIDSI", "HSTAMIDSII"]),
  (MinefieldSensorTypesMagnetic.spec, .numbered 2 [
     "Generic", "ANPSS11", "ANPSS12", "GSTAMIDS"]),
  (MinefieldSensorTypesLaser.spec, .numbered 2 [
     "Generic", "ASTAMIDS"]),
  (MinefieldSensorTypesSONAR.spec, .numbered 2 [
     "Generic"]),
  (MinefieldSensorTypesPhysical.spec, .numbered 2 [
     "GenericProbe", "ProbeMetalContent", "ProbeNoMetalContent"]),
  (MinefieldSensorTypesMultispectral.spec, .numbered 2 [
     "Generic"]),
  (AggregateStateAggregateKind.spec, .numbered 1 [
     "Other", "MilitaryHierarchy", "CommonType", "CommonMission", "SimilarCapabilities", "CommonLocation"]),
  (AggregateStateSubcategory.spec, .numbered 1 [
     "Other", "CavalryTroop", "Armor", "Infantry", "MechanizedInfantry", "Cavalry", "ArmoredCavalry",
     "Artillery", "SelfPropelledArtillery", "CloseAirSupport", "Engineer", "AirDefenseArtillery", "AntiTank",
     "ArmyAviationFixedwing", "ArmyAviationRotarywing", "ArmyAttackHelicopter", "AirCavalry",
     "ArmorHeavyTaskForce", "MotorizedRifle", "MechanizedHeavyTaskForce", "CommandPost", "CEWI", "Tankonly"]),
  (AggregateStateSpecific.spec, .numbered 1 [
     "Noheadquarters", "Yesaggregateunitcontainsaheadquarters"]),
  (IsPartOfNature.spec, .numbered 2 [
     "Other", "Hostfireablemunition", "Munitioncarriedascargo", "Fuelcarriedascargo",
     "Gunmountattachedtohost", "Computergeneratedforcescarriedascargo", "Vehiclecarriedascargo",
     "Emittermountedonhost", "Mobilecommandandcontrolentitycarriedaboardhost",
     "Entitystationedatpositionwithrespecttohost", "Teammemberinformationwith"]),
  (IsPartOfPosition.spec, .numbered 2 [
     "Other", "Ontopof", "Insideof"]),
  (IsPartOfStationName.spec, .numbered 2 [
     "Other", "AircraftWingstation", "ShipsForwardGunmountStarboard", "ShipsForwardGunmountPort",
     "ShipsForwardGunmountCenterline", "ShipsAftGunmountStarboard", "ShipsAftGunmountPort",
     "ShipsAftGunmountCenterline", "ForwardTorpedoTube", "AftTorpedoTube", "BombBay", "CargoBay", "TruckBed",
     "TrailerBed", "WellDeck", "OnStationRangeandBearing", "OnStationxyz", "AirtoAirRefuelingBoom",
     "AerialRefuelingReceptacle", "PortSideRefuelingDrogue", "StarboardSideRefuelingDrogue",
     "CenterRefuelingDrogue", "AirRefuelingProbe"]),
  (IsGroupOfRestStatus.spec, .numbered 1 [
     "Notrested", "Hassleptanaverageof1hourperdayinthelastthreedays_",
     "Hassleptanaverageof2hoursperdayinthelastthreedays_",
     "Hassleptanaverageof3hoursperdayinthelastthreedays_",
     "Hassleptanaverageof4hoursperdayinthelastthreedays_",
     "Hassleptanaverageof5hoursperdayinthelastthreedays_",
     "Hassleptanaverageof6hoursperdayinthelastthreedays_",
     "Hassleptanaverageof7hoursperdayinthelastthreedays_", "Fullyrested"]),
  (ObjectKind.spec, .numbered 1 [
     "Other", "Obstacle", "PreparedPosition", "CulturalFeature", "Passageway", "TacticalSmoke",
     "ObstacleMarker", "ObstacleBreach", "EnvironmentalObject"]),
  (EnvironmentalProcessModelType.spec, .numbered 1 [
     "NoStatement"]),
  (EnvironmentalProcessRecordType.spec, ⟨4, 256, [
     ("COMBICState", 256), ("FlareState", 259), ("BoundingSphereRecord", 65536),
     ("UniformGeometryRecord", 327680), ("PointRecord1", 655360), ("LineRecord1", 786432),
     ("SphereRecord1", 851968), ("EllipsoidRecord1", 1048576), ("ConeRecord1", 3145728),
     ("RectangularVolumeRecord1", 5242880), ("RectangularVolumeRecord3", 83886080),
     ("PointRecord2", 167772160), ("LineRecord2", 201326592), ("SphereRecord2", 218103808),
     ("EllipsoidRecord2", 268435456), ("ConeRecord2", 805306368), ("RectangularVolumeRecord2", 1342177280),
     ("GaussianPlumeRecord", 1610612736), ("GaussianPuffRecord", 1879048192)]⟩),
  (SignalEncodingClass.spec, .numbered 1 [
     "Encodedaudio", "RawBinaryData", "ApplicationSpecificData", "Databaseindex"]),
  (SignalEncodingType.spec, ⟨1, 1, [
     ("_8bitmulaw", 1), ("CVSD", 2), ("ADPCM", 3), ("_16bitLinearPCM2sComplementBigEndian", 4),
     ("_8bitLinearPCMUnsigned", 5), ("VQ", 6), ("GSMFullRate", 8), ("GSMHalfRate", 9),
     ("SpeexNarrowBand", 10), ("Opus", 11), ("LPC10", 12), ("_16bitLinearPCM2sComplementLittleEndian", 100)]⟩),
  (RepairGroups.spec, .numbered 1 [
     "GeneralRepairCodes", "DriveTrain", "HullAirframeBody", "InterfacesWithEnvironment", "Weapons",
     "FuelSystems", "Electronics", "LifeSupportSystems", "HydraulicSystemsAndActuators", "AuxiliaryCraft"]),
  (EnvironmentRecordTypeGroups.spec, .numbered 1 [
     "State", "Geometry"]),
  (PlatformAirCivilianUltralightNonrigidWingAircraftSubcategories.spec, ⟨1, 1, [
     ("HangGliderUnpowered", 1), ("HangGliderPowered", 2), ("ParagliderUnpowered", 3),
     ("ParagliderPowered", 4), ("PoweredParachute", 5)]⟩),
  (PlatformAirCivilianUltralightRigidWingAircraftSubcategories.spec, ⟨1, 1, [
     ("Weightshiftcontrol", 1), ("Controlsurfacecontrol", 2)]⟩),
  (PlatformAirCivilianGliderSubcategories.spec, ⟨1, 1, [
     ("SailPlane", 1), ("MotorGlider", 2)]⟩),
  (PlatformAirCivilianFixedWingAircraftSubcategories.spec, ⟨1, 11, [
     ("SinglePistonEngine", 11), ("TwinPistonEngine", 12), ("SingleEngineTurboprop", 21),
     ("TwinEngineTurboprop", 22), ("FourEngineTurboprop", 24), ("TwinJet", 32), ("TriJet", 33),
     ("FourEngineJet", 34)]⟩),
  (PlatformAirCivilianHelicopterSubcategories.spec, ⟨1, 11, [
     ("SingleRotorPistonEngine", 11), ("SingleRotorTurboshaftEngineConventionalTailRotor", 12),
     ("SingleRotorTurboshaftEngineShroudedTailRotor", 13), ("SingleRotorTurboshaftEngineNoTailRotor", 14),
     ("TandemRotor", 21), ("CoaxialRotor", 22), ("IntermeshingRotor", 23)]⟩),
  (PlatformAirCivilianLighterthanAirBalloonSubcategories.spec, ⟨1, 1, [
     ("Gasfilledfree", 1), ("Gasfilledtethered", 2), ("HotAir", 3), ("RoziereBalloon", 4), ("Helikite", 5)]⟩),
  (PlatformAirCivilianLighterthanAirAirshipSubcategories.spec, ⟨1, 1, [
     ("Nonrigid", 1), ("Semirigid", 2), ("Rigid", 3), ("Hybrid", 4)]⟩),
  (APAParameterIndexAPAStatus.spec, .numbered 1 [
     "DeselectedOff", "APAValueChangeOnly", "StateChange", "RecordActivation"]),
  (SeparationVPReasonforSeparation.spec, .numbered 1 [
     "NoStatement", "AttachedPartSeparation", "SubmunitionSeparation"]),
  (SeparationVPPreEntityIndicator.spec, .numbered 1 [
     "NoStatement", "EntityIDExistedPriortoSeparationwithoutEntityStatePDU",
     "EntityIDExistedPriortoSeparationwithEntityStatePDUIssued", "EntityInitiallyCreatedAtSeparationEvent"]),
  (IOEffectsRecordIOStatus.spec, .numbered 1 [
     "NoStatement", "EffectonSender", "EffectonReceiver", "EffectonSenderandReceiver", "EffectonMessage",
     "EffectonSenderandMessage", "EffectonReceiverandMessage", "EffectonSenderReceiverandMessage"]),
  (IOEffectsRecordIOLinkType.spec, .numbered 1 [
     "NoStatement", "LogicalLink", "PhysicalNode", "PhysicalLink"])]

/-- The standard's tables for enumerations that occur in no message (3). -/
def restSisoTables3 : List (EnumSpec × SisoTable) := [
  (IOEffectsRecordIOEffect.spec, ⟨1, 0, [
     ("NoStatement", 0), ("Denial", 1), ("Degradation", 2), ("Disruption", 3), ("TerminateEffect", 255)]⟩),
  (IOEffectsRecordIOProcess.spec, .numbered 1 [
     "NoStatement"]),
  (IOCommsNodeRecordCommsNodeType.spec, .numbered 1 [
     "NoStatement", "SenderNodeID", "ReceiverNodeID", "SenderReceiverNodeID"]),
  (DRParametersType.spec, .numbered 1 [
     "None", "LocalEulerAngles", "WorldOrientationQuaternion"]),
  (HighFidelityHAVEQUICKTODTransmitIndicator.spec, .numbered 1 [
     "NoTODIsBeingTransmitted", "TODTransmissioninProgress"]),
  (NETIDRecordMode.spec, ⟨1, 1, [
     ("AHAVEQUICKIorHAVEQUICKIICOMBAT", 1), ("BSATURNCOMBAT", 2), ("TTRAINING", 3)]⟩),
  (NETIDRecordFrequencyTable.spec, .numbered 1 [
     "HQIOperations", "HQIINATOEuropeAreaOperations", "HQIINonNATOEuropeAreaOperations", "SATURNOperations"]),
  (ExplosiveMaterialGroups.spec, .numbered 1 [
     "General", "LiquidAviationMissileFuels", "LiquidOtherFuels", "LiquidExplosiveMaterial", "Solid",
     "Gaseous", "DustMaterial"]),
  (ExplosiveMaterialCategories.spec, ⟨2, 0, [
     ("NoStatement", 0), ("AVGAS", 10), ("JetFuel", 11), ("JP4", 12), ("JP5", 13), ("JP7", 14), ("JP8", 15),
     ("JP10MissileFuel", 16), ("JPTS", 17), ("JetA", 18), ("JetA1", 19), ("JetB", 20), ("JetBiofuel", 21),
     ("GasolinePetrolUnspecifiedOctane", 151), ("DieselFuelUnspecifiedGrade", 152), ("Ethanol", 153),
     ("E85Ethanol", 154), ("FuelOil", 155), ("Kerosene", 156), ("CrudeOil", 157), ("LightCrudeOil", 158),
     ("LiquidPetroleumGas", 159), ("RP1RocketFuel", 160), ("LH2RocketFuel", 161), ("LOXRocketFuel", 162),
     ("Alcohol", 164), ("HydrogenLiquid", 166), ("Nitroglycerin", 301), ("ANFO", 302), ("Dynamite", 451),
     ("TNT", 452), ("RDX", 453), ("PETN", 454), ("HMX", 455), ("C4", 456), ("CompositionC4", 457),
     ("NaturalGas", 601), ("Butane", 602), ("Propane", 603), ("Helium", 604), ("HydrogenGaseous", 605),
     ("DustUnspecifiedType", 801), ("GrainDust", 802), ("FlourDust", 803), ("SugarDust", 804)]⟩),
  (DEPrecisionAimpointBeamSpotType.spec, .numbered 1 [
     "Other", "Gaussian", "TopHat"]),
  (BeamStatusBeamState.spec, .numbered 1 [
     "Active", "Deactivated"]),
  (EntityAssociationAssociationStatus.spec, .numbered 1 [
     "NotSpecified", "PhysicalAssociationGeneralObject1", "FunctionalAssociationGeneral",
     "AssociationBroken", "PhysicalAssociationObject2", "FunctionalAssociationObject1",
     "FunctionalAssociationObject2"]),
  (EntityVPRecordChangeIndicator.spec, .numbered 1 [
     "InitialReportorNoChangeSinceLastIssuance", "ChangeSinceLastIssuance"]),
  (EntityAssociationGroupMemberType.spec, .numbered 1 [
     "NotPartofaGroup", "GroupLeader", "GroupMember", "FormationLeader", "FormationMember", "ConvoyLeader",
     "ConvoyMember"]),
  (PhysicalAssociationTypeGroups.spec, .numbered 1 [
     "NotSpecified", "TowedMountedSlingLoad", "Restrained", "Mission", "OtherConnections"]),
  (EntityAssociationPhysicalAssociationType.spec, ⟨1, 0, [
     ("NotSpecified", 0), ("TowedinAir", 1), ("TowedonLand", 2), ("TowedonWaterSurface", 3),
     ("TowedUnderwater", 4), ("MountedAttached", 5), ("MountedUnattachedandUnsupported", 6),
     ("MountedUnattachedandSupported", 7), ("TowedinAirCenterHook", 8), ("TowedinAirForwardHook", 9),
     ("TowedinAirAftHook", 10), ("TowedinAirTandemHookForeAndAft", 11),
     ("TowedinAirMismanagedTandemForeAndCenter", 12), ("TowedinAirMismanagedTandemCenterAndAft", 13),
     ("TowedinAirAllHooks", 14), ("Hoisted", 15), ("RestrainedtoaLifeform", 30),
     ("RestrainedtoaPlatform", 31), ("RestrainedtoanObject", 32), ("RefuelingOperation", 61),
     ("SearchandRescueBasket", 62), ("SearchandRescueRescueCollar", 63),
     ("EngagementObject2isBeingEngaged", 64), ("ReturnToBaseObject2istheDestinationObject", 65),
     ("LinebetweenCommunicationTowers", 90), ("LineBetweenPowerTowers", 91), ("Indoors", 92),
     ("TopSurface", 93)]⟩),
  (EntityAssociationPhysicalConnectionType.spec, .numbered 1 [
     "NotSpecified", "AttachedDirectlytoSurface", "CableWire", "Rope", "Chain", "PowerLine", "TelephoneLine",
     "CableLine", "RefuelingDrogue", "RefuelingBoom", "Handcuffs", "InContactWith", "FastRope"]),
  (SensorRecordSensorTypeOtherActiveSensors.spec, .numbered 1 [
     "Undefined"]),
  (SensorRecordSensorTypePassiveSensors.spec, ⟨2, 60000, [
     ("ALR400", 60000), ("ANAAR47", 60001), ("ANAAR50", 60002), ("ANAAR54", 60003), ("ANAAR56", 60004),
     ("ANAAR57", 60005), ("ANALQ142", 60006), ("ANALR45", 60007), ("ANALR46", 60008), ("ANALR56", 60009),
     ("ANALR59", 60010), ("ANALR64", 60011), ("ANALR66", 60012), ("ANALR67", 60013), ("ANALR69", 60014),
     ("ANALR73", 60015), ("ANALR76", 60016), ("ANALR91", 60017), ("ANALR93", 60018), ("ANALR94", 60019),
     ("ANALR801", 60020), ("ANAPR39", 60021), ("ANAYR2", 60022), ("ARI18223", 60023), ("BOW21", 60024),
     ("ChaparralIRST", 60025), ("FlankerIRST", 60026), ("FoxbatIRST", 60027), ("FoxhoundIRST", 60028),
     ("FulcrumIRST", 60029), ("HavocIRST", 60030), ("HindIRST", 60031), ("KJ200", 60032), ("KJ8602", 60033),
     ("L150Pastel", 60034), ("Serval", 60035), ("Sherloc", 60036), ("Sherlocvf", 60037), ("Sirena2", 60038),
     ("Sirena3", 60039), ("Sirena3M", 60040), ("SkyGuardian", 60041), ("SPO15", 60042), ("SPS200", 60043),
     ("Tarang", 60044), ("ANAAQ29A", 60045), ("_101KSUMAW", 60046), ("Abrams2GFFLIR", 60047),
     ("Abrams3GFFLIR", 60048), ("ANAAQ13LANTIRNFLIR", 60049), ("AN_ALR74", 60050), ("AN_ALR90", 60051),
     ("ANAPR48", 60052), ("ELT156X", 60053), ("_101KSV", 60054), ("TP23ML", 60055), ("GenericFLIR", 60056),
     ("GenericIRST", 60057), ("GenericMAWS", 60058), ("GenericRWR", 60059), ("L136Mak", 60060),
     ("LeonardoSASSIRST", 60061), ("OSFIRST", 60062), ("PirateIRST", 60063), ("RECCELITE", 60064),
     ("ThalesNederlandSiriusIRST", 60065), ("TornadoRWR", 60066), ("TOES521FLIR", 60067),
     ("SafranVampir_MB", 60068)]⟩),
  (MunitionExpendableStatus.spec, .numbered 1 [
     "Other", "Ready", "Inventory"]),
  (FuelMeasurementUnits.spec, .numbered 1 [
     "Other", "Liter", "Kilogram"]),
  (FuelLocation.spec, .numbered 1 [
     "Other"]),
  (EntityAssociationAssociationType.spec, .numbered 1 [
     "Other", "TargetEntity", "TargetLocation", "HomeBaseLocation", "CAPPointLocation", "FlightLeader",
     "FlightMember", "IPPoint", "RendezvousPoint", "OnStationLocation", "LandingZoneLocation", "DownedPilot",
     "TankerEntitythatIsCurrentlyRefuelingtheTransferredEntity",
     "TankerEntitytheTransferredEntityIsHeadedtowardstoRefuel", "EntityHeadedtowardstoJoinUpWith"]),
  (SensorOnOffStatus.spec, .numbered 1 [
     "Off", "On"]),
  (OwnershipStatus.spec, .numbered 1 [
     "Other", "NewOwner", "OwnershipQueryResponse", "OwnershipConflict",
     "LocalEntityCancelledAutoResolveConflict", "LocalEntityCancelledManualResolveConflict",
     "LocalEntityCancelledRemoveEntityTCRReceived"]),
  (RecordREventType.spec, .numbered 1 [
     "Other"]),
  (UAPropulsionPlantConfigurationConfiguration.spec, ⟨1, 0, [
     ("Other", 0), ("DieselElectric", 1), ("Diesel", 2), ("Battery", 3), ("TurbineReduction", 4),
     ("Steam", 6), ("GasTurbine", 7)]⟩),
  (TransponderInterrogatorIndicator.spec, .numbered 1 [
     "Transponder", "Interrogator"]),
  (IFFSimulationMode.spec, .numbered 1 [
     "Regeneration", "Interactive"]),
  (IFFApplicableModes.spec, .numbered 1 [
     "NoApplicableModesData", "AllModes"]),
  (ModeCAltitudeIndicator.spec, .numbered 1 [
     "PositiveAltitudeAboveMSL", "NegativeAltitudeBelowMSLUseAlternateModeCAltitude"]),
  (TCASACASBasicAdvancedIndicator.spec, .numbered 1 [
     "Basic", "Advanced"]),
  (TCASACASIndicator.spec, .numbered 1 [
     "TCAS", "ACAS"]),
  (TCASACASSoftwareVersion.spec, .numbered 1 [
     "NoStatement", "_6_0_2", "_7_0"]),
  (TCASACASType.spec, .numbered 1 [
     "NoStatement", "ACASI", "ACASII"]),
  (TCASIIIType.spec, .numbered 1 [
     "TCASI", "TCASII"]),
  (Mode5IFFMission.spec, .numbered 1 [
     "NoStatement", "SurveillanceSHORAD", "SHORADassociatedwithaWeaponsSystem", "WeaponSystem",
     "AirborneandSurfaceSurveillancePlatforms", "AirborneandSurfaceWeaponsPlatforms", "GroundtoGround"]),
  (ModeSInterrogatorStatusTransmitState.spec, .numbered 1 [
     "NoStatement", "RollCall", "AllCall", "LockoutOverride", "TemporaryLockout", "IntermittentLockout"]),
  (ModeSInterrogatorIdentifierICType.spec, .numbered 1 [
     "II", "SI"]),
  (ISLSAntennaType.spec, .numbered 1 [
     "NoStatement", "MonopulseAntenna"]),
  (Mode5Reply.spec, .numbered 1 [
     "NoResponse", "Valid", "Invalid", "UnabletoVerify"]),
  (AntennaSelection.spec, .numbered 1 [
     "NoStatement", "Top", "Bottom", "Diversity"]),
  (Mode5SquitterType.spec, .numbered 1 [
     "NotCapable", "Short", "Extended"]),
  (Level2SquitterStatus.spec, .numbered 1 [
     "Disabled", "Enabled"]),
  (ModeSSquitterType.spec, .numbered 1 [
     "NotCapable", "Acquisition", "Extended", "Short"]),
  (ModeSSquitterRecordSource.spec, .numbered 1 [
     "Layer4IFFDataRecords", "Layer5GICBIFFDataRecords"]),
  (AircraftPresentDomain.spec, .numbered 1 [
     "NoStatement", "Airborne", "OnGroundSurface"]),
  (AircraftIdentificationType.spec, .numbered 1 [
     "NoStatement", "FlightNumber", "TailNumber"]),
  (CapabilityReport.spec, ⟨1, 0, [
     ("NoCommunicationsCapability", 0),
     ("SignifiesatLeastCommAandCommBCapabilityandAbilitytoSetCACode7andontheGround", 4),
     ("SignifiesatLeastCommAandCommBcapabilityandAbilitytoSetCACode7andAirborne", 5),
     ("SignifiesatLeastCommAandCommBcapabilityandAbilitytoSetCACode7andEitherAirborneorontheGround", 6),
     ("SignifiestheDownlinkRequestFieldEquals234or5andEitherAirborneorontheGround", 7), ("NoStatement", 255)]⟩),
  (NavigationSource.spec, .numbered 1 [
     "NoStatement", "GPS", "INS", "INSGPS"]),
  (IFFDataRecordAvailable.spec, .numbered 1 [
     "ComputeLocally", "IFFDataRecordAvailable"]),
  (Mode5SAltitudeResolution.spec, .numbered 1 [
     "_100foot", "_25foot"]),
  (DeltaMode5SAltitudePositiveNegativeIndicator.spec, .numbered 1 [
     "Positive", "Negative"]),
  (FormatType.spec, ⟨1, 0, [
     ("NoData", 0), ("IdentityFormat", 4), ("SurfaceFormat5meterRNP", 5), ("SurfaceFormat100meterRNP", 6),
     ("AirborneFormat5meterRNP25footBarometricAltitude", 7),
     ("AirborneFormat100meterRNP25footBarometricAltitude", 8),
     ("AirborneFormat0_25nmiRNP25footBarometricAltitude", 9),
     ("AirborneFormat1_0nmiRNP25footBarometricAltitude", 10),
     ("AirborneFormat5meterRNP100footBarometricAltitude", 11),
     ("AirborneFormat100meterRNP100footBarometricAltitude", 12),
     ("AirborneFormat0_25nmiRNP100footBarometricAltitude", 13),
     ("AirborneFormat1_0nmiRNP100footBarometricAltitude", 14), ("AirborneFormat5meterRNPGPSHeight", 15),
     ("AirborneFormat100meterRNPGPSHeight", 16)]⟩),
  (AircraftAddressSource.spec, .numbered 1 [
     "ModeSAircraftAddressFieldValue", "GICBIFFDataRecordAvailable"]),
  (SurveillanceStatus.spec, .numbered 1 [
     "NoInformation", "EmergencyLossofCommunications", "SPI", "ATCRBSCodeChange"]),
  (TurnRateSource.spec, .numbered 1 [
     "ComputeLocally", "LessThan1DegreeTurnorNotTurning", "_1DegreeorGreaterTurnRate"]),
  (TimeTypeSource.spec, .numbered 1 [
     "ComputeLocally", "EvenSecond", "OddSecond"]),
  (AircraftTypeWake.spec, .numbered 1 [
     "NoStatement"]),
  (DataCategory.spec, .numbered 1 [
     "NoStatement", "FunctionalData", "TransponderInterrogatorDataLinkMessages"])]

/-- The standard's tables for enumerations that occur in no message (4). -/
def restSisoTables4 : List (EnumSpec × SisoTable) := [
  (TILinkType.spec, .numbered 1 [
     "NotUsed", "GroundInitiatedCommunicationsB", "AutomaticDependentSurveillance",
     "GlobalNavigationSatelliteSystem", "DataLinkInitiationCapability",
     "AircraftCommunicationsAddressingandReportingSystem", "ATCCommunicationsManagement", "VHFDigitalLink",
     "AeronauticalTelecommunicationNetwork", "ModeSelect", "AirborneCollisionAvoidanceSystems",
     "TrafficCollisionAvoidanceSystems", "AutomaticDependentSurveillanceB"]),
  (AntennaStatus.spec, .numbered 1 [
     "NoStatement", "NotAbletoEmit", "AbletoEmit"]),
  (TransmissionIndicator.spec, .numbered 1 [
     "NoStatement", "OriginalInterrogation", "InterrogationReply", "SquitterTransmission"]),
  (ReplyAmplification.spec, .numbered 1 [
     "NoStatement", "Complete", "Limted", "UnabletoRespond"]),
  (DEFireFlagsStateUpdateFlag.spec, .numbered 1 [
     "UpdateDuetoHeartbeatTimer", "StateChange"]),
  (ComponentVisualDamageStatusSmoke.spec, .numbered 1 [
     "NoSmoke", "LightSmoke", "ModerateSmoke", "HeavySmoke"]),
  (ComponentVisualDamageStatusSurfaceDamage.spec, .numbered 1 [
     "NormalAppearance", "LightCharring", "HeavyCharring", "OneorMoreHolesBurnedCompletelythroughSurface"]),
  (AppearancePaintScheme.spec, .numbered 1 [
     "UniformColor", "Camouflage"]),
  (AppearanceDamage.spec, .numbered 1 [
     "NoDamage", "SlightDamage", "ModerateDamage", "Destroyed"]),
  (Mode5MessageFormatsStatus.spec, .numbered 1 [
     "Capability", "ActiveInterrogation"]),
  (AppearanceTrailingEffects.spec, .numbered 1 [
     "None", "Small", "Medium", "Large"]),
  (AppearanceHatch.spec, .numbered 1 [
     "NotApplicable", "Closed", "Popped", "PoppedandPersonIsVisible", "Open", "OpenandPersonIsVisible"]),
  (AppearanceLauncherOperational.spec, .numbered 1 [
     "NotRaisedNotOperational", "RaisedOperational"]),
  (AppearanceCamouflageType.spec, .numbered 1 [
     "DesertCamouflage", "WinterCamouflage", "ForestCamouflage", "Other"]),
  (AppearanceConcealedPosition.spec, .numbered 1 [
     "NotConcealed", "PreparedConcealedPosition"]),
  (AppearanceEntityorObjectState.spec, .numbered 1 [
     "Active", "Deactivated"]),
  (AppearanceCanopy.spec, .numbered 1 [
     "NotApplicable", "SingleCanopySingleTroopDoorClosed", "FrontandRearCanopyLeftandRightTroopDoorClosed",
     "FrontCanopyLeftTroopDoorOpen", "SingleCanopySingleTroopDoorOpen", "RearCanopyRightTroopDoorOpen",
     "FrontandRearCanopyLeftandRightTroopDoorOpen"]),
  (AppearanceSubsurfaceHatch.spec, ⟨1, 0, [
     ("NotApplicable", 0), ("HatchIsClosed", 1), ("HatchIsOpen", 4)]⟩),
  (AppearanceLifeformHealth.spec, .numbered 1 [
     "NoInjury", "SlightInjury", "ModerateInjury", "FatalInjury"]),
  (AppearanceLifeFormComplianceStatus.spec, .numbered 1 [
     "NotSpecified", "Detained", "Surrender", "UsingFists", "VerbalAbuseLevel1", "VerbalAbuseLevel2",
     "VerbalAbuseLevel3", "PassiveResistanceLevel1", "PassiveResistanceLevel2", "PassiveResistanceLevel3",
     "UsingNonLethalWeapon1", "UsingNonLethalWeapon2", "UsingNonLethalWeapon3", "UsingNonLethalWeapon4",
     "UsingNonLethalWeapon5", "UsingNonLethalWeapon6"]),
  (AppearanceLifeFormPosture.spec, .numbered 1 [
     "NotSpecified", "UprightStandingStill", "UprightWalking", "UprightRunning", "Kneeling", "Prone",
     "Crawling", "Swimming", "Parachuting", "Jumping", "Sitting", "Squatting", "Crouching", "Wading",
     "Surrender", "Detained"]),
  (AppearanceLifeFormWeaponImplement.spec, .numbered 1 [
     "NotPresent", "Stowed", "DeployedActive", "FiringPositionInUse"]),
  (AppearanceConcealedMovement.spec, .numbered 1 [
     "OpenMovement", "RushesBetweenCoveredPositions"]),
  (AppearanceEnvironmentalDensity.spec, .numbered 1 [
     "Clear", "Hazy", "Dense", "VeryDense", "Opaque"]),
  (Mode5PlatformType.spec, .numbered 1 [
     "GroundVehicle", "AirVehicle"]),
  (AppearanceAntiCollisionDayNight.spec, .numbered 1 [
     "Day", "Night"]),
  (AppearanceNavigationPositionBrightness.spec, .numbered 1 [
     "Dim", "Bright"]),
  (AppearanceSupplyDeployed.spec, .numbered 1 [
     "NotApplicable", "Stowed", "Deployed", "DeployedandActive"]),
  (AppearanceNVGMode.spec, .numbered 1 [
     "OvertLighting", "CovertLighting"]),
  (Parachute.spec, .numbered 1 [
     "None", "Deployed", "Collapsed", "MalfunctionStreamer"]),
  (FlareSmokeColor.spec, .numbered 1 [
     "White", "Red", "Green", "IR"]),
  (FlareSmokeStatus.spec, .numbered 1 [
     "NotIgnited", "Burning", "BurnedOut"]),
  (SpotChaffStatus.spec, .numbered 1 [
     "None", "Deployed", "Malfunction"]),
  (AppearanceObjectGeneralDamage.spec, .numbered 1 [
     "NoDamage", "Damaged", "Destroyed"]),
  (AppearanceObjectGeneralPredistributed.spec, .numbered 1 [
     "ObjectCreatedDuringtheExercise", "ObjectPredistributedPriortoExerciseStart"]),
  (AppearanceObjectSpecificBreachState.spec, .numbered 1 [
     "NoBreaching", "Breached", "Cleared"]),
  (AppearanceObjectSpecificChemicalType.spec, .numbered 1 [
     "Other", "Hydrochloric", "WhitePhosphorous", "RedPhosphorous"]),
  (AppearanceLinearObjectTankDitchBreach.spec, .numbered 1 [
     "NoBreaching", "SlightBreaching", "ModerateBreached", "Cleared"]),
  (AppearanceLinearObjectLaneMarkerVisible.spec, .numbered 1 [
     "LeftSideIsVisible", "RightSideIsVisible", "BothSidesAreVisible"]),
  (AppearanceObjectGeneralIEDPresent.spec, .numbered 1 [
     "None", "Visible", "PartiallyHidden", "CompletelyHidden"]),
  (Mode5LevelSelection.spec, .numbered 1 [
     "Mode5Level1", "Mode5Level2"]),
  (SupplyFuelType.spec, .numbered 1 [
     "Other", "Gasoline", "DieselFuel", "JP4", "FuelOil", "JP8", "FogOil", "MultiSpectralFogOil", "JP5",
     "JPTS", "TS1"]),
  (SensorTypeSource.spec, .numbered 1 [
     "OtherActiveSensors", "Electromagnetic", "PassiveSensors", "MinefieldSensors", "UnderwaterAcoustics",
     "Lasers"]),
  (AttachedPartDetachedIndicator.spec, .numbered 1 [
     "Attached", "Detached"]),
  (IntercomControlCommunicationsClass.spec, .numbered 1 [
     "SimulatedCommunicationsChannel", "SimulationSupportCommunicationsChannel"]),
  (MinefieldAppearanceMinefieldType.spec, .numbered 1 [
     "MixedAntiPersonnelandAntiTankMinefield", "PureAntiPersonnelMinefield", "PureAntiTankMinefield"]),
  (MinefieldAppearanceActiveStatus.spec, .numbered 1 [
     "Active", "Inactive"]),
  (MinefieldAppearanceLane.spec, .numbered 1 [
     "MinefieldHasActiveLane", "MinefieldHasanInactiveLane"]),
  (MinefieldAppearanceState.spec, .numbered 1 [
     "Active", "Deactivated"]),
  (MinefieldFusingFuseType.spec, .numbered 1 [
     "NoFuse", "Other", "Pressure", "Magnetic", "TiltRod", "Command", "TripWire"]),
  (Mode5LocationErrors.spec, .numbered 1 [
     "NoLocationErrors", "IFFDataRecordPresent"]),
  (MinefieldPaintSchemeAlgae.spec, .numbered 1 [
     "None", "Light", "Moderate", "Heavy"]),
  (MinefieldPaintSchemePaintScheme.spec, .numbered 1 [
     "Other", "Standard", "CamouflageDesert", "CamouflageJungle", "CamouflageSnow", "CamouflageGravel",
     "CamouflagePavement", "CamouflageSand", "NaturalWood", "Clear", "Red", "Blue", "Green", "Olive",
     "White", "Tan", "Black", "Yellow", "Brown"]),
  (CoverShroudStatus.spec, .numbered 1 [
     "Closed", "Opening", "CoverShroudBlownDetached", "OpenAttached"]),
  (PlatformLandMotorcycleSubcategories.spec, .numbered 1 [
     "Other", "Scooter", "SportStreet", "Cruiser", "DirtBike", "Standard", "Touring", "DualPurpose"]),
  (PlatformLandCarSubcategories.spec, ⟨1, 0, [
     ("Other", 0), ("Generic", 10), ("GenericMiniMicrocar", 11), ("GenericEconomyCompact", 12),
     ("GenericIntermediateStandard", 13), ("GenericFullPremiumLuxury", 14), ("GenericOversize", 15),
     ("_2DoorCoupe", 20), ("_2DoorCoupeMiniMicrocar", 21), ("_2DoorCoupeEconomyCompact", 22),
     ("_2DoorCoupeIntermediateStandard", 23), ("_3DoorHatchback", 30), ("_3DoorHatchbackMiniMicrocar", 31),
     ("_3DoorHatchbackEconomyCompact", 32), ("_4DoorSedan", 40), ("_4DoorSedanMiniMicrocar", 41),
     ("_4DoorSedanEconomyCompact", 42), ("_4DoorSedanIntermediateStandard", 43),
     ("_4DoorSedanFullPremiumLuxury", 44), ("_4DoorSedanOversize", 45), ("_5DoorHatchback", 50),
     ("_5DoorHatchbackMiniMicrocar", 51), ("_5DoorHatchbackEconomyCompact", 52),
     ("_5DoorHatchbackIntermediateStandard", 53), ("_5DoorHatchbackFullPremiumLuxury", 54), ("Wagon", 60),
     ("WagonEconomyCompact", 62), ("WagonIntermediateStandard", 63), ("WagonFullPremiumLuxury", 64),
     ("Minivan", 70), ("Limousine", 80), ("LimousineFullPremiumLuxury", 84), ("LimousineOversize", 85),
     ("Sports", 90), ("Convertible", 100), ("ConvertibleMiniMicrocar", 101),
     ("ConvertibleEconomyCompact", 102), ("ConvertibleIntermediateStandard", 103),
     ("ConvertibleFullPremiumLuxury", 104), ("SportsUtilityVehicle", 110),
     ("SportsUtilityVehicleEconomyCompact", 112), ("SportsUtilityVehicleIntermediateStandard", 113),
     ("SportsUtilityVehicleFullPremiumLuxury", 114), ("SportsUtilityVehicleOversize", 115)]⟩),
  (PlatformLandBusSubcategories.spec, .numbered 1 [
     "Other", "CommuterFlatNose", "CommuterSnoutNose", "Shuttle", "DoubleDecker", "Guided", "Kneeling",
     "Midibus", "Minibus", "MiniWheelchair", "Motorcoach", "PrisonBus", "Schoolbus", "SchoolWheelchair",
     "Tour", "TramParkingLot", "Trolley", "AirportTransport", "Articulated"]),
  (PlatformLandSingleUnitCargoTruckSubcategories.spec, ⟨1, 0, [
     ("Other", 0), ("PickupTruckMini", 1), ("PickupTruckMidSize", 2), ("PickupTruckFullSize", 3),
     ("PickupTruckCrewCab", 4), ("PickupTruckExtendedCab", 5), ("PickupTruckLongBed", 6),
     ("PickupTruckCabForward", 7), ("CargoTruck", 10), ("CargoTruckupto2_5Ton", 11),
     ("CargoTruckupto5Ton", 12), ("CargoTruckupto7_5Ton", 13), ("CargoTruckupto10Ton", 14),
     ("CargoTruckover10Ton", 15), ("Tanker", 20), ("SemiTrailerCab", 30), ("Van", 70), ("VanExtended", 71),
     ("VanCompact", 72), ("VanWheelchair", 73), ("VanDelivery", 74), ("DeliveryTruck", 100),
     ("DeliveryTruckBox", 101), ("DeliveryTruckFlatbed", 102), ("DeliveryTruckStakeBed", 103),
     ("MessTruck", 104), ("TruckPalletisedLoadSystem", 105), ("TruckPetroleumOilandLubricants", 106),
     ("TruckPetroleumOilandLubricantsSurveillance", 107), ("RefrigeratedTruckSmall", 108),
     ("RefrigeratedTruckMedium", 109), ("RefrigeratedTruckLarge", 110)]⟩),
  (PlatformLandSingleUnitUtilityEmergencyTruckSubcategories.spec, ⟨1, 0, [
     ("Other", 0), ("AmbulanceTruck", 1), ("FireParamedicTruck", 2), ("AmbulanceAdvancedLifeSupport", 3),
     ("AmbulancePickupTruck", 4), ("FireEngine", 10), ("AerialLadderFireEngine", 11),
     ("AirportFireEngine", 12), ("WildlandFireEngine", 13), ("FireChief", 14), ("PolicePaddyWagon", 20),
     ("PoliceSWAT", 21), ("PoliceBombSquad", 22), ("PolicePickupTruck", 23), ("Hazmat", 30),
     ("WreckerNormalHookandChain", 40), ("WreckerNormalBoom", 41), ("WreckerNormalWheelLift", 42),
     ("WreckerNormalFlatbed", 43), ("WreckerNormalIntegrated", 44), ("WreckerHeavyHookandChain", 45),
     ("WreckerHeavyBoom", 46), ("WreckerHeavyWheelLift", 47), ("WreckerHeavyFlatbed", 48),
     ("WreckerHeavyIntegrated", 49), ("PostalTruck", 60), ("StreetSweeper", 70),
     ("StreetSweeperThreeWheeled", 71), ("WasteCollectionOther", 80), ("WasteCollectionFrontLoader", 81),
     ("WasteCollectionRearLoader", 82), ("WasteCollectionAutomatedSideLoader", 83),
     ("WasteCollectionPneumaticCollection", 84), ("WasteCollectionGrapple", 85), ("UtilityTruck", 90),
     ("UtilityTruckwBoom", 91), ("AerialWorkPlatformOther", 100), ("AerialWorkPlatformScissorLift", 101),
     ("AerialWorkPlatformTelescoping", 102), ("MaintenanceTruck", 120), ("DecontaminationTruck", 121),
     ("WaterCannonTruck", 122), ("WaterPurificationTruck", 123), ("SmokeGeneratorTruck", 124),
     ("AutoRickshaw", 150)]⟩),
  (PlatformLandMultipleUnitCargoTruckSubcategories.spec, .numbered 1 [
     "Other", "TractorTrailer", "Tanker"])]

/-- The standard's tables for enumerations that occur in no message (5). -/
def restSisoTables5 : List (EnumSpec × SisoTable) := [
  (PlatformLandMultipleUnitUtilityEmergencyTruckSubcategories.spec, .numbered 1 [
     "Other", "FireEngineHookAndLadder"]),
  (PlatformLandConstructionSpecialtyVehicleSubcategories.spec, .numbered 1 [
     "Other", "Tug", "Forklift", "Loader", "LoaderBackhoe", "CraneTractorMounted", "CraneWheeled", "Grader",
     "RoadRollerOther", "RoadRollerDoubleDrumSmooth", "RoadRollerSingleDrumSmooth",
     "RoadRollerDoubleDrumSheeps", "RoadRollerSingleDrumSheeps", "RoadRollerPneumaticTired",
     "ExcavatorOther", "ExcavatorDragline", "ExcavatorLongReach", "ExcavatorMobileTire", "MiniExcavator",
     "ExcavatorGiant", "BulldozerTractorMounted", "BulldozerTracked", "Scraper", "SkidSteer",
     "DumpTruckOther", "DumpTruckArticulated", "DumpTruckTransfer", "DumpTruckSuper", "DumpTruckOffRoad",
     "Paver", "DrillingMachine", "ConcreteMixerOther", "ConcreteMixerRearDischarge",
     "ConcreteMixerFrontDischarge", "ConcreteMixerSixAxle", "ConcreteMixerLongReachBoom",
     "ConcreteMixerVolumetric", "TrencherChain", "TrencherRockwheel", "Snowcat", "CraneTracked",
     "CraneShovel", "SweeperRotary", "RollerVibratoryCompactor", "ForkLiftTruck", "ForkLiftRoughtTerrain",
     "Transloader", "TruckWaterConstruction", "TruckFuelDelivery", "TruckSawmill",
     "TruckLineMarkingConstruction", "TractorIndustrial", "CompactorHighSpeed", "TruckDrilling",
     "TruckDrillingSupport", "CraneConstruction"]),
  (PlatformLandFarmSpecialtyVehicleSubcategories.spec, .numbered 1 [
     "Other", "Tractor", "HarvesterReaper", "Skidder", "Forwarder", "LawnMowerOther", "LawnMowerRiding",
     "LawnMowerStanding", "LawnMowerPush"]),
  (PlatformLandTrailerSubcategories.spec, .numbered 1 [
     "Other", "TrailerFlatbed", "TrailerContainer", "TrailerContainerRefrigerated", "TrailerDouble",
     "TrailerAutoTransport", "TrailerArticulated", "TrailerTanker", "TrailerTankerSmall",
     "TrailerTankerLarge", "TrailerTankerGasoline", "TrailerTankerMilk", "TrailerTankerWater",
     "TrailerTankerSeptic", "TrailerBoat", "TrailerBoatSmall", "TrailerBoatLarge", "TrailerRecreational",
     "TrailerRecreationalConventional", "TrailerRecreationalTravelExpandable",
     "TrailerRecreationalFifthWheelTravel", "TrailerRecreationalFoldingCamping",
     "TrailerRecreationalTruckCamper", "TrailerAerostatMooringPlatform", "TrailerHousehold",
     "TrailerKitchen", "TrailerUltraLightAircraft", "TrailerHeavyEquipment"]),
  (PlatformLandRecreationalSubcategories.spec, .numbered 1 [
     "Other", "ATV2X4", "ATV4X4", "ATV6X6", "ATV3wheeled", "ToyOther", "ToyCar", "ToyATV", "GolfCart",
     "Snowmobile", "RecreationalVehicle", "RecreationalVehicleTypeAMotorhome",
     "RecreationalVehicleTypeBMotorhome", "RecreationalVehicleTypeCMotorhome", "ConversionVan"]),
  (PlatformLandNonmotorizedSubcategories.spec, .numbered 1 [
     "Other", "Unicycle", "Bicycle", "BicycleMountain", "BicycleRacing", "Tricycle", "Quadricycle",
     "RickshawTwoPerson", "RickshawOnePerson", "TandemBicycle", "CycleTrailer", "CycleSidecar", "Sled",
     "Skis", "Snowboard", "Skateboard", "Skates", "SkatesInLine", "WagonCart", "Dolly", "Handtruck",
     "PushCart", "Wheelbarrow", "KickScooter", "Wheelchair"]),
  (PlatformLandTrainsSubcategories.spec, .numbered 1 [
     "Other", "Engine", "BoxCar", "Tanker", "Flatcar", "Caboose", "PassengerCar", "Hopper"]),
  (PlatformLandUtilityEmergencyCarSubcategories.spec, .numbered 1 [
     "Other", "AmbulanceCar", "PoliceCar", "PoliceChief", "Hearse", "Taxi"]),
  (PlatformSurfacePassengerVesselSubcategories.spec, ⟨1, 1, [
     ("CruiseShip", 1), ("CruiseFerry", 2), ("HighSpeedFerry", 3), ("Ferry", 4), ("OceanLiner", 5)]⟩),
  (PlatformSurfaceDryCargoShipSubcategories.spec, ⟨1, 1, [
     ("CommonDryCargoShip", 1), ("DryBulkCargoShip", 2), ("ContainerShip", 3), ("ReeferShip", 4),
     ("RoRoShip", 5), ("Barge", 6), ("HeavyLiftShip", 7)]⟩),
  (PlatformSurfaceTankerSubcategories.spec, ⟨1, 1, [
     ("LiquidPetroleumGasTanker", 1), ("ChemicalTanker", 2), ("LiquidNaturalGasTanker", 3),
     ("CoastalTradingVessel", 4), ("CrudeOilTanker", 5), ("LiquidBulkTanker", 6),
     ("VeryLargeCrudeCarrier", 7), ("UltraLargeCrudeCarrier", 8), ("CondensateStorageTanker", 9)]⟩),
  (PlatformSurfaceSupportVesselSubcategories.spec, ⟨1, 1, [
     ("PlatformSupplyVessel", 1), ("TenderVessel", 2), ("Tugboat", 3), ("DiveSupportVessel", 4),
     ("Fireboat", 5), ("WellStimulationVessel", 6), ("AnchorHandlingTugSupplyVessel", 7),
     ("OffshoreConstructionVessel", 8), ("EmergencyResponseandRescueVessel", 9)]⟩),
  (PlatformSurfacePrivateMotorboatSubcategories.spec, ⟨1, 1, [
     ("SmallMotorboat", 1), ("MediumMotorboat", 2), ("LargeMotorboat", 3), ("VeryLargeMotorboat", 4)]⟩),
  (PlatformSurfacePrivateSailboatSubcategories.spec, ⟨1, 1, [
     ("SmallSailboat", 1), ("MediumSailboat", 2), ("LargeSailboat", 3), ("VeryLargeSailboat", 4)]⟩),
  (PlatformSurfaceFishingVesselSubcategories.spec, ⟨1, 1, [
     ("SmallFishingVessel", 1), ("MediumFishingVessel", 2), ("LargeFishingVessel", 3),
     ("FishProcessingVessel", 4), ("MastedFishingVessel", 5)]⟩),
  (PlatformSurfaceOtherVesselsSubcategories.spec, ⟨1, 1, [
     ("GoFastBoat", 1), ("ResearchVessel", 2), ("HydrofoilVessel", 3), ("CableLayerVessel", 4),
     ("DredgerVessel", 5), ("JunkDhowVessel", 6), ("Catamaran", 7), ("Pontoon", 8),
     ("PersonalWaterCraft", 9), ("RefugeeRaft", 10)]⟩),
  (CryptoKeyIDCryptoMode.spec, .numbered 1 [
     "Baseband", "Diphase"]),
  (Color.spec, ⟨1, 0, [
     ("NotSpecified", 0), ("WhiteVGA", 1), ("RedVGA", 2), ("YellowVGA", 3), ("LimeVGA", 4), ("CyanVGA", 5),
     ("BlueVGA", 6), ("MagentaVGA", 7), ("GreyVGA", 8), ("SilverVGA", 9), ("MaroonVGA", 10),
     ("OliveVGA", 11), ("GreenVGA", 12), ("TealVGA", 13), ("NavyVGA", 14), ("PurpleVGA", 15), ("Black", 20),
     ("Navy", 21), ("DarkBlue", 22), ("MediumBlue", 23), ("Blue", 24), ("DarkGreen", 25), ("Green", 26),
     ("Teal", 27), ("DarkCyan", 28), ("DeepSkyBlue", 29), ("DarkTurquoise", 30), ("MediumSpringGreen", 31),
     ("Lime", 32), ("SpringGreen", 33), ("Cyan", 34), ("MidnightBlue", 35), ("DodgerBlue", 36),
     ("LightSeaGreen", 37), ("ForestGreen", 38), ("SeaGreen", 39), ("DarkSlateGray", 40), ("LimeGreen", 41),
     ("MediumSeaGreen", 42), ("Turquoise", 43), ("RoyalBlue", 44), ("SteelBlue", 45), ("DarkSlateBlue", 46),
     ("MediumTurquoise", 47), ("Indigo", 48), ("DarkOliveGreen", 49), ("CadetBlue", 50),
     ("CornflowerBlue", 51), ("MediumAquamarine", 52), ("DimGray", 53), ("SlateBlue", 54), ("OliveDrab", 55),
     ("SlateGray", 56), ("LightSlateGray", 57), ("MediumSlateBlue", 58), ("LawnGreen", 59),
     ("Chartreuse", 60), ("Aquamarine", 61), ("Maroon", 62), ("Purple", 63), ("Olive", 64), ("Gray", 65),
     ("Grey", 66), ("SkyBlue", 67), ("LightSkyBlue", 68), ("BlueViolet", 69), ("DarkRed", 70),
     ("DarkMagenta", 71), ("SaddleBrown", 72), ("DarkSeaGreen", 73), ("LightGreen", 74),
     ("MediumPurple", 75), ("DarkViolet", 76), ("PaleGreen", 77), ("DarkOrchid", 78), ("YellowGreen", 79),
     ("Sienna", 80), ("Brown", 81), ("DarkGray", 82), ("LightBlue", 83), ("GreenYellow", 84),
     ("PaleTurquoise", 85), ("LightSteelBlue", 86), ("PowderBlue", 87), ("FireBrick", 88),
     ("DarkGoldenRod", 89), ("MediumOrchid", 90), ("RosyBrown", 91), ("DarkKhaki", 92), ("Silver", 93),
     ("MediumVioletRed", 94), ("IndianRed", 95), ("Peru", 96), ("Chocolate", 97), ("Tan", 98),
     ("LightGray", 99), ("PaleVioletRed", 100), ("Thistle", 101), ("Orchid", 102), ("GoldenRod", 103),
     ("Crimson", 104), ("Gainsboro", 105), ("Plum", 106), ("BurlyWood", 107), ("LightCyan", 108),
     ("Lavender", 109), ("DarkSalmon", 110), ("Violet", 111), ("PaleGoldenRod", 112), ("LightCoral", 113),
     ("Khaki", 114), ("AliceBlue", 115), ("HoneyDew", 116), ("Azure", 117), ("SandyBrown", 118),
     ("Wheat", 119), ("Beige", 120), ("WhiteSmoke", 121), ("MintCream", 122), ("GhostWhite", 123),
     ("Salmon", 124), ("AntiqueWhite", 125), ("Linen", 126), ("LightGoldenRodYellow", 127), ("OldLace", 128),
     ("Red", 129), ("Fuchsia", 130), ("Magenta", 131), ("DeepPink", 132), ("OrangeRed", 133),
     ("Tomato", 134), ("HotPink", 135), ("Coral", 136), ("DarkOrange", 137), ("LightSalmon", 138),
     ("Orange", 139), ("LightPink", 140), ("Pink", 141), ("Gold", 142), ("PeachPuff", 143),
     ("NavajoWhite", 144), ("Moccasin", 145), ("Bisque", 146), ("MistyRose", 147), ("BlanchedAlmond", 148),
     ("PapayaWhip", 149), ("LavenderBlush", 150), ("SeaShell", 151), ("Cornsilk", 152),
     ("LemonChiffon", 153), ("FloralWhite", 154), ("Snow", 155), ("Yellow", 156), ("LightYellow", 157),
     ("Ivory", 158), ("White", 159)]⟩),
  (BuildingPaintScheme.spec, .numbered 1 [
     "Default"]),
  (Season.spec, .numbered 1 [
     "Summer", "Winter", "Spring", "Autumn"]),
  (Material.spec, .numbered 1 [
     "NotSpecified", "Plastic", "Rubber", "Road"]),
  (Link11_11BFidelityLevel.spec, .numbered 1 [
     "FidelityLevel0", "FidelityLevel1", "FidelityLevel2"]),
  (Link11TerminalMode.spec, .numbered 1 [
     "NoStatement", "NetworkControlStation", "Picket"]),
  (Link11DataTerminalSetIndicator.spec, .numbered 1 [
     "NoStatement", "Transmit", "Receive", "NetBusy", "TransmitDataError", "ReceiveDataError", "CodeError",
     "SynchronizationComplete"]),
  (Link11ModeofOperation.spec, .numbered 2 [
     "NoStatement", "NetSync", "NetTest", "RollCall", "ShortBroadcast", "Broadcast"]),
  (LifeFormsSubcategoryIranianWeapons.spec, ⟨1, 1, [
     ("Misagh2", 1), ("RBS70", 2)]⟩),
  (LifeFormLandCategories.spec, ⟨1, 10, [
     ("ConventionalArmedForces", 10), ("Army", 11), ("NavalInfantry", 12), ("AirForce", 13), ("Navy", 14),
     ("CoastGuard", 15), ("UnitedNations", 16), ("SpecialOperationsForces", 30), ("LawEnforcement", 50),
     ("NonMilitaryNationalGovernmentAgencies", 70), ("RegionalLocalForces", 90), ("IrregularForces", 100),
     ("TerroristCombatant", 101), ("Insurgent", 102), ("ParamilitaryForces", 110),
     ("HumanitarianOrganizations", 120), ("Civilian", 130), ("EmergencyMedicalTechnician", 131),
     ("Firefighter", 132), ("Press", 133), ("Mammal", 200), ("Reptile", 201), ("Amphibian", 202),
     ("Insect", 203), ("Arachnid", 204), ("Mollusk", 205), ("Marsupial", 206)]⟩),
  (LifeFormHumanSubcategoryEquipmentClass.spec, ⟨1, 0, [
     ("None", 0), ("WeaponNonspecific", 1), ("AssaultRifles", 5), ("HighPowerRifles", 10),
     ("SniperRifles", 15), ("AntiMaterielRifle", 17), ("SubMachineGuns", 20), ("ShotGuns", 25),
     ("GrenadeLaunchers", 30), ("MachineGuns", 35), ("GrenadeLaunchingMachineGun", 40),
     ("AntiTankRockets", 45), ("AntiTankMissiles", 50), ("AntiTankGuns", 55), ("FlameRockets", 60),
     ("FlameThrowers", 65), ("RocketLaunchers", 70), ("Mortars", 75), ("HandGuns", 80),
     ("ManPortableAirDefenseSystem", 85), ("RecoillessRifles", 90), ("DroneGuns", 95),
     ("EquipmentNonspecific", 150), ("Sensors", 151), ("SignalSensor", 152), ("Lasers", 153),
     ("AnimalCompanion", 160), ("PersonalElectronics", 171), ("LogisticsEquipment", 172)]⟩),
  (LifeFormHumanSpecificAssaultRifles.spec, ⟨1, 0, [
     ("Other", 0), ("_4_5mmInterdynamicsMKR", 1), ("_5_45mmAK74", 10), ("_5_45mmAKS74", 11),
     ("_5_45mmAK74M", 12), ("_5_45mmKbkwz_1988Tantal", 13), ("_5_56mmAK101", 30), ("_5_56mmDiemacoC7", 31),
     ("_5_56mmColtCanadaC8Carbine", 32), ("_5_56mmGIATFAMASG2", 33), ("_5_56mmFNFNC", 34),
     ("_5_56mmHKG36", 35), ("_5_56mmIMIGalil", 36), ("_5_56mmINSAS", 37), ("_5_56mmDaewooK1", 38),
     ("_5_56mmDaewooK2", 39), ("_5_56mmM16A1", 40), ("_5_56mmM16A2A3A4", 41), ("_5_56mmColtM4", 42),
     ("_5_56mmColtM4SpecialOperationsPeculiarModification", 43), ("_5_56mmRugerMini14", 44),
     ("_5_56mmEnfieldSA80A2", 45), ("_5_56mmPindadSS1V1", 46), ("_5_56mmPindadSS1V2", 47),
     ("_5_56mmPindadSS1V3", 48), ("_5_56mmSteyrAUGA1", 49), ("_5_56mmT65", 50), ("_5_56mmT91", 51),
     ("_5_56mmTavorTAR21", 52), ("_5_56mmTypeCQM311", 53), ("_5_56mmDaewooK11", 54),
     ("_5_56mmAusteyrF88", 55), ("_5_56mmAusteyrF88GLA", 56), ("_5_56mmAusteyrF88SA1", 57),
     ("_5_56mmAusteyrF88SA2", 58), ("_5_56mmAusteyrF88C", 59), ("_5_56mmAusteyrF88SA1C", 60),
     ("_5_56mmAusteyrF88SA1LTR", 61), ("_5_56mmAusteyrEF88", 62), ("_5_56mmBushmasterXM15", 63),
     ("_5_56mmHK416", 64), ("_5_56mmF90", 65), ("_5_56mmF90G", 66), ("_5_56mmF90M", 67),
     ("_5_56mmF90MG", 68), ("_5_56mmF90CQB", 69), ("_5_56mmMK17SCARL", 70), ("_5_8mmQBZ95", 100),
     ("_7_62mmAK103", 110), ("_7_62mmAK104", 111), ("_7_62mmAK47", 112), ("_7_62mmAKM", 113),
     ("_7_62mmAKS47", 114), ("_7_62mmHKG3A3", 115), ("_7_62mmIMIGalil", 116), ("_7_62mmKLS", 117),
     ("_7_62mmSKS", 118), ("_7_62mmType56", 119), ("_7_62mmType6368", 120), ("_7_62mmType81", 121),
     ("_7_62mmMK17SCARH", 122), ("_8mmLebelM16", 240)]⟩),
  (LifeFormHumanSpecificHighPowerRifles.spec, ⟨1, 0, [
     ("Other", 0), ("_7_62mmM14", 10), ("_7_62mmRemington700", 11), ("_7_62mmSIGSauerSSG2000", 12),
     ("_7_62mmStonerSR25", 13), ("_7_62mmMosinNagantModel189130", 14), ("_7_62mmHK417", 15),
     ("_7_62mmHK41716Recce", 16), ("_7_65mmBARM1918", 50), ("_7_65mmM1Garand", 51)]⟩),
  (LifeFormCategoriesUS.spec, ⟨1, 11, [
     ("USArmy", 11), ("USMarineCorps", 12), ("USAirForce", 13), ("USNavy", 14), ("USCoastGuard", 15),
     ("Rangers", 31), ("ARSOF", 32), ("ForceReconnaissance", 33), ("NavySEAL", 34), ("AFSOF", 35),
     ("DeltaForce", 36), ("FederalBureauofInvestigation", 51), ("CentralIntelligenceAgency", 52),
     ("DepartmentofHomelandSecurity", 53), ("BureauofAlcoholTobaccoFirearmsandExplosives", 54),
     ("USSecretService", 55), ("USMarshal", 56), ("StatePolice", 71), ("CountySheriffPolice", 72),
     ("MunicipalPolice", 73), ("RedCross", 124)]⟩),
  (LifeFormExtraPersonalData.spec, ⟨1, 0, [
     ("NotSpecifiedMale", 0), ("AsianMale", 1), ("PacificIslanderMale", 2), ("BlackMale", 3),
     ("EastAsianMale", 4), ("HispanicMale", 5), ("WhiteMale", 6), ("ArabMale", 7),
     ("HomogenousCountryCodeMale", 8), ("IndigenousCountryCodeMale", 9), ("InfantMale", 10),
     ("ToddlerMale", 20), ("ChildMale", 30), ("AdolescentMale", 40), ("TeenagerMale", 50),
     ("YoungAdultMale", 60), ("AdultMale", 70), ("SeniorAdultMale", 80), ("ElderlyMale", 90),
     ("Female", 100), ("AsianFemale", 101), ("PacificIslanderFemale", 102), ("BlackFemale", 103),
     ("EastAsianFemale", 104), ("HispanicFemale", 105), ("WhiteFemale", 106), ("ArabFemale", 107),
     ("HomogenousCountryCodeFemale", 108), ("IndigenousCountryCodeFemale", 109), ("InfantFemale", 110),
     ("ToddlerFemale", 120), ("ChildFemale", 130), ("AdolescentFemale", 140), ("TeenagerFemale", 150),
     ("YoungAdultFemale", 160), ("AdultFemale", 170), ("SeniorAdultFemale", 180), ("ElderlyFemale", 190)]⟩),
  (LifeFormAirCategories.spec, ⟨1, 200, [
     ("Bird", 200), ("Insect", 201), ("Mammal", 202)]⟩),
  (LifeFormSubsurfaceCategories.spec, ⟨1, 200, [
     ("Fish", 200), ("Mammal", 201), ("Mollusk", 202), ("Crustacean", 203), ("Insect", 204)]⟩),
  (LifeFormHumanSpecificSniper.spec, ⟨1, 0, [
     ("Other", 0), ("_5_8mmQBU88", 1), ("_7_62mmC3", 30), ("_7_62mmFRF2", 31), ("_7_62mmAWMF", 32),
     ("_7_62mmG3SG1", 33), ("_7_62mmGalilSniper", 34), ("_7_62mmL96A1", 35), ("_7_62mmM14DMR", 36),
     ("_7_62mmM24SniperWeaponSystem", 37), ("_7_62mmM40A1A3", 38), ("_7_62mmSteyrSSG69", 39),
     ("_7_62mmSVD", 40), ("_7_62mmTYPE79", 41), ("_7_62mmSR25MK11", 42), ("_7_62mmAWSR98", 43),
     ("_7_62mmBlaserR93", 44), ("_7_62mmM2010EnhancedSniperRifle", 45),
     ("_7_62mmM110SemiAutomaticSniperSystem", 46), ("_7_62mmL129A1", 47), ("_7_7mmTYPE99", 100),
     ("_8_58mmBlaserR93Tactical2", 105), ("_9mmVSSVintorez", 110), ("_12_7mmSteyrHS_50", 170),
     ("_12_7mmM82A1ASpecialApplicationsScopedRifle", 171), ("_12_7mmNSV", 172), ("_12_7mmOSV96", 173),
     ("_12_7mmRangemaster50", 174), ("_12_7mmV94", 175), ("_12_7mmM107", 176), ("_20mmDenelNTW20", 200)]⟩),
  (LifeFormHumanSpecificSubMachineGun.spec, ⟨1, 0, [
     ("Other", 0), ("_5_45mmAKS74U", 10), ("_5_56mmDaewooK1A", 20), ("_9mmDaewooK7", 60), ("_9mmMAC10", 61),
     ("_9mmMadsenMKII", 62), ("_9mmMiniUzi", 63), ("_9mmModel83SkorpionSMG", 64), ("_9mmMP5A2", 65),
     ("_9mmMP5N", 66), ("_9mmSterlingSMG", 67), ("_9mmTypeCF05", 68), ("_9mmUzi", 69)]⟩),
  (AustralianCategoryOverlay.spec, ⟨1, 11, [
     ("AustralianArmy", 11), ("RoyalAustralianAirForce", 13), ("RoyalAustralianNavy", 14),
     ("AustralianSpecialOperationsCommand", 30), ("AustralianDepartmentofHomeAffairs", 51),
     ("AustralianFederalPolice", 52)]⟩),
  (LifeFormCategoriesAfghanistan.spec, ⟨1, 11, [
     ("AfghanNationalArmy", 11), ("AfghanAirForce", 13), ("NationalDirectorateofSecurity", 51),
     ("AfghanNationalPolice", 52), ("AfghanBorderPolice", 53), ("AfghanNationalCivilOrderPolice", 54),
     ("AfghanPublicProtectionForce", 55), ("NonMilitaryNationalGovernmentAgencies", 70),
     ("TerroristCombatant", 101), ("HumanitarianOrganizations", 120), ("RedCrescent", 121),
     ("Civilian", 130), ("Press", 133)]⟩),
  (LifeFormHumanSpecificEquipmentClass.spec, ⟨1, 1, [
     ("SignalSmoke", 1), ("FlashLight", 2), ("SignalMirror", 3), ("IRStrobe", 4), ("IRIlluminator", 5),
     ("Spotlight", 6)]⟩),
  (PlatformSubsurfaceCivilianSemiSubmersiblesSubcategories.spec, ⟨1, 1, [
     ("NarcoSubmarine", 1)]⟩),
  (LeafCoverage.spec, .numbered 1 [
     "Normal", "Bare"]),
  (LifeFormHumanSpecificAntiMaterielRifles.spec, ⟨1, 0, [
     ("Other", 0), ("_12_7mmAW50", 10), ("_12_7mmAW50F", 11)]⟩),
  (LifeFormHumanSpecificShotGuns.spec, ⟨1, 0, [
     ("Other", 0), ("BrowningSuperposedOU", 20), ("BrowningCynergy", 21), ("BrowningAuto5", 22),
     ("_18_5mmBrowningCitoriOU12Gauge", 23), ("_16_8mmBrowningCitoriOU16Gauge", 24),
     ("_15_6mmBrowningCitoriOU20Gauge", 25), ("_14mmBrowningCitoriOU28Gauge", 26),
     ("_10_4mmBrowningCitoriOU_410Bore", 27), ("_18_5mmBrowningDoubleAutomatic12Gauge", 28),
     ("_18_5mmIthaca3712Gauge", 29), ("_16_8mmIthaca3716Gauge", 30), ("_15_6mmIthaca3720Gauge", 31),
     ("_14mmIthaca3728Gauge", 32), ("_19_7mmIthacaMag10SA10Gauge", 33), ("_19_7mmMarlinModel5510Gauge", 34),
     ("_18_5mmMarlinModel5512Gauge", 35), ("_16_8mmMarlinModel5516Gauge", 36),
     ("_15_6mmMarlinModel5520Gauge", 37), ("_18_5mmMossberg50012Gauge", 38),
     ("_15_6mmMossberg50020Gauge", 39), ("_10_4mmMossberg500_410Bore", 40),
     ("_18_5mmMossberg59012Gauge", 41), ("_15_6mmMossberg59020Gauge", 42),
     ("_10_4mmMossberg590_410Bore", 43), ("_18_5mmMossberg930SA12Gauge", 44), ("RemingtonModel11SA", 45),
     ("RemingtonModel1012Gauge", 46), ("_15_6mmRemingtonModel1720Gauge", 47), ("RemingtonModel31", 48),
     ("RemingtonModel1148SA", 49), ("_18_5mmRemington87012Gauge", 50), ("_16_8mmRemington87016Gauge", 51),
     ("_15_6mmRemington87020Gauge", 52), ("_14mmRemington87028Gauge", 53),
     ("_10_4mmRemington870_410Bore", 54), ("RemingtonModel58SA", 55), ("_18_5mmRemington878SA12Gauge", 56),
     ("_18_5mmRemingtonModel1100SA12Gauge", 57), ("_16_8mmRemingtonModel1100SA16Gauge", 58),
     ("_15_6mmRemingtonModel1100SA20Gauge", 59), ("_14mmRemingtonModel1100SA28Gauge", 60),
     ("_10_4mmRemingtonModel1100SA_410Bore", 61), ("_18_5mmRemington1187SA12Gauge", 62),
     ("_15_6mmRemington1187SA20Gauge", 63), ("_19_7mmRemingtonModelSP10SA10Gauge", 64),
     ("_18_5mmRemington88712Gauge", 65), ("_18_5mmRemingtonSparta100SxS12Gauge", 70),
     ("_15_6mmRemingtonSparta100SxS20Gauge", 71), ("_10_4mmRemingtonSparta100SxS_410Bore", 72),
     ("_18_5mmRemingtonSpartan310OU12Gauge", 73), ("_15_6mmRemingtonSpartan310OU20Gauge", 74),
     ("_14mmRemingtonSpartan310OU28Gauge", 75), ("_10_4mmRemingtonSpartan310OU_410Bore", 76),
     ("_18_5mmRemingtonSpartan453SA12Gauge", 77), ("_18_5mmWinchesterModel120012Gauge", 80),
     ("_16_8mmWinchesterModel120016Gauge", 81), ("_15_6mmWinchesterModel120020Gauge", 82),
     ("WinchesterModel18871901", 83), ("WinchesterModel1897", 84), ("WinchesterModel1912", 85),
     ("WinchesterModel21SxS", 86), ("WinchesterModel37SxS", 87), ("_18_5mmHRUltraslugSxS12Gauge", 88),
     ("_15_6mmHRUltraslugSxS20Gauge", 89), ("_18_5mmCienerUltimateOU12Gauge", 90),
     ("_18_5mmCoachGunSxSDoubleBarrel12Gauge", 91), ("_18_5mmRugerGoldLabelSxS12Gauge", 92),
     ("_18_5mmHighStandardModel10SA12Gauge", 93), ("_18_5mmKelTexKSG12Gauge", 94),
     ("_18_5KACMasterkey12Gauge", 95), ("_18_5mmM26M_A_S_S_12Gauge", 96),
     ("_18_5mmSRMArmsM1216SA12Gauge", 97), ("_18_5mmAA12FAAtchissonAssault", 98),
     ("_18_5mmPancorJackhammerFA12Gauge", 99), ("_18_5mmUSAS12FA12Gauge", 110),
     ("_18_5mmMAULSA12Gauge", 111), ("_18_5mmFNSLPSA12Gauge", 112), ("_18_5mmFNTPS12Gauge", 113),
     ("_18_5mmENARMPentagunSA12Gauge", 115), ("StevensModel520620", 116), ("StoegerCoachGunSxS", 117),
     ("StoegerCondorOU", 118), ("_18_5mmArmscorModel30SA12Gauge", 120), ("WeatherbySA08SA", 121),
     ("_18_5mmFabarmSDASSTactical12Gauge", 122), ("_18_5mmMAG712Gauge", 123),
     ("_18_5mmNeostead12Gauge", 124), ("_18_5mmArmselStrikerSA12Gauge", 125),
     ("_18_5mmParkerHaleRogunSA12Gauge", 127), ("_26mmRGA86Revolver", 130),
     ("_18_5mmSjorgrenSA12Gauge", 131), ("_18_5mmAkdalMKA1919SA12Gauge", 132),
     ("_18_5mmRetayMasaiMaraSA12Gauge", 133), ("_18_5mmSafirT14SA12Gauge", 134),
     ("_18_5mmBenelliM1Super90SA12Gauge", 150), ("_15_6mmBenelliM1Super90SA20Gauge", 151),
     ("_18_5mmBenelliM3Super90SA12Gauge", 152), ("_15_6mmBenelliM3Super90SA20Gauge", 153),
     ("_18_5mmBenelliM4Super90SA12Gauge", 154), ("_18_5mmBenelliNova12Gauge", 155),
     ("_15_6mmBenelliNove20Gauge", 156), ("_18_5mmBenelliRaffaelloSA12Gauge", 157),
     ("_18_5mmBenelliSupernova12Gauge", 158), ("_18_5mmBenelliVinciSA12Gauge", 159),
     ("_18_5mmBeretta1201FPSA12Gauge", 160), ("_18_5mmBeretta682OU12Gauge", 161),
     ("_15_6mmBeretta682OU20Gauge", 162), ("_14mmBeretta682OU28Gauge", 163),
     ("_10_4mmBeretta682OU_410Bore", 164), ("_18_5mmBerettaA303SA12Gauge", 165),
     ("_18_5mmBerettaAL391SA12Gauge", 166), ("_15_6mmBerettaAL391SA20Gauge", 167),
     ("_18_5mmBerettaDT10OU12Gauge", 168), ("BerettaSilverPigeonOU", 169),
     ("_18_5mmBerettaXtrema2SA12Gauge", 170), ("_15_6mmFranchiAL48SA20Gauge", 171),
     ("_14mmFranchiAL48SA28Gauge", 172), ("_10_4mmFranchimod_410FA_410Bore", 173),
     ("_18_5mmFranchiSPAS12SA12Gauge", 174), ("_18_5mmFranchiSPAS15SA12Gauge", 175),
     ("_18_5mmValtroPM5PM535012Gauge", 176), ("BlazerF3OU", 180), ("_18_5mmHKFABARMFP612Gauge", 181),
     ("_18_5mmHKCAWSFA12Gauge", 182), ("_18_5mmBaikalMP153SA12Gauge", 200),
     ("_18_5mmBandayevskyRB1212Gauge", 201), ("_18_5mmMolotBekasM12Gauge", 202),
     ("_16_8mmMolotBekasM16Gauge", 203), ("_18_5mmTOZ19412Gauge", 204), ("_23mmKS23", 205),
     ("MTs255Revoler12Gauge", 206), ("_18_5mmRMB9312Gauge", 207), ("_18_5mmSaiga12SA12Gauge", 208),
     ("_15_6mmSaiga12SA20Gauge", 209), ("_10_4mmSaiga12SA_410Bore", 210), ("_18_5mmVepr12SA12Gauge", 211),
     ("_18_5mmFort50012Gauge", 212), ("_18_5mmNorincoHP9112Gauge", 220)]⟩),
  (LifeFormHumanSpecificMortars.spec, ⟨1, 0, [
     ("Others", 0), ("_60mmM224", 30), ("_81mmF2", 50), ("_81mmL16", 51), ("_81mmM252", 52)]⟩),
  (LifeFormHumanSpecificHandGuns.spec, ⟨1, 0, [
     ("Other", 0), ("_5_45mmPSM", 1), ("_9mmMK3SLP", 30), ("_9mmBeretta92S92FS", 31), ("_9mmHKUSP", 32),
     ("_9mmStechkinAPS", 33), ("_9mmMakarovPM", 34), ("_9mmSmithandWessonSD", 35), ("_9mmGlock17", 36),
     ("_9mmSIGSauerM17", 37), ("_9mmSIGPro", 38), ("_9mmSmithandWessonSW1911", 39),
     ("_9mmSmithandWesson5900series", 40), ("_45CalM1911", 41), ("_9_07mmRugerGP100", 50),
     ("_10mmGlock20", 60)]⟩),
  (LifeFormHumanSpecificWeaponNonspecific.spec, ⟨1, 0, [
     ("Other", 0), ("Knife", 10), ("Machete", 50), ("ExplosiveVest", 100), ("M18A1Claymore", 150)]⟩),
  (LifeFormHumanSpecificGrenadeLaunchers.spec, ⟨1, 0, [
     ("Other", 0), ("_40x46mmArsenalUGGLM1", 1), ("_40x46mmArsenalMSGL", 2), ("_40mmVOGArsenalMSGL", 3),
     ("_40x46mmArsenalUBGLM16", 4), ("_40x46mmArsenalUBGLM8", 5), ("_40x46mmArsenalUBGLM7", 6),
     ("_30mmBS1Tishina", 10), ("_40mmBTS203", 11), ("_40mmIndumilIMC40", 12), ("_40mmVOGBG15", 20),
     ("_40mmVOGGP25Kostoyor", 21), ("_40mmVOGGP30Obuvka", 22), ("_40mmVOGGP34", 23),
     ("_40mmVOGRGM40Kastet", 24), ("_40mmVOGRG6", 25), ("_40x46mmM79", 30), ("_40x46mmM203", 31),
     ("_40x36mmM320", 32), ("_40x46mmCIS40GL", 35), ("_40x46mmEAGLEGL", 36), ("_40x46mmHKAG36", 37),
     ("_40x46mmHKAGCGLM", 38), ("_40x46mmHK69A1", 39), ("_40x46mmBerettaGLX160", 40),
     ("_40x46mmARDEUBGL", 41), ("_40x46mmXML148", 42), ("_40x46mmChinaLakeGL", 43), ("_40x46mmHawkMM1", 44),
     ("_25x40mmXM25CDTE", 50), ("_37mmMilkor3738LLStopper", 60), ("_40mmMilkor40GL", 61),
     ("_40mmMilkorMGL", 62), ("_40x47mmPalladwz1974", 65), ("_40x47mmPalladwz1983", 66),
     ("UGL200CanisterRWGL3", 70), ("_20x30mmSTDaewooK11", 80), ("_35mmType91BreechLoadGL", 90),
     ("_40x53mmCZW40", 95), ("_45mmDP64", 100), ("_20x42mmNeopupPAW20", 105)]⟩),
  (LifeFormHumanSpecificMachineGuns.spec, ⟨1, 0, [
     ("Other", 0), ("_5_56x45mmXM214MicrogunSixPak", 10), ("_7_62x51mmM134XM196Minigun", 11),
     ("_5_56x45mmM249FNMinimiSAWLMG", 20), ("_5_56x45mmFNMinimiMk3LMG", 21),
     ("_7_62x51mmFNMinimi7_62Mk3GPMG", 22), ("_7_62x63mmM1941Johnson", 25), ("_7_62x63mmM1918BAR", 26),
     ("_7_62x51mmM1919A4Mk21Mod0BrowningMMG", 27), ("_7_62x63mmM1919A6BrowningMMG", 28),
     ("_7_62x51mmM37BrowningMMG", 29), ("_5_56x45mmAresShrike5_56LMG", 30), ("_5_56x45mmLSATLMG", 31),
     ("_5_56x45mmCMG1LMG", 32), ("_5_56x45mmCMG2LMG", 33), ("_5_56x45mmStoner63ALMG", 34),
     ("_5_56x45mmUltimax100LMG", 35), ("_5_56x54mmBerettaAS7090LMG", 36), ("_5_56x45mmCETMEAmeliLMG", 37),
     ("_5_56x45mmIMINegevLMG", 38), ("_5_56x45mmINSASLMG", 39), ("_5_56x45mmAUGLMG", 40),
     ("_5_56x45mmAUGHBARLMG", 41), ("_5_56x45mmHKMG4LMG", 43), ("_5_56x45mmHK23GR9LMG", 44),
     ("_5_56x45mmM27IARSAW", 46), ("_5_56x45mmL86LSW", 47), ("_5_56x45mmDaewooK3LMG", 48),
     ("_5_56x45mmVectorMiniSSGPMG", 49), ("_7_62x51mmM60GPMG", 50), ("_7_62x51mmM60E3GPMG", 51),
     ("_7_62x51mmM60E4GPMG", 52), ("_7_62x51mmM60E6GPMG", 53), ("_7_62x51mmMark48GMPG", 55),
     ("_7_62x51mmM240FNMAG58GPMG", 58), ("_7_62x51mmM240E4M240BGPMG", 59), ("_7_62x51mmM240E1M240DGPMG", 60),
     ("_7_62x51mmM240GGPMG", 61), ("_7_62x51mmM240E5M240HGPMG", 62), ("_7_62x51mmM240LGPMG", 63),
     ("_7_62x39mmKk62LMG", 65), ("_7_62x51mmVectorSS77GPMG", 70), ("_7_62x51mmSIGMG7103GPMG", 71),
     ("_7_62x51mmSterling7_62GMPG", 72), ("_7_62x51mmSumitomoType62GPMG", 73),
     ("_7_62x51mmDaewooK12GPMG", 74), ("_7_62x51mmMG51GPMG", 75), ("_7_62x51mmRheinmetallMG3", 76),
     ("_7_62x51mmRheinmetallMG3KWS", 77), ("_7_62x51mmMG5HK121GPMG", 80), ("_7_62x51mmHK21GPMG", 81),
     ("_7_62x51mmAA52GPMP", 85), ("_7_62x51mmUKM2000GPMG", 86), ("_7_62x54mmUkvz_59GPMG", 88),
     ("_7_92x57mmMG42GPMG", 89), ("_12_7x99mmM2A1BrowningHMG", 100), ("_12_7x99mmM2HBBrowningHMG", 101),
     ("_12_7x99mmM2HBQCBBrowningHMG", 102), ("_12_7x99mmM85CHMG", 105),
     ("_12_7x99mmRheinmetallRMG_50HMG", 108), ("_12_7x99mmHK25HMG", 110), ("_12_7x99mmCIS50MG", 112),
     ("_5_45x39mmIP2LMG", 120), ("_5_45x39mmNikonovLMG", 121), ("_5_45x39mmM74RPK", 122),
     ("_7_62x39mmM43RPK", 125), ("_7_62x39mmRPDSAW", 126), ("_7_62x39mmZastavaM72", 127),
     ("_7_62x39mmType81LMG", 128), ("_7_62x51mmZastavaM77", 135), ("_7_62x54mmPKGPMG", 140),
     ("_7_62x54mmAEK999GPMP", 141), ("_7_62x54mmPechenegGPMG", 142), ("_7_62x54mmZastavaM84", 143),
     ("_7_62x54mmType67GPMG", 144), ("_7_62x54mmType80GPMG", 145), ("_12_7x108mmNSVHMG", 150),
     ("_12_7x108mmKordHMG", 151), ("_12_7x108mmKPD12_7HMG", 152), ("_12_7x108mmZastavaM02CoyotoeHMG", 153),
     ("_12_7x108mmZastavaM87", 154), ("_12_7x108mmType77HMG", 155), ("_12_7x108mmW85HMG", 156),
     ("_12_7x108mmType90HMG", 157), ("_5_8x42mmQJY88LMG", 164), ("_5_8x42mmQBB95DBP87LMG", 165),
     ("_5_56x45mmQBB951LMG", 166)]⟩),
  (LifeFormHumanSpecificGrenadeLaunchingMachineGun.spec, ⟨1, 0, [
     ("Other", 0), ("_40x53mmHKGMG", 20), ("_40x53mmMk47Striker", 25), ("_40mmM75", 26), ("_40mmM129", 27),
     ("_40x46mmXM174", 28), ("_40x46mmMk18Mod0", 29), ("_40x53mmMk19", 30), ("_40x46mmMk20Mod0", 31),
     ("_30x29mmRAG30SAG30", 40), ("_30x29mmAGS17Plamya", 41), ("_30x29mmAGS30Atlant", 42),
     ("_40mmVOGAGS40Balkan", 43), ("_40x53mmSBLAG40", 44), ("_40x53mmVektorY3", 50), ("_40x53mmCIS40", 55),
     ("_40x56mmHowaType96", 60), ("_40x53mmDaewooPrecisionIndustriesK4", 65),
     ("_25x59mmXM307AdvancedCrewServedWeapon", 70), ("_35x32mmQLZ87", 80)]⟩),
  (LifeFormHumanSpecificAntiTankRockets.spec, ⟨1, 0, [
     ("Other", 0), ("_82mmB300", 10), ("_82mmShipon", 11), ("_83mmMK153Mod0SMAW", 12), ("_66mmM72LAW", 20),
     ("_66mmM72A1LAW", 21), ("_66mmM72A2LAW", 22), ("_66mmM72A3LAW", 23), ("_66mmM72A4LAW", 24),
     ("_66mmM72A5LAW", 25), ("_66mmM72A6LAW", 26), ("_66mmM72A7LAW", 27), ("_66mmM72E8LAW", 28),
     ("_66mmM72E9LAW", 29), ("_66mmM72E10LAW", 30), ("_66mmM72ASLAW", 31), ("_94mmLAW80", 35),
     ("_60mmM1Bazooka", 40), ("_60mmM1A1Bazooka", 41), ("_60mmM9Bazooka", 42), ("_60mmM9A1Bazooka", 43),
     ("_89mmM20SuperBazooka", 44), ("_89mmM20A1SuperBazooka", 45), ("_89mmM20B1SuperBazooka", 46),
     ("_89mmM20A1B1SuperBazooka", 47), ("_89mmM25ThreeShotBazooka", 48), ("_89mmInstalazaM65", 49),
     ("_90mmInstalazaC90", 50), ("_90mmC90CR", 51), ("_90mmC90CRAM", 52), ("_90mmC90CRBK", 53),
     ("_90mmC90CRIN", 54), ("_60mmPzF3", 60), ("_60mmPzF3IT", 61), ("_60mmPzF3Bunkerfaust", 62),
     ("_44mmPzF44", 65), ("_30mmPanzerfaust30", 70), ("_50mmPanzerfaust60", 71), ("_60mmPanzerfaust100", 72),
     ("_60mmPanzerfaust150", 73), ("_88mmPanzerschreckRPzB", 75), ("_83mmRL83Blindicide", 80),
     ("_100mmRL100Blindicide", 81), ("_90mmM79Osa", 85), ("_64mmM80Zolja", 86),
     ("_67mmArmburstCrossbow", 90), ("_40mmType69RPG", 93), ("_89mmPIAT", 95), ("_40mmRPG2", 100),
     ("_64mmRPG18Mukha", 101), ("_72_5mmRPG22Netto", 102), ("_72_5mmRPG26Aglen", 103),
     ("_105mmRPG29Vampir", 104), ("_105mmRPG30Kryuk", 105), ("_105mmRPG32Nashshab", 106), ("_40mmRPG7", 110),
     ("_40mmPSRL1", 111), ("_40mmGS777PSRL2", 112), ("_68mmRPG76Komar", 120), ("_120mmSEPDard120", 125),
     ("_58mmWASP58", 128), ("_73mmLRAC7350", 130), ("_89mmLRAC89F1STRIM", 131), ("_90mmMATADOR", 135),
     ("_90mmMATADORMP", 136), ("_90mmMATADORWB", 137), ("_90mmMATADORAS", 138),
     ("_78mmMARAAntiTankRocketLauncher", 140), ("_120mmType98PF98", 145)]⟩),
  (LifeFormHumanSpecificAntiTankMissiles.spec, ⟨1, 0, [
     ("Other", 0), ("_120mmType64MATKAM3", 30), ("_153mmType79JyuMATKAM9", 31), ("_120mmType87ChuMAT", 32),
     ("_140mmType01LMAT", 33), ("_140mmM47Dragon", 58), ("_140mmSaeghe12", 59), ("_127mmFGM148Javelin", 60),
     ("_139mmFGM172SRAW", 63), ("_139mmFGM172BSRAWMPV", 64), ("_152mmBGM71TOW", 68), ("_152mmOrevTOWII", 69),
     ("_120mmVickersVigilantClevite", 75), ("_110mmBantam", 80), ("_150mmRBS56BILL1", 81),
     ("_150mmRBS562BILL2", 82), ("_130mmSpikeSR", 85), ("_130mmSpikeMR", 86), ("_130mmSpikeLR", 87),
     ("_60mmMosquito", 95), ("_160mmSS_10", 98), ("_103mmMILAN", 100), ("_115mmMILAN2", 101),
     ("_115mmMILAN2T", 102), ("_115mmMILAN3", 103), ("_115mmMILANER", 104), ("_136mmERYX", 105),
     ("_152mmEntac", 107), ("_125mmRAAD", 110), ("_125mmIRAADT", 111), ("_152mmToophan", 112),
     ("_152mmToophan2", 113), ("_152mmToophan5", 114), ("_136mmBumbar", 120), ("_130mmShershenPK2", 125),
     ("_152mmShershenQP2B", 126), ("_130mmMectronMSS1_2", 130), ("_120mmHJ8", 140), ("_120mmHJ8A", 141),
     ("_120mmHJ8B", 142), ("_120mmHJ8C", 143), ("_120mmHJ8D", 144), ("_120mmHJ8E", 145), ("_120mmHJ8F", 146),
     ("_120mmHJ8FAE", 147), ("_120mmHJ8L", 148), ("_120mmHJ8H", 149), ("_120mmHJ8S", 150),
     ("_120mmBaktarShikan", 151), ("_120mmHJ11", 152), ("_152mmHJ9A", 153), ("_135mmHJ12RedArrow", 154),
     ("_125mmHJ73MCLOS", 155), ("_125mmHJ73BSACLOS", 156), ("_125mmHJ73CSACLOSERA", 157),
     ("_125mmAT3SaggerA9M14Malyutka", 170), ("_125mmAT3BSaggerB9M14MMalyutkaM", 171),
     ("_125mmAT3CSaggerC9M14PMalyutkaP", 172), ("_125mmAT3DSaggerD9M142Malyutka2", 173),
     ("_125mmSusongPo", 174), ("_125mmAT3CPOLK", 175), ("_125mmKunWu1", 176), ("_125mmMaliutkaM2T", 177),
     ("_120mmAT4ASpigotA9M111Fagot", 178), ("_120mmAT4BSpigotB9M1112Fagot", 179),
     ("_120mmAT4CSpigotC9M111MFaktoriya", 180), ("_135mmAT5ASpandrel9M113Kronkurs", 181),
     ("_135mmAT5BSpandrel9M113MKronkursM", 182), ("_135mmTosan", 183), ("_94mmAT7Saxhorn9K115Metis", 184),
     ("_130mmAT13Saxhorn29K1152MetisM", 185), ("_152mmAT14Spriggan9M133Kornet", 186),
     ("_152mmDehlavie", 187), ("_102mmMathogo", 200)]⟩),
  (LifeFormHumanSpecificManPortableAirDefenseSystem.spec, ⟨1, 0, [
     ("Other", 0), ("_70mmFIM43Redeye", 1), ("_70mmFIM92Stinger", 2), ("_76mmBlowpipe", 10),
     ("_76mmStarburst", 11), ("_130mmStarstreakHVM", 12), ("_90mmMistral", 15), ("_72mm9K32MStrela2", 20),
     ("_72mm9K36Strela3", 21), ("_72mm9K38Igla", 22), ("_72mm9K310IglaM", 23), ("_72mm9K333Verba", 24),
     ("_72mm9K338IglaS", 25), ("_72mm9K32MStrela2M", 26), ("_72mmHN5HongYing5", 30),
     ("_72mmQW1Vanguard", 31), ("_72mmQW2Vanguard2", 32), ("_90mmQW3", 33), ("_72mmFN6", 34),
     ("_71mmMisagh1", 45), ("_71mmMisagh2", 46), ("_80mmType91KinSAM", 50), ("_80mmKPSAMShunGung", 55),
     ("_106mmRBS70", 60)]⟩),
  (LifeFormHumanSpecificRecoillessRifles.spec, ⟨1, 0, [
     ("Other", 0), ("_84mmM136AT4CS", 15), ("_57mmM18RR", 20), ("_75mmM20RR", 21),
     ("_120mmM28DavyCrockett", 22), ("_155mmM29DavyCrockett", 23), ("_106mmM40RecoillessRifle", 24),
     ("_82mmM60RR", 25), ("_90mmM67RR", 26), ("_84mmM1CarlGustav", 30), ("_84mmM2CarlGustav", 31),
     ("_84mmM3CarlGustav", 32), ("_84mmM4CarlGustav", 33), ("_74mmPansarskottm68Miniman", 35),
     ("_84mmALAC", 40), ("_82mmB10RR", 45), ("_107mmB11RR", 46), ("_80mmBredaFolgore", 50),
     ("_120mmBATRR", 55), ("_73mmSPG9Kopye", 60), ("_88mmRCL3_45in", 65), ("_90mmPvpj110", 70),
     ("_50mmJagdfaust", 75), ("_30mmRheinmetallRMK30", 80), ("_88mm55S55Raikka", 90), ("_95mm95S5861", 91),
     ("_73mmLG40", 95), ("_105mmLG40", 96), ("_105mmLG42", 97)]⟩),
  (LifeFormHumanSpecificFlameRockets.spec, ⟨1, 0, [
     ("Other", 0), ("_66mmM202Flash", 20), ("_62mmFHJ84", 30), ("_90mmC90CRFIM", 40), ("_93mmRPOAShmel", 50),
     ("_93mmRPOZShmel", 51), ("_93mmRPODShmel", 52)]⟩),
  (LifeFormHumanSpecificFlameThrowers.spec, ⟨1, 0, [
     ("Other", 0), ("Handflammpatrone", 10), ("FmW41", 11), ("M1A1", 20), ("M2A17", 21), ("M9A17", 22),
     ("LPO50", 30), ("KPattern", 35), ("PortableNo2AckPack", 36), ("Marsden", 37), ("Harvey", 38),
     ("ROKS2", 45), ("ROKS3", 46), ("Type93", 50), ("Type100", 51)]⟩),
  (LifeFormHumanSpecificDroneGuns.spec, ⟨1, 0, [
     ("Other", 0), ("DroneGunTactical", 15), ("DroneGunMKII", 16)]⟩),
  (LifeFormHumanSpecificLogisticsEQClass.spec, ⟨1, 1, [
     ("SlingLoadPendant", 1)]⟩),
  (LifeFormHumanSpecificPersonalElectronicsClass.spec, ⟨1, 1, [
     ("CellPhone", 1)]⟩),
  (LifeFormHumanSpecificLasersClass.spec, ⟨1, 1, [
     ("GenericLaserDesignator", 1), ("GenericLaserPointer", 2)]⟩),
  (TransmitterDetailSATCOMModulation.spec, .numbered 2 [
     "Other", "NoDelay"])]

/-- The standard's tables for enumerations that occur in no message (6). -/
def restSisoTables6 : List (EnumSpec × SisoTable) := [
  (SupplyDomain.spec, .numbered 1 [
     "NotUsed", "Class1Subsistence", "Class2ClothingIndividualEquipmentToolsAdminSupplies",
     "Class3PetroleumOilsLubricants", "Class4ConstructionMaterials", "Class5Ammunition",
     "Class6PersonnelDemandItems", "Class7MajorItems", "Class8MedicalMaterial",
     "Class9RepairPartsandComponents", "Class10MaterialtoSupportNonMilitaryPrograms", "Class11Supplies",
     "Class12SlingLoads"]),
  (Class1SupplyCategorySubsistence.spec, ⟨1, 1, [
     ("Other", 1), ("ANonPerishable", 2), ("CCombatRations", 3), ("RRefrigerated", 4),
     ("SOtherNonRefrigerated", 5), ("WWater", 6)]⟩),
  (Class2SupplyCategoryClothingIndividualEquipmentToolsAdminSupplies.spec, ⟨1, 1, [
     ("Other", 1), ("AAir", 2), ("BGroundSupportMateriel", 3), ("EGeneralSupplies", 4), ("FClothing", 5),
     ("GElectronics", 6), ("MWeapons", 7), ("TIndustrialSupplies", 8)]⟩),
  (Class3SupplyCategoryPetroleumOilsLubricants.spec, ⟨1, 1, [
     ("Other", 1), ("APOLforAirVehicles", 2), ("WPOLforLandVehicles", 3), ("PPackagedPOL", 4)]⟩),
  (Class4SupplyCategoryConstructionMaterials.spec, ⟨1, 1, [
     ("Other", 1), ("AConstruction", 2), ("BBarrier", 3)]⟩),
  (Class6SupplyCategoryPersonnelDemandItems.spec, ⟨1, 1, [
     ("Other", 1)]⟩),
  (Class7SupplyCategoryMajorItems.spec, ⟨1, 1, [
     ("Other", 1), ("AAir", 2), ("BGroundSupportMateriel", 3), ("DAdminVehicles", 4), ("GElectronics", 5),
     ("JRacksAdaptorsPylons", 6), ("KTacticalVehicles", 7), ("LMissiles", 8), ("MWeapons", 9),
     ("NSpecialWeapons", 10), ("XAircraftEngines", 11), ("DropTank", 20), ("ConformalFuelTank", 21),
     ("LuggagePod", 22), ("ECMPod", 23), ("ParaDrogue", 24), ("TargetingPod", 25), ("Fairing", 26),
     ("AirRefuellingPod", 27), ("HeavyAirdrop", 28), ("ContainerDeliverySystemAirdrop", 29),
     ("RocketPodLauncher", 30), ("TacticalPod", 31), ("RECCEpod", 32), ("FLIRpod", 33)]⟩),
  (Class8SupplyCategoryMedicalMaterial.spec, ⟨1, 1, [
     ("Other", 1), ("AMedicalMateriel", 2), ("BBloodFluids", 3)]⟩),
  (Class9SupplyCategoryRepairPartsandComponents.spec, ⟨1, 1, [
     ("Other", 1), ("AAir", 2), ("BGroundSupportMateriel", 3), ("DAdminVehicles", 4), ("GElectronics", 5),
     ("KTacticalVehicles", 6), ("LMissiles", 7), ("MWeapons", 8), ("NSpecialWeapons", 9),
     ("XAircraftEngines", 10)]⟩),
  (Class10SupplyCategoryMaterialToSupportNonMilitaryPrograms.spec, ⟨1, 1, [
     ("Other", 1)]⟩),
  (Class11SupplyCategorySupplies.spec, ⟨1, 1, [
     ("Other", 1), ("Pallets", 2), ("FuelTanksDrumsandBladders", 3), ("Chests", 4), ("Boxes", 5)]⟩),
  (Class12SupplyCategorySlingLoads.spec, ⟨1, 1, [
     ("Other", 1), ("SlingLoadBlivet", 2), ("SlingLoadCrate", 3), ("SlingLoadWaterBucket", 4),
     ("SlingLoadVehicles", 5), ("SlingLoadHowitzer", 6), ("SlingLoadCollapsible", 7),
     ("SlingLoadBladder", 8), ("SlingLoadPalletofCrates", 9), ("SlingLoadHelicopters", 10),
     ("SlingLoadHoist", 11), ("SlingLoadConcreteBlock", 12)]⟩),
  (LifeSavingEquipment.spec, ⟨1, 1, [
     ("Lifeboat", 1), ("Liferaft", 2), ("MOBBoat", 3), ("Lifebuoy", 4)]⟩),
  (IslandSubcategory.spec, .numbered 2 [
     "Other", "Islands10002499km2", "Islands25004999km2", "Islands50009999km2", "Islands1000024999km2",
     "Islands2500099999km2", "Islands100000km2andGreater"]),
  (Link11MessageSubType.spec, .numbered 1 [
     "NoStatement", "Interrogation", "DataStart", "Data", "DataStop"]),
  (Link11MessageTypeIdentifier.spec, .numbered 1 [
     "NoStatement", "NetTest", "RollCall", "PicketReply", "ShortBroadcast", "Broadcast", "NetSync"]),
  (Link11DataSignallingRate.spec, .numbered 1 [
     "NoStatement", "_1364bps", "_2250bps", "_1200bps", "_2400bps"]),
  (Link11SignalIntegrationInterval.spec, .numbered 1 [
     "NoStatement", "_9ms", "_18ms"]),
  (Link11SignalWaveform.spec, .numbered 1 [
     "NoStatementCLEWFormat", "ConventionalLinkElevenWaveform", "SingleToneLinkElevenWaveform"]),
  (Link11_11BEncryptionFlag.spec, .numbered 1 [
     "NoEncryptionUsed", "EncryptionUsed"]),
  (SISOSTD002Version.spec, .numbered 1 [
     "SISOSTD0022006", "SISOSTD0022021"]),
  (Link11BLinkState.spec, .numbered 1 [
     "NoStatement", "Inactive", "Ready", "Active", "Operational"]),
  (Link11BModeofOperation.spec, .numbered 2 [
     "NoStatement", "FullTransmissionofData", "LimitedTransmissionofData", "Receiveonly"]),
  (Link11BMessageSubType.spec, .numbered 1 [
     "NoStatement", "TransmissionFrame", "StandbySignal"]),
  (Link11BDataSignalingRate.spec, ⟨1, 0, [
     ("NoStatement", 0), ("_1200bps", 3), ("_2400bps", 4), ("_600bps", 5)]⟩),
  (Link11BModulationStandard.spec, .numbered 1 [
     "NoStatement", "CCITTV_23"]),
  (CIGIExtensionPacketID.spec, ⟨2, 4096, [
     ("ImageCaptureRequestpacketID", 4096), ("ImageCaptureResponsepacketID", 4097),
     ("StateNotificationRequestPacketID", 4098), ("StateNotificationResponsePacketID", 4099),
     ("GlobalRefFrameDefPacketID", 5000)]⟩),
  (Link16Version.spec, ⟨1, 0, [
     ("NoStatement", 0), ("MILSTD6016C", 1), ("MILSTD6016D", 2), ("MILSTD6016E", 3), ("MILSTD6016F", 4),
     ("MILSTD6016FC1", 5), ("STANAG5516Ed3", 103), ("STANAG5516Ed4", 104), ("STANAG5516Ed5", 105),
     ("STANAG5516Ed6", 106), ("STANAG5516Ed8", 108)]⟩),
  (AircraftIDSource.spec, .numbered 1 [
     "ModeSAircraftIdentificationFieldValue", "GICBIFFDataRecordAvailable"]),
  (ClothingIRSignature.spec, .numbered 1 [
     "StandardClothing", "Camouflage", "ThermalBlanket", "Other"]),
  (DamageArea.spec, .numbered 1 [
     "DamageArea1orNotApplicableifDamageAreasarenotdefined_", "DamageArea2", "DamageArea3", "DamageArea4",
     "DamageArea5", "DamageArea6", "DamageArea7", "DamageArea8"])]

/-- All tables. -/
def allSisoTables : List (EnumSpec × SisoTable) :=
  sisoTables ++ moreSisoTables ++ restSisoTables1 ++ restSisoTables2 ++ restSisoTables3 ++ restSisoTables4 ++ restSisoTables5 ++ restSisoTables6

end Dis
