import Verif.Model.EnumCore
/- Generated by tools/gen_enums.py from /repo/src/common/enums.rs. -/
set_option maxRecDepth 20000
namespace Dis

/-- src/common/enums.rs:20-30 (default variant `IEEE1278_1_2012`) -/
def ProtocolVersion.spec : EnumSpec where
  name := "ProtocolVersion"
  repr := .u8
  default := 7
  variants := [
    ("Other", 0), ("DIS_PDUv1", 1), ("IEEE1278_1993", 2), ("DIS_PDUv2_Third_Draft", 3),
    ("DIS_PDUv2_Fourth_Draft_Revised", 4), ("IEEE1278_1_1995", 5), ("IEEE1278_1A_1998", 6),
    ("IEEE1278_1_2012", 7)
  ]
/-- src/common/enums.rs:20-30 -/
abbrev ProtocolVersion := EnumVal ProtocolVersion.spec
/-- src/common/enums.rs:32-37 -/
abbrev ProtocolVersion.deserialize : Get ProtocolVersion := ProtocolVersion.spec.deserialize

/-- src/common/enums.rs:41-116 (default variant `Other`) -/
def PduType.spec : EnumSpec where
  name := "PduType"
  repr := .u8
  default := 0
  variants := [
    ("Other", 0), ("EntityState", 1), ("Fire", 2), ("Detonation", 3), ("Collision", 4), ("ServiceRequest", 5),
    ("ResupplyOffer", 6), ("ResupplyReceived", 7), ("ResupplyCancel", 8), ("RepairComplete", 9),
    ("RepairResponse", 10), ("CreateEntity", 11), ("RemoveEntity", 12), ("StartResume", 13),
    ("StopFreeze", 14), ("Acknowledge", 15), ("ActionRequest", 16), ("ActionResponse", 17), ("DataQuery", 18),
    ("SetData", 19), ("Data", 20), ("EventReport", 21), ("Comment", 22), ("ElectromagneticEmission", 23),
    ("Designator", 24), ("Transmitter", 25), ("Signal", 26), ("Receiver", 27), ("IFF", 28),
    ("UnderwaterAcoustic", 29), ("SupplementalEmission", 30), ("IntercomSignal", 31), ("IntercomControl", 32),
    ("AggregateState", 33), ("IsGroupOf", 34), ("TransferOwnership", 35), ("IsPartOf", 36),
    ("MinefieldState", 37), ("MinefieldQuery", 38), ("MinefieldData", 39), ("MinefieldResponseNack", 40),
    ("EnvironmentalProcess", 41), ("GriddedData", 42), ("PointObjectState", 43), ("LinearObjectState", 44),
    ("ArealObjectState", 45), ("TimeSpacePositionInformation", 46), ("Appearance", 47),
    ("ArticulatedParts", 48), ("LiveEntityFire", 49), ("LiveEntityDetonation", 50),
    ("CreateEntityReliable", 51), ("RemoveEntityReliable", 52), ("StartResumeReliable", 53),
    ("StopFreezeReliable", 54), ("AcknowledgeReliable", 55), ("ActionRequestReliable", 56),
    ("ActionResponseReliable", 57), ("DataQueryReliable", 58), ("SetDataReliable", 59), ("DataReliable", 60),
    ("EventReportReliable", 61), ("CommentReliable", 62), ("RecordReliable", 63), ("SetRecordReliable", 64),
    ("RecordQueryReliable", 65), ("CollisionElastic", 66), ("EntityStateUpdate", 67),
    ("DirectedEnergyFire", 68), ("EntityDamageStatus", 69), ("InformationOperationsAction", 70),
    ("InformationOperationsReport", 71), ("Attribute", 72)
  ]
/-- src/common/enums.rs:41-116 -/
abbrev PduType := EnumVal PduType.spec
/-- src/common/enums.rs:118-123 -/
abbrev PduType.deserialize : Get PduType := PduType.spec.deserialize

/-- src/common/enums.rs:127-143 (default variant `Other`) -/
def ProtocolFamily.spec : EnumSpec where
  name := "ProtocolFamily"
  repr := .u8
  default := 0
  variants := [
    ("Other", 0), ("EntityInformation", 1), ("Warfare", 2), ("Logistics", 3), ("RadioCommunications", 4),
    ("SimulationManagement", 5), ("DistributedEmissionRegeneration", 6), ("EntityManagement", 7),
    ("Minefield", 8), ("SyntheticEnvironment", 9), ("SimulationManagementWithReliability", 10),
    ("LiveEntityInformationInteraction", 11), ("NonRealTime", 12), ("InformationOperations", 13)
  ]
/-- src/common/enums.rs:127-143 -/
abbrev ProtocolFamily := EnumVal ProtocolFamily.spec
/-- src/common/enums.rs:145-150 -/
abbrev ProtocolFamily.deserialize : Get ProtocolFamily := ProtocolFamily.spec.deserialize

/-- src/common/enums.rs:154-187 (default variant `Other`) -/
def ForceId.spec : EnumSpec where
  name := "ForceId"
  repr := .u8
  default := 0
  variants := [
    ("Other", 0), ("Friendly", 1), ("Opposing", 2), ("Neutral", 3), ("Friendly2", 4), ("Opposing2", 5),
    ("Neutral2", 6), ("Friendly3", 7), ("Opposing3", 8), ("Neutral3", 9), ("Friendly4", 10),
    ("Opposing4", 11), ("Neutral4", 12), ("Friendly5", 13), ("Opposing5", 14), ("Neutral5", 15),
    ("Friendly6", 16), ("Opposing6", 17), ("Neutral6", 18), ("Friendly7", 19), ("Opposing7", 20),
    ("Neutral7", 21), ("Friendly8", 22), ("Opposing8", 23), ("Neutral8", 24), ("Friendly9", 25),
    ("Opposing9", 26), ("Neutral9", 27), ("Friendly10", 28), ("Opposing10", 29), ("Neutral10", 30)
  ]
/-- src/common/enums.rs:154-187 -/
abbrev ForceId := EnumVal ForceId.spec
/-- src/common/enums.rs:189-194 -/
abbrev ForceId.deserialize : Get ForceId := ForceId.spec.deserialize
/-- src/common/enums.rs:196-200 -/
instance : FieldSerialize ForceId := ⟨fun x => putU8 x.asU8⟩
/-- src/common/enums.rs:202-206 -/
instance : FieldDeserialize ForceId := ⟨ForceId.deserialize⟩
/-- src/common/enums.rs:208-212 -/
instance : FieldLen ForceId := ⟨fun _ => 1⟩

/-- src/common/enums.rs:216-228 (default variant `Other`) -/
def EntityKind.spec : EnumSpec where
  name := "EntityKind"
  repr := .u8
  default := 0
  variants := [
    ("Other", 0), ("Platform", 1), ("Munition", 2), ("LifeForm", 3), ("Environmental", 4),
    ("CulturalFeature", 5), ("Supply", 6), ("Radio", 7), ("Expendable", 8), ("SensorEmitter", 9)
  ]
/-- src/common/enums.rs:216-228 -/
abbrev EntityKind := EnumVal EntityKind.spec
/-- src/common/enums.rs:230-235 -/
abbrev EntityKind.deserialize : Get EntityKind := EntityKind.spec.deserialize

/-- src/common/enums.rs:239-247 (default variant `Other`) -/
def OtherKinds.spec : EnumSpec where
  name := "OtherKinds"
  repr := .u8
  default := 0
  variants := [
    ("Other", 0), ("Land", 1), ("Air", 2), ("Surface", 3), ("Subsurface", 4), ("Space", 5)
  ]
/-- src/common/enums.rs:239-247 -/
abbrev OtherKinds := EnumVal OtherKinds.spec
/-- src/common/enums.rs:249-254 -/
abbrev OtherKinds.deserialize : Get OtherKinds := OtherKinds.spec.deserialize

/-- src/common/enums.rs:258-318 (default variant `Other`) -/
def LandDomainCategories.spec : EnumSpec where
  name := "LandDomainCategories"
  repr := .u8
  default := 0
  variants := [
    ("Other", 0), ("Tank", 1), ("ArmoredFightingVehicle", 2), ("ArmoredUtilityVehicle", 3),
    ("SelfPropelledArtillery", 4), ("TowedArtillery", 5), ("SmallWheeledUtilityVehicle", 6),
    ("LargeWheeledUtilityVehicle", 7), ("SmallTrackedUtilityVehicle", 8), ("LargeTrackedUtilityVehicle", 9),
    ("Mortar", 10), ("MinePlow", 11), ("MineRake", 12), ("MineRoller", 13), ("CargoTrailer", 14),
    ("FuelTrailer", 15), ("GeneratorTrailer", 16), ("WaterTrailer", 17), ("EngineerEquipment", 18),
    ("HeavyEquipmentTransportTrailer", 19), ("MaintenanceEquipmentTrailer", 20), ("Limber", 21),
    ("ChemicalDecontaminationTrailer", 22), ("WarningSystem", 23), ("TrainEngine", 24), ("TrainCar", 25),
    ("TrainCaboose", 26), ("CivilianVehicle", 27), ("AirDefenseMissileDefenseUnitEquipment", 28),
    ("C3ISystem", 29), ("OperationsFacility", 30), ("IntelligenceFacility", 31), ("SurveillanceFacility", 32),
    ("CommunicationsFacility", 33), ("CommandFacility", 34), ("C4IFacility", 35), ("ControlFacility", 36),
    ("FireControlFacility", 37), ("MissileDefenseFacility", 38), ("FieldCommandPost", 39),
    ("ObservationPost", 40), ("MineFlail", 41), ("Unmanned", 50), ("Motorcycle", 80), ("Car", 81),
    ("Bus", 82), ("SingleUnitCargoTruck", 83), ("SingleUnitUtilityEmergencyTruck", 84),
    ("MultipleUnitCargoTruck", 85), ("MultipleUnitUtilityEmergencyTruck", 86),
    ("ConstructionSpecialtyVehicle", 87), ("FarmSpecialtyVehicle", 88), ("Trailer", 89), ("Recreational", 90),
    ("NonMotorized", 91), ("Trains", 92), ("UtilityEmergencyCar", 93)
  ]
/-- src/common/enums.rs:258-318 -/
abbrev LandDomainCategories := EnumVal LandDomainCategories.spec
/-- src/common/enums.rs:320-325 -/
abbrev LandDomainCategories.deserialize : Get LandDomainCategories := LandDomainCategories.spec.deserialize

/-- src/common/enums.rs:329-365 (default variant `Other`) -/
def AirDomainCategories.spec : EnumSpec where
  name := "AirDomainCategories"
  repr := .u8
  default := 0
  variants := [
    ("Other", 0), ("FighterAirDefense", 1), ("AttackStrike", 2), ("Bomber", 3), ("CargoTanker", 4),
    ("ASWPatrolObservation", 5), ("ElectronicWarfare", 6), ("Reconnaissance", 7), ("SurveillanceC2", 8),
    ("AirSeaRescue", 9), ("AttackHelicopter", 20), ("UtilityHelicopter", 21),
    ("AntiSubmarineWarfarePatrolHelicopter", 22), ("CargoHelicopter", 23), ("ObservationHelicopter", 24),
    ("SpecialOperationsHelicopter", 25), ("TrainingHelicopter", 26), ("Trainer", 40), ("Unmanned", 50),
    ("NonCombatantCommercialAircraft", 57), ("CivilianUltralightAircraftNonrigidWing", 80),
    ("CivilianUltralightAircraftRigidWing", 81), ("CivilianFixedWingAircraftGlider", 83),
    ("CivilianFixedWingAircraftLightSport", 84), ("CivilianFixedWingAircraftSmall", 85),
    ("CivilianFixedWingAircraftMedium", 86), ("CivilianFixedWingAircraftLarge", 87),
    ("CivilianFixedWingAircraftHeavy", 88), ("CivilianHelicopterSmall", 90), ("CivilianHelicopterMedium", 91),
    ("CivilianHelicopterLarge", 92), ("CivilianAutogyro", 93), ("CivilianLighterthanAirBalloon", 100),
    ("CivilianLighterthanAirAirship", 101)
  ]
/-- src/common/enums.rs:329-365 -/
abbrev AirDomainCategories := EnumVal AirDomainCategories.spec
/-- src/common/enums.rs:367-372 -/
abbrev AirDomainCategories.deserialize : Get AirDomainCategories := AirDomainCategories.spec.deserialize

/-- src/common/enums.rs:376-426 (default variant `Other`) -/
def SurfaceDomainCategories.spec : EnumSpec where
  name := "SurfaceDomainCategories"
  repr := .u8
  default := 0
  variants := [
    ("Other", 0), ("Carrier", 1), ("CommandShipCruiser", 2), ("GuidedMissileCruiser", 3),
    ("GuidedMissileDestroyer", 4), ("Destroyer", 5), ("GuidedMissileFrigate", 6), ("LightPatrolCraft", 7),
    ("MineCountermeasureShipCraft", 8), ("DockLandingShip", 9), ("TankLandingShip", 10), ("LandingCraft", 11),
    ("LightCarrier", 12), ("CruiserHelicopterCarrier", 13), ("Hydrofoil", 14),
    ("AirCushionSurfaceEffect", 15), ("Auxiliary", 16), ("AuxiliaryMerchantMarine", 17), ("Utility", 18),
    ("UnmannedSurfaceVehicle", 19), ("LittoralCombatShips", 20), ("SurveillanceShip", 21), ("Frigate", 50),
    ("Battleship", 51), ("HeavyCruiser", 52), ("DestroyerTender", 53), ("AmphibiousAssaultShip", 54),
    ("AmphibiousCargoShip", 55), ("AmphibiousTransportDock", 56), ("AmmunitionShip", 57),
    ("CombatStoresShip", 58), ("SurveillanceTowedArraySonarSystem", 59), ("FastCombatSupportShip", 60),
    ("NonCombatantShip", 61), ("CoastGuardCutters", 62), ("CoastGuardBoats", 63), ("FastAttackCraft", 64),
    ("InflatableBoat", 65), ("PassengerVessel", 80), ("DryCargoShip", 81), ("Tanker", 82),
    ("OffshoreSupportVessel", 83), ("PrivateMotorboat", 84), ("PrivateSailboat", 85), ("FishingVessel", 86),
    ("OtherVessels", 87), ("SearchandRescueVessels", 100), ("LifeSavingEquipment", 101)
  ]
/-- src/common/enums.rs:376-426 -/
abbrev SurfaceDomainCategories := EnumVal SurfaceDomainCategories.spec
/-- src/common/enums.rs:428-433 -/
abbrev SurfaceDomainCategories.deserialize : Get SurfaceDomainCategories := SurfaceDomainCategories.spec.deserialize

/-- src/common/enums.rs:437-459 (default variant `Other`) -/
def SubsurfaceDomainCategories.spec : EnumSpec where
  name := "SubsurfaceDomainCategories"
  repr := .u8
  default := 0
  variants := [
    ("Other", 0), ("SSBN", 1), ("SSGN", 2), ("SSN", 3), ("SSG", 4), ("SS", 5), ("SSAN", 6), ("SSA", 7),
    ("UnmannedUnderwaterVehicle", 8), ("SSB", 9), ("SSC", 10), ("SSP", 11), ("SSM", 12), ("SSNR", 13),
    ("SST", 14), ("AGSS", 15), ("SemiSubmersibleBoats", 16), ("CivilianSubmarines", 80),
    ("CivilianSubmersibles", 81), ("CivilianSemiSubmersibleBoats", 82)
  ]
/-- src/common/enums.rs:437-459 -/
abbrev SubsurfaceDomainCategories := EnumVal SubsurfaceDomainCategories.spec
/-- src/common/enums.rs:461-466 -/
abbrev SubsurfaceDomainCategories.deserialize : Get SubsurfaceDomainCategories := SubsurfaceDomainCategories.spec.deserialize

/-- src/common/enums.rs:470-485 (default variant `Other`) -/
def SpaceDomainCategories.spec : EnumSpec where
  name := "SpaceDomainCategories"
  repr := .u8
  default := 0
  variants := [
    ("Other", 0), ("MannedSpacecraft", 1), ("Unmanned", 2), ("Booster", 3), ("Debris", 10),
    ("SatelliteUnknownUnspecifiedMission", 11), ("SatelliteCommunication", 12), ("SatelliteNavigation", 13),
    ("SatelliteScienceExperimentalDemonstration", 14), ("SatelliteInert", 15),
    ("SatelliteEarthObservation", 16), ("SatelliteSpaceSurveillance", 17), ("SatelliteAstronomy", 18)
  ]
/-- src/common/enums.rs:470-485 -/
abbrev SpaceDomainCategories := EnumVal SpaceDomainCategories.spec
/-- src/common/enums.rs:487-492 -/
abbrev SpaceDomainCategories.deserialize : Get SpaceDomainCategories := SpaceDomainCategories.spec.deserialize

/-- src/common/enums.rs:496-511 (default variant `Other`) -/
def MunitionKind.spec : EnumSpec where
  name := "MunitionKind"
  repr := .u8
  default := 0
  variants := [
    ("Other", 0), ("AntiAir", 1), ("AntiArmor", 2), ("AntiGuidedWeapon", 3), ("AntiRadar", 4),
    ("AntiSatellite", 5), ("AntiShip", 6), ("AntiSubmarine", 7), ("AntiPersonnel", 8),
    ("BattlefieldSupport", 9), ("Strategic", 10), ("Tactical", 11), ("DirectedEnergyWeapon", 12)
  ]
/-- src/common/enums.rs:496-511 -/
abbrev MunitionKind := EnumVal MunitionKind.spec
/-- src/common/enums.rs:513-518 -/
abbrev MunitionKind.deserialize : Get MunitionKind := MunitionKind.spec.deserialize

/-- src/common/enums.rs:522-528 (default variant `Other`) -/
def MunitionCategory.spec : EnumSpec where
  name := "MunitionCategory"
  repr := .u8
  default := 0
  variants := [
    ("Other", 0), ("Guided", 1), ("Ballistic", 2), ("Fixed", 3)
  ]
/-- src/common/enums.rs:522-528 -/
abbrev MunitionCategory := EnumVal MunitionCategory.spec
/-- src/common/enums.rs:530-535 -/
abbrev MunitionCategory.deserialize : Get MunitionCategory := MunitionCategory.spec.deserialize

/-- src/common/enums.rs:540-664 (default variant `AssaultMachinePistolKFAMP`) -/
def USWeaponSubcategories.spec : EnumSpec where
  name := "USWeaponSubcategories"
  repr := .u8
  default := 1
  variants := [
    ("AssaultMachinePistolKFAMP", 1), ("AutomaticModel1911A1_45", 2), ("CombatMasterMarkVI_45Detronics", 3),
    ("DecockerKP90DC_45", 4), ("DecockerKP91DC_40", 5), ("GeneralOfficersModel15_45", 6),
    ("Nova9mmLaFrance", 7), ("PersonalDefenseWeaponMP5KPDW9mm", 8), ("SilencedColt_45LaFrance", 9),
    ("_5900Series9mmSmithWessonSW", 10), ("M9", 11), ("Model1911A1SpringfieldArmory", 12),
    ("Model20009mm", 13), ("P99mmSpringfieldArmory", 14), ("P129mm", 15), ("P85MarkII9mmRuger", 16),
    ("AdvancedCombatRifle5_56mmAAI", 17), ("CommandoAssaultRifleModel7335_56mmColt", 18),
    ("InfantryRifleMini1420GB5_56mmRuger", 19), ("Mini145_56mmRuger", 20), ("MiniThirty7_62mmRuger", 21),
    ("SemiAutomaticModel82A2_50Barrett", 22), ("SniperWeaponSystemM247_62mm", 23),
    ("SnipingRifleM21SpringfieldArmory", 24), ("SnipingRifleM40A17_62mm", 25), ("SnipingRifleM6007_62mm", 26),
    ("AR15M165_56mm", 27), ("M1_30_1", 28), ("M147_62mmNATO", 29), ("M14M1AM1A1A1SpringfieldArmory", 30),
    ("M14KAssaultRifleLaFrance", 31), ("M16A2AssaultRifle5_56mmColt", 32), ("M217_62mmU_S_", 33),
    ("M77MarkII5_56mmRuger", 34), ("M77V7_62mmRuger", 35), ("S167_62x36mmGrendel", 36), ("SAR87_62mm", 37),
    ("SAR48007_62mm", 38), ("AssaultCarbineM16KLaFrance", 39), ("M1_30_2", 40), ("M4Model7205_56mmColt", 41),
    ("M9009mmCalico", 42), ("AC556F5_56mmRuger", 43), ("M3_45", 44), ("M11Cobray", 45), ("M9519mmCalico", 46),
    ("MP51010mm", 47), ("_9mmColt", 48), ("Ingram", 49), ("ExternallyPoweredEPG7_62mmAres", 50),
    ("GECAL50", 51), ("GeneralPurposeM607_62mm", 52), ("HeavyM2HBQCB_50RAMO", 53),
    ("LightassaultM60E3Enhanced7_62mm", 54), ("LightM16A25_56mmColt", 55), ("Light5_56mmAres", 56),
    ("LightweightM2_50RAMO", 57), ("LightweightAssaultM60E37_62mm", 58),
    ("MinigunM1347_62mmGeneralElectric", 59), ("MGsystemMK19Mod340mm", 60),
    ("MGsystemorkitM2HBQCB_50SacoDefense", 61), ("M1919A4_30calBrowning", 62), ("_50calBrowning", 63),
    ("ColoredSmokeHandGrenadeM18", 64), ("ColoredSmokeGrenadesFederalLaboratories", 65),
    ("InfraredSmokeGrenadeM76", 66), ("SmokeHandGrenadeANM8HC", 67), ("DelayFragmentationHandGrenadeM61", 68),
    ("DelayFragmentationHandGrenadeM67", 69), ("ImpactFragmentationHandGrenadeM57", 70),
    ("ImpactFragmentationHandGrenadeM68", 71), ("IncendiaryHandGrenadeANM14TH3", 72),
    ("LauncherIM20340mm", 73), ("LauncherM7940mm", 74), ("MultipleGrenadeLauncherMM140mm", 75),
    ("MultiShotPortableFlameWeaponM202A266mm", 76), ("PortableABCM97", 77), ("PortableM2A17", 78),
    ("PortableM9E17", 79), ("DragonMediumAntiArmorMissileM47FGM77A", 80), ("JavelinAAWSM", 81),
    ("LightAntiTankWeaponM72LAWII", 82), ("RedeyeFIM43GeneralDynamics", 83),
    ("SaberDualPurposeMissileSystem", 84), ("StingerFIM92GeneralDynamics", 85),
    ("TOWheavyAntiTankweapon", 86), ("BearTrapAPDevicePancor", 87), ("ChainGunAutomaticWeaponEX347_62mm", 88),
    ("CloseAssaultWeaponSystemCAWSAAI", 89), ("CAWSOlinHecklerAndKoch", 90), ("CrossfireSAMModel88", 91),
    ("DragonAndM16", 92), ("FiringPortWeaponM2315_56mmColt", 93), ("FoxholeDiggerExplosiveKitEXFODA", 94),
    ("InfantrySupportWeaponASP30RM30mm", 95), ("JackhammerMk3A2Pancor", 96),
    ("LightAntiArmorWeaponM136AT4", 97), ("M26A2", 98), ("MasterKeyS", 99), ("Minigun5_56mm", 100),
    ("MultipurposeIndividualMunitionMPIMMarquardt", 101), ("MultipurposeWeaponAT8", 102),
    ("RecoillessRifleM40M40A2andM40A4106mm", 103), ("RecoillessRifleM6790mm", 104), ("RevolverSP101", 105),
    ("RevolverSuperRedhawk_44MagnumRuger", 106), ("RAWRocket140mmBrunswick", 107),
    ("RifleLauncherAntiArmorMunitionRAAMOlin", 108), ("RocketLauncherM203_5in", 109),
    ("RocketLauncherEnhancedM72EseriesHEAT66mm", 110), ("SelectiveFireWeaponAC5565_56mmRuger", 111),
    ("SelectiveFireWeaponAC556F5_56mmRuger", 112), ("ShotgunM870Mk1U_S_MarineCorpsRemington", 113),
    ("SMAWMk19383mmMcDonnellDouglas", 114), ("SMAWDDisposableSMAW", 115),
    ("SquadAutomaticWeaponSAWM2495_56mm", 116), ("TacticalSupportWeapon5012_50calPeregrine", 117),
    ("TelescopedAmmunitionRevolverGunTARG_50calAres", 118), ("UltimateOverUnderCombinationCiener", 119),
    ("M18A1ClaymoreMine", 120), ("Mortar81mm", 121), ("MachinegunM2407_62mm", 134)
  ]
/-- src/common/enums.rs:540-664 -/
abbrev USWeaponSubcategories := EnumVal USWeaponSubcategories.spec
/-- src/common/enums.rs:666-671 -/
abbrev USWeaponSubcategories.deserialize : Get USWeaponSubcategories := USWeaponSubcategories.spec.deserialize

/-- src/common/enums.rs:675-729 (default variant `Automatic9mmStechkin`) -/
def RussiaWeaponSubcategories.spec : EnumSpec where
  name := "RussiaWeaponSubcategories"
  repr := .u8
  default := 201
  variants := [
    ("Automatic9mmStechkin", 201), ("PSM5_45mm", 202), ("Selfloading9mmMakarov", 203),
    ("TT337_62mmTokarev", 204), ("AssaultrifleAKandAKM7_62mm", 205), ("AssaultrifleAK74andAKS745_45mm", 206),
    ("Selfloadingrifle7_62mmSimonov", 207), ("SniperrifleSVD7_62mmDragunov", 208), ("AKSU745_45mm", 209),
    ("PPS437_62mm", 210), ("PPSh417_62mm", 211), ("GeneralpurposePK7_62mm", 212),
    ("HeavyDShK38andModel384612_7mmDegtyarev", 213), ("HeavyNSV12_7mm", 214), ("LightRPD7_62mm", 215),
    ("LightRPK7_62mm", 216), ("LightRPK745_45mm", 217), ("HandGrenadeM75", 218), ("HandGrenadeRGD5", 219),
    ("APHandGrenadeF1", 220), ("ATHandGrenadeRKG3", 221), ("ATHandGrenadeRKG3M", 222),
    ("ATHandGrenadeRKG3T", 223), ("FragmentationHandGrenadeRGN", 224), ("FragmentationHandGrenadeRGO", 225),
    ("SmokeHandGrenadeRDG1", 226), ("Plamyalauncher30mmAGS17", 227), ("RiflemountedlauncherBG1540mm", 228),
    ("LPO50", 229), ("ROKS3", 230), ("CartmountedTPO50", 231), ("GimletSA16", 232), ("GrailSA7", 233),
    ("GremlinSA14", 234), ("SaggerAT3", 235), ("SaxhornAT7", 236), ("SpigotABAT14", 237), ("SA18", 238),
    ("SA19", 239), ("Grad1PmanPortableTripodRocketLauncher122mm", 240), ("LightAntiArmorWeaponRPG18", 241),
    ("LightAntiTankWeaponRPG22", 242), ("MGRPG", 243), ("PortableRocketLauncherRPG16", 244),
    ("RecoillessGun73mmSPG9", 245), ("VATRocketLauncherRPG7", 246), ("Mon50AntiPersonnelMine", 248),
    ("RPG29Vampir", 249), ("LaserDesignator", 250), ("AT4Spigot", 251), ("SA24IglaS", 252),
    ("Type69RPG", 253)
  ]
/-- src/common/enums.rs:675-729 -/
abbrev RussiaWeaponSubcategories := EnumVal RussiaWeaponSubcategories.spec
/-- src/common/enums.rs:731-736 -/
abbrev RussiaWeaponSubcategories.deserialize : Get RussiaWeaponSubcategories := RussiaWeaponSubcategories.spec.deserialize

/-- src/common/enums.rs:740-754 (default variant `LAW80`) -/
def UKWeaponSubcategories.spec : EnumSpec where
  name := "UKWeaponSubcategories"
  repr := .u8
  default := 1
  variants := [
    ("LAW80", 1), ("Blowpipe", 2), ("Javelin", 3), ("_51mmmortar", 4), ("SLR7_62mmrifle", 5),
    ("Sterling9mmsubmachinegun", 6), ("L7A2generalpurposeMG", 7), ("L6WombatRecoillessrifle", 8),
    ("CarlGustav89mmrecoillessrifle", 9), ("SA80Individuallightsupportweapon", 10), ("Trigat", 11),
    ("MilanATmissile", 12)
  ]
/-- src/common/enums.rs:740-754 -/
abbrev UKWeaponSubcategories := EnumVal UKWeaponSubcategories.spec
/-- src/common/enums.rs:756-761 -/
abbrev UKWeaponSubcategories.deserialize : Get UKWeaponSubcategories := UKWeaponSubcategories.spec.deserialize

/-- src/common/enums.rs:765-775 (default variant `ACLSTRIM`) -/
def FrenchWeaponSubcategories.spec : EnumSpec where
  name := "FrenchWeaponSubcategories"
  repr := .u8
  default := 1
  variants := [
    ("ACLSTRIM", 1), ("Mistralmissile", 2), ("MilanATmissile", 3), ("LRACF189mmATrocketlauncher", 4),
    ("FAMASrifle", 5), ("AA52machinegun", 6), ("_58mmriflegrenade", 7), ("FRF1sniperrifle", 8)
  ]
/-- src/common/enums.rs:765-775 -/
abbrev FrenchWeaponSubcategories := EnumVal FrenchWeaponSubcategories.spec
/-- src/common/enums.rs:777-782 -/
abbrev FrenchWeaponSubcategories.deserialize : Get FrenchWeaponSubcategories := FrenchWeaponSubcategories.spec.deserialize

/-- src/common/enums.rs:786-797 (default variant `G3rifle`) -/
def LifeFormsSubcategoryGermanWeapons.spec : EnumSpec where
  name := "LifeFormsSubcategoryGermanWeapons"
  repr := .u8
  default := 1
  variants := [
    ("G3rifle", 1), ("G11rifle", 2), ("P1pistol", 3), ("MG3machinegun", 4), ("Milanmissile", 5),
    ("MP1Uzisubmachinegun", 6), ("Panzerfaust3LightAntiTankWeapon", 7), ("DM19HandGrenade", 8),
    ("DM29HandGrenade", 9)
  ]
/-- src/common/enums.rs:786-797 -/
abbrev LifeFormsSubcategoryGermanWeapons := EnumVal LifeFormsSubcategoryGermanWeapons.spec
/-- src/common/enums.rs:799-804 -/
abbrev LifeFormsSubcategoryGermanWeapons.deserialize : Get LifeFormsSubcategoryGermanWeapons := LifeFormsSubcategoryGermanWeapons.spec.deserialize

/-- src/common/enums.rs:808-816 (default variant `Other`) -/
def EnvironmentalSubcategory.spec : EnumSpec where
  name := "EnvironmentalSubcategory"
  repr := .u8
  default := 0
  variants := [
    ("Other", 0), ("VerySmall", 20), ("Small", 40), ("Medium", 60), ("Large", 80), ("VeryLarge", 100)
  ]
/-- src/common/enums.rs:808-816 -/
abbrev EnvironmentalSubcategory := EnumVal EnvironmentalSubcategory.spec
/-- src/common/enums.rs:818-823 -/
abbrev EnvironmentalSubcategory.deserialize : Get EnvironmentalSubcategory := EnvironmentalSubcategory.spec.deserialize

/-- src/common/enums.rs:827-873 (default variant `Other`) -/
def RadioCategory.spec : EnumSpec where
  name := "RadioCategory"
  repr := .u8
  default := 0
  variants := [
    ("Other", 0), ("VoiceTransmissionReception", 1), ("DataLinkTransmissionReception", 2),
    ("VoiceandDataLinkTransmissionReception", 3), ("InstrumentedLandingSystemGlideslopeTransmitter", 4),
    ("InstrumentedLandingSystemLocalizerTransmitter", 5), ("InstrumentedLandingSystemOuterMarkerBeacon", 6),
    ("InstrumentedLandingSystemMiddleMarkerBeacon", 7), ("InstrumentedLandingSystemInnerMarkerBeacon", 8),
    ("InstrumentedLandingSystem", 9), ("TacticalAirNavigationTACANTransmitter", 10),
    ("TacticalAirNavigationTACANReceiver", 11), ("TacticalAirNavigationTACANTransmitterReceiver", 12),
    ("VariableOmniRangingVORTransmitter", 13),
    ("VariableOmniRangingVORWithDistanceMeasuringEquipmentTransmitter", 14), ("CombinedVORILSReceiver", 15),
    ("CombinedVORTACANTransmitter", 16), ("NonDirectionalBeaconTransmitter", 17),
    ("NonDirectionalBeaconReceiver", 18),
    ("NonDirectionalBeaconWithDistanceMeasuringEquipmentTransmitter", 19), ("DistanceMeasuringEquipment", 20),
    ("Link16Terminal", 21), ("Link11Terminal", 22), ("Link11BTerminal", 23), ("EPLRSSADLTerminal", 24),
    ("F22IntraFlightDataLink", 25), ("F35MultifunctionAdvancedDataLink", 26), ("SINCGARSTerminal", 27),
    ("LBandSATCOMTerminal", 28), ("IBSTerminal", 29), ("GPS", 30), ("TacticalVideo", 31),
    ("AirtoAirMissileDatalink", 32), ("Link16SurrogateforNonNATOTDLTerminal", 33),
    ("MQ19CBandLOSDatalink", 34), ("MQ19KuBandSATCOMDatalink", 35), ("AirtoGroundWeaponDatalink", 36),
    ("AutomaticIdentificationSystem", 37), ("JPALSDataLink", 38), ("CombatSearchandRescueRadio", 40),
    ("CounterUnmannedAircraftSystemRadio", 41), ("EmergencyPositionIndicatingRadioBeacons", 42),
    ("ElectronicAttackSystems", 50), ("TacticalTargetingNetworkTechnology", 51)
  ]
/-- src/common/enums.rs:827-873 -/
abbrev RadioCategory := EnumVal RadioCategory.spec
/-- src/common/enums.rs:875-880 -/
abbrev RadioCategory.deserialize : Get RadioCategory := RadioCategory.spec.deserialize

/-- src/common/enums.rs:884-946 (default variant `Other`) -/
def RadioSubcategory.spec : EnumSpec where
  name := "RadioSubcategory"
  repr := .u8
  default := 0
  variants := [
    ("Other", 0), ("JointElectronicsTypeDesignationSystemNonspecificSeries", 1),
    ("ManufacturerDesignation", 2), ("NationalDesignation", 3), ("JETDSARCSet1", 11), ("JETDSARCSet2", 12),
    ("JETDSARCSet3", 13), ("JETDSARCSet4", 14), ("JETDSBRCSet1", 15), ("JETDSBRCSet2", 16),
    ("JETDSBRCSet3", 17), ("JETDSBRCSet4", 18), ("JETDSCRCSet1", 19), ("JETDSCRCSet2", 20),
    ("JETDSCRCSet3", 21), ("JETDSCRCSet4", 22), ("JETDSDRCSet1", 23), ("JETDSDRCSet2", 24),
    ("JETDSDRCSet3", 25), ("JETDSDRCSet4", 26), ("JETDSFRCSet1", 27), ("JETDSFRCSet2", 28),
    ("JETDSFRCSet3", 29), ("JETDSFRCSet4", 30), ("JETDSGRCSet1", 31), ("JETDSGRCSet2", 32),
    ("JETDSGRCSet3", 33), ("JETDSGRCSet4", 34), ("JETDSKRCSet1", 35), ("JETDSKRCSet2", 36),
    ("JETDSKRCSet3", 37), ("JETDSKRCSet4", 38), ("JETDSMRCSet1", 39), ("JETDSMRCSet2", 40),
    ("JETDSMRCSet3", 41), ("JETDSMRCSet4", 42), ("JETDSPRCSet1", 43), ("JETDSPRCSet2", 44),
    ("JETDSPRCSet3", 45), ("JETDSPRCSet4", 46), ("JETDSSRCSet1", 47), ("JETDSSRCSet2", 48),
    ("JETDSSRCSet3", 49), ("JETDSSRCSet4", 50), ("JETDSTRCSet1", 51), ("JETDSTRCSet2", 52),
    ("JETDSTRCSet3", 53), ("JETDSTRCSet4", 54), ("JETDSVRCSet1", 55), ("JETDSVRCSet2", 56),
    ("JETDSVRCSet3", 57), ("JETDSVRCSet4", 58), ("JETDSWRCSet1", 59), ("JETDSWRCSet2", 60),
    ("JETDSWRCSet3", 61), ("JETDSWRCSet4", 62), ("JETDSZRCSet1", 63), ("JETDSZRCSet2", 64),
    ("JETDSZRCSet3", 65), ("JETDSZRCSet4", 66)
  ]
/-- src/common/enums.rs:884-946 -/
abbrev RadioSubcategory := EnumVal RadioSubcategory.spec
/-- src/common/enums.rs:948-953 -/
abbrev RadioSubcategory.deserialize : Get RadioSubcategory := RadioSubcategory.spec.deserialize

/-- src/common/enums.rs:957-971 (default variant `Other`) -/
def ExpendableAirCategory.spec : EnumSpec where
  name := "ExpendableAirCategory"
  repr := .u8
  default := 0
  variants := [
    ("Other", 0), ("Chaff", 1), ("Flare", 2), ("CombinedChaffandFlare", 3), ("ActiveEmitter", 4),
    ("PassiveDecoy", 5), ("WingedDecoy", 6), ("SignalIlluminationFlare", 7), ("SmokeGenerator", 8),
    ("CombinedFlareandSmokeGenerator", 12), ("SARNightLight", 13), ("SARBuoy", 14)
  ]
/-- src/common/enums.rs:957-971 -/
abbrev ExpendableAirCategory := EnumVal ExpendableAirCategory.spec
/-- src/common/enums.rs:973-978 -/
abbrev ExpendableAirCategory.deserialize : Get ExpendableAirCategory := ExpendableAirCategory.spec.deserialize

/-- src/common/enums.rs:982-991 (default variant `Other`) -/
def ExpendableSurfaceCategory.spec : EnumSpec where
  name := "ExpendableSurfaceCategory"
  repr := .u8
  default := 0
  variants := [
    ("Other", 0), ("Flare", 2), ("ActiveEmitter", 4), ("PassiveDecoy", 5), ("SmokeGenerator", 8),
    ("CombinedFlareandSmokeGenerator", 12), ("SARBuoy", 14)
  ]
/-- src/common/enums.rs:982-991 -/
abbrev ExpendableSurfaceCategory := EnumVal ExpendableSurfaceCategory.spec
/-- src/common/enums.rs:993-998 -/
abbrev ExpendableSurfaceCategory.deserialize : Get ExpendableSurfaceCategory := ExpendableSurfaceCategory.spec.deserialize

/-- src/common/enums.rs:1002-1011 (default variant `Other`) -/
def ExpendableSubsurfaceCategory.spec : EnumSpec where
  name := "ExpendableSubsurfaceCategory"
  repr := .u8
  default := 0
  variants := [
    ("Other", 0), ("Activeemitter", 4), ("Passivedecoy", 5), ("Signal", 7), ("NoiseMakerDecoy", 9),
    ("BubbleMakerDecoy", 10), ("MultiModeDecoy", 11)
  ]
/-- src/common/enums.rs:1002-1011 -/
abbrev ExpendableSubsurfaceCategory := EnumVal ExpendableSubsurfaceCategory.spec
/-- src/common/enums.rs:1013-1018 -/
abbrev ExpendableSubsurfaceCategory.deserialize : Get ExpendableSubsurfaceCategory := ExpendableSubsurfaceCategory.spec.deserialize

/-- src/common/enums.rs:1022-1041 (default variant `Other`) -/
def SensorEmitterCategory.spec : EnumSpec where
  name := "SensorEmitterCategory"
  repr := .u8
  default := 0
  variants := [
    ("Other", 0), ("Multispectral", 1), ("RFActive", 2), ("RFPassive", 3), ("Optical", 4),
    ("ElectroOptical", 5), ("Seismic", 6), ("Chemicalpointdetector", 7), ("Chemicalstandoff", 8),
    ("Thermal", 9), ("AcousticActive", 10), ("AcousticPassive", 11), ("ContactPressure", 12),
    ("ElectroMagneticRadiation", 13), ("ParticleRadiation", 14), ("Magnetic", 15), ("Gravitational", 16)
  ]
/-- src/common/enums.rs:1022-1041 -/
abbrev SensorEmitterCategory := EnumVal SensorEmitterCategory.spec
/-- src/common/enums.rs:1043-1048 -/
abbrev SensorEmitterCategory.deserialize : Get SensorEmitterCategory := SensorEmitterCategory.spec.deserialize

/-- src/common/enums.rs:1052-1336 (default variant `Other`) -/
def Country.spec : EnumSpec where
  name := "Country"
  repr := .u16
  default := 0
  variants := [
    ("Other", 0), ("Afghanistan", 1), ("Albania", 2), ("Algeria", 3), ("AmericanSamoa", 4), ("Andorra", 5),
    ("Angola", 6), ("Anguilla", 7), ("Antarctica", 8), ("AntiguaandBarbuda", 9), ("Argentina", 10),
    ("Aruba", 11), ("AshmoreandCartierIslands", 12), ("Australia", 13), ("Austria", 14), ("Bahamas", 15),
    ("Bahrain", 16), ("BakerIsland", 17), ("Bangladesh", 18), ("Barbados", 19), ("BassasdaIndia", 20),
    ("Belgium", 21), ("Belize", 22), ("Benin", 23), ("Bermuda", 24), ("Bhutan", 25), ("Bolivia", 26),
    ("Botswana", 27), ("BouvetIsland", 28), ("Brazil", 29), ("BritishIndianOceanTerritory", 30),
    ("VirginIslandsBritish", 31), ("BruneiDarussalam", 32), ("Bulgaria", 33), ("BurkinaFaso", 34),
    ("Myanmar", 35), ("Burundi", 36), ("Cambodia", 37), ("Cameroon", 38), ("Canada", 39), ("CaboVerde", 40),
    ("CaymanIslands", 41), ("CentralAfricanRepublic", 42), ("Chad", 43), ("Chile", 44),
    ("ChinaPeoplesRepublicof", 45), ("ChristmasIsland", 46), ("Cocos", 47), ("Colombia", 48), ("Comoros", 49),
    ("Congo", 50), ("CookIslands", 51), ("CoralSeaIslands", 52), ("CostaRica", 53), ("Cuba", 54),
    ("Cyprus", 55), ("Czechoslovakia", 56), ("Denmark", 57), ("Djibouti", 58), ("Dominica", 59),
    ("DominicanRepublic", 60), ("Ecuador", 61), ("Egypt", 62), ("ElSalvador", 63), ("EquatorialGuinea", 64),
    ("Ethiopia", 65), ("EuropaIsland", 66), ("FalklandIslands", 67), ("FaroeIslands", 68), ("Fiji", 69),
    ("Finland", 70), ("France", 71), ("FrenchGuiana", 72), ("FrenchPolynesia", 73),
    ("FrenchSouthernTerritories", 74), ("Gabon", 75), ("GambiaThe", 76), ("GazaStrip", 77), ("Germany", 78),
    ("Ghana", 79), ("Gibraltar", 80), ("GloriosoIslands", 81), ("Greece", 82), ("Greenland", 83),
    ("Grenada", 84), ("Guadeloupe", 85), ("Guam", 86), ("Guatemala", 87), ("Guernsey", 88), ("Guinea", 89),
    ("GuineaBissau", 90), ("Guyana", 91), ("Haiti", 92), ("HeardIslandandMcDonaldIslands", 93),
    ("Honduras", 94), ("HongKong", 95), ("HowlandIsland", 96), ("Hungary", 97), ("Iceland", 98),
    ("India", 99), ("Indonesia", 100), ("Iran", 101), ("Iraq", 102), ("Ireland", 104), ("Israel", 105),
    ("Italy", 106), ("CotedIvoire", 107), ("Jamaica", 108), ("JanMayen", 109), ("Japan", 110),
    ("JarvisIsland", 111), ("Jersey", 112), ("JohnstonAtoll", 113), ("Jordan", 114),
    ("JuandeNovaIsland", 115), ("Kenya", 116), ("KingmanReef", 117), ("Kiribati", 118),
    ("KoreaDemocraticPeoplesRepublicOf", 119), ("KoreaRepublicOf", 120), ("Kuwait", 121),
    ("LaoPeoplesDemocraticRepublic", 122), ("Lebanon", 123), ("Lesotho", 124), ("Liberia", 125),
    ("Libya", 126), ("Liechtenstein", 127), ("Luxembourg", 128), ("Madagascar", 129), ("Macao", 130),
    ("Malawi", 131), ("Malaysia", 132), ("Maldives", 133), ("Mali", 134), ("Malta", 135), ("IsleofMan", 136),
    ("MarshallIslands", 137), ("Martinique", 138), ("Mauritania", 139), ("Mauritius", 140), ("Mayotte", 141),
    ("Mexico", 142), ("Micronesia", 143), ("Monaco", 144), ("Mongolia", 145), ("Montserrat", 146),
    ("Morocco", 147), ("Mozambique", 148), ("Namibia", 149), ("Nauru", 150), ("NavassaIsland", 151),
    ("Nepal", 152), ("Netherlands", 153), ("NetherlandsAntilles", 154), ("NewCaledonia", 155),
    ("NewZealand", 156), ("Nicaragua", 157), ("Niger", 158), ("Nigeria", 159), ("Niue", 160),
    ("NorfolkIsland", 161), ("NorthernMarianaIslands", 162), ("Norway", 163), ("Oman", 164),
    ("Pakistan", 165), ("PalmyraAtoll", 166), ("Panama", 168), ("PapuaNewGuinea", 169),
    ("ParacelIslands", 170), ("Paraguay", 171), ("Peru", 172), ("Philippines", 173), ("Pitcairn", 174),
    ("Poland", 175), ("Portugal", 176), ("PuertoRico", 177), ("Qatar", 178), ("Reunion", 179),
    ("Romania", 180), ("Rwanda", 181), ("SaintKittsandNevis", 182),
    ("SaintHelenaAscensionandTristandaCunha", 183), ("SaintLucia", 184), ("SaintPierreandMiquelon", 185),
    ("SaintVincentandtheGrenadines", 186), ("SanMarino", 187), ("SaoTomeandPrincipe", 188),
    ("SaudiArabia", 189), ("Senegal", 190), ("Seychelles", 191), ("SierraLeone", 192), ("Singapore", 193),
    ("SolomonIslands", 194), ("Somalia", 195), ("SouthGeorgiaandtheSouthSandwichIslands", 196),
    ("SouthAfrica", 197), ("Spain", 198), ("SpratlyIslands", 199), ("SriLanka", 200), ("Sudan", 201),
    ("Suriname", 202), ("Svalbard", 203), ("Eswatini", 204), ("Sweden", 205), ("Switzerland", 206),
    ("SyrianArabRepublic", 207), ("TaiwanProvinceofChina", 208), ("TanzaniaUnitedRepublicof", 209),
    ("Thailand", 210), ("Togo", 211), ("Tokelau", 212), ("Tonga", 213), ("TrinidadandTobago", 214),
    ("TromelinIsland", 215), ("Palau", 216), ("Tunisia", 217), ("Turkey", 218),
    ("TurksandCaicosIslands", 219), ("Tuvalu", 220), ("Uganda", 221), ("Russia", 222),
    ("UnitedArabEmirates", 223), ("UnitedKingdomofGreatBritainandNorthernIreland", 224),
    ("UnitedStatesofAmerica", 225), ("Uruguay", 226), ("Vanuatu", 227), ("HolySee", 228), ("Venezuela", 229),
    ("VietNam", 230), ("VirginIslandsUS", 231), ("WakeIsland", 232), ("WallisandFutuna", 233),
    ("WesternSahara", 234), ("WestBank", 235), ("Samoa", 236), ("Yemen", 237), ("SerbiaandMontenegro_", 240),
    ("Zaire", 241), ("Zambia", 242), ("Zimbabwe", 243), ("Armenia", 244), ("Azerbaijan", 245),
    ("Belarus", 246), ("BosniaandHerzegovina", 247), ("ClippertonIsland", 248), ("Croatia", 249),
    ("Estonia", 250), ("Georgia", 251), ("Kazakhstan", 252), ("Kyrgyzstan", 253), ("Latvia", 254),
    ("Lithuania", 255), ("NorthMacedonia", 256), ("MidwayIslands", 257), ("Moldova", 258),
    ("Montenegro", 259), ("Russia_", 260), ("SerbiaAndMontenegro__", 261), ("Slovenia", 262),
    ("Tajikistan", 263), ("Turkmenistan", 264), ("Ukraine", 265), ("Uzbekistan", 266), ("CzechRepublic", 267),
    ("Slovakia", 268), ("AalandIslands", 269), ("BonaireSintEustatiusandSaba", 270),
    ("CongoDemocraticRepublicOfThe", 271), ("Curacao", 272), ("Eritrea", 273), ("SaintBarthelemy", 274),
    ("SaintMartin", 275), ("Serbia", 276), ("SintMaarten", 277), ("SouthSudan", 278),
    ("SvalbardandJanMayen", 279), ("TimorLeste", 280), ("UnitedStatesMinorOutlyingIslands", 281),
    ("PalestineStateof", 282)
  ]
/-- src/common/enums.rs:1052-1336 -/
abbrev Country := EnumVal Country.spec
/-- src/common/enums.rs:1338-1343 -/
abbrev Country.deserialize : Get Country := Country.spec.deserialize

/-- src/common/enums.rs:1400-1412 (default variant `Other`) -/
def DeadReckoningAlgorithm.spec : EnumSpec where
  name := "DeadReckoningAlgorithm"
  repr := .u8
  default := 0
  variants := [
    ("Other", 0), ("StaticNonmovingEntity", 1), ("DRMConstantVelocityLowAccelerationLinearMotionEntity", 2),
    ("DRMConstantVelocityLowAccelerationLinearMotionEntitywithExtrapolationofOrientation", 3),
    ("DRMHighSpeedorManeuveringEntitywithExtrapolationofOrientation", 4),
    ("DRMHighSpeedorManeuveringEntity", 5), ("DRMSimilartoFPWexceptinBodyCoordinates", 6),
    ("DRMSimilartoRPWexceptinBodyCoordinates", 7), ("DRMSimilartoRVWexceptinBodyCoordinates", 8),
    ("DRMSimilartoFVWexceptinBodyCoordinates", 9)
  ]
/-- src/common/enums.rs:1400-1412 -/
abbrev DeadReckoningAlgorithm := EnumVal DeadReckoningAlgorithm.spec
/-- src/common/enums.rs:1414-1419 -/
abbrev DeadReckoningAlgorithm.deserialize : Get DeadReckoningAlgorithm := DeadReckoningAlgorithm.spec.deserialize
/-- src/common/enums.rs:1421-1425 -/
instance : FieldSerialize DeadReckoningAlgorithm := ⟨fun x => putU8 x.asU8⟩
/-- src/common/enums.rs:1427-1431 -/
instance : FieldDeserialize DeadReckoningAlgorithm := ⟨DeadReckoningAlgorithm.deserialize⟩
/-- src/common/enums.rs:1433-1437 -/
instance : FieldLen DeadReckoningAlgorithm := ⟨fun _ => 1⟩

/-- src/common/enums.rs:1441-1447 (default variant `Unused`) -/
def EntityMarkingCharacterSet.spec : EnumSpec where
  name := "EntityMarkingCharacterSet"
  repr := .u8
  default := 0
  variants := [
    ("Unused", 0), ("ASCII", 1), ("USArmyMarking", 2), ("DigitChevron", 3)
  ]
/-- src/common/enums.rs:1441-1447 -/
abbrev EntityMarkingCharacterSet := EnumVal EntityMarkingCharacterSet.spec
/-- src/common/enums.rs:1449-1454 -/
abbrev EntityMarkingCharacterSet.deserialize : Get EntityMarkingCharacterSet := EntityMarkingCharacterSet.spec.deserialize

/-- src/common/enums.rs:1458-1473 (default variant `LandPlatformEntityCapabilities`) -/
def EntityCapabilities.spec : EnumSpec where
  name := "EntityCapabilities"
  repr := .u32
  default := 0
  variants := [
    ("LandPlatformEntityCapabilities", 0), ("AirPlatformEntityCapabilities", 1),
    ("SurfacePlatformEntityCapabilities", 2), ("SubsurfacePlatformEntityCapabilities", 3),
    ("SpacePlatformEntityCapabilities", 4), ("MunitionEntityCapabilities", 5),
    ("LifeFormsEntityCapabilities", 6), ("EnvironmentalEntityCapabilities", 7),
    ("CulturalFeatureEntityCapabilities", 8), ("SupplyEntityCapabilities", 9),
    ("RadioEntityCapabilities", 10), ("ExpendableEntityCapabilities", 11),
    ("SensorEmitterEntityCapabilities", 12)
  ]
/-- src/common/enums.rs:1458-1473 -/
abbrev EntityCapabilities := EnumVal EntityCapabilities.spec
/-- src/common/enums.rs:1475-1480 -/
abbrev EntityCapabilities.deserialize : Get EntityCapabilities := EntityCapabilities.spec.deserialize
/-- src/common/enums.rs:1482-1486 -/
instance : FieldSerialize EntityCapabilities := ⟨fun x => putU32 x.asU32⟩
/-- src/common/enums.rs:1488-1492 -/
instance : FieldDeserialize EntityCapabilities := ⟨EntityCapabilities.deserialize⟩
/-- src/common/enums.rs:1494-1498 -/
instance : FieldLen EntityCapabilities := ⟨fun _ => 4⟩

/-- src/common/enums.rs:1502-1509 (default variant `ArticulatedPart`) -/
def VariableParameterRecordType.spec : EnumSpec where
  name := "VariableParameterRecordType"
  repr := .u8
  default := 0
  variants := [
    ("ArticulatedPart", 0), ("AttachedPart", 1), ("Separation", 2), ("EntityType", 3),
    ("EntityAssociation", 4)
  ]
/-- src/common/enums.rs:1502-1509 -/
abbrev VariableParameterRecordType := EnumVal VariableParameterRecordType.spec
/-- src/common/enums.rs:1511-1516 -/
abbrev VariableParameterRecordType.deserialize : Get VariableParameterRecordType := VariableParameterRecordType.spec.deserialize

/-- src/common/enums.rs:1520-1537 (default variant `NothingEmpty`) -/
def AttachedParts.spec : EnumSpec where
  name := "AttachedParts"
  repr := .u32
  default := 0
  variants := [
    ("NothingEmpty", 0), ("SequentialIDsformodelspecificstations", 1), ("FuselageStations", 512),
    ("LeftwingStations", 640), ("RightwingStations", 768), ("M16A42rifle", 896), ("M249SAW", 897),
    ("M60Machinegun", 898), ("M203GrenadeLauncher", 899), ("M136AT4", 900), ("M47Dragon", 901),
    ("AAWSMJavelin", 902), ("M18A1ClaymoreMine", 903), ("MK19GrenadeLauncher", 904), ("M2MachineGun", 905)
  ]
/-- src/common/enums.rs:1520-1537 -/
abbrev AttachedParts := EnumVal AttachedParts.spec
/-- src/common/enums.rs:1539-1544 -/
abbrev AttachedParts.deserialize : Get AttachedParts := AttachedParts.spec.deserialize

/-- src/common/enums.rs:1548-1567 (default variant `NotSpecified`) -/
def ArticulatedPartsTypeMetric.spec : EnumSpec where
  name := "ArticulatedPartsTypeMetric"
  repr := .u8
  default := 0
  variants := [
    ("NotSpecified", 0), ("Position", 1), ("PositionRate", 2), ("Extension", 3), ("ExtensionRate", 4),
    ("X", 5), ("XRate", 6), ("Y", 7), ("YRate", 8), ("Z", 9), ("ZRate", 10), ("Azimuth", 11),
    ("AzimuthRate", 12), ("Elevation", 13), ("ElevationRate", 14), ("Rotation1", 15), ("RotationRate", 16)
  ]
/-- src/common/enums.rs:1548-1567 -/
abbrev ArticulatedPartsTypeMetric := EnumVal ArticulatedPartsTypeMetric.spec
/-- src/common/enums.rs:1569-1574 -/
abbrev ArticulatedPartsTypeMetric.deserialize : Get ArticulatedPartsTypeMetric := ArticulatedPartsTypeMetric.spec.deserialize

/-- src/common/enums.rs:1578-1838 (default variant `NotSpecified`) -/
def ArticulatedPartsTypeClass.spec : EnumSpec where
  name := "ArticulatedPartsTypeClass"
  repr := .u32
  default := 0
  variants := [
    ("NotSpecified", 0), ("Rudder", 1024), ("LeftFlap", 1056), ("RightFlap", 1088), ("LeftAileron", 1120),
    ("RightAileron", 1152), ("HelicopterMainRotor", 1184), ("HelicopterTailRotor", 1216),
    ("OtherAircraftControlSurfacesDefinedasNeeded", 1248), ("PropellerNumber1", 1280),
    ("PropellerNumber2", 1312), ("PropellerNumber3", 1344), ("PropellerNumber4", 1376),
    ("LeftStabilator", 1408), ("RightStabilator", 1440), ("LeftRuddervator", 1472),
    ("RightRuddervator", 1504), ("LeftLeadingEdgeFlapSlat", 1536), ("RightLeadingEdgeFlapSlat", 1568),
    ("LeftElevator", 1600), ("RightElevator", 1632), ("CanardLeft", 1664), ("CanardRight", 1696),
    ("ElevonInnerLeft", 1728), ("ElevonInnerRight", 1760), ("ElevonMiddleLeft", 1792),
    ("ElevonMiddleRight", 1824), ("ElevonOuterLeft", 1856), ("ElevonOuterRight", 1888), ("Canopy", 1920),
    ("SpoilerLeft", 1952), ("SpoilerRight", 1984), ("Periscope", 2048), ("GenericAntenna", 2080),
    ("Snorkel", 2112), ("OtherExtendiblePartsDefinedasNeeded", 2144), ("DivePlaneSailLeft", 2176),
    ("DivePlaneSailRight", 2208), ("DivePlaneBowLeft", 2240), ("DivePlaneBowRight", 2272),
    ("DivePlaneSternLeft", 2304), ("DivePlaneSternRight", 2336), ("LandingGear", 3072), ("TailHook", 3104),
    ("SpeedBrake", 3136), ("LeftDoorofPrimaryWeaponBay", 3168), ("RightDoorofPrimaryWeaponBay", 3200),
    ("TankorAPCHatch", 3232), ("Wingsweep", 3264), ("BridgeLauncher", 3296), ("BridgeSection1", 3328),
    ("BridgeSection2", 3360), ("BridgeSection3", 3392), ("PrimaryBlade1", 3424), ("PrimaryBlade2", 3456),
    ("PrimaryBoom", 3488), ("PrimaryLauncherArm", 3520), ("OtherFixedPositionPartsDefinedasNeeded", 3552),
    ("LandingGearNose", 3584), ("LandingGearLeftMain", 3616), ("LandingGearRightMain", 3648),
    ("DoorsofLeftSideWeaponBay", 3680), ("DoorsofRightSideWeaponBay", 3712), ("SpotSearchLight1", 3744),
    ("SpotSearchLight2", 3776), ("SpotSearchLight3", 3808), ("SpotSearchLight4", 3840),
    ("LandingLight", 3872), ("PrimaryTurretNumber1", 4096), ("PrimaryTurretNumber2", 4128),
    ("PrimaryTurretNumber3", 4160), ("PrimaryTurretNumber4", 4192), ("PrimaryTurretNumber5", 4224),
    ("PrimaryTurretNumber6", 4256), ("PrimaryTurretNumber7", 4288), ("PrimaryTurretNumber8", 4320),
    ("PrimaryTurretNumber9", 4352), ("PrimaryTurretNumber10", 4384), ("PrimaryGunNumber1", 4416),
    ("PrimaryGunNumber2", 4448), ("PrimaryGunNumber3", 4480), ("PrimaryGunNumber4", 4512),
    ("PrimaryGunNumber5", 4544), ("PrimaryGunNumber6", 4576), ("PrimaryGunNumber7", 4608),
    ("PrimaryGunNumber8", 4640), ("PrimaryGunNumber9", 4672), ("PrimaryGunNumber10", 4704),
    ("PrimaryLauncher1", 4736), ("PrimaryLauncher2", 4768), ("PrimaryLauncher3", 4800),
    ("PrimaryLauncher4", 4832), ("PrimaryLauncher5", 4864), ("PrimaryLauncher6", 4896),
    ("PrimaryLauncher7", 4928), ("PrimaryLauncher8", 4960), ("PrimaryLauncher9", 4992),
    ("PrimaryLauncher10", 5024), ("PrimaryDefenseSystems1", 5056), ("PrimaryDefenseSystems2", 5088),
    ("PrimaryDefenseSystems3", 5120), ("PrimaryDefenseSystems4", 5152), ("PrimaryDefenseSystems5", 5184),
    ("PrimaryDefenseSystems6", 5216), ("PrimaryDefenseSystems7", 5248), ("PrimaryDefenseSystems8", 5280),
    ("PrimaryDefenseSystems9", 5312), ("PrimaryDefenseSystems10", 5344), ("PrimaryRadar1", 5376),
    ("PrimaryRadar2", 5408), ("PrimaryRadar3", 5440), ("PrimaryRadar4", 5472), ("PrimaryRadar5", 5504),
    ("PrimaryRadar6", 5536), ("PrimaryRadar7", 5568), ("PrimaryRadar8", 5600), ("PrimaryRadar9", 5632),
    ("PrimaryRadar10", 5664), ("SecondaryTurretNumber1", 5696), ("SecondaryTurretNumber2", 5728),
    ("SecondaryTurretNumber3", 5760), ("SecondaryTurretNumber4", 5792), ("SecondaryTurretNumber5", 5824),
    ("SecondaryTurretNumber6", 5856), ("SecondaryTurretNumber7", 5888), ("SecondaryTurretNumber8", 5920),
    ("SecondaryTurretNumber9", 5952), ("SecondaryTurretNumber10", 5984), ("SecondaryGunNumber1", 6016),
    ("SecondaryGunNumber2", 6048), ("SecondaryGunNumber3", 6080), ("SecondaryGunNumber4", 6112),
    ("SecondaryGunNumber5", 6144), ("SecondaryGunNumber6", 6176), ("SecondaryGunNumber7", 6208),
    ("SecondaryGunNumber8", 6240), ("SecondaryGunNumber9", 6272), ("SecondaryGunNumber10", 6304),
    ("SecondaryLauncher1", 6336), ("SecondaryLauncher2", 6368), ("SecondaryLauncher3", 6400),
    ("SecondaryLauncher4", 6432), ("SecondaryLauncher5", 6464), ("SecondaryLauncher6", 6496),
    ("SecondaryLauncher7", 6528), ("SecondaryLauncher8", 6560), ("SecondaryLauncher9", 6592),
    ("SecondaryLauncher10", 6624), ("SecondaryDefenseSystems1", 6656), ("SecondaryDefenseSystems2", 6688),
    ("SecondaryDefenseSystems3", 6720), ("SecondaryDefenseSystems4", 6752),
    ("SecondaryDefenseSystems5", 6784), ("SecondaryDefenseSystems6", 6816),
    ("SecondaryDefenseSystems7", 6848), ("SecondaryDefenseSystems8", 6880),
    ("SecondaryDefenseSystems9", 6912), ("SecondaryDefenseSystems10", 6944), ("SecondaryRadar1", 6976),
    ("SecondaryRadar2", 7008), ("SecondaryRadar3", 7040), ("SecondaryRadar4", 7072),
    ("SecondaryRadar5", 7104), ("SecondaryRadar6", 7136), ("SecondaryRadar7", 7168),
    ("SecondaryRadar8", 7200), ("SecondaryRadar9", 7232), ("SecondaryRadar10", 7264), ("DeckElevator1", 7296),
    ("DeckElevator2", 7328), ("Catapult1", 7360), ("Catapult2", 7392), ("JetBlastDeflector1", 7424),
    ("JetBlastDeflector2", 7456), ("ArrestorWires1", 7488), ("ArrestorWires2", 7520),
    ("ArrestorWires3", 7552), ("WingFold", 7584), ("FuselageFold", 7616), ("MainCargoDoor", 7648),
    ("CargoRamp", 7680), ("AirtoAirRefuelingBoom", 7712), ("PrimaryAerialRefuelingReceptacleDoor", 7744),
    ("SecondaryAerialRefuelingReceptacleDoor", 7776), ("AerialRefuelingReceptacleLatch", 7808),
    ("CargoDoor1", 7840), ("CargoDoor2", 7872), ("CargoDoor3", 7904), ("CargoDoor4", 7936),
    ("CargoDoor5", 7968), ("CargoDoor6", 8000), ("CargoDoor7", 8032), ("CargoDoor8", 8064),
    ("CargoDoor9", 8096), ("CargoDoor10", 8128), ("CentreRefuellingDrogue", 8160),
    ("PortRefuellingDrogue", 8192), ("StarboardRefuellingDrogue", 8224), ("SubmarineEngineExhaustMast", 8256),
    ("SubmarineMast1", 8288), ("SubmarineMast2", 8320), ("SubmarineMast3", 8352), ("SubmarineMast4", 8384),
    ("SubmarineMast5", 8416), ("SubmarineMast6", 8448), ("SubmarineMast7", 8480), ("SubmarineMast8", 8512),
    ("SubmarineMast9", 8544), ("SubmarineMast10", 8576), ("VectoredThrustNozzle", 8608),
    ("LeftDooroftheLeftWeaponBay", 8640), ("RightDooroftheLeftWeaponBay", 8672),
    ("LeftDooroftheRightWeaponBay", 8704), ("RightDooroftheRightWeaponBay", 8736), ("GunDoor", 8768),
    ("CountermeasureDoorLeft", 8800), ("CountermeasureDoorRight", 8832), ("HookDoorForward", 8864),
    ("HookDoorAft", 8896), ("LiftFanUpperDoor", 8928), ("LiftFanLowerDoorLeft", 8960),
    ("LiftFanLowerDoorRight", 8992), ("RefuelProbeDoor", 9024), ("LeftEngineNacelle", 9056),
    ("RightEngineNacelle", 9088), ("_1stLeftWheel", 9120), ("_1stRightWheel", 9152), ("_2ndLeftWheel", 9184),
    ("_2ndRightWheel", 9216), ("_3rdLeftWheel", 9248), ("_3rdRightWheel", 9280), ("_4thLeftWheel", 9312),
    ("_4thRightWheel", 9344), ("_5thLeftWheel", 9376), ("_5thRightWheel", 9408), ("_6thLeftWheel", 9440),
    ("_6thRightWheel", 9472), ("_7thLeftWheel", 9504), ("_7thRightWheel", 9536), ("_8thLeftWheel", 9568),
    ("_8thRightWheel", 9600), ("_9thLeftWheel", 9632), ("_9thRightWheel", 9664), ("_10thLeftWheel", 9696),
    ("_10thRightWheel", 9728), ("RefuelingProbe", 9760), ("SteeringWheel", 9792), ("CraneBody", 9824),
    ("CraneArm1", 9856), ("CraneArm2", 9888), ("CraneArm3", 9920), ("CraneBoom", 9952), ("CraneHook", 9984),
    ("Trailer", 10016), ("RollerLeft", 10048), ("RollerRight", 10080), ("PrimaryGunRecoil", 10112),
    ("SecondaryGunRecoil", 10144)
  ]
/-- src/common/enums.rs:1578-1838 -/
abbrev ArticulatedPartsTypeClass := EnumVal ArticulatedPartsTypeClass.spec
/-- src/common/enums.rs:1840-1845 -/
abbrev ArticulatedPartsTypeClass.deserialize : Get ArticulatedPartsTypeClass := ArticulatedPartsTypeClass.spec.deserialize

end Dis
