import Verif.Model.EnumCore
/- Generated by tools/gen_enums.py from /repo/src/common/enums.rs. -/
set_option maxRecDepth 20000
namespace Dis

/-- src/common/enums.rs:1849-1948 (default variant `Other`) -/
def MunitionDescriptorWarhead.spec : EnumSpec where
  name := "MunitionDescriptorWarhead"
  repr := .u16
  default := 0
  variants := [
    ("Other", 0), ("Cargo", 10), ("FuelAirExplosive", 20), ("GlassBeads", 30), ("_1um", 31), ("_5um", 32),
    ("_10um", 33), ("HighExplosive", 1000), ("HEPlastic", 1100), ("HEIncendiary", 1200),
    ("HEFragmentation", 1300), ("HEAntiTank", 1400), ("HEBomblets", 1500), ("HEShapedCharge", 1600),
    ("HEContinuousRod", 1610), ("HETungstenBall", 1615), ("HEBlastFragmentation", 1620),
    ("HESteerableDartswithHE", 1625), ("HEDarts", 1630), ("HEFlechettes", 1635),
    ("HEDirectedFragmentation", 1640), ("HESemiArmorPiercing", 1645), ("HEShapedChargeFragmentation", 1650),
    ("HESemiArmorPiercingFragmentation", 1655), ("HEHollowCharge", 1660), ("HEDoubleHollowCharge", 1665),
    ("HEGeneralPurpose", 1670), ("HEBlastPenetrator", 1675), ("HERodPenetrator", 1680),
    ("HEAntiPersonnel", 1685), ("HEShapedChargeFragmentationIncendiary", 1690),
    ("HEPenetratorBlastFragmentation", 1695), ("Smoke", 2000), ("WP", 2005), ("FOGO", 2010), ("HC", 2015),
    ("Illumination", 3000), ("Practice", 4000), ("Blank", 4001), ("Dummy", 4002), ("Kinetic", 5000),
    ("Mines", 6000), ("Nuclear", 7000), ("NuclearIMT", 7010), ("NuclearVariousYields", 7011),
    ("ChemicalGeneral", 8000), ("ChemicalBlisterAgent", 8100), ("HD", 8110), ("ThickenedHD", 8115),
    ("DustyHD", 8120), ("L", 8125), ("HN3", 8130), ("HL", 8135), ("CX", 8140), ("DMMP", 8145), ("DMHP", 8150),
    ("DMA", 8155), ("DEM", 8160), ("PX", 8165), ("ChemicalBloodAgent", 8200), ("AC", 8210), ("CK", 8215),
    ("CG", 8220), ("ChemicalNerveAgent", 8300), ("VX", 8310), ("ThickenedVX", 8315), ("DustyVX", 8320),
    ("GA", 8325), ("ThickenedGA", 8330), ("DustyGA", 8335), ("GB", 8340), ("ThickenedGB", 8345),
    ("DustyGB", 8350), ("GD", 8355), ("ThickenedGD", 8360), ("DustyGD", 8365), ("GF", 8370),
    ("ThickenedGF", 8375), ("DustyGF", 8380), ("SVX", 8385), ("BIS", 8410), ("TCP", 8415), ("MS", 8425),
    ("TEP", 8430), ("H2O", 8445), ("TO1", 8450), ("TO2", 8455), ("TO3", 8460), ("SulfurHexafluoride", 8465),
    ("AA", 8470), ("HF", 8475), ("Biological", 9000), ("BiologicalVirus", 9100), ("BiologicalBacteria", 9200),
    ("BiologicalRickettsia", 9300), ("BiologicalGeneticallyModifiedMicroorganisms", 9400),
    ("BiologicalToxin", 9500)
  ]
/-- src/common/enums.rs:1849-1948 -/
abbrev MunitionDescriptorWarhead := EnumVal MunitionDescriptorWarhead.spec
/-- src/common/enums.rs:1950-1955 -/
abbrev MunitionDescriptorWarhead.deserialize : Get MunitionDescriptorWarhead := MunitionDescriptorWarhead.spec.deserialize

/-- src/common/enums.rs:1959-2068 (default variant `Other`) -/
def MunitionDescriptorFuse.spec : EnumSpec where
  name := "MunitionDescriptorFuse"
  repr := .u16
  default := 0
  variants := [
    ("Other", 0), ("IntelligentInfluence", 10), ("Sensor", 20), ("Selfdestruct", 30), ("UltraQuick", 40),
    ("Body", 50), ("DeepIntrusion", 60), ("Multifunction", 100), ("PointDetonation", 200),
    ("BaseDetonation", 300), ("Contact", 1000), ("ContactInstant", 1100), ("ContactDelayed", 1200),
    ("_10msDelay", 1201), ("_20msDelay", 1202), ("_50msDelay", 1205), ("_60msDelay", 1206),
    ("_100msDelay", 1210), ("_125msDelay", 1212), ("_250msDelay", 1225), ("_5msDelay", 1250),
    ("_15msDelay", 1251), ("_25msDelay", 1252), ("_30msDelay", 1253), ("_35msDelay", 1254),
    ("_40msDelay", 1255), ("_45msDelay", 1256), ("_90msDelay", 1257), ("_120msDelay", 1258),
    ("_180msDelay", 1259), ("_240msDelay", 1260), ("ContactElectronic", 1300), ("ContactGraze", 1400),
    ("ContactCrush", 1500), ("ContactHydrostatic", 1600), ("ContactMechanical", 1700),
    ("ContactChemical", 1800), ("ContactPiezoelectric", 1900), ("ContactPointInitiating", 1910),
    ("ContactPointInitiatingBaseDetonating", 1920), ("ContactBaseDetonating", 1930),
    ("ContactBallisticCapandBase", 1940), ("ContactBase", 1950), ("ContactNose", 1960),
    ("ContactFittedinStandoffProbe", 1970), ("ContactNonaligned", 1980), ("Timed", 2000),
    ("TimedProgrammable", 2100), ("TimedBurnout", 2200), ("TimedPyrotechnic", 2300),
    ("TimedElectronic", 2400), ("TimedBaseDelay", 2500), ("TimedReinforcedNoseImpactDelay", 2600),
    ("TimedShortDelayImpact", 2700), ("_10msDelay2", 2701), ("_20msDelay2", 2702), ("_50msDelay2", 2705),
    ("_60msDelay2", 2706), ("_100msDelay2", 2710), ("_125msDelay2", 2712), ("_250msDelay2", 2725),
    ("TimedNoseMountedVariableDelay", 2800), ("TimedLongDelaySide", 2900), ("TimedSelectableDelay", 2910),
    ("TimedImpact", 2920), ("TimedSequence", 2930), ("Proximity", 3000), ("ProximityActiveLaser", 3100),
    ("ProximityMagnetic", 3200), ("ProximityActiveRadar", 3300), ("ProximityRadioFrequency", 3400),
    ("ProximityProgrammable", 3500), ("ProximityProgrammablePrefragmented", 3600),
    ("ProximityInfrared", 3700), ("Command", 4000), ("CommandElectronicRemotelySet", 4100),
    ("Altitude1", 5000), ("AltitudeRadioAltimeter", 5100), ("AltitudeAirBurst", 5200), ("Depth", 6000),
    ("Acoustic", 7000), ("Pressure", 8000), ("PressureDelay", 8010), ("Inert", 8100), ("Dummy", 8110),
    ("Practice", 8120), ("PlugRepresenting", 8130), ("Training", 8150), ("Pyrotechnic", 9000),
    ("PyrotechnicDelay", 9010), ("Electrooptical", 9100), ("Electromechanical", 9110),
    ("ElectromechanicalNose", 9120), ("Strikerless", 9200), ("StrikerlessNoseImpact", 9210),
    ("StrikerlessCompressionIgnition", 9220), ("CompressionIgnition", 9300),
    ("CompressionIgnitionStrikerlessNoseImpact", 9310), ("Percussion", 9400),
    ("PercussionInstantaneous", 9410), ("Electronic", 9500), ("ElectronicInternallyMounted", 9510),
    ("ElectronicRangeSetting", 9520), ("ElectronicProgrammed", 9530), ("Mechanical", 9600),
    ("MechanicalNose", 9610), ("MechanicalTail", 9620)
  ]
/-- src/common/enums.rs:1959-2068 -/
abbrev MunitionDescriptorFuse := EnumVal MunitionDescriptorFuse.spec
/-- src/common/enums.rs:2070-2075 -/
abbrev MunitionDescriptorFuse.deserialize : Get MunitionDescriptorFuse := MunitionDescriptorFuse.spec.deserialize

/-- src/common/enums.rs:2079-2115 (default variant `Other`) -/
def DetonationResult.spec : EnumSpec where
  name := "DetonationResult"
  repr := .u8
  default := 0
  variants := [
    ("Other", 0), ("EntityImpact", 1), ("EntityProximateDetonation", 2), ("GroundImpact", 3),
    ("GroundProximateDetonation", 4), ("Detonation", 5), ("NoneorNoDetonation", 6), ("HEhitsmall", 7),
    ("HEhitmedium", 8), ("HEhitlarge", 9), ("Armorpiercinghit", 10), ("Dirtblastsmall", 11),
    ("Dirtblastmedium", 12), ("Dirtblastlarge", 13), ("Waterblastsmall", 14), ("Waterblastmedium", 15),
    ("Waterblastlarge", 16), ("Airhit", 17), ("Buildinghitsmall", 18), ("Buildinghitmedium", 19),
    ("Buildinghitlarge", 20), ("Mineclearinglinecharge", 21), ("Environmentobjectimpact", 22),
    ("Environmentobjectproximatedetonation", 23), ("WaterImpact", 24), ("AirBurst", 25),
    ("Killwithfragmenttype1", 26), ("Killwithfragmenttype2", 27), ("Killwithfragmenttype3", 28),
    ("Killwithfragmenttype1afterflyoutfailure", 29), ("Killwithfragmenttype2afterflyoutfailure", 30),
    ("Missduetoflyoutfailure", 31), ("Missduetoendgamefailure", 32), ("Missduetoflyoutandendgamefailure", 33)
  ]
/-- src/common/enums.rs:2079-2115 -/
abbrev DetonationResult := EnumVal DetonationResult.spec
/-- src/common/enums.rs:2117-2122 -/
abbrev DetonationResult.deserialize : Get DetonationResult := DetonationResult.spec.deserialize
/-- src/common/enums.rs:2124-2128 -/
instance : FieldSerialize DetonationResult := ⟨fun x => putU8 x.asU8⟩
/-- src/common/enums.rs:2130-2134 -/
instance : FieldDeserialize DetonationResult := ⟨DetonationResult.deserialize⟩
/-- src/common/enums.rs:2136-2140 -/
instance : FieldLen DetonationResult := ⟨fun _ => 1⟩

/-- src/common/enums.rs:2144-2151 (default variant `Other`) -/
def ServiceRequestServiceTypeRequested.spec : EnumSpec where
  name := "ServiceRequestServiceTypeRequested"
  repr := .u8
  default := 0
  variants := [
    ("Other", 0), ("Resupply", 1), ("Repair", 2), ("AerialRefuelingHighFidelity", 3),
    ("AerialRefuelingLowFidelity", 4)
  ]
/-- src/common/enums.rs:2144-2151 -/
abbrev ServiceRequestServiceTypeRequested := EnumVal ServiceRequestServiceTypeRequested.spec
/-- src/common/enums.rs:2153-2158 -/
abbrev ServiceRequestServiceTypeRequested.deserialize : Get ServiceRequestServiceTypeRequested := ServiceRequestServiceTypeRequested.spec.deserialize
/-- src/common/enums.rs:2160-2164 -/
instance : FieldSerialize ServiceRequestServiceTypeRequested := ⟨fun x => putU8 x.asU8⟩
/-- src/common/enums.rs:2166-2170 -/
instance : FieldDeserialize ServiceRequestServiceTypeRequested := ⟨ServiceRequestServiceTypeRequested.deserialize⟩
/-- src/common/enums.rs:2172-2176 -/
instance : FieldLen ServiceRequestServiceTypeRequested := ⟨fun _ => 1⟩

/-- src/common/enums.rs:2180-2266 (default variant `NoRepairsPerformed`) -/
def RepairCompleteRepair.spec : EnumSpec where
  name := "RepairCompleteRepair"
  repr := .u16
  default := 0
  variants := [
    ("NoRepairsPerformed", 0), ("AllRequestedrepairSperformed", 1), ("MotorEngine", 10), ("Starter", 20),
    ("Alternator", 30), ("Generator", 40), ("Battery", 50), ("EngineCoolantLeak", 60), ("FuelFilter", 70),
    ("TransmissionOilLeak", 80), ("EngineOilLeak", 90), ("Pumps", 100), ("DriveTrainFilters", 110),
    ("Transmission", 120), ("Brakes", 130), ("SuspensionSystem", 140), ("OilFilter", 150), ("Hull", 1000),
    ("Airframe", 1010), ("TruckBody", 1020), ("TankBody", 1030), ("TrailerBody", 1040), ("Turret", 1050),
    ("Propeller", 1500), ("EnvironmentFilters", 1520), ("Wheels", 1540), ("Tire", 1550), ("Track", 1560),
    ("GunElevationDrive", 2000), ("GunStabilizationSystem", 2010), ("GunnersPrimarySight", 2020),
    ("CommandersExtensionToTheGPS", 2030), ("LoadingMechanism", 2040), ("GunnersAuxiliarySight", 2050),
    ("GunnersControlPanel", 2060), ("GunnersControlAssemblyHandle", 2070),
    ("CommandersControlHandlesAssembly", 2090), ("CommandersWeaponStation", 2100),
    ("CommandersIndependentThermalViewer", 2110), ("GeneralWeapons", 2120), ("FuelTransferPump", 4000),
    ("FuelLines", 4010), ("Gauges", 4020), ("GeneralFuelSystem", 4030), ("ElectronicWarfareSystems", 4500),
    ("DetectionSystems", 4600), ("DetectionSystemsRadioFrequency", 4610), ("DetectionSystemsMicrowave", 4620),
    ("DetectionSystemsInfrared", 4630), ("DetectionSystemsLaser", 4640), ("RangeFinders", 4700),
    ("RangeOnlyrAdar", 4710), ("LaserRangeFinder", 4720), ("ElectronicSystems", 4800),
    ("ElectronicsSystemsRadioFrequency", 4810), ("ElectronicsSystemsMicrowave", 4820),
    ("ElectronicsSystemsInfrared", 4830), ("ElectronicsSystemsLaser", 4840), ("Radios", 5000),
    ("CommunicationSystems", 5010), ("Intercoms", 5100), ("Encoders", 5200), ("EncryptionDevices", 5250),
    ("Decoders", 5300), ("DecryptionDevices", 5350), ("Computers", 5500),
    ("NavigationAndControlSystems", 6000), ("FireControlSystems", 6500), ("AirSupply", 8000),
    ("LifeSupportSystemsFilters", 8010), ("WaterSupply", 8020), ("RefrigerationSystem", 8030),
    ("ChemicalBiologicalAndRadiologicalProtection", 8040), ("WaterWashdownSystems", 8050),
    ("DecontaminationSystems", 8060), ("Watersupply", 9000), ("Coolingsystem", 9010), ("Winches", 9020),
    ("Catapults", 9030), ("Cranes", 9040), ("Launchers", 9050), ("Lifeboats", 10000), ("Landingcraft", 10010),
    ("Ejectionseats", 10020)
  ]
/-- src/common/enums.rs:2180-2266 -/
abbrev RepairCompleteRepair := EnumVal RepairCompleteRepair.spec
/-- src/common/enums.rs:2268-2273 -/
abbrev RepairCompleteRepair.deserialize : Get RepairCompleteRepair := RepairCompleteRepair.spec.deserialize
/-- src/common/enums.rs:2275-2279 -/
instance : FieldSerialize RepairCompleteRepair := ⟨fun x => putU16 x.asU16⟩
/-- src/common/enums.rs:2281-2285 -/
instance : FieldDeserialize RepairCompleteRepair := ⟨RepairCompleteRepair.deserialize⟩
/-- src/common/enums.rs:2287-2291 -/
instance : FieldLen RepairCompleteRepair := ⟨fun _ => 2⟩

/-- src/common/enums.rs:2295-2302 (default variant `Other`) -/
def RepairResponseRepairResult.spec : EnumSpec where
  name := "RepairResponseRepairResult"
  repr := .u8
  default := 0
  variants := [
    ("Other", 0), ("RepairEnded", 1), ("InvalidRepair", 2), ("RepairInterrupted", 3),
    ("ServiceCanceledByTheSupplier", 4)
  ]
/-- src/common/enums.rs:2295-2302 -/
abbrev RepairResponseRepairResult := EnumVal RepairResponseRepairResult.spec
/-- src/common/enums.rs:2304-2309 -/
abbrev RepairResponseRepairResult.deserialize : Get RepairResponseRepairResult := RepairResponseRepairResult.spec.deserialize
/-- src/common/enums.rs:2311-2315 -/
instance : FieldSerialize RepairResponseRepairResult := ⟨fun x => putU8 x.asU8⟩
/-- src/common/enums.rs:2317-2321 -/
instance : FieldDeserialize RepairResponseRepairResult := ⟨RepairResponseRepairResult.deserialize⟩
/-- src/common/enums.rs:2323-2327 -/
instance : FieldLen RepairResponseRepairResult := ⟨fun _ => 1⟩

/-- src/common/enums.rs:2331-3581 (default variant `EntityIDList`) -/
def VariableRecordTypes.spec : EnumSpec where
  name := "VariableRecordTypes"
  repr := .u32
  default := 1
  variants := [
    ("EntityIDList", 1), ("DDCPJoinTransactionJoinRequestMessage", 1001),
    ("DDCPSetPlaybackWindowTransactionSetPlaybackWindowRequestMessage", 1002),
    ("DDCPLoadMissionRecordingTransactionLoadMissionRecordingRequestMessage", 1003),
    ("DDCPCueTransactionCueRequestMessage", 1004), ("DDCPPlayTransactionPlayRequestMessage", 1005),
    ("DDCPStopTransactionStopRequestMessage", 1006), ("DDCPPauseTransactionPauseRequestMessage", 1007),
    ("DDCPEndTransactionEndRequestMessage", 1009), ("DDCPJoinResponseMessage", 1051),
    ("DDCPRequestReceiptMessage", 1052), ("DDCPPlaybackWindowConfirmedMessage", 1053),
    ("DDCPMissionRecordingLoadedMessage", 1054), ("DDCPCueConfirmedMessage", 1055),
    ("DDCPTimetoCompleteMessage", 1056), ("DDCPPlayCommencedMessage", 1057),
    ("DDCPStopConfirmedMessage", 1058), ("DDCPPauseConfirmedMessage", 1059), ("DDCPEndResponseMessage", 1061),
    ("DDCPMasterAnnounceMessage", 1111), ("DDCPDeviceAnnounceMessage", 1112), ("DDCPDeviceExitMessage", 1114),
    ("DDCPDeviceHeartbeatMessage", 1115), ("DDCPMasterTimeSyncMessage", 1116), ("DDCPErrorMessage", 1118),
    ("DDCPMasterStopSyncMessage", 1119), ("DDCPMasterTransitionMessage", 1120), ("MissionTime", 1200),
    ("HighFidelityHAVEQUICKSATURNRadio", 3000), ("BlankingSectorattributerecord", 3500),
    ("AngleDeceptionattributerecord", 3501), ("FalseTargetsattributerecord", 3502),
    ("DEPrecisionAimpointrecord", 4000), ("DEAreaAimpointrecord", 4001),
    ("DirectedEnergyDamageDescriptionrecord", 4500), ("CryptoControl", 5000),
    ("Mode5STransponderLocation", 5001), ("Mode5STransponderLocationError", 5002),
    ("SquitterAirbornePositionReport", 5003), ("SquitterAirborneVelocityReport", 5004),
    ("SquitterSurfacePositionReport", 5005), ("SquitterIdentificationReport", 5006), ("GICB", 5007),
    ("SquitterEventDrivenReport", 5008), ("AntennaLocation", 5009), ("BasicInteractive", 5010),
    ("InteractiveMode4Reply", 5011), ("InteractiveMode5Reply", 5012), ("InteractiveBasicMode5", 5013),
    ("InteractiveBasicModeS", 5014), ("IOEffect", 5500), ("IOCommunicationsNode", 5501),
    ("Identification1", 10000), ("TrainerInitialConditionsFilename", 10010),
    ("Increment3_1MissionDataLoadName", 10020), ("Increment2MissionDataLoadName", 10030),
    ("SetMarkpointCommand", 10110), ("MarkpointID", 10115), ("ReactionLevel", 10140), ("WeaponReload", 10150),
    ("CESEntitySetClearStatus", 10157), ("ActivateEntity", 10160), ("DisengageReengage1", 10170),
    ("FuelFreeze", 10190), ("FireLaunchDispense", 10250), ("TargetAssignment", 10254), ("CICEnable", 10256),
    ("ShootInhibit", 10258), ("Posture", 10259), ("JammerState", 10262), ("JammerType", 10263),
    ("DynamicTargeting", 10264), ("ManualJammingOnOverride", 10267), ("SOJAxis", 10268),
    ("EmitterOverride1", 10280), ("Shields1", 10290), ("CrashOverride", 10300), ("StopBuzzer", 10306),
    ("TargetLasingOnOff", 10307), ("TargetLasingLaserCode", 10308), ("PowerPlant", 10310),
    ("TacticalLightingOnOffControlLightControl", 10311),
    ("TacticalLightingBlinkerControlBlinkerValue", 10312),
    ("TacticalLightingOnOffControlLightControlType", 10313), ("ParkVehicle", 10314),
    ("SignalingOnOff", 10315), ("SignalingDevice", 10316), ("OwnshipID", 10400), ("StateChange", 10600),
    ("EntityType1", 11000), ("Concatenated", 11100), ("Kind", 11110), ("Domain", 11120), ("Country", 11130),
    ("Category", 11140), ("Subcategory", 11150), ("Specific", 11160), ("Extra", 11170), ("ForceID1", 11180),
    ("ForceID2", 11200), ("Description", 11300), ("TankerBoomControl", 11500), ("AirportLights", 11501),
    ("WeatherPost", 11502), ("LocalizerandGlideSlope", 11503), ("TACANNavAids", 11504),
    ("AlternativeEntityType1", 12000), ("Kind2", 12110), ("Domain2", 12120), ("Country2", 12130),
    ("Category2", 12140), ("Subcategory2", 12150), ("Specific2", 12160), ("Extra2", 12170),
    ("Description2", 12300), ("EntityMarking", 13000), ("EntityMarkingCharacters", 13100), ("CrewID", 13200),
    ("TaskOrganization", 14000), ("RegimentName", 14200), ("BattalionName", 14300), ("CompanyName", 14400),
    ("PlatoonName", 14500), ("SquadName", 14520), ("TeamName", 14540), ("BumperNumber", 14600),
    ("VehicleNumber", 14700), ("UnitNumber", 14800), ("DISIdentity", 15000), ("DISSiteID", 15100),
    ("DISHostID", 15200), ("DISEntityID", 15300), ("MountIntent", 15400), ("TetherUnthetherCommandID", 15500),
    ("TeleportEntityDataRecord", 15510), ("DISAggregateID", 15600), ("OwnershipStatus", 15800),
    ("Reconstitute", 19177), ("Loads", 20000), ("CrewMembers", 21000), ("CrewMemberID", 21100),
    ("Health", 21200), ("JobAssignment", 21300), ("Fuel", 23000), ("Quantity1", 23100), ("Quantity2", 23105),
    ("Ammunition", 24000), ("_120mmHEATquantity", 24001), ("_120mmSABOTquantity", 24002),
    ("_12_7mmM8quantity", 24003), ("_12_7mmM20quantity", 24004), ("_7_62mmM62quantity", 24005),
    ("M250UKL8A1quantity", 24006), ("M250UKL8A3quantity", 24007), ("_7_62mmM80quantity", 24008),
    ("_12_7mmquantity", 24009), ("_7_62mmquantity", 24010), ("Minesquantity", 24060), ("Type", 24100),
    ("Kind3", 24110), ("Domain3", 24120), ("Country3", 24130), ("Category3", 24140), ("Subcategory3", 24150),
    ("Extra3", 24160), ("Description3", 24300), ("Cargo", 25000), ("VehicleMass", 26000),
    ("SupplyQuantity", 27000), ("Armament", 28000), ("Status", 30000), ("Activateentity", 30010),
    ("SubscriptionState", 30100), ("Roundtriptimedelay", 30300), ("TADILJmessagecountLabel0", 30400),
    ("TADILJmessagecountLabel1", 30401), ("TADILJmessagecountLabel2", 30402),
    ("TADILJmessagecountLabel3", 30403), ("TADILJmessagecountLabel4", 30404),
    ("TADILJmessagecountLabel5", 30405), ("TADILJmessagecountLabel6", 30406),
    ("TADILJmessagecountLabel7", 30407), ("TADILJmessagecountLabel8", 30408),
    ("TADILJmessagecountLabel9", 30409), ("TADILJmessagecountLabel10", 30410),
    ("TADILJmessagecountLabel11", 30411), ("TADILJmessagecountLabel12", 30412),
    ("TADILJmessagecountLabel13", 30413), ("TADILJmessagecountLabel14", 30414),
    ("TADILJmessagecountLabel15", 30415), ("TADILJmessagecountLabel16", 30416),
    ("TADILJmessagecountLabel17", 30417), ("TADILJmessagecountLabel18", 30418),
    ("TADILJmessagecountLabel19", 30419), ("TADILJmessagecountLabel20", 30420),
    ("TADILJmessagecountLabel21", 30421), ("TADILJmessagecountLabel22", 30422),
    ("TADILJmessagecountLabel23", 30423), ("TADILJmessagecountLabel24", 30424),
    ("TADILJmessagecountLabel25", 30425), ("TADILJmessagecountLabel26", 30426),
    ("TADILJmessagecountLabel27", 30427), ("TADILJmessagecountLabel28", 30428),
    ("TADILJmessagecountLabel29", 30429), ("TADILJmessagecountLabel30", 30430),
    ("TADILJmessagecountLabel31", 30431), ("Position", 31000), ("Routetype", 31010), ("MilGrid10", 31100),
    ("GeocentricCoordinates", 31200), ("X", 31210), ("Y", 31220), ("Z", 31230), ("Latitude1", 31300),
    ("Longitude1", 31400), ("LineofSight", 31500), ("X1", 31510), ("Y1", 31520), ("Z1", 31530),
    ("Altitude2", 31600), ("DestinationLatitude", 31700), ("DestinationLongitude", 31800),
    ("DestinationAltitude", 31900), ("Orientation", 32000), ("HullHeadingAngle", 32100),
    ("HullPitchAngle", 32200), ("RollAngle", 32300), ("X2", 32500), ("Y2", 32600), ("Z2", 32700),
    ("Appearance", 33000), ("AmbientLighting", 33100), ("Lights1", 33101), ("PaintScheme", 33200),
    ("Smoke", 33300), ("TrailingEffects", 33400), ("Flaming", 33500), ("Marking", 33600),
    ("MinePlowsAttached", 33710), ("MineRollersAttached", 33720), ("TankTurretAzimuth", 33730),
    ("FailuresandMalfunctions", 34000), ("Age", 34100), ("Kilometers", 34110), ("Damage", 35000),
    ("Cause", 35050), ("MobilityKill1", 35100), ("FirePowerKill", 35200), ("PersonnelCasualties", 35300),
    ("Velocity", 36000), ("Xvelocity", 36100), ("Yvelocity", 36200), ("Zvelocity", 36300), ("Speed1", 36400),
    ("Acceleration", 37000), ("Xacceleration", 37100), ("Yacceleration", 37200), ("Zacceleration", 37300),
    ("EngineStatus", 38100), ("PrimaryTargetLine", 39000), ("Exercise", 40000), ("ExerciseState", 40010),
    ("RestartRefresh", 40015), ("AFATDSFileName", 40020), ("TerrainDatabase", 41000), ("Missions", 42000),
    ("MissionID", 42100), ("MissionType", 42200), ("MissionRequestTimeStamp", 42300),
    ("ExerciseDescription", 43000), ("Name", 43100), ("Entities", 43200), ("Version", 43300),
    ("GuiseMode", 43410), ("SimulationApplicationActiveStatus", 43420),
    ("SimulationApplicationRoleRecord", 43430), ("SimulationApplicationState", 43440),
    ("VisualOutputMode", 44000), ("SimulationManagerRole", 44100), ("SimulationManagerSiteID", 44110),
    ("SimulationManagerApplicID", 44120), ("SimulationManagerEntityID", 44130),
    ("SimulationManagerActiveStatus", 44140), ("AfterActiveReviewRole", 44200),
    ("AfterActiveReviewSiteID", 44210), ("AfterActiveApplicID", 44220), ("AfterActiveReviewEntityID", 44230),
    ("AfterActiveReviewActiveStatus", 44240), ("ExerciseLoggerRole", 44300), ("ExerciseLoggerSiteID", 44310),
    ("ExerciseLoggerApplicID", 44320), ("ExerciseEntityID", 44330), ("ExerciseLoggerActiveStatus", 44340),
    ("SyntheticEnvironmentManagerRole", 44400), ("SyntheticEnvironmentManagerSiteID", 44410),
    ("SyntheticEnvironmentManagerApplicID", 44420), ("SyntheticEnvironmentManagerEntityID", 44430),
    ("SyntheticEnvironmentManagerActiveStatus", 44440), ("SIMNETDISTranslatorRole", 44500),
    ("SIMNETDISTranslatorSiteID", 44510), ("SIMNETDISTranslatorApplicID", 44520),
    ("SIMNETDISTranslatorEntityID", 44530), ("SIMNETDISTranslatorActiveStatus", 44540),
    ("ApplicationRate", 45000), ("ApplicationTime", 45005), ("ApplicationTimestep", 45010),
    ("FeedbackTime", 45020), ("SimulationRate", 45030), ("SimulationTime", 45040),
    ("SimulationTimestep", 45050), ("TimeInterval", 45060), ("TimeLatency", 45070), ("TimeScheme", 45080),
    ("ExerciseElapsedTime", 46000), ("ElapsedTime", 46010), ("Environment", 50000), ("ScenarioDate", 50103),
    ("TimeDateValid", 50106), ("ScenarioTime", 50118), ("SnowEnableDisable", 50120),
    ("WeatherAttributesRequest", 50124), ("METHeartbeatMessage", 50126), ("ContrailsEnable", 50600),
    ("ContrailAltitudes", 50700), ("Weather1", 51000), ("WeatherCondition", 51010),
    ("ThermalCondition", 51100), ("ThermalVisibility1", 51110), ("ThermalVisibility2", 51111),
    ("Time1", 52000), ("Time2", 52001), ("TimeofDayDiscrete", 52100), ("TimeofDayContinuous", 52200),
    ("TimeMode", 52300), ("TimeScene", 52305), ("CurrentHour", 52310), ("CurrentMinute", 52320),
    ("CurrentSecond", 52330), ("Azimuth1", 52340), ("MaximumElevation", 52350), ("TimeZone", 52360),
    ("TimeRate", 52370), ("TheNumberOfSimulationSecondsSinceTheStartOfTheExercise", 52380),
    ("TimeSunriseEnabled", 52400), ("SunriseHour", 52410), ("SunriseMinute", 52420), ("SunriseSecond", 52430),
    ("SunriseAzimuth", 52440), ("TimeSunsetEnabled", 52500), ("SunsetHour1", 52510), ("SunsetHour2", 52511),
    ("SunsetMinute", 52520), ("SunsetSecond", 52530), ("Date1", 52600), ("DateEuropean", 52601),
    ("DateUS", 52602), ("Month", 52610), ("Day", 52620), ("Year", 52630), ("Clouds", 53000),
    ("CloudLayerEnable", 53050), ("CloudLayerSelection", 53060), ("Visibility", 53100),
    ("BaseAltitude1", 53200), ("BaseAltitude2", 53250), ("Ceiling1", 53300), ("Ceiling2", 53350),
    ("Characteristics", 53400), ("ConcentrationLength", 53410), ("Transmittance", 53420), ("Radiance", 53430),
    ("Precipitation", 54000), ("Rain", 54100), ("Fog", 55000), ("Visibility1", 55100), ("Visibility2", 55101),
    ("Visibility3", 55105), ("Density1", 55200), ("Base", 55300), ("ViewLayerfromabove_", 55401),
    ("TransitionRange", 55410), ("Bottom1", 55420), ("Bottom2", 55425), ("Ceiling3", 55430),
    ("Ceiling4", 55435), ("HeavenlyBodies", 56000), ("Sun", 56100), ("SunVisible", 56105),
    ("Position1", 56110), ("SunPositionElevationDegrees", 56111), ("PositionAzimuth1", 56120),
    ("SunPositionAzimuthDegrees", 56121), ("PositionElevation1", 56130), ("PositionIntensity1", 56140),
    ("Moon", 56200), ("MoonVisible", 56205), ("Position2", 56210), ("PositionAzimuth2", 56220),
    ("MoonPositionAzimuthDegrees", 56221), ("PositionElevation2", 56230),
    ("MoonPositionElevationDegrees", 56231), ("PositionIntensity2", 56240), ("Horizon", 56310),
    ("HorizonAzimuth", 56320), ("HorizonElevation", 56330), ("HorizonHeading", 56340),
    ("HorizonIntensity", 56350), ("Humidity", 57200), ("Visibility4", 57300), ("Winds", 57400),
    ("Speed2", 57410), ("WindSpeedKnots", 57411), ("WindDirection1", 57420), ("WindDirectionDegrees", 57421),
    ("Rainsoak", 57500), ("TideSpeed", 57610), ("TideSpeedKnots", 57611), ("TideDirection", 57620),
    ("TideDirectionDegrees", 57621), ("Haze", 58000), ("Visibility5", 58100), ("Visibility6", 58105),
    ("Density2", 58200), ("Ceiling5", 58430), ("Ceiling6", 58435), ("ContaminantsandObscurants", 59000),
    ("ContaminantObscurantType", 59100), ("Persistence", 59110), ("ChemicalDosage", 59115),
    ("ChemicalAirConcentration", 59120), ("ChemicalGroundDeposition", 59125),
    ("ChemicalMaximumGroundDeposition", 59130), ("ChemicalDosageThreshold", 59135),
    ("BiologicalDosage", 59140), ("BiologicalAirConcentration", 59145), ("BiologicalDosageThreshold", 59150),
    ("BiologicalBinnedParticleCount", 59155), ("RadiologicalDosage", 59160), ("Communications", 60000),
    ("FireBottleReload", 61005), ("ChannelType1", 61100), ("ChannelType2", 61101),
    ("ChannelIdentification", 61200), ("AlphaIdentification", 61300), ("RadioIdentification", 61400),
    ("LandLineIdentification", 61500), ("IntercomIdentification", 61600),
    ("GroupNetworkChannelNumber", 61700), ("RadioCommunicationsStatus", 62100), ("BoomInterphone", 62101),
    ("StationaryRadioTransmittersDefaultTime", 62200), ("MovingRadioTransmittersDefaultTime", 62300),
    ("StationaryRadioSignalsDefaultTime", 62400), ("MovingRadioSignalDefaultTime", 62500),
    ("RadioInitializationTransecSecurityKey", 63101), ("RadioInitializationInternalNoiseLevel", 63102),
    ("RadioInitializationSquelchThreshold", 63103), ("RadioInitializationAntennaLocation", 63104),
    ("RadioInitializationAntennaPatternType", 63105), ("RadioInitializationAntennaPatternLength", 63106),
    ("RadioInitializationBeamDefinition", 63107), ("RadioInitializationTransmitHeartbeatTime", 63108),
    ("RadioInitializationTransmitDistanceThresholdVariableRecord", 63109),
    ("RadioChannelInitializationLockoutID", 63110), ("RadioChannelInitializationHopsetID", 63111),
    ("RadioChannelInitializationPresetFrequency", 63112),
    ("RadioChannelInitializationFrequencySyncTime", 63113), ("RadioChannelInitializationComsecKey", 63114),
    ("RadioChannelInitializationAlpha", 63115), ("AlgorithmParameters", 70000),
    ("DeadReckoningAlgorithm1", 71000), ("DRALocationThreshold", 71100), ("DRAOrientationThreshold", 71200),
    ("DRATimeThreshold", 71300), ("SimulationManagementParameters", 72000), ("CheckpointInterval", 72100),
    ("TransmitterTimeThreshold", 72600), ("ReceiverTimeThreshold", 72700), ("InteroperabilityMode", 73000),
    ("SIMNETDataCollection", 74000), ("EventID", 75000), ("SourceSiteID", 75100), ("SourceHostID", 75200),
    ("ArticulatedParts", 90000), ("PartID", 90050), ("Index", 90070), ("Position3", 90100),
    ("PositionRate", 90200), ("Extension", 90300), ("ExtensionRate", 90400), ("X3", 90500), ("Xrate", 90600),
    ("Y3", 90700), ("Yrate", 90800), ("Z3", 90900), ("Zrate", 91000), ("Azimuth2", 91100),
    ("AzimuthRate", 91200), ("Elevation", 91300), ("ElevationRate", 91400), ("Rotation2", 91500),
    ("RotationRate", 91600), ("DRAAngularXVelocity", 100001), ("DRAAngularYVelocity", 100002),
    ("DRAAngularZVelocity", 100003), ("AppearanceTrailingEffects", 100004), ("AppearanceHatch", 100005),
    ("AppearanceCharacterSet", 100008), ("CapabilityAmmunitionSupplier", 100010),
    ("CapabilityMiscellaneousSupplier", 100011), ("CapabilityRepairProvider", 100012),
    ("ArticulationParameter", 100014), ("ArticulationParameterType1", 100047),
    ("ArticulationParameterValue1", 100048), ("TimeofDayScene", 100058), ("LatitudeNorth", 100061),
    ("LongitudeEast", 100063), ("TacticalDriverStatus", 100068), ("SonarSystemStatus", 100100),
    ("Accomplishedaccept", 100160), ("Upperlatitude", 100161), ("LatitudeSouth", 100162),
    ("Westernlongitude", 100163), ("LongitudeWest", 100164), ("CDROMNumber", 100165), ("DTEDdiskID", 100166),
    ("Altitude3", 100167), ("TacticalSystemStatus", 100169), ("JTIDSStatus", 100170),
    ("TADILJStatus", 100171), ("DSDDStatus", 100172), ("WeaponSystemStatus", 100200),
    ("Subsystemstatus", 100205), ("Numberofinterceptorsfired", 100206),
    ("Numberofinterceptordetonations", 100207), ("Numberofmessagebuffersdropped", 100208),
    ("Satellitesensorbackground1", 100213), ("Satellitesensorbackground2", 100214), ("ScriptNumber", 100218),
    ("EntityTrackUpdateData", 100300), ("LocalForceTraining", 100400), ("EntityTrackIdentityData", 100500),
    ("EntityforTrackEvent", 100510), ("IFFstatus", 100520), ("EngagementData", 100600),
    ("TargetLatitude", 100610), ("TargetLongitude", 100620), ("AreaofInterestCenterLatitude", 100631),
    ("AreaofInterestCenterLongitude", 100632), ("AreaofInterestRadius", 100633),
    ("AreaofInterestType", 100634), ("TargetAggregateID", 100640), ("GICIdentificationNumber", 100650),
    ("EstimatedTimeofFlighttoTBMImpact", 100660), ("EstimatedInterceptTime", 100661),
    ("EstimatedTimeofFlighttoNextWaypoint", 100662), ("EntityTrackEquipmentData", 100700),
    ("EmissionEWData", 100800), ("AppearanceData", 100900), ("CommandOrderData", 101000),
    ("EnvironmentalData", 101100), ("SignificantEventData", 101200), ("OperatorActionData", 101300),
    ("ADAEngagementMode", 101310), ("ADAShootingStatus", 101320), ("ADAMode", 101321),
    ("ADARadarStatus", 101330), ("ShootCommand", 101340), ("ADAWeaponStatus", 101350),
    ("ADAFiringDisciple", 101360), ("OrderStatus", 101370), ("TimeSynchronization", 101400),
    ("TomahawkData", 101500), ("NumberofDetonations", 102100), ("NumberofIntercepts", 102200),
    ("OBTControlMT201", 200201), ("SensorDataMT202", 200202), ("EnvironmentalDataMT203", 200203),
    ("OwnshipDataMT204", 200204), ("AcousticContactDataMT205", 200205), ("SonobuoyDataMT207", 200207),
    ("SonobuoyContactDataMT210", 200210), ("HeloControlMT211", 200211), ("ESMControlData", 200213),
    ("ESMContactDataMT214", 200214), ("ESMEmitterDataMT215", 200215), ("WeaponDefinitionDataMT217", 200216),
    ("WeaponPresetDataMT217", 200217), ("OBTControlMT301", 200301), ("SensorDataMT302", 200302),
    ("EnvironmentalDataMT303m", 200303), ("OwnshipDataMT304", 200304), ("AcousticContactDataMT305", 200305),
    ("SonobuoyDataMT307", 200307), ("SonobuoyContactDataMT310", 200310),
    ("HeloScenarioEquipmentStatus", 200311), ("ESMControlDataMT313", 200313), ("ESMContactDataMT314", 200314),
    ("ESMEmitterDataMT315", 200315), ("WeaponDefinitionDataMT316", 200316), ("WeaponPresetDataMT317", 200317),
    ("PairingAssociation", 200400), ("Pointer", 200401), ("ReportingResponsibility", 200402),
    ("TrackNumber", 200403), ("IDforLink11Reporting", 200404), ("RemoteTrack", 200405),
    ("Link11ErrorRate", 200406), ("TrackQuality", 200407), ("Gridlock", 200408), ("Kill", 200409),
    ("TrackIDChangeResolution", 200410), ("WeaponsStatus", 200411), ("Link11Operator", 200412),
    ("ForceTrainingTransmit", 200413), ("ForceTrainingReceive", 200414),
    ("InterceptorAmplification1", 200415), ("Consumables1", 200416), ("Link11LocalTrackQuality", 200417),
    ("DLRP", 200418), ("ForceOrder", 200419), ("WilcoCantco", 200420), ("EMCBearing", 200421),
    ("ChangeTrackEligibility", 200422), ("LandMassReferencePoint", 200423), ("SystemReferencePoint", 200424),
    ("PUAmplification", 200425), ("SetDrift", 200426), ("BeginInitialization", 200427),
    ("StatusandControl", 200428), ("ScintillationChange", 200429), ("Link11IDControl", 200430),
    ("PUGuardList", 200431), ("WindsAloft", 200432), ("SurfaceWinds", 200433), ("SeaState", 200434),
    ("MagneticVariation", 200435), ("TrackEligibility", 200436), ("TrainingTrackNotification", 200437),
    ("TacanData", 200501), ("InterceptorAmplification2", 200502), ("TacanAssignment", 200503),
    ("AutopilotStatus", 200504), ("Consumables2", 200505), ("Downlink", 200506), ("TINReport", 200507),
    ("SpecialPointControl", 200508), ("ControlDiscretes", 200509), ("RequestTargetDiscretes", 200510),
    ("TargetDiscretes", 200511), ("ReplyDiscretes", 200512), ("CommandManeuvers", 200513),
    ("TargetData", 200514), ("TargetPointer", 200515), ("InterceptData", 200516),
    ("DecrementMissileInventory", 200517), ("Link4AAlert", 200518), ("StrikeControl", 200519),
    ("SpeedChange", 200521), ("CourseChange", 200522), ("AltitudeChange", 200523),
    ("ACLSANSPN46Status", 200524), ("ACLSAircraftReport", 200525), ("SPS67RadarOperatorFunctions", 200600),
    ("SPS55RadarOperatorFunctions", 200601), ("SPQ9ARadarOperatorFunctions", 200602),
    ("SPS49RadarOperatorFunctions", 200603), ("MK23RadarOperatorFunctions", 200604),
    ("SPS48RadarOperatorFunctions", 200605), ("SPS40RadarOperatorFunctions", 200606),
    ("MK95RadarOperatorFunctions", 200607), ("KillNoKill", 200608), ("CMTpc", 200609),
    ("CMC4AirGlobalData", 200610), ("CMC4GlobalData", 200611), ("LINKSIMCOMMENTPDU", 200612),
    ("NSSTOwnshipControl", 200613), ("Other", 240000), ("MassOfTheVehicle", 240001), ("ForceID3", 240002),
    ("EntityTypeKind", 240003), ("EntityTypeDomain", 240004), ("EntityTypeCountry", 240005),
    ("EntityTypeCategory", 240006), ("EntityTypeSubCategory", 240007), ("EntityTypeSpecific", 240008),
    ("EntityTypeExtra", 240009), ("AlternativeEntityTypeKind", 240010),
    ("AlternativeEntityTypeDomain", 240011), ("AlternativeEntityTypeCountry", 240012),
    ("AlternativeEntityTypeCategory", 240013), ("AlternativeEntityTypeSubCategory", 240014),
    ("AlternativeEntityTypeSpecific", 240015), ("AlternativeEntityTypeExtra", 240016),
    ("EntityLocationX", 240017), ("EntityLocationY", 240018), ("EntityLocationZ", 240019),
    ("EntityLinearVelocityX", 240020), ("EntityLinearVelocityY", 240021), ("EntityLinearVelocityZ", 240022),
    ("EntityOrientationPsi", 240023), ("EntityOrientationTheta", 240024), ("EntityOrientationPhi", 240025),
    ("DeadReckoningAlgorithm2", 240026), ("DeadReckoningLinearAccelerationX", 240027),
    ("DeadReckoningLinearAccelerationY", 240028), ("DeadReckoningLinearAccelerationZ", 240029),
    ("DeadReckoningAngularVelocityX", 240030), ("DeadReckoningAngularVelocityY", 240031),
    ("DeadReckoningAngularVelocityZ", 240032), ("EntityAppearance", 240033),
    ("EntityMarkingCharacterSet", 240034), ("EntityMarking11Bytes", 240035), ("Capability", 240036),
    ("NumberArticulationParameters", 240037), ("ArticulationParameterID", 240038),
    ("ArticulationParameterType2", 240039), ("ArticulationParameterValue2", 240040), ("TypeOfStores", 240041),
    ("QuantityOfStores", 240042), ("FuelQuantity", 240043), ("RadarSystemStatus", 240044),
    ("RadioCommunicationSystemStatus", 240045),
    ("DefaultTimeForRadioTransmissionForStationaryTransmitters", 240046),
    ("DefaultTimeForRadioTransmissionForMovingTransmitters", 240047), ("BodyPartDamagedRatio", 240048),
    ("NameOfTheTerrainDatabaseFile", 240049), ("NameOfLocalFile", 240050), ("AimpointBearing", 240051),
    ("AimpointElevation", 240052), ("AimpointRange", 240053), ("AirSpeed", 240054), ("Altitude", 240055),
    ("ApplicationStatus", 240056), ("AutoIff", 240057), ("BeaconDelay", 240058), ("BingoFuelSetting", 240059),
    ("CloudBottom", 240060), ("CloudTop", 240061), ("Direction", 240062), ("EndAction", 240063),
    ("Frequency", 240064), ("Freeze", 240065), ("Heading", 240066), ("Identification2", 240067),
    ("InitialPointData", 240068), ("Latitude2", 240069), ("Lights2", 240070), ("Linear", 240071),
    ("Longitude2", 240072), ("LowAltitude", 240073), ("MfdFormats", 240074), ("Nctr", 240075),
    ("NumberProjectiles", 240076), ("OperationCode", 240077), ("Pitch", 240078), ("Profiles", 240079),
    ("Quantity3", 240080), ("RadarModes", 240081), ("RadarSearchVolume", 240082), ("Roll", 240083),
    ("Rotation", 240084), ("ScaleFactorX", 240085), ("ScaleFactorY", 240086), ("Shields2", 240087),
    ("Steerpoint", 240088), ("Spare1", 240089), ("Spare2", 240090), ("Team", 240091), ("Text", 240092),
    ("TimeOfDay", 240093), ("TrailFlag", 240094), ("TrailSize", 240095), ("TypeOfProjectile", 240096),
    ("TypeOfTarget", 240097), ("TypeOfThreat", 240098), ("UhfFrequency", 240099), ("UtmAltitude", 240100),
    ("UtmLatitude", 240101), ("UtmLongitude", 240102), ("VhfFrequency", 240103), ("VisibilityRange", 240104),
    ("VoidAaaHit", 240105), ("VoidCollision", 240106), ("VoidEarthHit", 240107), ("VoidFriendly", 240108),
    ("VoidGunHit", 240109), ("VoidRocketHit", 240110), ("VoidSamHit", 240111), ("WeaponData", 240112),
    ("WeaponType", 240113), ("Weather2", 240114), ("WindDirection2", 240115), ("WindSpeed", 240116),
    ("WingStation", 240117), ("Yaw", 240118), ("MemoryOffset", 240119), ("MemoryData", 240120),
    ("VASI", 240121), ("Beacon", 240122), ("Strobe", 240123), ("Culture", 240124), ("Approach", 240125),
    ("RunwayEnd", 240126), ("Obstruction", 240127), ("RunwayEdge", 240128), ("RampTaxiway", 240129),
    ("LaserBombCode", 240130), ("RackType", 240131), ("HUD", 240132), ("RoleFileName", 240133),
    ("PilotName", 240134), ("PilotDesignation", 240135), ("ModelType", 240136), ("DISType", 240137),
    ("Class", 240138), ("Channel", 240139), ("EntityType2", 240140), ("AlternativeEntityType2", 240141),
    ("EntityLocation", 240142), ("EntityLinearVelocity", 240143), ("EntityOrientation", 240144),
    ("DeadReckoning", 240145), ("FailureSymptom", 240146), ("MaxFuel", 240147),
    ("RefuelingBoomConnect", 240148), ("AltitudeAGL", 240149), ("CalibratedAirspeed", 240150),
    ("TACANChannel1", 240151), ("TACANBand1", 240152), ("TACANMode1", 240153), ("FuelFlowRate", 270115),
    ("FuelTemperature", 270116), ("FuelPressure", 270117), ("SKESlot", 270150), ("SKELead", 270151),
    ("SKEFrequency", 270152), ("FCICmd", 270153), ("FCINum", 270154), ("SKEBitField", 270155),
    ("FormationPosition", 270156), ("FormationNumber", 270157), ("FFSModeActive", 270158),
    ("FFSRole", 270159), ("FFSVCAS", 270160), ("FFSBitField", 270161), ("FFSCallSign", 270162),
    ("FFSGuidanceData", 270163), ("FFSTextData", 270164), ("FFSAirdropRequestData", 270165),
    ("FFSAirdropData", 270166), ("HorizontalCircularErrorProbable", 300000),
    ("HorizontalPositionError", 300001), ("VerticalPositionError", 300002),
    ("HorizontalVelocityError", 300003), ("VerticalVelocityError", 300004),
    ("_4thLowestJammertoSignalRatioforP1", 300005), ("_4thLowestJammertoSignalRatioforP2", 300006),
    ("GPSFigureofMerit", 300007), ("WeaponTransferGPSState", 300008),
    ("WeaponTransferHorizontalPositionError", 300009), ("WeaponTransferVerticalPositionError1", 300010),
    ("WeaponTransferVerticalPositionError2", 300011), ("WeaponTransferHorizontalVelocityError", 300012),
    ("TimeTransferError", 300013), ("AgeofEphemeris", 300014),
    ("NonFlyoutMunitionEntityRequestDISTypeEnumeration", 300016),
    ("NonFlyoutMunitionEntityRequestLaunchPointX", 300017),
    ("NonFlyoutMunitionEntityRequestLaunchPointY", 300018),
    ("NonFlyoutMunitionEntityRequestLaunchPointZ", 300019),
    ("NonFlyoutMunitionEntityRequestMaximumAltitude", 300020),
    ("NonFlyoutMunitionEntityRequestFlightPath", 300021),
    ("NonFlyoutMunitionEntityRequestImpactPointX", 300022),
    ("NonFlyoutMunitionEntityRequestImpactPointY", 300023),
    ("NonFlyoutMunitionEntityRequestImpactPointZ", 300024),
    ("NonFlyoutMunitionEntityRequestElapsedFlightTime", 300025),
    ("NonFlyoutMunitionEntityRequestLaunchTime", 300026), ("TimeError", 300027),
    ("Link16CommandVariety1", 301100), ("Push", 301130), ("Rolex", 301140), ("TerminateIntercept", 301150),
    ("HealDamage", 301151), ("Destroy", 301152), ("TransferControlManagement", 301160),
    ("Link16ControlsPPLIEnable", 301170), ("Link16ControlsCommandControlEnable", 301171),
    ("Link16ReferencePointMessageInitiation", 301174), ("AssignExternalEntityLink16TrackNumber", 301175),
    ("Link16IntelligenceInfo", 301176), ("Link16TrackManagement", 301177),
    ("Link16ControlsCESGlobalPPLIPublish", 301178), ("Link16ControlsCESGlobalSurveillancePublish", 301179),
    ("RequestGlobalLink16Configuration", 301180), ("Link16ControlsSurveillanceEnable", 301181),
    ("Link16Pointer", 301182), ("Link16Vector", 301183), ("Link16ControlUnitChange", 301184),
    ("Link16Text", 301185), ("RequestLink16Objects", 301186), ("Link16RefObjectNameList", 301187),
    ("TotalNumberofPDUsinLink16RefObjectsResponse", 301189), ("PDUNumberinLink16RefObjectsResponse", 301190),
    ("TotalNumberofLink16RefObjects", 301191), ("Link16ControlsF2FAEnable", 301197),
    ("Link16ControlsF2FBEnable", 301198), ("STNofFormationLeader", 301199), ("FormationName", 301200),
    ("FormationRole", 301201), ("SurveillanceContributorSensorBasedDetection", 301202), ("F2FANPG", 301220),
    ("Link16ControlsF2FANet", 301221), ("F2FBNPG", 301222), ("Link16ControlsF2FBNet", 301223),
    ("SurveillanceEnabledNPB", 301224), ("SurveillanceEnabledNet", 301225), ("ControlUnitEnabled", 301226),
    ("ControlUnitEnabledNPG", 301227), ("ControlUnitEnabledNet", 301228), ("VoiceFrequency", 301229),
    ("Link16JTIDSVoiceCallsign", 301234), ("EntityIDofControlUnit", 301237), ("STNofControlUnit", 301238),
    ("NTRParticipationLevel", 301239), ("Link16ControlsCESGlobalPPLISubscribe", 301240),
    ("Link16ControlsCESGlobalSurveillanceSubscribe", 301241), ("NTRinMission", 301242),
    ("NTRMarking", 301243), ("NTRReceiptCompliance", 301244), ("FormationF2FNPG", 301255),
    ("FormationF2FChannel", 301256), ("JLVCLogReport", 400008), ("JLVCSupplyAdjust", 400009),
    ("JLVCEntityControl", 400010), ("JLVCHealthUpdate", 400011), ("JLVCRepairComplete", 400012),
    ("JLVCUnitActivation", 400013), ("JLVCBattleDamageRepair", 400014), ("JLVCMinefield", 400015),
    ("JLVCWire", 400016), ("JLVCAbatis", 400017), ("JLVCCrater", 400018), ("JLVCDitch", 400019),
    ("JLVCLanes", 400020), ("JLVCIED", 400021), ("JLVCRubble", 400022), ("JLVCSubmergedBarrier", 400023),
    ("JLVCFloatingBarrier", 400024), ("JLVCFoxhole", 400025), ("JLVCVehicleHole", 400026),
    ("JLVCVehicleFortification", 400027), ("JLVCSandbag", 400028), ("JLVCCheckpoint", 400029),
    ("JLVCContamCloud2D", 400030), ("JLVCPopulationEffect", 400031), ("JLVCMine", 400032),
    ("JLVCSeaMinefield", 400033), ("Munition", 500001), ("EngineFuel", 500002), ("StorageFuel", 500003),
    ("NotUsed", 500004), ("Expendable", 500005), ("TotalRecordSets", 500006), ("LaunchedMunition", 500007),
    ("Association", 500008), ("Sensor", 500009), ("MunitionReload", 500010), ("EngineFuelReload", 500011),
    ("StorageFuelReload", 500012), ("ExpendableReload", 500013), ("IFFChangeControlMode1Code", 500014),
    ("IFFChangeControlMode2Code", 500015), ("IFFChangeControlMode3Code", 500016),
    ("IFFChangeControlMode4Code", 500017), ("IFFChangeControlMode5Code", 500018),
    ("IFFChangeControlMode6Code", 500019), ("Link16Data", 500021), ("ARMAlert", 500022),
    ("IFFChangeControlModeOnOff", 500023), ("WeaponStatusData", 500024), ("ExpendableStatusData", 500025),
    ("TacticStatusData", 500026), ("EmitterSensorData", 500027), ("IOSControlData", 500028),
    ("StaticStatusData", 500029), ("RequestInactiveEntities", 500200), ("InactiveEntityQuantity", 500201),
    ("InactiveEntityID", 500202), ("InactiveEntityType", 500203), ("ActivationTriggerType", 500204),
    ("ActivationTriggerValue", 500205), ("AirtoAirMissileQty", 551001), ("AIM7MissileQty", 551002),
    ("AIM9MissileQty", 551003), ("AIM120MissileQty", 551004), ("AirtoGroundMissileQty", 551005),
    ("SurfacetoAirMissileQty", 551006), ("BulletQty1", 551007), ("ChaffQty", 552001), ("FlareQty", 552002),
    ("FuelLevel", 553001), ("RouteType", 553002), ("ThreatMode", 553003), ("TargetOccluded", 553004),
    ("TerrainHeight", 553005), ("EntityStatus", 553006), ("MarshalStatus", 553007),
    ("PowerPlantStatus", 553008), ("NavLightStatus", 553009), ("InteriorLightStatus", 553010),
    ("LandingLightStatus", 553011), ("FormationLightStatus", 553012), ("AntiCollisionLightStatus", 553013),
    ("NavFormationFlashRate", 553014), ("AntiColOnDuration", 553015), ("AntiColOffDuration", 553016),
    ("InterceptStatus", 553017), ("LifeFormSignalingDeviceType", 553018), ("LifeFormMovementType", 553019),
    ("LifeFormInVehicle", 553020), ("MobilityKill2", 553021), ("FirepowerKill", 553022),
    ("TankerEnabledDisabled", 553028), ("ThreatStatusTacticOKtoShootDownWeapons", 553029),
    ("TACANChannel2", 554001), ("TACANBand2", 554002), ("TACANMode2", 554003), ("RWRStatus", 554004),
    ("UHFRadioFrequency", 554005), ("EmitJammingStatus", 554006), ("EmitJammingType", 554007),
    ("ReceiveJammingStatus", 554008), ("RADARMode", 554009), ("AvailableRADARModes", 554010),
    ("JammerPodEnumeration", 554100), ("JammerPodBehavior", 554101), ("JammerPodPrograms", 554102),
    ("JammerPodReceiverSensitivity", 554103), ("JammerPodReceiverFrequencyMinimum", 554104),
    ("JammerPodReceiverFrequencyMaximum", 554105), ("JammerPodPower", 554106),
    ("JammerPodVariability", 554107), ("JammerPodNumberofFalseTargets", 554108),
    ("JammerPodJammerKnob", 554109), ("JammerPodMissileJamming", 554110), ("EmitterOverride2", 555001),
    ("JammerOverride", 555002), ("DisengageReengage2", 555003), ("HeadingOverride", 555004),
    ("AltitudeOverride", 555005), ("SpeedOverride", 555006), ("VerboseOverride", 555007),
    ("OcclusionOverride", 555008), ("CommitRange", 556001),
    ("CurrentScenarioIFFMode4ACodeforThisThreatsAffiliation", 556007),
    ("CurrentScenarioIFFMode4BCodeforThisThreatsAffiliation", 556008), ("OktoEngageWaypointNumber", 556016),
    ("MaxSpeedatSeaLevel", 556017), ("MaxSpeed", 556018), ("CurrentWaypointNumber", 556019),
    ("RouteInformation", 556020), ("ThreatStatusStaticMultiTargetTrack", 556029),
    ("AirAirIRMissileQty", 557001), ("AirAirRadarMissileQty", 557002), ("AirGroundIRMissileQty", 557003),
    ("AirGroundRadarMissileQty", 557004), ("AirGroundAntiRadiationMissileQty", 557005),
    ("AirGroundBombQty", 557006), ("AirGroundRocketQty", 557007), ("SurfaceAirIRMissileQty", 557008),
    ("SurfaceAirRadarMissileQty", 557009), ("BulletQty2", 557010), ("PPLIPublishEnabled", 559001),
    ("SurveillancePublishEnabled", 559002), ("NPG", 559003), ("NPGChannel", 559004),
    ("JTIDSTrackNumber", 559005), ("Link16ControlsSurveillanceReportable", 559006),
    ("Link16ControlsSurveillanceTrackQuality", 559007), ("Link16ControlsTargetPositionQuality", 559008),
    ("Link16ControlsQualityErrorType", 559009), ("Link16ControlsAffiliationDeterminationRule", 559010),
    ("Link16ControlsResetEntityAffiliation", 559011), ("Link16ControlsResetAllAffiliation", 559012),
    ("EndofMessages", 559999), ("MalfunctionActivateDeactivateSet", 600001), ("MalfunctionStatus", 600002),
    ("RequestJTIDSTrackNumbers", 600210), ("TrackNumbersvsEID", 600212),
    ("TotalNumberofJTIDSTrackNumbers", 600214), ("PDUNumberinJTIDSTrackNumberResponse", 600215),
    ("TotalNumberofPDUsinJTIDSTrackNumberResponse", 600216), ("AirtoAirRefuelerEntitiesRequest", 600218),
    ("AirtoAirRefuelingCount", 600219), ("AirToAirRefuelerEntity", 600220),
    ("FormationLibraryRequest", 600300), ("TotalNumberFormationLibraryPDUs1", 600301),
    ("PDUNumberinFormationLibraryResponse1", 600302), ("TotalNumberFormationLibraryItemsinPDU", 600303),
    ("FormationLibraryVariable", 600304), ("CreateRuntimeFormation", 600305),
    ("FormationRequestHeader", 600306), ("FormationPositionAbsolute", 600307),
    ("FormationPositionRelative", 600308), ("ExpendablesReload", 610006), ("PositionFreeze", 610007),
    ("ActivateOwnship", 610008), ("Chocks", 610009), ("WarmupCooldownOverride", 610010),
    ("GroundPower", 610011), ("ScrambleStart", 610012), ("OwnshipasaThreat", 610013),
    ("FuelExternal", 610015), ("FuelInternal", 610016), ("FuelTankTemp", 610017), ("GrossWeight", 610025),
    ("AngleOfAttack", 610026), ("GLoad", 610027), ("WeightOnWheels", 610029),
    ("StoredEnergySystemReload", 610032), ("KillOverride", 610035), ("ExpendablesFreeze", 610036),
    ("GPSSatellitesEnableDisable", 610037), ("OwnshipMessageDisplay", 610040),
    ("WeaponQuantityFreeze", 610042), ("GlobalControlFreezeWeaponsQuantityOnAllOwnships", 610043),
    ("GlobalControlFreezeFuelQuantityOnAllOwnships", 610044),
    ("GlobalControlFreezeKillOverrideOnAllOwnships", 610045),
    ("GlobalControlFreezeCrashOverrideOnAllOwnships", 610046), ("OwnshipOFPBlockNumber", 610047),
    ("WaypointInformationQuery", 610048), ("WaypointInformation", 610049),
    ("OwnshipSubsystemStatusData", 610050), ("CockpitSwitchStatus", 613002),
    ("IntegratedControlPanelMessages", 613003), ("ThrottlePositions", 613004),
    ("CurrentCriticalSwitchPosition", 613005), ("CorrectCriticalSwitchPosition", 613006),
    ("CurrentCriticalSwitchData", 613007), ("CorrectCriticalSwitchData", 613008),
    ("MissionInitialConditionsSet", 613013), ("GlobalControlMalfunctionActiveonAllOwnships", 613016),
    ("GlobalControlMalfunctionClearOnAllOwnships", 613017), ("ValidatedCriticalSwitchReport", 613020),
    ("SARMapPathname", 613021), ("ValidatedCriticalSwitchOwnshipID", 613022),
    ("LowerBoomEventReport", 613027), ("RaiseBoomEventReport", 613028), ("BreakawayEventReport", 613029),
    ("CompleteEventReport", 613030), ("AuxCommPanelFrequencyDisplay", 613031),
    ("NetworkStationInformation", 615000), ("GlobalControlSelectNetworkStation", 615001),
    ("NetworkStationUnderGlobalControl", 615002), ("GlobalControlStillControlling", 615003),
    ("GlobalControlReleaseControlofNetworkStation", 615004), ("GlobalControlFreezeWeaponQuantity", 615005),
    ("GlobalControlFreezeFuelQuantity", 615006), ("GlobalControlFreezeKillOverride", 615007),
    ("GlobalControlFreezeCrashOverride", 615008), ("GlobalControlMalfunctionActive", 615009),
    ("GlobalControlMalfunctionClear", 615010), ("GlobalControlStartDevices", 615011),
    ("GlobalControlFreezeDevices", 615012), ("GlobalControlJTIDSCommand", 615013),
    ("NetworkStationICSetInformation", 615015), ("GlobalControlResetICSet", 615017),
    ("NumberofControllingUnits", 615018), ("NetworkStationJTIDSControllingUnits", 615019),
    ("NetworkStationJTIDSObjectiveTracks", 615020), ("NumberofReferenceObjects", 615021),
    ("NetworkStationJTIDSReferenceObjects", 615022), ("NetworkedStationStillUnderControl", 615023),
    ("GlobalControlDeleteThreatEntities", 615024), ("NetworkStationOwnshipCallsigns", 615025),
    ("GlobalControlRequestFormationLibraryData", 615026), ("TotalNumberFormationLibraryPDUs2", 615027),
    ("PDUNumberinFormationLibraryResponse2", 615028), ("TotalNumberFormationLibraryItemsinPDUs", 615029),
    ("NetworkStationFormationLibraryItem", 615030), ("GlobalControlAddRelativeFormation", 615031),
    ("NetworkStationTICFilename", 615032), ("GlobalControlFreezeWarmupOverride", 615033),
    ("GlobalControlReloadSES", 615034), ("GlobalControlReloadWeapons", 615035),
    ("GlobalControlReloadExpendables", 615036), ("GlobalControlReloadFuel", 615037),
    ("GlobalControlReloadFirebottle", 615038), ("TestPattern", 700000), ("AudioTest", 700001),
    ("AudioTone", 700002), ("CalibrateThrottles", 700003), ("OperationalLimitsEventReport", 700004),
    ("OperationalLimits", 700005), ("EventMarkerMessage", 1000620),
    ("ReceiverAircraftAeroModelData", 2000000), ("TankerAircraftAeroModelData", 2000010),
    ("BoomAircraftAeroModelData", 2000020), ("AccesstoImageGeneratorData1", 2000030),
    ("AccesstoImageGeneratorData2", 2000031), ("AccesstoImageGeneratorData3", 2000032),
    ("AccesstoImageGeneratorData4", 2000033), ("AccesstoImageGeneratorData5", 2000034),
    ("AccesstoImageGeneratorData6", 2000035), ("AccesstoImageGeneratorData7", 2000036),
    ("AccesstoImageGeneratorData8", 2000037), ("AccesstoImageGeneratorData9", 2000038),
    ("AccesstoImageGeneratorData10", 2000039), ("AccesstoImageGeneratorData11", 2000040),
    ("AccesstoImageGeneratorData12", 2000041), ("AccesstoImageGeneratorData13", 2000042),
    ("AccesstoImageGeneratorData14", 2000043), ("AccesstoImageGeneratorData15", 2000044),
    ("AccesstoImageGeneratorData16", 2000045), ("HostLoadNumber", 2000050),
    ("ExtendedFireEventReports", 5005001), ("BattleDamageAssessmentEventReport", 5005002),
    ("ExtendedFireEventLauncher", 5005003), ("ExtendedFireEventMissile", 5005006),
    ("ExtendedFireEventMRMWeapon", 5005008), ("ExtendedFireEventGunFireControl", 5005009),
    ("ExtendedFireEventBomb", 5005010), ("ExtendedFireEventExpendable", 5005011),
    ("BattleDamageAssessment", 5005012), ("ExtendedFirePickleEvent", 5005014), ("RadarTrackReport", 5005055),
    ("JammerReport", 5005060), ("JammerFalseTargetsReport", 5005061), ("DetectEventReport", 5005063),
    ("MALDBeamReport", 5005070), ("TransmitterRadiationVolume", 5005080),
    ("TransmitterRadiationVolumev2", 5005081), ("PhysicalNetworkDefinition", 5007010),
    ("NetworkChannelDefinition", 5007020), ("LogicalNetworkDefinition", 5007030),
    ("LogicalNetworkEntityDefinition", 5007040), ("PhysicalNetworkEntityDefinition", 5007050),
    ("C2Message", 5008010), ("CandidateObject", 5008020), ("SetofCandidateObjects", 5008030),
    ("BoundedRegion", 5008040), ("AngularRegion", 5008050), ("RoEObject", 5008060), ("TrackObject", 5008070),
    ("SetOfTrackObjects", 5008080), ("LogicalEntityDefinition", 5009010),
    ("LogicalEntityRelationshipDefinition", 5009020), ("IntentBasedEWMessage", 5507010)
  ]
/-- src/common/enums.rs:2331-3581 -/
abbrev VariableRecordTypes := EnumVal VariableRecordTypes.spec
/-- src/common/enums.rs:3583-3588 -/
abbrev VariableRecordTypes.deserialize : Get VariableRecordTypes := VariableRecordTypes.spec.deserialize
/-- src/common/enums.rs:3590-3594 -/
instance : FieldSerialize VariableRecordTypes := ⟨fun x => putU32 x.asU32⟩
/-- src/common/enums.rs:3596-3600 -/
instance : FieldDeserialize VariableRecordTypes := ⟨VariableRecordTypes.deserialize⟩
/-- src/common/enums.rs:3602-3606 -/
instance : FieldLen VariableRecordTypes := ⟨fun _ => 4⟩

end Dis
