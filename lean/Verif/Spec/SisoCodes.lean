import Verif.Model.Enums.All
/-
Specification for C47: the codes SISO-REF-010 assigns in the enumerations that occur in PDUs, and the
number of octets IEEE 1278.1 gives them.  The tables were drafted from the crate and reviewed table by
table from knowledge of the standard (its text is not available in the sandbox), so they pin the wire
codes against any later change of the crate; the names are the crate's spelling of the standard's.
-/
set_option maxRecDepth 20000
namespace Dis

/-- One table of the standard. -/
structure SisoTable where
  /-- octets the enumeration occupies on the wire -/
  octets : Nat
  /-- the value an unassigned code is read as -/
  fallback : Nat
  /-- what each code means -/
  rows : List (String × Nat)

/-- `names.zipIdx` for the tables whose codes are 0, 1, 2, ... -/
def SisoTable.numbered (octets : Nat) (names : List String) (fallback : Nat := 0) : SisoTable :=
  ⟨octets, fallback, names.zipIdx⟩

/-- The enumerations of the crate paired with the standard's table. -/
def sisoTables : List (EnumSpec × SisoTable) := [
  (AcknowledgeFlag.spec, ⟨2, 1, [
     ("CreateEntity", 1), ("RemoveEntity", 2), ("StartResume", 3), ("StopFreeze", 4),
     ("TransferOwnership", 5)]⟩),
  (AcknowledgeResponseFlag.spec, .numbered 2 [
     "Other", "AbleToComply", "UnableToComply", "PendingOperatorAction"]),
  (ActionResponseRequestStatus.spec, ⟨4, 0, [
     ("Other", 0), ("Pending", 1), ("Executing", 2), ("PartiallyComplete", 3), ("Complete", 4),
     ("RequestRejected", 5), ("RetransmitRequestNow", 6), ("RetransmitRequestLater", 7),
     ("InvalidTimeParameters", 8), ("SimulationTimeExceeded", 9), ("RequestDone", 10),
     ("TACCSFLOSReplyTypeOne", 100), ("TACCSFLOSReplyTypeTwo", 101), ("JoinExerciseRequestRejected", 201)]⟩),
  (AggregateStateAggregateState.spec, .numbered 1 [
     "Other", "Aggregated", "Disaggregated", "Fullydisaggregated", "Pseudodisaggregated",
     "Partiallydisaggregated"]),
  (AggregateStateFormation.spec, .numbered 4 [
     "Other", "Assembly", "Vee", "Wedge", "Line", "Column"]),
  (ComponentDamageStatus.spec, .numbered 1 [
     "NoDamage", "MinorDamage", "MediumDamage", "MajorDamage", "Destroyed"]),
  (ComponentIdentification.spec, .numbered 1 [
     "EntityCenter", "EntityStructure", "ControlSystem", "ControlSurface", "EnginePropulsionSystem",
     "CrewMember", "Fuse", "AcquisitionSensor", "TrackingSensor", "FuelTankSolidRocketMotor"]),
  (ComponentVisualSmokeColor.spec, .numbered 1 [
     "NoSmoke", "White", "Gray", "Black"]),
  (Country.spec, ⟨2, 0, [
     ("Other", 0), ("Afghanistan", 1), ("Albania", 2), ("Algeria", 3), ("AmericanSamoa", 4), ("Andorra", 5),
     ("Angola", 6), ("Anguilla", 7), ("Antarctica", 8), ("AntiguaandBarbuda", 9), ("Argentina", 10),
     ("Aruba", 11), ("AshmoreandCartierIslands", 12), ("Australia", 13), ("Austria", 14), ("Bahamas", 15),
     ("Bahrain", 16), ("BakerIsland", 17), ("Bangladesh", 18), ("Barbados", 19), ("BassasdaIndia", 20),
     ("Belgium", 21), ("Belize", 22), ("Benin", 23), ("Bermuda", 24), ("Bhutan", 25), ("Bolivia", 26),
     ("Botswana", 27), ("BouvetIsland", 28), ("Brazil", 29), ("BritishIndianOceanTerritory", 30),
     ("VirginIslandsBritish", 31), ("BruneiDarussalam", 32), ("Bulgaria", 33), ("BurkinaFaso", 34),
     ("Myanmar", 35), ("Burundi", 36), ("Cambodia", 37), ("Cameroon", 38), ("Canada", 39), ("CaboVerde", 40),
     ("CaymanIslands", 41), ("CentralAfricanRepublic", 42), ("Chad", 43), ("Chile", 44),
     ("ChinaPeoplesRepublicof", 45), ("ChristmasIsland", 46), ("Cocos", 47), ("Colombia", 48),
     ("Comoros", 49), ("Congo", 50), ("CookIslands", 51), ("CoralSeaIslands", 52), ("CostaRica", 53),
     ("Cuba", 54), ("Cyprus", 55), ("Czechoslovakia", 56), ("Denmark", 57), ("Djibouti", 58),
     ("Dominica", 59), ("DominicanRepublic", 60), ("Ecuador", 61), ("Egypt", 62), ("ElSalvador", 63),
     ("EquatorialGuinea", 64), ("Ethiopia", 65), ("EuropaIsland", 66), ("FalklandIslands", 67),
     ("FaroeIslands", 68), ("Fiji", 69), ("Finland", 70), ("France", 71), ("FrenchGuiana", 72),
     ("FrenchPolynesia", 73), ("FrenchSouthernTerritories", 74), ("Gabon", 75), ("GambiaThe", 76),
     ("GazaStrip", 77), ("Germany", 78), ("Ghana", 79), ("Gibraltar", 80), ("GloriosoIslands", 81),
     ("Greece", 82), ("Greenland", 83), ("Grenada", 84), ("Guadeloupe", 85), ("Guam", 86), ("Guatemala", 87),
     ("Guernsey", 88), ("Guinea", 89), ("GuineaBissau", 90), ("Guyana", 91), ("Haiti", 92),
     ("HeardIslandandMcDonaldIslands", 93), ("Honduras", 94), ("HongKong", 95), ("HowlandIsland", 96),
     ("Hungary", 97), ("Iceland", 98), ("India", 99), ("Indonesia", 100), ("Iran", 101), ("Iraq", 102),
     ("Ireland", 104), ("Israel", 105), ("Italy", 106), ("CotedIvoire", 107), ("Jamaica", 108),
     ("JanMayen", 109), ("Japan", 110), ("JarvisIsland", 111), ("Jersey", 112), ("JohnstonAtoll", 113),
     ("Jordan", 114), ("JuandeNovaIsland", 115), ("Kenya", 116), ("KingmanReef", 117), ("Kiribati", 118),
     ("KoreaDemocraticPeoplesRepublicOf", 119), ("KoreaRepublicOf", 120), ("Kuwait", 121),
     ("LaoPeoplesDemocraticRepublic", 122), ("Lebanon", 123), ("Lesotho", 124), ("Liberia", 125),
     ("Libya", 126), ("Liechtenstein", 127), ("Luxembourg", 128), ("Madagascar", 129), ("Macao", 130),
     ("Malawi", 131), ("Malaysia", 132), ("Maldives", 133), ("Mali", 134), ("Malta", 135),
     ("IsleofMan", 136), ("MarshallIslands", 137), ("Martinique", 138), ("Mauritania", 139),
     ("Mauritius", 140), ("Mayotte", 141), ("Mexico", 142), ("Micronesia", 143), ("Monaco", 144),
     ("Mongolia", 145), ("Montserrat", 146), ("Morocco", 147), ("Mozambique", 148), ("Namibia", 149),
     ("Nauru", 150), ("NavassaIsland", 151), ("Nepal", 152), ("Netherlands", 153),
     ("NetherlandsAntilles", 154), ("NewCaledonia", 155), ("NewZealand", 156), ("Nicaragua", 157),
     ("Niger", 158), ("Nigeria", 159), ("Niue", 160), ("NorfolkIsland", 161),
     ("NorthernMarianaIslands", 162), ("Norway", 163), ("Oman", 164), ("Pakistan", 165),
     ("PalmyraAtoll", 166), ("Panama", 168), ("PapuaNewGuinea", 169), ("ParacelIslands", 170),
     ("Paraguay", 171), ("Peru", 172), ("Philippines", 173), ("Pitcairn", 174), ("Poland", 175),
     ("Portugal", 176), ("PuertoRico", 177), ("Qatar", 178), ("Reunion", 179), ("Romania", 180),
     ("Rwanda", 181), ("SaintKittsandNevis", 182), ("SaintHelenaAscensionandTristandaCunha", 183),
     ("SaintLucia", 184), ("SaintPierreandMiquelon", 185), ("SaintVincentandtheGrenadines", 186),
     ("SanMarino", 187), ("SaoTomeandPrincipe", 188), ("SaudiArabia", 189), ("Senegal", 190),
     ("Seychelles", 191), ("SierraLeone", 192), ("Singapore", 193), ("SolomonIslands", 194),
     ("Somalia", 195), ("SouthGeorgiaandtheSouthSandwichIslands", 196), ("SouthAfrica", 197), ("Spain", 198),
     ("SpratlyIslands", 199), ("SriLanka", 200), ("Sudan", 201), ("Suriname", 202), ("Svalbard", 203),
     ("Eswatini", 204), ("Sweden", 205), ("Switzerland", 206), ("SyrianArabRepublic", 207),
     ("TaiwanProvinceofChina", 208), ("TanzaniaUnitedRepublicof", 209), ("Thailand", 210), ("Togo", 211),
     ("Tokelau", 212), ("Tonga", 213), ("TrinidadandTobago", 214), ("TromelinIsland", 215), ("Palau", 216),
     ("Tunisia", 217), ("Turkey", 218), ("TurksandCaicosIslands", 219), ("Tuvalu", 220), ("Uganda", 221),
     ("Russia", 222), ("UnitedArabEmirates", 223), ("UnitedKingdomofGreatBritainandNorthernIreland", 224),
     ("UnitedStatesofAmerica", 225), ("Uruguay", 226), ("Vanuatu", 227), ("HolySee", 228),
     ("Venezuela", 229), ("VietNam", 230), ("VirginIslandsUS", 231), ("WakeIsland", 232),
     ("WallisandFutuna", 233), ("WesternSahara", 234), ("WestBank", 235), ("Samoa", 236), ("Yemen", 237),
     ("SerbiaandMontenegro_", 240), ("Zaire", 241), ("Zambia", 242), ("Zimbabwe", 243), ("Armenia", 244),
     ("Azerbaijan", 245), ("Belarus", 246), ("BosniaandHerzegovina", 247), ("ClippertonIsland", 248),
     ("Croatia", 249), ("Estonia", 250), ("Georgia", 251), ("Kazakhstan", 252), ("Kyrgyzstan", 253),
     ("Latvia", 254), ("Lithuania", 255), ("NorthMacedonia", 256), ("MidwayIslands", 257), ("Moldova", 258),
     ("Montenegro", 259), ("Russia_", 260), ("SerbiaAndMontenegro__", 261), ("Slovenia", 262),
     ("Tajikistan", 263), ("Turkmenistan", 264), ("Ukraine", 265), ("Uzbekistan", 266),
     ("CzechRepublic", 267), ("Slovakia", 268), ("AalandIslands", 269), ("BonaireSintEustatiusandSaba", 270),
     ("CongoDemocraticRepublicOfThe", 271), ("Curacao", 272), ("Eritrea", 273), ("SaintBarthelemy", 274),
     ("SaintMartin", 275), ("Serbia", 276), ("SintMaarten", 277), ("SouthSudan", 278),
     ("SvalbardandJanMayen", 279), ("TimorLeste", 280), ("UnitedStatesMinorOutlyingIslands", 281),
     ("PalestineStateof", 282)]⟩),
  (DEFirePulseShape.spec, .numbered 1 [
     "Other", "SquareWave", "ContinuousWave", "Gaussian"]),
  (DeadReckoningAlgorithm.spec, .numbered 1 [
     "Other", "StaticNonmovingEntity", "DRMConstantVelocityLowAccelerationLinearMotionEntity",
     "DRMConstantVelocityLowAccelerationLinearMotionEntitywithExtrapolationofOrientation",
     "DRMHighSpeedorManeuveringEntitywithExtrapolationofOrientation", "DRMHighSpeedorManeuveringEntity",
     "DRMSimilartoFPWexceptinBodyCoordinates", "DRMSimilartoRPWexceptinBodyCoordinates",
     "DRMSimilartoRVWexceptinBodyCoordinates", "DRMSimilartoFVWexceptinBodyCoordinates"]),
  (DetonationResult.spec, .numbered 1 [
     "Other", "EntityImpact", "EntityProximateDetonation", "GroundImpact", "GroundProximateDetonation",
     "Detonation", "NoneorNoDetonation", "HEhitsmall", "HEhitmedium", "HEhitlarge", "Armorpiercinghit",
     "Dirtblastsmall", "Dirtblastmedium", "Dirtblastlarge", "Waterblastsmall", "Waterblastmedium",
     "Waterblastlarge", "Airhit", "Buildinghitsmall", "Buildinghitmedium", "Buildinghitlarge",
     "Mineclearinglinecharge", "Environmentobjectimpact", "Environmentobjectproximatedetonation",
     "WaterImpact", "AirBurst", "Killwithfragmenttype1", "Killwithfragmenttype2", "Killwithfragmenttype3",
     "Killwithfragmenttype1afterflyoutfailure", "Killwithfragmenttype2afterflyoutfailure",
     "Missduetoflyoutfailure", "Missduetoendgamefailure", "Missduetoflyoutandendgamefailure"]),
  (EEAttributeStateIndicator.spec, .numbered 1 [
     "HeartbeatUpdate", "ChangedData", "HasCeased"]),
  (EmitterSystemFunction.spec, ⟨1, 0, [
     ("Other", 0), ("MultiFunction", 1), ("EarlyWarningSurveillance", 2), ("HeightFinder", 3),
     ("FireControl", 4), ("AcquisitionDetection", 5), ("Tracker", 6), ("GuidanceIllumination", 7),
     ("FiringPointLaunchPointLocation", 8), ("RangeOnly", 9), ("RadarAltimeter", 10), ("Imaging", 11),
     ("MotionDetection", 12), ("Navigation", 13), ("WeatherMeteorological", 14), ("Instrumentation", 15),
     ("IdentificationClassification", 16), ("AAAFireControl", 17), ("AirSearchBomb", 18),
     ("AirIntercept", 19), ("Altimeter", 20), ("AirMapping", 21), ("AirTrafficControl", 22), ("Beacon", 23),
     ("BattlefieldSurveillance", 24), ("GroundControlApproach", 25), ("GroundControlIntercept", 26),
     ("CoastalSurveillance", 27), ("DecoyMimic", 28), ("DataTransmission", 29), ("EarthSurveillance", 30),
     ("GunLayBeacon", 31), ("GroundMapping", 32), ("HarborSurveillance", 33), ("IFF", 34),
     ("InstrumentLandingSystem", 35), ("IonosphericSound", 36), ("Interrogator", 37), ("BarrageJamming", 38),
     ("ClickJamming", 39), ("DeceptiveJamming", 40), ("FrequencySweptJamming", 41), ("Jammer", 42),
     ("NoiseJamming", 43), ("PulsedJamming", 44), ("RepeaterJamming", 45), ("SpotNoiseJamming", 46),
     ("MissileAcquisition", 47), ("MissileDownlink", 48), ("Meteorological", 49), ("Space", 50),
     ("SurfaceSearch", 51), ("ShellTracking", 52), ("Television", 56), ("Unknown", 57),
     ("VideoRemoting", 58), ("ExperimentalOrTraining", 59), ("MissileGuidance", 60), ("MissileHoming", 61),
     ("MissileTracking", 62), ("JammingNoise", 64), ("JammingDeception", 65), ("Decoy", 66),
     ("NavigationDistanceMeasuringEquipment", 71), ("TerrainFollowing", 72), ("WeatherAvoidance", 73),
     ("ProximityFuse", 74), ("Instrumentation_", 75), ("Radiosonde", 76), ("Sonobuoy", 77),
     ("BathythermalSensor", 78), ("TowedCounterMeasure", 79), ("DippingSonar", 80),
     ("TowedAcousticSensor", 81), ("WeaponNonlethal", 96), ("WeaponLethal", 97), ("TestEquipment", 98),
     ("AcquisitionTrack", 99), ("TrackGuidance", 100), ("GuidanceIlluminationTrackAcquisition", 101),
     ("SearchAcquisition", 102), ("Dropsonde", 103)]⟩),
  (EntityKind.spec, .numbered 1 [
     "Other", "Platform", "Munition", "LifeForm", "Environmental", "CulturalFeature", "Supply", "Radio",
     "Expendable", "SensorEmitter"]),
  (EntityMarkingCharacterSet.spec, .numbered 1 [
     "Unused", "ASCII", "USArmyMarking", "DigitChevron"]),
  (EventType.spec, ⟨4, 0, [
     ("Other", 0), ("RanOutOfAmmunition", 2), ("KilledInAction", 3), ("Damage", 4), ("MobilityDisabled", 5),
     ("FireDisabled", 6), ("RanOutOfFuel", 7), ("EntityInitialization", 8),
     ("RequestForIndirectFireOrCASMission", 9), ("IndirectFireOrCASFire", 10), ("MinefieldEntry", 11),
     ("MinefieldDetonation", 12), ("VehicleMasterPowerOn", 13), ("VehicleMasterPowerOff", 14),
     ("AggregateStateChangeRequested", 15), ("PreventCollisionDetonation", 16), ("OwnershipReport", 17),
     ("RadarPerception", 18), ("Detect", 19)]⟩),
  (ForceId.spec, .numbered 1 [
     "Other", "Friendly", "Opposing", "Neutral", "Friendly2", "Opposing2", "Neutral2", "Friendly3",
     "Opposing3", "Neutral3", "Friendly4", "Opposing4", "Neutral4", "Friendly5", "Opposing5", "Neutral5",
     "Friendly6", "Opposing6", "Neutral6", "Friendly7", "Opposing7", "Neutral7", "Friendly8", "Opposing8",
     "Neutral8", "Friendly9", "Opposing9", "Neutral9", "Friendly10", "Opposing10", "Neutral10"]),
  (GridAxisDescriptorAxisType.spec, .numbered 1 [
     "RegularAxis", "IrregularAxis"]),
  (GriddedDataConstantGrid.spec, .numbered 1 [
     "Constantgrid", "Updatedgrid"]),
  (GriddedDataCoordinateSystem.spec, .numbered 2 [
     "RightHandedCartesian", "LeftHandedCartesian", "LatitudeLongitudeHeight", "LatitudeLongitudeDepth"]),
  (IOActionIOActionPhase.spec, .numbered 2 [
     "NoStatement", "StartAttackProfile", "EndAttackProfile", "ContinueAttackProfilewithChanges",
     "StartAttackEffects", "EndAttackedEffects", "ContinueAttackEffectswithChanges"]),
  (IOActionIOActionType.spec, .numbered 2 [
     "NoStatement", "IOAttackProfileData", "IOAttackComputedEffects", "IntentBasedEW",
     "IntentBasedEWComputedEffects"]),
  (IOActionIOWarfareType.spec, .numbered 2 [
     "NoStatement", "ElectronicWarfare", "ComputerNetworkOperations", "PsychologicalOperations",
     "MilitaryDeception", "OperationsSecurity", "PhysicalAttack"]),
  (IOReportIOReportType.spec, .numbered 1 [
     "NoStatement", "InitialReport", "UpdateReport", "FinalReport"]),
  (IntercomControlCommand.spec, .numbered 1 [
     "NoCommand", "Status", "Connect", "Disconnect", "Reset", "On", "Off"]),
  (IntercomControlControlType.spec, .numbered 1 [
     "Reserved", "Status", "RequestAcknowledgeRequired", "RequestNoAcknowledge", "AckRequestGranted",
     "NackRequestDenied"]),
  (IntercomControlTransmitLineState.spec, .numbered 1 [
     "TransmitLineStatenotapplicable", "NotTransmitting", "Transmitting"]),
  (IsGroupOfGroupedEntityCategory.spec, .numbered 1 [
     "Undefined", "BasicGroundCombatVehicle", "EnhancedGroundCombatVehicle", "BasicGroundCombatSoldier",
     "EnhancedGroundCombatSoldier", "BasicRotorWingAircraft", "EnhancedRotorWingAircraft",
     "BasicFixedWingAircraft", "EnhancedFixedWingAircraft", "GroundLogisticsVehicle"]),
  (Reason.spec, .numbered 1 [
     "Other", "Recess", "Termination", "SystemFailure", "SecurityViolation", "EntityReconstitution",
     "StopForReset", "StopForRestart", "AbortTrainingReturnToTacticalOperations"]),
  (ReceiverReceiverState.spec, .numbered 2 [
     "Off", "Onbutnotreceiving", "Onandreceiving"]),
  (RepairResponseRepairResult.spec, .numbered 1 [
     "Other", "RepairEnded", "InvalidRepair", "RepairInterrupted", "ServiceCanceledByTheSupplier"]),
  (RequiredReliabilityService.spec, .numbered 1 [
     "Acknowledged", "Unacknowledged"]),
  (ServiceRequestServiceTypeRequested.spec, .numbered 1 [
     "Other", "Resupply", "Repair", "AerialRefuelingHighFidelity", "AerialRefuelingLowFidelity"]),
  (SignalTDLType.spec, ⟨2, 0, [
     ("Other", 0), ("PADIL", 1), ("NATOLink1", 2), ("ATDL1", 3), ("Link11B", 4),
     ("SituationalAwarenessDataLink", 5), ("Link16LegacyFormatJTIDSTADILJ", 6),
     ("Link16LegacyFormatJTIDSFDLTADILJ", 7), ("Link11", 8), ("IJMS", 9), ("Link4A", 10), ("Link4C", 11),
     ("TIBS", 12), ("ATL", 13), ("ConstantSource", 14), ("AbbreviatedCommandandControl", 15),
     ("MILSTAR", 16), ("ATHS", 17), ("OTHGOLD", 18), ("TACELINT", 19), ("WeaponsDataLink", 20),
     ("AbbreviatedCommandandControl_", 21), ("EnhancedPositionLocationReportingSystem", 22),
     ("PositionLocationReportingSystem", 23), ("SINCGARS", 24), ("HAVEQUICKI", 25), ("HAVEQUICKII", 26),
     ("SATURN", 27), ("IntraFlightDataLink1", 28), ("IntraFlightDataLink2", 29), ("ImprovedDataModem", 30),
     ("AirForceApplicationProgramDevelopment", 31), ("CooperativeEngagementCapability", 32),
     ("ForwardAreaAirDefense", 33), ("GroundBasedDataLink", 34), ("IntraVehicularInfoSystem", 35),
     ("MarineTacticalSystem", 36), ("TacticalFireDirectionSystem", 37), ("IntegratedBroadcastService", 38),
     ("AirborneInformationTransfer", 39), ("AdvancedTacticalAirborneReconnaissanceSystemDataLink", 40),
     ("BattleGroupPassiveHorizonExtensionSystemDataLink", 41), ("CommonHighBandwidthDataLink", 42),
     ("GuardrailInteroperableDataLink", 43), ("GuardrailCommonSensorSystemOneDataLink", 44),
     ("GuardrailCommonSensorSystemTwoDataLink", 45), ("GuardrailCSS2MultiRoleDataLink", 46),
     ("GuardrailCSS2DirectAirtoSatelliteRelayDataLink", 47), ("LineofSight", 48), ("LightweightCDL", 49),
     ("L52M", 50), ("RivetReachRivetOwlDataLink", 51), ("SeniorSpan", 52), ("SeniorSpur", 53),
     ("SeniorStretch_", 54), ("SeniorYearInteroperableDataLink", 55), ("SpaceCDL", 56),
     ("TR1modeMISTAirborneDataLink", 57), ("KubandSATCOMDataLinkImplementation", 58),
     ("MissionEquipmentControlDatalink", 59), ("RadarDataTransmittingSetDataLink", 60),
     ("SurveillanceandControlDataLink", 61), ("TacticalUAVVideo", 62),
     ("UHFSATCOMDataLinkImplementation", 63), ("TacticalCommonDataLink", 64),
     ("LowLevelAirPictureInterface", 65), ("WeaponsDataLinkAGM130", 66),
     ("AutomaticIdentificationSystemAIS", 67), ("WeaponsDataLinkAIM120", 68), ("WeaponsDataLinkAIM9", 69),
     ("WeaponsDataLinkCAMM", 70), ("GC3", 99), ("Link16StandardizedFormat", 100),
     ("Link16EnhancedDataRate", 101), ("JTIDSMIDSNetDataLoad", 102), ("Link22", 103),
     ("AFIWCIADSCommunicationsLinks", 104), ("F22IntraFlightDataLink", 105), ("LBandSATCOM", 106),
     ("TSAFCommunicationsLink", 107), ("EnhancedSINCGARS7_3", 108),
     ("F35MultifunctionAdvancedDataLink", 109), ("CursoronTarget", 110),
     ("AllPurposeStructuredEurocontrolSurveillanceInformationExchange", 111), ("VariableMessageFormat", 112),
     ("Link16SurrogateforNonNATOTDL", 113), ("MQ19CBandLOSUplink", 114), ("MQ19CBandLOSDownlink", 115),
     ("MQ19KuBandSATCOMUplink", 116), ("MQ19KuBandSATCOMDownlink", 117), ("WeaponsDatalinkSDBII", 118),
     ("JTACSAUplink", 119), ("CommonInteractiveBroadcast", 120),
     ("JointRangeExtensionApplicationProtocolA", 121), ("JPALSDataLink", 125),
     ("OneSAFIADSCommunicationsLink", 126), ("TacticalTargetingNetworkTechnologyApplication", 127)]⟩),
  (TransferControlTransferType.spec, ⟨1, 0, [
     ("Other", 0), ("PushTransferEntity", 1), ("AutomaticPullTransferEntity", 2),
     ("PushTransferEnvironmentalProcess", 4), ("AutomaticPullTransferEnvironmentalProcess", 5),
     ("CancelTransfer", 7), ("ManualPullTransferEntity", 8), ("ManualPullTransferEnvironmentalProcess", 9),
     ("RemoveEntity", 10)]⟩),
  (TransmitterAntennaPatternType.spec, ⟨2, 0, [
     ("Isotropic", 0), ("Beam", 1), ("Sphericalharmonic", 2), ("TransmitterRadiationVolume", 4),
     ("BeamandTransmitterRadiationVolume", 5), ("Omnidirectional", 6)]⟩),
  (TransmitterCryptoSystem.spec, .numbered 2 [
     "NoEncryptionDevice", "KY28", "KY58", "NarrowSpectrumSecureVoice", "WideSpectrumSecureVoice",
     "SINCGARSICOM", "KY75", "KY100", "KY57", "KYV5", "Link11KG40AP", "Link11BKG40AS", "Link11KG40AR",
     "KGV135A", "TacticalSecureVoice"]),
  (TransmitterInputSource.spec, .numbered 1 [
     "Other", "Pilot", "Copilot", "FirstOfficer", "Driver", "Loader", "Gunner", "Commander",
     "DigitalDataDevice", "Intercom", "AudioJammer", "DataJammer", "GPSJammer", "GPSMeaconer",
     "SATCOMUplinkJammer"]),
  (TransmitterTransmitState.spec, .numbered 1 [
     "Off", "Onbutnottransmitting", "Onandtransmitting"]),
  (UAAcousticEmitterSystemFunction.spec, .numbered 1 [
     "Other", "Platformsearchdetecttrack", "Navigation", "Minehunting", "Weaponsearchdetecttrackdetect"]),
  (UAAcousticSystemName.spec, .numbered 2 [
     "Other", "ANBQQ5", "ANSSQ62", "ANSQS23", "ANSQS26", "ANSQS53", "ALFS", "LFA", "ANAQS901", "ANAQS902"]),
  (UAStateChangeUpdateIndicator.spec, .numbered 1 [
     "StateUpdate", "ChangedDataUpdate"]),
  (VariableParameterRecordType.spec, .numbered 1 [
     "ArticulatedPart", "AttachedPart", "Separation", "EntityType", "EntityAssociation"]),
  (ProtocolVersion.spec, .numbered 1 [
     "Other", "DIS_PDUv1", "IEEE1278_1993", "DIS_PDUv2_Third_Draft", "DIS_PDUv2_Fourth_Draft_Revised",
     "IEEE1278_1_1995", "IEEE1278_1A_1998", "IEEE1278_1_2012"] 7),
  (ProtocolFamily.spec, .numbered 1 [
     "Other", "EntityInformation", "Warfare", "Logistics", "RadioCommunications", "SimulationManagement",
     "DistributedEmissionRegeneration", "EntityManagement", "Minefield", "SyntheticEnvironment",
     "SimulationManagementWithReliability", "LiveEntityInformationInteraction", "NonRealTime",
     "InformationOperations"]),
  (PduType.spec, .numbered 1 [
     "Other", "EntityState", "Fire", "Detonation", "Collision", "ServiceRequest", "ResupplyOffer",
     "ResupplyReceived", "ResupplyCancel", "RepairComplete", "RepairResponse", "CreateEntity",
     "RemoveEntity", "StartResume", "StopFreeze", "Acknowledge", "ActionRequest", "ActionResponse",
     "DataQuery", "SetData", "Data", "EventReport", "Comment", "ElectromagneticEmission", "Designator",
     "Transmitter", "Signal", "Receiver", "IFF", "UnderwaterAcoustic", "SupplementalEmission",
     "IntercomSignal", "IntercomControl", "AggregateState", "IsGroupOf", "TransferOwnership", "IsPartOf",
     "MinefieldState", "MinefieldQuery", "MinefieldData", "MinefieldResponseNack", "EnvironmentalProcess",
     "GriddedData", "PointObjectState", "LinearObjectState", "ArealObjectState",
     "TimeSpacePositionInformation", "Appearance", "ArticulatedParts", "LiveEntityFire",
     "LiveEntityDetonation", "CreateEntityReliable", "RemoveEntityReliable", "StartResumeReliable",
     "StopFreezeReliable", "AcknowledgeReliable", "ActionRequestReliable", "ActionResponseReliable",
     "DataQueryReliable", "SetDataReliable", "DataReliable", "EventReportReliable", "CommentReliable",
     "RecordReliable", "SetRecordReliable", "RecordQueryReliable", "CollisionElastic", "EntityStateUpdate",
     "DirectedEnergyFire", "EntityDamageStatus", "InformationOperationsAction",
     "InformationOperationsReport", "Attribute"])]

end Dis
