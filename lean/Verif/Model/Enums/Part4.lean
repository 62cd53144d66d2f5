import Verif.Model.EnumCore
/- Generated by tools/gen_enums.py from /repo/src/common/enums.rs. -/
set_option maxRecDepth 20000
namespace Dis

/-- src/common/enums.rs:6739-6837 (default variant `Other`) -/
def EmitterSystemFunction.spec : EnumSpec where
  name := "EmitterSystemFunction"
  repr := .u8
  default := 0
  variants := [
    ("Other", 0), ("MultiFunction", 1), ("EarlyWarningSurveillance", 2), ("HeightFinder", 3),
    ("FireControl", 4), ("AcquisitionDetection", 5), ("Tracker", 6), ("GuidanceIllumination", 7),
    ("FiringPointLaunchPointLocation", 8), ("RangeOnly", 9), ("RadarAltimeter", 10), ("Imaging", 11),
    ("MotionDetection", 12), ("Navigation", 13), ("WeatherMeteorological", 14), ("Instrumentation", 15),
    ("IdentificationClassification", 16), ("AAAFireControl", 17), ("AirSearchBomb", 18), ("AirIntercept", 19),
    ("Altimeter", 20), ("AirMapping", 21), ("AirTrafficControl", 22), ("Beacon", 23),
    ("BattlefieldSurveillance", 24), ("GroundControlApproach", 25), ("GroundControlIntercept", 26),
    ("CoastalSurveillance", 27), ("DecoyMimic", 28), ("DataTransmission", 29), ("EarthSurveillance", 30),
    ("GunLayBeacon", 31), ("GroundMapping", 32), ("HarborSurveillance", 33), ("IFF", 34),
    ("InstrumentLandingSystem", 35), ("IonosphericSound", 36), ("Interrogator", 37), ("BarrageJamming", 38),
    ("ClickJamming", 39), ("DeceptiveJamming", 40), ("FrequencySweptJamming", 41), ("Jammer", 42),
    ("NoiseJamming", 43), ("PulsedJamming", 44), ("RepeaterJamming", 45), ("SpotNoiseJamming", 46),
    ("MissileAcquisition", 47), ("MissileDownlink", 48), ("Meteorological", 49), ("Space", 50),
    ("SurfaceSearch", 51), ("ShellTracking", 52), ("Television", 56), ("Unknown", 57), ("VideoRemoting", 58),
    ("ExperimentalOrTraining", 59), ("MissileGuidance", 60), ("MissileHoming", 61), ("MissileTracking", 62),
    ("JammingNoise", 64), ("JammingDeception", 65), ("Decoy", 66),
    ("NavigationDistanceMeasuringEquipment", 71), ("TerrainFollowing", 72), ("WeatherAvoidance", 73),
    ("ProximityFuse", 74), ("Instrumentation_", 75), ("Radiosonde", 76), ("Sonobuoy", 77),
    ("BathythermalSensor", 78), ("TowedCounterMeasure", 79), ("DippingSonar", 80),
    ("TowedAcousticSensor", 81), ("WeaponNonlethal", 96), ("WeaponLethal", 97), ("TestEquipment", 98),
    ("AcquisitionTrack", 99), ("TrackGuidance", 100), ("GuidanceIlluminationTrackAcquisition", 101),
    ("SearchAcquisition", 102), ("Dropsonde", 103)
  ]
/-- src/common/enums.rs:6739-6837 -/
abbrev EmitterSystemFunction := EnumVal EmitterSystemFunction.spec
/-- src/common/enums.rs:6839-6844 -/
abbrev EmitterSystemFunction.deserialize : Get EmitterSystemFunction := EmitterSystemFunction.spec.deserialize

/-- src/common/enums.rs:6848-6852 (default variant `HeartbeatUpdate`) -/
def ElectromagneticEmissionStateUpdateIndicator.spec : EnumSpec where
  name := "ElectromagneticEmissionStateUpdateIndicator"
  repr := .u8
  default := 0
  variants := [
    ("HeartbeatUpdate", 0), ("ChangedDataUpdate", 1)
  ]
/-- src/common/enums.rs:6848-6852 -/
abbrev ElectromagneticEmissionStateUpdateIndicator := EnumVal ElectromagneticEmissionStateUpdateIndicator.spec
/-- src/common/enums.rs:6854-6859 -/
abbrev ElectromagneticEmissionStateUpdateIndicator.deserialize : Get ElectromagneticEmissionStateUpdateIndicator := ElectromagneticEmissionStateUpdateIndicator.spec.deserialize

/-- src/common/enums.rs:6863-6889 (default variant `Other`) -/
def ElectromagneticEmissionBeamFunction.spec : EnumSpec where
  name := "ElectromagneticEmissionBeamFunction"
  repr := .u8
  default := 0
  variants := [
    ("Other", 0), ("Search", 1), ("HeightFinding", 2), ("Acquisition", 3), ("Tracking", 4),
    ("Acquisitionandtracking", 5), ("Commandguidance", 6), ("Illumination", 7), ("Ranging", 8),
    ("Missilebeacon", 9), ("MissileFusing", 10), ("Activeradarmissileseeker", 11), ("Jamming", 12),
    ("IFF", 13), ("NavigationWeather", 14), ("Meteorological", 15), ("Datatransmission", 16),
    ("Navigationaldirectionalbeacon", 17), ("TimeSharedSearch", 20), ("TimeSharedAcquisition", 21),
    ("TimeSharedTrack", 22), ("TimeSharedCommandGuidance", 23), ("TimeSharedIllumination", 24),
    ("TimeSharedJamming", 25)
  ]
/-- src/common/enums.rs:6863-6889 -/
abbrev ElectromagneticEmissionBeamFunction := EnumVal ElectromagneticEmissionBeamFunction.spec
/-- src/common/enums.rs:6891-6896 -/
abbrev ElectromagneticEmissionBeamFunction.deserialize : Get ElectromagneticEmissionBeamFunction := ElectromagneticEmissionBeamFunction.spec.deserialize

/-- src/common/enums.rs:6900-6904 (default variant `NotSelected`) -/
def HighDensityTrackJam.spec : EnumSpec where
  name := "HighDensityTrackJam"
  repr := .u8
  default := 0
  variants := [
    ("NotSelected", 0), ("Selected", 1)
  ]
/-- src/common/enums.rs:6900-6904 -/
abbrev HighDensityTrackJam := EnumVal HighDensityTrackJam.spec
/-- src/common/enums.rs:6906-6911 -/
abbrev HighDensityTrackJam.deserialize : Get HighDensityTrackJam := HighDensityTrackJam.spec.deserialize

/-- src/common/enums.rs:6915-7020 (default variant `NotSpecified`) -/
def DesignatorSystemName.spec : EnumSpec where
  name := "DesignatorSystemName"
  repr := .u16
  default := 0
  variants := [
    ("NotSpecified", 0), ("ANAAQ4", 1000), ("ANAAQ7", 1100), ("ANAAQ8", 1200), ("ANAAQ14LANTIRN", 1300),
    ("ANAAQ19", 1400), ("ANAAQ22ASAFIRE", 1500), ("ANAAQ22BSAFIRELP", 1600), ("ANAAQ22CStarSAFIREI", 1700),
    ("ANAAQ22DBRITEStar", 1800), ("ANAAQ24DIRCMNemesis", 1900), ("ANAAQ25LTS", 2000),
    ("ANAAQ28LITENINGII", 2100), ("ANAAQ30", 2200), ("ANAAQ32", 2300), ("ANAAQ33Sniper", 2400),
    ("ANAAQ37", 2500), ("ANAAQ38", 2600), ("ANAAQ40", 2650), ("ANAAS32", 2700), ("ANAAS35V", 2800),
    ("ANAAS37", 2900), ("ANAAS38", 3000), ("ANAAS44", 3100), ("ANAAS46", 3200), ("ANAAS49", 3300),
    ("ANAAS51", 3400), ("ANAAS52MTSA", 3500), ("ANALQ10", 3600), ("ANASQ228", 3700), ("ANAVQ25", 4400),
    ("ANAVQ26", 4500), ("ANGVS5", 4600), ("ANPED1LLDR", 4700), ("TADSLRFD", 4800), ("MMSLRFD", 4900),
    ("AH1CNITE", 5000), ("MATES", 5100), ("TCV115", 5200), ("TIM", 5300), ("TMS303", 5400), ("TMY303", 5500),
    ("ALRAD", 5600), ("RFTDL", 5700), ("VVLR", 5800), ("P0705HELL", 6000), ("P0708PULSE", 6100),
    ("HELD", 6200), ("TYPE105", 6300), ("TYPE118", 6400), ("TYPE121", 6500), ("TYPE126", 6600),
    ("TYPE629", 6700), ("CLDS", 6800), ("TAV38", 6900), ("TMV630", 7000), ("ALTM1020", 7100), ("ALATS", 7200),
    ("DarkStarLAMPS", 7300), ("GLTDII", 7400), ("MBTELRF", 7500), ("MarkVII", 7600), ("SIREV", 7700),
    ("ANAAQ16B", 7800), ("ANAAQ16DAESOP", 7900), ("ANAAQ21StarSAFIREIII", 8000), ("ANAAQ22EBRITEStar", 8100),
    ("ANAAQ36StarSAFIREII", 8200), ("ANAAS38ANiteHawk", 8300), ("ANAAS38BNiteHawk", 8400), ("ANAAS44C", 8500),
    ("ANAAS53CSP", 8600), ("ANASQ28ATFLIR", 8700), ("ANDAS1MTSB", 8800), ("ANPAQ1LTD", 8900),
    ("ANPAQ3MULE", 9000), ("ANPEQ1SOFLAM", 9090), ("ANPEQ3", 9100), ("ANPEQ15ATPIAL", 9140),
    ("ANPEQ18IZLID1000P", 9150), ("ANTVQ2GVLLD", 9200), ("ANZSQ21EOS", 9300), ("ANZSQ22EOS", 9400),
    ("CIRCM", 9500), ("Guardian", 9600), ("IZLID200P", 9700), ("IZLID1000PW", 9800), ("MMS", 9900),
    ("MTADSPNVSArrowhead", 10000), ("RBS70", 10100), ("RBS90", 10200), ("TADSPNVS", 10300),
    ("COLIBRI", 10400), ("Damocles", 10500), ("I251Shkval", 10600), ("KPS53AVEOTS", 10700),
    ("StarSAFIRE380", 10800), ("JANUSTEOS", 10900), ("LOTHAREOS", 11000), ("MK46MOD1EOS", 11100),
    ("MTK201MEEOS", 11200), ("ThalesMiradorMk2EOS", 11300), ("TPN1M4923EOS", 11400)
  ]
/-- src/common/enums.rs:6915-7020 -/
abbrev DesignatorSystemName := EnumVal DesignatorSystemName.spec
/-- src/common/enums.rs:7022-7027 -/
abbrev DesignatorSystemName.deserialize : Get DesignatorSystemName := DesignatorSystemName.spec.deserialize
/-- src/common/enums.rs:7029-7033 -/
instance : FieldSerialize DesignatorSystemName := ⟨fun x => putU16 x.asU16⟩
/-- src/common/enums.rs:7035-7039 -/
instance : FieldDeserialize DesignatorSystemName := ⟨DesignatorSystemName.deserialize⟩
/-- src/common/enums.rs:7041-7045 -/
instance : FieldLen DesignatorSystemName := ⟨fun _ => 2⟩

/-- src/common/enums.rs:7050-7053 (default variant `Other`) -/
def DesignatorCode.spec : EnumSpec where
  name := "DesignatorCode"
  repr := .u16
  default := 0
  variants := [
    ("Other", 0)
  ]
/-- src/common/enums.rs:7050-7053 -/
abbrev DesignatorCode := EnumVal DesignatorCode.spec
/-- src/common/enums.rs:7055-7060 -/
abbrev DesignatorCode.deserialize : Get DesignatorCode := DesignatorCode.spec.deserialize
/-- src/common/enums.rs:7062-7066 -/
instance : FieldSerialize DesignatorCode := ⟨fun x => putU16 x.asU16⟩
/-- src/common/enums.rs:7068-7072 -/
instance : FieldDeserialize DesignatorCode := ⟨DesignatorCode.deserialize⟩
/-- src/common/enums.rs:7074-7078 -/
instance : FieldLen DesignatorCode := ⟨fun _ => 2⟩

/-- src/common/enums.rs:7082-7099 (default variant `NotUsed`) -/
def IFFSystemType.spec : EnumSpec where
  name := "IFFSystemType"
  repr := .u16
  default := 0
  variants := [
    ("NotUsed", 0), ("MarkXXIIATCRBSTransponder", 1), ("MarkXXIIATCRBSInterrogator", 2),
    ("SovietTransponder", 3), ("SovietInterrogator", 4), ("RRBTransponder", 5), ("MarkXIIAInterrogator", 6),
    ("Mode5Interrogator", 7), ("ModeSInterrogator", 8), ("MarkXIIATransponder", 9), ("Mode5Transponder", 10),
    ("ModeSTransponder", 11), ("MarkXIIACombinedInterrogatorTransponder", 12),
    ("MarkXIICombinedInterrogatorTransponder", 13), ("TCASACASTransceiver", 14)
  ]
/-- src/common/enums.rs:7082-7099 -/
abbrev IFFSystemType := EnumVal IFFSystemType.spec
/-- src/common/enums.rs:7101-7106 -/
abbrev IFFSystemType.deserialize : Get IFFSystemType := IFFSystemType.spec.deserialize

/-- src/common/enums.rs:7110-7131 (default variant `NotUsed`) -/
def IFFSystemName.spec : EnumSpec where
  name := "IFFSystemName"
  repr := .u16
  default := 0
  variants := [
    ("NotUsed", 0), ("GenericMarkX", 1), ("GenericMarkXII", 2), ("GenericATCRBS", 3), ("GenericSoviet", 4),
    ("GenericModeS", 5), ("GenericMarkXXIIATCRBS", 6), ("GenericMarkXXIIATCRBSModeS", 7), ("ARI5954", 8),
    ("ARI5983", 9), ("GenericRRB", 10), ("GenericMarkXIIA", 11), ("GenericMode5", 12),
    ("GenericMarkXIIACombinedInterrogatorTransponder", 13),
    ("GenericMarkXIICombinedInterrogatorTransponder", 14), ("GenericTCASIACASITransceiver", 15),
    ("GenericTCASIIACASIITransceiver", 16), ("GenericMarkXA", 17), ("GenericMarkXSIF", 18)
  ]
/-- src/common/enums.rs:7110-7131 -/
abbrev IFFSystemName := EnumVal IFFSystemName.spec
/-- src/common/enums.rs:7133-7138 -/
abbrev IFFSystemName.deserialize : Get IFFSystemName := IFFSystemName.spec.deserialize

/-- src/common/enums.rs:7142-7150 (default variant `NoStatement`) -/
def IFFSystemMode.spec : EnumSpec where
  name := "IFFSystemMode"
  repr := .u8
  default := 0
  variants := [
    ("NoStatement", 0), ("Off", 1), ("Standby", 2), ("Normal", 3), ("Emergency", 4),
    ("LoworLowSensitivity", 5)
  ]
/-- src/common/enums.rs:7142-7150 -/
abbrev IFFSystemMode := EnumVal IFFSystemMode.spec
/-- src/common/enums.rs:7152-7157 -/
abbrev IFFSystemMode.deserialize : Get IFFSystemMode := IFFSystemMode.spec.deserialize

/-- src/common/enums.rs:7161-7164 (default variant `NoLayerSpecificInformationIsPresent`) -/
def IFFLayerSpecificInformation.spec : EnumSpec where
  name := "IFFLayerSpecificInformation"
  repr := .u8
  default := 0
  variants := [
    ("NoLayerSpecificInformationIsPresent", 0)
  ]
/-- src/common/enums.rs:7161-7164 -/
abbrev IFFLayerSpecificInformation := EnumVal IFFLayerSpecificInformation.spec
/-- src/common/enums.rs:7166-7171 -/
abbrev IFFLayerSpecificInformation.deserialize : Get IFFLayerSpecificInformation := IFFLayerSpecificInformation.spec.deserialize

/-- src/common/enums.rs:7175-7182 (default variant `NoStatement`) -/
def IFFAlternateMode4ChallengeReply.spec : EnumSpec where
  name := "IFFAlternateMode4ChallengeReply"
  repr := .u8
  default := 0
  variants := [
    ("NoStatement", 0), ("Valid", 1), ("Invalid", 2), ("Noresponse", 3), ("UnabletoVerify", 4)
  ]
/-- src/common/enums.rs:7175-7182 -/
abbrev IFFAlternateMode4ChallengeReply := EnumVal IFFAlternateMode4ChallengeReply.spec
/-- src/common/enums.rs:7184-7189 -/
abbrev IFFAlternateMode4ChallengeReply.deserialize : Get IFFAlternateMode4ChallengeReply := IFFAlternateMode4ChallengeReply.spec.deserialize

/-- src/common/enums.rs:7193-7196 (default variant `NoOperationalParameter1Data`) -/
def IFFSystemType1OperationalParameter1.spec : EnumSpec where
  name := "IFFSystemType1OperationalParameter1"
  repr := .u8
  default := 0
  variants := [
    ("NoOperationalParameter1Data", 0)
  ]
/-- src/common/enums.rs:7193-7196 -/
abbrev IFFSystemType1OperationalParameter1 := EnumVal IFFSystemType1OperationalParameter1.spec
/-- src/common/enums.rs:7198-7203 -/
abbrev IFFSystemType1OperationalParameter1.deserialize : Get IFFSystemType1OperationalParameter1 := IFFSystemType1OperationalParameter1.spec.deserialize

/-- src/common/enums.rs:7207-7210 (default variant `NoOperationalParameter2Data`) -/
def IFFSystemType1OperationalParameter2.spec : EnumSpec where
  name := "IFFSystemType1OperationalParameter2"
  repr := .u8
  default := 0
  variants := [
    ("NoOperationalParameter2Data", 0)
  ]
/-- src/common/enums.rs:7207-7210 -/
abbrev IFFSystemType1OperationalParameter2 := EnumVal IFFSystemType1OperationalParameter2.spec
/-- src/common/enums.rs:7212-7217 -/
abbrev IFFSystemType1OperationalParameter2.deserialize : Get IFFSystemType1OperationalParameter2 := IFFSystemType1OperationalParameter2.spec.deserialize

/-- src/common/enums.rs:7221-7252 (default variant `SmallDog`) -/
def SubcategoriesforLandCategory200Mammal.spec : EnumSpec where
  name := "SubcategoriesforLandCategory200Mammal"
  repr := .u8
  default := 1
  variants := [
    ("SmallDog", 1), ("Chihuahua", 2), ("MediumDog", 10), ("AustralianCattleDog", 11), ("LargeDog", 20),
    ("GermanShepherd", 21), ("VeryLargeDog", 30), ("GiantTurkishKangal", 31), ("Sheep", 40), ("Goat", 41),
    ("Pig", 50), ("Cow", 60), ("Ox", 61), ("OxWithCart", 70), ("Horse", 80), ("Donkey", 81), ("Mule", 82),
    ("HorseWithRider", 90), ("HorseWithCargo", 91), ("DonkeyWithRider", 92), ("DonkeyWithCargo", 93),
    ("MuleWithRider", 94), ("MuleWithCargo", 95), ("Camel", 100), ("DromedaryCamel", 101),
    ("BactrianCamel", 102), ("DromedaryCamelWithRider", 110), ("DromedaryCamelWithCargo", 111), ("Rat", 200)
  ]
/-- src/common/enums.rs:7221-7252 -/
abbrev SubcategoriesforLandCategory200Mammal := EnumVal SubcategoriesforLandCategory200Mammal.spec
/-- src/common/enums.rs:7254-7259 -/
abbrev SubcategoriesforLandCategory200Mammal.deserialize : Get SubcategoriesforLandCategory200Mammal := SubcategoriesforLandCategory200Mammal.spec.deserialize

/-- src/common/enums.rs:7263-7288 (default variant `NewZealandNorthernTuatara`) -/
def SubcategoriesforLandCategory201Reptile.spec : EnumSpec where
  name := "SubcategoriesforLandCategory201Reptile"
  repr := .u8
  default := 1
  variants := [
    ("NewZealandNorthernTuatara", 1), ("Monitor", 3), ("Gecko", 8), ("Iguana", 13), ("Chameleon", 17),
    ("NonVenomousSnake", 30), ("Boa", 31), ("Python", 35), ("Bullsnake", 39), ("Kingsnake", 43),
    ("VenomousSnake", 60), ("Rattlesnake", 61), ("Copperhead", 62), ("Cottonmouth", 63), ("Taipan", 64),
    ("Viper", 65), ("Cobra", 66), ("AustralianBrownSnake", 67), ("Tortoise", 90), ("Turtle", 100),
    ("AmericanAlligator", 120), ("Crocodile", 121), ("AustralianFreshwaterCrocodile", 122)
  ]
/-- src/common/enums.rs:7263-7288 -/
abbrev SubcategoriesforLandCategory201Reptile := EnumVal SubcategoriesforLandCategory201Reptile.spec
/-- src/common/enums.rs:7290-7295 -/
abbrev SubcategoriesforLandCategory201Reptile.deserialize : Get SubcategoriesforLandCategory201Reptile := SubcategoriesforLandCategory201Reptile.spec.deserialize

/-- src/common/enums.rs:7299-7305 (default variant `Frog`) -/
def SubcategoriesforLandCategory202Amphibian.spec : EnumSpec where
  name := "SubcategoriesforLandCategory202Amphibian"
  repr := .u8
  default := 1
  variants := [
    ("Frog", 1), ("Toad", 2), ("Salamander", 170), ("Caecilian", 230)
  ]
/-- src/common/enums.rs:7299-7305 -/
abbrev SubcategoriesforLandCategory202Amphibian := EnumVal SubcategoriesforLandCategory202Amphibian.spec
/-- src/common/enums.rs:7307-7312 -/
abbrev SubcategoriesforLandCategory202Amphibian.deserialize : Get SubcategoriesforLandCategory202Amphibian := SubcategoriesforLandCategory202Amphibian.spec.deserialize

/-- src/common/enums.rs:7316-7325 (default variant `Beetle`) -/
def SubcategoriesforLandCategory203Insect.spec : EnumSpec where
  name := "SubcategoriesforLandCategory203Insect"
  repr := .u8
  default := 1
  variants := [
    ("Beetle", 1), ("Mantis", 60), ("Cockroach", 70), ("ArmyAnt", 80), ("FireAnt", 81), ("Grasshopper", 90),
    ("Centipede", 100)
  ]
/-- src/common/enums.rs:7316-7325 -/
abbrev SubcategoriesforLandCategory203Insect := EnumVal SubcategoriesforLandCategory203Insect.spec
/-- src/common/enums.rs:7327-7332 -/
abbrev SubcategoriesforLandCategory203Insect.deserialize : Get SubcategoriesforLandCategory203Insect := SubcategoriesforLandCategory203Insect.spec.deserialize

/-- src/common/enums.rs:7336-7343 (default variant `Spider`) -/
def SubcategoriesforLandCategory204Arachnid.spec : EnumSpec where
  name := "SubcategoriesforLandCategory204Arachnid"
  repr := .u8
  default := 1
  variants := [
    ("Spider", 1), ("Tick", 20), ("Scorpion", 30), ("Harvestmen", 40), ("Mite", 50)
  ]
/-- src/common/enums.rs:7336-7343 -/
abbrev SubcategoriesforLandCategory204Arachnid := EnumVal SubcategoriesforLandCategory204Arachnid.spec
/-- src/common/enums.rs:7345-7350 -/
abbrev SubcategoriesforLandCategory204Arachnid.deserialize : Get SubcategoriesforLandCategory204Arachnid := SubcategoriesforLandCategory204Arachnid.spec.deserialize

/-- src/common/enums.rs:7354-7358 (default variant `Snail`) -/
def SubcategoriesforLandCategory205Mollusk.spec : EnumSpec where
  name := "SubcategoriesforLandCategory205Mollusk"
  repr := .u8
  default := 1
  variants := [
    ("Snail", 1), ("Slug", 50)
  ]
/-- src/common/enums.rs:7354-7358 -/
abbrev SubcategoriesforLandCategory205Mollusk := EnumVal SubcategoriesforLandCategory205Mollusk.spec
/-- src/common/enums.rs:7360-7365 -/
abbrev SubcategoriesforLandCategory205Mollusk.deserialize : Get SubcategoriesforLandCategory205Mollusk := SubcategoriesforLandCategory205Mollusk.spec.deserialize

/-- src/common/enums.rs:7369-7383 (default variant `BrownFourEyedOpossum`) -/
def SubcategoriesforLandCategory206Marsupial.spec : EnumSpec where
  name := "SubcategoriesforLandCategory206Marsupial"
  repr := .u8
  default := 1
  variants := [
    ("BrownFourEyedOpossum", 1), ("BushyTailedOpossum", 2), ("TatesShrewOpossum", 90), ("GreaterBilby", 100),
    ("TasmanianDevil", 110), ("BrushTailedRockWallaby", 150), ("EasternWallaroo", 160), ("RedKangaroo", 170),
    ("QueenslandKoala", 200), ("SouthernHairyNosedWombat", 205), ("BrushtailPossum", 210),
    ("SugarGlider", 211)
  ]
/-- src/common/enums.rs:7369-7383 -/
abbrev SubcategoriesforLandCategory206Marsupial := EnumVal SubcategoriesforLandCategory206Marsupial.spec
/-- src/common/enums.rs:7385-7390 -/
abbrev SubcategoriesforLandCategory206Marsupial.deserialize : Get SubcategoriesforLandCategory206Marsupial := SubcategoriesforLandCategory206Marsupial.spec.deserialize

/-- src/common/enums.rs:7394-7423 (default variant `Penguin`) -/
def SubcategoriesforAirCategory200Bird.spec : EnumSpec where
  name := "SubcategoriesforAirCategory200Bird"
  repr := .u8
  default := 1
  variants := [
    ("Penguin", 1), ("Seagull", 2), ("Pelican", 3), ("Albatross", 4), ("Swan", 5), ("Cormorant", 6),
    ("Heron", 7), ("Crane", 8), ("Osprey", 9), ("Loon", 10), ("Stork", 11), ("Flamingo", 12), ("Duck", 13),
    ("Ostrich", 20), ("Emu", 21), ("Chicken", 22), ("BlackBird", 30), ("Starling", 31), ("Budgerigar", 32),
    ("CanadianGoose", 40), ("Crow", 41), ("Eagle", 50), ("Vulture", 55), ("Falcon", 60), ("Hawk", 65),
    ("Owl", 70), ("Kite", 80)
  ]
/-- src/common/enums.rs:7394-7423 -/
abbrev SubcategoriesforAirCategory200Bird := EnumVal SubcategoriesforAirCategory200Bird.spec
/-- src/common/enums.rs:7425-7430 -/
abbrev SubcategoriesforAirCategory200Bird.deserialize : Get SubcategoriesforAirCategory200Bird := SubcategoriesforAirCategory200Bird.spec.deserialize

/-- src/common/enums.rs:7434-7445 (default variant `Moth`) -/
def SubcategoriesforAirCategory201Insect.spec : EnumSpec where
  name := "SubcategoriesforAirCategory201Insect"
  repr := .u8
  default := 1
  variants := [
    ("Moth", 1), ("Butterfly", 2), ("Fly", 20), ("Mosquito", 30), ("Wasp", 40), ("Bee", 50), ("Beetle", 60),
    ("Dragonfly", 70), ("Locust", 80)
  ]
/-- src/common/enums.rs:7434-7445 -/
abbrev SubcategoriesforAirCategory201Insect := EnumVal SubcategoriesforAirCategory201Insect.spec
/-- src/common/enums.rs:7447-7452 -/
abbrev SubcategoriesforAirCategory201Insect.deserialize : Get SubcategoriesforAirCategory201Insect := SubcategoriesforAirCategory201Insect.spec.deserialize

/-- src/common/enums.rs:7456-7461 (default variant `Bat`) -/
def SubcategoriesforAirCategory202Mammal.spec : EnumSpec where
  name := "SubcategoriesforAirCategory202Mammal"
  repr := .u8
  default := 1
  variants := [
    ("Bat", 1), ("FlyingSquirrel", 10), ("GlidingPossum", 20)
  ]
/-- src/common/enums.rs:7456-7461 -/
abbrev SubcategoriesforAirCategory202Mammal := EnumVal SubcategoriesforAirCategory202Mammal.spec
/-- src/common/enums.rs:7463-7468 -/
abbrev SubcategoriesforAirCategory202Mammal.deserialize : Get SubcategoriesforAirCategory202Mammal := SubcategoriesforAirCategory202Mammal.spec.deserialize

/-- src/common/enums.rs:7472-7501 (default variant `ForageFishSmallSchooling`) -/
def SubcategoriesforSubsurfaceCategory200Fish.spec : EnumSpec where
  name := "SubcategoriesforSubsurfaceCategory200Fish"
  repr := .u8
  default := 1
  variants := [
    ("ForageFishSmallSchooling", 1), ("Herring", 2), ("Sardines", 3), ("Krill", 4), ("Squid", 5),
    ("MediumSchoolingFish", 30), ("Hake", 31), ("Cod", 32), ("Haddock", 33), ("Mackerel", 34),
    ("LargeSchoolingFish", 60), ("Tuna", 61), ("SmallShark", 90), ("DogfishShark", 91), ("MediumShark", 120),
    ("MakoShark", 121), ("HammerheadShark", 122), ("LargeShark", 150), ("GreatWhiteShark", 151),
    ("TigerShark", 152), ("BlueShark", 153), ("WhaleShark", 154), ("Skate", 180), ("Stingray", 181),
    ("Eel", 190), ("Marlin", 200), ("Swordfish", 201)
  ]
/-- src/common/enums.rs:7472-7501 -/
abbrev SubcategoriesforSubsurfaceCategory200Fish := EnumVal SubcategoriesforSubsurfaceCategory200Fish.spec
/-- src/common/enums.rs:7503-7508 -/
abbrev SubcategoriesforSubsurfaceCategory200Fish.deserialize : Get SubcategoriesforSubsurfaceCategory200Fish := SubcategoriesforSubsurfaceCategory200Fish.spec.deserialize

/-- src/common/enums.rs:7512-7573 (default variant `Whale`) -/
def SubcategoriesforSubsurfaceCategory201Mammal.spec : EnumSpec where
  name := "SubcategoriesforSubsurfaceCategory201Mammal"
  repr := .u8
  default := 1
  variants := [
    ("Whale", 1), ("BeakedWhale", 2), ("BelugaWhale", 3), ("BlueWhale", 4), ("BottlenoseWhale", 5),
    ("NorthernBottlenoseWhale", 6), ("SouthernBottlenoseWhale", 7), ("BowheadWhale", 8), ("BrydesWhale", 9),
    ("DwarfSpermWhale", 10), ("FinbackWhale", 11), ("GrayWhale", 12), ("HumpbackWhale", 13),
    ("LongFinnedPilotWhale", 14), ("MinkeWhale", 15), ("NorthernMinkeWhale", 16), ("SouthernMinkeWhale", 17),
    ("NarwhalWhale", 18), ("OrcaWhale", 19), ("PygmySpermWhale", 20), ("RightWhale", 21),
    ("NorthAtlanticRightWhale", 22), ("NorthPacificRightWhale", 23), ("SouthernRightWhale", 24),
    ("SeiWhale", 25), ("ShortFinnedPilotWhale", 26), ("SpermWhale", 27), ("Dolphin", 50),
    ("BottlenoseDolphin", 51), ("BottlenoseIndoPacificDolphin", 52), ("BottlenoseBurrunanDolphin", 53),
    ("AtlanticSpottedDolphin", 54), ("AustralianSnubfinDolphin", 55), ("ChileanBlackDolphin", 56),
    ("ChineseWhiteDolphin", 57), ("ClymeneDolphin", 58), ("Porpoise", 100), ("HarbourPorpoise", 101),
    ("CalifornianPorpoise", 102), ("DallsPorpoise", 103), ("BurmeistersPorpoise", 104), ("Seal", 120),
    ("BeardedSeal", 121), ("HarborSeal", 122), ("FurSeal", 123), ("WeddellSeal", 124), ("ElephantSeal", 125),
    ("SeaLion", 130), ("AustralianSeaLion", 131), ("CaliforniaSeaLion", 132), ("Walrus", 140),
    ("AtlanticWalrus", 141), ("PacificWalrus", 142), ("Otter", 150), ("SeaOtter", 151), ("Manatee", 160),
    ("FloridaManatee", 161), ("Dugongs", 162), ("PolarBear", 200)
  ]
/-- src/common/enums.rs:7512-7573 -/
abbrev SubcategoriesforSubsurfaceCategory201Mammal := EnumVal SubcategoriesforSubsurfaceCategory201Mammal.spec
/-- src/common/enums.rs:7575-7580 -/
abbrev SubcategoriesforSubsurfaceCategory201Mammal.deserialize : Get SubcategoriesforSubsurfaceCategory201Mammal := SubcategoriesforSubsurfaceCategory201Mammal.spec.deserialize

/-- src/common/enums.rs:7584-7595 (default variant `Snail`) -/
def SubcategoriesforSubsurfaceCategory202Mollusk.spec : EnumSpec where
  name := "SubcategoriesforSubsurfaceCategory202Mollusk"
  repr := .u8
  default := 1
  variants := [
    ("Snail", 1), ("Slug", 10), ("Octopus", 20), ("Squid", 30), ("Cuttlefish", 40), ("Clam", 50),
    ("Muscle", 60), ("Oyster", 70), ("Scallop", 80)
  ]
/-- src/common/enums.rs:7584-7595 -/
abbrev SubcategoriesforSubsurfaceCategory202Mollusk := EnumVal SubcategoriesforSubsurfaceCategory202Mollusk.spec
/-- src/common/enums.rs:7597-7602 -/
abbrev SubcategoriesforSubsurfaceCategory202Mollusk.deserialize : Get SubcategoriesforSubsurfaceCategory202Mollusk := SubcategoriesforSubsurfaceCategory202Mollusk.spec.deserialize

/-- src/common/enums.rs:7606-7613 (default variant `Shrimp`) -/
def SubcategoriesforSubsurfaceCategory203Crustacean.spec : EnumSpec where
  name := "SubcategoriesforSubsurfaceCategory203Crustacean"
  repr := .u8
  default := 1
  variants := [
    ("Shrimp", 1), ("SnappingShrimp", 2), ("Crayfish", 10), ("Lobster", 20), ("Crab", 30)
  ]
/-- src/common/enums.rs:7606-7613 -/
abbrev SubcategoriesforSubsurfaceCategory203Crustacean := EnumVal SubcategoriesforSubsurfaceCategory203Crustacean.spec
/-- src/common/enums.rs:7615-7620 -/
abbrev SubcategoriesforSubsurfaceCategory203Crustacean.deserialize : Get SubcategoriesforSubsurfaceCategory203Crustacean := SubcategoriesforSubsurfaceCategory203Crustacean.spec.deserialize

/-- src/common/enums.rs:7624-7628 (default variant `SeaSkater`) -/
def SubcategoriesforSubsurfaceCategory204Insect.spec : EnumSpec where
  name := "SubcategoriesforSubsurfaceCategory204Insect"
  repr := .u8
  default := 1
  variants := [
    ("SeaSkater", 1), ("WaterBeetle", 2)
  ]
/-- src/common/enums.rs:7624-7628 -/
abbrev SubcategoriesforSubsurfaceCategory204Insect := EnumVal SubcategoriesforSubsurfaceCategory204Insect.spec
/-- src/common/enums.rs:7630-7635 -/
abbrev SubcategoriesforSubsurfaceCategory204Insect.deserialize : Get SubcategoriesforSubsurfaceCategory204Insect := SubcategoriesforSubsurfaceCategory204Insect.spec.deserialize

/-- src/common/enums.rs:7639-7655 (default variant `Numberofanimalsrangefrom201to249`) -/
def AnimalLifeformGroupSizeRangeEnumerationforallDomains.spec : EnumSpec where
  name := "AnimalLifeformGroupSizeRangeEnumerationforallDomains"
  repr := .u8
  default := 201
  variants := [
    ("Numberofanimalsrangefrom201to249", 201), ("Numberofanimalsrangefrom250to299", 202),
    ("Numberofanimalsrangefrom300to399", 203), ("Numberofanimalsrangefrom400to499", 204),
    ("Numberofanimalsrangefrom500to999", 205), ("Numberofanimalsrangefrom1000to1499", 206),
    ("Numberofanimalsrangefrom1500to1999", 207), ("Numberofanimalsrangefrom2000to2999", 208),
    ("Numberofanimalsrangefrom3000to4999", 210), ("Numberofanimalsrangefrom5000to6999", 212),
    ("Numberofanimalsrangefrom7000to9999", 214), ("Numberofanimalsrangefrom10000to19999", 216),
    ("Numberofanimalsrangefrom20000to50000", 218), ("Numberofanimalsrangegreaterthan50000", 220)
  ]
/-- src/common/enums.rs:7639-7655 -/
abbrev AnimalLifeformGroupSizeRangeEnumerationforallDomains := EnumVal AnimalLifeformGroupSizeRangeEnumerationforallDomains.spec
/-- src/common/enums.rs:7657-7662 -/
abbrev AnimalLifeformGroupSizeRangeEnumerationforallDomains.deserialize : Get AnimalLifeformGroupSizeRangeEnumerationforallDomains := AnimalLifeformGroupSizeRangeEnumerationforallDomains.spec.deserialize

/-- src/common/enums.rs:7666-7674 (default variant `SmallArea`) -/
def SpecificDimensionEnumerationsforLandAreaSize.spec : EnumSpec where
  name := "SpecificDimensionEnumerationsforLandAreaSize"
  repr := .u8
  default := 222
  variants := [
    ("SmallArea", 222), ("SmallAreaDense", 223), ("MediumArea", 224), ("MediumAreaDense", 225),
    ("LargeArea", 226), ("LargeAreaDense", 227)
  ]
/-- src/common/enums.rs:7666-7674 -/
abbrev SpecificDimensionEnumerationsforLandAreaSize := EnumVal SpecificDimensionEnumerationsforLandAreaSize.spec
/-- src/common/enums.rs:7676-7681 -/
abbrev SpecificDimensionEnumerationsforLandAreaSize.deserialize : Get SpecificDimensionEnumerationsforLandAreaSize := SpecificDimensionEnumerationsforLandAreaSize.spec.deserialize

/-- src/common/enums.rs:7685-7693 (default variant `SmallFlockSwarm`) -/
def SpecificDimensionEnumerationsforAirAreaSize.spec : EnumSpec where
  name := "SpecificDimensionEnumerationsforAirAreaSize"
  repr := .u8
  default := 222
  variants := [
    ("SmallFlockSwarm", 222), ("SmallFlockSwarmDense", 223), ("MediumFlockSwarm", 224),
    ("MediumFlockSwarmDense", 225), ("LargeFlockSwarm", 226), ("LargeFlockSwarmDense", 227)
  ]
/-- src/common/enums.rs:7685-7693 -/
abbrev SpecificDimensionEnumerationsforAirAreaSize := EnumVal SpecificDimensionEnumerationsforAirAreaSize.spec
/-- src/common/enums.rs:7695-7700 -/
abbrev SpecificDimensionEnumerationsforAirAreaSize.deserialize : Get SpecificDimensionEnumerationsforAirAreaSize := SpecificDimensionEnumerationsforAirAreaSize.spec.deserialize

/-- src/common/enums.rs:7704-7712 (default variant `SmallSchool`) -/
def AddSpecificDimensionEnumerationsforSubsurfaceAreaSize.spec : EnumSpec where
  name := "AddSpecificDimensionEnumerationsforSubsurfaceAreaSize"
  repr := .u8
  default := 222
  variants := [
    ("SmallSchool", 222), ("SmallSchoolDense", 223), ("MediumSchool", 224), ("MediumSchoolDense", 225),
    ("LargeSchool", 226), ("LargeSchoolDense", 227)
  ]
/-- src/common/enums.rs:7704-7712 -/
abbrev AddSpecificDimensionEnumerationsforSubsurfaceAreaSize := EnumVal AddSpecificDimensionEnumerationsforSubsurfaceAreaSize.spec
/-- src/common/enums.rs:7714-7719 -/
abbrev AddSpecificDimensionEnumerationsforSubsurfaceAreaSize.deserialize : Get AddSpecificDimensionEnumerationsforSubsurfaceAreaSize := AddSpecificDimensionEnumerationsforSubsurfaceAreaSize.spec.deserialize

/-- src/common/enums.rs:7723-7731 (default variant `AnimalwithaMaleChildRider`) -/
def AddVariantsforLandCategory200Mammal.spec : EnumSpec where
  name := "AddVariantsforLandCategory200Mammal"
  repr := .u8
  default := 1
  variants := [
    ("AnimalwithaMaleChildRider", 1), ("AnimalwithaFemaleChildRider", 2), ("AnimalwithanAdultMaleRider", 3),
    ("AnimalwithanAdultFemaleRider", 4), ("AnimalHarnessedtoaPlow", 5), ("AnimalHarnessedtoaCart", 6)
  ]
/-- src/common/enums.rs:7723-7731 -/
abbrev AddVariantsforLandCategory200Mammal := EnumVal AddVariantsforLandCategory200Mammal.spec
/-- src/common/enums.rs:7733-7738 -/
abbrev AddVariantsforLandCategory200Mammal.deserialize : Get AddVariantsforLandCategory200Mammal := AddVariantsforLandCategory200Mammal.spec.deserialize

/-- src/common/enums.rs:7742-7749 (default variant `Black`) -/
def VariantsforLandCategoriesReptilesAmphibiansInsectsandArachnids.spec : EnumSpec where
  name := "VariantsforLandCategoriesReptilesAmphibiansInsectsandArachnids"
  repr := .u8
  default := 1
  variants := [
    ("Black", 1), ("Green", 2), ("Spotted", 3), ("Red", 4), ("Brown", 5)
  ]
/-- src/common/enums.rs:7742-7749 -/
abbrev VariantsforLandCategoriesReptilesAmphibiansInsectsandArachnids := EnumVal VariantsforLandCategoriesReptilesAmphibiansInsectsandArachnids.spec
/-- src/common/enums.rs:7751-7756 -/
abbrev VariantsforLandCategoriesReptilesAmphibiansInsectsandArachnids.deserialize : Get VariantsforLandCategoriesReptilesAmphibiansInsectsandArachnids := VariantsforLandCategoriesReptilesAmphibiansInsectsandArachnids.spec.deserialize

/-- src/common/enums.rs:7760-7766 (default variant `BirdwithFish`) -/
def VariantsforAirCategory200Bird.spec : EnumSpec where
  name := "VariantsforAirCategory200Bird"
  repr := .u8
  default := 1
  variants := [
    ("BirdwithFish", 1), ("VPatternFlockShape", 2), ("CircularFlockShape", 3), ("IrregularFlockShape", 4)
  ]
/-- src/common/enums.rs:7760-7766 -/
abbrev VariantsforAirCategory200Bird := EnumVal VariantsforAirCategory200Bird.spec
/-- src/common/enums.rs:7768-7773 -/
abbrev VariantsforAirCategory200Bird.deserialize : Get VariantsforAirCategory200Bird := VariantsforAirCategory200Bird.spec.deserialize

/-- src/common/enums.rs:7777-7782 (default variant `VerticalShapedInsectSwarm`) -/
def AddVariantsforAirCategory201Insect.spec : EnumSpec where
  name := "AddVariantsforAirCategory201Insect"
  repr := .u8
  default := 1
  variants := [
    ("VerticalShapedInsectSwarm", 1), ("CircularShapedInsectSwarm", 2), ("IrregularShapedInsectSwarm", 3)
  ]
/-- src/common/enums.rs:7777-7782 -/
abbrev AddVariantsforAirCategory201Insect := EnumVal AddVariantsforAirCategory201Insect.spec
/-- src/common/enums.rs:7784-7789 -/
abbrev AddVariantsforAirCategory201Insect.deserialize : Get AddVariantsforAirCategory201Insect := AddVariantsforAirCategory201Insect.spec.deserialize

/-- src/common/enums.rs:7793-7803 (default variant `Black`) -/
def AddVariantsforSubsurfaceCategoriesFishMolluskCrustaceanandInsect.spec : EnumSpec where
  name := "AddVariantsforSubsurfaceCategoriesFishMolluskCrustaceanandInsect"
  repr := .u8
  default := 1
  variants := [
    ("Black", 1), ("Green", 2), ("Spotted", 3), ("Red", 4), ("Brown", 5), ("Blue", 6), ("Silver", 7),
    ("Grey", 8)
  ]
/-- src/common/enums.rs:7793-7803 -/
abbrev AddVariantsforSubsurfaceCategoriesFishMolluskCrustaceanandInsect := EnumVal AddVariantsforSubsurfaceCategoriesFishMolluskCrustaceanandInsect.spec
/-- src/common/enums.rs:7805-7810 -/
abbrev AddVariantsforSubsurfaceCategoriesFishMolluskCrustaceanandInsect.deserialize : Get AddVariantsforSubsurfaceCategoriesFishMolluskCrustaceanandInsect := AddVariantsforSubsurfaceCategoriesFishMolluskCrustaceanandInsect.spec.deserialize

/-- src/common/enums.rs:7814-7818 (default variant `Singing`) -/
def VariantsforSubsurfaceCategory201Mammal.spec : EnumSpec where
  name := "VariantsforSubsurfaceCategory201Mammal"
  repr := .u8
  default := 1
  variants := [
    ("Singing", 1), ("Spouting", 2)
  ]
/-- src/common/enums.rs:7814-7818 -/
abbrev VariantsforSubsurfaceCategory201Mammal := EnumVal VariantsforSubsurfaceCategory201Mammal.spec
/-- src/common/enums.rs:7820-7825 -/
abbrev VariantsforSubsurfaceCategory201Mammal.deserialize : Get VariantsforSubsurfaceCategory201Mammal := VariantsforSubsurfaceCategory201Mammal.spec.deserialize

/-- src/common/enums.rs:7829-7833 (default variant `StateUpdate`) -/
def UAStateChangeUpdateIndicator.spec : EnumSpec where
  name := "UAStateChangeUpdateIndicator"
  repr := .u8
  default := 0
  variants := [
    ("StateUpdate", 0), ("ChangedDataUpdate", 1)
  ]
/-- src/common/enums.rs:7829-7833 -/
abbrev UAStateChangeUpdateIndicator := EnumVal UAStateChangeUpdateIndicator.spec
/-- src/common/enums.rs:7835-7840 -/
abbrev UAStateChangeUpdateIndicator.deserialize : Get UAStateChangeUpdateIndicator := UAStateChangeUpdateIndicator.spec.deserialize
/-- src/common/enums.rs:7842-7846 -/
instance : FieldSerialize UAStateChangeUpdateIndicator := ⟨fun x => putU8 x.asU8⟩
/-- src/common/enums.rs:7848-7852 -/
instance : FieldDeserialize UAStateChangeUpdateIndicator := ⟨UAStateChangeUpdateIndicator.deserialize⟩
/-- src/common/enums.rs:7854-7858 -/
instance : FieldLen UAStateChangeUpdateIndicator := ⟨fun _ => 1⟩

/-- src/common/enums.rs:7862-7874 (default variant `Other`) -/
def UAAcousticSystemName.spec : EnumSpec where
  name := "UAAcousticSystemName"
  repr := .u16
  default := 0
  variants := [
    ("Other", 0), ("ANBQQ5", 1), ("ANSSQ62", 2), ("ANSQS23", 3), ("ANSQS26", 4), ("ANSQS53", 5), ("ALFS", 6),
    ("LFA", 7), ("ANAQS901", 8), ("ANAQS902", 9)
  ]
/-- src/common/enums.rs:7862-7874 -/
abbrev UAAcousticSystemName := EnumVal UAAcousticSystemName.spec
/-- src/common/enums.rs:7876-7881 -/
abbrev UAAcousticSystemName.deserialize : Get UAAcousticSystemName := UAAcousticSystemName.spec.deserialize
/-- src/common/enums.rs:7883-7887 -/
instance : FieldSerialize UAAcousticSystemName := ⟨fun x => putU16 x.asU16⟩
/-- src/common/enums.rs:7889-7893 -/
instance : FieldDeserialize UAAcousticSystemName := ⟨UAAcousticSystemName.deserialize⟩
/-- src/common/enums.rs:7895-7899 -/
instance : FieldLen UAAcousticSystemName := ⟨fun _ => 2⟩

/-- src/common/enums.rs:7903-7910 (default variant `Other`) -/
def UAAcousticEmitterSystemFunction.spec : EnumSpec where
  name := "UAAcousticEmitterSystemFunction"
  repr := .u8
  default := 0
  variants := [
    ("Other", 0), ("Platformsearchdetecttrack", 1), ("Navigation", 2), ("Minehunting", 3),
    ("Weaponsearchdetecttrackdetect", 4)
  ]
/-- src/common/enums.rs:7903-7910 -/
abbrev UAAcousticEmitterSystemFunction := EnumVal UAAcousticEmitterSystemFunction.spec
/-- src/common/enums.rs:7912-7917 -/
abbrev UAAcousticEmitterSystemFunction.deserialize : Get UAAcousticEmitterSystemFunction := UAAcousticEmitterSystemFunction.spec.deserialize
/-- src/common/enums.rs:7919-7923 -/
instance : FieldSerialize UAAcousticEmitterSystemFunction := ⟨fun x => putU8 x.asU8⟩
/-- src/common/enums.rs:7925-7929 -/
instance : FieldDeserialize UAAcousticEmitterSystemFunction := ⟨UAAcousticEmitterSystemFunction.deserialize⟩
/-- src/common/enums.rs:7931-7935 -/
instance : FieldLen UAAcousticEmitterSystemFunction := ⟨fun _ => 1⟩

/-- src/common/enums.rs:7939-7942 (default variant `Other`) -/
def UAActiveEmissionParameterIndex.spec : EnumSpec where
  name := "UAActiveEmissionParameterIndex"
  repr := .u16
  default := 0
  variants := [
    ("Other", 0)
  ]
/-- src/common/enums.rs:7939-7942 -/
abbrev UAActiveEmissionParameterIndex := EnumVal UAActiveEmissionParameterIndex.spec
/-- src/common/enums.rs:7944-7949 -/
abbrev UAActiveEmissionParameterIndex.deserialize : Get UAActiveEmissionParameterIndex := UAActiveEmissionParameterIndex.spec.deserialize

/-- src/common/enums.rs:7953-7961 (default variant `Scanpatternnotused`) -/
def UAScanPattern.spec : EnumSpec where
  name := "UAScanPattern"
  repr := .u16
  default := 0
  variants := [
    ("Scanpatternnotused", 0), ("Conical", 1), ("Helical", 2), ("Raster", 3), ("Sectorsearch", 4),
    ("Continuoussearch", 5)
  ]
/-- src/common/enums.rs:7953-7961 -/
abbrev UAScanPattern := EnumVal UAScanPattern.spec
/-- src/common/enums.rs:7963-7968 -/
abbrev UAScanPattern.deserialize : Get UAScanPattern := UAScanPattern.spec.deserialize

/-- src/common/enums.rs:7972-7975 (default variant `Other`) -/
def UAPassiveParameterIndex.spec : EnumSpec where
  name := "UAPassiveParameterIndex"
  repr := .u16
  default := 0
  variants := [
    ("Other", 0)
  ]
/-- src/common/enums.rs:7972-7975 -/
abbrev UAPassiveParameterIndex := EnumVal UAPassiveParameterIndex.spec
/-- src/common/enums.rs:7977-7982 -/
abbrev UAPassiveParameterIndex.deserialize : Get UAPassiveParameterIndex := UAPassiveParameterIndex.spec.deserialize
/-- src/common/enums.rs:7984-7988 -/
instance : FieldSerialize UAPassiveParameterIndex := ⟨fun x => putU16 x.asU16⟩
/-- src/common/enums.rs:7990-7994 -/
instance : FieldDeserialize UAPassiveParameterIndex := ⟨UAPassiveParameterIndex.deserialize⟩
/-- src/common/enums.rs:7996-8000 -/
instance : FieldLen UAPassiveParameterIndex := ⟨fun _ => 2⟩

/-- src/common/enums.rs:8004-8007 (default variant `Other`) -/
def UAAdditionalPassiveActivityParameterIndex.spec : EnumSpec where
  name := "UAAdditionalPassiveActivityParameterIndex"
  repr := .u16
  default := 0
  variants := [
    ("Other", 0)
  ]
/-- src/common/enums.rs:8004-8007 -/
abbrev UAAdditionalPassiveActivityParameterIndex := EnumVal UAAdditionalPassiveActivityParameterIndex.spec
/-- src/common/enums.rs:8009-8014 -/
abbrev UAAdditionalPassiveActivityParameterIndex.deserialize : Get UAAdditionalPassiveActivityParameterIndex := UAAdditionalPassiveActivityParameterIndex.spec.deserialize

/-- src/common/enums.rs:8018-8029 (default variant `NoStatement`) -/
def TransmitterMajorModulation.spec : EnumSpec where
  name := "TransmitterMajorModulation"
  repr := .u16
  default := 0
  variants := [
    ("NoStatement", 0), ("Amplitude", 1), ("AmplitudeandAngle", 2), ("Angle", 3), ("Combination", 4),
    ("Pulse", 5), ("Unmodulated", 6), ("CarrierPhaseShiftModulation", 7), ("SATCOM", 8)
  ]
/-- src/common/enums.rs:8018-8029 -/
abbrev TransmitterMajorModulation := EnumVal TransmitterMajorModulation.spec
/-- src/common/enums.rs:8031-8036 -/
abbrev TransmitterMajorModulation.deserialize : Get TransmitterMajorModulation := TransmitterMajorModulation.spec.deserialize

/-- src/common/enums.rs:8040-8053 (default variant `Other`) -/
def TransmitterDetailAmplitudeModulation.spec : EnumSpec where
  name := "TransmitterDetailAmplitudeModulation"
  repr := .u16
  default := 0
  variants := [
    ("Other", 0), ("AFSK", 1), ("AM", 2), ("CW", 3), ("DSB", 4), ("ISB", 5), ("LSB", 6), ("SSBFull", 7),
    ("SSBReduc", 8), ("USB", 9), ("VSB", 10)
  ]
/-- src/common/enums.rs:8040-8053 -/
abbrev TransmitterDetailAmplitudeModulation := EnumVal TransmitterDetailAmplitudeModulation.spec
/-- src/common/enums.rs:8055-8060 -/
abbrev TransmitterDetailAmplitudeModulation.deserialize : Get TransmitterDetailAmplitudeModulation := TransmitterDetailAmplitudeModulation.spec.deserialize

/-- src/common/enums.rs:8064-8068 (default variant `Other`) -/
def TransmitterDetailAmplitudeandAngleModulation.spec : EnumSpec where
  name := "TransmitterDetailAmplitudeandAngleModulation"
  repr := .u16
  default := 0
  variants := [
    ("Other", 0), ("AmplitudeandAngle", 1)
  ]
/-- src/common/enums.rs:8064-8068 -/
abbrev TransmitterDetailAmplitudeandAngleModulation := EnumVal TransmitterDetailAmplitudeandAngleModulation.spec
/-- src/common/enums.rs:8070-8075 -/
abbrev TransmitterDetailAmplitudeandAngleModulation.deserialize : Get TransmitterDetailAmplitudeandAngleModulation := TransmitterDetailAmplitudeandAngleModulation.spec.deserialize

/-- src/common/enums.rs:8079-8086 (default variant `Other`) -/
def TransmitterDetailAngleModulation.spec : EnumSpec where
  name := "TransmitterDetailAngleModulation"
  repr := .u16
  default := 0
  variants := [
    ("Other", 0), ("FM", 1), ("FSK", 2), ("PM", 3), ("MSK", 4)
  ]
/-- src/common/enums.rs:8079-8086 -/
abbrev TransmitterDetailAngleModulation := EnumVal TransmitterDetailAngleModulation.spec
/-- src/common/enums.rs:8088-8093 -/
abbrev TransmitterDetailAngleModulation.deserialize : Get TransmitterDetailAngleModulation := TransmitterDetailAngleModulation.spec.deserialize

/-- src/common/enums.rs:8097-8101 (default variant `Other`) -/
def TransmitterDetailCombinationModulation.spec : EnumSpec where
  name := "TransmitterDetailCombinationModulation"
  repr := .u16
  default := 0
  variants := [
    ("Other", 0), ("AmplitudeAnglePulse", 1)
  ]
/-- src/common/enums.rs:8097-8101 -/
abbrev TransmitterDetailCombinationModulation := EnumVal TransmitterDetailCombinationModulation.spec
/-- src/common/enums.rs:8103-8108 -/
abbrev TransmitterDetailCombinationModulation.deserialize : Get TransmitterDetailCombinationModulation := TransmitterDetailCombinationModulation.spec.deserialize

/-- src/common/enums.rs:8112-8118 (default variant `Other`) -/
def TransmitterDetailPulseModulation.spec : EnumSpec where
  name := "TransmitterDetailPulseModulation"
  repr := .u16
  default := 0
  variants := [
    ("Other", 0), ("Pulse", 1), ("XBandTACANPulse", 2), ("YBandTACANPulse", 3)
  ]
/-- src/common/enums.rs:8112-8118 -/
abbrev TransmitterDetailPulseModulation := EnumVal TransmitterDetailPulseModulation.spec
/-- src/common/enums.rs:8120-8125 -/
abbrev TransmitterDetailPulseModulation.deserialize : Get TransmitterDetailPulseModulation := TransmitterDetailPulseModulation.spec.deserialize

/-- src/common/enums.rs:8129-8133 (default variant `Other`) -/
def TransmitterDetailUnmodulatedModulation.spec : EnumSpec where
  name := "TransmitterDetailUnmodulatedModulation"
  repr := .u16
  default := 0
  variants := [
    ("Other", 0), ("ContinuousWaveemissionofanunmodulatedcarrier", 1)
  ]
/-- src/common/enums.rs:8129-8133 -/
abbrev TransmitterDetailUnmodulatedModulation := EnumVal TransmitterDetailUnmodulatedModulation.spec
/-- src/common/enums.rs:8135-8140 -/
abbrev TransmitterDetailUnmodulatedModulation.deserialize : Get TransmitterDetailUnmodulatedModulation := TransmitterDetailUnmodulatedModulation.spec.deserialize

/-- src/common/enums.rs:8144-8147 (default variant `Other`) -/
def TransmitterDetailCarrierPhaseShiftModulation.spec : EnumSpec where
  name := "TransmitterDetailCarrierPhaseShiftModulation"
  repr := .u16
  default := 0
  variants := [
    ("Other", 0)
  ]
/-- src/common/enums.rs:8144-8147 -/
abbrev TransmitterDetailCarrierPhaseShiftModulation := EnumVal TransmitterDetailCarrierPhaseShiftModulation.spec
/-- src/common/enums.rs:8149-8154 -/
abbrev TransmitterDetailCarrierPhaseShiftModulation.deserialize : Get TransmitterDetailCarrierPhaseShiftModulation := TransmitterDetailCarrierPhaseShiftModulation.spec.deserialize

/-- src/common/enums.rs:8158-8174 (default variant `Other`) -/
def TransmitterModulationTypeSystem.spec : EnumSpec where
  name := "TransmitterModulationTypeSystem"
  repr := .u16
  default := 0
  variants := [
    ("Other", 0), ("GenericRadioorSimpleIntercom", 1), ("HAVEQUICKI", 2), ("HAVEQUICKII", 3), ("SATURN", 4),
    ("SINCGARS", 5), ("CCTTSINCGARS", 6), ("EPLRS", 7), ("JTIDSMIDS", 8), ("Link11", 9), ("Link11B", 10),
    ("LBandSATCOM", 11), ("EnhancedSINCGARS7_3", 12), ("NavigationAid", 13)
  ]
/-- src/common/enums.rs:8158-8174 -/
abbrev TransmitterModulationTypeSystem := EnumVal TransmitterModulationTypeSystem.spec
/-- src/common/enums.rs:8176-8181 -/
abbrev TransmitterModulationTypeSystem.deserialize : Get TransmitterModulationTypeSystem := TransmitterModulationTypeSystem.spec.deserialize

/-- src/common/enums.rs:8185-8190 (default variant `Off`) -/
def TransmitterTransmitState.spec : EnumSpec where
  name := "TransmitterTransmitState"
  repr := .u8
  default := 0
  variants := [
    ("Off", 0), ("Onbutnottransmitting", 1), ("Onandtransmitting", 2)
  ]
/-- src/common/enums.rs:8185-8190 -/
abbrev TransmitterTransmitState := EnumVal TransmitterTransmitState.spec
/-- src/common/enums.rs:8192-8197 -/
abbrev TransmitterTransmitState.deserialize : Get TransmitterTransmitState := TransmitterTransmitState.spec.deserialize
/-- src/common/enums.rs:8199-8203 -/
instance : FieldSerialize TransmitterTransmitState := ⟨fun x => putU8 x.asU8⟩
/-- src/common/enums.rs:8205-8209 -/
instance : FieldDeserialize TransmitterTransmitState := ⟨TransmitterTransmitState.deserialize⟩
/-- src/common/enums.rs:8211-8215 -/
instance : FieldLen TransmitterTransmitState := ⟨fun _ => 1⟩

/-- src/common/enums.rs:8219-8236 (default variant `Other`) -/
def TransmitterInputSource.spec : EnumSpec where
  name := "TransmitterInputSource"
  repr := .u8
  default := 0
  variants := [
    ("Other", 0), ("Pilot", 1), ("Copilot", 2), ("FirstOfficer", 3), ("Driver", 4), ("Loader", 5),
    ("Gunner", 6), ("Commander", 7), ("DigitalDataDevice", 8), ("Intercom", 9), ("AudioJammer", 10),
    ("DataJammer", 11), ("GPSJammer", 12), ("GPSMeaconer", 13), ("SATCOMUplinkJammer", 14)
  ]
/-- src/common/enums.rs:8219-8236 -/
abbrev TransmitterInputSource := EnumVal TransmitterInputSource.spec
/-- src/common/enums.rs:8238-8243 -/
abbrev TransmitterInputSource.deserialize : Get TransmitterInputSource := TransmitterInputSource.spec.deserialize
/-- src/common/enums.rs:8245-8249 -/
instance : FieldSerialize TransmitterInputSource := ⟨fun x => putU8 x.asU8⟩
/-- src/common/enums.rs:8251-8255 -/
instance : FieldDeserialize TransmitterInputSource := ⟨TransmitterInputSource.deserialize⟩
/-- src/common/enums.rs:8257-8261 -/
instance : FieldLen TransmitterInputSource := ⟨fun _ => 1⟩

/-- src/common/enums.rs:8265-8282 (default variant `NoEncryptionDevice`) -/
def TransmitterCryptoSystem.spec : EnumSpec where
  name := "TransmitterCryptoSystem"
  repr := .u16
  default := 0
  variants := [
    ("NoEncryptionDevice", 0), ("KY28", 1), ("KY58", 2), ("NarrowSpectrumSecureVoice", 3),
    ("WideSpectrumSecureVoice", 4), ("SINCGARSICOM", 5), ("KY75", 6), ("KY100", 7), ("KY57", 8), ("KYV5", 9),
    ("Link11KG40AP", 10), ("Link11BKG40AS", 11), ("Link11KG40AR", 12), ("KGV135A", 13),
    ("TacticalSecureVoice", 14)
  ]
/-- src/common/enums.rs:8265-8282 -/
abbrev TransmitterCryptoSystem := EnumVal TransmitterCryptoSystem.spec
/-- src/common/enums.rs:8284-8289 -/
abbrev TransmitterCryptoSystem.deserialize : Get TransmitterCryptoSystem := TransmitterCryptoSystem.spec.deserialize
/-- src/common/enums.rs:8291-8295 -/
instance : FieldSerialize TransmitterCryptoSystem := ⟨fun x => putU16 x.asU16⟩
/-- src/common/enums.rs:8297-8301 -/
instance : FieldDeserialize TransmitterCryptoSystem := ⟨TransmitterCryptoSystem.deserialize⟩
/-- src/common/enums.rs:8303-8307 -/
instance : FieldLen TransmitterCryptoSystem := ⟨fun _ => 2⟩

/-- src/common/enums.rs:8311-8319 (default variant `Isotropic`) -/
def TransmitterAntennaPatternType.spec : EnumSpec where
  name := "TransmitterAntennaPatternType"
  repr := .u16
  default := 0
  variants := [
    ("Isotropic", 0), ("Beam", 1), ("Sphericalharmonic", 2), ("TransmitterRadiationVolume", 4),
    ("BeamandTransmitterRadiationVolume", 5), ("Omnidirectional", 6)
  ]
/-- src/common/enums.rs:8311-8319 -/
abbrev TransmitterAntennaPatternType := EnumVal TransmitterAntennaPatternType.spec
/-- src/common/enums.rs:8321-8326 -/
abbrev TransmitterAntennaPatternType.deserialize : Get TransmitterAntennaPatternType := TransmitterAntennaPatternType.spec.deserialize
/-- src/common/enums.rs:8328-8332 -/
instance : FieldSerialize TransmitterAntennaPatternType := ⟨fun x => putU16 x.asU16⟩
/-- src/common/enums.rs:8334-8338 -/
instance : FieldDeserialize TransmitterAntennaPatternType := ⟨TransmitterAntennaPatternType.deserialize⟩
/-- src/common/enums.rs:8340-8344 -/
instance : FieldLen TransmitterAntennaPatternType := ⟨fun _ => 2⟩

/-- src/common/enums.rs:8348-8352 (default variant `WorldCoordinates`) -/
def TransmitterAntennaPatternReferenceSystem.spec : EnumSpec where
  name := "TransmitterAntennaPatternReferenceSystem"
  repr := .u8
  default := 1
  variants := [
    ("WorldCoordinates", 1), ("EntityCoordinates", 2)
  ]
/-- src/common/enums.rs:8348-8352 -/
abbrev TransmitterAntennaPatternReferenceSystem := EnumVal TransmitterAntennaPatternReferenceSystem.spec
/-- src/common/enums.rs:8354-8359 -/
abbrev TransmitterAntennaPatternReferenceSystem.deserialize : Get TransmitterAntennaPatternReferenceSystem := TransmitterAntennaPatternReferenceSystem.spec.deserialize
/-- src/common/enums.rs:8361-8365 -/
instance : FieldSerialize TransmitterAntennaPatternReferenceSystem := ⟨fun x => putU8 x.asU8⟩
/-- src/common/enums.rs:8367-8371 -/
instance : FieldDeserialize TransmitterAntennaPatternReferenceSystem := ⟨TransmitterAntennaPatternReferenceSystem.deserialize⟩
/-- src/common/enums.rs:8373-8377 -/
instance : FieldLen TransmitterAntennaPatternReferenceSystem := ⟨fun _ => 1⟩

/-- src/common/enums.rs:8381-8385 (default variant `Notstartofmessage`) -/
def CCTTSINCGARSStartofMessage.spec : EnumSpec where
  name := "CCTTSINCGARSStartofMessage"
  repr := .u8
  default := 0
  variants := [
    ("Notstartofmessage", 0), ("StartofMessage", 1)
  ]
/-- src/common/enums.rs:8381-8385 -/
abbrev CCTTSINCGARSStartofMessage := EnumVal CCTTSINCGARSStartofMessage.spec
/-- src/common/enums.rs:8387-8392 -/
abbrev CCTTSINCGARSStartofMessage.deserialize : Get CCTTSINCGARSStartofMessage := CCTTSINCGARSStartofMessage.spec.deserialize

/-- src/common/enums.rs:8396-8400 (default variant `Notclearchannel`) -/
def CCTTSINCGARSClearChannel.spec : EnumSpec where
  name := "CCTTSINCGARSClearChannel"
  repr := .u8
  default := 0
  variants := [
    ("Notclearchannel", 0), ("Clearchannel", 1)
  ]
/-- src/common/enums.rs:8396-8400 -/
abbrev CCTTSINCGARSClearChannel := EnumVal CCTTSINCGARSClearChannel.spec
/-- src/common/enums.rs:8402-8407 -/
abbrev CCTTSINCGARSClearChannel.deserialize : Get CCTTSINCGARSClearChannel := CCTTSINCGARSClearChannel.spec.deserialize

/-- src/common/enums.rs:8411-8418 (default variant `LowFidelityLevel0`) -/
def TimeSlotAllocationLevel.spec : EnumSpec where
  name := "TimeSlotAllocationLevel"
  repr := .u8
  default := 0
  variants := [
    ("LowFidelityLevel0", 0), ("LowFidelityLevel1", 1), ("MediumFidelityLevel2", 2),
    ("MediumFidelityLevel3", 3), ("HighFidelityLevel4", 4)
  ]
/-- src/common/enums.rs:8411-8418 -/
abbrev TimeSlotAllocationLevel := EnumVal TimeSlotAllocationLevel.spec
/-- src/common/enums.rs:8420-8425 -/
abbrev TimeSlotAllocationLevel.deserialize : Get TimeSlotAllocationLevel := TimeSlotAllocationLevel.spec.deserialize

/-- src/common/enums.rs:8429-8433 (default variant `NTR`) -/
def JTIDSMIDSModulationParametersTransmittingTerminalPrimaryMode.spec : EnumSpec where
  name := "JTIDSMIDSModulationParametersTransmittingTerminalPrimaryMode"
  repr := .u8
  default := 1
  variants := [
    ("NTR", 1), ("JTIDSUnitParticipant", 2)
  ]
/-- src/common/enums.rs:8429-8433 -/
abbrev JTIDSMIDSModulationParametersTransmittingTerminalPrimaryMode := EnumVal JTIDSMIDSModulationParametersTransmittingTerminalPrimaryMode.spec
/-- src/common/enums.rs:8435-8440 -/
abbrev JTIDSMIDSModulationParametersTransmittingTerminalPrimaryMode.deserialize : Get JTIDSMIDSModulationParametersTransmittingTerminalPrimaryMode := JTIDSMIDSModulationParametersTransmittingTerminalPrimaryMode.spec.deserialize

/-- src/common/enums.rs:8444-8450 (default variant `None`) -/
def JTIDSMIDSModulationParametersTransmittingTerminalSecondaryMode.spec : EnumSpec where
  name := "JTIDSMIDSModulationParametersTransmittingTerminalSecondaryMode"
  repr := .u8
  default := 0
  variants := [
    ("None", 0), ("NetPositionReference", 1), ("PrimaryNavigationController", 2),
    ("SecondaryNavigationController", 3)
  ]
/-- src/common/enums.rs:8444-8450 -/
abbrev JTIDSMIDSModulationParametersTransmittingTerminalSecondaryMode := EnumVal JTIDSMIDSModulationParametersTransmittingTerminalSecondaryMode.spec
/-- src/common/enums.rs:8452-8457 -/
abbrev JTIDSMIDSModulationParametersTransmittingTerminalSecondaryMode.deserialize : Get JTIDSMIDSModulationParametersTransmittingTerminalSecondaryMode := JTIDSMIDSModulationParametersTransmittingTerminalSecondaryMode.spec.deserialize

/-- src/common/enums.rs:8461-8468 (default variant `NoStatement`) -/
def JTIDSMIDSModulationParametersSynchronizationState.spec : EnumSpec where
  name := "JTIDSMIDSModulationParametersSynchronizationState"
  repr := .u8
  default := 0
  variants := [
    ("NoStatement", 0), ("InitialNetEntry", 1), ("CoarseSynchronization", 2), ("FineSynchronization", 3),
    ("SynchronizationMaintenance", 4)
  ]
/-- src/common/enums.rs:8461-8468 -/
abbrev JTIDSMIDSModulationParametersSynchronizationState := EnumVal JTIDSMIDSModulationParametersSynchronizationState.spec
/-- src/common/enums.rs:8470-8475 -/
abbrev JTIDSMIDSModulationParametersSynchronizationState.deserialize : Get JTIDSMIDSModulationParametersSynchronizationState := JTIDSMIDSModulationParametersSynchronizationState.spec.deserialize

/-- src/common/enums.rs:8479-8489 (default variant `JTIDSHeaderMessages`) -/
def MessageTypeIdentifier.spec : EnumSpec where
  name := "MessageTypeIdentifier"
  repr := .u8
  default := 0
  variants := [
    ("JTIDSHeaderMessages", 0), ("RTTAB", 1), ("RTTReply", 2), ("JTIDSVoiceCVSD", 3), ("JTIDSVoiceLPC10", 4),
    ("JTIDSVoiceLPC12", 5), ("JTIDSLET", 6), ("VMF", 7)
  ]
/-- src/common/enums.rs:8479-8489 -/
abbrev MessageTypeIdentifier := EnumVal MessageTypeIdentifier.spec
/-- src/common/enums.rs:8491-8496 -/
abbrev MessageTypeIdentifier.deserialize : Get MessageTypeIdentifier := MessageTypeIdentifier.spec.deserialize

/-- src/common/enums.rs:8500-8537 (default variant `CCSIL`) -/
def SignalUserProtocolIdentificationNumber.spec : EnumSpec where
  name := "SignalUserProtocolIdentificationNumber"
  repr := .u32
  default := 1
  variants := [
    ("CCSIL", 1), ("A2ATDSINCGARSERF", 5), ("A2ATDCAC2", 6), ("BattleCommand", 20),
    ("AFIWCIADSTrackReport", 30), ("AFIWCIADSCommC2Message", 31),
    ("AFIWCIADSGroundControlInterceptorCommand", 32), ("AFIWCVoiceTextMessage", 35), ("ModSAFTextRadio", 177),
    ("CCTTSINCGARSERFLOCKOUT", 200), ("CCTTSINCGARSERFHOPSET", 201), ("CCTTSINCGARSOTAR", 202),
    ("CCTTSINCGARSDATA", 203), ("ModSAFFWAForwardAirController", 546), ("ModSAFThreatADAC3", 832),
    ("F16MTCAFAPDProtocol", 1000), ("F16MTCIDLProtocol", 1100), ("AutomaticIdentificationSystem", 1371),
    ("ModSAFArtilleryFireControl", 4570), ("AGTS", 5361), ("GC3", 6000), ("WNCPdata", 6010),
    ("Spokentextmessage", 6020), ("LongbowIDMmessage", 6661), ("ComancheIDMmessage", 6662),
    ("LongbowAirborneTACFIREMessage", 6663), ("LongbowGroundTACFIREMessage", 6664),
    ("LongbowAFAPDMessage", 6665), ("LongbowERFmessage", 6666), ("VMFIDM", 7000),
    ("CSARRadioSurvivorMessage", 7010), ("CSARRadioInterrogatorMessage", 7020),
    ("ImageFileTransferMessage", 7030), ("GeotagDataMessage", 7040), ("TacticalVideoRegenerationData", 7050)
  ]
/-- src/common/enums.rs:8500-8537 -/
abbrev SignalUserProtocolIdentificationNumber := EnumVal SignalUserProtocolIdentificationNumber.spec
/-- src/common/enums.rs:8539-8544 -/
abbrev SignalUserProtocolIdentificationNumber.deserialize : Get SignalUserProtocolIdentificationNumber := SignalUserProtocolIdentificationNumber.spec.deserialize

/-- src/common/enums.rs:8548-8648 (default variant `Other`) -/
def SignalTDLType.spec : EnumSpec where
  name := "SignalTDLType"
  repr := .u16
  default := 0
  variants := [
    ("Other", 0), ("PADIL", 1), ("NATOLink1", 2), ("ATDL1", 3), ("Link11B", 4),
    ("SituationalAwarenessDataLink", 5), ("Link16LegacyFormatJTIDSTADILJ", 6),
    ("Link16LegacyFormatJTIDSFDLTADILJ", 7), ("Link11", 8), ("IJMS", 9), ("Link4A", 10), ("Link4C", 11),
    ("TIBS", 12), ("ATL", 13), ("ConstantSource", 14), ("AbbreviatedCommandandControl", 15), ("MILSTAR", 16),
    ("ATHS", 17), ("OTHGOLD", 18), ("TACELINT", 19), ("WeaponsDataLink", 20),
    ("AbbreviatedCommandandControl_", 21), ("EnhancedPositionLocationReportingSystem", 22),
    ("PositionLocationReportingSystem", 23), ("SINCGARS", 24), ("HAVEQUICKI", 25), ("HAVEQUICKII", 26),
    ("SATURN", 27), ("IntraFlightDataLink1", 28), ("IntraFlightDataLink2", 29), ("ImprovedDataModem", 30),
    ("AirForceApplicationProgramDevelopment", 31), ("CooperativeEngagementCapability", 32),
    ("ForwardAreaAirDefense", 33), ("GroundBasedDataLink", 34), ("IntraVehicularInfoSystem", 35),
    ("MarineTacticalSystem", 36), ("TacticalFireDirectionSystem", 37), ("IntegratedBroadcastService", 38),
    ("AirborneInformationTransfer", 39), ("AdvancedTacticalAirborneReconnaissanceSystemDataLink", 40),
    ("BattleGroupPassiveHorizonExtensionSystemDataLink", 41), ("CommonHighBandwidthDataLink", 42),
    ("GuardrailInteroperableDataLink", 43), ("GuardrailCommonSensorSystemOneDataLink", 44),
    ("GuardrailCommonSensorSystemTwoDataLink", 45), ("GuardrailCSS2MultiRoleDataLink", 46),
    ("GuardrailCSS2DirectAirtoSatelliteRelayDataLink", 47), ("LineofSight", 48), ("LightweightCDL", 49),
    ("L52M", 50), ("RivetReachRivetOwlDataLink", 51), ("SeniorSpan", 52), ("SeniorSpur", 53),
    ("SeniorStretch_", 54), ("SeniorYearInteroperableDataLink", 55), ("SpaceCDL", 56),
    ("TR1modeMISTAirborneDataLink", 57), ("KubandSATCOMDataLinkImplementation", 58),
    ("MissionEquipmentControlDatalink", 59), ("RadarDataTransmittingSetDataLink", 60),
    ("SurveillanceandControlDataLink", 61), ("TacticalUAVVideo", 62), ("UHFSATCOMDataLinkImplementation", 63),
    ("TacticalCommonDataLink", 64), ("LowLevelAirPictureInterface", 65), ("WeaponsDataLinkAGM130", 66),
    ("AutomaticIdentificationSystemAIS", 67), ("WeaponsDataLinkAIM120", 68), ("WeaponsDataLinkAIM9", 69),
    ("WeaponsDataLinkCAMM", 70), ("GC3", 99), ("Link16StandardizedFormat", 100),
    ("Link16EnhancedDataRate", 101), ("JTIDSMIDSNetDataLoad", 102), ("Link22", 103),
    ("AFIWCIADSCommunicationsLinks", 104), ("F22IntraFlightDataLink", 105), ("LBandSATCOM", 106),
    ("TSAFCommunicationsLink", 107), ("EnhancedSINCGARS7_3", 108), ("F35MultifunctionAdvancedDataLink", 109),
    ("CursoronTarget", 110), ("AllPurposeStructuredEurocontrolSurveillanceInformationExchange", 111),
    ("VariableMessageFormat", 112), ("Link16SurrogateforNonNATOTDL", 113), ("MQ19CBandLOSUplink", 114),
    ("MQ19CBandLOSDownlink", 115), ("MQ19KuBandSATCOMUplink", 116), ("MQ19KuBandSATCOMDownlink", 117),
    ("WeaponsDatalinkSDBII", 118), ("JTACSAUplink", 119), ("CommonInteractiveBroadcast", 120),
    ("JointRangeExtensionApplicationProtocolA", 121), ("JPALSDataLink", 125),
    ("OneSAFIADSCommunicationsLink", 126), ("TacticalTargetingNetworkTechnologyApplication", 127)
  ]
/-- src/common/enums.rs:8548-8648 -/
abbrev SignalTDLType := EnumVal SignalTDLType.spec
/-- src/common/enums.rs:8650-8655 -/
abbrev SignalTDLType.deserialize : Get SignalTDLType := SignalTDLType.spec.deserialize
/-- src/common/enums.rs:8657-8661 -/
instance : FieldSerialize SignalTDLType := ⟨fun x => putU16 x.asU16⟩
/-- src/common/enums.rs:8663-8667 -/
instance : FieldDeserialize SignalTDLType := ⟨SignalTDLType.deserialize⟩
/-- src/common/enums.rs:8669-8673 -/
instance : FieldLen SignalTDLType := ⟨fun _ => 2⟩

/-- src/common/enums.rs:8677-8682 (default variant `Off`) -/
def ReceiverReceiverState.spec : EnumSpec where
  name := "ReceiverReceiverState"
  repr := .u16
  default := 0
  variants := [
    ("Off", 0), ("Onbutnotreceiving", 1), ("Onandreceiving", 2)
  ]
/-- src/common/enums.rs:8677-8682 -/
abbrev ReceiverReceiverState := EnumVal ReceiverReceiverState.spec
/-- src/common/enums.rs:8684-8689 -/
abbrev ReceiverReceiverState.deserialize : Get ReceiverReceiverState := ReceiverReceiverState.spec.deserialize
/-- src/common/enums.rs:8691-8695 -/
instance : FieldSerialize ReceiverReceiverState := ⟨fun x => putU16 x.asU16⟩
/-- src/common/enums.rs:8697-8701 -/
instance : FieldDeserialize ReceiverReceiverState := ⟨ReceiverReceiverState.deserialize⟩
/-- src/common/enums.rs:8703-8707 -/
instance : FieldLen ReceiverReceiverState := ⟨fun _ => 2⟩

/-- src/common/enums.rs:8711-8719 (default variant `Reserved`) -/
def IntercomControlControlType.spec : EnumSpec where
  name := "IntercomControlControlType"
  repr := .u8
  default := 0
  variants := [
    ("Reserved", 0), ("Status", 1), ("RequestAcknowledgeRequired", 2), ("RequestNoAcknowledge", 3),
    ("AckRequestGranted", 4), ("NackRequestDenied", 5)
  ]
/-- src/common/enums.rs:8711-8719 -/
abbrev IntercomControlControlType := EnumVal IntercomControlControlType.spec
/-- src/common/enums.rs:8721-8726 -/
abbrev IntercomControlControlType.deserialize : Get IntercomControlControlType := IntercomControlControlType.spec.deserialize
/-- src/common/enums.rs:8728-8732 -/
instance : FieldSerialize IntercomControlControlType := ⟨fun x => putU8 x.asU8⟩
/-- src/common/enums.rs:8734-8738 -/
instance : FieldDeserialize IntercomControlControlType := ⟨IntercomControlControlType.deserialize⟩
/-- src/common/enums.rs:8740-8744 -/
instance : FieldLen IntercomControlControlType := ⟨fun _ => 1⟩

/-- src/common/enums.rs:8748-8755 (default variant `Reserved`) -/
def IntercomControlCommunicationsType.spec : EnumSpec where
  name := "IntercomControlCommunicationsType"
  repr := .u8
  default := 0
  variants := [
    ("Reserved", 0), ("ConnectionFDX", 1), ("ConnectionHDXDestinationisReceiveOnly", 2),
    ("ConnectionHDXDestinationisTransmitOnly", 3), ("ConnectionHDX", 4)
  ]
/-- src/common/enums.rs:8748-8755 -/
abbrev IntercomControlCommunicationsType := EnumVal IntercomControlCommunicationsType.spec
/-- src/common/enums.rs:8757-8762 -/
abbrev IntercomControlCommunicationsType.deserialize : Get IntercomControlCommunicationsType := IntercomControlCommunicationsType.spec.deserialize

/-- src/common/enums.rs:8766-8775 (default variant `NoCommand`) -/
def IntercomControlCommand.spec : EnumSpec where
  name := "IntercomControlCommand"
  repr := .u8
  default := 0
  variants := [
    ("NoCommand", 0), ("Status", 1), ("Connect", 2), ("Disconnect", 3), ("Reset", 4), ("On", 5), ("Off", 6)
  ]
/-- src/common/enums.rs:8766-8775 -/
abbrev IntercomControlCommand := EnumVal IntercomControlCommand.spec
/-- src/common/enums.rs:8777-8782 -/
abbrev IntercomControlCommand.deserialize : Get IntercomControlCommand := IntercomControlCommand.spec.deserialize
/-- src/common/enums.rs:8784-8788 -/
instance : FieldSerialize IntercomControlCommand := ⟨fun x => putU8 x.asU8⟩
/-- src/common/enums.rs:8790-8794 -/
instance : FieldDeserialize IntercomControlCommand := ⟨IntercomControlCommand.deserialize⟩
/-- src/common/enums.rs:8796-8800 -/
instance : FieldLen IntercomControlCommand := ⟨fun _ => 1⟩

/-- src/common/enums.rs:8804-8809 (default variant `TransmitLineStatenotapplicable`) -/
def IntercomControlTransmitLineState.spec : EnumSpec where
  name := "IntercomControlTransmitLineState"
  repr := .u8
  default := 0
  variants := [
    ("TransmitLineStatenotapplicable", 0), ("NotTransmitting", 1), ("Transmitting", 2)
  ]
/-- src/common/enums.rs:8804-8809 -/
abbrev IntercomControlTransmitLineState := EnumVal IntercomControlTransmitLineState.spec
/-- src/common/enums.rs:8811-8816 -/
abbrev IntercomControlTransmitLineState.deserialize : Get IntercomControlTransmitLineState := IntercomControlTransmitLineState.spec.deserialize
/-- src/common/enums.rs:8818-8822 -/
instance : FieldSerialize IntercomControlTransmitLineState := ⟨fun x => putU8 x.asU8⟩
/-- src/common/enums.rs:8824-8828 -/
instance : FieldDeserialize IntercomControlTransmitLineState := ⟨IntercomControlTransmitLineState.deserialize⟩
/-- src/common/enums.rs:8830-8834 -/
instance : FieldLen IntercomControlTransmitLineState := ⟨fun _ => 1⟩

/-- src/common/enums.rs:8838-8844 (default variant `None`) -/
def IntercomControlDestinationLineStateCommand.spec : EnumSpec where
  name := "IntercomControlDestinationLineStateCommand"
  repr := .u8
  default := 0
  variants := [
    ("None", 0), ("SetLineStateTransmitting", 1), ("SetLineStateNotTransmitting", 2),
    ("ReturntoLocalLineStateControl", 3)
  ]
/-- src/common/enums.rs:8838-8844 -/
abbrev IntercomControlDestinationLineStateCommand := EnumVal IntercomControlDestinationLineStateCommand.spec
/-- src/common/enums.rs:8846-8851 -/
abbrev IntercomControlDestinationLineStateCommand.deserialize : Get IntercomControlDestinationLineStateCommand := IntercomControlDestinationLineStateCommand.spec.deserialize

/-- src/common/enums.rs:8855-8860 (default variant `SpecificDestinationrecord`) -/
def IntercomControlRecordType.spec : EnumSpec where
  name := "IntercomControlRecordType"
  repr := .u16
  default := 1
  variants := [
    ("SpecificDestinationrecord", 1), ("GroupDestinationrecord", 2), ("GroupAssignmentrecord", 3)
  ]
/-- src/common/enums.rs:8855-8860 -/
abbrev IntercomControlRecordType := EnumVal IntercomControlRecordType.spec
/-- src/common/enums.rs:8862-8867 -/
abbrev IntercomControlRecordType.deserialize : Get IntercomControlRecordType := IntercomControlRecordType.spec.deserialize

/-- src/common/enums.rs:8871-8876 (default variant `Inelastic`) -/
def CollisionType.spec : EnumSpec where
  name := "CollisionType"
  repr := .u8
  default := 0
  variants := [
    ("Inelastic", 0), ("Elastic", 1), ("BoomNozzleHasClearedTheReceiversRefuelingReceptacle", 55)
  ]
/-- src/common/enums.rs:8871-8876 -/
abbrev CollisionType := EnumVal CollisionType.spec
/-- src/common/enums.rs:8878-8883 -/
abbrev CollisionType.deserialize : Get CollisionType := CollisionType.spec.deserialize

/-- src/common/enums.rs:8887-8898 (default variant `Other`) -/
def MinefieldSensorTypes.spec : EnumSpec where
  name := "MinefieldSensorTypes"
  repr := .u8
  default := 0
  variants := [
    ("Other", 0), ("Optical", 1), ("FLIR", 2), ("RADAR", 3), ("Magnetic", 4), ("Laser", 5), ("SONAR", 6),
    ("Physical", 7), ("Multispectral", 8)
  ]
/-- src/common/enums.rs:8887-8898 -/
abbrev MinefieldSensorTypes := EnumVal MinefieldSensorTypes.spec
/-- src/common/enums.rs:8900-8905 -/
abbrev MinefieldSensorTypes.deserialize : Get MinefieldSensorTypes := MinefieldSensorTypes.spec.deserialize
/-- src/common/enums.rs:8907-8911 -/
instance : FieldSerialize MinefieldSensorTypes := ⟨fun x => putU8 x.asU8⟩
/-- src/common/enums.rs:8913-8917 -/
instance : FieldDeserialize MinefieldSensorTypes := ⟨MinefieldSensorTypes.deserialize⟩
/-- src/common/enums.rs:8919-8923 -/
instance : FieldLen MinefieldSensorTypes := ⟨fun _ => 1⟩

/-- src/common/enums.rs:8927-8941 (default variant `UnaidedEyeActivelySearching`) -/
def MinefieldSensorTypesOptical.spec : EnumSpec where
  name := "MinefieldSensorTypesOptical"
  repr := .u16
  default := 0
  variants := [
    ("UnaidedEyeActivelySearching", 0), ("UnaidedEyeNotActivelySearching", 1), ("Binoculars", 2),
    ("ImageIntensifier", 3), ("HMMWVoccupantActivelySearching", 4), ("HMMWVoccupantNotActivelySearching", 5),
    ("TruckoccupantActivelySearching", 6), ("TruckoccupantNotActivelySearching", 7),
    ("TrackedvehicleoccupantclosedhatchActivelySearching", 8),
    ("TrackedvehicleoccupantclosedhatchNotActivelySearching", 9),
    ("TrackedvehicleoccupantopenhatchActivelySearching", 10),
    ("TrackedvehicleoccupantopenhatchNotActivelySearching", 11)
  ]
/-- src/common/enums.rs:8927-8941 -/
abbrev MinefieldSensorTypesOptical := EnumVal MinefieldSensorTypesOptical.spec
/-- src/common/enums.rs:8943-8948 -/
abbrev MinefieldSensorTypesOptical.deserialize : Get MinefieldSensorTypesOptical := MinefieldSensorTypesOptical.spec.deserialize

/-- src/common/enums.rs:8952-8964 (default variant `Generic35`) -/
def MinefieldSensorTypesFLIR.spec : EnumSpec where
  name := "MinefieldSensorTypesFLIR"
  repr := .u16
  default := 0
  variants := [
    ("Generic35", 0), ("Generic812", 1), ("ASTAMIDSI", 2), ("ASTAMIDSII", 3), ("GSTAMIDS35", 4),
    ("GSTAMIDS812", 5), ("HSTAMIDS35", 6), ("HSTAMIDS812", 7), ("COBRA35", 8), ("COBRA812", 9)
  ]
/-- src/common/enums.rs:8952-8964 -/
abbrev MinefieldSensorTypesFLIR := EnumVal MinefieldSensorTypesFLIR.spec
/-- src/common/enums.rs:8966-8971 -/
abbrev MinefieldSensorTypesFLIR.deserialize : Get MinefieldSensorTypesFLIR := MinefieldSensorTypesFLIR.spec.deserialize

/-- src/common/enums.rs:8975-8983 (default variant `Generic`) -/
def MinefieldSensorTypesRADAR.spec : EnumSpec where
  name := "MinefieldSensorTypesRADAR"
  repr := .u16
  default := 0
  variants := [
    ("Generic", 0), ("GenericGPR", 1), ("GSTAMIDSI", 2), ("GSTAMIDSII", 3), ("HSTAMIDSI", 4),
    ("HSTAMIDSII", 5)
  ]
/-- src/common/enums.rs:8975-8983 -/
abbrev MinefieldSensorTypesRADAR := EnumVal MinefieldSensorTypesRADAR.spec
/-- src/common/enums.rs:8985-8990 -/
abbrev MinefieldSensorTypesRADAR.deserialize : Get MinefieldSensorTypesRADAR := MinefieldSensorTypesRADAR.spec.deserialize

/-- src/common/enums.rs:8994-9000 (default variant `Generic`) -/
def MinefieldSensorTypesMagnetic.spec : EnumSpec where
  name := "MinefieldSensorTypesMagnetic"
  repr := .u16
  default := 0
  variants := [
    ("Generic", 0), ("ANPSS11", 1), ("ANPSS12", 2), ("GSTAMIDS", 3)
  ]
/-- src/common/enums.rs:8994-9000 -/
abbrev MinefieldSensorTypesMagnetic := EnumVal MinefieldSensorTypesMagnetic.spec
/-- src/common/enums.rs:9002-9007 -/
abbrev MinefieldSensorTypesMagnetic.deserialize : Get MinefieldSensorTypesMagnetic := MinefieldSensorTypesMagnetic.spec.deserialize

/-- src/common/enums.rs:9011-9015 (default variant `Generic`) -/
def MinefieldSensorTypesLaser.spec : EnumSpec where
  name := "MinefieldSensorTypesLaser"
  repr := .u16
  default := 0
  variants := [
    ("Generic", 0), ("ASTAMIDS", 1)
  ]
/-- src/common/enums.rs:9011-9015 -/
abbrev MinefieldSensorTypesLaser := EnumVal MinefieldSensorTypesLaser.spec
/-- src/common/enums.rs:9017-9022 -/
abbrev MinefieldSensorTypesLaser.deserialize : Get MinefieldSensorTypesLaser := MinefieldSensorTypesLaser.spec.deserialize

/-- src/common/enums.rs:9026-9029 (default variant `Generic`) -/
def MinefieldSensorTypesSONAR.spec : EnumSpec where
  name := "MinefieldSensorTypesSONAR"
  repr := .u16
  default := 0
  variants := [
    ("Generic", 0)
  ]
/-- src/common/enums.rs:9026-9029 -/
abbrev MinefieldSensorTypesSONAR := EnumVal MinefieldSensorTypesSONAR.spec
/-- src/common/enums.rs:9031-9036 -/
abbrev MinefieldSensorTypesSONAR.deserialize : Get MinefieldSensorTypesSONAR := MinefieldSensorTypesSONAR.spec.deserialize

/-- src/common/enums.rs:9040-9045 (default variant `GenericProbe`) -/
def MinefieldSensorTypesPhysical.spec : EnumSpec where
  name := "MinefieldSensorTypesPhysical"
  repr := .u16
  default := 0
  variants := [
    ("GenericProbe", 0), ("ProbeMetalContent", 1), ("ProbeNoMetalContent", 2)
  ]
/-- src/common/enums.rs:9040-9045 -/
abbrev MinefieldSensorTypesPhysical := EnumVal MinefieldSensorTypesPhysical.spec
/-- src/common/enums.rs:9047-9052 -/
abbrev MinefieldSensorTypesPhysical.deserialize : Get MinefieldSensorTypesPhysical := MinefieldSensorTypesPhysical.spec.deserialize

/-- src/common/enums.rs:9056-9059 (default variant `Generic`) -/
def MinefieldSensorTypesMultispectral.spec : EnumSpec where
  name := "MinefieldSensorTypesMultispectral"
  repr := .u16
  default := 0
  variants := [
    ("Generic", 0)
  ]
/-- src/common/enums.rs:9056-9059 -/
abbrev MinefieldSensorTypesMultispectral := EnumVal MinefieldSensorTypesMultispectral.spec
/-- src/common/enums.rs:9061-9066 -/
abbrev MinefieldSensorTypesMultispectral.deserialize : Get MinefieldSensorTypesMultispectral := MinefieldSensorTypesMultispectral.spec.deserialize

/-- src/common/enums.rs:9070-9078 (default variant `Other`) -/
def AggregateStateAggregateState.spec : EnumSpec where
  name := "AggregateStateAggregateState"
  repr := .u8
  default := 0
  variants := [
    ("Other", 0), ("Aggregated", 1), ("Disaggregated", 2), ("Fullydisaggregated", 3),
    ("Pseudodisaggregated", 4), ("Partiallydisaggregated", 5)
  ]
/-- src/common/enums.rs:9070-9078 -/
abbrev AggregateStateAggregateState := EnumVal AggregateStateAggregateState.spec
/-- src/common/enums.rs:9080-9085 -/
abbrev AggregateStateAggregateState.deserialize : Get AggregateStateAggregateState := AggregateStateAggregateState.spec.deserialize
/-- src/common/enums.rs:9087-9091 -/
instance : FieldSerialize AggregateStateAggregateState := ⟨fun x => putU8 x.asU8⟩
/-- src/common/enums.rs:9093-9097 -/
instance : FieldDeserialize AggregateStateAggregateState := ⟨AggregateStateAggregateState.deserialize⟩
/-- src/common/enums.rs:9099-9103 -/
instance : FieldLen AggregateStateAggregateState := ⟨fun _ => 1⟩

/-- src/common/enums.rs:9107-9115 (default variant `Other`) -/
def AggregateStateFormation.spec : EnumSpec where
  name := "AggregateStateFormation"
  repr := .u32
  default := 0
  variants := [
    ("Other", 0), ("Assembly", 1), ("Vee", 2), ("Wedge", 3), ("Line", 4), ("Column", 5)
  ]
/-- src/common/enums.rs:9107-9115 -/
abbrev AggregateStateFormation := EnumVal AggregateStateFormation.spec
/-- src/common/enums.rs:9117-9122 -/
abbrev AggregateStateFormation.deserialize : Get AggregateStateFormation := AggregateStateFormation.spec.deserialize
/-- src/common/enums.rs:9124-9128 -/
instance : FieldSerialize AggregateStateFormation := ⟨fun x => putU32 x.asU32⟩
/-- src/common/enums.rs:9130-9134 -/
instance : FieldDeserialize AggregateStateFormation := ⟨AggregateStateFormation.deserialize⟩
/-- src/common/enums.rs:9136-9140 -/
instance : FieldLen AggregateStateFormation := ⟨fun _ => 4⟩

/-- src/common/enums.rs:9144-9152 (default variant `Other`) -/
def AggregateStateAggregateKind.spec : EnumSpec where
  name := "AggregateStateAggregateKind"
  repr := .u8
  default := 0
  variants := [
    ("Other", 0), ("MilitaryHierarchy", 1), ("CommonType", 2), ("CommonMission", 3),
    ("SimilarCapabilities", 4), ("CommonLocation", 5)
  ]
/-- src/common/enums.rs:9144-9152 -/
abbrev AggregateStateAggregateKind := EnumVal AggregateStateAggregateKind.spec
/-- src/common/enums.rs:9154-9159 -/
abbrev AggregateStateAggregateKind.deserialize : Get AggregateStateAggregateKind := AggregateStateAggregateKind.spec.deserialize

/-- src/common/enums.rs:9163-9188 (default variant `Other`) -/
def AggregateStateSubcategory.spec : EnumSpec where
  name := "AggregateStateSubcategory"
  repr := .u8
  default := 0
  variants := [
    ("Other", 0), ("CavalryTroop", 1), ("Armor", 2), ("Infantry", 3), ("MechanizedInfantry", 4),
    ("Cavalry", 5), ("ArmoredCavalry", 6), ("Artillery", 7), ("SelfPropelledArtillery", 8),
    ("CloseAirSupport", 9), ("Engineer", 10), ("AirDefenseArtillery", 11), ("AntiTank", 12),
    ("ArmyAviationFixedwing", 13), ("ArmyAviationRotarywing", 14), ("ArmyAttackHelicopter", 15),
    ("AirCavalry", 16), ("ArmorHeavyTaskForce", 17), ("MotorizedRifle", 18), ("MechanizedHeavyTaskForce", 19),
    ("CommandPost", 20), ("CEWI", 21), ("Tankonly", 22)
  ]
/-- src/common/enums.rs:9163-9188 -/
abbrev AggregateStateSubcategory := EnumVal AggregateStateSubcategory.spec
/-- src/common/enums.rs:9190-9195 -/
abbrev AggregateStateSubcategory.deserialize : Get AggregateStateSubcategory := AggregateStateSubcategory.spec.deserialize

/-- src/common/enums.rs:9199-9203 (default variant `Noheadquarters`) -/
def AggregateStateSpecific.spec : EnumSpec where
  name := "AggregateStateSpecific"
  repr := .u8
  default := 0
  variants := [
    ("Noheadquarters", 0), ("Yesaggregateunitcontainsaheadquarters", 1)
  ]
/-- src/common/enums.rs:9199-9203 -/
abbrev AggregateStateSpecific := EnumVal AggregateStateSpecific.spec
/-- src/common/enums.rs:9205-9210 -/
abbrev AggregateStateSpecific.deserialize : Get AggregateStateSpecific := AggregateStateSpecific.spec.deserialize

/-- src/common/enums.rs:9214-9227 (default variant `Other`) -/
def IsPartOfNature.spec : EnumSpec where
  name := "IsPartOfNature"
  repr := .u16
  default := 0
  variants := [
    ("Other", 0), ("Hostfireablemunition", 1), ("Munitioncarriedascargo", 2), ("Fuelcarriedascargo", 3),
    ("Gunmountattachedtohost", 4), ("Computergeneratedforcescarriedascargo", 5), ("Vehiclecarriedascargo", 6),
    ("Emittermountedonhost", 7), ("Mobilecommandandcontrolentitycarriedaboardhost", 8),
    ("Entitystationedatpositionwithrespecttohost", 9), ("Teammemberinformationwith", 10)
  ]
/-- src/common/enums.rs:9214-9227 -/
abbrev IsPartOfNature := EnumVal IsPartOfNature.spec
/-- src/common/enums.rs:9229-9234 -/
abbrev IsPartOfNature.deserialize : Get IsPartOfNature := IsPartOfNature.spec.deserialize

/-- src/common/enums.rs:9238-9243 (default variant `Other`) -/
def IsPartOfPosition.spec : EnumSpec where
  name := "IsPartOfPosition"
  repr := .u16
  default := 0
  variants := [
    ("Other", 0), ("Ontopof", 1), ("Insideof", 2)
  ]
/-- src/common/enums.rs:9238-9243 -/
abbrev IsPartOfPosition := EnumVal IsPartOfPosition.spec
/-- src/common/enums.rs:9245-9250 -/
abbrev IsPartOfPosition.deserialize : Get IsPartOfPosition := IsPartOfPosition.spec.deserialize

/-- src/common/enums.rs:9254-9279 (default variant `Other`) -/
def IsPartOfStationName.spec : EnumSpec where
  name := "IsPartOfStationName"
  repr := .u16
  default := 0
  variants := [
    ("Other", 0), ("AircraftWingstation", 1), ("ShipsForwardGunmountStarboard", 2),
    ("ShipsForwardGunmountPort", 3), ("ShipsForwardGunmountCenterline", 4), ("ShipsAftGunmountStarboard", 5),
    ("ShipsAftGunmountPort", 6), ("ShipsAftGunmountCenterline", 7), ("ForwardTorpedoTube", 8),
    ("AftTorpedoTube", 9), ("BombBay", 10), ("CargoBay", 11), ("TruckBed", 12), ("TrailerBed", 13),
    ("WellDeck", 14), ("OnStationRangeandBearing", 15), ("OnStationxyz", 16), ("AirtoAirRefuelingBoom", 17),
    ("AerialRefuelingReceptacle", 18), ("PortSideRefuelingDrogue", 19), ("StarboardSideRefuelingDrogue", 20),
    ("CenterRefuelingDrogue", 21), ("AirRefuelingProbe", 22)
  ]
/-- src/common/enums.rs:9254-9279 -/
abbrev IsPartOfStationName := EnumVal IsPartOfStationName.spec
/-- src/common/enums.rs:9281-9286 -/
abbrev IsPartOfStationName.deserialize : Get IsPartOfStationName := IsPartOfStationName.spec.deserialize

/-- src/common/enums.rs:9290-9302 (default variant `Undefined`) -/
def IsGroupOfGroupedEntityCategory.spec : EnumSpec where
  name := "IsGroupOfGroupedEntityCategory"
  repr := .u8
  default := 0
  variants := [
    ("Undefined", 0), ("BasicGroundCombatVehicle", 1), ("EnhancedGroundCombatVehicle", 2),
    ("BasicGroundCombatSoldier", 3), ("EnhancedGroundCombatSoldier", 4), ("BasicRotorWingAircraft", 5),
    ("EnhancedRotorWingAircraft", 6), ("BasicFixedWingAircraft", 7), ("EnhancedFixedWingAircraft", 8),
    ("GroundLogisticsVehicle", 9)
  ]
/-- src/common/enums.rs:9290-9302 -/
abbrev IsGroupOfGroupedEntityCategory := EnumVal IsGroupOfGroupedEntityCategory.spec
/-- src/common/enums.rs:9304-9309 -/
abbrev IsGroupOfGroupedEntityCategory.deserialize : Get IsGroupOfGroupedEntityCategory := IsGroupOfGroupedEntityCategory.spec.deserialize
/-- src/common/enums.rs:9311-9315 -/
instance : FieldSerialize IsGroupOfGroupedEntityCategory := ⟨fun x => putU8 x.asU8⟩
/-- src/common/enums.rs:9317-9321 -/
instance : FieldDeserialize IsGroupOfGroupedEntityCategory := ⟨IsGroupOfGroupedEntityCategory.deserialize⟩
/-- src/common/enums.rs:9323-9327 -/
instance : FieldLen IsGroupOfGroupedEntityCategory := ⟨fun _ => 1⟩

/-- src/common/enums.rs:9331-9342 (default variant `Notrested`) -/
def IsGroupOfRestStatus.spec : EnumSpec where
  name := "IsGroupOfRestStatus"
  repr := .u8
  default := 0
  variants := [
    ("Notrested", 0), ("Hassleptanaverageof1hourperdayinthelastthreedays_", 1),
    ("Hassleptanaverageof2hoursperdayinthelastthreedays_", 2),
    ("Hassleptanaverageof3hoursperdayinthelastthreedays_", 3),
    ("Hassleptanaverageof4hoursperdayinthelastthreedays_", 4),
    ("Hassleptanaverageof5hoursperdayinthelastthreedays_", 5),
    ("Hassleptanaverageof6hoursperdayinthelastthreedays_", 6),
    ("Hassleptanaverageof7hoursperdayinthelastthreedays_", 7), ("Fullyrested", 8)
  ]
/-- src/common/enums.rs:9331-9342 -/
abbrev IsGroupOfRestStatus := EnumVal IsGroupOfRestStatus.spec
/-- src/common/enums.rs:9344-9349 -/
abbrev IsGroupOfRestStatus.deserialize : Get IsGroupOfRestStatus := IsGroupOfRestStatus.spec.deserialize

/-- src/common/enums.rs:9353-9364 (default variant `Other`) -/
def TransferControlTransferType.spec : EnumSpec where
  name := "TransferControlTransferType"
  repr := .u8
  default := 0
  variants := [
    ("Other", 0), ("PushTransferEntity", 1), ("AutomaticPullTransferEntity", 2),
    ("PushTransferEnvironmentalProcess", 4), ("AutomaticPullTransferEnvironmentalProcess", 5),
    ("CancelTransfer", 7), ("ManualPullTransferEntity", 8), ("ManualPullTransferEnvironmentalProcess", 9),
    ("RemoveEntity", 10)
  ]
/-- src/common/enums.rs:9353-9364 -/
abbrev TransferControlTransferType := EnumVal TransferControlTransferType.spec
/-- src/common/enums.rs:9366-9371 -/
abbrev TransferControlTransferType.deserialize : Get TransferControlTransferType := TransferControlTransferType.spec.deserialize
/-- src/common/enums.rs:9373-9377 -/
instance : FieldSerialize TransferControlTransferType := ⟨fun x => putU8 x.asU8⟩
/-- src/common/enums.rs:9379-9383 -/
instance : FieldDeserialize TransferControlTransferType := ⟨TransferControlTransferType.deserialize⟩
/-- src/common/enums.rs:9385-9389 -/
instance : FieldLen TransferControlTransferType := ⟨fun _ => 1⟩

/-- src/common/enums.rs:9393-9404 (default variant `Other`) -/
def ObjectKind.spec : EnumSpec where
  name := "ObjectKind"
  repr := .u8
  default := 0
  variants := [
    ("Other", 0), ("Obstacle", 1), ("PreparedPosition", 2), ("CulturalFeature", 3), ("Passageway", 4),
    ("TacticalSmoke", 5), ("ObstacleMarker", 6), ("ObstacleBreach", 7), ("EnvironmentalObject", 8)
  ]
/-- src/common/enums.rs:9393-9404 -/
abbrev ObjectKind := EnumVal ObjectKind.spec
/-- src/common/enums.rs:9406-9411 -/
abbrev ObjectKind.deserialize : Get ObjectKind := ObjectKind.spec.deserialize

/-- src/common/enums.rs:9466-9466: an enumeration without variants; src/common/enums.rs:9468-9473: `unimplemented!()`. -/
def GriddedDataFieldNumber.deserialize : Get Empty := M.panic .unimplemented

/-- src/common/enums.rs:9477-9483 (default variant `RightHandedCartesian`) -/
def GriddedDataCoordinateSystem.spec : EnumSpec where
  name := "GriddedDataCoordinateSystem"
  repr := .u16
  default := 0
  variants := [
    ("RightHandedCartesian", 0), ("LeftHandedCartesian", 1), ("LatitudeLongitudeHeight", 2),
    ("LatitudeLongitudeDepth", 3)
  ]
/-- src/common/enums.rs:9477-9483 -/
abbrev GriddedDataCoordinateSystem := EnumVal GriddedDataCoordinateSystem.spec
/-- src/common/enums.rs:9485-9490 -/
abbrev GriddedDataCoordinateSystem.deserialize : Get GriddedDataCoordinateSystem := GriddedDataCoordinateSystem.spec.deserialize
/-- src/common/enums.rs:9492-9496 -/
instance : FieldSerialize GriddedDataCoordinateSystem := ⟨fun x => putU16 x.asU16⟩
/-- src/common/enums.rs:9498-9502 -/
instance : FieldDeserialize GriddedDataCoordinateSystem := ⟨GriddedDataCoordinateSystem.deserialize⟩
/-- src/common/enums.rs:9504-9508 -/
instance : FieldLen GriddedDataCoordinateSystem := ⟨fun _ => 2⟩

/-- src/common/enums.rs:9512-9516 (default variant `Constantgrid`) -/
def GriddedDataConstantGrid.spec : EnumSpec where
  name := "GriddedDataConstantGrid"
  repr := .u8
  default := 0
  variants := [
    ("Constantgrid", 0), ("Updatedgrid", 1)
  ]
/-- src/common/enums.rs:9512-9516 -/
abbrev GriddedDataConstantGrid := EnumVal GriddedDataConstantGrid.spec
/-- src/common/enums.rs:9518-9523 -/
abbrev GriddedDataConstantGrid.deserialize : Get GriddedDataConstantGrid := GriddedDataConstantGrid.spec.deserialize
/-- src/common/enums.rs:9525-9529 -/
instance : FieldSerialize GriddedDataConstantGrid := ⟨fun x => putU8 x.asU8⟩
/-- src/common/enums.rs:9531-9535 -/
instance : FieldDeserialize GriddedDataConstantGrid := ⟨GriddedDataConstantGrid.deserialize⟩
/-- src/common/enums.rs:9537-9541 -/
instance : FieldLen GriddedDataConstantGrid := ⟨fun _ => 1⟩

/-- src/common/enums.rs:9545-9548 (default variant `NotSpecified`) -/
def GriddedDataSampleType.spec : EnumSpec where
  name := "GriddedDataSampleType"
  repr := .u8
  default := 0
  variants := [
    ("NotSpecified", 0)
  ]
/-- src/common/enums.rs:9545-9548 -/
abbrev GriddedDataSampleType := EnumVal GriddedDataSampleType.spec
/-- src/common/enums.rs:9550-9555 -/
abbrev GriddedDataSampleType.deserialize : Get GriddedDataSampleType := GriddedDataSampleType.spec.deserialize
/-- src/common/enums.rs:9557-9561 -/
instance : FieldSerialize GriddedDataSampleType := ⟨fun x => putU8 x.asU8⟩
/-- src/common/enums.rs:9563-9567 -/
instance : FieldDeserialize GriddedDataSampleType := ⟨GriddedDataSampleType.deserialize⟩
/-- src/common/enums.rs:9569-9573 -/
instance : FieldLen GriddedDataSampleType := ⟨fun _ => 1⟩

/-- src/common/enums.rs:9577-9582 (default variant `Type0`) -/
def GriddedDataDataRepresentation.spec : EnumSpec where
  name := "GriddedDataDataRepresentation"
  repr := .u8
  default := 0
  variants := [
    ("Type0", 0), ("Type1", 1), ("Type2", 2)
  ]
/-- src/common/enums.rs:9577-9582 -/
abbrev GriddedDataDataRepresentation := EnumVal GriddedDataDataRepresentation.spec
/-- src/common/enums.rs:9584-9589 -/
abbrev GriddedDataDataRepresentation.deserialize : Get GriddedDataDataRepresentation := GriddedDataDataRepresentation.spec.deserialize
/-- src/common/enums.rs:9591-9595 -/
instance : FieldSerialize GriddedDataDataRepresentation := ⟨fun x => putU8 x.asU8⟩
/-- src/common/enums.rs:9597-9601 -/
instance : FieldDeserialize GriddedDataDataRepresentation := ⟨GriddedDataDataRepresentation.deserialize⟩
/-- src/common/enums.rs:9603-9607 -/
instance : FieldLen GriddedDataDataRepresentation := ⟨fun _ => 1⟩

/-- src/common/enums.rs:9611-9614 (default variant `NoStatement`) -/
def EnvironmentalProcessModelType.spec : EnumSpec where
  name := "EnvironmentalProcessModelType"
  repr := .u8
  default := 0
  variants := [
    ("NoStatement", 0)
  ]
/-- src/common/enums.rs:9611-9614 -/
abbrev EnvironmentalProcessModelType := EnumVal EnvironmentalProcessModelType.spec
/-- src/common/enums.rs:9616-9621 -/
abbrev EnvironmentalProcessModelType.deserialize : Get EnvironmentalProcessModelType := EnvironmentalProcessModelType.spec.deserialize

/-- src/common/enums.rs:9625-9646 (default variant `COMBICState`) -/
def EnvironmentalProcessRecordType.spec : EnumSpec where
  name := "EnvironmentalProcessRecordType"
  repr := .u32
  default := 256
  variants := [
    ("COMBICState", 256), ("FlareState", 259), ("BoundingSphereRecord", 65536),
    ("UniformGeometryRecord", 327680), ("PointRecord1", 655360), ("LineRecord1", 786432),
    ("SphereRecord1", 851968), ("EllipsoidRecord1", 1048576), ("ConeRecord1", 3145728),
    ("RectangularVolumeRecord1", 5242880), ("RectangularVolumeRecord3", 83886080),
    ("PointRecord2", 167772160), ("LineRecord2", 201326592), ("SphereRecord2", 218103808),
    ("EllipsoidRecord2", 268435456), ("ConeRecord2", 805306368), ("RectangularVolumeRecord2", 1342177280),
    ("GaussianPlumeRecord", 1610612736), ("GaussianPuffRecord", 1879048192)
  ]
/-- src/common/enums.rs:9625-9646 -/
abbrev EnvironmentalProcessRecordType := EnumVal EnvironmentalProcessRecordType.spec
/-- src/common/enums.rs:9648-9653 -/
abbrev EnvironmentalProcessRecordType.deserialize : Get EnvironmentalProcessRecordType := EnvironmentalProcessRecordType.spec.deserialize

/-- src/common/enums.rs:9657-9663 (default variant `Encodedaudio`) -/
def SignalEncodingClass.spec : EnumSpec where
  name := "SignalEncodingClass"
  repr := .u8
  default := 0
  variants := [
    ("Encodedaudio", 0), ("RawBinaryData", 1), ("ApplicationSpecificData", 2), ("Databaseindex", 3)
  ]
/-- src/common/enums.rs:9657-9663 -/
abbrev SignalEncodingClass := EnumVal SignalEncodingClass.spec
/-- src/common/enums.rs:9665-9670 -/
abbrev SignalEncodingClass.deserialize : Get SignalEncodingClass := SignalEncodingClass.spec.deserialize

/-- src/common/enums.rs:9674-9689 (default variant `_8bitmulaw`) -/
def SignalEncodingType.spec : EnumSpec where
  name := "SignalEncodingType"
  repr := .u8
  default := 1
  variants := [
    ("_8bitmulaw", 1), ("CVSD", 2), ("ADPCM", 3), ("_16bitLinearPCM2sComplementBigEndian", 4),
    ("_8bitLinearPCMUnsigned", 5), ("VQ", 6), ("GSMFullRate", 8), ("GSMHalfRate", 9), ("SpeexNarrowBand", 10),
    ("Opus", 11), ("LPC10", 12), ("_16bitLinearPCM2sComplementLittleEndian", 100)
  ]
/-- src/common/enums.rs:9674-9689 -/
abbrev SignalEncodingType := EnumVal SignalEncodingType.spec
/-- src/common/enums.rs:9691-9696 -/
abbrev SignalEncodingType.deserialize : Get SignalEncodingType := SignalEncodingType.spec.deserialize

/-- src/common/enums.rs:9700-9712 (default variant `GeneralRepairCodes`) -/
def RepairGroups.spec : EnumSpec where
  name := "RepairGroups"
  repr := .u8
  default := 0
  variants := [
    ("GeneralRepairCodes", 0), ("DriveTrain", 1), ("HullAirframeBody", 2), ("InterfacesWithEnvironment", 3),
    ("Weapons", 4), ("FuelSystems", 5), ("Electronics", 6), ("LifeSupportSystems", 7),
    ("HydraulicSystemsAndActuators", 8), ("AuxiliaryCraft", 9)
  ]
/-- src/common/enums.rs:9700-9712 -/
abbrev RepairGroups := EnumVal RepairGroups.spec
/-- src/common/enums.rs:9714-9719 -/
abbrev RepairGroups.deserialize : Get RepairGroups := RepairGroups.spec.deserialize
/-- src/common/enums.rs:9721-9725 -/
instance : FieldSerialize RepairGroups := ⟨fun x => putU8 x.asU8⟩
/-- src/common/enums.rs:9727-9731 -/
instance : FieldDeserialize RepairGroups := ⟨RepairGroups.deserialize⟩
/-- src/common/enums.rs:9733-9737 -/
instance : FieldLen RepairGroups := ⟨fun _ => 1⟩

/-- src/common/enums.rs:9741-9745 (default variant `State`) -/
def EnvironmentRecordTypeGroups.spec : EnumSpec where
  name := "EnvironmentRecordTypeGroups"
  repr := .u8
  default := 0
  variants := [
    ("State", 0), ("Geometry", 1)
  ]
/-- src/common/enums.rs:9741-9745 -/
abbrev EnvironmentRecordTypeGroups := EnumVal EnvironmentRecordTypeGroups.spec
/-- src/common/enums.rs:9747-9752 -/
abbrev EnvironmentRecordTypeGroups.deserialize : Get EnvironmentRecordTypeGroups := EnvironmentRecordTypeGroups.spec.deserialize

/-- src/common/enums.rs:9756-9763 (default variant `HangGliderUnpowered`) -/
def PlatformAirCivilianUltralightNonrigidWingAircraftSubcategories.spec : EnumSpec where
  name := "PlatformAirCivilianUltralightNonrigidWingAircraftSubcategories"
  repr := .u8
  default := 1
  variants := [
    ("HangGliderUnpowered", 1), ("HangGliderPowered", 2), ("ParagliderUnpowered", 3),
    ("ParagliderPowered", 4), ("PoweredParachute", 5)
  ]
/-- src/common/enums.rs:9756-9763 -/
abbrev PlatformAirCivilianUltralightNonrigidWingAircraftSubcategories := EnumVal PlatformAirCivilianUltralightNonrigidWingAircraftSubcategories.spec
/-- src/common/enums.rs:9765-9770 -/
abbrev PlatformAirCivilianUltralightNonrigidWingAircraftSubcategories.deserialize : Get PlatformAirCivilianUltralightNonrigidWingAircraftSubcategories := PlatformAirCivilianUltralightNonrigidWingAircraftSubcategories.spec.deserialize

/-- src/common/enums.rs:9774-9778 (default variant `Weightshiftcontrol`) -/
def PlatformAirCivilianUltralightRigidWingAircraftSubcategories.spec : EnumSpec where
  name := "PlatformAirCivilianUltralightRigidWingAircraftSubcategories"
  repr := .u8
  default := 1
  variants := [
    ("Weightshiftcontrol", 1), ("Controlsurfacecontrol", 2)
  ]
/-- src/common/enums.rs:9774-9778 -/
abbrev PlatformAirCivilianUltralightRigidWingAircraftSubcategories := EnumVal PlatformAirCivilianUltralightRigidWingAircraftSubcategories.spec
/-- src/common/enums.rs:9780-9785 -/
abbrev PlatformAirCivilianUltralightRigidWingAircraftSubcategories.deserialize : Get PlatformAirCivilianUltralightRigidWingAircraftSubcategories := PlatformAirCivilianUltralightRigidWingAircraftSubcategories.spec.deserialize

/-- src/common/enums.rs:9789-9793 (default variant `SailPlane`) -/
def PlatformAirCivilianGliderSubcategories.spec : EnumSpec where
  name := "PlatformAirCivilianGliderSubcategories"
  repr := .u8
  default := 1
  variants := [
    ("SailPlane", 1), ("MotorGlider", 2)
  ]
/-- src/common/enums.rs:9789-9793 -/
abbrev PlatformAirCivilianGliderSubcategories := EnumVal PlatformAirCivilianGliderSubcategories.spec
/-- src/common/enums.rs:9795-9800 -/
abbrev PlatformAirCivilianGliderSubcategories.deserialize : Get PlatformAirCivilianGliderSubcategories := PlatformAirCivilianGliderSubcategories.spec.deserialize

/-- src/common/enums.rs:9804-9814 (default variant `SinglePistonEngine`) -/
def PlatformAirCivilianFixedWingAircraftSubcategories.spec : EnumSpec where
  name := "PlatformAirCivilianFixedWingAircraftSubcategories"
  repr := .u8
  default := 11
  variants := [
    ("SinglePistonEngine", 11), ("TwinPistonEngine", 12), ("SingleEngineTurboprop", 21),
    ("TwinEngineTurboprop", 22), ("FourEngineTurboprop", 24), ("TwinJet", 32), ("TriJet", 33),
    ("FourEngineJet", 34)
  ]
/-- src/common/enums.rs:9804-9814 -/
abbrev PlatformAirCivilianFixedWingAircraftSubcategories := EnumVal PlatformAirCivilianFixedWingAircraftSubcategories.spec
/-- src/common/enums.rs:9816-9821 -/
abbrev PlatformAirCivilianFixedWingAircraftSubcategories.deserialize : Get PlatformAirCivilianFixedWingAircraftSubcategories := PlatformAirCivilianFixedWingAircraftSubcategories.spec.deserialize

/-- src/common/enums.rs:9825-9834 (default variant `SingleRotorPistonEngine`) -/
def PlatformAirCivilianHelicopterSubcategories.spec : EnumSpec where
  name := "PlatformAirCivilianHelicopterSubcategories"
  repr := .u8
  default := 11
  variants := [
    ("SingleRotorPistonEngine", 11), ("SingleRotorTurboshaftEngineConventionalTailRotor", 12),
    ("SingleRotorTurboshaftEngineShroudedTailRotor", 13), ("SingleRotorTurboshaftEngineNoTailRotor", 14),
    ("TandemRotor", 21), ("CoaxialRotor", 22), ("IntermeshingRotor", 23)
  ]
/-- src/common/enums.rs:9825-9834 -/
abbrev PlatformAirCivilianHelicopterSubcategories := EnumVal PlatformAirCivilianHelicopterSubcategories.spec
/-- src/common/enums.rs:9836-9841 -/
abbrev PlatformAirCivilianHelicopterSubcategories.deserialize : Get PlatformAirCivilianHelicopterSubcategories := PlatformAirCivilianHelicopterSubcategories.spec.deserialize

end Dis
