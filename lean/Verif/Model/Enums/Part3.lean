import Verif.Model.EnumCore
/- Generated by tools/gen_enums.py from /repo/src/common/enums.rs. -/
set_option maxRecDepth 20000
namespace Dis

/-- src/common/enums.rs:3610-3621 (default variant `Other`) -/
def Reason.spec : EnumSpec where
  name := "Reason"
  repr := .u8
  default := 0
  variants := [
    ("Other", 0), ("Recess", 1), ("Termination", 2), ("SystemFailure", 3), ("SecurityViolation", 4),
    ("EntityReconstitution", 5), ("StopForReset", 6), ("StopForRestart", 7),
    ("AbortTrainingReturnToTacticalOperations", 8)
  ]
/-- src/common/enums.rs:3610-3621 -/
abbrev Reason := EnumVal Reason.spec
/-- src/common/enums.rs:3623-3628 -/
abbrev Reason.deserialize : Get Reason := Reason.spec.deserialize
/-- src/common/enums.rs:3630-3634 -/
instance : FieldSerialize Reason := ⟨fun x => putU8 x.asU8⟩
/-- src/common/enums.rs:3636-3640 -/
instance : FieldDeserialize Reason := ⟨Reason.deserialize⟩
/-- src/common/enums.rs:3642-3646 -/
instance : FieldLen Reason := ⟨fun _ => 1⟩

/-- src/common/enums.rs:3697-3704 (default variant `CreateEntity`) -/
def AcknowledgeFlag.spec : EnumSpec where
  name := "AcknowledgeFlag"
  repr := .u16
  default := 1
  variants := [
    ("CreateEntity", 1), ("RemoveEntity", 2), ("StartResume", 3), ("StopFreeze", 4), ("TransferOwnership", 5)
  ]
/-- src/common/enums.rs:3697-3704 -/
abbrev AcknowledgeFlag := EnumVal AcknowledgeFlag.spec
/-- src/common/enums.rs:3706-3711 -/
abbrev AcknowledgeFlag.deserialize : Get AcknowledgeFlag := AcknowledgeFlag.spec.deserialize
/-- src/common/enums.rs:3713-3717 -/
instance : FieldSerialize AcknowledgeFlag := ⟨fun x => putU16 x.asU16⟩
/-- src/common/enums.rs:3719-3723 -/
instance : FieldDeserialize AcknowledgeFlag := ⟨AcknowledgeFlag.deserialize⟩
/-- src/common/enums.rs:3725-3729 -/
instance : FieldLen AcknowledgeFlag := ⟨fun _ => 2⟩

/-- src/common/enums.rs:3733-3739 (default variant `Other`) -/
def AcknowledgeResponseFlag.spec : EnumSpec where
  name := "AcknowledgeResponseFlag"
  repr := .u16
  default := 0
  variants := [
    ("Other", 0), ("AbleToComply", 1), ("UnableToComply", 2), ("PendingOperatorAction", 3)
  ]
/-- src/common/enums.rs:3733-3739 -/
abbrev AcknowledgeResponseFlag := EnumVal AcknowledgeResponseFlag.spec
/-- src/common/enums.rs:3741-3746 -/
abbrev AcknowledgeResponseFlag.deserialize : Get AcknowledgeResponseFlag := AcknowledgeResponseFlag.spec.deserialize
/-- src/common/enums.rs:3748-3752 -/
instance : FieldSerialize AcknowledgeResponseFlag := ⟨fun x => putU16 x.asU16⟩
/-- src/common/enums.rs:3754-3758 -/
instance : FieldDeserialize AcknowledgeResponseFlag := ⟨AcknowledgeResponseFlag.deserialize⟩
/-- src/common/enums.rs:3760-3764 -/
instance : FieldLen AcknowledgeResponseFlag := ⟨fun _ => 2⟩

/-- src/common/enums.rs:3768-3822 (default variant `Other`) -/
def ActionRequestActionID.spec : EnumSpec where
  name := "ActionRequestActionID"
  repr := .u32
  default := 0
  variants := [
    ("Other", 0), ("LocalStorageOfTherRequestedInformation", 1), ("InformSMofEventRanOutOfAmmunition", 2),
    ("InformSMofEventKilledInAction", 3), ("InformSMofEventDamage", 4),
    ("InformSMofEventMobilityDisabled", 5), ("InformSMofEventFiredDisabled", 6),
    ("InformSMofEventRanOutOfFuel", 7), ("RecallCheckpointData", 8), ("RecallInitialParameters", 9),
    ("InitiateTetherLead", 10), ("InitiateTetherFollow", 11), ("Unthether", 12),
    ("InitiateServiceStationResupply", 13), ("InitiateTailgateResupply", 14), ("InitiateHitchLead", 15),
    ("InitiateHitchFollow", 16), ("Unhitch", 17), ("Mount", 18), ("Dismount", 19), ("StartDRC", 20),
    ("StopDRC", 21), ("DataQuery", 22), ("StatusRequest", 23), ("SendObjectStateData", 24),
    ("Reconstitute", 25), ("LockSiteConfiguration", 26), ("UnlockSiteConfiguration", 27),
    ("UpdateSiteConfiguration", 28), ("QuerySiteConfiguration", 29), ("TetheringInformation", 30),
    ("MountIntent", 31), ("AcceptSubscription", 33), ("Unsubscribe", 34), ("TeleportEntity", 35),
    ("ChangeAggregateState", 36), ("RequestStartPDU", 37), ("WakeupGetReadyForInitialization", 38),
    ("InitializeInternalParameters", 39), ("SendPlanData", 40), ("SynchronizeInternalClocks", 41),
    ("Run", 42), ("SaveInternalParameters", 43), ("SimulateMalfunction", 44), ("JoinExercise", 45),
    ("ResignExercise", 46), ("TimeAdvance", 47), ("TACCSFLOSRequestType1", 100),
    ("TACCSFLOSRequestType2", 101), ("AirmountMountRequest", 4303), ("AirmountDismountRequest", 4304),
    ("AirmountInformationRequest", 4305)
  ]
/-- src/common/enums.rs:3768-3822 -/
abbrev ActionRequestActionID := EnumVal ActionRequestActionID.spec
/-- src/common/enums.rs:3824-3829 -/
abbrev ActionRequestActionID.deserialize : Get ActionRequestActionID := ActionRequestActionID.spec.deserialize

/-- src/common/enums.rs:3833-3849 (default variant `Other`) -/
def ActionResponseRequestStatus.spec : EnumSpec where
  name := "ActionResponseRequestStatus"
  repr := .u32
  default := 0
  variants := [
    ("Other", 0), ("Pending", 1), ("Executing", 2), ("PartiallyComplete", 3), ("Complete", 4),
    ("RequestRejected", 5), ("RetransmitRequestNow", 6), ("RetransmitRequestLater", 7),
    ("InvalidTimeParameters", 8), ("SimulationTimeExceeded", 9), ("RequestDone", 10),
    ("TACCSFLOSReplyTypeOne", 100), ("TACCSFLOSReplyTypeTwo", 101), ("JoinExerciseRequestRejected", 201)
  ]
/-- src/common/enums.rs:3833-3849 -/
abbrev ActionResponseRequestStatus := EnumVal ActionResponseRequestStatus.spec
/-- src/common/enums.rs:3851-3856 -/
abbrev ActionResponseRequestStatus.deserialize : Get ActionResponseRequestStatus := ActionResponseRequestStatus.spec.deserialize
/-- src/common/enums.rs:3858-3862 -/
instance : FieldSerialize ActionResponseRequestStatus := ⟨fun x => putU32 x.asU32⟩
/-- src/common/enums.rs:3864-3868 -/
instance : FieldDeserialize ActionResponseRequestStatus := ⟨ActionResponseRequestStatus.deserialize⟩
/-- src/common/enums.rs:3870-3874 -/
instance : FieldLen ActionResponseRequestStatus := ⟨fun _ => 4⟩

/-- src/common/enums.rs:3878-3899 (default variant `Other`) -/
def EventType.spec : EnumSpec where
  name := "EventType"
  repr := .u32
  default := 0
  variants := [
    ("Other", 0), ("RanOutOfAmmunition", 2), ("KilledInAction", 3), ("Damage", 4), ("MobilityDisabled", 5),
    ("FireDisabled", 6), ("RanOutOfFuel", 7), ("EntityInitialization", 8),
    ("RequestForIndirectFireOrCASMission", 9), ("IndirectFireOrCASFire", 10), ("MinefieldEntry", 11),
    ("MinefieldDetonation", 12), ("VehicleMasterPowerOn", 13), ("VehicleMasterPowerOff", 14),
    ("AggregateStateChangeRequested", 15), ("PreventCollisionDetonation", 16), ("OwnershipReport", 17),
    ("RadarPerception", 18), ("Detect", 19)
  ]
/-- src/common/enums.rs:3878-3899 -/
abbrev EventType := EnumVal EventType.spec
/-- src/common/enums.rs:3901-3906 -/
abbrev EventType.deserialize : Get EventType := EventType.spec.deserialize
/-- src/common/enums.rs:3908-3912 -/
instance : FieldSerialize EventType := ⟨fun x => putU32 x.asU32⟩
/-- src/common/enums.rs:3914-3918 -/
instance : FieldDeserialize EventType := ⟨EventType.deserialize⟩
/-- src/common/enums.rs:3920-3924 -/
instance : FieldLen EventType := ⟨fun _ => 4⟩

/-- src/common/enums.rs:3928-3932 (default variant `Acknowledged`) -/
def RequiredReliabilityService.spec : EnumSpec where
  name := "RequiredReliabilityService"
  repr := .u8
  default := 0
  variants := [
    ("Acknowledged", 0), ("Unacknowledged", 1)
  ]
/-- src/common/enums.rs:3928-3932 -/
abbrev RequiredReliabilityService := EnumVal RequiredReliabilityService.spec
/-- src/common/enums.rs:3934-3939 -/
abbrev RequiredReliabilityService.deserialize : Get RequiredReliabilityService := RequiredReliabilityService.spec.deserialize
/-- src/common/enums.rs:3941-3945 -/
instance : FieldSerialize RequiredReliabilityService := ⟨fun x => putU8 x.asU8⟩
/-- src/common/enums.rs:3947-3951 -/
instance : FieldDeserialize RequiredReliabilityService := ⟨RequiredReliabilityService.deserialize⟩
/-- src/common/enums.rs:3953-3957 -/
instance : FieldLen RequiredReliabilityService := ⟨fun _ => 1⟩

/-- src/common/enums.rs:3962-6728 (default variant `_12456X`) -/
def EmitterName.spec : EnumSpec where
  name := "EmitterName"
  repr := .u16
  default := 2
  variants := [
    ("_12456X", 2), ("_1L117", 3), ("_1L121E", 4), ("_1L250", 5), ("_1L220U", 6), ("_1L1221E", 7),
    ("_1RL257", 9), ("_1RL138", 10), ("_1RL257Jammer", 11), ("_5N20", 12), ("_5H62B", 13), ("_5P10", 14),
    ("_5P10E", 15), ("_5P1001", 16), ("_5P1001E", 17), ("_5P1002", 18), ("_5P1002E", 19), ("_5P1003", 20),
    ("_5P1003E", 21), ("_5P10EMOD", 22), ("_621A3", 25), ("_860F1AL101", 40), ("_9B1103M2", 42),
    ("_1226DECCAMIL", 45), ("_9B1348", 46), ("_3KM6", 47), ("_9KR400", 48), ("_50N6A", 49), ("_55G61", 50),
    ("_59N6", 55), ("_5N69", 57), ("_67N6", 60), ("_76T6", 63), ("_77T6ABM", 64), ("_80K6", 65),
    ("_91N6A", 66), ("_96L6E", 70), ("_96L6TsP", 75), ("_9C18M3", 76), ("_9C36M", 77), ("_9GR400", 80),
    ("_9GR400A", 81), ("_9GR600", 90), ("_9GR606", 91), ("_9LV100", 125), ("_9LV200TA", 135),
    ("_9LV200TV", 180), ("_9LV200TT", 181), ("_9LV200MKIII", 183), ("_9LV326", 185), ("_9M96E2Seeker", 190),
    ("_9S15M2", 195), ("_9S19M2", 196), ("_9S19ME", 197), ("_9S32M", 198), ("_9S32ME", 199), ("_9S36E", 200),
    ("_9S112", 215), ("A310Z", 225), ("A325A", 270), ("A346Z", 315), ("A353B", 360), ("A372A", 405),
    ("A372B", 450), ("A372C", 495), ("A377A", 540), ("A377B", 585), ("A380Z", 630), ("A381Z", 675),
    ("A398Z", 720), ("A403Z", 765), ("A409A", 810), ("A418A", 855), ("A419Z", 900), ("A429Z", 945),
    ("A432Z", 990), ("A434Z", 1035), ("AA6CAcrid", 1070), ("AA7CApex", 1073), ("A401A", 1080),
    ("AA10A", 1081), ("AA10CAlamoC", 1082), ("AA13ArrowSeeker", 1085), ("AAM4BMH", 1090), ("AA300", 1094),
    ("AA12Seeker", 1095), ("AD4A", 1096), ("ADES", 1097), ("ADS4LRSR", 1098), ("ACR430", 1099),
    ("Agave", 1100), ("ACSOPRIE", 1101), ("ABD2000", 1102), ("ADACMK1", 1110), ("ADACMK2", 1111),
    ("ADAR", 1113), ("ADOUR", 1115), ("AGAT9B1348", 1117), ("AdrosKT01AV", 1118), ("Agat9E420", 1120),
    ("AGM158JASSMSAR", 1122), ("AGM88HARMMMW", 1123), ("AGRION15", 1125), ("AHV7", 1130), ("AHV17", 1150),
    ("AIMK23", 1170), ("AIDAII", 1215), ("AIM120A", 1216), ("AIM7MSparrow", 1218), ("_1L271", 1230),
    ("ALA51", 1240), ("AlbatrosMK2", 1260), ("ALT50", 1263), ("ALTAIR", 1264), ("AMAPS717", 1265),
    ("AMES13MK1", 1268), ("WGU16B", 1270), ("_1L133BoxSpring", 1280), ("_1L133BoxSpringB", 1282),
    ("AMDR3D", 1288), ("ANASPS502", 1305), ("Anemone", 1306), ("ANRITSUElectricAR30A", 1350),
    ("AntilopeV", 1395), ("ANAAQ24", 1397), ("ANADM160", 1398), ("AN_ALE50", 1400), ("AN_ALQ76", 1410),
    ("AN_ALQ99", 1440), ("AN_ALQ99Band4", 1441), ("AN_ALQ99LBT", 1442), ("AN_ALQ100", 1485),
    ("AN_ALQ101", 1530), ("AN_ALQ119", 1575), ("AN_ALQ122", 1585), ("AN_ALQ126A", 1620), ("AN_ALQ128", 1621),
    ("AN_ALQ126B", 1622), ("AN_ALQ131", 1626), ("AN_ALQ131BlkII", 1627), ("AN_ALQ135CD", 1628),
    ("AN_ALQ144A3", 1630), ("AN_ALQ153", 1632), ("AN_ALQ157Jammer", 1633), ("AN_ALQ155", 1634),
    ("AN_ALQ156", 1635), ("AN_ALQ161A", 1636), ("AN_ALQ161", 1637), ("AN_ALQ162", 1638), ("AN_ALQ164", 1639),
    ("AN_ALQ165", 1640), ("AN_ALQ187Jammer", 1641), ("AN_ALQ167", 1642), ("AN_ALQ1721", 1643),
    ("AN_ALQ1722", 1644), ("AN_ALQ1723", 1645), ("AN_ALQ176", 1646), ("AN_ALQ178", 1647), ("AN_ALQ184", 1648),
    ("AN_ALQ1849", 1649), ("AN_ALQ188", 1650), ("AN_ALQ214", 1651), ("AN_ALR56", 1652), ("AN_ALQ221", 1653),
    ("AN_ALR69", 1654), ("AN_ALQ211", 1655), ("AN_ALT16A", 1656), ("AN_ALQ173", 1657), ("AN_ALT28", 1658),
    ("AN_ALR66BJammer", 1659), ("AN_ALT32A", 1660), ("AN_ALQ196", 1661), ("ALQ249NextGenerationJammer", 1662),
    ("AN_ALQ2401Jammer", 1663), ("AN_ALR66BJammer2", 1664), ("AN_APD10", 1665), ("AN_ALQ213", 1670),
    ("ALQ214A45Jammer", 1672), ("AN_ALQ218", 1680), ("ANAPG50", 1700), ("ANAPG53", 1710), ("ANAPG59", 1755),
    ("ANAPG63", 1800), ("ANAPG631", 1805), ("ANAPG632", 1807), ("ANAPG633", 1809), ("ANAPG65", 1845),
    ("ANAPG66", 1870), ("ANAPG66V", 1871), ("ANAPG66V2", 1872), ("ANAPG67", 1880), ("ANAPG68", 1890),
    ("ANAPG689", 1895), ("ANAPG70", 1935), ("ANAPG71", 1940), ("ANAPG73", 1945), ("ANAPG77", 1960),
    ("ANAPG78", 1970), ("ANAPG79", 1971), ("ANAPG80", 1972), ("ANAPG81", 1974), ("ANAPG821", 1975),
    ("ANAPG83", 1976), ("ANAPG502", 1980), ("ANAPN1", 2025), ("ANAPN22", 2070), ("ANAPN59", 2115),
    ("ANAPN69", 2160), ("ANAPN81", 2205), ("ANAPN102", 2220), ("ANAPN117", 2250), ("ANAPN118", 2295),
    ("ANAPN122", 2320), ("ANAPN130", 2340), ("ANAPN131", 2385), ("ANAPN133", 2430), ("ANAPN134", 2475),
    ("ANAPN141", 2476), ("ANAPN147", 2520), ("ANAPN150", 2565), ("ANAPN153", 2610), ("ANAPN154", 2655),
    ("ANAPN155", 2700), ("ANAPN159", 2745), ("ANAPN177", 2746), ("ANAPN179", 2747), ("ANAPN169", 2748),
    ("ANAPN182", 2790), ("ANAPN187", 2835), ("ANAPN190", 2880), ("ANAPN194", 2925), ("ANAPN195", 2970),
    ("ANAPN198", 3015), ("ANAPN200", 3060), ("ANAPN202", 3105), ("ANAPN215", 3106), ("ANAPN209", 3120),
    ("ANAPN209D", 3121), ("ANAPN209A", 3122), ("ANAPN215_2", 3148), ("ANAPN217", 3150), ("ANAPN218", 3152),
    ("ANAPN224", 3153), ("ANAPN227", 3154), ("ANAPN230", 3155), ("ANAPN232", 3156), ("ANAPN237A", 3157),
    ("ANAPN234", 3158), ("ANAPN235", 3159), ("ANAPN238", 3160), ("ANAPN222", 3161), ("ANAPN239", 3162),
    ("ANAPN241", 3164), ("ANAPN242", 3166), ("ANAPN243", 3170), ("ANAPN506", 3195), ("ANAPQ72", 3240),
    ("ANAPQ99", 3285), ("ANAPQ100", 3330), ("ANAPQ102", 3375), ("ANAPQ107", 3376), ("ANAPQ109", 3420),
    ("ANAPQ113", 3465), ("ANAPQ120", 3510), ("ANAPQ122", 3512), ("ANAPQ126", 3555), ("ANAPQ128", 3600),
    ("ANAPQ129", 3645), ("ANAPQ148", 3690), ("ANAPQ150A", 3700), ("ANAPQ153", 3735), ("ANAPQ155", 3770),
    ("ANAPQ159", 3780), ("ANAPQ164", 3785), ("ANAPQ166", 3788), ("ANAPQ170", 3790), ("ANAPQ174", 3791),
    ("ANAPQ180", 3794), ("ANAPQ181", 3795), ("ANAPQ186", 3800), ("ANAPS15J", 3810), ("ANAPS162", 3813),
    ("ANAPS31", 3820), ("ANAPS42", 3825), ("ANAPS80", 3870), ("ANAPS88", 3915), ("ANAPS88A", 3916),
    ("ANAPS94", 3920), ("ANAPS96", 3922), ("ANAPS113", 3958), ("ANAPS115", 3960), ("ANAPS116", 4005),
    ("ANAPS120", 4050), ("ANAPS121", 4095), ("ANAPS124", 4140), ("ANAPS125", 4185), ("ANAPS127", 4190),
    ("ANAPS128", 4230), ("ANAPS130", 4275), ("ANAPS133", 4320), ("ANAPS134", 4365), ("ANAPS137", 4410),
    ("ANAPS1375", 4413), ("ANAPS137B", 4415), ("ANAPS137B5", 4420), ("ANAPS137D5Elta", 4425),
    ("ANAPS138", 4455), ("ANAPS139", 4460), ("ANAPS143", 4464), ("ANAPS1431", 4465), ("ANAPS143B", 4466),
    ("ANAPS1433", 4467), ("ANAPS143B3", 4468), ("ANAPS153", 4475), ("ANAPS154", 4476), ("ANAPS150", 4480),
    ("ANAPS145", 4482), ("ANAPS147", 4485), ("ANAPS149", 4486), ("ANAPS503", 4489), ("ANAPS504", 4490),
    ("ANAPS705", 4491), ("ANAPW22", 4500), ("ANAPW23", 4545), ("ANAPX6", 4590), ("ANAPX7", 4635),
    ("ANAPX39", 4680), ("ANAPX64", 4681), ("ANAPX72", 4725), ("ANAPX76", 4770), ("ANAPX78", 4815),
    ("ANAPX100", 4816), ("ANAPX101", 4860), ("ANAPX113AIFF", 4870), ("ANAPY1", 4900), ("ANAPY2", 4905),
    ("ANAPY3", 4950), ("ANAPY7", 4952), ("ANAPY8", 4953), ("ANAPY9", 4954), ("ANAPY10", 4955),
    ("ANARN21", 4995), ("ANARN52", 5040), ("ANARN84", 5085), ("ANARN118", 5130), ("ANARN153V", 5131),
    ("ANARN153", 5165), ("ANARW73", 5175), ("ANASB1", 5220), ("ANASG21", 5265), ("ANASN137", 5266),
    ("ANASN128", 5270), ("ANASQ108", 5280), ("ANASQ239", 5285), ("ANAST502", 5290), ("ANAVQ55", 5300),
    ("ANAWG9", 5310), ("ANBRN1", 5320), ("ANBPS5", 5325), ("ANBPS9", 5355), ("ANBPS15", 5400),
    ("ANBPS15H", 5401), ("ANBPS15J", 5402), ("ANBPS16", 5405), ("ANBPS162", 5406), ("ANCPN4", 5410),
    ("ANCPN18", 5415), ("ANCRM30", 5420), ("ANDPW23", 5430), ("ANDSQ26PhoenixMH", 5445),
    ("ANDSQ28HarpoonMH", 5490), ("ANFPN1", 5491), ("ANFPN28", 5493), ("ANFPN33", 5494), ("ANFPN40", 5495),
    ("ANFPN62", 5500), ("ANFPN66", 5502), ("ANFPS8", 5503), ("ANFPN67", 5504), ("ANFPS16", 5505),
    ("ANFPS5", 5506), ("ANFPS18", 5507), ("ANFPS89", 5508), ("ANFPS49", 5509), ("ANFPS117", 5510),
    ("ANFPS85", 5511), ("ANFPS88", 5512), ("ANFPS113", 5513), ("ANFPS115", 5514), ("ANFPS20R", 5515),
    ("ANFPS132", 5516), ("ANFPS77", 5520), ("ANFPS41", 5521), ("ANFPS100A", 5522), ("ANFPS103", 5525),
    ("ANFPS108", 5526), ("ANGPN12", 5527), ("ANFPS124", 5528), ("ANFPS129", 5529), ("ANGPX6", 5530),
    ("ANGPX8", 5535), ("ANGRN12", 5537), ("ANMPN14K", 5538), ("ANMPN14", 5539), ("ANMPQ10", 5540),
    ("ANMPN17", 5541), ("ANMPQ3339465761ILL", 5545), ("ANMPQ34485562TA", 5550), ("ANMPQ49", 5551),
    ("ANMPQ3550TA", 5555), ("ANMPQ50C", 5556), ("ANMPQ3751TT", 5560), ("ANMPQ43", 5565), ("ANMPQ50", 5567),
    ("ANMPQ53", 5570), ("ANMPQ63", 5571), ("ANMPQ64", 5575), ("ANSLQ32", 5576), ("ANMPQ65", 5577),
    ("ANSLQ324", 5578), ("ANSLQ32A", 5579), ("ANSPG34", 5580), ("ANMSQ104", 5582), ("ANMPS36", 5583),
    ("ANSLQ503", 5584), ("ANSPG48MK25MOD3", 5620), ("ANSPG50", 5625), ("ANSPG51", 5670), ("ANPPQ2", 5690),
    ("ANPPS15", 5700), ("ANPPS5", 5705), ("ANPPS5D", 5710), ("ANSPG51CWITI", 5715), ("ANSPG51FC", 5760),
    ("ANSPG51CD", 5761), ("ANSPG52", 5805), ("ANSPG53", 5850), ("ANSPG55B", 5895), ("ANSPG60", 5940),
    ("ANSPG62", 5985), ("ANSPG503", 5995), ("ANSPN4", 6015), ("ANSPN11", 6025), ("ANSPN35", 6030),
    ("ANSPN41", 6050), ("ANSPN43", 6075), ("ANSPN43A", 6076), ("ANSPN43C", 6078), ("ANSPN46", 6085),
    ("ANSPQ2", 6120), ("ANSPQ5A", 6155), ("ANSPQ9A", 6165), ("ANSPQ9B", 6166), ("ANSPQ34", 6190),
    ("ANSPS4", 6210), ("ANSPS5", 6255), ("ANSPS5C", 6300), ("ANSPS6", 6345), ("ANSPS10", 6390),
    ("ANSPS21", 6435), ("ANSPS28", 6480), ("ANSPS37", 6525), ("ANSPS39A", 6570), ("ANSPS40", 6615),
    ("ANSPS41", 6660), ("ANSPS48", 6705), ("ANSPS48C", 6750), ("ANSPS48E", 6752), ("ANSPS49", 6795),
    ("ANSPS491", 6796), ("ANSPS492", 6797), ("ANSPS493", 6798), ("ANSPS494", 6799), ("ANSPS495", 6800),
    ("ANSPS496", 6801), ("ANSPS497", 6802), ("ANSPS498", 6803), ("ANSPS49A1", 6804), ("ANSPS52", 6840),
    ("ANSPS53", 6885), ("ANSPS55", 6930), ("ANSPS52C", 6945), ("ANSPS55CS", 6970), ("ANSPS55SS", 6975),
    ("ANSPS58", 7020), ("ANSPS58C", 7025), ("ANSPS59", 7065), ("ANSPS64", 7110), ("ANSPS649", 7119),
    ("SPS6412", 7120), ("ANSPS65", 7155), ("ANSPS66", 7175), ("ANSPS67", 7200), ("ANSPS73_1", 7201),
    ("ANSPS69", 7210), ("ANSPS73_2", 7215), ("ANSPS74", 7216), ("ANSPS88", 7225), ("ANSPS501", 7226),
    ("ANSPS505", 7230), ("ANSPY1", 7245), ("ANSPY1A", 7250), ("ANSPY1B_1", 7252), ("ANSPY1B_2", 7253),
    ("ANSPY1D_1", 7260), ("ANSPY1D_2", 7261), ("ANSPY1F", 7265), ("ANSPY3", 7266), ("ANTPN12", 7267),
    ("ANSPY4", 7268), ("ANTLQ32ARMDecoy", 7269), ("ANTPN17", 7270), ("ANTPN8", 7271), ("ANTPN22", 7272),
    ("ANTLQ17A", 7273), ("ANTMS1", 7274), ("ANTPN24", 7275), ("ANTPN25", 7276), ("ANTMS2", 7277),
    ("ANTPN19", 7278), ("ANTPN31", 7279), ("ANTPQ18", 7280), ("ANSPY6", 7281), ("ANTPQ36", 7295),
    ("ANTPQ37", 7300), ("ANTPQ38", 7301), ("ANTPQ39", 7302), ("ANTPQ47", 7303), ("ANTPS43", 7305),
    ("ANTPS43E", 7310), ("ANTPQ48", 7311), ("ANTPQ49", 7312), ("ANTPQ46A", 7313), ("ANTPS34", 7314),
    ("ANTPS59", 7315), ("ANTPS44", 7316), ("ANTPQ50", 7317), ("ANTPS63", 7320), ("ANTPS65", 7321),
    ("ANTPS701", 7322), ("ANTPS63SS", 7323), ("ANTPS73", 7324), ("ANTPS75", 7325), ("ANTPS77", 7326),
    ("ANTPS78", 7327), ("ANTPS79", 7328), ("ANTPS703", 7329), ("ANTPX467", 7330), ("ANTPS80", 7331),
    ("ANTPY2", 7333), ("ANTSQ288", 7334), ("ANULQ6A", 7335), ("ANULQ19", 7340), ("ANULQ21", 7345),
    ("ANUPN25", 7380), ("ANUPS1", 7425), ("ANUPS2", 7426), ("ANUPS3", 7427), ("ANUPX1", 7470),
    ("ANUPX5", 7515), ("ANUPX11", 7560), ("ANUPX12", 7605), ("ANUPX17", 7650), ("ANUPX23", 7695),
    ("ANUSQ1133", 7700), ("ANVPS2", 7740), ("ANPLM3", 7750), ("ANPLM3A", 7751), ("ANPLM4", 7752),
    ("ANZPY1", 7753), ("ANZPY2MPRTIP", 7754), ("ANZPY3", 7755), ("ANZPY8", 7760), ("AORL1AS", 7761),
    ("AORL85KTKMTA", 7762), ("APAR", 7765), ("Aparna", 7770), ("APECSII", 7780), ("ApelcoAD77", 7785),
    ("APG71", 7830), ("APN148", 7875), ("APN227", 7920), ("APQ113", 7965), ("APQ120", 8010), ("APQ148", 8055),
    ("APS504V3", 8100), ("AQUITAINEII", 8102), ("AR1", 8103), ("AR3D", 8105), ("PlesseyAR5", 8112),
    ("AR15", 8113), ("AR152", 8114), ("AR320", 8115), ("AR325", 8118), ("AR327", 8120), ("Arbalet52", 8121),
    ("ARBB31", 8122), ("ARBB33", 8123), ("ARIES", 8126), ("AriesNav", 8127), ("AriesCS", 8128),
    ("ARGS14E", 8134), ("ARGS31", 8135), ("ARGUS", 8140), ("ARM31", 8145), ("ARECIBO", 8150), ("ARED", 8160),
    ("ARI5954", 8190), ("ARI5955", 8235), ("ARI5979", 8280), ("ARGSN31", 8281), ("ARGOS10", 8282),
    ("ARGOS800", 8283), ("ARI5983", 8284), ("ARI5991", 8285), ("ARI5995", 8290),
    ("ARINC564BNDXKINGRDR1E", 8325), ("ARINC700BNDXKINGRDR1E", 8370), ("ARK1", 8375), ("ARLMMTI", 8378),
    ("ARMOR", 8379), ("ARSR3", 8380), ("ARS400", 8381), ("ARSR1", 8382), ("ARSR4", 8384), ("ARSR18", 8390),
    ("ARTHUR", 8395), ("ARTHURMODB", 8400), ("ARTHURMODC", 8405), ("ARTISAN3D", 8410), ("AS2Kipper", 8415),
    ("AS2KipperMH", 8460), ("AS3YJ83KmmWMH", 8470), ("AS_34KormoranSeeker", 8480), ("AS4Kitchen", 8505),
    ("AS4KitchenMH", 8550), ("AS5KeltMH", 8595), ("AS6KingfishMH", 8640), ("AS7Kerry", 8685),
    ("AS7KerryMG", 8730), ("AS15KENTaltimeter", 8735), ("AS17AKryptonSeeker", 8736),
    ("AS17BKryptonSeeker", 8737), ("AS901", 8750), ("AS901A", 8751), ("ASARS2", 8755), ("ASDEKDD", 8756),
    ("ASLESHA", 8757), ("ASMGCS", 8758), ("ASMI18X", 8759), ("AspideAAMSAMILL", 8760), ("ASMI3", 8761),
    ("AselsanMAR", 8762), ("ASR2000", 8771), ("ASR4", 8772), ("ASR4D", 8773), ("ASRO", 8775),
    ("ASR12_1", 8776), ("ASR22AL", 8778), ("ASR3", 8779), ("ASR5", 8780), ("ASR7", 8782), ("ASR8", 8785),
    ("ASR9", 8790), ("ASR9000", 8791), ("ASTI", 8792), ("ASR11DASR", 8793), ("ASR12_2", 8795),
    ("RaytheonASR10SS", 8812), ("ASR23SS", 8816), ("Arabel", 8818), ("ASTRE", 8819), ("AT2SwatterMG", 8820),
    ("_9K114ShturmMG", 8824), ("ASTOR", 8825), ("ASTRARCI", 8826), ("ATCR22", 8830), ("ATCR22M", 8831),
    ("ATCR2T", 8832), ("ATCR33", 8840), ("ATCR33KM", 8845), ("ATCR33S", 8846), ("ATCR3T", 8847),
    ("ATCR44", 8848), ("ATCR44K", 8849), ("Argos73", 8850), ("ATCR44MS", 8851), ("ATCR4T", 8852),
    ("AtlasElektronkTRSN", 8865), ("ATLAS8600X", 8866), ("Atlas9600M", 8867), ("ATLAS9600X", 8868),
    ("ATLAS9600S", 8869), ("ATLAS9740VTS", 8870), ("ATLASS", 8871), ("ATR500C", 8880), ("AVG65", 8910),
    ("AVH7", 8955), ("AVIACM", 8980), ("AVIAD", 8985), ("Aviaconversia", 8990), ("AviaconversiaII", 8993),
    ("AviaconversiaIII", 8995), ("AVQ20", 9000), ("AVQ21", 9005), ("AVQ30X", 9045), ("AVQ50", 9075),
    ("AVQ70", 9090), ("AWS5", 9135), ("AWS6", 9180), ("AWS6B300", 9185), ("B597Z", 9200), ("B636Z", 9205),
    ("BackBoard", 9215), ("BackNetAB", 9225), ("BackTrap", 9270), ("BAESystemsRT1805APN", 9280),
    ("BAESDASS2000Jammer", 9281), ("BalanceBeam", 9285), ("BALTIKAB", 9300), ("BALTYK", 9310),
    ("BallEnd", 9315), ("BallGun", 9360), ("BALLPOINT", 9370), ("BandStand", 9405), ("BandStand3", 9406),
    ("P3537", 9450), ("BARAX", 9475), ("BASIR110D", 9485), ("BassTilt", 9495), ("Badger", 9505),
    ("BarracudaJammer", 9510), ("BaykalCountermeasuresSuite", 9530), ("Beacon", 9540), ("BeanSticks", 9585),
    ("BeeHind", 9630), ("BellNipJammer", 9638), ("BellPushJammer", 9639), ("BellCrownA", 9640),
    ("BellCrownB", 9642), ("BellSquat", 9643), ("BIGBACK", 9645), ("BigBirdABC", 9659), ("BigBirdD", 9660),
    ("BigBirdDMod", 9661), ("BigBirdE91N6E", 9662), ("BigBulge", 9675), ("BigBulgeA", 9720),
    ("BigBulgeB", 9765), ("BIGEYE", 9775), ("SNAR10", 9780), ("BIGHEADB", 9781), ("BigMesh", 9810),
    ("BigNet", 9855), ("_9S15MT", 9885), ("BillFold", 9900), ("BLIGHTER400", 9903), ("BlowpipeMG", 9905),
    ("BLR", 9920), ("BlueFox", 9930), ("BlueKestrel", 9933), ("BlueVixen", 9935), ("BlueSilk", 9945),
    ("BlueParrot", 9990), ("BlueOrchid", 10035), ("BMDJG8715", 10057), ("BoatSail", 10080),
    ("BORA550", 10090), ("BoforsElectronic9LV331", 10125), ("BoforsEricssonSeaGiraffe50HC", 10170),
    ("BowlMesh", 10215), ("BoxBrick", 10260), ("BoxTrail", 10305), ("BMKG300GJammingPod", 10308),
    ("BMKG600JammingPod", 10310), ("BMKG800JammingPod", 10312), ("BMKG860186058606", 10315),
    ("BPS11A", 10350), ("BPS14", 10395), ("BPS15A", 10440), ("BR3440CAX57", 10450), ("BR15TokyoKEIKI", 10485),
    ("BrahMos", 10500), ("BridgeMaster", 10510), ("BridgeMasterEEPA", 10511),
    ("BridgeMasterEATAandARPA", 10512), ("BridgeMasterEnaval", 10513), ("BrimstonemmWMH", 10520),
    ("BreadBin", 10530), ("Asr", 10540), ("BT271", 10575), ("BU304", 10595), ("BX732", 10620),
    ("BUKMB", 10630), ("BuranD", 10642), ("BUREVISNYK1", 10650), ("BuzzStand", 10665),
    ("C5AMultiModeRadar", 10710), ("C802AL", 10711), ("CAESAR", 10740), ("Caiman", 10755),
    ("CakeStand", 10800), ("CalypsoC61", 10845), ("CalypsoC63", 10846), ("CalypsoIi", 10890),
    ("CalypsoIII", 10891), ("CalypsoIV", 10892), ("CardionCoastal", 10895), ("CastorIi", 10935),
    ("Castor2JTT", 10940), ("CatHouse", 10980), ("CDR431", 10985), ("CEAFAR", 10987), ("CEAMOUNT", 10988),
    ("CEAFAR2L", 10989), ("CEROS200", 10990), ("CEROS200CWI", 10991), ("CEATAC", 10992), ("CEAOPS", 10993),
    ("CerberusIII", 10994), ("CHSSN6", 10995), ("CerberusIV", 10996), ("ChairBlackTT", 11000),
    ("ChairBlackILL", 11010), ("LEMZ96L6", 11020), ("CheeseBrick", 11025), ("CheeseCake", 11030),
    ("LeninetzObzorMS", 11070), ("Clamshell", 11115), ("CLC1", 11117), ("CLC2", 11118), ("CLC3", 11119),
    ("CLR155", 11120), ("COASTWATCHER100", 11123), ("CoastalGiraffe", 11125), ("COBRA", 11130),
    ("CobraShoe", 11133), ("Colibri", 11137), ("CollinsWXR300", 11155), ("CollinsWXR700X", 11160),
    ("CollinsTWR850", 11165), ("CollinsDN101", 11205), ("COMET1", 11230), ("CONDORMK2", 11235),
    ("ConsiliumSelesmarRTM25XIM", 11240), ("ContravesSeaHunterMK4", 11250), ("CornCan", 11260),
    ("COSMOSKYMED1", 11265), ("CR105RMCA", 11270), ("CREWDuke2", 11280), ("CREWDuke3", 11290),
    ("CrossBird", 11295), ("CrossDome", 11340), ("CrossLegs", 11385), ("CrossOut", 11430),
    ("CrossSlot", 11475), ("CrossSword", 11520), ("CrossUp", 11565), ("CrossSwordFC", 11610),
    ("CrotaleAcquisitionTA", 11655), ("CrotaleNGTA", 11660), ("CrotaleTT", 11665),
    ("CrotaleMGMissileSystem", 11700), ("CS10TA", 11715), ("CSFVaran", 11725), ("CSSN4MH", 11735),
    ("CSSC3CCAS1M1M2MH", 11745), ("HY2BMH", 11748), ("CSSC2BHY1AMH", 11790), ("CSSN4Sardine", 11800),
    ("CSSN8Saccade", 11810), ("CurlStoneB", 11825), ("CWS1", 11830), ("CWS2", 11835), ("CWS3", 11840),
    ("Cygnus", 11860), ("CylinderHead", 11880), ("Cymbeline", 11902), ("CyranoII", 11925),
    ("CyranoIV", 11970), ("CyranoIVM", 11975), ("DA0100", 12010), ("DA0500", 12015), ("DA052", 12016),
    ("DA_08", 12018), ("Dawn", 12060), ("DCR", 12090), ("DeadDuck", 12105), ("DECCA20V909", 12110),
    ("DECCA20V90S", 12111), ("DECCA45", 12150), ("DECCA50", 12195), ("DECCA71", 12196), ("Decca72", 12197),
    ("DECCA110", 12240), ("DECCA170", 12285), ("DECCAHF2", 12292), ("DECCA202", 12330), ("DECCAD202", 12375),
    ("DECCA303", 12420), ("DECCA535", 12430), ("DECCA626", 12465), ("DECCA629", 12510), ("DECCA914", 12555),
    ("DECCA916", 12600), ("DECCA926", 12610), ("DECCA1070A", 12615), ("Decca1008", 12616),
    ("DECCA1226Commercial", 12645), ("DECCA1290", 12655), ("DECCA1626", 12690), ("DECCA2070", 12691),
    ("Decca1630", 12694), ("DECCA2459", 12735), ("DECCAAWS1", 12780), ("DECCAAWS2", 12782),
    ("DECCAAWS4", 12785), ("DECCAAWS42", 12787), ("DECCAMAR", 12800), ("DECCARM326", 12805),
    ("DECCARM416", 12825), ("DECCARM970BT", 12850), ("DECCARM914", 12870), ("DF21DSeeker", 12875),
    ("DECCARM1690", 12915), ("DECCA1690", 12916), ("DECCASuper101MK3", 12960), ("DISS1", 13005),
    ("DISS7", 13006), ("DISS013", 13007), ("DISS15D", 13015), ("DLD100A", 13020), ("RapierTTDN181", 13050),
    ("Rapier2000TT", 13055), ("DogEar", 13095), ("DogHouse", 13140), ("DM3", 13141), ("DM3B", 13142),
    ("DM5", 13143), ("Don2", 13185), ("DonAB2Kay", 13230), ("Donets", 13275), ("Doppler90Series", 13280),
    ("DownBeat", 13320), ("DR582", 13360), ("DRAA2A", 13365), ("DRAA2B", 13410), ("DRAA9A", 13415),
    ("DRAA11A", 13420), ("DRAC37B", 13450), ("DRAC38", 13452), ("DRAC39", 13455), ("DRAC39A", 13456),
    ("DRAC43A", 13460), ("DRAC44A", 13465), ("DragonEye", 13477), ("DragonEye2", 13480),
    ("DragonEye3", 13481), ("DragonEye4", 13485), ("DRBC30B", 13500), ("DRBC31A", 13545), ("DRBC31D", 13546),
    ("DRBC32", 13585), ("DRBC32A", 13590), ("DRBC32D", 13635), ("DRBC33A", 13680), ("DRBI10", 13725),
    ("DRBI23", 13770), ("DRBJ11B", 13815), ("DRBN30", 13860), ("DRBN32", 13905), ("DRBN34", 13915),
    ("DRBR51", 13950), ("DRBV20A", 13994), ("DRBV20B", 13995), ("DRBV21Mars05", 14020), ("DRBV22", 14040),
    ("DRBV23", 14041), ("DRBV26C", 14085), ("DRBV26D", 14086), ("DRBV30", 14130), ("DRBV31", 14131),
    ("DRBV50", 14175), ("DRBV51", 14220), ("DRBV51A", 14265), ("DRBV51B", 14310), ("DRBV51C", 14355),
    ("DropKick", 14400), ("DRUA31", 14445), ("DrumTilt", 14490), ("DrumTiltA", 14535), ("DrumTiltB", 14545),
    ("DRUN30A", 14560), ("Dumbo", 14580), ("DWSR92", 14583), ("DWSR93S", 14585), ("EAGLE", 14586),
    ("EAGLEMk1", 14587), ("EAJPJammingPod", 14588), ("EKCOE390", 14590), ("ECR90", 14600),
    ("ECR90Jammer", 14601), ("EggCupAB", 14625), ("EISCAT", 14640), ("EKCOE120", 14660), ("EKCO190", 14670),
    ("Ekran1", 14677), ("ELL8222", 14710), ("ELL8240", 14713), ("ELM2001B", 14715), ("ELM2022", 14725),
    ("ELM2032", 14726), ("ELM2052", 14727), ("ELM2055", 14728), ("ELM2060", 14730), ("ELM2075", 14735),
    ("ELM2022U3", 14736), ("ELM2080", 14737), ("ELM2080S", 14738), ("ELM2085", 14739), ("ELM2106", 14740),
    ("ELM2106NG", 14741), ("ELM2125", 14742), ("ELM2129", 14743), ("ELM2150", 14744), ("ELM2083", 14745),
    ("ELM2084", 14746), ("ELM2160V1", 14747), ("ELM2084MMR", 14748), ("ELM2112", 14749), ("ELM2200", 14750),
    ("ELM2133", 14751), ("ELM2205", 14755), ("ELM2207", 14760), ("ELM2215", 14765), ("ELM2216V", 14770),
    ("ELM2216XH", 14772), ("ELM2218S", 14775), ("ELT361", 14776), ("ELM2258", 14777), ("ELT553", 14779),
    ("ELT558", 14780), ("ELT572", 14785), ("ELT715", 14790), ("EltaELM2022A", 14800),
    ("ELTAELM2221GMSTGR", 14805), ("ELM2228S3D", 14806), ("ELM2705", 14807), ("ELM2226", 14808),
    ("ELM2228X", 14809), ("ELTASIS", 14810), ("ELM2238", 14811), ("ELM2248", 14815), ("ELM2288", 14820),
    ("ELM2311", 14821), ("ELM2026", 14822), ("ELNA4007", 14830), ("ELT318", 14831), ("ELW2085", 14832),
    ("ELT521", 14833), ("ELW2090", 14835), ("EnhancedMeteorDetectionRadarEMDR", 14845), ("EMD2900", 14850),
    ("EMPAR", 14851), ("EndTray", 14895), ("EQ36", 14896), ("EricssonSLAR", 14897), ("Erieye", 14898),
    ("ESR1", 14900), ("ESR220", 14901), ("ESR380", 14902), ("ESTEREL", 14903), ("ET316", 14905),
    ("ExocetType", 14935), ("ExocetAL", 14936), ("Exocet1", 14940), ("Exocet1MH", 14985), ("Exocet2", 15030),
    ("EyeBowl", 15075), ("EyeShield", 15120), ("F332Z", 15140), ("FalconClawTI", 15155),
    ("FalconClawTT", 15156), ("FALCON", 15160), ("FALCONG", 15161), ("FalconEye", 15163), ("FanSongA", 15165),
    ("FanSongBFTA", 15200), ("FanSongBFTT", 15210), ("FanSongCETA", 15220), ("FanSongCETT", 15230),
    ("FanSongCEMG", 15240), ("FanSongBFFMG", 15255), ("FanTail", 15300), ("FAR2117", 15301),
    ("FAR2827", 15302), ("FAR2837S", 15303), ("FAR3000", 15304), ("FB7Radar", 15305), ("FCR1401", 15310),
    ("FCS212E", 15312), ("FCS212G", 15313), ("FCS221A", 15315), ("FCS221C", 15317), ("FCS222", 15318),
    ("FCS231", 15319), ("FCS3", 15320), ("FinCurve", 15345), ("FireCan", 15390), ("FireDish", 15435),
    ("FireDomeTA", 15470), ("FireDomeTT", 15475), ("FireDomeTI", 15480), ("FireIron", 15525),
    ("FireWheel", 15570), ("FishBowl", 15615), ("FK3", 15620), ("FLAIR", 15650), ("FlapLid", 15660),
    ("_30N6E", 15661), ("FlapTruck", 15705), ("FlapWheel", 15750), ("FlashDance", 15795),
    ("FlashDanceM", 15800), ("P15", 15840), ("_35N6", 15842), ("FlatScreen", 15885), ("FlatSpin", 15930),
    ("FlatTrackJammer", 15970), ("FlatTwin", 15975), ("FL400", 15980), ("FL1800", 15985), ("FL1800U", 15990),
    ("FL1800S", 16000), ("Fledermaus", 16020), ("FLYCATCHER", 16030), ("FLYCATCHERMK2", 16035),
    ("FlyScreen", 16065), ("FlyScreenAB", 16110), ("FlyTrapB", 16155), ("FM90", 16160), ("FogLampMG", 16200),
    ("FogLampTT", 16245), ("FoilTwo", 16290), ("FootBall", 16300), ("FoxHunter", 16335), ("FoxFireAL", 16380),
    ("FoxFireILL", 16390), ("FR151A", 16400), ("FurunoFR1500FR1600", 16405), ("FR1505DA", 16410),
    ("FR1510DS", 16412), ("FR2000", 16420), ("Furuno2855W", 16421), ("FregatMAE", 16422), ("FregatN1", 16423),
    ("FregatN2", 16424), ("FrontDome", 16425), ("FregatMAE5", 16426), ("FrontDoor", 16470),
    ("FrontPiece", 16515), ("FurbymmWMH", 16520), ("Furke", 16550), ("Furke2", 16552), ("Furke4", 16554),
    ("Furuno", 16560), ("Furuno1721", 16561), ("Furuno1934C", 16564), ("Furuno1715", 16565),
    ("Furuno1730", 16580), ("Furuno1731Mark3", 16581), ("Furuno1832", 16585), ("Furuno1835", 16587),
    ("Furuno1932", 16590), ("Furuno1935", 16596), ("Furuno701", 16605), ("Furuno1940", 16606),
    ("Furuno7112", 16650), ("FurunoFR2130S", 16652), ("FurunoFAR2137S", 16654), ("FurunoFAR28X7", 16655),
    ("FurunoFAR3230S", 16658), ("FR2110", 16660), ("FR2115", 16662), ("FR8062", 16663), ("Furuno2125", 16670),
    ("Furuno240", 16690), ("Furuno2400", 16695), ("FR801D", 16725), ("Furuno8051", 16730),
    ("FurunoDRS2D", 16732), ("FurunoDRS4D", 16733), ("FurunoDRS4A", 16734), ("G030A", 16735),
    ("FurunoDRS6AXClass", 16736), ("DRS4W", 16737), ("GA0100", 16740), ("Gabbiano", 16750), ("Gage", 16785),
    ("Gaofen3", 16787), ("GAOFEN12", 16789), ("GAPGATE", 16790), ("Gardenia", 16800),
    ("GarminGMR1224", 16815), ("GarminFantom24", 16820), ("GarminGWX68WeatherRadar", 16825),
    ("Garpin", 16830), ("GateGuard", 16833), ("GarpunBalE", 16835), ("GBS1", 16840), ("GCA2000", 16850),
    ("Furuno18321921Series", 16858), ("GEMINIDB", 16870), ("GEMOlympus", 16871), ("GEMSentinel", 16872),
    ("GEMBX132", 16875), ("GEMSC2050X", 16876), ("GEMSeaEagle200N", 16877), ("GenericInternalJammer", 16879),
    ("MPDR12", 16880), ("GENX", 16881), ("GepardTT", 16884), ("GERANF", 16888), ("GERFAUT", 16890),
    ("GFE1", 16895), ("GIRAFFE", 16900), ("GIRAFFE1X", 16903), ("Giraffe40", 16905), ("Giraffe50AT", 16908),
    ("Giraffe75", 16912), ("GinSlingTA", 16915), ("GinSling", 16920), ("GinSlingMG", 16925),
    ("GoalKeeper", 16930), ("GoldenDome", 16935), ("GoldenHeart", 16940), ("GoldenRock", 16942),
    ("GPN22", 16945), ("GPSJ10", 16946), ("GPSJ25", 16947), ("GPSJ40", 16948), ("GPSJ50", 16949),
    ("GRN9", 16950), ("GRANK", 16951), ("GraveStone", 16960), ("GRAVES", 16963), ("GreenStain", 16965),
    ("GridBow", 17010), ("GrifoF", 17016), ("_9S32", 17025), ("GRILLSCREEN", 17027), ("Grom2", 17029),
    ("GROUNDMASTER400", 17030), ("GT4", 17031), ("GRS440", 17032), ("GUARDIAN", 17050), ("Guardsman", 17055),
    ("RPK2", 17070), ("HRJZ7264AJammer", 17075), ("H025", 17079), ("HADR", 17080), ("HairNet", 17100),
    ("HalfPlateA", 17145), ("HalfPlateB", 17190), ("HARD", 17220), ("Harpoon", 17225), ("HatBox", 17230),
    ("HawkScreech", 17235), ("HayPole", 17250), ("HayRick", 17255), ("HeadLightA", 17280),
    ("HeadLights", 17325), ("HeadLightsC", 17370), ("HeadLightsMGA", 17415), ("HeadLightsMGB", 17460),
    ("HeadLightsTT", 17505), ("HeadNet", 17550), ("HeartAcheB", 17572), ("HellfiremmWMH", 17590),
    ("HenEgg", 17595), ("HenHouse", 17640), ("HenNest", 17685), ("HenRoost", 17730), ("Herakles", 17732),
    ("HF2MG", 17735), ("HGR105", 17745), ("HighBrick", 17775), ("HighFix", 17820), ("HighGuard", 17842),
    ("HighLarkTI", 17865), ("HighLark1", 17910), ("HighLark2", 17955), ("HighLark4", 18000),
    ("HighLune", 18045), ("HighPoleAB", 18090), ("HighScoop", 18135), ("_9S19MT", 18150),
    ("HighSieve", 18180), ("HillBlock", 18185), ("HimalayasCountermeasuresSuite", 18189), ("HG9550", 18190),
    ("HJ6374", 18193), ("HLDRADAR900", 18194), ("HLJQ520", 18195), ("HN503", 18200), ("HNC03M", 18201),
    ("HomeTalk", 18225), ("HornSpoon", 18270), ("HotBrick", 18280), ("HotFlash", 18315), ("HotFlash2", 18316),
    ("IHS6", 18318), ("IRL144MHotShotTA", 18320), ("IRL144MHotShotTT", 18325), ("IRL144MHotShotMG", 18330),
    ("HPS106", 18331), ("HPS104", 18332), ("HQ9MH", 18339), ("HSR1128", 18340), ("HT233", 18348),
    ("HQ61", 18350), ("HRJS", 18351), ("IDerbyER", 18352), ("IBIS80", 18353), ("IBIS150", 18355),
    ("IBIS200", 18357), ("IFFMKXIIAIMSUPX29", 18360), ("Janet", 18400), ("IFFMKXV", 18405), ("IFFINT", 18406),
    ("JackKnife", 18407), ("IFFTRSP", 18408), ("JMUSICElbitSystemsJammer", 18409), ("JavelinMG", 18410),
    ("JALQ8", 18445), ("JFPS7", 18449), ("JayBird", 18450), ("JFPS3", 18451), ("JH10", 18452),
    ("JMPQP7", 18453), ("JL7", 18454), ("JL10B", 18455), ("JMA1576", 18456), ("JRCJMA92526CA", 18457),
    ("JLP40", 18458), ("JRCJMR9200SeriesX", 18459), ("JRCNMD401", 18460), ("JRCJRM310MK2", 18461),
    ("JMA1596", 18462), ("JMA7000", 18464), ("JRCJMA7700", 18465), ("JMA5320", 18466),
    ("JRCJMR92106XC", 18467), ("JERS1", 18468), ("JINDALEE", 18469), ("JRCJMA9900series", 18470),
    ("JLP40D", 18471), ("JRCJMA5300series", 18475), ("Jupiter", 18495), ("JupiterII", 18540), ("JY8", 18550),
    ("JY8A", 18551), ("JY9", 18555), ("JY9Modified", 18556), ("JY11EW", 18557), ("JY14", 18560),
    ("JY14A", 18561), ("JY16", 18565), ("JY24", 18570), ("JAPG1", 18571), ("JAPG2", 18572), ("JY29", 18575),
    ("JYL1", 18578), ("JYL6", 18580), ("JYL6A", 18582), ("JZQF612", 18583), ("K376Z", 18585), ("K77M", 18586),
    ("Kaige", 18600), ("KALKAN", 18610), ("KBPAfganit", 18611), ("KALKANII", 18615),
    ("KelvinHughes2A", 18630), ("KelvinHughes149", 18675), ("Karpaty", 18700),
    ("Kashtan3JammingSystem", 18710), ("KelvinHughestype1006", 18720), ("KelvinHughestype1007", 18765),
    ("KelvinHughesType1007FBand", 18766), ("KelvinHughes2007FBand", 18767), ("KelvinHughes2007IBand", 18768),
    ("KHNucleus5000", 18770), ("KHMANTA", 18774), ("KHNUCLEUS26000", 18775), ("KHNUCLEUS35000", 18776),
    ("KHNUCLEUS36000A", 18777), ("KHFamily", 18780), ("KelvinHughes6000A", 18781), ("Kh38MAEMH", 18782),
    ("KG8605A", 18784), ("KH902M", 18785), ("KHOROMK", 18786), ("KHIBINY", 18787), ("KG300E", 18789),
    ("KHSharpEye", 18790), ("KHSharpEyeB", 18791), ("KHSharpEyeC", 18792), ("KH1700", 18795),
    ("KingPin", 18797), ("KG300", 18805), ("KiteScreech", 18810), ("KiteScreechA", 18855),
    ("KiteScreechB", 18900), ("KLC3B", 18930), ("KJ500NanjingRadar", 18944), ("Kivach", 18945),
    ("KJ500Jammer", 18946), ("KLC1", 18947), ("KLJ1", 18948), ("KLJ3", 18950), ("KLJ4", 18951),
    ("KLJ4B", 18952), ("KLJ5", 18955), ("KLJ7", 18960), ("KLJ7B", 18961), ("KLJ7A", 18962),
    ("KnifeRest", 18990), ("P10", 19035), ("KNIFERESTC", 19037), ("KodenMD3730", 19039), ("KJ2000", 19040),
    ("KODENMDC900", 19041), ("Koopol", 19042), ("KOPYOI", 19045), ("KR75", 19050), ("KRONOS", 19051),
    ("KREDO1E", 19052), ("Krasukha2", 19053), ("KRONOSGRANDNAVAL", 19054), ("KRM66E", 19060),
    ("KSASRN", 19080), ("KSATSR", 19125), ("KS1APHASEDARRAY", 19127), ("KS418", 19129), ("KS418E", 19130),
    ("KZ100", 19131), ("KZ900", 19132), ("L175V", 19140), ("L3705PresidentSJammer", 19142), ("L415", 19143),
    ("L88", 19145), ("LAADS", 19150), ("LandFall", 19170), ("LandRollMG", 19215), ("LandRollTA", 19260),
    ("LandRollTT", 19305), ("LAZUR", 19306), ("Model791A", 19307), ("LAP3000", 19309), ("LC150", 19310),
    ("LEER3", 19320), ("LegDrive", 19330), ("LeninetzV004", 19340), ("Leningraf", 19350), ("LIANA", 19370),
    ("LightBulb", 19395), ("LIRAA10", 19396), ("LIROD8", 19397), ("LIRODMKII", 19398), ("LLX05K", 19399),
    ("LMTNRAI6A", 19400), ("LN55", 19440), ("Ln66", 19485), ("Liman", 19500), ("Liman2", 19505),
    ("LockheedVigilance", 19520), ("LongBow", 19530), ("LongBrick", 19575), ("LongBull", 19620),
    ("LongEye", 19665), ("LongHead", 19710), ("LongTalk", 19755), ("LongTrack", 19800), ("LongTrough", 19845),
    ("LookTwo", 19890), ("LOPAR", 19920), ("LORAN", 19935), ("LowBlowTA", 19950), ("LowBlowTT", 19955),
    ("LowBlowMG", 19960), ("LowJackTT", 19970), ("LowJackMG", 19971), ("LowSieve", 19980),
    ("LowTrough", 20025), ("LR66", 20029), ("LRA900", 20030), ("TRS2050", 20040), ("LW01", 20060),
    ("LW08", 20070), ("M1983FCR", 20090), ("M2240", 20115), ("M44", 20160), ("M401Z", 20205),
    ("M585Z", 20250), ("M588Z", 20295), ("MA1IFFPortion", 20340), ("MADHACK", 20350), ("MARELD", 20360),
    ("MAType909", 20385), ("MARCS152", 20420), ("Marconi1810", 20430), ("MarconiCanadaHC75", 20475),
    ("MarconiS713", 20495), ("MarconiS1802", 20520), ("MarconiS247", 20530), ("MarconiS810", 20565),
    ("MarconiSA10", 20585), ("MARCONIST801", 20589), ("MarconiST805", 20590), ("Marconitype967", 20610),
    ("Marconitype968", 20655), ("Marconitype992", 20700), ("Marconisignaaltype1022", 20745),
    ("Marconisignaaltype910", 20790), ("Marconisignaaltype911", 20835), ("Marconisignaaltype992R", 20880),
    ("MARTELLO743D", 20890), ("MARTELLOS723A", 20895), ("MASTERA", 20897), ("MBDAFLAADSMJammer", 20898),
    ("MELCO3", 20915), ("MELODI", 20917), ("MERLIN", 20918), ("Meraj4", 20919),
    ("NorthropGrummanMESA", 20920), ("MeshBrick", 20925), ("METEOR1500S", 20927), ("METEOR200", 20929),
    ("METEOR50DX", 20930), ("METEOR300", 20931), ("MeteorBVRAAM", 20933), ("MFR", 20935),
    ("MFSR210045", 20940), ("MICAMH", 20942), ("MICARF", 20943), ("MineralME", 20945), ("MirageILL", 20950),
    ("MiysisJammer", 20955), ("MK15", 20969), ("MK15CIWS", 20970), ("MK23", 21015), ("MK23TAS", 21060),
    ("MK25", 21105), ("Mk25Mod3", 21110), ("Mk25Mod7", 21130), ("MK35M2", 21150), ("MK92", 21195),
    ("MK92CAS", 21240), ("MK92STIR", 21285), ("MK95", 21330), ("MKS818", 21332), ("MLA1", 21340),
    ("MMAPQ706", 21359), ("MM950", 21360), ("MMAPS705", 21375), ("MMAPS784", 21390), ("MMSPG73", 21419),
    ("MMSPG74", 21420), ("MMSPG75", 21465), ("MMSPN703", 21490), ("MMSPN730", 21492), ("MMSPN753B", 21495),
    ("MMSPQ3", 21500), ("MMSPS702", 21510), ("MMSPS768", 21555), ("MMSPS774", 21600), ("MMSPS791", 21610),
    ("MMSPS794", 21615), ("MMSPS798", 21620), ("MMSR", 21623), ("Model17C", 21625), ("Moon4", 21645),
    ("MoonPie", 21646), ("MOONCONE", 21647), ("MoonRack", 21648), ("MOONFACE", 21649), ("MMRS", 21650),
    ("Model360", 21655), ("Model378", 21660), ("Model970", 21661), ("Model974", 21665), ("MONOLITB", 21672),
    ("Monument", 21675), ("Mouse", 21680), ("MP411ESM", 21682), ("MPDR18S", 21685), ("MPDR18X", 21690),
    ("MPDR45E", 21692), ("MR2311", 21693), ("MPR", 21695), ("MR2314", 21696), ("MPS1", 21697),
    ("MR36B", 21698), ("MR231MOD", 21699), ("MR1600", 21700), ("MRR", 21701), ("MR35", 21702),
    ("MR36", 21703), ("MRL1", 21704), ("MRL4", 21705), ("MRL5", 21706), ("MSAM", 21707), ("MR36A", 21708),
    ("MSTAR", 21709), ("MT305X", 21710), ("MR10M1E", 21711), ("MR90", 21712), ("MRK411", 21715),
    ("MR320MTopazV", 21716), ("MSP418K", 21720), ("MuffCob", 21735), ("Mushroom", 21780),
    ("Mushroom1", 21825), ("Mushroom2", 21870), ("Mushroom3", 21871), ("N23", 21872), ("N011MBars", 21873),
    ("N011MBarsB", 21874), ("N011MBarsC", 21875), ("N011MBarsR", 21876), ("N035IrbisE", 21877),
    ("N036Byelka", 21878), ("N25", 21879), ("N920Z", 21880), ("N001V", 21881),
    ("NACOSRADARPILOTPlatinum", 21884), ("NampoB", 21885), ("NAGIRA", 21886), ("NanjingB", 21890),
    ("NanjingC", 21895), ("Nayada", 21915), ("NAYADA5M", 21917), ("NAYADA5PV", 21918), ("NEBOM", 21919),
    ("NeboSVU", 21920), ("Neptun", 21960), ("Nettuno4100", 21965), ("NIKEHERCULESMTR", 21970),
    ("NIKETT", 21980), ("NorthropGrummanMFEWJammer", 21981), ("NORINCO3D", 21982), ("NJ81E", 21983),
    ("Normandie", 21984), ("NRJ6A", 21985), ("NOSTRADAMUS", 21986), ("NPG1240", 21987), ("NPG1460", 21988),
    ("NPG434", 21989), ("NPG630", 21990), ("NPM510", 21991), ("NutCan", 21992), ("NPVegaLiana", 21995),
    ("NovellaNV1_70", 22000), ("NRBA50", 22005), ("NRBA51", 22050), ("NRBF20A", 22095), ("NRJ5", 22110),
    ("NS9005", 22115), ("NS100Series", 22125), ("NUR31", 22127), ("NWS3", 22130), ("NysaB", 22140),
    ("O524A", 22185), ("O580B", 22230), ("O625Z", 22275), ("O626Z", 22320), ("OceanMaster", 22335),
    ("OceanMaster400", 22340), ("OddGroup", 22345), ("OddLot", 22365), ("OddPair", 22410), ("OddRods", 22411),
    ("Oka", 22455), ("OFOGH", 22460), ("OFOGH3", 22463), ("OKEAN", 22500), ("OKEANA", 22505),
    ("OKINXE12C", 22545), ("OKO", 22560), ("OMEGA", 22590), ("OmeraORB32", 22635), ("OMUL", 22640),
    ("OneEye", 22680), ("OP28", 22690), ("OPRL4", 22695), ("OPRM71", 22696), ("OPS9", 22697),
    ("OPS11BC", 22700), ("OPS12", 22701), ("OPS14B", 22705), ("OPS14C", 22706), ("OPS16B", 22725),
    ("OPS18", 22730), ("OPS19", 22732), ("OPS20", 22735), ("OPS22", 22736), ("OPS24", 22737),
    ("OPS28", 22740), ("OPS28C", 22745), ("OPS39", 22750), ("OPTIMA3_2", 22760), ("OR2", 22770),
    ("ORB31D", 22800), ("ORB31S", 22810), ("ORB32", 22815), ("ORB42", 22830), ("OrionRtn10X", 22860),
    ("SurfaceWave", 22890), ("OtomatMK1", 22900), ("OtomatMKIITeseo", 22905), ("OtomatSeriesAL", 22906),
    ("OwlScreech", 22950), ("P360Z", 22955), ("P14", 22956), ("P180U", 22957), ("P182", 22959),
    ("PA1660", 22960), ("P18M", 22961), ("P190U", 22962), ("P30", 22963), ("P18MOD", 22964), ("P35M", 22965),
    ("PAGE", 22970), ("PaintBox", 22977), ("PalmFrond", 22995), ("ModifiedPaintBox", 22998),
    ("PalmFrondAB", 23040), ("Pandora", 23041), ("PALSAR2", 23042), ("PantsirSMTAR", 23043), ("PAR2", 23045),
    ("PAR2000", 23050), ("PAR2090C", 23053), ("PAR80", 23055), ("PatHandTT", 23085), ("PatHandMG", 23095),
    ("PATRIOT", 23100), ("PattyCake", 23130), ("PawnCake", 23175), ("PBR4Rubin", 23220), ("PCS514", 23240),
    ("PeaSticks", 23265), ("PechoraSC", 23295), ("PeelCone", 23310), ("PeelGroup", 23355),
    ("PeelGroupA", 23400), ("PeelGroupB", 23445), ("PeelGroupMG", 23450), ("PeelPair", 23490),
    ("Pelena", 23500), ("PGZ07", 23515), ("Phalanx", 23525), ("PhazotronGukol4", 23529),
    ("PhazotronZhukAAE", 23530), ("Philips9LV200", 23535), ("Philips9LV331", 23580), ("PhilipsLV223", 23625),
    ("PhilipsSeaGiraffe50HC", 23670), ("PhimatJammer", 23675), ("PICOSAR", 23680), ("PILOTMK2", 23685),
    ("PinJib", 23690), ("PinTip", 23695), ("PL11", 23700), ("PL12", 23701), ("PL15", 23704),
    ("PlankShad", 23710), ("PlankShave", 23715), ("PlankShaveA", 23760), ("PlankShaveB", 23805),
    ("PlateSteer", 23850), ("PlesseyAWS1", 23895), ("PlesseyAWS2", 23925), ("PlesseyAWS4", 23940),
    ("PlesseyAWS6", 23985), ("PlesseyRJ", 23990), ("PlesseyType904", 24020), ("Plesseytype996", 24030),
    ("PlesseyAWS9", 24035), ("PlinthNet", 24075), ("Pluto", 24095), ("PNABRubinDownBeat", 24098),
    ("POHJANPALO", 24100), ("PolimentK", 24110), ("POLLUX", 24120), ("PotGroup", 24165),
    ("PotGroupMG", 24210), ("PotGroupTA", 24255), ("PotGroupTT", 24300), ("PorkFist", 24320),
    ("PorkTrough", 24345), ("PozitivME15P26", 24385), ("PositiveME1_2", 24386), ("PostBow", 24390),
    ("PostLamp", 24435), ("PotDrum", 24480), ("PotHead", 24525), ("PotShot", 24535),
    ("PraetorianCountermeasuresSuite", 24540), ("PRIMUS30A", 24569), ("PRIMUS40WXD", 24570),
    ("Primus400", 24614), ("PRIMUS300SL", 24615), ("Primus500", 24616), ("Primus650", 24617),
    ("Primus700", 24618), ("PRIMUS800", 24619), ("Primus3000", 24620), ("Primus870", 24622), ("PRORA", 24630),
    ("PRS2", 24631), ("PRS3Argon2", 24633), ("PRORAPA1660", 24635), ("PS15", 24640), ("PS05A", 24650),
    ("PS46A", 24660), ("PS70R", 24705), ("PS171R", 24706), ("PS860", 24707), ("PS870", 24709),
    ("PS890", 24710), ("PSM33", 24720), ("PuffBall", 24750), ("QuadradarVI", 24755), ("QW1A", 24757),
    ("Phazotron1RS21E", 24758), ("PVS200", 24760), ("PVS2000", 24761), ("R330ZH", 24768), ("R045", 24769),
    ("R76", 24770), ("R934B", 24771), ("RA20", 24772), ("RA723", 24774), ("R41XXX", 24775), ("RAC3D", 24776),
    ("RAC30", 24780), ("R423AM", 24781), ("Racal1229", 24795), ("DECCA1230", 24800), ("RacalAC2690BT", 24840),
    ("RacalDecca1216", 24885), ("RacalDECCA20V909", 24890), ("RacalDecca360", 24930),
    ("RacalDeccaAC1290", 24975), ("RacalDeccaTM1229", 25020), ("RacalDeccaTM1626", 25065),
    ("RacalDRBN34A", 25110), ("RADAMHR", 25150), ("Radar24", 25155), ("RADARPILOT1000", 25170),
    ("RADARPILOT1100", 25171), ("RAJENDRA", 25180), ("RAN7S", 25200), ("RAN10S", 25205), ("RAN11LX", 25245),
    ("Rani", 25250), ("RAPHAELTH", 25259), ("RapierTA", 25260), ("Rapier2000TA", 25265), ("RapierMG", 25270),
    ("RASCAR3400C", 25273), ("Rashmi", 25275), ("Rasit", 25276), ("Rasit3190B", 25277), ("RAT31DLM", 25278),
    ("RAT31DL", 25279), ("RAT31S", 25280), ("RAT8S", 25281), ("RAT31SL", 25282), ("RavenES05", 25283),
    ("RATAC", 25285), ("RAWL", 25286), ("Rattler", 25287), ("RAWS", 25288), ("RAWL02", 25289),
    ("Raytheon1220", 25290), ("RAWS03", 25291), ("Raytheon1210xx", 25292), ("Raytheon1302", 25300),
    ("Raytheon1500", 25335), ("Raytheon1645", 25380), ("Raytheon1650", 25425), ("Raytheon1900", 25470),
    ("Raytheon2502", 25515), ("RaytheonAnschutzNautoScanNX", 25530), ("RaytheonR41", 25540),
    ("RaytheonRM10256X", 25545), ("RaytheonSL72", 25550), ("RaytheonTM16506X", 25560),
    ("RaytheonTM166012S", 25605), ("RAY1220XR", 25630), ("RAY1401", 25635), ("Ray2900", 25650),
    ("RaymarineRD218", 25694), ("Raypath", 25695), ("RaytheonPathfinderSTmk2", 25698), ("RBE2", 25735),
    ("RBE2AA", 25736), ("RCT180", 25739), ("RDM", 25740), ("RDM3", 25745), ("RDI", 25750), ("RDY", 25760),
    ("RDY3", 25762), ("RDS86", 25770), ("RDN72", 25785), ("RDR1A", 25830), ("RDR1E", 25835), ("RDR4A", 25840),
    ("RDR150", 25845), ("RDR160XD", 25850), ("RDR230HP", 25853), ("RDR1100", 25855), ("RDR1150", 25860),
    ("RDR1200", 25875), ("RDR1400", 25885), ("RDR1400C", 25890), ("RDR4000_1", 25891), ("RDR4000_2", 25892),
    ("RDR1500", 25895), ("RiceCake", 25896), ("RDR1600", 25897), ("RDR2000", 25898), ("RDR1700B", 25899),
    ("Remora", 25900), ("RiceField", 25901), ("REC1A", 25902), ("REC1B", 25903), ("REC1C", 25904),
    ("ResolveEAS", 25906), ("RiceCupC", 25907), ("REL6E", 25908), ("REC1", 25909), ("RiceBowl", 25910),
    ("ImprovedReporter", 25911), ("RiceBug", 25912), ("RiceCup", 25915), ("RiceLamp", 25920),
    ("REVATHI", 25940), ("REZONANS", 25950), ("RGMUGM109B", 25955), ("RGMUGM109EHomingRadar", 25958),
    ("RicePad", 25965), ("RKL526", 25966), ("RKZ764", 25967), ("RKZ766", 25968), ("RKL165", 25969),
    ("RKL609", 25970), ("RKL800", 25971), ("RKZ761", 25972), ("RKZ2000", 25973), ("RIS4CA", 25974),
    ("RL2000", 25975), ("RL41", 25976), ("RIR778", 25977), ("RISAT", 25978), ("RLMS", 25979),
    ("RimHatESMECMSuite", 25980), ("RiceScoop", 26008), ("RiceScreen", 26010), ("DECCATM1070A", 26011),
    ("RM370BT", 26015), ("RockwellCollinsFMR200X", 26020), ("RM2312", 26040), ("RM23123", 26041),
    ("RMT0100A", 26043), ("RN222", 26045), ("ROLAND2", 26053), ("ROLANDBN", 26055), ("ROLANDMG", 26100),
    ("ROLANDTA", 26145), ("ROLANDTT", 26190), ("ROTODOME", 26210), ("RoundBall", 26235),
    ("RP379DTiradaD", 26236), ("RP3", 26237), ("RP4G", 26238), ("RoundHouse", 26280), ("RoundHouseB", 26325),
    ("RPR117", 26326), ("RS0250", 26327), ("RSR210N", 26328), ("RT0250", 26330), ("RTA4100", 26340),
    ("RTN1A", 26350), ("RTN25X", 26353), ("RTS6400", 26354), ("RubyRake", 26355), ("RumSling", 26360),
    ("RumSlingRO", 26361), ("RumSlingTT", 26362), ("RV2", 26370), ("RV3", 26415), ("RV5", 26460),
    ("RV10", 26505), ("RV15M", 26506), ("RV17", 26550), ("RV18", 26595), ("RV21", 26596), ("RV21B", 26597),
    ("RV25", 26600), ("RV377", 26610), ("RVUM", 26640), ("RWD8", 26650), ("RXN260", 26660),
    ("RyeHouse", 26665), ("S1810CD", 26670), ("Sahab", 26672), ("Salamandre", 26673),
    ("SamyungSMR7200", 26674), ("S1850M", 26675), ("S511", 26676), ("S512", 26677), ("S600", 26678),
    ("S604", 26679), ("S763LANZA3D", 26680), ("S613", 26681), ("S631", 26682), ("S654", 26683),
    ("S669", 26684), ("SA2Guideline", 26685), ("S244", 26686), ("S711", 26687), ("SA3Goa", 26730),
    ("SA8GeckoDT", 26775), ("SA12TELARILL", 26795), ("SA23TELIlluminator", 26797), ("SABERM60", 26799),
    ("Samovar", 26805), ("Sampson", 26810), ("SAN7GadflyTI", 26820), ("SAN11Cads1UN", 26865),
    ("SaccadeMH", 26900), ("SaltPotAB", 26910), ("SAP14", 26920), ("SAP518", 26925), ("SAP518M", 26926),
    ("SandBar", 26930), ("SAPechora2MTT", 26935), ("SAR", 26945), ("SATRAPE", 26950), ("SATURNEII", 26955),
    ("ScanCan", 27000), ("ScanFix", 27045), ("ScanOdd", 27090), ("SCANTER1002", 27095),
    ("SCANTER2001", 27100), ("SCANTER2002", 27101), ("SCANTER2100", 27102), ("SCANTER4002", 27109),
    ("SCANTER4100", 27110), ("SCANTER5102", 27111), ("SCANTER5502", 27113), ("SCANTER6000", 27115),
    ("SCANTER6002", 27116), ("ScanterMil009", 27125), ("ScanThree", 27135), ("SCANTERMILS", 27137),
    ("ScanterSMR", 27139), ("SCANTER", 27140), ("SCORADS", 27141), ("Scimitar", 27142), ("STAR2000", 27143),
    ("SCOREBOARD", 27150), ("ScoopPair", 27175), ("ScoupPlate", 27180), ("SCOUT", 27183), ("SCR584", 27190),
    ("SeaArcher2", 27225), ("SeaBasedXBand", 27230), ("SeaDragon", 27235), ("SeaEagle", 27239),
    ("SeaEagleSC", 27240), ("SEAFALCON", 27245), ("SeaGiraffeAMB", 27248), ("Seaguard", 27251),
    ("SeaHawkSHNX12", 27260), ("SeaHunter4MG", 27270), ("SeaHunter4TA", 27315), ("SeaHunter4TT", 27360),
    ("SeaGull", 27405), ("SeaMaster400", 27430), ("SeaNet", 27450), ("SeaSparrow", 27451),
    ("SeaSpray", 27495), ("SeaTiger", 27540), ("SeaTigerM", 27550), ("Seastar", 27560),
    ("Searchwater", 27570), ("Searchwater2000", 27575), ("SEASONDE", 27580), ("SEASPRAY7000E", 27582),
    ("SeaVue", 27583), ("SeasprayMk3", 27584), ("SeleniaOrion7", 27585), ("Seleniatype912", 27630),
    ("SelenniaRAN12LX", 27675), ("SeleniaRAN20S", 27680), ("SelenniaRTN10X", 27720),
    ("SeliniaARP1645", 27765), ("SENTIRM20", 27770), ("SERDAR", 27771), ("SERHAT", 27773),
    ("Series10CompactSubmarineRadarCSR", 27775), ("SERIES52", 27780), ("SERIES320", 27790), ("SG", 27800),
    ("SGJ02", 27802), ("SGJ03", 27803), ("SGR10200", 27810), ("SGR10302", 27855), ("SGR104", 27870),
    ("Shahed129SAR", 27873), ("SHAHINE", 27875), ("SheetBend", 27900), ("SheetCurve", 27945),
    ("SHIKRA", 27980), ("ShipGlobe", 27990), ("ShipWheel", 28035), ("SGR114", 28080), ("ShoreWalkA", 28125),
    ("ShortHorn", 28170), ("ShotDome", 28215), ("SideGlobeJN", 28260), ("PRV11", 28280), ("SideWalkA", 28305),
    ("SignaalDA02", 28350), ("SignaalDA05", 28395), ("SignaalDA08", 28440), ("SignaalDA082LS", 28445),
    ("SignaalLW04", 28480), ("SignaalLW08", 28485), ("SignaalLWOR", 28530), ("SignaalM45", 28575),
    ("SignaalMW08", 28620), ("SignaalSMART", 28665), ("SignaalSTING", 28710), ("SignaalSTIR", 28755),
    ("SignaalSTIR1_8M", 28760), ("SignaalSTIR24M", 28770), ("SignaalWM202", 28800), ("SignaalWM25", 28845),
    ("SignaalWM27", 28890), ("SignaalWM28", 28935), ("SignaalZW01", 28980), ("SignaalZW06", 29025),
    ("SignaalZW07", 29030), ("SignaalZW0800", 29035), ("SIMRAD3G", 29043), ("SIMRAD4G", 29045),
    ("SimradCA54", 29050), ("SIMRADHalo6", 29060), ("SkiPole", 29070), ("SkinHead", 29115),
    ("SkipSpin", 29160), ("SKYFENDER", 29172), ("SkyWave", 29175), ("SkyguardB", 29180),
    ("SKYGUARDTA", 29185), ("SKYGUARDTT", 29190), ("SkyguardLR", 29191), ("Skymaster", 29200),
    ("SkyWatch", 29205), ("SkyRanger", 29210), ("SKYSHADOW", 29215), ("SKYSHIELDTA", 29220), ("SL", 29250),
    ("SLALQ234", 29270), ("SlapShot", 29295), ("SlapShotG", 29297), ("SLC2", 29300), ("SLC2E", 29301),
    ("SLC4", 29305), ("SlimNet", 29340), ("SlotBackA", 29385), ("SlotBackILL", 29400), ("SlotBackB", 29430),
    ("SlotBackIV", 29431), ("SlotBackBTopaz", 29432), ("SlotBackE", 29433), ("SlotBackG", 29434),
    ("SlotBackVI", 29435), ("SlotRest", 29440), ("SM674AUPM", 29450), ("SMA3RM", 29475), ("SMA3RM20", 29520),
    ("SMA3RM20ASMG", 29565), ("SMABPS704", 29610), ("SMASPIN749V2", 29655), ("SMASPN703", 29700),
    ("SMASPN751", 29745), ("SMASPOS748", 29790), ("SMASPQ2", 29835), ("SMASPQ2D", 29880),
    ("SMASPQ701", 29925), ("SMASPS702", 29970), ("SMAST2OTOMATIIMH", 30015), ("SR47A", 30016),
    ("SMA718Beacon", 30060), ("SmallFred", 30065), ("SMARTS", 30068), ("SMARTSMk2", 30069), ("SMARTL", 30070),
    ("SM932", 30072), ("SmogLamp", 30075), ("SnapShot", 30080), ("SnoopDrift", 30105), ("SnoopHalf", 30140),
    ("SnoopHead", 30150), ("SnoopPair", 30195), ("SnoopPing1", 30200), ("SnoopPlate", 30240),
    ("SnoopPing", 30255), ("SnoopSlab", 30285), ("SnoopTray", 30330), ("SnoopTray1", 30375),
    ("SnoopTray2", 30420), ("SNOOPTRAY3", 30421), ("SnoopWatch", 30465), ("_9S18M1", 30470),
    ("_9S18M1E", 30471), ("SPB7", 30475), ("SnowDrop", 30480), ("SNW10", 30490), ("SO1", 30510),
    ("SO12", 30520), ("SOACommunist", 30555), ("SO69", 30580), ("SockEye", 30600), ("SOM64", 30645),
    ("Sopka", 30650), ("Sorbsiya", 30660), ("SorbtsiyaL005", 30661), ("SorbtsiyaL005S", 30662),
    ("SPADASIR", 30665), ("SPADATT", 30670), ("SparrowILL", 30690), ("SPERRYRASCAR", 30691),
    ("SPECTRA", 30692), ("SPEAR3MMW", 30696), ("SperryM3", 30700), ("SPERRYVISIONMASTERFT", 30701),
    ("SPEXER2000", 30710), ("SPG53F", 30735), ("SPG70", 30780), ("SPG74", 30825), ("SPG75", 30870),
    ("SPG76", 30915), ("SpinScanA", 30960), ("SpinScanB", 31005), ("SpinTrough", 31050),
    ("SPINODADDAWTR", 31070), ("SPJ40", 31080), ("SplashDrop", 31095), ("SPN2", 31096), ("SPN4", 31097),
    ("SPN30", 31100), ("SPN35A", 31140), ("SPN41", 31185), ("SPN42", 31230), ("SPN43A", 31275),
    ("SPN43B", 31320), ("SPN44", 31365), ("SPN46", 31410), ("SPN703", 31455), ("SPN720", 31475),
    ("SPN7281", 31500), ("SPN748", 31545), ("SPN750", 31590), ("SPO8", 31592), ("SPN753G", 31593),
    ("SpongeCake", 31635), ("P12", 31680), ("P18SpoonRestA", 31681), ("P18SpoonRestB", 31682),
    ("P18SpoonRestC", 31684), ("P18MH2", 31685), ("SporkRest", 31700), ("SPQ712", 31725), ("SPR2", 31730),
    ("SPR51", 31740), ("SPS5FASOL", 31765), ("SPS6", 31766), ("SPS6C", 31770), ("SPS10F", 31815),
    ("SPS12", 31860), ("SPS22NBUKET", 31870), ("SPS33NBUKET", 31875), ("SPS44NBUKET", 31880),
    ("SPS55NBUKET", 31890), ("SPS58", 31905), ("SPS62", 31925), ("SPS100K", 31935), ("SPS64", 31950),
    ("SPS141", 31951), ("SPS142", 31952), ("SPS143", 31953), ("SPS151", 31955), ("SPS152", 31956),
    ("SPS153", 31957), ("SPS160Geran", 31959), ("SPS161", 31960), ("SPS95K", 31970), ("SPS171Jammer", 31971),
    ("SPS172Jammer", 31972), ("SPS768", 31995), ("SPS540K", 32010), ("SPS550KMF", 32020), ("SPS774", 32040),
    ("SPY790", 32085), ("SquareHead", 32130), ("SquarePair", 32175), ("SquareSlot", 32220),
    ("SquareTie", 32265), ("Shmel", 32310), ("P15M", 32330), ("SquintEye", 32355), ("SQUIRE", 32365),
    ("SR2410C", 32373), ("SR47BG", 32375), ("SREM5", 32385), ("SRN6", 32400), ("SRN15", 32445),
    ("SRN206", 32455), ("SRN745", 32490), ("SRO1", 32535), ("SRO2", 32580), ("SSC2BSamletMG", 32625),
    ("SSN2ABCSSC", 32670), ("SSN2ABCSSC2A3A2MH", 32715), ("SSN2CSeeker", 32760), ("SSN2CDStyx", 32805),
    ("SSN2CDStyxCDMH", 32850), ("SSN2CStyxAL", 32851), ("SSN2DStyxAL", 32852), ("SSN2SSCSSC18BN", 32895),
    ("SSN3BSepalAL", 32940), ("SSN3BSepalMH", 32985), ("SSN7Starbright", 33025), ("SSN9Siren", 33030),
    ("SSN9SirenAL", 33075), ("SSN9SirenMH", 33120), ("SSN10AFL10mmWMH", 33125), ("SSN11Nasr1mmWMH", 33140),
    ("SSN12SandboxAL", 33165), ("SSN12YJ83JmmWMH", 33166), ("SSN12SandboxMH", 33210),
    ("SSNX13Shredder", 33230), ("SSN14BSilexAL", 33231), ("SSN19Shipwreck", 33255),
    ("SSN19ShipwreckAL", 33300), ("SSN19ShipwreckMH", 33345), ("SSN21AL", 33390), ("SSN22Sunburn", 33435),
    ("SSN22SunburnMH", 33480), ("SSN22SunburnAL", 33481), ("SSN25SwitchbladeMH", 33483),
    ("SSN26StrobileMMWMH", 33484), ("SSN27SizzlerMH", 33485), ("SSN27ASizzlerAL", 33486),
    ("STINGEOMk2", 33505), ("STIR1_2EOMk2", 33510), ("STIR2_4HPMk2", 33511), ("StoneCake", 33525),
    ("STR41", 33570), ("ST858", 33580), ("START1M", 33582), ("STENTOR", 33584), ("StormShadowAHR", 33585),
    ("STRAIGHTFLUSH", 33586), ("StraightFlushTA", 33590), ("StraightFlushTT", 33595),
    ("StraightFlushILL", 33600), ("StrikeOut", 33615), ("StrutCurve", 33660), ("StrutPair", 33705),
    ("StrutPair1", 33750), ("StrutPair2", 33795), ("SunVisor", 33840), ("SUPERDARN", 33850),
    ("Superfledermaus", 33860), ("Supersearcher", 33870), ("SwiftRod1", 33885), ("SwiftRod2", 33930),
    ("SYMPHONY", 33933), ("SYNAPSISMk2", 33935), ("SY80", 33950), ("T1166", 33975), ("T1171", 34020),
    ("T1202", 34040), ("T6004", 34065), ("T6031", 34110), ("T8067", 34155), ("T8068", 34200),
    ("T8124", 34245), ("T8408", 34290), ("T8911", 34335), ("T8937", 34380), ("T8944", 34425),
    ("T8987", 34470), ("TA10K", 34480), ("JY11B", 34500), ("TACANSURF", 34505), ("P14_2", 34515),
    ("TALLKINGB", 34516), ("TALLKINGC", 34517), ("TallMike", 34560), ("TallPath", 34605), ("TDR94", 34607),
    ("TeaSpoon", 34610), ("TeamPlay", 34620), ("TALISMAN", 34624), ("TeamWork", 34625), ("T1135", 34626),
    ("TANCANSURF", 34627), ("TECSAR", 34628), ("TERRASARX", 34629), ("TESAR", 34630), ("THAADGBR", 34640),
    ("ThalesRDY2", 34644), ("ThalesNederlandSignaalAPAR", 34645), ("ThalesScorpionJammer", 34646),
    ("ThalesVariant", 34647), ("ThalesICMSJammer", 34648), ("ThalesIMEWSJammer", 34649), ("THD225", 34650),
    ("THD1012", 34655), ("THD1098", 34660), ("THD1213", 34665), ("THD1940", 34670), ("THD1955Palmier", 34680),
    ("THD5500", 34695), ("ThirdofKhordad", 34700), ("ThinPath", 34740), ("PRV9", 34785), ("PRV16", 34786),
    ("ThompsonCSFTA10", 34795), ("ThompsonCSFTHD1040Neptune", 34830), ("ThompsonCSFCalypso", 34875),
    ("ThompsonCSFCASTOR", 34920), ("ThompsonCSFCastorII", 34965), ("ThomsonCSFDomino30", 34966),
    ("ThompsonCSFDRBC32A", 35010), ("ThompsonCSFDRBJ11DE", 35055), ("ThompsonCSFDRBV15A", 35100),
    ("ThompsonCSFDRBV15C", 35145), ("ThompsonCSFDRBV22D", 35190), ("ThompsonCSFDRBV23B", 35235),
    ("ThompsonCSFDRUA33", 35280), ("ThompsonCSFMarsDRVB21A", 35325), ("ThompsonCSFSeaTiger", 35370),
    ("ThompsonCSFTriton", 35415), ("ThompsonCSFVegawithDRBC32E", 35460), ("ThomsonENR", 35470),
    ("ThomsonRDI", 35475), ("TierIIPlus", 35477), ("TPS755", 35478), ("TPS830K", 35479), ("TRS2105", 35480),
    ("TR23K", 35481), ("TR23MR", 35482), ("TRAC2100", 35483), ("TRAC2300", 35484), ("HT223", 35485),
    ("TRADEX", 35486), ("TRAILXI", 35487), ("TRD1211", 35488), ("TRD1235", 35489), ("TRS2100", 35490),
    ("TRACNG", 35491), ("TieRods", 35505), ("_36D6", 35550), ("TinTrap", 35570), ("TIRSPONDER", 35580),
    ("TK25E5", 35583), ("TMKMk2", 35585), ("TMXMk2", 35586), ("ToadStool1", 35595), ("ToadStool2", 35640),
    ("ToadStool3", 35685), ("ToadStool4", 35730), ("ToadStool5", 35775), ("TokenB", 35785),
    ("TombStone", 35800), ("Tonson", 35810), ("TopBow", 35820), ("TopDome", 35865), ("TopKnot", 35910),
    ("TopMesh", 35955), ("TopPair", 36000), ("TopPlate", 36045), ("TopPlateB", 36046), ("TopSail", 36090),
    ("TYPE208", 36120), ("TopSteer", 36135), ("TopTrough", 36180), ("TornadoGMR", 36200),
    ("TornadoTFR", 36201), ("ScrumHalfTA", 36220), ("ScrumHalfTT", 36225), ("TORM2TER", 36226),
    ("ScrumHalfMG", 36230), ("TrackDish", 36270), ("TR47C", 36300), ("TORSOM", 36315), ("TQN2", 36320),
    ("TrapDoor", 36360), ("TRD1500", 36365), ("TrickShotTAR", 36370), ("TrickShotTER", 36371),
    ("TRISPONDE", 36380), ("TRML", 36381), ("TRS2215", 36382), ("TRML3D", 36383), ("TRMS", 36384),
    ("TRS2056", 36385), ("TRS3010", 36386), ("TRS2060", 36387), ("TRS2245", 36388), ("TRS2310", 36389),
    ("TritonG", 36390), ("TRS22XX", 36391), ("TRS3030", 36400), ("TRS3033", 36405), ("TRS3203", 36417),
    ("TRS3405", 36420), ("TRS3410", 36425), ("TRS3415", 36430), ("TRS3D", 36440), ("TRS3D16", 36441),
    ("TRS3D16ES", 36442), ("TRS3D32", 36443), ("TRS4D", 36446), ("TRSC", 36447), ("TRSN", 36450),
    ("TS4478A", 36460), ("TSE5000", 36495), ("TSR333", 36540), ("TSR793", 36550), ("TubBrick", 36563),
    ("TubeArm", 36585), ("TW1374", 36590), ("TW1378", 36595), ("TW1446", 36600), ("TwinEyes", 36630),
    ("TwinPill", 36675), ("TwinScan", 36720), ("TwinScanRo", 36765), ("TwoSpot", 36810),
    ("Type071LPD", 36821), ("Type212JA", 36827), ("Type221JA", 36830), ("Type223", 36835),
    ("Type80ASM1", 36836), ("Type120", 36838), ("Type208", 36840), ("Type222", 36843), ("Type226", 36846),
    ("Type232H", 36850), ("TYPE245", 36853), ("TYPE262", 36855), ("TYPE275", 36900), ("TYPE278", 36905),
    ("TYPE293", 36945), ("Type341", 36946), ("TYPE313", 36947), ("Type305A", 36948), ("Type334", 36960),
    ("Type342", 36985), ("TYPE343SUNVISORB", 36990), ("Type344", 36992), ("Type345", 37010),
    ("Type346", 37011), ("Type349A", 37033), ("TYPE347B", 37035), ("Type347G", 37038), ("Type359", 37039),
    ("Type352", 37040), ("Type360", 37041), ("Type362ESR1SR47B", 37043), ("Type354", 37045),
    ("Type366", 37047), ("Type363", 37048), ("Type364", 37049), ("Type404A", 37050), ("Type405", 37052),
    ("TYPE405J", 37053), ("Type408D", 37058), ("Type517B", 37059), ("Type518", 37060), ("Type589", 37070),
    ("TYPE651", 37073), ("Type753_1", 37075), ("Type702", 37077), ("Type704", 37078), ("Type753_2", 37079),
    ("Type756", 37080), ("TYPE713", 37081), ("TYPE714", 37082), ("TYPE702D", 37083), ("TYPE760", 37084),
    ("Type760", 37086), ("Type815", 37090), ("Type793", 37095), ("Type8A813", 37100), ("TYPE901M", 37105),
    ("TYPE902", 37110), ("Type902B", 37124), ("TYPE903", 37125), ("TYPE909TI", 37170), ("TYPE909TT", 37215),
    ("TYPE910", 37260), ("TYPE931", 37265), ("TYPE965", 37305), ("TYPE967", 37350), ("TYPE968", 37395),
    ("TYPE974", 37440), ("TYPE975", 37485), ("TYPE978", 37530), ("Type981", 37534), ("Type9813", 37535),
    ("TYPE982", 37540), ("Type984", 37543), ("Type985", 37544), ("TYPE992", 37575), ("TYPE993", 37620),
    ("TYPE994", 37665), ("Type996", 37670), ("Type997Artisan", 37675), ("TYPE1006_1", 37710),
    ("TYPE1006_2", 37755), ("TYPE1022", 37800), ("Type1047", 37810), ("Type1048", 37815), ("Type1474", 37825),
    ("Type1493", 37828), ("ULTRA", 37840), ("UKMK10", 37845), ("UPS220C", 37850), ("UPX110", 37890),
    ("UPX27", 37935), ("URN20", 37980), ("UTESA", 37985), ("UTEST", 37990), ("URN25", 38025),
    ("VIGILANT", 38035), ("VitebskL370Jammer", 38038), ("VOLEXIIIIV", 38045), ("VOLGA", 38046),
    ("VORONEZHDM", 38047), ("VOSTOK", 38048), ("VOSTOKE", 38049), ("VSR", 38050), ("VOSTOK3D", 38051),
    ("VSTARPT", 38055), ("W160", 38058), ("W1028", 38060), ("W8818", 38070), ("W8838", 38115),
    ("W8852", 38120), ("WALLBOARD", 38140), ("WallRust", 38150), ("WAS74S", 38160), ("WaspHead", 38205),
    ("WATCHDOG", 38210), ("WatchGuard", 38250), ("Watchman", 38260), ("WAVESTORM", 38270),
    ("WATCHMANS", 38275), ("WATCHMANT", 38276), ("WEATHERSCOUT2", 38280), ("WesternElectricMK10", 38295),
    ("WestinghouseADR4LRSR", 38320), ("WestinghouseElectricSPG50", 38340),
    ("WestinghouseElectricW120", 38385), ("WestinghouseSPS29C", 38430), ("WestinghouseSPS37", 38475),
    ("WetEye", 38520), ("WetEye2", 38525), ("WetEyeMod", 38565), ("WF44S", 38568), ("WGU41B", 38570),
    ("WGU44B", 38572), ("Whiff", 38610), ("WhiffBrick", 38655), ("WhiffFire", 38700), ("WHITEHOUSE", 38715),
    ("WideMat", 38730), ("WineGlassJammer", 38735), ("WildCard", 38745), ("WILDCAT", 38748),
    ("WitchEight", 38790), ("WitchFive", 38835), ("WLR", 38840), ("WM2XSeries", 38880),
    ("WM2XSeriesCAS", 38925), ("WR10X", 38930), ("WR2100", 38935), ("WSR74C", 38950), ("WSR74S", 38955),
    ("WSR81", 38957), ("WXR700C", 38960), ("WXR2100", 38965), ("WXR2100MSTT", 38966), ("WoodGage", 38970),
    ("XTAR25", 38990), ("XTAR3D", 38995), ("YAOGAN3", 39000), ("Yaogan29", 39014), ("YardRake", 39015),
    ("YH96", 39050), ("YewLoop", 39060), ("YITIANADS", 39061), ("YD3", 39062), ("YJ12MH", 39063),
    ("YJ62MH", 39065), ("YJ82MH", 39066), ("YJ83MH", 39067), ("YLC2", 39070), ("YLC2A", 39071),
    ("YLC4", 39073), ("YLC6", 39074), ("YLC6M", 39075), ("YLC8", 39080), ("YLC8B", 39081), ("YLC18", 39085),
    ("YoYo", 39105), ("ZaslonA", 39110), ("ZaslonMultipurpose", 39112), ("ZooPark1", 39125), ("ZPS6", 39126),
    ("ZOOPARK3", 39127), ("ZD12", 39131), ("ZW06", 39150), ("ANALQ1361", 39200), ("ANALQ1362", 39201),
    ("ANALQ1363", 39202), ("ANALQ1364", 39203), ("ANALQ1365", 39204), ("ANALQ1622", 39210),
    ("ANALQ1623", 39211), ("ANALQ1624", 39212), ("ZhukM", 45300), ("ZHUKMAE", 45303), ("ZHUKME", 45304),
    ("ZHUKMME", 45305), ("ZhukMSE", 45307)
  ]
/-- src/common/enums.rs:3962-6728 -/
abbrev EmitterName := EnumVal EmitterName.spec
/-- src/common/enums.rs:6730-6735 -/
abbrev EmitterName.deserialize : Get EmitterName := EmitterName.spec.deserialize

end Dis
