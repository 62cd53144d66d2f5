import Verif.Model.EnumCore
/- Generated by tools/gen_enums.py from /repo/src/common/enums.rs. -/
set_option maxRecDepth 20000
namespace Dis

/-- src/common/enums.rs:13574-13577 (default variant `Default`) -/
def BuildingPaintScheme.spec : EnumSpec where
  name := "BuildingPaintScheme"
  repr := .u8
  default := 0
  variants := [
    ("Default", 0)
  ]
/-- src/common/enums.rs:13574-13577 -/
abbrev BuildingPaintScheme := EnumVal BuildingPaintScheme.spec
/-- src/common/enums.rs:13579-13584 -/
abbrev BuildingPaintScheme.deserialize : Get BuildingPaintScheme := BuildingPaintScheme.spec.deserialize

/-- src/common/enums.rs:13588-13594 (default variant `Summer`) -/
def Season.spec : EnumSpec where
  name := "Season"
  repr := .u8
  default := 0
  variants := [
    ("Summer", 0), ("Winter", 1), ("Spring", 2), ("Autumn", 3)
  ]
/-- src/common/enums.rs:13588-13594 -/
abbrev Season := EnumVal Season.spec
/-- src/common/enums.rs:13596-13601 -/
abbrev Season.deserialize : Get Season := Season.spec.deserialize

/-- src/common/enums.rs:13605-13611 (default variant `NotSpecified`) -/
def Material.spec : EnumSpec where
  name := "Material"
  repr := .u8
  default := 0
  variants := [
    ("NotSpecified", 0), ("Plastic", 1), ("Rubber", 2), ("Road", 3)
  ]
/-- src/common/enums.rs:13605-13611 -/
abbrev Material := EnumVal Material.spec
/-- src/common/enums.rs:13613-13618 -/
abbrev Material.deserialize : Get Material := Material.spec.deserialize

/-- src/common/enums.rs:13622-13627 (default variant `FidelityLevel0`) -/
def Link11_11BFidelityLevel.spec : EnumSpec where
  name := "Link11_11BFidelityLevel"
  repr := .u8
  default := 0
  variants := [
    ("FidelityLevel0", 0), ("FidelityLevel1", 1), ("FidelityLevel2", 2)
  ]
/-- src/common/enums.rs:13622-13627 -/
abbrev Link11_11BFidelityLevel := EnumVal Link11_11BFidelityLevel.spec
/-- src/common/enums.rs:13629-13634 -/
abbrev Link11_11BFidelityLevel.deserialize : Get Link11_11BFidelityLevel := Link11_11BFidelityLevel.spec.deserialize

/-- src/common/enums.rs:13638-13643 (default variant `NoStatement`) -/
def Link11TerminalMode.spec : EnumSpec where
  name := "Link11TerminalMode"
  repr := .u8
  default := 0
  variants := [
    ("NoStatement", 0), ("NetworkControlStation", 1), ("Picket", 2)
  ]
/-- src/common/enums.rs:13638-13643 -/
abbrev Link11TerminalMode := EnumVal Link11TerminalMode.spec
/-- src/common/enums.rs:13645-13650 -/
abbrev Link11TerminalMode.deserialize : Get Link11TerminalMode := Link11TerminalMode.spec.deserialize

/-- src/common/enums.rs:13655-13665 (default variant `NoStatement`) -/
def Link11DataTerminalSetIndicator.spec : EnumSpec where
  name := "Link11DataTerminalSetIndicator"
  repr := .u8
  default := 0
  variants := [
    ("NoStatement", 0), ("Transmit", 1), ("Receive", 2), ("NetBusy", 3), ("TransmitDataError", 4),
    ("ReceiveDataError", 5), ("CodeError", 6), ("SynchronizationComplete", 7)
  ]
/-- src/common/enums.rs:13655-13665 -/
abbrev Link11DataTerminalSetIndicator := EnumVal Link11DataTerminalSetIndicator.spec
/-- src/common/enums.rs:13667-13672 -/
abbrev Link11DataTerminalSetIndicator.deserialize : Get Link11DataTerminalSetIndicator := Link11DataTerminalSetIndicator.spec.deserialize

/-- src/common/enums.rs:13676-13684 (default variant `NoStatement`) -/
def Link11ModeofOperation.spec : EnumSpec where
  name := "Link11ModeofOperation"
  repr := .u16
  default := 0
  variants := [
    ("NoStatement", 0), ("NetSync", 1), ("NetTest", 2), ("RollCall", 3), ("ShortBroadcast", 4),
    ("Broadcast", 5)
  ]
/-- src/common/enums.rs:13676-13684 -/
abbrev Link11ModeofOperation := EnumVal Link11ModeofOperation.spec
/-- src/common/enums.rs:13686-13691 -/
abbrev Link11ModeofOperation.deserialize : Get Link11ModeofOperation := Link11ModeofOperation.spec.deserialize

/-- src/common/enums.rs:13695-13699 (default variant `Misagh2`) -/
def LifeFormsSubcategoryIranianWeapons.spec : EnumSpec where
  name := "LifeFormsSubcategoryIranianWeapons"
  repr := .u8
  default := 1
  variants := [
    ("Misagh2", 1), ("RBS70", 2)
  ]
/-- src/common/enums.rs:13695-13699 -/
abbrev LifeFormsSubcategoryIranianWeapons := EnumVal LifeFormsSubcategoryIranianWeapons.spec
/-- src/common/enums.rs:13701-13706 -/
abbrev LifeFormsSubcategoryIranianWeapons.deserialize : Get LifeFormsSubcategoryIranianWeapons := LifeFormsSubcategoryIranianWeapons.spec.deserialize

/-- src/common/enums.rs:13710-13739 (default variant `ConventionalArmedForces`) -/
def LifeFormLandCategories.spec : EnumSpec where
  name := "LifeFormLandCategories"
  repr := .u8
  default := 10
  variants := [
    ("ConventionalArmedForces", 10), ("Army", 11), ("NavalInfantry", 12), ("AirForce", 13), ("Navy", 14),
    ("CoastGuard", 15), ("UnitedNations", 16), ("SpecialOperationsForces", 30), ("LawEnforcement", 50),
    ("NonMilitaryNationalGovernmentAgencies", 70), ("RegionalLocalForces", 90), ("IrregularForces", 100),
    ("TerroristCombatant", 101), ("Insurgent", 102), ("ParamilitaryForces", 110),
    ("HumanitarianOrganizations", 120), ("Civilian", 130), ("EmergencyMedicalTechnician", 131),
    ("Firefighter", 132), ("Press", 133), ("Mammal", 200), ("Reptile", 201), ("Amphibian", 202),
    ("Insect", 203), ("Arachnid", 204), ("Mollusk", 205), ("Marsupial", 206)
  ]
/-- src/common/enums.rs:13710-13739 -/
abbrev LifeFormLandCategories := EnumVal LifeFormLandCategories.spec
/-- src/common/enums.rs:13741-13746 -/
abbrev LifeFormLandCategories.deserialize : Get LifeFormLandCategories := LifeFormLandCategories.spec.deserialize

/-- src/common/enums.rs:13750-13781 (default variant `None`) -/
def LifeFormHumanSubcategoryEquipmentClass.spec : EnumSpec where
  name := "LifeFormHumanSubcategoryEquipmentClass"
  repr := .u8
  default := 0
  variants := [
    ("None", 0), ("WeaponNonspecific", 1), ("AssaultRifles", 5), ("HighPowerRifles", 10),
    ("SniperRifles", 15), ("AntiMaterielRifle", 17), ("SubMachineGuns", 20), ("ShotGuns", 25),
    ("GrenadeLaunchers", 30), ("MachineGuns", 35), ("GrenadeLaunchingMachineGun", 40),
    ("AntiTankRockets", 45), ("AntiTankMissiles", 50), ("AntiTankGuns", 55), ("FlameRockets", 60),
    ("FlameThrowers", 65), ("RocketLaunchers", 70), ("Mortars", 75), ("HandGuns", 80),
    ("ManPortableAirDefenseSystem", 85), ("RecoillessRifles", 90), ("DroneGuns", 95),
    ("EquipmentNonspecific", 150), ("Sensors", 151), ("SignalSensor", 152), ("Lasers", 153),
    ("AnimalCompanion", 160), ("PersonalElectronics", 171), ("LogisticsEquipment", 172)
  ]
/-- src/common/enums.rs:13750-13781 -/
abbrev LifeFormHumanSubcategoryEquipmentClass := EnumVal LifeFormHumanSubcategoryEquipmentClass.spec
/-- src/common/enums.rs:13783-13788 -/
abbrev LifeFormHumanSubcategoryEquipmentClass.deserialize : Get LifeFormHumanSubcategoryEquipmentClass := LifeFormHumanSubcategoryEquipmentClass.spec.deserialize

/-- src/common/enums.rs:13793-13857 (default variant `Other`) -/
def LifeFormHumanSpecificAssaultRifles.spec : EnumSpec where
  name := "LifeFormHumanSpecificAssaultRifles"
  repr := .u8
  default := 0
  variants := [
    ("Other", 0), ("_4_5mmInterdynamicsMKR", 1), ("_5_45mmAK74", 10), ("_5_45mmAKS74", 11),
    ("_5_45mmAK74M", 12), ("_5_45mmKbkwz_1988Tantal", 13), ("_5_56mmAK101", 30), ("_5_56mmDiemacoC7", 31),
    ("_5_56mmColtCanadaC8Carbine", 32), ("_5_56mmGIATFAMASG2", 33), ("_5_56mmFNFNC", 34),
    ("_5_56mmHKG36", 35), ("_5_56mmIMIGalil", 36), ("_5_56mmINSAS", 37), ("_5_56mmDaewooK1", 38),
    ("_5_56mmDaewooK2", 39), ("_5_56mmM16A1", 40), ("_5_56mmM16A2A3A4", 41), ("_5_56mmColtM4", 42),
    ("_5_56mmColtM4SpecialOperationsPeculiarModification", 43), ("_5_56mmRugerMini14", 44),
    ("_5_56mmEnfieldSA80A2", 45), ("_5_56mmPindadSS1V1", 46), ("_5_56mmPindadSS1V2", 47),
    ("_5_56mmPindadSS1V3", 48), ("_5_56mmSteyrAUGA1", 49), ("_5_56mmT65", 50), ("_5_56mmT91", 51),
    ("_5_56mmTavorTAR21", 52), ("_5_56mmTypeCQM311", 53), ("_5_56mmDaewooK11", 54), ("_5_56mmAusteyrF88", 55),
    ("_5_56mmAusteyrF88GLA", 56), ("_5_56mmAusteyrF88SA1", 57), ("_5_56mmAusteyrF88SA2", 58),
    ("_5_56mmAusteyrF88C", 59), ("_5_56mmAusteyrF88SA1C", 60), ("_5_56mmAusteyrF88SA1LTR", 61),
    ("_5_56mmAusteyrEF88", 62), ("_5_56mmBushmasterXM15", 63), ("_5_56mmHK416", 64), ("_5_56mmF90", 65),
    ("_5_56mmF90G", 66), ("_5_56mmF90M", 67), ("_5_56mmF90MG", 68), ("_5_56mmF90CQB", 69),
    ("_5_56mmMK17SCARL", 70), ("_5_8mmQBZ95", 100), ("_7_62mmAK103", 110), ("_7_62mmAK104", 111),
    ("_7_62mmAK47", 112), ("_7_62mmAKM", 113), ("_7_62mmAKS47", 114), ("_7_62mmHKG3A3", 115),
    ("_7_62mmIMIGalil", 116), ("_7_62mmKLS", 117), ("_7_62mmSKS", 118), ("_7_62mmType56", 119),
    ("_7_62mmType6368", 120), ("_7_62mmType81", 121), ("_7_62mmMK17SCARH", 122), ("_8mmLebelM16", 240)
  ]
/-- src/common/enums.rs:13793-13857 -/
abbrev LifeFormHumanSpecificAssaultRifles := EnumVal LifeFormHumanSpecificAssaultRifles.spec
/-- src/common/enums.rs:13859-13864 -/
abbrev LifeFormHumanSpecificAssaultRifles.deserialize : Get LifeFormHumanSpecificAssaultRifles := LifeFormHumanSpecificAssaultRifles.spec.deserialize

/-- src/common/enums.rs:13868-13880 (default variant `Other`) -/
def LifeFormHumanSpecificHighPowerRifles.spec : EnumSpec where
  name := "LifeFormHumanSpecificHighPowerRifles"
  repr := .u8
  default := 0
  variants := [
    ("Other", 0), ("_7_62mmM14", 10), ("_7_62mmRemington700", 11), ("_7_62mmSIGSauerSSG2000", 12),
    ("_7_62mmStonerSR25", 13), ("_7_62mmMosinNagantModel189130", 14), ("_7_62mmHK417", 15),
    ("_7_62mmHK41716Recce", 16), ("_7_65mmBARM1918", 50), ("_7_65mmM1Garand", 51)
  ]
/-- src/common/enums.rs:13868-13880 -/
abbrev LifeFormHumanSpecificHighPowerRifles := EnumVal LifeFormHumanSpecificHighPowerRifles.spec
/-- src/common/enums.rs:13882-13887 -/
abbrev LifeFormHumanSpecificHighPowerRifles.deserialize : Get LifeFormHumanSpecificHighPowerRifles := LifeFormHumanSpecificHighPowerRifles.spec.deserialize

/-- src/common/enums.rs:13891-13914 (default variant `USArmy`) -/
def LifeFormCategoriesUS.spec : EnumSpec where
  name := "LifeFormCategoriesUS"
  repr := .u8
  default := 11
  variants := [
    ("USArmy", 11), ("USMarineCorps", 12), ("USAirForce", 13), ("USNavy", 14), ("USCoastGuard", 15),
    ("Rangers", 31), ("ARSOF", 32), ("ForceReconnaissance", 33), ("NavySEAL", 34), ("AFSOF", 35),
    ("DeltaForce", 36), ("FederalBureauofInvestigation", 51), ("CentralIntelligenceAgency", 52),
    ("DepartmentofHomelandSecurity", 53), ("BureauofAlcoholTobaccoFirearmsandExplosives", 54),
    ("USSecretService", 55), ("USMarshal", 56), ("StatePolice", 71), ("CountySheriffPolice", 72),
    ("MunicipalPolice", 73), ("RedCross", 124)
  ]
/-- src/common/enums.rs:13891-13914 -/
abbrev LifeFormCategoriesUS := EnumVal LifeFormCategoriesUS.spec
/-- src/common/enums.rs:13916-13921 -/
abbrev LifeFormCategoriesUS.deserialize : Get LifeFormCategoriesUS := LifeFormCategoriesUS.spec.deserialize

/-- src/common/enums.rs:13925-13965 (default variant `NotSpecifiedMale`) -/
def LifeFormExtraPersonalData.spec : EnumSpec where
  name := "LifeFormExtraPersonalData"
  repr := .u8
  default := 0
  variants := [
    ("NotSpecifiedMale", 0), ("AsianMale", 1), ("PacificIslanderMale", 2), ("BlackMale", 3),
    ("EastAsianMale", 4), ("HispanicMale", 5), ("WhiteMale", 6), ("ArabMale", 7),
    ("HomogenousCountryCodeMale", 8), ("IndigenousCountryCodeMale", 9), ("InfantMale", 10),
    ("ToddlerMale", 20), ("ChildMale", 30), ("AdolescentMale", 40), ("TeenagerMale", 50),
    ("YoungAdultMale", 60), ("AdultMale", 70), ("SeniorAdultMale", 80), ("ElderlyMale", 90), ("Female", 100),
    ("AsianFemale", 101), ("PacificIslanderFemale", 102), ("BlackFemale", 103), ("EastAsianFemale", 104),
    ("HispanicFemale", 105), ("WhiteFemale", 106), ("ArabFemale", 107), ("HomogenousCountryCodeFemale", 108),
    ("IndigenousCountryCodeFemale", 109), ("InfantFemale", 110), ("ToddlerFemale", 120), ("ChildFemale", 130),
    ("AdolescentFemale", 140), ("TeenagerFemale", 150), ("YoungAdultFemale", 160), ("AdultFemale", 170),
    ("SeniorAdultFemale", 180), ("ElderlyFemale", 190)
  ]
/-- src/common/enums.rs:13925-13965 -/
abbrev LifeFormExtraPersonalData := EnumVal LifeFormExtraPersonalData.spec
/-- src/common/enums.rs:13967-13972 -/
abbrev LifeFormExtraPersonalData.deserialize : Get LifeFormExtraPersonalData := LifeFormExtraPersonalData.spec.deserialize

/-- src/common/enums.rs:13976-13981 (default variant `Bird`) -/
def LifeFormAirCategories.spec : EnumSpec where
  name := "LifeFormAirCategories"
  repr := .u8
  default := 200
  variants := [
    ("Bird", 200), ("Insect", 201), ("Mammal", 202)
  ]
/-- src/common/enums.rs:13976-13981 -/
abbrev LifeFormAirCategories := EnumVal LifeFormAirCategories.spec
/-- src/common/enums.rs:13983-13988 -/
abbrev LifeFormAirCategories.deserialize : Get LifeFormAirCategories := LifeFormAirCategories.spec.deserialize

/-- src/common/enums.rs:13992-13999 (default variant `Fish`) -/
def LifeFormSubsurfaceCategories.spec : EnumSpec where
  name := "LifeFormSubsurfaceCategories"
  repr := .u8
  default := 200
  variants := [
    ("Fish", 200), ("Mammal", 201), ("Mollusk", 202), ("Crustacean", 203), ("Insect", 204)
  ]
/-- src/common/enums.rs:13992-13999 -/
abbrev LifeFormSubsurfaceCategories := EnumVal LifeFormSubsurfaceCategories.spec
/-- src/common/enums.rs:14001-14006 -/
abbrev LifeFormSubsurfaceCategories.deserialize : Get LifeFormSubsurfaceCategories := LifeFormSubsurfaceCategories.spec.deserialize

/-- src/common/enums.rs:14013-14046 (default variant `Other`) -/
def LifeFormHumanSpecificSniper.spec : EnumSpec where
  name := "LifeFormHumanSpecificSniper"
  repr := .u8
  default := 0
  variants := [
    ("Other", 0), ("_5_8mmQBU88", 1), ("_7_62mmC3", 30), ("_7_62mmFRF2", 31), ("_7_62mmAWMF", 32),
    ("_7_62mmG3SG1", 33), ("_7_62mmGalilSniper", 34), ("_7_62mmL96A1", 35), ("_7_62mmM14DMR", 36),
    ("_7_62mmM24SniperWeaponSystem", 37), ("_7_62mmM40A1A3", 38), ("_7_62mmSteyrSSG69", 39),
    ("_7_62mmSVD", 40), ("_7_62mmTYPE79", 41), ("_7_62mmSR25MK11", 42), ("_7_62mmAWSR98", 43),
    ("_7_62mmBlaserR93", 44), ("_7_62mmM2010EnhancedSniperRifle", 45),
    ("_7_62mmM110SemiAutomaticSniperSystem", 46), ("_7_62mmL129A1", 47), ("_7_7mmTYPE99", 100),
    ("_8_58mmBlaserR93Tactical2", 105), ("_9mmVSSVintorez", 110), ("_12_7mmSteyrHS_50", 170),
    ("_12_7mmM82A1ASpecialApplicationsScopedRifle", 171), ("_12_7mmNSV", 172), ("_12_7mmOSV96", 173),
    ("_12_7mmRangemaster50", 174), ("_12_7mmV94", 175), ("_12_7mmM107", 176), ("_20mmDenelNTW20", 200)
  ]
/-- src/common/enums.rs:14013-14046 -/
abbrev LifeFormHumanSpecificSniper := EnumVal LifeFormHumanSpecificSniper.spec
/-- src/common/enums.rs:14048-14053 -/
abbrev LifeFormHumanSpecificSniper.deserialize : Get LifeFormHumanSpecificSniper := LifeFormHumanSpecificSniper.spec.deserialize

/-- src/common/enums.rs:14057-14072 (default variant `Other`) -/
def LifeFormHumanSpecificSubMachineGun.spec : EnumSpec where
  name := "LifeFormHumanSpecificSubMachineGun"
  repr := .u8
  default := 0
  variants := [
    ("Other", 0), ("_5_45mmAKS74U", 10), ("_5_56mmDaewooK1A", 20), ("_9mmDaewooK7", 60), ("_9mmMAC10", 61),
    ("_9mmMadsenMKII", 62), ("_9mmMiniUzi", 63), ("_9mmModel83SkorpionSMG", 64), ("_9mmMP5A2", 65),
    ("_9mmMP5N", 66), ("_9mmSterlingSMG", 67), ("_9mmTypeCF05", 68), ("_9mmUzi", 69)
  ]
/-- src/common/enums.rs:14057-14072 -/
abbrev LifeFormHumanSpecificSubMachineGun := EnumVal LifeFormHumanSpecificSubMachineGun.spec
/-- src/common/enums.rs:14074-14079 -/
abbrev LifeFormHumanSpecificSubMachineGun.deserialize : Get LifeFormHumanSpecificSubMachineGun := LifeFormHumanSpecificSubMachineGun.spec.deserialize

/-- src/common/enums.rs:14085-14093 (default variant `AustralianArmy`) -/
def AustralianCategoryOverlay.spec : EnumSpec where
  name := "AustralianCategoryOverlay"
  repr := .u8
  default := 11
  variants := [
    ("AustralianArmy", 11), ("RoyalAustralianAirForce", 13), ("RoyalAustralianNavy", 14),
    ("AustralianSpecialOperationsCommand", 30), ("AustralianDepartmentofHomeAffairs", 51),
    ("AustralianFederalPolice", 52)
  ]
/-- src/common/enums.rs:14085-14093 -/
abbrev AustralianCategoryOverlay := EnumVal AustralianCategoryOverlay.spec
/-- src/common/enums.rs:14095-14100 -/
abbrev AustralianCategoryOverlay.deserialize : Get AustralianCategoryOverlay := AustralianCategoryOverlay.spec.deserialize

/-- src/common/enums.rs:14104-14119 (default variant `AfghanNationalArmy`) -/
def LifeFormCategoriesAfghanistan.spec : EnumSpec where
  name := "LifeFormCategoriesAfghanistan"
  repr := .u8
  default := 11
  variants := [
    ("AfghanNationalArmy", 11), ("AfghanAirForce", 13), ("NationalDirectorateofSecurity", 51),
    ("AfghanNationalPolice", 52), ("AfghanBorderPolice", 53), ("AfghanNationalCivilOrderPolice", 54),
    ("AfghanPublicProtectionForce", 55), ("NonMilitaryNationalGovernmentAgencies", 70),
    ("TerroristCombatant", 101), ("HumanitarianOrganizations", 120), ("RedCrescent", 121), ("Civilian", 130),
    ("Press", 133)
  ]
/-- src/common/enums.rs:14104-14119 -/
abbrev LifeFormCategoriesAfghanistan := EnumVal LifeFormCategoriesAfghanistan.spec
/-- src/common/enums.rs:14121-14126 -/
abbrev LifeFormCategoriesAfghanistan.deserialize : Get LifeFormCategoriesAfghanistan := LifeFormCategoriesAfghanistan.spec.deserialize

/-- src/common/enums.rs:14130-14138 (default variant `SignalSmoke`) -/
def LifeFormHumanSpecificEquipmentClass.spec : EnumSpec where
  name := "LifeFormHumanSpecificEquipmentClass"
  repr := .u8
  default := 1
  variants := [
    ("SignalSmoke", 1), ("FlashLight", 2), ("SignalMirror", 3), ("IRStrobe", 4), ("IRIlluminator", 5),
    ("Spotlight", 6)
  ]
/-- src/common/enums.rs:14130-14138 -/
abbrev LifeFormHumanSpecificEquipmentClass := EnumVal LifeFormHumanSpecificEquipmentClass.spec
/-- src/common/enums.rs:14140-14145 -/
abbrev LifeFormHumanSpecificEquipmentClass.deserialize : Get LifeFormHumanSpecificEquipmentClass := LifeFormHumanSpecificEquipmentClass.spec.deserialize

/-- src/common/enums.rs:14149-14149: an enumeration without variants; src/common/enums.rs:14151-14155: `unimplemented!()`. -/
def CivilianSubmarineSubcategories.deserialize : Get Empty := M.panic .unimplemented

/-- src/common/enums.rs:14159-14159: an enumeration without variants; src/common/enums.rs:14161-14165: `unimplemented!()`. -/
def CivilianSubmersibleSubcategories.deserialize : Get Empty := M.panic .unimplemented

/-- src/common/enums.rs:14169-14172 (default variant `NarcoSubmarine`) -/
def PlatformSubsurfaceCivilianSemiSubmersiblesSubcategories.spec : EnumSpec where
  name := "PlatformSubsurfaceCivilianSemiSubmersiblesSubcategories"
  repr := .u8
  default := 1
  variants := [
    ("NarcoSubmarine", 1)
  ]
/-- src/common/enums.rs:14169-14172 -/
abbrev PlatformSubsurfaceCivilianSemiSubmersiblesSubcategories := EnumVal PlatformSubsurfaceCivilianSemiSubmersiblesSubcategories.spec
/-- src/common/enums.rs:14174-14179 -/
abbrev PlatformSubsurfaceCivilianSemiSubmersiblesSubcategories.deserialize : Get PlatformSubsurfaceCivilianSemiSubmersiblesSubcategories := PlatformSubsurfaceCivilianSemiSubmersiblesSubcategories.spec.deserialize

/-- src/common/enums.rs:14183-14187 (default variant `Normal`) -/
def LeafCoverage.spec : EnumSpec where
  name := "LeafCoverage"
  repr := .u8
  default := 0
  variants := [
    ("Normal", 0), ("Bare", 1)
  ]
/-- src/common/enums.rs:14183-14187 -/
abbrev LeafCoverage := EnumVal LeafCoverage.spec
/-- src/common/enums.rs:14189-14194 -/
abbrev LeafCoverage.deserialize : Get LeafCoverage := LeafCoverage.spec.deserialize

/-- src/common/enums.rs:14198-14203 (default variant `Other`) -/
def LifeFormHumanSpecificAntiMaterielRifles.spec : EnumSpec where
  name := "LifeFormHumanSpecificAntiMaterielRifles"
  repr := .u8
  default := 0
  variants := [
    ("Other", 0), ("_12_7mmAW50", 10), ("_12_7mmAW50F", 11)
  ]
/-- src/common/enums.rs:14198-14203 -/
abbrev LifeFormHumanSpecificAntiMaterielRifles := EnumVal LifeFormHumanSpecificAntiMaterielRifles.spec
/-- src/common/enums.rs:14205-14210 -/
abbrev LifeFormHumanSpecificAntiMaterielRifles.deserialize : Get LifeFormHumanSpecificAntiMaterielRifles := LifeFormHumanSpecificAntiMaterielRifles.spec.deserialize

/-- src/common/enums.rs:14215-14356 (default variant `Other`) -/
def LifeFormHumanSpecificShotGuns.spec : EnumSpec where
  name := "LifeFormHumanSpecificShotGuns"
  repr := .u8
  default := 0
  variants := [
    ("Other", 0), ("BrowningSuperposedOU", 20), ("BrowningCynergy", 21), ("BrowningAuto5", 22),
    ("_18_5mmBrowningCitoriOU12Gauge", 23), ("_16_8mmBrowningCitoriOU16Gauge", 24),
    ("_15_6mmBrowningCitoriOU20Gauge", 25), ("_14mmBrowningCitoriOU28Gauge", 26),
    ("_10_4mmBrowningCitoriOU_410Bore", 27), ("_18_5mmBrowningDoubleAutomatic12Gauge", 28),
    ("_18_5mmIthaca3712Gauge", 29), ("_16_8mmIthaca3716Gauge", 30), ("_15_6mmIthaca3720Gauge", 31),
    ("_14mmIthaca3728Gauge", 32), ("_19_7mmIthacaMag10SA10Gauge", 33), ("_19_7mmMarlinModel5510Gauge", 34),
    ("_18_5mmMarlinModel5512Gauge", 35), ("_16_8mmMarlinModel5516Gauge", 36),
    ("_15_6mmMarlinModel5520Gauge", 37), ("_18_5mmMossberg50012Gauge", 38), ("_15_6mmMossberg50020Gauge", 39),
    ("_10_4mmMossberg500_410Bore", 40), ("_18_5mmMossberg59012Gauge", 41), ("_15_6mmMossberg59020Gauge", 42),
    ("_10_4mmMossberg590_410Bore", 43), ("_18_5mmMossberg930SA12Gauge", 44), ("RemingtonModel11SA", 45),
    ("RemingtonModel1012Gauge", 46), ("_15_6mmRemingtonModel1720Gauge", 47), ("RemingtonModel31", 48),
    ("RemingtonModel1148SA", 49), ("_18_5mmRemington87012Gauge", 50), ("_16_8mmRemington87016Gauge", 51),
    ("_15_6mmRemington87020Gauge", 52), ("_14mmRemington87028Gauge", 53), ("_10_4mmRemington870_410Bore", 54),
    ("RemingtonModel58SA", 55), ("_18_5mmRemington878SA12Gauge", 56),
    ("_18_5mmRemingtonModel1100SA12Gauge", 57), ("_16_8mmRemingtonModel1100SA16Gauge", 58),
    ("_15_6mmRemingtonModel1100SA20Gauge", 59), ("_14mmRemingtonModel1100SA28Gauge", 60),
    ("_10_4mmRemingtonModel1100SA_410Bore", 61), ("_18_5mmRemington1187SA12Gauge", 62),
    ("_15_6mmRemington1187SA20Gauge", 63), ("_19_7mmRemingtonModelSP10SA10Gauge", 64),
    ("_18_5mmRemington88712Gauge", 65), ("_18_5mmRemingtonSparta100SxS12Gauge", 70),
    ("_15_6mmRemingtonSparta100SxS20Gauge", 71), ("_10_4mmRemingtonSparta100SxS_410Bore", 72),
    ("_18_5mmRemingtonSpartan310OU12Gauge", 73), ("_15_6mmRemingtonSpartan310OU20Gauge", 74),
    ("_14mmRemingtonSpartan310OU28Gauge", 75), ("_10_4mmRemingtonSpartan310OU_410Bore", 76),
    ("_18_5mmRemingtonSpartan453SA12Gauge", 77), ("_18_5mmWinchesterModel120012Gauge", 80),
    ("_16_8mmWinchesterModel120016Gauge", 81), ("_15_6mmWinchesterModel120020Gauge", 82),
    ("WinchesterModel18871901", 83), ("WinchesterModel1897", 84), ("WinchesterModel1912", 85),
    ("WinchesterModel21SxS", 86), ("WinchesterModel37SxS", 87), ("_18_5mmHRUltraslugSxS12Gauge", 88),
    ("_15_6mmHRUltraslugSxS20Gauge", 89), ("_18_5mmCienerUltimateOU12Gauge", 90),
    ("_18_5mmCoachGunSxSDoubleBarrel12Gauge", 91), ("_18_5mmRugerGoldLabelSxS12Gauge", 92),
    ("_18_5mmHighStandardModel10SA12Gauge", 93), ("_18_5mmKelTexKSG12Gauge", 94),
    ("_18_5KACMasterkey12Gauge", 95), ("_18_5mmM26M_A_S_S_12Gauge", 96), ("_18_5mmSRMArmsM1216SA12Gauge", 97),
    ("_18_5mmAA12FAAtchissonAssault", 98), ("_18_5mmPancorJackhammerFA12Gauge", 99),
    ("_18_5mmUSAS12FA12Gauge", 110), ("_18_5mmMAULSA12Gauge", 111), ("_18_5mmFNSLPSA12Gauge", 112),
    ("_18_5mmFNTPS12Gauge", 113), ("_18_5mmENARMPentagunSA12Gauge", 115), ("StevensModel520620", 116),
    ("StoegerCoachGunSxS", 117), ("StoegerCondorOU", 118), ("_18_5mmArmscorModel30SA12Gauge", 120),
    ("WeatherbySA08SA", 121), ("_18_5mmFabarmSDASSTactical12Gauge", 122), ("_18_5mmMAG712Gauge", 123),
    ("_18_5mmNeostead12Gauge", 124), ("_18_5mmArmselStrikerSA12Gauge", 125),
    ("_18_5mmParkerHaleRogunSA12Gauge", 127), ("_26mmRGA86Revolver", 130), ("_18_5mmSjorgrenSA12Gauge", 131),
    ("_18_5mmAkdalMKA1919SA12Gauge", 132), ("_18_5mmRetayMasaiMaraSA12Gauge", 133),
    ("_18_5mmSafirT14SA12Gauge", 134), ("_18_5mmBenelliM1Super90SA12Gauge", 150),
    ("_15_6mmBenelliM1Super90SA20Gauge", 151), ("_18_5mmBenelliM3Super90SA12Gauge", 152),
    ("_15_6mmBenelliM3Super90SA20Gauge", 153), ("_18_5mmBenelliM4Super90SA12Gauge", 154),
    ("_18_5mmBenelliNova12Gauge", 155), ("_15_6mmBenelliNove20Gauge", 156),
    ("_18_5mmBenelliRaffaelloSA12Gauge", 157), ("_18_5mmBenelliSupernova12Gauge", 158),
    ("_18_5mmBenelliVinciSA12Gauge", 159), ("_18_5mmBeretta1201FPSA12Gauge", 160),
    ("_18_5mmBeretta682OU12Gauge", 161), ("_15_6mmBeretta682OU20Gauge", 162),
    ("_14mmBeretta682OU28Gauge", 163), ("_10_4mmBeretta682OU_410Bore", 164),
    ("_18_5mmBerettaA303SA12Gauge", 165), ("_18_5mmBerettaAL391SA12Gauge", 166),
    ("_15_6mmBerettaAL391SA20Gauge", 167), ("_18_5mmBerettaDT10OU12Gauge", 168),
    ("BerettaSilverPigeonOU", 169), ("_18_5mmBerettaXtrema2SA12Gauge", 170),
    ("_15_6mmFranchiAL48SA20Gauge", 171), ("_14mmFranchiAL48SA28Gauge", 172),
    ("_10_4mmFranchimod_410FA_410Bore", 173), ("_18_5mmFranchiSPAS12SA12Gauge", 174),
    ("_18_5mmFranchiSPAS15SA12Gauge", 175), ("_18_5mmValtroPM5PM535012Gauge", 176), ("BlazerF3OU", 180),
    ("_18_5mmHKFABARMFP612Gauge", 181), ("_18_5mmHKCAWSFA12Gauge", 182), ("_18_5mmBaikalMP153SA12Gauge", 200),
    ("_18_5mmBandayevskyRB1212Gauge", 201), ("_18_5mmMolotBekasM12Gauge", 202),
    ("_16_8mmMolotBekasM16Gauge", 203), ("_18_5mmTOZ19412Gauge", 204), ("_23mmKS23", 205),
    ("MTs255Revoler12Gauge", 206), ("_18_5mmRMB9312Gauge", 207), ("_18_5mmSaiga12SA12Gauge", 208),
    ("_15_6mmSaiga12SA20Gauge", 209), ("_10_4mmSaiga12SA_410Bore", 210), ("_18_5mmVepr12SA12Gauge", 211),
    ("_18_5mmFort50012Gauge", 212), ("_18_5mmNorincoHP9112Gauge", 220)
  ]
/-- src/common/enums.rs:14215-14356 -/
abbrev LifeFormHumanSpecificShotGuns := EnumVal LifeFormHumanSpecificShotGuns.spec
/-- src/common/enums.rs:14358-14363 -/
abbrev LifeFormHumanSpecificShotGuns.deserialize : Get LifeFormHumanSpecificShotGuns := LifeFormHumanSpecificShotGuns.spec.deserialize

/-- src/common/enums.rs:14367-14374 (default variant `Others`) -/
def LifeFormHumanSpecificMortars.spec : EnumSpec where
  name := "LifeFormHumanSpecificMortars"
  repr := .u8
  default := 0
  variants := [
    ("Others", 0), ("_60mmM224", 30), ("_81mmF2", 50), ("_81mmL16", 51), ("_81mmM252", 52)
  ]
/-- src/common/enums.rs:14367-14374 -/
abbrev LifeFormHumanSpecificMortars := EnumVal LifeFormHumanSpecificMortars.spec
/-- src/common/enums.rs:14376-14381 -/
abbrev LifeFormHumanSpecificMortars.deserialize : Get LifeFormHumanSpecificMortars := LifeFormHumanSpecificMortars.spec.deserialize

/-- src/common/enums.rs:14385-14403 (default variant `Other`) -/
def LifeFormHumanSpecificHandGuns.spec : EnumSpec where
  name := "LifeFormHumanSpecificHandGuns"
  repr := .u8
  default := 0
  variants := [
    ("Other", 0), ("_5_45mmPSM", 1), ("_9mmMK3SLP", 30), ("_9mmBeretta92S92FS", 31), ("_9mmHKUSP", 32),
    ("_9mmStechkinAPS", 33), ("_9mmMakarovPM", 34), ("_9mmSmithandWessonSD", 35), ("_9mmGlock17", 36),
    ("_9mmSIGSauerM17", 37), ("_9mmSIGPro", 38), ("_9mmSmithandWessonSW1911", 39),
    ("_9mmSmithandWesson5900series", 40), ("_45CalM1911", 41), ("_9_07mmRugerGP100", 50),
    ("_10mmGlock20", 60)
  ]
/-- src/common/enums.rs:14385-14403 -/
abbrev LifeFormHumanSpecificHandGuns := EnumVal LifeFormHumanSpecificHandGuns.spec
/-- src/common/enums.rs:14405-14410 -/
abbrev LifeFormHumanSpecificHandGuns.deserialize : Get LifeFormHumanSpecificHandGuns := LifeFormHumanSpecificHandGuns.spec.deserialize

/-- src/common/enums.rs:14414-14421 (default variant `Other`) -/
def LifeFormHumanSpecificWeaponNonspecific.spec : EnumSpec where
  name := "LifeFormHumanSpecificWeaponNonspecific"
  repr := .u8
  default := 0
  variants := [
    ("Other", 0), ("Knife", 10), ("Machete", 50), ("ExplosiveVest", 100), ("M18A1Claymore", 150)
  ]
/-- src/common/enums.rs:14414-14421 -/
abbrev LifeFormHumanSpecificWeaponNonspecific := EnumVal LifeFormHumanSpecificWeaponNonspecific.spec
/-- src/common/enums.rs:14423-14428 -/
abbrev LifeFormHumanSpecificWeaponNonspecific.deserialize : Get LifeFormHumanSpecificWeaponNonspecific := LifeFormHumanSpecificWeaponNonspecific.spec.deserialize

/-- src/common/enums.rs:14432-14475 (default variant `Other`) -/
def LifeFormHumanSpecificGrenadeLaunchers.spec : EnumSpec where
  name := "LifeFormHumanSpecificGrenadeLaunchers"
  repr := .u8
  default := 0
  variants := [
    ("Other", 0), ("_40x46mmArsenalUGGLM1", 1), ("_40x46mmArsenalMSGL", 2), ("_40mmVOGArsenalMSGL", 3),
    ("_40x46mmArsenalUBGLM16", 4), ("_40x46mmArsenalUBGLM8", 5), ("_40x46mmArsenalUBGLM7", 6),
    ("_30mmBS1Tishina", 10), ("_40mmBTS203", 11), ("_40mmIndumilIMC40", 12), ("_40mmVOGBG15", 20),
    ("_40mmVOGGP25Kostoyor", 21), ("_40mmVOGGP30Obuvka", 22), ("_40mmVOGGP34", 23),
    ("_40mmVOGRGM40Kastet", 24), ("_40mmVOGRG6", 25), ("_40x46mmM79", 30), ("_40x46mmM203", 31),
    ("_40x36mmM320", 32), ("_40x46mmCIS40GL", 35), ("_40x46mmEAGLEGL", 36), ("_40x46mmHKAG36", 37),
    ("_40x46mmHKAGCGLM", 38), ("_40x46mmHK69A1", 39), ("_40x46mmBerettaGLX160", 40), ("_40x46mmARDEUBGL", 41),
    ("_40x46mmXML148", 42), ("_40x46mmChinaLakeGL", 43), ("_40x46mmHawkMM1", 44), ("_25x40mmXM25CDTE", 50),
    ("_37mmMilkor3738LLStopper", 60), ("_40mmMilkor40GL", 61), ("_40mmMilkorMGL", 62),
    ("_40x47mmPalladwz1974", 65), ("_40x47mmPalladwz1983", 66), ("UGL200CanisterRWGL3", 70),
    ("_20x30mmSTDaewooK11", 80), ("_35mmType91BreechLoadGL", 90), ("_40x53mmCZW40", 95), ("_45mmDP64", 100),
    ("_20x42mmNeopupPAW20", 105)
  ]
/-- src/common/enums.rs:14432-14475 -/
abbrev LifeFormHumanSpecificGrenadeLaunchers := EnumVal LifeFormHumanSpecificGrenadeLaunchers.spec
/-- src/common/enums.rs:14477-14482 -/
abbrev LifeFormHumanSpecificGrenadeLaunchers.deserialize : Get LifeFormHumanSpecificGrenadeLaunchers := LifeFormHumanSpecificGrenadeLaunchers.spec.deserialize

/-- src/common/enums.rs:14487-14576 (default variant `Other`) -/
def LifeFormHumanSpecificMachineGuns.spec : EnumSpec where
  name := "LifeFormHumanSpecificMachineGuns"
  repr := .u8
  default := 0
  variants := [
    ("Other", 0), ("_5_56x45mmXM214MicrogunSixPak", 10), ("_7_62x51mmM134XM196Minigun", 11),
    ("_5_56x45mmM249FNMinimiSAWLMG", 20), ("_5_56x45mmFNMinimiMk3LMG", 21),
    ("_7_62x51mmFNMinimi7_62Mk3GPMG", 22), ("_7_62x63mmM1941Johnson", 25), ("_7_62x63mmM1918BAR", 26),
    ("_7_62x51mmM1919A4Mk21Mod0BrowningMMG", 27), ("_7_62x63mmM1919A6BrowningMMG", 28),
    ("_7_62x51mmM37BrowningMMG", 29), ("_5_56x45mmAresShrike5_56LMG", 30), ("_5_56x45mmLSATLMG", 31),
    ("_5_56x45mmCMG1LMG", 32), ("_5_56x45mmCMG2LMG", 33), ("_5_56x45mmStoner63ALMG", 34),
    ("_5_56x45mmUltimax100LMG", 35), ("_5_56x54mmBerettaAS7090LMG", 36), ("_5_56x45mmCETMEAmeliLMG", 37),
    ("_5_56x45mmIMINegevLMG", 38), ("_5_56x45mmINSASLMG", 39), ("_5_56x45mmAUGLMG", 40),
    ("_5_56x45mmAUGHBARLMG", 41), ("_5_56x45mmHKMG4LMG", 43), ("_5_56x45mmHK23GR9LMG", 44),
    ("_5_56x45mmM27IARSAW", 46), ("_5_56x45mmL86LSW", 47), ("_5_56x45mmDaewooK3LMG", 48),
    ("_5_56x45mmVectorMiniSSGPMG", 49), ("_7_62x51mmM60GPMG", 50), ("_7_62x51mmM60E3GPMG", 51),
    ("_7_62x51mmM60E4GPMG", 52), ("_7_62x51mmM60E6GPMG", 53), ("_7_62x51mmMark48GMPG", 55),
    ("_7_62x51mmM240FNMAG58GPMG", 58), ("_7_62x51mmM240E4M240BGPMG", 59), ("_7_62x51mmM240E1M240DGPMG", 60),
    ("_7_62x51mmM240GGPMG", 61), ("_7_62x51mmM240E5M240HGPMG", 62), ("_7_62x51mmM240LGPMG", 63),
    ("_7_62x39mmKk62LMG", 65), ("_7_62x51mmVectorSS77GPMG", 70), ("_7_62x51mmSIGMG7103GPMG", 71),
    ("_7_62x51mmSterling7_62GMPG", 72), ("_7_62x51mmSumitomoType62GPMG", 73), ("_7_62x51mmDaewooK12GPMG", 74),
    ("_7_62x51mmMG51GPMG", 75), ("_7_62x51mmRheinmetallMG3", 76), ("_7_62x51mmRheinmetallMG3KWS", 77),
    ("_7_62x51mmMG5HK121GPMG", 80), ("_7_62x51mmHK21GPMG", 81), ("_7_62x51mmAA52GPMP", 85),
    ("_7_62x51mmUKM2000GPMG", 86), ("_7_62x54mmUkvz_59GPMG", 88), ("_7_92x57mmMG42GPMG", 89),
    ("_12_7x99mmM2A1BrowningHMG", 100), ("_12_7x99mmM2HBBrowningHMG", 101),
    ("_12_7x99mmM2HBQCBBrowningHMG", 102), ("_12_7x99mmM85CHMG", 105),
    ("_12_7x99mmRheinmetallRMG_50HMG", 108), ("_12_7x99mmHK25HMG", 110), ("_12_7x99mmCIS50MG", 112),
    ("_5_45x39mmIP2LMG", 120), ("_5_45x39mmNikonovLMG", 121), ("_5_45x39mmM74RPK", 122),
    ("_7_62x39mmM43RPK", 125), ("_7_62x39mmRPDSAW", 126), ("_7_62x39mmZastavaM72", 127),
    ("_7_62x39mmType81LMG", 128), ("_7_62x51mmZastavaM77", 135), ("_7_62x54mmPKGPMG", 140),
    ("_7_62x54mmAEK999GPMP", 141), ("_7_62x54mmPechenegGPMG", 142), ("_7_62x54mmZastavaM84", 143),
    ("_7_62x54mmType67GPMG", 144), ("_7_62x54mmType80GPMG", 145), ("_12_7x108mmNSVHMG", 150),
    ("_12_7x108mmKordHMG", 151), ("_12_7x108mmKPD12_7HMG", 152), ("_12_7x108mmZastavaM02CoyotoeHMG", 153),
    ("_12_7x108mmZastavaM87", 154), ("_12_7x108mmType77HMG", 155), ("_12_7x108mmW85HMG", 156),
    ("_12_7x108mmType90HMG", 157), ("_5_8x42mmQJY88LMG", 164), ("_5_8x42mmQBB95DBP87LMG", 165),
    ("_5_56x45mmQBB951LMG", 166)
  ]
/-- src/common/enums.rs:14487-14576 -/
abbrev LifeFormHumanSpecificMachineGuns := EnumVal LifeFormHumanSpecificMachineGuns.spec
/-- src/common/enums.rs:14578-14583 -/
abbrev LifeFormHumanSpecificMachineGuns.deserialize : Get LifeFormHumanSpecificMachineGuns := LifeFormHumanSpecificMachineGuns.spec.deserialize

/-- src/common/enums.rs:14587-14609 (default variant `Other`) -/
def LifeFormHumanSpecificGrenadeLaunchingMachineGun.spec : EnumSpec where
  name := "LifeFormHumanSpecificGrenadeLaunchingMachineGun"
  repr := .u8
  default := 0
  variants := [
    ("Other", 0), ("_40x53mmHKGMG", 20), ("_40x53mmMk47Striker", 25), ("_40mmM75", 26), ("_40mmM129", 27),
    ("_40x46mmXM174", 28), ("_40x46mmMk18Mod0", 29), ("_40x53mmMk19", 30), ("_40x46mmMk20Mod0", 31),
    ("_30x29mmRAG30SAG30", 40), ("_30x29mmAGS17Plamya", 41), ("_30x29mmAGS30Atlant", 42),
    ("_40mmVOGAGS40Balkan", 43), ("_40x53mmSBLAG40", 44), ("_40x53mmVektorY3", 50), ("_40x53mmCIS40", 55),
    ("_40x56mmHowaType96", 60), ("_40x53mmDaewooPrecisionIndustriesK4", 65),
    ("_25x59mmXM307AdvancedCrewServedWeapon", 70), ("_35x32mmQLZ87", 80)
  ]
/-- src/common/enums.rs:14587-14609 -/
abbrev LifeFormHumanSpecificGrenadeLaunchingMachineGun := EnumVal LifeFormHumanSpecificGrenadeLaunchingMachineGun.spec
/-- src/common/enums.rs:14611-14616 -/
abbrev LifeFormHumanSpecificGrenadeLaunchingMachineGun.deserialize : Get LifeFormHumanSpecificGrenadeLaunchingMachineGun := LifeFormHumanSpecificGrenadeLaunchingMachineGun.spec.deserialize

/-- src/common/enums.rs:14620-14691 (default variant `Other`) -/
def LifeFormHumanSpecificAntiTankRockets.spec : EnumSpec where
  name := "LifeFormHumanSpecificAntiTankRockets"
  repr := .u8
  default := 0
  variants := [
    ("Other", 0), ("_82mmB300", 10), ("_82mmShipon", 11), ("_83mmMK153Mod0SMAW", 12), ("_66mmM72LAW", 20),
    ("_66mmM72A1LAW", 21), ("_66mmM72A2LAW", 22), ("_66mmM72A3LAW", 23), ("_66mmM72A4LAW", 24),
    ("_66mmM72A5LAW", 25), ("_66mmM72A6LAW", 26), ("_66mmM72A7LAW", 27), ("_66mmM72E8LAW", 28),
    ("_66mmM72E9LAW", 29), ("_66mmM72E10LAW", 30), ("_66mmM72ASLAW", 31), ("_94mmLAW80", 35),
    ("_60mmM1Bazooka", 40), ("_60mmM1A1Bazooka", 41), ("_60mmM9Bazooka", 42), ("_60mmM9A1Bazooka", 43),
    ("_89mmM20SuperBazooka", 44), ("_89mmM20A1SuperBazooka", 45), ("_89mmM20B1SuperBazooka", 46),
    ("_89mmM20A1B1SuperBazooka", 47), ("_89mmM25ThreeShotBazooka", 48), ("_89mmInstalazaM65", 49),
    ("_90mmInstalazaC90", 50), ("_90mmC90CR", 51), ("_90mmC90CRAM", 52), ("_90mmC90CRBK", 53),
    ("_90mmC90CRIN", 54), ("_60mmPzF3", 60), ("_60mmPzF3IT", 61), ("_60mmPzF3Bunkerfaust", 62),
    ("_44mmPzF44", 65), ("_30mmPanzerfaust30", 70), ("_50mmPanzerfaust60", 71), ("_60mmPanzerfaust100", 72),
    ("_60mmPanzerfaust150", 73), ("_88mmPanzerschreckRPzB", 75), ("_83mmRL83Blindicide", 80),
    ("_100mmRL100Blindicide", 81), ("_90mmM79Osa", 85), ("_64mmM80Zolja", 86), ("_67mmArmburstCrossbow", 90),
    ("_40mmType69RPG", 93), ("_89mmPIAT", 95), ("_40mmRPG2", 100), ("_64mmRPG18Mukha", 101),
    ("_72_5mmRPG22Netto", 102), ("_72_5mmRPG26Aglen", 103), ("_105mmRPG29Vampir", 104),
    ("_105mmRPG30Kryuk", 105), ("_105mmRPG32Nashshab", 106), ("_40mmRPG7", 110), ("_40mmPSRL1", 111),
    ("_40mmGS777PSRL2", 112), ("_68mmRPG76Komar", 120), ("_120mmSEPDard120", 125), ("_58mmWASP58", 128),
    ("_73mmLRAC7350", 130), ("_89mmLRAC89F1STRIM", 131), ("_90mmMATADOR", 135), ("_90mmMATADORMP", 136),
    ("_90mmMATADORWB", 137), ("_90mmMATADORAS", 138), ("_78mmMARAAntiTankRocketLauncher", 140),
    ("_120mmType98PF98", 145)
  ]
/-- src/common/enums.rs:14620-14691 -/
abbrev LifeFormHumanSpecificAntiTankRockets := EnumVal LifeFormHumanSpecificAntiTankRockets.spec
/-- src/common/enums.rs:14693-14698 -/
abbrev LifeFormHumanSpecificAntiTankRockets.deserialize : Get LifeFormHumanSpecificAntiTankRockets := LifeFormHumanSpecificAntiTankRockets.spec.deserialize

/-- src/common/enums.rs:14703-14779 (default variant `Other`) -/
def LifeFormHumanSpecificAntiTankMissiles.spec : EnumSpec where
  name := "LifeFormHumanSpecificAntiTankMissiles"
  repr := .u8
  default := 0
  variants := [
    ("Other", 0), ("_120mmType64MATKAM3", 30), ("_153mmType79JyuMATKAM9", 31), ("_120mmType87ChuMAT", 32),
    ("_140mmType01LMAT", 33), ("_140mmM47Dragon", 58), ("_140mmSaeghe12", 59), ("_127mmFGM148Javelin", 60),
    ("_139mmFGM172SRAW", 63), ("_139mmFGM172BSRAWMPV", 64), ("_152mmBGM71TOW", 68), ("_152mmOrevTOWII", 69),
    ("_120mmVickersVigilantClevite", 75), ("_110mmBantam", 80), ("_150mmRBS56BILL1", 81),
    ("_150mmRBS562BILL2", 82), ("_130mmSpikeSR", 85), ("_130mmSpikeMR", 86), ("_130mmSpikeLR", 87),
    ("_60mmMosquito", 95), ("_160mmSS_10", 98), ("_103mmMILAN", 100), ("_115mmMILAN2", 101),
    ("_115mmMILAN2T", 102), ("_115mmMILAN3", 103), ("_115mmMILANER", 104), ("_136mmERYX", 105),
    ("_152mmEntac", 107), ("_125mmRAAD", 110), ("_125mmIRAADT", 111), ("_152mmToophan", 112),
    ("_152mmToophan2", 113), ("_152mmToophan5", 114), ("_136mmBumbar", 120), ("_130mmShershenPK2", 125),
    ("_152mmShershenQP2B", 126), ("_130mmMectronMSS1_2", 130), ("_120mmHJ8", 140), ("_120mmHJ8A", 141),
    ("_120mmHJ8B", 142), ("_120mmHJ8C", 143), ("_120mmHJ8D", 144), ("_120mmHJ8E", 145), ("_120mmHJ8F", 146),
    ("_120mmHJ8FAE", 147), ("_120mmHJ8L", 148), ("_120mmHJ8H", 149), ("_120mmHJ8S", 150),
    ("_120mmBaktarShikan", 151), ("_120mmHJ11", 152), ("_152mmHJ9A", 153), ("_135mmHJ12RedArrow", 154),
    ("_125mmHJ73MCLOS", 155), ("_125mmHJ73BSACLOS", 156), ("_125mmHJ73CSACLOSERA", 157),
    ("_125mmAT3SaggerA9M14Malyutka", 170), ("_125mmAT3BSaggerB9M14MMalyutkaM", 171),
    ("_125mmAT3CSaggerC9M14PMalyutkaP", 172), ("_125mmAT3DSaggerD9M142Malyutka2", 173),
    ("_125mmSusongPo", 174), ("_125mmAT3CPOLK", 175), ("_125mmKunWu1", 176), ("_125mmMaliutkaM2T", 177),
    ("_120mmAT4ASpigotA9M111Fagot", 178), ("_120mmAT4BSpigotB9M1112Fagot", 179),
    ("_120mmAT4CSpigotC9M111MFaktoriya", 180), ("_135mmAT5ASpandrel9M113Kronkurs", 181),
    ("_135mmAT5BSpandrel9M113MKronkursM", 182), ("_135mmTosan", 183), ("_94mmAT7Saxhorn9K115Metis", 184),
    ("_130mmAT13Saxhorn29K1152MetisM", 185), ("_152mmAT14Spriggan9M133Kornet", 186), ("_152mmDehlavie", 187),
    ("_102mmMathogo", 200)
  ]
/-- src/common/enums.rs:14703-14779 -/
abbrev LifeFormHumanSpecificAntiTankMissiles := EnumVal LifeFormHumanSpecificAntiTankMissiles.spec
/-- src/common/enums.rs:14781-14786 -/
abbrev LifeFormHumanSpecificAntiTankMissiles.deserialize : Get LifeFormHumanSpecificAntiTankMissiles := LifeFormHumanSpecificAntiTankMissiles.spec.deserialize

/-- src/common/enums.rs:14790-14816 (default variant `Other`) -/
def LifeFormHumanSpecificManPortableAirDefenseSystem.spec : EnumSpec where
  name := "LifeFormHumanSpecificManPortableAirDefenseSystem"
  repr := .u8
  default := 0
  variants := [
    ("Other", 0), ("_70mmFIM43Redeye", 1), ("_70mmFIM92Stinger", 2), ("_76mmBlowpipe", 10),
    ("_76mmStarburst", 11), ("_130mmStarstreakHVM", 12), ("_90mmMistral", 15), ("_72mm9K32MStrela2", 20),
    ("_72mm9K36Strela3", 21), ("_72mm9K38Igla", 22), ("_72mm9K310IglaM", 23), ("_72mm9K333Verba", 24),
    ("_72mm9K338IglaS", 25), ("_72mm9K32MStrela2M", 26), ("_72mmHN5HongYing5", 30), ("_72mmQW1Vanguard", 31),
    ("_72mmQW2Vanguard2", 32), ("_90mmQW3", 33), ("_72mmFN6", 34), ("_71mmMisagh1", 45), ("_71mmMisagh2", 46),
    ("_80mmType91KinSAM", 50), ("_80mmKPSAMShunGung", 55), ("_106mmRBS70", 60)
  ]
/-- src/common/enums.rs:14790-14816 -/
abbrev LifeFormHumanSpecificManPortableAirDefenseSystem := EnumVal LifeFormHumanSpecificManPortableAirDefenseSystem.spec
/-- src/common/enums.rs:14818-14823 -/
abbrev LifeFormHumanSpecificManPortableAirDefenseSystem.deserialize : Get LifeFormHumanSpecificManPortableAirDefenseSystem := LifeFormHumanSpecificManPortableAirDefenseSystem.spec.deserialize

/-- src/common/enums.rs:14827-14858 (default variant `Other`) -/
def LifeFormHumanSpecificRecoillessRifles.spec : EnumSpec where
  name := "LifeFormHumanSpecificRecoillessRifles"
  repr := .u8
  default := 0
  variants := [
    ("Other", 0), ("_84mmM136AT4CS", 15), ("_57mmM18RR", 20), ("_75mmM20RR", 21),
    ("_120mmM28DavyCrockett", 22), ("_155mmM29DavyCrockett", 23), ("_106mmM40RecoillessRifle", 24),
    ("_82mmM60RR", 25), ("_90mmM67RR", 26), ("_84mmM1CarlGustav", 30), ("_84mmM2CarlGustav", 31),
    ("_84mmM3CarlGustav", 32), ("_84mmM4CarlGustav", 33), ("_74mmPansarskottm68Miniman", 35),
    ("_84mmALAC", 40), ("_82mmB10RR", 45), ("_107mmB11RR", 46), ("_80mmBredaFolgore", 50),
    ("_120mmBATRR", 55), ("_73mmSPG9Kopye", 60), ("_88mmRCL3_45in", 65), ("_90mmPvpj110", 70),
    ("_50mmJagdfaust", 75), ("_30mmRheinmetallRMK30", 80), ("_88mm55S55Raikka", 90), ("_95mm95S5861", 91),
    ("_73mmLG40", 95), ("_105mmLG40", 96), ("_105mmLG42", 97)
  ]
/-- src/common/enums.rs:14827-14858 -/
abbrev LifeFormHumanSpecificRecoillessRifles := EnumVal LifeFormHumanSpecificRecoillessRifles.spec
/-- src/common/enums.rs:14860-14865 -/
abbrev LifeFormHumanSpecificRecoillessRifles.deserialize : Get LifeFormHumanSpecificRecoillessRifles := LifeFormHumanSpecificRecoillessRifles.spec.deserialize

/-- src/common/enums.rs:14869-14878 (default variant `Other`) -/
def LifeFormHumanSpecificFlameRockets.spec : EnumSpec where
  name := "LifeFormHumanSpecificFlameRockets"
  repr := .u8
  default := 0
  variants := [
    ("Other", 0), ("_66mmM202Flash", 20), ("_62mmFHJ84", 30), ("_90mmC90CRFIM", 40), ("_93mmRPOAShmel", 50),
    ("_93mmRPOZShmel", 51), ("_93mmRPODShmel", 52)
  ]
/-- src/common/enums.rs:14869-14878 -/
abbrev LifeFormHumanSpecificFlameRockets := EnumVal LifeFormHumanSpecificFlameRockets.spec
/-- src/common/enums.rs:14880-14885 -/
abbrev LifeFormHumanSpecificFlameRockets.deserialize : Get LifeFormHumanSpecificFlameRockets := LifeFormHumanSpecificFlameRockets.spec.deserialize

/-- src/common/enums.rs:14889-14906 (default variant `Other`) -/
def LifeFormHumanSpecificFlameThrowers.spec : EnumSpec where
  name := "LifeFormHumanSpecificFlameThrowers"
  repr := .u8
  default := 0
  variants := [
    ("Other", 0), ("Handflammpatrone", 10), ("FmW41", 11), ("M1A1", 20), ("M2A17", 21), ("M9A17", 22),
    ("LPO50", 30), ("KPattern", 35), ("PortableNo2AckPack", 36), ("Marsden", 37), ("Harvey", 38),
    ("ROKS2", 45), ("ROKS3", 46), ("Type93", 50), ("Type100", 51)
  ]
/-- src/common/enums.rs:14889-14906 -/
abbrev LifeFormHumanSpecificFlameThrowers := EnumVal LifeFormHumanSpecificFlameThrowers.spec
/-- src/common/enums.rs:14908-14913 -/
abbrev LifeFormHumanSpecificFlameThrowers.deserialize : Get LifeFormHumanSpecificFlameThrowers := LifeFormHumanSpecificFlameThrowers.spec.deserialize

/-- src/common/enums.rs:14917-14922 (default variant `Other`) -/
def LifeFormHumanSpecificDroneGuns.spec : EnumSpec where
  name := "LifeFormHumanSpecificDroneGuns"
  repr := .u8
  default := 0
  variants := [
    ("Other", 0), ("DroneGunTactical", 15), ("DroneGunMKII", 16)
  ]
/-- src/common/enums.rs:14917-14922 -/
abbrev LifeFormHumanSpecificDroneGuns := EnumVal LifeFormHumanSpecificDroneGuns.spec
/-- src/common/enums.rs:14924-14929 -/
abbrev LifeFormHumanSpecificDroneGuns.deserialize : Get LifeFormHumanSpecificDroneGuns := LifeFormHumanSpecificDroneGuns.spec.deserialize

/-- src/common/enums.rs:14933-14936 (default variant `SlingLoadPendant`) -/
def LifeFormHumanSpecificLogisticsEQClass.spec : EnumSpec where
  name := "LifeFormHumanSpecificLogisticsEQClass"
  repr := .u8
  default := 1
  variants := [
    ("SlingLoadPendant", 1)
  ]
/-- src/common/enums.rs:14933-14936 -/
abbrev LifeFormHumanSpecificLogisticsEQClass := EnumVal LifeFormHumanSpecificLogisticsEQClass.spec
/-- src/common/enums.rs:14938-14943 -/
abbrev LifeFormHumanSpecificLogisticsEQClass.deserialize : Get LifeFormHumanSpecificLogisticsEQClass := LifeFormHumanSpecificLogisticsEQClass.spec.deserialize

/-- src/common/enums.rs:14947-14950 (default variant `CellPhone`) -/
def LifeFormHumanSpecificPersonalElectronicsClass.spec : EnumSpec where
  name := "LifeFormHumanSpecificPersonalElectronicsClass"
  repr := .u8
  default := 1
  variants := [
    ("CellPhone", 1)
  ]
/-- src/common/enums.rs:14947-14950 -/
abbrev LifeFormHumanSpecificPersonalElectronicsClass := EnumVal LifeFormHumanSpecificPersonalElectronicsClass.spec
/-- src/common/enums.rs:14952-14957 -/
abbrev LifeFormHumanSpecificPersonalElectronicsClass.deserialize : Get LifeFormHumanSpecificPersonalElectronicsClass := LifeFormHumanSpecificPersonalElectronicsClass.spec.deserialize

/-- src/common/enums.rs:14961-14965 (default variant `GenericLaserDesignator`) -/
def LifeFormHumanSpecificLasersClass.spec : EnumSpec where
  name := "LifeFormHumanSpecificLasersClass"
  repr := .u8
  default := 1
  variants := [
    ("GenericLaserDesignator", 1), ("GenericLaserPointer", 2)
  ]
/-- src/common/enums.rs:14961-14965 -/
abbrev LifeFormHumanSpecificLasersClass := EnumVal LifeFormHumanSpecificLasersClass.spec
/-- src/common/enums.rs:14967-14972 -/
abbrev LifeFormHumanSpecificLasersClass.deserialize : Get LifeFormHumanSpecificLasersClass := LifeFormHumanSpecificLasersClass.spec.deserialize

/-- src/common/enums.rs:14976-14980 (default variant `Other`) -/
def TransmitterDetailSATCOMModulation.spec : EnumSpec where
  name := "TransmitterDetailSATCOMModulation"
  repr := .u16
  default := 0
  variants := [
    ("Other", 0), ("NoDelay", 1)
  ]
/-- src/common/enums.rs:14976-14980 -/
abbrev TransmitterDetailSATCOMModulation := EnumVal TransmitterDetailSATCOMModulation.spec
/-- src/common/enums.rs:14982-14987 -/
abbrev TransmitterDetailSATCOMModulation.deserialize : Get TransmitterDetailSATCOMModulation := TransmitterDetailSATCOMModulation.spec.deserialize

/-- src/common/enums.rs:14991-15006 (default variant `NotUsed`) -/
def SupplyDomain.spec : EnumSpec where
  name := "SupplyDomain"
  repr := .u8
  default := 0
  variants := [
    ("NotUsed", 0), ("Class1Subsistence", 1), ("Class2ClothingIndividualEquipmentToolsAdminSupplies", 2),
    ("Class3PetroleumOilsLubricants", 3), ("Class4ConstructionMaterials", 4), ("Class5Ammunition", 5),
    ("Class6PersonnelDemandItems", 6), ("Class7MajorItems", 7), ("Class8MedicalMaterial", 8),
    ("Class9RepairPartsandComponents", 9), ("Class10MaterialtoSupportNonMilitaryPrograms", 10),
    ("Class11Supplies", 11), ("Class12SlingLoads", 12)
  ]
/-- src/common/enums.rs:14991-15006 -/
abbrev SupplyDomain := EnumVal SupplyDomain.spec
/-- src/common/enums.rs:15008-15013 -/
abbrev SupplyDomain.deserialize : Get SupplyDomain := SupplyDomain.spec.deserialize

/-- src/common/enums.rs:15017-15025 (default variant `Other`) -/
def Class1SupplyCategorySubsistence.spec : EnumSpec where
  name := "Class1SupplyCategorySubsistence"
  repr := .u8
  default := 1
  variants := [
    ("Other", 1), ("ANonPerishable", 2), ("CCombatRations", 3), ("RRefrigerated", 4),
    ("SOtherNonRefrigerated", 5), ("WWater", 6)
  ]
/-- src/common/enums.rs:15017-15025 -/
abbrev Class1SupplyCategorySubsistence := EnumVal Class1SupplyCategorySubsistence.spec
/-- src/common/enums.rs:15027-15032 -/
abbrev Class1SupplyCategorySubsistence.deserialize : Get Class1SupplyCategorySubsistence := Class1SupplyCategorySubsistence.spec.deserialize

/-- src/common/enums.rs:15036-15046 (default variant `Other`) -/
def Class2SupplyCategoryClothingIndividualEquipmentToolsAdminSupplies.spec : EnumSpec where
  name := "Class2SupplyCategoryClothingIndividualEquipmentToolsAdminSupplies"
  repr := .u8
  default := 1
  variants := [
    ("Other", 1), ("AAir", 2), ("BGroundSupportMateriel", 3), ("EGeneralSupplies", 4), ("FClothing", 5),
    ("GElectronics", 6), ("MWeapons", 7), ("TIndustrialSupplies", 8)
  ]
/-- src/common/enums.rs:15036-15046 -/
abbrev Class2SupplyCategoryClothingIndividualEquipmentToolsAdminSupplies := EnumVal Class2SupplyCategoryClothingIndividualEquipmentToolsAdminSupplies.spec
/-- src/common/enums.rs:15048-15053 -/
abbrev Class2SupplyCategoryClothingIndividualEquipmentToolsAdminSupplies.deserialize : Get Class2SupplyCategoryClothingIndividualEquipmentToolsAdminSupplies := Class2SupplyCategoryClothingIndividualEquipmentToolsAdminSupplies.spec.deserialize

/-- src/common/enums.rs:15057-15063 (default variant `Other`) -/
def Class3SupplyCategoryPetroleumOilsLubricants.spec : EnumSpec where
  name := "Class3SupplyCategoryPetroleumOilsLubricants"
  repr := .u8
  default := 1
  variants := [
    ("Other", 1), ("APOLforAirVehicles", 2), ("WPOLforLandVehicles", 3), ("PPackagedPOL", 4)
  ]
/-- src/common/enums.rs:15057-15063 -/
abbrev Class3SupplyCategoryPetroleumOilsLubricants := EnumVal Class3SupplyCategoryPetroleumOilsLubricants.spec
/-- src/common/enums.rs:15065-15070 -/
abbrev Class3SupplyCategoryPetroleumOilsLubricants.deserialize : Get Class3SupplyCategoryPetroleumOilsLubricants := Class3SupplyCategoryPetroleumOilsLubricants.spec.deserialize

/-- src/common/enums.rs:15074-15079 (default variant `Other`) -/
def Class4SupplyCategoryConstructionMaterials.spec : EnumSpec where
  name := "Class4SupplyCategoryConstructionMaterials"
  repr := .u8
  default := 1
  variants := [
    ("Other", 1), ("AConstruction", 2), ("BBarrier", 3)
  ]
/-- src/common/enums.rs:15074-15079 -/
abbrev Class4SupplyCategoryConstructionMaterials := EnumVal Class4SupplyCategoryConstructionMaterials.spec
/-- src/common/enums.rs:15081-15086 -/
abbrev Class4SupplyCategoryConstructionMaterials.deserialize : Get Class4SupplyCategoryConstructionMaterials := Class4SupplyCategoryConstructionMaterials.spec.deserialize

/-- src/common/enums.rs:15090-15093 (default variant `Other`) -/
def Class6SupplyCategoryPersonnelDemandItems.spec : EnumSpec where
  name := "Class6SupplyCategoryPersonnelDemandItems"
  repr := .u8
  default := 1
  variants := [
    ("Other", 1)
  ]
/-- src/common/enums.rs:15090-15093 -/
abbrev Class6SupplyCategoryPersonnelDemandItems := EnumVal Class6SupplyCategoryPersonnelDemandItems.spec
/-- src/common/enums.rs:15095-15100 -/
abbrev Class6SupplyCategoryPersonnelDemandItems.deserialize : Get Class6SupplyCategoryPersonnelDemandItems := Class6SupplyCategoryPersonnelDemandItems.spec.deserialize

/-- src/common/enums.rs:15104-15131 (default variant `Other`) -/
def Class7SupplyCategoryMajorItems.spec : EnumSpec where
  name := "Class7SupplyCategoryMajorItems"
  repr := .u8
  default := 1
  variants := [
    ("Other", 1), ("AAir", 2), ("BGroundSupportMateriel", 3), ("DAdminVehicles", 4), ("GElectronics", 5),
    ("JRacksAdaptorsPylons", 6), ("KTacticalVehicles", 7), ("LMissiles", 8), ("MWeapons", 9),
    ("NSpecialWeapons", 10), ("XAircraftEngines", 11), ("DropTank", 20), ("ConformalFuelTank", 21),
    ("LuggagePod", 22), ("ECMPod", 23), ("ParaDrogue", 24), ("TargetingPod", 25), ("Fairing", 26),
    ("AirRefuellingPod", 27), ("HeavyAirdrop", 28), ("ContainerDeliverySystemAirdrop", 29),
    ("RocketPodLauncher", 30), ("TacticalPod", 31), ("RECCEpod", 32), ("FLIRpod", 33)
  ]
/-- src/common/enums.rs:15104-15131 -/
abbrev Class7SupplyCategoryMajorItems := EnumVal Class7SupplyCategoryMajorItems.spec
/-- src/common/enums.rs:15133-15138 -/
abbrev Class7SupplyCategoryMajorItems.deserialize : Get Class7SupplyCategoryMajorItems := Class7SupplyCategoryMajorItems.spec.deserialize

/-- src/common/enums.rs:15142-15147 (default variant `Other`) -/
def Class8SupplyCategoryMedicalMaterial.spec : EnumSpec where
  name := "Class8SupplyCategoryMedicalMaterial"
  repr := .u8
  default := 1
  variants := [
    ("Other", 1), ("AMedicalMateriel", 2), ("BBloodFluids", 3)
  ]
/-- src/common/enums.rs:15142-15147 -/
abbrev Class8SupplyCategoryMedicalMaterial := EnumVal Class8SupplyCategoryMedicalMaterial.spec
/-- src/common/enums.rs:15149-15154 -/
abbrev Class8SupplyCategoryMedicalMaterial.deserialize : Get Class8SupplyCategoryMedicalMaterial := Class8SupplyCategoryMedicalMaterial.spec.deserialize

/-- src/common/enums.rs:15158-15170 (default variant `Other`) -/
def Class9SupplyCategoryRepairPartsandComponents.spec : EnumSpec where
  name := "Class9SupplyCategoryRepairPartsandComponents"
  repr := .u8
  default := 1
  variants := [
    ("Other", 1), ("AAir", 2), ("BGroundSupportMateriel", 3), ("DAdminVehicles", 4), ("GElectronics", 5),
    ("KTacticalVehicles", 6), ("LMissiles", 7), ("MWeapons", 8), ("NSpecialWeapons", 9),
    ("XAircraftEngines", 10)
  ]
/-- src/common/enums.rs:15158-15170 -/
abbrev Class9SupplyCategoryRepairPartsandComponents := EnumVal Class9SupplyCategoryRepairPartsandComponents.spec
/-- src/common/enums.rs:15172-15177 -/
abbrev Class9SupplyCategoryRepairPartsandComponents.deserialize : Get Class9SupplyCategoryRepairPartsandComponents := Class9SupplyCategoryRepairPartsandComponents.spec.deserialize

/-- src/common/enums.rs:15181-15184 (default variant `Other`) -/
def Class10SupplyCategoryMaterialToSupportNonMilitaryPrograms.spec : EnumSpec where
  name := "Class10SupplyCategoryMaterialToSupportNonMilitaryPrograms"
  repr := .u8
  default := 1
  variants := [
    ("Other", 1)
  ]
/-- src/common/enums.rs:15181-15184 -/
abbrev Class10SupplyCategoryMaterialToSupportNonMilitaryPrograms := EnumVal Class10SupplyCategoryMaterialToSupportNonMilitaryPrograms.spec
/-- src/common/enums.rs:15186-15191 -/
abbrev Class10SupplyCategoryMaterialToSupportNonMilitaryPrograms.deserialize : Get Class10SupplyCategoryMaterialToSupportNonMilitaryPrograms := Class10SupplyCategoryMaterialToSupportNonMilitaryPrograms.spec.deserialize

/-- src/common/enums.rs:15195-15202 (default variant `Other`) -/
def Class11SupplyCategorySupplies.spec : EnumSpec where
  name := "Class11SupplyCategorySupplies"
  repr := .u8
  default := 1
  variants := [
    ("Other", 1), ("Pallets", 2), ("FuelTanksDrumsandBladders", 3), ("Chests", 4), ("Boxes", 5)
  ]
/-- src/common/enums.rs:15195-15202 -/
abbrev Class11SupplyCategorySupplies := EnumVal Class11SupplyCategorySupplies.spec
/-- src/common/enums.rs:15204-15209 -/
abbrev Class11SupplyCategorySupplies.deserialize : Get Class11SupplyCategorySupplies := Class11SupplyCategorySupplies.spec.deserialize

/-- src/common/enums.rs:15213-15227 (default variant `Other`) -/
def Class12SupplyCategorySlingLoads.spec : EnumSpec where
  name := "Class12SupplyCategorySlingLoads"
  repr := .u8
  default := 1
  variants := [
    ("Other", 1), ("SlingLoadBlivet", 2), ("SlingLoadCrate", 3), ("SlingLoadWaterBucket", 4),
    ("SlingLoadVehicles", 5), ("SlingLoadHowitzer", 6), ("SlingLoadCollapsible", 7), ("SlingLoadBladder", 8),
    ("SlingLoadPalletofCrates", 9), ("SlingLoadHelicopters", 10), ("SlingLoadHoist", 11),
    ("SlingLoadConcreteBlock", 12)
  ]
/-- src/common/enums.rs:15213-15227 -/
abbrev Class12SupplyCategorySlingLoads := EnumVal Class12SupplyCategorySlingLoads.spec
/-- src/common/enums.rs:15229-15234 -/
abbrev Class12SupplyCategorySlingLoads.deserialize : Get Class12SupplyCategorySlingLoads := Class12SupplyCategorySlingLoads.spec.deserialize

/-- src/common/enums.rs:15238-15244 (default variant `Lifeboat`) -/
def LifeSavingEquipment.spec : EnumSpec where
  name := "LifeSavingEquipment"
  repr := .u8
  default := 1
  variants := [
    ("Lifeboat", 1), ("Liferaft", 2), ("MOBBoat", 3), ("Lifebuoy", 4)
  ]
/-- src/common/enums.rs:15238-15244 -/
abbrev LifeSavingEquipment := EnumVal LifeSavingEquipment.spec
/-- src/common/enums.rs:15246-15251 -/
abbrev LifeSavingEquipment.deserialize : Get LifeSavingEquipment := LifeSavingEquipment.spec.deserialize

/-- src/common/enums.rs:15255-15264 (default variant `Other`) -/
def IslandSubcategory.spec : EnumSpec where
  name := "IslandSubcategory"
  repr := .u16
  default := 0
  variants := [
    ("Other", 0), ("Islands10002499km2", 1), ("Islands25004999km2", 2), ("Islands50009999km2", 3),
    ("Islands1000024999km2", 4), ("Islands2500099999km2", 5), ("Islands100000km2andGreater", 6)
  ]
/-- src/common/enums.rs:15255-15264 -/
abbrev IslandSubcategory := EnumVal IslandSubcategory.spec
/-- src/common/enums.rs:15266-15271 -/
abbrev IslandSubcategory.deserialize : Get IslandSubcategory := IslandSubcategory.spec.deserialize

/-- src/common/enums.rs:15275-15282 (default variant `NoStatement`) -/
def Link11MessageSubType.spec : EnumSpec where
  name := "Link11MessageSubType"
  repr := .u8
  default := 0
  variants := [
    ("NoStatement", 0), ("Interrogation", 1), ("DataStart", 2), ("Data", 3), ("DataStop", 4)
  ]
/-- src/common/enums.rs:15275-15282 -/
abbrev Link11MessageSubType := EnumVal Link11MessageSubType.spec
/-- src/common/enums.rs:15284-15289 -/
abbrev Link11MessageSubType.deserialize : Get Link11MessageSubType := Link11MessageSubType.spec.deserialize

/-- src/common/enums.rs:15293-15302 (default variant `NoStatement`) -/
def Link11MessageTypeIdentifier.spec : EnumSpec where
  name := "Link11MessageTypeIdentifier"
  repr := .u8
  default := 0
  variants := [
    ("NoStatement", 0), ("NetTest", 1), ("RollCall", 2), ("PicketReply", 3), ("ShortBroadcast", 4),
    ("Broadcast", 5), ("NetSync", 6)
  ]
/-- src/common/enums.rs:15293-15302 -/
abbrev Link11MessageTypeIdentifier := EnumVal Link11MessageTypeIdentifier.spec
/-- src/common/enums.rs:15304-15309 -/
abbrev Link11MessageTypeIdentifier.deserialize : Get Link11MessageTypeIdentifier := Link11MessageTypeIdentifier.spec.deserialize

/-- src/common/enums.rs:15313-15320 (default variant `NoStatement`) -/
def Link11DataSignallingRate.spec : EnumSpec where
  name := "Link11DataSignallingRate"
  repr := .u8
  default := 0
  variants := [
    ("NoStatement", 0), ("_1364bps", 1), ("_2250bps", 2), ("_1200bps", 3), ("_2400bps", 4)
  ]
/-- src/common/enums.rs:15313-15320 -/
abbrev Link11DataSignallingRate := EnumVal Link11DataSignallingRate.spec
/-- src/common/enums.rs:15322-15327 -/
abbrev Link11DataSignallingRate.deserialize : Get Link11DataSignallingRate := Link11DataSignallingRate.spec.deserialize

/-- src/common/enums.rs:15331-15336 (default variant `NoStatement`) -/
def Link11SignalIntegrationInterval.spec : EnumSpec where
  name := "Link11SignalIntegrationInterval"
  repr := .u8
  default := 0
  variants := [
    ("NoStatement", 0), ("_9ms", 1), ("_18ms", 2)
  ]
/-- src/common/enums.rs:15331-15336 -/
abbrev Link11SignalIntegrationInterval := EnumVal Link11SignalIntegrationInterval.spec
/-- src/common/enums.rs:15338-15343 -/
abbrev Link11SignalIntegrationInterval.deserialize : Get Link11SignalIntegrationInterval := Link11SignalIntegrationInterval.spec.deserialize

/-- src/common/enums.rs:15347-15352 (default variant `NoStatementCLEWFormat`) -/
def Link11SignalWaveform.spec : EnumSpec where
  name := "Link11SignalWaveform"
  repr := .u8
  default := 0
  variants := [
    ("NoStatementCLEWFormat", 0), ("ConventionalLinkElevenWaveform", 1), ("SingleToneLinkElevenWaveform", 2)
  ]
/-- src/common/enums.rs:15347-15352 -/
abbrev Link11SignalWaveform := EnumVal Link11SignalWaveform.spec
/-- src/common/enums.rs:15354-15359 -/
abbrev Link11SignalWaveform.deserialize : Get Link11SignalWaveform := Link11SignalWaveform.spec.deserialize

/-- src/common/enums.rs:15363-15367 (default variant `NoEncryptionUsed`) -/
def Link11_11BEncryptionFlag.spec : EnumSpec where
  name := "Link11_11BEncryptionFlag"
  repr := .u8
  default := 0
  variants := [
    ("NoEncryptionUsed", 0), ("EncryptionUsed", 1)
  ]
/-- src/common/enums.rs:15363-15367 -/
abbrev Link11_11BEncryptionFlag := EnumVal Link11_11BEncryptionFlag.spec
/-- src/common/enums.rs:15369-15374 -/
abbrev Link11_11BEncryptionFlag.deserialize : Get Link11_11BEncryptionFlag := Link11_11BEncryptionFlag.spec.deserialize

/-- src/common/enums.rs:15378-15382 (default variant `SISOSTD0022006`) -/
def SISOSTD002Version.spec : EnumSpec where
  name := "SISOSTD002Version"
  repr := .u8
  default := 0
  variants := [
    ("SISOSTD0022006", 0), ("SISOSTD0022021", 1)
  ]
/-- src/common/enums.rs:15378-15382 -/
abbrev SISOSTD002Version := EnumVal SISOSTD002Version.spec
/-- src/common/enums.rs:15384-15389 -/
abbrev SISOSTD002Version.deserialize : Get SISOSTD002Version := SISOSTD002Version.spec.deserialize

/-- src/common/enums.rs:15393-15400 (default variant `NoStatement`) -/
def Link11BLinkState.spec : EnumSpec where
  name := "Link11BLinkState"
  repr := .u8
  default := 0
  variants := [
    ("NoStatement", 0), ("Inactive", 1), ("Ready", 2), ("Active", 3), ("Operational", 4)
  ]
/-- src/common/enums.rs:15393-15400 -/
abbrev Link11BLinkState := EnumVal Link11BLinkState.spec
/-- src/common/enums.rs:15402-15407 -/
abbrev Link11BLinkState.deserialize : Get Link11BLinkState := Link11BLinkState.spec.deserialize

/-- src/common/enums.rs:15411-15417 (default variant `NoStatement`) -/
def Link11BModeofOperation.spec : EnumSpec where
  name := "Link11BModeofOperation"
  repr := .u16
  default := 0
  variants := [
    ("NoStatement", 0), ("FullTransmissionofData", 1), ("LimitedTransmissionofData", 2), ("Receiveonly", 3)
  ]
/-- src/common/enums.rs:15411-15417 -/
abbrev Link11BModeofOperation := EnumVal Link11BModeofOperation.spec
/-- src/common/enums.rs:15419-15424 -/
abbrev Link11BModeofOperation.deserialize : Get Link11BModeofOperation := Link11BModeofOperation.spec.deserialize

/-- src/common/enums.rs:15428-15433 (default variant `NoStatement`) -/
def Link11BMessageSubType.spec : EnumSpec where
  name := "Link11BMessageSubType"
  repr := .u8
  default := 0
  variants := [
    ("NoStatement", 0), ("TransmissionFrame", 1), ("StandbySignal", 2)
  ]
/-- src/common/enums.rs:15428-15433 -/
abbrev Link11BMessageSubType := EnumVal Link11BMessageSubType.spec
/-- src/common/enums.rs:15435-15440 -/
abbrev Link11BMessageSubType.deserialize : Get Link11BMessageSubType := Link11BMessageSubType.spec.deserialize

/-- src/common/enums.rs:15444-15450 (default variant `NoStatement`) -/
def Link11BDataSignalingRate.spec : EnumSpec where
  name := "Link11BDataSignalingRate"
  repr := .u8
  default := 0
  variants := [
    ("NoStatement", 0), ("_1200bps", 3), ("_2400bps", 4), ("_600bps", 5)
  ]
/-- src/common/enums.rs:15444-15450 -/
abbrev Link11BDataSignalingRate := EnumVal Link11BDataSignalingRate.spec
/-- src/common/enums.rs:15452-15457 -/
abbrev Link11BDataSignalingRate.deserialize : Get Link11BDataSignalingRate := Link11BDataSignalingRate.spec.deserialize

/-- src/common/enums.rs:15462-15466 (default variant `NoStatement`) -/
def Link11BModulationStandard.spec : EnumSpec where
  name := "Link11BModulationStandard"
  repr := .u8
  default := 0
  variants := [
    ("NoStatement", 0), ("CCITTV_23", 1)
  ]
/-- src/common/enums.rs:15462-15466 -/
abbrev Link11BModulationStandard := EnumVal Link11BModulationStandard.spec
/-- src/common/enums.rs:15468-15473 -/
abbrev Link11BModulationStandard.deserialize : Get Link11BModulationStandard := Link11BModulationStandard.spec.deserialize

/-- src/common/enums.rs:15477-15484 (default variant `ImageCaptureRequestpacketID`) -/
def CIGIExtensionPacketID.spec : EnumSpec where
  name := "CIGIExtensionPacketID"
  repr := .u16
  default := 4096
  variants := [
    ("ImageCaptureRequestpacketID", 4096), ("ImageCaptureResponsepacketID", 4097),
    ("StateNotificationRequestPacketID", 4098), ("StateNotificationResponsePacketID", 4099),
    ("GlobalRefFrameDefPacketID", 5000)
  ]
/-- src/common/enums.rs:15477-15484 -/
abbrev CIGIExtensionPacketID := EnumVal CIGIExtensionPacketID.spec
/-- src/common/enums.rs:15486-15491 -/
abbrev CIGIExtensionPacketID.deserialize : Get CIGIExtensionPacketID := CIGIExtensionPacketID.spec.deserialize

/-- src/common/enums.rs:15495-15508 (default variant `NoStatement`) -/
def Link16Version.spec : EnumSpec where
  name := "Link16Version"
  repr := .u8
  default := 0
  variants := [
    ("NoStatement", 0), ("MILSTD6016C", 1), ("MILSTD6016D", 2), ("MILSTD6016E", 3), ("MILSTD6016F", 4),
    ("MILSTD6016FC1", 5), ("STANAG5516Ed3", 103), ("STANAG5516Ed4", 104), ("STANAG5516Ed5", 105),
    ("STANAG5516Ed6", 106), ("STANAG5516Ed8", 108)
  ]
/-- src/common/enums.rs:15495-15508 -/
abbrev Link16Version := EnumVal Link16Version.spec
/-- src/common/enums.rs:15510-15515 -/
abbrev Link16Version.deserialize : Get Link16Version := Link16Version.spec.deserialize

/-- src/common/enums.rs:15519-15523 (default variant `ModeSAircraftIdentificationFieldValue`) -/
def AircraftIDSource.spec : EnumSpec where
  name := "AircraftIDSource"
  repr := .u8
  default := 0
  variants := [
    ("ModeSAircraftIdentificationFieldValue", 0), ("GICBIFFDataRecordAvailable", 1)
  ]
/-- src/common/enums.rs:15519-15523 -/
abbrev AircraftIDSource := EnumVal AircraftIDSource.spec
/-- src/common/enums.rs:15525-15530 -/
abbrev AircraftIDSource.deserialize : Get AircraftIDSource := AircraftIDSource.spec.deserialize

/-- src/common/enums.rs:15534-15540 (default variant `StandardClothing`) -/
def ClothingIRSignature.spec : EnumSpec where
  name := "ClothingIRSignature"
  repr := .u8
  default := 0
  variants := [
    ("StandardClothing", 0), ("Camouflage", 1), ("ThermalBlanket", 2), ("Other", 3)
  ]
/-- src/common/enums.rs:15534-15540 -/
abbrev ClothingIRSignature := EnumVal ClothingIRSignature.spec
/-- src/common/enums.rs:15542-15547 -/
abbrev ClothingIRSignature.deserialize : Get ClothingIRSignature := ClothingIRSignature.spec.deserialize

/-- src/common/enums.rs:15551-15561 (default variant `DamageArea1orNotApplicableifDamageAreasarenotdefined_`) -/
def DamageArea.spec : EnumSpec where
  name := "DamageArea"
  repr := .u8
  default := 0
  variants := [
    ("DamageArea1orNotApplicableifDamageAreasarenotdefined_", 0), ("DamageArea2", 1), ("DamageArea3", 2),
    ("DamageArea4", 3), ("DamageArea5", 4), ("DamageArea6", 5), ("DamageArea7", 6), ("DamageArea8", 7)
  ]
/-- src/common/enums.rs:15551-15561 -/
abbrev DamageArea := EnumVal DamageArea.spec
/-- src/common/enums.rs:15563-15568 -/
abbrev DamageArea.deserialize : Get DamageArea := DamageArea.spec.deserialize

end Dis
