import Verif.Model.EnumCore
/- Generated by tools/gen_enums.py from /repo/src/common/enums.rs. -/
set_option maxRecDepth 20000
namespace Dis

/-- src/common/enums.rs:9845-9852 (default variant `Gasfilledfree`) -/
def PlatformAirCivilianLighterthanAirBalloonSubcategories.spec : EnumSpec where
  name := "PlatformAirCivilianLighterthanAirBalloonSubcategories"
  repr := .u8
  default := 1
  variants := [
    ("Gasfilledfree", 1), ("Gasfilledtethered", 2), ("HotAir", 3), ("RoziereBalloon", 4), ("Helikite", 5)
  ]
/-- src/common/enums.rs:9845-9852 -/
abbrev PlatformAirCivilianLighterthanAirBalloonSubcategories := EnumVal PlatformAirCivilianLighterthanAirBalloonSubcategories.spec
/-- src/common/enums.rs:9854-9859 -/
abbrev PlatformAirCivilianLighterthanAirBalloonSubcategories.deserialize : Get PlatformAirCivilianLighterthanAirBalloonSubcategories := PlatformAirCivilianLighterthanAirBalloonSubcategories.spec.deserialize

/-- src/common/enums.rs:9863-9869 (default variant `Nonrigid`) -/
def PlatformAirCivilianLighterthanAirAirshipSubcategories.spec : EnumSpec where
  name := "PlatformAirCivilianLighterthanAirAirshipSubcategories"
  repr := .u8
  default := 1
  variants := [
    ("Nonrigid", 1), ("Semirigid", 2), ("Rigid", 3), ("Hybrid", 4)
  ]
/-- src/common/enums.rs:9863-9869 -/
abbrev PlatformAirCivilianLighterthanAirAirshipSubcategories := EnumVal PlatformAirCivilianLighterthanAirAirshipSubcategories.spec
/-- src/common/enums.rs:9871-9876 -/
abbrev PlatformAirCivilianLighterthanAirAirshipSubcategories.deserialize : Get PlatformAirCivilianLighterthanAirAirshipSubcategories := PlatformAirCivilianLighterthanAirAirshipSubcategories.spec.deserialize

/-- src/common/enums.rs:9880-9886 (default variant `DeselectedOff`) -/
def APAParameterIndexAPAStatus.spec : EnumSpec where
  name := "APAParameterIndexAPAStatus"
  repr := .u8
  default := 0
  variants := [
    ("DeselectedOff", 0), ("APAValueChangeOnly", 1), ("StateChange", 2), ("RecordActivation", 3)
  ]
/-- src/common/enums.rs:9880-9886 -/
abbrev APAParameterIndexAPAStatus := EnumVal APAParameterIndexAPAStatus.spec
/-- src/common/enums.rs:9888-9893 -/
abbrev APAParameterIndexAPAStatus.deserialize : Get APAParameterIndexAPAStatus := APAParameterIndexAPAStatus.spec.deserialize

/-- src/common/enums.rs:9897-9902 (default variant `NoStatement`) -/
def SeparationVPReasonforSeparation.spec : EnumSpec where
  name := "SeparationVPReasonforSeparation"
  repr := .u8
  default := 0
  variants := [
    ("NoStatement", 0), ("AttachedPartSeparation", 1), ("SubmunitionSeparation", 2)
  ]
/-- src/common/enums.rs:9897-9902 -/
abbrev SeparationVPReasonforSeparation := EnumVal SeparationVPReasonforSeparation.spec
/-- src/common/enums.rs:9904-9909 -/
abbrev SeparationVPReasonforSeparation.deserialize : Get SeparationVPReasonforSeparation := SeparationVPReasonforSeparation.spec.deserialize

/-- src/common/enums.rs:9913-9919 (default variant `NoStatement`) -/
def SeparationVPPreEntityIndicator.spec : EnumSpec where
  name := "SeparationVPPreEntityIndicator"
  repr := .u8
  default := 0
  variants := [
    ("NoStatement", 0), ("EntityIDExistedPriortoSeparationwithoutEntityStatePDU", 1),
    ("EntityIDExistedPriortoSeparationwithEntityStatePDUIssued", 2),
    ("EntityInitiallyCreatedAtSeparationEvent", 3)
  ]
/-- src/common/enums.rs:9913-9919 -/
abbrev SeparationVPPreEntityIndicator := EnumVal SeparationVPPreEntityIndicator.spec
/-- src/common/enums.rs:9921-9926 -/
abbrev SeparationVPPreEntityIndicator.deserialize : Get SeparationVPPreEntityIndicator := SeparationVPPreEntityIndicator.spec.deserialize

/-- src/common/enums.rs:9930-9939 (default variant `NoStatement`) -/
def IOActionIOWarfareType.spec : EnumSpec where
  name := "IOActionIOWarfareType"
  repr := .u16
  default := 0
  variants := [
    ("NoStatement", 0), ("ElectronicWarfare", 1), ("ComputerNetworkOperations", 2),
    ("PsychologicalOperations", 3), ("MilitaryDeception", 4), ("OperationsSecurity", 5),
    ("PhysicalAttack", 6)
  ]
/-- src/common/enums.rs:9930-9939 -/
abbrev IOActionIOWarfareType := EnumVal IOActionIOWarfareType.spec
/-- src/common/enums.rs:9941-9946 -/
abbrev IOActionIOWarfareType.deserialize : Get IOActionIOWarfareType := IOActionIOWarfareType.spec.deserialize
/-- src/common/enums.rs:9948-9952 -/
instance : FieldSerialize IOActionIOWarfareType := ⟨fun x => putU16 x.asU16⟩
/-- src/common/enums.rs:9954-9958 -/
instance : FieldDeserialize IOActionIOWarfareType := ⟨IOActionIOWarfareType.deserialize⟩
/-- src/common/enums.rs:9960-9964 -/
instance : FieldLen IOActionIOWarfareType := ⟨fun _ => 2⟩

/-- src/common/enums.rs:9968-9971 (default variant `NoStatement`) -/
def IOActionIOSimulationSource.spec : EnumSpec where
  name := "IOActionIOSimulationSource"
  repr := .u16
  default := 0
  variants := [
    ("NoStatement", 0)
  ]
/-- src/common/enums.rs:9968-9971 -/
abbrev IOActionIOSimulationSource := EnumVal IOActionIOSimulationSource.spec
/-- src/common/enums.rs:9973-9978 -/
abbrev IOActionIOSimulationSource.deserialize : Get IOActionIOSimulationSource := IOActionIOSimulationSource.spec.deserialize
/-- src/common/enums.rs:9980-9984 -/
instance : FieldSerialize IOActionIOSimulationSource := ⟨fun x => putU16 x.asU16⟩
/-- src/common/enums.rs:9986-9990 -/
instance : FieldDeserialize IOActionIOSimulationSource := ⟨IOActionIOSimulationSource.deserialize⟩
/-- src/common/enums.rs:9992-9996 -/
instance : FieldLen IOActionIOSimulationSource := ⟨fun _ => 2⟩

/-- src/common/enums.rs:10000-10007 (default variant `NoStatement`) -/
def IOActionIOActionType.spec : EnumSpec where
  name := "IOActionIOActionType"
  repr := .u16
  default := 0
  variants := [
    ("NoStatement", 0), ("IOAttackProfileData", 1), ("IOAttackComputedEffects", 2), ("IntentBasedEW", 3),
    ("IntentBasedEWComputedEffects", 4)
  ]
/-- src/common/enums.rs:10000-10007 -/
abbrev IOActionIOActionType := EnumVal IOActionIOActionType.spec
/-- src/common/enums.rs:10009-10014 -/
abbrev IOActionIOActionType.deserialize : Get IOActionIOActionType := IOActionIOActionType.spec.deserialize
/-- src/common/enums.rs:10016-10020 -/
instance : FieldSerialize IOActionIOActionType := ⟨fun x => putU16 x.asU16⟩
/-- src/common/enums.rs:10022-10026 -/
instance : FieldDeserialize IOActionIOActionType := ⟨IOActionIOActionType.deserialize⟩
/-- src/common/enums.rs:10028-10032 -/
instance : FieldLen IOActionIOActionType := ⟨fun _ => 2⟩

/-- src/common/enums.rs:10036-10045 (default variant `NoStatement`) -/
def IOActionIOActionPhase.spec : EnumSpec where
  name := "IOActionIOActionPhase"
  repr := .u16
  default := 0
  variants := [
    ("NoStatement", 0), ("StartAttackProfile", 1), ("EndAttackProfile", 2),
    ("ContinueAttackProfilewithChanges", 3), ("StartAttackEffects", 4), ("EndAttackedEffects", 5),
    ("ContinueAttackEffectswithChanges", 6)
  ]
/-- src/common/enums.rs:10036-10045 -/
abbrev IOActionIOActionPhase := EnumVal IOActionIOActionPhase.spec
/-- src/common/enums.rs:10047-10052 -/
abbrev IOActionIOActionPhase.deserialize : Get IOActionIOActionPhase := IOActionIOActionPhase.spec.deserialize
/-- src/common/enums.rs:10054-10058 -/
instance : FieldSerialize IOActionIOActionPhase := ⟨fun x => putU16 x.asU16⟩
/-- src/common/enums.rs:10060-10064 -/
instance : FieldDeserialize IOActionIOActionPhase := ⟨IOActionIOActionPhase.deserialize⟩
/-- src/common/enums.rs:10066-10070 -/
instance : FieldLen IOActionIOActionPhase := ⟨fun _ => 2⟩

/-- src/common/enums.rs:10074-10080 (default variant `NoStatement`) -/
def IOReportIOReportType.spec : EnumSpec where
  name := "IOReportIOReportType"
  repr := .u8
  default := 0
  variants := [
    ("NoStatement", 0), ("InitialReport", 1), ("UpdateReport", 2), ("FinalReport", 3)
  ]
/-- src/common/enums.rs:10074-10080 -/
abbrev IOReportIOReportType := EnumVal IOReportIOReportType.spec
/-- src/common/enums.rs:10082-10087 -/
abbrev IOReportIOReportType.deserialize : Get IOReportIOReportType := IOReportIOReportType.spec.deserialize
/-- src/common/enums.rs:10089-10093 -/
instance : FieldSerialize IOReportIOReportType := ⟨fun x => putU8 x.asU8⟩
/-- src/common/enums.rs:10095-10099 -/
instance : FieldDeserialize IOReportIOReportType := ⟨IOReportIOReportType.deserialize⟩
/-- src/common/enums.rs:10101-10105 -/
instance : FieldLen IOReportIOReportType := ⟨fun _ => 1⟩

/-- src/common/enums.rs:10109-10119 (default variant `NoStatement`) -/
def IOEffectsRecordIOStatus.spec : EnumSpec where
  name := "IOEffectsRecordIOStatus"
  repr := .u8
  default := 0
  variants := [
    ("NoStatement", 0), ("EffectonSender", 1), ("EffectonReceiver", 2), ("EffectonSenderandReceiver", 3),
    ("EffectonMessage", 4), ("EffectonSenderandMessage", 5), ("EffectonReceiverandMessage", 6),
    ("EffectonSenderReceiverandMessage", 7)
  ]
/-- src/common/enums.rs:10109-10119 -/
abbrev IOEffectsRecordIOStatus := EnumVal IOEffectsRecordIOStatus.spec
/-- src/common/enums.rs:10121-10126 -/
abbrev IOEffectsRecordIOStatus.deserialize : Get IOEffectsRecordIOStatus := IOEffectsRecordIOStatus.spec.deserialize

/-- src/common/enums.rs:10130-10136 (default variant `NoStatement`) -/
def IOEffectsRecordIOLinkType.spec : EnumSpec where
  name := "IOEffectsRecordIOLinkType"
  repr := .u8
  default := 0
  variants := [
    ("NoStatement", 0), ("LogicalLink", 1), ("PhysicalNode", 2), ("PhysicalLink", 3)
  ]
/-- src/common/enums.rs:10130-10136 -/
abbrev IOEffectsRecordIOLinkType := EnumVal IOEffectsRecordIOLinkType.spec
/-- src/common/enums.rs:10138-10143 -/
abbrev IOEffectsRecordIOLinkType.deserialize : Get IOEffectsRecordIOLinkType := IOEffectsRecordIOLinkType.spec.deserialize

/-- src/common/enums.rs:10147-10154 (default variant `NoStatement`) -/
def IOEffectsRecordIOEffect.spec : EnumSpec where
  name := "IOEffectsRecordIOEffect"
  repr := .u8
  default := 0
  variants := [
    ("NoStatement", 0), ("Denial", 1), ("Degradation", 2), ("Disruption", 3), ("TerminateEffect", 255)
  ]
/-- src/common/enums.rs:10147-10154 -/
abbrev IOEffectsRecordIOEffect := EnumVal IOEffectsRecordIOEffect.spec
/-- src/common/enums.rs:10156-10161 -/
abbrev IOEffectsRecordIOEffect.deserialize : Get IOEffectsRecordIOEffect := IOEffectsRecordIOEffect.spec.deserialize

/-- src/common/enums.rs:10165-10168 (default variant `NoStatement`) -/
def IOEffectsRecordIOProcess.spec : EnumSpec where
  name := "IOEffectsRecordIOProcess"
  repr := .u8
  default := 0
  variants := [
    ("NoStatement", 0)
  ]
/-- src/common/enums.rs:10165-10168 -/
abbrev IOEffectsRecordIOProcess := EnumVal IOEffectsRecordIOProcess.spec
/-- src/common/enums.rs:10170-10175 -/
abbrev IOEffectsRecordIOProcess.deserialize : Get IOEffectsRecordIOProcess := IOEffectsRecordIOProcess.spec.deserialize

/-- src/common/enums.rs:10179-10185 (default variant `NoStatement`) -/
def IOCommsNodeRecordCommsNodeType.spec : EnumSpec where
  name := "IOCommsNodeRecordCommsNodeType"
  repr := .u8
  default := 0
  variants := [
    ("NoStatement", 0), ("SenderNodeID", 1), ("ReceiverNodeID", 2), ("SenderReceiverNodeID", 3)
  ]
/-- src/common/enums.rs:10179-10185 -/
abbrev IOCommsNodeRecordCommsNodeType := EnumVal IOCommsNodeRecordCommsNodeType.spec
/-- src/common/enums.rs:10187-10192 -/
abbrev IOCommsNodeRecordCommsNodeType.deserialize : Get IOCommsNodeRecordCommsNodeType := IOCommsNodeRecordCommsNodeType.spec.deserialize

/-- src/common/enums.rs:10196-10199 (default variant `NoStatement`) -/
def DISAttributeActionCode.spec : EnumSpec where
  name := "DISAttributeActionCode"
  repr := .u8
  default := 0
  variants := [
    ("NoStatement", 0)
  ]
/-- src/common/enums.rs:10196-10199 -/
abbrev DISAttributeActionCode := EnumVal DISAttributeActionCode.spec
/-- src/common/enums.rs:10201-10206 -/
abbrev DISAttributeActionCode.deserialize : Get DISAttributeActionCode := DISAttributeActionCode.spec.deserialize
/-- src/common/enums.rs:10208-10212 -/
instance : FieldSerialize DISAttributeActionCode := ⟨fun x => putU8 x.asU8⟩
/-- src/common/enums.rs:10214-10218 -/
instance : FieldDeserialize DISAttributeActionCode := ⟨DISAttributeActionCode.deserialize⟩
/-- src/common/enums.rs:10220-10224 -/
instance : FieldLen DISAttributeActionCode := ⟨fun _ => 1⟩

/-- src/common/enums.rs:10228-10233 (default variant `None`) -/
def DRParametersType.spec : EnumSpec where
  name := "DRParametersType"
  repr := .u8
  default := 0
  variants := [
    ("None", 0), ("LocalEulerAngles", 1), ("WorldOrientationQuaternion", 2)
  ]
/-- src/common/enums.rs:10228-10233 -/
abbrev DRParametersType := EnumVal DRParametersType.spec
/-- src/common/enums.rs:10235-10240 -/
abbrev DRParametersType.deserialize : Get DRParametersType := DRParametersType.spec.deserialize

/-- src/common/enums.rs:10244-10248 (default variant `NoTODIsBeingTransmitted`) -/
def HighFidelityHAVEQUICKTODTransmitIndicator.spec : EnumSpec where
  name := "HighFidelityHAVEQUICKTODTransmitIndicator"
  repr := .u8
  default := 0
  variants := [
    ("NoTODIsBeingTransmitted", 0), ("TODTransmissioninProgress", 1)
  ]
/-- src/common/enums.rs:10244-10248 -/
abbrev HighFidelityHAVEQUICKTODTransmitIndicator := EnumVal HighFidelityHAVEQUICKTODTransmitIndicator.spec
/-- src/common/enums.rs:10250-10255 -/
abbrev HighFidelityHAVEQUICKTODTransmitIndicator.deserialize : Get HighFidelityHAVEQUICKTODTransmitIndicator := HighFidelityHAVEQUICKTODTransmitIndicator.spec.deserialize

/-- src/common/enums.rs:10259-10264 (default variant `AHAVEQUICKIorHAVEQUICKIICOMBAT`) -/
def NETIDRecordMode.spec : EnumSpec where
  name := "NETIDRecordMode"
  repr := .u8
  default := 1
  variants := [
    ("AHAVEQUICKIorHAVEQUICKIICOMBAT", 1), ("BSATURNCOMBAT", 2), ("TTRAINING", 3)
  ]
/-- src/common/enums.rs:10259-10264 -/
abbrev NETIDRecordMode := EnumVal NETIDRecordMode.spec
/-- src/common/enums.rs:10266-10271 -/
abbrev NETIDRecordMode.deserialize : Get NETIDRecordMode := NETIDRecordMode.spec.deserialize

/-- src/common/enums.rs:10275-10281 (default variant `HQIOperations`) -/
def NETIDRecordFrequencyTable.spec : EnumSpec where
  name := "NETIDRecordFrequencyTable"
  repr := .u8
  default := 0
  variants := [
    ("HQIOperations", 0), ("HQIINATOEuropeAreaOperations", 1), ("HQIINonNATOEuropeAreaOperations", 2),
    ("SATURNOperations", 3)
  ]
/-- src/common/enums.rs:10275-10281 -/
abbrev NETIDRecordFrequencyTable := EnumVal NETIDRecordFrequencyTable.spec
/-- src/common/enums.rs:10283-10288 -/
abbrev NETIDRecordFrequencyTable.deserialize : Get NETIDRecordFrequencyTable := NETIDRecordFrequencyTable.spec.deserialize

/-- src/common/enums.rs:10292-10297 (default variant `HeartbeatUpdate`) -/
def EEAttributeStateIndicator.spec : EnumSpec where
  name := "EEAttributeStateIndicator"
  repr := .u8
  default := 0
  variants := [
    ("HeartbeatUpdate", 0), ("ChangedData", 1), ("HasCeased", 2)
  ]
/-- src/common/enums.rs:10292-10297 -/
abbrev EEAttributeStateIndicator := EnumVal EEAttributeStateIndicator.spec
/-- src/common/enums.rs:10299-10304 -/
abbrev EEAttributeStateIndicator.deserialize : Get EEAttributeStateIndicator := EEAttributeStateIndicator.spec.deserialize
/-- src/common/enums.rs:10306-10310 -/
instance : FieldSerialize EEAttributeStateIndicator := ⟨fun x => putU8 x.asU8⟩
/-- src/common/enums.rs:10312-10316 -/
instance : FieldDeserialize EEAttributeStateIndicator := ⟨EEAttributeStateIndicator.deserialize⟩
/-- src/common/enums.rs:10318-10322 -/
instance : FieldLen EEAttributeStateIndicator := ⟨fun _ => 1⟩

/-- src/common/enums.rs:10327-10331 (default variant `NoDifference`) -/
def TransferredEntityIndicator.spec : EnumSpec where
  name := "TransferredEntityIndicator"
  repr := .u8
  default := 0
  variants := [
    ("NoDifference", 0), ("Difference", 1)
  ]
/-- src/common/enums.rs:10327-10331 -/
abbrev TransferredEntityIndicator := EnumVal TransferredEntityIndicator.spec
/-- src/common/enums.rs:10333-10338 -/
abbrev TransferredEntityIndicator.deserialize : Get TransferredEntityIndicator := TransferredEntityIndicator.spec.deserialize

/-- src/common/enums.rs:10343-10349 (default variant `NoStatement`) -/
def LVCIndicator.spec : EnumSpec where
  name := "LVCIndicator"
  repr := .u8
  default := 0
  variants := [
    ("NoStatement", 0), ("Live", 1), ("Virtual", 2), ("Constructive", 3)
  ]
/-- src/common/enums.rs:10343-10349 -/
abbrev LVCIndicator := EnumVal LVCIndicator.spec
/-- src/common/enums.rs:10351-10356 -/
abbrev LVCIndicator.deserialize : Get LVCIndicator := LVCIndicator.spec.deserialize

/-- src/common/enums.rs:10361-10365 (default variant `NotCoupled`) -/
def CoupledExtensionIndicator.spec : EnumSpec where
  name := "CoupledExtensionIndicator"
  repr := .u8
  default := 0
  variants := [
    ("NotCoupled", 0), ("Coupled", 1)
  ]
/-- src/common/enums.rs:10361-10365 -/
abbrev CoupledExtensionIndicator := EnumVal CoupledExtensionIndicator.spec
/-- src/common/enums.rs:10367-10372 -/
abbrev CoupledExtensionIndicator.deserialize : Get CoupledExtensionIndicator := CoupledExtensionIndicator.spec.deserialize

/-- src/common/enums.rs:10377-10381 (default variant `Munition`) -/
def FireTypeIndicator.spec : EnumSpec where
  name := "FireTypeIndicator"
  repr := .u8
  default := 0
  variants := [
    ("Munition", 0), ("Expendable", 1)
  ]
/-- src/common/enums.rs:10377-10381 -/
abbrev FireTypeIndicator := EnumVal FireTypeIndicator.spec
/-- src/common/enums.rs:10383-10388 -/
abbrev FireTypeIndicator.deserialize : Get FireTypeIndicator := FireTypeIndicator.spec.deserialize

/-- src/common/enums.rs:10393-10398 (default variant `Munition`) -/
def DetonationTypeIndicator.spec : EnumSpec where
  name := "DetonationTypeIndicator"
  repr := .u8
  default := 0
  variants := [
    ("Munition", 0), ("Expendable", 1), ("NonMunitionExplosion", 2)
  ]
/-- src/common/enums.rs:10393-10398 -/
abbrev DetonationTypeIndicator := EnumVal DetonationTypeIndicator.spec
/-- src/common/enums.rs:10416-10421 -/
abbrev DetonationTypeIndicator.deserialize : Get DetonationTypeIndicator := DetonationTypeIndicator.spec.deserialize

/-- src/common/enums.rs:10426-10431 (default variant `NoStatement`) -/
def RadioAttachedIndicator.spec : EnumSpec where
  name := "RadioAttachedIndicator"
  repr := .u8
  default := 0
  variants := [
    ("NoStatement", 0), ("Unattached", 1), ("Attached", 2)
  ]
/-- src/common/enums.rs:10426-10431 -/
abbrev RadioAttachedIndicator := EnumVal RadioAttachedIndicator.spec
/-- src/common/enums.rs:10449-10454 -/
abbrev RadioAttachedIndicator.deserialize : Get RadioAttachedIndicator := RadioAttachedIndicator.spec.deserialize

/-- src/common/enums.rs:10459-10464 (default variant `NoStatement`) -/
def IntercomAttachedIndicator.spec : EnumSpec where
  name := "IntercomAttachedIndicator"
  repr := .u8
  default := 0
  variants := [
    ("NoStatement", 0), ("Unattached", 1), ("Attached", 2)
  ]
/-- src/common/enums.rs:10459-10464 -/
abbrev IntercomAttachedIndicator := EnumVal IntercomAttachedIndicator.spec
/-- src/common/enums.rs:10482-10487 -/
abbrev IntercomAttachedIndicator.deserialize : Get IntercomAttachedIndicator := IntercomAttachedIndicator.spec.deserialize

/-- src/common/enums.rs:10492-10496 (default variant `Regeneration`) -/
def PduStatusIFFSimulationMode.spec : EnumSpec where
  name := "PduStatusIFFSimulationMode"
  repr := .u8
  default := 0
  variants := [
    ("Regeneration", 0), ("Interactive", 1)
  ]
/-- src/common/enums.rs:10492-10496 -/
abbrev PduStatusIFFSimulationMode := EnumVal PduStatusIFFSimulationMode.spec
/-- src/common/enums.rs:10498-10503 -/
abbrev PduStatusIFFSimulationMode.deserialize : Get PduStatusIFFSimulationMode := PduStatusIFFSimulationMode.spec.deserialize

/-- src/common/enums.rs:10507-10516 (default variant `General`) -/
def ExplosiveMaterialGroups.spec : EnumSpec where
  name := "ExplosiveMaterialGroups"
  repr := .u8
  default := 0
  variants := [
    ("General", 0), ("LiquidAviationMissileFuels", 1), ("LiquidOtherFuels", 2),
    ("LiquidExplosiveMaterial", 3), ("Solid", 4), ("Gaseous", 5), ("DustMaterial", 6)
  ]
/-- src/common/enums.rs:10507-10516 -/
abbrev ExplosiveMaterialGroups := EnumVal ExplosiveMaterialGroups.spec
/-- src/common/enums.rs:10518-10523 -/
abbrev ExplosiveMaterialGroups.deserialize : Get ExplosiveMaterialGroups := ExplosiveMaterialGroups.spec.deserialize

/-- src/common/enums.rs:10527-10574 (default variant `NoStatement`) -/
def ExplosiveMaterialCategories.spec : EnumSpec where
  name := "ExplosiveMaterialCategories"
  repr := .u16
  default := 0
  variants := [
    ("NoStatement", 0), ("AVGAS", 10), ("JetFuel", 11), ("JP4", 12), ("JP5", 13), ("JP7", 14), ("JP8", 15),
    ("JP10MissileFuel", 16), ("JPTS", 17), ("JetA", 18), ("JetA1", 19), ("JetB", 20), ("JetBiofuel", 21),
    ("GasolinePetrolUnspecifiedOctane", 151), ("DieselFuelUnspecifiedGrade", 152), ("Ethanol", 153),
    ("E85Ethanol", 154), ("FuelOil", 155), ("Kerosene", 156), ("CrudeOil", 157), ("LightCrudeOil", 158),
    ("LiquidPetroleumGas", 159), ("RP1RocketFuel", 160), ("LH2RocketFuel", 161), ("LOXRocketFuel", 162),
    ("Alcohol", 164), ("HydrogenLiquid", 166), ("Nitroglycerin", 301), ("ANFO", 302), ("Dynamite", 451),
    ("TNT", 452), ("RDX", 453), ("PETN", 454), ("HMX", 455), ("C4", 456), ("CompositionC4", 457),
    ("NaturalGas", 601), ("Butane", 602), ("Propane", 603), ("Helium", 604), ("HydrogenGaseous", 605),
    ("DustUnspecifiedType", 801), ("GrainDust", 802), ("FlourDust", 803), ("SugarDust", 804)
  ]
/-- src/common/enums.rs:10527-10574 -/
abbrev ExplosiveMaterialCategories := EnumVal ExplosiveMaterialCategories.spec
/-- src/common/enums.rs:10576-10581 -/
abbrev ExplosiveMaterialCategories.deserialize : Get ExplosiveMaterialCategories := ExplosiveMaterialCategories.spec.deserialize

/-- src/common/enums.rs:10585-10590 (default variant `Other`) -/
def DEPrecisionAimpointBeamSpotType.spec : EnumSpec where
  name := "DEPrecisionAimpointBeamSpotType"
  repr := .u8
  default := 0
  variants := [
    ("Other", 0), ("Gaussian", 1), ("TopHat", 2)
  ]
/-- src/common/enums.rs:10585-10590 -/
abbrev DEPrecisionAimpointBeamSpotType := EnumVal DEPrecisionAimpointBeamSpotType.spec
/-- src/common/enums.rs:10592-10597 -/
abbrev DEPrecisionAimpointBeamSpotType.deserialize : Get DEPrecisionAimpointBeamSpotType := DEPrecisionAimpointBeamSpotType.spec.deserialize

/-- src/common/enums.rs:10601-10607 (default variant `Other`) -/
def DEFirePulseShape.spec : EnumSpec where
  name := "DEFirePulseShape"
  repr := .u8
  default := 0
  variants := [
    ("Other", 0), ("SquareWave", 1), ("ContinuousWave", 2), ("Gaussian", 3)
  ]
/-- src/common/enums.rs:10601-10607 -/
abbrev DEFirePulseShape := EnumVal DEFirePulseShape.spec
/-- src/common/enums.rs:10609-10614 -/
abbrev DEFirePulseShape.deserialize : Get DEFirePulseShape := DEFirePulseShape.spec.deserialize
/-- src/common/enums.rs:10616-10620 -/
instance : FieldSerialize DEFirePulseShape := ⟨fun x => putU8 x.asU8⟩
/-- src/common/enums.rs:10622-10626 -/
instance : FieldDeserialize DEFirePulseShape := ⟨DEFirePulseShape.deserialize⟩
/-- src/common/enums.rs:10628-10632 -/
instance : FieldLen DEFirePulseShape := ⟨fun _ => 1⟩

/-- src/common/enums.rs:10636-10648 (default variant `EntityCenter`) -/
def ComponentIdentification.spec : EnumSpec where
  name := "ComponentIdentification"
  repr := .u8
  default := 0
  variants := [
    ("EntityCenter", 0), ("EntityStructure", 1), ("ControlSystem", 2), ("ControlSurface", 3),
    ("EnginePropulsionSystem", 4), ("CrewMember", 5), ("Fuse", 6), ("AcquisitionSensor", 7),
    ("TrackingSensor", 8), ("FuelTankSolidRocketMotor", 9)
  ]
/-- src/common/enums.rs:10636-10648 -/
abbrev ComponentIdentification := EnumVal ComponentIdentification.spec
/-- src/common/enums.rs:10650-10655 -/
abbrev ComponentIdentification.deserialize : Get ComponentIdentification := ComponentIdentification.spec.deserialize
/-- src/common/enums.rs:10657-10661 -/
instance : FieldSerialize ComponentIdentification := ⟨fun x => putU8 x.asU8⟩
/-- src/common/enums.rs:10663-10667 -/
instance : FieldDeserialize ComponentIdentification := ⟨ComponentIdentification.deserialize⟩
/-- src/common/enums.rs:10669-10673 -/
instance : FieldLen ComponentIdentification := ⟨fun _ => 1⟩

/-- src/common/enums.rs:10677-10684 (default variant `NoDamage`) -/
def ComponentDamageStatus.spec : EnumSpec where
  name := "ComponentDamageStatus"
  repr := .u8
  default := 0
  variants := [
    ("NoDamage", 0), ("MinorDamage", 1), ("MediumDamage", 2), ("MajorDamage", 3), ("Destroyed", 4)
  ]
/-- src/common/enums.rs:10677-10684 -/
abbrev ComponentDamageStatus := EnumVal ComponentDamageStatus.spec
/-- src/common/enums.rs:10686-10691 -/
abbrev ComponentDamageStatus.deserialize : Get ComponentDamageStatus := ComponentDamageStatus.spec.deserialize
/-- src/common/enums.rs:10693-10697 -/
instance : FieldSerialize ComponentDamageStatus := ⟨fun x => putU8 x.asU8⟩
/-- src/common/enums.rs:10699-10703 -/
instance : FieldDeserialize ComponentDamageStatus := ⟨ComponentDamageStatus.deserialize⟩
/-- src/common/enums.rs:10705-10709 -/
instance : FieldLen ComponentDamageStatus := ⟨fun _ => 1⟩

/-- src/common/enums.rs:10713-10719 (default variant `NoSmoke`) -/
def ComponentVisualSmokeColor.spec : EnumSpec where
  name := "ComponentVisualSmokeColor"
  repr := .u8
  default := 0
  variants := [
    ("NoSmoke", 0), ("White", 1), ("Gray", 2), ("Black", 3)
  ]
/-- src/common/enums.rs:10713-10719 -/
abbrev ComponentVisualSmokeColor := EnumVal ComponentVisualSmokeColor.spec
/-- src/common/enums.rs:10721-10726 -/
abbrev ComponentVisualSmokeColor.deserialize : Get ComponentVisualSmokeColor := ComponentVisualSmokeColor.spec.deserialize
/-- src/common/enums.rs:10728-10732 -/
instance : FieldSerialize ComponentVisualSmokeColor := ⟨fun x => putU8 x.asU8⟩
/-- src/common/enums.rs:10734-10738 -/
instance : FieldDeserialize ComponentVisualSmokeColor := ⟨ComponentVisualSmokeColor.deserialize⟩
/-- src/common/enums.rs:10740-10744 -/
instance : FieldLen ComponentVisualSmokeColor := ⟨fun _ => 1⟩

/-- src/common/enums.rs:10748-10752 (default variant `Active`) -/
def BeamStatusBeamState.spec : EnumSpec where
  name := "BeamStatusBeamState"
  repr := .u8
  default := 0
  variants := [
    ("Active", 0), ("Deactivated", 1)
  ]
/-- src/common/enums.rs:10748-10752 -/
abbrev BeamStatusBeamState := EnumVal BeamStatusBeamState.spec
/-- src/common/enums.rs:10754-10759 -/
abbrev BeamStatusBeamState.deserialize : Get BeamStatusBeamState := BeamStatusBeamState.spec.deserialize

/-- src/common/enums.rs:10763-10772 (default variant `NotSpecified`) -/
def EntityAssociationAssociationStatus.spec : EnumSpec where
  name := "EntityAssociationAssociationStatus"
  repr := .u8
  default := 0
  variants := [
    ("NotSpecified", 0), ("PhysicalAssociationGeneralObject1", 1), ("FunctionalAssociationGeneral", 2),
    ("AssociationBroken", 3), ("PhysicalAssociationObject2", 4), ("FunctionalAssociationObject1", 5),
    ("FunctionalAssociationObject2", 6)
  ]
/-- src/common/enums.rs:10763-10772 -/
abbrev EntityAssociationAssociationStatus := EnumVal EntityAssociationAssociationStatus.spec
/-- src/common/enums.rs:10774-10779 -/
abbrev EntityAssociationAssociationStatus.deserialize : Get EntityAssociationAssociationStatus := EntityAssociationAssociationStatus.spec.deserialize

/-- src/common/enums.rs:10783-10787 (default variant `InitialReportorNoChangeSinceLastIssuance`) -/
def EntityVPRecordChangeIndicator.spec : EnumSpec where
  name := "EntityVPRecordChangeIndicator"
  repr := .u8
  default := 0
  variants := [
    ("InitialReportorNoChangeSinceLastIssuance", 0), ("ChangeSinceLastIssuance", 1)
  ]
/-- src/common/enums.rs:10783-10787 -/
abbrev EntityVPRecordChangeIndicator := EnumVal EntityVPRecordChangeIndicator.spec
/-- src/common/enums.rs:10789-10794 -/
abbrev EntityVPRecordChangeIndicator.deserialize : Get EntityVPRecordChangeIndicator := EntityVPRecordChangeIndicator.spec.deserialize

/-- src/common/enums.rs:10798-10807 (default variant `NotPartofaGroup`) -/
def EntityAssociationGroupMemberType.spec : EnumSpec where
  name := "EntityAssociationGroupMemberType"
  repr := .u8
  default := 0
  variants := [
    ("NotPartofaGroup", 0), ("GroupLeader", 1), ("GroupMember", 2), ("FormationLeader", 3),
    ("FormationMember", 4), ("ConvoyLeader", 5), ("ConvoyMember", 6)
  ]
/-- src/common/enums.rs:10798-10807 -/
abbrev EntityAssociationGroupMemberType := EnumVal EntityAssociationGroupMemberType.spec
/-- src/common/enums.rs:10809-10814 -/
abbrev EntityAssociationGroupMemberType.deserialize : Get EntityAssociationGroupMemberType := EntityAssociationGroupMemberType.spec.deserialize

/-- src/common/enums.rs:10818-10825 (default variant `NotSpecified`) -/
def PhysicalAssociationTypeGroups.spec : EnumSpec where
  name := "PhysicalAssociationTypeGroups"
  repr := .u8
  default := 0
  variants := [
    ("NotSpecified", 0), ("TowedMountedSlingLoad", 1), ("Restrained", 2), ("Mission", 3),
    ("OtherConnections", 4)
  ]
/-- src/common/enums.rs:10818-10825 -/
abbrev PhysicalAssociationTypeGroups := EnumVal PhysicalAssociationTypeGroups.spec
/-- src/common/enums.rs:10827-10832 -/
abbrev PhysicalAssociationTypeGroups.deserialize : Get PhysicalAssociationTypeGroups := PhysicalAssociationTypeGroups.spec.deserialize

/-- src/common/enums.rs:10836-10866 (default variant `NotSpecified`) -/
def EntityAssociationPhysicalAssociationType.spec : EnumSpec where
  name := "EntityAssociationPhysicalAssociationType"
  repr := .u8
  default := 0
  variants := [
    ("NotSpecified", 0), ("TowedinAir", 1), ("TowedonLand", 2), ("TowedonWaterSurface", 3),
    ("TowedUnderwater", 4), ("MountedAttached", 5), ("MountedUnattachedandUnsupported", 6),
    ("MountedUnattachedandSupported", 7), ("TowedinAirCenterHook", 8), ("TowedinAirForwardHook", 9),
    ("TowedinAirAftHook", 10), ("TowedinAirTandemHookForeAndAft", 11),
    ("TowedinAirMismanagedTandemForeAndCenter", 12), ("TowedinAirMismanagedTandemCenterAndAft", 13),
    ("TowedinAirAllHooks", 14), ("Hoisted", 15), ("RestrainedtoaLifeform", 30), ("RestrainedtoaPlatform", 31),
    ("RestrainedtoanObject", 32), ("RefuelingOperation", 61), ("SearchandRescueBasket", 62),
    ("SearchandRescueRescueCollar", 63), ("EngagementObject2isBeingEngaged", 64),
    ("ReturnToBaseObject2istheDestinationObject", 65), ("LinebetweenCommunicationTowers", 90),
    ("LineBetweenPowerTowers", 91), ("Indoors", 92), ("TopSurface", 93)
  ]
/-- src/common/enums.rs:10836-10866 -/
abbrev EntityAssociationPhysicalAssociationType := EnumVal EntityAssociationPhysicalAssociationType.spec
/-- src/common/enums.rs:10868-10873 -/
abbrev EntityAssociationPhysicalAssociationType.deserialize : Get EntityAssociationPhysicalAssociationType := EntityAssociationPhysicalAssociationType.spec.deserialize

/-- src/common/enums.rs:10877-10892 (default variant `NotSpecified`) -/
def EntityAssociationPhysicalConnectionType.spec : EnumSpec where
  name := "EntityAssociationPhysicalConnectionType"
  repr := .u8
  default := 0
  variants := [
    ("NotSpecified", 0), ("AttachedDirectlytoSurface", 1), ("CableWire", 2), ("Rope", 3), ("Chain", 4),
    ("PowerLine", 5), ("TelephoneLine", 6), ("CableLine", 7), ("RefuelingDrogue", 8), ("RefuelingBoom", 9),
    ("Handcuffs", 10), ("InContactWith", 11), ("FastRope", 12)
  ]
/-- src/common/enums.rs:10877-10892 -/
abbrev EntityAssociationPhysicalConnectionType := EnumVal EntityAssociationPhysicalConnectionType.spec
/-- src/common/enums.rs:10894-10899 -/
abbrev EntityAssociationPhysicalConnectionType.deserialize : Get EntityAssociationPhysicalConnectionType := EntityAssociationPhysicalConnectionType.spec.deserialize

/-- src/common/enums.rs:10903-10906 (default variant `Undefined`) -/
def SensorRecordSensorTypeOtherActiveSensors.spec : EnumSpec where
  name := "SensorRecordSensorTypeOtherActiveSensors"
  repr := .u8
  default := 0
  variants := [
    ("Undefined", 0)
  ]
/-- src/common/enums.rs:10903-10906 -/
abbrev SensorRecordSensorTypeOtherActiveSensors := EnumVal SensorRecordSensorTypeOtherActiveSensors.spec
/-- src/common/enums.rs:10908-10913 -/
abbrev SensorRecordSensorTypeOtherActiveSensors.deserialize : Get SensorRecordSensorTypeOtherActiveSensors := SensorRecordSensorTypeOtherActiveSensors.spec.deserialize

/-- src/common/enums.rs:10918-10989 (default variant `ALR400`) -/
def SensorRecordSensorTypePassiveSensors.spec : EnumSpec where
  name := "SensorRecordSensorTypePassiveSensors"
  repr := .u16
  default := 60000
  variants := [
    ("ALR400", 60000), ("ANAAR47", 60001), ("ANAAR50", 60002), ("ANAAR54", 60003), ("ANAAR56", 60004),
    ("ANAAR57", 60005), ("ANALQ142", 60006), ("ANALR45", 60007), ("ANALR46", 60008), ("ANALR56", 60009),
    ("ANALR59", 60010), ("ANALR64", 60011), ("ANALR66", 60012), ("ANALR67", 60013), ("ANALR69", 60014),
    ("ANALR73", 60015), ("ANALR76", 60016), ("ANALR91", 60017), ("ANALR93", 60018), ("ANALR94", 60019),
    ("ANALR801", 60020), ("ANAPR39", 60021), ("ANAYR2", 60022), ("ARI18223", 60023), ("BOW21", 60024),
    ("ChaparralIRST", 60025), ("FlankerIRST", 60026), ("FoxbatIRST", 60027), ("FoxhoundIRST", 60028),
    ("FulcrumIRST", 60029), ("HavocIRST", 60030), ("HindIRST", 60031), ("KJ200", 60032), ("KJ8602", 60033),
    ("L150Pastel", 60034), ("Serval", 60035), ("Sherloc", 60036), ("Sherlocvf", 60037), ("Sirena2", 60038),
    ("Sirena3", 60039), ("Sirena3M", 60040), ("SkyGuardian", 60041), ("SPO15", 60042), ("SPS200", 60043),
    ("Tarang", 60044), ("ANAAQ29A", 60045), ("_101KSUMAW", 60046), ("Abrams2GFFLIR", 60047),
    ("Abrams3GFFLIR", 60048), ("ANAAQ13LANTIRNFLIR", 60049), ("AN_ALR74", 60050), ("AN_ALR90", 60051),
    ("ANAPR48", 60052), ("ELT156X", 60053), ("_101KSV", 60054), ("TP23ML", 60055), ("GenericFLIR", 60056),
    ("GenericIRST", 60057), ("GenericMAWS", 60058), ("GenericRWR", 60059), ("L136Mak", 60060),
    ("LeonardoSASSIRST", 60061), ("OSFIRST", 60062), ("PirateIRST", 60063), ("RECCELITE", 60064),
    ("ThalesNederlandSiriusIRST", 60065), ("TornadoRWR", 60066), ("TOES521FLIR", 60067),
    ("SafranVampir_MB", 60068)
  ]
/-- src/common/enums.rs:10918-10989 -/
abbrev SensorRecordSensorTypePassiveSensors := EnumVal SensorRecordSensorTypePassiveSensors.spec
/-- src/common/enums.rs:10991-10996 -/
abbrev SensorRecordSensorTypePassiveSensors.deserialize : Get SensorRecordSensorTypePassiveSensors := SensorRecordSensorTypePassiveSensors.spec.deserialize

/-- src/common/enums.rs:11000-11005 (default variant `Other`) -/
def MunitionExpendableStatus.spec : EnumSpec where
  name := "MunitionExpendableStatus"
  repr := .u8
  default := 0
  variants := [
    ("Other", 0), ("Ready", 1), ("Inventory", 2)
  ]
/-- src/common/enums.rs:11000-11005 -/
abbrev MunitionExpendableStatus := EnumVal MunitionExpendableStatus.spec
/-- src/common/enums.rs:11007-11012 -/
abbrev MunitionExpendableStatus.deserialize : Get MunitionExpendableStatus := MunitionExpendableStatus.spec.deserialize

/-- src/common/enums.rs:11016-11021 (default variant `Other`) -/
def FuelMeasurementUnits.spec : EnumSpec where
  name := "FuelMeasurementUnits"
  repr := .u8
  default := 0
  variants := [
    ("Other", 0), ("Liter", 1), ("Kilogram", 2)
  ]
/-- src/common/enums.rs:11016-11021 -/
abbrev FuelMeasurementUnits := EnumVal FuelMeasurementUnits.spec
/-- src/common/enums.rs:11023-11028 -/
abbrev FuelMeasurementUnits.deserialize : Get FuelMeasurementUnits := FuelMeasurementUnits.spec.deserialize

/-- src/common/enums.rs:11032-11035 (default variant `Other`) -/
def FuelLocation.spec : EnumSpec where
  name := "FuelLocation"
  repr := .u8
  default := 0
  variants := [
    ("Other", 0)
  ]
/-- src/common/enums.rs:11032-11035 -/
abbrev FuelLocation := EnumVal FuelLocation.spec
/-- src/common/enums.rs:11037-11042 -/
abbrev FuelLocation.deserialize : Get FuelLocation := FuelLocation.spec.deserialize

/-- src/common/enums.rs:11046-11063 (default variant `Other`) -/
def EntityAssociationAssociationType.spec : EnumSpec where
  name := "EntityAssociationAssociationType"
  repr := .u8
  default := 0
  variants := [
    ("Other", 0), ("TargetEntity", 1), ("TargetLocation", 2), ("HomeBaseLocation", 3),
    ("CAPPointLocation", 4), ("FlightLeader", 5), ("FlightMember", 6), ("IPPoint", 7), ("RendezvousPoint", 8),
    ("OnStationLocation", 9), ("LandingZoneLocation", 10), ("DownedPilot", 11),
    ("TankerEntitythatIsCurrentlyRefuelingtheTransferredEntity", 12),
    ("TankerEntitytheTransferredEntityIsHeadedtowardstoRefuel", 13), ("EntityHeadedtowardstoJoinUpWith", 14)
  ]
/-- src/common/enums.rs:11046-11063 -/
abbrev EntityAssociationAssociationType := EnumVal EntityAssociationAssociationType.spec
/-- src/common/enums.rs:11065-11070 -/
abbrev EntityAssociationAssociationType.deserialize : Get EntityAssociationAssociationType := EntityAssociationAssociationType.spec.deserialize

/-- src/common/enums.rs:11074-11078 (default variant `Off`) -/
def SensorOnOffStatus.spec : EnumSpec where
  name := "SensorOnOffStatus"
  repr := .u8
  default := 0
  variants := [
    ("Off", 0), ("On", 1)
  ]
/-- src/common/enums.rs:11074-11078 -/
abbrev SensorOnOffStatus := EnumVal SensorOnOffStatus.spec
/-- src/common/enums.rs:11080-11085 -/
abbrev SensorOnOffStatus.deserialize : Get SensorOnOffStatus := SensorOnOffStatus.spec.deserialize

/-- src/common/enums.rs:11089-11098 (default variant `Other`) -/
def OwnershipStatus.spec : EnumSpec where
  name := "OwnershipStatus"
  repr := .u8
  default := 0
  variants := [
    ("Other", 0), ("NewOwner", 1), ("OwnershipQueryResponse", 2), ("OwnershipConflict", 3),
    ("LocalEntityCancelledAutoResolveConflict", 4), ("LocalEntityCancelledManualResolveConflict", 5),
    ("LocalEntityCancelledRemoveEntityTCRReceived", 6)
  ]
/-- src/common/enums.rs:11089-11098 -/
abbrev OwnershipStatus := EnumVal OwnershipStatus.spec
/-- src/common/enums.rs:11100-11105 -/
abbrev OwnershipStatus.deserialize : Get OwnershipStatus := OwnershipStatus.spec.deserialize

/-- src/common/enums.rs:11109-11112 (default variant `Other`) -/
def RecordREventType.spec : EnumSpec where
  name := "RecordREventType"
  repr := .u8
  default := 0
  variants := [
    ("Other", 0)
  ]
/-- src/common/enums.rs:11109-11112 -/
abbrev RecordREventType := EnumVal RecordREventType.spec
/-- src/common/enums.rs:11114-11119 -/
abbrev RecordREventType.deserialize : Get RecordREventType := RecordREventType.spec.deserialize

/-- src/common/enums.rs:11123-11127 (default variant `Periodic`) -/
def RecordQueryREventType.spec : EnumSpec where
  name := "RecordQueryREventType"
  repr := .u16
  default := 0
  variants := [
    ("Periodic", 0), ("InternalEntityStateData", 1)
  ]
/-- src/common/enums.rs:11123-11127 -/
abbrev RecordQueryREventType := EnumVal RecordQueryREventType.spec
/-- src/common/enums.rs:11129-11134 -/
abbrev RecordQueryREventType.deserialize : Get RecordQueryREventType := RecordQueryREventType.spec.deserialize
/-- src/common/enums.rs:11136-11140 -/
instance : FieldSerialize RecordQueryREventType := ⟨fun x => putU16 x.asU16⟩
/-- src/common/enums.rs:11142-11146 -/
instance : FieldDeserialize RecordQueryREventType := ⟨RecordQueryREventType.deserialize⟩
/-- src/common/enums.rs:11148-11152 -/
instance : FieldLen RecordQueryREventType := ⟨fun _ => 2⟩

/-- src/common/enums.rs:11156-11165 (default variant `Other`) -/
def UAPropulsionPlantConfigurationConfiguration.spec : EnumSpec where
  name := "UAPropulsionPlantConfigurationConfiguration"
  repr := .u8
  default := 0
  variants := [
    ("Other", 0), ("DieselElectric", 1), ("Diesel", 2), ("Battery", 3), ("TurbineReduction", 4), ("Steam", 6),
    ("GasTurbine", 7)
  ]
/-- src/common/enums.rs:11156-11165 -/
abbrev UAPropulsionPlantConfigurationConfiguration := EnumVal UAPropulsionPlantConfigurationConfiguration.spec
/-- src/common/enums.rs:11167-11172 -/
abbrev UAPropulsionPlantConfigurationConfiguration.deserialize : Get UAPropulsionPlantConfigurationConfiguration := UAPropulsionPlantConfigurationConfiguration.spec.deserialize

/-- src/common/enums.rs:11176-11180 (default variant `HeartbeatMode`) -/
def MinefieldStateProtocolMode.spec : EnumSpec where
  name := "MinefieldStateProtocolMode"
  repr := .u16
  default := 0
  variants := [
    ("HeartbeatMode", 0), ("QRPMode", 1)
  ]
/-- src/common/enums.rs:11176-11180 -/
abbrev MinefieldStateProtocolMode := EnumVal MinefieldStateProtocolMode.spec
/-- src/common/enums.rs:11182-11187 -/
abbrev MinefieldStateProtocolMode.deserialize : Get MinefieldStateProtocolMode := MinefieldStateProtocolMode.spec.deserialize
/-- src/common/enums.rs:11189-11193 -/
instance : FieldSerialize MinefieldStateProtocolMode := ⟨fun x => putU16 x.asU16⟩
/-- src/common/enums.rs:11195-11199 -/
instance : FieldDeserialize MinefieldStateProtocolMode := ⟨MinefieldStateProtocolMode.deserialize⟩
/-- src/common/enums.rs:11201-11205 -/
instance : FieldLen MinefieldStateProtocolMode := ⟨fun _ => 2⟩

/-- src/common/enums.rs:11209-11213 (default variant `Transponder`) -/
def TransponderInterrogatorIndicator.spec : EnumSpec where
  name := "TransponderInterrogatorIndicator"
  repr := .u8
  default := 0
  variants := [
    ("Transponder", 0), ("Interrogator", 1)
  ]
/-- src/common/enums.rs:11209-11213 -/
abbrev TransponderInterrogatorIndicator := EnumVal TransponderInterrogatorIndicator.spec
/-- src/common/enums.rs:11215-11220 -/
abbrev TransponderInterrogatorIndicator.deserialize : Get TransponderInterrogatorIndicator := TransponderInterrogatorIndicator.spec.deserialize

/-- src/common/enums.rs:11224-11228 (default variant `Regeneration`) -/
def IFFSimulationMode.spec : EnumSpec where
  name := "IFFSimulationMode"
  repr := .u8
  default := 0
  variants := [
    ("Regeneration", 0), ("Interactive", 1)
  ]
/-- src/common/enums.rs:11224-11228 -/
abbrev IFFSimulationMode := EnumVal IFFSimulationMode.spec
/-- src/common/enums.rs:11230-11235 -/
abbrev IFFSimulationMode.deserialize : Get IFFSimulationMode := IFFSimulationMode.spec.deserialize

/-- src/common/enums.rs:11239-11243 (default variant `NoApplicableModesData`) -/
def IFFApplicableModes.spec : EnumSpec where
  name := "IFFApplicableModes"
  repr := .u8
  default := 0
  variants := [
    ("NoApplicableModesData", 0), ("AllModes", 1)
  ]
/-- src/common/enums.rs:11239-11243 -/
abbrev IFFApplicableModes := EnumVal IFFApplicableModes.spec
/-- src/common/enums.rs:11245-11250 -/
abbrev IFFApplicableModes.deserialize : Get IFFApplicableModes := IFFApplicableModes.spec.deserialize

/-- src/common/enums.rs:11254-11258 (default variant `PositiveAltitudeAboveMSL`) -/
def ModeCAltitudeIndicator.spec : EnumSpec where
  name := "ModeCAltitudeIndicator"
  repr := .u8
  default := 0
  variants := [
    ("PositiveAltitudeAboveMSL", 0), ("NegativeAltitudeBelowMSLUseAlternateModeCAltitude", 1)
  ]
/-- src/common/enums.rs:11254-11258 -/
abbrev ModeCAltitudeIndicator := EnumVal ModeCAltitudeIndicator.spec
/-- src/common/enums.rs:11260-11265 -/
abbrev ModeCAltitudeIndicator.deserialize : Get ModeCAltitudeIndicator := ModeCAltitudeIndicator.spec.deserialize

/-- src/common/enums.rs:11269-11273 (default variant `Basic`) -/
def TCASACASBasicAdvancedIndicator.spec : EnumSpec where
  name := "TCASACASBasicAdvancedIndicator"
  repr := .u8
  default := 0
  variants := [
    ("Basic", 0), ("Advanced", 1)
  ]
/-- src/common/enums.rs:11269-11273 -/
abbrev TCASACASBasicAdvancedIndicator := EnumVal TCASACASBasicAdvancedIndicator.spec
/-- src/common/enums.rs:11275-11280 -/
abbrev TCASACASBasicAdvancedIndicator.deserialize : Get TCASACASBasicAdvancedIndicator := TCASACASBasicAdvancedIndicator.spec.deserialize

/-- src/common/enums.rs:11284-11288 (default variant `TCAS`) -/
def TCASACASIndicator.spec : EnumSpec where
  name := "TCASACASIndicator"
  repr := .u8
  default := 0
  variants := [
    ("TCAS", 0), ("ACAS", 1)
  ]
/-- src/common/enums.rs:11284-11288 -/
abbrev TCASACASIndicator := EnumVal TCASACASIndicator.spec
/-- src/common/enums.rs:11290-11295 -/
abbrev TCASACASIndicator.deserialize : Get TCASACASIndicator := TCASACASIndicator.spec.deserialize

/-- src/common/enums.rs:11299-11304 (default variant `NoStatement`) -/
def TCASACASSoftwareVersion.spec : EnumSpec where
  name := "TCASACASSoftwareVersion"
  repr := .u8
  default := 0
  variants := [
    ("NoStatement", 0), ("_6_0_2", 1), ("_7_0", 2)
  ]
/-- src/common/enums.rs:11299-11304 -/
abbrev TCASACASSoftwareVersion := EnumVal TCASACASSoftwareVersion.spec
/-- src/common/enums.rs:11306-11311 -/
abbrev TCASACASSoftwareVersion.deserialize : Get TCASACASSoftwareVersion := TCASACASSoftwareVersion.spec.deserialize

/-- src/common/enums.rs:11315-11320 (default variant `NoStatement`) -/
def TCASACASType.spec : EnumSpec where
  name := "TCASACASType"
  repr := .u8
  default := 0
  variants := [
    ("NoStatement", 0), ("ACASI", 1), ("ACASII", 2)
  ]
/-- src/common/enums.rs:11315-11320 -/
abbrev TCASACASType := EnumVal TCASACASType.spec
/-- src/common/enums.rs:11322-11327 -/
abbrev TCASACASType.deserialize : Get TCASACASType := TCASACASType.spec.deserialize

/-- src/common/enums.rs:11331-11335 (default variant `TCASI`) -/
def TCASIIIType.spec : EnumSpec where
  name := "TCASIIIType"
  repr := .u8
  default := 0
  variants := [
    ("TCASI", 0), ("TCASII", 1)
  ]
/-- src/common/enums.rs:11331-11335 -/
abbrev TCASIIIType := EnumVal TCASIIIType.spec
/-- src/common/enums.rs:11337-11342 -/
abbrev TCASIIIType.deserialize : Get TCASIIIType := TCASIIIType.spec.deserialize

/-- src/common/enums.rs:11346-11355 (default variant `NoStatement`) -/
def Mode5IFFMission.spec : EnumSpec where
  name := "Mode5IFFMission"
  repr := .u8
  default := 0
  variants := [
    ("NoStatement", 0), ("SurveillanceSHORAD", 1), ("SHORADassociatedwithaWeaponsSystem", 2),
    ("WeaponSystem", 3), ("AirborneandSurfaceSurveillancePlatforms", 4),
    ("AirborneandSurfaceWeaponsPlatforms", 5), ("GroundtoGround", 6)
  ]
/-- src/common/enums.rs:11346-11355 -/
abbrev Mode5IFFMission := EnumVal Mode5IFFMission.spec
/-- src/common/enums.rs:11357-11362 -/
abbrev Mode5IFFMission.deserialize : Get Mode5IFFMission := Mode5IFFMission.spec.deserialize

/-- src/common/enums.rs:11366-11374 (default variant `NoStatement`) -/
def ModeSInterrogatorStatusTransmitState.spec : EnumSpec where
  name := "ModeSInterrogatorStatusTransmitState"
  repr := .u8
  default := 0
  variants := [
    ("NoStatement", 0), ("RollCall", 1), ("AllCall", 2), ("LockoutOverride", 3), ("TemporaryLockout", 4),
    ("IntermittentLockout", 5)
  ]
/-- src/common/enums.rs:11366-11374 -/
abbrev ModeSInterrogatorStatusTransmitState := EnumVal ModeSInterrogatorStatusTransmitState.spec
/-- src/common/enums.rs:11376-11381 -/
abbrev ModeSInterrogatorStatusTransmitState.deserialize : Get ModeSInterrogatorStatusTransmitState := ModeSInterrogatorStatusTransmitState.spec.deserialize

/-- src/common/enums.rs:11385-11389 (default variant `II`) -/
def ModeSInterrogatorIdentifierICType.spec : EnumSpec where
  name := "ModeSInterrogatorIdentifierICType"
  repr := .u8
  default := 0
  variants := [
    ("II", 0), ("SI", 1)
  ]
/-- src/common/enums.rs:11385-11389 -/
abbrev ModeSInterrogatorIdentifierICType := EnumVal ModeSInterrogatorIdentifierICType.spec
/-- src/common/enums.rs:11391-11396 -/
abbrev ModeSInterrogatorIdentifierICType.deserialize : Get ModeSInterrogatorIdentifierICType := ModeSInterrogatorIdentifierICType.spec.deserialize

/-- src/common/enums.rs:11400-11404 (default variant `NoStatement`) -/
def ISLSAntennaType.spec : EnumSpec where
  name := "ISLSAntennaType"
  repr := .u8
  default := 0
  variants := [
    ("NoStatement", 0), ("MonopulseAntenna", 1)
  ]
/-- src/common/enums.rs:11400-11404 -/
abbrev ISLSAntennaType := EnumVal ISLSAntennaType.spec
/-- src/common/enums.rs:11406-11411 -/
abbrev ISLSAntennaType.deserialize : Get ISLSAntennaType := ISLSAntennaType.spec.deserialize

/-- src/common/enums.rs:11415-11421 (default variant `NoResponse`) -/
def Mode5Reply.spec : EnumSpec where
  name := "Mode5Reply"
  repr := .u8
  default := 0
  variants := [
    ("NoResponse", 0), ("Valid", 1), ("Invalid", 2), ("UnabletoVerify", 3)
  ]
/-- src/common/enums.rs:11415-11421 -/
abbrev Mode5Reply := EnumVal Mode5Reply.spec
/-- src/common/enums.rs:11423-11428 -/
abbrev Mode5Reply.deserialize : Get Mode5Reply := Mode5Reply.spec.deserialize

/-- src/common/enums.rs:11432-11438 (default variant `NoStatement`) -/
def AntennaSelection.spec : EnumSpec where
  name := "AntennaSelection"
  repr := .u8
  default := 0
  variants := [
    ("NoStatement", 0), ("Top", 1), ("Bottom", 2), ("Diversity", 3)
  ]
/-- src/common/enums.rs:11432-11438 -/
abbrev AntennaSelection := EnumVal AntennaSelection.spec
/-- src/common/enums.rs:11440-11445 -/
abbrev AntennaSelection.deserialize : Get AntennaSelection := AntennaSelection.spec.deserialize

/-- src/common/enums.rs:11449-11454 (default variant `NotCapable`) -/
def Mode5SquitterType.spec : EnumSpec where
  name := "Mode5SquitterType"
  repr := .u8
  default := 0
  variants := [
    ("NotCapable", 0), ("Short", 1), ("Extended", 2)
  ]
/-- src/common/enums.rs:11449-11454 -/
abbrev Mode5SquitterType := EnumVal Mode5SquitterType.spec
/-- src/common/enums.rs:11456-11461 -/
abbrev Mode5SquitterType.deserialize : Get Mode5SquitterType := Mode5SquitterType.spec.deserialize

/-- src/common/enums.rs:11465-11469 (default variant `Disabled`) -/
def Level2SquitterStatus.spec : EnumSpec where
  name := "Level2SquitterStatus"
  repr := .u8
  default := 0
  variants := [
    ("Disabled", 0), ("Enabled", 1)
  ]
/-- src/common/enums.rs:11465-11469 -/
abbrev Level2SquitterStatus := EnumVal Level2SquitterStatus.spec
/-- src/common/enums.rs:11471-11476 -/
abbrev Level2SquitterStatus.deserialize : Get Level2SquitterStatus := Level2SquitterStatus.spec.deserialize

/-- src/common/enums.rs:11480-11486 (default variant `NotCapable`) -/
def ModeSSquitterType.spec : EnumSpec where
  name := "ModeSSquitterType"
  repr := .u8
  default := 0
  variants := [
    ("NotCapable", 0), ("Acquisition", 1), ("Extended", 2), ("Short", 3)
  ]
/-- src/common/enums.rs:11480-11486 -/
abbrev ModeSSquitterType := EnumVal ModeSSquitterType.spec
/-- src/common/enums.rs:11488-11493 -/
abbrev ModeSSquitterType.deserialize : Get ModeSSquitterType := ModeSSquitterType.spec.deserialize

/-- src/common/enums.rs:11497-11501 (default variant `Layer4IFFDataRecords`) -/
def ModeSSquitterRecordSource.spec : EnumSpec where
  name := "ModeSSquitterRecordSource"
  repr := .u8
  default := 0
  variants := [
    ("Layer4IFFDataRecords", 0), ("Layer5GICBIFFDataRecords", 1)
  ]
/-- src/common/enums.rs:11497-11501 -/
abbrev ModeSSquitterRecordSource := EnumVal ModeSSquitterRecordSource.spec
/-- src/common/enums.rs:11503-11508 -/
abbrev ModeSSquitterRecordSource.deserialize : Get ModeSSquitterRecordSource := ModeSSquitterRecordSource.spec.deserialize

/-- src/common/enums.rs:11512-11517 (default variant `NoStatement`) -/
def AircraftPresentDomain.spec : EnumSpec where
  name := "AircraftPresentDomain"
  repr := .u8
  default := 0
  variants := [
    ("NoStatement", 0), ("Airborne", 1), ("OnGroundSurface", 2)
  ]
/-- src/common/enums.rs:11512-11517 -/
abbrev AircraftPresentDomain := EnumVal AircraftPresentDomain.spec
/-- src/common/enums.rs:11519-11524 -/
abbrev AircraftPresentDomain.deserialize : Get AircraftPresentDomain := AircraftPresentDomain.spec.deserialize

/-- src/common/enums.rs:11528-11533 (default variant `NoStatement`) -/
def AircraftIdentificationType.spec : EnumSpec where
  name := "AircraftIdentificationType"
  repr := .u8
  default := 0
  variants := [
    ("NoStatement", 0), ("FlightNumber", 1), ("TailNumber", 2)
  ]
/-- src/common/enums.rs:11528-11533 -/
abbrev AircraftIdentificationType := EnumVal AircraftIdentificationType.spec
/-- src/common/enums.rs:11535-11540 -/
abbrev AircraftIdentificationType.deserialize : Get AircraftIdentificationType := AircraftIdentificationType.spec.deserialize

/-- src/common/enums.rs:11544-11552 (default variant `NoCommunicationsCapability`) -/
def CapabilityReport.spec : EnumSpec where
  name := "CapabilityReport"
  repr := .u8
  default := 0
  variants := [
    ("NoCommunicationsCapability", 0),
    ("SignifiesatLeastCommAandCommBCapabilityandAbilitytoSetCACode7andontheGround", 4),
    ("SignifiesatLeastCommAandCommBcapabilityandAbilitytoSetCACode7andAirborne", 5),
    ("SignifiesatLeastCommAandCommBcapabilityandAbilitytoSetCACode7andEitherAirborneorontheGround", 6),
    ("SignifiestheDownlinkRequestFieldEquals234or5andEitherAirborneorontheGround", 7), ("NoStatement", 255)
  ]
/-- src/common/enums.rs:11544-11552 -/
abbrev CapabilityReport := EnumVal CapabilityReport.spec
/-- src/common/enums.rs:11554-11559 -/
abbrev CapabilityReport.deserialize : Get CapabilityReport := CapabilityReport.spec.deserialize

/-- src/common/enums.rs:11563-11569 (default variant `NoStatement`) -/
def NavigationSource.spec : EnumSpec where
  name := "NavigationSource"
  repr := .u8
  default := 0
  variants := [
    ("NoStatement", 0), ("GPS", 1), ("INS", 2), ("INSGPS", 3)
  ]
/-- src/common/enums.rs:11563-11569 -/
abbrev NavigationSource := EnumVal NavigationSource.spec
/-- src/common/enums.rs:11571-11576 -/
abbrev NavigationSource.deserialize : Get NavigationSource := NavigationSource.spec.deserialize

/-- src/common/enums.rs:11580-11584 (default variant `ComputeLocally`) -/
def IFFDataRecordAvailable.spec : EnumSpec where
  name := "IFFDataRecordAvailable"
  repr := .u8
  default := 0
  variants := [
    ("ComputeLocally", 0), ("IFFDataRecordAvailable", 1)
  ]
/-- src/common/enums.rs:11580-11584 -/
abbrev IFFDataRecordAvailable := EnumVal IFFDataRecordAvailable.spec
/-- src/common/enums.rs:11586-11591 -/
abbrev IFFDataRecordAvailable.deserialize : Get IFFDataRecordAvailable := IFFDataRecordAvailable.spec.deserialize

/-- src/common/enums.rs:11595-11599 (default variant `_100foot`) -/
def Mode5SAltitudeResolution.spec : EnumSpec where
  name := "Mode5SAltitudeResolution"
  repr := .u8
  default := 0
  variants := [
    ("_100foot", 0), ("_25foot", 1)
  ]
/-- src/common/enums.rs:11595-11599 -/
abbrev Mode5SAltitudeResolution := EnumVal Mode5SAltitudeResolution.spec
/-- src/common/enums.rs:11601-11606 -/
abbrev Mode5SAltitudeResolution.deserialize : Get Mode5SAltitudeResolution := Mode5SAltitudeResolution.spec.deserialize

/-- src/common/enums.rs:11610-11614 (default variant `Positive`) -/
def DeltaMode5SAltitudePositiveNegativeIndicator.spec : EnumSpec where
  name := "DeltaMode5SAltitudePositiveNegativeIndicator"
  repr := .u8
  default := 0
  variants := [
    ("Positive", 0), ("Negative", 1)
  ]
/-- src/common/enums.rs:11610-11614 -/
abbrev DeltaMode5SAltitudePositiveNegativeIndicator := EnumVal DeltaMode5SAltitudePositiveNegativeIndicator.spec
/-- src/common/enums.rs:11616-11621 -/
abbrev DeltaMode5SAltitudePositiveNegativeIndicator.deserialize : Get DeltaMode5SAltitudePositiveNegativeIndicator := DeltaMode5SAltitudePositiveNegativeIndicator.spec.deserialize

/-- src/common/enums.rs:11625-11641 (default variant `NoData`) -/
def FormatType.spec : EnumSpec where
  name := "FormatType"
  repr := .u8
  default := 0
  variants := [
    ("NoData", 0), ("IdentityFormat", 4), ("SurfaceFormat5meterRNP", 5), ("SurfaceFormat100meterRNP", 6),
    ("AirborneFormat5meterRNP25footBarometricAltitude", 7),
    ("AirborneFormat100meterRNP25footBarometricAltitude", 8),
    ("AirborneFormat0_25nmiRNP25footBarometricAltitude", 9),
    ("AirborneFormat1_0nmiRNP25footBarometricAltitude", 10),
    ("AirborneFormat5meterRNP100footBarometricAltitude", 11),
    ("AirborneFormat100meterRNP100footBarometricAltitude", 12),
    ("AirborneFormat0_25nmiRNP100footBarometricAltitude", 13),
    ("AirborneFormat1_0nmiRNP100footBarometricAltitude", 14), ("AirborneFormat5meterRNPGPSHeight", 15),
    ("AirborneFormat100meterRNPGPSHeight", 16)
  ]
/-- src/common/enums.rs:11625-11641 -/
abbrev FormatType := EnumVal FormatType.spec
/-- src/common/enums.rs:11643-11648 -/
abbrev FormatType.deserialize : Get FormatType := FormatType.spec.deserialize

/-- src/common/enums.rs:11652-11656 (default variant `ModeSAircraftAddressFieldValue`) -/
def AircraftAddressSource.spec : EnumSpec where
  name := "AircraftAddressSource"
  repr := .u8
  default := 0
  variants := [
    ("ModeSAircraftAddressFieldValue", 0), ("GICBIFFDataRecordAvailable", 1)
  ]
/-- src/common/enums.rs:11652-11656 -/
abbrev AircraftAddressSource := EnumVal AircraftAddressSource.spec
/-- src/common/enums.rs:11658-11663 -/
abbrev AircraftAddressSource.deserialize : Get AircraftAddressSource := AircraftAddressSource.spec.deserialize

/-- src/common/enums.rs:11667-11673 (default variant `NoInformation`) -/
def SurveillanceStatus.spec : EnumSpec where
  name := "SurveillanceStatus"
  repr := .u8
  default := 0
  variants := [
    ("NoInformation", 0), ("EmergencyLossofCommunications", 1), ("SPI", 2), ("ATCRBSCodeChange", 3)
  ]
/-- src/common/enums.rs:11667-11673 -/
abbrev SurveillanceStatus := EnumVal SurveillanceStatus.spec
/-- src/common/enums.rs:11675-11680 -/
abbrev SurveillanceStatus.deserialize : Get SurveillanceStatus := SurveillanceStatus.spec.deserialize

/-- src/common/enums.rs:11684-11689 (default variant `ComputeLocally`) -/
def TurnRateSource.spec : EnumSpec where
  name := "TurnRateSource"
  repr := .u8
  default := 0
  variants := [
    ("ComputeLocally", 0), ("LessThan1DegreeTurnorNotTurning", 1), ("_1DegreeorGreaterTurnRate", 2)
  ]
/-- src/common/enums.rs:11684-11689 -/
abbrev TurnRateSource := EnumVal TurnRateSource.spec
/-- src/common/enums.rs:11691-11696 -/
abbrev TurnRateSource.deserialize : Get TurnRateSource := TurnRateSource.spec.deserialize

/-- src/common/enums.rs:11700-11705 (default variant `ComputeLocally`) -/
def TimeTypeSource.spec : EnumSpec where
  name := "TimeTypeSource"
  repr := .u8
  default := 0
  variants := [
    ("ComputeLocally", 0), ("EvenSecond", 1), ("OddSecond", 2)
  ]
/-- src/common/enums.rs:11700-11705 -/
abbrev TimeTypeSource := EnumVal TimeTypeSource.spec
/-- src/common/enums.rs:11707-11712 -/
abbrev TimeTypeSource.deserialize : Get TimeTypeSource := TimeTypeSource.spec.deserialize

/-- src/common/enums.rs:11716-11719 (default variant `NoStatement`) -/
def AircraftTypeWake.spec : EnumSpec where
  name := "AircraftTypeWake"
  repr := .u8
  default := 0
  variants := [
    ("NoStatement", 0)
  ]
/-- src/common/enums.rs:11716-11719 -/
abbrev AircraftTypeWake := EnumVal AircraftTypeWake.spec
/-- src/common/enums.rs:11721-11726 -/
abbrev AircraftTypeWake.deserialize : Get AircraftTypeWake := AircraftTypeWake.spec.deserialize

/-- src/common/enums.rs:11730-11735 (default variant `NoStatement`) -/
def DataCategory.spec : EnumSpec where
  name := "DataCategory"
  repr := .u8
  default := 0
  variants := [
    ("NoStatement", 0), ("FunctionalData", 1), ("TransponderInterrogatorDataLinkMessages", 2)
  ]
/-- src/common/enums.rs:11730-11735 -/
abbrev DataCategory := EnumVal DataCategory.spec
/-- src/common/enums.rs:11737-11742 -/
abbrev DataCategory.deserialize : Get DataCategory := DataCategory.spec.deserialize

/-- src/common/enums.rs:11746-11761 (default variant `NotUsed`) -/
def TILinkType.spec : EnumSpec where
  name := "TILinkType"
  repr := .u8
  default := 0
  variants := [
    ("NotUsed", 0), ("GroundInitiatedCommunicationsB", 1), ("AutomaticDependentSurveillance", 2),
    ("GlobalNavigationSatelliteSystem", 3), ("DataLinkInitiationCapability", 4),
    ("AircraftCommunicationsAddressingandReportingSystem", 5), ("ATCCommunicationsManagement", 6),
    ("VHFDigitalLink", 7), ("AeronauticalTelecommunicationNetwork", 8), ("ModeSelect", 9),
    ("AirborneCollisionAvoidanceSystems", 10), ("TrafficCollisionAvoidanceSystems", 11),
    ("AutomaticDependentSurveillanceB", 12)
  ]
/-- src/common/enums.rs:11746-11761 -/
abbrev TILinkType := EnumVal TILinkType.spec
/-- src/common/enums.rs:11763-11768 -/
abbrev TILinkType.deserialize : Get TILinkType := TILinkType.spec.deserialize

/-- src/common/enums.rs:11772-11777 (default variant `NoStatement`) -/
def AntennaStatus.spec : EnumSpec where
  name := "AntennaStatus"
  repr := .u8
  default := 0
  variants := [
    ("NoStatement", 0), ("NotAbletoEmit", 1), ("AbletoEmit", 2)
  ]
/-- src/common/enums.rs:11772-11777 -/
abbrev AntennaStatus := EnumVal AntennaStatus.spec
/-- src/common/enums.rs:11779-11784 -/
abbrev AntennaStatus.deserialize : Get AntennaStatus := AntennaStatus.spec.deserialize

/-- src/common/enums.rs:11788-11794 (default variant `NoStatement`) -/
def TransmissionIndicator.spec : EnumSpec where
  name := "TransmissionIndicator"
  repr := .u8
  default := 0
  variants := [
    ("NoStatement", 0), ("OriginalInterrogation", 1), ("InterrogationReply", 2), ("SquitterTransmission", 3)
  ]
/-- src/common/enums.rs:11788-11794 -/
abbrev TransmissionIndicator := EnumVal TransmissionIndicator.spec
/-- src/common/enums.rs:11796-11801 -/
abbrev TransmissionIndicator.deserialize : Get TransmissionIndicator := TransmissionIndicator.spec.deserialize

/-- src/common/enums.rs:11805-11811 (default variant `NoStatement`) -/
def ReplyAmplification.spec : EnumSpec where
  name := "ReplyAmplification"
  repr := .u8
  default := 0
  variants := [
    ("NoStatement", 0), ("Complete", 1), ("Limted", 2), ("UnabletoRespond", 3)
  ]
/-- src/common/enums.rs:11805-11811 -/
abbrev ReplyAmplification := EnumVal ReplyAmplification.spec
/-- src/common/enums.rs:11813-11818 -/
abbrev ReplyAmplification.deserialize : Get ReplyAmplification := ReplyAmplification.spec.deserialize

/-- src/common/enums.rs:11822-11826 (default variant `UpdateDuetoHeartbeatTimer`) -/
def DEFireFlagsStateUpdateFlag.spec : EnumSpec where
  name := "DEFireFlagsStateUpdateFlag"
  repr := .u8
  default := 0
  variants := [
    ("UpdateDuetoHeartbeatTimer", 0), ("StateChange", 1)
  ]
/-- src/common/enums.rs:11822-11826 -/
abbrev DEFireFlagsStateUpdateFlag := EnumVal DEFireFlagsStateUpdateFlag.spec
/-- src/common/enums.rs:11828-11833 -/
abbrev DEFireFlagsStateUpdateFlag.deserialize : Get DEFireFlagsStateUpdateFlag := DEFireFlagsStateUpdateFlag.spec.deserialize

/-- src/common/enums.rs:11837-11843 (default variant `NoSmoke`) -/
def ComponentVisualDamageStatusSmoke.spec : EnumSpec where
  name := "ComponentVisualDamageStatusSmoke"
  repr := .u8
  default := 0
  variants := [
    ("NoSmoke", 0), ("LightSmoke", 1), ("ModerateSmoke", 2), ("HeavySmoke", 3)
  ]
/-- src/common/enums.rs:11837-11843 -/
abbrev ComponentVisualDamageStatusSmoke := EnumVal ComponentVisualDamageStatusSmoke.spec
/-- src/common/enums.rs:11845-11850 -/
abbrev ComponentVisualDamageStatusSmoke.deserialize : Get ComponentVisualDamageStatusSmoke := ComponentVisualDamageStatusSmoke.spec.deserialize

/-- src/common/enums.rs:11854-11860 (default variant `NormalAppearance`) -/
def ComponentVisualDamageStatusSurfaceDamage.spec : EnumSpec where
  name := "ComponentVisualDamageStatusSurfaceDamage"
  repr := .u8
  default := 0
  variants := [
    ("NormalAppearance", 0), ("LightCharring", 1), ("HeavyCharring", 2),
    ("OneorMoreHolesBurnedCompletelythroughSurface", 3)
  ]
/-- src/common/enums.rs:11854-11860 -/
abbrev ComponentVisualDamageStatusSurfaceDamage := EnumVal ComponentVisualDamageStatusSurfaceDamage.spec
/-- src/common/enums.rs:11862-11867 -/
abbrev ComponentVisualDamageStatusSurfaceDamage.deserialize : Get ComponentVisualDamageStatusSurfaceDamage := ComponentVisualDamageStatusSurfaceDamage.spec.deserialize

/-- src/common/enums.rs:11871-11875 (default variant `RegularAxis`) -/
def GridAxisDescriptorAxisType.spec : EnumSpec where
  name := "GridAxisDescriptorAxisType"
  repr := .u8
  default := 0
  variants := [
    ("RegularAxis", 0), ("IrregularAxis", 1)
  ]
/-- src/common/enums.rs:11871-11875 -/
abbrev GridAxisDescriptorAxisType := EnumVal GridAxisDescriptorAxisType.spec
/-- src/common/enums.rs:11877-11882 -/
abbrev GridAxisDescriptorAxisType.deserialize : Get GridAxisDescriptorAxisType := GridAxisDescriptorAxisType.spec.deserialize
/-- src/common/enums.rs:11884-11888 -/
instance : FieldSerialize GridAxisDescriptorAxisType := ⟨fun x => putU8 x.asU8⟩
/-- src/common/enums.rs:11890-11894 -/
instance : FieldDeserialize GridAxisDescriptorAxisType := ⟨GridAxisDescriptorAxisType.deserialize⟩
/-- src/common/enums.rs:11896-11900 -/
instance : FieldLen GridAxisDescriptorAxisType := ⟨fun _ => 1⟩

/-- src/common/enums.rs:11904-11908 (default variant `UniformColor`) -/
def AppearancePaintScheme.spec : EnumSpec where
  name := "AppearancePaintScheme"
  repr := .u8
  default := 0
  variants := [
    ("UniformColor", 0), ("Camouflage", 1)
  ]
/-- src/common/enums.rs:11904-11908 -/
abbrev AppearancePaintScheme := EnumVal AppearancePaintScheme.spec
/-- src/common/enums.rs:11910-11915 -/
abbrev AppearancePaintScheme.deserialize : Get AppearancePaintScheme := AppearancePaintScheme.spec.deserialize

/-- src/common/enums.rs:11919-11925 (default variant `NoDamage`) -/
def AppearanceDamage.spec : EnumSpec where
  name := "AppearanceDamage"
  repr := .u8
  default := 0
  variants := [
    ("NoDamage", 0), ("SlightDamage", 1), ("ModerateDamage", 2), ("Destroyed", 3)
  ]
/-- src/common/enums.rs:11919-11925 -/
abbrev AppearanceDamage := EnumVal AppearanceDamage.spec
/-- src/common/enums.rs:11927-11932 -/
abbrev AppearanceDamage.deserialize : Get AppearanceDamage := AppearanceDamage.spec.deserialize

/-- src/common/enums.rs:11936-11940 (default variant `Capability`) -/
def Mode5MessageFormatsStatus.spec : EnumSpec where
  name := "Mode5MessageFormatsStatus"
  repr := .u8
  default := 0
  variants := [
    ("Capability", 0), ("ActiveInterrogation", 1)
  ]
/-- src/common/enums.rs:11936-11940 -/
abbrev Mode5MessageFormatsStatus := EnumVal Mode5MessageFormatsStatus.spec
/-- src/common/enums.rs:11942-11947 -/
abbrev Mode5MessageFormatsStatus.deserialize : Get Mode5MessageFormatsStatus := Mode5MessageFormatsStatus.spec.deserialize

/-- src/common/enums.rs:11951-11957 (default variant `None`) -/
def AppearanceTrailingEffects.spec : EnumSpec where
  name := "AppearanceTrailingEffects"
  repr := .u8
  default := 0
  variants := [
    ("None", 0), ("Small", 1), ("Medium", 2), ("Large", 3)
  ]
/-- src/common/enums.rs:11951-11957 -/
abbrev AppearanceTrailingEffects := EnumVal AppearanceTrailingEffects.spec
/-- src/common/enums.rs:11959-11964 -/
abbrev AppearanceTrailingEffects.deserialize : Get AppearanceTrailingEffects := AppearanceTrailingEffects.spec.deserialize

/-- src/common/enums.rs:11968-11976 (default variant `NotApplicable`) -/
def AppearanceHatch.spec : EnumSpec where
  name := "AppearanceHatch"
  repr := .u8
  default := 0
  variants := [
    ("NotApplicable", 0), ("Closed", 1), ("Popped", 2), ("PoppedandPersonIsVisible", 3), ("Open", 4),
    ("OpenandPersonIsVisible", 5)
  ]
/-- src/common/enums.rs:11968-11976 -/
abbrev AppearanceHatch := EnumVal AppearanceHatch.spec
/-- src/common/enums.rs:11978-11983 -/
abbrev AppearanceHatch.deserialize : Get AppearanceHatch := AppearanceHatch.spec.deserialize

/-- src/common/enums.rs:11987-11991 (default variant `NotRaisedNotOperational`) -/
def AppearanceLauncherOperational.spec : EnumSpec where
  name := "AppearanceLauncherOperational"
  repr := .u8
  default := 0
  variants := [
    ("NotRaisedNotOperational", 0), ("RaisedOperational", 1)
  ]
/-- src/common/enums.rs:11987-11991 -/
abbrev AppearanceLauncherOperational := EnumVal AppearanceLauncherOperational.spec
/-- src/common/enums.rs:11993-11998 -/
abbrev AppearanceLauncherOperational.deserialize : Get AppearanceLauncherOperational := AppearanceLauncherOperational.spec.deserialize

/-- src/common/enums.rs:12002-12008 (default variant `DesertCamouflage`) -/
def AppearanceCamouflageType.spec : EnumSpec where
  name := "AppearanceCamouflageType"
  repr := .u8
  default := 0
  variants := [
    ("DesertCamouflage", 0), ("WinterCamouflage", 1), ("ForestCamouflage", 2), ("Other", 3)
  ]
/-- src/common/enums.rs:12002-12008 -/
abbrev AppearanceCamouflageType := EnumVal AppearanceCamouflageType.spec
/-- src/common/enums.rs:12010-12015 -/
abbrev AppearanceCamouflageType.deserialize : Get AppearanceCamouflageType := AppearanceCamouflageType.spec.deserialize

/-- src/common/enums.rs:12019-12023 (default variant `NotConcealed`) -/
def AppearanceConcealedPosition.spec : EnumSpec where
  name := "AppearanceConcealedPosition"
  repr := .u8
  default := 0
  variants := [
    ("NotConcealed", 0), ("PreparedConcealedPosition", 1)
  ]
/-- src/common/enums.rs:12019-12023 -/
abbrev AppearanceConcealedPosition := EnumVal AppearanceConcealedPosition.spec
/-- src/common/enums.rs:12025-12030 -/
abbrev AppearanceConcealedPosition.deserialize : Get AppearanceConcealedPosition := AppearanceConcealedPosition.spec.deserialize

/-- src/common/enums.rs:12034-12038 (default variant `Active`) -/
def AppearanceEntityorObjectState.spec : EnumSpec where
  name := "AppearanceEntityorObjectState"
  repr := .u8
  default := 0
  variants := [
    ("Active", 0), ("Deactivated", 1)
  ]
/-- src/common/enums.rs:12034-12038 -/
abbrev AppearanceEntityorObjectState := EnumVal AppearanceEntityorObjectState.spec
/-- src/common/enums.rs:12040-12045 -/
abbrev AppearanceEntityorObjectState.deserialize : Get AppearanceEntityorObjectState := AppearanceEntityorObjectState.spec.deserialize

/-- src/common/enums.rs:12049-12058 (default variant `NotApplicable`) -/
def AppearanceCanopy.spec : EnumSpec where
  name := "AppearanceCanopy"
  repr := .u8
  default := 0
  variants := [
    ("NotApplicable", 0), ("SingleCanopySingleTroopDoorClosed", 1),
    ("FrontandRearCanopyLeftandRightTroopDoorClosed", 2), ("FrontCanopyLeftTroopDoorOpen", 3),
    ("SingleCanopySingleTroopDoorOpen", 4), ("RearCanopyRightTroopDoorOpen", 5),
    ("FrontandRearCanopyLeftandRightTroopDoorOpen", 6)
  ]
/-- src/common/enums.rs:12049-12058 -/
abbrev AppearanceCanopy := EnumVal AppearanceCanopy.spec
/-- src/common/enums.rs:12060-12065 -/
abbrev AppearanceCanopy.deserialize : Get AppearanceCanopy := AppearanceCanopy.spec.deserialize

/-- src/common/enums.rs:12069-12074 (default variant `NotApplicable`) -/
def AppearanceSubsurfaceHatch.spec : EnumSpec where
  name := "AppearanceSubsurfaceHatch"
  repr := .u8
  default := 0
  variants := [
    ("NotApplicable", 0), ("HatchIsClosed", 1), ("HatchIsOpen", 4)
  ]
/-- src/common/enums.rs:12069-12074 -/
abbrev AppearanceSubsurfaceHatch := EnumVal AppearanceSubsurfaceHatch.spec
/-- src/common/enums.rs:12076-12081 -/
abbrev AppearanceSubsurfaceHatch.deserialize : Get AppearanceSubsurfaceHatch := AppearanceSubsurfaceHatch.spec.deserialize

/-- src/common/enums.rs:12086-12090 (default variant `NotActive`) -/
def ActiveInterrogationIndicator.spec : EnumSpec where
  name := "ActiveInterrogationIndicator"
  repr := .u8
  default := 0
  variants := [
    ("NotActive", 0), ("Active", 1)
  ]
/-- src/common/enums.rs:12086-12090 -/
abbrev ActiveInterrogationIndicator := EnumVal ActiveInterrogationIndicator.spec
/-- src/common/enums.rs:12092-12097 -/
abbrev ActiveInterrogationIndicator.deserialize : Get ActiveInterrogationIndicator := ActiveInterrogationIndicator.spec.deserialize

/-- src/common/enums.rs:12101-12107 (default variant `NoInjury`) -/
def AppearanceLifeformHealth.spec : EnumSpec where
  name := "AppearanceLifeformHealth"
  repr := .u8
  default := 0
  variants := [
    ("NoInjury", 0), ("SlightInjury", 1), ("ModerateInjury", 2), ("FatalInjury", 3)
  ]
/-- src/common/enums.rs:12101-12107 -/
abbrev AppearanceLifeformHealth := EnumVal AppearanceLifeformHealth.spec
/-- src/common/enums.rs:12109-12114 -/
abbrev AppearanceLifeformHealth.deserialize : Get AppearanceLifeformHealth := AppearanceLifeformHealth.spec.deserialize

/-- src/common/enums.rs:12118-12136 (default variant `NotSpecified`) -/
def AppearanceLifeFormComplianceStatus.spec : EnumSpec where
  name := "AppearanceLifeFormComplianceStatus"
  repr := .u8
  default := 0
  variants := [
    ("NotSpecified", 0), ("Detained", 1), ("Surrender", 2), ("UsingFists", 3), ("VerbalAbuseLevel1", 4),
    ("VerbalAbuseLevel2", 5), ("VerbalAbuseLevel3", 6), ("PassiveResistanceLevel1", 7),
    ("PassiveResistanceLevel2", 8), ("PassiveResistanceLevel3", 9), ("UsingNonLethalWeapon1", 10),
    ("UsingNonLethalWeapon2", 11), ("UsingNonLethalWeapon3", 12), ("UsingNonLethalWeapon4", 13),
    ("UsingNonLethalWeapon5", 14), ("UsingNonLethalWeapon6", 15)
  ]
/-- src/common/enums.rs:12118-12136 -/
abbrev AppearanceLifeFormComplianceStatus := EnumVal AppearanceLifeFormComplianceStatus.spec
/-- src/common/enums.rs:12138-12143 -/
abbrev AppearanceLifeFormComplianceStatus.deserialize : Get AppearanceLifeFormComplianceStatus := AppearanceLifeFormComplianceStatus.spec.deserialize

/-- src/common/enums.rs:12147-12165 (default variant `NotSpecified`) -/
def AppearanceLifeFormPosture.spec : EnumSpec where
  name := "AppearanceLifeFormPosture"
  repr := .u8
  default := 0
  variants := [
    ("NotSpecified", 0), ("UprightStandingStill", 1), ("UprightWalking", 2), ("UprightRunning", 3),
    ("Kneeling", 4), ("Prone", 5), ("Crawling", 6), ("Swimming", 7), ("Parachuting", 8), ("Jumping", 9),
    ("Sitting", 10), ("Squatting", 11), ("Crouching", 12), ("Wading", 13), ("Surrender", 14),
    ("Detained", 15)
  ]
/-- src/common/enums.rs:12147-12165 -/
abbrev AppearanceLifeFormPosture := EnumVal AppearanceLifeFormPosture.spec
/-- src/common/enums.rs:12167-12172 -/
abbrev AppearanceLifeFormPosture.deserialize : Get AppearanceLifeFormPosture := AppearanceLifeFormPosture.spec.deserialize

/-- src/common/enums.rs:12176-12182 (default variant `NotPresent`) -/
def AppearanceLifeFormWeaponImplement.spec : EnumSpec where
  name := "AppearanceLifeFormWeaponImplement"
  repr := .u8
  default := 0
  variants := [
    ("NotPresent", 0), ("Stowed", 1), ("DeployedActive", 2), ("FiringPositionInUse", 3)
  ]
/-- src/common/enums.rs:12176-12182 -/
abbrev AppearanceLifeFormWeaponImplement := EnumVal AppearanceLifeFormWeaponImplement.spec
/-- src/common/enums.rs:12184-12189 -/
abbrev AppearanceLifeFormWeaponImplement.deserialize : Get AppearanceLifeFormWeaponImplement := AppearanceLifeFormWeaponImplement.spec.deserialize

/-- src/common/enums.rs:12193-12197 (default variant `OpenMovement`) -/
def AppearanceConcealedMovement.spec : EnumSpec where
  name := "AppearanceConcealedMovement"
  repr := .u8
  default := 0
  variants := [
    ("OpenMovement", 0), ("RushesBetweenCoveredPositions", 1)
  ]
/-- src/common/enums.rs:12193-12197 -/
abbrev AppearanceConcealedMovement := EnumVal AppearanceConcealedMovement.spec
/-- src/common/enums.rs:12199-12204 -/
abbrev AppearanceConcealedMovement.deserialize : Get AppearanceConcealedMovement := AppearanceConcealedMovement.spec.deserialize

/-- src/common/enums.rs:12208-12215 (default variant `Clear`) -/
def AppearanceEnvironmentalDensity.spec : EnumSpec where
  name := "AppearanceEnvironmentalDensity"
  repr := .u8
  default := 0
  variants := [
    ("Clear", 0), ("Hazy", 1), ("Dense", 2), ("VeryDense", 3), ("Opaque", 4)
  ]
/-- src/common/enums.rs:12208-12215 -/
abbrev AppearanceEnvironmentalDensity := EnumVal AppearanceEnvironmentalDensity.spec
/-- src/common/enums.rs:12217-12222 -/
abbrev AppearanceEnvironmentalDensity.deserialize : Get AppearanceEnvironmentalDensity := AppearanceEnvironmentalDensity.spec.deserialize

/-- src/common/enums.rs:12226-12230 (default variant `GroundVehicle`) -/
def Mode5PlatformType.spec : EnumSpec where
  name := "Mode5PlatformType"
  repr := .u8
  default := 0
  variants := [
    ("GroundVehicle", 0), ("AirVehicle", 1)
  ]
/-- src/common/enums.rs:12226-12230 -/
abbrev Mode5PlatformType := EnumVal Mode5PlatformType.spec
/-- src/common/enums.rs:12232-12237 -/
abbrev Mode5PlatformType.deserialize : Get Mode5PlatformType := Mode5PlatformType.spec.deserialize

/-- src/common/enums.rs:12241-12245 (default variant `Day`) -/
def AppearanceAntiCollisionDayNight.spec : EnumSpec where
  name := "AppearanceAntiCollisionDayNight"
  repr := .u8
  default := 0
  variants := [
    ("Day", 0), ("Night", 1)
  ]
/-- src/common/enums.rs:12241-12245 -/
abbrev AppearanceAntiCollisionDayNight := EnumVal AppearanceAntiCollisionDayNight.spec
/-- src/common/enums.rs:12247-12252 -/
abbrev AppearanceAntiCollisionDayNight.deserialize : Get AppearanceAntiCollisionDayNight := AppearanceAntiCollisionDayNight.spec.deserialize

/-- src/common/enums.rs:12256-12260 (default variant `Dim`) -/
def AppearanceNavigationPositionBrightness.spec : EnumSpec where
  name := "AppearanceNavigationPositionBrightness"
  repr := .u8
  default := 0
  variants := [
    ("Dim", 0), ("Bright", 1)
  ]
/-- src/common/enums.rs:12256-12260 -/
abbrev AppearanceNavigationPositionBrightness := EnumVal AppearanceNavigationPositionBrightness.spec
/-- src/common/enums.rs:12262-12267 -/
abbrev AppearanceNavigationPositionBrightness.deserialize : Get AppearanceNavigationPositionBrightness := AppearanceNavigationPositionBrightness.spec.deserialize

/-- src/common/enums.rs:12271-12277 (default variant `NotApplicable`) -/
def AppearanceSupplyDeployed.spec : EnumSpec where
  name := "AppearanceSupplyDeployed"
  repr := .u8
  default := 0
  variants := [
    ("NotApplicable", 0), ("Stowed", 1), ("Deployed", 2), ("DeployedandActive", 3)
  ]
/-- src/common/enums.rs:12271-12277 -/
abbrev AppearanceSupplyDeployed := EnumVal AppearanceSupplyDeployed.spec
/-- src/common/enums.rs:12279-12284 -/
abbrev AppearanceSupplyDeployed.deserialize : Get AppearanceSupplyDeployed := AppearanceSupplyDeployed.spec.deserialize

/-- src/common/enums.rs:12288-12292 (default variant `OvertLighting`) -/
def AppearanceNVGMode.spec : EnumSpec where
  name := "AppearanceNVGMode"
  repr := .u8
  default := 0
  variants := [
    ("OvertLighting", 0), ("CovertLighting", 1)
  ]
/-- src/common/enums.rs:12288-12292 -/
abbrev AppearanceNVGMode := EnumVal AppearanceNVGMode.spec
/-- src/common/enums.rs:12294-12299 -/
abbrev AppearanceNVGMode.deserialize : Get AppearanceNVGMode := AppearanceNVGMode.spec.deserialize

/-- src/common/enums.rs:12303-12309 (default variant `None`) -/
def Parachute.spec : EnumSpec where
  name := "Parachute"
  repr := .u8
  default := 0
  variants := [
    ("None", 0), ("Deployed", 1), ("Collapsed", 2), ("MalfunctionStreamer", 3)
  ]
/-- src/common/enums.rs:12303-12309 -/
abbrev Parachute := EnumVal Parachute.spec
/-- src/common/enums.rs:12311-12316 -/
abbrev Parachute.deserialize : Get Parachute := Parachute.spec.deserialize

/-- src/common/enums.rs:12320-12326 (default variant `White`) -/
def FlareSmokeColor.spec : EnumSpec where
  name := "FlareSmokeColor"
  repr := .u8
  default := 0
  variants := [
    ("White", 0), ("Red", 1), ("Green", 2), ("IR", 3)
  ]
/-- src/common/enums.rs:12320-12326 -/
abbrev FlareSmokeColor := EnumVal FlareSmokeColor.spec
/-- src/common/enums.rs:12328-12333 -/
abbrev FlareSmokeColor.deserialize : Get FlareSmokeColor := FlareSmokeColor.spec.deserialize

/-- src/common/enums.rs:12337-12342 (default variant `NotIgnited`) -/
def FlareSmokeStatus.spec : EnumSpec where
  name := "FlareSmokeStatus"
  repr := .u8
  default := 0
  variants := [
    ("NotIgnited", 0), ("Burning", 1), ("BurnedOut", 2)
  ]
/-- src/common/enums.rs:12337-12342 -/
abbrev FlareSmokeStatus := EnumVal FlareSmokeStatus.spec
/-- src/common/enums.rs:12344-12349 -/
abbrev FlareSmokeStatus.deserialize : Get FlareSmokeStatus := FlareSmokeStatus.spec.deserialize

/-- src/common/enums.rs:12353-12358 (default variant `None`) -/
def SpotChaffStatus.spec : EnumSpec where
  name := "SpotChaffStatus"
  repr := .u8
  default := 0
  variants := [
    ("None", 0), ("Deployed", 1), ("Malfunction", 2)
  ]
/-- src/common/enums.rs:12353-12358 -/
abbrev SpotChaffStatus := EnumVal SpotChaffStatus.spec
/-- src/common/enums.rs:12360-12365 -/
abbrev SpotChaffStatus.deserialize : Get SpotChaffStatus := SpotChaffStatus.spec.deserialize

/-- src/common/enums.rs:12369-12374 (default variant `NoDamage`) -/
def AppearanceObjectGeneralDamage.spec : EnumSpec where
  name := "AppearanceObjectGeneralDamage"
  repr := .u8
  default := 0
  variants := [
    ("NoDamage", 0), ("Damaged", 1), ("Destroyed", 2)
  ]
/-- src/common/enums.rs:12369-12374 -/
abbrev AppearanceObjectGeneralDamage := EnumVal AppearanceObjectGeneralDamage.spec
/-- src/common/enums.rs:12376-12381 -/
abbrev AppearanceObjectGeneralDamage.deserialize : Get AppearanceObjectGeneralDamage := AppearanceObjectGeneralDamage.spec.deserialize

/-- src/common/enums.rs:12385-12389 (default variant `ObjectCreatedDuringtheExercise`) -/
def AppearanceObjectGeneralPredistributed.spec : EnumSpec where
  name := "AppearanceObjectGeneralPredistributed"
  repr := .u8
  default := 0
  variants := [
    ("ObjectCreatedDuringtheExercise", 0), ("ObjectPredistributedPriortoExerciseStart", 1)
  ]
/-- src/common/enums.rs:12385-12389 -/
abbrev AppearanceObjectGeneralPredistributed := EnumVal AppearanceObjectGeneralPredistributed.spec
/-- src/common/enums.rs:12391-12396 -/
abbrev AppearanceObjectGeneralPredistributed.deserialize : Get AppearanceObjectGeneralPredistributed := AppearanceObjectGeneralPredistributed.spec.deserialize

/-- src/common/enums.rs:12400-12405 (default variant `NoBreaching`) -/
def AppearanceObjectSpecificBreachState.spec : EnumSpec where
  name := "AppearanceObjectSpecificBreachState"
  repr := .u8
  default := 0
  variants := [
    ("NoBreaching", 0), ("Breached", 1), ("Cleared", 2)
  ]
/-- src/common/enums.rs:12400-12405 -/
abbrev AppearanceObjectSpecificBreachState := EnumVal AppearanceObjectSpecificBreachState.spec
/-- src/common/enums.rs:12407-12412 -/
abbrev AppearanceObjectSpecificBreachState.deserialize : Get AppearanceObjectSpecificBreachState := AppearanceObjectSpecificBreachState.spec.deserialize

/-- src/common/enums.rs:12416-12422 (default variant `Other`) -/
def AppearanceObjectSpecificChemicalType.spec : EnumSpec where
  name := "AppearanceObjectSpecificChemicalType"
  repr := .u8
  default := 0
  variants := [
    ("Other", 0), ("Hydrochloric", 1), ("WhitePhosphorous", 2), ("RedPhosphorous", 3)
  ]
/-- src/common/enums.rs:12416-12422 -/
abbrev AppearanceObjectSpecificChemicalType := EnumVal AppearanceObjectSpecificChemicalType.spec
/-- src/common/enums.rs:12424-12429 -/
abbrev AppearanceObjectSpecificChemicalType.deserialize : Get AppearanceObjectSpecificChemicalType := AppearanceObjectSpecificChemicalType.spec.deserialize

/-- src/common/enums.rs:12433-12439 (default variant `NoBreaching`) -/
def AppearanceLinearObjectTankDitchBreach.spec : EnumSpec where
  name := "AppearanceLinearObjectTankDitchBreach"
  repr := .u8
  default := 0
  variants := [
    ("NoBreaching", 0), ("SlightBreaching", 1), ("ModerateBreached", 2), ("Cleared", 3)
  ]
/-- src/common/enums.rs:12433-12439 -/
abbrev AppearanceLinearObjectTankDitchBreach := EnumVal AppearanceLinearObjectTankDitchBreach.spec
/-- src/common/enums.rs:12441-12446 -/
abbrev AppearanceLinearObjectTankDitchBreach.deserialize : Get AppearanceLinearObjectTankDitchBreach := AppearanceLinearObjectTankDitchBreach.spec.deserialize

/-- src/common/enums.rs:12450-12455 (default variant `LeftSideIsVisible`) -/
def AppearanceLinearObjectLaneMarkerVisible.spec : EnumSpec where
  name := "AppearanceLinearObjectLaneMarkerVisible"
  repr := .u8
  default := 0
  variants := [
    ("LeftSideIsVisible", 0), ("RightSideIsVisible", 1), ("BothSidesAreVisible", 2)
  ]
/-- src/common/enums.rs:12450-12455 -/
abbrev AppearanceLinearObjectLaneMarkerVisible := EnumVal AppearanceLinearObjectLaneMarkerVisible.spec
/-- src/common/enums.rs:12457-12462 -/
abbrev AppearanceLinearObjectLaneMarkerVisible.deserialize : Get AppearanceLinearObjectLaneMarkerVisible := AppearanceLinearObjectLaneMarkerVisible.spec.deserialize

/-- src/common/enums.rs:12466-12472 (default variant `None`) -/
def AppearanceObjectGeneralIEDPresent.spec : EnumSpec where
  name := "AppearanceObjectGeneralIEDPresent"
  repr := .u8
  default := 0
  variants := [
    ("None", 0), ("Visible", 1), ("PartiallyHidden", 2), ("CompletelyHidden", 3)
  ]
/-- src/common/enums.rs:12466-12472 -/
abbrev AppearanceObjectGeneralIEDPresent := EnumVal AppearanceObjectGeneralIEDPresent.spec
/-- src/common/enums.rs:12474-12479 -/
abbrev AppearanceObjectGeneralIEDPresent.deserialize : Get AppearanceObjectGeneralIEDPresent := AppearanceObjectGeneralIEDPresent.spec.deserialize

/-- src/common/enums.rs:12483-12487 (default variant `Mode5Level1`) -/
def Mode5LevelSelection.spec : EnumSpec where
  name := "Mode5LevelSelection"
  repr := .u8
  default := 0
  variants := [
    ("Mode5Level1", 0), ("Mode5Level2", 1)
  ]
/-- src/common/enums.rs:12483-12487 -/
abbrev Mode5LevelSelection := EnumVal Mode5LevelSelection.spec
/-- src/common/enums.rs:12489-12494 -/
abbrev Mode5LevelSelection.deserialize : Get Mode5LevelSelection := Mode5LevelSelection.spec.deserialize

/-- src/common/enums.rs:12498-12511 (default variant `Other`) -/
def SupplyFuelType.spec : EnumSpec where
  name := "SupplyFuelType"
  repr := .u8
  default := 0
  variants := [
    ("Other", 0), ("Gasoline", 1), ("DieselFuel", 2), ("JP4", 3), ("FuelOil", 4), ("JP8", 5), ("FogOil", 6),
    ("MultiSpectralFogOil", 7), ("JP5", 8), ("JPTS", 9), ("TS1", 10)
  ]
/-- src/common/enums.rs:12498-12511 -/
abbrev SupplyFuelType := EnumVal SupplyFuelType.spec
/-- src/common/enums.rs:12513-12518 -/
abbrev SupplyFuelType.deserialize : Get SupplyFuelType := SupplyFuelType.spec.deserialize

/-- src/common/enums.rs:12522-12530 (default variant `OtherActiveSensors`) -/
def SensorTypeSource.spec : EnumSpec where
  name := "SensorTypeSource"
  repr := .u8
  default := 0
  variants := [
    ("OtherActiveSensors", 0), ("Electromagnetic", 1), ("PassiveSensors", 2), ("MinefieldSensors", 3),
    ("UnderwaterAcoustics", 4), ("Lasers", 5)
  ]
/-- src/common/enums.rs:12522-12530 -/
abbrev SensorTypeSource := EnumVal SensorTypeSource.spec
/-- src/common/enums.rs:12532-12537 -/
abbrev SensorTypeSource.deserialize : Get SensorTypeSource := SensorTypeSource.spec.deserialize

/-- src/common/enums.rs:12541-12545 (default variant `Attached`) -/
def AttachedPartDetachedIndicator.spec : EnumSpec where
  name := "AttachedPartDetachedIndicator"
  repr := .u8
  default := 0
  variants := [
    ("Attached", 0), ("Detached", 1)
  ]
/-- src/common/enums.rs:12541-12545 -/
abbrev AttachedPartDetachedIndicator := EnumVal AttachedPartDetachedIndicator.spec
/-- src/common/enums.rs:12547-12552 -/
abbrev AttachedPartDetachedIndicator.deserialize : Get AttachedPartDetachedIndicator := AttachedPartDetachedIndicator.spec.deserialize

/-- src/common/enums.rs:12556-12560 (default variant `SimulatedCommunicationsChannel`) -/
def IntercomControlCommunicationsClass.spec : EnumSpec where
  name := "IntercomControlCommunicationsClass"
  repr := .u8
  default := 0
  variants := [
    ("SimulatedCommunicationsChannel", 0), ("SimulationSupportCommunicationsChannel", 1)
  ]
/-- src/common/enums.rs:12556-12560 -/
abbrev IntercomControlCommunicationsClass := EnumVal IntercomControlCommunicationsClass.spec
/-- src/common/enums.rs:12562-12567 -/
abbrev IntercomControlCommunicationsClass.deserialize : Get IntercomControlCommunicationsClass := IntercomControlCommunicationsClass.spec.deserialize

/-- src/common/enums.rs:12571-12574 (default variant `NoSubprotocol`) -/
def DISLiveEntitySubprotocolNumber.spec : EnumSpec where
  name := "DISLiveEntitySubprotocolNumber"
  repr := .u8
  default := 0
  variants := [
    ("NoSubprotocol", 0)
  ]
/-- src/common/enums.rs:12571-12574 -/
abbrev DISLiveEntitySubprotocolNumber := EnumVal DISLiveEntitySubprotocolNumber.spec
/-- src/common/enums.rs:12576-12581 -/
abbrev DISLiveEntitySubprotocolNumber.deserialize : Get DISLiveEntitySubprotocolNumber := DISLiveEntitySubprotocolNumber.spec.deserialize

/-- src/common/enums.rs:12585-12590 (default variant `MixedAntiPersonnelandAntiTankMinefield`) -/
def MinefieldAppearanceMinefieldType.spec : EnumSpec where
  name := "MinefieldAppearanceMinefieldType"
  repr := .u8
  default := 0
  variants := [
    ("MixedAntiPersonnelandAntiTankMinefield", 0), ("PureAntiPersonnelMinefield", 1),
    ("PureAntiTankMinefield", 2)
  ]
/-- src/common/enums.rs:12585-12590 -/
abbrev MinefieldAppearanceMinefieldType := EnumVal MinefieldAppearanceMinefieldType.spec
/-- src/common/enums.rs:12592-12597 -/
abbrev MinefieldAppearanceMinefieldType.deserialize : Get MinefieldAppearanceMinefieldType := MinefieldAppearanceMinefieldType.spec.deserialize

/-- src/common/enums.rs:12601-12605 (default variant `Active`) -/
def MinefieldAppearanceActiveStatus.spec : EnumSpec where
  name := "MinefieldAppearanceActiveStatus"
  repr := .u8
  default := 0
  variants := [
    ("Active", 0), ("Inactive", 1)
  ]
/-- src/common/enums.rs:12601-12605 -/
abbrev MinefieldAppearanceActiveStatus := EnumVal MinefieldAppearanceActiveStatus.spec
/-- src/common/enums.rs:12607-12612 -/
abbrev MinefieldAppearanceActiveStatus.deserialize : Get MinefieldAppearanceActiveStatus := MinefieldAppearanceActiveStatus.spec.deserialize

/-- src/common/enums.rs:12616-12620 (default variant `MinefieldHasActiveLane`) -/
def MinefieldAppearanceLane.spec : EnumSpec where
  name := "MinefieldAppearanceLane"
  repr := .u8
  default := 0
  variants := [
    ("MinefieldHasActiveLane", 0), ("MinefieldHasanInactiveLane", 1)
  ]
/-- src/common/enums.rs:12616-12620 -/
abbrev MinefieldAppearanceLane := EnumVal MinefieldAppearanceLane.spec
/-- src/common/enums.rs:12622-12627 -/
abbrev MinefieldAppearanceLane.deserialize : Get MinefieldAppearanceLane := MinefieldAppearanceLane.spec.deserialize

/-- src/common/enums.rs:12631-12635 (default variant `Active`) -/
def MinefieldAppearanceState.spec : EnumSpec where
  name := "MinefieldAppearanceState"
  repr := .u8
  default := 0
  variants := [
    ("Active", 0), ("Deactivated", 1)
  ]
/-- src/common/enums.rs:12631-12635 -/
abbrev MinefieldAppearanceState := EnumVal MinefieldAppearanceState.spec
/-- src/common/enums.rs:12637-12642 -/
abbrev MinefieldAppearanceState.deserialize : Get MinefieldAppearanceState := MinefieldAppearanceState.spec.deserialize

/-- src/common/enums.rs:12646-12655 (default variant `NoFuse`) -/
def MinefieldFusingFuseType.spec : EnumSpec where
  name := "MinefieldFusingFuseType"
  repr := .u8
  default := 0
  variants := [
    ("NoFuse", 0), ("Other", 1), ("Pressure", 2), ("Magnetic", 3), ("TiltRod", 4), ("Command", 5),
    ("TripWire", 6)
  ]
/-- src/common/enums.rs:12646-12655 -/
abbrev MinefieldFusingFuseType := EnumVal MinefieldFusingFuseType.spec
/-- src/common/enums.rs:12657-12662 -/
abbrev MinefieldFusingFuseType.deserialize : Get MinefieldFusingFuseType := MinefieldFusingFuseType.spec.deserialize

/-- src/common/enums.rs:12666-12670 (default variant `NoLocationErrors`) -/
def Mode5LocationErrors.spec : EnumSpec where
  name := "Mode5LocationErrors"
  repr := .u8
  default := 0
  variants := [
    ("NoLocationErrors", 0), ("IFFDataRecordPresent", 1)
  ]
/-- src/common/enums.rs:12666-12670 -/
abbrev Mode5LocationErrors := EnumVal Mode5LocationErrors.spec
/-- src/common/enums.rs:12672-12677 -/
abbrev Mode5LocationErrors.deserialize : Get Mode5LocationErrors := Mode5LocationErrors.spec.deserialize

/-- src/common/enums.rs:12681-12687 (default variant `None`) -/
def MinefieldPaintSchemeAlgae.spec : EnumSpec where
  name := "MinefieldPaintSchemeAlgae"
  repr := .u8
  default := 0
  variants := [
    ("None", 0), ("Light", 1), ("Moderate", 2), ("Heavy", 3)
  ]
/-- src/common/enums.rs:12681-12687 -/
abbrev MinefieldPaintSchemeAlgae := EnumVal MinefieldPaintSchemeAlgae.spec
/-- src/common/enums.rs:12689-12694 -/
abbrev MinefieldPaintSchemeAlgae.deserialize : Get MinefieldPaintSchemeAlgae := MinefieldPaintSchemeAlgae.spec.deserialize

/-- src/common/enums.rs:12698-12719 (default variant `Other`) -/
def MinefieldPaintSchemePaintScheme.spec : EnumSpec where
  name := "MinefieldPaintSchemePaintScheme"
  repr := .u8
  default := 0
  variants := [
    ("Other", 0), ("Standard", 1), ("CamouflageDesert", 2), ("CamouflageJungle", 3), ("CamouflageSnow", 4),
    ("CamouflageGravel", 5), ("CamouflagePavement", 6), ("CamouflageSand", 7), ("NaturalWood", 8),
    ("Clear", 9), ("Red", 10), ("Blue", 11), ("Green", 12), ("Olive", 13), ("White", 14), ("Tan", 15),
    ("Black", 16), ("Yellow", 17), ("Brown", 18)
  ]
/-- src/common/enums.rs:12698-12719 -/
abbrev MinefieldPaintSchemePaintScheme := EnumVal MinefieldPaintSchemePaintScheme.spec
/-- src/common/enums.rs:12721-12726 -/
abbrev MinefieldPaintSchemePaintScheme.deserialize : Get MinefieldPaintSchemePaintScheme := MinefieldPaintSchemePaintScheme.spec.deserialize

/-- src/common/enums.rs:12730-12736 (default variant `Closed`) -/
def CoverShroudStatus.spec : EnumSpec where
  name := "CoverShroudStatus"
  repr := .u8
  default := 0
  variants := [
    ("Closed", 0), ("Opening", 1), ("CoverShroudBlownDetached", 2), ("OpenAttached", 3)
  ]
/-- src/common/enums.rs:12730-12736 -/
abbrev CoverShroudStatus := EnumVal CoverShroudStatus.spec
/-- src/common/enums.rs:12738-12743 -/
abbrev CoverShroudStatus.deserialize : Get CoverShroudStatus := CoverShroudStatus.spec.deserialize

/-- src/common/enums.rs:12747-12757 (default variant `Other`) -/
def PlatformLandMotorcycleSubcategories.spec : EnumSpec where
  name := "PlatformLandMotorcycleSubcategories"
  repr := .u8
  default := 0
  variants := [
    ("Other", 0), ("Scooter", 1), ("SportStreet", 2), ("Cruiser", 3), ("DirtBike", 4), ("Standard", 5),
    ("Touring", 6), ("DualPurpose", 7)
  ]
/-- src/common/enums.rs:12747-12757 -/
abbrev PlatformLandMotorcycleSubcategories := EnumVal PlatformLandMotorcycleSubcategories.spec
/-- src/common/enums.rs:12759-12764 -/
abbrev PlatformLandMotorcycleSubcategories.deserialize : Get PlatformLandMotorcycleSubcategories := PlatformLandMotorcycleSubcategories.spec.deserialize

/-- src/common/enums.rs:12770-12816 (default variant `Other`) -/
def PlatformLandCarSubcategories.spec : EnumSpec where
  name := "PlatformLandCarSubcategories"
  repr := .u8
  default := 0
  variants := [
    ("Other", 0), ("Generic", 10), ("GenericMiniMicrocar", 11), ("GenericEconomyCompact", 12),
    ("GenericIntermediateStandard", 13), ("GenericFullPremiumLuxury", 14), ("GenericOversize", 15),
    ("_2DoorCoupe", 20), ("_2DoorCoupeMiniMicrocar", 21), ("_2DoorCoupeEconomyCompact", 22),
    ("_2DoorCoupeIntermediateStandard", 23), ("_3DoorHatchback", 30), ("_3DoorHatchbackMiniMicrocar", 31),
    ("_3DoorHatchbackEconomyCompact", 32), ("_4DoorSedan", 40), ("_4DoorSedanMiniMicrocar", 41),
    ("_4DoorSedanEconomyCompact", 42), ("_4DoorSedanIntermediateStandard", 43),
    ("_4DoorSedanFullPremiumLuxury", 44), ("_4DoorSedanOversize", 45), ("_5DoorHatchback", 50),
    ("_5DoorHatchbackMiniMicrocar", 51), ("_5DoorHatchbackEconomyCompact", 52),
    ("_5DoorHatchbackIntermediateStandard", 53), ("_5DoorHatchbackFullPremiumLuxury", 54), ("Wagon", 60),
    ("WagonEconomyCompact", 62), ("WagonIntermediateStandard", 63), ("WagonFullPremiumLuxury", 64),
    ("Minivan", 70), ("Limousine", 80), ("LimousineFullPremiumLuxury", 84), ("LimousineOversize", 85),
    ("Sports", 90), ("Convertible", 100), ("ConvertibleMiniMicrocar", 101),
    ("ConvertibleEconomyCompact", 102), ("ConvertibleIntermediateStandard", 103),
    ("ConvertibleFullPremiumLuxury", 104), ("SportsUtilityVehicle", 110),
    ("SportsUtilityVehicleEconomyCompact", 112), ("SportsUtilityVehicleIntermediateStandard", 113),
    ("SportsUtilityVehicleFullPremiumLuxury", 114), ("SportsUtilityVehicleOversize", 115)
  ]
/-- src/common/enums.rs:12770-12816 -/
abbrev PlatformLandCarSubcategories := EnumVal PlatformLandCarSubcategories.spec
/-- src/common/enums.rs:12818-12823 -/
abbrev PlatformLandCarSubcategories.deserialize : Get PlatformLandCarSubcategories := PlatformLandCarSubcategories.spec.deserialize

/-- src/common/enums.rs:12827-12848 (default variant `Other`) -/
def PlatformLandBusSubcategories.spec : EnumSpec where
  name := "PlatformLandBusSubcategories"
  repr := .u8
  default := 0
  variants := [
    ("Other", 0), ("CommuterFlatNose", 1), ("CommuterSnoutNose", 2), ("Shuttle", 3), ("DoubleDecker", 4),
    ("Guided", 5), ("Kneeling", 6), ("Midibus", 7), ("Minibus", 8), ("MiniWheelchair", 9), ("Motorcoach", 10),
    ("PrisonBus", 11), ("Schoolbus", 12), ("SchoolWheelchair", 13), ("Tour", 14), ("TramParkingLot", 15),
    ("Trolley", 16), ("AirportTransport", 17), ("Articulated", 18)
  ]
/-- src/common/enums.rs:12827-12848 -/
abbrev PlatformLandBusSubcategories := EnumVal PlatformLandBusSubcategories.spec
/-- src/common/enums.rs:12850-12855 -/
abbrev PlatformLandBusSubcategories.deserialize : Get PlatformLandBusSubcategories := PlatformLandBusSubcategories.spec.deserialize

/-- src/common/enums.rs:12859-12893 (default variant `Other`) -/
def PlatformLandSingleUnitCargoTruckSubcategories.spec : EnumSpec where
  name := "PlatformLandSingleUnitCargoTruckSubcategories"
  repr := .u8
  default := 0
  variants := [
    ("Other", 0), ("PickupTruckMini", 1), ("PickupTruckMidSize", 2), ("PickupTruckFullSize", 3),
    ("PickupTruckCrewCab", 4), ("PickupTruckExtendedCab", 5), ("PickupTruckLongBed", 6),
    ("PickupTruckCabForward", 7), ("CargoTruck", 10), ("CargoTruckupto2_5Ton", 11),
    ("CargoTruckupto5Ton", 12), ("CargoTruckupto7_5Ton", 13), ("CargoTruckupto10Ton", 14),
    ("CargoTruckover10Ton", 15), ("Tanker", 20), ("SemiTrailerCab", 30), ("Van", 70), ("VanExtended", 71),
    ("VanCompact", 72), ("VanWheelchair", 73), ("VanDelivery", 74), ("DeliveryTruck", 100),
    ("DeliveryTruckBox", 101), ("DeliveryTruckFlatbed", 102), ("DeliveryTruckStakeBed", 103),
    ("MessTruck", 104), ("TruckPalletisedLoadSystem", 105), ("TruckPetroleumOilandLubricants", 106),
    ("TruckPetroleumOilandLubricantsSurveillance", 107), ("RefrigeratedTruckSmall", 108),
    ("RefrigeratedTruckMedium", 109), ("RefrigeratedTruckLarge", 110)
  ]
/-- src/common/enums.rs:12859-12893 -/
abbrev PlatformLandSingleUnitCargoTruckSubcategories := EnumVal PlatformLandSingleUnitCargoTruckSubcategories.spec
/-- src/common/enums.rs:12895-12900 -/
abbrev PlatformLandSingleUnitCargoTruckSubcategories.deserialize : Get PlatformLandSingleUnitCargoTruckSubcategories := PlatformLandSingleUnitCargoTruckSubcategories.spec.deserialize

/-- src/common/enums.rs:12904-12951 (default variant `Other`) -/
def PlatformLandSingleUnitUtilityEmergencyTruckSubcategories.spec : EnumSpec where
  name := "PlatformLandSingleUnitUtilityEmergencyTruckSubcategories"
  repr := .u8
  default := 0
  variants := [
    ("Other", 0), ("AmbulanceTruck", 1), ("FireParamedicTruck", 2), ("AmbulanceAdvancedLifeSupport", 3),
    ("AmbulancePickupTruck", 4), ("FireEngine", 10), ("AerialLadderFireEngine", 11),
    ("AirportFireEngine", 12), ("WildlandFireEngine", 13), ("FireChief", 14), ("PolicePaddyWagon", 20),
    ("PoliceSWAT", 21), ("PoliceBombSquad", 22), ("PolicePickupTruck", 23), ("Hazmat", 30),
    ("WreckerNormalHookandChain", 40), ("WreckerNormalBoom", 41), ("WreckerNormalWheelLift", 42),
    ("WreckerNormalFlatbed", 43), ("WreckerNormalIntegrated", 44), ("WreckerHeavyHookandChain", 45),
    ("WreckerHeavyBoom", 46), ("WreckerHeavyWheelLift", 47), ("WreckerHeavyFlatbed", 48),
    ("WreckerHeavyIntegrated", 49), ("PostalTruck", 60), ("StreetSweeper", 70),
    ("StreetSweeperThreeWheeled", 71), ("WasteCollectionOther", 80), ("WasteCollectionFrontLoader", 81),
    ("WasteCollectionRearLoader", 82), ("WasteCollectionAutomatedSideLoader", 83),
    ("WasteCollectionPneumaticCollection", 84), ("WasteCollectionGrapple", 85), ("UtilityTruck", 90),
    ("UtilityTruckwBoom", 91), ("AerialWorkPlatformOther", 100), ("AerialWorkPlatformScissorLift", 101),
    ("AerialWorkPlatformTelescoping", 102), ("MaintenanceTruck", 120), ("DecontaminationTruck", 121),
    ("WaterCannonTruck", 122), ("WaterPurificationTruck", 123), ("SmokeGeneratorTruck", 124),
    ("AutoRickshaw", 150)
  ]
/-- src/common/enums.rs:12904-12951 -/
abbrev PlatformLandSingleUnitUtilityEmergencyTruckSubcategories := EnumVal PlatformLandSingleUnitUtilityEmergencyTruckSubcategories.spec
/-- src/common/enums.rs:12953-12958 -/
abbrev PlatformLandSingleUnitUtilityEmergencyTruckSubcategories.deserialize : Get PlatformLandSingleUnitUtilityEmergencyTruckSubcategories := PlatformLandSingleUnitUtilityEmergencyTruckSubcategories.spec.deserialize

/-- src/common/enums.rs:12962-12967 (default variant `Other`) -/
def PlatformLandMultipleUnitCargoTruckSubcategories.spec : EnumSpec where
  name := "PlatformLandMultipleUnitCargoTruckSubcategories"
  repr := .u8
  default := 0
  variants := [
    ("Other", 0), ("TractorTrailer", 1), ("Tanker", 2)
  ]
/-- src/common/enums.rs:12962-12967 -/
abbrev PlatformLandMultipleUnitCargoTruckSubcategories := EnumVal PlatformLandMultipleUnitCargoTruckSubcategories.spec
/-- src/common/enums.rs:12969-12974 -/
abbrev PlatformLandMultipleUnitCargoTruckSubcategories.deserialize : Get PlatformLandMultipleUnitCargoTruckSubcategories := PlatformLandMultipleUnitCargoTruckSubcategories.spec.deserialize

/-- src/common/enums.rs:12978-12982 (default variant `Other`) -/
def PlatformLandMultipleUnitUtilityEmergencyTruckSubcategories.spec : EnumSpec where
  name := "PlatformLandMultipleUnitUtilityEmergencyTruckSubcategories"
  repr := .u8
  default := 0
  variants := [
    ("Other", 0), ("FireEngineHookAndLadder", 1)
  ]
/-- src/common/enums.rs:12978-12982 -/
abbrev PlatformLandMultipleUnitUtilityEmergencyTruckSubcategories := EnumVal PlatformLandMultipleUnitUtilityEmergencyTruckSubcategories.spec
/-- src/common/enums.rs:12984-12989 -/
abbrev PlatformLandMultipleUnitUtilityEmergencyTruckSubcategories.deserialize : Get PlatformLandMultipleUnitUtilityEmergencyTruckSubcategories := PlatformLandMultipleUnitUtilityEmergencyTruckSubcategories.spec.deserialize

/-- src/common/enums.rs:12993-13051 (default variant `Other`) -/
def PlatformLandConstructionSpecialtyVehicleSubcategories.spec : EnumSpec where
  name := "PlatformLandConstructionSpecialtyVehicleSubcategories"
  repr := .u8
  default := 0
  variants := [
    ("Other", 0), ("Tug", 1), ("Forklift", 2), ("Loader", 3), ("LoaderBackhoe", 4),
    ("CraneTractorMounted", 5), ("CraneWheeled", 6), ("Grader", 7), ("RoadRollerOther", 8),
    ("RoadRollerDoubleDrumSmooth", 9), ("RoadRollerSingleDrumSmooth", 10), ("RoadRollerDoubleDrumSheeps", 11),
    ("RoadRollerSingleDrumSheeps", 12), ("RoadRollerPneumaticTired", 13), ("ExcavatorOther", 14),
    ("ExcavatorDragline", 15), ("ExcavatorLongReach", 16), ("ExcavatorMobileTire", 17), ("MiniExcavator", 18),
    ("ExcavatorGiant", 19), ("BulldozerTractorMounted", 20), ("BulldozerTracked", 21), ("Scraper", 22),
    ("SkidSteer", 23), ("DumpTruckOther", 24), ("DumpTruckArticulated", 25), ("DumpTruckTransfer", 26),
    ("DumpTruckSuper", 27), ("DumpTruckOffRoad", 28), ("Paver", 29), ("DrillingMachine", 30),
    ("ConcreteMixerOther", 31), ("ConcreteMixerRearDischarge", 32), ("ConcreteMixerFrontDischarge", 33),
    ("ConcreteMixerSixAxle", 34), ("ConcreteMixerLongReachBoom", 35), ("ConcreteMixerVolumetric", 36),
    ("TrencherChain", 37), ("TrencherRockwheel", 38), ("Snowcat", 39), ("CraneTracked", 40),
    ("CraneShovel", 41), ("SweeperRotary", 42), ("RollerVibratoryCompactor", 43), ("ForkLiftTruck", 44),
    ("ForkLiftRoughtTerrain", 45), ("Transloader", 46), ("TruckWaterConstruction", 47),
    ("TruckFuelDelivery", 48), ("TruckSawmill", 49), ("TruckLineMarkingConstruction", 50),
    ("TractorIndustrial", 51), ("CompactorHighSpeed", 52), ("TruckDrilling", 53),
    ("TruckDrillingSupport", 54), ("CraneConstruction", 55)
  ]
/-- src/common/enums.rs:12993-13051 -/
abbrev PlatformLandConstructionSpecialtyVehicleSubcategories := EnumVal PlatformLandConstructionSpecialtyVehicleSubcategories.spec
/-- src/common/enums.rs:13053-13058 -/
abbrev PlatformLandConstructionSpecialtyVehicleSubcategories.deserialize : Get PlatformLandConstructionSpecialtyVehicleSubcategories := PlatformLandConstructionSpecialtyVehicleSubcategories.spec.deserialize

/-- src/common/enums.rs:13062-13073 (default variant `Other`) -/
def PlatformLandFarmSpecialtyVehicleSubcategories.spec : EnumSpec where
  name := "PlatformLandFarmSpecialtyVehicleSubcategories"
  repr := .u8
  default := 0
  variants := [
    ("Other", 0), ("Tractor", 1), ("HarvesterReaper", 2), ("Skidder", 3), ("Forwarder", 4),
    ("LawnMowerOther", 5), ("LawnMowerRiding", 6), ("LawnMowerStanding", 7), ("LawnMowerPush", 8)
  ]
/-- src/common/enums.rs:13062-13073 -/
abbrev PlatformLandFarmSpecialtyVehicleSubcategories := EnumVal PlatformLandFarmSpecialtyVehicleSubcategories.spec
/-- src/common/enums.rs:13075-13080 -/
abbrev PlatformLandFarmSpecialtyVehicleSubcategories.deserialize : Get PlatformLandFarmSpecialtyVehicleSubcategories := PlatformLandFarmSpecialtyVehicleSubcategories.spec.deserialize

/-- src/common/enums.rs:13084-13114 (default variant `Other`) -/
def PlatformLandTrailerSubcategories.spec : EnumSpec where
  name := "PlatformLandTrailerSubcategories"
  repr := .u8
  default := 0
  variants := [
    ("Other", 0), ("TrailerFlatbed", 1), ("TrailerContainer", 2), ("TrailerContainerRefrigerated", 3),
    ("TrailerDouble", 4), ("TrailerAutoTransport", 5), ("TrailerArticulated", 6), ("TrailerTanker", 7),
    ("TrailerTankerSmall", 8), ("TrailerTankerLarge", 9), ("TrailerTankerGasoline", 10),
    ("TrailerTankerMilk", 11), ("TrailerTankerWater", 12), ("TrailerTankerSeptic", 13), ("TrailerBoat", 14),
    ("TrailerBoatSmall", 15), ("TrailerBoatLarge", 16), ("TrailerRecreational", 17),
    ("TrailerRecreationalConventional", 18), ("TrailerRecreationalTravelExpandable", 19),
    ("TrailerRecreationalFifthWheelTravel", 20), ("TrailerRecreationalFoldingCamping", 21),
    ("TrailerRecreationalTruckCamper", 22), ("TrailerAerostatMooringPlatform", 23), ("TrailerHousehold", 24),
    ("TrailerKitchen", 25), ("TrailerUltraLightAircraft", 26), ("TrailerHeavyEquipment", 27)
  ]
/-- src/common/enums.rs:13084-13114 -/
abbrev PlatformLandTrailerSubcategories := EnumVal PlatformLandTrailerSubcategories.spec
/-- src/common/enums.rs:13116-13121 -/
abbrev PlatformLandTrailerSubcategories.deserialize : Get PlatformLandTrailerSubcategories := PlatformLandTrailerSubcategories.spec.deserialize

/-- src/common/enums.rs:13125-13142 (default variant `Other`) -/
def PlatformLandRecreationalSubcategories.spec : EnumSpec where
  name := "PlatformLandRecreationalSubcategories"
  repr := .u8
  default := 0
  variants := [
    ("Other", 0), ("ATV2X4", 1), ("ATV4X4", 2), ("ATV6X6", 3), ("ATV3wheeled", 4), ("ToyOther", 5),
    ("ToyCar", 6), ("ToyATV", 7), ("GolfCart", 8), ("Snowmobile", 9), ("RecreationalVehicle", 10),
    ("RecreationalVehicleTypeAMotorhome", 11), ("RecreationalVehicleTypeBMotorhome", 12),
    ("RecreationalVehicleTypeCMotorhome", 13), ("ConversionVan", 14)
  ]
/-- src/common/enums.rs:13125-13142 -/
abbrev PlatformLandRecreationalSubcategories := EnumVal PlatformLandRecreationalSubcategories.spec
/-- src/common/enums.rs:13144-13149 -/
abbrev PlatformLandRecreationalSubcategories.deserialize : Get PlatformLandRecreationalSubcategories := PlatformLandRecreationalSubcategories.spec.deserialize

/-- src/common/enums.rs:13153-13180 (default variant `Other`) -/
def PlatformLandNonmotorizedSubcategories.spec : EnumSpec where
  name := "PlatformLandNonmotorizedSubcategories"
  repr := .u8
  default := 0
  variants := [
    ("Other", 0), ("Unicycle", 1), ("Bicycle", 2), ("BicycleMountain", 3), ("BicycleRacing", 4),
    ("Tricycle", 5), ("Quadricycle", 6), ("RickshawTwoPerson", 7), ("RickshawOnePerson", 8),
    ("TandemBicycle", 9), ("CycleTrailer", 10), ("CycleSidecar", 11), ("Sled", 12), ("Skis", 13),
    ("Snowboard", 14), ("Skateboard", 15), ("Skates", 16), ("SkatesInLine", 17), ("WagonCart", 18),
    ("Dolly", 19), ("Handtruck", 20), ("PushCart", 21), ("Wheelbarrow", 22), ("KickScooter", 23),
    ("Wheelchair", 24)
  ]
/-- src/common/enums.rs:13153-13180 -/
abbrev PlatformLandNonmotorizedSubcategories := EnumVal PlatformLandNonmotorizedSubcategories.spec
/-- src/common/enums.rs:13182-13187 -/
abbrev PlatformLandNonmotorizedSubcategories.deserialize : Get PlatformLandNonmotorizedSubcategories := PlatformLandNonmotorizedSubcategories.spec.deserialize

/-- src/common/enums.rs:13191-13201 (default variant `Other`) -/
def PlatformLandTrainsSubcategories.spec : EnumSpec where
  name := "PlatformLandTrainsSubcategories"
  repr := .u8
  default := 0
  variants := [
    ("Other", 0), ("Engine", 1), ("BoxCar", 2), ("Tanker", 3), ("Flatcar", 4), ("Caboose", 5),
    ("PassengerCar", 6), ("Hopper", 7)
  ]
/-- src/common/enums.rs:13191-13201 -/
abbrev PlatformLandTrainsSubcategories := EnumVal PlatformLandTrainsSubcategories.spec
/-- src/common/enums.rs:13203-13208 -/
abbrev PlatformLandTrainsSubcategories.deserialize : Get PlatformLandTrainsSubcategories := PlatformLandTrainsSubcategories.spec.deserialize

/-- src/common/enums.rs:13212-13220 (default variant `Other`) -/
def PlatformLandUtilityEmergencyCarSubcategories.spec : EnumSpec where
  name := "PlatformLandUtilityEmergencyCarSubcategories"
  repr := .u8
  default := 0
  variants := [
    ("Other", 0), ("AmbulanceCar", 1), ("PoliceCar", 2), ("PoliceChief", 3), ("Hearse", 4), ("Taxi", 5)
  ]
/-- src/common/enums.rs:13212-13220 -/
abbrev PlatformLandUtilityEmergencyCarSubcategories := EnumVal PlatformLandUtilityEmergencyCarSubcategories.spec
/-- src/common/enums.rs:13222-13227 -/
abbrev PlatformLandUtilityEmergencyCarSubcategories.deserialize : Get PlatformLandUtilityEmergencyCarSubcategories := PlatformLandUtilityEmergencyCarSubcategories.spec.deserialize

/-- src/common/enums.rs:13231-13238 (default variant `CruiseShip`) -/
def PlatformSurfacePassengerVesselSubcategories.spec : EnumSpec where
  name := "PlatformSurfacePassengerVesselSubcategories"
  repr := .u8
  default := 1
  variants := [
    ("CruiseShip", 1), ("CruiseFerry", 2), ("HighSpeedFerry", 3), ("Ferry", 4), ("OceanLiner", 5)
  ]
/-- src/common/enums.rs:13231-13238 -/
abbrev PlatformSurfacePassengerVesselSubcategories := EnumVal PlatformSurfacePassengerVesselSubcategories.spec
/-- src/common/enums.rs:13240-13245 -/
abbrev PlatformSurfacePassengerVesselSubcategories.deserialize : Get PlatformSurfacePassengerVesselSubcategories := PlatformSurfacePassengerVesselSubcategories.spec.deserialize

/-- src/common/enums.rs:13249-13258 (default variant `CommonDryCargoShip`) -/
def PlatformSurfaceDryCargoShipSubcategories.spec : EnumSpec where
  name := "PlatformSurfaceDryCargoShipSubcategories"
  repr := .u8
  default := 1
  variants := [
    ("CommonDryCargoShip", 1), ("DryBulkCargoShip", 2), ("ContainerShip", 3), ("ReeferShip", 4),
    ("RoRoShip", 5), ("Barge", 6), ("HeavyLiftShip", 7)
  ]
/-- src/common/enums.rs:13249-13258 -/
abbrev PlatformSurfaceDryCargoShipSubcategories := EnumVal PlatformSurfaceDryCargoShipSubcategories.spec
/-- src/common/enums.rs:13260-13265 -/
abbrev PlatformSurfaceDryCargoShipSubcategories.deserialize : Get PlatformSurfaceDryCargoShipSubcategories := PlatformSurfaceDryCargoShipSubcategories.spec.deserialize

/-- src/common/enums.rs:13269-13280 (default variant `LiquidPetroleumGasTanker`) -/
def PlatformSurfaceTankerSubcategories.spec : EnumSpec where
  name := "PlatformSurfaceTankerSubcategories"
  repr := .u8
  default := 1
  variants := [
    ("LiquidPetroleumGasTanker", 1), ("ChemicalTanker", 2), ("LiquidNaturalGasTanker", 3),
    ("CoastalTradingVessel", 4), ("CrudeOilTanker", 5), ("LiquidBulkTanker", 6), ("VeryLargeCrudeCarrier", 7),
    ("UltraLargeCrudeCarrier", 8), ("CondensateStorageTanker", 9)
  ]
/-- src/common/enums.rs:13269-13280 -/
abbrev PlatformSurfaceTankerSubcategories := EnumVal PlatformSurfaceTankerSubcategories.spec
/-- src/common/enums.rs:13282-13287 -/
abbrev PlatformSurfaceTankerSubcategories.deserialize : Get PlatformSurfaceTankerSubcategories := PlatformSurfaceTankerSubcategories.spec.deserialize

/-- src/common/enums.rs:13291-13302 (default variant `PlatformSupplyVessel`) -/
def PlatformSurfaceSupportVesselSubcategories.spec : EnumSpec where
  name := "PlatformSurfaceSupportVesselSubcategories"
  repr := .u8
  default := 1
  variants := [
    ("PlatformSupplyVessel", 1), ("TenderVessel", 2), ("Tugboat", 3), ("DiveSupportVessel", 4),
    ("Fireboat", 5), ("WellStimulationVessel", 6), ("AnchorHandlingTugSupplyVessel", 7),
    ("OffshoreConstructionVessel", 8), ("EmergencyResponseandRescueVessel", 9)
  ]
/-- src/common/enums.rs:13291-13302 -/
abbrev PlatformSurfaceSupportVesselSubcategories := EnumVal PlatformSurfaceSupportVesselSubcategories.spec
/-- src/common/enums.rs:13304-13309 -/
abbrev PlatformSurfaceSupportVesselSubcategories.deserialize : Get PlatformSurfaceSupportVesselSubcategories := PlatformSurfaceSupportVesselSubcategories.spec.deserialize

/-- src/common/enums.rs:13313-13319 (default variant `SmallMotorboat`) -/
def PlatformSurfacePrivateMotorboatSubcategories.spec : EnumSpec where
  name := "PlatformSurfacePrivateMotorboatSubcategories"
  repr := .u8
  default := 1
  variants := [
    ("SmallMotorboat", 1), ("MediumMotorboat", 2), ("LargeMotorboat", 3), ("VeryLargeMotorboat", 4)
  ]
/-- src/common/enums.rs:13313-13319 -/
abbrev PlatformSurfacePrivateMotorboatSubcategories := EnumVal PlatformSurfacePrivateMotorboatSubcategories.spec
/-- src/common/enums.rs:13321-13326 -/
abbrev PlatformSurfacePrivateMotorboatSubcategories.deserialize : Get PlatformSurfacePrivateMotorboatSubcategories := PlatformSurfacePrivateMotorboatSubcategories.spec.deserialize

/-- src/common/enums.rs:13330-13336 (default variant `SmallSailboat`) -/
def PlatformSurfacePrivateSailboatSubcategories.spec : EnumSpec where
  name := "PlatformSurfacePrivateSailboatSubcategories"
  repr := .u8
  default := 1
  variants := [
    ("SmallSailboat", 1), ("MediumSailboat", 2), ("LargeSailboat", 3), ("VeryLargeSailboat", 4)
  ]
/-- src/common/enums.rs:13330-13336 -/
abbrev PlatformSurfacePrivateSailboatSubcategories := EnumVal PlatformSurfacePrivateSailboatSubcategories.spec
/-- src/common/enums.rs:13338-13343 -/
abbrev PlatformSurfacePrivateSailboatSubcategories.deserialize : Get PlatformSurfacePrivateSailboatSubcategories := PlatformSurfacePrivateSailboatSubcategories.spec.deserialize

/-- src/common/enums.rs:13347-13354 (default variant `SmallFishingVessel`) -/
def PlatformSurfaceFishingVesselSubcategories.spec : EnumSpec where
  name := "PlatformSurfaceFishingVesselSubcategories"
  repr := .u8
  default := 1
  variants := [
    ("SmallFishingVessel", 1), ("MediumFishingVessel", 2), ("LargeFishingVessel", 3),
    ("FishProcessingVessel", 4), ("MastedFishingVessel", 5)
  ]
/-- src/common/enums.rs:13347-13354 -/
abbrev PlatformSurfaceFishingVesselSubcategories := EnumVal PlatformSurfaceFishingVesselSubcategories.spec
/-- src/common/enums.rs:13356-13361 -/
abbrev PlatformSurfaceFishingVesselSubcategories.deserialize : Get PlatformSurfaceFishingVesselSubcategories := PlatformSurfaceFishingVesselSubcategories.spec.deserialize

/-- src/common/enums.rs:13365-13377 (default variant `GoFastBoat`) -/
def PlatformSurfaceOtherVesselsSubcategories.spec : EnumSpec where
  name := "PlatformSurfaceOtherVesselsSubcategories"
  repr := .u8
  default := 1
  variants := [
    ("GoFastBoat", 1), ("ResearchVessel", 2), ("HydrofoilVessel", 3), ("CableLayerVessel", 4),
    ("DredgerVessel", 5), ("JunkDhowVessel", 6), ("Catamaran", 7), ("Pontoon", 8), ("PersonalWaterCraft", 9),
    ("RefugeeRaft", 10)
  ]
/-- src/common/enums.rs:13365-13377 -/
abbrev PlatformSurfaceOtherVesselsSubcategories := EnumVal PlatformSurfaceOtherVesselsSubcategories.spec
/-- src/common/enums.rs:13379-13384 -/
abbrev PlatformSurfaceOtherVesselsSubcategories.deserialize : Get PlatformSurfaceOtherVesselsSubcategories := PlatformSurfaceOtherVesselsSubcategories.spec.deserialize

/-- src/common/enums.rs:13388-13392 (default variant `Baseband`) -/
def CryptoKeyIDCryptoMode.spec : EnumSpec where
  name := "CryptoKeyIDCryptoMode"
  repr := .u8
  default := 0
  variants := [
    ("Baseband", 0), ("Diphase", 1)
  ]
/-- src/common/enums.rs:13388-13392 -/
abbrev CryptoKeyIDCryptoMode := EnumVal CryptoKeyIDCryptoMode.spec
/-- src/common/enums.rs:13394-13399 -/
abbrev CryptoKeyIDCryptoMode.deserialize : Get CryptoKeyIDCryptoMode := CryptoKeyIDCryptoMode.spec.deserialize

/-- src/common/enums.rs:13405-13563 (default variant `NotSpecified`) -/
def Color.spec : EnumSpec where
  name := "Color"
  repr := .u8
  default := 0
  variants := [
    ("NotSpecified", 0), ("WhiteVGA", 1), ("RedVGA", 2), ("YellowVGA", 3), ("LimeVGA", 4), ("CyanVGA", 5),
    ("BlueVGA", 6), ("MagentaVGA", 7), ("GreyVGA", 8), ("SilverVGA", 9), ("MaroonVGA", 10), ("OliveVGA", 11),
    ("GreenVGA", 12), ("TealVGA", 13), ("NavyVGA", 14), ("PurpleVGA", 15), ("Black", 20), ("Navy", 21),
    ("DarkBlue", 22), ("MediumBlue", 23), ("Blue", 24), ("DarkGreen", 25), ("Green", 26), ("Teal", 27),
    ("DarkCyan", 28), ("DeepSkyBlue", 29), ("DarkTurquoise", 30), ("MediumSpringGreen", 31), ("Lime", 32),
    ("SpringGreen", 33), ("Cyan", 34), ("MidnightBlue", 35), ("DodgerBlue", 36), ("LightSeaGreen", 37),
    ("ForestGreen", 38), ("SeaGreen", 39), ("DarkSlateGray", 40), ("LimeGreen", 41), ("MediumSeaGreen", 42),
    ("Turquoise", 43), ("RoyalBlue", 44), ("SteelBlue", 45), ("DarkSlateBlue", 46), ("MediumTurquoise", 47),
    ("Indigo", 48), ("DarkOliveGreen", 49), ("CadetBlue", 50), ("CornflowerBlue", 51),
    ("MediumAquamarine", 52), ("DimGray", 53), ("SlateBlue", 54), ("OliveDrab", 55), ("SlateGray", 56),
    ("LightSlateGray", 57), ("MediumSlateBlue", 58), ("LawnGreen", 59), ("Chartreuse", 60),
    ("Aquamarine", 61), ("Maroon", 62), ("Purple", 63), ("Olive", 64), ("Gray", 65), ("Grey", 66),
    ("SkyBlue", 67), ("LightSkyBlue", 68), ("BlueViolet", 69), ("DarkRed", 70), ("DarkMagenta", 71),
    ("SaddleBrown", 72), ("DarkSeaGreen", 73), ("LightGreen", 74), ("MediumPurple", 75), ("DarkViolet", 76),
    ("PaleGreen", 77), ("DarkOrchid", 78), ("YellowGreen", 79), ("Sienna", 80), ("Brown", 81),
    ("DarkGray", 82), ("LightBlue", 83), ("GreenYellow", 84), ("PaleTurquoise", 85), ("LightSteelBlue", 86),
    ("PowderBlue", 87), ("FireBrick", 88), ("DarkGoldenRod", 89), ("MediumOrchid", 90), ("RosyBrown", 91),
    ("DarkKhaki", 92), ("Silver", 93), ("MediumVioletRed", 94), ("IndianRed", 95), ("Peru", 96),
    ("Chocolate", 97), ("Tan", 98), ("LightGray", 99), ("PaleVioletRed", 100), ("Thistle", 101),
    ("Orchid", 102), ("GoldenRod", 103), ("Crimson", 104), ("Gainsboro", 105), ("Plum", 106),
    ("BurlyWood", 107), ("LightCyan", 108), ("Lavender", 109), ("DarkSalmon", 110), ("Violet", 111),
    ("PaleGoldenRod", 112), ("LightCoral", 113), ("Khaki", 114), ("AliceBlue", 115), ("HoneyDew", 116),
    ("Azure", 117), ("SandyBrown", 118), ("Wheat", 119), ("Beige", 120), ("WhiteSmoke", 121),
    ("MintCream", 122), ("GhostWhite", 123), ("Salmon", 124), ("AntiqueWhite", 125), ("Linen", 126),
    ("LightGoldenRodYellow", 127), ("OldLace", 128), ("Red", 129), ("Fuchsia", 130), ("Magenta", 131),
    ("DeepPink", 132), ("OrangeRed", 133), ("Tomato", 134), ("HotPink", 135), ("Coral", 136),
    ("DarkOrange", 137), ("LightSalmon", 138), ("Orange", 139), ("LightPink", 140), ("Pink", 141),
    ("Gold", 142), ("PeachPuff", 143), ("NavajoWhite", 144), ("Moccasin", 145), ("Bisque", 146),
    ("MistyRose", 147), ("BlanchedAlmond", 148), ("PapayaWhip", 149), ("LavenderBlush", 150),
    ("SeaShell", 151), ("Cornsilk", 152), ("LemonChiffon", 153), ("FloralWhite", 154), ("Snow", 155),
    ("Yellow", 156), ("LightYellow", 157), ("Ivory", 158), ("White", 159)
  ]
/-- src/common/enums.rs:13405-13563 -/
abbrev Color := EnumVal Color.spec
/-- src/common/enums.rs:13565-13570 -/
abbrev Color.deserialize : Get Color := Color.spec.deserialize

end Dis
