import Verif.Model.PduKind
/-
The PDU type and protocol family codes of SISO-REF-010 [UID 4, 5] / IEEE 1278.1-2012, written out by
hand, independently of the crate's enumerations.
-/
namespace Dis

/-- The PDU type code assigned to each kind. -/
def PduKind.typeCode : PduKind → Nat
  | .EntityState => 1
  | .Fire => 2
  | .Detonation => 3
  | .Collision => 4
  | .ServiceRequest => 5
  | .ResupplyOffer => 6
  | .ResupplyReceived => 7
  | .ResupplyCancel => 8
  | .RepairComplete => 9
  | .RepairResponse => 10
  | .CreateEntity => 11
  | .RemoveEntity => 12
  | .StartResume => 13
  | .StopFreeze => 14
  | .Acknowledge => 15
  | .ActionRequest => 16
  | .ActionResponse => 17
  | .DataQuery => 18
  | .SetData => 19
  | .Data => 20
  | .EventReport => 21
  | .Comment => 22
  | .ElectromagneticEmissions => 23
  | .Designator => 24
  | .Transmitter => 25
  | .Signal => 26
  | .Receiver => 27
  | .IFF => 28
  | .UnderwaterAcoustic => 29
  | .SupplementalEmission => 30
  | .IntercomSignal => 31
  | .IntercomControl => 32
  | .AggregateState => 33
  | .IsGroupOf => 34
  | .TransferOwnership => 35
  | .IsPartOf => 36
  | .MinefieldState => 37
  | .MinefieldQuery => 38
  | .MinefieldData => 39
  | .MinefieldResponseNack => 40
  | .EnvironmentalProcess => 41
  | .GriddedData => 42
  | .PointObjectState => 43
  | .LinearObjectState => 44
  | .ArealObjectState => 45
  | .CreateEntityReliable => 51
  | .RemoveEntityReliable => 52
  | .StartResumeReliable => 53
  | .StopFreezeReliable => 54
  | .AcknowledgeReliable => 55
  | .ActionRequestReliable => 56
  | .ActionResponseReliable => 57
  | .DataQueryReliable => 58
  | .SetDataReliable => 59
  | .DataReliable => 60
  | .EventReportReliable => 61
  | .CommentReliable => 62
  | .SetRecordReliable => 64
  | .RecordQueryReliable => 65
  | .CollisionElastic => 66
  | .EntityStateUpdate => 67
  | .DirectedEnergyFire => 68
  | .EntityDamageStatus => 69
  | .InformationOperationsAction => 70
  | .InformationOperationsReport => 71
  | .Attribute => 72

/-- The protocol families: 1 entity information/interaction, 2 warfare, 3 logistics, 4 radio
communications, 5 simulation management, 6 distributed emission regeneration, 7 entity management,
8 minefield, 9 synthetic environment, 10 simulation management with reliability, 13 information
operations. -/
def PduKind.familyCode : PduKind → Nat
  | .EntityState => 1
  | .Fire => 2
  | .Detonation => 2
  | .Collision => 1
  | .ServiceRequest => 3
  | .ResupplyOffer => 3
  | .ResupplyReceived => 3
  | .ResupplyCancel => 3
  | .RepairComplete => 3
  | .RepairResponse => 3
  | .CreateEntity => 5
  | .RemoveEntity => 5
  | .StartResume => 5
  | .StopFreeze => 5
  | .Acknowledge => 5
  | .ActionRequest => 5
  | .ActionResponse => 5
  | .DataQuery => 5
  | .SetData => 5
  | .Data => 5
  | .EventReport => 5
  | .Comment => 5
  | .ElectromagneticEmissions => 6
  | .Designator => 6
  | .Transmitter => 4
  | .Signal => 4
  | .Receiver => 4
  | .IFF => 6
  | .UnderwaterAcoustic => 6
  | .SupplementalEmission => 6
  | .IntercomSignal => 4
  | .IntercomControl => 4
  | .AggregateState => 7
  | .IsGroupOf => 7
  | .TransferOwnership => 7
  | .IsPartOf => 7
  | .MinefieldState => 8
  | .MinefieldQuery => 8
  | .MinefieldData => 8
  | .MinefieldResponseNack => 8
  | .EnvironmentalProcess => 9
  | .GriddedData => 9
  | .PointObjectState => 9
  | .LinearObjectState => 9
  | .ArealObjectState => 9
  | .CreateEntityReliable => 10
  | .RemoveEntityReliable => 10
  | .StartResumeReliable => 10
  | .StopFreezeReliable => 10
  | .AcknowledgeReliable => 10
  | .ActionRequestReliable => 10
  | .ActionResponseReliable => 10
  | .DataQueryReliable => 10
  | .SetDataReliable => 10
  | .DataReliable => 10
  | .EventReportReliable => 10
  | .CommentReliable => 10
  | .SetRecordReliable => 10
  | .RecordQueryReliable => 10
  | .CollisionElastic => 1
  | .EntityStateUpdate => 1
  | .DirectedEnergyFire => 2
  | .EntityDamageStatus => 2
  | .InformationOperationsAction => 13
  | .InformationOperationsReport => 13
  | .Attribute => 1

/-- The assigned PDU type codes are 0 (other) to 72 (attribute). -/
def assignedPduType (code : Nat) : Prop := code ≤ 72

/-- The names of the PDU types, by code. -/
def pduTypeNames : List String :=
  ["Other", "EntityState", "Fire", "Detonation", "Collision", "ServiceRequest", "ResupplyOffer",
   "ResupplyReceived", "ResupplyCancel", "RepairComplete", "RepairResponse", "CreateEntity",
   "RemoveEntity", "StartResume", "StopFreeze", "Acknowledge", "ActionRequest", "ActionResponse",
   "DataQuery", "SetData", "Data", "EventReport", "Comment", "ElectromagneticEmission",
   "Designator", "Transmitter", "Signal", "Receiver", "IFF", "UnderwaterAcoustic",
   "SupplementalEmission", "IntercomSignal", "IntercomControl", "AggregateState", "IsGroupOf",
   "TransferOwnership", "IsPartOf", "MinefieldState", "MinefieldQuery", "MinefieldData",
   "MinefieldResponseNack", "EnvironmentalProcess", "GriddedData", "PointObjectState",
   "LinearObjectState", "ArealObjectState", "TimeSpacePositionInformation", "Appearance",
   "ArticulatedParts", "LiveEntityFire", "LiveEntityDetonation", "CreateEntityReliable",
   "RemoveEntityReliable", "StartResumeReliable", "StopFreezeReliable", "AcknowledgeReliable",
   "ActionRequestReliable", "ActionResponseReliable", "DataQueryReliable", "SetDataReliable",
   "DataReliable", "EventReportReliable", "CommentReliable", "RecordReliable", "SetRecordReliable",
   "RecordQueryReliable", "CollisionElastic", "EntityStateUpdate", "DirectedEnergyFire",
   "EntityDamageStatus", "InformationOperationsAction", "InformationOperationsReport", "Attribute"]

/-- The name of the type a code is read as: unassigned codes are read as `Other`. -/
def pduTypeName (code : Nat) : String := pduTypeNames.getD code "Other"

end Dis
