import Verif.Model.PduKind
import Verif.Spec.PduWire1
import Verif.Spec.PduWire2
import Verif.Spec.PduWire3
import Verif.Spec.PduWire4
/- Generated by tools/gen_pdus.py: the wire specifications collected by kind. -/
namespace Dis

instance PduKind.instWire : (k : PduKind) → Wire k.Body
  | .ElectromagneticEmissions => inferInstanceAs (Wire ElectromagneticEmissionsPdu)
  | .Designator => inferInstanceAs (Wire DesignatorPdu)
  | .UnderwaterAcoustic => inferInstanceAs (Wire UnderwaterAcousticPdu)
  | .IFF => inferInstanceAs (Wire IFFPdu)
  | .SupplementalEmission => inferInstanceAs (Wire SupplementalEmissionPdu)
  | .EntityState => inferInstanceAs (Wire EntityStatePdu)
  | .Collision => inferInstanceAs (Wire CollisionPdu)
  | .CollisionElastic => inferInstanceAs (Wire CollisionElasticPdu)
  | .EntityStateUpdate => inferInstanceAs (Wire EntityStateUpdatePdu)
  | .Attribute => inferInstanceAs (Wire AttributePdu)
  | .AggregateState => inferInstanceAs (Wire AggregateStatePdu)
  | .IsGroupOf => inferInstanceAs (Wire IsGroupOfPdu)
  | .TransferOwnership => inferInstanceAs (Wire TransferOwnershipPdu)
  | .IsPartOf => inferInstanceAs (Wire IsPartOfPdu)
  | .InformationOperationsReport => inferInstanceAs (Wire InformationOperationsReportPdu)
  | .InformationOperationsAction => inferInstanceAs (Wire InformationOperationsActionPdu)
  | .ServiceRequest => inferInstanceAs (Wire ServiceRequestPdu)
  | .ResupplyOffer => inferInstanceAs (Wire ResupplyOfferPdu)
  | .ResupplyReceived => inferInstanceAs (Wire ResupplyReceivedPdu)
  | .ResupplyCancel => inferInstanceAs (Wire ResupplyCancelPdu)
  | .RepairComplete => inferInstanceAs (Wire RepairCompletePdu)
  | .RepairResponse => inferInstanceAs (Wire RepairResponsePdu)
  | .MinefieldState => inferInstanceAs (Wire MinefieldStatePdu)
  | .MinefieldQuery => inferInstanceAs (Wire MinefieldQueryPdu)
  | .MinefieldData => inferInstanceAs (Wire MinefieldDataPdu)
  | .MinefieldResponseNack => inferInstanceAs (Wire MinefieldResponseNackPdu)
  | .Transmitter => inferInstanceAs (Wire TransmitterPdu)
  | .Signal => inferInstanceAs (Wire SignalPdu)
  | .Receiver => inferInstanceAs (Wire ReceiverPdu)
  | .IntercomSignal => inferInstanceAs (Wire IntercomSignalPdu)
  | .IntercomControl => inferInstanceAs (Wire IntercomControlPdu)
  | .CreateEntity => inferInstanceAs (Wire CreateEntityPdu)
  | .RemoveEntity => inferInstanceAs (Wire RemoveEntityPdu)
  | .StartResume => inferInstanceAs (Wire StartResumePdu)
  | .StopFreeze => inferInstanceAs (Wire StopFreezePdu)
  | .Acknowledge => inferInstanceAs (Wire AcknowledgePdu)
  | .ActionRequest => inferInstanceAs (Wire ActionRequestPdu)
  | .ActionResponse => inferInstanceAs (Wire ActionResponsePdu)
  | .DataQuery => inferInstanceAs (Wire DataQueryPdu)
  | .SetData => inferInstanceAs (Wire SetDataPdu)
  | .Data => inferInstanceAs (Wire DataPdu)
  | .EventReport => inferInstanceAs (Wire EventReportPdu)
  | .Comment => inferInstanceAs (Wire CommentPdu)
  | .CreateEntityReliable => inferInstanceAs (Wire CreateEntityReliablePdu)
  | .RemoveEntityReliable => inferInstanceAs (Wire RemoveEntityReliablePdu)
  | .StartResumeReliable => inferInstanceAs (Wire StartResumeReliablePdu)
  | .StopFreezeReliable => inferInstanceAs (Wire StopFreezeReliablePdu)
  | .AcknowledgeReliable => inferInstanceAs (Wire AcknowledgeReliablePdu)
  | .ActionRequestReliable => inferInstanceAs (Wire ActionRequestReliablePdu)
  | .ActionResponseReliable => inferInstanceAs (Wire ActionResponseReliablePdu)
  | .DataQueryReliable => inferInstanceAs (Wire DataQueryReliablePdu)
  | .SetDataReliable => inferInstanceAs (Wire SetDataReliablePdu)
  | .DataReliable => inferInstanceAs (Wire DataReliablePdu)
  | .EventReportReliable => inferInstanceAs (Wire EventReportReliablePdu)
  | .CommentReliable => inferInstanceAs (Wire CommentReliablePdu)
  | .RecordQueryReliable => inferInstanceAs (Wire RecordQueryReliablePdu)
  | .SetRecordReliable => inferInstanceAs (Wire SetRecordReliablePdu)
  | .EnvironmentalProcess => inferInstanceAs (Wire EnvironmentalProcessPdu)
  | .GriddedData => inferInstanceAs (Wire GriddedDataPdu)
  | .PointObjectState => inferInstanceAs (Wire PointObjectStatePdu)
  | .LinearObjectState => inferInstanceAs (Wire LinearObjectStatePdu)
  | .ArealObjectState => inferInstanceAs (Wire ArealObjectStatePdu)
  | .Fire => inferInstanceAs (Wire FirePdu)
  | .Detonation => inferInstanceAs (Wire DetonationPdu)
  | .DirectedEnergyFire => inferInstanceAs (Wire DirectedEnergyFirePdu)
  | .EntityDamageStatus => inferInstanceAs (Wire EntityDamageStatusPdu)

instance PduKind.instEnc : (k : PduKind) → Enc k.Body
  | .ElectromagneticEmissions => inferInstanceAs (Enc ElectromagneticEmissionsPdu)
  | .Designator => inferInstanceAs (Enc DesignatorPdu)
  | .UnderwaterAcoustic => inferInstanceAs (Enc UnderwaterAcousticPdu)
  | .IFF => inferInstanceAs (Enc IFFPdu)
  | .SupplementalEmission => inferInstanceAs (Enc SupplementalEmissionPdu)
  | .EntityState => inferInstanceAs (Enc EntityStatePdu)
  | .Collision => inferInstanceAs (Enc CollisionPdu)
  | .CollisionElastic => inferInstanceAs (Enc CollisionElasticPdu)
  | .EntityStateUpdate => inferInstanceAs (Enc EntityStateUpdatePdu)
  | .Attribute => inferInstanceAs (Enc AttributePdu)
  | .AggregateState => inferInstanceAs (Enc AggregateStatePdu)
  | .IsGroupOf => inferInstanceAs (Enc IsGroupOfPdu)
  | .TransferOwnership => inferInstanceAs (Enc TransferOwnershipPdu)
  | .IsPartOf => inferInstanceAs (Enc IsPartOfPdu)
  | .InformationOperationsReport => inferInstanceAs (Enc InformationOperationsReportPdu)
  | .InformationOperationsAction => inferInstanceAs (Enc InformationOperationsActionPdu)
  | .ServiceRequest => inferInstanceAs (Enc ServiceRequestPdu)
  | .ResupplyOffer => inferInstanceAs (Enc ResupplyOfferPdu)
  | .ResupplyReceived => inferInstanceAs (Enc ResupplyReceivedPdu)
  | .ResupplyCancel => inferInstanceAs (Enc ResupplyCancelPdu)
  | .RepairComplete => inferInstanceAs (Enc RepairCompletePdu)
  | .RepairResponse => inferInstanceAs (Enc RepairResponsePdu)
  | .MinefieldState => inferInstanceAs (Enc MinefieldStatePdu)
  | .MinefieldQuery => inferInstanceAs (Enc MinefieldQueryPdu)
  | .MinefieldData => inferInstanceAs (Enc MinefieldDataPdu)
  | .MinefieldResponseNack => inferInstanceAs (Enc MinefieldResponseNackPdu)
  | .Transmitter => inferInstanceAs (Enc TransmitterPdu)
  | .Signal => inferInstanceAs (Enc SignalPdu)
  | .Receiver => inferInstanceAs (Enc ReceiverPdu)
  | .IntercomSignal => inferInstanceAs (Enc IntercomSignalPdu)
  | .IntercomControl => inferInstanceAs (Enc IntercomControlPdu)
  | .CreateEntity => inferInstanceAs (Enc CreateEntityPdu)
  | .RemoveEntity => inferInstanceAs (Enc RemoveEntityPdu)
  | .StartResume => inferInstanceAs (Enc StartResumePdu)
  | .StopFreeze => inferInstanceAs (Enc StopFreezePdu)
  | .Acknowledge => inferInstanceAs (Enc AcknowledgePdu)
  | .ActionRequest => inferInstanceAs (Enc ActionRequestPdu)
  | .ActionResponse => inferInstanceAs (Enc ActionResponsePdu)
  | .DataQuery => inferInstanceAs (Enc DataQueryPdu)
  | .SetData => inferInstanceAs (Enc SetDataPdu)
  | .Data => inferInstanceAs (Enc DataPdu)
  | .EventReport => inferInstanceAs (Enc EventReportPdu)
  | .Comment => inferInstanceAs (Enc CommentPdu)
  | .CreateEntityReliable => inferInstanceAs (Enc CreateEntityReliablePdu)
  | .RemoveEntityReliable => inferInstanceAs (Enc RemoveEntityReliablePdu)
  | .StartResumeReliable => inferInstanceAs (Enc StartResumeReliablePdu)
  | .StopFreezeReliable => inferInstanceAs (Enc StopFreezeReliablePdu)
  | .AcknowledgeReliable => inferInstanceAs (Enc AcknowledgeReliablePdu)
  | .ActionRequestReliable => inferInstanceAs (Enc ActionRequestReliablePdu)
  | .ActionResponseReliable => inferInstanceAs (Enc ActionResponseReliablePdu)
  | .DataQueryReliable => inferInstanceAs (Enc DataQueryReliablePdu)
  | .SetDataReliable => inferInstanceAs (Enc SetDataReliablePdu)
  | .DataReliable => inferInstanceAs (Enc DataReliablePdu)
  | .EventReportReliable => inferInstanceAs (Enc EventReportReliablePdu)
  | .CommentReliable => inferInstanceAs (Enc CommentReliablePdu)
  | .RecordQueryReliable => inferInstanceAs (Enc RecordQueryReliablePdu)
  | .SetRecordReliable => inferInstanceAs (Enc SetRecordReliablePdu)
  | .EnvironmentalProcess => inferInstanceAs (Enc EnvironmentalProcessPdu)
  | .GriddedData => inferInstanceAs (Enc GriddedDataPdu)
  | .PointObjectState => inferInstanceAs (Enc PointObjectStatePdu)
  | .LinearObjectState => inferInstanceAs (Enc LinearObjectStatePdu)
  | .ArealObjectState => inferInstanceAs (Enc ArealObjectStatePdu)
  | .Fire => inferInstanceAs (Enc FirePdu)
  | .Detonation => inferInstanceAs (Enc DetonationPdu)
  | .DirectedEnergyFire => inferInstanceAs (Enc DirectedEnergyFirePdu)
  | .EntityDamageStatus => inferInstanceAs (Enc EntityDamageStatusPdu)

instance PduKind.instDec : (k : PduKind) → Dec k.Body
  | .ElectromagneticEmissions => inferInstanceAs (Dec ElectromagneticEmissionsPdu)
  | .Designator => inferInstanceAs (Dec DesignatorPdu)
  | .UnderwaterAcoustic => inferInstanceAs (Dec UnderwaterAcousticPdu)
  | .IFF => inferInstanceAs (Dec IFFPdu)
  | .SupplementalEmission => inferInstanceAs (Dec SupplementalEmissionPdu)
  | .EntityState => inferInstanceAs (Dec EntityStatePdu)
  | .Collision => inferInstanceAs (Dec CollisionPdu)
  | .CollisionElastic => inferInstanceAs (Dec CollisionElasticPdu)
  | .EntityStateUpdate => inferInstanceAs (Dec EntityStateUpdatePdu)
  | .Attribute => inferInstanceAs (Dec AttributePdu)
  | .AggregateState => inferInstanceAs (Dec AggregateStatePdu)
  | .IsGroupOf => inferInstanceAs (Dec IsGroupOfPdu)
  | .TransferOwnership => inferInstanceAs (Dec TransferOwnershipPdu)
  | .IsPartOf => inferInstanceAs (Dec IsPartOfPdu)
  | .InformationOperationsReport => inferInstanceAs (Dec InformationOperationsReportPdu)
  | .InformationOperationsAction => inferInstanceAs (Dec InformationOperationsActionPdu)
  | .ServiceRequest => inferInstanceAs (Dec ServiceRequestPdu)
  | .ResupplyOffer => inferInstanceAs (Dec ResupplyOfferPdu)
  | .ResupplyReceived => inferInstanceAs (Dec ResupplyReceivedPdu)
  | .ResupplyCancel => inferInstanceAs (Dec ResupplyCancelPdu)
  | .RepairComplete => inferInstanceAs (Dec RepairCompletePdu)
  | .RepairResponse => inferInstanceAs (Dec RepairResponsePdu)
  | .MinefieldState => inferInstanceAs (Dec MinefieldStatePdu)
  | .MinefieldQuery => inferInstanceAs (Dec MinefieldQueryPdu)
  | .MinefieldData => inferInstanceAs (Dec MinefieldDataPdu)
  | .MinefieldResponseNack => inferInstanceAs (Dec MinefieldResponseNackPdu)
  | .Transmitter => inferInstanceAs (Dec TransmitterPdu)
  | .Signal => inferInstanceAs (Dec SignalPdu)
  | .Receiver => inferInstanceAs (Dec ReceiverPdu)
  | .IntercomSignal => inferInstanceAs (Dec IntercomSignalPdu)
  | .IntercomControl => inferInstanceAs (Dec IntercomControlPdu)
  | .CreateEntity => inferInstanceAs (Dec CreateEntityPdu)
  | .RemoveEntity => inferInstanceAs (Dec RemoveEntityPdu)
  | .StartResume => inferInstanceAs (Dec StartResumePdu)
  | .StopFreeze => inferInstanceAs (Dec StopFreezePdu)
  | .Acknowledge => inferInstanceAs (Dec AcknowledgePdu)
  | .ActionRequest => inferInstanceAs (Dec ActionRequestPdu)
  | .ActionResponse => inferInstanceAs (Dec ActionResponsePdu)
  | .DataQuery => inferInstanceAs (Dec DataQueryPdu)
  | .SetData => inferInstanceAs (Dec SetDataPdu)
  | .Data => inferInstanceAs (Dec DataPdu)
  | .EventReport => inferInstanceAs (Dec EventReportPdu)
  | .Comment => inferInstanceAs (Dec CommentPdu)
  | .CreateEntityReliable => inferInstanceAs (Dec CreateEntityReliablePdu)
  | .RemoveEntityReliable => inferInstanceAs (Dec RemoveEntityReliablePdu)
  | .StartResumeReliable => inferInstanceAs (Dec StartResumeReliablePdu)
  | .StopFreezeReliable => inferInstanceAs (Dec StopFreezeReliablePdu)
  | .AcknowledgeReliable => inferInstanceAs (Dec AcknowledgeReliablePdu)
  | .ActionRequestReliable => inferInstanceAs (Dec ActionRequestReliablePdu)
  | .ActionResponseReliable => inferInstanceAs (Dec ActionResponseReliablePdu)
  | .DataQueryReliable => inferInstanceAs (Dec DataQueryReliablePdu)
  | .SetDataReliable => inferInstanceAs (Dec SetDataReliablePdu)
  | .DataReliable => inferInstanceAs (Dec DataReliablePdu)
  | .EventReportReliable => inferInstanceAs (Dec EventReportReliablePdu)
  | .CommentReliable => inferInstanceAs (Dec CommentReliablePdu)
  | .RecordQueryReliable => inferInstanceAs (Dec RecordQueryReliablePdu)
  | .SetRecordReliable => inferInstanceAs (Dec SetRecordReliablePdu)
  | .EnvironmentalProcess => inferInstanceAs (Dec EnvironmentalProcessPdu)
  | .GriddedData => inferInstanceAs (Dec GriddedDataPdu)
  | .PointObjectState => inferInstanceAs (Dec PointObjectStatePdu)
  | .LinearObjectState => inferInstanceAs (Dec LinearObjectStatePdu)
  | .ArealObjectState => inferInstanceAs (Dec ArealObjectStatePdu)
  | .Fire => inferInstanceAs (Dec FirePdu)
  | .Detonation => inferInstanceAs (Dec DetonationPdu)
  | .DirectedEnergyFire => inferInstanceAs (Dec DirectedEnergyFirePdu)
  | .EntityDamageStatus => inferInstanceAs (Dec EntityDamageStatusPdu)

instance PduKind.instTail : (k : PduKind) → Tail k.Body
  | .ElectromagneticEmissions => inferInstanceAs (Tail ElectromagneticEmissionsPdu)
  | .Designator => inferInstanceAs (Tail DesignatorPdu)
  | .UnderwaterAcoustic => inferInstanceAs (Tail UnderwaterAcousticPdu)
  | .IFF => inferInstanceAs (Tail IFFPdu)
  | .SupplementalEmission => inferInstanceAs (Tail SupplementalEmissionPdu)
  | .EntityState => inferInstanceAs (Tail EntityStatePdu)
  | .Collision => inferInstanceAs (Tail CollisionPdu)
  | .CollisionElastic => inferInstanceAs (Tail CollisionElasticPdu)
  | .EntityStateUpdate => inferInstanceAs (Tail EntityStateUpdatePdu)
  | .Attribute => inferInstanceAs (Tail AttributePdu)
  | .AggregateState => inferInstanceAs (Tail AggregateStatePdu)
  | .IsGroupOf => inferInstanceAs (Tail IsGroupOfPdu)
  | .TransferOwnership => inferInstanceAs (Tail TransferOwnershipPdu)
  | .IsPartOf => inferInstanceAs (Tail IsPartOfPdu)
  | .InformationOperationsReport => inferInstanceAs (Tail InformationOperationsReportPdu)
  | .InformationOperationsAction => inferInstanceAs (Tail InformationOperationsActionPdu)
  | .ServiceRequest => inferInstanceAs (Tail ServiceRequestPdu)
  | .ResupplyOffer => inferInstanceAs (Tail ResupplyOfferPdu)
  | .ResupplyReceived => inferInstanceAs (Tail ResupplyReceivedPdu)
  | .ResupplyCancel => inferInstanceAs (Tail ResupplyCancelPdu)
  | .RepairComplete => inferInstanceAs (Tail RepairCompletePdu)
  | .RepairResponse => inferInstanceAs (Tail RepairResponsePdu)
  | .MinefieldState => inferInstanceAs (Tail MinefieldStatePdu)
  | .MinefieldQuery => inferInstanceAs (Tail MinefieldQueryPdu)
  | .MinefieldData => inferInstanceAs (Tail MinefieldDataPdu)
  | .MinefieldResponseNack => inferInstanceAs (Tail MinefieldResponseNackPdu)
  | .Transmitter => inferInstanceAs (Tail TransmitterPdu)
  | .Signal => inferInstanceAs (Tail SignalPdu)
  | .Receiver => inferInstanceAs (Tail ReceiverPdu)
  | .IntercomSignal => inferInstanceAs (Tail IntercomSignalPdu)
  | .IntercomControl => inferInstanceAs (Tail IntercomControlPdu)
  | .CreateEntity => inferInstanceAs (Tail CreateEntityPdu)
  | .RemoveEntity => inferInstanceAs (Tail RemoveEntityPdu)
  | .StartResume => inferInstanceAs (Tail StartResumePdu)
  | .StopFreeze => inferInstanceAs (Tail StopFreezePdu)
  | .Acknowledge => inferInstanceAs (Tail AcknowledgePdu)
  | .ActionRequest => inferInstanceAs (Tail ActionRequestPdu)
  | .ActionResponse => inferInstanceAs (Tail ActionResponsePdu)
  | .DataQuery => inferInstanceAs (Tail DataQueryPdu)
  | .SetData => inferInstanceAs (Tail SetDataPdu)
  | .Data => inferInstanceAs (Tail DataPdu)
  | .EventReport => inferInstanceAs (Tail EventReportPdu)
  | .Comment => inferInstanceAs (Tail CommentPdu)
  | .CreateEntityReliable => inferInstanceAs (Tail CreateEntityReliablePdu)
  | .RemoveEntityReliable => inferInstanceAs (Tail RemoveEntityReliablePdu)
  | .StartResumeReliable => inferInstanceAs (Tail StartResumeReliablePdu)
  | .StopFreezeReliable => inferInstanceAs (Tail StopFreezeReliablePdu)
  | .AcknowledgeReliable => inferInstanceAs (Tail AcknowledgeReliablePdu)
  | .ActionRequestReliable => inferInstanceAs (Tail ActionRequestReliablePdu)
  | .ActionResponseReliable => inferInstanceAs (Tail ActionResponseReliablePdu)
  | .DataQueryReliable => inferInstanceAs (Tail DataQueryReliablePdu)
  | .SetDataReliable => inferInstanceAs (Tail SetDataReliablePdu)
  | .DataReliable => inferInstanceAs (Tail DataReliablePdu)
  | .EventReportReliable => inferInstanceAs (Tail EventReportReliablePdu)
  | .CommentReliable => inferInstanceAs (Tail CommentReliablePdu)
  | .RecordQueryReliable => inferInstanceAs (Tail RecordQueryReliablePdu)
  | .SetRecordReliable => inferInstanceAs (Tail SetRecordReliablePdu)
  | .EnvironmentalProcess => inferInstanceAs (Tail EnvironmentalProcessPdu)
  | .GriddedData => inferInstanceAs (Tail GriddedDataPdu)
  | .PointObjectState => inferInstanceAs (Tail PointObjectStatePdu)
  | .LinearObjectState => inferInstanceAs (Tail LinearObjectStatePdu)
  | .ArealObjectState => inferInstanceAs (Tail ArealObjectStatePdu)
  | .Fire => inferInstanceAs (Tail FirePdu)
  | .Detonation => inferInstanceAs (Tail DetonationPdu)
  | .DirectedEnergyFire => inferInstanceAs (Tail DirectedEnergyFirePdu)
  | .EntityDamageStatus => inferInstanceAs (Tail EntityDamageStatusPdu)

/-- Size in octets, header included, of the kind's fixed part: the number of bits asserted in the
crate's own tests (after IEEE 1278.1) divided by 8. -/
def PduKind.ieeeOctets : PduKind → Nat
  | .ElectromagneticEmissions => 224 / 8
  | .Designator => 704 / 8
  | .UnderwaterAcoustic => 256 / 8
  | .IFF => 704 / 8
  | .SupplementalEmission => 224 / 8
  | .EntityState => 1152 / 8
  | .Collision => 480 / 8
  | .CollisionElastic => 800 / 8
  | .EntityStateUpdate => 576 / 8
  | .Attribute => 256 / 8
  | .AggregateState => 1088 / 8
  | .IsGroupOf => 320 / 8
  | .TransferOwnership => 320 / 8
  | .IsPartOf => 416 / 8
  | .InformationOperationsReport => 320 / 8
  | .InformationOperationsAction => 448 / 8
  | .ServiceRequest => 224 / 8
  | .ResupplyOffer => 224 / 8
  | .ResupplyReceived => 224 / 8
  | .ResupplyCancel => 192 / 8
  | .RepairComplete => 224 / 8
  | .RepairResponse => 224 / 8
  | .MinefieldState => 576 / 8
  | .MinefieldQuery => 320 / 8
  | .MinefieldData => 352 / 8
  | .MinefieldResponseNack => 208 / 8
  | .Transmitter => 832 / 8
  | .Signal => 256 / 8
  | .Receiver => 288 / 8
  | .IntercomSignal => 256 / 8
  | .IntercomControl => 320 / 8
  | .CreateEntity => 224 / 8
  | .RemoveEntity => 224 / 8
  | .StartResume => 352 / 8
  | .StopFreeze => 320 / 8
  | .Acknowledge => 256 / 8
  | .ActionRequest => 320 / 8
  | .ActionResponse => 320 / 8
  | .DataQuery => 320 / 8
  | .SetData => 320 / 8
  | .Data => 320 / 8
  | .EventReport => 320 / 8
  | .Comment => 256 / 8
  | .CreateEntityReliable => 256 / 8
  | .RemoveEntityReliable => 256 / 8
  | .StartResumeReliable => 384 / 8
  | .StopFreezeReliable => 320 / 8
  | .AcknowledgeReliable => 256 / 8
  | .ActionRequestReliable => 384 / 8
  | .ActionResponseReliable => 320 / 8
  | .DataQueryReliable => 352 / 8
  | .SetDataReliable => 320 / 8
  | .DataReliable => 320 / 8
  | .EventReportReliable => 320 / 8
  | .CommentReliable => 256 / 8
  | .RecordQueryReliable => 320 / 8
  | .SetRecordReliable => 320 / 8
  | .EnvironmentalProcess => 256 / 8
  | .GriddedData => 512 / 8
  | .PointObjectState => 704 / 8
  | .LinearObjectState => 320 / 8
  | .ArealObjectState => 384 / 8
  | .Fire => 768 / 8
  | .Detonation => 832 / 8
  | .DirectedEnergyFire => 704 / 8
  | .EntityDamageStatus => 192 / 8

/-- Kinds all of whose fields have a fixed layout: no list, no optional field, none of the irregular
records. -/
def PduKind.fixedLayout : PduKind → Bool
  | .Designator | .Collision | .CollisionElastic | .IsPartOf | .ResupplyCancel | .RepairComplete
  | .RepairResponse | .Receiver | .CreateEntity | .RemoveEntity | .StartResume | .StopFreeze
  | .Acknowledge | .CreateEntityReliable | .RemoveEntityReliable | .StartResumeReliable
  | .StopFreezeReliable | .AcknowledgeReliable | .PointObjectState | .Fire => true
  | _ => false

/-- Kinds without an entity marking, variable datum records, record sets or grid data: those whose
encoder transmits every field and claims the exact length. -/
def PduKind.exactLength : PduKind → Bool
  | .EntityState | .AggregateState | .TransferOwnership | .ActionRequest | .ActionResponse | .DataQuery
  | .SetData | .Data | .EventReport | .Comment | .ActionRequestReliable | .ActionResponseReliable
  | .SetDataReliable | .DataReliable | .EventReportReliable | .CommentReliable | .SetRecordReliable
  | .GriddedData => false
  | _ => true

/-- Kinds whose decoder reads a number of octets that depends on the octets (a length or count
field governs a list). -/
def PduKind.variableDecoder : PduKind → Bool
  | .TransferOwnership | .InformationOperationsReport | .InformationOperationsAction | .Transmitter
  | .SetRecordReliable => true
  | _ => false

/-- Kinds holding record sets, whose length × count product can overflow. -/
def PduKind.hasRecordSets : PduKind → Bool
  | .TransferOwnership | .SetRecordReliable => true
  | _ => false

/-- Kinds holding dead-reckoning parameters or a simulation identifier, some of whose octets are always
written as zero. -/
def PduKind.zeroesFields : PduKind → Bool
  | .EntityState | .TransferOwnership | .InformationOperationsReport | .InformationOperationsAction => true
  | _ => false

end Dis
