import Verif.Spec.PduLayout
import Verif.Spec.PduKindWire
import Verif.Proofs.LayoutPdus1
import Verif.Proofs.LayoutPdus2
import Verif.Proofs.LayoutPdus3
import Verif.Proofs.LayoutPdus4
/- Generated by tools/gen_layout.py. -/
set_option maxRecDepth 8000
namespace Dis

def PduKind.slots : (k : PduKind) → List (Slot k.Body)
  | .ElectromagneticEmissions => ElectromagneticEmissionsPdu.slots
  | .Designator => DesignatorPdu.slots
  | .UnderwaterAcoustic => UnderwaterAcousticPdu.slots
  | .IFF => IFFPdu.slots
  | .SupplementalEmission => SupplementalEmissionPdu.slots
  | .EntityState => EntityStatePdu.slots
  | .Collision => CollisionPdu.slots
  | .CollisionElastic => CollisionElasticPdu.slots
  | .EntityStateUpdate => EntityStateUpdatePdu.slots
  | .Attribute => AttributePdu.slots
  | .AggregateState => AggregateStatePdu.slots
  | .IsGroupOf => IsGroupOfPdu.slots
  | .TransferOwnership => TransferOwnershipPdu.slots
  | .IsPartOf => IsPartOfPdu.slots
  | .InformationOperationsReport => InformationOperationsReportPdu.slots
  | .InformationOperationsAction => InformationOperationsActionPdu.slots
  | .ServiceRequest => ServiceRequestPdu.slots
  | .ResupplyOffer => ResupplyOfferPdu.slots
  | .ResupplyReceived => ResupplyReceivedPdu.slots
  | .ResupplyCancel => ResupplyCancelPdu.slots
  | .RepairComplete => RepairCompletePdu.slots
  | .RepairResponse => RepairResponsePdu.slots
  | .MinefieldState => MinefieldStatePdu.slots
  | .MinefieldQuery => MinefieldQueryPdu.slots
  | .MinefieldData => MinefieldDataPdu.slots
  | .MinefieldResponseNack => MinefieldResponseNackPdu.slots
  | .Transmitter => TransmitterPdu.slots
  | .Signal => SignalPdu.slots
  | .Receiver => ReceiverPdu.slots
  | .IntercomSignal => IntercomSignalPdu.slots
  | .IntercomControl => IntercomControlPdu.slots
  | .CreateEntity => CreateEntityPdu.slots
  | .RemoveEntity => RemoveEntityPdu.slots
  | .StartResume => StartResumePdu.slots
  | .StopFreeze => StopFreezePdu.slots
  | .Acknowledge => AcknowledgePdu.slots
  | .ActionRequest => ActionRequestPdu.slots
  | .ActionResponse => ActionResponsePdu.slots
  | .DataQuery => DataQueryPdu.slots
  | .SetData => SetDataPdu.slots
  | .Data => DataPdu.slots
  | .EventReport => EventReportPdu.slots
  | .Comment => CommentPdu.slots
  | .CreateEntityReliable => CreateEntityReliablePdu.slots
  | .RemoveEntityReliable => RemoveEntityReliablePdu.slots
  | .StartResumeReliable => StartResumeReliablePdu.slots
  | .StopFreezeReliable => StopFreezeReliablePdu.slots
  | .AcknowledgeReliable => AcknowledgeReliablePdu.slots
  | .ActionRequestReliable => ActionRequestReliablePdu.slots
  | .ActionResponseReliable => ActionResponseReliablePdu.slots
  | .DataQueryReliable => DataQueryReliablePdu.slots
  | .SetDataReliable => SetDataReliablePdu.slots
  | .DataReliable => DataReliablePdu.slots
  | .EventReportReliable => EventReportReliablePdu.slots
  | .CommentReliable => CommentReliablePdu.slots
  | .RecordQueryReliable => RecordQueryReliablePdu.slots
  | .SetRecordReliable => SetRecordReliablePdu.slots
  | .EnvironmentalProcess => EnvironmentalProcessPdu.slots
  | .GriddedData => GriddedDataPdu.slots
  | .PointObjectState => PointObjectStatePdu.slots
  | .LinearObjectState => LinearObjectStatePdu.slots
  | .ArealObjectState => ArealObjectStatePdu.slots
  | .Fire => FirePdu.slots
  | .Detonation => DetonationPdu.slots
  | .DirectedEnergyFire => DirectedEnergyFirePdu.slots
  | .EntityDamageStatus => EntityDamageStatusPdu.slots
theorem PduKind.layout_eq : (k : PduKind) → k.layoutTable = k.slots.map (Slot.shift 12)
  | .ElectromagneticEmissions => ElectromagneticEmissionsPdu.layout_eq
  | .Designator => DesignatorPdu.layout_eq
  | .UnderwaterAcoustic => UnderwaterAcousticPdu.layout_eq
  | .IFF => IFFPdu.layout_eq
  | .SupplementalEmission => SupplementalEmissionPdu.layout_eq
  | .EntityState => EntityStatePdu.layout_eq
  | .Collision => CollisionPdu.layout_eq
  | .CollisionElastic => CollisionElasticPdu.layout_eq
  | .EntityStateUpdate => EntityStateUpdatePdu.layout_eq
  | .Attribute => AttributePdu.layout_eq
  | .AggregateState => AggregateStatePdu.layout_eq
  | .IsGroupOf => IsGroupOfPdu.layout_eq
  | .TransferOwnership => TransferOwnershipPdu.layout_eq
  | .IsPartOf => IsPartOfPdu.layout_eq
  | .InformationOperationsReport => InformationOperationsReportPdu.layout_eq
  | .InformationOperationsAction => InformationOperationsActionPdu.layout_eq
  | .ServiceRequest => ServiceRequestPdu.layout_eq
  | .ResupplyOffer => ResupplyOfferPdu.layout_eq
  | .ResupplyReceived => ResupplyReceivedPdu.layout_eq
  | .ResupplyCancel => ResupplyCancelPdu.layout_eq
  | .RepairComplete => RepairCompletePdu.layout_eq
  | .RepairResponse => RepairResponsePdu.layout_eq
  | .MinefieldState => MinefieldStatePdu.layout_eq
  | .MinefieldQuery => MinefieldQueryPdu.layout_eq
  | .MinefieldData => MinefieldDataPdu.layout_eq
  | .MinefieldResponseNack => MinefieldResponseNackPdu.layout_eq
  | .Transmitter => TransmitterPdu.layout_eq
  | .Signal => SignalPdu.layout_eq
  | .Receiver => ReceiverPdu.layout_eq
  | .IntercomSignal => IntercomSignalPdu.layout_eq
  | .IntercomControl => IntercomControlPdu.layout_eq
  | .CreateEntity => CreateEntityPdu.layout_eq
  | .RemoveEntity => RemoveEntityPdu.layout_eq
  | .StartResume => StartResumePdu.layout_eq
  | .StopFreeze => StopFreezePdu.layout_eq
  | .Acknowledge => AcknowledgePdu.layout_eq
  | .ActionRequest => ActionRequestPdu.layout_eq
  | .ActionResponse => ActionResponsePdu.layout_eq
  | .DataQuery => DataQueryPdu.layout_eq
  | .SetData => SetDataPdu.layout_eq
  | .Data => DataPdu.layout_eq
  | .EventReport => EventReportPdu.layout_eq
  | .Comment => CommentPdu.layout_eq
  | .CreateEntityReliable => CreateEntityReliablePdu.layout_eq
  | .RemoveEntityReliable => RemoveEntityReliablePdu.layout_eq
  | .StartResumeReliable => StartResumeReliablePdu.layout_eq
  | .StopFreezeReliable => StopFreezeReliablePdu.layout_eq
  | .AcknowledgeReliable => AcknowledgeReliablePdu.layout_eq
  | .ActionRequestReliable => ActionRequestReliablePdu.layout_eq
  | .ActionResponseReliable => ActionResponseReliablePdu.layout_eq
  | .DataQueryReliable => DataQueryReliablePdu.layout_eq
  | .SetDataReliable => SetDataReliablePdu.layout_eq
  | .DataReliable => DataReliablePdu.layout_eq
  | .EventReportReliable => EventReportReliablePdu.layout_eq
  | .CommentReliable => CommentReliablePdu.layout_eq
  | .RecordQueryReliable => RecordQueryReliablePdu.layout_eq
  | .SetRecordReliable => SetRecordReliablePdu.layout_eq
  | .EnvironmentalProcess => EnvironmentalProcessPdu.layout_eq
  | .GriddedData => GriddedDataPdu.layout_eq
  | .PointObjectState => PointObjectStatePdu.layout_eq
  | .LinearObjectState => LinearObjectStatePdu.layout_eq
  | .ArealObjectState => ArealObjectStatePdu.layout_eq
  | .Fire => FirePdu.layout_eq
  | .Detonation => DetonationPdu.layout_eq
  | .DirectedEnergyFire => DirectedEnergyFirePdu.layout_eq
  | .EntityDamageStatus => EntityDamageStatusPdu.layout_eq
theorem PduKind.written : (k : PduKind) → ∀ x : k.Body, Written k.slots x (wire (sent x))
  | .ElectromagneticEmissions => ElectromagneticEmissionsPdu.written
  | .Designator => DesignatorPdu.written
  | .UnderwaterAcoustic => UnderwaterAcousticPdu.written
  | .IFF => IFFPdu.written
  | .SupplementalEmission => SupplementalEmissionPdu.written
  | .EntityState => EntityStatePdu.written
  | .Collision => CollisionPdu.written
  | .CollisionElastic => CollisionElasticPdu.written
  | .EntityStateUpdate => EntityStateUpdatePdu.written
  | .Attribute => AttributePdu.written
  | .AggregateState => AggregateStatePdu.written
  | .IsGroupOf => IsGroupOfPdu.written
  | .TransferOwnership => TransferOwnershipPdu.written
  | .IsPartOf => IsPartOfPdu.written
  | .InformationOperationsReport => InformationOperationsReportPdu.written
  | .InformationOperationsAction => InformationOperationsActionPdu.written
  | .ServiceRequest => ServiceRequestPdu.written
  | .ResupplyOffer => ResupplyOfferPdu.written
  | .ResupplyReceived => ResupplyReceivedPdu.written
  | .ResupplyCancel => ResupplyCancelPdu.written
  | .RepairComplete => RepairCompletePdu.written
  | .RepairResponse => RepairResponsePdu.written
  | .MinefieldState => MinefieldStatePdu.written
  | .MinefieldQuery => MinefieldQueryPdu.written
  | .MinefieldData => MinefieldDataPdu.written
  | .MinefieldResponseNack => MinefieldResponseNackPdu.written
  | .Transmitter => TransmitterPdu.written
  | .Signal => SignalPdu.written
  | .Receiver => ReceiverPdu.written
  | .IntercomSignal => IntercomSignalPdu.written
  | .IntercomControl => IntercomControlPdu.written
  | .CreateEntity => CreateEntityPdu.written
  | .RemoveEntity => RemoveEntityPdu.written
  | .StartResume => StartResumePdu.written
  | .StopFreeze => StopFreezePdu.written
  | .Acknowledge => AcknowledgePdu.written
  | .ActionRequest => ActionRequestPdu.written
  | .ActionResponse => ActionResponsePdu.written
  | .DataQuery => DataQueryPdu.written
  | .SetData => SetDataPdu.written
  | .Data => DataPdu.written
  | .EventReport => EventReportPdu.written
  | .Comment => CommentPdu.written
  | .CreateEntityReliable => CreateEntityReliablePdu.written
  | .RemoveEntityReliable => RemoveEntityReliablePdu.written
  | .StartResumeReliable => StartResumeReliablePdu.written
  | .StopFreezeReliable => StopFreezeReliablePdu.written
  | .AcknowledgeReliable => AcknowledgeReliablePdu.written
  | .ActionRequestReliable => ActionRequestReliablePdu.written
  | .ActionResponseReliable => ActionResponseReliablePdu.written
  | .DataQueryReliable => DataQueryReliablePdu.written
  | .SetDataReliable => SetDataReliablePdu.written
  | .DataReliable => DataReliablePdu.written
  | .EventReportReliable => EventReportReliablePdu.written
  | .CommentReliable => CommentReliablePdu.written
  | .RecordQueryReliable => RecordQueryReliablePdu.written
  | .SetRecordReliable => SetRecordReliablePdu.written
  | .EnvironmentalProcess => EnvironmentalProcessPdu.written
  | .GriddedData => GriddedDataPdu.written
  | .PointObjectState => PointObjectStatePdu.written
  | .LinearObjectState => LinearObjectStatePdu.written
  | .ArealObjectState => ArealObjectStatePdu.written
  | .Fire => FirePdu.written
  | .Detonation => DetonationPdu.written
  | .DirectedEnergyFire => DirectedEnergyFirePdu.written
  | .EntityDamageStatus => EntityDamageStatusPdu.written
theorem PduKind.finds : (k : PduKind) → Finds (PduBody.deserializeBody : Get k.Body) (ReadFrom k.slots)
  | .ElectromagneticEmissions => ElectromagneticEmissionsPdu.finds
  | .Designator => DesignatorPdu.finds
  | .UnderwaterAcoustic => UnderwaterAcousticPdu.finds
  | .IFF => IFFPdu.finds
  | .SupplementalEmission => SupplementalEmissionPdu.finds
  | .EntityState => EntityStatePdu.finds
  | .Collision => CollisionPdu.finds
  | .CollisionElastic => CollisionElasticPdu.finds
  | .EntityStateUpdate => EntityStateUpdatePdu.finds
  | .Attribute => AttributePdu.finds
  | .AggregateState => AggregateStatePdu.finds
  | .IsGroupOf => IsGroupOfPdu.finds
  | .TransferOwnership => TransferOwnershipPdu.finds
  | .IsPartOf => IsPartOfPdu.finds
  | .InformationOperationsReport => InformationOperationsReportPdu.finds
  | .InformationOperationsAction => InformationOperationsActionPdu.finds
  | .ServiceRequest => ServiceRequestPdu.finds
  | .ResupplyOffer => ResupplyOfferPdu.finds
  | .ResupplyReceived => ResupplyReceivedPdu.finds
  | .ResupplyCancel => ResupplyCancelPdu.finds
  | .RepairComplete => RepairCompletePdu.finds
  | .RepairResponse => RepairResponsePdu.finds
  | .MinefieldState => MinefieldStatePdu.finds
  | .MinefieldQuery => MinefieldQueryPdu.finds
  | .MinefieldData => MinefieldDataPdu.finds
  | .MinefieldResponseNack => MinefieldResponseNackPdu.finds
  | .Transmitter => TransmitterPdu.finds
  | .Signal => SignalPdu.finds
  | .Receiver => ReceiverPdu.finds
  | .IntercomSignal => IntercomSignalPdu.finds
  | .IntercomControl => IntercomControlPdu.finds
  | .CreateEntity => CreateEntityPdu.finds
  | .RemoveEntity => RemoveEntityPdu.finds
  | .StartResume => StartResumePdu.finds
  | .StopFreeze => StopFreezePdu.finds
  | .Acknowledge => AcknowledgePdu.finds
  | .ActionRequest => ActionRequestPdu.finds
  | .ActionResponse => ActionResponsePdu.finds
  | .DataQuery => DataQueryPdu.finds
  | .SetData => SetDataPdu.finds
  | .Data => DataPdu.finds
  | .EventReport => EventReportPdu.finds
  | .Comment => CommentPdu.finds
  | .CreateEntityReliable => CreateEntityReliablePdu.finds
  | .RemoveEntityReliable => RemoveEntityReliablePdu.finds
  | .StartResumeReliable => StartResumeReliablePdu.finds
  | .StopFreezeReliable => StopFreezeReliablePdu.finds
  | .AcknowledgeReliable => AcknowledgeReliablePdu.finds
  | .ActionRequestReliable => ActionRequestReliablePdu.finds
  | .ActionResponseReliable => ActionResponseReliablePdu.finds
  | .DataQueryReliable => DataQueryReliablePdu.finds
  | .SetDataReliable => SetDataReliablePdu.finds
  | .DataReliable => DataReliablePdu.finds
  | .EventReportReliable => EventReportReliablePdu.finds
  | .CommentReliable => CommentReliablePdu.finds
  | .RecordQueryReliable => RecordQueryReliablePdu.finds
  | .SetRecordReliable => SetRecordReliablePdu.finds
  | .EnvironmentalProcess => EnvironmentalProcessPdu.finds
  | .GriddedData => GriddedDataPdu.finds
  | .PointObjectState => PointObjectStatePdu.finds
  | .LinearObjectState => LinearObjectStatePdu.finds
  | .ArealObjectState => ArealObjectStatePdu.finds
  | .Fire => FirePdu.finds
  | .Detonation => DetonationPdu.finds
  | .DirectedEnergyFire => DirectedEnergyFirePdu.finds
  | .EntityDamageStatus => EntityDamageStatusPdu.finds
theorem PduKind.agree : (k : PduKind) → k.fixedLayout = true → ∀ x y : k.Body, Agree k.slots x y → x = y
  | .ElectromagneticEmissions, h => nomatch h
  | .Designator, _ => fun _ _ h => DesignatorPdu.agree h
  | .UnderwaterAcoustic, h => nomatch h
  | .IFF, h => nomatch h
  | .SupplementalEmission, h => nomatch h
  | .EntityState, h => nomatch h
  | .Collision, _ => fun _ _ h => CollisionPdu.agree h
  | .CollisionElastic, _ => fun _ _ h => CollisionElasticPdu.agree h
  | .EntityStateUpdate, h => nomatch h
  | .Attribute, h => nomatch h
  | .AggregateState, h => nomatch h
  | .IsGroupOf, h => nomatch h
  | .TransferOwnership, h => nomatch h
  | .IsPartOf, _ => fun _ _ h => IsPartOfPdu.agree h
  | .InformationOperationsReport, h => nomatch h
  | .InformationOperationsAction, h => nomatch h
  | .ServiceRequest, h => nomatch h
  | .ResupplyOffer, h => nomatch h
  | .ResupplyReceived, h => nomatch h
  | .ResupplyCancel, _ => fun _ _ h => ResupplyCancelPdu.agree h
  | .RepairComplete, _ => fun _ _ h => RepairCompletePdu.agree h
  | .RepairResponse, _ => fun _ _ h => RepairResponsePdu.agree h
  | .MinefieldState, h => nomatch h
  | .MinefieldQuery, h => nomatch h
  | .MinefieldData, h => nomatch h
  | .MinefieldResponseNack, h => nomatch h
  | .Transmitter, h => nomatch h
  | .Signal, h => nomatch h
  | .Receiver, _ => fun _ _ h => ReceiverPdu.agree h
  | .IntercomSignal, h => nomatch h
  | .IntercomControl, h => nomatch h
  | .CreateEntity, _ => fun _ _ h => CreateEntityPdu.agree h
  | .RemoveEntity, _ => fun _ _ h => RemoveEntityPdu.agree h
  | .StartResume, _ => fun _ _ h => StartResumePdu.agree h
  | .StopFreeze, _ => fun _ _ h => StopFreezePdu.agree h
  | .Acknowledge, _ => fun _ _ h => AcknowledgePdu.agree h
  | .ActionRequest, h => nomatch h
  | .ActionResponse, h => nomatch h
  | .DataQuery, h => nomatch h
  | .SetData, h => nomatch h
  | .Data, h => nomatch h
  | .EventReport, h => nomatch h
  | .Comment, h => nomatch h
  | .CreateEntityReliable, _ => fun _ _ h => CreateEntityReliablePdu.agree h
  | .RemoveEntityReliable, _ => fun _ _ h => RemoveEntityReliablePdu.agree h
  | .StartResumeReliable, _ => fun _ _ h => StartResumeReliablePdu.agree h
  | .StopFreezeReliable, _ => fun _ _ h => StopFreezeReliablePdu.agree h
  | .AcknowledgeReliable, _ => fun _ _ h => AcknowledgeReliablePdu.agree h
  | .ActionRequestReliable, h => nomatch h
  | .ActionResponseReliable, h => nomatch h
  | .DataQueryReliable, h => nomatch h
  | .SetDataReliable, h => nomatch h
  | .DataReliable, h => nomatch h
  | .EventReportReliable, h => nomatch h
  | .CommentReliable, h => nomatch h
  | .RecordQueryReliable, h => nomatch h
  | .SetRecordReliable, h => nomatch h
  | .EnvironmentalProcess, h => nomatch h
  | .GriddedData, h => nomatch h
  | .PointObjectState, _ => fun _ _ h => PointObjectStatePdu.agree h
  | .LinearObjectState, h => nomatch h
  | .ArealObjectState, h => nomatch h
  | .Fire, _ => fun _ _ h => FirePdu.agree h
  | .Detonation, h => nomatch h
  | .DirectedEnergyFire, h => nomatch h
  | .EntityDamageStatus, h => nomatch h

end Dis
