import Verif.Spec.PduLayout1
import Verif.Spec.PduLayout2
import Verif.Spec.PduLayout3
import Verif.Spec.PduLayout4
import Verif.Model.PduKind
/- The layout tables by kind. -/
namespace Dis

/-- The layout table of the kind. -/
def PduKind.layoutTable : (k : PduKind) → List (Slot k.Body)
  | .ElectromagneticEmissions => ElectromagneticEmissionsPdu.layout
  | .Designator => DesignatorPdu.layout
  | .UnderwaterAcoustic => UnderwaterAcousticPdu.layout
  | .IFF => IFFPdu.layout
  | .SupplementalEmission => SupplementalEmissionPdu.layout
  | .EntityState => EntityStatePdu.layout
  | .Collision => CollisionPdu.layout
  | .CollisionElastic => CollisionElasticPdu.layout
  | .EntityStateUpdate => EntityStateUpdatePdu.layout
  | .Attribute => AttributePdu.layout
  | .AggregateState => AggregateStatePdu.layout
  | .IsGroupOf => IsGroupOfPdu.layout
  | .TransferOwnership => TransferOwnershipPdu.layout
  | .IsPartOf => IsPartOfPdu.layout
  | .InformationOperationsReport => InformationOperationsReportPdu.layout
  | .InformationOperationsAction => InformationOperationsActionPdu.layout
  | .ServiceRequest => ServiceRequestPdu.layout
  | .ResupplyOffer => ResupplyOfferPdu.layout
  | .ResupplyReceived => ResupplyReceivedPdu.layout
  | .ResupplyCancel => ResupplyCancelPdu.layout
  | .RepairComplete => RepairCompletePdu.layout
  | .RepairResponse => RepairResponsePdu.layout
  | .MinefieldState => MinefieldStatePdu.layout
  | .MinefieldQuery => MinefieldQueryPdu.layout
  | .MinefieldData => MinefieldDataPdu.layout
  | .MinefieldResponseNack => MinefieldResponseNackPdu.layout
  | .Transmitter => TransmitterPdu.layout
  | .Signal => SignalPdu.layout
  | .Receiver => ReceiverPdu.layout
  | .IntercomSignal => IntercomSignalPdu.layout
  | .IntercomControl => IntercomControlPdu.layout
  | .CreateEntity => CreateEntityPdu.layout
  | .RemoveEntity => RemoveEntityPdu.layout
  | .StartResume => StartResumePdu.layout
  | .StopFreeze => StopFreezePdu.layout
  | .Acknowledge => AcknowledgePdu.layout
  | .ActionRequest => ActionRequestPdu.layout
  | .ActionResponse => ActionResponsePdu.layout
  | .DataQuery => DataQueryPdu.layout
  | .SetData => SetDataPdu.layout
  | .Data => DataPdu.layout
  | .EventReport => EventReportPdu.layout
  | .Comment => CommentPdu.layout
  | .CreateEntityReliable => CreateEntityReliablePdu.layout
  | .RemoveEntityReliable => RemoveEntityReliablePdu.layout
  | .StartResumeReliable => StartResumeReliablePdu.layout
  | .StopFreezeReliable => StopFreezeReliablePdu.layout
  | .AcknowledgeReliable => AcknowledgeReliablePdu.layout
  | .ActionRequestReliable => ActionRequestReliablePdu.layout
  | .ActionResponseReliable => ActionResponseReliablePdu.layout
  | .DataQueryReliable => DataQueryReliablePdu.layout
  | .SetDataReliable => SetDataReliablePdu.layout
  | .DataReliable => DataReliablePdu.layout
  | .EventReportReliable => EventReportReliablePdu.layout
  | .CommentReliable => CommentReliablePdu.layout
  | .RecordQueryReliable => RecordQueryReliablePdu.layout
  | .SetRecordReliable => SetRecordReliablePdu.layout
  | .EnvironmentalProcess => EnvironmentalProcessPdu.layout
  | .GriddedData => GriddedDataPdu.layout
  | .PointObjectState => PointObjectStatePdu.layout
  | .LinearObjectState => LinearObjectStatePdu.layout
  | .ArealObjectState => ArealObjectStatePdu.layout
  | .Fire => FirePdu.layout
  | .Detonation => DetonationPdu.layout
  | .DirectedEnergyFire => DirectedEnergyFirePdu.layout
  | .EntityDamageStatus => EntityDamageStatusPdu.layout

end Dis
