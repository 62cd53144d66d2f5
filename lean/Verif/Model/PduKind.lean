import Verif.Model.Pdus1
import Verif.Model.Pdus2
import Verif.Model.Pdus3
import Verif.Model.Pdus4
/- Generated by tools/gen_pdus.py: the index of the 66 `define_pdu!` blocks of /repo/src. -/
namespace Dis

/-- The PDU kinds of the crate, one per `define_pdu!` block (cited at the structures below). -/
inductive PduKind where
  | ElectromagneticEmissions
  | Designator
  | UnderwaterAcoustic
  | IFF
  | SupplementalEmission
  | EntityState
  | Collision
  | CollisionElastic
  | EntityStateUpdate
  | Attribute
  | AggregateState
  | IsGroupOf
  | TransferOwnership
  | IsPartOf
  | InformationOperationsReport
  | InformationOperationsAction
  | ServiceRequest
  | ResupplyOffer
  | ResupplyReceived
  | ResupplyCancel
  | RepairComplete
  | RepairResponse
  | MinefieldState
  | MinefieldQuery
  | MinefieldData
  | MinefieldResponseNack
  | Transmitter
  | Signal
  | Receiver
  | IntercomSignal
  | IntercomControl
  | CreateEntity
  | RemoveEntity
  | StartResume
  | StopFreeze
  | Acknowledge
  | ActionRequest
  | ActionResponse
  | DataQuery
  | SetData
  | Data
  | EventReport
  | Comment
  | CreateEntityReliable
  | RemoveEntityReliable
  | StartResumeReliable
  | StopFreezeReliable
  | AcknowledgeReliable
  | ActionRequestReliable
  | ActionResponseReliable
  | DataQueryReliable
  | SetDataReliable
  | DataReliable
  | EventReportReliable
  | CommentReliable
  | RecordQueryReliable
  | SetRecordReliable
  | EnvironmentalProcess
  | GriddedData
  | PointObjectState
  | LinearObjectState
  | ArealObjectState
  | Fire
  | Detonation
  | DirectedEnergyFire
  | EntityDamageStatus
  deriving DecidableEq, Repr

/-- The structure (without header) declared for the kind. -/
@[reducible] def PduKind.Body : PduKind → Type
  | .ElectromagneticEmissions => ElectromagneticEmissionsPdu
  | .Designator => DesignatorPdu
  | .UnderwaterAcoustic => UnderwaterAcousticPdu
  | .IFF => IFFPdu
  | .SupplementalEmission => SupplementalEmissionPdu
  | .EntityState => EntityStatePdu
  | .Collision => CollisionPdu
  | .CollisionElastic => CollisionElasticPdu
  | .EntityStateUpdate => EntityStateUpdatePdu
  | .Attribute => AttributePdu
  | .AggregateState => AggregateStatePdu
  | .IsGroupOf => IsGroupOfPdu
  | .TransferOwnership => TransferOwnershipPdu
  | .IsPartOf => IsPartOfPdu
  | .InformationOperationsReport => InformationOperationsReportPdu
  | .InformationOperationsAction => InformationOperationsActionPdu
  | .ServiceRequest => ServiceRequestPdu
  | .ResupplyOffer => ResupplyOfferPdu
  | .ResupplyReceived => ResupplyReceivedPdu
  | .ResupplyCancel => ResupplyCancelPdu
  | .RepairComplete => RepairCompletePdu
  | .RepairResponse => RepairResponsePdu
  | .MinefieldState => MinefieldStatePdu
  | .MinefieldQuery => MinefieldQueryPdu
  | .MinefieldData => MinefieldDataPdu
  | .MinefieldResponseNack => MinefieldResponseNackPdu
  | .Transmitter => TransmitterPdu
  | .Signal => SignalPdu
  | .Receiver => ReceiverPdu
  | .IntercomSignal => IntercomSignalPdu
  | .IntercomControl => IntercomControlPdu
  | .CreateEntity => CreateEntityPdu
  | .RemoveEntity => RemoveEntityPdu
  | .StartResume => StartResumePdu
  | .StopFreeze => StopFreezePdu
  | .Acknowledge => AcknowledgePdu
  | .ActionRequest => ActionRequestPdu
  | .ActionResponse => ActionResponsePdu
  | .DataQuery => DataQueryPdu
  | .SetData => SetDataPdu
  | .Data => DataPdu
  | .EventReport => EventReportPdu
  | .Comment => CommentPdu
  | .CreateEntityReliable => CreateEntityReliablePdu
  | .RemoveEntityReliable => RemoveEntityReliablePdu
  | .StartResumeReliable => StartResumeReliablePdu
  | .StopFreezeReliable => StopFreezeReliablePdu
  | .AcknowledgeReliable => AcknowledgeReliablePdu
  | .ActionRequestReliable => ActionRequestReliablePdu
  | .ActionResponseReliable => ActionResponseReliablePdu
  | .DataQueryReliable => DataQueryReliablePdu
  | .SetDataReliable => SetDataReliablePdu
  | .DataReliable => DataReliablePdu
  | .EventReportReliable => EventReportReliablePdu
  | .CommentReliable => CommentReliablePdu
  | .RecordQueryReliable => RecordQueryReliablePdu
  | .SetRecordReliable => SetRecordReliablePdu
  | .EnvironmentalProcess => EnvironmentalProcessPdu
  | .GriddedData => GriddedDataPdu
  | .PointObjectState => PointObjectStatePdu
  | .LinearObjectState => LinearObjectStatePdu
  | .ArealObjectState => ArealObjectStatePdu
  | .Fire => FirePdu
  | .Detonation => DetonationPdu
  | .DirectedEnergyFire => DirectedEnergyFirePdu
  | .EntityDamageStatus => EntityDamageStatusPdu

/-- The code the macro generates for the kind. -/
instance PduKind.instPduBody : (k : PduKind) → PduBody k.Body
  | .ElectromagneticEmissions => inferInstanceAs (PduBody ElectromagneticEmissionsPdu)
  | .Designator => inferInstanceAs (PduBody DesignatorPdu)
  | .UnderwaterAcoustic => inferInstanceAs (PduBody UnderwaterAcousticPdu)
  | .IFF => inferInstanceAs (PduBody IFFPdu)
  | .SupplementalEmission => inferInstanceAs (PduBody SupplementalEmissionPdu)
  | .EntityState => inferInstanceAs (PduBody EntityStatePdu)
  | .Collision => inferInstanceAs (PduBody CollisionPdu)
  | .CollisionElastic => inferInstanceAs (PduBody CollisionElasticPdu)
  | .EntityStateUpdate => inferInstanceAs (PduBody EntityStateUpdatePdu)
  | .Attribute => inferInstanceAs (PduBody AttributePdu)
  | .AggregateState => inferInstanceAs (PduBody AggregateStatePdu)
  | .IsGroupOf => inferInstanceAs (PduBody IsGroupOfPdu)
  | .TransferOwnership => inferInstanceAs (PduBody TransferOwnershipPdu)
  | .IsPartOf => inferInstanceAs (PduBody IsPartOfPdu)
  | .InformationOperationsReport => inferInstanceAs (PduBody InformationOperationsReportPdu)
  | .InformationOperationsAction => inferInstanceAs (PduBody InformationOperationsActionPdu)
  | .ServiceRequest => inferInstanceAs (PduBody ServiceRequestPdu)
  | .ResupplyOffer => inferInstanceAs (PduBody ResupplyOfferPdu)
  | .ResupplyReceived => inferInstanceAs (PduBody ResupplyReceivedPdu)
  | .ResupplyCancel => inferInstanceAs (PduBody ResupplyCancelPdu)
  | .RepairComplete => inferInstanceAs (PduBody RepairCompletePdu)
  | .RepairResponse => inferInstanceAs (PduBody RepairResponsePdu)
  | .MinefieldState => inferInstanceAs (PduBody MinefieldStatePdu)
  | .MinefieldQuery => inferInstanceAs (PduBody MinefieldQueryPdu)
  | .MinefieldData => inferInstanceAs (PduBody MinefieldDataPdu)
  | .MinefieldResponseNack => inferInstanceAs (PduBody MinefieldResponseNackPdu)
  | .Transmitter => inferInstanceAs (PduBody TransmitterPdu)
  | .Signal => inferInstanceAs (PduBody SignalPdu)
  | .Receiver => inferInstanceAs (PduBody ReceiverPdu)
  | .IntercomSignal => inferInstanceAs (PduBody IntercomSignalPdu)
  | .IntercomControl => inferInstanceAs (PduBody IntercomControlPdu)
  | .CreateEntity => inferInstanceAs (PduBody CreateEntityPdu)
  | .RemoveEntity => inferInstanceAs (PduBody RemoveEntityPdu)
  | .StartResume => inferInstanceAs (PduBody StartResumePdu)
  | .StopFreeze => inferInstanceAs (PduBody StopFreezePdu)
  | .Acknowledge => inferInstanceAs (PduBody AcknowledgePdu)
  | .ActionRequest => inferInstanceAs (PduBody ActionRequestPdu)
  | .ActionResponse => inferInstanceAs (PduBody ActionResponsePdu)
  | .DataQuery => inferInstanceAs (PduBody DataQueryPdu)
  | .SetData => inferInstanceAs (PduBody SetDataPdu)
  | .Data => inferInstanceAs (PduBody DataPdu)
  | .EventReport => inferInstanceAs (PduBody EventReportPdu)
  | .Comment => inferInstanceAs (PduBody CommentPdu)
  | .CreateEntityReliable => inferInstanceAs (PduBody CreateEntityReliablePdu)
  | .RemoveEntityReliable => inferInstanceAs (PduBody RemoveEntityReliablePdu)
  | .StartResumeReliable => inferInstanceAs (PduBody StartResumeReliablePdu)
  | .StopFreezeReliable => inferInstanceAs (PduBody StopFreezeReliablePdu)
  | .AcknowledgeReliable => inferInstanceAs (PduBody AcknowledgeReliablePdu)
  | .ActionRequestReliable => inferInstanceAs (PduBody ActionRequestReliablePdu)
  | .ActionResponseReliable => inferInstanceAs (PduBody ActionResponseReliablePdu)
  | .DataQueryReliable => inferInstanceAs (PduBody DataQueryReliablePdu)
  | .SetDataReliable => inferInstanceAs (PduBody SetDataReliablePdu)
  | .DataReliable => inferInstanceAs (PduBody DataReliablePdu)
  | .EventReportReliable => inferInstanceAs (PduBody EventReportReliablePdu)
  | .CommentReliable => inferInstanceAs (PduBody CommentReliablePdu)
  | .RecordQueryReliable => inferInstanceAs (PduBody RecordQueryReliablePdu)
  | .SetRecordReliable => inferInstanceAs (PduBody SetRecordReliablePdu)
  | .EnvironmentalProcess => inferInstanceAs (PduBody EnvironmentalProcessPdu)
  | .GriddedData => inferInstanceAs (PduBody GriddedDataPdu)
  | .PointObjectState => inferInstanceAs (PduBody PointObjectStatePdu)
  | .LinearObjectState => inferInstanceAs (PduBody LinearObjectStatePdu)
  | .ArealObjectState => inferInstanceAs (PduBody ArealObjectStatePdu)
  | .Fire => inferInstanceAs (PduBody FirePdu)
  | .Detonation => inferInstanceAs (PduBody DetonationPdu)
  | .DirectedEnergyFire => inferInstanceAs (PduBody DirectedEnergyFirePdu)
  | .EntityDamageStatus => inferInstanceAs (PduBody EntityDamageStatusPdu)

/-- All kinds. -/
def PduKind.all : List PduKind := [
  .ElectromagneticEmissions,
  .Designator,
  .UnderwaterAcoustic,
  .IFF,
  .SupplementalEmission,
  .EntityState,
  .Collision,
  .CollisionElastic,
  .EntityStateUpdate,
  .Attribute,
  .AggregateState,
  .IsGroupOf,
  .TransferOwnership,
  .IsPartOf,
  .InformationOperationsReport,
  .InformationOperationsAction,
  .ServiceRequest,
  .ResupplyOffer,
  .ResupplyReceived,
  .ResupplyCancel,
  .RepairComplete,
  .RepairResponse,
  .MinefieldState,
  .MinefieldQuery,
  .MinefieldData,
  .MinefieldResponseNack,
  .Transmitter,
  .Signal,
  .Receiver,
  .IntercomSignal,
  .IntercomControl,
  .CreateEntity,
  .RemoveEntity,
  .StartResume,
  .StopFreeze,
  .Acknowledge,
  .ActionRequest,
  .ActionResponse,
  .DataQuery,
  .SetData,
  .Data,
  .EventReport,
  .Comment,
  .CreateEntityReliable,
  .RemoveEntityReliable,
  .StartResumeReliable,
  .StopFreezeReliable,
  .AcknowledgeReliable,
  .ActionRequestReliable,
  .ActionResponseReliable,
  .DataQueryReliable,
  .SetDataReliable,
  .DataReliable,
  .EventReportReliable,
  .CommentReliable,
  .RecordQueryReliable,
  .SetRecordReliable,
  .EnvironmentalProcess,
  .GriddedData,
  .PointObjectState,
  .LinearObjectState,
  .ArealObjectState,
  .Fire,
  .Detonation,
  .DirectedEnergyFire,
  .EntityDamageStatus]

/-- Comparison of the members, for the concrete examples only (PDUs have no `==`). -/
instance PduKind.instDecidableEq : (k : PduKind) → DecidableEq k.Body
  | .ElectromagneticEmissions => inferInstanceAs (DecidableEq ElectromagneticEmissionsPdu)
  | .Designator => inferInstanceAs (DecidableEq DesignatorPdu)
  | .UnderwaterAcoustic => inferInstanceAs (DecidableEq UnderwaterAcousticPdu)
  | .IFF => inferInstanceAs (DecidableEq IFFPdu)
  | .SupplementalEmission => inferInstanceAs (DecidableEq SupplementalEmissionPdu)
  | .EntityState => inferInstanceAs (DecidableEq EntityStatePdu)
  | .Collision => inferInstanceAs (DecidableEq CollisionPdu)
  | .CollisionElastic => inferInstanceAs (DecidableEq CollisionElasticPdu)
  | .EntityStateUpdate => inferInstanceAs (DecidableEq EntityStateUpdatePdu)
  | .Attribute => inferInstanceAs (DecidableEq AttributePdu)
  | .AggregateState => inferInstanceAs (DecidableEq AggregateStatePdu)
  | .IsGroupOf => inferInstanceAs (DecidableEq IsGroupOfPdu)
  | .TransferOwnership => inferInstanceAs (DecidableEq TransferOwnershipPdu)
  | .IsPartOf => inferInstanceAs (DecidableEq IsPartOfPdu)
  | .InformationOperationsReport => inferInstanceAs (DecidableEq InformationOperationsReportPdu)
  | .InformationOperationsAction => inferInstanceAs (DecidableEq InformationOperationsActionPdu)
  | .ServiceRequest => inferInstanceAs (DecidableEq ServiceRequestPdu)
  | .ResupplyOffer => inferInstanceAs (DecidableEq ResupplyOfferPdu)
  | .ResupplyReceived => inferInstanceAs (DecidableEq ResupplyReceivedPdu)
  | .ResupplyCancel => inferInstanceAs (DecidableEq ResupplyCancelPdu)
  | .RepairComplete => inferInstanceAs (DecidableEq RepairCompletePdu)
  | .RepairResponse => inferInstanceAs (DecidableEq RepairResponsePdu)
  | .MinefieldState => inferInstanceAs (DecidableEq MinefieldStatePdu)
  | .MinefieldQuery => inferInstanceAs (DecidableEq MinefieldQueryPdu)
  | .MinefieldData => inferInstanceAs (DecidableEq MinefieldDataPdu)
  | .MinefieldResponseNack => inferInstanceAs (DecidableEq MinefieldResponseNackPdu)
  | .Transmitter => inferInstanceAs (DecidableEq TransmitterPdu)
  | .Signal => inferInstanceAs (DecidableEq SignalPdu)
  | .Receiver => inferInstanceAs (DecidableEq ReceiverPdu)
  | .IntercomSignal => inferInstanceAs (DecidableEq IntercomSignalPdu)
  | .IntercomControl => inferInstanceAs (DecidableEq IntercomControlPdu)
  | .CreateEntity => inferInstanceAs (DecidableEq CreateEntityPdu)
  | .RemoveEntity => inferInstanceAs (DecidableEq RemoveEntityPdu)
  | .StartResume => inferInstanceAs (DecidableEq StartResumePdu)
  | .StopFreeze => inferInstanceAs (DecidableEq StopFreezePdu)
  | .Acknowledge => inferInstanceAs (DecidableEq AcknowledgePdu)
  | .ActionRequest => inferInstanceAs (DecidableEq ActionRequestPdu)
  | .ActionResponse => inferInstanceAs (DecidableEq ActionResponsePdu)
  | .DataQuery => inferInstanceAs (DecidableEq DataQueryPdu)
  | .SetData => inferInstanceAs (DecidableEq SetDataPdu)
  | .Data => inferInstanceAs (DecidableEq DataPdu)
  | .EventReport => inferInstanceAs (DecidableEq EventReportPdu)
  | .Comment => inferInstanceAs (DecidableEq CommentPdu)
  | .CreateEntityReliable => inferInstanceAs (DecidableEq CreateEntityReliablePdu)
  | .RemoveEntityReliable => inferInstanceAs (DecidableEq RemoveEntityReliablePdu)
  | .StartResumeReliable => inferInstanceAs (DecidableEq StartResumeReliablePdu)
  | .StopFreezeReliable => inferInstanceAs (DecidableEq StopFreezeReliablePdu)
  | .AcknowledgeReliable => inferInstanceAs (DecidableEq AcknowledgeReliablePdu)
  | .ActionRequestReliable => inferInstanceAs (DecidableEq ActionRequestReliablePdu)
  | .ActionResponseReliable => inferInstanceAs (DecidableEq ActionResponseReliablePdu)
  | .DataQueryReliable => inferInstanceAs (DecidableEq DataQueryReliablePdu)
  | .SetDataReliable => inferInstanceAs (DecidableEq SetDataReliablePdu)
  | .DataReliable => inferInstanceAs (DecidableEq DataReliablePdu)
  | .EventReportReliable => inferInstanceAs (DecidableEq EventReportReliablePdu)
  | .CommentReliable => inferInstanceAs (DecidableEq CommentReliablePdu)
  | .RecordQueryReliable => inferInstanceAs (DecidableEq RecordQueryReliablePdu)
  | .SetRecordReliable => inferInstanceAs (DecidableEq SetRecordReliablePdu)
  | .EnvironmentalProcess => inferInstanceAs (DecidableEq EnvironmentalProcessPdu)
  | .GriddedData => inferInstanceAs (DecidableEq GriddedDataPdu)
  | .PointObjectState => inferInstanceAs (DecidableEq PointObjectStatePdu)
  | .LinearObjectState => inferInstanceAs (DecidableEq LinearObjectStatePdu)
  | .ArealObjectState => inferInstanceAs (DecidableEq ArealObjectStatePdu)
  | .Fire => inferInstanceAs (DecidableEq FirePdu)
  | .Detonation => inferInstanceAs (DecidableEq DetonationPdu)
  | .DirectedEnergyFire => inferInstanceAs (DecidableEq DirectedEnergyFirePdu)
  | .EntityDamageStatus => inferInstanceAs (DecidableEq EntityDamageStatusPdu)

end Dis
