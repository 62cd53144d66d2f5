import Verif.Spec.PduKindWire
import Verif.Proofs.PduLaws
import Verif.Proofs.Pdus1
import Verif.Proofs.Pdus2
import Verif.Proofs.Pdus3
import Verif.Proofs.Pdus4
/- Generated by tools/gen_pdus.py. -/
set_option maxRecDepth 4000
namespace Dis

instance : LawfulBody ElectromagneticEmissionsPdu :=
  ⟨fun x _ => ElectromagneticEmissionsPdu.writes x, ElectromagneticEmissionsPdu.ifOk, ElectromagneticEmissionsPdu.len, ElectromagneticEmissionsPdu.appends, fun x _ => ElectromagneticEmissionsPdu.reads x, ElectromagneticEmissionsPdu.split, ElectromagneticEmissionsPdu.loc.consumes,
   fun _ => rfl, fun _ => rfl, fun _ => rfl, fun _ => rfl⟩
instance : LawfulBody DesignatorPdu :=
  ⟨fun x _ => DesignatorPdu.writes x, DesignatorPdu.ifOk, DesignatorPdu.len, DesignatorPdu.appends, fun x _ => DesignatorPdu.reads x, DesignatorPdu.split, DesignatorPdu.loc.consumes,
   fun _ => rfl, fun _ => rfl, fun _ => rfl, fun _ => rfl⟩
instance : LawfulBody UnderwaterAcousticPdu :=
  ⟨fun x _ => UnderwaterAcousticPdu.writes x, UnderwaterAcousticPdu.ifOk, UnderwaterAcousticPdu.len, UnderwaterAcousticPdu.appends, fun x _ => UnderwaterAcousticPdu.reads x, UnderwaterAcousticPdu.split, UnderwaterAcousticPdu.loc.consumes,
   fun _ => rfl, fun _ => rfl, fun _ => rfl, fun _ => rfl⟩
instance : LawfulBody IFFPdu :=
  ⟨fun x _ => IFFPdu.writes x, IFFPdu.ifOk, IFFPdu.len, IFFPdu.appends, fun x _ => IFFPdu.reads x, IFFPdu.split, IFFPdu.loc.consumes,
   fun _ => rfl, fun _ => rfl, fun _ => rfl, fun _ => rfl⟩
instance : LawfulBody SupplementalEmissionPdu :=
  ⟨fun x _ => SupplementalEmissionPdu.writes x, SupplementalEmissionPdu.ifOk, SupplementalEmissionPdu.len, SupplementalEmissionPdu.appends, fun x _ => SupplementalEmissionPdu.reads x, SupplementalEmissionPdu.split, SupplementalEmissionPdu.loc.consumes,
   fun _ => rfl, fun _ => rfl, fun _ => rfl, fun _ => rfl⟩
instance : LawfulBody EntityStatePdu :=
  ⟨fun x _ => EntityStatePdu.writes x, EntityStatePdu.ifOk, EntityStatePdu.len, EntityStatePdu.appends, fun _ h => h.elim, EntityStatePdu.split, EntityStatePdu.consumes,
   fun _ => rfl, fun _ => rfl, fun _ => rfl, fun _ => rfl⟩
instance : LawfulBody CollisionPdu :=
  ⟨fun x _ => CollisionPdu.writes x, CollisionPdu.ifOk, CollisionPdu.len, CollisionPdu.appends, fun x _ => CollisionPdu.reads x, CollisionPdu.split, CollisionPdu.loc.consumes,
   fun _ => rfl, fun _ => rfl, fun _ => rfl, fun _ => rfl⟩
instance : LawfulBody CollisionElasticPdu :=
  ⟨fun x _ => CollisionElasticPdu.writes x, CollisionElasticPdu.ifOk, CollisionElasticPdu.len, CollisionElasticPdu.appends, fun x _ => CollisionElasticPdu.reads x, CollisionElasticPdu.split, CollisionElasticPdu.loc.consumes,
   fun _ => rfl, fun _ => rfl, fun _ => rfl, fun _ => rfl⟩
instance : LawfulBody EntityStateUpdatePdu :=
  ⟨fun x _ => EntityStateUpdatePdu.writes x, EntityStateUpdatePdu.ifOk, EntityStateUpdatePdu.len, EntityStateUpdatePdu.appends, fun x _ => EntityStateUpdatePdu.reads x, EntityStateUpdatePdu.split, EntityStateUpdatePdu.loc.consumes,
   fun _ => rfl, fun _ => rfl, fun _ => rfl, fun _ => rfl⟩
instance : LawfulBody AttributePdu :=
  ⟨fun x _ => AttributePdu.writes x, AttributePdu.ifOk, AttributePdu.len, AttributePdu.appends, fun x _ => AttributePdu.reads x, AttributePdu.split, AttributePdu.loc.consumes,
   fun _ => rfl, fun _ => rfl, fun _ => rfl, fun _ => rfl⟩
instance : LawfulBody AggregateStatePdu :=
  ⟨fun x _ => AggregateStatePdu.writes x, AggregateStatePdu.ifOk, AggregateStatePdu.len, AggregateStatePdu.appends, fun x h => AggregateStatePdu.reads x h, AggregateStatePdu.split, AggregateStatePdu.loc.consumes,
   fun _ => rfl, fun _ => rfl, fun _ => rfl, fun _ => rfl⟩
instance : LawfulBody IsGroupOfPdu :=
  ⟨fun x _ => IsGroupOfPdu.writes x, IsGroupOfPdu.ifOk, IsGroupOfPdu.len, IsGroupOfPdu.appends, fun x _ => IsGroupOfPdu.reads x, IsGroupOfPdu.split, IsGroupOfPdu.loc.consumes,
   fun _ => rfl, fun _ => rfl, fun _ => rfl, fun _ => rfl⟩
instance : LawfulBody TransferOwnershipPdu :=
  ⟨fun x h => TransferOwnershipPdu.writes x h, TransferOwnershipPdu.ifOk, TransferOwnershipPdu.len, TransferOwnershipPdu.appends, fun x h => TransferOwnershipPdu.reads x h, TransferOwnershipPdu.split, TransferOwnershipPdu.loc.consumes,
   fun _ => rfl, fun _ => rfl, fun _ => rfl, fun _ => rfl⟩
instance : LawfulBody IsPartOfPdu :=
  ⟨fun x _ => IsPartOfPdu.writes x, IsPartOfPdu.ifOk, IsPartOfPdu.len, IsPartOfPdu.appends, fun x _ => IsPartOfPdu.reads x, IsPartOfPdu.split, IsPartOfPdu.loc.consumes,
   fun _ => rfl, fun _ => rfl, fun _ => rfl, fun _ => rfl⟩
instance : LawfulBody InformationOperationsReportPdu :=
  ⟨fun x _ => InformationOperationsReportPdu.writes x, InformationOperationsReportPdu.ifOk, InformationOperationsReportPdu.len, InformationOperationsReportPdu.appends, fun x h => InformationOperationsReportPdu.reads x h, InformationOperationsReportPdu.split, InformationOperationsReportPdu.loc.consumes,
   fun _ => rfl, fun _ => rfl, fun _ => rfl, fun _ => rfl⟩
instance : LawfulBody InformationOperationsActionPdu :=
  ⟨fun x _ => InformationOperationsActionPdu.writes x, InformationOperationsActionPdu.ifOk, InformationOperationsActionPdu.len, InformationOperationsActionPdu.appends, fun x h => InformationOperationsActionPdu.reads x h, InformationOperationsActionPdu.split, InformationOperationsActionPdu.loc.consumes,
   fun _ => rfl, fun _ => rfl, fun _ => rfl, fun _ => rfl⟩
instance : LawfulBody ServiceRequestPdu :=
  ⟨fun x _ => ServiceRequestPdu.writes x, ServiceRequestPdu.ifOk, ServiceRequestPdu.len, ServiceRequestPdu.appends, fun x _ => ServiceRequestPdu.reads x, ServiceRequestPdu.split, ServiceRequestPdu.loc.consumes,
   fun _ => rfl, fun _ => rfl, fun _ => rfl, fun _ => rfl⟩
instance : LawfulBody ResupplyOfferPdu :=
  ⟨fun x _ => ResupplyOfferPdu.writes x, ResupplyOfferPdu.ifOk, ResupplyOfferPdu.len, ResupplyOfferPdu.appends, fun x _ => ResupplyOfferPdu.reads x, ResupplyOfferPdu.split, ResupplyOfferPdu.loc.consumes,
   fun _ => rfl, fun _ => rfl, fun _ => rfl, fun _ => rfl⟩
instance : LawfulBody ResupplyReceivedPdu :=
  ⟨fun x _ => ResupplyReceivedPdu.writes x, ResupplyReceivedPdu.ifOk, ResupplyReceivedPdu.len, ResupplyReceivedPdu.appends, fun x _ => ResupplyReceivedPdu.reads x, ResupplyReceivedPdu.split, ResupplyReceivedPdu.loc.consumes,
   fun _ => rfl, fun _ => rfl, fun _ => rfl, fun _ => rfl⟩
instance : LawfulBody ResupplyCancelPdu :=
  ⟨fun x _ => ResupplyCancelPdu.writes x, ResupplyCancelPdu.ifOk, ResupplyCancelPdu.len, ResupplyCancelPdu.appends, fun x _ => ResupplyCancelPdu.reads x, ResupplyCancelPdu.split, ResupplyCancelPdu.loc.consumes,
   fun _ => rfl, fun _ => rfl, fun _ => rfl, fun _ => rfl⟩
instance : LawfulBody RepairCompletePdu :=
  ⟨fun x _ => RepairCompletePdu.writes x, RepairCompletePdu.ifOk, RepairCompletePdu.len, RepairCompletePdu.appends, fun x _ => RepairCompletePdu.reads x, RepairCompletePdu.split, RepairCompletePdu.loc.consumes,
   fun _ => rfl, fun _ => rfl, fun _ => rfl, fun _ => rfl⟩
instance : LawfulBody RepairResponsePdu :=
  ⟨fun x _ => RepairResponsePdu.writes x, RepairResponsePdu.ifOk, RepairResponsePdu.len, RepairResponsePdu.appends, fun x _ => RepairResponsePdu.reads x, RepairResponsePdu.split, RepairResponsePdu.loc.consumes,
   fun _ => rfl, fun _ => rfl, fun _ => rfl, fun _ => rfl⟩
instance : LawfulBody MinefieldStatePdu :=
  ⟨fun x _ => MinefieldStatePdu.writes x, MinefieldStatePdu.ifOk, MinefieldStatePdu.len, MinefieldStatePdu.appends, fun x _ => MinefieldStatePdu.reads x, MinefieldStatePdu.split, MinefieldStatePdu.loc.consumes,
   fun _ => rfl, fun _ => rfl, fun _ => rfl, fun _ => rfl⟩
instance : LawfulBody MinefieldQueryPdu :=
  ⟨fun x _ => MinefieldQueryPdu.writes x, MinefieldQueryPdu.ifOk, MinefieldQueryPdu.len, MinefieldQueryPdu.appends, fun x _ => MinefieldQueryPdu.reads x, MinefieldQueryPdu.split, MinefieldQueryPdu.loc.consumes,
   fun _ => rfl, fun _ => rfl, fun _ => rfl, fun _ => rfl⟩
instance : LawfulBody MinefieldDataPdu :=
  ⟨fun x _ => MinefieldDataPdu.writes x, MinefieldDataPdu.ifOk, MinefieldDataPdu.len, MinefieldDataPdu.appends, fun x _ => MinefieldDataPdu.reads x, MinefieldDataPdu.split, MinefieldDataPdu.loc.consumes,
   fun _ => rfl, fun _ => rfl, fun _ => rfl, fun _ => rfl⟩
instance : LawfulBody MinefieldResponseNackPdu :=
  ⟨fun x _ => MinefieldResponseNackPdu.writes x, MinefieldResponseNackPdu.ifOk, MinefieldResponseNackPdu.len, MinefieldResponseNackPdu.appends, fun x _ => MinefieldResponseNackPdu.reads x, MinefieldResponseNackPdu.split, MinefieldResponseNackPdu.loc.consumes,
   fun _ => rfl, fun _ => rfl, fun _ => rfl, fun _ => rfl⟩
instance : LawfulBody TransmitterPdu :=
  ⟨fun x _ => TransmitterPdu.writes x, TransmitterPdu.ifOk, TransmitterPdu.len, TransmitterPdu.appends, fun x h => TransmitterPdu.reads x h, TransmitterPdu.split, TransmitterPdu.loc.consumes,
   fun _ => rfl, fun _ => rfl, fun _ => rfl, fun _ => rfl⟩
instance : LawfulBody SignalPdu :=
  ⟨fun x _ => SignalPdu.writes x, SignalPdu.ifOk, SignalPdu.len, SignalPdu.appends, fun x _ => SignalPdu.reads x, SignalPdu.split, SignalPdu.loc.consumes,
   fun _ => rfl, fun _ => rfl, fun _ => rfl, fun _ => rfl⟩
instance : LawfulBody ReceiverPdu :=
  ⟨fun x _ => ReceiverPdu.writes x, ReceiverPdu.ifOk, ReceiverPdu.len, ReceiverPdu.appends, fun x _ => ReceiverPdu.reads x, ReceiverPdu.split, ReceiverPdu.loc.consumes,
   fun _ => rfl, fun _ => rfl, fun _ => rfl, fun _ => rfl⟩
instance : LawfulBody IntercomSignalPdu :=
  ⟨fun x _ => IntercomSignalPdu.writes x, IntercomSignalPdu.ifOk, IntercomSignalPdu.len, IntercomSignalPdu.appends, fun x _ => IntercomSignalPdu.reads x, IntercomSignalPdu.split, IntercomSignalPdu.loc.consumes,
   fun _ => rfl, fun _ => rfl, fun _ => rfl, fun _ => rfl⟩
instance : LawfulBody IntercomControlPdu :=
  ⟨fun x _ => IntercomControlPdu.writes x, IntercomControlPdu.ifOk, IntercomControlPdu.len, IntercomControlPdu.appends, fun x _ => IntercomControlPdu.reads x, IntercomControlPdu.split, IntercomControlPdu.loc.consumes,
   fun _ => rfl, fun _ => rfl, fun _ => rfl, fun _ => rfl⟩
instance : LawfulBody CreateEntityPdu :=
  ⟨fun x _ => CreateEntityPdu.writes x, CreateEntityPdu.ifOk, CreateEntityPdu.len, CreateEntityPdu.appends, fun x _ => CreateEntityPdu.reads x, CreateEntityPdu.split, CreateEntityPdu.loc.consumes,
   fun _ => rfl, fun _ => rfl, fun _ => rfl, fun _ => rfl⟩
instance : LawfulBody RemoveEntityPdu :=
  ⟨fun x _ => RemoveEntityPdu.writes x, RemoveEntityPdu.ifOk, RemoveEntityPdu.len, RemoveEntityPdu.appends, fun x _ => RemoveEntityPdu.reads x, RemoveEntityPdu.split, RemoveEntityPdu.loc.consumes,
   fun _ => rfl, fun _ => rfl, fun _ => rfl, fun _ => rfl⟩
instance : LawfulBody StartResumePdu :=
  ⟨fun x _ => StartResumePdu.writes x, StartResumePdu.ifOk, StartResumePdu.len, StartResumePdu.appends, fun x _ => StartResumePdu.reads x, StartResumePdu.split, StartResumePdu.loc.consumes,
   fun _ => rfl, fun _ => rfl, fun _ => rfl, fun _ => rfl⟩
instance : LawfulBody StopFreezePdu :=
  ⟨fun x _ => StopFreezePdu.writes x, StopFreezePdu.ifOk, StopFreezePdu.len, StopFreezePdu.appends, fun x h => StopFreezePdu.reads x h, StopFreezePdu.split, StopFreezePdu.loc.consumes,
   fun _ => rfl, fun _ => rfl, fun _ => rfl, fun _ => rfl⟩
instance : LawfulBody AcknowledgePdu :=
  ⟨fun x _ => AcknowledgePdu.writes x, AcknowledgePdu.ifOk, AcknowledgePdu.len, AcknowledgePdu.appends, fun x _ => AcknowledgePdu.reads x, AcknowledgePdu.split, AcknowledgePdu.loc.consumes,
   fun _ => rfl, fun _ => rfl, fun _ => rfl, fun _ => rfl⟩
instance : LawfulBody ActionRequestPdu :=
  ⟨fun x _ => ActionRequestPdu.writes x, ActionRequestPdu.ifOk, ActionRequestPdu.len, ActionRequestPdu.appends, fun x _ => ActionRequestPdu.reads x, ActionRequestPdu.split, ActionRequestPdu.loc.consumes,
   fun _ => rfl, fun _ => rfl, fun _ => rfl, fun _ => rfl⟩
instance : LawfulBody ActionResponsePdu :=
  ⟨fun x _ => ActionResponsePdu.writes x, ActionResponsePdu.ifOk, ActionResponsePdu.len, ActionResponsePdu.appends, fun x _ => ActionResponsePdu.reads x, ActionResponsePdu.split, ActionResponsePdu.loc.consumes,
   fun _ => rfl, fun _ => rfl, fun _ => rfl, fun _ => rfl⟩
instance : LawfulBody DataQueryPdu :=
  ⟨fun x _ => DataQueryPdu.writes x, DataQueryPdu.ifOk, DataQueryPdu.len, DataQueryPdu.appends, fun x _ => DataQueryPdu.reads x, DataQueryPdu.split, DataQueryPdu.loc.consumes,
   fun _ => rfl, fun _ => rfl, fun _ => rfl, fun _ => rfl⟩
instance : LawfulBody SetDataPdu :=
  ⟨fun x _ => SetDataPdu.writes x, SetDataPdu.ifOk, SetDataPdu.len, SetDataPdu.appends, fun x _ => SetDataPdu.reads x, SetDataPdu.split, SetDataPdu.loc.consumes,
   fun _ => rfl, fun _ => rfl, fun _ => rfl, fun _ => rfl⟩
instance : LawfulBody DataPdu :=
  ⟨fun x _ => DataPdu.writes x, DataPdu.ifOk, DataPdu.len, DataPdu.appends, fun x _ => DataPdu.reads x, DataPdu.split, DataPdu.loc.consumes,
   fun _ => rfl, fun _ => rfl, fun _ => rfl, fun _ => rfl⟩
instance : LawfulBody EventReportPdu :=
  ⟨fun x _ => EventReportPdu.writes x, EventReportPdu.ifOk, EventReportPdu.len, EventReportPdu.appends, fun x _ => EventReportPdu.reads x, EventReportPdu.split, EventReportPdu.loc.consumes,
   fun _ => rfl, fun _ => rfl, fun _ => rfl, fun _ => rfl⟩
instance : LawfulBody CommentPdu :=
  ⟨fun x _ => CommentPdu.writes x, CommentPdu.ifOk, CommentPdu.len, CommentPdu.appends, fun x _ => CommentPdu.reads x, CommentPdu.split, CommentPdu.loc.consumes,
   fun _ => rfl, fun _ => rfl, fun _ => rfl, fun _ => rfl⟩
instance : LawfulBody CreateEntityReliablePdu :=
  ⟨fun x _ => CreateEntityReliablePdu.writes x, CreateEntityReliablePdu.ifOk, CreateEntityReliablePdu.len, CreateEntityReliablePdu.appends, fun x _ => CreateEntityReliablePdu.reads x, CreateEntityReliablePdu.split, CreateEntityReliablePdu.loc.consumes,
   fun _ => rfl, fun _ => rfl, fun _ => rfl, fun _ => rfl⟩
instance : LawfulBody RemoveEntityReliablePdu :=
  ⟨fun x _ => RemoveEntityReliablePdu.writes x, RemoveEntityReliablePdu.ifOk, RemoveEntityReliablePdu.len, RemoveEntityReliablePdu.appends, fun x _ => RemoveEntityReliablePdu.reads x, RemoveEntityReliablePdu.split, RemoveEntityReliablePdu.loc.consumes,
   fun _ => rfl, fun _ => rfl, fun _ => rfl, fun _ => rfl⟩
instance : LawfulBody StartResumeReliablePdu :=
  ⟨fun x _ => StartResumeReliablePdu.writes x, StartResumeReliablePdu.ifOk, StartResumeReliablePdu.len, StartResumeReliablePdu.appends, fun x _ => StartResumeReliablePdu.reads x, StartResumeReliablePdu.split, StartResumeReliablePdu.loc.consumes,
   fun _ => rfl, fun _ => rfl, fun _ => rfl, fun _ => rfl⟩
instance : LawfulBody StopFreezeReliablePdu :=
  ⟨fun x _ => StopFreezeReliablePdu.writes x, StopFreezeReliablePdu.ifOk, StopFreezeReliablePdu.len, StopFreezeReliablePdu.appends, fun x h => StopFreezeReliablePdu.reads x h, StopFreezeReliablePdu.split, StopFreezeReliablePdu.loc.consumes,
   fun _ => rfl, fun _ => rfl, fun _ => rfl, fun _ => rfl⟩
instance : LawfulBody AcknowledgeReliablePdu :=
  ⟨fun x _ => AcknowledgeReliablePdu.writes x, AcknowledgeReliablePdu.ifOk, AcknowledgeReliablePdu.len, AcknowledgeReliablePdu.appends, fun x _ => AcknowledgeReliablePdu.reads x, AcknowledgeReliablePdu.split, AcknowledgeReliablePdu.loc.consumes,
   fun _ => rfl, fun _ => rfl, fun _ => rfl, fun _ => rfl⟩
instance : LawfulBody ActionRequestReliablePdu :=
  ⟨fun x _ => ActionRequestReliablePdu.writes x, ActionRequestReliablePdu.ifOk, ActionRequestReliablePdu.len, ActionRequestReliablePdu.appends, fun x _ => ActionRequestReliablePdu.reads x, ActionRequestReliablePdu.split, ActionRequestReliablePdu.loc.consumes,
   fun _ => rfl, fun _ => rfl, fun _ => rfl, fun _ => rfl⟩
instance : LawfulBody ActionResponseReliablePdu :=
  ⟨fun x _ => ActionResponseReliablePdu.writes x, ActionResponseReliablePdu.ifOk, ActionResponseReliablePdu.len, ActionResponseReliablePdu.appends, fun x _ => ActionResponseReliablePdu.reads x, ActionResponseReliablePdu.split, ActionResponseReliablePdu.loc.consumes,
   fun _ => rfl, fun _ => rfl, fun _ => rfl, fun _ => rfl⟩
instance : LawfulBody DataQueryReliablePdu :=
  ⟨fun x _ => DataQueryReliablePdu.writes x, DataQueryReliablePdu.ifOk, DataQueryReliablePdu.len, DataQueryReliablePdu.appends, fun x _ => DataQueryReliablePdu.reads x, DataQueryReliablePdu.split, DataQueryReliablePdu.loc.consumes,
   fun _ => rfl, fun _ => rfl, fun _ => rfl, fun _ => rfl⟩
instance : LawfulBody SetDataReliablePdu :=
  ⟨fun x _ => SetDataReliablePdu.writes x, SetDataReliablePdu.ifOk, SetDataReliablePdu.len, SetDataReliablePdu.appends, fun x _ => SetDataReliablePdu.reads x, SetDataReliablePdu.split, SetDataReliablePdu.loc.consumes,
   fun _ => rfl, fun _ => rfl, fun _ => rfl, fun _ => rfl⟩
instance : LawfulBody DataReliablePdu :=
  ⟨fun x _ => DataReliablePdu.writes x, DataReliablePdu.ifOk, DataReliablePdu.len, DataReliablePdu.appends, fun x _ => DataReliablePdu.reads x, DataReliablePdu.split, DataReliablePdu.loc.consumes,
   fun _ => rfl, fun _ => rfl, fun _ => rfl, fun _ => rfl⟩
instance : LawfulBody EventReportReliablePdu :=
  ⟨fun x _ => EventReportReliablePdu.writes x, EventReportReliablePdu.ifOk, EventReportReliablePdu.len, EventReportReliablePdu.appends, fun x _ => EventReportReliablePdu.reads x, EventReportReliablePdu.split, EventReportReliablePdu.loc.consumes,
   fun _ => rfl, fun _ => rfl, fun _ => rfl, fun _ => rfl⟩
instance : LawfulBody CommentReliablePdu :=
  ⟨fun x _ => CommentReliablePdu.writes x, CommentReliablePdu.ifOk, CommentReliablePdu.len, CommentReliablePdu.appends, fun x _ => CommentReliablePdu.reads x, CommentReliablePdu.split, CommentReliablePdu.loc.consumes,
   fun _ => rfl, fun _ => rfl, fun _ => rfl, fun _ => rfl⟩
instance : LawfulBody RecordQueryReliablePdu :=
  ⟨fun x _ => RecordQueryReliablePdu.writes x, RecordQueryReliablePdu.ifOk, RecordQueryReliablePdu.len, RecordQueryReliablePdu.appends, fun x _ => RecordQueryReliablePdu.reads x, RecordQueryReliablePdu.split, RecordQueryReliablePdu.loc.consumes,
   fun _ => rfl, fun _ => rfl, fun _ => rfl, fun _ => rfl⟩
instance : LawfulBody SetRecordReliablePdu :=
  ⟨fun x h => SetRecordReliablePdu.writes x h, SetRecordReliablePdu.ifOk, SetRecordReliablePdu.len, SetRecordReliablePdu.appends, fun x h => SetRecordReliablePdu.reads x h, SetRecordReliablePdu.split, SetRecordReliablePdu.loc.consumes,
   fun _ => rfl, fun _ => rfl, fun _ => rfl, fun _ => rfl⟩
instance : LawfulBody EnvironmentalProcessPdu :=
  ⟨fun x _ => EnvironmentalProcessPdu.writes x, EnvironmentalProcessPdu.ifOk, EnvironmentalProcessPdu.len, EnvironmentalProcessPdu.appends, fun x _ => EnvironmentalProcessPdu.reads x, EnvironmentalProcessPdu.split, EnvironmentalProcessPdu.loc.consumes,
   fun _ => rfl, fun _ => rfl, fun _ => rfl, fun _ => rfl⟩
instance : LawfulBody GriddedDataPdu :=
  ⟨fun x _ => GriddedDataPdu.writes x, GriddedDataPdu.ifOk, GriddedDataPdu.len, GriddedDataPdu.appends, fun x _ => GriddedDataPdu.reads x, GriddedDataPdu.split, GriddedDataPdu.loc.consumes,
   fun _ => rfl, fun _ => rfl, fun _ => rfl, fun _ => rfl⟩
instance : LawfulBody PointObjectStatePdu :=
  ⟨fun x _ => PointObjectStatePdu.writes x, PointObjectStatePdu.ifOk, PointObjectStatePdu.len, PointObjectStatePdu.appends, fun x _ => PointObjectStatePdu.reads x, PointObjectStatePdu.split, PointObjectStatePdu.loc.consumes,
   fun _ => rfl, fun _ => rfl, fun _ => rfl, fun _ => rfl⟩
instance : LawfulBody LinearObjectStatePdu :=
  ⟨fun x _ => LinearObjectStatePdu.writes x, LinearObjectStatePdu.ifOk, LinearObjectStatePdu.len, LinearObjectStatePdu.appends, fun x _ => LinearObjectStatePdu.reads x, LinearObjectStatePdu.split, LinearObjectStatePdu.loc.consumes,
   fun _ => rfl, fun _ => rfl, fun _ => rfl, fun _ => rfl⟩
instance : LawfulBody ArealObjectStatePdu :=
  ⟨fun x _ => ArealObjectStatePdu.writes x, ArealObjectStatePdu.ifOk, ArealObjectStatePdu.len, ArealObjectStatePdu.appends, fun x h => ArealObjectStatePdu.reads x h, ArealObjectStatePdu.split, ArealObjectStatePdu.loc.consumes,
   fun _ => rfl, fun _ => rfl, fun _ => rfl, fun _ => rfl⟩
instance : LawfulBody FirePdu :=
  ⟨fun x _ => FirePdu.writes x, FirePdu.ifOk, FirePdu.len, FirePdu.appends, fun x _ => FirePdu.reads x, FirePdu.split, FirePdu.loc.consumes,
   fun _ => rfl, fun _ => rfl, fun _ => rfl, fun _ => rfl⟩
instance : LawfulBody DetonationPdu :=
  ⟨fun x _ => DetonationPdu.writes x, DetonationPdu.ifOk, DetonationPdu.len, DetonationPdu.appends, fun x _ => DetonationPdu.reads x, DetonationPdu.split, DetonationPdu.loc.consumes,
   fun _ => rfl, fun _ => rfl, fun _ => rfl, fun _ => rfl⟩
instance : LawfulBody DirectedEnergyFirePdu :=
  ⟨fun x _ => DirectedEnergyFirePdu.writes x, DirectedEnergyFirePdu.ifOk, DirectedEnergyFirePdu.len, DirectedEnergyFirePdu.appends, fun x _ => DirectedEnergyFirePdu.reads x, DirectedEnergyFirePdu.split, DirectedEnergyFirePdu.loc.consumes,
   fun _ => rfl, fun _ => rfl, fun _ => rfl, fun _ => rfl⟩
instance : LawfulBody EntityDamageStatusPdu :=
  ⟨fun x _ => EntityDamageStatusPdu.writes x, EntityDamageStatusPdu.ifOk, EntityDamageStatusPdu.len, EntityDamageStatusPdu.appends, fun x _ => EntityDamageStatusPdu.reads x, EntityDamageStatusPdu.split, EntityDamageStatusPdu.loc.consumes,
   fun _ => rfl, fun _ => rfl, fun _ => rfl, fun _ => rfl⟩

instance PduKind.instLawful : (k : PduKind) → LawfulBody k.Body
  | .ElectromagneticEmissions => inferInstanceAs (LawfulBody ElectromagneticEmissionsPdu)
  | .Designator => inferInstanceAs (LawfulBody DesignatorPdu)
  | .UnderwaterAcoustic => inferInstanceAs (LawfulBody UnderwaterAcousticPdu)
  | .IFF => inferInstanceAs (LawfulBody IFFPdu)
  | .SupplementalEmission => inferInstanceAs (LawfulBody SupplementalEmissionPdu)
  | .EntityState => inferInstanceAs (LawfulBody EntityStatePdu)
  | .Collision => inferInstanceAs (LawfulBody CollisionPdu)
  | .CollisionElastic => inferInstanceAs (LawfulBody CollisionElasticPdu)
  | .EntityStateUpdate => inferInstanceAs (LawfulBody EntityStateUpdatePdu)
  | .Attribute => inferInstanceAs (LawfulBody AttributePdu)
  | .AggregateState => inferInstanceAs (LawfulBody AggregateStatePdu)
  | .IsGroupOf => inferInstanceAs (LawfulBody IsGroupOfPdu)
  | .TransferOwnership => inferInstanceAs (LawfulBody TransferOwnershipPdu)
  | .IsPartOf => inferInstanceAs (LawfulBody IsPartOfPdu)
  | .InformationOperationsReport => inferInstanceAs (LawfulBody InformationOperationsReportPdu)
  | .InformationOperationsAction => inferInstanceAs (LawfulBody InformationOperationsActionPdu)
  | .ServiceRequest => inferInstanceAs (LawfulBody ServiceRequestPdu)
  | .ResupplyOffer => inferInstanceAs (LawfulBody ResupplyOfferPdu)
  | .ResupplyReceived => inferInstanceAs (LawfulBody ResupplyReceivedPdu)
  | .ResupplyCancel => inferInstanceAs (LawfulBody ResupplyCancelPdu)
  | .RepairComplete => inferInstanceAs (LawfulBody RepairCompletePdu)
  | .RepairResponse => inferInstanceAs (LawfulBody RepairResponsePdu)
  | .MinefieldState => inferInstanceAs (LawfulBody MinefieldStatePdu)
  | .MinefieldQuery => inferInstanceAs (LawfulBody MinefieldQueryPdu)
  | .MinefieldData => inferInstanceAs (LawfulBody MinefieldDataPdu)
  | .MinefieldResponseNack => inferInstanceAs (LawfulBody MinefieldResponseNackPdu)
  | .Transmitter => inferInstanceAs (LawfulBody TransmitterPdu)
  | .Signal => inferInstanceAs (LawfulBody SignalPdu)
  | .Receiver => inferInstanceAs (LawfulBody ReceiverPdu)
  | .IntercomSignal => inferInstanceAs (LawfulBody IntercomSignalPdu)
  | .IntercomControl => inferInstanceAs (LawfulBody IntercomControlPdu)
  | .CreateEntity => inferInstanceAs (LawfulBody CreateEntityPdu)
  | .RemoveEntity => inferInstanceAs (LawfulBody RemoveEntityPdu)
  | .StartResume => inferInstanceAs (LawfulBody StartResumePdu)
  | .StopFreeze => inferInstanceAs (LawfulBody StopFreezePdu)
  | .Acknowledge => inferInstanceAs (LawfulBody AcknowledgePdu)
  | .ActionRequest => inferInstanceAs (LawfulBody ActionRequestPdu)
  | .ActionResponse => inferInstanceAs (LawfulBody ActionResponsePdu)
  | .DataQuery => inferInstanceAs (LawfulBody DataQueryPdu)
  | .SetData => inferInstanceAs (LawfulBody SetDataPdu)
  | .Data => inferInstanceAs (LawfulBody DataPdu)
  | .EventReport => inferInstanceAs (LawfulBody EventReportPdu)
  | .Comment => inferInstanceAs (LawfulBody CommentPdu)
  | .CreateEntityReliable => inferInstanceAs (LawfulBody CreateEntityReliablePdu)
  | .RemoveEntityReliable => inferInstanceAs (LawfulBody RemoveEntityReliablePdu)
  | .StartResumeReliable => inferInstanceAs (LawfulBody StartResumeReliablePdu)
  | .StopFreezeReliable => inferInstanceAs (LawfulBody StopFreezeReliablePdu)
  | .AcknowledgeReliable => inferInstanceAs (LawfulBody AcknowledgeReliablePdu)
  | .ActionRequestReliable => inferInstanceAs (LawfulBody ActionRequestReliablePdu)
  | .ActionResponseReliable => inferInstanceAs (LawfulBody ActionResponseReliablePdu)
  | .DataQueryReliable => inferInstanceAs (LawfulBody DataQueryReliablePdu)
  | .SetDataReliable => inferInstanceAs (LawfulBody SetDataReliablePdu)
  | .DataReliable => inferInstanceAs (LawfulBody DataReliablePdu)
  | .EventReportReliable => inferInstanceAs (LawfulBody EventReportReliablePdu)
  | .CommentReliable => inferInstanceAs (LawfulBody CommentReliablePdu)
  | .RecordQueryReliable => inferInstanceAs (LawfulBody RecordQueryReliablePdu)
  | .SetRecordReliable => inferInstanceAs (LawfulBody SetRecordReliablePdu)
  | .EnvironmentalProcess => inferInstanceAs (LawfulBody EnvironmentalProcessPdu)
  | .GriddedData => inferInstanceAs (LawfulBody GriddedDataPdu)
  | .PointObjectState => inferInstanceAs (LawfulBody PointObjectStatePdu)
  | .LinearObjectState => inferInstanceAs (LawfulBody LinearObjectStatePdu)
  | .ArealObjectState => inferInstanceAs (LawfulBody ArealObjectStatePdu)
  | .Fire => inferInstanceAs (LawfulBody FirePdu)
  | .Detonation => inferInstanceAs (LawfulBody DetonationPdu)
  | .DirectedEnergyFire => inferInstanceAs (LawfulBody DirectedEnergyFirePdu)
  | .EntityDamageStatus => inferInstanceAs (LawfulBody EntityDamageStatusPdu)

theorem PduKind.local : (k : PduKind) → k ≠ .EntityState → Local (PduBody.deserializeBody : Get k.Body)
  | .ElectromagneticEmissions, _ => ElectromagneticEmissionsPdu.loc
  | .Designator, _ => DesignatorPdu.loc
  | .UnderwaterAcoustic, _ => UnderwaterAcousticPdu.loc
  | .IFF, _ => IFFPdu.loc
  | .SupplementalEmission, _ => SupplementalEmissionPdu.loc
  | .EntityState, h => (h rfl).elim
  | .Collision, _ => CollisionPdu.loc
  | .CollisionElastic, _ => CollisionElasticPdu.loc
  | .EntityStateUpdate, _ => EntityStateUpdatePdu.loc
  | .Attribute, _ => AttributePdu.loc
  | .AggregateState, _ => AggregateStatePdu.loc
  | .IsGroupOf, _ => IsGroupOfPdu.loc
  | .TransferOwnership, _ => TransferOwnershipPdu.loc
  | .IsPartOf, _ => IsPartOfPdu.loc
  | .InformationOperationsReport, _ => InformationOperationsReportPdu.loc
  | .InformationOperationsAction, _ => InformationOperationsActionPdu.loc
  | .ServiceRequest, _ => ServiceRequestPdu.loc
  | .ResupplyOffer, _ => ResupplyOfferPdu.loc
  | .ResupplyReceived, _ => ResupplyReceivedPdu.loc
  | .ResupplyCancel, _ => ResupplyCancelPdu.loc
  | .RepairComplete, _ => RepairCompletePdu.loc
  | .RepairResponse, _ => RepairResponsePdu.loc
  | .MinefieldState, _ => MinefieldStatePdu.loc
  | .MinefieldQuery, _ => MinefieldQueryPdu.loc
  | .MinefieldData, _ => MinefieldDataPdu.loc
  | .MinefieldResponseNack, _ => MinefieldResponseNackPdu.loc
  | .Transmitter, _ => TransmitterPdu.loc
  | .Signal, _ => SignalPdu.loc
  | .Receiver, _ => ReceiverPdu.loc
  | .IntercomSignal, _ => IntercomSignalPdu.loc
  | .IntercomControl, _ => IntercomControlPdu.loc
  | .CreateEntity, _ => CreateEntityPdu.loc
  | .RemoveEntity, _ => RemoveEntityPdu.loc
  | .StartResume, _ => StartResumePdu.loc
  | .StopFreeze, _ => StopFreezePdu.loc
  | .Acknowledge, _ => AcknowledgePdu.loc
  | .ActionRequest, _ => ActionRequestPdu.loc
  | .ActionResponse, _ => ActionResponsePdu.loc
  | .DataQuery, _ => DataQueryPdu.loc
  | .SetData, _ => SetDataPdu.loc
  | .Data, _ => DataPdu.loc
  | .EventReport, _ => EventReportPdu.loc
  | .Comment, _ => CommentPdu.loc
  | .CreateEntityReliable, _ => CreateEntityReliablePdu.loc
  | .RemoveEntityReliable, _ => RemoveEntityReliablePdu.loc
  | .StartResumeReliable, _ => StartResumeReliablePdu.loc
  | .StopFreezeReliable, _ => StopFreezeReliablePdu.loc
  | .AcknowledgeReliable, _ => AcknowledgeReliablePdu.loc
  | .ActionRequestReliable, _ => ActionRequestReliablePdu.loc
  | .ActionResponseReliable, _ => ActionResponseReliablePdu.loc
  | .DataQueryReliable, _ => DataQueryReliablePdu.loc
  | .SetDataReliable, _ => SetDataReliablePdu.loc
  | .DataReliable, _ => DataReliablePdu.loc
  | .EventReportReliable, _ => EventReportReliablePdu.loc
  | .CommentReliable, _ => CommentReliablePdu.loc
  | .RecordQueryReliable, _ => RecordQueryReliablePdu.loc
  | .SetRecordReliable, _ => SetRecordReliablePdu.loc
  | .EnvironmentalProcess, _ => EnvironmentalProcessPdu.loc
  | .GriddedData, _ => GriddedDataPdu.loc
  | .PointObjectState, _ => PointObjectStatePdu.loc
  | .LinearObjectState, _ => LinearObjectStatePdu.loc
  | .ArealObjectState, _ => ArealObjectStatePdu.loc
  | .Fire, _ => FirePdu.loc
  | .Detonation, _ => DetonationPdu.loc
  | .DirectedEnergyFire, _ => DirectedEnergyFirePdu.loc
  | .EntityDamageStatus, _ => EntityDamageStatusPdu.loc

theorem PduKind.under : (k : PduKind) → k.hasRecordSets = false → OnlyUnderflow (PduBody.deserializeBody : Get k.Body)
  | .ElectromagneticEmissions, _ => ElectromagneticEmissionsPdu.under
  | .Designator, _ => DesignatorPdu.under
  | .UnderwaterAcoustic, _ => UnderwaterAcousticPdu.under
  | .IFF, _ => IFFPdu.under
  | .SupplementalEmission, _ => SupplementalEmissionPdu.under
  | .EntityState, _ => EntityStatePdu.under
  | .Collision, _ => CollisionPdu.under
  | .CollisionElastic, _ => CollisionElasticPdu.under
  | .EntityStateUpdate, _ => EntityStateUpdatePdu.under
  | .Attribute, _ => AttributePdu.under
  | .AggregateState, _ => AggregateStatePdu.under
  | .IsGroupOf, _ => IsGroupOfPdu.under
  | .TransferOwnership, h => by cases h
  | .IsPartOf, _ => IsPartOfPdu.under
  | .InformationOperationsReport, _ => InformationOperationsReportPdu.under
  | .InformationOperationsAction, _ => InformationOperationsActionPdu.under
  | .ServiceRequest, _ => ServiceRequestPdu.under
  | .ResupplyOffer, _ => ResupplyOfferPdu.under
  | .ResupplyReceived, _ => ResupplyReceivedPdu.under
  | .ResupplyCancel, _ => ResupplyCancelPdu.under
  | .RepairComplete, _ => RepairCompletePdu.under
  | .RepairResponse, _ => RepairResponsePdu.under
  | .MinefieldState, _ => MinefieldStatePdu.under
  | .MinefieldQuery, _ => MinefieldQueryPdu.under
  | .MinefieldData, _ => MinefieldDataPdu.under
  | .MinefieldResponseNack, _ => MinefieldResponseNackPdu.under
  | .Transmitter, _ => TransmitterPdu.under
  | .Signal, _ => SignalPdu.under
  | .Receiver, _ => ReceiverPdu.under
  | .IntercomSignal, _ => IntercomSignalPdu.under
  | .IntercomControl, _ => IntercomControlPdu.under
  | .CreateEntity, _ => CreateEntityPdu.under
  | .RemoveEntity, _ => RemoveEntityPdu.under
  | .StartResume, _ => StartResumePdu.under
  | .StopFreeze, _ => StopFreezePdu.under
  | .Acknowledge, _ => AcknowledgePdu.under
  | .ActionRequest, _ => ActionRequestPdu.under
  | .ActionResponse, _ => ActionResponsePdu.under
  | .DataQuery, _ => DataQueryPdu.under
  | .SetData, _ => SetDataPdu.under
  | .Data, _ => DataPdu.under
  | .EventReport, _ => EventReportPdu.under
  | .Comment, _ => CommentPdu.under
  | .CreateEntityReliable, _ => CreateEntityReliablePdu.under
  | .RemoveEntityReliable, _ => RemoveEntityReliablePdu.under
  | .StartResumeReliable, _ => StartResumeReliablePdu.under
  | .StopFreezeReliable, _ => StopFreezeReliablePdu.under
  | .AcknowledgeReliable, _ => AcknowledgeReliablePdu.under
  | .ActionRequestReliable, _ => ActionRequestReliablePdu.under
  | .ActionResponseReliable, _ => ActionResponseReliablePdu.under
  | .DataQueryReliable, _ => DataQueryReliablePdu.under
  | .SetDataReliable, _ => SetDataReliablePdu.under
  | .DataReliable, _ => DataReliablePdu.under
  | .EventReportReliable, _ => EventReportReliablePdu.under
  | .CommentReliable, _ => CommentReliablePdu.under
  | .RecordQueryReliable, _ => RecordQueryReliablePdu.under
  | .SetRecordReliable, h => by cases h
  | .EnvironmentalProcess, _ => EnvironmentalProcessPdu.under
  | .GriddedData, _ => GriddedDataPdu.under
  | .PointObjectState, _ => PointObjectStatePdu.under
  | .LinearObjectState, _ => LinearObjectStatePdu.under
  | .ArealObjectState, _ => ArealObjectStatePdu.under
  | .Fire, _ => FirePdu.under
  | .Detonation, _ => DetonationPdu.under
  | .DirectedEnergyFire, _ => DirectedEnergyFirePdu.under
  | .EntityDamageStatus, _ => EntityDamageStatusPdu.under

theorem PduKind.fixed : (k : PduKind) → k.variableDecoder = false → k ≠ .EntityState →
    Fixed (PduBody.deserializeBody : Get k.Body) (k.ieeeOctets - 12)
  | .ElectromagneticEmissions, _, _ => ElectromagneticEmissionsPdu.fixed
  | .Designator, _, _ => DesignatorPdu.fixed
  | .UnderwaterAcoustic, _, _ => UnderwaterAcousticPdu.fixed
  | .IFF, _, _ => IFFPdu.fixed
  | .SupplementalEmission, _, _ => SupplementalEmissionPdu.fixed
  | .EntityState, _, h => (h rfl).elim
  | .Collision, _, _ => CollisionPdu.fixed
  | .CollisionElastic, _, _ => CollisionElasticPdu.fixed
  | .EntityStateUpdate, _, _ => EntityStateUpdatePdu.fixed
  | .Attribute, _, _ => AttributePdu.fixed
  | .AggregateState, _, _ => AggregateStatePdu.fixed
  | .IsGroupOf, _, _ => IsGroupOfPdu.fixed
  | .TransferOwnership, h, _ => by cases h
  | .IsPartOf, _, _ => IsPartOfPdu.fixed
  | .InformationOperationsReport, h, _ => by cases h
  | .InformationOperationsAction, h, _ => by cases h
  | .ServiceRequest, _, _ => ServiceRequestPdu.fixed
  | .ResupplyOffer, _, _ => ResupplyOfferPdu.fixed
  | .ResupplyReceived, _, _ => ResupplyReceivedPdu.fixed
  | .ResupplyCancel, _, _ => ResupplyCancelPdu.fixed
  | .RepairComplete, _, _ => RepairCompletePdu.fixed
  | .RepairResponse, _, _ => RepairResponsePdu.fixed
  | .MinefieldState, _, _ => MinefieldStatePdu.fixed
  | .MinefieldQuery, _, _ => MinefieldQueryPdu.fixed
  | .MinefieldData, _, _ => MinefieldDataPdu.fixed
  | .MinefieldResponseNack, _, _ => MinefieldResponseNackPdu.fixed
  | .Transmitter, h, _ => by cases h
  | .Signal, _, _ => SignalPdu.fixed
  | .Receiver, _, _ => ReceiverPdu.fixed
  | .IntercomSignal, _, _ => IntercomSignalPdu.fixed
  | .IntercomControl, _, _ => IntercomControlPdu.fixed
  | .CreateEntity, _, _ => CreateEntityPdu.fixed
  | .RemoveEntity, _, _ => RemoveEntityPdu.fixed
  | .StartResume, _, _ => StartResumePdu.fixed
  | .StopFreeze, _, _ => StopFreezePdu.fixed
  | .Acknowledge, _, _ => AcknowledgePdu.fixed
  | .ActionRequest, _, _ => ActionRequestPdu.fixed
  | .ActionResponse, _, _ => ActionResponsePdu.fixed
  | .DataQuery, _, _ => DataQueryPdu.fixed
  | .SetData, _, _ => SetDataPdu.fixed
  | .Data, _, _ => DataPdu.fixed
  | .EventReport, _, _ => EventReportPdu.fixed
  | .Comment, _, _ => CommentPdu.fixed
  | .CreateEntityReliable, _, _ => CreateEntityReliablePdu.fixed
  | .RemoveEntityReliable, _, _ => RemoveEntityReliablePdu.fixed
  | .StartResumeReliable, _, _ => StartResumeReliablePdu.fixed
  | .StopFreezeReliable, _, _ => StopFreezeReliablePdu.fixed
  | .AcknowledgeReliable, _, _ => AcknowledgeReliablePdu.fixed
  | .ActionRequestReliable, _, _ => ActionRequestReliablePdu.fixed
  | .ActionResponseReliable, _, _ => ActionResponseReliablePdu.fixed
  | .DataQueryReliable, _, _ => DataQueryReliablePdu.fixed
  | .SetDataReliable, _, _ => SetDataReliablePdu.fixed
  | .DataReliable, _, _ => DataReliablePdu.fixed
  | .EventReportReliable, _, _ => EventReportReliablePdu.fixed
  | .CommentReliable, _, _ => CommentReliablePdu.fixed
  | .RecordQueryReliable, _, _ => RecordQueryReliablePdu.fixed
  | .SetRecordReliable, h, _ => by cases h
  | .EnvironmentalProcess, _, _ => EnvironmentalProcessPdu.fixed
  | .GriddedData, _, _ => GriddedDataPdu.fixed
  | .PointObjectState, _, _ => PointObjectStatePdu.fixed
  | .LinearObjectState, _, _ => LinearObjectStatePdu.fixed
  | .ArealObjectState, _, _ => ArealObjectStatePdu.fixed
  | .Fire, _, _ => FirePdu.fixed
  | .Detonation, _, _ => DetonationPdu.fixed
  | .DirectedEnergyFire, _, _ => DirectedEnergyFirePdu.fixed
  | .EntityDamageStatus, _, _ => EntityDamageStatusPdu.fixed

theorem PduKind.enc_exact : (k : PduKind) → k.exactLength = true → ∀ x : k.Body, encodable x ∧ surplus x = 0
  | .ElectromagneticEmissions, _ => fun _ => ⟨trivial, rfl⟩
  | .Designator, _ => fun _ => ⟨trivial, rfl⟩
  | .UnderwaterAcoustic, _ => fun _ => ⟨trivial, rfl⟩
  | .IFF, _ => fun _ => ⟨trivial, rfl⟩
  | .SupplementalEmission, _ => fun _ => ⟨trivial, rfl⟩
  | .EntityState, h => by cases h
  | .Collision, _ => fun _ => ⟨trivial, rfl⟩
  | .CollisionElastic, _ => fun _ => ⟨trivial, rfl⟩
  | .EntityStateUpdate, _ => fun _ => ⟨trivial, rfl⟩
  | .Attribute, _ => fun _ => ⟨trivial, rfl⟩
  | .AggregateState, h => by cases h
  | .IsGroupOf, _ => fun _ => ⟨trivial, rfl⟩
  | .TransferOwnership, h => by cases h
  | .IsPartOf, _ => fun _ => ⟨trivial, rfl⟩
  | .InformationOperationsReport, _ => fun _ => ⟨trivial, rfl⟩
  | .InformationOperationsAction, _ => fun _ => ⟨trivial, rfl⟩
  | .ServiceRequest, _ => fun _ => ⟨trivial, rfl⟩
  | .ResupplyOffer, _ => fun _ => ⟨trivial, rfl⟩
  | .ResupplyReceived, _ => fun _ => ⟨trivial, rfl⟩
  | .ResupplyCancel, _ => fun _ => ⟨trivial, rfl⟩
  | .RepairComplete, _ => fun _ => ⟨trivial, rfl⟩
  | .RepairResponse, _ => fun _ => ⟨trivial, rfl⟩
  | .MinefieldState, _ => fun _ => ⟨trivial, rfl⟩
  | .MinefieldQuery, _ => fun _ => ⟨trivial, rfl⟩
  | .MinefieldData, _ => fun _ => ⟨trivial, rfl⟩
  | .MinefieldResponseNack, _ => fun _ => ⟨trivial, rfl⟩
  | .Transmitter, _ => fun _ => ⟨trivial, rfl⟩
  | .Signal, _ => fun _ => ⟨trivial, rfl⟩
  | .Receiver, _ => fun _ => ⟨trivial, rfl⟩
  | .IntercomSignal, _ => fun _ => ⟨trivial, rfl⟩
  | .IntercomControl, _ => fun _ => ⟨trivial, rfl⟩
  | .CreateEntity, _ => fun _ => ⟨trivial, rfl⟩
  | .RemoveEntity, _ => fun _ => ⟨trivial, rfl⟩
  | .StartResume, _ => fun _ => ⟨trivial, rfl⟩
  | .StopFreeze, _ => fun _ => ⟨trivial, rfl⟩
  | .Acknowledge, _ => fun _ => ⟨trivial, rfl⟩
  | .ActionRequest, h => by cases h
  | .ActionResponse, h => by cases h
  | .DataQuery, h => by cases h
  | .SetData, h => by cases h
  | .Data, h => by cases h
  | .EventReport, h => by cases h
  | .Comment, h => by cases h
  | .CreateEntityReliable, _ => fun _ => ⟨trivial, rfl⟩
  | .RemoveEntityReliable, _ => fun _ => ⟨trivial, rfl⟩
  | .StartResumeReliable, _ => fun _ => ⟨trivial, rfl⟩
  | .StopFreezeReliable, _ => fun _ => ⟨trivial, rfl⟩
  | .AcknowledgeReliable, _ => fun _ => ⟨trivial, rfl⟩
  | .ActionRequestReliable, h => by cases h
  | .ActionResponseReliable, h => by cases h
  | .DataQueryReliable, _ => fun _ => ⟨trivial, rfl⟩
  | .SetDataReliable, h => by cases h
  | .DataReliable, h => by cases h
  | .EventReportReliable, h => by cases h
  | .CommentReliable, h => by cases h
  | .RecordQueryReliable, _ => fun _ => ⟨trivial, rfl⟩
  | .SetRecordReliable, h => by cases h
  | .EnvironmentalProcess, _ => fun _ => ⟨trivial, rfl⟩
  | .GriddedData, h => by cases h
  | .PointObjectState, _ => fun _ => ⟨trivial, rfl⟩
  | .LinearObjectState, _ => fun _ => ⟨trivial, rfl⟩
  | .ArealObjectState, _ => fun _ => ⟨trivial, rfl⟩
  | .Fire, _ => fun _ => ⟨trivial, rfl⟩
  | .Detonation, _ => fun _ => ⟨trivial, rfl⟩
  | .DirectedEnergyFire, _ => fun _ => ⟨trivial, rfl⟩
  | .EntityDamageStatus, _ => fun _ => ⟨trivial, rfl⟩

theorem PduKind.encodable : (k : PduKind) → k.hasRecordSets = false → ∀ x : k.Body, encodable x
  | .ElectromagneticEmissions, _ => fun _ => trivial
  | .Designator, _ => fun _ => trivial
  | .UnderwaterAcoustic, _ => fun _ => trivial
  | .IFF, _ => fun _ => trivial
  | .SupplementalEmission, _ => fun _ => trivial
  | .EntityState, _ => fun _ => trivial
  | .Collision, _ => fun _ => trivial
  | .CollisionElastic, _ => fun _ => trivial
  | .EntityStateUpdate, _ => fun _ => trivial
  | .Attribute, _ => fun _ => trivial
  | .AggregateState, _ => fun _ => trivial
  | .IsGroupOf, _ => fun _ => trivial
  | .TransferOwnership, h => by cases h
  | .IsPartOf, _ => fun _ => trivial
  | .InformationOperationsReport, _ => fun _ => trivial
  | .InformationOperationsAction, _ => fun _ => trivial
  | .ServiceRequest, _ => fun _ => trivial
  | .ResupplyOffer, _ => fun _ => trivial
  | .ResupplyReceived, _ => fun _ => trivial
  | .ResupplyCancel, _ => fun _ => trivial
  | .RepairComplete, _ => fun _ => trivial
  | .RepairResponse, _ => fun _ => trivial
  | .MinefieldState, _ => fun _ => trivial
  | .MinefieldQuery, _ => fun _ => trivial
  | .MinefieldData, _ => fun _ => trivial
  | .MinefieldResponseNack, _ => fun _ => trivial
  | .Transmitter, _ => fun _ => trivial
  | .Signal, _ => fun _ => trivial
  | .Receiver, _ => fun _ => trivial
  | .IntercomSignal, _ => fun _ => trivial
  | .IntercomControl, _ => fun _ => trivial
  | .CreateEntity, _ => fun _ => trivial
  | .RemoveEntity, _ => fun _ => trivial
  | .StartResume, _ => fun _ => trivial
  | .StopFreeze, _ => fun _ => trivial
  | .Acknowledge, _ => fun _ => trivial
  | .ActionRequest, _ => fun _ => trivial
  | .ActionResponse, _ => fun _ => trivial
  | .DataQuery, _ => fun _ => trivial
  | .SetData, _ => fun _ => trivial
  | .Data, _ => fun _ => trivial
  | .EventReport, _ => fun _ => trivial
  | .Comment, _ => fun _ => trivial
  | .CreateEntityReliable, _ => fun _ => trivial
  | .RemoveEntityReliable, _ => fun _ => trivial
  | .StartResumeReliable, _ => fun _ => trivial
  | .StopFreezeReliable, _ => fun _ => trivial
  | .AcknowledgeReliable, _ => fun _ => trivial
  | .ActionRequestReliable, _ => fun _ => trivial
  | .ActionResponseReliable, _ => fun _ => trivial
  | .DataQueryReliable, _ => fun _ => trivial
  | .SetDataReliable, _ => fun _ => trivial
  | .DataReliable, _ => fun _ => trivial
  | .EventReportReliable, _ => fun _ => trivial
  | .CommentReliable, _ => fun _ => trivial
  | .RecordQueryReliable, _ => fun _ => trivial
  | .SetRecordReliable, h => by cases h
  | .EnvironmentalProcess, _ => fun _ => trivial
  | .GriddedData, _ => fun _ => trivial
  | .PointObjectState, _ => fun _ => trivial
  | .LinearObjectState, _ => fun _ => trivial
  | .ArealObjectState, _ => fun _ => trivial
  | .Fire, _ => fun _ => trivial
  | .Detonation, _ => fun _ => trivial
  | .DirectedEnergyFire, _ => fun _ => trivial
  | .EntityDamageStatus, _ => fun _ => trivial

theorem PduKind.sent_id : (k : PduKind) → k.exactLength = true → k.zeroesFields = false → ∀ x : k.Body, sent x = x
  | .ElectromagneticEmissions, _, _ => fun _ => rfl
  | .Designator, _, _ => fun _ => rfl
  | .UnderwaterAcoustic, _, _ => fun _ => rfl
  | .IFF, _, _ => fun _ => rfl
  | .SupplementalEmission, _, _ => fun _ => rfl
  | .EntityState, h, _ => by cases h
  | .Collision, _, _ => fun _ => rfl
  | .CollisionElastic, _, _ => fun _ => rfl
  | .EntityStateUpdate, _, _ => fun _ => rfl
  | .Attribute, _, _ => fun _ => rfl
  | .AggregateState, h, _ => by cases h
  | .IsGroupOf, _, _ => fun _ => rfl
  | .TransferOwnership, h, _ => by cases h
  | .IsPartOf, _, _ => fun _ => rfl
  | .InformationOperationsReport, _, h => by cases h
  | .InformationOperationsAction, _, h => by cases h
  | .ServiceRequest, _, _ => fun _ => rfl
  | .ResupplyOffer, _, _ => fun _ => rfl
  | .ResupplyReceived, _, _ => fun _ => rfl
  | .ResupplyCancel, _, _ => fun _ => rfl
  | .RepairComplete, _, _ => fun _ => rfl
  | .RepairResponse, _, _ => fun _ => rfl
  | .MinefieldState, _, _ => fun _ => rfl
  | .MinefieldQuery, _, _ => fun _ => rfl
  | .MinefieldData, _, _ => fun _ => rfl
  | .MinefieldResponseNack, _, _ => fun _ => rfl
  | .Transmitter, _, _ => fun _ => rfl
  | .Signal, _, _ => fun _ => rfl
  | .Receiver, _, _ => fun _ => rfl
  | .IntercomSignal, _, _ => fun _ => rfl
  | .IntercomControl, _, _ => fun _ => rfl
  | .CreateEntity, _, _ => fun _ => rfl
  | .RemoveEntity, _, _ => fun _ => rfl
  | .StartResume, _, _ => fun _ => rfl
  | .StopFreeze, _, _ => fun _ => rfl
  | .Acknowledge, _, _ => fun _ => rfl
  | .ActionRequest, h, _ => by cases h
  | .ActionResponse, h, _ => by cases h
  | .DataQuery, h, _ => by cases h
  | .SetData, h, _ => by cases h
  | .Data, h, _ => by cases h
  | .EventReport, h, _ => by cases h
  | .Comment, h, _ => by cases h
  | .CreateEntityReliable, _, _ => fun _ => rfl
  | .RemoveEntityReliable, _, _ => fun _ => rfl
  | .StartResumeReliable, _, _ => fun _ => rfl
  | .StopFreezeReliable, _, _ => fun _ => rfl
  | .AcknowledgeReliable, _, _ => fun _ => rfl
  | .ActionRequestReliable, h, _ => by cases h
  | .ActionResponseReliable, h, _ => by cases h
  | .DataQueryReliable, _, _ => fun _ => rfl
  | .SetDataReliable, h, _ => by cases h
  | .DataReliable, h, _ => by cases h
  | .EventReportReliable, h, _ => by cases h
  | .CommentReliable, h, _ => by cases h
  | .RecordQueryReliable, _, _ => fun _ => rfl
  | .SetRecordReliable, h, _ => by cases h
  | .EnvironmentalProcess, _, _ => fun _ => rfl
  | .GriddedData, h, _ => by cases h
  | .PointObjectState, _, _ => fun _ => rfl
  | .LinearObjectState, _, _ => fun _ => rfl
  | .ArealObjectState, _, _ => fun _ => rfl
  | .Fire, _, _ => fun _ => rfl
  | .Detonation, _, _ => fun _ => rfl
  | .DirectedEnergyFire, _, _ => fun _ => rfl
  | .EntityDamageStatus, _, _ => fun _ => rfl

theorem PduKind.layout : (k : PduKind) → k.fixedLayout = true → ∀ x : k.Body, kept x = x ∧ tail x = [] ∧ sent x = x ∧ PduBody.prep x = x
  | .ElectromagneticEmissions, h => by cases h
  | .Designator, _ => fun _ => ⟨rfl, rfl, rfl, rfl⟩
  | .UnderwaterAcoustic, h => by cases h
  | .IFF, h => by cases h
  | .SupplementalEmission, h => by cases h
  | .EntityState, h => by cases h
  | .Collision, _ => fun _ => ⟨rfl, rfl, rfl, rfl⟩
  | .CollisionElastic, _ => fun _ => ⟨rfl, rfl, rfl, rfl⟩
  | .EntityStateUpdate, h => by cases h
  | .Attribute, h => by cases h
  | .AggregateState, h => by cases h
  | .IsGroupOf, h => by cases h
  | .TransferOwnership, h => by cases h
  | .IsPartOf, _ => fun _ => ⟨rfl, rfl, rfl, rfl⟩
  | .InformationOperationsReport, h => by cases h
  | .InformationOperationsAction, h => by cases h
  | .ServiceRequest, h => by cases h
  | .ResupplyOffer, h => by cases h
  | .ResupplyReceived, h => by cases h
  | .ResupplyCancel, _ => fun _ => ⟨rfl, rfl, rfl, rfl⟩
  | .RepairComplete, _ => fun _ => ⟨rfl, rfl, rfl, rfl⟩
  | .RepairResponse, _ => fun _ => ⟨rfl, rfl, rfl, rfl⟩
  | .MinefieldState, h => by cases h
  | .MinefieldQuery, h => by cases h
  | .MinefieldData, h => by cases h
  | .MinefieldResponseNack, h => by cases h
  | .Transmitter, h => by cases h
  | .Signal, h => by cases h
  | .Receiver, _ => fun _ => ⟨rfl, rfl, rfl, rfl⟩
  | .IntercomSignal, h => by cases h
  | .IntercomControl, h => by cases h
  | .CreateEntity, _ => fun _ => ⟨rfl, rfl, rfl, rfl⟩
  | .RemoveEntity, _ => fun _ => ⟨rfl, rfl, rfl, rfl⟩
  | .StartResume, _ => fun _ => ⟨rfl, rfl, rfl, rfl⟩
  | .StopFreeze, _ => fun _ => ⟨rfl, rfl, rfl, rfl⟩
  | .Acknowledge, _ => fun _ => ⟨rfl, rfl, rfl, rfl⟩
  | .ActionRequest, h => by cases h
  | .ActionResponse, h => by cases h
  | .DataQuery, h => by cases h
  | .SetData, h => by cases h
  | .Data, h => by cases h
  | .EventReport, h => by cases h
  | .Comment, h => by cases h
  | .CreateEntityReliable, _ => fun _ => ⟨rfl, rfl, rfl, rfl⟩
  | .RemoveEntityReliable, _ => fun _ => ⟨rfl, rfl, rfl, rfl⟩
  | .StartResumeReliable, _ => fun _ => ⟨rfl, rfl, rfl, rfl⟩
  | .StopFreezeReliable, _ => fun _ => ⟨rfl, rfl, rfl, rfl⟩
  | .AcknowledgeReliable, _ => fun _ => ⟨rfl, rfl, rfl, rfl⟩
  | .ActionRequestReliable, h => by cases h
  | .ActionResponseReliable, h => by cases h
  | .DataQueryReliable, h => by cases h
  | .SetDataReliable, h => by cases h
  | .DataReliable, h => by cases h
  | .EventReportReliable, h => by cases h
  | .CommentReliable, h => by cases h
  | .RecordQueryReliable, h => by cases h
  | .SetRecordReliable, h => by cases h
  | .EnvironmentalProcess, h => by cases h
  | .GriddedData, h => by cases h
  | .PointObjectState, _ => fun _ => ⟨rfl, rfl, rfl, rfl⟩
  | .LinearObjectState, h => by cases h
  | .ArealObjectState, h => by cases h
  | .Fire, _ => fun _ => ⟨rfl, rfl, rfl, rfl⟩
  | .Detonation, h => by cases h
  | .DirectedEnergyFire, h => by cases h
  | .EntityDamageStatus, h => by cases h

end Dis
