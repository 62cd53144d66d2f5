import Verif.Proofs.BuildsRecords
/- Generated by tools/gen_builds.py. -/
set_option synthInstance.maxSize 1000
set_option synthInstance.maxHeartbeats 400000
set_option maxRecDepth 4000
namespace Dis
variable {exact : Bool}

instance (x : ElectromagneticEmissionsPdu) : Builds exact x.serializeBody := by unfold ElectromagneticEmissionsPdu.serializeBody; builds
instance : Builds exact ElectromagneticEmissionsPdu.deserializeBody := by unfold ElectromagneticEmissionsPdu.deserializeBody; infer_instance
instance (x : DesignatorPdu) : Builds exact x.serializeBody := by unfold DesignatorPdu.serializeBody; builds
instance : Builds exact DesignatorPdu.deserializeBody := by unfold DesignatorPdu.deserializeBody; infer_instance
instance (x : UnderwaterAcousticPdu) : Builds exact x.serializeBody := by unfold UnderwaterAcousticPdu.serializeBody; builds
instance : Builds exact UnderwaterAcousticPdu.deserializeBody := by unfold UnderwaterAcousticPdu.deserializeBody; infer_instance
instance (x : IFFPdu) : Builds exact x.serializeBody := by unfold IFFPdu.serializeBody; builds
instance : Builds exact IFFPdu.deserializeBody := by unfold IFFPdu.deserializeBody; infer_instance
instance (x : SupplementalEmissionPdu) : Builds exact x.serializeBody := by unfold SupplementalEmissionPdu.serializeBody; builds
instance : Builds exact SupplementalEmissionPdu.deserializeBody := by unfold SupplementalEmissionPdu.deserializeBody; infer_instance
instance (x : EntityStatePdu) : Builds exact x.serializeBody := by unfold EntityStatePdu.serializeBody; builds
instance : Builds exact EntityStatePdu.deserializeBody := by unfold EntityStatePdu.deserializeBody; infer_instance
instance (x : CollisionPdu) : Builds exact x.serializeBody := by unfold CollisionPdu.serializeBody; builds
instance : Builds exact CollisionPdu.deserializeBody := by unfold CollisionPdu.deserializeBody; infer_instance
instance (x : CollisionElasticPdu) : Builds exact x.serializeBody := by unfold CollisionElasticPdu.serializeBody; builds
instance : Builds exact CollisionElasticPdu.deserializeBody := by unfold CollisionElasticPdu.deserializeBody; infer_instance
instance (x : EntityStateUpdatePdu) : Builds exact x.serializeBody := by unfold EntityStateUpdatePdu.serializeBody; builds
instance : Builds exact EntityStateUpdatePdu.deserializeBody := by unfold EntityStateUpdatePdu.deserializeBody; infer_instance
instance (x : AttributePdu) : Builds exact x.serializeBody := by unfold AttributePdu.serializeBody; builds
instance : Builds exact AttributePdu.deserializeBody := by unfold AttributePdu.deserializeBody; infer_instance
instance (x : AggregateStatePdu) : Builds exact x.serializeBody := by unfold AggregateStatePdu.serializeBody; builds
instance : Builds exact AggregateStatePdu.deserializeBody := by unfold AggregateStatePdu.deserializeBody; infer_instance
instance (x : IsGroupOfPdu) : Builds exact x.serializeBody := by unfold IsGroupOfPdu.serializeBody; builds
instance : Builds exact IsGroupOfPdu.deserializeBody := by unfold IsGroupOfPdu.deserializeBody; infer_instance
instance (x : TransferOwnershipPdu) : Builds false x.serializeBody := by unfold TransferOwnershipPdu.serializeBody; builds
instance : Builds false TransferOwnershipPdu.deserializeBody := by unfold TransferOwnershipPdu.deserializeBody; infer_instance
instance (x : IsPartOfPdu) : Builds exact x.serializeBody := by unfold IsPartOfPdu.serializeBody; builds
instance : Builds exact IsPartOfPdu.deserializeBody := by unfold IsPartOfPdu.deserializeBody; infer_instance
instance (x : InformationOperationsReportPdu) : Builds exact x.serializeBody := by unfold InformationOperationsReportPdu.serializeBody; builds
instance : Builds exact InformationOperationsReportPdu.deserializeBody := by unfold InformationOperationsReportPdu.deserializeBody; infer_instance
instance (x : InformationOperationsActionPdu) : Builds exact x.serializeBody := by unfold InformationOperationsActionPdu.serializeBody; builds
instance : Builds exact InformationOperationsActionPdu.deserializeBody := by unfold InformationOperationsActionPdu.deserializeBody; infer_instance
instance (x : ServiceRequestPdu) : Builds exact x.serializeBody := by unfold ServiceRequestPdu.serializeBody; builds
instance : Builds exact ServiceRequestPdu.deserializeBody := by unfold ServiceRequestPdu.deserializeBody; infer_instance
instance (x : ResupplyOfferPdu) : Builds exact x.serializeBody := by unfold ResupplyOfferPdu.serializeBody; builds
instance : Builds exact ResupplyOfferPdu.deserializeBody := by unfold ResupplyOfferPdu.deserializeBody; infer_instance
instance (x : ResupplyReceivedPdu) : Builds exact x.serializeBody := by unfold ResupplyReceivedPdu.serializeBody; builds
instance : Builds exact ResupplyReceivedPdu.deserializeBody := by unfold ResupplyReceivedPdu.deserializeBody; infer_instance
instance (x : ResupplyCancelPdu) : Builds exact x.serializeBody := by unfold ResupplyCancelPdu.serializeBody; builds
instance : Builds exact ResupplyCancelPdu.deserializeBody := by unfold ResupplyCancelPdu.deserializeBody; infer_instance
instance (x : RepairCompletePdu) : Builds exact x.serializeBody := by unfold RepairCompletePdu.serializeBody; builds
instance : Builds exact RepairCompletePdu.deserializeBody := by unfold RepairCompletePdu.deserializeBody; infer_instance
instance (x : RepairResponsePdu) : Builds exact x.serializeBody := by unfold RepairResponsePdu.serializeBody; builds
instance : Builds exact RepairResponsePdu.deserializeBody := by unfold RepairResponsePdu.deserializeBody; infer_instance
instance (x : MinefieldStatePdu) : Builds exact x.serializeBody := by unfold MinefieldStatePdu.serializeBody; builds
instance : Builds exact MinefieldStatePdu.deserializeBody := by unfold MinefieldStatePdu.deserializeBody; infer_instance
instance (x : MinefieldQueryPdu) : Builds exact x.serializeBody := by unfold MinefieldQueryPdu.serializeBody; builds
instance : Builds exact MinefieldQueryPdu.deserializeBody := by unfold MinefieldQueryPdu.deserializeBody; infer_instance
instance (x : MinefieldDataPdu) : Builds exact x.serializeBody := by unfold MinefieldDataPdu.serializeBody; builds
instance : Builds exact MinefieldDataPdu.deserializeBody := by unfold MinefieldDataPdu.deserializeBody; infer_instance
instance (x : MinefieldResponseNackPdu) : Builds exact x.serializeBody := by unfold MinefieldResponseNackPdu.serializeBody; builds
instance : Builds exact MinefieldResponseNackPdu.deserializeBody := by unfold MinefieldResponseNackPdu.deserializeBody; infer_instance
instance (x : TransmitterPdu) : Builds exact x.serializeBody := by unfold TransmitterPdu.serializeBody; builds
instance : Builds exact TransmitterPdu.deserializeBody := by unfold TransmitterPdu.deserializeBody; infer_instance
instance (x : SignalPdu) : Builds exact x.serializeBody := by unfold SignalPdu.serializeBody; builds
instance : Builds exact SignalPdu.deserializeBody := by unfold SignalPdu.deserializeBody; infer_instance
instance (x : ReceiverPdu) : Builds exact x.serializeBody := by unfold ReceiverPdu.serializeBody; builds
instance : Builds exact ReceiverPdu.deserializeBody := by unfold ReceiverPdu.deserializeBody; infer_instance
instance (x : IntercomSignalPdu) : Builds exact x.serializeBody := by unfold IntercomSignalPdu.serializeBody; builds
instance : Builds exact IntercomSignalPdu.deserializeBody := by unfold IntercomSignalPdu.deserializeBody; infer_instance
instance (x : IntercomControlPdu) : Builds exact x.serializeBody := by unfold IntercomControlPdu.serializeBody; builds
instance : Builds exact IntercomControlPdu.deserializeBody := by unfold IntercomControlPdu.deserializeBody; infer_instance
instance (x : CreateEntityPdu) : Builds exact x.serializeBody := by unfold CreateEntityPdu.serializeBody; builds
instance : Builds exact CreateEntityPdu.deserializeBody := by unfold CreateEntityPdu.deserializeBody; infer_instance
instance (x : RemoveEntityPdu) : Builds exact x.serializeBody := by unfold RemoveEntityPdu.serializeBody; builds
instance : Builds exact RemoveEntityPdu.deserializeBody := by unfold RemoveEntityPdu.deserializeBody; infer_instance
instance (x : StartResumePdu) : Builds exact x.serializeBody := by unfold StartResumePdu.serializeBody; builds
instance : Builds exact StartResumePdu.deserializeBody := by unfold StartResumePdu.deserializeBody; infer_instance
instance (x : StopFreezePdu) : Builds exact x.serializeBody := by unfold StopFreezePdu.serializeBody; builds
instance : Builds exact StopFreezePdu.deserializeBody := by unfold StopFreezePdu.deserializeBody; infer_instance
instance (x : AcknowledgePdu) : Builds exact x.serializeBody := by unfold AcknowledgePdu.serializeBody; builds
instance : Builds exact AcknowledgePdu.deserializeBody := by unfold AcknowledgePdu.deserializeBody; infer_instance
instance (x : ActionRequestPdu) : Builds exact x.serializeBody := by unfold ActionRequestPdu.serializeBody; builds
instance : Builds exact ActionRequestPdu.deserializeBody := by unfold ActionRequestPdu.deserializeBody; infer_instance
instance (x : ActionResponsePdu) : Builds exact x.serializeBody := by unfold ActionResponsePdu.serializeBody; builds
instance : Builds exact ActionResponsePdu.deserializeBody := by unfold ActionResponsePdu.deserializeBody; infer_instance
instance (x : DataQueryPdu) : Builds exact x.serializeBody := by unfold DataQueryPdu.serializeBody; builds
instance : Builds exact DataQueryPdu.deserializeBody := by unfold DataQueryPdu.deserializeBody; infer_instance
instance (x : SetDataPdu) : Builds exact x.serializeBody := by unfold SetDataPdu.serializeBody; builds
instance : Builds exact SetDataPdu.deserializeBody := by unfold SetDataPdu.deserializeBody; infer_instance
instance (x : DataPdu) : Builds exact x.serializeBody := by unfold DataPdu.serializeBody; builds
instance : Builds exact DataPdu.deserializeBody := by unfold DataPdu.deserializeBody; infer_instance
instance (x : EventReportPdu) : Builds exact x.serializeBody := by unfold EventReportPdu.serializeBody; builds
instance : Builds exact EventReportPdu.deserializeBody := by unfold EventReportPdu.deserializeBody; infer_instance
instance (x : CommentPdu) : Builds exact x.serializeBody := by unfold CommentPdu.serializeBody; builds
instance : Builds exact CommentPdu.deserializeBody := by unfold CommentPdu.deserializeBody; infer_instance
instance (x : CreateEntityReliablePdu) : Builds exact x.serializeBody := by unfold CreateEntityReliablePdu.serializeBody; builds
instance : Builds exact CreateEntityReliablePdu.deserializeBody := by unfold CreateEntityReliablePdu.deserializeBody; infer_instance
instance (x : RemoveEntityReliablePdu) : Builds exact x.serializeBody := by unfold RemoveEntityReliablePdu.serializeBody; builds
instance : Builds exact RemoveEntityReliablePdu.deserializeBody := by unfold RemoveEntityReliablePdu.deserializeBody; infer_instance
instance (x : StartResumeReliablePdu) : Builds exact x.serializeBody := by unfold StartResumeReliablePdu.serializeBody; builds
instance : Builds exact StartResumeReliablePdu.deserializeBody := by unfold StartResumeReliablePdu.deserializeBody; infer_instance
instance (x : StopFreezeReliablePdu) : Builds exact x.serializeBody := by unfold StopFreezeReliablePdu.serializeBody; builds
instance : Builds exact StopFreezeReliablePdu.deserializeBody := by unfold StopFreezeReliablePdu.deserializeBody; infer_instance
instance (x : AcknowledgeReliablePdu) : Builds exact x.serializeBody := by unfold AcknowledgeReliablePdu.serializeBody; builds
instance : Builds exact AcknowledgeReliablePdu.deserializeBody := by unfold AcknowledgeReliablePdu.deserializeBody; infer_instance
instance (x : ActionRequestReliablePdu) : Builds exact x.serializeBody := by unfold ActionRequestReliablePdu.serializeBody; builds
instance : Builds exact ActionRequestReliablePdu.deserializeBody := by unfold ActionRequestReliablePdu.deserializeBody; infer_instance
instance (x : ActionResponseReliablePdu) : Builds exact x.serializeBody := by unfold ActionResponseReliablePdu.serializeBody; builds
instance : Builds exact ActionResponseReliablePdu.deserializeBody := by unfold ActionResponseReliablePdu.deserializeBody; infer_instance
instance (x : DataQueryReliablePdu) : Builds exact x.serializeBody := by unfold DataQueryReliablePdu.serializeBody; builds
instance : Builds exact DataQueryReliablePdu.deserializeBody := by unfold DataQueryReliablePdu.deserializeBody; infer_instance
instance (x : SetDataReliablePdu) : Builds exact x.serializeBody := by unfold SetDataReliablePdu.serializeBody; builds
instance : Builds exact SetDataReliablePdu.deserializeBody := by unfold SetDataReliablePdu.deserializeBody; infer_instance
instance (x : DataReliablePdu) : Builds exact x.serializeBody := by unfold DataReliablePdu.serializeBody; builds
instance : Builds exact DataReliablePdu.deserializeBody := by unfold DataReliablePdu.deserializeBody; infer_instance
instance (x : EventReportReliablePdu) : Builds exact x.serializeBody := by unfold EventReportReliablePdu.serializeBody; builds
instance : Builds exact EventReportReliablePdu.deserializeBody := by unfold EventReportReliablePdu.deserializeBody; infer_instance
instance (x : CommentReliablePdu) : Builds exact x.serializeBody := by unfold CommentReliablePdu.serializeBody; builds
instance : Builds exact CommentReliablePdu.deserializeBody := by unfold CommentReliablePdu.deserializeBody; infer_instance
instance (x : RecordQueryReliablePdu) : Builds exact x.serializeBody := by unfold RecordQueryReliablePdu.serializeBody; builds
instance : Builds exact RecordQueryReliablePdu.deserializeBody := by unfold RecordQueryReliablePdu.deserializeBody; infer_instance
instance (x : SetRecordReliablePdu) : Builds false x.serializeBody := by unfold SetRecordReliablePdu.serializeBody; builds
instance : Builds false SetRecordReliablePdu.deserializeBody := by unfold SetRecordReliablePdu.deserializeBody; infer_instance
instance (x : EnvironmentalProcessPdu) : Builds exact x.serializeBody := by unfold EnvironmentalProcessPdu.serializeBody; builds
instance : Builds exact EnvironmentalProcessPdu.deserializeBody := by unfold EnvironmentalProcessPdu.deserializeBody; infer_instance
instance (x : GriddedDataPdu) : Builds exact x.serializeBody := by unfold GriddedDataPdu.serializeBody; builds
instance : Builds exact GriddedDataPdu.deserializeBody := by unfold GriddedDataPdu.deserializeBody; infer_instance
instance (x : PointObjectStatePdu) : Builds exact x.serializeBody := by unfold PointObjectStatePdu.serializeBody; builds
instance : Builds exact PointObjectStatePdu.deserializeBody := by unfold PointObjectStatePdu.deserializeBody; infer_instance
instance (x : LinearObjectStatePdu) : Builds exact x.serializeBody := by unfold LinearObjectStatePdu.serializeBody; builds
instance : Builds exact LinearObjectStatePdu.deserializeBody := by unfold LinearObjectStatePdu.deserializeBody; infer_instance
instance (x : ArealObjectStatePdu) : Builds exact x.serializeBody := by unfold ArealObjectStatePdu.serializeBody; builds
instance : Builds exact ArealObjectStatePdu.deserializeBody := by unfold ArealObjectStatePdu.deserializeBody; infer_instance
instance (x : FirePdu) : Builds exact x.serializeBody := by unfold FirePdu.serializeBody; builds
instance : Builds exact FirePdu.deserializeBody := by unfold FirePdu.deserializeBody; infer_instance
instance (x : DetonationPdu) : Builds exact x.serializeBody := by unfold DetonationPdu.serializeBody; builds
instance : Builds exact DetonationPdu.deserializeBody := by unfold DetonationPdu.deserializeBody; infer_instance
instance (x : DirectedEnergyFirePdu) : Builds exact x.serializeBody := by unfold DirectedEnergyFirePdu.serializeBody; builds
instance : Builds exact DirectedEnergyFirePdu.deserializeBody := by unfold DirectedEnergyFirePdu.deserializeBody; infer_instance
instance (x : EntityDamageStatusPdu) : Builds exact x.serializeBody := by unfold EntityDamageStatusPdu.serializeBody; builds
instance : Builds exact EntityDamageStatusPdu.deserializeBody := by unfold EntityDamageStatusPdu.deserializeBody; infer_instance

/-- The kinds whose messages contain record sets; every other kind has the same behaviour in both builds. -/
def PduKind.buildsExact : PduKind → Bool
  | .TransferOwnership | .SetRecordReliable => false
  | _ => true

theorem PduKind.builds_ser : (k : PduKind) → (x : k.Body) → Builds k.buildsExact (PduBody.serializeBody x)
  | .ElectromagneticEmissions, x => inferInstanceAs (Builds true (ElectromagneticEmissionsPdu.serializeBody x))
  | .Designator, x => inferInstanceAs (Builds true (DesignatorPdu.serializeBody x))
  | .UnderwaterAcoustic, x => inferInstanceAs (Builds true (UnderwaterAcousticPdu.serializeBody x))
  | .IFF, x => inferInstanceAs (Builds true (IFFPdu.serializeBody x))
  | .SupplementalEmission, x => inferInstanceAs (Builds true (SupplementalEmissionPdu.serializeBody x))
  | .EntityState, x => inferInstanceAs (Builds true (EntityStatePdu.serializeBody x))
  | .Collision, x => inferInstanceAs (Builds true (CollisionPdu.serializeBody x))
  | .CollisionElastic, x => inferInstanceAs (Builds true (CollisionElasticPdu.serializeBody x))
  | .EntityStateUpdate, x => inferInstanceAs (Builds true (EntityStateUpdatePdu.serializeBody x))
  | .Attribute, x => inferInstanceAs (Builds true (AttributePdu.serializeBody x))
  | .AggregateState, x => inferInstanceAs (Builds true (AggregateStatePdu.serializeBody x))
  | .IsGroupOf, x => inferInstanceAs (Builds true (IsGroupOfPdu.serializeBody x))
  | .TransferOwnership, x => inferInstanceAs (Builds false (TransferOwnershipPdu.serializeBody x))
  | .IsPartOf, x => inferInstanceAs (Builds true (IsPartOfPdu.serializeBody x))
  | .InformationOperationsReport, x => inferInstanceAs (Builds true (InformationOperationsReportPdu.serializeBody x))
  | .InformationOperationsAction, x => inferInstanceAs (Builds true (InformationOperationsActionPdu.serializeBody x))
  | .ServiceRequest, x => inferInstanceAs (Builds true (ServiceRequestPdu.serializeBody x))
  | .ResupplyOffer, x => inferInstanceAs (Builds true (ResupplyOfferPdu.serializeBody x))
  | .ResupplyReceived, x => inferInstanceAs (Builds true (ResupplyReceivedPdu.serializeBody x))
  | .ResupplyCancel, x => inferInstanceAs (Builds true (ResupplyCancelPdu.serializeBody x))
  | .RepairComplete, x => inferInstanceAs (Builds true (RepairCompletePdu.serializeBody x))
  | .RepairResponse, x => inferInstanceAs (Builds true (RepairResponsePdu.serializeBody x))
  | .MinefieldState, x => inferInstanceAs (Builds true (MinefieldStatePdu.serializeBody x))
  | .MinefieldQuery, x => inferInstanceAs (Builds true (MinefieldQueryPdu.serializeBody x))
  | .MinefieldData, x => inferInstanceAs (Builds true (MinefieldDataPdu.serializeBody x))
  | .MinefieldResponseNack, x => inferInstanceAs (Builds true (MinefieldResponseNackPdu.serializeBody x))
  | .Transmitter, x => inferInstanceAs (Builds true (TransmitterPdu.serializeBody x))
  | .Signal, x => inferInstanceAs (Builds true (SignalPdu.serializeBody x))
  | .Receiver, x => inferInstanceAs (Builds true (ReceiverPdu.serializeBody x))
  | .IntercomSignal, x => inferInstanceAs (Builds true (IntercomSignalPdu.serializeBody x))
  | .IntercomControl, x => inferInstanceAs (Builds true (IntercomControlPdu.serializeBody x))
  | .CreateEntity, x => inferInstanceAs (Builds true (CreateEntityPdu.serializeBody x))
  | .RemoveEntity, x => inferInstanceAs (Builds true (RemoveEntityPdu.serializeBody x))
  | .StartResume, x => inferInstanceAs (Builds true (StartResumePdu.serializeBody x))
  | .StopFreeze, x => inferInstanceAs (Builds true (StopFreezePdu.serializeBody x))
  | .Acknowledge, x => inferInstanceAs (Builds true (AcknowledgePdu.serializeBody x))
  | .ActionRequest, x => inferInstanceAs (Builds true (ActionRequestPdu.serializeBody x))
  | .ActionResponse, x => inferInstanceAs (Builds true (ActionResponsePdu.serializeBody x))
  | .DataQuery, x => inferInstanceAs (Builds true (DataQueryPdu.serializeBody x))
  | .SetData, x => inferInstanceAs (Builds true (SetDataPdu.serializeBody x))
  | .Data, x => inferInstanceAs (Builds true (DataPdu.serializeBody x))
  | .EventReport, x => inferInstanceAs (Builds true (EventReportPdu.serializeBody x))
  | .Comment, x => inferInstanceAs (Builds true (CommentPdu.serializeBody x))
  | .CreateEntityReliable, x => inferInstanceAs (Builds true (CreateEntityReliablePdu.serializeBody x))
  | .RemoveEntityReliable, x => inferInstanceAs (Builds true (RemoveEntityReliablePdu.serializeBody x))
  | .StartResumeReliable, x => inferInstanceAs (Builds true (StartResumeReliablePdu.serializeBody x))
  | .StopFreezeReliable, x => inferInstanceAs (Builds true (StopFreezeReliablePdu.serializeBody x))
  | .AcknowledgeReliable, x => inferInstanceAs (Builds true (AcknowledgeReliablePdu.serializeBody x))
  | .ActionRequestReliable, x => inferInstanceAs (Builds true (ActionRequestReliablePdu.serializeBody x))
  | .ActionResponseReliable, x => inferInstanceAs (Builds true (ActionResponseReliablePdu.serializeBody x))
  | .DataQueryReliable, x => inferInstanceAs (Builds true (DataQueryReliablePdu.serializeBody x))
  | .SetDataReliable, x => inferInstanceAs (Builds true (SetDataReliablePdu.serializeBody x))
  | .DataReliable, x => inferInstanceAs (Builds true (DataReliablePdu.serializeBody x))
  | .EventReportReliable, x => inferInstanceAs (Builds true (EventReportReliablePdu.serializeBody x))
  | .CommentReliable, x => inferInstanceAs (Builds true (CommentReliablePdu.serializeBody x))
  | .RecordQueryReliable, x => inferInstanceAs (Builds true (RecordQueryReliablePdu.serializeBody x))
  | .SetRecordReliable, x => inferInstanceAs (Builds false (SetRecordReliablePdu.serializeBody x))
  | .EnvironmentalProcess, x => inferInstanceAs (Builds true (EnvironmentalProcessPdu.serializeBody x))
  | .GriddedData, x => inferInstanceAs (Builds true (GriddedDataPdu.serializeBody x))
  | .PointObjectState, x => inferInstanceAs (Builds true (PointObjectStatePdu.serializeBody x))
  | .LinearObjectState, x => inferInstanceAs (Builds true (LinearObjectStatePdu.serializeBody x))
  | .ArealObjectState, x => inferInstanceAs (Builds true (ArealObjectStatePdu.serializeBody x))
  | .Fire, x => inferInstanceAs (Builds true (FirePdu.serializeBody x))
  | .Detonation, x => inferInstanceAs (Builds true (DetonationPdu.serializeBody x))
  | .DirectedEnergyFire, x => inferInstanceAs (Builds true (DirectedEnergyFirePdu.serializeBody x))
  | .EntityDamageStatus, x => inferInstanceAs (Builds true (EntityDamageStatusPdu.serializeBody x))

theorem PduKind.builds_de : (k : PduKind) → Builds k.buildsExact (PduBody.deserializeBody : Get k.Body)
  | .ElectromagneticEmissions => inferInstanceAs (Builds true ElectromagneticEmissionsPdu.deserializeBody)
  | .Designator => inferInstanceAs (Builds true DesignatorPdu.deserializeBody)
  | .UnderwaterAcoustic => inferInstanceAs (Builds true UnderwaterAcousticPdu.deserializeBody)
  | .IFF => inferInstanceAs (Builds true IFFPdu.deserializeBody)
  | .SupplementalEmission => inferInstanceAs (Builds true SupplementalEmissionPdu.deserializeBody)
  | .EntityState => inferInstanceAs (Builds true EntityStatePdu.deserializeBody)
  | .Collision => inferInstanceAs (Builds true CollisionPdu.deserializeBody)
  | .CollisionElastic => inferInstanceAs (Builds true CollisionElasticPdu.deserializeBody)
  | .EntityStateUpdate => inferInstanceAs (Builds true EntityStateUpdatePdu.deserializeBody)
  | .Attribute => inferInstanceAs (Builds true AttributePdu.deserializeBody)
  | .AggregateState => inferInstanceAs (Builds true AggregateStatePdu.deserializeBody)
  | .IsGroupOf => inferInstanceAs (Builds true IsGroupOfPdu.deserializeBody)
  | .TransferOwnership => inferInstanceAs (Builds false TransferOwnershipPdu.deserializeBody)
  | .IsPartOf => inferInstanceAs (Builds true IsPartOfPdu.deserializeBody)
  | .InformationOperationsReport => inferInstanceAs (Builds true InformationOperationsReportPdu.deserializeBody)
  | .InformationOperationsAction => inferInstanceAs (Builds true InformationOperationsActionPdu.deserializeBody)
  | .ServiceRequest => inferInstanceAs (Builds true ServiceRequestPdu.deserializeBody)
  | .ResupplyOffer => inferInstanceAs (Builds true ResupplyOfferPdu.deserializeBody)
  | .ResupplyReceived => inferInstanceAs (Builds true ResupplyReceivedPdu.deserializeBody)
  | .ResupplyCancel => inferInstanceAs (Builds true ResupplyCancelPdu.deserializeBody)
  | .RepairComplete => inferInstanceAs (Builds true RepairCompletePdu.deserializeBody)
  | .RepairResponse => inferInstanceAs (Builds true RepairResponsePdu.deserializeBody)
  | .MinefieldState => inferInstanceAs (Builds true MinefieldStatePdu.deserializeBody)
  | .MinefieldQuery => inferInstanceAs (Builds true MinefieldQueryPdu.deserializeBody)
  | .MinefieldData => inferInstanceAs (Builds true MinefieldDataPdu.deserializeBody)
  | .MinefieldResponseNack => inferInstanceAs (Builds true MinefieldResponseNackPdu.deserializeBody)
  | .Transmitter => inferInstanceAs (Builds true TransmitterPdu.deserializeBody)
  | .Signal => inferInstanceAs (Builds true SignalPdu.deserializeBody)
  | .Receiver => inferInstanceAs (Builds true ReceiverPdu.deserializeBody)
  | .IntercomSignal => inferInstanceAs (Builds true IntercomSignalPdu.deserializeBody)
  | .IntercomControl => inferInstanceAs (Builds true IntercomControlPdu.deserializeBody)
  | .CreateEntity => inferInstanceAs (Builds true CreateEntityPdu.deserializeBody)
  | .RemoveEntity => inferInstanceAs (Builds true RemoveEntityPdu.deserializeBody)
  | .StartResume => inferInstanceAs (Builds true StartResumePdu.deserializeBody)
  | .StopFreeze => inferInstanceAs (Builds true StopFreezePdu.deserializeBody)
  | .Acknowledge => inferInstanceAs (Builds true AcknowledgePdu.deserializeBody)
  | .ActionRequest => inferInstanceAs (Builds true ActionRequestPdu.deserializeBody)
  | .ActionResponse => inferInstanceAs (Builds true ActionResponsePdu.deserializeBody)
  | .DataQuery => inferInstanceAs (Builds true DataQueryPdu.deserializeBody)
  | .SetData => inferInstanceAs (Builds true SetDataPdu.deserializeBody)
  | .Data => inferInstanceAs (Builds true DataPdu.deserializeBody)
  | .EventReport => inferInstanceAs (Builds true EventReportPdu.deserializeBody)
  | .Comment => inferInstanceAs (Builds true CommentPdu.deserializeBody)
  | .CreateEntityReliable => inferInstanceAs (Builds true CreateEntityReliablePdu.deserializeBody)
  | .RemoveEntityReliable => inferInstanceAs (Builds true RemoveEntityReliablePdu.deserializeBody)
  | .StartResumeReliable => inferInstanceAs (Builds true StartResumeReliablePdu.deserializeBody)
  | .StopFreezeReliable => inferInstanceAs (Builds true StopFreezeReliablePdu.deserializeBody)
  | .AcknowledgeReliable => inferInstanceAs (Builds true AcknowledgeReliablePdu.deserializeBody)
  | .ActionRequestReliable => inferInstanceAs (Builds true ActionRequestReliablePdu.deserializeBody)
  | .ActionResponseReliable => inferInstanceAs (Builds true ActionResponseReliablePdu.deserializeBody)
  | .DataQueryReliable => inferInstanceAs (Builds true DataQueryReliablePdu.deserializeBody)
  | .SetDataReliable => inferInstanceAs (Builds true SetDataReliablePdu.deserializeBody)
  | .DataReliable => inferInstanceAs (Builds true DataReliablePdu.deserializeBody)
  | .EventReportReliable => inferInstanceAs (Builds true EventReportReliablePdu.deserializeBody)
  | .CommentReliable => inferInstanceAs (Builds true CommentReliablePdu.deserializeBody)
  | .RecordQueryReliable => inferInstanceAs (Builds true RecordQueryReliablePdu.deserializeBody)
  | .SetRecordReliable => inferInstanceAs (Builds false SetRecordReliablePdu.deserializeBody)
  | .EnvironmentalProcess => inferInstanceAs (Builds true EnvironmentalProcessPdu.deserializeBody)
  | .GriddedData => inferInstanceAs (Builds true GriddedDataPdu.deserializeBody)
  | .PointObjectState => inferInstanceAs (Builds true PointObjectStatePdu.deserializeBody)
  | .LinearObjectState => inferInstanceAs (Builds true LinearObjectStatePdu.deserializeBody)
  | .ArealObjectState => inferInstanceAs (Builds true ArealObjectStatePdu.deserializeBody)
  | .Fire => inferInstanceAs (Builds true FirePdu.deserializeBody)
  | .Detonation => inferInstanceAs (Builds true DetonationPdu.deserializeBody)
  | .DirectedEnergyFire => inferInstanceAs (Builds true DirectedEnergyFirePdu.deserializeBody)
  | .EntityDamageStatus => inferInstanceAs (Builds true EntityDamageStatusPdu.deserializeBody)

end Dis
