import Verif.Proofs.StepsRecords
/- Generated by tools/gen_steps.py. -/
set_option synthInstance.maxSize 1000
set_option synthInstance.maxHeartbeats 400000
set_option maxRecDepth 4000
namespace Dis

instance (x : ElectromagneticEmissionsPdu) : Puts x.serializeBody := by unfold ElectromagneticEmissionsPdu.serializeBody; puts
instance : Steps ElectromagneticEmissionsPdu.deserializeBody := by unfold ElectromagneticEmissionsPdu.deserializeBody; infer_instance
instance : Reserves 0 ElectromagneticEmissionsPdu.deserializeBody := by unfold ElectromagneticEmissionsPdu.deserializeBody; infer_instance
instance (x : DesignatorPdu) : Puts x.serializeBody := by unfold DesignatorPdu.serializeBody; puts
instance : Steps DesignatorPdu.deserializeBody := by unfold DesignatorPdu.deserializeBody; infer_instance
instance : Reserves 0 DesignatorPdu.deserializeBody := by unfold DesignatorPdu.deserializeBody; infer_instance
instance (x : UnderwaterAcousticPdu) : Puts x.serializeBody := by unfold UnderwaterAcousticPdu.serializeBody; puts
instance : Steps UnderwaterAcousticPdu.deserializeBody := by unfold UnderwaterAcousticPdu.deserializeBody; infer_instance
instance : Reserves 0 UnderwaterAcousticPdu.deserializeBody := by unfold UnderwaterAcousticPdu.deserializeBody; infer_instance
instance (x : IFFPdu) : Puts x.serializeBody := by unfold IFFPdu.serializeBody; puts
instance : Steps IFFPdu.deserializeBody := by unfold IFFPdu.deserializeBody; infer_instance
instance : Reserves 0 IFFPdu.deserializeBody := by unfold IFFPdu.deserializeBody; infer_instance
instance (x : SupplementalEmissionPdu) : Puts x.serializeBody := by unfold SupplementalEmissionPdu.serializeBody; puts
instance : Steps SupplementalEmissionPdu.deserializeBody := by unfold SupplementalEmissionPdu.deserializeBody; infer_instance
instance : Reserves 0 SupplementalEmissionPdu.deserializeBody := by unfold SupplementalEmissionPdu.deserializeBody; infer_instance
instance (x : EntityStatePdu) : Puts x.serializeBody := by unfold EntityStatePdu.serializeBody; puts
instance : Steps EntityStatePdu.deserializeBody := by unfold EntityStatePdu.deserializeBody; infer_instance
instance : Reserves 0 EntityStatePdu.deserializeBody := by unfold EntityStatePdu.deserializeBody; infer_instance
instance (x : CollisionPdu) : Puts x.serializeBody := by unfold CollisionPdu.serializeBody; puts
instance : Steps CollisionPdu.deserializeBody := by unfold CollisionPdu.deserializeBody; infer_instance
instance : Reserves 0 CollisionPdu.deserializeBody := by unfold CollisionPdu.deserializeBody; infer_instance
instance (x : CollisionElasticPdu) : Puts x.serializeBody := by unfold CollisionElasticPdu.serializeBody; puts
instance : Steps CollisionElasticPdu.deserializeBody := by unfold CollisionElasticPdu.deserializeBody; infer_instance
instance : Reserves 0 CollisionElasticPdu.deserializeBody := by unfold CollisionElasticPdu.deserializeBody; infer_instance
instance (x : EntityStateUpdatePdu) : Puts x.serializeBody := by unfold EntityStateUpdatePdu.serializeBody; puts
instance : Steps EntityStateUpdatePdu.deserializeBody := by unfold EntityStateUpdatePdu.deserializeBody; infer_instance
instance : Reserves 0 EntityStateUpdatePdu.deserializeBody := by unfold EntityStateUpdatePdu.deserializeBody; infer_instance
instance (x : AttributePdu) : Puts x.serializeBody := by unfold AttributePdu.serializeBody; puts
instance : Steps AttributePdu.deserializeBody := by unfold AttributePdu.deserializeBody; infer_instance
instance : Reserves 0 AttributePdu.deserializeBody := by unfold AttributePdu.deserializeBody; infer_instance
instance (x : AggregateStatePdu) : Puts x.serializeBody := by unfold AggregateStatePdu.serializeBody; puts
instance : Steps AggregateStatePdu.deserializeBody := by unfold AggregateStatePdu.deserializeBody; infer_instance
instance : Reserves 0 AggregateStatePdu.deserializeBody := by unfold AggregateStatePdu.deserializeBody; infer_instance
instance (x : IsGroupOfPdu) : Puts x.serializeBody := by unfold IsGroupOfPdu.serializeBody; puts
instance : Steps IsGroupOfPdu.deserializeBody := by unfold IsGroupOfPdu.deserializeBody; infer_instance
instance : Reserves 0 IsGroupOfPdu.deserializeBody := by unfold IsGroupOfPdu.deserializeBody; infer_instance
instance (x : TransferOwnershipPdu) : Puts x.serializeBody := by unfold TransferOwnershipPdu.serializeBody; puts
instance : Steps TransferOwnershipPdu.deserializeBody := by unfold TransferOwnershipPdu.deserializeBody; infer_instance
instance : Reserves 0 TransferOwnershipPdu.deserializeBody := by unfold TransferOwnershipPdu.deserializeBody; infer_instance
instance (x : IsPartOfPdu) : Puts x.serializeBody := by unfold IsPartOfPdu.serializeBody; puts
instance : Steps IsPartOfPdu.deserializeBody := by unfold IsPartOfPdu.deserializeBody; infer_instance
instance : Reserves 0 IsPartOfPdu.deserializeBody := by unfold IsPartOfPdu.deserializeBody; infer_instance
instance (x : InformationOperationsReportPdu) : Puts x.serializeBody := by unfold InformationOperationsReportPdu.serializeBody; puts
instance : Steps InformationOperationsReportPdu.deserializeBody := by unfold InformationOperationsReportPdu.deserializeBody; infer_instance
instance (x : InformationOperationsActionPdu) : Puts x.serializeBody := by unfold InformationOperationsActionPdu.serializeBody; puts
instance : Steps InformationOperationsActionPdu.deserializeBody := by unfold InformationOperationsActionPdu.deserializeBody; infer_instance
instance (x : ServiceRequestPdu) : Puts x.serializeBody := by unfold ServiceRequestPdu.serializeBody; puts
instance : Steps ServiceRequestPdu.deserializeBody := by unfold ServiceRequestPdu.deserializeBody; infer_instance
instance : Reserves 0 ServiceRequestPdu.deserializeBody := by unfold ServiceRequestPdu.deserializeBody; infer_instance
instance (x : ResupplyOfferPdu) : Puts x.serializeBody := by unfold ResupplyOfferPdu.serializeBody; puts
instance : Steps ResupplyOfferPdu.deserializeBody := by unfold ResupplyOfferPdu.deserializeBody; infer_instance
instance : Reserves 0 ResupplyOfferPdu.deserializeBody := by unfold ResupplyOfferPdu.deserializeBody; infer_instance
instance (x : ResupplyReceivedPdu) : Puts x.serializeBody := by unfold ResupplyReceivedPdu.serializeBody; puts
instance : Steps ResupplyReceivedPdu.deserializeBody := by unfold ResupplyReceivedPdu.deserializeBody; infer_instance
instance : Reserves 0 ResupplyReceivedPdu.deserializeBody := by unfold ResupplyReceivedPdu.deserializeBody; infer_instance
instance (x : ResupplyCancelPdu) : Puts x.serializeBody := by unfold ResupplyCancelPdu.serializeBody; puts
instance : Steps ResupplyCancelPdu.deserializeBody := by unfold ResupplyCancelPdu.deserializeBody; infer_instance
instance : Reserves 0 ResupplyCancelPdu.deserializeBody := by unfold ResupplyCancelPdu.deserializeBody; infer_instance
instance (x : RepairCompletePdu) : Puts x.serializeBody := by unfold RepairCompletePdu.serializeBody; puts
instance : Steps RepairCompletePdu.deserializeBody := by unfold RepairCompletePdu.deserializeBody; infer_instance
instance : Reserves 0 RepairCompletePdu.deserializeBody := by unfold RepairCompletePdu.deserializeBody; infer_instance
instance (x : RepairResponsePdu) : Puts x.serializeBody := by unfold RepairResponsePdu.serializeBody; puts
instance : Steps RepairResponsePdu.deserializeBody := by unfold RepairResponsePdu.deserializeBody; infer_instance
instance : Reserves 0 RepairResponsePdu.deserializeBody := by unfold RepairResponsePdu.deserializeBody; infer_instance
instance (x : MinefieldStatePdu) : Puts x.serializeBody := by unfold MinefieldStatePdu.serializeBody; puts
instance : Steps MinefieldStatePdu.deserializeBody := by unfold MinefieldStatePdu.deserializeBody; infer_instance
instance : Reserves 0 MinefieldStatePdu.deserializeBody := by unfold MinefieldStatePdu.deserializeBody; infer_instance
instance (x : MinefieldQueryPdu) : Puts x.serializeBody := by unfold MinefieldQueryPdu.serializeBody; puts
instance : Steps MinefieldQueryPdu.deserializeBody := by unfold MinefieldQueryPdu.deserializeBody; infer_instance
instance : Reserves 0 MinefieldQueryPdu.deserializeBody := by unfold MinefieldQueryPdu.deserializeBody; infer_instance
instance (x : MinefieldDataPdu) : Puts x.serializeBody := by unfold MinefieldDataPdu.serializeBody; puts
instance : Steps MinefieldDataPdu.deserializeBody := by unfold MinefieldDataPdu.deserializeBody; infer_instance
instance : Reserves 0 MinefieldDataPdu.deserializeBody := by unfold MinefieldDataPdu.deserializeBody; infer_instance
instance (x : MinefieldResponseNackPdu) : Puts x.serializeBody := by unfold MinefieldResponseNackPdu.serializeBody; puts
instance : Steps MinefieldResponseNackPdu.deserializeBody := by unfold MinefieldResponseNackPdu.deserializeBody; infer_instance
instance : Reserves 0 MinefieldResponseNackPdu.deserializeBody := by unfold MinefieldResponseNackPdu.deserializeBody; infer_instance
instance (x : TransmitterPdu) : Puts x.serializeBody := by unfold TransmitterPdu.serializeBody; puts
instance : Steps TransmitterPdu.deserializeBody := by unfold TransmitterPdu.deserializeBody; infer_instance
instance : Reserves 0 TransmitterPdu.deserializeBody := by unfold TransmitterPdu.deserializeBody; infer_instance
instance (x : SignalPdu) : Puts x.serializeBody := by unfold SignalPdu.serializeBody; puts
instance : Steps SignalPdu.deserializeBody := by unfold SignalPdu.deserializeBody; infer_instance
instance : Reserves 0 SignalPdu.deserializeBody := by unfold SignalPdu.deserializeBody; infer_instance
instance (x : ReceiverPdu) : Puts x.serializeBody := by unfold ReceiverPdu.serializeBody; puts
instance : Steps ReceiverPdu.deserializeBody := by unfold ReceiverPdu.deserializeBody; infer_instance
instance : Reserves 0 ReceiverPdu.deserializeBody := by unfold ReceiverPdu.deserializeBody; infer_instance
instance (x : IntercomSignalPdu) : Puts x.serializeBody := by unfold IntercomSignalPdu.serializeBody; puts
instance : Steps IntercomSignalPdu.deserializeBody := by unfold IntercomSignalPdu.deserializeBody; infer_instance
instance : Reserves 0 IntercomSignalPdu.deserializeBody := by unfold IntercomSignalPdu.deserializeBody; infer_instance
instance (x : IntercomControlPdu) : Puts x.serializeBody := by unfold IntercomControlPdu.serializeBody; puts
instance : Steps IntercomControlPdu.deserializeBody := by unfold IntercomControlPdu.deserializeBody; infer_instance
instance : Reserves 0 IntercomControlPdu.deserializeBody := by unfold IntercomControlPdu.deserializeBody; infer_instance
instance (x : CreateEntityPdu) : Puts x.serializeBody := by unfold CreateEntityPdu.serializeBody; puts
instance : Steps CreateEntityPdu.deserializeBody := by unfold CreateEntityPdu.deserializeBody; infer_instance
instance : Reserves 0 CreateEntityPdu.deserializeBody := by unfold CreateEntityPdu.deserializeBody; infer_instance
instance (x : RemoveEntityPdu) : Puts x.serializeBody := by unfold RemoveEntityPdu.serializeBody; puts
instance : Steps RemoveEntityPdu.deserializeBody := by unfold RemoveEntityPdu.deserializeBody; infer_instance
instance : Reserves 0 RemoveEntityPdu.deserializeBody := by unfold RemoveEntityPdu.deserializeBody; infer_instance
instance (x : StartResumePdu) : Puts x.serializeBody := by unfold StartResumePdu.serializeBody; puts
instance : Steps StartResumePdu.deserializeBody := by unfold StartResumePdu.deserializeBody; infer_instance
instance : Reserves 0 StartResumePdu.deserializeBody := by unfold StartResumePdu.deserializeBody; infer_instance
instance (x : StopFreezePdu) : Puts x.serializeBody := by unfold StopFreezePdu.serializeBody; puts
instance : Steps StopFreezePdu.deserializeBody := by unfold StopFreezePdu.deserializeBody; infer_instance
instance : Reserves 0 StopFreezePdu.deserializeBody := by unfold StopFreezePdu.deserializeBody; infer_instance
instance (x : AcknowledgePdu) : Puts x.serializeBody := by unfold AcknowledgePdu.serializeBody; puts
instance : Steps AcknowledgePdu.deserializeBody := by unfold AcknowledgePdu.deserializeBody; infer_instance
instance : Reserves 0 AcknowledgePdu.deserializeBody := by unfold AcknowledgePdu.deserializeBody; infer_instance
instance (x : ActionRequestPdu) : Puts x.serializeBody := by unfold ActionRequestPdu.serializeBody; puts
instance : Steps ActionRequestPdu.deserializeBody := by unfold ActionRequestPdu.deserializeBody; infer_instance
instance : Reserves 0 ActionRequestPdu.deserializeBody := by unfold ActionRequestPdu.deserializeBody; infer_instance
instance (x : ActionResponsePdu) : Puts x.serializeBody := by unfold ActionResponsePdu.serializeBody; puts
instance : Steps ActionResponsePdu.deserializeBody := by unfold ActionResponsePdu.deserializeBody; infer_instance
instance : Reserves 0 ActionResponsePdu.deserializeBody := by unfold ActionResponsePdu.deserializeBody; infer_instance
instance (x : DataQueryPdu) : Puts x.serializeBody := by unfold DataQueryPdu.serializeBody; puts
instance : Steps DataQueryPdu.deserializeBody := by unfold DataQueryPdu.deserializeBody; infer_instance
instance : Reserves 0 DataQueryPdu.deserializeBody := by unfold DataQueryPdu.deserializeBody; infer_instance
instance (x : SetDataPdu) : Puts x.serializeBody := by unfold SetDataPdu.serializeBody; puts
instance : Steps SetDataPdu.deserializeBody := by unfold SetDataPdu.deserializeBody; infer_instance
instance : Reserves 0 SetDataPdu.deserializeBody := by unfold SetDataPdu.deserializeBody; infer_instance
instance (x : DataPdu) : Puts x.serializeBody := by unfold DataPdu.serializeBody; puts
instance : Steps DataPdu.deserializeBody := by unfold DataPdu.deserializeBody; infer_instance
instance : Reserves 0 DataPdu.deserializeBody := by unfold DataPdu.deserializeBody; infer_instance
instance (x : EventReportPdu) : Puts x.serializeBody := by unfold EventReportPdu.serializeBody; puts
instance : Steps EventReportPdu.deserializeBody := by unfold EventReportPdu.deserializeBody; infer_instance
instance : Reserves 0 EventReportPdu.deserializeBody := by unfold EventReportPdu.deserializeBody; infer_instance
instance (x : CommentPdu) : Puts x.serializeBody := by unfold CommentPdu.serializeBody; puts
instance : Steps CommentPdu.deserializeBody := by unfold CommentPdu.deserializeBody; infer_instance
instance : Reserves 0 CommentPdu.deserializeBody := by unfold CommentPdu.deserializeBody; infer_instance
instance (x : CreateEntityReliablePdu) : Puts x.serializeBody := by unfold CreateEntityReliablePdu.serializeBody; puts
instance : Steps CreateEntityReliablePdu.deserializeBody := by unfold CreateEntityReliablePdu.deserializeBody; infer_instance
instance : Reserves 0 CreateEntityReliablePdu.deserializeBody := by unfold CreateEntityReliablePdu.deserializeBody; infer_instance
instance (x : RemoveEntityReliablePdu) : Puts x.serializeBody := by unfold RemoveEntityReliablePdu.serializeBody; puts
instance : Steps RemoveEntityReliablePdu.deserializeBody := by unfold RemoveEntityReliablePdu.deserializeBody; infer_instance
instance : Reserves 0 RemoveEntityReliablePdu.deserializeBody := by unfold RemoveEntityReliablePdu.deserializeBody; infer_instance
instance (x : StartResumeReliablePdu) : Puts x.serializeBody := by unfold StartResumeReliablePdu.serializeBody; puts
instance : Steps StartResumeReliablePdu.deserializeBody := by unfold StartResumeReliablePdu.deserializeBody; infer_instance
instance : Reserves 0 StartResumeReliablePdu.deserializeBody := by unfold StartResumeReliablePdu.deserializeBody; infer_instance
instance (x : StopFreezeReliablePdu) : Puts x.serializeBody := by unfold StopFreezeReliablePdu.serializeBody; puts
instance : Steps StopFreezeReliablePdu.deserializeBody := by unfold StopFreezeReliablePdu.deserializeBody; infer_instance
instance : Reserves 0 StopFreezeReliablePdu.deserializeBody := by unfold StopFreezeReliablePdu.deserializeBody; infer_instance
instance (x : AcknowledgeReliablePdu) : Puts x.serializeBody := by unfold AcknowledgeReliablePdu.serializeBody; puts
instance : Steps AcknowledgeReliablePdu.deserializeBody := by unfold AcknowledgeReliablePdu.deserializeBody; infer_instance
instance : Reserves 0 AcknowledgeReliablePdu.deserializeBody := by unfold AcknowledgeReliablePdu.deserializeBody; infer_instance
instance (x : ActionRequestReliablePdu) : Puts x.serializeBody := by unfold ActionRequestReliablePdu.serializeBody; puts
instance : Steps ActionRequestReliablePdu.deserializeBody := by unfold ActionRequestReliablePdu.deserializeBody; infer_instance
instance : Reserves 0 ActionRequestReliablePdu.deserializeBody := by unfold ActionRequestReliablePdu.deserializeBody; infer_instance
instance (x : ActionResponseReliablePdu) : Puts x.serializeBody := by unfold ActionResponseReliablePdu.serializeBody; puts
instance : Steps ActionResponseReliablePdu.deserializeBody := by unfold ActionResponseReliablePdu.deserializeBody; infer_instance
instance : Reserves 0 ActionResponseReliablePdu.deserializeBody := by unfold ActionResponseReliablePdu.deserializeBody; infer_instance
instance (x : DataQueryReliablePdu) : Puts x.serializeBody := by unfold DataQueryReliablePdu.serializeBody; puts
instance : Steps DataQueryReliablePdu.deserializeBody := by unfold DataQueryReliablePdu.deserializeBody; infer_instance
instance : Reserves 0 DataQueryReliablePdu.deserializeBody := by unfold DataQueryReliablePdu.deserializeBody; infer_instance
instance (x : SetDataReliablePdu) : Puts x.serializeBody := by unfold SetDataReliablePdu.serializeBody; puts
instance : Steps SetDataReliablePdu.deserializeBody := by unfold SetDataReliablePdu.deserializeBody; infer_instance
instance : Reserves 0 SetDataReliablePdu.deserializeBody := by unfold SetDataReliablePdu.deserializeBody; infer_instance
instance (x : DataReliablePdu) : Puts x.serializeBody := by unfold DataReliablePdu.serializeBody; puts
instance : Steps DataReliablePdu.deserializeBody := by unfold DataReliablePdu.deserializeBody; infer_instance
instance : Reserves 0 DataReliablePdu.deserializeBody := by unfold DataReliablePdu.deserializeBody; infer_instance
instance (x : EventReportReliablePdu) : Puts x.serializeBody := by unfold EventReportReliablePdu.serializeBody; puts
instance : Steps EventReportReliablePdu.deserializeBody := by unfold EventReportReliablePdu.deserializeBody; infer_instance
instance : Reserves 0 EventReportReliablePdu.deserializeBody := by unfold EventReportReliablePdu.deserializeBody; infer_instance
instance (x : CommentReliablePdu) : Puts x.serializeBody := by unfold CommentReliablePdu.serializeBody; puts
instance : Steps CommentReliablePdu.deserializeBody := by unfold CommentReliablePdu.deserializeBody; infer_instance
instance : Reserves 0 CommentReliablePdu.deserializeBody := by unfold CommentReliablePdu.deserializeBody; infer_instance
instance (x : RecordQueryReliablePdu) : Puts x.serializeBody := by unfold RecordQueryReliablePdu.serializeBody; puts
instance : Steps RecordQueryReliablePdu.deserializeBody := by unfold RecordQueryReliablePdu.deserializeBody; infer_instance
instance : Reserves 0 RecordQueryReliablePdu.deserializeBody := by unfold RecordQueryReliablePdu.deserializeBody; infer_instance
instance (x : SetRecordReliablePdu) : Puts x.serializeBody := by unfold SetRecordReliablePdu.serializeBody; puts
instance : Steps SetRecordReliablePdu.deserializeBody := by unfold SetRecordReliablePdu.deserializeBody; infer_instance
instance : Reserves 0 SetRecordReliablePdu.deserializeBody := by unfold SetRecordReliablePdu.deserializeBody; infer_instance
instance (x : EnvironmentalProcessPdu) : Puts x.serializeBody := by unfold EnvironmentalProcessPdu.serializeBody; puts
instance : Steps EnvironmentalProcessPdu.deserializeBody := by unfold EnvironmentalProcessPdu.deserializeBody; infer_instance
instance : Reserves 0 EnvironmentalProcessPdu.deserializeBody := by unfold EnvironmentalProcessPdu.deserializeBody; infer_instance
instance (x : GriddedDataPdu) : Puts x.serializeBody := by unfold GriddedDataPdu.serializeBody; puts
instance : Steps GriddedDataPdu.deserializeBody := by unfold GriddedDataPdu.deserializeBody; infer_instance
instance : Reserves 0 GriddedDataPdu.deserializeBody := by unfold GriddedDataPdu.deserializeBody; infer_instance
instance (x : PointObjectStatePdu) : Puts x.serializeBody := by unfold PointObjectStatePdu.serializeBody; puts
instance : Steps PointObjectStatePdu.deserializeBody := by unfold PointObjectStatePdu.deserializeBody; infer_instance
instance : Reserves 0 PointObjectStatePdu.deserializeBody := by unfold PointObjectStatePdu.deserializeBody; infer_instance
instance (x : LinearObjectStatePdu) : Puts x.serializeBody := by unfold LinearObjectStatePdu.serializeBody; puts
instance : Steps LinearObjectStatePdu.deserializeBody := by unfold LinearObjectStatePdu.deserializeBody; infer_instance
instance : Reserves 0 LinearObjectStatePdu.deserializeBody := by unfold LinearObjectStatePdu.deserializeBody; infer_instance
instance (x : ArealObjectStatePdu) : Puts x.serializeBody := by unfold ArealObjectStatePdu.serializeBody; puts
instance : Steps ArealObjectStatePdu.deserializeBody := by unfold ArealObjectStatePdu.deserializeBody; infer_instance
instance : Reserves 0 ArealObjectStatePdu.deserializeBody := by unfold ArealObjectStatePdu.deserializeBody; infer_instance
instance (x : FirePdu) : Puts x.serializeBody := by unfold FirePdu.serializeBody; puts
instance : Steps FirePdu.deserializeBody := by unfold FirePdu.deserializeBody; infer_instance
instance : Reserves 0 FirePdu.deserializeBody := by unfold FirePdu.deserializeBody; infer_instance
instance (x : DetonationPdu) : Puts x.serializeBody := by unfold DetonationPdu.serializeBody; puts
instance : Steps DetonationPdu.deserializeBody := by unfold DetonationPdu.deserializeBody; infer_instance
instance : Reserves 0 DetonationPdu.deserializeBody := by unfold DetonationPdu.deserializeBody; infer_instance
instance (x : DirectedEnergyFirePdu) : Puts x.serializeBody := by unfold DirectedEnergyFirePdu.serializeBody; puts
instance : Steps DirectedEnergyFirePdu.deserializeBody := by unfold DirectedEnergyFirePdu.deserializeBody; infer_instance
instance : Reserves 0 DirectedEnergyFirePdu.deserializeBody := by unfold DirectedEnergyFirePdu.deserializeBody; infer_instance
instance (x : EntityDamageStatusPdu) : Puts x.serializeBody := by unfold EntityDamageStatusPdu.serializeBody; puts
instance : Steps EntityDamageStatusPdu.deserializeBody := by unfold EntityDamageStatusPdu.deserializeBody; infer_instance
instance : Reserves 0 EntityDamageStatusPdu.deserializeBody := by unfold EntityDamageStatusPdu.deserializeBody; infer_instance

theorem PduKind.puts : (k : PduKind) → (x : k.Body) → Puts (PduBody.serializeBody x)
  | .ElectromagneticEmissions, x => inferInstanceAs (Puts (ElectromagneticEmissionsPdu.serializeBody x))
  | .Designator, x => inferInstanceAs (Puts (DesignatorPdu.serializeBody x))
  | .UnderwaterAcoustic, x => inferInstanceAs (Puts (UnderwaterAcousticPdu.serializeBody x))
  | .IFF, x => inferInstanceAs (Puts (IFFPdu.serializeBody x))
  | .SupplementalEmission, x => inferInstanceAs (Puts (SupplementalEmissionPdu.serializeBody x))
  | .EntityState, x => inferInstanceAs (Puts (EntityStatePdu.serializeBody x))
  | .Collision, x => inferInstanceAs (Puts (CollisionPdu.serializeBody x))
  | .CollisionElastic, x => inferInstanceAs (Puts (CollisionElasticPdu.serializeBody x))
  | .EntityStateUpdate, x => inferInstanceAs (Puts (EntityStateUpdatePdu.serializeBody x))
  | .Attribute, x => inferInstanceAs (Puts (AttributePdu.serializeBody x))
  | .AggregateState, x => inferInstanceAs (Puts (AggregateStatePdu.serializeBody x))
  | .IsGroupOf, x => inferInstanceAs (Puts (IsGroupOfPdu.serializeBody x))
  | .TransferOwnership, x => inferInstanceAs (Puts (TransferOwnershipPdu.serializeBody x))
  | .IsPartOf, x => inferInstanceAs (Puts (IsPartOfPdu.serializeBody x))
  | .InformationOperationsReport, x => inferInstanceAs (Puts (InformationOperationsReportPdu.serializeBody x))
  | .InformationOperationsAction, x => inferInstanceAs (Puts (InformationOperationsActionPdu.serializeBody x))
  | .ServiceRequest, x => inferInstanceAs (Puts (ServiceRequestPdu.serializeBody x))
  | .ResupplyOffer, x => inferInstanceAs (Puts (ResupplyOfferPdu.serializeBody x))
  | .ResupplyReceived, x => inferInstanceAs (Puts (ResupplyReceivedPdu.serializeBody x))
  | .ResupplyCancel, x => inferInstanceAs (Puts (ResupplyCancelPdu.serializeBody x))
  | .RepairComplete, x => inferInstanceAs (Puts (RepairCompletePdu.serializeBody x))
  | .RepairResponse, x => inferInstanceAs (Puts (RepairResponsePdu.serializeBody x))
  | .MinefieldState, x => inferInstanceAs (Puts (MinefieldStatePdu.serializeBody x))
  | .MinefieldQuery, x => inferInstanceAs (Puts (MinefieldQueryPdu.serializeBody x))
  | .MinefieldData, x => inferInstanceAs (Puts (MinefieldDataPdu.serializeBody x))
  | .MinefieldResponseNack, x => inferInstanceAs (Puts (MinefieldResponseNackPdu.serializeBody x))
  | .Transmitter, x => inferInstanceAs (Puts (TransmitterPdu.serializeBody x))
  | .Signal, x => inferInstanceAs (Puts (SignalPdu.serializeBody x))
  | .Receiver, x => inferInstanceAs (Puts (ReceiverPdu.serializeBody x))
  | .IntercomSignal, x => inferInstanceAs (Puts (IntercomSignalPdu.serializeBody x))
  | .IntercomControl, x => inferInstanceAs (Puts (IntercomControlPdu.serializeBody x))
  | .CreateEntity, x => inferInstanceAs (Puts (CreateEntityPdu.serializeBody x))
  | .RemoveEntity, x => inferInstanceAs (Puts (RemoveEntityPdu.serializeBody x))
  | .StartResume, x => inferInstanceAs (Puts (StartResumePdu.serializeBody x))
  | .StopFreeze, x => inferInstanceAs (Puts (StopFreezePdu.serializeBody x))
  | .Acknowledge, x => inferInstanceAs (Puts (AcknowledgePdu.serializeBody x))
  | .ActionRequest, x => inferInstanceAs (Puts (ActionRequestPdu.serializeBody x))
  | .ActionResponse, x => inferInstanceAs (Puts (ActionResponsePdu.serializeBody x))
  | .DataQuery, x => inferInstanceAs (Puts (DataQueryPdu.serializeBody x))
  | .SetData, x => inferInstanceAs (Puts (SetDataPdu.serializeBody x))
  | .Data, x => inferInstanceAs (Puts (DataPdu.serializeBody x))
  | .EventReport, x => inferInstanceAs (Puts (EventReportPdu.serializeBody x))
  | .Comment, x => inferInstanceAs (Puts (CommentPdu.serializeBody x))
  | .CreateEntityReliable, x => inferInstanceAs (Puts (CreateEntityReliablePdu.serializeBody x))
  | .RemoveEntityReliable, x => inferInstanceAs (Puts (RemoveEntityReliablePdu.serializeBody x))
  | .StartResumeReliable, x => inferInstanceAs (Puts (StartResumeReliablePdu.serializeBody x))
  | .StopFreezeReliable, x => inferInstanceAs (Puts (StopFreezeReliablePdu.serializeBody x))
  | .AcknowledgeReliable, x => inferInstanceAs (Puts (AcknowledgeReliablePdu.serializeBody x))
  | .ActionRequestReliable, x => inferInstanceAs (Puts (ActionRequestReliablePdu.serializeBody x))
  | .ActionResponseReliable, x => inferInstanceAs (Puts (ActionResponseReliablePdu.serializeBody x))
  | .DataQueryReliable, x => inferInstanceAs (Puts (DataQueryReliablePdu.serializeBody x))
  | .SetDataReliable, x => inferInstanceAs (Puts (SetDataReliablePdu.serializeBody x))
  | .DataReliable, x => inferInstanceAs (Puts (DataReliablePdu.serializeBody x))
  | .EventReportReliable, x => inferInstanceAs (Puts (EventReportReliablePdu.serializeBody x))
  | .CommentReliable, x => inferInstanceAs (Puts (CommentReliablePdu.serializeBody x))
  | .RecordQueryReliable, x => inferInstanceAs (Puts (RecordQueryReliablePdu.serializeBody x))
  | .SetRecordReliable, x => inferInstanceAs (Puts (SetRecordReliablePdu.serializeBody x))
  | .EnvironmentalProcess, x => inferInstanceAs (Puts (EnvironmentalProcessPdu.serializeBody x))
  | .GriddedData, x => inferInstanceAs (Puts (GriddedDataPdu.serializeBody x))
  | .PointObjectState, x => inferInstanceAs (Puts (PointObjectStatePdu.serializeBody x))
  | .LinearObjectState, x => inferInstanceAs (Puts (LinearObjectStatePdu.serializeBody x))
  | .ArealObjectState, x => inferInstanceAs (Puts (ArealObjectStatePdu.serializeBody x))
  | .Fire, x => inferInstanceAs (Puts (FirePdu.serializeBody x))
  | .Detonation, x => inferInstanceAs (Puts (DetonationPdu.serializeBody x))
  | .DirectedEnergyFire, x => inferInstanceAs (Puts (DirectedEnergyFirePdu.serializeBody x))
  | .EntityDamageStatus, x => inferInstanceAs (Puts (EntityDamageStatusPdu.serializeBody x))

theorem PduKind.steps : (k : PduKind) → Steps (PduBody.deserializeBody : Get k.Body)
  | .ElectromagneticEmissions => inferInstanceAs (Steps ElectromagneticEmissionsPdu.deserializeBody)
  | .Designator => inferInstanceAs (Steps DesignatorPdu.deserializeBody)
  | .UnderwaterAcoustic => inferInstanceAs (Steps UnderwaterAcousticPdu.deserializeBody)
  | .IFF => inferInstanceAs (Steps IFFPdu.deserializeBody)
  | .SupplementalEmission => inferInstanceAs (Steps SupplementalEmissionPdu.deserializeBody)
  | .EntityState => inferInstanceAs (Steps EntityStatePdu.deserializeBody)
  | .Collision => inferInstanceAs (Steps CollisionPdu.deserializeBody)
  | .CollisionElastic => inferInstanceAs (Steps CollisionElasticPdu.deserializeBody)
  | .EntityStateUpdate => inferInstanceAs (Steps EntityStateUpdatePdu.deserializeBody)
  | .Attribute => inferInstanceAs (Steps AttributePdu.deserializeBody)
  | .AggregateState => inferInstanceAs (Steps AggregateStatePdu.deserializeBody)
  | .IsGroupOf => inferInstanceAs (Steps IsGroupOfPdu.deserializeBody)
  | .TransferOwnership => inferInstanceAs (Steps TransferOwnershipPdu.deserializeBody)
  | .IsPartOf => inferInstanceAs (Steps IsPartOfPdu.deserializeBody)
  | .InformationOperationsReport => inferInstanceAs (Steps InformationOperationsReportPdu.deserializeBody)
  | .InformationOperationsAction => inferInstanceAs (Steps InformationOperationsActionPdu.deserializeBody)
  | .ServiceRequest => inferInstanceAs (Steps ServiceRequestPdu.deserializeBody)
  | .ResupplyOffer => inferInstanceAs (Steps ResupplyOfferPdu.deserializeBody)
  | .ResupplyReceived => inferInstanceAs (Steps ResupplyReceivedPdu.deserializeBody)
  | .ResupplyCancel => inferInstanceAs (Steps ResupplyCancelPdu.deserializeBody)
  | .RepairComplete => inferInstanceAs (Steps RepairCompletePdu.deserializeBody)
  | .RepairResponse => inferInstanceAs (Steps RepairResponsePdu.deserializeBody)
  | .MinefieldState => inferInstanceAs (Steps MinefieldStatePdu.deserializeBody)
  | .MinefieldQuery => inferInstanceAs (Steps MinefieldQueryPdu.deserializeBody)
  | .MinefieldData => inferInstanceAs (Steps MinefieldDataPdu.deserializeBody)
  | .MinefieldResponseNack => inferInstanceAs (Steps MinefieldResponseNackPdu.deserializeBody)
  | .Transmitter => inferInstanceAs (Steps TransmitterPdu.deserializeBody)
  | .Signal => inferInstanceAs (Steps SignalPdu.deserializeBody)
  | .Receiver => inferInstanceAs (Steps ReceiverPdu.deserializeBody)
  | .IntercomSignal => inferInstanceAs (Steps IntercomSignalPdu.deserializeBody)
  | .IntercomControl => inferInstanceAs (Steps IntercomControlPdu.deserializeBody)
  | .CreateEntity => inferInstanceAs (Steps CreateEntityPdu.deserializeBody)
  | .RemoveEntity => inferInstanceAs (Steps RemoveEntityPdu.deserializeBody)
  | .StartResume => inferInstanceAs (Steps StartResumePdu.deserializeBody)
  | .StopFreeze => inferInstanceAs (Steps StopFreezePdu.deserializeBody)
  | .Acknowledge => inferInstanceAs (Steps AcknowledgePdu.deserializeBody)
  | .ActionRequest => inferInstanceAs (Steps ActionRequestPdu.deserializeBody)
  | .ActionResponse => inferInstanceAs (Steps ActionResponsePdu.deserializeBody)
  | .DataQuery => inferInstanceAs (Steps DataQueryPdu.deserializeBody)
  | .SetData => inferInstanceAs (Steps SetDataPdu.deserializeBody)
  | .Data => inferInstanceAs (Steps DataPdu.deserializeBody)
  | .EventReport => inferInstanceAs (Steps EventReportPdu.deserializeBody)
  | .Comment => inferInstanceAs (Steps CommentPdu.deserializeBody)
  | .CreateEntityReliable => inferInstanceAs (Steps CreateEntityReliablePdu.deserializeBody)
  | .RemoveEntityReliable => inferInstanceAs (Steps RemoveEntityReliablePdu.deserializeBody)
  | .StartResumeReliable => inferInstanceAs (Steps StartResumeReliablePdu.deserializeBody)
  | .StopFreezeReliable => inferInstanceAs (Steps StopFreezeReliablePdu.deserializeBody)
  | .AcknowledgeReliable => inferInstanceAs (Steps AcknowledgeReliablePdu.deserializeBody)
  | .ActionRequestReliable => inferInstanceAs (Steps ActionRequestReliablePdu.deserializeBody)
  | .ActionResponseReliable => inferInstanceAs (Steps ActionResponseReliablePdu.deserializeBody)
  | .DataQueryReliable => inferInstanceAs (Steps DataQueryReliablePdu.deserializeBody)
  | .SetDataReliable => inferInstanceAs (Steps SetDataReliablePdu.deserializeBody)
  | .DataReliable => inferInstanceAs (Steps DataReliablePdu.deserializeBody)
  | .EventReportReliable => inferInstanceAs (Steps EventReportReliablePdu.deserializeBody)
  | .CommentReliable => inferInstanceAs (Steps CommentReliablePdu.deserializeBody)
  | .RecordQueryReliable => inferInstanceAs (Steps RecordQueryReliablePdu.deserializeBody)
  | .SetRecordReliable => inferInstanceAs (Steps SetRecordReliablePdu.deserializeBody)
  | .EnvironmentalProcess => inferInstanceAs (Steps EnvironmentalProcessPdu.deserializeBody)
  | .GriddedData => inferInstanceAs (Steps GriddedDataPdu.deserializeBody)
  | .PointObjectState => inferInstanceAs (Steps PointObjectStatePdu.deserializeBody)
  | .LinearObjectState => inferInstanceAs (Steps LinearObjectStatePdu.deserializeBody)
  | .ArealObjectState => inferInstanceAs (Steps ArealObjectStatePdu.deserializeBody)
  | .Fire => inferInstanceAs (Steps FirePdu.deserializeBody)
  | .Detonation => inferInstanceAs (Steps DetonationPdu.deserializeBody)
  | .DirectedEnergyFire => inferInstanceAs (Steps DirectedEnergyFirePdu.deserializeBody)
  | .EntityDamageStatus => inferInstanceAs (Steps EntityDamageStatusPdu.deserializeBody)

end Dis
