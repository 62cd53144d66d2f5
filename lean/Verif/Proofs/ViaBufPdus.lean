import Verif.Proofs.ViaBufRecords
/- Generated by tools/gen_viabuf.py. -/
set_option synthInstance.maxSize 1000
set_option synthInstance.maxHeartbeats 400000
set_option maxRecDepth 4000
namespace Dis

instance : ViaBuf ElectromagneticEmissionsPdu.deserializeBody := by unfold ElectromagneticEmissionsPdu.deserializeBody; infer_instance
instance : ViaBuf DesignatorPdu.deserializeBody := by unfold DesignatorPdu.deserializeBody; infer_instance
instance : ViaBuf UnderwaterAcousticPdu.deserializeBody := by unfold UnderwaterAcousticPdu.deserializeBody; infer_instance
instance : ViaBuf IFFPdu.deserializeBody := by unfold IFFPdu.deserializeBody; infer_instance
instance : ViaBuf SupplementalEmissionPdu.deserializeBody := by unfold SupplementalEmissionPdu.deserializeBody; infer_instance
instance : ViaBuf EntityStatePdu.deserializeBody := by unfold EntityStatePdu.deserializeBody; infer_instance
instance : ViaBuf CollisionPdu.deserializeBody := by unfold CollisionPdu.deserializeBody; infer_instance
instance : ViaBuf CollisionElasticPdu.deserializeBody := by unfold CollisionElasticPdu.deserializeBody; infer_instance
instance : ViaBuf EntityStateUpdatePdu.deserializeBody := by unfold EntityStateUpdatePdu.deserializeBody; infer_instance
instance : ViaBuf AttributePdu.deserializeBody := by unfold AttributePdu.deserializeBody; infer_instance
instance : ViaBuf AggregateStatePdu.deserializeBody := by unfold AggregateStatePdu.deserializeBody; infer_instance
instance : ViaBuf IsGroupOfPdu.deserializeBody := by unfold IsGroupOfPdu.deserializeBody; infer_instance
instance : ViaBuf TransferOwnershipPdu.deserializeBody := by unfold TransferOwnershipPdu.deserializeBody; infer_instance
instance : ViaBuf IsPartOfPdu.deserializeBody := by unfold IsPartOfPdu.deserializeBody; infer_instance
instance : ViaBuf InformationOperationsReportPdu.deserializeBody := by unfold InformationOperationsReportPdu.deserializeBody; infer_instance
instance : ViaBuf InformationOperationsActionPdu.deserializeBody := by unfold InformationOperationsActionPdu.deserializeBody; infer_instance
instance : ViaBuf ServiceRequestPdu.deserializeBody := by unfold ServiceRequestPdu.deserializeBody; infer_instance
instance : ViaBuf ResupplyOfferPdu.deserializeBody := by unfold ResupplyOfferPdu.deserializeBody; infer_instance
instance : ViaBuf ResupplyReceivedPdu.deserializeBody := by unfold ResupplyReceivedPdu.deserializeBody; infer_instance
instance : ViaBuf ResupplyCancelPdu.deserializeBody := by unfold ResupplyCancelPdu.deserializeBody; infer_instance
instance : ViaBuf RepairCompletePdu.deserializeBody := by unfold RepairCompletePdu.deserializeBody; infer_instance
instance : ViaBuf RepairResponsePdu.deserializeBody := by unfold RepairResponsePdu.deserializeBody; infer_instance
instance : ViaBuf MinefieldStatePdu.deserializeBody := by unfold MinefieldStatePdu.deserializeBody; infer_instance
instance : ViaBuf MinefieldQueryPdu.deserializeBody := by unfold MinefieldQueryPdu.deserializeBody; infer_instance
instance : ViaBuf MinefieldDataPdu.deserializeBody := by unfold MinefieldDataPdu.deserializeBody; infer_instance
instance : ViaBuf MinefieldResponseNackPdu.deserializeBody := by unfold MinefieldResponseNackPdu.deserializeBody; infer_instance
instance : ViaBuf TransmitterPdu.deserializeBody := by unfold TransmitterPdu.deserializeBody; infer_instance
instance : ViaBuf SignalPdu.deserializeBody := by unfold SignalPdu.deserializeBody; infer_instance
instance : ViaBuf ReceiverPdu.deserializeBody := by unfold ReceiverPdu.deserializeBody; infer_instance
instance : ViaBuf IntercomSignalPdu.deserializeBody := by unfold IntercomSignalPdu.deserializeBody; infer_instance
instance : ViaBuf IntercomControlPdu.deserializeBody := by unfold IntercomControlPdu.deserializeBody; infer_instance
instance : ViaBuf CreateEntityPdu.deserializeBody := by unfold CreateEntityPdu.deserializeBody; infer_instance
instance : ViaBuf RemoveEntityPdu.deserializeBody := by unfold RemoveEntityPdu.deserializeBody; infer_instance
instance : ViaBuf StartResumePdu.deserializeBody := by unfold StartResumePdu.deserializeBody; infer_instance
instance : ViaBuf StopFreezePdu.deserializeBody := by unfold StopFreezePdu.deserializeBody; infer_instance
instance : ViaBuf AcknowledgePdu.deserializeBody := by unfold AcknowledgePdu.deserializeBody; infer_instance
instance : ViaBuf ActionRequestPdu.deserializeBody := by unfold ActionRequestPdu.deserializeBody; infer_instance
instance : ViaBuf ActionResponsePdu.deserializeBody := by unfold ActionResponsePdu.deserializeBody; infer_instance
instance : ViaBuf DataQueryPdu.deserializeBody := by unfold DataQueryPdu.deserializeBody; infer_instance
instance : ViaBuf SetDataPdu.deserializeBody := by unfold SetDataPdu.deserializeBody; infer_instance
instance : ViaBuf DataPdu.deserializeBody := by unfold DataPdu.deserializeBody; infer_instance
instance : ViaBuf EventReportPdu.deserializeBody := by unfold EventReportPdu.deserializeBody; infer_instance
instance : ViaBuf CommentPdu.deserializeBody := by unfold CommentPdu.deserializeBody; infer_instance
instance : ViaBuf CreateEntityReliablePdu.deserializeBody := by unfold CreateEntityReliablePdu.deserializeBody; infer_instance
instance : ViaBuf RemoveEntityReliablePdu.deserializeBody := by unfold RemoveEntityReliablePdu.deserializeBody; infer_instance
instance : ViaBuf StartResumeReliablePdu.deserializeBody := by unfold StartResumeReliablePdu.deserializeBody; infer_instance
instance : ViaBuf StopFreezeReliablePdu.deserializeBody := by unfold StopFreezeReliablePdu.deserializeBody; infer_instance
instance : ViaBuf AcknowledgeReliablePdu.deserializeBody := by unfold AcknowledgeReliablePdu.deserializeBody; infer_instance
instance : ViaBuf ActionRequestReliablePdu.deserializeBody := by unfold ActionRequestReliablePdu.deserializeBody; infer_instance
instance : ViaBuf ActionResponseReliablePdu.deserializeBody := by unfold ActionResponseReliablePdu.deserializeBody; infer_instance
instance : ViaBuf DataQueryReliablePdu.deserializeBody := by unfold DataQueryReliablePdu.deserializeBody; infer_instance
instance : ViaBuf SetDataReliablePdu.deserializeBody := by unfold SetDataReliablePdu.deserializeBody; infer_instance
instance : ViaBuf DataReliablePdu.deserializeBody := by unfold DataReliablePdu.deserializeBody; infer_instance
instance : ViaBuf EventReportReliablePdu.deserializeBody := by unfold EventReportReliablePdu.deserializeBody; infer_instance
instance : ViaBuf CommentReliablePdu.deserializeBody := by unfold CommentReliablePdu.deserializeBody; infer_instance
instance : ViaBuf RecordQueryReliablePdu.deserializeBody := by unfold RecordQueryReliablePdu.deserializeBody; infer_instance
instance : ViaBuf SetRecordReliablePdu.deserializeBody := by unfold SetRecordReliablePdu.deserializeBody; infer_instance
instance : ViaBuf EnvironmentalProcessPdu.deserializeBody := by unfold EnvironmentalProcessPdu.deserializeBody; infer_instance
instance : ViaBuf GriddedDataPdu.deserializeBody := by unfold GriddedDataPdu.deserializeBody; infer_instance
instance : ViaBuf PointObjectStatePdu.deserializeBody := by unfold PointObjectStatePdu.deserializeBody; infer_instance
instance : ViaBuf LinearObjectStatePdu.deserializeBody := by unfold LinearObjectStatePdu.deserializeBody; infer_instance
instance : ViaBuf ArealObjectStatePdu.deserializeBody := by unfold ArealObjectStatePdu.deserializeBody; infer_instance
instance : ViaBuf FirePdu.deserializeBody := by unfold FirePdu.deserializeBody; infer_instance
instance : ViaBuf DetonationPdu.deserializeBody := by unfold DetonationPdu.deserializeBody; infer_instance
instance : ViaBuf DirectedEnergyFirePdu.deserializeBody := by unfold DirectedEnergyFirePdu.deserializeBody; infer_instance
instance : ViaBuf EntityDamageStatusPdu.deserializeBody := by unfold EntityDamageStatusPdu.deserializeBody; infer_instance

theorem PduKind.viaBuf : (k : PduKind) → ViaBuf (PduBody.deserializeBody : Get k.Body)
  | .ElectromagneticEmissions => inferInstanceAs (ViaBuf ElectromagneticEmissionsPdu.deserializeBody)
  | .Designator => inferInstanceAs (ViaBuf DesignatorPdu.deserializeBody)
  | .UnderwaterAcoustic => inferInstanceAs (ViaBuf UnderwaterAcousticPdu.deserializeBody)
  | .IFF => inferInstanceAs (ViaBuf IFFPdu.deserializeBody)
  | .SupplementalEmission => inferInstanceAs (ViaBuf SupplementalEmissionPdu.deserializeBody)
  | .EntityState => inferInstanceAs (ViaBuf EntityStatePdu.deserializeBody)
  | .Collision => inferInstanceAs (ViaBuf CollisionPdu.deserializeBody)
  | .CollisionElastic => inferInstanceAs (ViaBuf CollisionElasticPdu.deserializeBody)
  | .EntityStateUpdate => inferInstanceAs (ViaBuf EntityStateUpdatePdu.deserializeBody)
  | .Attribute => inferInstanceAs (ViaBuf AttributePdu.deserializeBody)
  | .AggregateState => inferInstanceAs (ViaBuf AggregateStatePdu.deserializeBody)
  | .IsGroupOf => inferInstanceAs (ViaBuf IsGroupOfPdu.deserializeBody)
  | .TransferOwnership => inferInstanceAs (ViaBuf TransferOwnershipPdu.deserializeBody)
  | .IsPartOf => inferInstanceAs (ViaBuf IsPartOfPdu.deserializeBody)
  | .InformationOperationsReport => inferInstanceAs (ViaBuf InformationOperationsReportPdu.deserializeBody)
  | .InformationOperationsAction => inferInstanceAs (ViaBuf InformationOperationsActionPdu.deserializeBody)
  | .ServiceRequest => inferInstanceAs (ViaBuf ServiceRequestPdu.deserializeBody)
  | .ResupplyOffer => inferInstanceAs (ViaBuf ResupplyOfferPdu.deserializeBody)
  | .ResupplyReceived => inferInstanceAs (ViaBuf ResupplyReceivedPdu.deserializeBody)
  | .ResupplyCancel => inferInstanceAs (ViaBuf ResupplyCancelPdu.deserializeBody)
  | .RepairComplete => inferInstanceAs (ViaBuf RepairCompletePdu.deserializeBody)
  | .RepairResponse => inferInstanceAs (ViaBuf RepairResponsePdu.deserializeBody)
  | .MinefieldState => inferInstanceAs (ViaBuf MinefieldStatePdu.deserializeBody)
  | .MinefieldQuery => inferInstanceAs (ViaBuf MinefieldQueryPdu.deserializeBody)
  | .MinefieldData => inferInstanceAs (ViaBuf MinefieldDataPdu.deserializeBody)
  | .MinefieldResponseNack => inferInstanceAs (ViaBuf MinefieldResponseNackPdu.deserializeBody)
  | .Transmitter => inferInstanceAs (ViaBuf TransmitterPdu.deserializeBody)
  | .Signal => inferInstanceAs (ViaBuf SignalPdu.deserializeBody)
  | .Receiver => inferInstanceAs (ViaBuf ReceiverPdu.deserializeBody)
  | .IntercomSignal => inferInstanceAs (ViaBuf IntercomSignalPdu.deserializeBody)
  | .IntercomControl => inferInstanceAs (ViaBuf IntercomControlPdu.deserializeBody)
  | .CreateEntity => inferInstanceAs (ViaBuf CreateEntityPdu.deserializeBody)
  | .RemoveEntity => inferInstanceAs (ViaBuf RemoveEntityPdu.deserializeBody)
  | .StartResume => inferInstanceAs (ViaBuf StartResumePdu.deserializeBody)
  | .StopFreeze => inferInstanceAs (ViaBuf StopFreezePdu.deserializeBody)
  | .Acknowledge => inferInstanceAs (ViaBuf AcknowledgePdu.deserializeBody)
  | .ActionRequest => inferInstanceAs (ViaBuf ActionRequestPdu.deserializeBody)
  | .ActionResponse => inferInstanceAs (ViaBuf ActionResponsePdu.deserializeBody)
  | .DataQuery => inferInstanceAs (ViaBuf DataQueryPdu.deserializeBody)
  | .SetData => inferInstanceAs (ViaBuf SetDataPdu.deserializeBody)
  | .Data => inferInstanceAs (ViaBuf DataPdu.deserializeBody)
  | .EventReport => inferInstanceAs (ViaBuf EventReportPdu.deserializeBody)
  | .Comment => inferInstanceAs (ViaBuf CommentPdu.deserializeBody)
  | .CreateEntityReliable => inferInstanceAs (ViaBuf CreateEntityReliablePdu.deserializeBody)
  | .RemoveEntityReliable => inferInstanceAs (ViaBuf RemoveEntityReliablePdu.deserializeBody)
  | .StartResumeReliable => inferInstanceAs (ViaBuf StartResumeReliablePdu.deserializeBody)
  | .StopFreezeReliable => inferInstanceAs (ViaBuf StopFreezeReliablePdu.deserializeBody)
  | .AcknowledgeReliable => inferInstanceAs (ViaBuf AcknowledgeReliablePdu.deserializeBody)
  | .ActionRequestReliable => inferInstanceAs (ViaBuf ActionRequestReliablePdu.deserializeBody)
  | .ActionResponseReliable => inferInstanceAs (ViaBuf ActionResponseReliablePdu.deserializeBody)
  | .DataQueryReliable => inferInstanceAs (ViaBuf DataQueryReliablePdu.deserializeBody)
  | .SetDataReliable => inferInstanceAs (ViaBuf SetDataReliablePdu.deserializeBody)
  | .DataReliable => inferInstanceAs (ViaBuf DataReliablePdu.deserializeBody)
  | .EventReportReliable => inferInstanceAs (ViaBuf EventReportReliablePdu.deserializeBody)
  | .CommentReliable => inferInstanceAs (ViaBuf CommentReliablePdu.deserializeBody)
  | .RecordQueryReliable => inferInstanceAs (ViaBuf RecordQueryReliablePdu.deserializeBody)
  | .SetRecordReliable => inferInstanceAs (ViaBuf SetRecordReliablePdu.deserializeBody)
  | .EnvironmentalProcess => inferInstanceAs (ViaBuf EnvironmentalProcessPdu.deserializeBody)
  | .GriddedData => inferInstanceAs (ViaBuf GriddedDataPdu.deserializeBody)
  | .PointObjectState => inferInstanceAs (ViaBuf PointObjectStatePdu.deserializeBody)
  | .LinearObjectState => inferInstanceAs (ViaBuf LinearObjectStatePdu.deserializeBody)
  | .ArealObjectState => inferInstanceAs (ViaBuf ArealObjectStatePdu.deserializeBody)
  | .Fire => inferInstanceAs (ViaBuf FirePdu.deserializeBody)
  | .Detonation => inferInstanceAs (ViaBuf DetonationPdu.deserializeBody)
  | .DirectedEnergyFire => inferInstanceAs (ViaBuf DirectedEnergyFirePdu.deserializeBody)
  | .EntityDamageStatus => inferInstanceAs (ViaBuf EntityDamageStatusPdu.deserializeBody)

end Dis
