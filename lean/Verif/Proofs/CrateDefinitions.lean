import Verif.Model.CrateDefinitions
import Verif.Proofs.DefinePdu
/- Generated by tools/gen_definitions.py. -/
set_option maxRecDepth 8000
namespace Dis

theorem ElectromagneticEmissionsPdu.asDefined : AsDefined ElectromagneticEmissionsPdu.definition ElectromagneticEmissionsPdu.ofFields ElectromagneticEmissionsPdu.toFields where
  of_to _ := rfl
  to_of _ := rfl
  type := rfl
  family := rfl
  default := rfl
  len y := (Fields.len_eq _ y).trans rfl
  prep _ := rfl
  ser y := (Fields.ser_eq _ y).trans rfl
  de := (Fields.de_eq _ _ _).trans rfl

theorem DesignatorPdu.asDefined : AsDefined DesignatorPdu.definition DesignatorPdu.ofFields DesignatorPdu.toFields where
  of_to _ := rfl
  to_of _ := rfl
  type := rfl
  family := rfl
  default := rfl
  len y := (Fields.len_eq _ y).trans rfl
  prep _ := rfl
  ser y := (Fields.ser_eq _ y).trans rfl
  de := (Fields.de_eq _ _ _).trans rfl

theorem UnderwaterAcousticPdu.asDefined : AsDefined UnderwaterAcousticPdu.definition UnderwaterAcousticPdu.ofFields UnderwaterAcousticPdu.toFields where
  of_to _ := rfl
  to_of _ := rfl
  type := rfl
  family := rfl
  default := rfl
  len y := (Fields.len_eq _ y).trans rfl
  prep _ := rfl
  ser y := (Fields.ser_eq _ y).trans rfl
  de := (Fields.de_eq _ _ _).trans rfl

theorem IFFPdu.asDefined : AsDefined IFFPdu.definition IFFPdu.ofFields IFFPdu.toFields where
  of_to _ := rfl
  to_of _ := rfl
  type := rfl
  family := rfl
  default := rfl
  len y := (Fields.len_eq _ y).trans rfl
  prep _ := rfl
  ser y := (Fields.ser_eq _ y).trans rfl
  de := (Fields.de_eq _ _ _).trans rfl

theorem SupplementalEmissionPdu.asDefined : AsDefined SupplementalEmissionPdu.definition SupplementalEmissionPdu.ofFields SupplementalEmissionPdu.toFields where
  of_to _ := rfl
  to_of _ := rfl
  type := rfl
  family := rfl
  default := rfl
  len y := (Fields.len_eq _ y).trans rfl
  prep _ := rfl
  ser y := (Fields.ser_eq _ y).trans rfl
  de := (Fields.de_eq _ _ _).trans rfl

theorem EntityStatePdu.asDefined : AsDefined EntityStatePdu.definition EntityStatePdu.ofFields EntityStatePdu.toFields where
  of_to _ := rfl
  to_of _ := rfl
  type := rfl
  family := rfl
  default := rfl
  len y := (Fields.len_eq _ y).trans rfl
  prep _ := rfl
  ser y := (Fields.ser_eq _ y).trans rfl
  de := (Fields.de_eq _ _ _).trans rfl

theorem CollisionPdu.asDefined : AsDefined CollisionPdu.definition CollisionPdu.ofFields CollisionPdu.toFields where
  of_to _ := rfl
  to_of _ := rfl
  type := rfl
  family := rfl
  default := rfl
  len y := (Fields.len_eq _ y).trans rfl
  prep _ := rfl
  ser y := (Fields.ser_eq _ y).trans rfl
  de := (Fields.de_eq _ _ _).trans rfl

theorem CollisionElasticPdu.asDefined : AsDefined CollisionElasticPdu.definition CollisionElasticPdu.ofFields CollisionElasticPdu.toFields where
  of_to _ := rfl
  to_of _ := rfl
  type := rfl
  family := rfl
  default := rfl
  len y := (Fields.len_eq _ y).trans rfl
  prep _ := rfl
  ser y := (Fields.ser_eq _ y).trans rfl
  de := (Fields.de_eq _ _ _).trans rfl

theorem EntityStateUpdatePdu.asDefined : AsDefined EntityStateUpdatePdu.definition EntityStateUpdatePdu.ofFields EntityStateUpdatePdu.toFields where
  of_to _ := rfl
  to_of _ := rfl
  type := rfl
  family := rfl
  default := rfl
  len y := (Fields.len_eq _ y).trans rfl
  prep _ := rfl
  ser y := (Fields.ser_eq _ y).trans rfl
  de := (Fields.de_eq _ _ _).trans rfl

theorem AttributePdu.asDefined : AsDefined AttributePdu.definition AttributePdu.ofFields AttributePdu.toFields where
  of_to _ := rfl
  to_of _ := rfl
  type := rfl
  family := rfl
  default := rfl
  len y := (Fields.len_eq _ y).trans rfl
  prep _ := rfl
  ser y := (Fields.ser_eq _ y).trans rfl
  de := (Fields.de_eq _ _ _).trans rfl

theorem AggregateStatePdu.asDefined : AsDefined AggregateStatePdu.definition AggregateStatePdu.ofFields AggregateStatePdu.toFields where
  of_to _ := rfl
  to_of _ := rfl
  type := rfl
  family := rfl
  default := rfl
  len y := (Fields.len_eq _ y).trans rfl
  prep _ := rfl
  ser y := (Fields.ser_eq _ y).trans rfl
  de := (Fields.de_eq _ _ _).trans rfl

theorem IsGroupOfPdu.asDefined : AsDefined IsGroupOfPdu.definition IsGroupOfPdu.ofFields IsGroupOfPdu.toFields where
  of_to _ := rfl
  to_of _ := rfl
  type := rfl
  family := rfl
  default := rfl
  len y := (Fields.len_eq _ y).trans rfl
  prep _ := rfl
  ser y := (Fields.ser_eq _ y).trans rfl
  de := (Fields.de_eq _ _ _).trans rfl

theorem TransferOwnershipPdu.asDefined : AsDefined TransferOwnershipPdu.definition TransferOwnershipPdu.ofFields TransferOwnershipPdu.toFields where
  of_to _ := rfl
  to_of _ := rfl
  type := rfl
  family := rfl
  default := rfl
  len y := (Fields.len_eq _ y).trans rfl
  prep _ := rfl
  ser y := (Fields.ser_eq _ y).trans rfl
  de := (Fields.de_eq _ _ _).trans rfl

theorem IsPartOfPdu.asDefined : AsDefined IsPartOfPdu.definition IsPartOfPdu.ofFields IsPartOfPdu.toFields where
  of_to _ := rfl
  to_of _ := rfl
  type := rfl
  family := rfl
  default := rfl
  len y := (Fields.len_eq _ y).trans rfl
  prep _ := rfl
  ser y := (Fields.ser_eq _ y).trans rfl
  de := (Fields.de_eq _ _ _).trans rfl

theorem InformationOperationsReportPdu.asDefined : AsDefined InformationOperationsReportPdu.definition InformationOperationsReportPdu.ofFields InformationOperationsReportPdu.toFields where
  of_to _ := rfl
  to_of _ := rfl
  type := rfl
  family := rfl
  default := rfl
  len y := (Fields.len_eq _ y).trans rfl
  prep _ := rfl
  ser y := (Fields.ser_eq _ y).trans rfl
  de := (Fields.de_eq _ _ _).trans rfl

theorem InformationOperationsActionPdu.asDefined : AsDefined InformationOperationsActionPdu.definition InformationOperationsActionPdu.ofFields InformationOperationsActionPdu.toFields where
  of_to _ := rfl
  to_of _ := rfl
  type := rfl
  family := rfl
  default := rfl
  len y := (Fields.len_eq _ y).trans rfl
  prep _ := rfl
  ser y := (Fields.ser_eq _ y).trans rfl
  de := (Fields.de_eq _ _ _).trans rfl

theorem ServiceRequestPdu.asDefined : AsDefined ServiceRequestPdu.definition ServiceRequestPdu.ofFields ServiceRequestPdu.toFields where
  of_to _ := rfl
  to_of _ := rfl
  type := rfl
  family := rfl
  default := rfl
  len y := (Fields.len_eq _ y).trans rfl
  prep _ := rfl
  ser y := (Fields.ser_eq _ y).trans rfl
  de := (Fields.de_eq _ _ _).trans rfl

theorem ResupplyOfferPdu.asDefined : AsDefined ResupplyOfferPdu.definition ResupplyOfferPdu.ofFields ResupplyOfferPdu.toFields where
  of_to _ := rfl
  to_of _ := rfl
  type := rfl
  family := rfl
  default := rfl
  len y := (Fields.len_eq _ y).trans rfl
  prep _ := rfl
  ser y := (Fields.ser_eq _ y).trans rfl
  de := (Fields.de_eq _ _ _).trans rfl

theorem ResupplyReceivedPdu.asDefined : AsDefined ResupplyReceivedPdu.definition ResupplyReceivedPdu.ofFields ResupplyReceivedPdu.toFields where
  of_to _ := rfl
  to_of _ := rfl
  type := rfl
  family := rfl
  default := rfl
  len y := (Fields.len_eq _ y).trans rfl
  prep _ := rfl
  ser y := (Fields.ser_eq _ y).trans rfl
  de := (Fields.de_eq _ _ _).trans rfl

theorem ResupplyCancelPdu.asDefined : AsDefined ResupplyCancelPdu.definition ResupplyCancelPdu.ofFields ResupplyCancelPdu.toFields where
  of_to _ := rfl
  to_of _ := rfl
  type := rfl
  family := rfl
  default := rfl
  len y := (Fields.len_eq _ y).trans rfl
  prep _ := rfl
  ser y := (Fields.ser_eq _ y).trans rfl
  de := (Fields.de_eq _ _ _).trans rfl

theorem RepairCompletePdu.asDefined : AsDefined RepairCompletePdu.definition RepairCompletePdu.ofFields RepairCompletePdu.toFields where
  of_to _ := rfl
  to_of _ := rfl
  type := rfl
  family := rfl
  default := rfl
  len y := (Fields.len_eq _ y).trans rfl
  prep _ := rfl
  ser y := (Fields.ser_eq _ y).trans rfl
  de := (Fields.de_eq _ _ _).trans rfl

theorem RepairResponsePdu.asDefined : AsDefined RepairResponsePdu.definition RepairResponsePdu.ofFields RepairResponsePdu.toFields where
  of_to _ := rfl
  to_of _ := rfl
  type := rfl
  family := rfl
  default := rfl
  len y := (Fields.len_eq _ y).trans rfl
  prep _ := rfl
  ser y := (Fields.ser_eq _ y).trans rfl
  de := (Fields.de_eq _ _ _).trans rfl

theorem MinefieldStatePdu.asDefined : AsDefined MinefieldStatePdu.definition MinefieldStatePdu.ofFields MinefieldStatePdu.toFields where
  of_to _ := rfl
  to_of _ := rfl
  type := rfl
  family := rfl
  default := rfl
  len y := (Fields.len_eq _ y).trans rfl
  prep _ := rfl
  ser y := (Fields.ser_eq _ y).trans rfl
  de := (Fields.de_eq _ _ _).trans rfl

theorem MinefieldQueryPdu.asDefined : AsDefined MinefieldQueryPdu.definition MinefieldQueryPdu.ofFields MinefieldQueryPdu.toFields where
  of_to _ := rfl
  to_of _ := rfl
  type := rfl
  family := rfl
  default := rfl
  len y := (Fields.len_eq _ y).trans rfl
  prep _ := rfl
  ser y := (Fields.ser_eq _ y).trans rfl
  de := (Fields.de_eq _ _ _).trans rfl

theorem MinefieldDataPdu.asDefined : AsDefined MinefieldDataPdu.definition MinefieldDataPdu.ofFields MinefieldDataPdu.toFields where
  of_to _ := rfl
  to_of _ := rfl
  type := rfl
  family := rfl
  default := rfl
  len y := (Fields.len_eq _ y).trans rfl
  prep _ := rfl
  ser y := (Fields.ser_eq _ y).trans rfl
  de := (Fields.de_eq _ _ _).trans rfl

theorem MinefieldResponseNackPdu.asDefined : AsDefined MinefieldResponseNackPdu.definition MinefieldResponseNackPdu.ofFields MinefieldResponseNackPdu.toFields where
  of_to _ := rfl
  to_of _ := rfl
  type := rfl
  family := rfl
  default := rfl
  len y := (Fields.len_eq _ y).trans rfl
  prep _ := rfl
  ser y := (Fields.ser_eq _ y).trans rfl
  de := (Fields.de_eq _ _ _).trans rfl

theorem TransmitterPdu.asDefined : AsDefined TransmitterPdu.definition TransmitterPdu.ofFields TransmitterPdu.toFields where
  of_to _ := rfl
  to_of _ := rfl
  type := rfl
  family := rfl
  default := rfl
  len y := (Fields.len_eq _ y).trans rfl
  prep _ := rfl
  ser y := (Fields.ser_eq _ y).trans rfl
  de := (Fields.de_eq _ _ _).trans rfl

theorem SignalPdu.asDefined : AsDefined SignalPdu.definition SignalPdu.ofFields SignalPdu.toFields where
  of_to _ := rfl
  to_of _ := rfl
  type := rfl
  family := rfl
  default := rfl
  len y := (Fields.len_eq _ y).trans rfl
  prep _ := rfl
  ser y := (Fields.ser_eq _ y).trans rfl
  de := (Fields.de_eq _ _ _).trans rfl

theorem ReceiverPdu.asDefined : AsDefined ReceiverPdu.definition ReceiverPdu.ofFields ReceiverPdu.toFields where
  of_to _ := rfl
  to_of _ := rfl
  type := rfl
  family := rfl
  default := rfl
  len y := (Fields.len_eq _ y).trans rfl
  prep _ := rfl
  ser y := (Fields.ser_eq _ y).trans rfl
  de := (Fields.de_eq _ _ _).trans rfl

theorem IntercomSignalPdu.asDefined : AsDefined IntercomSignalPdu.definition IntercomSignalPdu.ofFields IntercomSignalPdu.toFields where
  of_to _ := rfl
  to_of _ := rfl
  type := rfl
  family := rfl
  default := rfl
  len y := (Fields.len_eq _ y).trans rfl
  prep _ := rfl
  ser y := (Fields.ser_eq _ y).trans rfl
  de := (Fields.de_eq _ _ _).trans rfl

theorem IntercomControlPdu.asDefined : AsDefined IntercomControlPdu.definition IntercomControlPdu.ofFields IntercomControlPdu.toFields where
  of_to _ := rfl
  to_of _ := rfl
  type := rfl
  family := rfl
  default := rfl
  len y := (Fields.len_eq _ y).trans rfl
  prep _ := rfl
  ser y := (Fields.ser_eq _ y).trans rfl
  de := (Fields.de_eq _ _ _).trans rfl

theorem CreateEntityPdu.asDefined : AsDefined CreateEntityPdu.definition CreateEntityPdu.ofFields CreateEntityPdu.toFields where
  of_to _ := rfl
  to_of _ := rfl
  type := rfl
  family := rfl
  default := rfl
  len y := (Fields.len_eq _ y).trans rfl
  prep _ := rfl
  ser y := (Fields.ser_eq _ y).trans rfl
  de := (Fields.de_eq _ _ _).trans rfl

theorem RemoveEntityPdu.asDefined : AsDefined RemoveEntityPdu.definition RemoveEntityPdu.ofFields RemoveEntityPdu.toFields where
  of_to _ := rfl
  to_of _ := rfl
  type := rfl
  family := rfl
  default := rfl
  len y := (Fields.len_eq _ y).trans rfl
  prep _ := rfl
  ser y := (Fields.ser_eq _ y).trans rfl
  de := (Fields.de_eq _ _ _).trans rfl

theorem StartResumePdu.asDefined : AsDefined StartResumePdu.definition StartResumePdu.ofFields StartResumePdu.toFields where
  of_to _ := rfl
  to_of _ := rfl
  type := rfl
  family := rfl
  default := rfl
  len y := (Fields.len_eq _ y).trans rfl
  prep _ := rfl
  ser y := (Fields.ser_eq _ y).trans rfl
  de := (Fields.de_eq _ _ _).trans rfl

theorem StopFreezePdu.asDefined : AsDefined StopFreezePdu.definition StopFreezePdu.ofFields StopFreezePdu.toFields where
  of_to _ := rfl
  to_of _ := rfl
  type := rfl
  family := rfl
  default := rfl
  len y := (Fields.len_eq _ y).trans rfl
  prep _ := rfl
  ser y := (Fields.ser_eq _ y).trans rfl
  de := (Fields.de_eq _ _ _).trans rfl

theorem AcknowledgePdu.asDefined : AsDefined AcknowledgePdu.definition AcknowledgePdu.ofFields AcknowledgePdu.toFields where
  of_to _ := rfl
  to_of _ := rfl
  type := rfl
  family := rfl
  default := rfl
  len y := (Fields.len_eq _ y).trans rfl
  prep _ := rfl
  ser y := (Fields.ser_eq _ y).trans rfl
  de := (Fields.de_eq _ _ _).trans rfl

theorem ActionRequestPdu.asDefined : AsDefined ActionRequestPdu.definition ActionRequestPdu.ofFields ActionRequestPdu.toFields where
  of_to _ := rfl
  to_of _ := rfl
  type := rfl
  family := rfl
  default := rfl
  len y := (Fields.len_eq _ y).trans rfl
  prep _ := rfl
  ser y := (Fields.ser_eq _ y).trans rfl
  de := (Fields.de_eq _ _ _).trans rfl

theorem ActionResponsePdu.asDefined : AsDefined ActionResponsePdu.definition ActionResponsePdu.ofFields ActionResponsePdu.toFields where
  of_to _ := rfl
  to_of _ := rfl
  type := rfl
  family := rfl
  default := rfl
  len y := (Fields.len_eq _ y).trans rfl
  prep _ := rfl
  ser y := (Fields.ser_eq _ y).trans rfl
  de := (Fields.de_eq _ _ _).trans rfl

theorem DataQueryPdu.asDefined : AsDefined DataQueryPdu.definition DataQueryPdu.ofFields DataQueryPdu.toFields where
  of_to _ := rfl
  to_of _ := rfl
  type := rfl
  family := rfl
  default := rfl
  len y := (Fields.len_eq _ y).trans rfl
  prep _ := rfl
  ser y := (Fields.ser_eq _ y).trans rfl
  de := (Fields.de_eq _ _ _).trans rfl

theorem SetDataPdu.asDefined : AsDefined SetDataPdu.definition SetDataPdu.ofFields SetDataPdu.toFields where
  of_to _ := rfl
  to_of _ := rfl
  type := rfl
  family := rfl
  default := rfl
  len y := (Fields.len_eq _ y).trans rfl
  prep _ := rfl
  ser y := (Fields.ser_eq _ y).trans rfl
  de := (Fields.de_eq _ _ _).trans rfl

theorem DataPdu.asDefined : AsDefined DataPdu.definition DataPdu.ofFields DataPdu.toFields where
  of_to _ := rfl
  to_of _ := rfl
  type := rfl
  family := rfl
  default := rfl
  len y := (Fields.len_eq _ y).trans rfl
  prep _ := rfl
  ser y := (Fields.ser_eq _ y).trans rfl
  de := (Fields.de_eq _ _ _).trans rfl

theorem EventReportPdu.asDefined : AsDefined EventReportPdu.definition EventReportPdu.ofFields EventReportPdu.toFields where
  of_to _ := rfl
  to_of _ := rfl
  type := rfl
  family := rfl
  default := rfl
  len y := (Fields.len_eq _ y).trans rfl
  prep _ := rfl
  ser y := (Fields.ser_eq _ y).trans rfl
  de := (Fields.de_eq _ _ _).trans rfl

theorem CommentPdu.asDefined : AsDefined CommentPdu.definition CommentPdu.ofFields CommentPdu.toFields where
  of_to _ := rfl
  to_of _ := rfl
  type := rfl
  family := rfl
  default := rfl
  len y := (Fields.len_eq _ y).trans rfl
  prep _ := rfl
  ser y := (Fields.ser_eq _ y).trans rfl
  de := (Fields.de_eq _ _ _).trans rfl

theorem CreateEntityReliablePdu.asDefined : AsDefined CreateEntityReliablePdu.definition CreateEntityReliablePdu.ofFields CreateEntityReliablePdu.toFields where
  of_to _ := rfl
  to_of _ := rfl
  type := rfl
  family := rfl
  default := rfl
  len y := (Fields.len_eq _ y).trans rfl
  prep _ := rfl
  ser y := (Fields.ser_eq _ y).trans rfl
  de := (Fields.de_eq _ _ _).trans rfl

theorem RemoveEntityReliablePdu.asDefined : AsDefined RemoveEntityReliablePdu.definition RemoveEntityReliablePdu.ofFields RemoveEntityReliablePdu.toFields where
  of_to _ := rfl
  to_of _ := rfl
  type := rfl
  family := rfl
  default := rfl
  len y := (Fields.len_eq _ y).trans rfl
  prep _ := rfl
  ser y := (Fields.ser_eq _ y).trans rfl
  de := (Fields.de_eq _ _ _).trans rfl

theorem StartResumeReliablePdu.asDefined : AsDefined StartResumeReliablePdu.definition StartResumeReliablePdu.ofFields StartResumeReliablePdu.toFields where
  of_to _ := rfl
  to_of _ := rfl
  type := rfl
  family := rfl
  default := rfl
  len y := (Fields.len_eq _ y).trans rfl
  prep _ := rfl
  ser y := (Fields.ser_eq _ y).trans rfl
  de := (Fields.de_eq _ _ _).trans rfl

theorem StopFreezeReliablePdu.asDefined : AsDefined StopFreezeReliablePdu.definition StopFreezeReliablePdu.ofFields StopFreezeReliablePdu.toFields where
  of_to _ := rfl
  to_of _ := rfl
  type := rfl
  family := rfl
  default := rfl
  len y := (Fields.len_eq _ y).trans rfl
  prep _ := rfl
  ser y := (Fields.ser_eq _ y).trans rfl
  de := (Fields.de_eq _ _ _).trans rfl

theorem AcknowledgeReliablePdu.asDefined : AsDefined AcknowledgeReliablePdu.definition AcknowledgeReliablePdu.ofFields AcknowledgeReliablePdu.toFields where
  of_to _ := rfl
  to_of _ := rfl
  type := rfl
  family := rfl
  default := rfl
  len y := (Fields.len_eq _ y).trans rfl
  prep _ := rfl
  ser y := (Fields.ser_eq _ y).trans rfl
  de := (Fields.de_eq _ _ _).trans rfl

theorem ActionRequestReliablePdu.asDefined : AsDefined ActionRequestReliablePdu.definition ActionRequestReliablePdu.ofFields ActionRequestReliablePdu.toFields where
  of_to _ := rfl
  to_of _ := rfl
  type := rfl
  family := rfl
  default := rfl
  len y := (Fields.len_eq _ y).trans rfl
  prep _ := rfl
  ser y := (Fields.ser_eq _ y).trans rfl
  de := (Fields.de_eq _ _ _).trans rfl

theorem ActionResponseReliablePdu.asDefined : AsDefined ActionResponseReliablePdu.definition ActionResponseReliablePdu.ofFields ActionResponseReliablePdu.toFields where
  of_to _ := rfl
  to_of _ := rfl
  type := rfl
  family := rfl
  default := rfl
  len y := (Fields.len_eq _ y).trans rfl
  prep _ := rfl
  ser y := (Fields.ser_eq _ y).trans rfl
  de := (Fields.de_eq _ _ _).trans rfl

theorem DataQueryReliablePdu.asDefined : AsDefined DataQueryReliablePdu.definition DataQueryReliablePdu.ofFields DataQueryReliablePdu.toFields where
  of_to _ := rfl
  to_of _ := rfl
  type := rfl
  family := rfl
  default := rfl
  len y := (Fields.len_eq _ y).trans rfl
  prep _ := rfl
  ser y := (Fields.ser_eq _ y).trans rfl
  de := (Fields.de_eq _ _ _).trans rfl

theorem SetDataReliablePdu.asDefined : AsDefined SetDataReliablePdu.definition SetDataReliablePdu.ofFields SetDataReliablePdu.toFields where
  of_to _ := rfl
  to_of _ := rfl
  type := rfl
  family := rfl
  default := rfl
  len y := (Fields.len_eq _ y).trans rfl
  prep _ := rfl
  ser y := (Fields.ser_eq _ y).trans rfl
  de := (Fields.de_eq _ _ _).trans rfl

theorem DataReliablePdu.asDefined : AsDefined DataReliablePdu.definition DataReliablePdu.ofFields DataReliablePdu.toFields where
  of_to _ := rfl
  to_of _ := rfl
  type := rfl
  family := rfl
  default := rfl
  len y := (Fields.len_eq _ y).trans rfl
  prep _ := rfl
  ser y := (Fields.ser_eq _ y).trans rfl
  de := (Fields.de_eq _ _ _).trans rfl

theorem EventReportReliablePdu.asDefined : AsDefined EventReportReliablePdu.definition EventReportReliablePdu.ofFields EventReportReliablePdu.toFields where
  of_to _ := rfl
  to_of _ := rfl
  type := rfl
  family := rfl
  default := rfl
  len y := (Fields.len_eq _ y).trans rfl
  prep _ := rfl
  ser y := (Fields.ser_eq _ y).trans rfl
  de := (Fields.de_eq _ _ _).trans rfl

theorem CommentReliablePdu.asDefined : AsDefined CommentReliablePdu.definition CommentReliablePdu.ofFields CommentReliablePdu.toFields where
  of_to _ := rfl
  to_of _ := rfl
  type := rfl
  family := rfl
  default := rfl
  len y := (Fields.len_eq _ y).trans rfl
  prep _ := rfl
  ser y := (Fields.ser_eq _ y).trans rfl
  de := (Fields.de_eq _ _ _).trans rfl

theorem RecordQueryReliablePdu.asDefined : AsDefined RecordQueryReliablePdu.definition RecordQueryReliablePdu.ofFields RecordQueryReliablePdu.toFields where
  of_to _ := rfl
  to_of _ := rfl
  type := rfl
  family := rfl
  default := rfl
  len y := (Fields.len_eq _ y).trans rfl
  prep _ := rfl
  ser y := (Fields.ser_eq _ y).trans rfl
  de := (Fields.de_eq _ _ _).trans rfl

theorem SetRecordReliablePdu.asDefined : AsDefined SetRecordReliablePdu.definition SetRecordReliablePdu.ofFields SetRecordReliablePdu.toFields where
  of_to _ := rfl
  to_of _ := rfl
  type := rfl
  family := rfl
  default := rfl
  len y := (Fields.len_eq _ y).trans rfl
  prep _ := rfl
  ser y := (Fields.ser_eq _ y).trans rfl
  de := (Fields.de_eq _ _ _).trans rfl

theorem EnvironmentalProcessPdu.asDefined : AsDefined EnvironmentalProcessPdu.definition EnvironmentalProcessPdu.ofFields EnvironmentalProcessPdu.toFields where
  of_to _ := rfl
  to_of _ := rfl
  type := rfl
  family := rfl
  default := rfl
  len y := (Fields.len_eq _ y).trans rfl
  prep _ := rfl
  ser y := (Fields.ser_eq _ y).trans rfl
  de := (Fields.de_eq _ _ _).trans rfl

theorem GriddedDataPdu.asDefined : AsDefined GriddedDataPdu.definition GriddedDataPdu.ofFields GriddedDataPdu.toFields where
  of_to _ := rfl
  to_of _ := rfl
  type := rfl
  family := rfl
  default := rfl
  len y := (Fields.len_eq _ y).trans rfl
  prep _ := rfl
  ser y := (Fields.ser_eq _ y).trans rfl
  de := (Fields.de_eq _ _ _).trans rfl

theorem PointObjectStatePdu.asDefined : AsDefined PointObjectStatePdu.definition PointObjectStatePdu.ofFields PointObjectStatePdu.toFields where
  of_to _ := rfl
  to_of _ := rfl
  type := rfl
  family := rfl
  default := rfl
  len y := (Fields.len_eq _ y).trans rfl
  prep _ := rfl
  ser y := (Fields.ser_eq _ y).trans rfl
  de := (Fields.de_eq _ _ _).trans rfl

theorem LinearObjectStatePdu.asDefined : AsDefined LinearObjectStatePdu.definition LinearObjectStatePdu.ofFields LinearObjectStatePdu.toFields where
  of_to _ := rfl
  to_of _ := rfl
  type := rfl
  family := rfl
  default := rfl
  len y := (Fields.len_eq _ y).trans rfl
  prep _ := rfl
  ser y := (Fields.ser_eq _ y).trans rfl
  de := (Fields.de_eq _ _ _).trans rfl

theorem ArealObjectStatePdu.asDefined : AsDefined ArealObjectStatePdu.definition ArealObjectStatePdu.ofFields ArealObjectStatePdu.toFields where
  of_to _ := rfl
  to_of _ := rfl
  type := rfl
  family := rfl
  default := rfl
  len y := (Fields.len_eq _ y).trans rfl
  prep _ := rfl
  ser y := (Fields.ser_eq _ y).trans rfl
  de := (Fields.de_eq _ _ _).trans rfl

theorem FirePdu.asDefined : AsDefined FirePdu.definition FirePdu.ofFields FirePdu.toFields where
  of_to _ := rfl
  to_of _ := rfl
  type := rfl
  family := rfl
  default := rfl
  len y := (Fields.len_eq _ y).trans rfl
  prep _ := rfl
  ser y := (Fields.ser_eq _ y).trans rfl
  de := (Fields.de_eq _ _ _).trans rfl

theorem DetonationPdu.asDefined : AsDefined DetonationPdu.definition DetonationPdu.ofFields DetonationPdu.toFields where
  of_to _ := rfl
  to_of _ := rfl
  type := rfl
  family := rfl
  default := rfl
  len y := (Fields.len_eq _ y).trans rfl
  prep _ := rfl
  ser y := (Fields.ser_eq _ y).trans rfl
  de := (Fields.de_eq _ _ _).trans rfl

theorem DirectedEnergyFirePdu.asDefined : AsDefined DirectedEnergyFirePdu.definition DirectedEnergyFirePdu.ofFields DirectedEnergyFirePdu.toFields where
  of_to _ := rfl
  to_of _ := rfl
  type := rfl
  family := rfl
  default := rfl
  len y := (Fields.len_eq _ y).trans rfl
  prep _ := rfl
  ser y := (Fields.ser_eq _ y).trans rfl
  de := (Fields.de_eq _ _ _).trans rfl

theorem EntityDamageStatusPdu.asDefined : AsDefined EntityDamageStatusPdu.definition EntityDamageStatusPdu.ofFields EntityDamageStatusPdu.toFields where
  of_to _ := rfl
  to_of _ := rfl
  type := rfl
  family := rfl
  default := rfl
  len y := (Fields.len_eq _ y).trans rfl
  prep _ := rfl
  ser y := (Fields.ser_eq _ y).trans rfl
  de := (Fields.de_eq _ _ _).trans rfl

theorem PduKind.asDefined (k : PduKind) : AsDefined k.definition k.ofFields k.toFields := by
  cases k
  · exact ElectromagneticEmissionsPdu.asDefined
  · exact DesignatorPdu.asDefined
  · exact UnderwaterAcousticPdu.asDefined
  · exact IFFPdu.asDefined
  · exact SupplementalEmissionPdu.asDefined
  · exact EntityStatePdu.asDefined
  · exact CollisionPdu.asDefined
  · exact CollisionElasticPdu.asDefined
  · exact EntityStateUpdatePdu.asDefined
  · exact AttributePdu.asDefined
  · exact AggregateStatePdu.asDefined
  · exact IsGroupOfPdu.asDefined
  · exact TransferOwnershipPdu.asDefined
  · exact IsPartOfPdu.asDefined
  · exact InformationOperationsReportPdu.asDefined
  · exact InformationOperationsActionPdu.asDefined
  · exact ServiceRequestPdu.asDefined
  · exact ResupplyOfferPdu.asDefined
  · exact ResupplyReceivedPdu.asDefined
  · exact ResupplyCancelPdu.asDefined
  · exact RepairCompletePdu.asDefined
  · exact RepairResponsePdu.asDefined
  · exact MinefieldStatePdu.asDefined
  · exact MinefieldQueryPdu.asDefined
  · exact MinefieldDataPdu.asDefined
  · exact MinefieldResponseNackPdu.asDefined
  · exact TransmitterPdu.asDefined
  · exact SignalPdu.asDefined
  · exact ReceiverPdu.asDefined
  · exact IntercomSignalPdu.asDefined
  · exact IntercomControlPdu.asDefined
  · exact CreateEntityPdu.asDefined
  · exact RemoveEntityPdu.asDefined
  · exact StartResumePdu.asDefined
  · exact StopFreezePdu.asDefined
  · exact AcknowledgePdu.asDefined
  · exact ActionRequestPdu.asDefined
  · exact ActionResponsePdu.asDefined
  · exact DataQueryPdu.asDefined
  · exact SetDataPdu.asDefined
  · exact DataPdu.asDefined
  · exact EventReportPdu.asDefined
  · exact CommentPdu.asDefined
  · exact CreateEntityReliablePdu.asDefined
  · exact RemoveEntityReliablePdu.asDefined
  · exact StartResumeReliablePdu.asDefined
  · exact StopFreezeReliablePdu.asDefined
  · exact AcknowledgeReliablePdu.asDefined
  · exact ActionRequestReliablePdu.asDefined
  · exact ActionResponseReliablePdu.asDefined
  · exact DataQueryReliablePdu.asDefined
  · exact SetDataReliablePdu.asDefined
  · exact DataReliablePdu.asDefined
  · exact EventReportReliablePdu.asDefined
  · exact CommentReliablePdu.asDefined
  · exact RecordQueryReliablePdu.asDefined
  · exact SetRecordReliablePdu.asDefined
  · exact EnvironmentalProcessPdu.asDefined
  · exact GriddedDataPdu.asDefined
  · exact PointObjectStatePdu.asDefined
  · exact LinearObjectStatePdu.asDefined
  · exact ArealObjectStatePdu.asDefined
  · exact FirePdu.asDefined
  · exact DetonationPdu.asDefined
  · exact DirectedEnergyFirePdu.asDefined
  · exact EntityDamageStatusPdu.asDefined
end Dis
