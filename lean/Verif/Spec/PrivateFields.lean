import Verif.Spec.PduLayout
/-
The fields of the PDU kinds that no program outside the crate can assign: those written without `pub`.  They are the padding
fields.  Written by tools/gen_private.py.
-/
namespace Dis

/-- The private fields of a kind that hold one number, each with the octet it has in the message.  Missing is only the
private field of the aggregate state PDU, a list of octets: src/entity_management.rs:54. -/
def PduKind.privateFields : (k : PduKind) → List (Slot k.Body)
  -- src/distributed_emissions.rs:47
  | .ElectromagneticEmissions => [Slot.u16 26 (ElectromagneticEmissionsPdu.padding)]
  -- src/distributed_emissions.rs:70, 71
  | .Designator => [Slot.u8 73 (DesignatorPdu.padding), Slot.u16 74 (DesignatorPdu.padding2)]
  -- src/distributed_emissions.rs:88
  | .UnderwaterAcoustic => [Slot.u8 25 (UnderwaterAcousticPdu.padding)]
  -- src/entity_information.rs:66
  | .Collision => [Slot.u8 31 (CollisionPdu.padding)]
  -- src/entity_information.rs:85
  | .CollisionElastic => [Slot.u16 30 (CollisionElasticPdu.padding)]
  -- src/entity_information.rs:110
  | .EntityStateUpdate => [Slot.u8 18 (EntityStateUpdatePdu.padding)]
  -- src/entity_information.rs:130, 131, 136
  | .Attribute => [Slot.u32 16 (AttributePdu.padding), Slot.u16 20 (AttributePdu.padding2), Slot.u8 29 (AttributePdu.padding3)]
  -- src/entity_management.rs:74
  | .IsGroupOf => [Slot.u32 20 (IsGroupOfPdu.padding)]
  -- src/information_operations.rs:36, 39, 40
  | .InformationOperationsReport => [Slot.u8 21 (InformationOperationsReportPdu.padding), Slot.u16 34 (InformationOperationsReportPdu.padding2), Slot.u16 36 (InformationOperationsReportPdu.padding3)]
  -- src/information_operations.rs:61, 64
  | .InformationOperationsAction => [Slot.u32 36 (InformationOperationsActionPdu.padding), Slot.u16 52 (InformationOperationsActionPdu.padding2)]
  -- src/logistics.rs:34
  | .ServiceRequest => [Slot.u16 26 (ServiceRequestPdu.padding)]
  -- src/logistics.rs:51, 52
  | .ResupplyOffer => [Slot.u8 25 (ResupplyOfferPdu.padding), Slot.u16 26 (ResupplyOfferPdu.padding2)]
  -- src/logistics.rs:69, 70
  | .ResupplyReceived => [Slot.u8 25 (ResupplyReceivedPdu.padding), Slot.u16 26 (ResupplyReceivedPdu.padding2)]
  -- src/logistics.rs:101
  | .RepairComplete => [Slot.u16 26 (RepairCompletePdu.padding)]
  -- src/logistics.rs:117, 118
  | .RepairResponse => [Slot.u8 25 (RepairResponsePdu.padding), Slot.u16 26 (RepairResponsePdu.padding2)]
  -- src/minefield.rs:59
  | .MinefieldQuery => [Slot.u8 26 (MinefieldQueryPdu.padding)]
  -- src/minefield.rs:85
  | .MinefieldData => [Slot.u8 31 (MinefieldDataPdu.padding)]
  -- src/radio_communications.rs:57, 58
  | .Transmitter => [Slot.u8 101 (TransmitterPdu.padding), Slot.u16 102 (TransmitterPdu.padding2)]
  -- src/radio_communications.rs:98
  | .Receiver => [Slot.u16 22 (ReceiverPdu.padding)]
  -- src/simulation_management.rs:84
  | .StopFreeze => [Slot.u16 34 (StopFreezePdu.padding)]
  -- src/simulation_management.rs:178
  | .SetData => [Slot.u32 28 (SetDataPdu.padding)]
  -- src/simulation_management.rs:198
  | .Data => [Slot.u32 28 (DataPdu.padding)]
  -- src/simulation_management.rs:218
  | .EventReport => [Slot.u32 28 (EventReportPdu.padding)]
  -- src/simulation_management_with_reliability.rs:40, 41
  | .CreateEntityReliable => [Slot.u8 25 (CreateEntityReliablePdu.padding), Slot.u16 26 (CreateEntityReliablePdu.padding2)]
  -- src/simulation_management_with_reliability.rs:58, 59
  | .RemoveEntityReliable => [Slot.u8 25 (RemoveEntityReliablePdu.padding), Slot.u16 26 (RemoveEntityReliablePdu.padding2)]
  -- src/simulation_management_with_reliability.rs:78, 79
  | .StartResumeReliable => [Slot.u8 41 (StartResumeReliablePdu.padding), Slot.u16 42 (StartResumeReliablePdu.padding2)]
  -- src/simulation_management_with_reliability.rs:99
  | .StopFreezeReliable => [Slot.u8 35 (StopFreezeReliablePdu.padding)]
  -- src/simulation_management_with_reliability.rs:133, 134, 137
  | .ActionRequestReliable => [Slot.u8 25 (ActionRequestReliablePdu.padding), Slot.u16 26 (ActionRequestReliablePdu.padding2), Slot.u32 36 (ActionRequestReliablePdu.padding3)]
  -- src/simulation_management_with_reliability.rs:177, 178
  | .DataQueryReliable => [Slot.u8 25 (DataQueryReliablePdu.padding), Slot.u16 26 (DataQueryReliablePdu.padding2)]
  -- src/simulation_management_with_reliability.rs:200, 201
  | .SetDataReliable => [Slot.u8 25 (SetDataReliablePdu.padding), Slot.u16 26 (SetDataReliablePdu.padding2)]
  -- src/simulation_management_with_reliability.rs:223, 224
  | .DataReliable => [Slot.u8 29 (DataReliablePdu.padding), Slot.u16 30 (DataReliablePdu.padding2)]
  -- src/simulation_management_with_reliability.rs:244
  | .EventReportReliable => [Slot.u32 28 (EventReportReliablePdu.padding)]
  -- src/simulation_management_with_reliability.rs:283
  | .RecordQueryReliable => [Slot.u8 29 (RecordQueryReliablePdu.padding)]
  -- src/simulation_management_with_reliability.rs:304, 305, 306
  | .SetRecordReliable => [Slot.u8 29 (SetRecordReliablePdu.padding), Slot.u16 30 (SetRecordReliablePdu.padding2), Slot.u32 32 (SetRecordReliablePdu.padding3)]
  -- src/synthetic_environment.rs:68, 69
  | .GriddedData => [Slot.u8 61 (GriddedDataPdu.padding), Slot.u16 62 (GriddedDataPdu.padding2)]
  -- src/synthetic_environment.rs:94, 97
  | .PointObjectState => [Slot.u16 74 (PointObjectStatePdu.padding), Slot.u32 84 (PointObjectStatePdu.padding2)]
  -- src/warfare.rs:62
  | .Detonation => [Slot.u16 102 (DetonationPdu.padding)]
  -- src/warfare.rs:84, 89, 90, 91
  | .DirectedEnergyFire => [Slot.u32 64 (DirectedEnergyFirePdu.padding), Slot.u8 79 (DirectedEnergyFirePdu.padding2), Slot.u32 80 (DirectedEnergyFirePdu.padding3), Slot.u16 84 (DirectedEnergyFirePdu.padding4)]
  -- src/warfare.rs:107, 108
  | .EntityDamageStatus => [Slot.u16 18 (EntityDamageStatusPdu.padding), Slot.u16 20 (EntityDamageStatusPdu.padding2)]
  | _ => []

end Dis
