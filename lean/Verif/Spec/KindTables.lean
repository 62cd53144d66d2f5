import Verif.Spec.PduKindWire
/-
Hand-written tables of PDU kinds used by the property statements.
-/
namespace Dis

/-- Kinds for which decoding one's own encoding recovers, for every value, everything but the lists and
optional fields at the end.  The ten others: the entity state PDU (entity marking), the aggregate state
PDU (lists in the middle), the four with counted records, the transmitter PDU (a length-governed
optional) and the three with flag sets. -/
def PduKind.unconditional : PduKind → Bool
  | .EntityState | .AggregateState | .TransferOwnership | .InformationOperationsReport
  | .InformationOperationsAction | .Transmitter | .StopFreeze | .StopFreezeReliable
  | .SetRecordReliable | .ArealObjectState => false
  | _ => true

/-- Kinds with exactly one list, at the end, of fixed-size elements. -/
def PduKind.oneList : PduKind → Bool
  | .IFF | .EntityStateUpdate | .IsGroupOf | .ServiceRequest | .ResupplyOffer | .ResupplyReceived
  | .MinefieldResponseNack | .Signal | .IntercomSignal | .IntercomControl | .RecordQueryReliable
  | .EnvironmentalProcess | .LinearObjectState | .Detonation | .DirectedEnergyFire
  | .EntityDamageStatus => true
  | _ => false

end Dis
