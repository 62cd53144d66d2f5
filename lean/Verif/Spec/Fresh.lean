import Verif.Spec.KindTables
/-
What a freshly created PDU of each kind looks like after its header: all zeros, except that
* every simulation address is site 1, application 1 (two octets each, so the second and fourth octet is 1);
* the acknowledge flag of the two acknowledge kinds is 1 (Create Entity).
The offsets below are those of IEEE 1278.1 for the addresses (the originating entity first, and so on).
-/
namespace Dis

/-- Offsets, from the end of the header, of the octets that are 1. -/
def PduKind.freshOnes : PduKind → List Nat
  | .Designator => [1, 3, 9, 11]
  | .SupplementalEmission | .EntityState | .EntityStateUpdate | .Attribute | .IsGroupOf | .MinefieldState => [1, 3]
  | .Transmitter | .Signal | .IntercomSignal | .EnvironmentalProcess | .GriddedData | .EntityDamageStatus => [1, 3]
  | .Collision | .CollisionElastic => [1, 3, 7, 9, 13, 15]
  | .AggregateState => []
  | .TransferOwnership => [1, 3, 7, 9, 19, 21]
  | .InformationOperationsReport => [1, 3, 11, 13, 17, 19]
  | .InformationOperationsAction => [1, 3, 7, 9, 29, 31, 35, 37]
  | .Receiver => [1, 3, 17, 19]
  | .IntercomControl => [3, 5, 15, 17]
  | .Acknowledge | .AcknowledgeReliable => [1, 3, 7, 9, 13]
  | .PointObjectState => [1, 3, 7, 9, 65, 67, 69, 71]
  | .LinearObjectState => [1, 3, 7, 9, 17, 19, 21, 23]
  | .ArealObjectState => [1, 3, 7, 9, 29, 31, 33, 35]
  | .Fire | .Detonation => [1, 3, 7, 9, 13, 15, 19, 21]
  | _ => [1, 3, 7, 9]

/-- Octets of a fresh PDU without its header (the entity state PDU, whose marking text is empty, lacks the
eleven octets of the text). -/
def PduKind.freshOctets (k : PduKind) : Nat := k.ieeeOctets - 12 - (if k = .EntityState then 11 else 0)

def PduKind.freshBody (k : PduKind) : Bytes :=
  (List.range k.freshOctets).map fun i => if i ∈ k.freshOnes then 1 else 0

end Dis
