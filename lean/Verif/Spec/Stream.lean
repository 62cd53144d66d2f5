import Verif.Model.PduKind
/-
Programs a user writes around the crate, used in the statements about sequences of PDUs: send a
sequence into one buffer, receive a sequence of known kinds from one buffer, split a byte stream by the
length field of the header.
-/
namespace Dis

/-- A PDU of some kind. -/
structure AnyPdu where
  kind : PduKind
  pdu : Pdu kind.Body

/-- Its kind and body. -/
def AnyPdu.content (p : AnyPdu) : (k : PduKind) × k.Body := ⟨p.kind, p.pdu.body⟩

/-- A stop/freeze PDU sets no other frozen-behaviour flags than the three that have names (bits 0, 1, 2); any other PDU. -/
def AnyPdu.namedFlags (p : AnyPdu) : Prop :=
  match p with
  | ⟨.StopFreeze, q⟩ => ∀ i, (q.body : StopFreezePdu).frozen_behavior.bits.toNat.testBit i = true → i ∈ [0, 1, 2]
  | ⟨.StopFreezeReliable, q⟩ =>
    ∀ i, (q.body : StopFreezeReliablePdu).frozen_behavior.bits.toNat.testBit i = true → i ∈ [0, 1, 2]
  | _ => True

/-- `for p in pdus { p.serialize(&mut buf)?; }`: the PDUs as updated, or the first error. -/
def sendAll : List AnyPdu → M (Except DISError (List AnyPdu))
  | [] => pure (.ok [])
  | p :: ps => do
    match ← p.pdu.serialize with
    | (_, .error e) => return .error e
    | (q, .ok ()) =>
      match ← sendAll ps with
      | .error e => return .error e
      | .ok qs => return .ok (⟨p.kind, q⟩ :: qs)

/-- `for k in kinds { pdus.push(k::deserialize(&mut buf)?); }` -/
def receiveAll : List PduKind → M (Except DISError (List AnyPdu))
  | [] => pure (.ok [])
  | k :: ks => do
    match ← (Pdu.deserialize : Get (Except DISError (Pdu k.Body))) with
    | .error e => return .error e
    | .ok q =>
      match ← receiveAll ks with
      | .error e => return .error e
      | .ok qs => return .ok (⟨k, q⟩ :: qs)

/-- The number in octets 8 and 9 of a message. -/
def frameLength (b : Bytes) : Nat := (b.getD 8 0).toNat * 256 + (b.getD 9 0).toNat

/-- Split a byte stream into messages by octets 8 and 9 alone; `none` when the stream ends within a
message, or a message claims fewer than 12 octets. -/
def splitStream (b : Bytes) : Option (List Bytes) :=
  if b = [] then some []
  else if b.length < 12 then none
  else if frameLength b < 12 then none
  else if b.length < frameLength b then none
  else (splitStream (b.drop (frameLength b))).map (b.take (frameLength b) :: ·)
termination_by b.length
decreasing_by rw [List.length_drop]; omega

end Dis
