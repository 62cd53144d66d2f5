import Verif.Spec.Stream
import Verif.Spec.Codes
/-
A program a user writes around the crate: a receiver for all kinds of PDUs at once, as book/src/guides/receiving-pdus.md:47-50
suggests ("a match tree"), on a stream of octets that arrives bit by bit.
-/
namespace Dis

/-- What the receiver makes of one message. -/
inductive Report where
  /-- a PDU -/
  | pdu (p : AnyPdu)
  /-- the decoder returned an error -/
  | refused (e : DISError)
  /-- the decoder panicked (and the panic was caught) -/
  | panicked (e : Panic)
  /-- the crate has no PDU of that type -/
  | unknown (t : PduType)

/-- The match tree: `match t { PduType::Fire => ..., ... }` with one arm for each of the 66 kinds. -/
def PduKind.ofType (t : PduType) : Option PduKind := PduKind.all.find? fun k => k.typeCode == t.code

/-- One message, given by its octets, of type `t`. -/
def receiveAs (prof : Profile) (t : PduType) (m : Bytes) : Report :=
  match PduKind.ofType t with
  | none => .unknown t
  | some k =>
    match (Pdu.deserialize : Get (Except DISError (Pdu k.Body))) prof m with
    | .error e => .panicked e
    | .ok (.error e, _) => .refused e
    | .ok (.ok p, _) => .pdu ⟨k, p⟩

/-- One step on the octets received so far: look at the type with `PduHeader::get_pdu_type`, at the length with
`PduHeader::deserialize`; if a whole message is there, decode it and go behind it.  `none` if it is not there yet, or if
the header says fewer than 12 octets. -/
def dispatch (prof : Profile) (b : Bytes) : Option (Report × Bytes) :=
  match PduHeader.get_pdu_type prof b, PduHeader.deserialize prof b with
  | .ok (some t), .ok (h, _) =>
    if h.length.toNat < 12 then none
    else if b.length < h.length.toNat then none
    else some (receiveAs prof t (b.take h.length.toNat), b.drop h.length.toNat)
  | _, _ => none

/-- Steps until there is none: the messages received, and the octets left over.  `fuel` bounds the steps; each takes 12
octets at least. -/
def dispatchSteps (prof : Profile) : (fuel : Nat) → Bytes → List Report × Bytes
  | 0, b => ([], b)
  | fuel + 1, b =>
    match dispatch prof b with
    | none => ([], b)
    | some (r, b') => (r :: (dispatchSteps prof fuel b').1, (dispatchSteps prof fuel b').2)

/-- ... all of them. -/
def dispatchAll (prof : Profile) (b : Bytes) : List Report × Bytes := dispatchSteps prof b.length b

/-- The octets arrive in pieces; after each, all steps possible. -/
def receivePieces (prof : Profile) : (kept : Bytes) → List Bytes → List Report × Bytes
  | kept, [] => ([], kept)
  | kept, piece :: pieces =>
    let now := dispatchAll prof (kept ++ piece)
    let later := receivePieces prof now.2 pieces
    (now.1 ++ later.1, later.2)

/-- A message by its octets: a header at least, and octets 8 and 9 say how many there are. -/
def Framed (m : Bytes) : Prop := 12 ≤ m.length ∧ frameLength m = m.length

/-- The type that octet 2 stands for. -/
def typeOctet (m : Bytes) : Nat := (m.getD 2 0).toNat

end Dis
