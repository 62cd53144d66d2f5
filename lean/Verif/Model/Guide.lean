import Verif.Model.Examples
/-
Model of `Pdu::as_any` with `dyn Any`, and of the receiver printed in the book.
-/
namespace Dis

/-- A `&dyn Any` made from a PDU: the type of the PDU and the PDU.  (`std::any::Any` of a value of some other
type is not modelled.) -/
structure DynPdu where
  kind : PduKind
  pdu : Pdu kind.Body

/-- src/pdu_macro.rs:352-354 -/
def Pdu.as_any {k : PduKind} (p : Pdu k.Body) : DynPdu := ⟨k, p⟩

/-- `<dyn Any>::is::<T>` (standard library): whether the type is `T`. -/
def DynPdu.is (a : DynPdu) (k : PduKind) : Bool := a.kind == k

/-- `<dyn Any>::downcast_ref::<T>` (standard library): the value if the type is `T`. -/
def DynPdu.downcast_ref (a : DynPdu) (k : PduKind) : Option (Pdu k.Body) :=
  if h : a.kind = k then some (h ▸ a.pdu) else none

/-- How the receiver of the book ends. -/
inductive GuideResult (k : PduKind) (Err : Type) where
  /-- the PDU written by `dbg!`, after which it finishes -/
  | printed (p : Pdu k.Body)
  /-- the I/O error returned by `?` -/
  | failed (e : Err)
  /-- the panic of `unwrap` on the decoder's error -/
  | refused (e : DISError)
  /-- a panic in the decoder -/
  | panicked (e : Panic)
  /-- the loop runs forever -/
  | spins

/-- book/src/guides/receiving-pdus.md:26-33, with the PDU type as a parameter (there `AcknowledgePdu`) and
the result of `socket.recv` as an argument: a buffer of 1204 zeros is filled once; `n` never changes in the
loop.  (The book passes the buffer itself where the crate now expects a `&mut` reference to it.) -/
def Guide.receive {Err : Type} (k : PduKind) (prof : Profile) : Except Err Bytes → GuideResult k Err
  | .error e => .failed e
  | .ok payload =>
    let (buf, n) := recvInto (List.replicate 1204 0) payload
    if n > 0 then
      match (Pdu.deserialize : Get (Except DISError (Pdu k.Body))) prof buf with
      | .error e => .panicked e
      | .ok (.error e, _) => .refused e
      | .ok (.ok p, _) => .printed p
    else .spins

/-- book/src/guides/sending-pdus.md:59-63, with the PDU as a parameter (there a new `AcknowledgePdu`): what is handed to
`socket.send`.  The result of `serialize` is ignored. -/
def Guide.datagram {k : PduKind} (prof : Profile) (p : Pdu k.Body) : Except Panic Bytes :=
  match p.serialize prof [] with
  | .error e => .error e
  | .ok (_, bytes) => .ok bytes

end Dis
