import Verif.Model.Examples
/-
The example programs running together: any number of clients, one server, and a network between them.

A state of the whole system is what has happened at each program's socket so far; what the programs have
done by then is given by the models in Model/Examples.lean, applied to that.  The network may lose, delay,
reorder and duplicate datagrams (a datagram once sent may be delivered any number of times, at any later
moment, or never); it does not alter them, and it delivers under the sender's address.  Hosts other than the
clients may send anything to the server.  `I` is the type of the clients, finite or not.
-/
namespace Dis

/-- One of the functions of type `I → α`, changed at `i`. -/
def setAt {I α : Type} [DecidableEq I] (f : I → α) (i : I) (a : α) : I → α := fun j => if j = i then a else f j

/-! ### examples/udp_client.rs and examples/udp_server.rs -/

/-- What differs from client to client: address, build, and the readings of the clock when the PDU is made and
when (in vain, it will turn out) a default is needed. -/
structure EchoSetting (I Addr : Type) where
  addr : I → Addr
  prof : I → Profile
  made : I → UInt32
  later : I → UInt32

/-- What has happened at the sockets of the server and of the clients. -/
structure EchoWorld (I Addr Err : Type) where
  served : List (Turn Addr Err)
  events : I → List (ClientEvent Err)

section
variable {I Addr Err : Type} [DecidableEq I] (S : EchoSetting I Addr)

/-- Before anything has happened. -/
def EchoWorld.start : EchoWorld I Addr Err := ⟨[], fun _ => []⟩

/-- What a client has shown, and how it stands: examples/udp_client.rs:30-46. -/
def EchoWorld.client (w : EchoWorld I Addr Err) (i : I) : Option (Pdu AcknowledgePdu) × Status Err :=
  UdpClient.connect (S.prof i) (S.later i) (w.events i)

/-- What the server has sent, and how it stands: examples/udp_server.rs:21-37. -/
def EchoWorld.server (w : EchoWorld I Addr Err) : List (Bytes × Addr) × Status Err := EchoServer.main w.served

/-- One thing happens at one socket, of a program that is still running and has such a call under way: a client
sends once, and receives until it has shown something. -/
inductive EchoWorld.Step : EchoWorld I Addr Err → EchoWorld I Addr Err → Prop
  /-- a client's send call completes, well or badly -/
  | send (w : EchoWorld I Addr Err) (i : I) (r : Except Err Unit)
      (running : (w.client S i).2 = .waiting) (first : ∀ r, .sent r ∉ w.events i) :
      Step w { w with events := setAt w.events i (w.events i ++ [.sent r]) }
  /-- the datagram a client has sent reaches the server; `echo` is the result of the server's next send call -/
  | arrive (w : EchoWorld I Addr Err) (i : I) (payload : Bytes) (echo : Except Err Unit)
      (running : w.server.2 = .waiting) (sent : .sent (.ok ()) ∈ w.events i)
      (made : UdpClient.send (S.prof i) (S.made i) = .ok payload) :
      Step w { w with served := w.served ++ [.datagram payload (S.addr i) echo] }
  /-- a datagram from elsewhere reaches the server -/
  | stranger (w : EchoWorld I Addr Err) (payload : Bytes) (peer : Addr) (echo : Except Err Unit)
      (running : w.server.2 = .waiting) (elsewhere : ∀ i, peer ≠ S.addr i) :
      Step w { w with served := w.served ++ [.datagram payload peer echo] }
  /-- the server's receive call fails -/
  | serverError (w : EchoWorld I Addr Err) (e : Err) (running : w.server.2 = .waiting) :
      Step w { w with served := w.served ++ [.error e] }
  /-- a datagram the server has sent to a client reaches it -/
  | deliver (w : EchoWorld I Addr Err) (i : I) (payload : Bytes)
      (running : (w.client S i).2 = .waiting) (receiving : (w.client S i).1 = none)
      (sent : (payload, S.addr i) ∈ w.server.1) :
      Step w { w with events := setAt w.events i (w.events i ++ [.received (.ok payload)]) }
  /-- a client's receive call fails -/
  | clientError (w : EchoWorld I Addr Err) (i : I) (e : Err)
      (running : (w.client S i).2 = .waiting) (receiving : (w.client S i).1 = none) :
      Step w { w with events := setAt w.events i (w.events i ++ [.received (.error e)]) }

/-- Any number of steps. -/
inductive EchoWorld.Steps (w : EchoWorld I Addr Err) : EchoWorld I Addr Err → Prop
  | none : Steps w w
  | more {w' w''} (before : Steps w w') (step : EchoWorld.Step S w' w'') : Steps w w''

/-- A state the system can get into. -/
def EchoWorld.Reachable (w : EchoWorld I Addr Err) : Prop := EchoWorld.Steps S EchoWorld.start w
end

/-! ### examples/radio_processing_client.rs and examples/radio_processing_server.rs -/

/-- What differs from client to client: address, build, and the five readings of the clock; and the server's
build. -/
structure RadioSetting (I Addr : Type) where
  addr : I → Addr
  prof : I → Profile
  made : I → Fin 5 → UInt32
  server : Profile

/-- What has happened at the sockets of the server and of the clients. -/
structure RadioWorld (I Addr Err : Type) where
  served : List (Received Addr Err)
  results : I → List (Except Err Unit)

section
variable {I Addr Err : Type} [DecidableEq I] (S : RadioSetting I Addr)

/-- Before anything has happened. -/
def RadioWorld.start : RadioWorld I Addr Err := ⟨[], fun _ => []⟩

/-- What a client has sent and said, and how it stands: examples/radio_processing_client.rs:52-69. -/
def RadioWorld.client (w : RadioWorld I Addr Err) (i : I) : RadioClient.Done × Status Err :=
  RadioClient.run (S.prof i) (S.made i) (w.results i)

/-- What the server has printed, and how it stands: examples/radio_processing_server.rs:49-87. -/
def RadioWorld.server (w : RadioWorld I Addr Err) : List (LogLine Addr) × Status Err :=
  RadioServer.main S.server w.served

/-- One thing happens at one socket, of a program that is still running. -/
inductive RadioWorld.Step : RadioWorld I Addr Err → RadioWorld I Addr Err → Prop
  /-- a client's send call completes, well or badly -/
  | send (w : RadioWorld I Addr Err) (i : I) (r : Except Err Unit) (running : (w.client S i).2 = .waiting) :
      Step w { w with results := setAt w.results i (w.results i ++ [r]) }
  /-- a datagram a client has sent reaches the server -/
  | arrive (w : RadioWorld I Addr Err) (i : I) (payload : Bytes) (running : (w.server S).2 = .waiting)
      (sent : payload ∈ (w.client S i).1.datagrams) :
      Step w { w with served := w.served ++ [.datagram payload (S.addr i)] }
  /-- a datagram from elsewhere reaches the server -/
  | stranger (w : RadioWorld I Addr Err) (payload : Bytes) (peer : Addr) (running : (w.server S).2 = .waiting)
      (elsewhere : ∀ i, peer ≠ S.addr i) :
      Step w { w with served := w.served ++ [.datagram payload peer] }
  /-- the server's receive call fails -/
  | serverError (w : RadioWorld I Addr Err) (e : Err) (running : (w.server S).2 = .waiting) :
      Step w { w with served := w.served ++ [.error e] }

/-- Any number of steps. -/
inductive RadioWorld.Steps (w : RadioWorld I Addr Err) : RadioWorld I Addr Err → Prop
  | none : Steps w w
  | more {w' w''} (before : Steps w w') (step : RadioWorld.Step S w' w'') : Steps w w''

/-- A state the system can get into. -/
def RadioWorld.Reachable (w : RadioWorld I Addr Err) : Prop := RadioWorld.Steps S RadioWorld.start w
end

end Dis
