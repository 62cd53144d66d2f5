import Verif.Model.PduKind
/-
Model of the four programs in /repo/examples.

The network is the environment: a program is run against the list of results its receive calls return, in
order (`recv_from` and `send_to` of tokio's `UdpSocket`).  A datagram longer than the buffer is cut to the
buffer (the behaviour of POSIX sockets); `Addr` is the type of socket addresses and `Err` that of I/O errors.
What `println!` and `dbg!` write is kept as the values written, not as text.
-/
namespace Dis

/-- Where a program is after it has used up the results given to it. -/
inductive Status (Err : Type) where
  /-- blocked in a receive call -/
  | waiting
  /-- finished with `Ok(())` -/
  | finished
  /-- finished with an I/O error (`?`) -/
  | failed (e : Err)
  /-- aborted by a panic -/
  | panicked (e : Panic)
  deriving DecidableEq

/-- `socket.recv_from(&mut buf)`: the payload overwrites the front of the buffer; what lay beyond stays. -/
def recvInto (buf payload : Bytes) : Bytes × Nat :=
  (payload.take buf.length ++ buf.drop payload.length, min payload.length buf.length)

/-- `&buf[..size]` -/
def slicePrefix (buf : Bytes) (size : Nat) : Except Panic Bytes :=
  if size ≤ buf.length then .ok (buf.take size) else .error .indexOutOfBounds

/-! ### examples/radio_processing_server.rs -/

/-- examples/radio_processing_server.rs:20-26 -/
inductive ParsedPdu where
  | Transmitter (p : Pdu TransmitterPdu)
  | Signal (p : Pdu SignalPdu)
  | Receiver (p : Pdu ReceiverPdu)
  | IntercomSignal (p : Pdu IntercomSignalPdu)
  | IntercomControl (p : Pdu IntercomControlPdu)
  deriving DecidableEq

/-- `B::deserialize(&mut buf).ok().map(f)` on a copy of `bytes` -/
def decodeOk (B : Type) [PduBody B] (f : Pdu B → ParsedPdu) (prof : Profile) (bytes : Bytes) :
    Except Panic (Option ParsedPdu) :=
  match (Pdu.deserialize : Get (Except DISError (Pdu B))) prof bytes with
  | .error e => .error e
  | .ok (.error _, _) => .ok none
  | .ok (.ok p, _) => .ok (some (f p))

/-- examples/radio_processing_server.rs:28-40 -/
def deserialize_pdu (prof : Profile) (bytes : Bytes) : Except Panic (Option ParsedPdu) :=
  match PduHeader.get_pdu_type prof bytes with
  | .error e => .error e
  | .ok none => .ok none
  | .ok (some pdu_type) =>
    if pdu_type = ⟨25, by decide⟩ then decodeOk TransmitterPdu .Transmitter prof bytes
    else if pdu_type = ⟨26, by decide⟩ then decodeOk SignalPdu .Signal prof bytes
    else if pdu_type = ⟨27, by decide⟩ then decodeOk ReceiverPdu .Receiver prof bytes
    else if pdu_type = ⟨31, by decide⟩ then decodeOk IntercomSignalPdu .IntercomSignal prof bytes
    else if pdu_type = ⟨32, by decide⟩ then decodeOk IntercomControlPdu .IntercomControl prof bytes
    else .ok none

/-- The lines printed by examples/radio_processing_server.rs:59-81: the values interpolated. -/
inductive LogLine (Addr : Type) where
  | Transmitter (peer : Addr) (entity : EntityId) (freq : UInt64) (state : TransmitterTransmitState)
  | Signal (peer : Addr) (entity : EntityId) (samples data_length : UInt16)
  | Receiver (peer : Addr) (entity : EntityId) (state : ReceiverReceiverState) (power : F32)
  | IntercomSignal (peer : Addr) (intercom : EntityId) (samples : UInt16)
  | IntercomControl (peer : Addr) (intercom : EntityId) (command : IntercomControlCommand)
      (transmit_state : IntercomControlTransmitLineState)
  | Unknown (size : Nat) (peer : Addr)
  deriving DecidableEq

/-- examples/radio_processing_server.rs:58-82 -/
def logLine {Addr : Type} (size : Nat) (peer : Addr) : Option ParsedPdu → LogLine Addr
  | some (.Transmitter p) => .Transmitter peer p.body.entity_id p.body.frequency p.body.transmit_state
  | some (.Signal p) => .Signal peer p.body.entity_id p.body.samples p.body.data_length
  | some (.Receiver p) => .Receiver peer p.body.entity_id p.body.receiver_state p.body.received_power
  | some (.IntercomSignal p) => .IntercomSignal peer p.body.intercom_reference_id p.body.samples
  | some (.IntercomControl p) =>
    .IntercomControl peer p.body.source_intercom_reference_id p.body.command p.body.transmit_line_state
  | none => .Unknown size peer

/-- A result of `recv_from`. -/
inductive Received (Addr Err : Type) where
  | datagram (payload : Bytes) (peer : Addr)
  | error (e : Err)

/-- examples/radio_processing_server.rs:57-83: what is printed at the top of the loop -/
def RadioServer.handle {Addr : Type} (prof : Profile) (buf : Bytes) :
    Option (Nat × Addr) → Except Panic (List (LogLine Addr))
  | none => .ok []
  | some (size, peer) =>
    match slicePrefix buf size with
    | .error e => .error e
    | .ok bytes =>
      match deserialize_pdu prof bytes with
      | .error e => .error e
      | .ok r => .ok [logLine size peer r]

/-- examples/radio_processing_server.rs:49-87 -/
def RadioServer.run {Addr Err : Type} (prof : Profile) (buf : Bytes) (to_send : Option (Nat × Addr)) :
    List (Received Addr Err) → List (LogLine Addr) × Status Err
  | [] =>
    match RadioServer.handle prof buf to_send with
    | .error e => ([], .panicked e)
    | .ok l => (l, .waiting)
  | .error e :: _ =>
    match RadioServer.handle prof buf to_send with
    | .error e => ([], .panicked e)
    | .ok l => (l, .failed e)
  | .datagram payload peer :: rs =>
    match RadioServer.handle prof buf to_send with
    | .error e => ([], .panicked e)
    | .ok l =>
      let (buf', size) := recvInto buf payload
      let (ls, st) := RadioServer.run prof buf' (some (size, peer)) rs
      (l ++ ls, st)

/-- examples/radio_processing_server.rs:99-105 -/
def RadioServer.main {Addr Err : Type} (prof : Profile) (rs : List (Received Addr Err)) :
    List (LogLine Addr) × Status Err :=
  RadioServer.run prof (List.replicate 1024 0) none rs

/-! ### examples/radio_processing_client.rs -/

/-- examples/radio_processing_client.rs:45-50 up to the `send`: the datagram handed to the socket.  The
result of `serialize` is discarded. -/
def send_pdu {B : Type} [PduBody B] (prof : Profile) (pdu : Pdu B) : Except Panic Bytes :=
  match pdu.serialize prof [] with
  | .error e => .error e
  | .ok (_, bytes) => .ok bytes

/-- examples/radio_processing_client.rs:52-69: the datagrams sent if no send fails; `now` are the five clock
readings. -/
def RadioClient.send (prof : Profile) (now : Fin 5 → UInt32) : Except Panic (List Bytes) := do
  let a ← send_pdu prof (Pdu.new (now 0) : Pdu TransmitterPdu)
  let b ← send_pdu prof (Pdu.new (now 1) : Pdu SignalPdu)
  let c ← send_pdu prof (Pdu.new (now 2) : Pdu ReceiverPdu)
  let d ← send_pdu prof (Pdu.new (now 3) : Pdu IntercomSignalPdu)
  let e ← send_pdu prof (Pdu.new (now 4) : Pdu IntercomControlPdu)
  return [a, b, c, d, e]

/-! ### examples/udp_server.rs -/

/-- One turn of the environment of the echo server: what `recv_from` returns and, for a datagram, what the
`send_to` that echoes it returns. -/
inductive Turn (Addr Err : Type) where
  | datagram (payload : Bytes) (peer : Addr) (echo : Except Err Unit)
  | error (e : Err)

/-- What the echo server has to send: size, peer, and what the environment will answer. -/
abbrev Pending (Addr Err : Type) := Option (Nat × Addr × Except Err Unit)

/-- examples/udp_server.rs:29-33: the datagram sent at the top of the loop -/
def EchoServer.handle {Addr Err : Type} (buf : Bytes) :
    Pending Addr Err → Except (Status Err) (List (Bytes × Addr))
  | none => .ok []
  | some (size, peer, echo) =>
    match slicePrefix buf size with
    | .error e => .error (.panicked e)
    | .ok bytes =>
      match echo with
      | .error e => .error (.failed e)
      | .ok () => .ok [(bytes, peer)]

/-- examples/udp_server.rs:21-37 -/
def EchoServer.run {Addr Err : Type} (buf : Bytes) (to_send : Pending Addr Err) :
    List (Turn Addr Err) → List (Bytes × Addr) × Status Err
  | [] =>
    match EchoServer.handle buf to_send with
    | .error st => ([], st)
    | .ok l => (l, .waiting)
  | .error e :: _ =>
    match EchoServer.handle buf to_send with
    | .error st => ([], st)
    | .ok l => (l, .failed e)
  | .datagram payload peer echo :: rs =>
    match EchoServer.handle buf to_send with
    | .error st => ([], st)
    | .ok l =>
      let (buf', size) := recvInto buf payload
      let (ls, st) := EchoServer.run buf' (some (size, peer, echo)) rs
      (l ++ ls, st)

/-- examples/udp_server.rs:49-55 -/
def EchoServer.main {Addr Err : Type} (rs : List (Turn Addr Err)) : List (Bytes × Addr) × Status Err :=
  EchoServer.run (List.replicate 1024 0) none rs

/-! ### examples/udp_client.rs -/

/-- examples/udp_client.rs:48-57: the datagram handed to the socket -/
def UdpClient.send (prof : Profile) (now : UInt32) : Except Panic Bytes :=
  send_pdu prof (Pdu.new now : Pdu AcknowledgePdu)

/-- examples/udp_client.rs:65-68: decoding the whole buffer; `now` is read if the default is needed -/
def UdpClient.decode (prof : Profile) (now : UInt32) (buf : Bytes) : Except Panic (Pdu AcknowledgePdu) :=
  match (Pdu.deserialize : Get (Except DISError (Pdu AcknowledgePdu))) prof buf with
  | .error e => .error e
  | .ok (.error _, _) => .ok (Pdu.default now)
  | .ok (.ok p, _) => .ok p

/-- examples/udp_client.rs:59-73: what is shown by `dbg!`, and how the function ends.  A list element is a
result of `recv`. -/
def UdpClient.recv {Err : Type} (prof : Profile) (now : UInt32) :
    List (Except Err Bytes) → Option (Pdu AcknowledgePdu) × Status Err
  | [] => (none, .waiting)
  | .error e :: _ => (none, .failed e)
  | .ok payload :: rs =>
    let (buf, n) := recvInto (List.replicate 1024 0) payload
    if n > 0 then
      match UdpClient.decode prof now buf with
      | .error e => (none, .panicked e)
      | .ok p => (some p, .finished)
    else UdpClient.recv prof now rs

/-- One thing that happens at the socket of the UDP client: its send call completes, or a receive call does. -/
inductive ClientEvent (Err : Type) where
  | sent (r : Except Err Unit)
  | received (r : Except Err Bytes)

/-- examples/udp_client.rs:43: `tokio::try_join!(send(&socket), recv(&socket))?`, the two tasks making progress in
whatever order their socket calls complete.  `sending` and `receiving` say which of the tasks have not ended,
`shown` what has been shown so far.  The join ends when both have, or as soon as one has failed; a task that
has ended calls the socket no more, so completions for it cannot occur and are passed over here. -/
def UdpClient.join {Err : Type} (prof : Profile) (now : UInt32) (sending receiving : Bool)
    (shown : Option (Pdu AcknowledgePdu)) : List (ClientEvent Err) → Option (Pdu AcknowledgePdu) × Status Err
  | [] => (shown, if sending || receiving then .waiting else .finished)
  | .sent r :: es =>
    if sending then
      match r with
      | .error e => (shown, .failed e)
      | .ok () => UdpClient.join prof now false receiving shown es
    else UdpClient.join prof now sending receiving shown es
  | .received r :: es =>
    if receiving then
      match UdpClient.recv prof now [r] with
      | (s, .finished) => UdpClient.join prof now sending false s es
      | (_, .waiting) => UdpClient.join prof now sending receiving shown es
      | (_, .failed e) => (shown, .failed e)
      | (_, .panicked e) => (shown, .panicked e)
    else UdpClient.join prof now sending receiving shown es

/-- examples/udp_client.rs:30-46 after the socket has been set up: what the client shows and how it stands after
these completions.  `sent` and `received` tell of the datagram `UdpClient.send prof` made and of those that
arrived. -/
def UdpClient.connect {Err : Type} (prof : Profile) (now : UInt32) (es : List (ClientEvent Err)) :
    Option (Pdu AcknowledgePdu) × Status Err :=
  UdpClient.join prof now true true none es

/-! ### examples/radio_processing_client.rs, with send calls that may fail -/

/-- What the radio client has done: the datagrams that went out, the kinds named in the lines it printed. -/
structure RadioClient.Done where
  datagrams : List Bytes
  lines : List PduKind
  deriving DecidableEq

/-- examples/radio_processing_client.rs:52-69: one `send_pdu` after another, each with `?`.  `rs` are the results of
the `send` calls. -/
def RadioClient.steps {Err : Type} : List (PduKind × Except Panic Bytes) → List (Except Err Unit) →
    RadioClient.Done × Status Err
  | [], _ => (⟨[], []⟩, .finished)
  | (_, .error e) :: _, _ => (⟨[], []⟩, .panicked e)
  | (_, .ok _) :: _, [] => (⟨[], []⟩, .waiting)
  | (_, .ok _) :: _, .error e :: _ => (⟨[], []⟩, .failed e)
  | (k, .ok w) :: ws, .ok () :: rs =>
    let (d, st) := RadioClient.steps ws rs
    (⟨w :: d.datagrams, k :: d.lines⟩, st)

/-- examples/radio_processing_client.rs:52-69 -/
def RadioClient.run {Err : Type} (prof : Profile) (now : Fin 5 → UInt32) (rs : List (Except Err Unit)) :
    RadioClient.Done × Status Err :=
  RadioClient.steps
    [(.Transmitter, send_pdu prof (Pdu.new (now 0) : Pdu TransmitterPdu)),
      (.Signal, send_pdu prof (Pdu.new (now 1) : Pdu SignalPdu)),
      (.Receiver, send_pdu prof (Pdu.new (now 2) : Pdu ReceiverPdu)),
      (.IntercomSignal, send_pdu prof (Pdu.new (now 3) : Pdu IntercomSignalPdu)),
      (.IntercomControl, send_pdu prof (Pdu.new (now 4) : Pdu IntercomControlPdu))] rs

end Dis
