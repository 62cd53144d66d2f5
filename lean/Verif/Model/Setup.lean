import Verif.Model.LogText
/-
How the four programs in /repo/examples start: the address they are given, the calls that set up their socket, and
their exit code.  The operating system is the environment: it answers each call as it likes (`SetupAnswers`).

Code outside /repo, modelled from its documentation and source: `env::args().nth(1)`, `str::parse::<SocketAddr>`
(`std::net`), what the runtime does with the result of `main`.  Arguments of a program are taken to be Unicode
(otherwise `env::args` panics).
-/
namespace Dis

/-- standard library: `std::net::SocketAddr` -/
inductive SocketAddr where
  | v4 (a b c d : UInt8) (port : UInt16)
  | v6 (segments : Arr UInt16 8) (port : UInt16) (flowinfo scope_id : UInt32)
  deriving DecidableEq

/-- standard library: `addr.ip().is_ipv4()` -/
def SocketAddr.is_ipv4 : SocketAddr → Bool
  | .v4 .. => true
  | .v6 .. => false

/-! ### Parsing an address -/

/-- standard library: `char::to_digit(10)` gives a digit -/
def isDigitOctet (b : UInt8) : Bool := 48 ≤ b.toNat && b.toNat ≤ 57
/-- the number a run of digits stands for -/
def runValue (ds : Text) : Nat := ds.foldl (fun n b => n * 10 + (b.toNat - 48)) 0

/-- standard library: `Parser::read_number(10, max_digits, allow_zero_prefix)` for a type whose greatest value is
`greatest`.  The run of digits is read whole and then judged; the original gives up on the way, with the same result. -/
def readNumber (greatest : Nat) (max_digits : Option Nat) (allow_zero_prefix : Bool) (t : Text) : Option (Nat × Text) :=
  let ds := t.takeWhile isDigitOctet
  if ds = [] then none
  else if max_digits.any (fun m => m < ds.length) then none
  else if !allow_zero_prefix && ds.head? == some 48 && ds.length > 1 then none
  else if greatest < runValue ds then none
  else some (runValue ds, t.dropWhile isDigitOctet)

/-- standard library: `Parser::read_given_char` -/
def readChar (c : UInt8) : Text → Option Text
  | [] => none
  | b :: t => if b = c then some t else none

/-- standard library: `Parser::read_socket_addr_v4` on the whole of a text -/
def parseSocketAddrV4 (t : Text) : Option SocketAddr := do
  let (a, t) ← readNumber 255 (some 3) false t
  let t ← readChar 46 t
  let (b, t) ← readNumber 255 (some 3) false t
  let t ← readChar 46 t
  let (c, t) ← readNumber 255 (some 3) false t
  let t ← readChar 46 t
  let (d, t) ← readNumber 255 (some 3) false t
  let t ← readChar 58 t
  let (port, t) ← readNumber 65535 none true t
  if t = [] then some (.v4 (.ofNat a) (.ofNat b) (.ofNat c) (.ofNat d) (.ofNat port)) else none

/-- standard library: `str::parse::<SocketAddr>`: an IPv4 address or, failing that, an IPv6 address (`parseV6`, not modelled
further) -/
def parseSocketAddr (parseV6 : Text → Option SocketAddr) (t : Text) : Option SocketAddr :=
  (parseSocketAddrV4 t).or (parseV6 t)

/-! ### Setting up the socket -/

/-- A call that sets up a socket (tokio's `UdpSocket`). -/
inductive SetupCall where
  | bind (addr : String)
  | local_addr
  | connect (addr : SocketAddr)
  deriving DecidableEq

/-- What the operating system answers, should it be asked. -/
structure SetupAnswers (Err : Type) where
  bind : Except Err Unit
  local_addr : Except Err SocketAddr
  connect : Except Err Unit

/-- The exit code of a program, once it has ended: `main` returning `Ok` or `Err`, or a panic (standard library:
`Termination`, and the runtime). -/
def Status.exitCode {Err : Type} : Status Err → Option Nat
  | .waiting => none
  | .finished => some 0
  | .failed _ => some 1
  | .panicked _ => some 101

/-! ### The servers -/

/-- What a server has done: the calls that set up its socket, the address in the line `Listening on …`, and then what
its `run` has done. -/
structure ServerRun (α Err : Type) where
  calls : List SetupCall
  listening : Option SocketAddr
  done : List α
  status : Status Err

/-- examples/udp_server.rs:40-57; `args` are the arguments of the program, its name included -/
def EchoServer.program {Err : Type} (args : List String) (os : SetupAnswers Err) (ts : List (Turn SocketAddr Err)) :
    ServerRun (Bytes × SocketAddr) Err :=
  let addr := args[1]?.getD "127.0.0.1:3000"
  match os.bind with
  | .error e => ⟨[.bind addr], none, [], .failed e⟩
  | .ok () =>
    match os.local_addr with
    | .error e => ⟨[.bind addr, .local_addr], none, [], .failed e⟩
    | .ok a =>
      let (done, status) := EchoServer.main ts
      ⟨[.bind addr, .local_addr], some a, done, status⟩

/-- examples/radio_processing_server.rs:90-106 -/
def RadioServer.program {Err : Type} (prof : Profile) (args : List String) (os : SetupAnswers Err)
    (rs : List (Received SocketAddr Err)) : ServerRun (LogLine SocketAddr) Err :=
  let addr := args[1]?.getD "127.0.0.1:3000"
  match os.bind with
  | .error e => ⟨[.bind addr], none, [], .failed e⟩
  | .ok () =>
    match os.local_addr with
    | .error e => ⟨[.bind addr, .local_addr], none, [], .failed e⟩
    | .ok a =>
      let (done, status) := RadioServer.main prof rs
      ⟨[.bind addr, .local_addr], some a, done, status⟩

/-- examples/udp_server.rs:46 and examples/radio_processing_server.rs:96 (`println!`) -/
def listeningText (σ : LogFmt SocketAddr) : Option SocketAddr → Text
  | none => []
  | some a => strBytes "Listening on " ++ (σ.addr a ++ [10])
/-- everything examples/udp_server.rs prints -/
def EchoServer.output {Err : Type} (σ : LogFmt SocketAddr) (r : ServerRun (Bytes × SocketAddr) Err) : Text :=
  listeningText σ r.listening ++ echoText σ r.done
/-- everything examples/radio_processing_server.rs prints -/
def RadioServer.output {Err : Type} (σ : LogFmt SocketAddr) (r : ServerRun (LogLine SocketAddr) Err) : Text :=
  listeningText σ r.listening ++ logText σ r.done

/-! ### The clients -/

/-- What the UDP client has done: the calls that set up its socket, the datagram it has handed to the socket, what it has
shown. -/
structure UdpClient.Run (Err : Type) where
  calls : List SetupCall
  handed : Option Bytes
  shown : Option (Pdu AcknowledgePdu)
  status : Status Err

/-- examples/udp_client.rs:30-46; `made` and `later` are the readings of the clock, `es` what happens at the socket once
it is set up -/
def UdpClient.connectTo {Err : Type} (prof : Profile) (made later : UInt32) (addr : SocketAddr) (os : SetupAnswers Err)
    (es : List (ClientEvent Err)) : UdpClient.Run Err :=
  let bind_addr := if addr.is_ipv4 then "0.0.0.0:0" else "[::]:0"
  match os.bind with
  | .error e => ⟨[.bind bind_addr], none, none, .failed e⟩
  | .ok () =>
    match os.connect with
    | .error e => ⟨[.bind bind_addr, .connect addr], none, none, .failed e⟩
    | .ok () =>
      match UdpClient.send prof made with
      | .error p => ⟨[.bind bind_addr, .connect addr], none, none, .panicked p⟩
      | .ok w =>
        let (shown, status) := UdpClient.connect prof later es
        ⟨[.bind bind_addr, .connect addr], some w, shown, status⟩

/-- examples/udp_client.rs:12-21; `bad` is the error of an address that does not parse -/
def UdpClient.program {Err : Type} (parseV6 : Text → Option SocketAddr) (bad : Err) (prof : Profile) (made later : UInt32)
    (os : SetupAnswers Err) (es : List (ClientEvent Err)) : UdpClient.Run Err :=
  match parseSocketAddr parseV6 (strBytes "127.0.0.1:3000") with
  | none => ⟨[], none, none, .failed bad⟩
  | some addr => UdpClient.connectTo prof made later addr os es

/-- What the radio client has done: the calls that set up its socket, then what it sent and said. -/
structure RadioClient.Ran (Err : Type) where
  calls : List SetupCall
  done : RadioClient.Done
  status : Status Err

/-- examples/radio_processing_client.rs:32-43 -/
def RadioClient.connectTo {Err : Type} (prof : Profile) (now : Fin 5 → UInt32) (addr : SocketAddr) (os : SetupAnswers Err)
    (rs : List (Except Err Unit)) : RadioClient.Ran Err :=
  let bind_addr := if addr.is_ipv4 then "0.0.0.0:0" else "[::]:0"
  match os.bind with
  | .error e => ⟨[.bind bind_addr], ⟨[], []⟩, .failed e⟩
  | .ok () =>
    match os.connect with
    | .error e => ⟨[.bind bind_addr, .connect addr], ⟨[], []⟩, .failed e⟩
    | .ok () =>
      let (done, status) := RadioClient.run prof now rs
      ⟨[.bind bind_addr, .connect addr], done, status⟩

/-- examples/radio_processing_client.rs:11-17; `bad` is the error of an address that does not parse -/
def RadioClient.program {Err : Type} (parseV6 : Text → Option SocketAddr) (bad : Err) (prof : Profile)
    (now : Fin 5 → UInt32) (os : SetupAnswers Err) (rs : List (Except Err Unit)) : RadioClient.Ran Err :=
  match parseSocketAddr parseV6 (strBytes "127.0.0.1:3000") with
  | none => ⟨[], ⟨[], []⟩, .failed bad⟩
  | some addr => RadioClient.connectTo prof now addr os rs

end Dis
