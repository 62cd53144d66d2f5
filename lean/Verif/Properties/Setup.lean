import Verif.Proofs.Addresses
import Verif.Properties.LogText
import Verif.Properties.Schedules
/-
C70: how the examples start and end.
-/
namespace Dis
variable {Err : Type}

/-! ### Addresses -/

theorem octet_stops (b : UInt8) (h : b = 46 ∨ b = 58) (t : Text) : ∀ c u, b :: t = c :: u → isDigitOctet c = false := by
  intro c u e
  obtain ⟨rfl, -⟩ := List.cons.inj e
  rcases h with rfl | rfl <;> rfl

/-- The texts that are taken for an IPv4 address: four numbers below 256, written without leading zeros, with dots between
them, a colon, and a port below 65536, which may have leading zeros.  Nothing else is, and the address is what the text
says. -/
theorem C70_address (t : Text) (x : SocketAddr) : parseSocketAddrV4 t = some x ↔
    ∃ (a b c d : UInt8) (port : UInt16) (zeros : Nat), x = .v4 a b c d port ∧
      t = decimal a.toNat ++ strBytes "." ++ decimal b.toNat ++ strBytes "." ++ decimal c.toNat ++ strBytes "." ++
        decimal d.toNat ++ strBytes ":" ++ List.replicate zeros 48 ++ decimal port.toNat := by
  have dot : strBytes "." = [46] := by decide +kernel
  have colon : strBytes ":" = [58] := by decide +kernel
  rw [dot, colon]
  constructor
  · intro h
    simp only [parseSocketAddrV4, Option.bind_eq_bind, Option.bind_eq_some_iff, readChar_some, Prod.exists] at h
    obtain ⟨a, t1, h1, t2, rfl, b, t3, h3, t4, rfl, c, t5, h5, t6, rfl, d, t7, h7, t8, rfl, port, t9, h9, h⟩ := h
    obtain ⟨la, rfl, -⟩ := (readNumber_octet ..).mp h1
    obtain ⟨lb, rfl, -⟩ := (readNumber_octet ..).mp h3
    obtain ⟨lc, rfl, -⟩ := (readNumber_octet ..).mp h5
    obtain ⟨ld, rfl, -⟩ := (readNumber_octet ..).mp h7
    obtain ⟨lp, ⟨k, rfl⟩, -⟩ := (readNumber_port ..).mp h9
    split at h
    · rename_i he
      refine ⟨_, _, _, _, _, k, (Option.some.inj h).symm, ?_⟩
      rw [UInt8.toNat_ofNat', UInt8.toNat_ofNat', UInt8.toNat_ofNat', UInt8.toNat_ofNat', UInt16.toNat_ofNat',
        Nat.mod_eq_of_lt la, Nat.mod_eq_of_lt lb, Nat.mod_eq_of_lt lc, Nat.mod_eq_of_lt ld, Nat.mod_eq_of_lt lp, he]
      simp
    · exact nomatch h
  · intro ⟨a, b, c, d, port, k, hx, ht⟩
    have e : t = decimal a.toNat ++ (46 :: (decimal b.toNat ++ (46 :: (decimal c.toNat ++ (46 :: (decimal d.toNat ++
        (58 :: (List.replicate k 48 ++ decimal port.toNat ++ []))))))))  := by rw [ht]; simp
    have r1 := fun n (hn : n < 256) (b : UInt8) (hb : b = 46 ∨ b = 58) t =>
      (readNumber_octet (decimal n ++ b :: t) (b :: t) n).mpr ⟨hn, rfl, octet_stops b hb t⟩
    have r2 := (readNumber_port (List.replicate k 48 ++ decimal port.toNat ++ []) [] port.toNat).mpr
      ⟨port.toNat_lt, ⟨k, rfl⟩, fun _ _ h => nomatch h⟩
    have rc : ∀ (b : UInt8) t, readChar b (b :: t) = some t := fun b t => readChar_some.mpr rfl
    rw [e, hx]
    unfold parseSocketAddrV4
    rw [r1 _ a.toNat_lt 46 (.inl rfl)]
    simp only [Option.bind_eq_bind, Option.bind_some, rc]
    rw [r1 _ b.toNat_lt 46 (.inl rfl)]
    simp only [Option.bind_some, rc]
    rw [r1 _ c.toNat_lt 46 (.inl rfl)]
    simp only [Option.bind_some, rc]
    rw [r1 _ d.toNat_lt 58 (.inr rfl)]
    simp only [Option.bind_some, rc]
    rw [r2]
    simp only [Option.bind_some, if_true]
    simp

/-- the address `127.0.0.1:3000` -/
def loopback3000 : SocketAddr := .v4 127 0 0 1 3000

theorem parse_loopback (parseV6 : Text → Option SocketAddr) :
    parseSocketAddr parseV6 (strBytes "127.0.0.1:3000") = some loopback3000 := by
  unfold parseSocketAddr
  rw [(by decide +kernel : parseSocketAddrV4 (strBytes "127.0.0.1:3000") = some loopback3000)]
  rfl

example : parseSocketAddrV4 (strBytes "10.0.0.255:00080") = some (.v4 10 0 0 255 80) := by decide +kernel
example : parseSocketAddrV4 (strBytes "10.0.0.256:80") = none ∧ parseSocketAddrV4 (strBytes "10.0.00.1:80") = none ∧
    parseSocketAddrV4 (strBytes "10.0.0.1:65536") = none ∧ parseSocketAddrV4 (strBytes "10.0.0.1") = none ∧
    parseSocketAddrV4 (strBytes "10.0.0.1:80 ") = none ∧ parseSocketAddrV4 (strBytes "localhost:3000") = none := by
  decide +kernel

/-! ### The servers -/

/-- A server binds to its first argument, or to `127.0.0.1:3000` if it has none, before it does anything else. -/
theorem C70_server_address (prof : Profile) (args : List String) (os : SetupAnswers Err) (ts : List (Turn SocketAddr Err))
    (rs : List (Received SocketAddr Err)) :
    (∀ name addr more, args = name :: addr :: more →
      (EchoServer.program args os ts).calls.head? = some (.bind addr) ∧
      (RadioServer.program prof args os rs).calls.head? = some (.bind addr)) ∧
    (args.length ≤ 1 →
      (EchoServer.program args os ts).calls.head? = some (.bind "127.0.0.1:3000") ∧
      (RadioServer.program prof args os rs).calls.head? = some (.bind "127.0.0.1:3000")) ∧
    (∀ addr addr', .bind addr ∈ (EchoServer.program args os ts).calls →
      .bind addr' ∈ (RadioServer.program prof args os rs).calls → addr = addr') := by
  have e : ∀ b l, (b : Except Err Unit) = os.bind → (l : Except Err SocketAddr) = os.local_addr →
      ((EchoServer.program args os ts).calls = [.bind (args[1]?.getD "127.0.0.1:3000")] ∨
        (EchoServer.program args os ts).calls = [.bind (args[1]?.getD "127.0.0.1:3000"), .local_addr]) ∧
      ((RadioServer.program prof args os rs).calls = [.bind (args[1]?.getD "127.0.0.1:3000")] ∨
        (RadioServer.program prof args os rs).calls = [.bind (args[1]?.getD "127.0.0.1:3000"), .local_addr]) := by
    intro b l hb hl
    unfold EchoServer.program RadioServer.program
    cases b <;> cases l <;> simp [← hb, ← hl]
  obtain ⟨h1, h2⟩ := e _ _ rfl rfl
  refine ⟨fun name addr more h => ?_, fun h => ?_, fun addr addr' m m' => ?_⟩
  · subst h
    constructor
    · rcases h1 with h | h <;> rw [h] <;> simp
    · rcases h2 with h | h <;> rw [h] <;> simp
  · have : args[1]? = none := List.getElem?_eq_none (by omega)
    rw [this] at h1 h2
    constructor
    · rcases h1 with h | h <;> rw [h] <;> simp
    · rcases h2 with h | h <;> rw [h] <;> simp
  · have a1 : addr = args[1]?.getD "127.0.0.1:3000" := by
      rcases h1 with h | h <;> rw [h] at m <;> simpa using m
    have a2 : addr' = args[1]?.getD "127.0.0.1:3000" := by
      rcases h2 with h | h <;> rw [h] at m' <;> simpa using m'
    rw [a1, a2]

/-- If the socket cannot be set up, a server prints nothing, sends nothing and ends with the error and exit code 1. -/
theorem C70_server_refused (σ : LogFmt SocketAddr) (prof : Profile) (args : List String) (os : SetupAnswers Err) (e : Err)
    (h : os.bind = .error e ∨ os.bind = .ok () ∧ os.local_addr = .error e) (ts : List (Turn SocketAddr Err))
    (rs : List (Received SocketAddr Err)) :
    (EchoServer.output σ (EchoServer.program args os ts) = [] ∧ (EchoServer.program args os ts).done = [] ∧
      (EchoServer.program args os ts).status = .failed e ∧
      (EchoServer.program args os ts).status.exitCode = some 1) ∧
    RadioServer.output σ (RadioServer.program prof args os rs) = [] ∧
      (RadioServer.program prof args os rs).status = .failed e ∧
      (RadioServer.program prof args os rs).status.exitCode = some 1 := by
  unfold EchoServer.output RadioServer.output EchoServer.program RadioServer.program
  rcases h with h | ⟨h, h'⟩
  · simp [h, listeningText, echoText, logText, Status.exitCode]
  · simp [h, h', listeningText, echoText, logText, Status.exitCode]

/-- Otherwise it first prints the address of the socket, and then does what the server does: in particular the echo server
sends back whatever arrives, in order. -/
theorem C70_server_serves (σ : LogFmt SocketAddr) (prof : Profile) (args : List String) (os : SetupAnswers Err)
    (a : SocketAddr) (h : os.bind = .ok ()) (h' : os.local_addr = .ok a) (rs : List (Received SocketAddr Err))
    (ds : List (Bytes × SocketAddr)) :
    (EchoServer.program args os (ds.map fun d => .datagram d.1 d.2 (.ok ()))).done =
      ds.map (fun d => (d.1.take 1024, d.2)) ∧
    EchoServer.output σ (EchoServer.program args os (ds.map fun d => .datagram d.1 d.2 (.ok ()))) =
      strBytes "Listening on " ++ σ.addr a ++ strBytes "\n" ++ echoText σ (ds.map fun d => (d.1.take 1024, d.2)) ∧
    RadioServer.output σ (RadioServer.program prof args os rs) =
      strBytes "Listening on " ++ σ.addr a ++ strBytes "\n" ++ logText σ (RadioServer.main prof rs).1 ∧
    (RadioServer.program prof args os rs).status = (RadioServer.main prof rs).2 := by
  have nl : strBytes "\n" = [10] := by decide +kernel
  unfold EchoServer.output RadioServer.output EchoServer.program RadioServer.program
  simp [h, h', listeningText, C33_echo, nl]

theorem EchoServer.run_not_finished : ∀ (ts : List (Turn SocketAddr Err)) buf (pend : Pending SocketAddr Err),
    (EchoServer.run buf pend ts).2 ≠ .finished
  | ts, buf, pend => by
    have hh : ∀ st, EchoServer.handle buf pend = .error st → st ≠ .finished := fun st h => by
      unfold EchoServer.handle at h
      split at h
      · exact nomatch h
      · split at h
        · cases Except.error.inj h; exact nofun
        · split at h
          · cases Except.error.inj h; exact nofun
          · exact nomatch h
    cases ts with
    | nil =>
      rw [EchoServer.run]
      split
      · exact hh _ ‹_›
      · exact nofun
    | cons t ts =>
      cases t with
      | error e =>
        rw [EchoServer.run]
        split
        · exact hh _ ‹_›
        · exact nofun
      | datagram payload peer echo =>
        rw [EchoServer.run]
        split
        · exact hh _ ‹_›
        · exact EchoServer.run_not_finished ts _ _

theorem RadioServer.run_not_finished (prof : Profile) : ∀ (rs : List (Received SocketAddr Err)) buf pend,
    (RadioServer.run prof buf pend rs).2 ≠ .finished
  | rs, buf, pend => by
    cases rs with
    | nil => rw [RadioServer.run]; split <;> exact nofun
    | cons t rs =>
      cases t with
      | error e => rw [RadioServer.run]; split <;> exact nofun
      | datagram payload peer =>
        rw [RadioServer.run]
        split
        · exact nofun
        · exact RadioServer.run_not_finished prof rs _ _

/-- A server never ends with exit code 0; the echo server, whatever it receives, only ever with exit code 1 (an I/O error),
not by a panic (exit code 101). -/
theorem C70_server_exit (prof : Profile) (args : List String) (os : SetupAnswers Err) (ts : List (Turn SocketAddr Err))
    (rs : List (Received SocketAddr Err)) :
    ((EchoServer.program args os ts).status.exitCode = none ∨
      ∃ e, (EchoServer.program args os ts).status = .failed e ∧
        (EchoServer.program args os ts).status.exitCode = some 1) ∧
    (RadioServer.program prof args os rs).status.exitCode ≠ some 0 := by
  constructor
  · have h1 := EchoServer.run_not_finished ts (List.replicate 1024 0) none
    have h2 := fun e => EchoServer.run_no_panic (Err := Err) (Addr := SocketAddr) e ts (List.replicate 1024 0) none nofun
    unfold EchoServer.program EchoServer.main
    cases os.bind with
    | error e => exact .inr ⟨e, rfl, rfl⟩
    | ok u =>
    cases os.local_addr with
    | error e => exact .inr ⟨e, rfl, rfl⟩
    | ok a =>
    simp only
    revert h1 h2
    generalize EchoServer.run (List.replicate 1024 0) none ts = r
    obtain ⟨d, st⟩ := r
    intro h1 h2
    cases st with
    | waiting => exact .inl rfl
    | finished => exact absurd rfl h1
    | failed e => exact .inr ⟨e, rfl, rfl⟩
    | panicked e => exact absurd rfl (h2 e)
  · have h1 := RadioServer.run_not_finished prof rs (List.replicate 1024 0) none
    unfold RadioServer.program RadioServer.main
    cases os.bind <;> cases os.local_addr <;> simp only [Status.exitCode, ne_eq, Option.some.injEq] <;> try decide
    revert h1
    generalize RadioServer.run prof (List.replicate 1024 0) none rs = r
    obtain ⟨d, st⟩ := r
    intro h1
    cases st <;> simp_all

/-- a datagram, not an error -/
def Received.isDatagram : Received SocketAddr Err → Bool
  | .datagram .. => true
  | .error _ => false

theorem RadioServer.run_panics (prof : Profile) : ∀ (rs : List (Received SocketAddr Err)) buf pend, buf.length = 1024 →
    ((∃ e, (RadioServer.run prof buf pend rs).2 = .panicked e) ↔ (∃ e, RadioServer.handle prof buf pend = .error e) ∨
      ∃ payload peer, .datagram payload peer ∈ rs.takeWhile Received.isDatagram ∧
        ∃ e, deserialize_pdu prof (payload.take 1024) = .error e)
  | [], buf, pend, hb => by
    rw [RadioServer.run]
    cases h : RadioServer.handle prof buf pend <;> simp
  | .error x :: rs, buf, pend, hb => by
    rw [RadioServer.run]
    cases h : RadioServer.handle prof buf pend <;> simp [List.takeWhile, Received.isDatagram]
  | .datagram payload peer :: rs, buf, pend, hb => by
    have ih := run_panics prof rs (recvInto buf payload).1 (some ((recvInto buf payload).2, peer))
      ((recvInto_length buf payload).trans hb)
    rw [RadioServer.run]
    cases h : RadioServer.handle prof buf pend with
    | error e => simp
    | ok l =>
      have hh : (∃ e, RadioServer.handle prof (recvInto buf payload).1 (some ((recvInto buf payload).2, peer)) = .error e) ↔
          ∃ e, deserialize_pdu prof (payload.take 1024) = .error e := by
        rw [RadioServer.handle_recv prof buf payload peer hb]
        cases deserialize_pdu prof (payload.take 1024) <;> simp
      have tw : (Received.datagram payload peer :: rs).takeWhile Received.isDatagram =
          .datagram payload peer :: rs.takeWhile Received.isDatagram := by
        rw [List.takeWhile_cons]; rfl
      rw [tw]
      simp only [reduceCtorEq, exists_false, false_or]
      refine ih.trans ?_
      rw [hh]
      constructor
      · rintro (h1 | ⟨p, a, hm, h1⟩)
        · exact ⟨payload, peer, List.mem_cons_self .., h1⟩
        · exact ⟨p, a, List.mem_cons_of_mem _ hm, h1⟩
      · rintro ⟨p, a, hm, h1⟩
        rcases List.mem_cons.mp hm with e | hm
        · cases e; exact .inl h1
        · exact .inr ⟨p, a, hm, h1⟩

/-- The radio server ends by a panic (exit code 101) exactly if it could set up its socket and then received, before any
receive call failed, a datagram with a whole header of radio type and too few octets for a message of that type. -/
theorem C70_radio_server_crash (prof : Profile) (args : List String) (os : SetupAnswers Err)
    (rs : List (Received SocketAddr Err)) :
    (RadioServer.program prof args os rs).status.exitCode = some 101 ↔
      os.bind = .ok () ∧ (∃ here, os.local_addr = .ok here) ∧
      ∃ payload peer, .datagram payload peer ∈ rs.takeWhile Received.isDatagram ∧
        12 ≤ payload.length ∧ ∃ n, radioNeeds payload = some n ∧ payload.length < n := by
  have few : ∀ b n, radioNeeds b = some n → n ≤ 1024 := fun b n hn => by
    unfold radioNeeds at hn
    have := (b.getD 100 0).toNat_lt
    split at hn <;> simp only [Option.some.injEq, reduceCtorEq] at hn <;> omega
  have crash : ∀ payload : Bytes, (∃ e, deserialize_pdu prof (payload.take 1024) = .error e) ↔
      12 ≤ payload.length ∧ ∃ n, radioNeeds payload = some n ∧ payload.length < n := by
    intro payload
    by_cases hl : payload.length ≤ 1024
    · rw [List.take_of_length_le hl]
      simp only [C32_panics_iff, exists_eq_left]
    · refine iff_of_false ?_ ?_
      · rintro ⟨e, h⟩
        obtain ⟨-, -, n, hn, hs⟩ := (C32_panics_iff ..).mp h
        have := few _ _ hn
        rw [List.length_take] at hs
        omega
      · rintro ⟨-, n, hn, hs⟩
        have := few _ _ hn
        omega
  have key := RadioServer.run_panics prof rs (List.replicate 1024 0) none (List.length_replicate ..)
  simp only [RadioServer.handle, reduceCtorEq, exists_false, false_or, crash] at key
  rw [← key]
  unfold RadioServer.program RadioServer.main
  generalize RadioServer.run prof (List.replicate 1024 0) none rs = r
  obtain ⟨d, st⟩ := r
  cases os.bind <;> cases os.local_addr <;> cases st <;> simp [Status.exitCode]

/-- The whole output of a server can be taken apart: it tells whether the socket was set up, at what address, and what was
done afterwards. -/
theorem C70_server_output (σ : LogFmt SocketAddr) (hσ : σ.Lawful) (prof : Profile) (args args' : List String)
    (os os' : SetupAnswers Err) :
    (∀ ts ts', EchoServer.output σ (EchoServer.program args os ts) = EchoServer.output σ (EchoServer.program args' os' ts') ↔
      (EchoServer.program args os ts).listening.map σ.addr = (EchoServer.program args' os' ts').listening.map σ.addr ∧
      (EchoServer.program args os ts).done.map (fun e => (e.1.length, σ.addr e.2)) =
        (EchoServer.program args' os' ts').done.map (fun e => (e.1.length, σ.addr e.2))) ∧
    (∀ rs rs', RadioServer.output σ (RadioServer.program prof args os rs) =
        RadioServer.output σ (RadioServer.program prof args' os' rs') ↔
      (RadioServer.program prof args os rs).listening.map σ.addr =
        (RadioServer.program prof args' os' rs').listening.map σ.addr ∧
      (RadioServer.program prof args os rs).done.map (LogLine.shown σ) =
        (RadioServer.program prof args' os' rs').done.map (LogLine.shown σ)) := by
  have noline : ∀ a, ∀ b ∈ σ.addr a, (b == 10) = false := fun a b hb => by
    cases e : b == 10 with
    | false => rfl
    | true => exact absurd (beq_iff_eq.mp e ▸ hb) (hσ.addr_octets a).2
  have hne : strBytes "Listening on " ≠ [] := by decide +kernel
  -- one shape for both servers
  have key : ∀ (l l' : Option SocketAddr) (t t' : Text), (l = none → t = []) → (l' = none → t' = []) →
      (listeningText σ l ++ t = listeningText σ l' ++ t' ↔ l.map σ.addr = l'.map σ.addr ∧ t = t') := by
    intro l l' t t' h h'
    cases l <;> cases l'
    · simp [listeningText]
    · simp [listeningText, h rfl]
    · simp [listeningText, h' rfl]
    · rename_i a a'
      simp only [listeningText, List.append_assoc, Option.map_some, Option.some.injEq]
      constructor
      · intro e
        have e := List.append_cancel_left e
        obtain ⟨e1, e2⟩ := cut (noline a) (noline a') (.inr ⟨10, _, rfl, rfl⟩) (.inr ⟨10, _, rfl, rfl⟩) e
        exact ⟨e1, (List.cons.inj e2).2⟩
      · intro ⟨e1, e2⟩
        rw [e1, e2]
  have empty1 : ∀ args (os : SetupAnswers Err) ts, (EchoServer.program args os ts).listening = none →
      echoText σ (EchoServer.program args os ts).done = [] := fun args os ts => by
    unfold EchoServer.program
    cases os.bind <;> cases os.local_addr <;> simp [echoText]
  have empty2 : ∀ args (os : SetupAnswers Err) rs, (RadioServer.program prof args os rs).listening = none →
      logText σ (RadioServer.program prof args os rs).done = [] := fun args os rs => by
    unfold RadioServer.program
    cases os.bind <;> cases os.local_addr <;> simp [logText]
  constructor
  · intro ts ts'
    unfold EchoServer.output
    rw [key _ _ _ _ (empty1 _ _ _) (empty1 _ _ _), C69_echo σ hσ]
  · intro rs rs'
    unfold RadioServer.output
    rw [key _ _ _ _ (empty2 _ _ _) (empty2 _ _ _), C69_log σ hσ]

/-! ### The clients -/

/-- A client binds a socket of the family of the address it is given, at no particular address and port, and then connects
it to that address: these two calls, in this order, the second only if the first succeeds. -/
theorem C70_client_calls (prof : Profile) (made later : UInt32) (now : Fin 5 → UInt32) (addr : SocketAddr)
    (os : SetupAnswers Err) (es : List (ClientEvent Err)) (rs : List (Except Err Unit)) :
    ∃ local_, (UdpClient.connectTo prof made later addr os es).calls = (RadioClient.connectTo prof now addr os rs).calls ∧
      (os.bind = .ok () → (UdpClient.connectTo prof made later addr os es).calls = [.bind local_, .connect addr]) ∧
      (os.bind ≠ .ok () → (UdpClient.connectTo prof made later addr os es).calls = [.bind local_]) ∧
      (∀ a b c d port, addr = .v4 a b c d port → parseSocketAddrV4 (strBytes local_) = some (.v4 0 0 0 0 0)) ∧
      (∀ segments port flowinfo scope, addr = .v6 segments port flowinfo scope → local_ = "[::]:0") := by
  refine ⟨if addr.is_ipv4 then "0.0.0.0:0" else "[::]:0", ?_, ?_, ?_, fun a b c d port h => ?_, fun sg p f i h => ?_⟩
  · obtain ⟨w, hw, -⟩ := UdpClient.datagram prof made
    unfold UdpClient.connectTo RadioClient.connectTo
    cases os.bind <;> cases os.connect <;> simp [hw]
  · intro h
    obtain ⟨w, hw, -⟩ := UdpClient.datagram prof made
    unfold UdpClient.connectTo
    cases os.connect <;> simp [hw, h]
  · intro h
    unfold UdpClient.connectTo
    cases hb : os.bind with
    | error e => rfl
    | ok u => exact absurd hb h
  · subst h
    show parseSocketAddrV4 (strBytes "0.0.0.0:0") = _
    decide +kernel
  · subst h; rfl

/-- The servers, started without an argument, bind to the address the clients connect to. -/
theorem C70_meet (parseV6 : Text → Option SocketAddr) (bad : Err) (prof prof' : Profile) (made later : UInt32)
    (now : Fin 5 → UInt32) (args : List String) (hargs : args.length ≤ 1) (os os' : SetupAnswers Err)
    (hos : os.bind = .ok ()) (es : List (ClientEvent Err)) (res : List (Except Err Unit)) (ts : List (Turn SocketAddr Err))
    (rs : List (Received SocketAddr Err)) :
    ∃ s a, parseSocketAddr parseV6 (strBytes s) = some a ∧
      .bind s ∈ (EchoServer.program args os' ts).calls ∧ .bind s ∈ (RadioServer.program prof' args os' rs).calls ∧
      .connect a ∈ (UdpClient.program parseV6 bad prof made later os es).calls ∧
      .connect a ∈ (RadioClient.program parseV6 bad prof now os res).calls := by
  obtain ⟨h1, h2⟩ := (C70_server_address prof' args os' ts rs).2.1 hargs
  obtain ⟨l, e, c, -⟩ := C70_client_calls prof made later now loopback3000 os es res
  refine ⟨_, loopback3000, parse_loopback parseV6, List.mem_of_head? h1, List.mem_of_head? h2, ?_, ?_⟩
  · simp only [UdpClient.program, parse_loopback]
    rw [c hos]; simp
  · simp only [RadioClient.program, parse_loopback]
    rw [← e, c hos]; simp

theorem UdpClient.join_finished (prof : Profile) (now : UInt32) : ∀ (es : List (ClientEvent Err)) (s r : Bool)
    (shown x : Option (Pdu AcknowledgePdu)), (r = false → shown.isSome) →
    UdpClient.join prof now s r shown es = (x, .finished) → (s = true → .sent (.ok ()) ∈ es) ∧ x.isSome
  | [], s, r, shown, x, hs, h => by
    simp only [UdpClient.join, Prod.mk.injEq] at h
    obtain ⟨rfl, h⟩ := h
    cases s <;> cases r <;> simp_all
  | .sent q :: es, s, r, shown, x, hs, h => by
    rw [UdpClient.join_sent] at h
    split at h
    · cases q with
      | error e => exact nomatch (Prod.mk.inj h).2
      | ok u => exact ⟨fun _ => by simp, (join_finished prof now es _ _ _ _ hs h).2⟩
    · have := join_finished prof now es _ _ _ _ hs h
      exact ⟨fun hh => List.mem_cons_of_mem _ (this.1 hh), this.2⟩
  | .received q :: es, s, r, shown, x, hs, h => by
    rw [UdpClient.join_received] at h
    split at h
    · rcases C33_client_no_panic prof now [q] with ⟨p, hp⟩ | hp | ⟨e, hp⟩
      · rw [hp] at h
        have := join_finished prof now es _ _ _ _ (fun _ => rfl) h
        exact ⟨fun hh => List.mem_cons_of_mem _ (this.1 hh), this.2⟩
      · rw [hp] at h
        have := join_finished prof now es _ _ _ _ hs h
        exact ⟨fun hh => List.mem_cons_of_mem _ (this.1 hh), this.2⟩
      · rw [hp] at h
        exact nomatch (Prod.mk.inj h).2
    · have := join_finished prof now es _ _ _ _ hs h
      exact ⟨fun hh => List.mem_cons_of_mem _ (this.1 hh), this.2⟩

/-- The exit code of the UDP client: 0 only if the socket was set up, its send call completed well and it has shown an
answer; if the socket cannot be set up, 1, and then it has neither handed a datagram to the socket nor shown anything; it
never panics. -/
theorem C70_udp_client_exit (parseV6 : Text → Option SocketAddr) (bad : Err) (prof : Profile) (made later : UInt32)
    (os : SetupAnswers Err) (es : List (ClientEvent Err)) :
    ((UdpClient.program parseV6 bad prof made later os es).status.exitCode = some 0 →
      os.bind = .ok () ∧ os.connect = .ok () ∧ .sent (.ok ()) ∈ es ∧
      (UdpClient.program parseV6 bad prof made later os es).shown.isSome) ∧
    (∀ e, os.bind = .error e ∨ os.bind = .ok () ∧ os.connect = .error e →
      (UdpClient.program parseV6 bad prof made later os es).handed = none ∧
      (UdpClient.program parseV6 bad prof made later os es).shown = none ∧
      (UdpClient.program parseV6 bad prof made later os es).status = .failed e ∧
      (UdpClient.program parseV6 bad prof made later os es).status.exitCode = some 1) ∧
    (UdpClient.program parseV6 bad prof made later os es).status.exitCode ≠ some 101 := by
  obtain ⟨w, hw, -⟩ := UdpClient.datagram prof made
  simp only [UdpClient.program, parse_loopback]
  unfold UdpClient.connectTo
  refine ⟨fun h => ?_, fun e h => ?_, ?_⟩
  · cases hb : os.bind <;> cases hc : os.connect <;> simp only [hb, hc, hw, Status.exitCode] at h ⊢ <;>
      try exact absurd h (by decide)
    rename_i u u'
    revert h
    generalize hr : UdpClient.connect prof later es = r
    obtain ⟨x, st⟩ := r
    intro h
    cases st <;> simp only at h <;> try exact absurd h (by decide)
    obtain ⟨h1, h2⟩ := UdpClient.join_finished prof later es true true none x nofun hr
    exact ⟨trivial, trivial, h1 rfl, h2⟩
  · rcases h with h | ⟨h, h'⟩
    · simp [h, Status.exitCode]
    · simp [h, h', Status.exitCode]
  · cases os.bind <;> cases os.connect <;> simp only [hw, Status.exitCode] <;> try decide
    have := fun e => C59_no_panic prof later es e
    revert this
    generalize UdpClient.connect prof later es = r
    obtain ⟨x, st⟩ := r
    intro h
    cases st <;> simp_all

theorem le_completed : ∀ (n : Nat) (rs : List (Except Err Unit)),
    n ≤ completed rs ↔ n ≤ rs.length ∧ ∀ r ∈ rs.take n, r = .ok ()
  | 0, rs => by simp
  | n + 1, [] => by simp [completed]
  | n + 1, .error e :: rs => by simp [completed]
  | n + 1, .ok () :: rs => by
    have hc : completed (.ok () :: rs) = completed rs + 1 := by simp [completed]
    have := le_completed n rs
    rw [hc]
    simp only [Nat.add_le_add_iff_right, List.length_cons, List.take_succ_cons, List.mem_cons, forall_eq_or_imp, true_and]
    exact this

/-- The exit code of the radio client: 0 exactly if the socket was set up and the first five send calls completed well, and
then it has sent five datagrams and said so five times; if the socket cannot be set up, 1, and then it has sent and said
nothing; it never panics. -/
theorem C70_radio_client_exit (parseV6 : Text → Option SocketAddr) (bad : Err) (prof : Profile) (now : Fin 5 → UInt32)
    (os : SetupAnswers Err) (rs : List (Except Err Unit)) :
    ((RadioClient.program parseV6 bad prof now os rs).status.exitCode = some 0 ↔
      os.bind = .ok () ∧ os.connect = .ok () ∧ 5 ≤ rs.length ∧ ∀ r ∈ rs.take 5, r = .ok ()) ∧
    ((RadioClient.program parseV6 bad prof now os rs).status.exitCode = some 0 →
      (RadioClient.program parseV6 bad prof now os rs).done.datagrams.length = 5 ∧
      sentText (RadioClient.program parseV6 bad prof now os rs).done.lines =
        strBytes ("Sent TransmitterPdu\nSent SignalPdu\nSent ReceiverPdu\nSent IntercomSignalPdu\n" ++
          "Sent IntercomControlPdu\n")) ∧
    (∀ e, os.bind = .error e ∨ os.bind = .ok () ∧ os.connect = .error e →
      (RadioClient.program parseV6 bad prof now os rs).done = ⟨[], []⟩ ∧
      (RadioClient.program parseV6 bad prof now os rs).status = .failed e ∧
      (RadioClient.program parseV6 bad prof now os rs).status.exitCode = some 1) ∧
    (RadioClient.program parseV6 bad prof now os rs).status.exitCode ≠ some 101 := by
  obtain ⟨ws, -, hl, h⟩ := C59_radio_client (Err := Err) prof now
  have hst : ∀ st : Status Err, (st = if 5 ≤ completed rs then .finished
        else match rs[completed rs]? with
          | some (.error e) => .failed e
          | _ => .waiting) → (st.exitCode = some 0 ↔ 5 ≤ completed rs) ∧ st.exitCode ≠ some 101 := by
    intro st hst
    by_cases h5 : 5 ≤ completed rs
    · rw [if_pos h5] at hst
      subst hst
      exact ⟨⟨fun _ => h5, fun _ => rfl⟩, by simp [Status.exitCode]⟩
    · rw [if_neg h5] at hst
      split at hst
      · subst hst
        exact ⟨⟨fun hh => absurd hh (by simp [Status.exitCode]), fun hh => absurd hh h5⟩, by simp [Status.exitCode]⟩
      · subst hst
        exact ⟨⟨fun hh => absurd hh (by simp [Status.exitCode]), fun hh => absurd hh h5⟩, by simp [Status.exitCode]⟩
  have hst := hst _ rfl
  simp only [RadioClient.program, parse_loopback]
  unfold RadioClient.connectTo
  rw [h rs]
  generalize (if 5 ≤ completed rs then Status.finished
        else match rs[completed rs]? with
          | some (.error e) => .failed e
          | _ => .waiting) = st at hst
  rw [← le_completed 5 rs, ← hst.1]
  cases hb : os.bind with
  | error e =>
    refine ⟨⟨fun hh => absurd hh (by simp [Status.exitCode]), fun hh => nomatch hh.1⟩,
      fun hh => absurd hh (by simp [Status.exitCode]), fun e' he => ?_, by simp [Status.exitCode]⟩
    rcases he with he | ⟨he, -⟩
    · cases Except.error.inj he; exact ⟨rfl, rfl, rfl⟩
    · exact nomatch he
  | ok u =>
    cases hc : os.connect with
    | error e =>
      refine ⟨⟨fun hh => absurd hh (by simp [Status.exitCode]), fun hh => nomatch hh.2.1⟩,
        fun hh => absurd hh (by simp [Status.exitCode]), fun e' he => ?_, by simp [Status.exitCode]⟩
      rcases he with he | ⟨-, he⟩
      · exact nomatch he
      · cases Except.error.inj he; exact ⟨rfl, rfl, rfl⟩
    | ok u' =>
      refine ⟨⟨fun hh => ⟨rfl, rfl, hh⟩, fun hh => hh.2.2⟩, fun hh => ?_, fun e' he => ?_, hst.2⟩
      · have h5 := hst.1.mp hh
        have h1 : ws.take (completed rs) = ws := List.take_of_length_le (by omega)
        have h2 : radioKinds.take (completed rs) = radioKinds := List.take_of_length_le h5
        simp only [h1, h2, hl, true_and]
        decide +kernel
      · rcases he with he | ⟨-, he⟩
        · exact nomatch he
        · exact nomatch he

/-- The programs together, from start to end: the UDP client's datagram reaches the echo server among any others, what the
server sends back for it reaches the client, and no call fails.  Then, in whatever order the client's calls complete, it
ends with exit code 0 and has shown the PDU it sent; and what the server has printed tells of it. -/
theorem C70_exchange (parseV6 : Text → Option SocketAddr) (bad : Err) (prof : Profile) (made later : UInt32)
    (args : List String) (os os' : SetupAnswers Err) (here me : SocketAddr) (hos : os.bind = .ok ()) (hos' : os.connect = .ok ())
    (hb : os'.bind = .ok ()) (hl : os'.local_addr = .ok here) (before after : List (Bytes × SocketAddr))
    (σ : LogFmt SocketAddr) :
    ∃ w, (∀ es, (UdpClient.program parseV6 bad prof made later os es).handed = some w) ∧
      (w, me) ∈ (EchoServer.program args os' ((before ++ (w, me) :: after).map fun d => .datagram d.1 d.2 (.ok ()))).done ∧
      EchoServer.output σ (EchoServer.program args os' ((before ++ (w, me) :: after).map fun d => .datagram d.1 d.2 (.ok ()))) =
        strBytes "Listening on " ++ σ.addr here ++ strBytes "\n" ++
          echoText σ (before.map (fun d => (d.1.take 1024, d.2)) ++ (w, me) :: after.map (fun d => (d.1.take 1024, d.2))) ∧
      ∀ es, Smooth es → .sent (.ok ()) ∈ es → (∀ d, .received (.ok d) ∈ es ↔ d = w) →
        (UdpClient.program parseV6 bad prof made later os es).shown = some (Pdu.new made) ∧
        (UdpClient.program parseV6 bad prof made later os es).status.exitCode = some 0 := by
  obtain ⟨w, hw, hne, hlen, hview⟩ := UdpClient.datagram prof made
  obtain ⟨h1, h2, -⟩ := C70_server_serves σ prof args os' here hb hl [] (before ++ (w, me) :: after)
  have hmap : (before ++ (w, me) :: after).map (fun d => (d.1.take 1024, d.2)) =
      before.map (fun d => (d.1.take 1024, d.2)) ++ (w, me) :: after.map (fun d => (d.1.take 1024, d.2)) := by
    rw [List.map_append, List.map_cons, List.take_of_length_le (by omega)]
  refine ⟨w, fun es => ?_, ?_, ?_, fun es hs hsent hd => ?_⟩
  · simp only [UdpClient.program, parse_loopback]
    unfold UdpClient.connectTo
    simp only [hos, hos', hw]
  · rw [h1, hmap]; simp
  · rw [h2, hmap]
  · obtain ⟨c1, c2, -⟩ := C59_client prof later es hs
    have hpay : ∀ d, d ∈ payloads es ↔ d = w := fun d => (mem_payloads es d).trans (hd d)
    have hfin := c2.mpr ⟨hsent, w, (hpay w).mpr rfl, hne⟩
    have hfind : (payloads es).find? (· ≠ []) = some w := by
      cases hf : (payloads es).find? (· ≠ []) with
      | none =>
        have := List.find?_eq_none.mp hf w ((hpay w).mpr rfl)
        simp [hne] at this
      | some x => rw [(hpay x).mp (List.mem_of_find?_eq_some hf)]
    rw [hfind] at c1
    simp only [UdpClient.program, parse_loopback]
    unfold UdpClient.connectTo
    simp only [hos, hos', hw]
    refine ⟨c1.trans ?_, ?_⟩
    · rw [Option.map_some, hview]
    · rw [hfin]; rfl

/-! ### Concrete cases -/

/-- a formatter that prints IPv4 addresses as the standard library does, and IPv6 addresses as the list of their numbers -/
def sampleAddrFmt : LogFmt SocketAddr where
  toFmt := sampleFmt false
  shownF32 := (sampleFmt false).f32
  addr
    | .v4 a b c d port => decimal a.toNat ++ strBytes "." ++ decimal b.toNat ++ strBytes "." ++ decimal c.toNat ++
        strBytes "." ++ decimal d.toNat ++ strBytes ":" ++ List.replicate 0 48 ++ decimal port.toNat
    | .v6 segments port _ _ => segments.toList.flatMap (fun s => decimal s.toNat ++ strBytes ":") ++ decimal port.toNat

theorem sampleAddrFmt_lawful : sampleAddrFmt.Lawful where
  toLawful := sampleFmt_lawful false
  shownF32_octets := (sampleFmt_lawful false).f32_octets
  shownF32_nan := (sampleFmt_lawful false).f32_nan
  shownF32_tells := (sampleFmt_lawful false).f32_tells
  addr_octets a := by
    have d : ∀ n, ∀ b ∈ decimal n, 48 ≤ b.toNat := fun n b hb => (isDigitOctet_iff.mp ((decimal_facts n).1 b hb)).1
    have dot : strBytes "." = [46] := by decide +kernel
    have colon : strBytes ":" = [58] := by decide +kernel
    have all : ∀ b ∈ sampleAddrFmt.addr a, 46 ≤ b.toNat := by
      intro b hb
      cases a with
      | v4 a b' c d' port =>
        simp only [sampleAddrFmt, dot, colon, List.replicate_zero, List.append_nil, List.mem_append, List.mem_singleton,
          or_assoc] at hb
        rcases hb with h | rfl | h | rfl | h | rfl | h | rfl | h
        all_goals first | (have := d _ _ h; omega) | decide
      | v6 segments port f s =>
        simp only [sampleAddrFmt, colon, List.mem_append, List.mem_flatMap, List.mem_singleton] at hb
        rcases hb with ⟨_, _, h | rfl⟩ | h
        all_goals first | (have := d _ _ h; omega) | decide
    exact ⟨fun h => absurd (all _ h) (by decide), fun h => absurd (all _ h) (by decide)⟩

/-- an IPv4 address as it is printed is read as that address -/
example (a b c d : UInt8) (port : UInt16) : parseSocketAddrV4 (sampleAddrFmt.addr (.v4 a b c d port)) =
    some (.v4 a b c d port) := (C70_address _ _).mpr ⟨a, b, c, d, port, 0, rfl, rfl⟩
example : EchoServer.output sampleAddrFmt (EchoServer.program (Err := Unit) ["s"] ⟨.ok (), .ok loopback3000, .ok ()⟩
    [.datagram [1, 2, 3] (.v4 10 0 0 1 80) (.ok ())]) =
    strBytes "Listening on 127.0.0.1:3000\nEchoed 3/3 bytes to 10.0.0.1:80\n" := by decide +kernel

/-- a system where everything succeeds -/
def calmSystem : SetupAnswers String := ⟨.ok (), .ok loopback3000, .ok ()⟩
/-- a system where the address is in use -/
def busySystem : SetupAnswers String := ⟨.error "in use", .ok loopback3000, .ok ()⟩

example : (EchoServer.program ["udp_server"] calmSystem [.datagram [1, 2, 3] (.v4 10 0 0 1 80) (.ok ()), .error "down"]).done =
    [([1, 2, 3], .v4 10 0 0 1 80)] := by decide +kernel
/-- thirteen octets that say they are a signal PDU -/
example : (RadioServer.program ⟨true⟩ ["s"] calmSystem [.datagram ([7, 1, 26, 4] ++ List.replicate 9 0) loopback3000]).status.exitCode =
    some 101 := (C70_radio_server_crash _ _ _ _).mpr ⟨rfl, ⟨_, rfl⟩, _, _, List.mem_cons_self .., by decide, 32, rfl, by decide⟩
example := C70_meet (fun _ => none) "bad" ⟨true⟩ ⟨false⟩ 1 2 (fun _ => 3) ["udp_server"] (by decide) calmSystem busySystem rfl
  [] [] [] []
example (σ : LogFmt SocketAddr) := C70_server_refused σ ⟨true⟩ ["udp_server", "10.0.0.1:80"] busySystem "in use" (.inl rfl) [] []
example (σ : LogFmt SocketAddr) := C70_server_serves σ ⟨true⟩ ["udp_server"] calmSystem loopback3000 rfl rfl []
  [([1, 2], .v4 10 0 0 1 80)]
example : (RadioClient.program (fun _ => none) "bad" ⟨true⟩ (fun _ => 0) calmSystem
    [.ok (), .ok (), .ok (), .ok (), .ok ()]).status.exitCode = some 0 :=
  (C70_radio_client_exit _ _ _ _ _ _).1.mpr ⟨rfl, rfl, by decide, by decide⟩
example (σ : LogFmt SocketAddr) : ∃ w, (UdpClient.program (fun _ => none) "bad" ⟨true⟩ 5 6 calmSystem
    [.received (.ok w), .sent (.ok ())]).shown = some (Pdu.new 5) := by
  obtain ⟨w, -, -, -, h⟩ := C70_exchange (fun _ => none) "bad" ⟨true⟩ 5 6 ["s"] calmSystem calmSystem loopback3000
    (.v4 10 0 0 1 80) rfl rfl rfl rfl [([1], .v4 10 0 0 2 80)] [] σ
  exact ⟨w, (h _ (fun e => ⟨by simp, by simp⟩) (by simp) (by simp)).1⟩
/-- the UDP client, once its own message has come back to it -/
example : (UdpClient.program (fun _ => none) "bad" ⟨true⟩ 5 6 calmSystem
    [.sent (.ok ()), .received (.ok [1, 2, 3])]).status.exitCode = some 0 := by decide +kernel
example : EchoServer.output sampleAddrFmt (EchoServer.program ["s"] calmSystem []) ≠
    EchoServer.output sampleAddrFmt (EchoServer.program ["s"] busySystem []) := fun h =>
  absurd (((C70_server_output sampleAddrFmt sampleAddrFmt_lawful ⟨true⟩ ["s"] ["s"] calmSystem busySystem).1 [] []).mp h).1
    (by simp [EchoServer.program, calmSystem, busySystem])

end Dis
