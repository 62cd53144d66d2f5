import Verif.Model.Examples
import Verif.Properties.Needs
import Verif.Properties.Transmitter
import Verif.Properties.Panics
/-
C32 (the radio example) and C33 (the UDP echo example).
-/
namespace Dis

/-! ### C32: dispatch -/

/-- The kind of a parsed radio PDU. -/
def ParsedPdu.kind : ParsedPdu → PduKind
  | .Transmitter _ => .Transmitter
  | .Signal _ => .Signal
  | .Receiver _ => .Receiver
  | .IntercomSignal _ => .IntercomSignal
  | .IntercomControl _ => .IntercomControl
/-- The PDU itself. -/
def ParsedPdu.pdu : (m : ParsedPdu) → Pdu m.kind.Body
  | .Transmitter p => p
  | .Signal p => p
  | .Receiver p => p
  | .IntercomSignal p => p
  | .IntercomControl p => p

/-- What the server is to print for a datagram of `size` octets from `peer` in which `m` was recognised:
written from the meaning of the PDUs' fields, independently of the program. -/
def report {Addr : Type} (size : Nat) (peer : Addr) (m : Option ParsedPdu) : LogLine Addr :=
  match m with
  | none => .Unknown (size := size) (peer := peer)
  | some (.Transmitter p) => .Transmitter (peer := peer) (entity := p.body.entity_id)
      (freq := p.body.frequency) (state := p.body.transmit_state)
  | some (.Signal p) => .Signal (peer := peer) (entity := p.body.entity_id)
      (samples := p.body.samples) (data_length := p.body.data_length)
  | some (.Receiver p) => .Receiver (peer := peer) (entity := p.body.entity_id)
      (state := p.body.receiver_state) (power := p.body.received_power)
  | some (.IntercomSignal p) => .IntercomSignal (peer := peer) (intercom := p.body.intercom_reference_id)
      (samples := p.body.samples)
  | some (.IntercomControl p) => .IntercomControl (peer := peer)
      (intercom := p.body.source_intercom_reference_id) (command := p.body.command)
      (transmit_state := p.body.transmit_line_state)

theorem logLine_eq {Addr : Type} (size : Nat) (peer : Addr) (m : Option ParsedPdu) :
    logLine size peer m = report size peer m := by
  cases m with
  | none => rfl
  | some m => cases m <;> rfl

/-- The number of octets the radio message in `b` needs, by the type code in octet 2; none if that is not a
radio type. -/
def radioNeeds (b : Bytes) : Option Nat :=
  match (b.getD 2 0).toNat with
  | 25 => some (104 + (b.getD 100 0).toNat)
  | 26 => some 32
  | 27 => some 36
  | 31 => some 32
  | 32 => some 40
  | _ => none

theorem deserialize_pdu_eq (prof : Profile) (b : Bytes) :
    deserialize_pdu prof b =
      if b.length < 12 then .ok none
      else if (b.getD 2 0).toNat = 25 then decodeOk TransmitterPdu .Transmitter prof b
      else if (b.getD 2 0).toNat = 26 then decodeOk SignalPdu .Signal prof b
      else if (b.getD 2 0).toNat = 27 then decodeOk ReceiverPdu .Receiver prof b
      else if (b.getD 2 0).toNat = 31 then decodeOk IntercomSignalPdu .IntercomSignal prof b
      else if (b.getD 2 0).toNat = 32 then decodeOk IntercomControlPdu .IntercomControl prof b
      else .ok none := by
  unfold deserialize_pdu
  by_cases h : b.length < 12
  · rw [(C03_get_pdu_type_short prof b).mpr h, if_pos h]
  · rw [if_neg h]
    have hl : 12 ≤ (b.take 12).length := by simp; omega
    obtain ⟨hd, e, ht⟩ := PduHeader.deserialize_type prof hl
    have hg : PduHeader.get_pdu_type prof b = .ok (some (PduType.spec.ofCode (b.getD 2 0).toNat)) := by
      unfold PduHeader.get_pdu_type PduHeader.LENGTH
      rw [if_neg h, e]
      simp only [ht]
      simp
    rw [hg]
    have t1 := PduKind.type_test .Transmitter (b.getD 2 0).toNat
    have t2 := PduKind.type_test .Signal (b.getD 2 0).toNat
    have t3 := PduKind.type_test .Receiver (b.getD 2 0).toNat
    have t4 := PduKind.type_test .IntercomSignal (b.getD 2 0).toNat
    have t5 := PduKind.type_test .IntercomControl (b.getD 2 0).toNat
    change _ = (⟨25, _⟩ : PduType) ↔ _ = 25 at t1
    change _ = (⟨26, _⟩ : PduType) ↔ _ = 26 at t2
    change _ = (⟨27, _⟩ : PduType) ↔ _ = 27 at t3
    change _ = (⟨31, _⟩ : PduType) ↔ _ = 31 at t4
    change _ = (⟨32, _⟩ : PduType) ↔ _ = 32 at t5
    simp only [t1, t2, t3, t4, t5]

theorem decodeOk_some {B : Type} [PduBody B] {f : Pdu B → ParsedPdu} {prof : Profile} {b : Bytes}
    {m : ParsedPdu} : decodeOk B f prof b = .ok (some m) ↔
      ∃ p rest, decodeAs B prof b = .ok (.ok p, rest) ∧ f p = m := by
  unfold decodeOk
  show (match decodeAs B prof b with | .error e => _ | .ok (.error _, _) => _ | .ok (.ok p, _) => _) = _ ↔ _
  cases h : decodeAs B prof b with
  | error e => simp
  | ok v =>
    obtain ⟨r, rest⟩ := v
    cases r with
    | error e => simp
    | ok p => simp

theorem decodeOk_error {B : Type} [PduBody B] {f : Pdu B → ParsedPdu} {prof : Profile} {b : Bytes}
    {e : Panic} : decodeOk B f prof b = .error e ↔ decodeAs B prof b = .error e := by
  unfold decodeOk
  show (match decodeAs B prof b with | .error e => _ | .ok (.error _, _) => _ | .ok (.ok p, _) => _) = _ ↔ _
  cases h : decodeAs B prof b with
  | error e => simp
  | ok v =>
    obtain ⟨r, rest⟩ := v
    cases r with
    | error e => simp
    | ok p => simp

theorem decodeOk_none {B : Type} [PduBody B] {f : Pdu B → ParsedPdu} {prof : Profile} {b : Bytes}
    (h : ∀ e rest, decodeAs B prof b ≠ .ok (.error e, rest)) : decodeOk B f prof b ≠ .ok none := by
  unfold decodeOk
  show (match decodeAs B prof b with | .error e => _ | .ok (.error _, _) => _ | .ok (.ok p, _) => _) ≠ _
  cases h' : decodeAs B prof b with
  | error e => simp
  | ok v =>
    obtain ⟨r, rest⟩ := v
    cases r with
    | error e => exact absurd h' (h e rest)
    | ok p => simp

/-- `Some`: exactly the successful decodings of the five radio kinds, each under its own kind. -/
theorem C32_some_iff (prof : Profile) (b : Bytes) (m : ParsedPdu) :
    deserialize_pdu prof b = .ok (some m) ↔ ∃ rest, m.kind.decode prof b = .ok (.ok m.pdu, rest) := by
  rw [deserialize_pdu_eq]
  constructor
  · intro h
    split at h
    · cases h
    · split at h
      · obtain ⟨p, rest, h1, rfl⟩ := decodeOk_some.mp h; exact ⟨rest, h1⟩
      · split at h
        · obtain ⟨p, rest, h1, rfl⟩ := decodeOk_some.mp h; exact ⟨rest, h1⟩
        · split at h
          · obtain ⟨p, rest, h1, rfl⟩ := decodeOk_some.mp h; exact ⟨rest, h1⟩
          · split at h
            · obtain ⟨p, rest, h1, rfl⟩ := decodeOk_some.mp h; exact ⟨rest, h1⟩
            · split at h
              · obtain ⟨p, rest, h1, rfl⟩ := decodeOk_some.mp h; exact ⟨rest, h1⟩
              · cases h
  · rintro ⟨rest, h⟩
    obtain ⟨h1, h2, _⟩ := C09_ok_only_own_type m.kind prof b m.pdu rest h
    rw [if_neg (by omega)]
    cases m with
    | Transmitter p =>
      have h2 : (b.getD 2 0).toNat = 25 := h2
      rw [if_pos h2]
      exact decodeOk_some.mpr ⟨p, rest, h, rfl⟩
    | Signal p =>
      have h2 : (b.getD 2 0).toNat = 26 := h2
      rw [if_neg (by omega), if_pos h2]
      exact decodeOk_some.mpr ⟨p, rest, h, rfl⟩
    | Receiver p =>
      have h2 : (b.getD 2 0).toNat = 27 := h2
      rw [if_neg (by omega), if_neg (by omega), if_pos h2]
      exact decodeOk_some.mpr ⟨p, rest, h, rfl⟩
    | IntercomSignal p =>
      have h2 : (b.getD 2 0).toNat = 31 := h2
      rw [if_neg (by omega), if_neg (by omega), if_neg (by omega), if_pos h2]
      exact decodeOk_some.mpr ⟨p, rest, h, rfl⟩
    | IntercomControl p =>
      have h2 : (b.getD 2 0).toNat = 32 := h2
      rw [if_neg (by omega), if_neg (by omega), if_neg (by omega), if_neg (by omega), if_pos h2]
      exact decodeOk_some.mpr ⟨p, rest, h, rfl⟩

/-- `None`: exactly when there is no whole header or the type is not one of the five. -/
theorem C32_none_iff (prof : Profile) (b : Bytes) :
    deserialize_pdu prof b = .ok none ↔ b.length < 12 ∨ radioNeeds b = none := by
  rw [deserialize_pdu_eq]
  by_cases hl : b.length < 12
  · rw [if_pos hl]
    exact iff_of_true rfl (.inl hl)
  · rw [if_neg hl]
    simp only [hl, false_or]
    have hh : 12 ≤ b.length := by omega
    split
    · rename_i h
      refine iff_of_false (decodeOk_none (C09_own_type_accepted .Transmitter prof b hh h)) ?_
      unfold radioNeeds; rw [h]; simp
    · split
      · rename_i h
        refine iff_of_false (decodeOk_none (C09_own_type_accepted .Signal prof b hh h)) ?_
        unfold radioNeeds; rw [h]; simp
      · split
        · rename_i h
          refine iff_of_false (decodeOk_none (C09_own_type_accepted .Receiver prof b hh h)) ?_
          unfold radioNeeds; rw [h]; simp
        · split
          · rename_i h
            refine iff_of_false (decodeOk_none (C09_own_type_accepted .IntercomSignal prof b hh h)) ?_
            unfold radioNeeds; rw [h]; simp
          · split
            · rename_i h
              refine iff_of_false (decodeOk_none (C09_own_type_accepted .IntercomControl prof b hh h)) ?_
              unfold radioNeeds; rw [h]; simp
            · refine iff_of_true rfl ?_
              unfold radioNeeds
              split <;> first | contradiction | rfl

/-- A panic: exactly for a whole header of radio type followed by too few octets. -/
theorem C32_panics_iff (prof : Profile) (b : Bytes) (e : Panic) :
    deserialize_pdu prof b = .error e ↔
      e = .bufferUnderflow ∧ 12 ≤ b.length ∧ ∃ n, radioNeeds b = some n ∧ b.length < n := by
  rw [deserialize_pdu_eq]
  by_cases hl : b.length < 12
  · simp only [if_pos hl]
    exact iff_of_false (by simp) (by omega)
  · rw [if_neg hl]
    have hh : 12 ≤ b.length := by omega
    have key : ∀ (k : PduKind) (n : Nat), (b.length < n → k.decode prof b = .error .bufferUnderflow) →
        (n ≤ b.length → ∃ p r, k.decode prof b = .ok (.ok p, r)) →
        (k.decode prof b = .error e ↔ e = .bufferUnderflow ∧ b.length < n) := by
      intro k n h1 h2
      constructor
      · intro h
        by_cases hn : b.length < n
        · rw [h1 hn] at h; cases h; exact ⟨rfl, hn⟩
        · obtain ⟨p, r, hp⟩ := h2 (by omega)
          rw [hp] at h; cases h
      · rintro ⟨rfl, hn⟩; exact h1 hn
    have fin : ∀ n, radioNeeds b = some n → (e = .bufferUnderflow ∧ b.length < n ↔
        e = .bufferUnderflow ∧ 12 ≤ b.length ∧ ∃ n, radioNeeds b = some n ∧ b.length < n) := by
      intro n hn
      rw [hn]
      simp [hh]
    split
    · rename_i h
      rw [decodeOk_error]
      refine (key .Transmitter (104 + (b.getD 100 0).toNat) (C14_transmitter prof b hh h).1
        (fun hn => ?_)).trans (fin _ ?_)
      · obtain ⟨p, hp⟩ := (C14_transmitter prof b hh h).2 hn
        exact ⟨p, _, hp⟩
      · simp only [radioNeeds, h]
    · split
      · rename_i h
        have c := C14_panics_iff_short .Signal rfl (by decide) prof b hh h
        rw [decodeOk_error]
        refine (key .Signal 32 c.1 (fun hn => ?_)).trans (fin _ ?_)
        · obtain ⟨p, hp⟩ := c.2 hn; exact ⟨p, _, hp⟩
        · simp only [radioNeeds, h]
      · split
        · rename_i h
          have c := C14_panics_iff_short .Receiver rfl (by decide) prof b hh h
          rw [decodeOk_error]
          refine (key .Receiver 36 c.1 (fun hn => ?_)).trans (fin _ ?_)
          · obtain ⟨p, hp⟩ := c.2 hn; exact ⟨p, _, hp⟩
          · simp only [radioNeeds, h]
        · split
          · rename_i h
            have c := C14_panics_iff_short .IntercomSignal rfl (by decide) prof b hh h
            rw [decodeOk_error]
            refine (key .IntercomSignal 32 c.1 (fun hn => ?_)).trans (fin _ ?_)
            · obtain ⟨p, hp⟩ := c.2 hn; exact ⟨p, _, hp⟩
            · simp only [radioNeeds, h]
          · split
            · rename_i h
              have c := C14_panics_iff_short .IntercomControl rfl (by decide) prof b hh h
              rw [decodeOk_error]
              refine (key .IntercomControl 40 c.1 (fun hn => ?_)).trans (fin _ ?_)
              · obtain ⟨p, hp⟩ := c.2 hn; exact ⟨p, _, hp⟩
              · simp only [radioNeeds, h]
            · refine iff_of_false (by simp) ?_
              rintro ⟨_, _, n, hn, _⟩
              unfold radioNeeds at hn
              split at hn <;> first | contradiction | cases hn

/-! ### C32: the server's loop -/

variable {Addr Err : Type}

theorem recvInto_length (buf payload : Bytes) : (recvInto buf payload).1.length = buf.length := by
  unfold recvInto
  simp only [List.length_append, List.length_take, List.length_drop]
  omega

theorem recvInto_slice (buf payload : Bytes) :
    slicePrefix (recvInto buf payload).1 (recvInto buf payload).2 = .ok (payload.take buf.length) := by
  have h := recvInto_length buf payload
  unfold slicePrefix
  rw [if_pos (by rw [h]; exact Nat.min_le_right _ _)]
  unfold recvInto
  simp only [List.take_append, List.length_take]
  congr 1
  rw [show min payload.length buf.length - min buf.length payload.length = 0 by omega, List.take_zero,
    List.append_nil, List.take_take]
  rw [show min (min payload.length buf.length) buf.length = min payload.length buf.length by omega]
  by_cases hp : payload.length ≤ buf.length
  · rw [Nat.min_eq_left hp, List.take_of_length_le (Nat.le_refl _), List.take_of_length_le hp]
  · rw [Nat.min_eq_right (by omega)]

theorem RadioServer.handle_recv (prof : Profile) (buf payload : Bytes) (peer : Addr)
    (hb : buf.length = 1024) :
    RadioServer.handle prof (recvInto buf payload).1 (some ((recvInto buf payload).2, peer)) =
      match deserialize_pdu prof (payload.take 1024) with
      | .error e => .error e
      | .ok r => .ok [report (min payload.length 1024) peer r] := by
  simp only [RadioServer.handle, recvInto_slice, hb, logLine_eq]
  simp only [recvInto, hb]
  cases deserialize_pdu prof (payload.take 1024) <;> rfl

theorem RadioServer.run_tail (prof : Profile) (answer : Bytes → Option ParsedPdu)
    (more : List (Received Addr Err)) (st : Status Err)
    (ht : ∀ buf pend l, buf.length = 1024 → RadioServer.handle prof buf pend = .ok l →
      RadioServer.run prof buf pend more = (l, st)) :
    ∀ (ds : List (Bytes × Addr)), (∀ d ∈ ds, deserialize_pdu prof (d.1.take 1024) = .ok (answer d.1)) →
    ∀ buf pend l, buf.length = 1024 → RadioServer.handle prof buf pend = .ok l →
      RadioServer.run prof buf pend (ds.map (fun d => .datagram d.1 d.2) ++ more) =
        (l ++ ds.map fun d => report (min d.1.length 1024) d.2 (answer d.1), st)
  | [], _, buf, pend, l, hb, hl => by simpa using ht buf pend l hb hl
  | d :: ds, hd, buf, pend, l, hb, hl => by
    have h1 := RadioServer.handle_recv prof buf d.1 d.2 hb
    rw [hd d (List.mem_cons_self ..)] at h1
    have ih := run_tail prof answer more st ht ds (fun x hx => hd x (List.mem_cons_of_mem _ hx)) _ _ _
      ((recvInto_length buf d.1).trans hb) h1
    rw [List.map_cons, List.cons_append, RadioServer.run, hl]
    simp only [ih, List.map_cons, List.singleton_append]

/-- Whatever datagrams arrived, none of them making the dispatcher panic: one line each, in order, telling
what the first 1024 octets of that datagram are, wherever it came from and whatever came before; and the
server waits for the next. -/
theorem C32_history (prof : Profile) (answer : Bytes → Option ParsedPdu) (ds : List (Bytes × Addr))
    (h : ∀ d ∈ ds, deserialize_pdu prof (d.1.take 1024) = .ok (answer d.1)) :
    RadioServer.main (Err := Err) prof (ds.map fun d => .datagram d.1 d.2) =
      (ds.map fun d => report (min d.1.length 1024) d.2 (answer d.1), .waiting) := by
  have := RadioServer.run_tail prof answer ([] : List (Received Addr Err)) .waiting
    (fun buf pend l _ hl => by rw [RadioServer.run, hl]) ds h (List.replicate 1024 0) none []
    (List.length_replicate ..) rfl
  rw [List.append_nil, List.nil_append] at this
  exact this

/-- An I/O error ends the server, all datagrams before it having been reported. -/
theorem C32_io_error (prof : Profile) (answer : Bytes → Option ParsedPdu) (ds : List (Bytes × Addr))
    (h : ∀ d ∈ ds, deserialize_pdu prof (d.1.take 1024) = .ok (answer d.1)) (e : Err)
    (more : List (Received Addr Err)) :
    RadioServer.main prof (ds.map (fun d => .datagram d.1 d.2) ++ .error e :: more) =
      (ds.map fun d => report (min d.1.length 1024) d.2 (answer d.1), .failed e) := by
  have := RadioServer.run_tail prof answer (.error e :: more) (.failed e)
    (fun buf pend l _ hl => by rw [RadioServer.run, hl]) ds h (List.replicate 1024 0) none []
    (List.length_replicate ..) rfl
  rw [List.nil_append] at this
  exact this

/-- Two datagrams the dispatcher does not know, then an error of the socket. -/
example := C32_io_error (Addr := Nat) (Err := Unit) ⟨true⟩ (fun _ => none) [([7, 1, 1, 1] ++ List.replicate 20 0, 5), ([7, 1, 2, 2] ++ List.replicate 20 0, 6)]
  (by intro d hd; simp only [List.mem_cons, List.not_mem_nil, or_false] at hd; rcases hd with rfl | rfl <;> decide +kernel) () []

/-- A datagram of 12 octets or more with a radio type and too few octets kills the server: the datagrams
before it have been reported, it is not, and none of those after it ever is. -/
theorem C32_crash (prof : Profile) (answer : Bytes → Option ParsedPdu) (ds : List (Bytes × Addr))
    (h : ∀ d ∈ ds, deserialize_pdu prof (d.1.take 1024) = .ok (answer d.1)) (bad : Bytes) (peer : Addr)
    (n : Nat) (hb : 12 ≤ bad.length) (hn : radioNeeds bad = some n) (hs : bad.length < n)
    (more : List (Received Addr Err)) :
    RadioServer.main prof (ds.map (fun d => .datagram d.1 d.2) ++ .datagram bad peer :: more) =
      (ds.map fun d => report (min d.1.length 1024) d.2 (answer d.1), .panicked .bufferUnderflow) := by
  have hn' : n ≤ 1024 := by
    unfold radioNeeds at hn
    have := (bad.getD 100 0).toNat_lt
    split at hn <;> simp only [Option.some.injEq, reduceCtorEq] at hn <;> omega
  have hbad : deserialize_pdu prof (bad.take 1024) = .error .bufferUnderflow := by
    rw [List.take_of_length_le (by omega)]
    exact (C32_panics_iff prof bad _).mpr ⟨rfl, hb, n, hn, hs⟩
  have := RadioServer.run_tail prof answer (.datagram bad peer :: more) (.panicked .bufferUnderflow)
    (fun buf pend l hl' hl => by
      have h1 := RadioServer.handle_recv prof buf bad peer hl'
      rw [hbad] at h1
      rw [RadioServer.run, hl]
      cases more with
      | nil => simp only [RadioServer.run, h1, List.append_nil]
      | cons r rs =>
        cases r with
        | datagram p a => simp only [RadioServer.run, h1, List.append_nil]
        | error e => simp only [RadioServer.run, h1, List.append_nil])
    ds h (List.replicate 1024 0) none [] (List.length_replicate ..) rfl
  rw [List.nil_append] at this
  exact this

/-- Twelve octets suffice. -/
example : radioNeeds [7, 1, 26, 4, 0, 0, 0, 0, 0, 12, 0, 0] = some 32 := by decide +kernel
/-- A datagram that is not a radio PDU is reported as unknown. -/
example : deserialize_pdu ⟨true⟩ ([7, 1, 1, 1] ++ List.replicate 20 0) = .ok none := by decide +kernel

/-! ### C32: what is sent is what is reported -/

theorem decode_take (k : PduKind) (hk : k ≠ .EntityState) (prof : Profile) (w : Bytes)
    (r : Except DISError (Pdu k.Body)) (n : Nat) (h : k.decode prof w = .ok (r, w.drop n)) (hn : n ≤ w.length)
    (m : Nat) (hm : n ≤ m) : k.decode prof (w.take m) = .ok (r, (w.take m).drop n) := by
  obtain ⟨u, hu, hd⟩ := C15_ignores_what_follows k hk prof w r _ h
  have hul : u.length = n := by
    have := congrArg List.length hu
    rw [List.length_append, List.length_drop] at this
    omega
  have : w.take m = u ++ (w.take m).drop n := by
    have h1 := List.take_append_drop n (w.take m)
    rw [List.take_take, Nat.min_eq_left hm] at h1
    have h2 : w.take n = u := by
      rw [hu]
      rw [← hul, List.take_left]
    rw [h2] at h1
    exact h1.symm
  rw [this, hd, ← hul, List.drop_left]

/-- The octets of a radio PDU that was successfully serialized. -/
def ParsedPdu.Sent (prof : Profile) (m : ParsedPdu) (w : Bytes) : Prop :=
  ∃ q, m.pdu.serialize prof [] = .ok ((q, .ok ()), w)

theorem sent_fixed (k : PduKind) (hu : k.unconditional = true) (hv : k.variableDecoder = false)
    (he : k ≠ .EntityState) (hn : k.ieeeOctets ≤ 1024) (p q : Pdu k.Body) (prof : Profile) (w : Bytes)
    (h : p.serialize prof [] = .ok ((q, .ok ()), w)) (prof' : Profile) :
    ∃ hd rest, k.decode prof' (w.take 1024) = .ok (.ok ⟨hd, kept p.body⟩, rest) := by
  have hl := C06_length_not_truncated k p q prof [] w h
  have hlt := q.header.length.toNat_lt
  obtain ⟨q', w', hs, hb, hd⟩ := C12_survives k hu p (by omega) prof []
  rw [h] at hs
  simp only [Except.ok.injEq, Prod.mk.injEq, and_true, List.nil_append] at hs
  obtain ⟨rfl, rfl⟩ := hs
  have hd := hd prof' []
  rw [List.append_nil] at hd
  obtain ⟨h1, h2, _⟩ := C09_ok_only_own_type k prof' w _ _ hd
  have c := C14_panics_iff_short k hv he prof' w h1 h2
  by_cases hs : w.length < k.ieeeOctets
  · rw [show k.decode prof' w = _ from c.1 hs] at hd; cases hd
  · obtain ⟨x, hx⟩ := c.2 (by omega)
    have e := hx
    rw [show k.decode prof' w = _ from hd] at e
    simp only [Except.ok.injEq, Prod.mk.injEq] at e
    rw [← e.1] at hx
    exact ⟨_, _, decode_take k he prof' w _ _ hx (by omega) 1024 hn⟩

theorem sent_transmitter (p q : Pdu TransmitterPdu) (prof : Profile) (w : Bytes)
    (h : p.serialize prof [] = .ok ((q, .ok ()), w)) (prof' : Profile) :
    ∃ x rest, decodeAs TransmitterPdu prof' (w.take 1024) = .ok (.ok x, rest) ∧
      x.body.entity_id = p.body.entity_id ∧ x.body.frequency = p.body.frequency ∧
      x.body.transmit_state = p.body.transmit_state := by
  have hl := C06_length_not_truncated .Transmitter p q prof [] w h
  have hlt := q.header.length.toNat_lt
  have hl' : declaredOctets p ≤ 65535 := Int.le_trans (Int.le_of_eq hl.symm) (by omega)
  have key : ∃ x rest, decodeAs TransmitterPdu prof' w = .ok (.ok x, rest) ∧
      x.body.entity_id = p.body.entity_id ∧ x.body.frequency = p.body.frequency ∧
      x.body.transmit_state = p.body.transmit_state := by
    by_cases hn : (modulationOctets p.body).length ≤ 255
    · by_cases he : p.body.modulation_parameters = some ⟨[]⟩
      · have hm : modulationOctets p.body = [] := by unfold modulationOctets; rw [he]
        have hlen := TransmitterPdu.prep_length p.body
        rw [hm] at hlen
        obtain ⟨q', w', hs, hb, hd⟩ := TransmitterPdu.roundtrip p hl' none [] (by rw [wire_modulation, hm]; rfl)
          (by rw [hlen]; rfl) (by simp) prof []
        rw [h] at hs
        simp only [Except.ok.injEq, Prod.mk.injEq, and_true, List.nil_append] at hs
        obtain ⟨rfl, rfl⟩ := hs
        have hd := hd prof' []
        rw [List.append_nil] at hd
        rw [hb] at hd
        exact ⟨_, _, hd, rfl, rfl, rfl⟩
      · obtain ⟨q', w', hs, hb, _, hd⟩ := C29_parameters p hl' hn he prof []
        rw [h] at hs
        simp only [Except.ok.injEq, Prod.mk.injEq, and_true, List.nil_append] at hs
        obtain ⟨rfl, rfl⟩ := hs
        have hd := hd prof' []
        rw [List.append_nil] at hd
        rw [hb] at hd
        exact ⟨_, _, hd, rfl, rfl, rfl⟩
    · obtain ⟨q', w', hs, _, hd⟩ := C29_oversized_parameters p hl' (by omega) prof []
      rw [h] at hs
      simp only [Except.ok.injEq, Prod.mk.injEq, and_true, List.nil_append] at hs
      obtain ⟨rfl, rfl⟩ := hs
      obtain ⟨x, hx, hb⟩ := hd prof' []
      rw [List.append_nil] at hx
      exact ⟨x, _, hx, by rw [hb], by rw [hb], by rw [hb]⟩
  obtain ⟨x, rest, hx, hf⟩ := key
  obtain ⟨h1, h2, _⟩ := C09_ok_only_own_type .Transmitter prof' w _ _ hx
  have c := C14_transmitter prof' w h1 h2
  by_cases hs : w.length < 104 + (w.getD 100 0).toNat
  · rw [c.1 hs] at hx; cases hx
  · obtain ⟨y, hy⟩ := c.2 (by omega)
    have e := hy
    rw [hx] at e
    simp only [Except.ok.injEq, Prod.mk.injEq] at e
    rw [← e.1] at hy
    have := (w.getD 100 0).toNat_lt
    exact ⟨x, _, decode_take .Transmitter (by decide) prof' w _ _ hy (by omega) 1024 (by omega), hf⟩

/-- Any radio PDU whatever, serialized and sent in a datagram (even one longer than the server's buffer), is
recognised as its kind, and the values reported are the values sent. -/
theorem C32_sent_is_reported (prof prof' : Profile) (m : ParsedPdu) (w : Bytes) (h : m.Sent prof w) :
    ∃ m', deserialize_pdu prof' (w.take 1024) = .ok (some m') ∧ m'.kind = m.kind ∧
      ∀ (size : Nat) (peer : Addr), report size peer (some m') = report size peer (some m) := by
  obtain ⟨q, h⟩ := h
  cases m with
  | Transmitter p =>
    obtain ⟨x, rest, hx, h1, h2, h3⟩ := sent_transmitter p q prof w h prof'
    exact ⟨.Transmitter x, (C32_some_iff _ _ _).mpr ⟨rest, hx⟩, rfl, fun _ _ => by
      simp only [report, h1, h2, h3]⟩
  | Signal p =>
    obtain ⟨hd, rest, hx⟩ := sent_fixed .Signal rfl rfl (by decide) (by decide) p q prof w h prof'
    exact ⟨.Signal ⟨hd, _⟩, (C32_some_iff _ _ _).mpr ⟨rest, hx⟩, rfl, fun _ _ => rfl⟩
  | Receiver p =>
    obtain ⟨hd, rest, hx⟩ := sent_fixed .Receiver rfl rfl (by decide) (by decide) p q prof w h prof'
    exact ⟨.Receiver ⟨hd, _⟩, (C32_some_iff _ _ _).mpr ⟨rest, hx⟩, rfl, fun _ _ => rfl⟩
  | IntercomSignal p =>
    obtain ⟨hd, rest, hx⟩ := sent_fixed .IntercomSignal rfl rfl (by decide) (by decide) p q prof w h prof'
    exact ⟨.IntercomSignal ⟨hd, _⟩, (C32_some_iff _ _ _).mpr ⟨rest, hx⟩, rfl, fun _ _ => rfl⟩
  | IntercomControl p =>
    obtain ⟨hd, rest, hx⟩ := sent_fixed .IntercomControl rfl rfl (by decide) (by decide) p q prof w h prof'
    exact ⟨.IntercomControl ⟨hd, _⟩, (C32_some_iff _ _ _).mpr ⟨rest, hx⟩, rfl, fun _ _ => rfl⟩

/-- The sample signal PDU is such a PDU. -/
example : ParsedPdu.Sent ⟨true⟩ (.Signal sampleSignal) sampleOctets := ⟨_, sampleSignal_serialize_nil⟩

/-- Hence whatever sequence of radio PDUs the peers send, in whatever order they arrive, the server reports
exactly those, in that order. -/
theorem C32_radio_traffic (prof prof' : Profile) (ms : List (ParsedPdu × Bytes × Addr))
    (h : ∀ m ∈ ms, m.1.Sent prof m.2.1) :
    RadioServer.main (Err := Err) prof' (ms.map fun m => .datagram m.2.1 m.2.2) =
      (ms.map fun m => report (min m.2.1.length 1024) m.2.2 (some m.1), .waiting) := by
  let answer : Bytes → Option ParsedPdu := fun b =>
    match deserialize_pdu prof' (b.take 1024) with
    | .ok r => r
    | .error _ => none
  have hm : ∀ m ∈ ms, ∃ m', deserialize_pdu prof' (m.2.1.take 1024) = .ok (some m') ∧
      answer m.2.1 = some m' ∧ ∀ (size : Nat) (peer : Addr), report size peer (some m') =
        report size peer (some m.1) := by
    intro m hm
    obtain ⟨m', h1, _, h2⟩ := C32_sent_is_reported (Addr := Addr) prof prof' m.1 m.2.1 (h m hm)
    exact ⟨m', h1, by simp only [answer, h1], h2⟩
  have := C32_history (Err := Err) prof' answer (ms.map fun m => m.2) (by
    intro d hd
    obtain ⟨m, hmm, rfl⟩ := List.mem_map.mp hd
    obtain ⟨m', h1, h2, _⟩ := hm m hmm
    rw [h1, h2])
  rw [List.map_map, List.map_map] at this
  refine this.trans ?_
  congr 1
  refine List.map_congr_left fun m hmm => ?_
  obtain ⟨m', _, h2, h3⟩ := hm m hmm
  show report _ _ (answer m.2.1) = _
  rw [h2, h3]

example := C32_radio_traffic (Addr := Nat) (Err := Unit) ⟨true⟩ ⟨false⟩ [(.Signal sampleSignal, sampleOctets, 5)] (by
  intro m hm; simp only [List.mem_singleton] at hm; subst hm; exact ⟨_, sampleSignal_serialize_nil⟩)

/-- What the client hands to the socket: the serialized PDU, or, the result of `serialize` being discarded,
an empty datagram for a PDU too large. -/
theorem C32_client_send (k : PduKind) (hk : k.hasRecordSets = false) (p : Pdu k.Body) (prof : Profile) :
    (declaredOctets p ≤ 65535 → ∃ w q, send_pdu prof p = .ok w ∧ p.serialize prof [] = .ok ((q, .ok ()), w)) ∧
    (65535 < declaredOctets p → send_pdu prof p = .ok []) := by
  unfold send_pdu
  obtain ⟨q, r, buf', h⟩ := C40_serialize_no_panic k hk p prof []
  constructor
  · intro hl
    cases r with
    | error e =>
      have := (C06_refused_iff k p prof []).mp ⟨q, e, buf', h⟩
      omega
    | ok u => exact ⟨buf', q, by rw [h], h⟩
  · intro hl
    obtain ⟨q', e, b, h'⟩ := (C06_refused_iff k p prof []).mpr hl
    rw [h', (C06_refused_atomically k p q' e prof [] b h').1]

example := (C32_client_send .Signal rfl sampleSignal ⟨true⟩).1 (by decide +kernel)

/-- The client and the server together: the five datagrams the client sends are reported as a transmitter,
a signal, a receiver, an intercom signal and an intercom control PDU with the default values. -/
theorem C32_client_and_server (prof prof' : Profile) (now : Fin 5 → UInt32) (peer : Addr) :
    ∃ ws, RadioClient.send prof now = .ok ws ∧
      RadioServer.main (Err := Err) prof' (ws.map fun w => .datagram w peer) =
        ([.Transmitter peer dflt 0 dflt, .Signal peer dflt 0 0, .Receiver peer dflt dflt ⟨0⟩,
          .IntercomSignal peer dflt 0, .IntercomControl peer dflt dflt dflt], .waiting) := by
  obtain ⟨w1, h1, _⟩ := C21_new_serializes .Transmitter (now 0) prof []
  obtain ⟨w2, h2, _⟩ := C21_new_serializes .Signal (now 1) prof []
  obtain ⟨w3, h3, _⟩ := C21_new_serializes .Receiver (now 2) prof []
  obtain ⟨w4, h4, _⟩ := C21_new_serializes .IntercomSignal (now 3) prof []
  obtain ⟨w5, h5, _⟩ := C21_new_serializes .IntercomControl (now 4) prof []
  rw [List.nil_append] at h1 h2 h3 h4 h5
  refine ⟨[w1, w2, w3, w4, w5], ?_, ?_⟩
  · unfold RadioClient.send send_pdu
    rw [show Pdu.serialize (Pdu.new (now 0) : Pdu TransmitterPdu) prof [] = _ from h1,
      show Pdu.serialize (Pdu.new (now 1) : Pdu SignalPdu) prof [] = _ from h2,
      show Pdu.serialize (Pdu.new (now 2) : Pdu ReceiverPdu) prof [] = _ from h3,
      show Pdu.serialize (Pdu.new (now 3) : Pdu IntercomSignalPdu) prof [] = _ from h4,
      show Pdu.serialize (Pdu.new (now 4) : Pdu IntercomControlPdu) prof [] = _ from h5]
    rfl
  · have := C32_radio_traffic (Err := Err) prof prof' [(.Transmitter (Pdu.new (now 0)), w1, peer),
      (.Signal (Pdu.new (now 1)), w2, peer), (.Receiver (Pdu.new (now 2)), w3, peer),
      (.IntercomSignal (Pdu.new (now 3)), w4, peer), (.IntercomControl (Pdu.new (now 4)), w5, peer)] (by
      intro m hm
      simp only [List.mem_cons, List.not_mem_nil, or_false] at hm
      rcases hm with rfl | rfl | rfl | rfl | rfl
      · exact ⟨_, h1⟩
      · exact ⟨_, h2⟩
      · exact ⟨_, h3⟩
      · exact ⟨_, h4⟩
      · exact ⟨_, h5⟩)
    exact this

/-! ### C33: the echo server -/

theorem EchoServer.handle_recv (buf payload : Bytes) (peer : Addr) (echo : Except Err Unit)
    (hb : buf.length = 1024) :
    EchoServer.handle (recvInto buf payload).1 (some ((recvInto buf payload).2, peer, echo)) =
      match echo with
      | .error e => .error (.failed e)
      | .ok () => .ok [(payload.take 1024, peer)] := by
  simp only [EchoServer.handle, recvInto_slice, hb]
  cases echo <;> rfl

theorem EchoServer.run_tail (more : List (Turn Addr Err)) (st : Status Err)
    (ht : ∀ buf pend l, buf.length = 1024 → EchoServer.handle buf pend = .ok l →
      EchoServer.run buf pend more = (l, st)) :
    ∀ (ds : List (Bytes × Addr)) buf pend l, buf.length = 1024 → EchoServer.handle buf pend = .ok l →
      EchoServer.run buf pend (ds.map (fun d => .datagram d.1 d.2 (.ok ())) ++ more) =
        (l ++ ds.map fun d => (d.1.take 1024, d.2), st)
  | [], buf, pend, l, hb, hl => by simpa using ht buf pend l hb hl
  | d :: ds, buf, pend, l, hb, hl => by
    have h1 := EchoServer.handle_recv (Err := Err) buf d.1 d.2 (.ok ()) hb
    have ih := run_tail more st ht ds _ _ _ ((recvInto_length buf d.1).trans hb) h1
    rw [List.map_cons, List.cons_append, EchoServer.run, hl]
    simp only [ih, List.map_cons, List.singleton_append]

/-- Whatever datagrams arrive, from whatever peers: each is sent back to its sender, in order, cut to 1024
octets, without a trace of the others. -/
theorem C33_echo (ds : List (Bytes × Addr)) :
    EchoServer.main (Err := Err) (ds.map fun d => .datagram d.1 d.2 (.ok ())) =
      (ds.map fun d => (d.1.take 1024, d.2), .waiting) := by
  have := EchoServer.run_tail ([] : List (Turn Addr Err)) .waiting
    (fun buf pend l _ hl => by rw [EchoServer.run, hl]) ds (List.replicate 1024 0) none []
    (List.length_replicate ..) rfl
  rw [List.append_nil, List.nil_append] at this
  exact this

/-- A failing receive call ends the server after the echoes of everything received before it. -/
theorem C33_echo_receive_error (ds : List (Bytes × Addr)) (e : Err) (more : List (Turn Addr Err)) :
    EchoServer.main (ds.map (fun d => .datagram d.1 d.2 (.ok ())) ++ .error e :: more) =
      (ds.map fun d => (d.1.take 1024, d.2), .failed e) := by
  have := EchoServer.run_tail (.error e :: more) (.failed e)
    (fun buf pend l _ hl => by rw [EchoServer.run, hl]) ds (List.replicate 1024 0) none []
    (List.length_replicate ..) rfl
  rw [List.nil_append] at this
  exact this

/-- A failing send call ends it too: the datagram that could not be echoed and all later ones are lost. -/
theorem C33_echo_send_error (ds : List (Bytes × Addr)) (d : Bytes) (peer : Addr) (e : Err)
    (more : List (Turn Addr Err)) :
    EchoServer.main (ds.map (fun d => .datagram d.1 d.2 (.ok ())) ++ .datagram d peer (.error e) :: more) =
      (ds.map fun d => (d.1.take 1024, d.2), .failed e) := by
  have := EchoServer.run_tail (.datagram d peer (.error e) :: more) (.failed e)
    (fun buf pend l hb hl => by
      have h1 := EchoServer.handle_recv (Err := Err) buf d peer (.error e) hb
      rw [EchoServer.run, hl]
      cases more with
      | nil => simp only [EchoServer.run, h1, List.append_nil]
      | cons r rs =>
        cases r with
        | datagram p a x => simp only [EchoServer.run, h1, List.append_nil]
        | error e => simp only [EchoServer.run, h1, List.append_nil])
    ds (List.replicate 1024 0) none [] (List.length_replicate ..) rfl
  rw [List.nil_append] at this
  exact this

/-! ### C33: the client -/

theorem UdpClient.buffer (payload : Bytes) : (recvInto (List.replicate 1024 0) payload).1 =
    payload.take 1024 ++ List.replicate (1024 - payload.length) 0 := by
  simp only [recvInto, List.length_replicate, List.drop_replicate]

/-- The client never panics, whatever it receives: it skips empty datagrams and shows one PDU for the first
other one. -/
theorem C33_client_no_panic (prof : Profile) (now : UInt32) (rs : List (Except Err Bytes)) :
    (∃ p, UdpClient.recv prof now rs = (some p, .finished)) ∨ UdpClient.recv prof now rs = (none, .waiting) ∨
      ∃ e, UdpClient.recv prof now rs = (none, .failed e) := by
  induction rs with
  | nil => exact .inr (.inl rfl)
  | cons r rs ih =>
    cases r with
    | error e => exact .inr (.inr ⟨e, rfl⟩)
    | ok payload =>
      rw [UdpClient.recv]
      have hlen : ((recvInto (List.replicate 1024 0) payload).1).length = 1024 := by
        rw [recvInto_length, List.length_replicate]
      generalize hb : recvInto (List.replicate 1024 0) payload = bn at *
      obtain ⟨buf, n⟩ := bn
      simp only at hlen ⊢
      split
      · left
        unfold UdpClient.decode
        by_cases ht : (buf.getD 2 0).toNat = 15
        · obtain ⟨p, hp⟩ := (C14_panics_iff_short .Acknowledge rfl (by decide) prof buf (by omega) ht).2
            (by rw [hlen]; decide)
          rw [show (Pdu.deserialize : Get (Except DISError (Pdu AcknowledgePdu))) prof buf = _ from hp]
          exact ⟨p, rfl⟩
        · have := C09_foreign_type_refused .Acknowledge prof buf (by omega) ht
          rw [show (Pdu.deserialize : Get (Except DISError (Pdu AcknowledgePdu))) prof buf = _ from this]
          exact ⟨_, rfl⟩
      · exact ih

/-- A datagram whose third octet is not the code of the acknowledge type shows the default PDU. -/
theorem C33_client_default (prof : Profile) (now : UInt32) (payload : Bytes) (rs : List (Except Err Bytes))
    (hne : payload ≠ []) (ht : ((payload.take 1024).getD 2 0).toNat ≠ 15) :
    UdpClient.recv prof now (.ok payload :: rs) = (some (Pdu.default now), .finished) := by
  have hn : 0 < (recvInto (List.replicate 1024 0) payload).2 := by
    have : 0 < payload.length := List.length_pos_iff.mpr hne
    simp only [recvInto, List.length_replicate]
    omega
  rw [UdpClient.recv]
  have hb := UdpClient.buffer payload
  have hlen : ((recvInto (List.replicate 1024 0) payload).1).length = 1024 := by
    rw [recvInto_length, List.length_replicate]
  have h2 : ((recvInto (List.replicate 1024 0) payload).1.getD 2 0).toNat ≠ 15 := by
    rw [hb]
    by_cases h3 : 2 < (payload.take 1024).length
    · rwa [List.getD_eq_getElem?_getD, List.getElem?_append_left h3, ← List.getD_eq_getElem?_getD]
    · rw [List.getD_eq_getElem?_getD, List.getElem?_append_right (by omega), List.getElem?_replicate]
      split <;> decide
  simp only [hn, if_true, UdpClient.decode]
  generalize (recvInto (List.replicate 1024 0) payload).1 = c at h2 hlen ⊢
  have := C09_foreign_type_refused .Acknowledge prof c (by omega) h2
  rw [show (Pdu.deserialize : Get (Except DISError (Pdu AcknowledgePdu))) prof c = _ from this]

example := C33_client_default (Err := Unit) ⟨true⟩ 7 sampleOctets [] (by decide) (by decide)

/-- Any acknowledge PDU, sent to the client (or echoed to it) by anybody, after any number of empty
datagrams: shown exactly as it was after serialization, body included, although the client decodes a
zero-filled buffer of 1024 octets and not the 32 received. -/
theorem C33_client_recovers (prof prof' : Profile) (now : UInt32) (p : Pdu AcknowledgePdu) (empties : Nat)
    (rs : List (Except Err Bytes)) :
    ∃ q w, p.serialize prof [] = .ok ((q, .ok ()), w) ∧ q.body = p.body ∧ w.length = 32 ∧
      UdpClient.recv prof' now (List.replicate empties (.ok []) ++ .ok w :: rs) = (some q, .finished) := by
  obtain ⟨q, w, hs, hl, hb, hd⟩ := C11_roundtrip .Acknowledge rfl (by decide) (by decide) p prof []
  rw [List.nil_append] at hs
  have hl : w.length = 32 := hl
  refine ⟨q, w, hs, hb, hl, ?_⟩
  induction empties with
  | zero =>
    rw [List.replicate_zero, List.nil_append, UdpClient.recv]
    have hn : 0 < (recvInto (List.replicate 1024 0) w).2 := by
      simp only [recvInto, List.length_replicate]; omega
    have hbuf := UdpClient.buffer w
    rw [List.take_of_length_le (by omega)] at hbuf
    simp only [hn, if_true, UdpClient.decode, hbuf]
    rw [show (Pdu.deserialize : Get (Except DISError (Pdu AcknowledgePdu))) prof' _ = _ from hd prof' _]
  | succ n ih =>
    have h0 : ¬ 0 < (recvInto (List.replicate 1024 0) []).2 := by
      simp only [recvInto, List.length_nil, Nat.zero_min, Nat.lt_irrefl, not_false_eq_true]
    rw [List.replicate_succ, List.cons_append, UdpClient.recv]
    simp only [h0, if_false]
    exact ih

/-- The exchange: the client sends its PDU; the server, whatever it served before and whatever it serves
after, sends the same octets back to the client; the client shows the PDU it sent. -/
theorem C33_exchange (prof : Profile) (now now' : UInt32) (before after : List (Bytes × Addr)) (me : Addr) :
    ∃ w, UdpClient.send prof now = .ok w ∧
      EchoServer.main (Err := Err) ((before ++ (w, me) :: after).map fun d => .datagram d.1 d.2 (.ok ())) =
        (before.map (fun d => (d.1.take 1024, d.2)) ++ (w, me) :: after.map (fun d => (d.1.take 1024, d.2)),
          .waiting) ∧
      UdpClient.recv (Err := Err) prof now' [.ok w] = (some (Pdu.new now), .finished) := by
  obtain ⟨w, hs, _⟩ := C21_new_serializes .Acknowledge now prof []
  rw [List.nil_append] at hs
  obtain ⟨q, w', hs', _, hl, hr⟩ := C33_client_recovers (Err := Err) prof prof now' (Pdu.new now) 0 []
  rw [show (Pdu.new now : Pdu AcknowledgePdu).serialize prof [] = _ from hs] at hs'
  simp only [Except.ok.injEq, Prod.mk.injEq, and_true] at hs'
  obtain ⟨rfl, rfl⟩ := hs'
  refine ⟨w, ?_, ?_, hr⟩
  · unfold UdpClient.send send_pdu
    rw [show (Pdu.new now : Pdu AcknowledgePdu).serialize prof [] = _ from hs]
  · rw [C33_echo]
    simp only [List.map_append, List.map_cons]
    rw [List.take_of_length_le (by omega)]

/-- Two clients, one of them sending 2000 octets. -/
example : EchoServer.main (Err := Unit) [.datagram [1, 2, 3] 7 (.ok ()), .datagram [4] 8 (.ok ())] =
    ([([1, 2, 3], 7), ([4], 8)], .waiting) := C33_echo [([1, 2, 3], 7), ([4], 8)]

end Dis
