import Verif.Model.Network
import Verif.Properties.Examples
/-
C59: the example programs together, under every schedule.
-/
namespace Dis

variable {Addr Err : Type}

/-! ### The UDP client alone -/

/-- The datagrams a client received, in order. -/
def payloads (es : List (ClientEvent Err)) : List Bytes :=
  es.filterMap fun
    | .received (.ok p) => some p
    | _ => none

/-- What the two tasks of a client saw, each for itself. -/
def sendSide (es : List (ClientEvent Err)) : List (Except Err Unit) :=
  es.filterMap fun
    | .sent r => some r
    | _ => none
/-- What the receiving task saw. -/
def receiveSide (es : List (ClientEvent Err)) : List (Except Err Bytes) :=
  es.filterMap fun
    | .received r => some r
    | _ => none

/-- No call failed. -/
def Smooth (es : List (ClientEvent Err)) : Prop :=
  ∀ e, .sent (.error e) ∉ es ∧ .received (.error e) ∉ es

/-- The PDU shown for a datagram: that in the zero-filled buffer of 1024 octets it was received into, or the
default PDU if that is none. -/
def UdpClient.view (prof : Profile) (now : UInt32) (payload : Bytes) : Pdu AcknowledgePdu :=
  match decodeAs AcknowledgePdu prof (payload.take 1024 ++ List.replicate (1024 - payload.length) 0) with
  | .ok (.ok p, _) => p
  | _ => Pdu.default now

theorem UdpClient.recv_nil (prof : Profile) (now : UInt32) :
    UdpClient.recv (Err := Err) prof now [.ok []] = (none, .waiting) := by
  have h0 : ¬ 0 < (recvInto (List.replicate 1024 0) []).2 := by
    simp only [recvInto, List.length_nil, Nat.zero_min, Nat.lt_irrefl, not_false_eq_true]
  rw [UdpClient.recv]
  simp only [h0, if_false]
  rfl

theorem UdpClient.recv_some (prof : Profile) (now : UInt32) (payload : Bytes) (hne : payload ≠ []) :
    UdpClient.recv (Err := Err) prof now [.ok payload] = (some (UdpClient.view prof now payload), .finished) := by
  have hn : 0 < (recvInto (List.replicate 1024 0) payload).2 := by
    have : 0 < payload.length := List.length_pos_iff.mpr hne
    simp only [recvInto, List.length_replicate]
    omega
  have hp := C33_client_no_panic (Err := Err) prof now [.ok payload]
  rw [UdpClient.recv] at hp ⊢
  have hb := UdpClient.buffer payload
  simp only [hn, if_true, UdpClient.decode, hb] at hp ⊢
  unfold UdpClient.view decodeAs
  generalize (Pdu.deserialize : Get (Except DISError (Pdu AcknowledgePdu))).run prof
    (payload.take 1024 ++ List.replicate (1024 - payload.length) 0) = r at *
  rcases r with e | ⟨e | p, rest⟩
  · rcases hp with ⟨p, hp⟩ | hp | ⟨e', hp⟩ <;> cases hp
  · rfl
  · rfl

theorem UdpClient.join_done (prof : Profile) (now : UInt32) (shown : Option (Pdu AcknowledgePdu))
    (es : List (ClientEvent Err)) : UdpClient.join prof now false false shown es = (shown, .finished) := by
  induction es with
  | nil => rfl
  | cons e es ih => cases e <;> simpa [UdpClient.join] using ih

theorem UdpClient.join_smooth (prof : Profile) (now : UInt32) (es : List (ClientEvent Err)) (h : Smooth es) :
    ∀ s r shown,
      (UdpClient.join prof now s r shown es).1 = (if r then (match (payloads es).find? (· ≠ []) with
          | some d => some (UdpClient.view prof now d)
          | none => shown) else shown) ∧
      (UdpClient.join prof now s r shown es).2 =
        (if (s && (sendSide es).isEmpty) || (r && (payloads es).all (·.isEmpty)) then .waiting else .finished) := by
  induction es with
  | nil =>
    intro s r shown
    cases s <;> cases r <;> simp [UdpClient.join, payloads, sendSide]
  | cons ev es ih =>
    have ih := ih fun e => ⟨fun hm => (h e).1 (List.mem_cons_of_mem _ hm), fun hm => (h e).2 (List.mem_cons_of_mem _ hm)⟩
    intro s r shown
    cases ev with
    | sent x =>
      cases x with
      | error e => exact absurd (List.mem_cons_self ..) (h e).1
      | ok u =>
        have hp : payloads (.sent (.ok u) :: es) = payloads es := rfl
        have hs : sendSide (.sent (.ok u) :: es) = .ok u :: sendSide es := rfl
        rw [UdpClient.join, hp, hs]
        cases s <;> simp [ih]
    | received x =>
      cases x with
      | error e => exact absurd (List.mem_cons_self ..) (h e).2
      | ok d =>
        have hp : payloads (.received (.ok d) :: es) = d :: payloads es := rfl
        have hs : sendSide (.received (.ok d) :: es) = sendSide es := rfl
        rw [UdpClient.join, hp, hs]
        cases r
        · simp [ih]
        · by_cases hd : d = []
          · subst hd
            rw [UdpClient.recv_nil]
            simp [ih]
          · rw [UdpClient.recv_some prof now d hd]
            simp [ih, hd]

/-- However the completions of its socket calls are interleaved, none failing: the client shows the PDU of the
first datagram that is not empty, once, if there has been one; and it ends when that has happened and its own
send call is complete, not before. -/
theorem C59_client (prof : Profile) (now : UInt32) (es : List (ClientEvent Err)) (h : Smooth es) :
    (UdpClient.connect prof now es).1 = ((payloads es).find? (· ≠ [])).map (UdpClient.view prof now) ∧
    ((UdpClient.connect prof now es).2 = .finished ↔ .sent (.ok ()) ∈ es ∧ ∃ d ∈ payloads es, d ≠ []) ∧
    ((UdpClient.connect prof now es).2 = .waiting ↔ ¬ (.sent (.ok ()) ∈ es ∧ ∃ d ∈ payloads es, d ≠ [])) := by
  obtain ⟨h1, h2⟩ := UdpClient.join_smooth prof now es h true true none
  unfold UdpClient.connect
  rw [h1, h2]
  have hs : (sendSide es).isEmpty = true ↔ .sent (.ok ()) ∉ es := by
    rw [List.isEmpty_iff, sendSide, List.filterMap_eq_nil_iff]
    constructor
    · intro hn hm
      exact absurd (hn _ hm) (by simp)
    · intro hn ev hm
      rcases ev with (e | ⟨⟩) | _
      · exact absurd hm (h e).1
      · exact absurd hm hn
      · rfl
  have hd : (payloads es).all (·.isEmpty) = true ↔ ¬ ∃ d ∈ payloads es, d ≠ [] := by
    simp [List.all_eq_true]
  have key : ((true && (sendSide es).isEmpty) || (true && (payloads es).all (·.isEmpty))) = true ↔
      ¬ (.sent (.ok ()) ∈ es ∧ ∃ d ∈ payloads es, d ≠ []) := by
    rw [Bool.true_and, Bool.true_and, Bool.or_eq_true, hs, hd, Classical.not_and_iff_not_or_not]
  refine ⟨?_, ?_⟩
  · cases (payloads es).find? (· ≠ []) <;> rfl
  · by_cases h1 : (.sent (.ok ()) ∈ es ∧ ∃ d ∈ payloads es, d ≠ [])
    · rw [if_neg (by rw [key]; simpa using h1)]
      simp [h1]
    · rw [if_pos (key.mpr h1)]
      simp [h1]

/-- Hence the order in which the two tasks get on with their work makes no difference. -/
theorem C59_interleaving (prof : Profile) (now : UInt32) (es es' : List (ClientEvent Err)) (h : Smooth es)
    (h1 : sendSide es = sendSide es') (h2 : receiveSide es = receiveSide es') :
    UdpClient.connect prof now es = UdpClient.connect prof now es' := by
  have hp : ∀ l : List (ClientEvent Err), payloads l = (receiveSide l).filterMap fun
      | .ok p => some p
      | .error _ => none := by
    intro l
    unfold payloads receiveSide
    rw [List.filterMap_filterMap]
    congr 1
    funext ev
    rcases ev with _ | (_ | _) <;> rfl
  have ms : ∀ (l : List (ClientEvent Err)) r, r ∈ sendSide l ↔ .sent r ∈ l := by
    intro l r
    rw [sendSide, List.mem_filterMap]
    constructor
    · rintro ⟨ev, hm, he⟩
      cases ev with
      | sent x => cases he; exact hm
      | received x => cases he
    · intro hm; exact ⟨_, hm, rfl⟩
  have mr : ∀ (l : List (ClientEvent Err)) r, r ∈ receiveSide l ↔ .received r ∈ l := by
    intro l r
    rw [receiveSide, List.mem_filterMap]
    constructor
    · rintro ⟨ev, hm, he⟩
      cases ev with
      | sent x => cases he
      | received x => cases he; exact hm
    · intro hm; exact ⟨_, hm, rfl⟩
  have h' : Smooth es' := fun e =>
    ⟨fun hm => (h e).1 ((ms _ _).mp (h1 ▸ (ms _ _).mpr hm)), fun hm => (h e).2 ((mr _ _).mp (h2 ▸ (mr _ _).mpr hm))⟩
  obtain ⟨a1, a2⟩ := UdpClient.join_smooth prof now es h true true none
  obtain ⟨b1, b2⟩ := UdpClient.join_smooth prof now es' h' true true none
  rw [← h1, hp es', ← h2, ← hp es] at *
  exact Prod.ext (a1.trans b1.symm) (a2.trans b2.symm)

example := C59_interleaving (Err := Unit) ⟨true⟩ 0 [.received (.ok [1]), .sent (.ok ())] [.sent (.ok ()), .received (.ok [1])]
  (fun e => ⟨fun h => by simp at h, fun h => by simp at h⟩) rfl rfl

theorem UdpClient.join_sent (prof : Profile) (now : UInt32) (s r : Bool) (shown : Option (Pdu AcknowledgePdu))
    (x : Except Err Unit) (es : List (ClientEvent Err)) :
    UdpClient.join prof now s r shown (.sent x :: es) =
      if s then
        match x with
        | .error e => (shown, .failed e)
        | .ok () => UdpClient.join prof now false r shown es
      else UdpClient.join prof now s r shown es := by
  rw [UdpClient.join.eq_def]
  rfl
theorem UdpClient.join_received (prof : Profile) (now : UInt32) (s r : Bool)
    (shown : Option (Pdu AcknowledgePdu)) (x : Except Err Bytes) (es : List (ClientEvent Err)) :
    UdpClient.join prof now s r shown (.received x :: es) =
      if r then
        match UdpClient.recv prof now [x] with
        | (s', .finished) => UdpClient.join prof now s false s' es
        | (_, .waiting) => UdpClient.join prof now s r shown es
        | (_, .failed e) => (shown, .failed e)
        | (_, .panicked e) => (shown, .panicked e)
      else UdpClient.join prof now s r shown es := by
  rw [UdpClient.join.eq_def]
  rfl

/-- Nothing that comes later alters what a client that has ended has shown, or how it ended. -/
theorem UdpClient.join_final (prof : Profile) (now : UInt32) (more : List (ClientEvent Err)) :
    ∀ (es : List (ClientEvent Err)) s r shown, (UdpClient.join prof now s r shown es).2 ≠ .waiting →
      UdpClient.join prof now s r shown (es ++ more) = UdpClient.join prof now s r shown es
  | [], s, r, shown, h => by
    cases s <;> cases r <;> simp [UdpClient.join] at h ⊢
    exact UdpClient.join_done ..
  | .sent x :: es, s, r, shown, h => by
    rw [List.cons_append]
    rw [UdpClient.join_sent] at h ⊢
    rw [UdpClient.join_sent]
    split
    · rename_i hs
      rw [if_pos hs] at h
      cases x with
      | error e => rfl
      | ok u => exact join_final prof now more es _ _ _ h
    · rename_i hs
      rw [if_neg hs] at h
      exact join_final prof now more es _ _ _ h
  | .received x :: es, s, r, shown, h => by
    rw [List.cons_append]
    rw [UdpClient.join_received] at h ⊢
    rw [UdpClient.join_received]
    split
    · rename_i hs
      rw [if_pos hs] at h
      generalize UdpClient.recv prof now [x] = y at *
      obtain ⟨sh, st⟩ := y
      cases st with
      | waiting => exact join_final prof now more es _ _ _ h
      | finished => exact join_final prof now more es _ _ _ h
      | failed e => rfl
      | panicked e => rfl
    · rename_i hs
      rw [if_neg hs] at h
      exact join_final prof now more es _ _ _ h

theorem C59_final (prof : Profile) (now : UInt32) (es more : List (ClientEvent Err))
    (h : (UdpClient.connect prof now es).2 ≠ .waiting) :
    UdpClient.connect prof now (es ++ more) = UdpClient.connect prof now es :=
  UdpClient.join_final prof now more es _ _ _ h

example := C59_final (Err := Unit) ⟨true⟩ 0 [.received (.ok []), .received (.ok [1]), .sent (.ok ())] [.received (.ok [2])]
  (by decide +kernel)

/-- The first call to fail ends the client with its error, and what had been shown stays shown: the send call;
or a receive call, unless a datagram that is not empty had been received. -/
theorem C59_failure (prof : Profile) (now : UInt32) (es more : List (ClientEvent Err)) (h : Smooth es) (e : Err) :
    (sendSide es = [] → UdpClient.connect prof now (es ++ .sent (.error e) :: more) =
      (((payloads es).find? (· ≠ [])).map (UdpClient.view prof now), .failed e)) ∧
    ((∀ d ∈ payloads es, d = []) → UdpClient.connect prof now (es ++ .received (.error e) :: more) =
      (none, .failed e)) := by
  have key : ∀ (es : List (ClientEvent Err)), Smooth es → ∀ s r shown,
      (s = true → sendSide es = [] → UdpClient.join prof now s r shown (es ++ .sent (.error e) :: more) =
        ((UdpClient.join prof now s r shown es).1, .failed e)) ∧
      (r = true → (∀ d ∈ payloads es, d = []) →
        UdpClient.join prof now s r shown (es ++ .received (.error e) :: more) = (shown, .failed e)) := by
    intro es
    induction es with
    | nil =>
      intro _ s r shown
      refine ⟨fun hs _ => ?_, fun hr _ => ?_⟩
      · subst hs; rfl
      · subst hr; rfl
    | cons ev es ih =>
      intro h s r shown
      have ih := ih fun e => ⟨fun hm => (h e).1 (List.mem_cons_of_mem _ hm),
        fun hm => (h e).2 (List.mem_cons_of_mem _ hm)⟩
      rcases ev with (x | ⟨⟩) | (x | d)
      · exact absurd (List.mem_cons_self ..) (h x).1
      · refine ⟨fun _ hn => absurd hn (by simp [sendSide]), fun hr hp => ?_⟩
        rw [List.cons_append, UdpClient.join]
        split
        · exact (ih _ _ _).2 hr hp
        · exact (ih _ _ _).2 hr hp
      · exact absurd (List.mem_cons_self ..) (h x).2
      · refine ⟨fun hs hn => ?_, fun hr hp => ?_⟩
        · rw [List.cons_append, UdpClient.join, UdpClient.join]
          have hn : sendSide es = [] := hn
          cases r
          · exact (ih _ _ _).1 hs hn
          · by_cases hd : d = []
            · subst hd
              rw [UdpClient.recv_nil]
              exact (ih _ _ _).1 hs hn
            · rw [UdpClient.recv_some prof now d hd]
              exact (ih _ _ _).1 hs hn
        · have hd : d = [] := hp d (List.mem_cons_self ..)
          subst hd
          rw [List.cons_append, UdpClient.join, if_pos hr, UdpClient.recv_nil]
          exact (ih _ _ _).2 hr fun x hx => hp x (List.mem_cons_of_mem _ hx)
  refine ⟨fun hs => ?_, fun hp => ?_⟩
  · rw [← (C59_client prof now es h).1]
    exact (key es h true true none).1 rfl hs
  · exact (key es h true true none).2 rfl hp

example := (C59_failure (Err := Unit) ⟨true⟩ 0 [.received (.ok [])] [] (fun e => ⟨fun h => by simp at h, fun h => by simp at h⟩) ()).1 rfl

/-- Whatever happens at its socket, the client does not panic. -/
theorem C59_no_panic (prof : Profile) (now : UInt32) (es : List (ClientEvent Err)) (e : Panic) :
    (UdpClient.connect prof now es).2 ≠ .panicked e := by
  have : ∀ (es : List (ClientEvent Err)) s r shown, (UdpClient.join prof now s r shown es).2 ≠ .panicked e := by
    intro es
    induction es with
    | nil => intro s r shown; cases s <;> cases r <;> simp [UdpClient.join]
    | cons ev es ih =>
      intro s r shown
      rcases ev with (x | ⟨⟩) | (x | d)
      · rw [UdpClient.join]; split
        · simp
        · exact ih _ _ _
      · rw [UdpClient.join]; split <;> exact ih _ _ _
      · rw [UdpClient.join]; split
        · simp [UdpClient.recv]
        · exact ih _ _ _
      · rw [UdpClient.join]; split
        · by_cases hd : d = []
          · subst hd
            rw [UdpClient.recv_nil]
            exact ih _ _ _
          · rw [UdpClient.recv_some prof now d hd]
            exact ih _ _ _
        · exact ih _ _ _
  exact this es true true none

theorem UdpClient.join_shown (prof : Profile) (now : UInt32) (p : Pdu AcknowledgePdu) :
    ∀ (es : List (ClientEvent Err)) s r shown, (UdpClient.join prof now s r shown es).1 = some p →
      shown = some p ∨ ∃ d ∈ payloads es, d ≠ [] ∧ p = UdpClient.view prof now d
  | [], s, r, shown, h => .inl h
  | .sent x :: es, s, r, shown, h => by
    rw [UdpClient.join_sent] at h
    have hp : payloads (.sent x :: es) = payloads es := rfl
    rw [hp]
    split at h
    · rcases x with e | ⟨⟩
      · exact .inl h
      · exact join_shown prof now p es _ _ _ h
    · exact join_shown prof now p es _ _ _ h
  | .received x :: es, s, r, shown, h => by
    have up : ∀ sh, (sh = some p ∨ ∃ d ∈ payloads es, d ≠ [] ∧ p = UdpClient.view prof now d) →
        sh = some p ∨ ∃ d ∈ payloads (.received x :: es), d ≠ [] ∧ p = UdpClient.view prof now d := by
      rintro sh (h | ⟨d, hm, h⟩)
      · exact .inl h
      · refine .inr ⟨d, ?_, h⟩
        rcases x with e | x
        · exact hm
        · exact List.mem_cons_of_mem _ hm
    rw [UdpClient.join_received] at h
    split at h
    · rcases x with e | d
      · exact .inl h
      · by_cases hd : d = []
        · subst hd
          rw [UdpClient.recv_nil] at h
          exact up _ (join_shown prof now p es _ _ _ h)
        · rw [UdpClient.recv_some prof now d hd] at h
          rcases up _ (join_shown prof now p es _ _ _ h) with h | h
          · cases h
            exact .inr ⟨d, List.mem_cons_self .., hd, rfl⟩
          · exact .inr h
    · exact up _ (join_shown prof now p es _ _ _ h)


/-! ### Clients and echo server together -/

section echo
variable {I : Type} [DecidableEq I]

theorem EchoServer.handle_no_panic (buf : Bytes) (pend : Pending Addr Err)
    (hp : ∀ x ∈ pend, x.1 ≤ buf.length) (e : Panic) : EchoServer.handle buf pend ≠ .error (.panicked e) := by
  rcases pend with _ | ⟨size, peer, echo⟩
  · simp [EchoServer.handle]
  · have := hp _ rfl
    simp only [EchoServer.handle, slicePrefix]
    rw [if_pos this]
    rcases echo with x | ⟨⟩ <;> simp

theorem recvInto_le (buf payload : Bytes) : (recvInto buf payload).2 ≤ (recvInto buf payload).1.length := by
  rw [recvInto_length]
  exact Nat.min_le_right _ _

theorem EchoServer.run_no_panic (e : Panic) : ∀ (ts : List (Turn Addr Err)) buf (pend : Pending Addr Err),
    (∀ x ∈ pend, x.1 ≤ buf.length) → (EchoServer.run buf pend ts).2 ≠ .panicked e
  | [], buf, pend, hp => by
    have h := EchoServer.handle_no_panic buf pend hp e
    rw [EchoServer.run]
    cases hh : EchoServer.handle buf pend with
    | error st => rw [hh] at h; simpa using h
    | ok l => simp
  | .error x :: ts, buf, pend, hp => by
    have h := EchoServer.handle_no_panic buf pend hp e
    rw [EchoServer.run]
    cases hh : EchoServer.handle buf pend with
    | error st => rw [hh] at h; simpa using h
    | ok l => simp
  | .datagram payload peer echo :: ts, buf, pend, hp => by
    have h := EchoServer.handle_no_panic buf pend hp e
    rw [EchoServer.run]
    cases hh : EchoServer.handle buf pend with
    | error st => rw [hh] at h; simpa using h
    | ok l =>
      exact run_no_panic e ts _ _ (by
        intro x hx
        cases hx
        exact recvInto_le buf payload)

/-- What the echo server sends is what it received, cut to its buffer, and to whom it received it from. -/
theorem EchoServer.run_sent (d : Bytes) (a : Addr) : ∀ (ts : List (Turn Addr Err)) buf (pend : Pending Addr Err),
    buf.length = 1024 → (d, a) ∈ (EchoServer.run buf pend ts).1 →
      (∃ l, EchoServer.handle buf pend = .ok l ∧ (d, a) ∈ l) ∨
        ∃ payload, .datagram payload a (.ok ()) ∈ ts ∧ d = payload.take 1024
  | [], buf, pend, hb, h => by
    rw [EchoServer.run] at h
    cases hh : EchoServer.handle buf pend with
    | error st => rw [hh] at h; simp at h
    | ok l => rw [hh] at h; exact .inl ⟨l, rfl, h⟩
  | .error x :: ts, buf, pend, hb, h => by
    rw [EchoServer.run] at h
    cases hh : EchoServer.handle buf pend with
    | error st => rw [hh] at h; simp at h
    | ok l => rw [hh] at h; exact .inl ⟨l, rfl, h⟩
  | .datagram payload peer echo :: ts, buf, pend, hb, h => by
    rw [EchoServer.run] at h
    cases hh : EchoServer.handle buf pend with
    | error st => rw [hh] at h; simp at h
    | ok l =>
      rw [hh] at h
      have h : (d, a) ∈ l ++ (EchoServer.run (recvInto buf payload).1
          (some ((recvInto buf payload).2, peer, echo)) ts).1 := h
      rw [List.mem_append] at h
      rcases h with h | h
      · exact .inl ⟨l, rfl, h⟩
      · rcases run_sent d a ts _ _ ((recvInto_length ..).trans hb) h with ⟨l', h1, h2⟩ | ⟨p, h1, h2⟩
        · rw [EchoServer.handle_recv buf payload peer echo hb] at h1
          rcases echo with x | ⟨⟩
          · cases h1
          · cases h1
            rw [List.mem_singleton] at h2
            cases h2
            exact .inr ⟨payload, List.mem_cons_self .., rfl⟩
        · exact .inr ⟨p, List.mem_cons_of_mem _ h1, h2⟩

theorem EchoServer.main_sent {d : Bytes} {a : Addr} {ts : List (Turn Addr Err)}
    (h : (d, a) ∈ (EchoServer.main ts).1) :
    ∃ payload, .datagram payload a (.ok ()) ∈ ts ∧ d = payload.take 1024 := by
  rcases EchoServer.run_sent d a ts _ _ (List.length_replicate ..) h with ⟨l, h1, h2⟩ | h
  · cases h1; cases h2
  · exact h

/-- As long as the echo server waits, everything it received has been echoed. -/
theorem EchoServer.run_waiting : ∀ (ts : List (Turn Addr Err)) buf (pend : Pending Addr Err),
    (EchoServer.run buf pend ts).2 = .waiting →
      (∃ l, EchoServer.handle buf pend = .ok l) ∧
        ∃ ds : List (Bytes × Addr), ts = ds.map fun d => .datagram d.1 d.2 (.ok ())
  | [], buf, pend, h => by
    rw [EchoServer.run] at h
    cases hh : EchoServer.handle buf pend with
    | error st =>
      rw [hh] at h
      have h : st = .waiting := h
      subst h
      exfalso
      rcases pend with _ | ⟨size, peer, echo⟩
      · cases hh
      · simp only [EchoServer.handle] at hh
        split at hh
        · cases hh
        · split at hh <;> cases hh
    | ok l => exact ⟨⟨l, rfl⟩, [], rfl⟩
  | .error x :: ts, buf, pend, h => by
    rw [EchoServer.run] at h
    cases hh : EchoServer.handle buf pend with
    | error st =>
      rw [hh] at h
      have h : st = .waiting := h
      subst h
      exfalso
      rcases pend with _ | ⟨size, peer, echo⟩
      · cases hh
      · simp only [EchoServer.handle] at hh
        split at hh
        · cases hh
        · split at hh <;> cases hh
    | ok l => rw [hh] at h; cases h
  | .datagram payload peer echo :: ts, buf, pend, h => by
    rw [EchoServer.run] at h
    cases hh : EchoServer.handle buf pend with
    | error st =>
      rw [hh] at h
      have h : st = .waiting := h
      subst h
      exfalso
      rcases pend with _ | ⟨size, peer, echo⟩
      · cases hh
      · simp only [EchoServer.handle] at hh
        split at hh
        · cases hh
        · split at hh <;> cases hh
    | ok l =>
      rw [hh] at h
      obtain ⟨⟨l', h1⟩, ds, h2⟩ := run_waiting ts _ _ h
      refine ⟨⟨l, rfl⟩, (payload, peer) :: ds, ?_⟩
      rw [List.map_cons, ← h2]
      rcases echo with x | ⟨⟩
      · exfalso
        simp only [EchoServer.handle, recvInto_slice] at h1
        cases h1
      · rfl

/-- The datagram of a client. -/
theorem UdpClient.datagram (prof : Profile) (now : UInt32) :
    ∃ d, UdpClient.send prof now = .ok d ∧ d ≠ [] ∧ d.length ≤ 1024 ∧
      ∀ prof' now', UdpClient.view prof' now' d = Pdu.new now := by
  obtain ⟨q, w, hs, _, hl, _⟩ := C33_client_recovers (Err := Unit) prof prof 0 (Pdu.new now) 0 []
  obtain ⟨w', hs', _⟩ := C21_new_serializes .Acknowledge now prof []
  rw [List.nil_append] at hs'
  rw [show (Pdu.new now : Pdu AcknowledgePdu).serialize prof [] = _ from hs'] at hs
  simp only [Except.ok.injEq, Prod.mk.injEq, and_true] at hs
  obtain ⟨rfl, rfl⟩ := hs
  have hne : w' ≠ [] := by rintro rfl; cases hl
  refine ⟨w', ?_, hne, by omega, fun prof' now' => ?_⟩
  · unfold UdpClient.send send_pdu
    rw [show (Pdu.new now : Pdu AcknowledgePdu).serialize prof [] = _ from hs']
  · obtain ⟨q2, w2, hs2, _, _, hr⟩ := C33_client_recovers (Err := Unit) prof prof' now' (Pdu.new now) 0 []
    rw [show (Pdu.new now : Pdu AcknowledgePdu).serialize prof [] = _ from hs'] at hs2
    simp only [Except.ok.injEq, Prod.mk.injEq, and_true] at hs2
    obtain ⟨rfl, rfl⟩ := hs2
    have hr : UdpClient.recv (Err := Unit) prof' now' [.ok w'] = _ := hr
    rw [UdpClient.recv_some prof' now' w' hne] at hr
    simpa using hr

variable (S : EchoSetting I Addr)

/-- In every state the system can get into: what reached the server under a client's address, and what
reached a client, is that client's own datagram. -/
theorem EchoWorld.own (hS : ∀ i j, S.addr i = S.addr j → i = j) (w : EchoWorld I Addr Err)
    (h : w.Reachable S) (i : I) :
    (∀ payload echo, .datagram payload (S.addr i) echo ∈ w.served →
      UdpClient.send (S.prof i) (S.made i) = .ok payload ∧ .sent (.ok ()) ∈ w.events i) ∧
    (∀ payload, .received (.ok payload) ∈ w.events i →
      UdpClient.send (S.prof i) (S.made i) = .ok payload ∧ .sent (.ok ()) ∈ w.events i) := by
  induction h with
  | none => exact ⟨fun _ _ h => (nomatch h), fun _ h => (nomatch h)⟩
  | more before step ih =>
    rename_i w' w''
    have grow : ∀ (j : I) (ev : ClientEvent Err), .sent (.ok ()) ∈ w'.events i →
        .sent (.ok ()) ∈ setAt w'.events j (w'.events j ++ [ev]) i := by
      intro j ev h
      unfold setAt
      split
      · rename_i hij; subst hij; exact List.mem_append_left _ h
      · exact h
    have old : ∀ (j : I) (ev : ClientEvent Err) x, x ∈ setAt w'.events j (w'.events j ++ [ev]) i →
        x ∈ w'.events i ∨ (i = j ∧ x = ev) := by
      intro j ev x h
      unfold setAt at h
      split at h
      · rename_i hij
        subst hij
        rcases List.mem_append.mp h with h | h
        · exact .inl h
        · exact .inr ⟨rfl, List.mem_singleton.mp h⟩
      · exact .inl h
    cases step with
    | send j r running first =>
      refine ⟨fun p e h => ⟨(ih.1 p e h).1, grow _ _ (ih.1 p e h).2⟩, fun p h => ?_⟩
      rcases old _ _ _ h with h | ⟨_, h⟩
      · exact ⟨(ih.2 p h).1, grow _ _ (ih.2 p h).2⟩
      · cases h
    | arrive j payload echo running sent made =>
      refine ⟨fun p e h => ?_, ih.2⟩
      rcases List.mem_append.mp h with h | h
      · exact ih.1 p e h
      · rw [List.mem_singleton] at h
        simp only [Turn.datagram.injEq] at h
        obtain ⟨rfl, ha, rfl⟩ := h
        have := hS _ _ ha
        subst this
        exact ⟨made, sent⟩
    | stranger payload peer echo running elsewhere =>
      refine ⟨fun p e h => ?_, ih.2⟩
      rcases List.mem_append.mp h with h | h
      · exact ih.1 p e h
      · rw [List.mem_singleton] at h
        simp only [Turn.datagram.injEq] at h
        exact absurd h.2.1.symm (elsewhere i)
    | serverError e running =>
      refine ⟨fun p e h => ?_, ih.2⟩
      rcases List.mem_append.mp h with h | h
      · exact ih.1 p e h
      · rw [List.mem_singleton] at h; cases h
    | deliver j payload running receiving sent =>
      refine ⟨fun p e h => ⟨(ih.1 p e h).1, grow _ _ (ih.1 p e h).2⟩, fun p h => ?_⟩
      rcases old _ _ _ h with h | ⟨hij, h⟩
      · exact ⟨(ih.2 p h).1, grow _ _ (ih.2 p h).2⟩
      · cases h
        subst hij
        obtain ⟨full, h1, h2⟩ := EchoServer.main_sent sent
        obtain ⟨h3, h4⟩ := ih.1 _ _ h1
        obtain ⟨d, h5, _, h6, _⟩ := UdpClient.datagram (S.prof i) (S.made i)
        rw [h3] at h5
        cases h5
        rw [List.take_of_length_le h6] at h2
        subst h2
        exact ⟨h3, grow _ _ h4⟩
    | clientError j e running receiving =>
      refine ⟨fun p e h => ⟨(ih.1 p e h).1, grow _ _ (ih.1 p e h).2⟩, fun p h => ?_⟩
      rcases old _ _ _ h with h | ⟨_, h⟩
      · exact ⟨(ih.2 p h).1, grow _ _ (ih.2 p h).2⟩
      · cases h

/-- Any number of clients, any hosts besides them, any losses, delays, reorderings, duplications and failing
calls: the only PDU a client ever shows is the one it made itself, and it shows none before having sent it;
a client that has ended without error has shown it; and nobody panics. -/
theorem C59_echo_safe (hS : ∀ i j, S.addr i = S.addr j → i = j) (w : EchoWorld I Addr Err)
    (h : w.Reachable S) :
    (∀ i p, (w.client S i).1 = some p → p = Pdu.new (S.made i) ∧ .sent (.ok ()) ∈ w.events i) ∧
    (∀ i, (w.client S i).2 = .finished → (w.client S i).1 = some (Pdu.new (S.made i))) ∧
    (∀ i e, (w.client S i).2 ≠ .panicked e) ∧ ∀ e, w.server.2 ≠ .panicked e := by
  have shows : ∀ i p, (w.client S i).1 = some p → p = Pdu.new (S.made i) ∧ .sent (.ok ()) ∈ w.events i := by
    intro i p hp
    rcases UdpClient.join_shown _ _ p _ _ _ _ hp with hp | ⟨d, hd, hne, hp⟩
    · cases hp
    · have hm : .received (.ok d) ∈ w.events i := by
        rw [payloads, List.mem_filterMap] at hd
        obtain ⟨ev, hm, he⟩ := hd
        rcases ev with x | (x | x)
        · cases he
        · cases he
        · cases he; exact hm
      obtain ⟨h1, h2⟩ := (EchoWorld.own S hS w h i).2 d hm
      obtain ⟨d', h3, _, _, h4⟩ := UdpClient.datagram (S.prof i) (S.made i)
      rw [h1] at h3
      cases h3
      exact ⟨hp.trans (h4 _ _), h2⟩
  refine ⟨shows, fun i hf => ?_, fun i e => C59_no_panic _ _ _ e,
    fun e => EchoServer.run_no_panic e _ _ _ (fun _ h => nomatch h)⟩
  have key : ∀ (es : List (ClientEvent Err)) s r shown,
      (UdpClient.join (S.prof i) (S.later i) s r shown es).2 = .finished →
      (r = true ∨ shown.isSome) → (UdpClient.join (S.prof i) (S.later i) s r shown es).1.isSome := by
    intro es
    induction es with
    | nil =>
      intro s r shown h hr
      rcases hr with hr | hr
      · subst hr; cases s <;> simp [UdpClient.join] at h
      · exact hr
    | cons ev es ih =>
      intro s r shown h hr
      rcases ev with x | x
      · rw [UdpClient.join_sent] at h ⊢
        split
        · rename_i hs
          rw [if_pos hs] at h
          rcases x with e | ⟨⟩
          · cases h
          · exact ih _ _ _ h hr
        · rename_i hs
          rw [if_neg hs] at h
          exact ih _ _ _ h hr
      · rw [UdpClient.join_received] at h ⊢
        split
        · rename_i hs
          rw [if_pos hs] at h
          rcases x with e | d
          · cases h
          · by_cases hd : d = []
            · subst hd
              rw [UdpClient.recv_nil] at h ⊢
              exact ih _ _ _ h hr
            · rw [UdpClient.recv_some _ _ d hd] at h ⊢
              exact ih _ _ _ h (.inr rfl)
        · rename_i hs
          rw [if_neg hs] at h
          exact ih _ _ _ h hr
  have hs := key _ _ _ _ hf (.inl rfl)
  obtain ⟨p, hp⟩ := Option.isSome_iff_exists.mp hs
  have hp : (w.client S i).1 = some p := hp
  rw [hp, (shows i p hp).1]

theorem mem_sendSide (l : List (ClientEvent Err)) (r : Except Err Unit) : r ∈ sendSide l ↔ .sent r ∈ l := by
  rw [sendSide, List.mem_filterMap]
  constructor
  · rintro ⟨ev, hm, he⟩
    cases ev with
    | sent x => cases he; exact hm
    | received x => cases he
  · intro hm; exact ⟨_, hm, rfl⟩

theorem mem_payloads (l : List (ClientEvent Err)) (d : Bytes) : d ∈ payloads l ↔ .received (.ok d) ∈ l := by
  rw [payloads, List.mem_filterMap]
  constructor
  · rintro ⟨ev, hm, he⟩
    rcases ev with x | (x | x)
    · cases he
    · cases he
    · cases he; exact hm
  · intro hm; exact ⟨_, hm, rfl⟩

theorem Smooth.snoc {es : List (ClientEvent Err)} (h : Smooth es) {ev : ClientEvent Err}
    (hev : ∀ e, ev ≠ .sent (.error e) ∧ ev ≠ .received (.error e)) : Smooth (es ++ [ev]) := by
  intro e
  constructor <;> intro hm <;> rcases List.mem_append.mp hm with hm | hm
  · exact (h e).1 hm
  · exact (hev e).1 (List.mem_singleton.mp hm).symm
  · exact (h e).2 hm
  · exact (hev e).2 (List.mem_singleton.mp hm).symm

theorem shown_none {prof : Profile} {now : UInt32} {es : List (ClientEvent Err)} (h : Smooth es) :
    (UdpClient.connect prof now es).1 = none ↔ ∀ d ∈ payloads es, d = [] := by
  rw [(C59_client prof now es h).1, Option.map_eq_none_iff, List.find?_eq_none]
  simp

/-- A client that is still running has seen no failure. -/
theorem EchoWorld.smooth (w : EchoWorld I Addr Err) (h : w.Reachable S) (i : I)
    (hr : (w.client S i).2 = .waiting) : Smooth (w.events i) := by
  induction h with
  | none => exact fun e => ⟨fun h => (nomatch h), fun h => (nomatch h)⟩
  | more before step ih =>
    rename_i w' w''
    have at' : ∀ (j : I) (ev : ClientEvent Err), setAt w'.events j (w'.events j ++ [ev]) i =
        if i = j then w'.events i ++ [ev] else w'.events i := by
      intro j ev
      unfold setAt
      split
      · rename_i h; subst h; rfl
      · rfl
    cases step with
    | send j r running first =>
      simp only [EchoWorld.client, at'] at hr ⊢
      split
      · rename_i hij
        subst hij
        have ih := ih running
        rw [if_pos rfl] at hr
        rcases r with e | ⟨⟩
        · have hn : sendSide (w'.events i) = [] := List.eq_nil_iff_forall_not_mem.mpr fun r hm =>
            first r ((mem_sendSide _ _).mp hm)
          rw [(C59_failure _ _ _ [] ih e).1 hn] at hr
          cases hr
        · exact ih.snoc fun e => ⟨nofun, nofun⟩
      · rename_i hij
        rw [if_neg hij] at hr
        exact ih hr
    | arrive j payload echo running sent made => exact ih hr
    | stranger payload peer echo running elsewhere => exact ih hr
    | serverError e running => exact ih hr
    | deliver j payload running receiving sent =>
      simp only [EchoWorld.client, at'] at hr ⊢
      split
      · rename_i hij
        subst hij
        exact (ih running).snoc fun e => ⟨nofun, nofun⟩
      · rename_i hij
        rw [if_neg hij] at hr
        exact ih hr
    | clientError j e running receiving =>
      simp only [EchoWorld.client, at'] at hr ⊢
      split
      · rename_i hij
        subst hij
        have ih := ih running
        rw [if_pos rfl] at hr
        rw [(C59_failure _ _ _ [] ih e).2 ((shown_none ih).mp receiving)] at hr
        cases hr
      · rename_i hij
        rw [if_neg hij] at hr
        exact ih hr

theorem EchoWorld.Steps.trans {a b c : EchoWorld I Addr Err} (h : EchoWorld.Steps S a b)
    (h' : EchoWorld.Steps S b c) : EchoWorld.Steps S a c := by
  induction h' with
  | none => exact h
  | more _ step ih => exact .more ih step

theorem setAt_self {α : Type} (f : I → α) (i : I) (a : α) : setAt f i a i = a := by simp [setAt]
theorem setAt_other {α : Type} (f : I → α) {i j : I} (h : j ≠ i) (a : α) : setAt f i a j = f j := by
  simp [setAt, h]

/-- From every state the system can get into, whatever has been lost so far: as long as the server and a
client are running, that client can still be served, to the end, and nothing need happen to the others. -/
theorem C59_echo_live (hS : ∀ i j, S.addr i = S.addr j → i = j) (w : EchoWorld I Addr Err)
    (h : w.Reachable S) (i : I) (hc : (w.client S i).2 = .waiting) (hs : w.server.2 = .waiting) :
    ∃ w', EchoWorld.Steps S w w' ∧ w'.client S i = (some (Pdu.new (S.made i)), .finished) ∧
      w'.server.2 = .waiting ∧ ∀ j, j ≠ i → w'.events j = w.events j := by
  obtain ⟨d, hd, hne, hdl, hv⟩ := UdpClient.datagram (S.prof i) (S.made i)
  -- the client's own send
  have one : ∃ w1, EchoWorld.Steps S w w1 ∧ .sent (.ok ()) ∈ w1.events i ∧ Smooth (w1.events i) ∧
      w1.served = w.served ∧ payloads (w1.events i) = payloads (w.events i) ∧
      ∀ j, j ≠ i → w1.events j = w.events j := by
    have sm := EchoWorld.smooth S w h i hc
    by_cases hm : .sent (.ok ()) ∈ w.events i
    · exact ⟨w, .none, hm, sm, rfl, rfl, fun _ _ => rfl⟩
    · refine ⟨_, .more .none (.send w i (.ok ()) hc ?_), ?_, ?_, rfl, ?_, fun j hj => setAt_other _ hj _⟩
      · rintro (e | ⟨⟩) hr
        · exact (sm e).1 hr
        · exact hm hr
      · simp only [setAt_self]
        exact List.mem_append_right _ (List.mem_singleton.mpr rfl)
      · simp only [setAt_self]
        exact sm.snoc fun e => ⟨nofun, nofun⟩
      · simp only [setAt_self, payloads, List.filterMap_append, List.filterMap_cons, List.filterMap_nil,
          List.append_nil]
  obtain ⟨w1, s1, m1, sm1, e1, p1, o1⟩ := one
  have hr1 : w1.Reachable S := EchoWorld.Steps.trans S h s1
  have end_ : ∀ (w2 : EchoWorld I Addr Err), w2.Reachable S → Smooth (w2.events i) →
      .sent (.ok ()) ∈ w2.events i → (∃ x ∈ payloads (w2.events i), x ≠ []) →
      w2.client S i = (some (Pdu.new (S.made i)), .finished) := by
    intro w2 h2 sm hm hx
    have hf := (C59_client (S.prof i) (S.later i) _ sm).2.1.mpr ⟨hm, hx⟩
    exact Prod.ext ((C59_echo_safe S hS w2 h2).2.1 i hf) hf
  by_cases hx : ∃ x ∈ payloads (w1.events i), x ≠ []
  · exact ⟨w1, s1, end_ w1 hr1 sm1 m1 hx, by unfold EchoWorld.server at hs ⊢; rw [e1]; exact hs, o1⟩
  · -- the server's turn
    have hs1 : w1.server.2 = .waiting := by unfold EchoWorld.server at hs ⊢; rw [e1]; exact hs
    obtain ⟨_, ds, hds⟩ := EchoServer.run_waiting _ _ _ hs1
    let w2 : EchoWorld I Addr Err := { w1 with served := w1.served ++ [.datagram d (S.addr i) (.ok ())] }
    have st2 : EchoWorld.Step S w1 w2 := .arrive w1 i d (.ok ()) hs1 m1 hd
    have sv2 : w2.server = ((ds ++ [(d, S.addr i)]).map (fun d => (d.1.take 1024, d.2)), .waiting) := by
      show EchoServer.main (w1.served ++ _) = _
      rw [← C33_echo (Err := Err), hds]
      simp
    have r2 : w2.Reachable S := .more hr1 st2
    -- the delivery
    have rn : ∀ y ∈ payloads (w1.events i), y = [] := by
      intro y hy
      rcases y with _ | ⟨a, y⟩
      · rfl
      · exact absurd ⟨_, hy, by simp⟩ hx
    have c2 : (w2.client S i).2 = .waiting :=
      (C59_client (S.prof i) (S.later i) _ sm1).2.2.mpr fun hh => hx hh.2
    have n2 : (w2.client S i).1 = none := (shown_none sm1).mpr rn
    have sent2 : (d, S.addr i) ∈ w2.server.1 := by
      rw [sv2, List.map_append]
      refine List.mem_append_right _ ?_
      simp only [List.map_cons, List.map_nil, List.mem_singleton]
      rw [List.take_of_length_le hdl]
    have st3 : EchoWorld.Step S w2 { w2 with events := setAt w2.events i (w2.events i ++ [.received (.ok d)]) } :=
      .deliver w2 i d c2 n2 sent2
    refine ⟨_, .more (.more s1 st2) st3, end_ _ (.more r2 st3) ?_ ?_ ?_, ?_, ?_⟩
    · simp only [setAt_self]
      exact Smooth.snoc (es := w1.events i) sm1 fun e => ⟨nofun, nofun⟩
    · simp only [setAt_self]
      exact List.mem_append_left _ m1
    · refine ⟨d, (mem_payloads _ _).mpr ?_, hne⟩
      simp only [setAt_self]
      exact List.mem_append_right _ (List.mem_singleton.mpr rfl)
    · exact congrArg Prod.snd sv2
    · intro j hj
      exact (setAt_other _ hj _).trans (o1 j hj)

/-- Two clients, the second served to the end after the first: such a state is reachable, and in it each has
shown its own PDU. -/
example : ∃ (w : EchoWorld Bool Nat Unit),
    w.Reachable ⟨fun i => if i then 1 else 2, fun _ => ⟨true⟩, fun i => if i then 10 else 20, fun _ => 0⟩ ∧
    w.client ⟨fun i => if i then 1 else 2, fun _ => ⟨true⟩, fun i => if i then 10 else 20, fun _ => 0⟩ true =
      (some (Pdu.new 10), .finished) ∧
    w.client ⟨fun i => if i then 1 else 2, fun _ => ⟨true⟩, fun i => if i then 10 else 20, fun _ => 0⟩ false =
      (some (Pdu.new 20), .finished) := by
  generalize hS : (⟨fun i => if i then 1 else 2, fun _ => ⟨true⟩, fun i => if i then 10 else 20, fun _ => 0⟩ :
    EchoSetting Bool Nat) = S
  have inj : ∀ i j, S.addr i = S.addr j → i = j := by subst hS; decide
  obtain ⟨w, h1, h2, h3, h4⟩ := C59_echo_live (Err := Unit) S inj EchoWorld.start .none true rfl rfl
  obtain ⟨w', h1', h2', h3', h4'⟩ := C59_echo_live S inj w h1 false
    (by unfold EchoWorld.client; rw [h4 false (by decide)]; rfl) h3
  refine ⟨w', EchoWorld.Steps.trans S h1 h1', ?_, ?_⟩
  · unfold EchoWorld.client at h2 ⊢
    rw [h4' true (by decide), h2]
    subst hS
    rfl
  · rw [h2']
    subst hS
    rfl

/-- A datagram before the client's own send call is complete, the send call, an empty datagram in between. -/
example : UdpClient.connect (Err := Unit) ⟨true⟩ 0 [.received (.ok []), .received (.ok [1]), .sent (.ok ())] =
    (some (Pdu.default 0), .finished) := by decide +kernel
/-- The send call fails after a PDU has been shown. -/
example : UdpClient.connect (Err := Unit) ⟨true⟩ 0 [.received (.ok [1]), .sent (.error ())] =
    (some (Pdu.default 0), .failed ()) := by decide +kernel

end echo

/-! ### The radio client alone -/

/-- The kinds the radio client sends, in order. -/
def radioKinds : List PduKind := [.Transmitter, .Signal, .Receiver, .IntercomSignal, .IntercomControl]

/-- The number of send calls that completed before one failed. -/
def completed (rs : List (Except Err Unit)) : Nat :=
  (rs.takeWhile fun
    | .ok () => true
    | .error _ => false).length

/-- What the server is to print for a PDU of a kind the radio client sends, all of whose fields have their
default values. -/
def freshLine (peer : Addr) : PduKind → LogLine Addr
  | .Transmitter => .Transmitter (peer := peer) (entity := dflt) (freq := 0) (state := dflt)
  | .Signal => .Signal (peer := peer) (entity := dflt) (samples := 0) (data_length := 0)
  | .Receiver => .Receiver (peer := peer) (entity := dflt) (state := dflt) (power := ⟨0⟩)
  | .IntercomSignal => .IntercomSignal (peer := peer) (intercom := dflt) (samples := 0)
  | .IntercomControl => .IntercomControl (peer := peer) (intercom := dflt) (command := dflt)
      (transmit_state := dflt)
  | _ => .Unknown (size := 0) (peer := peer)

/-- The datagrams of the radio client, with their kinds. -/
theorem RadioClient.fresh (prof : Profile) (now : Fin 5 → UInt32) :
    ∃ ps : List (PduKind × Bytes), ps.map (·.1) = radioKinds ∧ RadioClient.send prof now = .ok (ps.map (·.2)) ∧
      (∀ rs : List (Except Err Unit), RadioClient.run prof now rs =
        RadioClient.steps (ps.map fun p => (p.1, .ok p.2)) rs) ∧
      ∀ p ∈ ps, ∀ prof', ∃ m, deserialize_pdu prof' (p.2.take 1024) = .ok (some m) ∧
        ∀ (size : Nat) (peer : Addr), report size peer (some m) = freshLine peer p.1 := by
  obtain ⟨w1, h1, _⟩ := C21_new_serializes .Transmitter (now 0) prof []
  obtain ⟨w2, h2, _⟩ := C21_new_serializes .Signal (now 1) prof []
  obtain ⟨w3, h3, _⟩ := C21_new_serializes .Receiver (now 2) prof []
  obtain ⟨w4, h4, _⟩ := C21_new_serializes .IntercomSignal (now 3) prof []
  obtain ⟨w5, h5, _⟩ := C21_new_serializes .IntercomControl (now 4) prof []
  rw [List.nil_append] at h1 h2 h3 h4 h5
  have d1 : send_pdu prof (Pdu.new (now 0) : Pdu TransmitterPdu) = .ok w1 := by
    unfold send_pdu; rw [show Pdu.serialize (Pdu.new (now 0) : Pdu TransmitterPdu) prof [] = _ from h1]
  have d2 : send_pdu prof (Pdu.new (now 1) : Pdu SignalPdu) = .ok w2 := by
    unfold send_pdu; rw [show Pdu.serialize (Pdu.new (now 1) : Pdu SignalPdu) prof [] = _ from h2]
  have d3 : send_pdu prof (Pdu.new (now 2) : Pdu ReceiverPdu) = .ok w3 := by
    unfold send_pdu; rw [show Pdu.serialize (Pdu.new (now 2) : Pdu ReceiverPdu) prof [] = _ from h3]
  have d4 : send_pdu prof (Pdu.new (now 3) : Pdu IntercomSignalPdu) = .ok w4 := by
    unfold send_pdu; rw [show Pdu.serialize (Pdu.new (now 3) : Pdu IntercomSignalPdu) prof [] = _ from h4]
  have d5 : send_pdu prof (Pdu.new (now 4) : Pdu IntercomControlPdu) = .ok w5 := by
    unfold send_pdu; rw [show Pdu.serialize (Pdu.new (now 4) : Pdu IntercomControlPdu) prof [] = _ from h5]
  refine ⟨[(.Transmitter, w1), (.Signal, w2), (.Receiver, w3), (.IntercomSignal, w4), (.IntercomControl, w5)],
    rfl, ?_, fun rs => ?_, ?_⟩
  · unfold RadioClient.send
    rw [d1, d2, d3, d4, d5]
    rfl
  · unfold RadioClient.run
    rw [d1, d2, d3, d4, d5]
    rfl
  · intro p hp prof'
    simp only [List.mem_cons, List.not_mem_nil, or_false] at hp
    have go : ∀ (m : ParsedPdu) (w : Bytes) (k : PduKind), m.Sent prof w →
        (∀ (size : Nat) (peer : Addr), report size peer (some m) = freshLine peer k) →
        ∃ m', deserialize_pdu prof' (w.take 1024) = .ok (some m') ∧
          ∀ (size : Nat) (peer : Addr), report size peer (some m') = freshLine peer k := by
      intro m w k hm hk
      obtain ⟨m', h1, _, h2⟩ := C32_sent_is_reported (Addr := Addr) prof prof' m w hm
      exact ⟨m', h1, fun size peer => (h2 size peer).trans (hk size peer)⟩
    rcases hp with rfl | rfl | rfl | rfl | rfl
    · exact go (.Transmitter (Pdu.new (now 0))) _ .Transmitter ⟨_, h1⟩ fun _ _ => rfl
    · exact go (.Signal (Pdu.new (now 1))) _ .Signal ⟨_, h2⟩ fun _ _ => rfl
    · exact go (.Receiver (Pdu.new (now 2))) _ .Receiver ⟨_, h3⟩ fun _ _ => rfl
    · exact go (.IntercomSignal (Pdu.new (now 3))) _ .IntercomSignal ⟨_, h4⟩ fun _ _ => rfl
    · exact go (.IntercomControl (Pdu.new (now 4))) _ .IntercomControl ⟨_, h5⟩ fun _ _ => rfl

theorem completed_append (more : List (Except Err Unit)) : ∀ rs : List (Except Err Unit),
    completed rs ≤ completed (rs ++ more)
  | [] => by simp [completed]
  | .error e :: rs => by simp [completed]
  | .ok () :: rs => by
    have hc : ∀ l : List (Except Err Unit), completed (.ok () :: l) = completed l + 1 := by simp [completed]
    rw [List.cons_append, hc, hc]
    exact Nat.add_le_add_right (completed_append more rs) 1

theorem RadioClient.steps_eq : ∀ (ps : List (PduKind × Bytes)) (rs : List (Except Err Unit)),
    RadioClient.steps (ps.map fun p => (p.1, .ok p.2)) rs =
      (⟨(ps.take (completed rs)).map (·.2), (ps.take (completed rs)).map (·.1)⟩,
        if ps.length ≤ completed rs then .finished
        else match rs[completed rs]? with
          | some (.error e) => .failed e
          | _ => .waiting)
  | [], rs => by simp [RadioClient.steps]
  | p :: ps, [] => by simp [RadioClient.steps, completed]
  | p :: ps, .error e :: rs => by simp [RadioClient.steps, completed]
  | p :: ps, .ok () :: rs => by
    have hc : completed (.ok () :: rs) = completed rs + 1 := by simp [completed]
    rw [List.map_cons, RadioClient.steps, steps_eq ps rs, hc]
    simp only [List.take_succ_cons, List.map_cons, List.length_cons, Nat.add_le_add_iff_right,
      List.getElem?_cons_succ]

/-- Whatever becomes of the radio client's send calls: it sends its PDUs in order and says so after each; it
stops at the first call that fails, with that error; it ends well when all five have been sent. -/
theorem C59_radio_client (prof : Profile) (now : Fin 5 → UInt32) :
    ∃ ws, RadioClient.send prof now = .ok ws ∧ ws.length = 5 ∧ ∀ rs : List (Except Err Unit),
      RadioClient.run prof now rs = (⟨ws.take (completed rs), radioKinds.take (completed rs)⟩,
        if 5 ≤ completed rs then .finished
        else match rs[completed rs]? with
          | some (.error e) => .failed e
          | _ => .waiting) := by
  obtain ⟨ps, h1, h2, h3, _⟩ := RadioClient.fresh (Err := Err) (Addr := Unit) prof now
  have hl : ps.length = 5 := by
    have := congrArg List.length h1
    rwa [List.length_map] at this
  refine ⟨_, h2, by rw [List.length_map, hl], fun rs => ?_⟩
  rw [h3, RadioClient.steps_eq, List.map_take, List.map_take, h1, hl]

/-! ### Radio clients and server together -/

section radio
variable {I : Type} [DecidableEq I]

/-- The peer a line names. -/
def LogLine.peer : LogLine Addr → Addr
  | .Transmitter peer .. => peer
  | .Signal peer .. => peer
  | .Receiver peer .. => peer
  | .IntercomSignal peer .. => peer
  | .IntercomControl peer .. => peer
  | .Unknown _ peer => peer

theorem report_peer (size : Nat) (peer : Addr) (m : Option ParsedPdu) : (report size peer m).peer = peer := by
  rcases m with _ | m
  · rfl
  · cases m <;> rfl

/-- Every line the server prints is the report of a datagram it received. -/
theorem RadioServer.run_lines (prof : Profile) (line : LogLine Addr) :
    ∀ (rs : List (Received Addr Err)) buf pend, buf.length = 1024 → line ∈ (RadioServer.run prof buf pend rs).1 →
      (∃ l, RadioServer.handle prof buf pend = .ok l ∧ line ∈ l) ∨
        ∃ payload peer r, .datagram payload peer ∈ rs ∧ deserialize_pdu prof (payload.take 1024) = .ok r ∧
          line = report (min payload.length 1024) peer r
  | [], buf, pend, hb, h => by
    rw [RadioServer.run] at h
    cases hh : RadioServer.handle prof buf pend with
    | error e => rw [hh] at h; cases h
    | ok l => rw [hh] at h; exact .inl ⟨l, rfl, h⟩
  | .error x :: rs, buf, pend, hb, h => by
    rw [RadioServer.run] at h
    cases hh : RadioServer.handle prof buf pend with
    | error e => rw [hh] at h; cases h
    | ok l => rw [hh] at h; exact .inl ⟨l, rfl, h⟩
  | .datagram payload peer :: rs, buf, pend, hb, h => by
    rw [RadioServer.run] at h
    cases hh : RadioServer.handle prof buf pend with
    | error e => rw [hh] at h; cases h
    | ok l =>
      rw [hh] at h
      have h : line ∈ l ++ (RadioServer.run prof (recvInto buf payload).1
        (some ((recvInto buf payload).2, peer)) rs).1 := h
      rw [List.mem_append] at h
      rcases h with h | h
      · exact .inl ⟨l, rfl, h⟩
      · rcases run_lines prof line rs _ _ ((recvInto_length ..).trans hb) h with ⟨l', h1, h2⟩ | ⟨p, a, r, h1, h2⟩
        · rw [RadioServer.handle_recv prof buf payload peer hb] at h1
          cases hr : deserialize_pdu prof (payload.take 1024) with
          | error e => rw [hr] at h1; cases h1
          | ok r =>
            rw [hr] at h1
            cases h1
            exact .inr ⟨payload, peer, r, List.mem_cons_self .., hr, List.mem_singleton.mp h2⟩
        · exact .inr ⟨p, a, r, List.mem_cons_of_mem _ h1, h2⟩

/-- If no datagram makes the dispatcher panic, the server does not. -/
theorem RadioServer.run_no_panic (prof : Profile) (e : Panic) : ∀ (rs : List (Received Addr Err)) buf pend,
    buf.length = 1024 → (∃ l, RadioServer.handle prof buf pend = .ok l) →
    (∀ payload peer, .datagram payload peer ∈ rs → ∃ r, deserialize_pdu prof (payload.take 1024) = .ok r) →
    (RadioServer.run prof buf pend rs).2 ≠ .panicked e
  | [], buf, pend, hb, ⟨l, hl⟩, hd => by rw [RadioServer.run, hl]; simp
  | .error x :: rs, buf, pend, hb, ⟨l, hl⟩, hd => by rw [RadioServer.run, hl]; simp
  | .datagram payload peer :: rs, buf, pend, hb, ⟨l, hl⟩, hd => by
    rw [RadioServer.run, hl]
    refine run_no_panic prof e rs _ _ ((recvInto_length ..).trans hb) ?_
      fun p a hm => hd p a (List.mem_cons_of_mem _ hm)
    obtain ⟨r, hr⟩ := hd payload peer (List.mem_cons_self ..)
    exact ⟨_, by rw [RadioServer.handle_recv prof buf payload peer hb, hr]⟩

/-- One more datagram. -/
theorem RadioServer.run_snoc (prof : Profile) (payload : Bytes) (peer : Addr) (m : Option ParsedPdu)
    (hm : deserialize_pdu prof (payload.take 1024) = .ok m) : ∀ (rs : List (Received Addr Err)) buf pend,
    buf.length = 1024 → (RadioServer.run prof buf pend rs).2 = .waiting →
      RadioServer.run prof buf pend (rs ++ [.datagram payload peer]) =
        ((RadioServer.run prof buf pend rs).1 ++ [report (min payload.length 1024) peer m], .waiting)
  | [], buf, pend, hb, h => by
    simp only [List.nil_append, RadioServer.run] at h ⊢
    cases hh : RadioServer.handle prof buf pend with
    | error e => rw [hh] at h; cases h
    | ok l => simp only [RadioServer.handle_recv prof buf payload peer hb, hm]
  | .error x :: rs, buf, pend, hb, h => by
    rw [RadioServer.run] at h
    cases hh : RadioServer.handle prof buf pend with
    | error e => rw [hh] at h; cases h
    | ok l => rw [hh] at h; cases h
  | .datagram p a :: rs, buf, pend, hb, h => by
    rw [List.cons_append, RadioServer.run, RadioServer.run]
    rw [RadioServer.run] at h
    cases hh : RadioServer.handle prof buf pend with
    | error e => rw [hh] at h; cases h
    | ok l =>
      rw [hh] at h
      have ih := run_snoc prof payload peer m hm rs _ _ ((recvInto_length buf p).trans hb) h
      simp only [ih, List.append_assoc]

variable (S : RadioSetting I Addr)

/-- What reached the server under a client's address had been sent by that client. -/
theorem RadioWorld.own (hS : ∀ i j, S.addr i = S.addr j → i = j) (w : RadioWorld I Addr Err)
    (h : w.Reachable S) (i : I) (payload : Bytes) (hm : .datagram payload (S.addr i) ∈ w.served) :
    payload ∈ (w.client S i).1.datagrams := by
  induction h with
  | none => cases hm
  | more before step ih =>
    cases step with
    | send j r running =>
      have ih := ih hm
      unfold RadioWorld.client setAt at *
      simp only
      split
      · rename_i hij
        subst hij
        obtain ⟨ws, _, _, hr⟩ := C59_radio_client (Err := Err) (S.prof i) (S.made i)
        rw [hr] at ih running ⊢
        simp only at ih ⊢
        refine List.Sublist.subset (List.take_sublist_take_left ?_) ih
        exact completed_append ..
      · exact ih
    | arrive j p running sent =>
      rcases List.mem_append.mp hm with hm | hm
      · exact ih hm
      · rw [List.mem_singleton] at hm
        simp only [Received.datagram.injEq] at hm
        obtain ⟨rfl, ha⟩ := hm
        have := hS _ _ ha
        subst this
        exact sent
    | stranger p peer running elsewhere =>
      rcases List.mem_append.mp hm with hm | hm
      · exact ih hm
      · rw [List.mem_singleton] at hm
        simp only [Received.datagram.injEq] at hm
        exact absurd hm.2.symm (elsewhere i)
    | serverError e running =>
      rcases List.mem_append.mp hm with hm | hm
      · exact ih hm
      · rw [List.mem_singleton] at hm; cases hm

omit [DecidableEq I] in
/-- A datagram a client has sent: the kind it said it sent, and what the server makes of it. -/
theorem RadioWorld.sent (w : RadioWorld I Addr Err) (i : I) (payload : Bytes) :
    payload ∈ (w.client S i).1.datagrams → ∃ k ∈ (w.client S i).1.lines,
      ∃ m, deserialize_pdu S.server (payload.take 1024) = .ok (some m) ∧
        ∀ (size : Nat) (peer : Addr), report size peer (some m) = freshLine peer k := by
  intro h
  obtain ⟨ps, h1, h2, h3, h4⟩ := RadioClient.fresh (Err := Err) (Addr := Addr) (S.prof i) (S.made i)
  unfold RadioWorld.client at *
  rw [h3, RadioClient.steps_eq] at *
  obtain ⟨p, hp, rfl⟩ := List.mem_map.mp h
  exact ⟨p.1, List.mem_map.mpr ⟨p, hp, rfl⟩, h4 p (List.mem_of_mem_take hp) S.server⟩

/-- Any number of clients, any hosts besides them, any losses, delays, reorderings, duplications and failing
calls: every line the server prints under a client's address tells of a PDU which that client said it had
sent, with the values it sent.  And as long as only clients send to it, the server does not panic. -/
theorem C59_radio_safe (hS : ∀ i j, S.addr i = S.addr j → i = j) (w : RadioWorld I Addr Err)
    (h : w.Reachable S) :
    (∀ line ∈ (w.server S).1, ∀ i, line.peer = S.addr i →
      ∃ k ∈ (w.client S i).1.lines, line = freshLine (S.addr i) k) ∧
    ((∀ payload peer, .datagram payload peer ∈ w.served → ∃ i, peer = S.addr i) →
      ∀ e, (w.server S).2 ≠ .panicked e) := by
  refine ⟨fun line hl i hi => ?_, fun hc e => ?_⟩
  · rcases RadioServer.run_lines S.server line _ _ _ (List.length_replicate ..) hl with
      ⟨l, h1, h2⟩ | ⟨payload, peer, r, h1, h2, rfl⟩
    · cases h1; cases h2
    · rw [report_peer] at hi
      subst hi
      obtain ⟨k, hk, m, h3, h4⟩ := RadioWorld.sent S w i payload (RadioWorld.own S hS w h i payload h1)
      rw [h2] at h3
      cases h3
      exact ⟨k, hk, h4 _ _⟩
  · refine RadioServer.run_no_panic S.server e _ _ _ (List.length_replicate ..) ⟨[], rfl⟩ ?_
    intro payload peer hm
    obtain ⟨i, rfl⟩ := hc payload peer hm
    obtain ⟨k, hk, m, h3, _⟩ := RadioWorld.sent S w i payload (RadioWorld.own S hS w h i payload hm)
    exact ⟨_, h3⟩

/-- And as long as the server is running, every PDU a client said it had sent can still be reported. -/
theorem C59_radio_live (w : RadioWorld I Addr Err) (hs : (w.server S).2 = .waiting) (i : I) (k : PduKind)
    (hk : k ∈ (w.client S i).1.lines) :
    ∃ w', RadioWorld.Step S w w' ∧ w'.server S = ((w.server S).1 ++ [freshLine (S.addr i) k], .waiting) ∧
      w'.results = w.results := by
  obtain ⟨ps, h1, h2, h3, h4⟩ := RadioClient.fresh (Err := Err) (Addr := Addr) (S.prof i) (S.made i)
  have hk' := hk
  unfold RadioWorld.client at hk'
  rw [h3, RadioClient.steps_eq] at hk'
  obtain ⟨p, hp, rfl⟩ := List.mem_map.mp hk'
  have hd : p.2 ∈ (w.client S i).1.datagrams := by
    unfold RadioWorld.client
    rw [h3, RadioClient.steps_eq]
    exact List.mem_map.mpr ⟨p, hp, rfl⟩
  refine ⟨_, .arrive w i p.2 hs hd, ?_, rfl⟩
  obtain ⟨m, hm, hr⟩ := h4 p (List.mem_of_mem_take hp) S.server
  have := RadioServer.run_snoc (Err := Err) S.server p.2 (S.addr i) (some m) hm w.served _ none
    (List.length_replicate ..) hs
  rw [hr] at this
  exact this

/-- Two sends complete and the third fails; the second datagram arrives twice, before the first, which never
does. -/
example : ∃ (w : RadioWorld Unit Nat Unit), w.Reachable ⟨fun _ => 7, fun _ => ⟨true⟩, fun _ _ => 0, ⟨false⟩⟩ ∧
    w.client ⟨fun _ => 7, fun _ => ⟨true⟩, fun _ _ => 0, ⟨false⟩⟩ () =
      (⟨(w.client ⟨fun _ => 7, fun _ => ⟨true⟩, fun _ _ => 0, ⟨false⟩⟩ ()).1.datagrams, [.Transmitter, .Signal]⟩,
        .failed ()) ∧
    w.server ⟨fun _ => 7, fun _ => ⟨true⟩, fun _ _ => 0, ⟨false⟩⟩ =
      ([.Signal 7 dflt 0 0, .Signal 7 dflt 0 0], .waiting) := by
  generalize hS : (⟨fun _ => 7, fun _ => ⟨true⟩, fun _ _ => 0, ⟨false⟩⟩ : RadioSetting Unit Nat) = S
  obtain ⟨ws, _, _, hr⟩ := C59_radio_client (Err := Unit) (S.prof ()) (S.made ())
  let w1 : RadioWorld Unit Nat Unit := ⟨[], setAt (fun _ => []) () ([] ++ [.ok ()])⟩
  let w2 : RadioWorld Unit Nat Unit := ⟨[], setAt w1.results () (w1.results () ++ [.ok ()])⟩
  let w3 : RadioWorld Unit Nat Unit := ⟨[], setAt w2.results () (w2.results () ++ [.error ()])⟩
  have s1 : RadioWorld.Step S RadioWorld.start w1 := .send _ () (.ok ()) (by unfold RadioWorld.client; rw [hr]; rfl)
  have s2 : RadioWorld.Step S w1 w2 := .send _ () (.ok ()) (by unfold RadioWorld.client; rw [hr]; rfl)
  have s3 : RadioWorld.Step S w2 w3 := .send _ () (.error ()) (by unfold RadioWorld.client; rw [hr]; rfl)
  have c : ∀ w : RadioWorld Unit Nat Unit, w.results = w3.results →
      w.client S () = (⟨ws.take 2, [.Transmitter, .Signal]⟩, .failed ()) := by
    intro w h
    unfold RadioWorld.client
    rw [h, hr]
    rfl
  obtain ⟨w4, s4, v4, r4⟩ := C59_radio_live S w3 rfl () .Signal (by rw [c w3 rfl]; exact .tail _ (.head _))
  obtain ⟨w5, s5, v5, r5⟩ := C59_radio_live S w4 (by rw [v4]) () .Signal (by rw [c w4 r4]; exact .tail _ (.head _))
  refine ⟨w5, .more (.more (.more (.more (.more .none s1) s2) s3) s4) s5, ?_, ?_⟩
  · rw [c w5 (r5.trans r4)]
  · rw [v5, v4]
    subst hS
    rfl

end radio

end Dis
