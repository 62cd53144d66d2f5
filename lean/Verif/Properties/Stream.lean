import Verif.Spec.Stream
import Verif.Properties.RoundTrip
import Verif.Proofs.Injective
import Verif.Properties.Panics
import Verif.Properties.Fresh
/-
C22 (sequences of PDUs in one buffer), C23 (framing by the length field), C36 (injectivity).
-/
namespace Dis

/-! ### C22 -/

/-- PDUs in one buffer do not interfere: any sequence of PDUs, of any mix of kinds, each of which survives being sent and
received by itself, survives being sent into one buffer with the others: it is sent completely, and receiving the same
kinds in the same order, whatever follows and in any build, returns the PDUs sent and leaves what follows. -/
theorem C22_independent (ps : List AnyPdu) (prof : Profile) :
    (∀ p ∈ ps, ∃ q w, p.pdu.serialize prof [] = .ok ((q, .ok ()), w) ∧ q.body = p.pdu.body ∧
      ∀ prof' rest, p.kind.decode prof' (w ++ rest) = .ok (.ok q, rest)) →
    ∀ buf, ∃ (qs : List AnyPdu) (w : Bytes), sendAll ps prof buf = .ok (.ok qs, buf ++ w) ∧
      qs.map AnyPdu.content = ps.map AnyPdu.content ∧
      ∀ prof' rest, receiveAll (ps.map AnyPdu.kind) prof' (w ++ rest) = .ok (.ok qs, rest) := by
  induction ps with
  | nil =>
    intro _ buf
    exact ⟨[], [], by rw [List.append_nil]; rfl, rfl, fun _ _ => rfl⟩
  | cons p ps ih =>
    intro h buf
    obtain ⟨q, w, hs, hb, hd⟩ := h p (List.mem_cons_self ..)
    obtain ⟨qs, v, hs', hf, hd'⟩ := ih (fun x hx => h x (List.mem_cons_of_mem _ hx)) (buf ++ w)
    have hs : p.pdu.serialize prof buf = .ok ((q, .ok ()), buf ++ w) := by
      rcases C05_append_only p.kind p.pdu prof with ⟨e, he⟩ | ⟨q', r, w', hw⟩
      · rw [he []] at hs; cases hs
      · rw [hw []] at hs; cases hs; exact hw buf
    refine ⟨⟨p.kind, q⟩ :: qs, w ++ v, ?_, ?_, fun prof' rest => ?_⟩
    · unfold sendAll
      rw [M.bind_run, hs]
      simp only []
      rw [M.bind_run, hs']
      simp only [List.append_assoc]
      rfl
    · simp only [List.map_cons, hf, AnyPdu.content, hb]
    · rw [List.map_cons]
      unfold receiveAll
      rw [M.bind_run, List.append_assoc, show (Pdu.deserialize : Get (Except DISError (Pdu p.kind.Body)))
        prof' (w ++ (v ++ rest)) = _ from hd prof' (v ++ rest)]
      simp only []
      rw [M.bind_run, hd' prof' rest]
      rfl

/-- Any sequence of fixed-layout PDUs, of any mix of kinds, sent into one buffer: it is sent completely,
and receiving the same kinds in the same order, whatever follows and in any build, returns the PDUs sent
(with unchanged bodies) and leaves what follows.  (A stop/freeze PDU must not set unnamed flags, which its decoder
drops.) -/
theorem C22_sequence (ps : List AnyPdu) (prof : Profile)
    (h : ∀ p ∈ ps, p.kind.fixedLayout = true ∧ p.namedFlags) (buf : Bytes) :
    ∃ (qs : List AnyPdu) (w : Bytes), sendAll ps prof buf = .ok (.ok qs, buf ++ w) ∧
      qs.map AnyPdu.content = ps.map AnyPdu.content ∧
      ∀ prof' rest, receiveAll (ps.map AnyPdu.kind) prof' (w ++ rest) = .ok (.ok qs, rest) := by
  refine C22_independent ps prof (fun p hp => ?_) buf
  obtain ⟨h0, hf⟩ := h p hp
  obtain ⟨k, p⟩ := p
  by_cases h1 : k = .StopFreeze
  · subst h1
    obtain ⟨q, w, hs, _, hb, f, hf1, _, hd⟩ := C11_roundtrip_stop_freeze p prof []
    refine ⟨q, w, hs, hb, fun prof' rest => ?_⟩
    have hd := hd prof' rest
    rw [hf1 hf, show ({ p.body with frozen_behavior := p.body.frozen_behavior } : StopFreezePdu) = p.body from rfl,
      ← hb] at hd
    exact hd
  · by_cases h2 : k = .StopFreezeReliable
    · subst h2
      obtain ⟨q, w, hs, _, hb, f, hf1, _, hd⟩ := C11_roundtrip_stop_freeze_reliable p prof []
      refine ⟨q, w, hs, hb, fun prof' rest => ?_⟩
      have hd := hd prof' rest
      rw [hf1 hf, show ({ p.body with frozen_behavior := p.body.frozen_behavior } : StopFreezeReliablePdu) = p.body from rfl,
        ← hb] at hd
      exact hd
    · obtain ⟨q, w, hs, _, hb, hd⟩ := C11_roundtrip k h0 h1 h2 p prof []
      exact ⟨q, w, hs, hb, hd⟩

example : ∀ p ∈ ([⟨.Fire, ⟨exampleHeader, exampleFire⟩⟩, ⟨.Receiver, Pdu.new 0⟩,
      ⟨.Fire, Pdu.new 7⟩, ⟨.StopFreeze, Pdu.new 8⟩] : List AnyPdu), p.kind.fixedLayout = true ∧ p.namedFlags := by
  intro p hp
  simp only [List.mem_cons, List.not_mem_nil, or_false] at hp
  rcases hp with rfl | rfl | rfl | rfl
  · exact ⟨rfl, trivial⟩
  · exact ⟨rfl, trivial⟩
  · exact ⟨rfl, trivial⟩
  · refine ⟨rfl, fun i h => ?_⟩
    have h : (0 : Nat).testBit i = true := h
    rw [Nat.zero_testBit] at h
    cases h

/-- Two PDUs of kinds without fixed layout, fresh (their lists are empty), and one with: each survives by itself. -/
example (prof : Profile) : ∀ p ∈ ([⟨.Signal, Pdu.new 3⟩, ⟨.SetData, Pdu.new 4⟩, ⟨.Fire, Pdu.new 5⟩] : List AnyPdu),
    ∃ q w, p.pdu.serialize prof [] = .ok ((q, .ok ()), w) ∧ q.body = p.pdu.body ∧
      ∀ prof' rest, p.kind.decode prof' (w ++ rest) = .ok (.ok q, rest) := by
  intro p hp
  simp only [List.mem_cons, List.not_mem_nil, or_false] at hp
  rcases hp with rfl | rfl | rfl
  · obtain ⟨w, h1, h2⟩ := C21_new_received .Signal (by decide) 3 prof []
    exact ⟨_, w, h1, rfl, h2⟩
  · obtain ⟨w, h1, h2⟩ := C21_new_received .SetData (by decide) 4 prof []
    exact ⟨_, w, h1, rfl, h2⟩
  · obtain ⟨w, h1, h2⟩ := C21_new_received .Fire (by decide) 5 prof []
    exact ⟨_, w, h1, rfl, h2⟩

theorem sendAll_append (ps ms : List AnyPdu) (prof : Profile) : ∀ buf qs buf',
    sendAll ps prof buf = .ok (.ok qs, buf') →
    sendAll (ps ++ ms) prof buf = (do
      match ← sendAll ms with
      | .error e => return .error e
      | .ok rs => return .ok (qs ++ rs) : M (Except DISError (List AnyPdu))) prof buf' := by
  induction ps with
  | nil =>
    intro buf qs buf' h
    cases h
    rw [List.nil_append, M.bind_run]
    cases h : sendAll ms prof buf with
    | error e => rfl
    | ok r => obtain ⟨r | r, b⟩ := r <;> rfl
  | cons p ps ih =>
    intro buf qs buf' h
    rw [sendAll.eq_2, M.bind_run] at h
    rw [List.cons_append, sendAll.eq_2, M.bind_run]
    cases hp : p.pdu.serialize prof buf with
    | error e => rw [hp] at h; cases h
    | ok r =>
      rw [hp] at h
      obtain ⟨⟨q, r⟩, b⟩ := r
      cases r with
      | error e => cases h
      | ok u =>
        dsimp only at h ⊢
        rw [M.bind_run] at h
        cases hs : sendAll ps prof b with
        | error e => rw [hs] at h; cases h
        | ok r =>
          rw [hs] at h
          obtain ⟨r | r, b'⟩ := r
          · cases h
          · cases h
            have := ih b r buf' hs
            rw [M.bind_run, this, M.bind_run, M.bind_run]
            cases sendAll ms prof buf' with
            | error e => rfl
            | ok r => obtain ⟨r | r, b⟩ := r <;> rfl

/-- Sending stops at the first PDU that is refused: what was sent before it stays, it leaves nothing, and what would follow
it is not sent. -/
theorem C22_stops_at_refused (ps more : List AnyPdu) (p : AnyPdu) (prof : Profile) (buf buf' : Bytes) (qs : List AnyPdu)
    (hs : sendAll ps prof buf = .ok (.ok qs, buf')) (hp : 65535 < declaredOctets p.pdu) :
    ∃ n : Nat, (n : Int) = declaredOctets p.pdu ∧
      sendAll (ps ++ p :: more) prof buf = .ok (.error (.PduSizeExceeded n 8192), buf') := by
  rw [sendAll_append _ _ _ _ _ _ hs, M.bind_run, sendAll.eq_2, M.bind_run]
  obtain ⟨q, e, b, h⟩ := (C06_refused_iff p.kind p.pdu prof buf').mpr hp
  obtain ⟨rfl, ⟨n, rfl, hn⟩, _⟩ := C06_refused_atomically p.kind p.pdu q e prof _ _ h
  rw [h]
  exact ⟨n, hn, rfl⟩

/-- Such PDUs exist: a signal PDU of 70000 octets of data, after a fire PDU. -/
example : ∃ p : Pdu SignalPdu, 65535 < declaredOctets p ∧
    ∃ qs buf', sendAll [⟨.Fire, Pdu.new 7⟩] ⟨true⟩ [] = .ok (.ok qs, buf') := by
  obtain ⟨b, hf⟩ : ∃ b : SignalPdu, PduBody.fieldsLen b = 20 + 70000 := by
    let b : SignalPdu := { (PduBody.default : SignalPdu) with data := List.replicate 70000 0 }
    refine ⟨b, ?_⟩
    show SignalPdu.fieldsLen b = _
    have hd : field_len b.data = 70000 := by
      rw [field_len_bytes]; exact List.length_replicate
    have h0 : SignalPdu.fieldsLen b = 20 + field_len b.data := rfl
    rw [h0, hd]
  refine ⟨⟨PduHeader.default 0, b⟩, ?_, ?_⟩
  · rw [declaredOctets_eq]
    show (65535 : Int) < ((12 + PduBody.fieldsLen b : Nat) : Int)
    rw [hf]; decide
  · obtain ⟨qs, w, h, _⟩ := C22_sequence [⟨.Fire, Pdu.new 7⟩] ⟨true⟩
      (fun p hp => by rw [List.mem_singleton] at hp; subst hp; exact ⟨rfl, trivial⟩) []
    exact ⟨qs, _, h⟩

theorem receiveAll_append (ks ms : List PduKind) (prof : Profile) : ∀ b qs b',
    receiveAll ks prof b = .ok (.ok qs, b') →
    receiveAll (ks ++ ms) prof b = (do
      match ← receiveAll ms with
      | .error e => return .error e
      | .ok rs => return .ok (qs ++ rs) : M (Except DISError (List AnyPdu))) prof b' := by
  induction ks with
  | nil =>
    intro b qs b' h
    cases h
    rw [List.nil_append, M.bind_run]
    cases h : receiveAll ms prof b with
    | error e => rfl
    | ok r => obtain ⟨r | r, b⟩ := r <;> rfl
  | cons k ks ih =>
    intro b qs b' h
    rw [receiveAll.eq_2, M.bind_run] at h
    rw [List.cons_append, receiveAll.eq_2, M.bind_run]
    cases hp : (Pdu.deserialize : Get (Except DISError (Pdu k.Body))) prof b with
    | error e => rw [hp] at h; cases h
    | ok r =>
      rw [hp] at h
      obtain ⟨r | q, b₁⟩ := r
      · cases h
      · dsimp only at h ⊢
        rw [M.bind_run] at h
        cases hs : receiveAll ks prof b₁ with
        | error e => rw [hs] at h; cases h
        | ok r =>
          rw [hs] at h
          obtain ⟨r | r, b₂⟩ := r
          · cases h
          · cases h
            rw [M.bind_run, ih b₁ r b' hs, M.bind_run, M.bind_run]
            cases receiveAll ms prof b' with
            | error e => rfl
            | ok r => obtain ⟨r | r, b⟩ := r <;> rfl

/-- Receiving stops at the first message that is not of the kind expected: the error names both types, the header of that
message is gone from the buffer, and everything after it is still there. -/
theorem C22_stops_at_foreign (ks more : List PduKind) (k : PduKind) (prof : Profile) (b b' : Bytes) (qs : List AnyPdu)
    (hr : receiveAll ks prof b = .ok (.ok qs, b')) (h12 : 12 ≤ b'.length) (ht : (b'.getD 2 0).toNat ≠ k.typeCode) :
    receiveAll (ks ++ k :: more) prof b = .ok (.error (.InvalidHeader ("Expected PDU type " ++ pduTypeName k.typeCode ++
      ", got " ++ pduTypeName (b'.getD 2 0).toNat)), b'.drop 12) := by
  rw [receiveAll_append _ _ _ _ _ _ hr, M.bind_run, receiveAll.eq_2, M.bind_run, C09_foreign_type_refused k prof b' h12 ht]
  rfl

/-- Nothing was received yet, a collision message (type 4) arrives, a fire message was expected. -/
example : ∃ e, receiveAll ([] ++ [.Fire, .Fire]) ⟨true⟩ (octets 12 0x070104010000000000000000 ++ [1, 2, 3]) =
    .ok (.error e, [1, 2, 3]) :=
  ⟨_, C22_stops_at_foreign [] [.Fire] .Fire ⟨true⟩ _ _ [] rfl (by decide) (by decide)⟩

/-! ### C23 -/

theorem splitStream_cons (m r : Bytes) (h : frameLength m = m.length) (h12 : 12 ≤ m.length) :
    splitStream (m ++ r) = (splitStream r).map (m :: ·) := by
  have hf : frameLength (m ++ r) = m.length := by
    rw [← h]
    unfold frameLength
    simp only [List.getD_eq_getElem?_getD]
    rw [List.getElem?_append_left (by omega), List.getElem?_append_left (by omega)]
  have hl : (m ++ r).length = m.length + r.length := List.length_append
  rw [splitStream, if_neg (by intro e; rw [e] at hl; simp at hl; omega), if_neg (by omega),
    if_neg (by omega), if_neg (by omega), hf, List.drop_left, List.take_left]

theorem frameLength_wire (h : PduHeader) (r : Bytes) : frameLength (wire h ++ r) = h.length.toNat := by
  have hlt := h.length.toNat_lt
  simp [frameLength, wire, octets, List.range_succ, IntTy.octets, ProtocolVersion.spec, PduType.spec,
      ProtocolFamily.spec, uint8_ofNat_mod]
  omega

/-- A message `m` is the successful encoding of a PDU, and its declared length is its number of octets. -/
def ExactMessage (m : Bytes) : Prop :=
  ∃ (k : PduKind) (p q : Pdu k.Body) (prof : Profile),
    p.serialize prof [] = .ok ((q, .ok ()), m) ∧ q.header.length.toNat = m.length

/-- A stream of encodings of PDUs whose declared length is exact is split into exactly those encodings. -/
theorem C23_framing (ms : List Bytes) (h : ∀ m ∈ ms, ExactMessage m) :
    splitStream ms.flatten = some ms := by
  induction ms with
  | nil => rw [List.flatten_nil, splitStream]; rfl
  | cons m ms ih =>
    obtain ⟨k, p, q, prof, hs, hx⟩ := h m (List.mem_cons_self ..)
    obtain ⟨rfl, _, hw⟩ := Pdu.serialize_ok hs
    have h2 : 12 ≤ m.length := by
      rw [hw]; simp [PduHeader.wire_length]
    have hf : frameLength m = m.length := by
      rw [← hx, hw, List.nil_append, frameLength_wire]
    rw [List.flatten_cons, splitStream_cons m _ hf h2, ih (fun x hx => h x (List.mem_cons_of_mem _ hx))]
    rfl

example (m : Bytes) (h : ExactMessage m) : splitStream (m ++ m) = some [m, m] := by
  have := C23_framing [m, m] (by intro x hx; simp only [List.mem_cons, List.not_mem_nil, or_false, or_self] at hx; exact hx ▸ h)
  rwa [List.flatten_cons, List.flatten_cons, List.flatten_nil, List.append_nil] at this

/-- All encodings of PDUs of the forty-eight exact-length kinds are such messages. -/
theorem C23_exact_kinds (k : PduKind) (hk : k.exactLength = true) (p q : Pdu k.Body) (prof : Profile)
    (m : Bytes) (h : p.serialize prof [] = .ok ((q, .ok ()), m)) : ExactMessage m := by
  have h1 := (C04_declared_length k hk p q prof [] m h).1
  exact ⟨k, p, q, prof, h, by rw [h1]; simp⟩

/-- Entity state PDUs are, exactly when their marking has eleven octets. -/
theorem C23_entity_state (p q : Pdu EntityStatePdu) (prof : Profile) (m : Bytes)
    (h : p.serialize prof [] = .ok ((q, .ok ()), m)) :
    q.header.length.toNat = m.length ↔
      (strBytes p.body.entity_marking.entity_marking_string).length = 11 := by
  have h1 := (C04_declared_length_all_kinds .EntityState p q prof [] m h).2
  have h2 : surplus (show PduKind.EntityState.Body from q.body) =
      1 + ((strBytes q.body.entity_marking.entity_marking_string).length : Int) - 12 := rfl
  obtain ⟨rfl, _, _⟩ := Pdu.serialize_ok h
  have h3 : p.after.body = p.body := PduKind.prep_id .EntityState (by decide) p.body
  rw [h3] at h2
  have h2' := h1.trans (congrArg (_ + ·) h2)
  rw [List.length_nil] at h2'
  omega

/-- A fire PDU, and an entity state PDU with an eleven-octet marking. -/
example : ∃ m, ExactMessage m ∧ m.length = 96 := by
  obtain ⟨w, hs, hl⟩ := C21_new_serializes .Fire 0 ⟨true⟩ []
  exact ⟨w, C23_exact_kinds .Fire rfl _ _ _ _ hs, hl⟩
example : ∃ m, ExactMessage m ∧ m.length = 144 := by
  let b : EntityStatePdu := { (PduBody.default : EntityStatePdu) with
    entity_marking := ⟨⟨1, by decide⟩, "ABCDEFGHIJK"⟩ }
  let p : Pdu EntityStatePdu := ⟨PduHeader.default 0, b⟩
  have hs := Pdu.serialize_of_encodable p (PduKind.encodable .EntityState rfl b)
    (by show 12 + EntityStatePdu.fieldsLen b < 65536; decide +kernel) ⟨true⟩ []
  have hx := (C23_entity_state p _ _ _ hs).mpr (by decide +kernel)
  refine ⟨_, ⟨.EntityState, p, _, _, hs, hx⟩, ?_⟩
  rw [← hx]
  show (UInt16.ofNat (12 + EntityStatePdu.fieldsLen b)).toNat = 144
  decide +kernel

/-- A receiver that splits the stream by the length field, looks at each message's type and decodes it with
the decoder of that type: for any sequence of PDUs (of the fifty-six unconditional kinds) with exact
lengths, it gets every message, the right type, and everything but the trailing lists. -/
theorem C23_receiver (ps : List AnyPdu) (prof : Profile)
    (h : ∀ p ∈ ps, p.kind.unconditional = true ∧ declaredOctets p.pdu ≤ 65535 ∧ surplus p.pdu.body = 0) :
    ∃ ms : List Bytes, ms.length = ps.length ∧
      (∀ buf, ∃ qs, sendAll ps prof buf = .ok (.ok qs, buf ++ ms.flatten)) ∧
      splitStream ms.flatten = some ms ∧
      ∀ p m, (p, m) ∈ ps.zip ms → ∀ prof', ∃ (t : PduType) (hd : PduHeader),
        PduHeader.get_pdu_type prof' m = .ok (some t) ∧ t.code = p.kind.typeCode ∧
        p.kind.decode prof' m = .ok (.ok ⟨hd, kept p.pdu.body⟩, tail p.pdu.body) := by
  suffices H : ∃ ms : List Bytes, ms.length = ps.length ∧
      (∀ buf, ∃ qs, sendAll ps prof buf = .ok (.ok qs, buf ++ ms.flatten)) ∧
      (∀ m ∈ ms, ExactMessage m) ∧
      ∀ p m, (p, m) ∈ ps.zip ms → ∀ prof', ∃ (t : PduType) (hd : PduHeader),
        PduHeader.get_pdu_type prof' m = .ok (some t) ∧ t.code = p.kind.typeCode ∧
        p.kind.decode prof' m = .ok (.ok ⟨hd, kept p.pdu.body⟩, tail p.pdu.body) by
    obtain ⟨ms, h1, h2, h3, h4⟩ := H
    exact ⟨ms, h1, h2, C23_framing ms h3, h4⟩
  induction ps with
  | nil =>
    exact ⟨[], rfl, fun buf => ⟨[], by rw [List.flatten_nil, List.append_nil]; rfl⟩, fun _ h => (nomatch h),
      fun _ _ h => (nomatch h)⟩
  | cons p ps ih =>
    obtain ⟨hu, hl, hz⟩ := h p List.mem_cons_self
    obtain ⟨ms, h1, h2, h3, h4⟩ := ih fun x hx => h x (List.mem_cons_of_mem _ hx)
    obtain ⟨q, m, hs, hb, hd⟩ := C12_survives p.kind hu p.pdu hl prof []
    rw [List.nil_append] at hs
    have hm : ExactMessage m := by
      have hx := (C04_declared_length_all_kinds p.kind p.pdu q prof [] m hs).2
      rw [hb, hz, List.length_nil] at hx
      exact ⟨p.kind, p.pdu, q, prof, hs, by omega⟩
    refine ⟨m :: ms, by rw [List.length_cons, List.length_cons, h1], fun buf => ?_,
      List.forall_mem_cons.mpr ⟨hm, h3⟩, fun p' m' hpm prof' => ?_⟩
    · obtain ⟨q', w', hs', _, _⟩ := C12_survives p.kind hu p.pdu hl prof buf
      have hw : w' = m := by
        rcases C05_append_only p.kind p.pdu prof with ⟨e, he⟩ | ⟨a, r, w, hw⟩
        · rw [he] at hs; cases hs
        · rw [hw] at hs hs'
          simp only [List.nil_append, Except.ok.injEq, Prod.mk.injEq, List.append_cancel_left_eq] at hs hs'
          rw [← hs.2, ← hs'.2]
      subst hw
      obtain ⟨qs, hqs⟩ := h2 (buf ++ w')
      refine ⟨⟨p.kind, q'⟩ :: qs, ?_⟩
      unfold sendAll
      rw [M.bind_run, hs']
      simp only []
      rw [M.bind_run, hqs]
      simp only [List.append_assoc, List.flatten_cons]
      rfl
    · rw [List.zip_cons_cons, List.mem_cons] at hpm
      rcases hpm with hpm | hpm
      · obtain ⟨rfl, rfl⟩ := Prod.mk.inj hpm
        have h12 : 12 ≤ m'.length := by
          obtain ⟨_, _, hw⟩ := Pdu.serialize_ok hs
          rw [hw]; simp [PduHeader.wire_length]
        obtain ⟨t, ht, hta, _, _⟩ := C03_get_pdu_type prof' m' h12
        have hc := (C42_codes p'.kind p'.pdu q prof [] m' hs).2.2.1
        have hc' : m'.getD 2 0 = UInt8.ofNat p'.kind.typeCode := hc
        have hlt : p'.kind.typeCode < 256 := EnumFits.fits _ p'.kind.typeCode_assigned
        have hn : (m'.getD 2 0).toNat = p'.kind.typeCode := by
          rw [hc', UInt8.toNat_ofNat_of_lt' (by simpa [UInt8.size] using hlt)]
        refine ⟨t, q.header, ht, ?_, ?_⟩
        · rw [hta (by rw [hn, ← assigned_iff]; exact p'.kind.typeCode_assigned), hn]
        · have := hd prof' []
          rwa [List.append_nil, List.append_nil] at this
      · exact h4 p' m' hpm prof'

/-- For instance a signal PDU with data, a comment PDU with a datum of 64 bits and a fire PDU. -/
example : ∀ p ∈ ([⟨.Signal, sampleSignal⟩,
      ⟨.Comment, ⟨exampleHeader, { (PduBody.default : CommentPdu) with
        variable_datum_records := [⟨7, 64, [1, 2, 3, 4, 5, 6, 7, 8]⟩] }⟩⟩,
      ⟨.Fire, Pdu.new 7⟩] : List AnyPdu),
    p.kind.unconditional = true ∧ declaredOctets p.pdu ≤ 65535 ∧ surplus p.pdu.body = 0 := by
  intro p hp
  simp only [List.mem_cons, List.not_mem_nil, or_false] at hp
  rcases hp with rfl | rfl | rfl <;> exact ⟨rfl, by decide +kernel, by decide +kernel⟩

/-- Any kind: whatever follows it, the first frame found is the message itself exactly when nothing was
written beyond (or short of) the declared length. -/
theorem C23_frame_iff (k : PduKind) (p q : Pdu k.Body) (prof : Profile) (m : Bytes)
    (h : p.serialize prof [] = .ok ((q, .ok ()), m)) (r : Bytes) :
    (frameLength (m ++ r) = m.length ↔ surplus q.body = 0) := by
  obtain ⟨h1, h2⟩ := C04_declared_length_all_kinds k p q prof [] m h
  have : frameLength (m ++ r) = q.header.length.toNat := by
    rw [h1, List.nil_append, List.append_assoc, frameLength_wire]
  rw [this]
  simp only [List.length_nil] at h2
  omega

example := C23_frame_iff .Signal sampleSignal _ _ _ sampleSignal_serialize_nil [7]

/-- An inexact message is never found: whatever follows it, the splitter fails or its first frame is not
the message. -/
theorem C23_inexact_never_found (k : PduKind) (p q : Pdu k.Body) (prof : Profile) (m : Bytes)
    (h : p.serialize prof [] = .ok ((q, .ok ()), m)) (hx : q.header.length.toNat ≠ m.length)
    (r : Bytes) (fs : List Bytes) : splitStream (m ++ r) ≠ some (m :: fs) := by
  have hf : frameLength (m ++ r) = q.header.length.toNat := by
    obtain ⟨rfl, _, hw⟩ := Pdu.serialize_ok h
    rw [hw, List.nil_append, List.append_assoc, frameLength_wire]
  intro e
  rw [splitStream] at e
  repeat' split at e
  · cases e
  · cases e
  · cases e
  · cases e
  · simp only [Option.map_eq_some_iff, List.cons.injEq] at e
    obtain ⟨_, _, e1, _⟩ := e
    have := congrArg List.length e1
    rw [List.length_take, hf] at this
    rw [hf] at *
    omega

/-- An entity state PDU without marking says eleven octets more than it has. -/
example : ∃ (p q : Pdu EntityStatePdu) (m : Bytes), p.serialize ⟨true⟩ [] = .ok ((q, .ok ()), m) ∧
    q.header.length.toNat ≠ m.length := by
  have h := Pdu.serialize_of_encodable (⟨exampleHeader, PduBody.default⟩ : Pdu EntityStatePdu)
    (PduKind.encodable .EntityState rfl _) (by show 12 + EntityStatePdu.fieldsLen _ < 65536; decide +kernel) ⟨true⟩ []
  exact ⟨_, _, _, h, by decide +kernel⟩

/-- Desynchronisation: an entity state PDU with an empty marking followed by a fire PDU is not split
into the two messages. -/
theorem C23_desynchronised : ∃ (k : PduKind) (p q : Pdu k.Body) (m m' : Bytes),
    p.serialize ⟨true⟩ [] = .ok ((q, .ok ()), m) ∧ ExactMessage m' ∧
    splitStream (m ++ m') ≠ some [m, m'] := by
  let b : EntityStatePdu := PduBody.default
  let p : Pdu EntityStatePdu := ⟨PduHeader.default 0, b⟩
  have hs := Pdu.serialize_of_encodable p (PduKind.encodable .EntityState rfl b)
    (by show 12 + EntityStatePdu.fieldsLen b < 65536; decide +kernel) ⟨true⟩ []
  obtain ⟨m', hs', _⟩ := C21_new_serializes .Fire 0 ⟨true⟩ []
  refine ⟨.EntityState, p, _, _, m', hs, C23_exact_kinds .Fire rfl _ _ _ _ hs', ?_⟩
  refine C23_inexact_never_found .EntityState p _ _ _ hs (fun e => ?_) m' _
  have := (C23_entity_state p _ _ _ hs).mp e
  revert this
  decide +kernel

/-! ### C36 -/

/-- Kinds with a fixed layout or a single list at the end: two PDUs with the same encoding are equal once
encoded (and so had the same body, and headers that differ at most in type, family and length). -/
theorem C36_injective (k : PduKind) (hk : k.fixedLayout = true ∨ k.oneList = true)
    (p p' q q' : Pdu k.Body) (prof prof' : Profile) (w : Bytes)
    (h : p.serialize prof [] = .ok ((q, .ok ()), w)) (h' : p'.serialize prof' [] = .ok ((q', .ok ()), w)) :
    q = q' ∧ p.body = p'.body := by
  obtain ⟨rfl, _, hw⟩ := Pdu.serialize_ok h
  obtain ⟨rfl, _, hw'⟩ := Pdu.serialize_ok h'
  rw [hw, List.nil_append] at hw'
  rw [List.nil_append] at hw'
  obtain ⟨e1, e2⟩ := prefix_of_reads (PduHeader.reads _) (PduHeader.reads _) hw'
  have hs : ∀ x : k.Body, sent x = x := fun x => by
    rcases hk with hk | hk
    · exact (k.layout hk x).2.2.1
    · exact k.unconditional_sent (by cases k <;> first | exact absurd hk (by decide) | rfl) x
  have hp : ∀ x : k.Body, PduBody.prep x = x := k.prep_id (by rintro rfl; revert hk; decide)
  rw [hs, hs] at e2
  have e3 := k.wire_inj hk e2
  refine ⟨?_, ?_⟩
  · show Pdu.mk p.after.header p.after.body = Pdu.mk p'.after.header p'.after.body
    rw [e1, e3]
  · rw [← hp p.body, ← hp p'.body]
    exact e3

example := C36_injective .Signal (.inr rfl) sampleSignal sampleSignal _ _ _ _ _ sampleSignal_serialize_nil
  sampleSignal_serialize_nil

/-- Fixed-layout kinds: no encoding is a proper prefix of another of the same kind. -/
theorem C36_prefix_free (k : PduKind) (hk : k.fixedLayout = true)
    (p p' q q' : Pdu k.Body) (prof prof' : Profile) (w t : Bytes)
    (h : p.serialize prof [] = .ok ((q, .ok ()), w))
    (h' : p'.serialize prof' [] = .ok ((q', .ok ()), w ++ t)) : t = [] ∧ q = q' := by
  have hlen : ∀ (p q : Pdu k.Body) (prof : Profile) (w : Bytes),
      p.serialize prof [] = .ok ((q, .ok ()), w) → w.length = k.ieeeOctets := by
    intro p q prof w h
    have h4 := (C04_declared_length k (k.layout_exact hk) p _ prof [] _ h).1
    have h6 := C06_length_not_truncated k p _ prof [] _ h
    rw [declaredOctets_eq, k.layout_len hk] at h6
    rw [List.length_nil] at h4
    omega
  have h1 := hlen _ _ _ _ h
  have h2 := hlen _ _ _ _ h'
  rw [List.length_append] at h2
  have ht : t = [] := List.eq_nil_of_length_eq_zero (by omega)
  subst ht
  rw [List.append_nil] at h'
  exact ⟨rfl, (C36_injective k (.inl hk) p p' q q' prof prof' w h h').1⟩

example : ∃ (q : Pdu FirePdu) (w : Bytes), (⟨exampleHeader, exampleFire⟩ : Pdu FirePdu).serialize ⟨true⟩ [] = .ok ((q, .ok ()), w) :=
  ⟨_, _, Pdu.serialize_of_encodable _ (PduKind.encodable .Fire rfl _)
    (by show 12 + FirePdu.fieldsLen _ < 65536; decide +kernel) ⟨true⟩ []⟩

/-- Different kinds, all 66 of them: neither encoding is a prefix of the other. -/
theorem C36_across_kinds (k k' : PduKind) (hk : k ≠ k') (p q : Pdu k.Body) (p' q' : Pdu k'.Body)
    (prof prof' : Profile) (w w' : Bytes) (h : p.serialize prof [] = .ok ((q, .ok ()), w))
    (h' : p'.serialize prof' [] = .ok ((q', .ok ()), w')) (t t' : Bytes) : w ++ t ≠ w' ++ t' := by
  obtain ⟨c1, _, _, _⟩ := C42_codes k p q prof [] w h
  obtain ⟨c2, _, _, _⟩ := C42_codes k' p' q' prof' [] w' h'
  obtain ⟨rfl, _, hw⟩ := Pdu.serialize_ok h
  obtain ⟨rfl, _, hw'⟩ := Pdu.serialize_ok h'
  intro e
  rw [hw, hw', List.nil_append, List.nil_append, List.append_assoc, List.append_assoc] at e
  obtain ⟨e1, _⟩ := prefix_of_reads (PduHeader.reads _) (PduHeader.reads _) e
  exact hk (PduKind.typeCode_inj (by rw [← c1, ← c2, e1]))

example : PduKind.Signal.oneList = true ∧ PduKind.StopFreeze.fixedLayout = true ∧
    (PduKind.all.filter fun k => k.fixedLayout || k.oneList).length = 36 := by decide

/-- Beyond these kinds it is false: a set data PDU with one fixed datum and one with an empty variable
datum instead have the same encoding. -/
theorem C36_two_lists_not_injective : ∃ (p p' q q' : Pdu SetDataPdu) (w : Bytes),
    p.serialize ⟨true⟩ [] = .ok ((q, .ok ()), w) ∧ p'.serialize ⟨true⟩ [] = .ok ((q', .ok ()), w) ∧
    q ≠ q' ∧ q.header = q'.header := by
  let b : SetDataPdu := { (PduBody.default : SetDataPdu) with fixed_datum_records := [⟨5, 0⟩] }
  let b' : SetDataPdu := { (PduBody.default : SetDataPdu) with variable_datum_records := [⟨5, 0, []⟩] }
  let p : Pdu SetDataPdu := ⟨PduHeader.default 0, b⟩
  let p' : Pdu SetDataPdu := ⟨PduHeader.default 0, b'⟩
  have hs := Pdu.serialize_of_encodable p (PduKind.encodable .SetData rfl b)
    (by show 12 + SetDataPdu.fieldsLen b < 65536; decide +kernel) ⟨true⟩ []
  have hs' := Pdu.serialize_of_encodable p' (PduKind.encodable .SetData rfl b')
    (by show 12 + SetDataPdu.fieldsLen b' < 65536; decide +kernel) ⟨true⟩ []
  have hw : [] ++ wire p'.after.header ++ wire (sent p'.after.body) =
      [] ++ wire p.after.header ++ wire (sent p.after.body) := by decide +kernel
  rw [hw] at hs'
  refine ⟨p, p', p.after, p'.after, _, hs, hs', ?_, by decide +kernel⟩
  intro e
  have := congrArg (fun p : Pdu SetDataPdu => p.body.fixed_datum_records.length) e
  exact absurd this (by decide)

end Dis
