import Verif.Model.Guide
import Verif.Properties.Examples
import Verif.Properties.Layout
/-
C50: PDUs behind `dyn Any`, and the receiver of the book.
-/
namespace Dis

/-! ### Dynamic types -/

/-- A PDU seen through `as_any` is found again as the PDU it was, and as no PDU of another kind. -/
theorem C50_downcast (k k' : PduKind) (p : Pdu k.Body) (p' : Pdu k'.Body) :
    (p.as_any.is k' = true ↔ k' = k) ∧ p.as_any.downcast_ref k = some p ∧
    (p.as_any.downcast_ref k' = some p' → ∃ h : k' = k, h ▸ p' = p) ∧
    (k' ≠ k → p.as_any.downcast_ref k' = none) := by
  refine ⟨?_, ?_, ?_, fun h => ?_⟩
  · show (k == k') = true ↔ _
    rw [beq_iff_eq]; exact eq_comm
  · simp [DynPdu.downcast_ref, Pdu.as_any]
  · intro h
    unfold DynPdu.downcast_ref Pdu.as_any at h
    split at h
    · rename_i e
      cases e
      exact ⟨rfl, (Option.some.inj h).symm⟩
    · cases h
  · simp [DynPdu.downcast_ref, Pdu.as_any, Ne.symm h]

example := C50_downcast .Signal .Fire sampleSignal C48_fire

/-! ### The book's receiver -/

variable {Err : Type}

theorem Guide.buffer (payload : Bytes) : (recvInto (List.replicate 1204 0) payload).1 =
    payload.take 1204 ++ List.replicate (1204 - payload.length) 0 := by
  simp only [recvInto, List.length_replicate, List.drop_replicate]

/-- The receiver after `recv` has filled the buffer. -/
def Guide.afterRecv (Err : Type) (k : PduKind) (prof : Profile) (bn : Bytes × Nat) : GuideResult k Err :=
  if 0 < bn.2 then
    match (Pdu.deserialize : Get (Except DISError (Pdu k.Body))) prof bn.1 with
    | .error e => .panicked e
    | .ok (.error e, _) => .refused e
    | .ok (.ok p, _) => .printed p
  else .spins

theorem Guide.receive_eq (k : PduKind) (prof : Profile) (payload : Bytes) :
    Guide.receive (Err := Err) k prof (.ok payload) =
      Guide.afterRecv Err k prof (recvInto (List.replicate 1204 0) payload) := by
  unfold Guide.receive Guide.afterRecv
  dsimp only
  generalize recvInto (List.replicate 1204 0) payload = bn
  rfl

/-- The receiver spins forever exactly when it is sent an empty datagram. -/
theorem C50_spins_iff (k : PduKind) (prof : Profile) (r : Except Err Bytes) :
    (∃ e, r = .error e ∧ Guide.receive k prof r = .failed e) ∨
    ∃ payload, r = .ok payload ∧ (Guide.receive (Err := Err) k prof r = .spins ↔ payload = []) := by
  cases r with
  | error e => exact .inl ⟨e, rfl, rfl⟩
  | ok payload =>
    refine .inr ⟨payload, rfl, ?_⟩
    have hn : (recvInto (List.replicate 1204 0) payload).2 = min payload.length 1204 := by
      simp only [recvInto, List.length_replicate]
    rw [Guide.receive_eq, Guide.afterRecv, hn]
    constructor
    · intro h
      split at h
      · split at h <;> cases h
      · rename_i h0
        exact List.length_eq_zero_iff.mp (by omega)
    · rintro rfl
      simp

/-- Everything else the receiver does is decided by octet 2 of the datagram (for the kinds whose decoder reads
a fixed number of octets, at most 1204): if that is the type code, it prints a PDU, and never fails, however
short or long the datagram is, since what is missing counts as zeros and what is beyond octet 1204 is cut off;
if it is not (or missing), `unwrap` panics with the header error. -/
theorem C50_receives (k : PduKind) (hk : k.variableDecoder = false) (he : k ≠ .EntityState)
    (prof : Profile) (payload : Bytes) (hne : payload ≠ []) :
    ((payload.getD 2 0).toNat = k.typeCode → ∃ p r,
      Guide.receive (Err := Err) k prof (.ok payload) = .printed p ∧
      k.decode prof (payload.take 1204 ++ List.replicate (1204 - payload.length) 0) = .ok (.ok p, r)) ∧
    ((payload.getD 2 0).toNat ≠ k.typeCode →
      Guide.receive (Err := Err) k prof (.ok payload) = .refused (.InvalidHeader
        ("Expected PDU type " ++ pduTypeName k.typeCode ++ ", got " ++ pduTypeName (payload.getD 2 0).toNat))) := by
  have hb := Guide.buffer payload
  have hl : ((recvInto (List.replicate 1204 0) payload).1).length = 1204 := by
    rw [recvInto_length, List.length_replicate]
  have h2 : (recvInto (List.replicate 1204 0) payload).1.getD 2 0 = payload.getD 2 0 := by
    rw [hb, List.getD_eq_getElem?_getD, List.getD_eq_getElem?_getD]
    by_cases h : 2 < payload.length
    · rw [List.getElem?_append_left (by rw [List.length_take]; omega), List.getElem?_take_of_lt (by omega)]
    · rw [List.getElem?_append_right (by rw [List.length_take]; omega), List.getElem?_eq_none (l := payload) (by omega),
        List.getElem?_replicate]
      split <;> rfl
  have hn : 0 < (recvInto (List.replicate 1204 0) payload).2 := by
    have : 0 < payload.length := List.length_pos_iff.mpr hne
    simp only [recvInto, List.length_replicate]
    omega
  have hfit : k.ieeeOctets ≤ 1204 := by cases k <;> decide
  rw [Guide.receive_eq, ← hb]
  generalize recvInto (List.replicate 1204 0) payload = bn at *
  obtain ⟨buf, n⟩ := bn
  unfold Guide.afterRecv
  simp only at hl h2 hn ⊢
  rw [if_pos hn, ← h2]
  constructor
  · intro ht
    obtain ⟨p, hp⟩ := (C14_panics_iff_short k hk he prof buf (by omega) ht).2 (by omega)
    refine ⟨p, _, ?_, hp⟩
    rw [show (Pdu.deserialize : Get (Except DISError (Pdu k.Body))) prof buf = _ from hp]
  · intro ht
    rw [C09_foreign_type_refused k prof buf (by omega) ht]

/-- A message decodable by itself is what the receiver prints, if it has at most 1204 octets. -/
theorem C50_prints_what_decodes (k : PduKind) (he : k ≠ .EntityState) (prof : Profile) (payload rest : Bytes)
    (p : Pdu k.Body) (hl : payload.length ≤ 1204) (hd : k.decode prof payload = .ok (.ok p, rest)) :
    Guide.receive (Err := Err) k prof (.ok payload) = .printed p := by
  have hb := Guide.buffer payload
  have h12 : 12 ≤ payload.length := (C09_ok_only_own_type k prof payload p rest hd).1
  have hn : 0 < (recvInto (List.replicate 1204 0) payload).2 := by
    simp only [recvInto, List.length_replicate]
    omega
  rw [List.take_of_length_le hl] at hb
  obtain ⟨u, rfl, hu⟩ := C15_ignores_what_follows k he prof payload _ rest hd
  have hd' := hu (rest ++ List.replicate (1204 - (u ++ rest).length) 0)
  rw [← List.append_assoc, ← hb] at hd'
  rw [Guide.receive_eq]
  generalize recvInto (List.replicate 1204 0) (u ++ rest) = bn at *
  obtain ⟨buf, n⟩ := bn
  unfold Guide.afterRecv
  simp only at hn hd' ⊢
  rw [if_pos hn, show (Pdu.deserialize : Get (Except DISError (Pdu k.Body))) prof buf = _ from hd']

example := C50_prints_what_decodes (Err := Unit) .Signal (by decide) ⟨true⟩ sampleOctets _ _ (by decide) sampleSignal_decode

/-- The book's sender and receiver together: the acknowledge PDU sent is the one printed. -/
theorem C50_book (prof prof' : Profile) (p : Pdu AcknowledgePdu) :
    ∃ q w, p.serialize prof [] = .ok ((q, .ok ()), w) ∧ q.body = p.body ∧
      Guide.receive (Err := Err) .Acknowledge prof' (.ok w) = .printed q := by
  obtain ⟨q, w, hs, hl, hb, hd⟩ := C11_roundtrip .Acknowledge rfl (by decide) (by decide) p prof []
  have hl : w.length = 32 := hl
  refine ⟨q, w, hs, hb, C50_prints_what_decodes .Acknowledge (by decide) prof' w [] q (by omega) ?_⟩
  have := hd prof' []
  rwa [List.append_nil] at this

/-- Three octets are enough for an acknowledge PDU to be printed: the rest counts as zeros. -/
example : ∃ p, Guide.receive (Err := Unit) .Acknowledge ⟨true⟩ (.ok [7, 1, 15]) = .printed p ∧
    p.header.length = 0 ∧ p.body.request_id = 0 := by
  obtain ⟨p, r, h1, h2⟩ := (C50_receives (Err := Unit) .Acknowledge rfl (by decide) ⟨true⟩ [7, 1, 15] (by simp)).1 rfl
  refine ⟨p, h1, ?_⟩
  have h : (match PduKind.decode .Acknowledge ⟨true⟩
        (List.take 1204 [7, 1, 15] ++ List.replicate (1204 - [(7 : UInt8), 1, 15].length) 0) with
    | .ok (.ok p, _) => decide (p.header.length = 0 ∧ (show AcknowledgePdu from p.body).request_id = 0)
    | _ => false) = true := by decide +kernel
  rw [h2] at h
  exact of_decide_eq_true h

/-- With any kind of PDU in place of the acknowledge PDU: the receiver prints the PDU with the fields that decoding keeps,
if the message has at most 1204 octets. -/
theorem C50_book_any_kind (k : PduKind) (hk : k.unconditional = true) (prof prof' : Profile) (p : Pdu k.Body)
    (hl : declaredOctets p ≤ 65535) :
    ∃ q w, p.serialize prof [] = .ok ((q, .ok ()), w) ∧ Guide.datagram prof p = .ok w ∧
      (w.length ≤ 1204 → Guide.receive (Err := Err) k prof' (.ok w) = .printed ⟨q.header, kept p.body⟩) := by
  obtain ⟨q, w, hs, _, hd⟩ := C12_survives k hk p hl prof []
  rw [List.nil_append] at hs
  refine ⟨q, w, hs, by unfold Guide.datagram; rw [hs], fun hw => ?_⟩
  have := hd prof' []
  rw [List.append_nil, List.append_nil] at this
  exact C50_prints_what_decodes k (fun e => by subst e; cases hk) prof' w _ _ hw this

/-- The book's sender ignores that a PDU is refused for its size: it sends an empty datagram then, and no other datagram
that it sends is empty.  The receiver spins on it forever. -/
theorem C50_book_refused (k : PduKind) (prof prof' : Profile) (p : Pdu k.Body) :
    (65535 < declaredOctets p ↔ Guide.datagram prof p = .ok []) ∧
    Guide.receive (Err := Err) k prof' (.ok []) = .spins := by
  have key : 65535 < declaredOctets p ↔ Guide.datagram prof p = .ok [] := by
    constructor
    · intro h
      obtain ⟨q, e, b, hs⟩ := (C06_refused_iff k p prof []).mpr h
      obtain ⟨rfl, _⟩ := C06_refused_atomically k p q e prof _ _ hs
      unfold Guide.datagram
      rw [hs]
    · intro h
      unfold Guide.datagram at h
      split at h
      · cases h
      · rename_i r b hs
        obtain ⟨q, r⟩ := r
        cases h
        cases r with
        | error e => exact (C06_refused_iff k p prof []).mp ⟨q, e, _, hs⟩
        | ok u =>
          have h12 := congrArg List.length (Pdu.serialize_ok hs).2.2
          simp only [List.length_append, PduHeader.wire_length, List.length_nil] at h12
          omega
  refine ⟨key, ?_⟩
  rcases C50_spins_iff (Err := Err) k prof' (.ok []) with ⟨e, he, _⟩ | ⟨pl, he, hsp⟩
  · cases he
  · cases he; exact hsp.mpr rfl

example := C50_book_any_kind (Err := Unit) .Signal rfl ⟨true⟩ ⟨false⟩ sampleSignal (by decide +kernel)
/-- There are PDUs that the sender is refused. -/
example : ∃ p : Pdu PduKind.Signal.Body, Guide.datagram ⟨true⟩ p = .ok [] := by
  obtain ⟨b, hf⟩ : ∃ b : SignalPdu, PduBody.fieldsLen b = 20 + 70000 := by
    let b : SignalPdu := { (PduBody.default : SignalPdu) with data := List.replicate 70000 0 }
    refine ⟨b, ?_⟩
    show SignalPdu.fieldsLen b = _
    have hd : field_len b.data = 70000 := by
      rw [field_len_bytes]; exact List.length_replicate
    have h0 : SignalPdu.fieldsLen b = 20 + field_len b.data := rfl
    rw [h0, hd]
  let p : Pdu PduKind.Signal.Body := ⟨exampleHeader, b⟩
  exact ⟨p, (C50_book_refused (Err := Unit) .Signal ⟨true⟩ ⟨true⟩ p).1.mp (by
    rw [declaredOctets_eq, show PduBody.fieldsLen p.body = 20 + 70000 from hf]; decide)⟩

end Dis
