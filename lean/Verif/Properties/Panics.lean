import Verif.Proofs.Panics
import Verif.Properties.Pdu
/-
C40 (serialization does not panic), C25 (one-step and two-step decoding), C07 (no 8192-octet limit).
-/
namespace Dis

/-! ### C40 -/

/-- No value of a kind without record sets makes `serialize` panic, in either profile. -/
theorem C40_serialize_no_panic (k : PduKind) (hk : k.hasRecordSets = false) (p : Pdu k.Body)
    (prof : Profile) (buf : Bytes) : ∃ q r buf', p.serialize prof buf = .ok ((q, r), buf') := by
  by_cases hl : 12 + PduBody.fieldsLen p.body < 65536
  · exact ⟨_, _, _, Pdu.serialize_of_encodable p (k.encodable hk p.body) hl prof buf⟩
  · exact ⟨_, _, _, Pdu.serialize_too_large p hl prof buf⟩

example := C40_serialize_no_panic .Signal rfl sampleSignal ⟨true⟩ [9]

/-- A transfer ownership PDU panics exactly when it is not refused as too large and some record set's
length × count overflows 16 bits under overflow checks, or exceeds (modulo 2^16) the octets stored. -/
theorem C40_transfer_ownership (p : Pdu TransferOwnershipPdu) (prof : Profile) (buf : Bytes) :
    (∃ e, p.serialize prof buf = .error e) ↔ declaredOctets p ≤ 65535 ∧
      ∃ x ∈ p.body.record_information.record_sets,
        (prof.overflowChecks = true ∧ 65536 ≤ x.record_length.toNat * x.record_count.toNat) ∨
        x.record_values.length < x.record_length.toNat * x.record_count.toNat % 65536 := by
  rw [Pdu.panicsIff p prof (TransferOwnershipPdu.panicsIff p.body prof) buf, declaredOctets_eq]
  refine and_congr ?_ Iff.rfl
  show 12 + PduBody.fieldsLen p.body < 65536 ↔ _
  omega

/-- The same for the set record PDU. -/
theorem C40_set_record (p : Pdu SetRecordReliablePdu) (prof : Profile) (buf : Bytes) :
    (∃ e, p.serialize prof buf = .error e) ↔ declaredOctets p ≤ 65535 ∧
      ∃ x ∈ p.body.record_sets.record_sets,
        (prof.overflowChecks = true ∧ 65536 ≤ x.record_length.toNat * x.record_count.toNat) ∨
        x.record_values.length < x.record_length.toNat * x.record_count.toNat % 65536 := by
  rw [Pdu.panicsIff p prof (SetRecordReliablePdu.panicsIff p.body prof) buf, declaredOctets_eq]
  refine and_congr ?_ Iff.rfl
  show 12 + PduBody.fieldsLen p.body < 65536 ↔ _
  omega

/-- A set record PDU whose record set claims 2 × 1 octets and stores one: it panics; with 256 × 256 claimed
it panics only under overflow checks. -/
example : (⟨exampleHeader, { (PduBody.default : SetRecordReliablePdu) with
      record_sets := ⟨1, [⟨1, 2, 2, 1, [7]⟩]⟩ }⟩ : Pdu SetRecordReliablePdu).serialize ⟨false⟩ [] =
      .error .indexOutOfBounds ∧
    (⟨exampleHeader, { (PduBody.default : SetRecordReliablePdu) with
      record_sets := ⟨1, [⟨1, 2, 256, 256, []⟩]⟩ }⟩ : Pdu SetRecordReliablePdu).serialize ⟨true⟩ [] =
      .error .arithmeticOverflow ∧
    (match (⟨exampleHeader, { (PduBody.default : SetRecordReliablePdu) with
      record_sets := ⟨1, [⟨1, 2, 256, 256, []⟩]⟩ }⟩ : Pdu SetRecordReliablePdu).serialize ⟨false⟩ [] with
      | .ok ((_, .ok ()), w) => decide (w.length = 52)
      | _ => false) = true := by
  decide +kernel

/-! ### C25 -/

/-- Decoding in one step is decoding the header and then the body. -/
theorem C25_two_step (k : PduKind) (prof : Profile) (b : Bytes) (hd : PduHeader) (rest : Bytes)
    (h : PduHeader.deserialize prof b = .ok (hd, rest)) (ht : hd.pdu_type.code = k.typeCode) :
    (Pdu.deserialize : Get (Except DISError (Pdu k.Body))) prof b =
      (Pdu.deserialize_without_header hd : Get (Except DISError (Pdu k.Body))) prof rest := by
  have hl : 12 ≤ b.length := by
    by_cases hl : b.length < 12
    · rw [PduHeader.fixed.run_short prof hl] at h; cases h
    · omega
  obtain ⟨hd', h1, _, h3⟩ := Pdu.deserialize_eq (B := k.Body) prof b hl
  rw [h1] at h
  simp only [Except.ok.injEq, Prod.mk.injEq] at h
  obtain ⟨rfl, rfl⟩ := h
  have he : hd'.pdu_type = PduBody.pduType k.Body := EnumVal.ext (by rw [ht, k.type_code])
  rw [h3, if_neg (by simpa using he), Pdu.deserialize_without_header_eq]

/-- The sample signal PDU, its header decoded first. -/
theorem sampleHeader_decode : PduHeader.deserialize ⟨true⟩ sampleOctets =
    .ok (sampleHeader, sampleOctets.drop 12) := by decide +kernel

example := C25_two_step .Signal ⟨true⟩ sampleOctets _ _ sampleHeader_decode rfl

/-- `deserialize_without_header` stores the header it is given, whatever it is, never returns an `Err`,
and the body it decodes does not depend on that header. -/
theorem C25_header_stored (k : PduKind) (prof : Profile) (b : Bytes) (hd : PduHeader)
    (r : Except DISError (Pdu k.Body)) (rest : Bytes)
    (h : (Pdu.deserialize_without_header hd : Get (Except DISError (Pdu k.Body))) prof b = .ok (r, rest)) :
    ∃ x : k.Body, r = .ok ⟨hd, x⟩ ∧ ∀ hd' : PduHeader,
      (Pdu.deserialize_without_header hd' : Get (Except DISError (Pdu k.Body))) prof b =
        .ok (.ok ⟨hd', x⟩, rest) := by
  rw [Pdu.deserialize_without_header_eq] at h
  cases hb : (PduBody.deserializeBody : Get k.Body) prof b with
  | error e => rw [hb] at h; cases h
  | ok v =>
    rw [hb] at h
    simp only [Except.ok.injEq, Prod.mk.injEq] at h
    exact ⟨v.1, h.1.symm, fun hd' => by
      rw [Pdu.deserialize_without_header_eq, hb, ← h.2]⟩

/-- The sample's body decoded under a foreign header. -/
example : (Pdu.deserialize_without_header exampleHeader : Get (Except DISError (Pdu SignalPdu))) ⟨true⟩
    (sampleOctets.drop 12) = .ok (.ok ⟨exampleHeader, { sampleSignal.body with data := [] }⟩, [1, 2, 3]) := by
  decide +kernel

/-! ### C07 -/

/-- The documented maximum of 8192 octets is not enforced: for every size from 32 to 65535 there is a
signal PDU that serializes successfully to exactly that many octets. -/
theorem C07_no_8192_limit (n : Nat) (h1 : 32 ≤ n) (h2 : n ≤ 65535) (prof : Profile) :
    ∃ (p q : Pdu PduKind.Signal.Body) (w : Bytes),
      p.serialize prof [] = .ok ((q, .ok ()), w) ∧ w.length = n ∧ q.header.length.toNat = n := by
  let b : SignalPdu := { (PduBody.default : SignalPdu) with data := List.replicate (n - 32) 0 }
  let p : Pdu PduKind.Signal.Body := ⟨PduHeader.default 0, b⟩
  have hf : PduBody.fieldsLen (show SignalPdu from b) = n - 12 := by
    show SignalPdu.fieldsLen b = _
    have hd : field_len b.data = n - 32 := by
      rw [field_len_bytes]; simp [b]
    have h0 : SignalPdu.fieldsLen b = 20 + field_len b.data := rfl
    omega
  have hl : 12 + PduBody.fieldsLen p.body < 65536 := by
    have : PduBody.fieldsLen p.body = n - 12 := hf
    omega
  have hs := Pdu.serialize_of_encodable p (PduKind.encodable .Signal rfl b) hl prof []
  have hx := C04_declared_length .Signal rfl p _ prof [] _ hs
  have ht := C06_length_not_truncated .Signal p _ prof [] _ hs
  rw [declaredOctets_eq] at ht
  have hfp : PduBody.fieldsLen p.body = n - 12 := hf
  rw [hfp] at ht
  have hn : p.after.header.length.toNat = n := by omega
  exact ⟨p, p.after, _, hs, by rw [hx.1, hn]; simp, hn⟩

example := C07_no_8192_limit 8193 (by decide) (by decide) ⟨true⟩

/-- Concretely: a 9000-octet PDU is serialized without complaint. -/
theorem C07_documented_maximum_violated : ∃ (k : PduKind) (p q : Pdu k.Body) (w : Bytes),
    p.serialize ⟨true⟩ [] = .ok ((q, .ok ()), w) ∧ 8192 < w.length := by
  obtain ⟨p, q, w, h, hw, _⟩ := C07_no_8192_limit 9000 (by omega) (by omega) ⟨true⟩
  exact ⟨.Signal, p, q, w, h, by omega⟩

/-- What is guaranteed instead: the declared length never exceeds 65535, so a message of an exact-length
kind never has more than 65535 octets. -/
theorem C07_actual_maximum (k : PduKind) (hk : k.exactLength = true) (p q : Pdu k.Body)
    (prof : Profile) (w : Bytes) (h : p.serialize prof [] = .ok ((q, .ok ()), w)) :
    12 ≤ w.length ∧ w.length ≤ 65535 := by
  have h1 := (C04_declared_length k hk p q prof [] w h).1
  have h2 : q.header.length.toNat < 65536 := q.header.length.toNat_lt
  obtain ⟨_, _, hw⟩ := Pdu.serialize_ok h
  have h3 : w.length = 12 + (wire (sent q.body)).length := by
    rw [hw]; simp [PduHeader.wire_length]
  rw [List.length_nil] at h1
  omega

example := C07_actual_maximum .Signal rfl sampleSignal _ _ _ sampleSignal_serialize_nil

end Dis
