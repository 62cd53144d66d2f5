import Verif.Model.Constants
import Verif.Properties.Pdu
/-
C38: the size helpers, and what the rest of the crate makes of them.
-/
namespace Dis

/-- The documented limits, in octets. -/
theorem C38_limits (n : UInt64) :
    (validate_pdu_size n = true ↔ n.toNat ≤ 8192) ∧ (validate_marking_length n = true ↔ n.toNat ≤ 32) ∧
    8 * 8192 = MAX_PDU_SIZE_BITS := by
  refine ⟨?_, ?_, rfl⟩
  · exact decide_eq_true_iff
  · unfold validate_marking_length MAX_ENTITY_MARKING_LENGTH
    rw [decide_eq_true_eq, UInt64.le_iff_toNat_le]
    rfl

/-- `total_pdu_size` adds the 12 octets of a header, for every payload that leaves room for them. -/
theorem C38_total (n : UInt64) (h : n.toNat + 12 < 2 ^ 64) (prof : Profile) :
    ∃ m, total_pdu_size n prof = .ok m ∧ m.toNat = n.toNat + 12 := by
  have h12 : PDU_HEADER_SIZE.toNat = 12 := rfl
  refine ⟨PDU_HEADER_SIZE + n, ?_, ?_⟩
  · unfold total_pdu_size
    rw [if_neg (by rw [h12]; omega)]
  · rw [UInt64.toNat_add, h12]
    omega

example := C38_total 8180 (by decide) ⟨true⟩

/-- For the twelve payload sizes that do not, a build with overflow checks panics, and a build without
returns a "total" below 12. -/
theorem C38_total_overflow (n : UInt64) (h : 2 ^ 64 ≤ n.toNat + 12) :
    total_pdu_size n ⟨true⟩ = .error .arithmeticOverflow ∧
    ∃ m, total_pdu_size n ⟨false⟩ = .ok m ∧ m.toNat < 12 := by
  have h12 : PDU_HEADER_SIZE.toNat = 12 := rfl
  have hn := n.toNat_lt
  refine ⟨?_, PDU_HEADER_SIZE + n, ?_, ?_⟩
  · unfold total_pdu_size
    rw [if_pos (by rw [h12]; exact ⟨rfl, by omega⟩)]
  · unfold total_pdu_size
    rw [if_neg (by simp)]
  · rw [UInt64.toNat_add, h12]
    omega

example := C38_total_overflow 0xfffffffffffffff4 (by decide)

/-- When `serialize` of any kind succeeds, and the kind's fields account for the octets they write, the length
in the header is `total_pdu_size` of the octets written after the header. -/
theorem C38_total_is_declared (k : PduKind) (hk : k.exactLength = true) (p q : Pdu k.Body) (prof : Profile)
    (buf buf' : Bytes) (h : p.serialize prof buf = .ok ((q, .ok ()), buf')) :
    ∃ m, total_pdu_size (UInt64.ofNat (wire (sent q.body)).length) prof = .ok m ∧
      m.toNat = q.header.length.toNat := by
  obtain ⟨h1, _⟩ := C04_declared_length_all_kinds k p q prof buf buf' h
  obtain ⟨h2, _⟩ := C04_declared_length k hk p q prof buf buf' h
  have h3 : buf'.length = buf.length + 12 + (wire (sent q.body)).length := by
    rw [h1, List.length_append, List.length_append, PduHeader.wire_length]
  have h4 := q.header.length.toNat_lt
  have h5 : (UInt64.ofNat (wire (sent q.body)).length).toNat = (wire (sent q.body)).length :=
    UInt64.toNat_ofNat_of_lt' (by simp only [UInt64.size]; omega)
  obtain ⟨m, e1, e2⟩ := C38_total (UInt64.ofNat (wire (sent q.body)).length) (by omega) prof
  exact ⟨m, e1, by omega⟩

example := C38_total_is_declared .Signal rfl sampleSignal _ ⟨true⟩ [9] _ sampleSignal_serialize

/-- A Signal PDU with `n` octets of data. -/
def signalWith (n : Nat) : SignalPdu := { (PduBody.default : SignalPdu) with data := List.replicate n 0 }

theorem signalWith_len (n : Nat) : SignalPdu.fieldsLen (signalWith n) = 20 + n := by
  have h : ((List.replicate n (0 : UInt8)).map field_len).sum = n := by
    induction n with
    | zero => rfl
    | succ n ih =>
      rw [List.replicate_succ, List.map_cons, List.sum_cons, ih]
      show 1 + n = n + 1
      omega
  show 20 + ((List.replicate n (0 : UInt8)).map field_len).sum = _
  rw [h]

/-- The limit of 8192 octets is not enforced: for every size from 32 up to 65535, so also for every size that
`validate_pdu_size` rejects, there is a PDU that `serialize` accepts and that has this size. -/
theorem C38_limit_not_enforced (n : Nat) (h1 : 32 ≤ n) (h2 : n ≤ 65535) (prof : Profile) (buf : Bytes) :
    ∃ p q : Pdu SignalPdu, ∃ w, p.serialize prof buf = .ok ((q, .ok ()), buf ++ w) ∧ w.length = n ∧
      q.header.length.toNat = n ∧ (8192 < n → validate_pdu_size (UInt64.ofNat n) = false) := by
  let p : Pdu PduKind.Signal.Body := ⟨PduHeader.default 0, signalWith (n - 32)⟩
  have hf : PduBody.fieldsLen p.body = n - 12 := by
    show SignalPdu.fieldsLen (signalWith (n - 32)) = _
    rw [signalWith_len]; omega
  have hs := Pdu.serialize_of_encodable p (PduKind.encodable .Signal rfl _) (by rw [hf]; omega) prof buf
  have hlen := (C04_declared_length .Signal rfl p _ prof buf _ hs).1
  have hd : p.after.header.length.toNat = n := by
    have := C06_length_not_truncated .Signal p _ prof buf _ hs
    rw [declaredOctets_eq, hf] at this
    omega
  rw [List.append_assoc] at hs hlen
  refine ⟨p, p.after, _, hs, ?_, hd, ?_⟩
  · rw [List.length_append] at hlen
    omega
  · intro h
    have := (C38_limits (UInt64.ofNat n)).1
    rw [UInt64.toNat_ofNat_of_lt' (by simp only [UInt64.size]; omega)] at this
    cases hv : validate_pdu_size (UInt64.ofNat n)
    · rfl
    · have := this.mp hv
      omega

example := C38_limit_not_enforced 8193 (by decide) (by decide) ⟨true⟩ [9]

/-- The limit on marking texts does not protect the entity state PDU: its declared length is right only for
texts of 11 octets, and `validate_marking_length` accepts all texts of up to 32. -/
theorem C38_marking_limit (p q : Pdu EntityStatePdu) (prof : Profile) (buf buf' : Bytes)
    (h : p.serialize prof buf = .ok ((q, .ok ()), buf')) :
    buf'.length = buf.length + q.header.length.toNat ↔
      (strBytes p.body.entity_marking.entity_marking_string).length = 11 := by
  have h1 := (C04_declared_length_all_kinds .EntityState p q prof buf buf' h).2
  have h2 : q.body = p.body := (C08_touches_only_bookkeeping .EntityState p q _ prof buf buf' h).2.2.2.2.2.2.2 (by decide)
  rw [h2] at h1
  have h3 : surplus (show PduKind.EntityState.Body from p.body) =
    1 + ((strBytes p.body.entity_marking.entity_marking_string).length : Int) - 12 := rfl
  rw [h3] at h1
  omega

/-- A text of 5 octets, accepted by the helper. -/
example : validate_marking_length 5 = true ∧ (strBytes "F-16C").length = 5 := by decide +kernel

end Dis
