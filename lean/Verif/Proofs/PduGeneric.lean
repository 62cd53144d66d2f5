import Verif.Proofs.Header
import Verif.Proofs.PduLaws
/-
What `serialize` and `deserialize` do for any lawful PDU body.
-/
namespace Dis
open PduBody (pduType family fieldsLen prep serializeBody deserializeBody)

namespace Pdu
variable {B : Type} [PduBody B]

/-- The value `serialize` leaves behind on success. -/
def after (p : Pdu B) : Pdu B where
  header := { p.header with pdu_type := pduType B, protocol_family := family B
                            length := UInt16.ofNat (12 + fieldsLen (prep p.body)) }
  body := prep p.body

/-- The value `serialize` leaves behind when the PDU is too large. -/
def afterErr (p : Pdu B) : Pdu B where
  header := { p.header with pdu_type := pduType B, protocol_family := family B }
  body := prep p.body

/-- `serialize`, unfolded. -/
theorem serialize_eq (p : Pdu B) (prof : Profile) (buf : Bytes) :
    p.serialize prof buf =
      if 12 + fieldsLen (prep p.body) < 65536 then
        match serializeBody (prep p.body) prof (buf ++ wire p.after.header) with
        | .error e => .error e
        | .ok (_, b) => .ok ((p.after, .ok ()), b)
      else .ok ((p.afterErr, .error (.PduSizeExceeded (12 + fieldsLen (prep p.body)) 8192)), buf) := by
  unfold serialize calculate_length
  simp only [PduHeader.LENGTH, MAX_PDU_SIZE_OCTETS, PduHeader.set_pdu_type, PduHeader.set_protocol_family]
  by_cases h : 12 + fieldsLen (prep p.body) < 65536
  · simp only [h, if_true, M.bind_run]
    have e := PduHeader.writes p.after.header prof buf
    unfold after at e
    simp only [PduHeader.set_length]
    rw [e]
    cases hh : serializeBody (prep p.body) prof (buf ++ wire p.after.header) with
    | error e' =>
      unfold after at hh
      simp only [hh]
    | ok r =>
      unfold after at hh
      simp only [hh]
      rfl
  · simp only [h, if_false]
    rfl

theorem deserialize_eq (prof : Profile) (b : Bytes) (h : 12 ≤ b.length) :
    ∃ hd : PduHeader, PduHeader.deserialize prof b = .ok (hd, b.drop 12) ∧
      hd.pdu_type = PduType.spec.ofCode (b.getD 2 0).toNat ∧
      (Pdu.deserialize : Get (Except DISError (Pdu B))) prof b =
        if hd.pdu_type ≠ pduType B then
          .ok (.error (.InvalidHeader (wrongType (pduType B) hd.pdu_type)), b.drop 12)
        else match (deserializeBody : Get B) prof (b.drop 12) with
          | .error e => .error e
          | .ok (x, r) => .ok (.ok ⟨hd, x⟩, r) := by
  obtain ⟨hd, h1, h2⟩ := PduHeader.deserialize_type prof h
  refine ⟨hd, h1, h2, ?_⟩
  unfold deserialize
  rw [M.bind_run]
  have e : (deserialize_field : Get PduHeader) prof b = .ok (hd, b.drop 12) := h1
  rw [e]
  by_cases ht : hd.pdu_type ≠ pduType B
  · simp only [ht, if_true, ne_eq, not_false_eq_true]; rfl
  · simp only [ht, if_false]
    rw [M.bind_run]
    rfl

theorem deserialize_short (prof : Profile) (b : Bytes) (h : b.length < 12) :
    (Pdu.deserialize : Get (Except DISError (Pdu B))) prof b = .error .bufferUnderflow := by
  unfold deserialize
  rw [M.bind_run]
  have e : (deserialize_field : Get PduHeader) prof b = .error .bufferUnderflow :=
    PduHeader.fixed.run_short prof h
  rw [e]

theorem deserialize_without_header_eq (hd : PduHeader) (prof : Profile) (b : Bytes) :
    (deserialize_without_header hd : Get (Except DISError (Pdu B))) prof b =
      match (deserializeBody : Get B) prof b with
      | .error e => .error e
      | .ok (x, r) => .ok (.ok ⟨hd, x⟩, r) := by
  unfold deserialize_without_header
  rw [M.bind_run]
  rfl

/-- Decoding a header of the right type followed by anything. -/
theorem deserialize_of_wire (hd : PduHeader) (ht : hd.pdu_type = pduType B) (prof : Profile) (r : Bytes) :
    (Pdu.deserialize : Get (Except DISError (Pdu B))) prof (wire hd ++ r) =
      match (deserializeBody : Get B) prof r with
      | .error e => .error e
      | .ok (x, r') => .ok (.ok ⟨hd, x⟩, r') := by
  have hl : 12 ≤ (wire hd ++ r).length := by rw [List.length_append, PduHeader.wire_length]; omega
  obtain ⟨hd', h1, _, h3⟩ := deserialize_eq (B := B) prof _ hl
  have h4 := PduHeader.reads hd prof r
  rw [h4] at h1
  simp only [Except.ok.injEq, Prod.mk.injEq] at h1
  rw [h3, ← h1.1, ← h1.2]
  simp [ht]

variable [Wire B] [Enc B] [Dec B] [Tail B] [LawfulBody B]

theorem prep_wire_length (x : B) : (wire (sent (prep x))).length = (wire (sent x)).length := by
  have h1 := LawfulBody.len x
  have h2 := LawfulBody.len (prep x)
  rw [LawfulBody.prep_len, LawfulBody.prep_surplus] at h2
  omega

theorem fieldsLen_eq (x : B) : ((fieldsLen x : Nat) : Int) = (wire (sent x)).length - surplus x := by
  have h1 := LawfulBody.len x
  omega

/-- Whenever `serialize` succeeds: what it leaves and what it appends. -/
theorem serialize_ok {p q : Pdu B} {prof : Profile} {buf buf' : Bytes}
    (h : p.serialize prof buf = .ok ((q, .ok ()), buf')) :
    q = p.after ∧ 12 + fieldsLen p.body < 65536 ∧
      buf' = buf ++ wire q.header ++ wire (sent q.body) := by
  rw [serialize_eq] at h
  by_cases hl : 12 + fieldsLen (prep p.body) < 65536
  · rw [if_pos hl] at h
    cases hb : serializeBody (prep p.body) prof (buf ++ wire p.after.header) with
    | error e => rw [hb] at h; cases h
    | ok r =>
      obtain ⟨_, b⟩ := r
      rw [hb] at h
      simp only [Except.ok.injEq, Prod.mk.injEq, and_true] at h
      have hw := LawfulBody.ok (prep p.body) prof _ _ hb
      refine ⟨h.1.symm, by rwa [LawfulBody.prep_len] at hl, ?_⟩
      rw [← h.2, hw, ← h.1]
      rfl
  · rw [if_neg hl] at h
    simp at h

theorem serialize_err {p q : Pdu B} {e : DISError} {prof : Profile} {buf buf' : Bytes}
    (h : p.serialize prof buf = .ok ((q, .error e), buf')) :
    q = p.afterErr ∧ 65536 ≤ 12 + fieldsLen p.body ∧ buf' = buf ∧
      e = .PduSizeExceeded (12 + fieldsLen p.body) 8192 := by
  rw [serialize_eq] at h
  by_cases hl : 12 + fieldsLen (prep p.body) < 65536
  · rw [if_pos hl] at h
    cases hb : serializeBody (prep p.body) prof (buf ++ wire p.after.header) with
    | error e => rw [hb] at h; cases h
    | ok r => rw [hb] at h; simp at h
  · rw [if_neg hl] at h
    simp only [Except.ok.injEq, Prod.mk.injEq, Except.error.injEq] at h
    rw [LawfulBody.prep_len] at hl h
    exact ⟨h.1.1.symm, by omega, h.2.symm, h.1.2.symm⟩

/-- Serialization of an encodable body that is not too large succeeds. -/
theorem serialize_of_encodable (p : Pdu B) (he : encodable p.body) (hl : 12 + fieldsLen p.body < 65536)
    (prof : Profile) (buf : Bytes) :
    p.serialize prof buf = .ok ((p.after, .ok ()), buf ++ wire p.after.header ++ wire (sent p.after.body)) := by
  rw [serialize_eq, LawfulBody.prep_len, if_pos hl]
  have := LawfulBody.writes (prep p.body) (by rw [LawfulBody.prep_encodable]; exact he) prof
    (buf ++ wire p.after.header)
  rw [this]
  rfl

theorem serialize_too_large (p : Pdu B) (hl : ¬ 12 + fieldsLen p.body < 65536)
    (prof : Profile) (buf : Bytes) :
    p.serialize prof buf =
      .ok ((p.afterErr, .error (.PduSizeExceeded (12 + fieldsLen p.body) 8192)), buf) := by
  rw [serialize_eq, LawfulBody.prep_len, if_neg hl]

theorem after_after (p : Pdu B) : p.after.after = p.after := by
  unfold after
  simp only [LawfulBody.prep_idem]

end Pdu
end Dis
