import Verif.Proofs.Records
import Verif.Proofs.PduKind
import Verif.Proofs.PduGeneric
/-
Exactly when serialization panics.
-/
namespace Dis

/-- In profile `prof`, `p` panics on every buffer. -/
def PanicsIn (p : Put) (prof : Profile) : Prop := ∀ buf, ∃ e, p prof buf = .error e

/-- In profile `prof`, `p` panics if `c` holds and succeeds otherwise, on every buffer. -/
def PanicsIff (p : Put) (prof : Profile) (c : Prop) : Prop :=
  ∀ buf, (c → ∃ e, p prof buf = .error e) ∧ (¬ c → ∃ buf', p prof buf = .ok ((), buf'))

theorem Writes.panicsIff {p : Put} {w : Bytes} (h : Writes p w) (prof : Profile) :
    PanicsIff p prof False := fun buf => ⟨False.elim, fun _ => ⟨_, h prof buf⟩⟩

theorem PanicsIff.seq {p q : Put} {prof : Profile} {c d : Prop} (hp : PanicsIff p prof c)
    (hq : PanicsIff q prof d) : PanicsIff (do p; q) prof (c ∨ d) := by
  intro buf
  constructor
  · intro h
    by_cases hc : c
    · obtain ⟨e, he⟩ := (hp buf).1 hc
      exact ⟨e, by rw [M.bind_run, he]⟩
    · obtain ⟨b, hb⟩ := (hp buf).2 hc
      obtain ⟨e, he⟩ := (hq b).1 (h.resolve_left hc)
      exact ⟨e, by rw [M.bind_run, hb]; exact he⟩
  · intro h
    obtain ⟨b, hb⟩ := (hp buf).2 (fun hc => h (.inl hc))
    obtain ⟨b', hb'⟩ := (hq b).2 (fun hd => h (.inr hd))
    exact ⟨b', by rw [M.bind_run, hb]; exact hb'⟩

theorem PanicsIff.congr {p : Put} {prof : Profile} {c d : Prop} (hp : PanicsIff p prof c)
    (h : c ↔ d) : PanicsIff p prof d := fun buf =>
  ⟨fun hd => (hp buf).1 (h.mpr hd), fun hd => (hp buf).2 (fun hc => hd (h.mp hc))⟩

theorem PanicsIff.after {p q : Put} {w : Bytes} {prof : Profile} {d : Prop} (hp : Writes p w)
    (hq : PanicsIff q prof d) : PanicsIff (do p; q) prof d :=
  (PanicsIff.seq (hp.panicsIff prof) hq).congr (by simp)

theorem PanicsIff.each {α : Type} {put : α → Put} {prof : Profile} {c : α → Prop} :
    ∀ (xs : List α), (∀ x ∈ xs, PanicsIff (put x) prof (c x)) →
      PanicsIff (putEach put xs) prof (∃ x ∈ xs, c x)
  | [], _ => (Writes.nil.panicsIff prof).congr (by simp)
  | x :: xs, h =>
    (PanicsIff.seq (h x (by simp)) (PanicsIff.each xs (fun y hy => h y (by simp [hy])))).congr (by simp)

/-- When serializing one record set panics: length × count overflows and overflow is checked, or fewer
octets are stored than length × count modulo 2^16. -/
def RecordSpecificationElement.Bad (prof : Profile) (x : RecordSpecificationElement) : Prop :=
  (prof.overflowChecks = true ∧ 65536 ≤ x.record_length.toNat * x.record_count.toNat) ∨
    x.record_values.length < x.record_length.toNat * x.record_count.toNat % 65536

theorem RecordSpecificationElement.panicsIff (x : RecordSpecificationElement) (prof : Profile) :
    PanicsIff x.serialize prof (x.Bad prof) := by
  intro buf
  have hs := x.serialize_run prof buf
  unfold octetsSent octetCount at hs
  unfold Bad
  constructor
  · intro h
    by_cases ho : prof.overflowChecks ∧ 65536 ≤ x.record_length.toNat * x.record_count.toNat
    · exact ⟨_, by rw [hs, if_pos ho]⟩
    · exact ⟨_, by rw [hs, if_neg ho, if_pos (h.resolve_left ho)]⟩
  · intro h
    rw [not_or] at h
    exact ⟨_, by rw [hs, if_neg h.1, if_neg h.2]⟩

theorem RecordSpecification.panicsIff (x : RecordSpecification) (prof : Profile) :
    PanicsIff x.serialize prof (∃ e ∈ x.record_sets, e.Bad prof) :=
  PanicsIff.after (writes_u32 x.number_of_record_sets) <|
    PanicsIff.each x.record_sets (fun e _ => e.panicsIff prof)

theorem TransferOwnershipPdu.panicsIff (x : TransferOwnershipPdu) (prof : Profile) :
    PanicsIff x.serializeBody prof (∃ e ∈ x.record_information.record_sets, e.Bad prof) :=
    PanicsIff.after (LawfulEnc.writes x.originating_id (trivial)) <|
    PanicsIff.after (LawfulEnc.writes x.receiving_id (trivial)) <|
    PanicsIff.after (writes_exact x.request_id) <|
    PanicsIff.after (writes_exact x.required_reliability_service) <|
    PanicsIff.after (writes_exact x.transfer_type) <|
    PanicsIff.after (writes_exact x.transfer_entity_id) <|
    RecordSpecification.panicsIff x.record_information prof

theorem SetRecordReliablePdu.panicsIff (x : SetRecordReliablePdu) (prof : Profile) :
    PanicsIff x.serializeBody prof (∃ e ∈ x.record_sets.record_sets, e.Bad prof) :=
    PanicsIff.after (writes_exact x.originating_entity_id) <|
    PanicsIff.after (writes_exact x.receiving_entity_id) <|
    PanicsIff.after (writes_exact x.request_id) <|
    PanicsIff.after (writes_exact x.required_reliability_service) <|
    PanicsIff.after (writes_exact x.padding) <|
    PanicsIff.after (writes_exact x.padding2) <|
    PanicsIff.after (writes_exact x.padding3) <|
    RecordSpecification.panicsIff x.record_sets prof

/-- From the body to the whole PDU: too large a PDU is refused before anything can panic. -/
theorem Pdu.panicsIff {B : Type} [PduBody B] (p : Pdu B) (prof : Profile) {c : Prop}
    (h : PanicsIff (PduBody.serializeBody (PduBody.prep p.body)) prof c) (buf : Bytes) :
    (∃ e, p.serialize prof buf = .error e) ↔
      12 + PduBody.fieldsLen (PduBody.prep p.body) < 65536 ∧ c := by
  rw [Pdu.serialize_eq]
  by_cases hl : 12 + PduBody.fieldsLen (PduBody.prep p.body) < 65536
  · rw [if_pos hl]
    by_cases hc : c
    · obtain ⟨e, he⟩ := (h (buf ++ wire p.after.header)).1 hc
      rw [he]
      simp [hl, hc]
    · obtain ⟨b, hb⟩ := (h (buf ++ wire p.after.header)).2 hc
      rw [hb]
      simp [hc]
  · rw [if_neg hl]
    simp [hl]

end Dis
