import Verif.Proofs.StepsPdus
import Verif.Proofs.Panics
import Verif.Properties.Message
/-
What an encoder has written when it panics.
-/
namespace Dis

/-- Until it ends or panics, `p` appends the first `n` octets of `w`. -/
def Leaves (p : Put) (prof : Profile) (w : Bytes) (n : Nat) : Prop :=
  n ≤ w.length ∧ ∀ b, appended (p.log prof b) = w.take n

theorem Puts.appended_ok (p : Put) [Puts p] {prof : Profile} {b w : Bytes} (h : p prof b = .ok ((), b ++ w)) :
    appended (p.log prof b) = w := by
  have h1 := p.sound prof b () _ h
  rw [replay_encoder _ (Puts.shape prof b)] at h1
  exact List.append_cancel_left h1

theorem Leaves.after {p q : Put} [Puts p] {prof : Profile} {v w : Bytes} {a n : Nat} (hp : Writes p v)
    (ha : v.length = a) (hq : Leaves q prof w n) : Leaves (do p; q) prof (v ++ w) (a + n) := by
  refine ⟨by rw [List.length_append]; have := hq.1; omega, fun b => ?_⟩
  rw [M.bind_log, hp prof b, appended_append, Puts.appended_ok p (hp prof b)]
  show v ++ appended (q.log prof _) = _
  rw [hq.2, ← ha, List.take_length_add_append]

theorem putIndex_leaves (xs : Bytes) : ∀ (n i : Nat) (prof : Profile) (b : Bytes),
    appended ((putEach (putIndex xs) (List.range' i n)).log prof b) = (xs.drop i).take n
  | 0, i, prof, b => by rw [List.take_zero]; rfl
  | n + 1, i, prof, b => by
    rw [List.range'_succ]
    show appended ((putIndex xs i >>= fun _ => putEach (putIndex xs) (List.range' (i + 1) n)).log prof b) = _
    rw [M.bind_log]
    by_cases hi : i < xs.length
    · have h1 : putIndex xs i prof b = .ok ((), b ++ [xs[i]]) := by
        unfold putIndex
        rw [List.getElem?_eq_getElem hi]
        exact ((writes_u8 _).congr (by simp [wire, octets])) prof b
      rw [appended_append, Puts.appended_ok _ h1, h1]
      show [xs[i]] ++ appended ((putEach (putIndex xs) (List.range' (i + 1) n)).log prof _) = _
      rw [putIndex_leaves xs n (i + 1), List.drop_eq_getElem_cons hi]
      rfl
    · have h1 : putIndex xs i prof b = .error .indexOutOfBounds := by
        unfold putIndex
        rw [List.getElem?_eq_none (by omega)]
        rfl
      have h2 : (putIndex xs i).log prof b = [] := by
        unfold putIndex
        rw [List.getElem?_eq_none (by omega)]
        rfl
      rw [h1, h2, List.drop_eq_nil_of_le (by omega)]
      rfl

theorem RecordSpecificationElement.leaves (x : RecordSpecificationElement) (prof : Profile) :
    Leaves x.serialize prof (wire (sent x))
      (12 + if prof.overflowChecks = true ∧ 65536 ≤ x.octetCount then 0 else min x.octetsSent x.record_values.length) := by
  have h : Leaves (do
        let n ← mulU16 x.record_length x.record_count
        putEach (putIndex x.record_values) (List.range n.toNat)) prof (x.record_values.take x.octetsSent)
      (if prof.overflowChecks = true ∧ 65536 ≤ x.octetCount then 0 else min x.octetsSent x.record_values.length) := by
    refine ⟨by rw [List.length_take]; split <;> omega, fun b => ?_⟩
    rw [M.bind_log, mulU16_run]
    show appended ([] ++ _) = _
    rw [List.nil_append]
    have hn : (UInt16.ofNat (x.record_length.toNat * x.record_count.toNat)).toNat = x.octetsSent := by
      simp [octetCount, octetsSent]
    by_cases ho : prof.overflowChecks = true ∧ 65536 ≤ x.octetCount
    · have ho' : prof.overflowChecks = true ∧ 65536 ≤ x.record_length.toNat * x.record_count.toNat := ho
      rw [if_pos ho, if_pos ho']
      rfl
    · have ho' : ¬ (prof.overflowChecks = true ∧ 65536 ≤ x.record_length.toNat * x.record_count.toNat) := ho
      rw [if_neg ho, if_neg ho']
      show appended ((putEach (putIndex x.record_values) (List.range (UInt16.ofNat (_ * _)).toNat)).log prof b) = _
      rw [hn, List.range_eq_range', putIndex_leaves, List.drop_zero, ← List.length_take, List.take_length]
  have h2 := Leaves.after (writes_u32 x.record_id) (octets_length _ _) <|
    Leaves.after (writes_u32 x.record_set_serial_number) (octets_length _ _) <|
    Leaves.after (writes_u16 x.record_length) (octets_length _ _) <|
    Leaves.after (writes_u16 x.record_count) (octets_length _ _) h
  have hw : wire (sent x) = wire x.record_id ++ (wire x.record_set_serial_number ++ (wire x.record_length ++
      (wire x.record_count ++ x.record_values.take x.octetsSent))) := by
    show wire x.record_id ++ (wire x.record_set_serial_number ++ (wire x.record_length ++
      (wire x.record_count ++ wire (x.record_values.take x.octetsSent)))) = _
    rw [wire_bytes]
  rw [hw]
  refine ⟨?_, fun b => ?_⟩
  · have := h2.1; simp only [← Nat.add_assoc] at this; exact this
  · have := h2.2 b
    simp only [← Nat.add_assoc] at this
    exact this

theorem RecordSpecification.leaves_sets (prof : Profile) : ∀ xs : List RecordSpecificationElement,
    Leaves (putEach RecordSpecificationElement.serialize xs) prof (wire (sent xs))
      (setsUntilPanic prof.overflowChecks xs)
  | [] => ⟨Nat.zero_le _, fun _ => rfl⟩
  | x :: xs => by
    have h1 := x.leaves prof
    have h2 := RecordSpecification.leaves_sets prof xs
    have hw : wire (sent (x :: xs)) = wire (sent x) ++ wire (sent xs) := rfl
    have hc : x.octetCount = x.record_length.toNat * x.record_count.toNat := rfl
    have hs : x.octetsSent = x.record_length.toNat * x.record_count.toNat % 65536 := rfl
    have hrun := x.serialize_run prof
    rw [hs, hc] at h1 hrun
    rw [hw]
    unfold setsUntilPanic
    dsimp only
    generalize x.record_length.toNat * x.record_count.toNat = product at *
    by_cases ho : prof.overflowChecks = true ∧ 65536 ≤ product
    · rw [if_pos ho] at h1 ⊢
      refine ⟨by rw [List.length_append]; have := h1.1; omega, fun b => ?_⟩
      show appended ((x.serialize >>= fun _ => putEach RecordSpecificationElement.serialize xs).log prof b) = _
      rw [M.bind_log, hrun b, if_pos ho]
      show appended (_ ++ []) = _
      rw [List.append_nil, h1.2, List.take_append_of_le_length h1.1]
    · rw [if_neg ho] at h1 ⊢
      by_cases hl : x.record_values.length < product % 65536
      · rw [Nat.min_eq_right (by omega)] at h1
        rw [if_pos hl]
        refine ⟨by rw [List.length_append]; have := h1.1; omega, fun b => ?_⟩
        show appended ((x.serialize >>= fun _ => putEach RecordSpecificationElement.serialize xs).log prof b) = _
        rw [M.bind_log, hrun b, if_neg ho, if_pos hl]
        show appended (_ ++ []) = _
        rw [List.append_nil, h1.2, List.take_append_of_le_length h1.1]
      · rw [Nat.min_eq_left (by omega)] at h1
        rw [if_neg hl]
        have hok : ∀ b, x.serialize prof b = .ok ((), b ++ wire (sent x)) := fun b => by
          rw [hrun b, if_neg ho, if_neg hl]
        have hlen : (wire (sent x)).length = 12 + product % 65536 := by
          have h3 := h1.2 []
          rw [Puts.appended_ok _ (hok [])] at h3
          have h4 := congrArg List.length h3
          rw [List.length_take] at h4
          have := h1.1
          omega
        refine ⟨by rw [List.length_append]; have := h2.1; omega, fun b => ?_⟩
        show appended ((x.serialize >>= fun _ => putEach RecordSpecificationElement.serialize xs).log prof b) = _
        rw [M.bind_log, hok b, appended_append, Puts.appended_ok _ (hok b)]
        show wire (sent x) ++ appended ((putEach RecordSpecificationElement.serialize xs).log prof _) = _
        rw [h2.2, ← hlen, List.take_length_add_append]

theorem RecordSpecification.leaves (x : RecordSpecification) (prof : Profile) :
    Leaves x.serialize prof (wire (sent x)) (4 + setsUntilPanic prof.overflowChecks x.record_sets) :=
  Leaves.after (writes_u32 x.number_of_record_sets) (octets_length _ _) (leaves_sets prof x.record_sets)

theorem TransferOwnershipPdu.leaves (x : TransferOwnershipPdu) (prof : Profile) :
    Leaves x.serializeBody prof (wire (sent x))
      (6 + (6 + (4 + (1 + (1 + (6 + (4 + setsUntilPanic prof.overflowChecks x.record_information.record_sets))))))) :=
  Leaves.after (LawfulEnc.writes x.originating_id trivial) (SimulationIdentifier.wire_length _) <|
  Leaves.after (LawfulEnc.writes x.receiving_id trivial) (SimulationIdentifier.wire_length _) <|
  Leaves.after (writes_exact x.request_id) (octets_length _ _) <|
  Leaves.after (writes_exact x.required_reliability_service) (octets_length _ _) <|
  Leaves.after (writes_exact x.transfer_type) (octets_length _ _) <|
  Leaves.after (writes_exact x.transfer_entity_id) (EntityId.wire_length _) <|
  RecordSpecification.leaves x.record_information prof

theorem SetRecordReliablePdu.leaves (x : SetRecordReliablePdu) (prof : Profile) :
    Leaves x.serializeBody prof (wire (sent x))
      (6 + (6 + (4 + (1 + (1 + (2 + (4 + (4 + setsUntilPanic prof.overflowChecks x.record_sets.record_sets)))))))) :=
  Leaves.after (writes_exact x.originating_entity_id) (EntityId.wire_length _) <|
  Leaves.after (writes_exact x.receiving_entity_id) (EntityId.wire_length _) <|
  Leaves.after (writes_exact x.request_id) (octets_length _ _) <|
  Leaves.after (writes_exact x.required_reliability_service) (octets_length _ _) <|
  Leaves.after (writes_exact x.padding) (octets_length _ _) <|
  Leaves.after (writes_exact x.padding2) (octets_length _ _) <|
  Leaves.after (writes_exact x.padding3) (octets_length _ _) <|
  RecordSpecification.leaves x.record_sets prof

end Dis
