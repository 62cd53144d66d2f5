import Verif.Proofs.PduGeneric
import Verif.Spec.Codes
/-
C01 (header round-trip), C02 (header layout), C03 (`get_pdu_type`), C37 (live-entity header).
-/
namespace Dis

/-! ### C01 -/

/-- Serializing a header appends twelve octets which depend on nothing but the header; decoding them,
whatever follows, gives the header back and leaves what follows. -/
theorem C01_header_roundtrip (h : PduHeader) :
    ∃ w : Bytes, w.length = 12 ∧
      (∀ prof buf, h.serialize prof buf = .ok ((), buf ++ w)) ∧
      (∀ prof rest, PduHeader.deserialize prof (w ++ rest) = .ok (h, rest)) :=
  ⟨wire h, h.wire_length, h.writes, h.reads⟩

/-- a header that differs from the default in every field -/
def exampleHeader : PduHeader where
  protocol_version := ⟨6, by decide⟩
  exercise_id := 200
  pdu_type := ⟨67, by decide⟩
  protocol_family := ⟨13, by decide⟩
  timestamp := 0x01020304
  length := 0x0506
  status_record := ⟨0xAB⟩
  padding := 0xCD

example : exampleHeader.serialize ⟨true⟩ [9] =
    .ok ((), [9, 6, 200, 67, 13, 1, 2, 3, 4, 5, 6, 0xAB, 0xCD]) := rfl

/-! ### C02 -/

/-- The twelve octets, one by one (a code fits its octet by the second part). -/
theorem C02_header_layout (h : PduHeader) (prof : Profile) (buf : Bytes) :
    h.serialize prof buf = .ok ((), buf ++
      [UInt8.ofNat h.protocol_version.code, h.exercise_id, UInt8.ofNat h.pdu_type.code,
       UInt8.ofNat h.protocol_family.code,
       UInt8.ofNat (h.timestamp.toNat / 2 ^ 24), UInt8.ofNat (h.timestamp.toNat / 2 ^ 16),
       UInt8.ofNat (h.timestamp.toNat / 2 ^ 8), UInt8.ofNat h.timestamp.toNat,
       UInt8.ofNat (h.length.toNat / 2 ^ 8), UInt8.ofNat h.length.toNat,
       h.status_record.bits, h.padding]) ∧
    h.protocol_version.code < 256 ∧ h.pdu_type.code < 256 ∧ h.protocol_family.code < 256 := by
  refine ⟨?_, ?_, ?_, ?_⟩
  · rw [PduHeader.writes h prof buf]
    simp [wire, octets, List.range_succ, IntTy.octets, ProtocolVersion.spec, PduType.spec,
      ProtocolFamily.spec, uint8_ofNat_mod]
  · exact EnumFits.fits _ h.protocol_version.mem
  · exact EnumFits.fits _ h.pdu_type.mem
  · exact EnumFits.fits _ h.protocol_family.mem

/-! ### C03 -/

theorem assigned_iff (n : Nat) : n ∈ PduType.spec.codes ↔ assignedPduType n := by
  unfold assignedPduType
  have h : PduType.spec.codes = List.range 73 := by decide +kernel
  rw [h, List.mem_range]
  omega

/-- Fewer than twelve octets: none. -/
theorem C03_get_pdu_type_short (prof : Profile) (b : Bytes) :
    PduHeader.get_pdu_type prof b = .ok none ↔ b.length < 12 := by
  unfold PduHeader.get_pdu_type PduHeader.LENGTH
  by_cases h : b.length < 12
  · simp [h]
  · simp only [h, if_false, iff_false]
    have hl : 12 ≤ (b.take 12).length := by simp; omega
    obtain ⟨hd, e, _⟩ := PduHeader.deserialize_type prof hl
    rw [e]
    simp

/-- Twelve octets or more: the type coded by octet 2, `Other` (code 0) if that code is unassigned, and
the same as the header decoder finds; in particular no panic. -/
theorem C03_get_pdu_type (prof : Profile) (b : Bytes) (h : 12 ≤ b.length) :
    ∃ t : PduType, PduHeader.get_pdu_type prof b = .ok (some t) ∧
      (assignedPduType (b.getD 2 0).toNat → t.code = (b.getD 2 0).toNat) ∧
      (¬ assignedPduType (b.getD 2 0).toNat → t.code = 0) ∧
      ∃ hd rest, PduHeader.deserialize prof b = .ok (hd, rest) ∧ hd.pdu_type = t := by
  obtain ⟨hd, e, ht⟩ := PduHeader.deserialize_type prof h
  have hl : 12 ≤ (b.take 12).length := by simp; omega
  obtain ⟨hd', e', ht'⟩ := PduHeader.deserialize_type prof hl
  refine ⟨hd.pdu_type, ?_, ?_, ?_, hd, _, e, rfl⟩
  · unfold PduHeader.get_pdu_type PduHeader.LENGTH
    rw [if_neg (by omega), e']
    simp [ht, ht']
  · intro ha
    rw [ht]
    exact EnumSpec.ofCode_of_mem ((assigned_iff _).mpr ha)
  · intro ha
    rw [ht]
    rw [EnumSpec.ofCode_of_not_mem (fun hm => ha ((assigned_iff _).mp hm))]
    rfl

example : PduHeader.get_pdu_type ⟨true⟩ [7, 1, 2, 9, 0, 0, 0, 0, 255, 255, 255, 255, 1, 2] =
    .ok (some ⟨2, by decide⟩) := by decide +kernel
example : PduHeader.get_pdu_type ⟨true⟩ [7, 1, 73, 9, 0, 0, 0, 0, 255, 255, 255, 255] =
    .ok (some ⟨0, by decide⟩) := by decide +kernel
example : PduHeader.get_pdu_type ⟨true⟩ [7, 1, 2, 9, 0, 0, 0, 0, 255, 255, 255] = .ok none := rfl

/-! ### C37 -/

/-- The live-entity header: twelve octets, subprotocol number at offset 10, exact round-trip; the first
ten octets mean the same to the ordinary header decoder. -/
theorem C37_live_header (h : LiveEntityPduHeader) :
    ∃ w : Bytes, w.length = 12 ∧ w.getD 10 0 = UInt8.ofNat h.subprotocol_number.code ∧
      h.subprotocol_number.code < 256 ∧
      (∀ prof buf, h.serialize prof buf = .ok ((), buf ++ w)) ∧
      (∀ prof rest, LiveEntityPduHeader.deserialize prof (w ++ rest) = .ok (h, rest)) ∧
      (∀ prof rest, PduHeader.deserialize prof (w ++ rest) =
        .ok ({ protocol_version := h.protocol_version, exercise_id := h.exercise_id
               pdu_type := h.pdu_type, protocol_family := h.protocol_family
               timestamp := h.timestamp, length := h.length
               status_record := ⟨UInt8.ofNat h.subprotocol_number.code⟩, padding := h.padding }, rest)) := by
  have hc : h.subprotocol_number.code < 256 := EnumFits.fits _ h.subprotocol_number.mem
  refine ⟨wire h, h.wire_length, ?_, hc, h.writes, h.reads, ?_⟩
  · simp [wire, octets, List.range_succ, IntTy.octets, ProtocolVersion.spec, PduType.spec,
      ProtocolFamily.spec, DISLiveEntitySubprotocolNumber.spec, uint8_ofNat_mod]
  · intro prof rest
    have e := PduHeader.reads { protocol_version := h.protocol_version, exercise_id := h.exercise_id
                                pdu_type := h.pdu_type, protocol_family := h.protocol_family
                                timestamp := h.timestamp, length := h.length
                                status_record := ⟨UInt8.ofNat h.subprotocol_number.code⟩
                                padding := h.padding } prof rest
    have hw : wire ({ protocol_version := h.protocol_version, exercise_id := h.exercise_id
                      pdu_type := h.pdu_type, protocol_family := h.protocol_family
                      timestamp := h.timestamp, length := h.length
                      status_record := ⟨UInt8.ofNat h.subprotocol_number.code⟩
                      padding := h.padding } : PduHeader) = wire h := by
      simp [wire, octets, List.range_succ, IntTy.octets, DISLiveEntitySubprotocolNumber.spec,
        uint8_ofNat_mod]
    rw [hw] at e
    exact e

example : (LiveEntityPduHeader.new 5 ⟨46, by decide⟩ ⟨11, by decide⟩ 3 96).serialize ⟨true⟩ [] =
    .ok ((), [7, 3, 46, 11, 0, 0, 0, 5, 0, 96, 0, 0]) := rfl

end Dis
