import Verif.Properties.RoundTrip
/-
C21, continued: a fresh PDU, sent and received.
-/
set_option maxRecDepth 20000
namespace Dis

theorem onlyFlags_zero (l : List Nat) : OnlyFlags l 0 := by
  intro i h
  simp at h

theorem PduKind.fresh_decodable (k : PduKind) (hk : k ≠ .EntityState) (now : UInt32) :
    decodable (sent (Pdu.new now : Pdu k.Body).body) ∧
    kept (sent (Pdu.new now : Pdu k.Body).body) = (Pdu.new now : Pdu k.Body).body ∧
    tail (sent (Pdu.new now : Pdu k.Body).body) = [] := by
  cases k
  case EntityState => exact absurd rfl hk
  case TransferOwnership => exact ⟨⟨rfl, fun _ h => nomatch h⟩, rfl, rfl⟩
  case SetRecordReliable => exact ⟨⟨rfl, fun _ h => nomatch h⟩, rfl, rfl⟩
  case InformationOperationsReport => exact ⟨⟨rfl, fun _ h => nomatch h⟩, rfl, rfl⟩
  case InformationOperationsAction => exact ⟨⟨rfl, fun _ h => nomatch h⟩, rfl, rfl⟩
  case AggregateState => exact ⟨⟨rfl, rfl, rfl, rfl, rfl⟩, rfl, rfl⟩
  case Transmitter => exact ⟨⟨rfl, fun h => nomatch h⟩, rfl, rfl⟩
  all_goals first | exact ⟨trivial, rfl, rfl⟩ | exact ⟨onlyFlags_zero _, rfl, rfl⟩

/-- A fresh PDU of any kind but entity state, sent and received, whatever follows it and in whatever builds: the
receiver has the very PDU, and what follows it. -/
theorem C21_new_received (k : PduKind) (hk : k ≠ .EntityState) (now : UInt32) (prof : Profile) (buf : Bytes) :
    ∃ w, (Pdu.new now : Pdu k.Body).serialize prof buf = .ok ((Pdu.new now, .ok ()), buf ++ w) ∧
      ∀ prof' rest, k.decode prof' (w ++ rest) = .ok (.ok (Pdu.new now), rest) := by
  obtain ⟨w, hs, _⟩ := C21_new_serializes k now prof buf
  refine ⟨w, hs, fun prof' rest => ?_⟩
  obtain ⟨h1, h2, h3⟩ := k.fresh_decodable hk now
  have := C12_survives_all_kinds k _ _ prof buf w hs h1 prof' rest
  rw [h2, h3] at this
  exact this

/-- A fresh entity state PDU likewise, but that its empty marking is received as the number of octets that were left
after the marking's character set. -/
theorem C21_new_received_entity_state (now : UInt32) (prof : Profile) (buf : Bytes) :
    ∃ w, (Pdu.new now : Pdu EntityStatePdu).serialize prof buf = .ok ((Pdu.new now, .ok ()), buf ++ w) ∧
      ∀ prof' rest, decodeAs EntityStatePdu prof' (w ++ rest) =
        .ok (.ok ⟨(Pdu.new now : Pdu EntityStatePdu).header,
          { (Pdu.new now : Pdu EntityStatePdu).body with
            entity_marking := { (Pdu.new now : Pdu EntityStatePdu).body.entity_marking with
              entity_marking_string := toString (4 + rest.length) } }⟩, rest) := by
  obtain ⟨w, hs, _⟩ := C21_new_serializes .EntityState now prof buf
  refine ⟨w, hs, fun prof' rest => ?_⟩
  have hs : (Pdu.new now : Pdu EntityStatePdu).serialize prof buf = .ok ((Pdu.new now, .ok ()), buf ++ w) := hs
  obtain ⟨n, hn4, hn, hd⟩ := C12_entity_state _ _ prof buf w hs prof' rest
  have hz : strBytes (Pdu.new now : Pdu EntityStatePdu).body.entity_marking.entity_marking_string ++
      wire (Pdu.new now : Pdu EntityStatePdu).body.entity_capabilities ++
      wire (Pdu.new now : Pdu EntityStatePdu).body.articulation_parameter ++ rest = [0, 0, 0, 0] ++ rest := by
    have : strBytes "" = [] := by decide
    show strBytes "" ++ octets 4 0 ++ [] ++ rest = _
    rw [this]
    rfl
  rw [hz] at hn hd
  have h0 : n = 0 := by
    have h4 : ([0, 0, 0, 0] ++ rest : Bytes).take 4 = octets 4 0 := rfl
    rw [h4] at hn
    have := congrArg beVal hn
    rw [octets_eq, octets_eq, beVal_beBytes, beVal_beBytes] at this
    omega
  subst h0
  have hl : ([0, 0, 0, 0] ++ rest : Bytes).length = 4 + rest.length := by
    rw [List.length_append]; rfl
  rw [hl] at hd
  exact hd

/-- For instance: the fresh fire PDU, followed by an octet. -/
example : ∃ w, decodeAs FirePdu ⟨true⟩ (w ++ [8]) = .ok (.ok (Pdu.new 77), [8]) :=
  have ⟨w, _, h⟩ := C21_new_received .Fire (by decide) 77 ⟨true⟩ []
  ⟨w, h ⟨true⟩ [8]⟩

end Dis
