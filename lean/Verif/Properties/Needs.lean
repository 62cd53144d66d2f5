import Verif.Proofs.Needs
import Verif.Properties.RoundTrip
/-
C14 for the decoders that read a variable number of octets.
-/
namespace Dis

/-- The transmitter PDU: it needs 104 octets and as many more as the octet at offset 100 says. -/
theorem C14_transmitter (prof : Profile) (b : Bytes) (hh : 12 ≤ b.length) (ht : (b.getD 2 0).toNat = 25) :
    (b.length < 104 + (b.getD 100 0).toNat → decodeAs TransmitterPdu prof b = .error .bufferUnderflow) ∧
    (104 + (b.getD 100 0).toNat ≤ b.length →
      ∃ p, decodeAs TransmitterPdu prof b = .ok (.ok p, b.drop (104 + (b.getD 100 0).toNat))) := by
  have h := Pdu.takes (k := .Transmitter) TransmitterPdu.takes prof b hh ht
  have hg : ((b.drop 12).drop 88).getD 0 0 = b.getD 100 0 := by
    simp only [List.getD_eq_getElem?_getD, List.getElem?_drop]
  unfold needAfter at h
  simp only [hg, List.length_drop] at h
  constructor
  · intro hs
    by_cases h1 : b.length - 12 < 88
    · simpa only [if_pos h1] using h
    · rw [if_neg h1] at h
      by_cases h2 : b.length - 12 - 88 < 1
      · simpa only [if_pos h2] using h
      · rw [if_neg h2] at h
        by_cases h3 : b.length - 12 - 88 - 1 < 3
        · simpa only [if_pos h3] using h
        · rw [if_neg h3, if_pos (by omega)] at h
          exact h
  · intro hs
    rw [if_neg (by omega), if_neg (by omega), if_neg (by omega), if_neg (by omega)] at h
    obtain ⟨_, p, hp⟩ := h
    refine ⟨p, ?_⟩
    rw [show 104 + (b.getD 100 0).toNat = 12 + (88 + (1 + (3 + (b.getD 100 0).toNat))) by omega]
    exact hp

/-- A transmitter PDU whose octet 100 says three: 106 octets are too few, 107 enough. -/
example : decodeAs TransmitterPdu ⟨true⟩ ([7, 1, 25, 4] ++ List.replicate 96 0 ++ [3] ++ List.replicate 5 0) =
      .error .bufferUnderflow ∧
    (match decodeAs TransmitterPdu ⟨true⟩ ([7, 1, 25, 4] ++ List.replicate 96 0 ++ [3] ++ List.replicate 6 0) with
      | .ok (.ok _, r) => decide (r = [])
      | _ => false) = true := by decide +kernel

/-- The two kinds with record sets: 40 octets, the number of record sets being at offset 36, and then what
those record sets take. -/
theorem C14_record_sets (k : PduKind) (hk : k.hasRecordSets = true) (prof : Profile) (b : Bytes)
    (hh : 12 ≤ b.length) (ht : (b.getD 2 0).toNat = k.typeCode) :
    (b.length < 40 → k.decode prof b = .error .bufferUnderflow) ∧
    (40 ≤ b.length →
      (∀ e, recordSetOctets prof.overflowChecks (u32At b 36) (b.drop 40) = .error e →
        k.decode prof b = .error e) ∧
      (∀ n, recordSetOctets prof.overflowChecks (u32At b 36) (b.drop 40) = .ok n →
        ∃ p, k.decode prof b = .ok (.ok p, b.drop (40 + n)))) := by
  have h : match (needAfter 24 fun prof b =>
      needAfter 4 (fun prof c => recordSetOctets prof.overflowChecks (u32At b 0) c) prof b) prof (b.drop 12) with
    | .error e => k.decode prof b = .error e
    | .ok n => 12 + n ≤ b.length ∧ ∃ p, k.decode prof b = .ok (.ok p, b.drop (12 + n)) := by
    cases k
    case TransferOwnership => exact Pdu.takes (k := .TransferOwnership) TransferOwnershipPdu.takes prof b hh ht
    case SetRecordReliable => exact Pdu.takes (k := .SetRecordReliable) SetRecordReliablePdu.takes prof b hh ht
    all_goals exact absurd hk (by decide)
  unfold needAfter at h
  simp only [List.length_drop, List.drop_drop, u32At_drop, Nat.add_zero, Nat.reduceAdd] at h
  refine ⟨fun hs => ?_, fun hs => ⟨fun e he => ?_, fun n hn => ?_⟩⟩
  · by_cases h1 : b.length - 12 < 24
    · simpa only [if_pos h1] using h
    · rw [if_neg h1, if_pos (by omega)] at h
      exact h
  · rw [if_neg (by omega), if_neg (by omega), he] at h
    exact h
  · rw [if_neg (by omega), if_neg (by omega), hn] at h
    obtain ⟨_, p, hp⟩ := h
    exact ⟨p, by rw [hp, show 12 + (24 + (4 + n)) = 40 + n by omega]⟩

/-- The two information-operations kinds: the records begin at octet 40 (report) or 56 (action), their
number being in the two octets before that. -/
theorem C14_variable_records (k : PduKind) (start : Nat)
    (hk : (k = .InformationOperationsReport ∧ start = 40) ∨ (k = .InformationOperationsAction ∧ start = 56))
    (prof : Profile) (b : Bytes) (hh : 12 ≤ b.length) (ht : (b.getD 2 0).toNat = k.typeCode) :
    (b.length < start → k.decode prof b = .error .bufferUnderflow) ∧
    (start ≤ b.length →
      (variableRecordOctets (u16At b (start - 2)) (b.drop start) = none →
        k.decode prof b = .error .bufferUnderflow) ∧
      (∀ n, variableRecordOctets (u16At b (start - 2)) (b.drop start) = some n →
        ∃ p, k.decode prof b = .ok (.ok p, b.drop (start + n)))) := by
  have hs : 14 ≤ start := by rcases hk with ⟨_, rfl⟩ | ⟨_, rfl⟩ <;> decide
  have h : match (needAfter (start - 14) fun prof b => needAfter 2 (svrNeed (u16At b 0)) prof b)
      prof (b.drop 12) with
    | .error e => k.decode prof b = .error e
    | .ok n => 12 + n ≤ b.length ∧ ∃ p, k.decode prof b = .ok (.ok p, b.drop (12 + n)) := by
    rcases hk with ⟨rfl, rfl⟩ | ⟨rfl, rfl⟩
    · exact Pdu.takes (k := .InformationOperationsReport) InformationOperationsReportPdu.takes prof b hh ht
    · exact Pdu.takes (k := .InformationOperationsAction) InformationOperationsActionPdu.takes prof b hh ht
  unfold needAfter svrNeed at h
  simp only [List.length_drop, List.drop_drop, u16At_drop, Nat.add_zero] at h
  rw [show 12 + (start - 14) = start - 2 by omega, show start - 2 + 2 = start by omega] at h
  refine ⟨fun hb => ?_, fun hb => ⟨fun hn => ?_, fun n hn => ?_⟩⟩
  · by_cases h1 : b.length - 12 < start - 14
    · simpa only [if_pos h1] using h
    · rw [if_neg h1, if_pos (by omega)] at h
      exact h
  · rw [if_neg (by omega), if_neg (by omega), hn] at h
    exact h
  · rw [if_neg (by omega), if_neg (by omega), hn] at h
    obtain ⟨_, p, hp⟩ := h
    exact ⟨p, by rw [hp, show 12 + (start - 14 + (2 + n)) = start + n by omega]⟩

/-- A set record PDU with one record set of 2 × 3 octets takes 58 octets; cut by one octet it panics; with
length × count = 2^16 it panics with overflow checks and takes 52 octets without. -/
example : recordSetOctets true 1 ([0,0,0,1, 0,0,0,0, 0,2, 0,3] ++ List.replicate 7 9) = .ok 18 ∧
    recordSetOctets true 1 ([0,0,0,1, 0,0,0,0, 0,2, 0,3] ++ List.replicate 5 9) = .error .bufferUnderflow ∧
    recordSetOctets true 1 [0,0,0,1, 0,0,0,0, 1,0, 1,0] = .error .arithmeticOverflow ∧
    recordSetOctets false 1 [0,0,0,1, 0,0,0,0, 1,0, 1,0] = .ok 12 ∧
    variableRecordOctets 2 [0,0,0,1, 0,2, 7,7, 0,0,0,2, 0,0] = some 14 := by decide +kernel

/-- A set record message with one record set, which is not whole. -/
example := (C14_record_sets .SetRecordReliable rfl ⟨true⟩ ([7, 1, 64, 10] ++ List.replicate 35 0 ++ [1] ++ [0, 0, 0, 5]) (by decide)
  (by decide)).2 (by decide)

end Dis
