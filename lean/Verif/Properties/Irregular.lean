import Verif.Proofs.RecordTable
import Verif.Proofs.Counted
import Verif.Proofs.RoundTrip
/-
The irregular records: EntityMarking (C18, C19), VariableDatumRecord (C27), dead reckoning and simulation
identifiers (C28), RecordSpecificationElement (C30), gridded data (C35), and the lengths of the records
with lists (C19).
-/
set_option maxRecDepth 4000
namespace Dis

/-! ### C19: records with lists claim the octets they append -/

/-- For every value of every record with a list (those with irregular lengths have theorems below). -/
theorem C19_lists (prof : Profile) (buf : Bytes) :
    (∀ x : AttributeRecord, ∃ w, x.serialize prof buf = .ok ((), buf ++ w) ∧ field_len x = w.length) ∧
    (∀ x : AttributeRecordSet, ∃ w, x.serialize prof buf = .ok ((), buf ++ w) ∧ field_len x = w.length) ∧
    (∀ x : ElectromagneticEmissionBeamData, ∃ w, x.serialize prof buf = .ok ((), buf ++ w) ∧ field_len x = w.length) ∧
    (∀ x : ElectromagneticEmissionSystemData, ∃ w, x.serialize prof buf = .ok ((), buf ++ w) ∧ field_len x = w.length) ∧
    (∀ x : StandardVariableRecords, ∃ w, x.serialize prof buf = .ok ((), buf ++ w) ∧ field_len x = w.length) ∧
    (∀ x : StandardVariableSpecification, ∃ w, x.serialize prof buf = .ok ((), buf ++ w) ∧ field_len x = w.length) ∧
    (∀ x : VariableTransmitterParameters, ∃ w, x.serialize prof buf = .ok ((), buf ++ w) ∧ field_len x = w.length) ∧
    (∀ x : GridAxisDescriptor, ∃ w, x.serialize prof buf = .ok ((), buf ++ w) ∧ field_len x = w.length) ∧
    (∀ x : ModulationParameters, ∃ w, x.serialize prof buf = .ok ((), buf ++ w) ∧ field_len x = w.length) ∧
    (∀ x : AntennaPattern, ∃ w, x.serialize prof buf = .ok ((), buf ++ w) ∧ field_len x = w.length) ∧
    (∀ x : DeadReckoningParameters, ∃ w, x.serialize prof buf = .ok ((), buf ++ w) ∧ field_len x = w.length) ∧
    (∀ x : SimulationIdentifier, ∃ w, x.serialize prof buf = .ok ((), buf ++ w) ∧ field_len x = w.length) :=
  ⟨fun x => ⟨_, writes_exact x prof buf, len_exact x⟩, fun x => ⟨_, writes_exact x prof buf, len_exact x⟩,
   fun x => ⟨_, writes_exact x prof buf, len_exact x⟩, fun x => ⟨_, writes_exact x prof buf, len_exact x⟩,
   fun x => ⟨_, writes_exact x prof buf, len_exact x⟩, fun x => ⟨_, writes_exact x prof buf, len_exact x⟩,
   fun x => ⟨_, writes_exact x prof buf, len_exact x⟩, fun x => ⟨_, writes_exact x prof buf, len_exact x⟩,
   fun x => ⟨_, writes_exact x prof buf, len_exact x⟩, fun x => ⟨_, writes_exact x prof buf, len_exact x⟩,
   fun x => ⟨_, x.writes prof buf, (DeadReckoningParameters.wire_length _).symm⟩,
   fun x => ⟨_, x.writes prof buf, (SimulationIdentifier.wire_length _).symm⟩⟩

/-! ### EntityMarking -/

/-- The octets of a character set. -/
theorem wire_charset (c : EntityMarkingCharacterSet) : wire c = [UInt8.ofNat c.code] := by
  have : ∀ n ∈ EntityMarkingCharacterSet.spec.codes, octets 1 n = [UInt8.ofNat n] := by decide +kernel
  exact this _ c.mem

/-- A marking is written as its character set and the octets of its text, however many; it always claims
12. Decoding takes only the character set; the text it returns is the number of octets left, in decimal.
So the length is right exactly for texts of 11 octets, and nothing ever round-trips. -/
theorem C18_marking (x : EntityMarking) (prof : Profile) (buf rest : Bytes) :
    ∃ w, x.serialize prof buf = .ok ((), buf ++ w) ∧
      w = UInt8.ofNat x.entity_marking_character_set.code :: strBytes x.entity_marking_string ∧
      (field_len x = w.length ↔ (strBytes x.entity_marking_string).length = 11) ∧
      EntityMarking.deserialize prof (w ++ rest) =
        .ok (⟨x.entity_marking_character_set, toString ((strBytes x.entity_marking_string).length + rest.length)⟩,
          strBytes x.entity_marking_string ++ rest) ∧
      EntityMarking.deserialize prof (w ++ rest) ≠ .ok (x, rest) := by
  have hw : wire x = UInt8.ofNat x.entity_marking_character_set.code :: strBytes x.entity_marking_string := by
    show wire x.entity_marking_character_set ++ _ = _
    rw [wire_charset]; rfl
  have hd : EntityMarking.deserialize prof (wire x ++ rest) =
      .ok (⟨x.entity_marking_character_set, toString ((strBytes x.entity_marking_string).length + rest.length)⟩,
        strBytes x.entity_marking_string ++ rest) := by
    show (_ >>= fun cs => remaining >>= fun r => pure (⟨cs, toString r⟩ : EntityMarking)) prof _ = _
    have hr : EntityMarkingCharacterSet.deserialize prof (wire x.entity_marking_character_set ++
        (strBytes x.entity_marking_string ++ rest)) =
        .ok (x.entity_marking_character_set, strBytes x.entity_marking_string ++ rest) :=
      EnumSpec.reads x.entity_marking_character_set prof _
    have he : wire x ++ rest = wire x.entity_marking_character_set ++ (strBytes x.entity_marking_string ++ rest) :=
      List.append_assoc _ _ _
    rw [he, M.bind_run, hr]
    show Except.ok (_, _) = _
    rw [List.length_append]
  refine ⟨wire x, x.writes prof buf, hw, ?_, hd, ?_⟩
  · rw [x.wire_length]
    show 12 = _ ↔ _
    omega
  · rw [hd]
    intro h
    simp only [Except.ok.injEq, Prod.mk.injEq] at h
    have h1 : strBytes x.entity_marking_string = [] := by
      have := congrArg List.length h.2
      rw [List.length_append] at this
      exact List.eq_nil_of_length_eq_zero (by omega)
    have h2 := congrArg EntityMarking.entity_marking_string h.1
    simp only at h2
    have h3 : x.entity_marking_string = "" := by
      have : x.entity_marking_string.toByteArray = "".toByteArray := by
        apply ByteArray.ext
        apply Array.ext'
        exact h1
      exact String.toByteArray_inj.mp this
    rw [h3] at h2
    exact Nat.repr_ne_empty h2

example : EntityMarking.deserialize ⟨true⟩ [1, 65, 66] = .ok (⟨⟨1, by decide⟩, "2"⟩, [65, 66]) := by
  have := (C18_marking ⟨⟨1, by decide⟩, "AB"⟩ ⟨true⟩ [] [])
  obtain ⟨w, _, rfl, _, h, _⟩ := this
  exact h

/-! ### C27: variable datum records -/

theorem getN_u8 (n : Nat) (prof : Profile) (b : Bytes) : getN getU8 n prof b =
    if b.length < n then .error .bufferUnderflow else .ok (b.take n, b.drop n) := by
  by_cases h : b.length < n
  · rw [if_pos h]
    exact (Fixed.n fixed_u8 n).run_short prof (by omega)
  · rw [if_neg h]
    have := reads_bytes (b.take n) (n := n) (by rw [List.length_take]; omega) prof (b.drop n)
    rwa [List.take_append_drop] at this

/-- A datum whose declared bits match its octets: the octets are those of the fields and then zeros up to a
multiple of eight (of the value); the claimed length leaves out the zeros; decoding gives a value of twice
the length, zeros first, and leaves the padding. It round-trips exactly when it is empty. -/
theorem C27_datum (x : VariableDatumRecord) (hx : (x.length_bits.toNat + 7) / 8 = x.value.length)
    (prof : Profile) (buf rest : Bytes) :
    ∃ w pad, x.serialize prof buf = .ok ((), buf ++ w) ∧
      w = octets 4 x.datum_id.toNat ++ octets 4 x.length_bits.toNat ++ x.value ++ List.replicate pad 0 ∧
      pad < 8 ∧ (x.value.length + pad) % 8 = 0 ∧ field_len x + pad = w.length ∧
      VariableDatumRecord.deserialize prof (w ++ rest) =
        .ok ({ x with value := List.replicate x.value.length 0 ++ x.value }, List.replicate pad 0 ++ rest) ∧
      (VariableDatumRecord.deserialize prof (w ++ rest) = .ok (x, rest) ↔ x.value = []) := by
  have hp : padOctets x.length_bits.toNat = (8 - x.value.length % 8) % 8 := by
    unfold padOctets; rw [hx]
  have hw : wire x = octets 4 x.datum_id.toNat ++ octets 4 x.length_bits.toNat ++ x.value ++
      List.replicate (padOctets x.length_bits.toNat) 0 := by
    show wire x.datum_id ++ (wire x.length_bits ++ (wire x.value ++ _)) = _
    rw [wire_bytes]
    simp only [List.append_assoc]
    rfl
  have hd : Reads VariableDatumRecord.deserialize
      (octets 4 x.datum_id.toNat ++ (octets 4 x.length_bits.toNat ++ x.value))
      { x with value := List.replicate x.value.length 0 ++ x.value } := by
    refine Reads.bind (reads_u32 x.datum_id) (Reads.bind (reads_u32 x.length_bits) ?_)
    have e : VariableDatumRecord.bytes_count x.length_bits = x.value.length := hx
    rw [e]
    exact Reads.reserve _ <| Reads.last (reads_bytes x.value rfl) (Reads.ret _)
  have hdd : VariableDatumRecord.deserialize prof (wire x ++ rest) =
      .ok ({ x with value := List.replicate x.value.length 0 ++ x.value },
        List.replicate (padOctets x.length_bits.toNat) 0 ++ rest) := by
    have := hd prof (List.replicate (padOctets x.length_bits.toNat) 0 ++ rest)
    rw [hw]
    simpa only [List.append_assoc] using this
  refine ⟨wire x, padOctets x.length_bits.toNat, x.writes prof buf, hw, by omega, ?_, ?_, hdd, ?_⟩
  · rw [hp]
    generalize x.value.length = n
    omega
  · have := LawfulEnc.len x
    simp only [sent, surplus, id] at this
    omega
  · rw [hdd]
    constructor
    · intro h
      simp only [Except.ok.injEq, Prod.mk.injEq] at h
      have := congrArg (fun y => y.value.length) h.1
      simp only [List.length_append, List.length_replicate] at this
      exact List.eq_nil_of_length_eq_zero (by omega)
    · intro h
      have h0 : padOctets x.length_bits.toNat = 0 := by rw [hp, h]; rfl
      obtain ⟨a, b, c⟩ := x
      simp only at h
      subst h
      rw [h0]
      rfl

/-- For instance, 20 bits. -/
example : (20 + 7) / 8 = [1, 2, 3].length ∧
    VariableDatumRecord.deserialize ⟨true⟩ ([0, 0, 0, 5, 0, 0, 0, 20, 1, 2, 3, 0, 0, 0, 0, 0] ++ [9]) =
      .ok (⟨5, 20, [0, 0, 0, 1, 2, 3]⟩, [0, 0, 0, 0, 0, 9]) := by decide +kernel

/-- What the number of octets claimed misses, for every datum at all. -/
theorem C27_length (x : VariableDatumRecord) (prof : Profile) (buf : Bytes) :
    ∃ w, x.serialize prof buf = .ok ((), buf ++ w) ∧
      w.length = field_len x + (8 - (x.length_bits.toNat + 7) / 8 % 8) % 8 := by
  refine ⟨wire x, x.writes prof buf, ?_⟩
  have := LawfulEnc.len x
  simp only [sent, surplus, id] at this
  unfold padOctets at this
  omega

/-- Decoding, whatever the octets: after the identifier and the number of bits, as many octets as hold
those bits are taken (or it panics), and returned after as many zeros. -/
theorem C27_deserialize (id bits : UInt32) (prof : Profile) (rest : Bytes) :
    VariableDatumRecord.deserialize prof (octets 4 id.toNat ++ octets 4 bits.toNat ++ rest) =
      if rest.length < (bits.toNat + 7) / 8 then .error .bufferUnderflow
      else .ok (⟨id, bits, List.replicate ((bits.toNat + 7) / 8) 0 ++ rest.take ((bits.toNat + 7) / 8)⟩,
        rest.drop ((bits.toNat + 7) / 8)) := by
  have hc : Continues VariableDatumRecord.deserialize (octets 4 id.toNat ++ octets 4 bits.toNat)
      (getN getU8 ((bits.toNat + 7) / 8))
      (fun l => ⟨id, bits, List.replicate ((bits.toNat + 7) / 8) 0 ++ l⟩) :=
    Continues.bind (reads_u32 id) <| Continues.last (reads_u32 bits) (Continues.ret _ _)
  rw [hc prof rest, getN_u8]
  by_cases h : rest.length < (bits.toNat + 7) / 8
  · rw [if_pos h, if_pos h]
  · rw [if_neg h, if_neg h]

/-- Encoding, whatever the datum: all octets of the value are written, however many bits it claims, and then
zeros as the claimed bits want them.  So a datum never comes back unless it claims no bits. -/
theorem C27_never_round_trips (x : VariableDatumRecord) (prof : Profile) (buf rest : Bytes) :
    ∃ w, x.serialize prof buf = .ok ((), buf ++ w) ∧
      w = octets 4 x.datum_id.toNat ++ octets 4 x.length_bits.toNat ++ x.value ++
        List.replicate ((8 - (x.length_bits.toNat + 7) / 8 % 8) % 8) 0 ∧
      (VariableDatumRecord.deserialize prof (w ++ rest) = .ok (x, rest) ↔
        x.length_bits = 0 ∧ x.value = []) := by
  have hw : wire x = octets 4 x.datum_id.toNat ++ octets 4 x.length_bits.toNat ++ x.value ++
        List.replicate ((8 - (x.length_bits.toNat + 7) / 8 % 8) % 8) 0 := by
    show wire x.datum_id ++ (wire x.length_bits ++ (wire x.value ++ _)) = _
    rw [wire_bytes]
    simp only [List.append_assoc]
    rfl
  refine ⟨wire x, x.writes prof buf, hw, ?_⟩
  have he : wire x ++ rest = octets 4 x.datum_id.toNat ++ octets 4 x.length_bits.toNat ++
      (x.value ++ (List.replicate ((8 - (x.length_bits.toNat + 7) / 8 % 8) % 8) 0 ++ rest)) := by
    rw [hw]; simp only [List.append_assoc]
  rw [he, C27_deserialize]
  obtain ⟨id, bits, value⟩ := x
  simp only
  have hz : bits = 0 ↔ bits.toNat = 0 := by
    rw [show (0 : Nat) = (0 : UInt32).toNat from rfl, UInt32.toNat_inj]
  rw [hz]
  generalize hn : (bits.toNat + 7) / 8 = n
  by_cases hl : (value ++ (List.replicate ((8 - n % 8) % 8) 0 ++ rest)).length < n
  · rw [if_pos hl]
    constructor
    · intro h; cases h
    · rintro ⟨h1, _⟩; omega
  · rw [if_neg hl]
    simp only [Except.ok.injEq, Prod.mk.injEq, VariableDatumRecord.mk.injEq, true_and]
    constructor
    · rintro ⟨h1, h2⟩
      have l1 := congrArg List.length h1
      have l2 := congrArg List.length h2
      simp only [List.length_append, List.length_replicate, List.length_take, List.length_drop] at l1 l2 hl
      have hv : value = [] := List.eq_nil_of_length_eq_zero (by omega)
      refine ⟨?_, hv⟩
      omega
    · rintro ⟨h1, rfl⟩
      have : n = 0 := by omega
      subst this
      simp

/-! ### C28: fields written as zeros -/

/-- Dead-reckoning parameters: 40 octets; the fifteen other-parameter octets are transmitted as zeros,
everything else as it is, and that is what comes back. -/
theorem C28_dead_reckoning (x : DeadReckoningParameters) (prof : Profile) (buf rest : Bytes) :
    ∃ w, x.serialize prof buf = .ok ((), buf ++ w) ∧ w.length = 40 ∧
      (w.drop 1).take 15 = List.replicate 15 0 ∧
      DeadReckoningParameters.deserialize prof (w ++ rest) =
        .ok ({ x with dead_reckoning_other_parameters := ⟨List.replicate 15 0, rfl⟩ }, rest) ∧
      (DeadReckoningParameters.deserialize prof (w ++ rest) = .ok (x, rest) ↔
        x.dead_reckoning_other_parameters.toList = List.replicate 15 0) := by
  refine ⟨wire (sent x), x.writes prof buf, DeadReckoningParameters.wire_length _, ?_,
    DeadReckoningParameters.reads (sent x) prof rest, ?_⟩
  · have h1 : wire (sent x) = wire x.dead_reckoning_algorithm ++ (List.replicate 15 0 ++
        (wire x.entity_linear_acceleration ++ wire x.entity_angular_velocity)) := rfl
    have h2 : (wire x.dead_reckoning_algorithm).length = 1 := octets_length _ _
    rw [h1, List.drop_append_of_le_length (by omega), List.drop_eq_nil_of_le (by omega), List.nil_append]
    exact List.take_left' (by simp)
  · rw [DeadReckoningParameters.reads (sent x) prof rest]
    constructor
    · intro h
      simp only [Except.ok.injEq, Prod.mk.injEq, and_true] at h
      exact (congrArg (fun y => y.dead_reckoning_other_parameters.toList) h).symm
    · intro h
      obtain ⟨a, ⟨l, hl⟩, c, d⟩ := x
      simp only at h
      subst h
      rfl

/-- Simulation identifiers: six octets; the reference number is transmitted as zero. -/
theorem C28_simulation_identifier (x : SimulationIdentifier) (prof : Profile) (buf rest : Bytes) :
    ∃ w, x.serialize prof buf = .ok ((), buf ++ w) ∧ w.length = 6 ∧ w.drop 4 = [0, 0] ∧
      SimulationIdentifier.deserialize prof (w ++ rest) = .ok ({ x with reference_number := 0 }, rest) ∧
      (SimulationIdentifier.deserialize prof (w ++ rest) = .ok (x, rest) ↔ x.reference_number = 0) := by
  refine ⟨wire (sent x), x.writes prof buf, SimulationIdentifier.wire_length _, ?_,
    SimulationIdentifier.reads (sent x) prof rest, ?_⟩
  · have h1 : wire (sent x) = wire x.simulation_address ++ [0, 0] := by
      show _ ++ octets 2 0 = _
      rw [show octets 2 0 = [0, 0] by decide +kernel]
      rfl
    have h2 : (wire x.simulation_address).length = 4 := SimulationAddress.wire_length _
    rw [h1, List.drop_append_of_le_length (by omega), List.drop_eq_nil_of_le (by omega), List.nil_append]
  · rw [SimulationIdentifier.reads (sent x) prof rest]
    constructor
    · intro h
      simp only [Except.ok.injEq, Prod.mk.injEq, and_true] at h
      exact (congrArg SimulationIdentifier.reference_number h).symm
    · intro h
      obtain ⟨a, b⟩ := x
      simp only at h
      subst h
      rfl

example : (⟨⟨1, 2⟩, 3⟩ : SimulationIdentifier).serialize ⟨true⟩ [] = .ok ((), [0, 1, 0, 2, 0, 0]) := by
  decide +kernel

/-! ### C30: record sets -/

/-- Serializing a record set, for every value and both build profiles: with overflow checks a product of
length and count above 65535 panics; without, it wraps; then too few stored octets panic; otherwise the four
numbers and as many of the stored octets as the product says are appended. -/
theorem C30_serialize (x : RecordSpecificationElement) (prof : Profile) (buf : Bytes) :
    (prof.overflowChecks = true → 65536 ≤ x.record_length.toNat * x.record_count.toNat →
      x.serialize prof buf = .error .arithmeticOverflow) ∧
    ((prof.overflowChecks = false ∨ x.record_length.toNat * x.record_count.toNat < 65536) →
      (x.record_values.length < x.record_length.toNat * x.record_count.toNat % 65536 →
        x.serialize prof buf = .error .indexOutOfBounds) ∧
      (x.record_length.toNat * x.record_count.toNat % 65536 ≤ x.record_values.length →
        x.serialize prof buf = .ok ((), buf ++ (octets 4 x.record_id.toNat ++
          octets 4 x.record_set_serial_number.toNat ++ octets 2 x.record_length.toNat ++
          octets 2 x.record_count.toNat ++
          x.record_values.take (x.record_length.toNat * x.record_count.toNat % 65536))))) := by
  have hr := RecordSpecificationElement.serialize_run x prof buf
  unfold RecordSpecificationElement.octetsSent RecordSpecificationElement.octetCount at hr
  refine ⟨fun h1 h2 => ?_, fun h => ⟨fun h1 => ?_, fun h1 => ?_⟩⟩
  · rw [hr, if_pos ⟨h1, h2⟩]
  · rw [hr, if_neg, if_pos h1]
    rintro ⟨h2, h3⟩
    rcases h with h | h
    · rw [h] at h2; cases h2
    · omega
  · rw [hr, if_neg, if_neg (by omega)]
    · show Except.ok ((), buf ++ (wire x.record_id ++ (wire x.record_set_serial_number ++
        (wire x.record_length ++ (wire x.record_count ++ wire (x.record_values.take _)))))) = _
      rw [wire_bytes]
      simp only [List.append_assoc]
      rfl
    · rintro ⟨h2, h3⟩
      rcases h with h | h
      · rw [h] at h2; cases h2
      · omega

/-- Decoding the four numbers followed by anything: an overflowing product panics with overflow checks and
wraps without; then that many octets are taken, or it panics. -/
theorem C30_deserialize (id sn : UInt32) (len cnt : UInt16) (prof : Profile) (rest : Bytes) :
    RecordSpecificationElement.deserialize prof (octets 4 id.toNat ++ octets 4 sn.toNat ++
      octets 2 len.toNat ++ octets 2 cnt.toNat ++ rest) =
    if prof.overflowChecks = true ∧ 65536 ≤ len.toNat * cnt.toNat then .error .arithmeticOverflow
    else if rest.length < len.toNat * cnt.toNat % 65536 then .error .bufferUnderflow
    else .ok (⟨id, sn, len, cnt, rest.take (len.toNat * cnt.toNat % 65536)⟩,
      rest.drop (len.toNat * cnt.toNat % 65536)) := by
  have hc : Continues RecordSpecificationElement.deserialize
      (octets 4 id.toNat ++ (octets 4 sn.toNat ++ (octets 2 len.toNat ++ octets 2 cnt.toNat)))
      (do let n ← mulU16 len cnt; getN getU8 n.toNat)
      (fun l => ⟨id, sn, len, cnt, l⟩) := by
    refine Continues.bind (reads_u32 id) <| Continues.bind (reads_u32 sn) <|
      Continues.bind (reads_u16 len) <| Continues.last (reads_u16 cnt) ?_
    intro prof rest
    rw [List.nil_append]
    simp only [M.bind_run]
    cases mulU16 len cnt prof rest with
    | error e => rfl
    | ok p =>
      obtain ⟨a, b⟩ := p
      simp only
      cases getN getU8 a.toNat prof b <;> rfl
  have := hc prof rest
  simp only [List.append_assoc] at this ⊢
  rw [this, M.bind_run, mulU16_run]
  by_cases ho : prof.overflowChecks = true ∧ 65536 ≤ len.toNat * cnt.toNat
  · rw [if_pos ho, if_pos ho]
  · rw [if_neg ho, if_neg ho]
    simp only
    rw [getN_u8]
    have hn : (UInt16.ofNat (len.toNat * cnt.toNat)).toNat = len.toNat * cnt.toNat % 65536 := by simp
    rw [hn]
    by_cases hl : rest.length < len.toNat * cnt.toNat % 65536
    · rw [if_pos hl, if_pos hl]
    · rw [if_neg hl, if_neg hl]

/-- It round-trips, in every build profile, exactly when the product fits 16 bits and is the number of
octets stored. -/
theorem C30_roundtrip (x : RecordSpecificationElement) :
    (∀ prof rest, ∃ w, x.serialize prof [] = .ok ((), w) ∧
      RecordSpecificationElement.deserialize prof (w ++ rest) = .ok (x, rest)) ↔
    (x.record_length.toNat * x.record_count.toNat < 65536 ∧
      x.record_length.toNat * x.record_count.toNat = x.record_values.length) := by
  constructor
  · intro h
    have h1 : x.record_length.toNat * x.record_count.toNat < 65536 := by
      rcases Nat.lt_or_ge (x.record_length.toNat * x.record_count.toNat) 65536 with h1 | h1
      · exact h1
      · obtain ⟨w, hw, _⟩ := h ⟨true⟩ []
        rw [(C30_serialize x ⟨true⟩ []).1 rfl h1] at hw
        cases hw
    obtain ⟨w, hw, hd⟩ := h ⟨true⟩ []
    obtain ⟨ha, hb⟩ := (C30_serialize x ⟨true⟩ []).2 (.inr h1)
    have hm : x.record_length.toNat * x.record_count.toNat % 65536 = x.record_length.toNat * x.record_count.toNat :=
      Nat.mod_eq_of_lt h1
    rw [hm] at ha hb
    rcases Nat.lt_or_ge x.record_values.length (x.record_length.toNat * x.record_count.toNat) with h2 | h2
    · rw [ha h2] at hw; cases hw
    · rw [hb h2] at hw
      simp only [List.nil_append, Except.ok.injEq, Prod.mk.injEq, true_and] at hw
      rw [← hw, List.append_nil, C30_deserialize, if_neg (by omega), if_neg (by rw [List.length_take]; omega), hm] at hd
      simp only [Except.ok.injEq, Prod.mk.injEq] at hd
      have := congrArg (fun y => y.record_values.length) hd.1
      simp only [List.length_take] at this
      exact ⟨h1, by omega⟩
  · rintro ⟨h1, h2⟩ prof rest
    refine ⟨wire x, ?_, RecordSpecificationElement.reads x ⟨h1, h2⟩ prof rest⟩
    have := RecordSpecificationElement.sent_of_ok x ⟨h1, h2⟩
    have hw := x.writes this.1 prof []
    rwa [this.2] at hw

/-- All four outcomes occur. -/
example : (⟨1, 2, 256, 256, []⟩ : RecordSpecificationElement).serialize ⟨true⟩ [] = .error .arithmeticOverflow ∧
    (⟨1, 2, 256, 256, []⟩ : RecordSpecificationElement).serialize ⟨false⟩ [] =
      .ok ((), [0, 0, 0, 1, 0, 0, 0, 2, 1, 0, 1, 0]) ∧
    (⟨1, 2, 2, 1, [7]⟩ : RecordSpecificationElement).serialize ⟨true⟩ [] = .error .indexOutOfBounds ∧
    (⟨1, 2, 2, 1, [7, 8]⟩ : RecordSpecificationElement).serialize ⟨true⟩ [] =
      .ok ((), [0, 0, 0, 1, 0, 0, 0, 2, 0, 2, 0, 1, 7, 8]) := by decide +kernel

/-- The length claimed counts all octets stored, whatever is written. -/
theorem C30_length (x : RecordSpecificationElement) : field_len x = 12 + x.record_values.length := by
  show 4 + 4 + 2 + 2 + field_len x.record_values = _
  rw [field_len_bytes]

end Dis
