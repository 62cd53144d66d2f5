import Verif.Proofs.RecordTable
import Verif.Proofs.Counted
import Verif.Proofs.RoundTrip
/-
The records of src/common/data_types taken by themselves: C18, C19 (round trip, length), C26-C28, C30, C35,
and the record halves of C05, C14, C39.
-/
set_option maxRecDepth 4000
namespace Dis

/-! ### C18, C19, C14: records of fixed size -/

/-- Every record of fixed size that transmits all its fields, for every value: serializing appends its
wire image, nothing else; that has the type's size; and decoding it, whatever follows, gives the value
back and leaves what follows. -/
theorem C18_roundtrip : ∀ r ∈ fixedRecords, ∀ x : r.Val,
    (∀ prof buf, r.ser x prof buf = .ok ((), buf ++ r.wire x)) ∧ (r.wire x).length = r.size ∧
    (∀ prof rest, r.de prof (r.wire x ++ rest) = .ok (x, rest)) :=
  fun r hr x => have h := fixedRecords_lawful r hr
    ⟨h.writes x, h.wire_length x, h.reads x⟩

/-- Its decoder, on every input: panics when fewer octets than the size are there, and otherwise succeeds
and takes exactly that many; the value is determined by them alone. -/
theorem C14_records : ∀ r ∈ fixedRecords, ∃ f : Bytes → r.Val, ∀ prof b,
    (b.length < r.size → r.de prof b = .error .bufferUnderflow) ∧
    (r.size ≤ b.length → r.de prof b = .ok (f (b.take r.size), b.drop r.size)) := by
  intro r hr
  obtain ⟨f, h⟩ := (fixedRecords_lawful r hr).fixed
  refine ⟨f, fun prof b => ⟨fun hb => ?_, fun hb => ?_⟩⟩
  · rw [h, if_pos hb]
  · rw [h, if_neg (by omega)]

/-- Decoding anything, encoding the result and decoding again gives the same value, and encoding that the
same octets. -/
theorem C24_records : ∀ r ∈ fixedRecords, ∀ prof b x rest, r.de prof b = .ok (x, rest) →
    ∃ w, (∀ buf, r.ser x prof buf = .ok ((), buf ++ w)) ∧ w.length = r.size ∧
      ∀ rest', r.de prof (w ++ rest') = .ok (x, rest') :=
  fun r hr prof _ x _ _ => have h := fixedRecords_lawful r hr
    ⟨r.wire x, h.writes x prof, h.wire_length x, h.reads x prof⟩

/-- Different values have different images, and no image is a proper prefix of another's. -/
theorem C36_records : ∀ r ∈ fixedRecords, ∀ x y : r.Val, ∀ u, r.wire x ++ u = r.wire y → x = y ∧ u = [] := by
  intro r hr x y u he
  have h := fixedRecords_lawful r hr
  have h1 := h.reads x ⟨true⟩ u
  have h2 := h.reads y ⟨true⟩ []
  rw [List.append_nil, ← he, h1] at h2
  simp only [Except.ok.injEq, Prod.mk.injEq] at h2
  exact h2

/-- `field_len` and the `LENGTH` constant, where the type has them, are the number of octets appended. -/
theorem C19_fixed : ∀ r ∈ fixedRecords, ∀ x : r.Val,
    (∀ prof buf, ∃ w, r.ser x prof buf = .ok ((), buf ++ w) ∧
      (∀ f, r.len = some f → f x = w.length) ∧ (∀ n, r.declared = some n → n = w.length)) := by
  intro r hr x prof buf
  have h := fixedRecords_lawful r hr
  refine ⟨r.wire x, h.writes x prof buf, h.len x, fun n hn => ?_⟩
  rw [h.wire_length]
  exact h.declared n hn

/-- The table is not empty; 48 record types are in it, among them this one. -/
example : fixedRecords.length = 48 := rfl
example : ∃ r ∈ fixedRecords, ∃ x : r.Val, ∃ w, r.name = "EntityId" ∧ r.size = 6 ∧
    r.ser x ⟨true⟩ [9] = .ok ((), 9 :: w) ∧ w = [0, 1, 2, 3, 4, 5] :=
  ⟨fixedRecords[9], List.getElem_mem _, (⟨⟨1, 0x203⟩, 0x405⟩ : EntityId), _, rfl, rfl, rfl, rfl⟩

/-! ### C05, C39: all records -/

/-- Every record type, every value: serializing either panics on every buffer, or appends the same octets
to every buffer. -/
theorem C05_records : ∀ r ∈ allRecords, ∀ (x : r.Val) prof,
    (∃ e, ∀ buf, r.ser x prof buf = .error e) ∨ (∃ w, ∀ buf, r.ser x prof buf = .ok ((), buf ++ w)) :=
  fun r hr x prof => (allRecords_lawful r hr).1 x prof

/-- Every record type, every input: what a successful decode leaves is a suffix of the input. -/
theorem C39_records : ∀ r ∈ allRecords, ∀ prof b x rest, r.de prof b = .ok (x, rest) → ∃ u, b = u ++ rest :=
  fun r hr => (allRecords_lawful r hr).2

example : allRecords.length = 64 := rfl

/-! ### C26: records ending in a counted list -/

/-- Every such record, every value whose elements are individually sound: the octets appended are the
fields and all the elements, whatever the count says (it is not repaired); decoding them, whatever
follows,
* when the count does not exceed the number of elements, gives the record with only the first `count`
  elements and leaves the images of the others;
* when it does, panics if nothing follows, and otherwise can only succeed by taking the missing elements
  from what follows. -/
theorem C26_counted : ∀ r ∈ countedRecords, ∀ x : r.Val, (∀ e ∈ r.list x, r.elemOk e) →
    (∀ prof buf, r.ser x prof buf = .ok ((), buf ++ (r.head x ++ (r.list x).flatMap r.elemWire))) ∧
    (r.count x ≤ (r.list x).length → ∀ prof rest,
      r.de prof (r.head x ++ (r.list x).flatMap r.elemWire ++ rest) =
        .ok (r.withList x ((r.list x).take (r.count x)),
          ((r.list x).drop (r.count x)).flatMap r.elemWire ++ rest)) ∧
    ((r.list x).length < r.count x →
      (∀ prof, r.de prof (r.head x ++ (r.list x).flatMap r.elemWire) = .error .bufferUnderflow) ∧
      (∀ prof rest y left, r.de prof (r.head x ++ (r.list x).flatMap r.elemWire ++ rest) = .ok (y, left) →
        ∃ more, y = r.withList x (r.list x ++ more) ∧ (r.list x ++ more).length = r.count x ∧
          more ≠ [] ∧ ∃ u, rest = u ++ left)) := by
  intro r hr x hx
  have h := countedRecords_lawful r hr
  have he : ∀ e ∈ r.list x, Reads r.elemDe (r.elemWire e) e := fun e he => h.elem e (hx e he)
  refine ⟨h.writes x hx, fun hc prof rest => ?_, fun hc => ⟨fun prof => ?_, fun prof rest y left hd => ?_⟩⟩
  · rw [List.append_assoc, h.step x prof]
    have h1 := getN_le (r.count x) (r.list x) he hc prof (((r.list x).drop (r.count x)).flatMap r.elemWire ++ rest)
    rw [← List.append_assoc, ← List.flatMap_append, List.take_append_drop] at h1
    rw [h1]
  · rw [h.step x prof]
    have h1 := getN_gt (r.list x) (r.count x - (r.list x).length) he prof []
    rw [show (r.list x).length + (r.count x - (r.list x).length) = r.count x by omega, List.append_nil,
      getN_empty h.elem_empty (by omega)] at h1
    rw [h1]
  · rw [List.append_assoc, h.step x prof] at hd
    have h1 := getN_gt (r.list x) (r.count x - (r.list x).length) he prof rest
    rw [show (r.list x).length + (r.count x - (r.list x).length) = r.count x by omega] at h1
    rw [h1] at hd
    cases hm : getN r.elemDe (r.count x - (r.list x).length) prof rest with
    | error e => rw [hm] at hd; cases hd
    | ok p =>
      rw [hm] at hd
      simp only [Except.ok.injEq, Prod.mk.injEq] at hd
      have hl := getN_length _ _ _ p.1 p.2 hm
      refine ⟨p.1, hd.1.symm, by rw [List.length_append]; omega, ?_, ?_⟩
      · intro hn
        rw [hn] at hl
        simp at hl
        omega
      · rw [← hd.2]
        exact (Consumes.n h.elem_consumes _) prof rest p.1 p.2 hm

/-- `withList` and `list` are what they say: replacing the list and looking at it. -/
theorem C26_lens : ∀ r ∈ countedRecords, ∀ x : r.Val,
    (∀ l, r.list (r.withList x l) = l ∧ r.count (r.withList x l) = r.count x) ∧ r.withList x (r.list x) = x :=
  fun r hr x => have h := countedRecords_lawful r hr
    ⟨fun l => ⟨h.lens₁ x l, h.count_eq x l⟩, h.lens₂ x⟩

/-- Such a record comes back from its own octets, with what follows left, exactly when the count is the
number of elements. -/
theorem C26_iff : ∀ r ∈ countedRecords, ∀ x : r.Val, (∀ e ∈ r.list x, r.elemOk e) →
    ((∀ prof rest, ∃ w, r.ser x prof [] = .ok ((), w) ∧ r.de prof (w ++ rest) = .ok (x, rest)) ↔
      r.count x = (r.list x).length) := by
  intro r hr x hx
  obtain ⟨hw, hle, hgt⟩ := C26_counted r hr x hx
  have h := countedRecords_lawful r hr
  constructor
  · intro hd
    obtain ⟨w, h1, h2⟩ := hd ⟨true⟩ []
    rw [hw] at h1
    simp only [List.nil_append, Except.ok.injEq, Prod.mk.injEq, true_and] at h1
    rw [← h1] at h2
    rcases Nat.lt_or_ge (r.list x).length (r.count x) with hc | hc
    · rw [List.append_nil, (hgt hc).1] at h2
      cases h2
    · rw [hle hc] at h2
      simp only [Except.ok.injEq, Prod.mk.injEq] at h2
      have := congrArg r.list h2.1
      rw [h.lens₁] at this
      have := congrArg List.length this
      rw [List.length_take] at this
      omega
  · intro hc prof rest
    refine ⟨_, hw prof [], ?_⟩
    rw [List.nil_append, hle (Nat.le_of_eq hc), hc, List.take_length, List.drop_length, h.lens₂]
    rfl

/-- The three cases, for an attribute record with two octets. -/
example : ∃ w, AttributeRecord.serialize ⟨7, 2, [5, 6]⟩ ⟨true⟩ [] = .ok ((), w) ∧
    AttributeRecord.deserialize ⟨true⟩ (w ++ [9]) = .ok (⟨7, 2, [5, 6]⟩, [9]) := ⟨_, rfl, by decide +kernel⟩
example : ∃ w, AttributeRecord.serialize ⟨7, 1, [5, 6]⟩ ⟨true⟩ [] = .ok ((), w) ∧
    AttributeRecord.deserialize ⟨true⟩ (w ++ [9]) = .ok (⟨7, 1, [5]⟩, [6, 9]) := ⟨_, rfl, by decide +kernel⟩
example : ∃ w, AttributeRecord.serialize ⟨7, 3, [5, 6]⟩ ⟨true⟩ [] = .ok ((), w) ∧
    AttributeRecord.deserialize ⟨true⟩ (w ++ [9]) = .ok (⟨7, 3, [5, 6, 9]⟩, []) ∧
    AttributeRecord.deserialize ⟨true⟩ w = .error .bufferUnderflow := ⟨_, rfl, by decide +kernel, by decide +kernel⟩

/-- Variable transmitter parameters write a four-octet type and read a one-octet one: whatever the record,
decoding its octets gives an empty record of type 0 and leaves the fourth octet and all that follows. So it
never round-trips. -/
theorem C26_transmitter_parameters (x : VariableTransmitterParameters) (prof : Profile) (buf rest : Bytes) :
    ∃ w, x.serialize prof buf = .ok ((), buf ++ w) ∧ w.length = field_len x ∧
      VariableTransmitterParameters.deserialize prof (w ++ rest) =
        .ok (⟨⟨0, by decide⟩, 0, []⟩, w.drop 3 ++ rest) ∧
      VariableTransmitterParameters.deserialize prof (w ++ rest) ≠ .ok (x, rest) := by
  have hw : wire x = [0, 0, 0, UInt8.ofNat x.record_type.code] ++ (wire x.record_length ++ wire x.record_specific_fields) := by
    show octets 4 x.record_type.code ++ _ = _
    have hc : ∀ c ∈ VariableParameterRecordType.spec.codes, octets 4 c = [0, 0, 0, UInt8.ofNat c] := by decide +kernel
    rw [hc _ x.record_type.mem]
  have hd : VariableTransmitterParameters.deserialize prof (wire x ++ rest) =
      .ok (⟨⟨0, by decide⟩, 0, []⟩, (wire x).drop 3 ++ rest) := by
    rw [hw]
    have hr : Reads VariableTransmitterParameters.deserialize [0, 0, 0] ⟨⟨0, by decide⟩, 0, []⟩ := by
      show Reads _ ([0] ++ [0, 0]) _
      refine Reads.bind (f := _) (a := (⟨0, by decide⟩ : VariableParameterRecordType)) ?_ ?_
      · exact fun prof rest => EnumSpec.readsAt_num VariableParameterRecordType.spec 0 (by decide) rest prof
      · exact Reads.last (a := 0) (fun prof rest => reads_u16 0 prof rest) (Reads.last (w := []) (Reads.ret _) (Reads.ret _))
    exact hr prof _
  refine ⟨wire x, x.writes prof buf, ?_, hd, ?_⟩
  · rw [x.wire_length]; rfl
  · rw [hd, hw]
    intro h
    simp only [Except.ok.injEq, Prod.mk.injEq] at h
    have := congrArg List.length h.2
    simp at this
    omega

/-- The decoder of entity identifiers on seven octets. -/
example := (C24_records fixedRecords[9] (List.getElem_mem _) ⟨true⟩ [0, 1, 2, 3, 4, 5, 6] (⟨⟨1, 0x203⟩, 0x405⟩ : EntityId) [6]
  rfl)
example := C36_records fixedRecords[9] (List.getElem_mem _) (⟨⟨1, 0x203⟩, 0x405⟩ : EntityId) (⟨⟨1, 0x203⟩, 0x405⟩ : EntityId) [] rfl

end Dis
