import Verif.Proofs.Leaves
import Verif.Spec.FieldTable
import Verif.Properties.Header
import Verif.Properties.Panics
/-
C54: what is left of a buffer when a call panics.
-/
set_option maxRecDepth 8000
namespace Dis

/-! ### Decoding -/

instance {B : Type} [PduBody B] [Steps (PduBody.deserializeBody : Get B)] :
    Steps (Pdu.deserialize : Get (Except DISError (Pdu B))) := by
  unfold Pdu.deserialize; infer_instance
instance {B : Type} [PduBody B] [Steps (PduBody.deserializeBody : Get B)] (h : PduHeader) :
    Steps (Pdu.deserialize_without_header h : Get (Except DISError (Pdu B))) := by
  unfold Pdu.deserialize_without_header; infer_instance

theorem Steps.suffix {α : Type} (g : Get α) [Steps g] (prof : Profile) (b : Bytes) :
    (∃ taken, b = taken ++ g.left prof b) ∧
    (g prof b = .error .bufferUnderflow → (g.left prof b).length < 8) := by
  refine ⟨⟨b.take (octetsTaken (g.log prof b)), ?_⟩, Steps.short prof b⟩
  rw [Steps.left_eq, List.take_append_drop]

/-- Decoding a whole message, on any input: when it ends - with a PDU, with an error or with a panic - what is left in the
buffer is the end of what was there; octets are taken from the front only, and none is changed.  After the panic of a
message that is too short, fewer than eight octets are left. -/
theorem C54_decode (k : PduKind) (prof : Profile) (b : Bytes) :
    (∃ taken, b = taken ++ k.decode.left prof b) ∧
    (k.decode prof b = .error .bufferUnderflow → (k.decode.left prof b).length < 8) :=
  have := k.steps
  Steps.suffix _ prof b

/-- A create entity message of 28 octets, cut off after 26: its last field, four octets, is incomplete. -/
example : let b : Bytes := octets 12 0x07010B0500000000001C0000 ++ octets 14 0x0102030405060708090A0B0C0D0E
    PduKind.CreateEntity.decode ⟨true⟩ b = .error .bufferUnderflow ∧
    PduKind.CreateEntity.decode.left ⟨true⟩ b = [0x0D, 0x0E] := by
  decide +kernel

/-- The same for decoding after a header that was read before. -/
theorem C54_decode_without_header (k : PduKind) (hd : PduHeader) (prof : Profile) (b : Bytes) :
    let decode := (Pdu.deserialize_without_header hd : Get (Except DISError (Pdu k.Body)))
    (∃ taken, b = taken ++ decode.left prof b) ∧
    (decode prof b = .error .bufferUnderflow → (decode.left prof b).length < 8) :=
  have := k.steps
  Steps.suffix _ prof b

/-- nine octets after a header of a create entity message -/
example : let decode := (Pdu.deserialize_without_header (PduHeader.default 0) : Get (Except DISError (Pdu CreateEntityPdu)))
    decode ⟨true⟩ [1, 2, 3, 4, 5, 6, 7, 8, 9] = .error .bufferUnderflow ∧ decode.left ⟨true⟩ [1, 2, 3, 4, 5, 6, 7, 8, 9] = [9] := by
  decide +kernel

/-- The same for every record type by itself, as a method and as a field. -/
theorem C54_records : ∀ r ∈ recordFields, ∀ (prof : Profile) (b : Bytes),
    ((∃ taken, b = taken ++ r.de.left prof b) ∧
      (r.de prof b = .error .bufferUnderflow → (r.de.left prof b).length < 8)) ∧
    ((∃ taken, b = taken ++ r.fieldDe.left prof b) ∧
      (r.fieldDe prof b = .error .bufferUnderflow → (r.fieldDe.left prof b).length < 8)) := by
  have h : ∀ r ∈ recordFields, Steps r.de ∧ Steps r.fieldDe := by
    unfold recordFields
    repeat refine List.forall_mem_cons.mpr ⟨⟨by dsimp only; infer_instance, by dsimp only; infer_instance⟩, ?_⟩
    exact fun _ h => nomatch h
  intro r hr prof b
  have := (h r hr).1
  have := (h r hr).2
  exact ⟨Steps.suffix _ prof b, Steps.suffix _ prof b⟩

example : EntityId.deserialize ⟨true⟩ [1, 2, 3, 4, 5] = .error .bufferUnderflow ∧
    EntityId.deserialize.left ⟨true⟩ [1, 2, 3, 4, 5] = [5] := by
  decide +kernel

/-- A header that is cut off: the fields that are there completely are taken, the rest is left. -/
theorem C54_header (prof : Profile) (b : Bytes) (h : b.length < 12) :
    PduHeader.deserialize prof b = .error .bufferUnderflow ∧
    PduHeader.deserialize.left prof b =
      if b.length < 4 then [] else if b.length < 8 then b.drop 4 else if b.length < 10 then b.drop 8 else [] := by
  match b, h with
  | [], _ => exact ⟨rfl, rfl⟩
  | [_], _ => exact ⟨rfl, rfl⟩
  | [_, _], _ => exact ⟨rfl, rfl⟩
  | [_, _, _], _ => exact ⟨rfl, rfl⟩
  | [_, _, _, _], _ => exact ⟨rfl, rfl⟩
  | [_, _, _, _, _], _ => exact ⟨rfl, rfl⟩
  | [_, _, _, _, _, _], _ => exact ⟨rfl, rfl⟩
  | [_, _, _, _, _, _, _], _ => exact ⟨rfl, rfl⟩
  | [_, _, _, _, _, _, _, _], _ => exact ⟨rfl, rfl⟩
  | [_, _, _, _, _, _, _, _, _], _ => exact ⟨rfl, rfl⟩
  | [_, _, _, _, _, _, _, _, _, _], _ => exact ⟨rfl, rfl⟩
  | [_, _, _, _, _, _, _, _, _, _, _], _ => exact ⟨rfl, rfl⟩
  | _ :: _ :: _ :: _ :: _ :: _ :: _ :: _ :: _ :: _ :: _ :: _ :: _, h => exact absurd h (by simp)

/-- Six of twelve octets: the time stamp is incomplete. -/
example := C54_header ⟨true⟩ [7, 1, 26, 4, 0, 0] (by decide)

/-! ### Encoding -/

instance {B : Type} [PduBody B] [∀ x : B, Puts (PduBody.serializeBody x)] (p : Pdu B) : Puts p.serialize := by
  unfold Pdu.serialize
  dsimp only
  split <;> infer_instance

theorem Pdu.left_eq {B : Type} [PduBody B] [∀ x : B, Puts (PduBody.serializeBody x)] (p : Pdu B) (prof : Profile)
    (buf : Bytes) (h : 12 + PduBody.fieldsLen (PduBody.prep p.body) < 65536) :
    p.serialize.left prof buf =
      buf ++ (wire p.after.header ++ appended ((PduBody.serializeBody (PduBody.prep p.body)).log prof [])) := by
  rw [Puts.left_eq]
  congr 1
  have e : p.serialize = (do
      p.after.header.serialize
      PduBody.serializeBody (PduBody.prep p.body)
      return (p.after, .ok ())) := by
    unfold Pdu.serialize Pdu.calculate_length
    simp only [PduHeader.LENGTH, PduHeader.set_pdu_type, PduHeader.set_protocol_family, h, if_true,
      PduHeader.set_length]
    rfl
  rw [e, M.bind_log, PduHeader.writes p.after.header prof [], appended_append,
    Puts.appended_ok _ (PduHeader.writes p.after.header prof [])]
  congr 1
  show appended ((PduBody.serializeBody (PduBody.prep p.body) >>= _).log prof _) = _
  rw [M.bind_log, appended_append, Puts.same (p := PduBody.serializeBody (PduBody.prep p.body)) prof _ []]
  split <;> exact List.append_nil _

/-- Serializing, for any PDU of any kind: when it ends - successfully, with an error or with a panic - the buffer holds what
it held before, unchanged, followed by octets that do not depend on what was there. -/
theorem C54_encode (k : PduKind) (p : Pdu k.Body) (prof : Profile) :
    ∃ w, ∀ buf, p.serialize.left prof buf = buf ++ w :=
  have := k.puts
  ⟨_, fun buf => Puts.left_eq _ prof buf⟩

/-- The same for every record type by itself, as a method and as a field. -/
theorem C54_encode_records : ∀ r ∈ recordFields, ∀ (x : r.Val) (prof : Profile),
    (∃ w, ∀ buf, (r.ser x).left prof buf = buf ++ w) ∧ (∃ w, ∀ buf, (r.fieldSer x).left prof buf = buf ++ w) := by
  have h : ∀ r ∈ recordFields, ∀ x, Puts (r.ser x) ∧ Puts (r.fieldSer x) := by
    unfold recordFields
    repeat refine List.forall_mem_cons.mpr ⟨fun x => ⟨by dsimp only; infer_instance, by dsimp only; infer_instance⟩, ?_⟩
    exact fun _ h => nomatch h
  intro r hr x prof
  have := (h r hr x).1
  have := (h r hr x).2
  exact ⟨⟨_, fun buf => Puts.left_eq _ prof buf⟩, ⟨_, fun buf => Puts.left_eq _ prof buf⟩⟩

theorem Pdu.leaves {B : Type} [PduBody B] [Wire B] [Enc B] [∀ x : B, Puts (PduBody.serializeBody x)] (p : Pdu B)
    (prof : Profile) (buf : Bytes) (h : 12 + PduBody.fieldsLen (PduBody.prep p.body) < 65536) {n : Nat}
    (hl : Leaves (PduBody.serializeBody (PduBody.prep p.body)) prof (wire (sent (PduBody.prep p.body))) n) :
    p.serialize.left prof buf = buf ++ (wire p.after.header ++ wire (sent p.after.body)).take (12 + n) := by
  rw [Pdu.left_eq p prof buf h, hl.2, ← PduHeader.wire_length p.after.header, List.take_length_add_append]
  rfl

/-- A transfer ownership PDU that is not refused as too large: whether or not serializing it panics (C40 says when), what is
appended is the beginning of the message that it stands for (Spec/Message), with the type, the family and the declared
length filled in: header, fixed part and number of record sets (40 octets), and the sets until the first at which
the call panics. -/
theorem C54_transfer_ownership (p : Pdu TransferOwnershipPdu) (prof : Profile) (buf : Bytes)
    (h : declaredOctets p ≤ 65535) :
    ∃ q : Pdu TransferOwnershipPdu, q.body = p.body ∧
      q.header = { p.header with pdu_type := q.header.pdu_type, protocol_family := q.header.protocol_family
                                 length := q.header.length } ∧
      q.header.pdu_type.code = 35 ∧ q.header.protocol_family.code = 7 ∧ (q.header.length.toNat : Int) = declaredOctets p ∧
      p.serialize.left prof buf = buf ++ (Field.octetsOf (PduKind.message .TransferOwnership q)).take
        (40 + setsUntilPanic prof.overflowChecks p.body.record_information.record_sets) := by
  have hl : 12 + PduBody.fieldsLen p.body < 65536 := by
    rw [declaredOctets_eq] at h; omega
  refine ⟨p.after, rfl, rfl, rfl, rfl, ?_, ?_⟩
  · rw [declaredOctets_eq]
    show ((UInt16.ofNat (12 + PduBody.fieldsLen p.body)).toNat : Int) = _
    rw [UInt16.toNat_ofNat_of_lt' (by simpa [UInt16.size] using hl)]
  · have : ∀ x : TransferOwnershipPdu, Puts (PduBody.serializeBody x) := PduKind.puts .TransferOwnership
    rw [PduKind.message_octets .TransferOwnership p.after,
      Pdu.leaves p prof buf hl (TransferOwnershipPdu.leaves p.body prof)]
    congr 2
    omega

/-- a transfer ownership PDU whose one record set announces 2 × 2 octets of values and holds three -/
def C54_short_set : Pdu TransferOwnershipPdu :=
  ⟨PduHeader.default 0, { (Pdu.new 0 : Pdu TransferOwnershipPdu).body with
    record_information := ⟨1, [⟨7, 8, 2, 2, [1, 2, 3]⟩]⟩ }⟩

example := C54_transfer_ownership C54_short_set ⟨true⟩ [9] (by decide +kernel)

/-- The same for a set record PDU; its fixed part, with header and number of record sets, also has 40 octets. -/
theorem C54_set_record (p : Pdu SetRecordReliablePdu) (prof : Profile) (buf : Bytes)
    (h : declaredOctets p ≤ 65535) :
    ∃ q : Pdu SetRecordReliablePdu, q.body = p.body ∧
      q.header = { p.header with pdu_type := q.header.pdu_type, protocol_family := q.header.protocol_family
                                 length := q.header.length } ∧
      q.header.pdu_type.code = 64 ∧ q.header.protocol_family.code = 10 ∧ (q.header.length.toNat : Int) = declaredOctets p ∧
      p.serialize.left prof buf = buf ++ (Field.octetsOf (PduKind.message .SetRecordReliable q)).take
        (40 + setsUntilPanic prof.overflowChecks p.body.record_sets.record_sets) := by
  have hl : 12 + PduBody.fieldsLen p.body < 65536 := by
    rw [declaredOctets_eq] at h; omega
  refine ⟨p.after, rfl, rfl, rfl, rfl, ?_, ?_⟩
  · rw [declaredOctets_eq]
    show ((UInt16.ofNat (12 + PduBody.fieldsLen p.body)).toNat : Int) = _
    rw [UInt16.toNat_ofNat_of_lt' (by simpa [UInt16.size] using hl)]
  · have : ∀ x : SetRecordReliablePdu, Puts (PduBody.serializeBody x) := PduKind.puts .SetRecordReliable
    rw [PduKind.message_octets .SetRecordReliable p.after,
      Pdu.leaves p prof buf hl (SetRecordReliablePdu.leaves p.body prof)]
    congr 2
    omega

example := C54_set_record ⟨PduHeader.default 0, { (Pdu.new 0 : Pdu SetRecordReliablePdu).body with
    record_sets := ⟨1, [⟨7, 8, 2, 2, [1, 2, 3]⟩]⟩ }⟩ ⟨true⟩ [9] (by decide +kernel)

theorem setsUntilPanic_le (checked : Bool) (xs : List RecordSpecificationElement) :
    setsUntilPanic checked xs ≤ field_len xs := by
  induction xs with
  | nil => exact Nat.le_refl _
  | cons x xs ih =>
    have h1 : field_len (x :: xs) = field_len x + field_len xs := rfl
    have h2 : field_len x = 12 + x.record_values.length := by
      show 4 + 4 + 2 + 2 + field_len x.record_values = _
      rw [field_len_bytes]
    unfold setsUntilPanic
    dsimp only
    split
    · omega
    · split <;> omega

theorem PduHeader.front (hd : PduHeader) (v : Bytes) :
    bigEndian (((wire hd ++ v).drop 8).take 2) = hd.length.toNat ∧
    (wire hd ++ v).getD 2 0 = UInt8.ofNat hd.pdu_type.code ∧
    (wire hd ++ v).getD 3 0 = UInt8.ofNat hd.protocol_family.code := by
  have h := (C02_header_layout hd ⟨true⟩ []).1
  rw [PduHeader.writes hd ⟨true⟩ []] at h
  simp only [Except.ok.injEq, Prod.mk.injEq, true_and, List.nil_append] at h
  rw [h]
  refine ⟨?_, rfl, rfl⟩
  show (UInt8.ofNat (hd.length.toNat / 2 ^ 8)).toNat * 256 ^ 1 + ((UInt8.ofNat hd.length.toNat).toNat * 256 ^ 0 + 0) = _
  have := hd.length.toNat_lt
  rw [UInt8.toNat_ofNat', UInt8.toNat_ofNat']
  omega

theorem Pdu.left_header {B : Type} [PduBody B] [Wire B] [Enc B] [∀ x : B, Puts (PduBody.serializeBody x)] (p : Pdu B)
    (prof : Profile) (buf : Bytes) (h : 12 + PduBody.fieldsLen (PduBody.prep p.body) < 65536) {n : Nat} (hn : 28 ≤ n)
    (hf : n ≤ PduBody.fieldsLen (PduBody.prep p.body))
    (hl : Leaves (PduBody.serializeBody (PduBody.prep p.body)) prof (wire (sent (PduBody.prep p.body))) n) :
    ∃ w, p.serialize.left prof buf = buf ++ w ∧ 40 ≤ w.length ∧ w.length ≤ bigEndian ((w.drop 8).take 2) ∧
      bigEndian ((w.drop 8).take 2) = 12 + PduBody.fieldsLen (PduBody.prep p.body) ∧
      w.getD 2 0 = UInt8.ofNat (PduBody.pduType B).code ∧ w.getD 3 0 = UInt8.ofNat (PduBody.family B).code := by
  refine ⟨wire p.after.header ++ (wire (sent (PduBody.prep p.body))).take n, ?_, ?_, ?_, ?_, ?_, ?_⟩
  · rw [Pdu.leaves p prof buf h hl, ← PduHeader.wire_length p.after.header, List.take_length_add_append]
    rfl
  · rw [List.length_append, PduHeader.wire_length, List.length_take]
    have := hl.1
    omega
  · rw [(PduHeader.front _ _).1, List.length_append, PduHeader.wire_length, List.length_take]
    show _ ≤ (UInt16.ofNat _).toNat
    rw [UInt16.toNat_ofNat_of_lt' (by simpa [UInt16.size] using h)]
    omega
  · rw [(PduHeader.front _ _).1]
    exact UInt16.toNat_ofNat_of_lt' (by simpa [UInt16.size] using h)
  · rw [(PduHeader.front _ _).2.1]; rfl
  · rw [(PduHeader.front _ _).2.2]; rfl

/-- A call that panics has appended a complete header, with the type and family of the kind, and all in all at least 40
octets and no more than the length that this header declares - possibly exactly as many (see the example). -/
theorem C54_panic_leaves_a_header (k : PduKind) (p : Pdu k.Body) (prof : Profile) (buf : Bytes) (e : Panic)
    (h : p.serialize prof buf = .error e) :
    ∃ w, p.serialize.left prof buf = buf ++ w ∧ 40 ≤ w.length ∧ w.length ≤ bigEndian ((w.drop 8).take 2) ∧
      (bigEndian ((w.drop 8).take 2) : Int) = declaredOctets p ∧
      w.getD 2 0 = UInt8.ofNat k.typeCode ∧ w.getD 3 0 = UInt8.ofNat k.familyCode := by
  by_cases hk : k.hasRecordSets = false
  · obtain ⟨q, r, buf', h'⟩ := C40_serialize_no_panic k hk p prof buf
    rw [h] at h'; cases h'
  · rw [declaredOctets_eq]
    cases k
    case TransferOwnership =>
      let p : Pdu TransferOwnershipPdu := p
      have : ∀ x : TransferOwnershipPdu, Puts (PduBody.serializeBody x) := PduKind.puts .TransferOwnership
      have hl := ((C40_transfer_ownership p prof buf).mp ⟨e, h⟩).1
      rw [declaredOctets_eq] at hl
      have hs := setsUntilPanic_le prof.overflowChecks p.body.record_information.record_sets
      have hf : PduBody.fieldsLen p.body = 6 + 6 + 4 + 1 + 1 + 6 + (4 + field_len p.body.record_information.record_sets) :=
        rfl
      obtain ⟨w, h1, h2, h3, h4, h5, h6⟩ := Pdu.left_header p prof buf (by show 12 + PduBody.fieldsLen p.body < 65536; omega)
        (by omega) (by show _ ≤ PduBody.fieldsLen p.body; omega) (TransferOwnershipPdu.leaves p.body prof)
      exact ⟨w, h1, h2, h3, by rw [h4]; rfl, h5, h6⟩
    case SetRecordReliable =>
      let p : Pdu SetRecordReliablePdu := p
      have : ∀ x : SetRecordReliablePdu, Puts (PduBody.serializeBody x) := PduKind.puts .SetRecordReliable
      have hl := ((C40_set_record p prof buf).mp ⟨e, h⟩).1
      rw [declaredOctets_eq] at hl
      have hs := setsUntilPanic_le prof.overflowChecks p.body.record_sets.record_sets
      have hf : PduBody.fieldsLen p.body = 6 + 6 + 4 + 1 + 1 + 2 + 4 + (4 + field_len p.body.record_sets.record_sets) := rfl
      obtain ⟨w, h1, h2, h3, h4, h5, h6⟩ := Pdu.left_header p prof buf (by show 12 + PduBody.fieldsLen p.body < 65536; omega)
        (by omega) (by show _ ≤ PduBody.fieldsLen p.body; omega) (SetRecordReliablePdu.leaves p.body prof)
      exact ⟨w, h1, h2, h3, by rw [h4]; rfl, h5, h6⟩
    all_goals exact absurd rfl hk

example := C54_panic_leaves_a_header .TransferOwnership C54_short_set ⟨true⟩ [9] .indexOutOfBounds (by decide +kernel)

/-! ### The PDU itself -/

theorem Pdu.assigned_eq {B : Type} [PduBody B] (p : Pdu B) :
    p.assigned = if 12 + PduBody.fieldsLen (PduBody.prep p.body) < 65536 then (p.after, .ok ())
      else (p.afterErr, .error (.PduSizeExceeded (12 + PduBody.fieldsLen (PduBody.prep p.body)) 8192)) := by
  unfold Pdu.assigned Pdu.calculate_length
  simp only [PduHeader.LENGTH, PduHeader.set_pdu_type, PduHeader.set_protocol_family]
  by_cases h : 12 + PduBody.fieldsLen (PduBody.prep p.body) < 65536
  · simp only [h, if_true]; rfl
  · simp only [h, if_false]; rfl

theorem Pdu.serialize_assigned {B : Type} [PduBody B] (p : Pdu B) :
    p.serialize = (match p.assigned with
      | (s, .error e) => pure (s, .error e)
      | (s, .ok _) => do
        s.header.serialize
        PduBody.serializeBody s.body
        return (s, .ok ())) := by
  unfold Pdu.serialize Pdu.assigned
  dsimp only
  split <;> simp_all

/-- What `serialize` does to the PDU it is called on (`Pdu.assigned`: the assignments, which come before the first write)
is what it returns, if it returns. -/
theorem C54_assignments_returned (k : PduKind) (p : Pdu k.Body) (prof : Profile) (buf : Bytes) :
    (∃ e, p.serialize prof buf = .error e) ∨ ∃ buf', p.serialize prof buf = .ok (p.assigned, buf') := by
  rw [Pdu.serialize_eq, Pdu.assigned_eq]
  split
  · cases h : PduBody.serializeBody (PduBody.prep p.body) prof (buf ++ wire p.after.header) with
    | error e => exact .inl ⟨e, rfl⟩
    | ok r => exact .inr ⟨_, rfl⟩
  · exact .inr ⟨_, rfl⟩

/-- After a panic of `serialize` the PDU is what it was, but for the type, the family and the length in its header, which
are filled in as if the call had succeeded. -/
theorem C54_pdu_after_panic (k : PduKind) (p : Pdu k.Body) (prof : Profile) (buf : Bytes) (e : Panic)
    (h : p.serialize prof buf = .error e) :
    p.assigned.1.body = p.body ∧
    p.assigned.1.header = { p.header with pdu_type := p.assigned.1.header.pdu_type
                                          protocol_family := p.assigned.1.header.protocol_family
                                          length := p.assigned.1.header.length } ∧
    p.assigned.1.header.pdu_type.code = k.typeCode ∧ p.assigned.1.header.protocol_family.code = k.familyCode ∧
    (p.assigned.1.header.length.toNat : Int) = declaredOctets p := by
  have hl : 12 + PduBody.fieldsLen (PduBody.prep p.body) < 65536 := by
    rw [Pdu.serialize_eq] at h
    split at h
    · assumption
    · cases h
  have hb : PduBody.prep p.body = p.body := by
    cases k
    case Transmitter =>
      obtain ⟨q, r, buf', h'⟩ := C40_serialize_no_panic .Transmitter rfl p prof buf
      rw [h] at h'; cases h'
    all_goals rfl
  rw [Pdu.assigned_eq, if_pos hl]
  refine ⟨hb, rfl, k.type_code, k.family_code, ?_⟩
  rw [declaredOctets_eq]
  show ((UInt16.ofNat (12 + PduBody.fieldsLen (PduBody.prep p.body))).toNat : Int) = _
  rw [UInt16.toNat_ofNat_of_lt' (by simpa [UInt16.size] using hl), hb]

example := C54_pdu_after_panic .TransferOwnership C54_short_set ⟨true⟩ [9] .indexOutOfBounds (by decide +kernel)

/-- Serializing a PDU again after a panic (or after a refusal, or after success), into any buffer, is exactly what
serializing it the first time would have been: it panics again in the same way, after appending the same octets. -/
theorem C54_again (k : PduKind) (p : Pdu k.Body) (prof : Profile) (buf : Bytes) :
    p.assigned.1.serialize prof buf = p.serialize prof buf ∧
    p.assigned.1.serialize.left prof buf = p.serialize.left prof buf ∧ p.assigned.1.assigned = p.assigned := by
  have e : p.assigned.1.assigned = p.assigned := by
    rw [Pdu.assigned_eq p]
    split
    · next h =>
      have hp : PduBody.prep p.after.body = PduBody.prep p.body := LawfulBody.prep_idem _
      rw [Pdu.assigned_eq, hp, if_pos h, Pdu.after_after]
    · next h =>
      have hp : PduBody.prep p.afterErr.body = PduBody.prep p.body := LawfulBody.prep_idem _
      rw [Pdu.assigned_eq, hp, if_neg h]
      unfold Pdu.afterErr
      rw [LawfulBody.prep_idem]
  have hs : p.assigned.1.serialize = p.serialize := by
    rw [Pdu.serialize_assigned, e, ← Pdu.serialize_assigned]
  exact ⟨by rw [hs], by rw [hs], e⟩

/-- `C54_short_set` panics, and leaves 55 octets behind after what was there: as many as the header among them declares. -/
example : C54_short_set.serialize ⟨false⟩ [9] = .error .indexOutOfBounds ∧
    ∃ w, C54_short_set.serialize.left ⟨false⟩ [9] = 9 :: w ∧ w.length = 55 ∧ (w.drop 8).take 2 = [0, 55] ∧
      w.drop 52 = [1, 2, 3] := by
  refine ⟨by decide +kernel, (C54_short_set.serialize.left ⟨false⟩ [9]).tail, by decide +kernel, by decide +kernel,
    by decide +kernel, by decide +kernel⟩

/-- The PDU then bears its type, family and length; it panics again. -/
example : C54_short_set.header.length = 0 ∧ C54_short_set.assigned.1.header.length = 55 ∧
    C54_short_set.assigned.1.header.pdu_type.code = 35 ∧
    C54_short_set.assigned.1.serialize ⟨false⟩ [1, 2] = .error .indexOutOfBounds := by
  decide +kernel

/-- What was left decodes - into another panic, which leaves nothing. -/
example : ∃ w, C54_short_set.serialize.left ⟨false⟩ [] = w ∧
    (decodeAs TransferOwnershipPdu) ⟨false⟩ w = .error .bufferUnderflow ∧
    (decodeAs TransferOwnershipPdu).left ⟨false⟩ w = [] :=
  ⟨_, rfl, by decide +kernel, by decide +kernel⟩

/-- An overflow that is checked: of the two sets, the header of the first is left. -/
example : let p : Pdu TransferOwnershipPdu := ⟨PduHeader.default 0, { C54_short_set.body with
      record_information := ⟨2, [⟨7, 8, 256, 256, [1, 2, 3]⟩, ⟨9, 9, 0, 0, []⟩]⟩ }⟩
    p.serialize ⟨true⟩ [] = .error .arithmeticOverflow ∧
    (p.serialize.left ⟨true⟩ []).length = 52 ∧ setsUntilPanic true p.body.record_information.record_sets = 12 := by
  decide +kernel

end Dis
