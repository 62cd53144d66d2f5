import Verif.Proofs.UserPdus
import Verif.Proofs.CrateDefinitions
import Verif.Properties.Pdu
/-
C62: PDUs that a user defines with `define_pdu!`.
-/
namespace Dis
open PduBody (fieldsLen prep)

/-! ### A definition to illustrate -/

/-- A user's type with a length from outside: some octets. -/
structure Blob where
  octets : Bytes
  deriving DecidableEq

/-- its implementations: an illustration, not code of /repo (the traits are those of src/pdu_macro.rs:14-32) -/
@[reducible] def Blob.type : FieldType where
  T := Blob
  ser x := putBytes x.octets
  len x := x.octets.length
  dflt := ⟨[]⟩

/-- an illustration, not code of /repo: `deserialize_with_len` that reads as many octets as it is told -/
def Blob.read (n : Nat) : Get Blob := do return ⟨← getBytes n⟩

/-- ```
define_pdu! { pub struct Report { header: PduHeader, pdu_type: PduType::Other, protocol_family: ProtocolFamily::Other,
  fields: { pub sender: u32, pub text_length: u8, #[len = text_length] pub text: Blob, pub kind: u16, pub notes: Vec<u16>, } } }
``` -/
def exampleDefinition : Definition where
  type := ⟨0, by decide⟩
  family := ⟨0, by decide⟩
  fields := [.of UInt32, .byte, .counted Blob.type Blob.read 1, .of UInt16, .of (List UInt16)]
  resolved := ⟨rfl, trivial⟩

/-- A value of it. -/
def exampleReport : Pdu exampleDefinition.Body :=
  ⟨exampleHeader, ((7 : UInt32), (99 : UInt8), (⟨[104, 105, 33]⟩ : Blob), (513 : UInt16), [(1 : UInt16), 2], ())⟩

/-- What `serialize` makes of it: the length field is set to three. -/
theorem exampleReport_serialize : ∃ q, exampleReport.serialize ⟨true⟩ [9] = .ok ((q, .ok ()),
    [9] ++ [6, 200, 0, 0, 1, 2, 3, 4, 0, 26, 0xAB, 0xCD] ++ [0, 0, 0, 7, 3, 104, 105, 33, 2, 1, 0, 1, 0, 2]) ∧
    q.body = ((7 : UInt32), (3 : UInt8), (⟨[104, 105, 33]⟩ : Blob), (513 : UInt16), [(1 : UInt16), 2], ()) :=
  ⟨_, rfl, rfl⟩

/-- The types of the crate that are tidy: those with an exact encoder. -/
theorem FieldType.of_tidy (T : Type) [FieldSerialize T] [FieldLen T] [RDefault T] [Wire T] [Enc T] [LawfulEnc T]
    [ExactEnc T] : (FieldType.of T).Tidy := fun x => by
  have hw := writes_exact x
  have ha : alone (serialize_field x) = wire x := by
    unfold alone
    rw [hw ⟨true⟩ []]
    rfl
  show (∀ prof buf, serialize_field x prof buf = .ok ((), buf ++ alone (serialize_field x))) ∧
    field_len x = (alone (serialize_field x)).length
  rw [ha]
  exact ⟨hw, len_exact x⟩

theorem exampleDefinition_tidy : exampleDefinition.Tidy := by
  refine List.forall_mem_cons.mpr ⟨FieldType.of_tidy UInt32, ?_⟩
  refine List.forall_mem_cons.mpr ⟨FieldType.of_tidy UInt8, ?_⟩
  refine List.forall_mem_cons.mpr ⟨fun x => ⟨fun _ _ => rfl, rfl⟩, ?_⟩
  refine List.forall_mem_cons.mpr ⟨FieldType.of_tidy UInt16, ?_⟩
  refine List.forall_mem_cons.mpr ⟨FieldType.of_tidy (List UInt16), ?_⟩
  exact fun _ h => nomatch h

/-! ### Serializing, for any field types whatever -/

theorem user_after (d : Definition) (p : Pdu d.Body) :
    p.after.header = { p.header with
      pdu_type := d.type, protocol_family := d.family
      length := UInt16.ofNat (12 + ((d.list p.body).map FieldValue.claims).sum) } := by
  have : fieldsLen (prep p.body) = ((d.list p.body).map FieldValue.claims).sum :=
    (Fields.prep_same d.fields p.body).2.trans (Fields.len_list d.fields p.body)
  unfold Pdu.after
  rw [this]
  rfl

/-- A PDU whose fields claim more than a 16-bit length can say is refused: the error has the length and the limit of
8192, the buffer is untouched.  A PDU whose fields claim less is not refused, and if no field panics the header left
behind declares what the fields claim. -/
theorem C62_declares (d : Definition) (p : Pdu d.Body) (prof : Profile) (buf : Bytes) :
    (65535 < 12 + ((d.list p.body).map FieldValue.claims).sum →
      ∃ q, p.serialize prof buf =
        .ok ((q, .error (.PduSizeExceeded (12 + ((d.list p.body).map FieldValue.claims).sum) 8192)), buf)) ∧
    (12 + ((d.list p.body).map FieldValue.claims).sum ≤ 65535 →
      ∀ q r buf', p.serialize prof buf = .ok ((q, r), buf') → r = .ok () ∧
        q.header.length.toNat = 12 + ((d.list p.body).map FieldValue.claims).sum ∧
        q.header.pdu_type = d.type ∧ q.header.protocol_family = d.family) := by
  have hl : fieldsLen (prep p.body) = ((d.list p.body).map FieldValue.claims).sum :=
    (Fields.prep_same d.fields p.body).2.trans (Fields.len_list d.fields p.body)
  rw [Pdu.serialize_eq, hl]
  constructor
  · intro h
    rw [if_neg (by omega)]
    exact ⟨_, rfl⟩
  · intro h q r buf'
    rw [if_pos (by omega)]
    intro e
    split at e
    · cases e
    · cases e
      refine ⟨rfl, ?_, rfl, rfl⟩
      rw [user_after]
      show (UInt16.ofNat _).toNat = _
      rw [UInt16.toNat_ofNat']
      omega

example := (C62_declares exampleDefinition exampleReport ⟨true⟩ [9]).2 (by decide +kernel) _ _ _
  exampleReport_serialize.choose_spec.1

/-- What `serialize` does to the value, however it ends.  Fields that no attribute names keep their values; a length
field holds the length of the last field that names it, or zero if that is over 255; of the header only type, family and
length change. -/
theorem C62_assigned (d : Definition) (p q : Pdu d.Body) (r : Except DISError Unit) (prof : Profile) (buf buf' : Bytes)
    (h : p.serialize prof buf = .ok ((q, r), buf')) :
    (∀ j : Nat, (∀ (i : Nat) (t : FieldType) (w : Nat → Get t.T), d.fields[i]? ≠ some (.counted t w j)) →
      (d.list q.body)[j]? = (d.list p.body)[j]?) ∧
    (∀ (i j : Nat) (t : FieldType) (w : Nat → Get t.T) (x : t.T), (d.list p.body)[i]? = some ⟨.counted t w j, x⟩ →
      (∀ (i' : Nat) (t' : FieldType) (w' : Nat → Get t'.T), i < i' → d.fields[i']? ≠ some (.counted t' w' j)) →
      (d.list q.body)[j]? = some ⟨.byte, if t.len x ≤ 255 then UInt8.ofNat (t.len x) else 0⟩ ∧
      (d.list q.body)[i]? = (d.list p.body)[i]?) ∧
    q.header = { p.header with pdu_type := d.type, protocol_family := d.family, length := q.header.length } := by
  have hq : q.body = prep p.body ∧
      q.header = { p.header with pdu_type := d.type, protocol_family := d.family, length := q.header.length } := by
    rw [Pdu.serialize_eq] at h
    split at h
    · split at h
      · cases h
      · cases h; exact ⟨rfl, rfl⟩
    · cases h; exact ⟨rfl, rfl⟩
  refine ⟨?_, ?_, hq.2⟩
  · intro j hj
    rw [hq.1]
    exact Fields.prep_unnamed d.fields p.body j hj
  · intro i j t w x hi hlast
    rw [hq.1]
    refine ⟨?_, ?_⟩
    · have hk : d.fields[i]? = some (.counted t w j) := by
        have := congrArg (·[i]?) (Fields.list_kinds d.fields p.body)
        rw [List.getElem?_map] at this
        rw [← this, show (Fields.list d.fields p.body)[i]? = _ from hi]
        rfl
      have hr := (Fields.scoped_ref d.fields [] d.resolved i j t w hk).2
      obtain ⟨v, hv, hb⟩ := Fields.byte_at d.fields p.body j hr
      have := Fields.prep_counted d.fields p.body i j t w x hi hlast v hv hb
      simp only [Nat.lt_succ_iff, show (256 : Nat) = 255 + 1 from rfl] at this
      exact this
    · rw [show (d.list p.body)[i]? = _ from hi]
      exact Fields.prep_miss d.fields p.body i _ hi (fun h => h)

example := (C62_assigned exampleDefinition exampleReport _ _ _ _ _ exampleReport_serialize.choose_spec.1).2.1 2 1 _ _ _ rfl
  (by
    intro i' t' w' hi h
    match i', hi with
    | 3, _ => cases h
    | 4, _ => cases h
    | n + 5, _ => cases h)

/-- Serializing what `serialize` left behind changes nothing any more and appends the same octets. -/
theorem C62_again (d : Definition) (p q : Pdu d.Body) (r : Except DISError Unit) (prof : Profile) (buf buf' : Bytes)
    (h : p.serialize prof buf = .ok ((q, r), buf')) : q.serialize prof buf = .ok ((q, r), buf') := by
  have hpp : prep (prep p.body) = prep p.body := Fields.prep_prep d.fields p.body
  rw [Pdu.serialize_eq] at h ⊢
  split at h
  · rename_i hl
    split at h
    · cases h
    · rename_i b e
      cases h
      have hb : p.after.body = prep p.body := rfl
      have ha : p.after.after = p.after := by
        unfold Pdu.after
        simp only [hpp]
      rw [hb, hpp, if_pos hl, ha, e]
  · rename_i hl
    cases h
    have hb : p.afterErr.body = prep p.body := rfl
    have ha : p.afterErr.afterErr = p.afterErr := by
      unfold Pdu.afterErr
      simp only [hpp]
    rw [hb, hpp, if_neg hl, ha]

example := C62_again exampleDefinition exampleReport _ _ _ _ _ exampleReport_serialize.choose_spec.1

/-! ### Serializing, for tidy field types -/

/-- The octets appended are those of the header and those of the fields in the order of their declaration, and the
header declares their number; `serialize` does not panic, and it succeeds exactly if that number is at most 65535. -/
theorem C62_message (d : Definition) (hd : d.Tidy) (p : Pdu d.Body) (prof : Profile) (buf : Bytes) :
    (12 + ((d.list p.body).flatMap FieldValue.octets).length ≤ 65535 ∧
      ∃ q, p.serialize prof buf = .ok ((q, .ok ()),
        buf ++ alone q.header.serialize ++ (d.list q.body).flatMap FieldValue.octets) ∧
      (alone q.header.serialize).length = 12 ∧
      ((d.list q.body).flatMap FieldValue.octets).length = ((d.list p.body).flatMap FieldValue.octets).length ∧
      q.header.length.toNat = 12 + ((d.list q.body).flatMap FieldValue.octets).length) ∨
    (65535 < 12 + ((d.list p.body).flatMap FieldValue.octets).length ∧
      ∃ q, p.serialize prof buf = .ok ((q,
        .error (.PduSizeExceeded (12 + ((d.list p.body).flatMap FieldValue.octets).length) 8192)), buf)) := by
  have h1 : ((d.list p.body).map FieldValue.claims).sum = ((d.list p.body).flatMap FieldValue.octets).length :=
    (Fields.len_list d.fields p.body).symm.trans (Fields.len_tidy d.fields p.body hd)
  obtain ⟨hbig, hsmall⟩ := C62_declares d p prof buf
  rw [h1] at hbig hsmall
  rcases Nat.lt_or_ge 65535 (12 + ((d.list p.body).flatMap FieldValue.octets).length) with hl | hl
  · exact .inr ⟨hl, hbig hl⟩
  · refine .inl ⟨hl, p.after, ?_⟩
    have h2 : fieldsLen (prep p.body) = ((d.list p.body).flatMap FieldValue.octets).length :=
      ((Fields.prep_same d.fields p.body).2.trans (Fields.len_list d.fields p.body)).trans h1
    have h3 : ((d.list p.after.body).flatMap FieldValue.octets).length =
        ((d.list p.body).flatMap FieldValue.octets).length :=
      (Fields.len_tidy d.fields (Fields.prep d.fields p.body) hd).symm.trans h2
    have h4 : alone p.after.header.serialize = wire p.after.header := by
      unfold alone
      rw [PduHeader.writes p.after.header ⟨true⟩ []]
      rfl
    have h5 : p.serialize prof buf = .ok ((p.after, .ok ()),
        buf ++ alone p.after.header.serialize ++ (d.list p.after.body).flatMap FieldValue.octets) := by
      rw [Pdu.serialize_eq, h2, if_pos (by omega), h4]
      have := Fields.ser_tidy d.fields (Fields.prep d.fields p.body) hd prof (buf ++ wire p.after.header)
      have e : (PduBody.serializeBody (prep p.body) : Put) prof (buf ++ wire p.after.header) =
        .ok ((), buf ++ wire p.after.header ++ (Fields.list d.fields (Fields.prep d.fields p.body)).flatMap FieldValue.octets) := this
      rw [e]
      rfl
    refine ⟨h5, ?_, h3, ?_⟩
    · rw [h4, PduHeader.wire_length]
    · rw [h3]; exact (hsmall hl _ _ _ h5).2.1

example : ∃ q, exampleReport.serialize ⟨false⟩ [9] = .ok ((q, .ok ()),
    [9] ++ alone q.header.serialize ++ (exampleDefinition.list q.body).flatMap FieldValue.octets) := by
  rcases C62_message exampleDefinition exampleDefinition_tidy exampleReport ⟨false⟩ [9] with ⟨_, q, h, _⟩ | ⟨h, _⟩
  · exact ⟨q, h⟩
  · exact absurd h (by decide +kernel)

/-! ### Decoding -/

/-- Decoding what was serialized, whatever follows and in any build.  The first `k` fields are such that each is read
back by itself, the others are not read (lists, strings and optional fields without an attribute).  Then the first
`k` fields and the header come back as they were sent, the others come back empty, and their octets are left
unread.  With `k` the number of all fields: everything comes back and nothing is left.  The same without the header. -/
theorem C62_decode (d : Definition) (hd : d.Tidy) (ho : d.OwnLengths) (p q : Pdu d.Body) (prof prof' : Profile)
    (buf w rest : Bytes) (k : Nat)
    (hk : ∀ (i : Nat) (v : FieldValue), (d.list p.body)[i]? = some v → (i < k → v.ReadBack) ∧ (k ≤ i → v.1.Unread))
    (h : p.serialize prof buf = .ok ((q, .ok ()), buf ++ w)) :
    ∃ q' : Pdu d.Body,
      (Pdu.deserialize : Get (Except DISError (Pdu d.Body))) prof' (w ++ rest) =
        .ok (.ok q', ((d.list q.body).drop k).flatMap FieldValue.octets ++ rest) ∧
      (∀ hd, (Pdu.deserialize_without_header hd : Get (Except DISError (Pdu d.Body))) prof' (w.drop 12 ++ rest) =
        .ok (.ok ⟨hd, q'.body⟩, ((d.list q.body).drop k).flatMap FieldValue.octets ++ rest)) ∧
      q'.header = q.header ∧
      (∀ (i : Nat) (v : FieldValue), (d.list q.body)[i]? = some v →
        (i < k → (d.list q'.body)[i]? = some v) ∧ (k ≤ i → (d.list q'.body)[i]? = some ⟨v.1, v.1.type.dflt⟩)) ∧
      (d.fields.length ≤ k → q' = q) := by
  have hw : w = wire q.header ++ (d.list q.body).flatMap FieldValue.octets ∧ q.body = prep p.body := by
    rcases C62_message d hd p prof buf with ⟨_, q1, h1, _⟩ | ⟨_, q1, h1⟩
    · have e := h.symm.trans h1
      simp only [Except.ok.injEq, Prod.mk.injEq, and_true] at e
      obtain ⟨rfl, e⟩ := e
      have h4 : alone q.header.serialize = wire q.header := by
        unfold alone
        rw [PduHeader.writes q.header ⟨true⟩ []]
        rfl
      rw [List.append_assoc, h4] at e
      refine ⟨List.append_cancel_left e, ?_⟩
      rw [Pdu.serialize_eq] at h
      split at h
      · split at h
        · cases h
        · simp only [Except.ok.injEq, Prod.mk.injEq, and_true] at h
          rw [← h.1]
          rfl
      · simp at h
    · rw [h] at h1; simp at h1
  have ht : q.header.pdu_type = d.type := by
    obtain ⟨_, hs⟩ := C62_declares d p prof buf
    rcases C62_message d hd p prof buf with ⟨hl, _⟩ | ⟨_, q1, h1⟩
    · have hc : ((d.list p.body).map FieldValue.claims).sum = ((d.list p.body).flatMap FieldValue.octets).length :=
        (Fields.len_list d.fields p.body).symm.trans (Fields.len_tidy d.fields p.body hd)
      exact (hs (by omega) _ _ _ h).2.2.1
    · rw [h] at h1; simp at h1
  -- the fields other than octets are those of `p`
  have hkind : ∀ (i : Nat) (v : FieldValue), (d.list q.body)[i]? = some v →
      (i < k → v.ReadBack) ∧ (k ≤ i → v.1.Unread) := by
    intro i v hv
    by_cases hb : Fields.IsByte v
    · obtain ⟨b, rfl⟩ := Fields.IsByte.eq v hb
      refine ⟨fun _ => trivial, fun hi => ?_⟩
      have h1 := congrArg (·[i]?) (Fields.list_kinds d.fields q.body)
      rw [List.getElem?_map, show (Fields.list d.fields q.body)[i]? = _ from hv] at h1
      obtain ⟨v', hv', hb'⟩ := Fields.byte_at d.fields p.body i h1.symm
      obtain ⟨b', rfl⟩ := Fields.IsByte.eq v' hb'
      exact ((hk i _ hv').2 hi).elim
    · cases hp : (d.list p.body)[i]? with
      | none =>
        have h1 := List.getElem?_eq_none_iff.mp hp
        have h2 : (d.list q.body).length ≤ i := by
          rw [show (d.list q.body).length = d.fields.length from Fields.list_length _ _]
          rwa [show (d.list p.body).length = d.fields.length from Fields.list_length _ _] at h1
        rw [List.getElem?_eq_none h2] at hv; cases hv
      | some v' =>
        by_cases hb' : Fields.IsByte v'
        · obtain ⟨b, h1⟩ := Fields.assign_byte d.fields i (Fields.counts d.fields p.body) p.body v' hp hb'
          rw [hw.2] at hv
          have h2 : (d.list (prep p.body))[i]? = some ⟨.byte, b⟩ := h1
          rw [hv] at h2
          cases h2
          exact absurd trivial hb
        · have h1 := Fields.prep_miss d.fields p.body i v' hp hb'
          rw [hw.2] at hv
          have h2 : (d.list (prep p.body))[i]? = some v' := h1
          rw [hv] at h2
          cases h2
          exact hk i v hp
  have hfill : Fields.Filled ([] ++ Fields.list d.fields q.body) := by
    intro i ref t r x hi
    rw [List.nil_append] at hi ⊢
    have hkd : d.fields[i]? = some (.counted t r ref) := by
      have h1 := congrArg (·[i]?) (Fields.list_kinds d.fields q.body)
      rw [List.getElem?_map, hi] at h1
      exact h1.symm
    have h0 : FieldValue.ReadBack ⟨.counted t r ref, x⟩ := by
      rcases Nat.lt_or_ge i k with hik | hik
      · exact (hkind i _ hi).1 hik
      · exact ((hkind i _ hi).2 hik).elim
    have hr := (Fields.scoped_ref d.fields [] d.resolved i ref t r hkd).2
    obtain ⟨v, hv, hb⟩ := Fields.byte_at d.fields q.body ref hr
    have h2 := Fields.prep_counted d.fields q.body i ref t r x hi
      (fun j u e hj hc => by have := ho i j ref t u r e hkd hc; omega) v hv hb
    have h3 : Fields.prep d.fields q.body = q.body := by
      rw [hw.2]; exact Fields.prep_prep d.fields p.body
    rw [h3] at h2
    have h4 : t.len x = (alone (t.ser x)).length := (hd _ (List.mem_of_getElem? hkd) x).2
    rw [h2, h4, if_pos (by have := h0.1; omega)]
  obtain ⟨y, hy, hl⟩ := Fields.de_reads d.fields q.body [] k d.resolved hfill hkind
  have e : (PduBody.deserializeBody : Get d.Body) prof' ((d.list q.body).flatMap FieldValue.octets ++ rest) =
    .ok (y, ((d.list q.body).drop k).flatMap FieldValue.octets ++ rest) := hy prof' rest
  refine ⟨⟨q.header, y⟩, ?_, fun hd => ?_, rfl, hl, ?_⟩
  · rw [hw.1, List.append_assoc, Pdu.deserialize_of_wire q.header ht prof', e]
  · rw [hw.1, List.drop_left' (PduHeader.wire_length q.header), Pdu.deserialize_without_header_eq, e]
  · intro hlen
    have : y = q.body := by
      apply Fields.list_inj
      apply List.ext_getElem?
      intro i
      cases hq : (Fields.list d.fields q.body)[i]? with
      | none =>
        have h1 := List.getElem?_eq_none_iff.mp hq
        rw [show (Fields.list d.fields q.body).length = _ from Fields.list_length d.fields q.body] at h1
        exact List.getElem?_eq_none (by rw [Fields.list_length]; exact h1)
      | some v =>
        refine (hl i v hq).1 ?_
        rcases Nat.lt_or_ge i (Fields.list d.fields q.body).length with h | h
        · rw [show (Fields.list d.fields q.body).length = _ from Fields.list_length d.fields q.body] at h; omega
        · rw [List.getElem?_eq_none h] at hq; cases hq
    rw [this]

theorem exampleDefinition_ownLengths : exampleDefinition.OwnLengths := by
  have key : ∀ (i ref : Nat) (t : FieldType) (r : Nat → Get t.T),
      exampleDefinition.fields[i]? = some (.counted t r ref) → i = 2 := by
    intro i ref t r h
    match i with
    | 0 => cases h
    | 1 => cases h
    | 2 => rfl
    | 3 => cases h
    | 4 => cases h
    | n + 5 => cases h
  intro i j ref t u r s hi hj
  rw [key i ref t r hi, key j ref u s hj]

/-- The first four fields of the example are read back, the list is not. -/
example : ∃ q' : Pdu exampleDefinition.Body, (Pdu.deserialize : Get (Except DISError (Pdu exampleDefinition.Body))) ⟨false⟩
    ([6, 200, 0, 0, 1, 2, 3, 4, 0, 26, 0xAB, 0xCD] ++ [0, 0, 0, 7, 3, 104, 105, 33, 2, 1, 0, 1, 0, 2] ++ [5, 5]) =
      .ok (.ok q', [0, 1, 0, 2] ++ [5, 5]) := by
  obtain ⟨q, h, hb⟩ := exampleReport_serialize
  obtain ⟨q', h', _⟩ := C62_decode exampleDefinition exampleDefinition_tidy exampleDefinition_ownLengths exampleReport q
    ⟨true⟩ ⟨false⟩ [9] _ [5, 5] 4 (by
      intro i v hv
      match i with
      | 0 => cases hv; exact ⟨fun _ _ _ => rfl, fun h => absurd h (by omega)⟩
      | 1 => cases hv; exact ⟨fun _ => trivial, fun h => absurd h (by omega)⟩
      | 2 => cases hv; exact ⟨fun _ => ⟨by decide, fun _ rest => by
          show Blob.read 3 _ ([104, 105, 33] ++ rest) = _
          rfl⟩, fun h => absurd h (by omega)⟩
      | 3 => cases hv; exact ⟨fun _ _ _ => rfl, fun h => absurd h (by omega)⟩
      | 4 => cases hv; exact ⟨fun h => absurd h (by omega), fun _ => rfl⟩
      | n + 5 => cases hv) (h.trans (by rw [List.append_assoc]))
  refine ⟨q', h'.trans ?_⟩
  rw [hb]
  rfl

theorem typeSaid_eq (n : UInt8) : (PduType.spec.ofCode n.toNat).code = typeSaid n := by
  unfold typeSaid
  by_cases h : n.toNat ≤ 72
  · rw [if_pos h, EnumSpec.ofCode_of_mem ((assigned_iff _).mpr h)]
  · rw [if_neg h, EnumSpec.ofCode_of_not_mem (fun hm => h ((assigned_iff _).mp hm))]
    rfl

/-- Whatever the field types do: fewer than twelve octets make decoding panic; octets whose third stands for another
type are refused with a message naming both types, and just the header is taken; octets of the right type are
never refused: they are treated as by `deserialize_without_header` after the header has been taken. -/
theorem C62_accepts (d : Definition) (prof : Profile) (b : Bytes) :
    (b.length < 12 →
      (Pdu.deserialize : Get (Except DISError (Pdu d.Body))) prof b = .error .bufferUnderflow) ∧
    (12 ≤ b.length → typeSaid (b.getD 2 0) ≠ d.type.code →
      (Pdu.deserialize : Get (Except DISError (Pdu d.Body))) prof b =
        .ok (.error (.InvalidHeader ("Expected PDU type " ++ pduTypeName d.type.code ++ ", got " ++
          pduTypeName (b.getD 2 0).toNat)), b.drop 12)) ∧
    (12 ≤ b.length → typeSaid (b.getD 2 0) = d.type.code → ∃ hd : PduHeader,
      PduHeader.deserialize prof b = .ok (hd, b.drop 12) ∧ hd.pdu_type = d.type ∧
      (Pdu.deserialize : Get (Except DISError (Pdu d.Body))) prof b =
        (Pdu.deserialize_without_header hd : Get (Except DISError (Pdu d.Body))) prof (b.drop 12) ∧
      ∀ r rest, (Pdu.deserialize : Get (Except DISError (Pdu d.Body))) prof b = .ok (r, rest) →
        ∃ q, r = .ok q ∧ q.header = hd) := by
  refine ⟨fun h => Pdu.deserialize_short prof b h, fun h ht => ?_, fun h ht => ?_⟩
  · obtain ⟨hd, _, h2, h3⟩ := Pdu.deserialize_eq (B := d.Body) prof b h
    have hne : hd.pdu_type ≠ PduBody.pduType d.Body := by
      rw [h2]
      intro e
      exact ht ((typeSaid_eq _).symm.trans (congrArg EnumVal.code e))
    rw [h3, if_pos hne]
    unfold Pdu.wrongType
    rw [h2, pduTypeName_ofCode, PduType.debug_eq (PduBody.pduType d.Body)]
    rfl
  · obtain ⟨hd, h1, h2, h3⟩ := Pdu.deserialize_eq (B := d.Body) prof b h
    have he : hd.pdu_type = d.type := by
      rw [h2]
      have := (typeSaid_eq (b.getD 2 0)).trans ht
      exact EnumVal.ext this
    rw [if_neg (fun hn => hn he)] at h3
    refine ⟨hd, h1, he, ?_, ?_⟩
    · rw [h3, Pdu.deserialize_without_header_eq]
    · intro r rest e
      rw [h3] at e
      split at e
      · cases e
      · cases e; exact ⟨_, rfl, rfl⟩

/-- Octet 2 is 80, which is not assigned: accepted, as the type of the example is `Other`. -/
example : ∃ q rest, (Pdu.deserialize : Get (Except DISError (Pdu exampleDefinition.Body))) ⟨true⟩
    ([6, 200, 80, 0, 1, 2, 3, 4, 0, 26, 0xAB, 0xCD] ++ [0, 0, 0, 7, 3, 104, 105, 33, 2, 1, 0, 1, 0, 2]) = .ok (.ok q, rest) :=
  ⟨_, _, rfl⟩
example := (C62_accepts exampleDefinition ⟨true⟩ [6, 200, 2, 0, 1, 2, 3, 4, 0, 26, 0xAB, 0xCD]).2.1 (by decide) (by decide)

/-! ### Fresh values -/

/-- `new()`: the type and family of the definition, the defaults of the header and of every field, and as length what the
defaults claim, or zero if that does not fit sixteen bits. -/
theorem C62_new (d : Definition) (now : UInt32) :
    let p := (Pdu.new now : Pdu d.Body)
    p.header.pdu_type = d.type ∧ p.header.protocol_family = d.family ∧ p.header.timestamp = now ∧
    p.header.protocol_version.code = 7 ∧ p.header.exercise_id = 1 ∧ p.header.status_record.bits = 0 ∧
    p.header.padding = 0 ∧
    (d.list p.body).map (·.1) = d.fields ∧ (∀ v ∈ d.list p.body, v.2 = v.1.type.dflt) ∧
    p.header.length.toNat = (let n := 12 + ((d.list p.body).map FieldValue.claims).sum; if n ≤ 65535 then n else 0) := by
  refine ⟨rfl, rfl, rfl, rfl, rfl, rfl, rfl, Fields.list_kinds d.fields _, ?_, ?_⟩
  · have key : ∀ fs : List FieldDef, ∀ v ∈ Fields.list fs (Fields.default fs), v.2 = v.1.type.dflt := by
      intro fs
      induction fs with
      | nil => exact fun _ h => nomatch h
      | cons f fs ih =>
        intro v hv
        cases hv with
        | head => rfl
        | tail _ hv => exact ih v hv
    exact key d.fields
  · have hl : PduBody.fieldsLen (PduBody.default : d.Body) =
        ((d.list PduBody.default).map FieldValue.claims).sum := Fields.len_list d.fields _
    have hn : (Pdu.new now : Pdu d.Body).header.length =
        match (if 12 + PduBody.fieldsLen (PduBody.default : d.Body) < 65536 then
          (.ok (UInt16.ofNat (12 + PduBody.fieldsLen (PduBody.default : d.Body))) : Except DISError UInt16)
          else .error (.PduSizeExceeded (12 + PduBody.fieldsLen (PduBody.default : d.Body)) MAX_PDU_SIZE_OCTETS)) with
        | .ok n => n
        | .error _ => 0 := rfl
    have hb : (Pdu.new now : Pdu d.Body).body = PduBody.default := rfl
    rw [hn, hl, hb]
    dsimp only
    by_cases h : 12 + ((d.list (PduBody.default : d.Body)).map FieldValue.claims).sum ≤ 65535
    · rw [if_pos (by omega), if_pos h]
      show (UInt16.ofNat _).toNat = _
      rw [UInt16.toNat_ofNat']
      omega
    · rw [if_neg (by omega), if_neg h]
      rfl

example : (Pdu.new 5 : Pdu exampleDefinition.Body).header.length = 19 := rfl

/-! ### The kinds of the crate -/

/-- Each of the 66 kinds is what the macro makes of its field list: fields in order determine the value and conversely,
and `default`, `new`, `calculate_length`, `serialize`, `deserialize` and `deserialize_without_header` do the same, on every buffer and step by step. -/
theorem C62_crate_kinds (k : PduKind) :
    (∀ p : Pdu k.Body, ∃ p' : Pdu k.definition.Body, k.ofDefined p' = p ∧ ∀ p'', k.ofDefined p'' = p → p'' = p') ∧
    (∀ now, k.ofDefined (Pdu.default now) = Pdu.default now ∧ k.ofDefined (Pdu.new now) = Pdu.new now) ∧
    (∀ p : Pdu k.definition.Body, (k.ofDefined p).calculate_length = p.calculate_length ∧
      (k.ofDefined p).serialize = (do let r ← p.serialize; return (k.ofDefined r.1, r.2))) ∧
    ((Pdu.deserialize : Get (Except DISError (Pdu k.Body))) =
      (do let r ← Pdu.deserialize; return r.map k.ofDefined)) ∧
    (∀ hd, (Pdu.deserialize_without_header hd : Get (Except DISError (Pdu k.Body))) =
      (do let r ← Pdu.deserialize_without_header hd; return r.map k.ofDefined)) := by
  have A := k.asDefined
  have hlen : ∀ p : Pdu k.definition.Body, (k.ofDefined p).calculate_length = p.calculate_length := by
    intro p
    unfold Pdu.calculate_length
    have : PduBody.fieldsLen (k.ofDefined p).body = PduBody.fieldsLen p.body := (A.len p.body).symm
    rw [this]
  have hser : ∀ y : k.definition.Body, PduBody.serializeBody (k.ofFields y) = PduBody.serializeBody y := fun y =>
    (A.ser y).symm
  have ht : PduBody.pduType k.definition.Body = PduBody.pduType k.Body := A.type
  have hf : PduBody.family k.definition.Body = PduBody.family k.Body := A.family
  refine ⟨fun p => ?_, fun now => ?_, fun p => ⟨hlen p, ?_⟩, ?_, fun hd => ?_⟩
  · refine ⟨⟨p.header, k.toFields p.body⟩, ?_, ?_⟩
    · show Pdu.mk p.header (k.ofFields (k.toFields p.body)) = p
      rw [A.of_to]
    · intro p'' h
      rw [← h]
      show p'' = ⟨p''.header, k.toFields (k.ofFields p''.body)⟩
      rw [A.to_of]
  · have h1 : k.ofDefined (Pdu.default now) = Pdu.default now := by
      show Pdu.mk (PduHeader.default now) (k.ofFields PduBody.default) = Pdu.mk (PduHeader.default now) PduBody.default
      rw [A.default]
    refine ⟨h1, ?_⟩
    unfold Pdu.new
    rw [← h1, ← ht, ← hf]
    generalize ((Pdu.default now : Pdu k.definition.Body)) = p
    show k.ofDefined (Pdu.finalize (Pdu.mk _ p.body)) = Pdu.finalize (k.ofDefined (Pdu.mk _ p.body))
    unfold Pdu.finalize
    rw [hlen]
    rfl
  · unfold Pdu.serialize
    have h3 : ∀ hd : PduHeader, Pdu.mk hd (PduBody.prep (k.ofFields p.body)) =
        k.ofDefined (Pdu.mk hd (PduBody.prep p.body)) := by
      intro hd
      show Pdu.mk hd _ = Pdu.mk hd (k.ofFields (PduBody.prep p.body))
      rw [A.prep]
    dsimp only [PduKind.ofDefined]
    rw [h3, hlen, ← ht, ← hf]
    generalize hc : (Pdu.mk _ (PduBody.prep p.body)).calculate_length = c
    cases c with
    | error e => exact (M.pure_bind _ _).symm
    | ok n =>
      dsimp only
      rw [M.bind_assoc]
      congr 1; funext _
      rw [M.bind_assoc]
      rw [← A.prep, hser]
      rfl
  · unfold Pdu.deserialize
    rw [M.bind_assoc]
    congr 1; funext hd
    rw [ht]
    split
    · rw [M.pure_bind]; rfl
    · rw [M.bind_assoc, ← A.de]
      show ((PduBody.deserializeBody >>= fun x => pure (k.ofFields x)) >>= _) = _
      rw [M.bind_assoc]
      rfl
  · unfold Pdu.deserialize_without_header
    rw [M.bind_assoc, ← A.de]
    show ((PduBody.deserializeBody >>= fun x => pure (k.ofFields x)) >>= _) = _
    rw [M.bind_assoc]
    rfl

/-- The definition of the Transmitter PDU has 22 fields, one with an attribute. -/
example : PduKind.Transmitter.definition.fields.length = 22 ∧
    PduKind.Transmitter.definition.fields[19]? = some (.ofLen (Option ModulationParameters) 16) := ⟨rfl, rfl⟩

end Dis
