import Verif.Proofs.KindFacts
import Verif.Spec.Fresh
import Verif.Properties.Header
/-
Properties of `serialize` / `deserialize` / `new` of the 66 PDU kinds that do not concern the
round-trip: C04 to C10, C21, C25, C40, C42.

`p.serialize prof buf` is the call `p.serialize(&mut buf)` in build profile `prof`; its outcome is a
panic, or the updated PDU, the returned `Result` and the new buffer.
-/
namespace Dis

/-! ### A sample message, used below to show that the hypotheses are met -/

/-- A signal PDU with three octets of data, under a header that says something else. -/
def sampleSignal : Pdu SignalPdu :=
  ⟨exampleHeader, { (PduBody.default : SignalPdu) with radio_id := 0x0102, sample_rate := 8000, data := [1, 2, 3] }⟩
/-- Its header once serialized. -/
def sampleHeader : PduHeader :=
  { exampleHeader with pdu_type := ⟨26, by decide⟩, protocol_family := ⟨4, by decide⟩, length := 35 }
/-- Its octets. -/
def sampleOctets : Bytes := [6, 200, 26, 4, 1, 2, 3, 4, 0, 35, 0xAB, 0xCD] ++
  [0, 1, 0, 1, 0, 0, 1, 2, 0, 0, 0, 0, 0, 0, 0x1F, 0x40, 0, 0, 0, 0, 1, 2, 3]

theorem sampleSignal_serialize : sampleSignal.serialize ⟨true⟩ [9] =
    .ok ((⟨sampleHeader, sampleSignal.body⟩, .ok ()), [9] ++ sampleOctets) := by decide +kernel
theorem sampleSignal_serialize_nil : sampleSignal.serialize ⟨true⟩ [] =
    .ok ((⟨sampleHeader, sampleSignal.body⟩, .ok ()), sampleOctets) := by decide +kernel

/-! ### C42 type and family codes -/

/-- A message produced by kind `k` carries the type and family codes SISO-REF-010 assigns to it, in
octets 2 and 3, whatever the header held before. -/
theorem C42_codes (k : PduKind) (p q : Pdu k.Body) (prof : Profile) (buf buf' : Bytes)
    (h : p.serialize prof buf = .ok ((q, .ok ()), buf')) :
    q.header.pdu_type.code = k.typeCode ∧ q.header.protocol_family.code = k.familyCode ∧
    buf'.getD (buf.length + 2) 0 = UInt8.ofNat k.typeCode ∧
    buf'.getD (buf.length + 3) 0 = UInt8.ofNat k.familyCode := by
  obtain ⟨rfl, _, rfl⟩ := Pdu.serialize_ok h
  refine ⟨k.type_code, k.family_code, ?_, ?_⟩ <;>
    rw [List.append_assoc, List.getD_eq_getElem?_getD, List.getElem?_append_right (by omega)] <;>
    simp [wire, octets, List.range_succ, IntTy.octets, ProtocolVersion.spec, PduType.spec,
      ProtocolFamily.spec, uint8_ofNat_mod, Pdu.after, k.type_code, k.family_code]

example := C42_codes .Signal sampleSignal _ _ _ _ sampleSignal_serialize

/-! ### C04 declared length -/

/-- Every kind, every value: what is appended is the wire image of the header followed by that of the
body, and the declared length falls short of the octets appended by exactly `surplus`. -/
theorem C04_declared_length_all_kinds (k : PduKind) (p q : Pdu k.Body) (prof : Profile)
    (buf buf' : Bytes) (h : p.serialize prof buf = .ok ((q, .ok ()), buf')) :
    buf' = buf ++ wire q.header ++ wire (sent q.body) ∧
    (buf'.length : Int) = buf.length + q.header.length.toNat + surplus q.body := by
  obtain ⟨rfl, hl, rfl⟩ := Pdu.serialize_ok h
  refine ⟨rfl, ?_⟩
  have h1 := LawfulBody.len p.after.body
  have h2 : p.after.header.length.toNat = 12 + PduBody.fieldsLen p.body := by
    show (UInt16.ofNat _).toNat = _
    rw [LawfulBody.prep_len, UInt16.toNat_ofNat_of_lt' (by simpa [UInt16.size] using hl)]
  have h3 : PduBody.fieldsLen p.after.body = PduBody.fieldsLen p.body := LawfulBody.prep_len _
  rw [List.length_append, List.length_append, PduHeader.wire_length, h2]
  omega

example := C04_declared_length_all_kinds .Signal sampleSignal _ _ _ _ sampleSignal_serialize

/-- The kinds without an entity marking, variable datum records, record sets or grid data: the declared
length is the number of octets appended, and is what octets 8 and 9 of the message say. -/
theorem C04_declared_length (k : PduKind) (hk : k.exactLength = true) (p q : Pdu k.Body)
    (prof : Profile) (buf buf' : Bytes) (h : p.serialize prof buf = .ok ((q, .ok ()), buf')) :
    buf'.length = buf.length + q.header.length.toNat ∧
    (buf'.drop (buf.length + 8)).take 2 = octets 2 (buf'.length - buf.length) := by
  obtain ⟨h1, h2⟩ := C04_declared_length_all_kinds k p q prof buf buf' h
  have h3 := (k.enc_exact hk q.body).2
  have h4 : buf'.length = buf.length + q.header.length.toNat := by omega
  refine ⟨h4, ?_⟩
  have h5 : buf'.length - buf.length = q.header.length.toNat := by omega
  rw [h5, h1, List.append_assoc, ← List.drop_drop, List.drop_left]
  simp [wire, octets, List.range_succ, IntTy.octets, ProtocolVersion.spec, PduType.spec,
      ProtocolFamily.spec, uint8_ofNat_mod]

example := C04_declared_length .Signal rfl sampleSignal _ _ _ _ sampleSignal_serialize

/-! ### C05 append-only -/

/-- Whatever the PDU and the profile: either `serialize` panics on every buffer, for the same reason,
or on every buffer it returns the same result, leaves the same PDU and appends the same octets. -/
theorem C05_append_only (k : PduKind) (p : Pdu k.Body) (prof : Profile) :
    (∃ e, ∀ buf, p.serialize prof buf = .error e) ∨
    (∃ q r w, ∀ buf, p.serialize prof buf = .ok ((q, r), buf ++ w)) := by
  by_cases hl : 12 + PduBody.fieldsLen (PduBody.prep p.body) < 65536
  · rcases LawfulBody.appends (PduBody.prep p.body) prof with ⟨e, he⟩ | ⟨w, hw⟩
    · left
      exact ⟨e, fun buf => by rw [Pdu.serialize_eq, if_pos hl, he]⟩
    · right
      exact ⟨p.after, .ok (), wire p.after.header ++ w, fun buf => by
        rw [Pdu.serialize_eq, if_pos hl, hw, List.append_assoc]⟩
  · right
    exact ⟨_, _, [], fun buf => by rw [Pdu.serialize_eq, if_neg hl, List.append_nil]⟩

/-- Not the panicking case: the octets are the same after any buffer. -/
example (buf : Bytes) : ∃ q r, sampleSignal.serialize ⟨true⟩ buf = .ok ((q, r), buf ++ sampleOctets) := by
  rcases C05_append_only .Signal sampleSignal ⟨true⟩ with ⟨e, h⟩ | ⟨q, r, w, h⟩
  · have := (h []).symm.trans sampleSignal_serialize_nil
    cases this
  · have := (h []).symm.trans sampleSignal_serialize_nil
    simp only [List.nil_append, Except.ok.injEq, Prod.mk.injEq] at this
    exact ⟨q, r, by rw [← this.2]; exact h buf⟩

/-! ### C06 oversized PDUs -/

/-- The length a PDU ought to declare: header, plus the octets of its body less the octets its fields
do not account for. -/
def declaredOctets {B : Type} [Wire B] [Enc B] (p : Pdu B) : Int :=
  12 + ((wire (sent p.body)).length - surplus p.body)

theorem declaredOctets_eq {B : Type} [PduBody B] [Wire B] [Enc B] [Dec B] [Tail B] [LawfulBody B]
    (p : Pdu B) :
    declaredOctets p = ((12 + PduBody.fieldsLen p.body : Nat) : Int) := by
  have := Pdu.fieldsLen_eq p.body
  unfold declaredOctets
  omega

/-- `serialize` fails exactly when the length does not fit 16 bits. -/
theorem C06_refused_iff (k : PduKind) (p : Pdu k.Body) (prof : Profile) (buf : Bytes) :
    (∃ q e buf', p.serialize prof buf = .ok ((q, .error e), buf')) ↔ 65535 < declaredOctets p := by
  rw [declaredOctets_eq]
  constructor
  · rintro ⟨q, e, buf', h⟩
    have := (Pdu.serialize_err h).2.1
    omega
  · intro h
    exact ⟨_, _, _, Pdu.serialize_too_large p (by omega) prof buf⟩

/-- When it fails: the error reports the length, nothing was appended, only the header's type and family
were set, and the body is untouched (but for the length field of a Transmitter PDU). -/
theorem C06_refused_atomically (k : PduKind) (p q : Pdu k.Body) (e : DISError) (prof : Profile)
    (buf buf' : Bytes) (h : p.serialize prof buf = .ok ((q, .error e), buf')) :
    buf' = buf ∧ (∃ n : Nat, e = .PduSizeExceeded n 8192 ∧ (n : Int) = declaredOctets p) ∧
    q.header = { p.header with pdu_type := q.header.pdu_type
                               protocol_family := q.header.protocol_family } ∧
    (k ≠ .Transmitter → q.body = p.body) := by
  obtain ⟨rfl, _, h2, h3⟩ := Pdu.serialize_err h
  exact ⟨h2, ⟨_, h3, (declaredOctets_eq p).symm⟩, rfl, fun hk => k.prep_id hk p.body⟩

/-- A signal PDU with 70000 octets of data is refused. -/
example : ∃ (p q : Pdu PduKind.Signal.Body) (e : DISError) (buf' : Bytes),
    p.serialize ⟨true⟩ [9] = .ok ((q, .error e), buf') := by
  obtain ⟨b, hf⟩ : ∃ b : SignalPdu, PduBody.fieldsLen b = 20 + 70000 := by
    let b : SignalPdu := { (PduBody.default : SignalPdu) with data := List.replicate 70000 0 }
    refine ⟨b, ?_⟩
    show SignalPdu.fieldsLen b = _
    have hd : field_len b.data = 70000 := by
      rw [field_len_bytes]; exact List.length_replicate
    have h0 : SignalPdu.fieldsLen b = 20 + field_len b.data := rfl
    rw [h0, hd]
  let p : Pdu PduKind.Signal.Body := ⟨exampleHeader, b⟩
  obtain ⟨q, e, buf', h⟩ := (C06_refused_iff .Signal p ⟨true⟩ [9]).mpr (by
    rw [declaredOctets_eq, show PduBody.fieldsLen p.body = 20 + 70000 from hf]; decide)
  exact ⟨p, q, e, buf', h⟩

/-- When it succeeds, the declared length is not truncated. -/
theorem C06_length_not_truncated (k : PduKind) (p q : Pdu k.Body) (prof : Profile)
    (buf buf' : Bytes) (h : p.serialize prof buf = .ok ((q, .ok ()), buf')) :
    (q.header.length.toNat : Int) = declaredOctets p := by
  obtain ⟨rfl, hl, _⟩ := Pdu.serialize_ok h
  rw [declaredOctets_eq]
  show ((UInt16.ofNat _).toNat : Int) = _
  rw [LawfulBody.prep_len, UInt16.toNat_ofNat_of_lt' (by simpa [UInt16.size] using hl)]

example := C06_length_not_truncated .Signal sampleSignal _ _ _ _ sampleSignal_serialize

/-! ### C08 idempotence -/

/-- `serialize` changes nothing but the header's type, family and length and, for the Transmitter PDU,
the length of its modulation parameters. -/
theorem C08_touches_only_bookkeeping (k : PduKind) (p q : Pdu k.Body) (r : Except DISError Unit)
    (prof : Profile) (buf buf' : Bytes) (h : p.serialize prof buf = .ok ((q, r), buf')) :
    q.header.protocol_version = p.header.protocol_version ∧
    q.header.exercise_id = p.header.exercise_id ∧ q.header.timestamp = p.header.timestamp ∧
    q.header.status_record = p.header.status_record ∧ q.header.padding = p.header.padding ∧
    q.header.pdu_type.code = k.typeCode ∧ q.header.protocol_family.code = k.familyCode ∧
    (k ≠ .Transmitter → q.body = p.body) := by
  have hq : q = p.after ∨ q = p.afterErr := by
    cases r with
    | ok u => exact .inl (Pdu.serialize_ok h).1
    | error e => exact .inr (Pdu.serialize_err h).1
  rcases hq with rfl | rfl <;>
    exact ⟨rfl, rfl, rfl, rfl, rfl, k.type_code, k.family_code, fun hk => k.prep_id hk p.body⟩

example := C08_touches_only_bookkeeping .Signal sampleSignal _ _ _ _ _ sampleSignal_serialize

/-- The Transmitter PDU: only `modulation_parameter_length` changes in the body, to the number of
octets of the modulation parameters (0 if absent or more than 255). -/
theorem C08_transmitter (p q : Pdu TransmitterPdu) (r : Except DISError Unit)
    (prof : Profile) (buf buf' : Bytes) (h : p.serialize prof buf = .ok ((q, r), buf')) :
    ∃ n : UInt8, q.body = { p.body with modulation_parameter_length := n } ∧
      ((wire p.body.modulation_parameters).length < 256 →
        n.toNat = (wire p.body.modulation_parameters).length) ∧
      (256 ≤ (wire p.body.modulation_parameters).length → n = 0) := by
  have hq : q.body = PduBody.prep p.body := by
    cases r with
    | ok u => rw [(Pdu.serialize_ok h).1]; rfl
    | error e => rw [(Pdu.serialize_err h).1]; rfl
  have hl := len_exact p.body.modulation_parameters
  refine ⟨_, hq, ?_, ?_⟩
  · intro hlt
    rw [hl, if_pos hlt, UInt8.toNat_ofNat_of_lt' (by simpa [UInt8.size] using hlt)]
  · intro hge
    rw [hl, if_neg (by omega)]

/-- Three modulation parameters and a stale length of 9. -/
example : (match (⟨exampleHeader, { (PduBody.default : TransmitterPdu) with
      modulation_parameter_length := 9, modulation_parameters := some ⟨[4, 5, 6]⟩ }⟩ :
        Pdu TransmitterPdu).serialize ⟨true⟩ [] with
    | .ok ((q, .ok ()), w) => decide (q.body.modulation_parameter_length = 3 ∧ w.length = 107)
    | _ => false) = true := by
  decide +kernel

/-- Serializing again changes nothing more, returns the same result and appends the same octets. -/
theorem C08_idempotent (k : PduKind) (p q : Pdu k.Body) (r : Except DISError Unit)
    (prof : Profile) (buf w : Bytes) (h : p.serialize prof buf = .ok ((q, r), buf ++ w)) :
    ∀ buf₂, q.serialize prof buf₂ = .ok ((q, r), buf₂ ++ w) := by
  intro buf₂
  cases r with
  | ok u =>
    obtain ⟨rfl, hl, hb⟩ := Pdu.serialize_ok h
    have hl' : 12 + PduBody.fieldsLen (PduBody.prep p.body) < 65536 := by rwa [LawfulBody.prep_len]
    rw [List.append_assoc] at hb
    have hw := List.append_cancel_left hb
    rw [Pdu.serialize_eq, if_pos hl'] at h
    rw [Pdu.serialize_eq, Pdu.after_after]
    have hp : PduBody.prep p.after.body = PduBody.prep p.body := LawfulBody.prep_idem _
    rw [hp, if_pos hl']
    rcases LawfulBody.appends (PduBody.prep p.body) prof with ⟨e, he⟩ | ⟨w', hw'⟩
    · rw [he] at h; cases h
    · rw [hw'] at h ⊢
      simp only [Except.ok.injEq, Prod.mk.injEq, true_and, List.append_assoc,
        List.append_cancel_left_eq] at h ⊢
      exact h
  | error e =>
    obtain ⟨rfl, hl, hb, he⟩ := Pdu.serialize_err h
    have hw : w = [] := by simpa using hb
    subst hw
    have hl' : ¬ 12 + PduBody.fieldsLen p.afterErr.body < 65536 := by
      show ¬ 12 + PduBody.fieldsLen (PduBody.prep p.body) < 65536
      rw [LawfulBody.prep_len]; omega
    rw [Pdu.serialize_too_large _ hl', List.append_nil]
    have hf : PduBody.fieldsLen p.afterErr.body = PduBody.fieldsLen p.body := LawfulBody.prep_len _
    have ha : p.afterErr.afterErr = p.afterErr := by
      unfold Pdu.afterErr
      simp only [LawfulBody.prep_idem]
    rw [ha, hf, he]

example := C08_idempotent .Signal sampleSignal _ _ _ _ _ sampleSignal_serialize

/-! ### C09 type check on decode -/

/-- Fewer than twelve octets: panic. -/
theorem C09_short_panics (k : PduKind) (prof : Profile) (b : Bytes) (h : b.length < 12) :
    (Pdu.deserialize : Get (Except DISError (Pdu k.Body))) prof b = .error .bufferUnderflow :=
  Pdu.deserialize_short prof b h

example := C09_short_panics .Fire ⟨true⟩ [7, 1, 2, 2, 0, 0, 0, 0, 0, 96, 0] (by decide)

/-- Octet 2 is not the kind's type code: `InvalidHeader`, naming the expected type and the type found,
having consumed exactly the header. -/
theorem C09_foreign_type_refused (k : PduKind) (prof : Profile) (b : Bytes) (h : 12 ≤ b.length)
    (ht : (b.getD 2 0).toNat ≠ k.typeCode) :
    (Pdu.deserialize : Get (Except DISError (Pdu k.Body))) prof b =
      .ok (.error (.InvalidHeader ("Expected PDU type " ++ pduTypeName k.typeCode ++ ", got " ++
        pduTypeName (b.getD 2 0).toNat)), b.drop 12) := by
  obtain ⟨hd, _, h2, h3⟩ := Pdu.deserialize_eq (B := k.Body) prof b h
  have hne : hd.pdu_type ≠ PduBody.pduType k.Body := by
    rw [h2]
    exact fun e => ht ((k.type_test _).mp e)
  rw [h3, if_pos hne]
  unfold Pdu.wrongType
  rw [h2, pduTypeName_ofCode, PduType.debug_eq (PduBody.pduType k.Body), k.type_code]

example := C09_foreign_type_refused .Fire ⟨true⟩ sampleOctets (by decide) (by decide)

/-- Octet 2 is the kind's type code: never an `Err`. -/
theorem C09_own_type_accepted (k : PduKind) (prof : Profile) (b : Bytes) (h : 12 ≤ b.length)
    (ht : (b.getD 2 0).toNat = k.typeCode) (e : DISError) (rest : Bytes) :
    (Pdu.deserialize : Get (Except DISError (Pdu k.Body))) prof b ≠ .ok (.error e, rest) := by
  obtain ⟨hd, _, h2, h3⟩ := Pdu.deserialize_eq (B := k.Body) prof b h
  have he : hd.pdu_type = PduBody.pduType k.Body := by
    rw [h2]
    exact (k.type_test _).mpr ht
  rw [h3, if_neg (by simpa using he)]
  cases (PduBody.deserializeBody : Get k.Body) prof (b.drop 12) <;> simp

example := C09_own_type_accepted .Signal ⟨true⟩ (sampleOctets.take 20) (by decide) (by decide)

/-- `Ok` only for the kind's own type code, and the header returned bears it. -/
theorem C09_ok_only_own_type (k : PduKind) (prof : Profile) (b : Bytes) (p : Pdu k.Body) (rest : Bytes)
    (h : (Pdu.deserialize : Get (Except DISError (Pdu k.Body))) prof b = .ok (.ok p, rest)) :
    12 ≤ b.length ∧ (b.getD 2 0).toNat = k.typeCode ∧ p.header.pdu_type.code = k.typeCode := by
  by_cases hl : b.length < 12
  · rw [C09_short_panics k prof b hl] at h; cases h
  · have hl' : 12 ≤ b.length := by omega
    by_cases ht : (b.getD 2 0).toNat = k.typeCode
    · refine ⟨hl', ht, ?_⟩
      obtain ⟨hd, _, h2, h3⟩ := Pdu.deserialize_eq (B := k.Body) prof b hl'
      have he : hd.pdu_type = PduBody.pduType k.Body := by rw [h2]; exact (k.type_test _).mpr ht
      rw [h3, if_neg (by simpa using he)] at h
      cases hb : (PduBody.deserializeBody : Get k.Body) prof (b.drop 12) with
      | error e => rw [hb] at h; cases h
      | ok r =>
        rw [hb] at h
        simp only [Except.ok.injEq, Prod.mk.injEq] at h
        rw [← h.1]
        show hd.pdu_type.code = _
        rw [he, k.type_code]
    · rw [C09_foreign_type_refused k prof b hl' ht] at h
      simp at h

/-- The sample is decoded by its own kind: without its data, whose octets stay. -/
theorem sampleSignal_decode : (Pdu.deserialize : Get (Except DISError (Pdu SignalPdu))) ⟨true⟩ sampleOctets =
    .ok (.ok ⟨sampleHeader, { sampleSignal.body with data := [] }⟩, [1, 2, 3]) := by decide +kernel

example := C09_ok_only_own_type .Signal _ _ _ _ sampleSignal_decode

/-! ### C10 at most one decoder accepts -/

/-- Two kinds that both accept the same octets are the same kind. -/
theorem C10_one_decoder (k k' : PduKind) (prof prof' : Profile) (b : Bytes) (p : Pdu k.Body)
    (p' : Pdu k'.Body) (r r' : Bytes)
    (h : (Pdu.deserialize : Get (Except DISError (Pdu k.Body))) prof b = .ok (.ok p, r))
    (h' : (Pdu.deserialize : Get (Except DISError (Pdu k'.Body))) prof' b = .ok (.ok p', r')) :
    k = k' :=
  PduKind.typeCode_inj (by
    rw [← (C09_ok_only_own_type k prof b p r h).2.1, (C09_ok_only_own_type k' prof' b p' r' h').2.1])

example := C10_one_decoder .Signal .Signal _ _ _ _ _ _ _ sampleSignal_decode sampleSignal_decode

/-- A message of one kind is refused by every other kind. -/
theorem C10_foreign_messages_refused (k k' : PduKind) (hne : k ≠ k') (p q : Pdu k.Body)
    (prof prof' : Profile) (w rest : Bytes) (h : p.serialize prof [] = .ok ((q, .ok ()), w)) :
    ∃ m, (Pdu.deserialize : Get (Except DISError (Pdu k'.Body))) prof' (w ++ rest) =
      .ok (.error (.InvalidHeader m), (w ++ rest).drop 12) := by
  have hc := (C42_codes k p q prof [] w h).2.2.1
  obtain ⟨rfl, _, hw⟩ := Pdu.serialize_ok h
  rw [List.nil_append] at hw
  have hl : 12 ≤ w.length := by rw [hw, List.length_append, PduHeader.wire_length]; omega
  refine ⟨_, C09_foreign_type_refused k' prof' (w ++ rest) (by rw [List.length_append]; omega) ?_⟩
  have h2 : (w ++ rest).getD 2 0 = w.getD 2 0 := by
    rw [List.getD_eq_getElem?_getD, List.getD_eq_getElem?_getD, List.getElem?_append_left (by omega)]
  rw [h2]
  have hc' : w.getD 2 0 = UInt8.ofNat k.typeCode := hc
  have hlt : k.typeCode < 256 := EnumFits.fits _ k.typeCode_assigned
  rw [hc', UInt8.toNat_ofNat_of_lt' (by simpa [UInt8.size] using hlt)]
  exact fun e => hne (PduKind.typeCode_inj e)

example := C10_foreign_messages_refused .Signal .Fire (by decide) sampleSignal _ _ ⟨true⟩ _ [7]
  sampleSignal_serialize_nil

/-! ### C21 new -/

/-- A fresh PDU of any kind: version 7, exercise 1, the kind's type and family, the size of IEEE 1278.1
as length, everything else zero, the clock's timestamp. -/
theorem C21_new_header (k : PduKind) (now : UInt32) :
    let h := (Pdu.new now : Pdu k.Body).header
    h.protocol_version.code = 7 ∧ h.exercise_id = 1 ∧ h.pdu_type.code = k.typeCode ∧
    h.protocol_family.code = k.familyCode ∧ h.timestamp = now ∧ h.length.toNat = k.ieeeOctets ∧
    h.status_record.bits = 0 ∧ h.padding = 0 := by
  refine ⟨rfl, rfl, k.type_code, k.family_code, rfl, ?_, rfl, rfl⟩
  have hl : 12 + PduBody.fieldsLen (PduBody.default : k.Body) < 65536 := by
    rw [k.default_len]; cases k <;> decide
  rw [Pdu.new_eq hl]
  show (UInt16.ofNat _).toNat = _
  rw [k.default_len]
  exact UInt16.toNat_ofNat_of_lt' (by cases k <;> decide)

/-- Serializing a fresh PDU succeeds, leaves it unchanged and appends as many octets as its length says;
eleven fewer for the entity state PDU, whose marking is empty. -/
theorem C21_new_serializes (k : PduKind) (now : UInt32) (prof : Profile) (buf : Bytes) :
    ∃ w, (Pdu.new now : Pdu k.Body).serialize prof buf = .ok ((Pdu.new now, .ok ()), buf ++ w) ∧
      w.length + (if k = .EntityState then 11 else 0) = k.ieeeOctets := by
  have hl : 12 + PduBody.fieldsLen (PduBody.default : k.Body) < 65536 := by
    rw [k.default_len]; cases k <;> decide
  have hs := Pdu.serialize_of_encodable (Pdu.new now : Pdu k.Body) k.default_encodable hl prof buf
  have ha : (Pdu.new now : Pdu k.Body).after = Pdu.new now := by
    rw [Pdu.new_eq hl]
    unfold Pdu.after
    simp only [k.default_prep]
  rw [ha, List.append_assoc] at hs
  refine ⟨_, hs, ?_⟩
  have h1 := LawfulBody.len (PduBody.default : k.Body)
  rw [k.default_surplus] at h1
  have h2 := k.default_len
  show (_ : Nat) + _ = _
  rw [List.length_append, PduHeader.wire_length]
  change 12 + (wire (sent (PduBody.default : k.Body))).length + _ = _
  split at h1 <;> simp_all <;> omega

theorem PduKind.default_wire (k : PduKind) : wire (sent (PduBody.default : k.Body)) = k.freshBody := by
  cases k <;> decide +kernel

/-- The octets of a fresh PDU, all of them. -/
theorem C21_new_octets (k : PduKind) (now : UInt32) (prof : Profile) (buf : Bytes) :
    (Pdu.new now : Pdu k.Body).serialize prof buf = .ok ((Pdu.new now, .ok ()), buf ++
      (([7, 1, UInt8.ofNat k.typeCode, UInt8.ofNat k.familyCode] : Bytes) ++ octets 4 now.toNat ++
        octets 2 k.ieeeOctets ++ [0, 0] ++ k.freshBody)) := by
  have hl : 12 + PduBody.fieldsLen (PduBody.default : k.Body) < 65536 := by
    rw [k.default_len]; cases k <;> decide
  have hs := Pdu.serialize_of_encodable (Pdu.new now : Pdu k.Body) k.default_encodable hl prof buf
  have ha : (Pdu.new now : Pdu k.Body).after = Pdu.new now := by
    rw [Pdu.new_eq hl]
    unfold Pdu.after
    simp only [k.default_prep]
  rw [ha] at hs
  have hb : (Pdu.new now : Pdu k.Body).body = PduBody.default := rfl
  rw [hb, k.default_wire] at hs
  obtain ⟨h1, h2, h3, h4, h5, h6, h7, h8⟩ := C21_new_header k now
  have hh : wire (Pdu.new now : Pdu k.Body).header =
      ([7, 1, UInt8.ofNat k.typeCode, UInt8.ofNat k.familyCode] : Bytes) ++ octets 4 now.toNat ++
        octets 2 k.ieeeOctets ++ [0, 0] := by
    have := C02_header_layout (Pdu.new now : Pdu k.Body).header prof []
    rw [PduHeader.writes] at this
    have := (this.1)
    simp only [List.nil_append, Except.ok.injEq, Prod.mk.injEq, true_and] at this
    rw [this, h1, h2, h3, h4, h5, h6, h7, h8]
    simp [octets, List.range_succ, uint8_ofNat_mod]
  rw [hs, hh]
  simp only [List.append_assoc]

example : (Pdu.new 0x01020304 : Pdu AcknowledgePdu).serialize ⟨true⟩ [9] = .ok ((Pdu.new 0x01020304, .ok ()),
    [9, 7, 1, 15, 5, 1, 2, 3, 4, 0, 32, 0, 0, 0, 1, 0, 1, 0, 0, 0, 1, 0, 1, 0, 0, 0, 1, 0, 0, 0, 0, 0, 0]) := by
  decide +kernel

/-- `X::default()`: the same content as `X::new()`, under a header of no type and no family with length zero. -/
theorem C21_default_header (k : PduKind) (now : UInt32) :
    let p : Pdu k.Body := Pdu.default now
    p.header.protocol_version.code = 7 ∧ p.header.exercise_id = 1 ∧ p.header.pdu_type.code = 0 ∧
    p.header.protocol_family.code = 0 ∧ p.header.timestamp = now ∧ p.header.length = 0 ∧
    p.header.status_record.bits = 0 ∧ p.header.padding = 0 ∧ p.body = (Pdu.new now : Pdu k.Body).body :=
  ⟨rfl, rfl, rfl, rfl, rfl, rfl, rfl, rfl, rfl⟩

/-- Serializing `X::default()` writes the octets of `X::new()` and turns the one into the other. -/
theorem C21_default_serializes (k : PduKind) (now : UInt32) (prof : Profile) (buf : Bytes) :
    (Pdu.default now : Pdu k.Body).serialize prof buf = (Pdu.new now : Pdu k.Body).serialize prof buf := by
  have hl : 12 + PduBody.fieldsLen (PduBody.default : k.Body) < 65536 := by
    rw [k.default_len]; cases k <;> decide
  rw [Pdu.serialize_of_encodable (Pdu.default now : Pdu k.Body) k.default_encodable hl prof buf,
    Pdu.serialize_of_encodable (Pdu.new now : Pdu k.Body) k.default_encodable hl prof buf]
  have : (Pdu.default now : Pdu k.Body).after = (Pdu.new now : Pdu k.Body).after := rfl
  rw [this]

example : (Pdu.default 0x01020304 : Pdu AcknowledgePdu).header ≠ (Pdu.new 0x01020304 : Pdu AcknowledgePdu).header := by
  decide +kernel

end Dis
