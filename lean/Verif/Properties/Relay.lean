import Verif.Properties.Layout
/-
C49: what a relay (a program that decodes messages and serializes what it decoded) forwards.
-/
set_option maxRecDepth 8000
namespace Dis

/-! ### Octets are determined by the slots -/

theorem eq_of_contiguous {B : Type} : ∀ (T : List (Slot B)) (a n : Nat) (v w : Bytes), Contiguous a T n →
    v.length = n → w.length = n → v.take a = w.take a → (∀ s ∈ T, s.found v = s.found w) → v = w
  | [], a, n, v, w, hc, hv, hw, ht, _ => by
    cases hc
    rwa [List.take_of_length_le (by omega), List.take_of_length_le (by omega)] at ht
  | s :: T, a, n, v, w, ⟨h1, _, h3⟩, hv, hw, ht, hs => by
    refine eq_of_contiguous T (a + s.width) n v w h3 hv hw ?_ fun t ht => hs t (List.mem_cons_of_mem _ ht)
    rw [List.take_add, List.take_add, ht]
    refine congrArg _ ?_
    have h := hs s List.mem_cons_self
    unfold Slot.found at h
    rw [h1] at h
    refine bigEndian_inj ?_ h
    rw [List.length_take, List.length_take, List.length_drop, List.length_drop, hv, hw]

theorem Contiguous.stop_le {B : Type} : ∀ {T : List (Slot B)} {a n : Nat}, Contiguous a T n →
    a ≤ n ∧ ∀ s ∈ T, s.stop ≤ n
  | [], _, _, h => ⟨Nat.le_of_eq h, fun _ h => nomatch h⟩
  | t :: T, a, n, ⟨h1, _, h3⟩ => by
    have ih := Contiguous.stop_le h3
    refine ⟨by omega, List.forall_mem_cons.mpr ⟨?_, ih.2⟩⟩
    unfold Slot.stop
    omega

theorem PduKind.prep_decoded (k : PduKind) {prof : Profile} {b rest : Bytes} {p : Pdu k.Body}
    (hd : k.decode prof b = .ok (.ok p, rest)) : PduBody.prep p.body = p.body := by
  by_cases ht : k = .Transmitter
  · subst ht
    have h12 : 12 ≤ b.length := (C09_ok_only_own_type .Transmitter prof b p rest hd).1
    obtain ⟨h, _, _, h3⟩ := Pdu.deserialize_eq (B := TransmitterPdu) prof b h12
    rw [show PduKind.decode .Transmitter prof b = _ from h3] at hd
    split at hd
    · cases hd
    · cases hb : (PduBody.deserializeBody : Get TransmitterPdu) prof (b.drop 12) with
      | error e => rw [hb] at hd; cases hd
      | ok v =>
        rw [hb] at hd
        simp only [Except.ok.injEq, Prod.mk.injEq] at hd
        rw [← hd.1]
        exact (TransmitterPdu.settled prof _ _ _ hb).2.2.2
  · exact k.prep_id ht p.body

/-! ### The fields -/

/-- Whatever a relay receives and can decode: if it can serialize what it decoded, every field of the body
table is forwarded as it was, but for enumeration codes without a meaning (forwarded as the default), flag
sets with unknown bits (forwarded empty) and the fields always sent as zero. -/
theorem C49_fields (k : PduKind) (prof prof' : Profile) (b rest buf buf' : Bytes) (p q : Pdu k.Body)
    (hd : k.decode prof b = .ok (.ok p, rest)) (hs : p.serialize prof' buf = .ok ((q, .ok ()), buf')) :
    ∃ w, buf' = buf ++ w ∧ ∀ s ∈ k.layoutTable, s.found w = s.relayed (s.found b) := by
  obtain ⟨w, hw, _, h2⟩ := C48_encode k p q prof' buf buf' hs
  refine ⟨w, hw, fun s hm => ?_⟩
  obtain ⟨rfl, _, _⟩ := Pdu.serialize_ok hs
  rw [(h2 s hm).2]
  unfold Slot.transmitted Slot.relayed
  split
  · rfl
  · rw [← ((C48_decode k prof b rest p hd).2 s hm).2]
    show s.value (PduBody.prep p.body) = _
    rw [k.prep_decoded hd]

/-- The header: version, exercise, time stamp, status and padding are forwarded (an unknown version as 7);
the family becomes the kind's and the length the number of octets counted for the PDU. -/
theorem C49_header (k : PduKind) (prof prof' : Profile) (b rest buf buf' : Bytes) (p q : Pdu k.Body)
    (hd : k.decode prof b = .ok (.ok p, rest)) (hs : p.serialize prof' buf = .ok ((q, .ok ()), buf')) :
    ∃ w, buf' = buf ++ w ∧ w.take 12 =
      [if b.getD 0 0 ≤ 7 then b.getD 0 0 else 7, b.getD 1 0, b.getD 2 0, UInt8.ofNat k.familyCode] ++
        (b.drop 4).take 4 ++ octets 2 q.header.length.toNat ++ (b.drop 10).take 2 := by
  obtain ⟨rfl, _, hb⟩ := Pdu.serialize_ok hs
  refine ⟨wire p.after.header ++ wire (sent p.after.body), by rw [hb, List.append_assoc], ?_⟩
  rw [List.take_append_of_le_length (by rw [PduHeader.wire_length]; exact Nat.le_refl _),
    List.take_of_length_le (by rw [PduHeader.wire_length]; exact Nat.le_refl _)]
  have h12 : 12 ≤ b.length := (C09_ok_only_own_type k prof b p rest hd).1
  have hr := (C48_decode k prof b rest p hd).1
  have ht := (C09_ok_only_own_type k prof b p rest hd).2
  obtain ⟨b0, b1, b2, b3, b4, b5, b6, b7, b8, b9, b10, b11, r, rfl⟩ : ∃ b0 b1 b2 b3 b4 b5 b6 b7 b8 b9 b10 b11 r,
      b = b0 :: b1 :: b2 :: b3 :: b4 :: b5 :: b6 :: b7 :: b8 :: b9 :: b10 :: b11 :: r := by
    iterate 12 (obtain _ | ⟨_, b⟩ := b; · simp at h12)
    exact ⟨_, _, _, _, _, _, _, _, _, _, _, _, _, rfl⟩
  have hw := PduHeader.written p.after.header
  rw [← PduHeader.layout_eq] at hw
  have hfam : (p.after.header.protocol_family).code = k.familyCode := k.family_code
  have hty : p.after.header.pdu_type.code = k.typeCode := k.type_code
  unfold PduHeader.layout at hw hr
  simp only [Written, ReadFrom, List.forall_mem_cons] at hw hr
  obtain ⟨⟨_, w0⟩, ⟨_, w1⟩, ⟨_, w2⟩, ⟨_, w3⟩, ⟨_, w4⟩, ⟨_, w8⟩, ⟨_, w10⟩, ⟨_, w11⟩, _⟩ := hw
  obtain ⟨⟨_, r0⟩, ⟨_, r1⟩, ⟨_, r2⟩, ⟨_, r3⟩, ⟨_, r4⟩, ⟨_, r8⟩, ⟨_, r10⟩, ⟨_, r11⟩, _⟩ := hr
  simp only [List.getD_cons_zero, List.getD_cons_succ, List.drop_succ_cons, List.drop_zero, List.take_succ_cons, List.take_zero,
    List.cons_append, List.nil_append] at ht ⊢
  refine eq_of_contiguous PduHeader.layout 0 12 _ _ (C48_complete k).1 (PduHeader.wire_length _) ?_ rfl ?_
  · simp [octets_length]
  · have ho : octets 2 p.after.header.length.toNat =
        [UInt8.ofNat (p.after.header.length.toNat / 256), UInt8.ofNat p.after.header.length.toNat] := by
      simp [octets, List.range_succ, uint8_ofNat_mod]
    have hv : p.header.protocol_version.code = if b0.toNat ≤ 7 then b0.toNat else 7 := by
      have hc : ∀ n, n ∈ ProtocolVersion.spec.codes ↔ n ≤ 7 := by
        intro n
        have : ProtocolVersion.spec.codes = List.range 8 := by decide +kernel
        rw [this, List.mem_range]; omega
      have h := r0
      simp only [Slot.enum, Slot.found, List.drop_zero, List.take_succ_cons, List.take_zero, hc] at h
      simpa [bigEndian, ProtocolVersion.spec] using h
    unfold PduHeader.layout
    simp only [List.forall_mem_cons]
    refine ⟨?_, ?_, ?_, ?_, ?_, ?_, ?_, ?_, fun _ h => nomatch h⟩
    · rw [w0]
      show p.header.protocol_version.code = (if b0 ≤ 7 then b0 else 7).toNat * 1 + 0
      rw [hv]
      by_cases h : b0 ≤ 7
      · rw [if_pos h, if_pos (by simpa [UInt8.le_iff_toNat_le] using h)]; omega
      · rw [if_neg h, if_neg (by simpa [UInt8.le_iff_toNat_le] using h)]; rfl
    · rw [w1]; exact r1
    · rw [w2]
      show p.after.header.pdu_type.code = b2.toNat * 1 + 0
      rw [hty, ← ht.1]; omega
    · rw [w3]
      show p.after.header.protocol_family.code = (UInt8.ofNat k.familyCode).toNat * 1 + 0
      rw [hfam]; cases k <;> rfl
    · rw [w4]; exact r4
    · rw [w8, ho]
      show p.after.header.length.toNat = (UInt8.ofNat (p.after.header.length.toNat / 256)).toNat * 256 +
        ((UInt8.ofNat p.after.header.length.toNat).toNat * 1 + 0)
      have := p.after.header.length.toNat_lt
      generalize p.after.header.length.toNat = n at *
      simp only [UInt8.toNat_ofNat']
      omega
    · rw [w10, ho]; exact r10
    · rw [w11, ho]; exact r11

/-! ### The length -/

theorem RecordSpecification.settled_surplus {x : RecordSpecification} (h : decodable x) : surplus x = 0 := by
  show (x.record_sets.map surplus).sum = 0
  have : ∀ l : List RecordSpecificationElement, (∀ e ∈ l, decodable e) → (l.map surplus).sum = 0 := by
    intro l
    induction l with
    | nil => intro _; rfl
    | cons e l ih =>
      intro hl
      rw [List.map_cons, List.sum_cons, ih fun x hx => hl x (List.mem_cons_of_mem _ hx)]
      obtain ⟨h1, h2⟩ := hl e List.mem_cons_self
      show ((min e.octetsSent e.record_values.length : Nat) : Int) - e.record_values.length + 0 = 0
      rw [RecordSpecificationElement.octetsSent, Nat.mod_eq_of_lt h1, h2]
      omega
  exact this _ h.2

theorem PduKind.decoded_exact (k : PduKind) (he : k ≠ .EntityState) (prof : Profile)
    (hr : k.hasRecordSets = true → prof = ⟨true⟩) :
    Yields prof (PduBody.deserializeBody : Get k.Body) (fun x => surplus x = 0) := by
  cases hx : k.exactLength
  · cases k
    case EntityState => exact absurd rfl he
    case TransferOwnership =>
      exact Yields.mono (PduKind.settled .TransferOwnership he prof hr) fun x h => RecordSpecification.settled_surplus h.1
    case SetRecordReliable =>
      exact Yields.mono (PduKind.settled .SetRecordReliable he prof hr) fun x h => RecordSpecification.settled_surplus h.1
    case AggregateState =>
      iterate 14 refine Yields.any fun _ => ?_
      iterate 5 refine Yields.list ?_
      refine Yields.any fun _ => ?_
      refine Yields.list ?_
      exact Yields.ret rfl
    all_goals first
      | exact absurd hx (by decide)
      | (show Yields prof (_ >>= _) _
         repeat (first
           | refine Yields.list ?_
           | refine Yields.opt ?_
           | refine Yields.any fun _ => ?_)
         exact Yields.ret rfl)
  · exact fun b a r _ => (k.enc_exact hx a).2

theorem PduKind.decoded_body (k : PduKind) {prof : Profile} {P : k.Body → Prop}
    (h : Yields prof (PduBody.deserializeBody : Get k.Body) P) {b rest : Bytes} {p : Pdu k.Body}
    (hd : k.decode prof b = .ok (.ok p, rest)) : P p.body := by
  have h12 : 12 ≤ b.length := (C09_ok_only_own_type k prof b p rest hd).1
  obtain ⟨_, _, _, h3⟩ := Pdu.deserialize_eq (B := k.Body) prof b h12
  rw [show PduKind.decode k prof b = _ from h3] at hd
  split at hd
  · cases hd
  · cases hb : (PduBody.deserializeBody : Get k.Body) prof (b.drop 12) with
    | error e => rw [hb] at hd; cases hd
    | ok v =>
      rw [hb] at hd
      simp only [Except.ok.injEq, Prod.mk.injEq] at hd
      rw [← hd.1]
      exact h _ _ _ hb

/-- Whatever message a relay received (entity state messages excepted; with overflow checks for the two kinds
with record sets), the length field of the message it forwards is the number of octets it forwards. -/
theorem PduKind.relayed_length (k : PduKind) (he : k ≠ .EntityState) (prof prof' : Profile)
    (hr : k.hasRecordSets = true → prof = ⟨true⟩) (b rest buf buf' : Bytes) (p q : Pdu k.Body)
    (hd : k.decode prof b = .ok (.ok p, rest)) (hs : p.serialize prof' buf = .ok ((q, .ok ()), buf')) :
    buf'.length = buf.length + q.header.length.toNat := by
  have h1 := (C04_declared_length_all_kinds k p q prof' buf buf' hs).2
  obtain ⟨rfl, _, _⟩ := Pdu.serialize_ok hs
  have h2 : surplus p.body = 0 := k.decoded_body (k.decoded_exact he prof hr) hd
  have h3 : surplus p.after.body = 0 := by
    show surplus (PduBody.prep p.body) = 0
    rw [k.prep_decoded hd, h2]
  omega

/-! ### The whole message -/

/-- Of a message whose decoder reads a fixed number of octets a relay forwards exactly that many: whatever
list follows the fixed part is dropped, although the fields counting its elements are forwarded
(`C49_fields`). -/
theorem C49_truncates (k : PduKind) (hk : k.variableDecoder = false) (he : k ≠ .EntityState)
    (prof prof' : Profile) (b rest buf buf' : Bytes) (p q : Pdu k.Body)
    (hd : k.decode prof b = .ok (.ok p, rest)) (hs : p.serialize prof' buf = .ok ((q, .ok ()), buf')) :
    ∃ w, buf' = buf ++ w ∧ w.length = k.ieeeOctets ∧ q.header.length.toNat = k.ieeeOctets ∧
      b.length = k.ieeeOctets + rest.length := by
  have hrs : k.hasRecordSets = true → prof = ⟨true⟩ := by
    intro h; cases k <;> first | exact absurd h (by decide) | exact absurd hk (by decide)
  have hl : declaredOctets p ≤ 65535 := by
    obtain ⟨_, h, _⟩ := Pdu.serialize_ok hs
    rw [declaredOctets_eq]
    omega
  obtain ⟨q', x, w, h1, _, h3, _⟩ := C24_stable k he prof hrs b p rest hd hl prof'
  have h := h1 buf
  rw [hs] at h
  simp only [Except.ok.injEq, Prod.mk.injEq, and_true] at h
  obtain ⟨rfl, rfl⟩ := h
  have key : ∀ {b rest : Bytes} {p : Pdu k.Body}, k.decode prof b = .ok (.ok p, rest) →
      b.length = k.ieeeOctets + rest.length := by
    intro b rest p hd
    obtain ⟨h12, ht, _⟩ := C09_ok_only_own_type k prof b p rest hd
    obtain ⟨c1, c2⟩ := C14_panics_iff_short k hk he prof b h12 ht
    by_cases hlt : b.length < k.ieeeOctets
    · rw [c1 hlt] at hd; cases hd
    · obtain ⟨p', hp'⟩ := c2 (by omega)
      rw [hp'] at hd
      simp only [Except.ok.injEq, Prod.mk.injEq] at hd
      rw [← hd.2, List.length_drop]
      omega
  have hw : w.length = k.ieeeOctets := by
    have := h3 prof []
    rw [List.append_nil] at this
    simpa using key this
  have hq := k.relayed_length he prof prof' hrs b rest buf _ p q hd hs
  rw [List.length_append] at hq
  exact ⟨w, rfl, hw, by omega, key hd⟩

/-- The aggregate state decoder takes the number of variable datum records from the four octets after the
fixed part, whatever lists the message has in between. -/
theorem AggregateStatePdu.finds_count : FindsAt AggregateStatePdu.deserializeBody (fun _ => True)
    (Slot.cons (·.aggregate_id) [] 6 <| Slot.cons (·.force_id) [] 1 <| Slot.cons (·.aggregate_state) [] 1 <|
     Slot.cons (·.aggregate_type) [] 8 <| Slot.cons (·.formation) [] 4 <| Slot.cons (·.aggregate_marking) [] 32 <|
     Slot.cons (·.dimensions) [] 12 <| Slot.cons (·.orientation) [] 12 <| Slot.cons (·.center_of_mass) [] 24 <|
     Slot.cons (·.velocity) [] 12 <| Slot.cons (·.number_of_dis_aggregates) [] 2 <|
     Slot.cons (·.number_of_dis_entities) [] 2 <| Slot.cons (·.number_of_silent_aggregate_types) [] 2 <|
     Slot.cons (·.number_of_silent_entity_types) [] 2 <|
     Slot.cons (·.aggregate_id_list) [] 0 <| Slot.cons (·.entity_id_list) [] 0 <| Slot.cons (·.padding) [] 0 <|
     Slot.cons (·.silent_aggregate_system_list) [] 0 <| Slot.cons (·.silent_entity_system_list) [] 0 <|
     Slot.cons (·.number_of_variable_datum_records) [Slot.u32 0 id] 4 []) :=
  have h : ∀ {α : Type} {g : Get α}, Finds g (ReadFrom []) := fun _ _ _ _ _ => ReadFrom.nil _ _
  FindsAt.cons (π := fun x : AggregateStatePdu => x.aggregate_id) AggregateId.fixed h fun _ =>
  FindsAt.cons (π := fun x : AggregateStatePdu => x.force_id) (EnumSpec.fixed _) h fun _ =>
  FindsAt.cons (π := fun x : AggregateStatePdu => x.aggregate_state) (EnumSpec.fixed _) h fun _ =>
  FindsAt.cons (π := fun x : AggregateStatePdu => x.aggregate_type) EntityType.fixed h fun _ =>
  FindsAt.cons (π := fun x : AggregateStatePdu => x.formation) (EnumSpec.fixed _) h fun _ =>
  FindsAt.cons (π := fun x : AggregateStatePdu => x.aggregate_marking) AggregateMarking.fixed h fun _ =>
  FindsAt.cons (π := fun x : AggregateStatePdu => x.dimensions) Vector3Float.fixed h fun _ =>
  FindsAt.cons (π := fun x : AggregateStatePdu => x.orientation) EulerAngles.fixed h fun _ =>
  FindsAt.cons (π := fun x : AggregateStatePdu => x.center_of_mass) WorldCoordinate.fixed h fun _ =>
  FindsAt.cons (π := fun x : AggregateStatePdu => x.velocity) LinearVelocity.fixed h fun _ =>
  FindsAt.cons (π := fun x : AggregateStatePdu => x.number_of_dis_aggregates) fixed_u16 h fun _ =>
  FindsAt.cons (π := fun x : AggregateStatePdu => x.number_of_dis_entities) fixed_u16 h fun _ =>
  FindsAt.cons (π := fun x : AggregateStatePdu => x.number_of_silent_aggregate_types) fixed_u16 h fun _ =>
  FindsAt.cons (π := fun x : AggregateStatePdu => x.number_of_silent_entity_types) fixed_u16 h fun _ =>
  FindsAt.cons (π := fun x : AggregateStatePdu => x.aggregate_id_list) (Fixed.ret []) h fun _ =>
  FindsAt.cons (π := fun x : AggregateStatePdu => x.entity_id_list) (Fixed.ret []) h fun _ =>
  FindsAt.cons (π := fun x : AggregateStatePdu => x.padding) (Fixed.ret []) h fun _ =>
  FindsAt.cons (π := fun x : AggregateStatePdu => x.silent_aggregate_system_list) (Fixed.ret []) h fun _ =>
  FindsAt.cons (π := fun x : AggregateStatePdu => x.silent_entity_system_list) (Fixed.ret []) h fun _ =>
  FindsAt.cons (π := fun x : AggregateStatePdu => x.number_of_variable_datum_records) fixed_u32 finds_u32 fun _ =>
  FindsAt.skip fun _ =>
  FindsAt.ret ⟨⟨⟨⟨⟨⟨⟨⟨⟨⟨⟨⟨⟨⟨⟨⟨⟨⟨⟨⟨trivial, rfl⟩, rfl⟩, rfl⟩, rfl⟩, rfl⟩, rfl⟩, rfl⟩, rfl⟩, rfl⟩, rfl⟩, rfl⟩, rfl⟩, rfl⟩, rfl⟩, rfl⟩, rfl⟩, rfl⟩, rfl⟩, rfl⟩, rfl⟩

theorem C48_aggregate_state_count (prof : Profile) (b rest : Bytes) (p : Pdu AggregateStatePdu)
    (h : decodeAs AggregateStatePdu prof b = .ok (.ok p, rest)) :
    136 ≤ b.length ∧ p.body.number_of_variable_datum_records.toNat = bigEndian ((b.drop 132).take 4) := by
  have h12 : 12 ≤ b.length := (C09_ok_only_own_type .AggregateState prof b p rest h).1
  obtain ⟨_, _, _, h3⟩ := Pdu.deserialize_eq (B := AggregateStatePdu) prof b h12
  rw [show decodeAs AggregateStatePdu prof b = _ from h3] at h
  split at h
  · cases h
  · cases hb : (PduBody.deserializeBody : Get AggregateStatePdu) prof (b.drop 12) with
    | error e => rw [hb] at h; cases h
    | ok v =>
      rw [hb] at h
      simp only [Except.ok.injEq, Prod.mk.injEq] at h
      rw [← h.1]
      have hf := (AggregateStatePdu.finds_count prof _ _ _ hb).2
        (Slot.u32 120 (·.number_of_variable_datum_records)) List.mem_cons_self
      refine ⟨?_, ?_⟩
      · have := hf.1
        rw [List.length_drop] at this
        have : 120 + 4 ≤ b.length - 12 := this
        omega
      · have := hf.2
        show _ = bigEndian ((b.drop 132).take 4)
        have e : b.drop 132 = (b.drop 12).drop 120 := by rw [List.drop_drop]
        rw [e]
        exact this

/-- When is a message forwarded octet for octet?  The octets forwarded are those received (up to the end of
the fixed part) exactly when the message had a known version, the family code of its kind, the length of the
fixed part in its length field, and in every field of the body table a number the relay does not replace: no
meaningless code or unknown flag, and zeros where zeros are always sent. -/
theorem C49_transparent (k : PduKind) (hk : k.variableDecoder = false) (he : k ≠ .EntityState)
    (prof prof' : Profile) (b rest buf buf' : Bytes) (p q : Pdu k.Body)
    (hd : k.decode prof b = .ok (.ok p, rest)) (hs : p.serialize prof' buf = .ok ((q, .ok ()), buf')) :
    buf' = buf ++ b.take k.ieeeOctets ↔
      b.getD 0 0 ≤ 7 ∧ b.getD 3 0 = UInt8.ofNat k.familyCode ∧
      (b.drop 8).take 2 = octets 2 k.ieeeOctets ∧
      ∀ s ∈ k.layoutTable, s.relayed (s.found b) = s.found b := by
  obtain ⟨w, rfl, hw, hq, hbl⟩ := C49_truncates k hk he prof prof' b rest buf buf' p q hd hs
  obtain ⟨w', hw', hf⟩ := C49_fields k prof prof' b rest buf _ p q hd hs
  obtain rfl := List.append_cancel_left hw'
  obtain ⟨w', hw', hh⟩ := C49_header k prof prof' b rest buf _ p q hd hs
  obtain rfl := List.append_cancel_left hw'
  clear hw'
  rw [hq] at hh
  have hc := (C48_complete k).2
  have h12 : 12 ≤ k.ieeeOctets := by cases k <;> decide
  have hle : k.ieeeOctets ≤ b.length := by omega
  have hext : ∃ E, Contiguous 12 (k.layoutTable ++ E) k.ieeeOctets ∧ ∀ s ∈ E, s.found w = s.found b := by
    by_cases ha : k = .AggregateState
    · subst ha
      refine ⟨[Slot.u32 132 (·.number_of_variable_datum_records)], by decide, List.forall_mem_cons.mpr ⟨?_, fun _ h => nomatch h⟩⟩
      have hl : declaredOctets p ≤ 65535 := by
        obtain ⟨_, h, _⟩ := Pdu.serialize_ok hs
        rw [declaredOctets_eq]
        omega
      obtain ⟨q', x, w', c1, c2, c3, _, c5⟩ := C24_stable .AggregateState he prof (by intro h; cases h) b p rest hd hl prof'
      have h := c1 buf
      rw [hs] at h
      simp only [Except.ok.injEq, Prod.mk.injEq, and_true] at h
      obtain ⟨rfl, hww⟩ := h
      obtain rfl := List.append_cancel_left hww
      have d1 := (C48_aggregate_state_count prof b rest p hd).2
      have d2 := (C48_aggregate_state_count prof w [] x (by have := c3 prof []; rwa [List.append_nil] at this)).2
      rw [c5 rfl, c2] at d2
      exact d2.symm.trans d1
    · refine ⟨[], ?_, fun _ h => nomatch h⟩
      rw [List.append_nil]
      cases k <;> first | exact absurd rfl he | exact absurd rfl ha | exact hc
  obtain ⟨E, hend, hE⟩ := hext
  have hfound : ∀ s ∈ k.layoutTable ++ E, s.found (b.take k.ieeeOctets) = s.found b := fun s hm => by
    have := hend.stop_le.2 s hm
    unfold Slot.stop at this
    unfold Slot.found
    rw [List.drop_take, List.take_take, Nat.min_eq_left (by omega)]
  have htake : (b.take k.ieeeOctets).take 12 = b.take 12 := by
    rw [List.take_take, Nat.min_eq_left h12]
  have hiff : w.take 12 = b.take 12 ↔ (b.getD 0 0 ≤ 7 ∧ b.getD 3 0 = UInt8.ofNat k.familyCode ∧
      (b.drop 8).take 2 = octets 2 k.ieeeOctets) := by
    rw [hh]
    have hb : 12 ≤ b.length := Nat.le_trans h12 hle
    clear hh hf hfound htake hbl hle hd hs hE
    iterate 12 (obtain _ | ⟨_, b⟩ := b; · simp at hb)
    obtain ⟨o1, o2, ho⟩ : ∃ o1 o2, octets 2 k.ieeeOctets = [o1, o2] := ⟨_, _, rfl⟩
    rw [ho]
    rename_i b0 _ _ _ _ _ _ _ _ _ _ _
    have h7 : (if b0 ≤ 7 then b0 else 7) = b0 ↔ b0 ≤ 7 := by
      by_cases h : b0 ≤ 7
      · simp [h]
      · simp only [h, if_false, iff_false]
        rintro rfl
        exact h (by decide)
    simp [h7]
    grind
  rw [List.append_cancel_left_eq]
  constructor
  · intro e
    obtain ⟨h1, h2, h3⟩ := hiff.mp (by rw [e, htake])
    refine ⟨h1, h2, h3, fun s hs => ?_⟩
    rw [← hf s hs, e, hfound s (List.mem_append_left _ hs)]
  · rintro ⟨h1, h2, h3, h4⟩
    refine eq_of_contiguous (k.layoutTable ++ E) 12 k.ieeeOctets _ _ hend hw ?_ ?_ fun s hs => ?_
    · rw [List.length_take]; omega
    · rw [htake]; exact hiff.mpr ⟨h1, h2, h3⟩
    · rw [hfound s hs]
      rcases List.mem_append.mp hs with h | h
      · rw [hf s h, h4 s h]
      · exact hE s h

/-- Decode and serialize again, in an empty buffer. -/
def C49_relay (k : PduKind) (b : Bytes) : Option Bytes :=
  match k.decode ⟨true⟩ b with
  | .ok (.ok p, _) => (match p.serialize ⟨true⟩ [] with
    | .ok ((_, .ok ()), w) => some w
    | _ => none)
  | _ => none

/-- The octets of a fire message with range 1.0. -/
def C49_fire : Bytes :=
  [7, 1, 2, 2, 0, 0, 0, 9, 0, 96, 0, 0] ++ List.replicate 80 0 ++ [0x3f, 0x80, 0, 0]

/-- It is forwarded as it is. -/
example : C49_relay .Fire C49_fire = some C49_fire := by decide +kernel

/-- The octets of a detonation message with one variable parameter. -/
def C49_detonation : Bytes :=
  [7, 1, 3, 2, 0, 0, 0, 9, 0, 120, 0, 0] ++ List.replicate 88 0 ++ [5, 1, 0, 0] ++ List.replicate 16 1

/-- It is forwarded with the count 1 but without the parameter, the length being that of the fixed part. -/
example : C49_relay .Detonation C49_detonation = some
    ([7, 1, 3, 2, 0, 0, 0, 9, 0, 104, 0, 0] ++ List.replicate 88 0 ++ [5, 1, 0, 0]) := by decide +kernel

/-- A fire message with an unknown version and a wrong family code: both are replaced. -/
example : C49_relay .Fire ([9, 1, 2, 99] ++ C49_fire.drop 4) = some C49_fire := by decide +kernel

/-! ### The decoders are determined by the tables -/

theorem PduKind.decoded_len (k : PduKind) (hk : k.variableDecoder = false) (he : k ≠ .EntityState) (prof : Profile) :
    Yields prof (PduBody.deserializeBody : Get k.Body) (fun x => 12 + PduBody.fieldsLen x = k.ieeeOctets) := by
  cases k
  case EntityState => exact absurd rfl he
  case AggregateState =>
    iterate 14 refine Yields.any fun _ => ?_
    iterate 5 refine Yields.list ?_
    refine Yields.any fun _ => ?_
    refine Yields.list ?_
    exact Yields.ret rfl
  all_goals first
    | exact absurd hk (by decide)
    | (show Yields prof (_ >>= _) _
       repeat (first
         | refine Yields.list ?_
         | refine Yields.opt ?_
         | refine Yields.any fun _ => ?_)
       exact Yields.ret rfl)

/-- A relay never fails on such a message: every message of the kind with at least the octets of the fixed
part is decoded, and what was decoded can be serialized, into any buffer. -/
theorem C49_always_forwards (k : PduKind) (hk : k.variableDecoder = false) (he : k ≠ .EntityState)
    (prof prof' : Profile) (b buf : Bytes) (hb : k.ieeeOctets ≤ b.length) (ht : (b.getD 2 0).toNat = k.typeCode) :
    ∃ p q w, k.decode prof b = .ok (.ok p, b.drop k.ieeeOctets) ∧
      p.serialize prof' buf = .ok ((q, .ok ()), buf ++ w) ∧ w.length = k.ieeeOctets := by
  have h12 : 12 ≤ k.ieeeOctets := by cases k <;> decide
  have hfit : k.ieeeOctets ≤ 65535 := by cases k <;> decide
  have hrs : k.hasRecordSets = true → prof = ⟨true⟩ := by
    intro h; cases k <;> first | exact absurd h (by decide) | exact absurd hk (by decide)
  obtain ⟨p, hp⟩ := (C14_panics_iff_short k hk he prof b (by omega) ht).2 hb
  have hl := k.decoded_body (k.decoded_len hk he prof) hp
  obtain ⟨q, _, w, hs, _⟩ := C24_stable k he prof hrs b p _ hp (by rw [declaredOctets_eq]; omega) prof'
  obtain ⟨w', hw, hl, _⟩ := C49_truncates k hk he prof prof' b _ buf _ p q hp (hs buf)
  exact ⟨p, q, w, hp, hs buf, by rw [List.append_cancel_left hw]; exact hl⟩

/-- Nothing but the tables matters: two messages, each decoded successfully, whose octets mean the same in
every row of the tables (for aggregate state messages also in the four octets after the fixed part) give the
same PDU — the lists and optional parts included, which are always empty. -/
theorem C48_decode_unique (k : PduKind) (hk : k.variableDecoder = false) (he : k ≠ .EntityState)
    (prof₁ prof₂ : Profile) (b₁ b₂ rest₁ rest₂ : Bytes) (p₁ p₂ : Pdu k.Body)
    (h₁ : k.decode prof₁ b₁ = .ok (.ok p₁, rest₁)) (h₂ : k.decode prof₂ b₂ = .ok (.ok p₂, rest₂))
    (hh : ∀ s ∈ PduHeader.layout, s.read (s.found b₁) = s.read (s.found b₂))
    (hb : ∀ s ∈ k.layoutTable, s.read (s.found b₁) = s.read (s.found b₂))
    (ha : k = .AggregateState → (b₁.drop 132).take 4 = (b₂.drop 132).take 4) : p₁ = p₂ := by
  obtain ⟨r1, r1'⟩ := C48_decode k prof₁ b₁ rest₁ p₁ h₁
  obtain ⟨r2, r2'⟩ := C48_decode k prof₂ b₂ rest₂ p₂ h₂
  have e1 : p₁.header = p₂.header := PduHeader.agree fun s hs => by
    rw [← PduHeader.layout_eq] at hs
    rw [(r1 s hs).2, (r2 s hs).2, hh s hs]
  have hval : ∀ s ∈ k.layoutTable, s.value p₁.body = s.value p₂.body := fun s hs => by
    rw [(r1' s hs).2, (r2' s hs).2, hb s hs]
  have hz : k.zeroesFields = false := by
    cases k <;> first | rfl | exact absurd rfl he | exact absurd hk (by decide)
  have hrs : ∀ prof : Profile, k.hasRecordSets = true → prof = ⟨true⟩ := by
    intro _ h; cases k <;> first | exact absurd h (by decide) | exact absurd hk (by decide)
  have hfit : k.ieeeOctets ≤ 65535 := by cases k <;> decide
  have hlen : ∀ {prof : Profile} {b rest : Bytes} {p : Pdu k.Body}, k.decode prof b = .ok (.ok p, rest) →
      declaredOctets p ≤ 65535 := by
    intro prof b rest p h
    have := k.decoded_body (k.decoded_len hk he prof) h
    rw [declaredOctets_eq]
    omega
  obtain ⟨q1, x1, w1, s1, b1, d1, _, z1⟩ := C24_stable k he prof₁ (hrs _) b₁ p₁ rest₁ h₁ (hlen h₁) ⟨true⟩
  obtain ⟨q2, x2, w2, s2, b2, d2, _, z2⟩ := C24_stable k he prof₂ (hrs _) b₂ p₂ rest₂ h₂ (hlen h₂) ⟨true⟩
  obtain ⟨v1, hv1, l1, n1, _⟩ := C49_truncates k hk he _ _ _ _ _ _ _ _ h₁ (s1 [])
  obtain ⟨v2, hv2, l2, n2, _⟩ := C49_truncates k hk he _ _ _ _ _ _ _ _ h₂ (s2 [])
  obtain rfl := List.append_cancel_left hv1
  obtain rfl := List.append_cancel_left hv2
  obtain ⟨v1, hv1, g1, f1⟩ := C48_encode k _ _ _ _ _ (s1 [])
  obtain ⟨v2, hv2, g2, f2⟩ := C48_encode k _ _ _ _ _ (s2 [])
  obtain rfl := List.append_cancel_left hv1
  obtain rfl := List.append_cancel_left hv2
  have hq : q1.header = q2.header := by
    obtain ⟨rfl, _, _⟩ := Pdu.serialize_ok (s1 [])
    obtain ⟨rfl, _, _⟩ := Pdu.serialize_ok (s2 [])
    have hn : p₁.after.header.length = p₂.after.header.length := UInt16.toNat_inj.mp (n1.trans n2.symm)
    show ({ p₁.header with
      pdu_type := p₁.after.header.pdu_type, protocol_family := p₁.after.header.protocol_family
      length := p₁.after.header.length } : PduHeader) = { p₂.header with
      pdu_type := p₂.after.header.pdu_type, protocol_family := p₂.after.header.protocol_family
      length := p₂.after.header.length }
    rw [e1, hn]
    rfl
  have h12 : 12 ≤ k.ieeeOctets := by cases k <;> decide
  have hc := C48_complete k
  have htake : w1.take 12 = w2.take 12 := by
    have hf : ∀ (w : Bytes), ∀ s ∈ PduHeader.layout, s.found (w.take 12) = s.found w := fun w s hs => by
      have := hc.1.stop_le.2 s hs
      unfold Slot.stop at this
      unfold Slot.found
      rw [List.drop_take, List.take_take, Nat.min_eq_left (by omega)]
    refine eq_of_contiguous PduHeader.layout 0 12 _ _ hc.1 ?_ ?_ rfl fun s hs => ?_
    · rw [List.length_take]; omega
    · rw [List.length_take]; omega
    · rw [hf _ s hs, hf _ s hs, (g1 s hs).2, (g2 s hs).2, hq]
  have hslots : ∀ s ∈ k.layoutTable, s.found w1 = s.found w2 := fun s hs => by
    rw [(f1 s hs).2, (f2 s hs).2, b1, b2]
    unfold Slot.transmitted
    rw [hval s hs]
  have hext : ∃ E, Contiguous 12 (k.layoutTable ++ E) k.ieeeOctets ∧ ∀ s ∈ E, s.found w1 = s.found w2 := by
    by_cases hag : k = .AggregateState
    · subst hag
      refine ⟨[Slot.u32 132 (·.number_of_variable_datum_records)], by decide, List.forall_mem_cons.mpr ⟨?_, fun _ h => nomatch h⟩⟩
      have c1 := (C48_aggregate_state_count _ _ _ _ h₁).2
      have c2 := (C48_aggregate_state_count _ _ _ _ h₂).2
      have c1' := (C48_aggregate_state_count _ _ _ _ (d1 ⟨true⟩ [])).2
      have c2' := (C48_aggregate_state_count _ _ _ _ (d2 ⟨true⟩ [])).2
      rw [List.append_nil, z1 hz, b1, c1] at c1'
      rw [List.append_nil, z2 hz, b2, c2] at c2'
      show bigEndian ((w1.drop 132).take 4) = bigEndian ((w2.drop 132).take 4)
      rw [← c1', ← c2', ha rfl]
    · refine ⟨[], ?_, fun _ h => nomatch h⟩
      rw [List.append_nil]
      have hc2 := hc.2
      cases k <;> first | exact absurd rfl he | exact absurd rfl hag | exact hc2
  obtain ⟨E, hend, hE⟩ := hext
  have hw : w1 = w2 := eq_of_contiguous (k.layoutTable ++ E) 12 k.ieeeOctets _ _ hend l1 l2 htake fun s hs => by
    rcases List.mem_append.mp hs with h | h
    · exact hslots s h
    · exact hE s h
  have hx : x1 = x2 := by
    have e := d1 ⟨true⟩ []
    rw [hw, d2 ⟨true⟩ []] at e
    simp only [Except.ok.injEq, Prod.mk.injEq, and_true] at e
    exact e.symm
  have e2 : p₁.body = p₂.body := by rw [← b1, ← b2, ← z1 hz, ← z2 hz, hx]
  cases p₁; cases p₂
  exact congr (congrArg _ e1) e2

/-- The detonation message above, and the same with the parameter changed: they decode to the same PDU. -/
example : ∃ p r r', PduKind.decode .Detonation ⟨true⟩ C49_detonation = .ok (.ok p, r) ∧ r ≠ r' ∧
    PduKind.decode .Detonation ⟨false⟩ (C49_detonation.take 104 ++ [9]) = .ok (.ok p, r') := by
  obtain ⟨p, hp⟩ := (C14_panics_iff_short .Detonation rfl (by decide) ⟨true⟩ C49_detonation (by decide) (by decide)).2 (by decide)
  obtain ⟨p', hp'⟩ := (C14_panics_iff_short .Detonation rfl (by decide) ⟨false⟩ (C49_detonation.take 104 ++ [9])
    (by decide) (by decide)).2 (by decide)
  obtain rfl := C48_decode_unique .Detonation rfl (by decide) _ _ _ _ _ _ p p' hp hp' (by decide +kernel) (by decide +kernel)
    (fun h => nomatch h)
  exact ⟨p, _, _, hp, by decide, hp'⟩

/-- A signal message that is decoded and can be forwarded. -/
theorem C49_sample : ∃ q w, (⟨sampleHeader, { sampleSignal.body with data := [] }⟩ : Pdu PduKind.Signal.Body).serialize ⟨true⟩ [9] =
    .ok ((q, .ok ()), w) :=
  ⟨_, _, Pdu.serialize_of_encodable _ (PduKind.encodable .Signal rfl _)
    (by show 12 + SignalPdu.fieldsLen _ < 65536; decide +kernel) ⟨true⟩ [9]⟩
example (q : Pdu PduKind.Signal.Body) (w : Bytes)
    (h : (⟨sampleHeader, { sampleSignal.body with data := [] }⟩ : Pdu PduKind.Signal.Body).serialize ⟨true⟩ [9] = .ok ((q, .ok ()), w)) :=
  And.intro (C49_fields .Signal ⟨true⟩ ⟨true⟩ _ _ _ _ _ _ sampleSignal_decode h)
    (And.intro (C49_header .Signal ⟨true⟩ ⟨true⟩ _ _ _ _ _ _ sampleSignal_decode h)
      (C49_truncates .Signal rfl (by decide) ⟨true⟩ ⟨true⟩ _ _ _ _ _ _ sampleSignal_decode h))
example := C49_always_forwards .Signal rfl (by decide) ⟨true⟩ ⟨true⟩ sampleOctets [9] (by decide) (by decide)

end Dis
