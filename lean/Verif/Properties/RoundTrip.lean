import Verif.Proofs.RoundTrip
import Verif.Properties.Pdu
import Verif.Properties.Header
/-
C11 (exact round-trip), C12 (what survives), C13 (lists in the middle), C14 (short input),
C15 (decoding ignores what follows), C24 (decode-encode-decode), C39 (suffix).
-/
namespace Dis

/-- Decoding a whole message (`<B as Pdu>::deserialize`). -/
abbrev decodeAs (B : Type) [PduBody B] : Get (Except DISError (Pdu B)) := Pdu.deserialize
/-- Decoding a whole message of kind `k`. -/
abbrev PduKind.decode (k : PduKind) : Get (Except DISError (Pdu k.Body)) := decodeAs k.Body

/-! ### C11 -/

/-- Kinds with a fixed layout: `serialize` always succeeds, with the number of octets of IEEE 1278.1,
leaving the body as it was; decoding those octets, followed by anything, in any build, gives back the
PDU and what followed. -/
theorem C11_roundtrip (k : PduKind) (hk : k.fixedLayout = true) (h1 : k ≠ .StopFreeze)
    (h2 : k ≠ .StopFreezeReliable) (p : Pdu k.Body) (prof : Profile) (buf : Bytes) :
    ∃ q w, p.serialize prof buf = .ok ((q, .ok ()), buf ++ w) ∧ w.length = k.ieeeOctets ∧
      q.body = p.body ∧ ∀ prof' rest, k.decode prof' (w ++ rest) = .ok (.ok q, rest) := by
  obtain ⟨e1, e2, e3, e4⟩ := k.layout hk p.body
  have hl := k.layout_len hk p.body
  have hlt := k.ieeeOctets_lt
  have hs := Pdu.serialize_of_encodable p (k.encodable (k.layout_no_sets hk) p.body) (by omega) prof buf
  rw [List.append_assoc] at hs
  have hb : p.after.body = p.body := e4
  have hu : k.unconditional = true := by
    cases k <;> first | exact absurd hk (by decide) | exact absurd rfl h1 | exact absurd rfl h2 | rfl
  refine ⟨_, _, hs, ?_, hb, fun prof' rest => ?_⟩
  · have h4 := (C04_declared_length k (k.layout_exact hk) p _ prof buf _ hs).1
    have h6 := C06_length_not_truncated k p _ prof buf _ hs
    rw [declaredOctets_eq] at h6
    rw [List.length_append] at h4
    omega
  · have hd := Pdu.decode_encoded hs (k.unconditional_decodable hu _) prof' rest
    rw [List.drop_left, (k.layout hk _).2.2.1, (k.layout hk _).1, (k.layout hk _).2.1,
      List.nil_append] at hd
    rw [(k.layout hk _).2.2.1]
    exact hd

example := C11_roundtrip .Fire rfl (by decide) (by decide) (Pdu.new 5) ⟨true⟩ [9]

/-- The stop/freeze PDU: the same when only named frozen-behaviour flags (bits 0 to 2) are set;
otherwise the decoded flag set is empty and all else is as encoded. -/
theorem C11_roundtrip_stop_freeze (p : Pdu StopFreezePdu) (prof : Profile) (buf : Bytes) :
    ∃ q w, p.serialize prof buf = .ok ((q, .ok ()), buf ++ w) ∧ w.length = 40 ∧ q.body = p.body ∧
      ∃ f : FrozenBehavior,
        (OnlyFlags [0, 1, 2] p.body.frozen_behavior.bits.toNat →
          f = p.body.frozen_behavior) ∧
        (¬ OnlyFlags [0, 1, 2] p.body.frozen_behavior.bits.toNat → f = ⟨0⟩) ∧
        ∀ prof' rest, decodeAs StopFreezePdu prof' (w ++ rest) =
          .ok (.ok ⟨q.header, { p.body with frozen_behavior := f }⟩, rest) := by
  have hl := PduKind.layout_len .StopFreeze rfl p.body
  have hs := Pdu.serialize_of_encodable p (PduKind.encodable .StopFreeze rfl p.body)
    (by rw [hl]; decide) prof buf
  rw [List.append_assoc] at hs
  obtain ⟨f, hf1, hf2, hf3⟩ := FrozenBehavior.reads_any p.body.frozen_behavior
  refine ⟨_, _, hs, ?_, rfl, f, hf1, hf2, fun prof' rest => ?_⟩
  · have h4 := (C04_declared_length .StopFreeze rfl p _ prof buf _ hs).1
    have h6 := C06_length_not_truncated .StopFreeze p _ prof buf _ hs
    rw [declaredOctets_eq, hl] at h6
    rw [List.length_append] at h4
    have : PduKind.StopFreeze.ieeeOctets = 40 := rfl
    omega
  · rw [List.append_assoc]
    show Pdu.deserialize prof' _ = _
    rw [Pdu.deserialize_of_wire _ rfl]
    have hr := StopFreezePdu.reads_any p.body hf3 prof' rest
    rw [show (PduBody.deserializeBody : Get StopFreezePdu) prof' (wire (sent p.after.body) ++ rest) = _
      from hr]

example := C11_roundtrip_stop_freeze ⟨exampleHeader, { (PduBody.default : StopFreezePdu) with frozen_behavior := ⟨3⟩ }⟩ ⟨true⟩ [9]

/-- The reliable stop/freeze PDU likewise. -/
theorem C11_roundtrip_stop_freeze_reliable (p : Pdu StopFreezeReliablePdu) (prof : Profile)
    (buf : Bytes) :
    ∃ q w, p.serialize prof buf = .ok ((q, .ok ()), buf ++ w) ∧ w.length = 40 ∧ q.body = p.body ∧
      ∃ f : FrozenBehavior,
        (OnlyFlags [0, 1, 2] p.body.frozen_behavior.bits.toNat →
          f = p.body.frozen_behavior) ∧
        (¬ OnlyFlags [0, 1, 2] p.body.frozen_behavior.bits.toNat →
          f = ⟨0⟩) ∧
        ∀ prof' rest, decodeAs StopFreezeReliablePdu prof' (w ++ rest) =
          .ok (.ok ⟨q.header, { p.body with frozen_behavior := f }⟩,
            rest) := by
  have hl := PduKind.layout_len .StopFreezeReliable rfl p.body
  have hs := Pdu.serialize_of_encodable p (PduKind.encodable .StopFreezeReliable rfl p.body)
    (by rw [hl]; decide) prof buf
  rw [List.append_assoc] at hs
  obtain ⟨f, hf1, hf2, hf3⟩ :=
    FrozenBehavior.reads_any p.body.frozen_behavior
  refine ⟨_, _, hs, ?_, rfl, f, hf1, hf2, fun prof' rest => ?_⟩
  · have h4 := (C04_declared_length .StopFreezeReliable rfl p _ prof buf _ hs).1
    have h6 := C06_length_not_truncated .StopFreezeReliable p _ prof buf _ hs
    rw [declaredOctets_eq, hl] at h6
    rw [List.length_append] at h4
    have : PduKind.StopFreezeReliable.ieeeOctets = 40 := rfl
    omega
  · rw [List.append_assoc]
    show Pdu.deserialize prof' _ = _
    rw [Pdu.deserialize_of_wire _ rfl]
    have hr := StopFreezeReliablePdu.reads_any p.body hf3 prof' rest
    rw [show (PduBody.deserializeBody : Get StopFreezeReliablePdu) prof'
      (wire (sent p.after.body) ++ rest) = _ from hr]

/-- a fire PDU with distinct octets throughout -/
def exampleFire : FirePdu :=
  { (PduBody.default : FirePdu) with
      fire_mission_index := 0x01020304
      range := ⟨0x45000000⟩ }

example : PduKind.Fire.fixedLayout = true ∧
    (⟨exampleHeader, exampleFire⟩ : Pdu PduKind.Fire.Body).serialize ⟨true⟩ [1] ≠
    (⟨exampleHeader, PduBody.default⟩ : Pdu PduKind.Fire.Body).serialize ⟨true⟩ [1] := by
  constructor
  · rfl
  · decide +kernel

/-! ### C12 -/

/-- Fifty-six kinds: whatever the value, if it is not too large it is encoded, and decoding the octets
recovers everything but the trailing lists and optional fields, whose octets are left unread. -/
theorem C12_survives (k : PduKind) (hk : k.unconditional = true) (p : Pdu k.Body)
    (hl : declaredOctets p ≤ 65535) (prof : Profile) (buf : Bytes) :
    ∃ q w, p.serialize prof buf = .ok ((q, .ok ()), buf ++ w) ∧ q.body = p.body ∧
      ∀ prof' rest, k.decode prof' (w ++ rest) =
        .ok (.ok ⟨q.header, kept p.body⟩, tail p.body ++ rest) := by
  rw [declaredOctets_eq] at hl
  have hs := Pdu.serialize_of_encodable p (k.encodable (k.unconditional_no_sets hk) p.body)
    (by omega) prof buf
  rw [List.append_assoc] at hs
  have hb : p.after.body = p.body := k.unconditional_prep hk p.body
  refine ⟨_, _, hs, hb, fun prof' rest => ?_⟩
  have hd := Pdu.decode_encoded hs (k.unconditional_decodable hk _) prof' rest
  rw [List.drop_left, k.unconditional_sent hk, hb] at hd
  rw [k.unconditional_sent hk, hb]
  exact hd

/-- The sample signal PDU: its data are left unread. -/
example : decodeAs SignalPdu ⟨true⟩ (sampleOctets ++ [8]) =
    .ok (.ok ⟨sampleHeader, { sampleSignal.body with data := [] }⟩, [1, 2, 3, 8]) := by decide +kernel

/-- All kinds: the same for the values the specification calls decodable (`sent` differs from the
identity for dead-reckoning parameters, simulation identifiers and over-long record sets). -/
theorem C12_survives_all_kinds (k : PduKind) (p q : Pdu k.Body) (prof : Profile) (buf w : Bytes)
    (h : p.serialize prof buf = .ok ((q, .ok ()), buf ++ w)) (hd : decodable (sent q.body))
    (prof' : Profile) (rest : Bytes) :
    k.decode prof' (w ++ rest) =
      .ok (.ok ⟨q.header, kept (sent q.body)⟩, tail (sent q.body) ++ rest) := by
  have := Pdu.decode_encoded h hd prof' rest
  rwa [List.drop_left] at this

example := C12_survives_all_kinds .Signal sampleSignal _ ⟨true⟩ [9] sampleOctets sampleSignal_serialize trivial

/-- The full round-trip is false whenever something was left unread: the PDU decoded is not the PDU
encoded. -/
theorem C12_lossy (k : PduKind) (hk : k.unconditional = true) (p q : Pdu k.Body) (prof : Profile)
    (buf w : Bytes) (h : p.serialize prof buf = .ok ((q, .ok ()), buf ++ w)) (ht : tail p.body ≠ [])
    (prof' : Profile) (rest : Bytes) :
    ∃ x r, k.decode prof' (w ++ rest) = .ok (.ok x, r) ∧ x ≠ q ∧ x.body ≠ p.body ∧ r ≠ rest := by
  obtain ⟨rfl, hl, _⟩ := Pdu.serialize_ok h
  obtain ⟨q', w', hs, hb, hd⟩ := C12_survives k hk p (by rw [declaredOctets_eq]; omega) prof buf
  rw [hs] at h
  simp only [Except.ok.injEq, Prod.mk.injEq, List.append_cancel_left_eq, and_true] at h
  obtain ⟨rfl, rfl⟩ := h
  have hne : kept p.body ≠ p.body := by
    intro e
    have h1 := LawfulBody.split p.body
    rw [e] at h1
    exact ht (List.append_cancel_left (as := wire p.body) (by simpa using h1.symm))
  refine ⟨_, _, hd prof' rest, ?_, hne, ?_⟩
  · intro e
    exact hne ((congrArg Pdu.body e).trans hb)
  · intro e
    exact ht (List.append_cancel_right (bs := rest) (by simpa using e))

example := C12_lossy .Signal rfl sampleSignal _ ⟨true⟩ [9] sampleOctets sampleSignal_serialize (by decide +kernel)

/-- A signal PDU with three octets of data: they are not recovered. -/
example : tail ({ (PduBody.default : SignalPdu) with data := [1, 2, 3] }) ≠ [] ∧
    PduKind.Signal.unconditional = true := by
  constructor
  · decide +kernel
  · rfl

/-- The entity state PDU: everything before the marking and the marking's character set are recovered;
the marking's text becomes the decimal number of octets after the character set, the capabilities are
read from the first four of those octets (which are the text's), and the rest stays unread. -/
theorem C12_entity_state (p q : Pdu EntityStatePdu) (prof : Profile) (buf w : Bytes)
    (h : p.serialize prof buf = .ok ((q, .ok ()), buf ++ w)) (prof' : Profile) (rest : Bytes) :
    let x : EntityStatePdu := p.body
    let after : Bytes := strBytes x.entity_marking.entity_marking_string ++ wire x.entity_capabilities
      ++ wire x.articulation_parameter ++ rest
    ∃ n < 2 ^ 32, octets 4 n = after.take 4 ∧
    decodeAs EntityStatePdu prof' (w ++ rest) =
      .ok (.ok ⟨q.header,
        { x with dead_reckoning_parameters := sent x.dead_reckoning_parameters
                 entity_marking := ⟨x.entity_marking.entity_marking_character_set, toString after.length⟩
                 entity_capabilities := EntityCapabilities.spec.ofCode n
                 articulation_parameter := [] }⟩, after.drop 4) := by
  intro x after
  obtain ⟨rfl, _, hw⟩ := Pdu.serialize_ok h
  rw [List.append_assoc] at hw
  have hw := List.append_cancel_left hw
  have hal : 4 ≤ after.length := by
    have : (wire x.entity_capabilities).length = 4 := octets_length _ _
    simp only [after, List.length_append]
    omega
  obtain ⟨n, hn, hoct⟩ := exists_octets_take after hal
  refine ⟨n, hn, hoct, ?_⟩
  let y : EntityStatePdu := { x with dead_reckoning_parameters := sent x.dead_reckoning_parameters }
  have hr := EntityStatePdu.readsAt y n hn (after.drop 4) prof'
  have hlen : 4 + (after.drop 4).length = after.length := by rw [List.length_drop]; omega
  rw [hlen] at hr
  have hb : wire (sent p.after.body) ++ rest =
      y.front ++ wire y.entity_marking.entity_marking_character_set ++ (octets 4 n ++ after.drop 4) := by
    rw [hoct, List.take_append_drop]
    show (wire x.entity_id ▹ wire x.force_id ▹ wire x.number_of_articulation_parameters ▹
      wire x.entity_type ▹ wire x.alternative_entity_type ▹ wire x.entity_linear_velocity ▹
      wire x.entity_location ▹ wire x.entity_orientation ▹ wire x.entity_appearance ▹
      wire (sent x.dead_reckoning_parameters) ▹
      (wire x.entity_marking.entity_marking_character_set ▹ strBytes x.entity_marking.entity_marking_string) ▹
      wire x.entity_capabilities ▹ wire x.articulation_parameter) ++ rest = _
    simp only [EntityStatePdu.front, after, y, List.append_assoc]
  rw [hw, List.append_assoc]
  show Pdu.deserialize prof' _ = _
  rw [Pdu.deserialize_of_wire _ rfl, hb]
  rw [show (PduBody.deserializeBody : Get EntityStatePdu) prof' _ = _ from hr]

/-- A fresh entity state PDU with the marking "TANK": it comes back as "8", the capabilities being read from
the four letters. -/
example : (match (⟨exampleHeader, { (PduBody.default : EntityStatePdu) with
      entity_marking := ⟨⟨1, by decide⟩, "TANK"⟩ }⟩ : Pdu EntityStatePdu).serialize ⟨true⟩ [] with
    | .ok ((_, .ok ()), w) => (match decodeAs EntityStatePdu ⟨true⟩ w with
      | .ok (.ok d, r) => decide (d.body.entity_marking.entity_marking_string = "8" ∧ r = [0, 0, 0, 0])
      | _ => false)
    | _ => false) = true := by
  decide +kernel

/-- No entity state PDU survives the round-trip unless its marking happens to be the decimal number of
the octets that follow the character set. -/
theorem C12_entity_state_marking_lost (p q : Pdu EntityStatePdu) (prof : Profile)
    (buf w : Bytes) (h : p.serialize prof buf = .ok ((q, .ok ()), buf ++ w)) (prof' : Profile)
    (rest : Bytes) (d : Pdu EntityStatePdu) (r : Bytes)
    (hd : decodeAs EntityStatePdu prof' (w ++ rest) = .ok (.ok d, r)) :
    d.body.entity_marking.entity_marking_string = toString
      ((strBytes p.body.entity_marking.entity_marking_string).length + 4 +
        (wire p.body.articulation_parameter).length + rest.length) := by
  obtain ⟨n, _, _, hx⟩ := C12_entity_state p q prof buf w h prof' rest
  rw [hx] at hd
  simp only [Except.ok.injEq, Prod.mk.injEq] at hd
  rw [← hd.1]
  show toString _ = toString _
  congr 1
  have : (wire p.body.entity_capabilities).length = 4 := octets_length _ _
  simp only [List.length_append, this]

/-! ### C13 -/

/-- The aggregate state PDU, exactly: everything before the lists in its middle is recovered, the lists
come back empty, and the number of variable datum records is read from the first four octets of those
lists (its own octets only if they are empty). -/
theorem C13_aggregate_state (p q : Pdu AggregateStatePdu) (prof : Profile) (buf w : Bytes)
    (h : p.serialize prof buf = .ok ((q, .ok ()), buf ++ w)) (prof' : Profile) (rest : Bytes) :
    let x : AggregateStatePdu := p.body
    let after : Bytes := (wire x.aggregate_id_list ▹ wire x.entity_id_list ▹ wire x.padding ▹
      wire x.silent_aggregate_system_list ▹ wire x.silent_entity_system_list) ++
      (wire x.number_of_variable_datum_records ++ (wire x.variable_datum_list ++ rest))
    ∃ n : UInt32, wire n = after.take 4 ∧
    decodeAs AggregateStatePdu prof' (w ++ rest) =
      .ok (.ok ⟨q.header,
        { x with aggregate_id_list := [], entity_id_list := [], padding := []
                 silent_aggregate_system_list := [], silent_entity_system_list := []
                 number_of_variable_datum_records := n, variable_datum_list := [] }⟩, after.drop 4) := by
  intro x after
  obtain ⟨rfl, _, hw⟩ := Pdu.serialize_ok h
  rw [List.append_assoc] at hw
  have hw := List.append_cancel_left hw
  have hal : 4 ≤ after.length := by
    have : (wire x.number_of_variable_datum_records).length = 4 := octets_length _ _
    simp only [after, List.length_append]
    omega
  obtain ⟨n, hn, hoct⟩ := exists_octets_take after hal
  have hn' : wire (UInt32.ofNat n) = after.take 4 := by
    show octets 4 (UInt32.ofNat n).toNat = _
    rw [UInt32.toNat_ofNat_of_lt' hn, hoct]
  refine ⟨UInt32.ofNat n, hn', ?_⟩
  have hr := AggregateStatePdu.readsAt x (UInt32.ofNat n) (after.drop 4) prof'
  rw [hn', List.take_append_drop] at hr
  have hb : wire (sent p.after.body) ++ rest = x.front ++ after := by
    rw [PduKind.sent_id_all .AggregateState rfl rfl]
    show wire x ++ rest = _
    rw [AggregateStatePdu.wire_eq]
    simp only [AggregateStatePdu.middle, after, List.append_assoc]
  rw [hw, List.append_assoc]
  show Pdu.deserialize prof' _ = _
  rw [Pdu.deserialize_of_wire _ rfl, hb]
  rw [show (PduBody.deserializeBody : Get AggregateStatePdu) prof' _ = _ from hr]

/-- With empty lists the count survives. -/
example : (match (⟨exampleHeader, { (PduBody.default : AggregateStatePdu) with
      number_of_variable_datum_records := 7 }⟩ : Pdu AggregateStatePdu).serialize ⟨true⟩ [] with
    | .ok ((_, .ok ()), w) => (match decodeAs AggregateStatePdu ⟨true⟩ w with
      | .ok (.ok d, r) => decide (d.body.number_of_variable_datum_records = 7 ∧ r = [])
      | _ => false)
    | _ => false) = true := by
  decide +kernel

/-- Hence a field after the lists is misread: here one entity identifier in the list and a count of 7;
the count decodes as the identifier's first four octets. -/
theorem C13_count_misread : ∃ (p q : Pdu AggregateStatePdu) (w : Bytes)
    (d : Pdu AggregateStatePdu) (r : Bytes),
    p.serialize ⟨true⟩ [] = .ok ((q, .ok ()), w) ∧
    decodeAs AggregateStatePdu ⟨true⟩ w = .ok (.ok d, r) ∧
    p.body.number_of_variable_datum_records = 7 ∧
    d.body.number_of_variable_datum_records = 0x00010002 := by
  let b : AggregateStatePdu := { (PduBody.default : AggregateStatePdu) with
    entity_id_list := [⟨⟨1, 2⟩, 3⟩], number_of_variable_datum_records := 7 }
  let p : Pdu AggregateStatePdu := ⟨PduHeader.default 0, b⟩
  have hs := Pdu.serialize_of_encodable p (PduKind.encodable .AggregateState rfl b)
    (by show 12 + AggregateStatePdu.fieldsLen b < 65536; decide +kernel) ⟨true⟩ []
  rw [List.append_assoc] at hs
  obtain ⟨n, hn, hd⟩ := C13_aggregate_state p _ ⟨true⟩ [] _ hs ⟨true⟩ []
  rw [List.append_nil] at hd
  refine ⟨p, p.after, _, _, _, hs, hd, rfl, ?_⟩
  show n = 0x00010002
  have h2 : wire (0x00010002 : UInt32) = [0, 1, 0, 2] := by decide
  have h3 := reads_u32 n ⟨true⟩ []
  rw [hn] at h3
  have h4 : getU32 ⟨true⟩ [0, 1, 0, 2] = .ok (n, []) := h3
  rw [show getU32 ⟨true⟩ [0, 1, 0, 2] = .ok ((0x00010002 : UInt32), []) from by decide] at h4
  simp only [Except.ok.injEq, Prod.mk.injEq, and_true] at h4
  exact h4.symm

/-! ### C14 -/

/-- Kinds whose decoder reads a fixed number of octets, given a message of that type: too few octets
panic, otherwise it succeeds whatever they are and takes exactly the size of IEEE 1278.1. -/
theorem C14_panics_iff_short (k : PduKind) (hk : k.variableDecoder = false) (he : k ≠ .EntityState)
    (prof : Profile) (b : Bytes) (hh : 12 ≤ b.length) (ht : (b.getD 2 0).toNat = k.typeCode) :
    (b.length < k.ieeeOctets → k.decode prof b = .error .bufferUnderflow) ∧
    (k.ieeeOctets ≤ b.length → ∃ p, k.decode prof b = .ok (.ok p, b.drop k.ieeeOctets)) := by
  have h12 : 12 ≤ k.ieeeOctets := by cases k <;> decide
  obtain ⟨hd, _, h2, h3⟩ := Pdu.deserialize_eq (B := k.Body) prof b hh
  have hty : hd.pdu_type = PduBody.pduType k.Body := by rw [h2]; exact (k.type_test _).mpr ht
  have hf := k.fixed hk he
  rw [if_neg (by simpa using hty)] at h3
  refine ⟨fun hs => ?_, fun hs => ?_⟩
  · show Pdu.deserialize prof b = _
    rw [h3, hf.run_short prof (by rw [List.length_drop]; omega)]
  · obtain ⟨x, hx⟩ := hf.run_long prof (b := b.drop 12) (by rw [List.length_drop]; omega)
    refine ⟨⟨hd, x⟩, ?_⟩
    show Pdu.deserialize prof b = _
    rw [h3, hx]
    show Except.ok (Except.ok _, _) = _
    rw [List.drop_drop, show 12 + (k.ieeeOctets - 12) = k.ieeeOctets by omega]

/-- Twelve octets say "signal": 31 are too few, 32 enough. -/
example : PduKind.Signal.variableDecoder = false ∧ PduKind.Signal.ieeeOctets = 32 ∧
    PduKind.Signal.decode ⟨true⟩ (sampleOctets.take 31) = .error .bufferUnderflow := by decide +kernel

/-- The entity state PDU: 133 octets are required and taken (not the 144 of IEEE 1278.1, whose marking
has 11 octets of text). -/
theorem C14_entity_state (prof : Profile) (b : Bytes) (hh : 12 ≤ b.length)
    (ht : (b.getD 2 0).toNat = 1) :
    (b.length < 133 → decodeAs EntityStatePdu prof b = .error .bufferUnderflow) ∧
    (133 ≤ b.length → ∃ p, decodeAs EntityStatePdu prof b = .ok (.ok p, b.drop 133)) := by
  obtain ⟨hd, _, h2, h3⟩ := Pdu.deserialize_eq (B := PduKind.EntityState.Body) prof b hh
  have hty : hd.pdu_type = PduBody.pduType PduKind.EntityState.Body := by
    rw [h2]; exact (PduKind.type_test .EntityState _).mpr ht
  have hf := EntityStatePdu.sized prof (b.drop 12)
  rw [List.length_drop] at hf
  rw [if_neg (by simpa using hty)] at h3
  refine ⟨fun hs => ?_, fun hs => ?_⟩
  · show Pdu.deserialize prof b = _
    rw [h3, show (PduBody.deserializeBody : Get PduKind.EntityState.Body) prof (b.drop 12) = _ from
      hf.1 (by omega)]
  · obtain ⟨x, hx⟩ := hf.2 (by omega)
    refine ⟨⟨hd, x⟩, ?_⟩
    show Pdu.deserialize prof b = _
    rw [h3, show (PduBody.deserializeBody : Get PduKind.EntityState.Body) prof (b.drop 12) = _ from hx]
    show Except.ok (Except.ok _, _) = _
    rw [List.drop_drop]

example : decodeAs EntityStatePdu ⟨true⟩ ([7, 1, 1, 1] ++ List.replicate 128 0) = .error .bufferUnderflow := by
  decide +kernel

/-- Every kind but the two with record sets can panic in one way only: running out of octets. -/
theorem C14_only_underflow (k : PduKind) (hk : k.hasRecordSets = false) (prof : Profile) (b : Bytes)
    (e : Panic) (h : k.decode prof b = .error e) : e = .bufferUnderflow := by
  by_cases hl : b.length < 12
  · rw [show k.decode prof b = _ from Pdu.deserialize_short prof b hl] at h
    cases h; rfl
  · obtain ⟨hd, _, _, h3⟩ := Pdu.deserialize_eq (B := k.Body) prof b (by omega)
    rw [show k.decode prof b = _ from h3] at h
    split at h
    · cases h
    · cases hb : (PduBody.deserializeBody : Get k.Body) prof (b.drop 12) with
      | error e' =>
        rw [hb] at h
        simp only [Except.error.injEq] at h
        rw [← h]
        exact k.under hk prof _ _ hb
      | ok v => rw [hb] at h; cases h

example := C14_only_underflow .Signal rfl ⟨true⟩ (sampleOctets.take 31) .bufferUnderflow (by decide +kernel)

/-! ### C15 -/

/-- Every kind but the entity state PDU: the value decoded and the number of octets taken do not depend
on what follows the octets taken. -/
theorem C15_ignores_what_follows (k : PduKind) (hk : k ≠ .EntityState) (prof : Profile) (b : Bytes)
    (r : Except DISError (Pdu k.Body)) (rest : Bytes) (h : k.decode prof b = .ok (r, rest)) :
    ∃ u, b = u ++ rest ∧ ∀ rest', k.decode prof (u ++ rest') = .ok (r, rest') := by
  have hloc : Local k.decode := by
    refine Local.bind PduHeader.fixed.local fun hd => ?_
    by_cases ht : hd.pdu_type ≠ PduBody.pduType k.Body
    · simp only [ht, if_true, ne_eq, not_false_eq_true]
      exact Local.ret _
    · simp only [ht, if_false]
      exact Local.bind (k.local hk) fun _ => Local.ret _
  exact hloc prof b r rest h

example := C15_ignores_what_follows .Signal (by decide) ⟨true⟩ sampleOctets _ _ sampleSignal_decode

/-- Not so the entity state PDU: the same 133 octets decode differently when one more octet follows. -/
theorem C15_entity_state_depends_on_rest : ∃ (b : Bytes) (p p' : Pdu EntityStatePdu),
    decodeAs EntityStatePdu ⟨true⟩ b = .ok (.ok p, []) ∧
    decodeAs EntityStatePdu ⟨true⟩ (b ++ [0]) = .ok (.ok p', [0]) ∧
    p.body.entity_marking.entity_marking_string = "4" ∧
    p'.body.entity_marking.entity_marking_string = "5" := by
  have hs := C21_new_serializes .EntityState 0 ⟨true⟩ []
  obtain ⟨w, hs, _⟩ := hs
  obtain ⟨n, _, _, hd⟩ := C12_entity_state _ _ _ _ _ hs ⟨true⟩ []
  obtain ⟨n', _, _, hd'⟩ := C12_entity_state _ _ _ _ _ hs ⟨true⟩ [0]
  rw [List.append_nil] at hd
  exact ⟨w, _, _, hd, hd', rfl, rfl⟩

/-! ### C24 -/

/-- Whatever octets a PDU was decoded from (entity state PDUs excepted; with overflow checks for the two
kinds with record sets): encoding it succeeds if it is not too large; decoding those octets gives a PDU
`x`, nothing being left over but what followed; and from then on nothing changes: encoding `x` leaves it
as it is and appends the same octets again.  For the kinds that do not write zeros in place of a field,
`x` is the PDU encoded, and its body is the one first decoded. -/
theorem C24_stable (k : PduKind) (he : k ≠ .EntityState) (prof : Profile)
    (hr : k.hasRecordSets = true → prof = ⟨true⟩) (b : Bytes) (p : Pdu k.Body) (r : Bytes)
    (h : k.decode prof b = .ok (.ok p, r)) (hl : declaredOctets p ≤ 65535) (prof' : Profile) :
    ∃ (q x : Pdu k.Body) (w : Bytes), (∀ buf, p.serialize prof' buf = .ok ((q, .ok ()), buf ++ w)) ∧
      q.body = p.body ∧
      (∀ prof'' rest, k.decode prof'' (w ++ rest) = .ok (.ok x, rest)) ∧
      (∀ prof'' buf, x.serialize prof'' buf = .ok ((x, .ok ()), buf ++ w)) ∧
      (k.zeroesFields = false → x = q) := by
  have hset : Settled p.body := by
    have h12 : 12 ≤ b.length := (C09_ok_only_own_type k prof b p r h).1
    obtain ⟨hd, _, _, h3⟩ := Pdu.deserialize_eq (B := k.Body) prof b h12
    rw [show k.decode prof b = _ from h3] at h
    split at h
    · cases h
    · cases hb : (PduBody.deserializeBody : Get k.Body) prof (b.drop 12) with
      | error e => rw [hb] at h; cases h
      | ok v =>
        rw [hb] at h
        simp only [Except.ok.injEq, Prod.mk.injEq] at h
        have := k.settled he prof hr _ _ _ hb
        rw [← h.1]
        exact this
  obtain ⟨s1, s2, s3, s4⟩ := k.settled_sent he p.body hset
  rw [declaredOctets_eq] at hl
  have hb : p.after.body = p.body := hset.2.2.2
  have hs := Pdu.serialize_of_encodable p s1 (by omega) prof'
  have hfl : PduBody.fieldsLen (sent p.body) = PduBody.fieldsLen p.body := k.settled_len he p.body hset
  refine ⟨p.after, ⟨p.after.header, sent p.body⟩, wire p.after.header ++ wire (sent p.after.body),
    fun buf => ?_, hb, fun prof'' rest => ?_, fun prof'' buf => ?_, fun hz => ?_⟩
  · rw [hs buf, List.append_assoc]
  · have hs0 := hs []
    have hd := Pdu.decode_encoded hs0 (by rw [hb]; exact s2.1) prof'' rest
    rw [List.append_assoc, List.drop_left, hb, s2.2.1, s2.2.2.1] at hd
    rw [hb]
    exact hd
  · have e2 : (⟨p.after.header, sent p.body⟩ : Pdu k.Body).after = ⟨p.after.header, sent p.body⟩ := by
      unfold Pdu.after
      simp only [s2.2.2.2, hfl, hset.2.2.2]
    have := Pdu.serialize_of_encodable (⟨p.after.header, sent p.body⟩ : Pdu k.Body)
      (k.settled_sent he _ s2).1 (by show 12 + PduBody.fieldsLen (sent p.body) < 65536; omega) prof'' buf
    rw [this, e2]
    simp only [s3, hb, List.append_assoc]
  · rw [s4 hz]
    show _ = Pdu.mk p.after.header p.after.body
    rw [hb]

/-- Forty octets that are a data PDU with unassigned codes in the header, and twenty-four more. -/
def dataOctets : Bytes := ([99, 1, 20, 99] ++ List.range' 1 60).map UInt8.ofNat

/-- It decodes, with the unassigned version read as the default (7) and 24 octets left. -/
example : ∃ p r, PduKind.Data.decode ⟨true⟩ dataOctets = .ok (.ok p, r) ∧ r.length = 24 ∧
    declaredOctets p ≤ 65535 ∧ p.header.protocol_version.code = 7 := by
  have h : (match PduKind.Data.decode ⟨true⟩ dataOctets with
    | .ok (.ok p, r) => decide (r.length = 24 ∧ 12 + PduBody.fieldsLen p.body ≤ 65535 ∧
        p.header.protocol_version.code = 7)
    | _ => false) = true := by decide +kernel
  split at h
  · rename_i p r hp
    have h := of_decide_eq_true h
    exact ⟨p, r, hp, h.1, by rw [declaredOctets_eq]; omega, h.2.2⟩
  · cases h

/-! ### C39 -/

/-- Every kind: what a decoder leaves is a suffix of its input. -/
theorem C39_suffix (k : PduKind) (prof : Profile) (b : Bytes) (r : Except DISError (Pdu k.Body))
    (rest : Bytes) (h : k.decode prof b = .ok (r, rest)) : ∃ u, b = u ++ rest := by
  have hc : Consumes k.decode := by
    refine Consumes.bind PduHeader.fixed.local.consumes fun hd => ?_
    by_cases ht : hd.pdu_type ≠ PduBody.pduType k.Body
    · simp only [ht, if_true, ne_eq, not_false_eq_true]
      exact Consumes.ret _
    · simp only [ht, if_false]
      exact Consumes.bind LawfulBody.consumes fun _ => Consumes.ret _
  exact hc prof b r rest h

example := C39_suffix .Signal ⟨true⟩ sampleOctets _ _ sampleSignal_decode

end Dis
