import Verif.Proofs.LayoutKinds
import Verif.Proofs.LayoutHeader
import Verif.Proofs.ElementsPdus
import Verif.Properties.RoundTrip
/-
C48 (every field sits at the octets the standard's tables give it).

The tables are in Spec/HeaderLayout, Spec/RecordLayout, Spec/PduLayout1-4 and Spec/PduElements; what it
means to be written at, or read from, the place in a table is in Spec/Layout and Spec/Elements.
-/
set_option maxRecDepth 8000
namespace Dis

/-- Whenever `serialize` succeeds, the octets it appends hold every header field and every body field of the
PDU as it now stands, at the octets given in the tables. -/
theorem C48_encode (k : PduKind) (p q : Pdu k.Body) (prof : Profile) (buf buf' : Bytes)
    (h : p.serialize prof buf = .ok ((q, .ok ()), buf')) :
    ∃ w, buf' = buf ++ w ∧ Written PduHeader.layout q.header w ∧ Written k.layoutTable q.body w := by
  obtain ⟨_, _, hb⟩ := Pdu.serialize_ok h
  refine ⟨wire q.header ++ wire (sent q.body), by rw [hb, List.append_assoc], ?_, ?_⟩
  · rw [PduHeader.layout_eq]; exact (PduHeader.written q.header).mono _
  · rw [k.layout_eq]; exact Written.after (PduHeader.wire_length _) (k.written q.body)

/-- a fire PDU whose range field is 1.0 -/
def C48_fire : Pdu FirePdu := ⟨PduHeader.default 7, { (Pdu.new 7 : Pdu FirePdu).body with range := ⟨0x3f800000⟩ }⟩

/-- It serializes; its range is octets 92 to 95. -/
example : ∃ q w, C48_fire.serialize ⟨true⟩ [] = .ok ((q, .ok ()), [] ++ w) ∧
    Written (PduKind.layoutTable .Fire) q.body w ∧ (w.drop 92).take 4 = [0x3f, 0x80, 0, 0] := by
  have hs := Pdu.serialize_of_encodable C48_fire (PduKind.encodable .Fire rfl C48_fire.body)
    (by show 12 + FirePdu.fieldsLen C48_fire.body < 65536; decide +kernel) ⟨true⟩ []
  obtain ⟨w, hw, _, h2⟩ := C48_encode .Fire C48_fire _ ⟨true⟩ [] _ hs
  refine ⟨_, w, hw ▸ hs, h2, ?_⟩
  have hw' : wire C48_fire.after.header ++ wire (sent C48_fire.after.body) = w := hw
  rw [← hw']; decide +kernel

/-- Whenever decoding a whole message succeeds, the PDU has in every header field and in every body field
what the tables say its octets mean. -/
theorem C48_decode (k : PduKind) (prof : Profile) (b rest : Bytes) (p : Pdu k.Body)
    (h : k.decode prof b = .ok (.ok p, rest)) :
    ReadFrom PduHeader.layout p.header b ∧ ReadFrom k.layoutTable p.body b := by
  by_cases hl : b.length < 12
  · rw [show k.decode prof b = _ from Pdu.deserialize_short prof b hl] at h; cases h
  · obtain ⟨hd, h1, _, h3⟩ := Pdu.deserialize_eq (B := k.Body) prof b (Nat.not_lt.mp hl)
    rw [show k.decode prof b = _ from h3] at h
    by_cases ht : hd.pdu_type ≠ PduBody.pduType k.Body
    · rw [if_pos ht] at h; cases h
    · rw [if_neg ht] at h
      cases hb : (PduBody.deserializeBody : Get k.Body) prof (b.drop 12) with
      | error e => rw [hb] at h; cases h
      | ok xr =>
        rw [hb] at h
        cases h
        refine ⟨by rw [PduHeader.layout_eq]; exact PduHeader.finds prof b _ _ h1, ?_⟩
        rw [k.layout_eq]
        exact ReadFrom.after (Nat.not_lt.mp hl) (k.finds prof _ _ _ hb)

/-- A message of 96 octets decodes; the range is what octets 92 to 95 say. -/
example : ∃ p rest, PduKind.decode .Fire ⟨true⟩ ([7, 1, 2, 2] ++ List.replicate 88 0 ++ [0x3f, 0x80, 0, 0, 9]) =
    .ok (.ok p, rest) ∧ p.body.range.bits.toNat = 0x3f800000 := by
  cases h : PduKind.decode .Fire ⟨true⟩ ([7, 1, 2, 2] ++ List.replicate 88 0 ++ [0x3f, 0x80, 0, 0, 9]) with
  | error e => exact absurd (h ▸ rfl : (PduKind.decode .Fire ⟨true⟩ ([7, 1, 2, 2] ++ List.replicate 88 0 ++
      [0x3f, 0x80, 0, 0, 9])).isOk = false) (by decide +kernel)
  | ok r =>
    obtain ⟨o, rest⟩ := r
    cases o with
    | error e => exact absurd (h ▸ rfl : ((PduKind.decode .Fire ⟨true⟩ ([7, 1, 2, 2] ++ List.replicate 88 0 ++
        [0x3f, 0x80, 0, 0, 9])).toOption.map (fun r => r.1.isOk)) = some false) (by decide +kernel)
    | ok p =>
      refine ⟨p, rest, rfl, ?_⟩
      have := (C48_decode .Fire ⟨true⟩ _ rest p h).2 (Slot.f32 92 (·.range))
        (List.mem_of_getElem (i := 30) (h := by decide) rfl)
      exact this.2.trans (by decide +kernel)

/-- Likewise when the header was read separately: the body is read as if the twelve octets of the header
stood before it. -/
theorem C48_decode_without_header (k : PduKind) (prof : Profile) (hd : PduHeader) (b rest : Bytes)
    (p : Pdu k.Body) (h : (Pdu.deserialize_without_header hd : Get (Except DISError (Pdu k.Body))) prof b =
      .ok (.ok p, rest)) (header : Bytes) (hh : header.length = 12) :
    p.header = hd ∧ ReadFrom k.layoutTable p.body (header ++ b) := by
  rw [Pdu.deserialize_without_header_eq] at h
  cases hb : (PduBody.deserializeBody : Get k.Body) prof b with
  | error e => rw [hb] at h; cases h
  | ok xr =>
    rw [hb] at h
    cases h
    refine ⟨rfl, ?_⟩
    rw [k.layout_eq]
    refine ReadFrom.after (by rw [List.length_append]; omega) ?_
    rw [← hh, List.drop_left]
    exact k.finds prof _ _ _ hb

/-- The octets after the header of the sample signal PDU. -/
example := C48_decode_without_header .Signal ⟨true⟩ exampleHeader (sampleOctets.drop 12) [1, 2, 3]
  ⟨exampleHeader, { sampleSignal.body with data := [] }⟩ (by decide +kernel) (List.replicate 12 0) rfl

/-- The tables leave out no octet: header and body slots follow each other from octet 0 to the end of the
fixed part, whose length is the one IEEE 1278.1 gives (for the entity state PDU, up to the marking text; for
the aggregate state PDU, up to its first list). -/
theorem C48_complete (k : PduKind) :
    Contiguous 0 PduHeader.layout 12 ∧
      Contiguous 12 k.layoutTable (match k with
        | .EntityState => 129
        | .AggregateState => 132
        | k => k.ieeeOctets) := by
  refine ⟨by decide, ?_⟩
  cases k <;> decide

/-- For the kinds with a fixed layout the table also leaves out no field: PDUs that agree in all slots of the
tables are equal. -/
theorem C48_determines (k : PduKind) (hk : k.fixedLayout = true) (p q : Pdu k.Body)
    (hh : ∀ s ∈ PduHeader.layout, s.value p.header = s.value q.header)
    (hb : ∀ s ∈ k.layoutTable, s.value p.body = s.value q.body) : p = q := by
  have e1 : p.header = q.header := PduHeader.agree (by rw [PduHeader.layout_eq] at hh; exact hh)
  have e2 : p.body = q.body := by
    refine k.agree hk _ _ fun s hs => ?_
    exact hb (Slot.shift 12 s) (by rw [k.layout_eq]; exact List.mem_map.mpr ⟨s, hs, rfl⟩)
  cases p; cases q
  exact congr (congrArg _ e1) e2

/-- Lists: after a successful `serialize` every element of every list in the tables is at its place. -/
theorem C48_elements (k : PduKind) (p q : Pdu k.Body) (prof : Profile) (buf buf' : Bytes)
    (h : p.serialize prof buf = .ok ((q, .ok ()), buf')) :
    ∃ w, buf' = buf ++ w ∧ ∀ t ∈ k.elements, t.Placed q.body w := by
  obtain ⟨_, _, hb⟩ := Pdu.serialize_ok h
  exact ⟨wire q.header ++ wire (sent q.body), by rw [hb, List.append_assoc],
    k.placed q.body _ (PduHeader.wire_length _)⟩

/-- a data PDU with two fixed datum records and a variable one -/
def C48_data : Pdu DataPdu := ⟨PduHeader.default 7, { (Pdu.new 7 : Pdu DataPdu).body with
  fixed_datum_records := [⟨dflt, 1⟩, ⟨dflt, 0x01020304⟩], variable_datum_records := [⟨5, 16, [1, 2]⟩, ⟨6, 0, []⟩] }⟩

/-- It serializes; the value of its second fixed datum record is octets 52 to 55, and its second variable
datum record starts at octet 72. -/
example : ∃ q w, C48_data.serialize ⟨true⟩ [] = .ok ((q, .ok ()), [] ++ w) ∧
    (∀ t ∈ PduKind.elements .Data, t.Placed q.body w) ∧ (w.drop 52).take 4 = [1, 2, 3, 4] ∧
    (w.drop 72).take 4 = [0, 0, 0, 6] := by
  have hs := Pdu.serialize_of_encodable C48_data (PduKind.encodable .Data rfl C48_data.body)
    (by show 12 + DataPdu.fieldsLen C48_data.body < 65536; decide +kernel) ⟨true⟩ []
  obtain ⟨w, hw, h2⟩ := C48_elements .Data C48_data _ ⟨true⟩ [] _ hs
  refine ⟨_, w, hw ▸ hs, h2, ?_⟩
  have hw' : wire C48_data.after.header ++ wire (sent C48_data.after.body) = w := hw
  rw [← hw']; decide +kernel

/-- The entity state PDU with a marking text of eleven octets, as IEEE 1278.1 wants it: the capabilities are
octets 140 to 143 and articulation parameter `i` starts at octet 144 + 16 `i`. -/
theorem C48_entity_state (p q : Pdu EntityStatePdu) (prof : Profile) (buf buf' : Bytes)
    (h : p.serialize prof buf = .ok ((q, .ok ()), buf'))
    (hm : (strBytes q.body.entity_marking.entity_marking_string).length = 11) :
    ∃ w, buf' = buf ++ w ∧
      Written [Slot.enum 140 4 (·.entity_capabilities)] q.body w ∧
      ∀ i (hi : i < q.body.articulation_parameter.length),
        Written VariableParameter.layout q.body.articulation_parameter[i] (w.drop (144 + 16 * i)) := by
  obtain ⟨w, hw, hp⟩ := C48_elements .EntityState p q prof buf buf' h
  have h1 := hp _ List.mem_cons_self 0 (by show 0 < 1; decide)
  have h2 := hp _ (List.mem_cons_of_mem _ List.mem_cons_self)
  refine ⟨w, hw, ?_, fun i hi => ?_⟩
  · intro s hs
    cases List.mem_singleton.mp hs
    obtain ⟨a, b⟩ := h1 (Slot.enum 0 4 id) (List.mem_singleton.mpr rfl)
    have a' : 0 + 4 ≤ (w.drop (129 + (strBytes q.body.entity_marking.entity_marking_string).length)).length := a
    have b' : bigEndian (((w.drop (129 + (strBytes q.body.entity_marking.entity_marking_string).length)).drop 0).take 4) =
      q.body.entity_capabilities.code := b
    rw [hm] at a' b'
    rw [List.length_drop] at a'
    exact ⟨by show 140 + 4 ≤ _; omega, b'⟩
  · have h3 := h2 i hi
    have h4 : Written VariableParameter.layout q.body.articulation_parameter[i]
      (w.drop (133 + (strBytes q.body.entity_marking.entity_marking_string).length + 16 * i)) := h3
    rwa [hm] at h4

/-- an entity state PDU with a marking of eleven octets and an articulation parameter -/
def C48_entity : Pdu EntityStatePdu := ⟨PduHeader.default 7, { (Pdu.new 7 : Pdu EntityStatePdu).body with
  entity_marking := ⟨dflt, "ABCDEFGHIJK"⟩, articulation_parameter := [dflt] }⟩

example : ∃ q w, C48_entity.serialize ⟨true⟩ [] = .ok ((q, .ok ()), [] ++ w) ∧
    Written [Slot.enum 140 4 (·.entity_capabilities)] q.body w := by
  have hs := Pdu.serialize_of_encodable C48_entity (PduKind.encodable .EntityState rfl C48_entity.body)
    (by show 12 + EntityStatePdu.fieldsLen C48_entity.body < 65536; decide +kernel) ⟨true⟩ []
  obtain ⟨w, hw, h2, _⟩ := C48_entity_state C48_entity _ ⟨true⟩ [] _ hs (by decide +kernel)
  exact ⟨_, w, hw ▸ hs, h2⟩

/-- Records with a fixed number of octets: encoded, every field is at its place; decoded, every field is what
is at its place; the table leaves out no octet and no field. -/
theorem C48_records : ∀ r ∈ fixedLayouts,
    (∀ x prof buf buf', r.ser x prof buf = .ok ((), buf') → ∃ w, buf' = buf ++ w ∧ Written r.layout x w) ∧
    (∀ prof b x rest, r.de prof b = .ok (x, rest) → ReadFrom r.layout x b ∧ rest = b.drop r.octets) ∧
    Contiguous 0 r.layout r.octets ∧
    (∀ x y, (∀ s ∈ r.layout, s.value x = s.value y) → x = y) := by
  intro r hr
  obtain ⟨h, h'⟩ := fixedLayouts_lawful r hr
  refine ⟨h.encode, fun prof b x rest e => ⟨h.decode prof b x rest e, ?_⟩, h.contiguous, h'.agree⟩
  by_cases hl : b.length < r.octets
  · rw [h'.fixed.run_short prof hl] at e; cases e
  · obtain ⟨a, ha⟩ := h'.fixed.run_long prof (Nat.not_lt.mp hl)
    rw [ha] at e; cases e; rfl

/-- Records that end in a list or text: the same of the part before it. -/
theorem C48_record_heads : ∀ r ∈ headLayouts,
    (∀ x prof buf buf', r.ser x prof buf = .ok ((), buf') → ∃ w, buf' = buf ++ w ∧ Written r.layout x w) ∧
    (∀ prof b x rest, r.de prof b = .ok (x, rest) → ReadFrom r.layout x b) ∧
    Contiguous 0 r.layout r.octets := fun r hr =>
  have h := headLayouts_lawful r hr
  ⟨h.encode, fun prof b x rest e => h.decode prof b x rest e, h.contiguous⟩

/-- The header on its own. -/
theorem C48_header (h : PduHeader) (prof : Profile) (buf : Bytes) :
    (∃ w, h.serialize prof buf = .ok ((), buf ++ w) ∧ w.length = 12 ∧ Written PduHeader.layout h w) ∧
    (∀ b x rest, PduHeader.deserialize prof b = .ok (x, rest) → ReadFrom PduHeader.layout x b) ∧
    (∀ g : PduHeader, (∀ s ∈ PduHeader.layout, s.value h = s.value g) → h = g) := by
  rw [PduHeader.layout_eq]
  exact ⟨⟨_, h.writes prof buf, h.wire_length, h.written⟩, fun b x rest e => PduHeader.finds prof b x rest e,
    fun g e => PduHeader.agree e⟩

/-- The header for live entities likewise. -/
theorem C48_live_header (h : LiveEntityPduHeader) (prof : Profile) (buf : Bytes) :
    (∃ w, h.serialize prof buf = .ok ((), buf ++ w) ∧ w.length = 12 ∧ Written LiveEntityPduHeader.layout h w) ∧
    (∀ b x rest, LiveEntityPduHeader.deserialize prof b = .ok (x, rest) →
      ReadFrom LiveEntityPduHeader.layout x b) ∧
    (∀ g : LiveEntityPduHeader, (∀ s ∈ LiveEntityPduHeader.layout, s.value h = s.value g) → h = g) := by
  rw [LiveEntityPduHeader.layout_eq]
  exact ⟨⟨_, h.writes prof buf, h.wire_length, h.written⟩,
    fun b x rest e => LiveEntityPduHeader.finds prof b x rest e, fun g e => LiveEntityPduHeader.agree e⟩

end Dis
