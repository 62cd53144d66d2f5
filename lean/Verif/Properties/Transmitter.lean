import Verif.Properties.RoundTrip
/-
C29: the modulation parameters of a Transmitter PDU, whose length is carried by another field.
-/
namespace Dis

/-- The octets of the modulation parameters; none when absent. -/
def modulationOctets (x : TransmitterPdu) : Bytes :=
  match x.modulation_parameters with
  | none => []
  | some m => m.record_specific_fields
/-- The octets of the antenna pattern; none when absent. -/
def antennaOctets (x : TransmitterPdu) : Bytes :=
  match x.antenna_pattern with
  | none => []
  | some m => m.record_specific_fields

theorem wire_modulation (x : TransmitterPdu) : wire x.modulation_parameters = modulationOctets x := by
  unfold modulationOctets
  cases x.modulation_parameters with
  | none => rfl
  | some m => exact wire_bytes _
theorem wire_antenna (x : TransmitterPdu) : wire x.antenna_pattern = antennaOctets x := by
  unfold antennaOctets
  cases x.antenna_pattern with
  | none => rfl
  | some m => exact wire_bytes _

/-- Replacing the modulation parameters by others, the octets differ only there. -/
theorem TransmitterPdu.wire_with (x : TransmitterPdu) (m : Option ModulationParameters) (u : Bytes)
    (h : wire x.modulation_parameters = wire m ++ u) :
    wire x = wire (kept { x with modulation_parameters := m }) ++ (u ++ tail x) := by
  show wire x.entity_id ++ (wire x.radio_id ++ (wire x.radio_entity_type ++ (wire x.transmit_state ++ (wire x.input_source ++ (wire x.number_of_variable_transmitter_parameters_records ++ (wire x.antenna_location ++ (wire x.relative_antenna_location ++ (wire x.antenna_pattern_type ++ (wire x.antenna_pattern_length ++ (wire x.frequency ++ (wire x.transmit_frequency_bandwidth ++ (wire x.power ++ (wire x.modulation_type ++ (wire x.crypto_system ++ (wire x.crypto_key_id ++ (wire x.modulation_parameter_length ++ (wire x.padding ++ (wire x.padding2 ++ (wire x.modulation_parameters ++ (wire x.antenna_pattern ++ (wire x.variable_transmitter_parameters)))))))))))))))))))))
    = (wire x.entity_id ++ (wire x.radio_id ++ (wire x.radio_entity_type ++ (wire x.transmit_state ++ (wire x.input_source ++ (wire x.number_of_variable_transmitter_parameters_records ++ (wire x.antenna_location ++ (wire x.relative_antenna_location ++ (wire x.antenna_pattern_type ++ (wire x.antenna_pattern_length ++ (wire x.frequency ++ (wire x.transmit_frequency_bandwidth ++ (wire x.power ++ (wire x.modulation_type ++ (wire x.crypto_system ++ (wire x.crypto_key_id ++ (wire x.modulation_parameter_length ++ (wire x.padding ++ (wire x.padding2 ++ (wire m ++ ([] ++ ([]))))))))))))))))))))))
      ++ (u ++ (wire x.antenna_pattern ++ (wire x.variable_transmitter_parameters)))
  rw [h]
  simp only [List.append_assoc, List.append_nil]

theorem TransmitterPdu.roundtrip (p : Pdu TransmitterPdu) (hl : declaredOctets p ≤ 65535)
    (m : Option ModulationParameters) (u : Bytes) (hm : wire p.body.modulation_parameters = wire m ++ u)
    (h1 : (TransmitterPdu.prep p.body).modulation_parameter_length.toNat = (wire m).length)
    (h2 : m ≠ some ⟨[]⟩) (prof : Profile) (buf : Bytes) :
    ∃ q w, p.serialize prof buf = .ok ((q, .ok ()), buf ++ w) ∧ q.body = TransmitterPdu.prep p.body ∧
      ∀ prof' rest, decodeAs TransmitterPdu prof' (w ++ rest) =
        .ok (.ok ⟨q.header, { q.body with modulation_parameters := m
                                          antenna_pattern := none
                                          variable_transmitter_parameters := [] }⟩,
          u ++ antennaOctets p.body ++ wire p.body.variable_transmitter_parameters ++ rest) := by
  have hs := Pdu.serialize_of_encodable p (PduKind.encodable .Transmitter rfl p.body)
    (by have := declaredOctets_eq p; omega) prof buf
  rw [List.append_assoc] at hs
  refine ⟨_, _, hs, rfl, fun prof' rest => ?_⟩
  have hw : wire (sent p.after.body) = wire (kept ({ (TransmitterPdu.prep p.body) with modulation_parameters := m } : TransmitterPdu)) ++
      (u ++ tail (TransmitterPdu.prep p.body)) :=
    TransmitterPdu.wire_with (TransmitterPdu.prep p.body) m u hm
  have ht : tail (TransmitterPdu.prep p.body) = antennaOctets p.body ++ wire p.body.variable_transmitter_parameters := by
    rw [← wire_antenna]; rfl
  rw [List.append_assoc]
  show Pdu.deserialize prof' _ = _
  rw [Pdu.deserialize_of_wire _ rfl, hw, List.append_assoc, ht]
  have hr := TransmitterPdu.reads ({ (TransmitterPdu.prep p.body) with modulation_parameters := m } : TransmitterPdu)
    ⟨h1, h2⟩ prof' (u ++ (antennaOctets p.body ++ wire p.body.variable_transmitter_parameters) ++ rest)
  rw [show (PduBody.deserializeBody : Get TransmitterPdu) prof' _ = _ from hr]
  simp only [List.append_assoc]
  rfl

theorem TransmitterPdu.prep_length (x : TransmitterPdu) : (TransmitterPdu.prep x).modulation_parameter_length =
    if (modulationOctets x).length < 256 then UInt8.ofNat (modulationOctets x).length else 0 := by
  unfold TransmitterPdu.prep
  rw [len_exact, wire_modulation]

/-- Between 1 and 255 octets of modulation parameters, or none at all: `serialize` sets the length field to
their number; decoding recovers them. The antenna pattern and the variable parameters are not recovered:
their octets are left unread. -/
theorem C29_parameters (p : Pdu TransmitterPdu) (hl : declaredOctets p ≤ 65535)
    (hn : (modulationOctets p.body).length ≤ 255) (he : p.body.modulation_parameters ≠ some ⟨[]⟩)
    (prof : Profile) (buf : Bytes) :
    ∃ q w, p.serialize prof buf = .ok ((q, .ok ()), buf ++ w) ∧
      q.body = { p.body with modulation_parameter_length := UInt8.ofNat (modulationOctets p.body).length } ∧
      q.body.modulation_parameter_length.toNat = (modulationOctets p.body).length ∧
      ∀ prof' rest, decodeAs TransmitterPdu prof' (w ++ rest) =
        .ok (.ok ⟨q.header, { q.body with antenna_pattern := none
                                          variable_transmitter_parameters := [] }⟩,
          antennaOctets p.body ++ wire p.body.variable_transmitter_parameters ++ rest) := by
  have hlen := TransmitterPdu.prep_length p.body
  rw [if_pos (by omega)] at hlen
  have hnat : (TransmitterPdu.prep p.body).modulation_parameter_length.toNat = (modulationOctets p.body).length := by
    rw [hlen, UInt8.toNat_ofNat_of_lt' (by simp only [UInt8.size]; omega)]
  obtain ⟨q, w, h1, h2, h3⟩ := TransmitterPdu.roundtrip p hl p.body.modulation_parameters []
    (by rw [List.append_nil]) (by rw [hnat, wire_modulation]) he prof buf
  refine ⟨q, w, h1, ?_, by rw [h2]; exact hnat, fun prof' rest => ?_⟩
  · rw [h2]
    show TransmitterPdu.mk _ _ _ _ _ _ _ _ _ _ _ _ _ _ _ _ _ _ _ _ _ _ = _
    rw [← hlen]
    rfl
  · rw [h3 prof' rest, List.nil_append]
    rw [h2]
    rfl

/-- Empty modulation parameters are indistinguishable from none: none is what comes back. -/
theorem C29_empty_parameters (p : Pdu TransmitterPdu) (hl : declaredOctets p ≤ 65535)
    (he : p.body.modulation_parameters = some ⟨[]⟩) (prof : Profile) (buf : Bytes) :
    ∃ q w, p.serialize prof buf = .ok ((q, .ok ()), buf ++ w) ∧ q.body.modulation_parameter_length = 0 ∧
      q.body.modulation_parameters = some ⟨[]⟩ ∧
      ∀ prof' rest, ∃ x, decodeAs TransmitterPdu prof' (w ++ rest) =
        .ok (.ok x, antennaOctets p.body ++ wire p.body.variable_transmitter_parameters ++ rest) ∧
        x.body.modulation_parameters = none := by
  have hlen := TransmitterPdu.prep_length p.body
  have ho : modulationOctets p.body = [] := by unfold modulationOctets; rw [he]
  rw [ho] at hlen
  obtain ⟨q, w, h1, h2, h3⟩ := TransmitterPdu.roundtrip p hl none []
    (by rw [wire_modulation, ho]; rfl) (by rw [hlen]; rfl) (by simp) prof buf
  refine ⟨q, w, h1, by rw [h2, hlen]; rfl, by rw [h2]; exact he, fun prof' rest => ⟨_, h3 prof' rest, rfl⟩⟩

/-- More than 255 octets: the length transmitted is 0, so decoding finds no modulation parameters, and their
octets are left unread before the antenna pattern's; nothing is reported. -/
theorem C29_oversized_parameters (p : Pdu TransmitterPdu) (hl : declaredOctets p ≤ 65535)
    (hn : 255 < (modulationOctets p.body).length) (prof : Profile) (buf : Bytes) :
    ∃ q w, p.serialize prof buf = .ok ((q, .ok ()), buf ++ w) ∧ q.body.modulation_parameter_length = 0 ∧
      ∀ prof' rest, ∃ x, decodeAs TransmitterPdu prof' (w ++ rest) =
        .ok (.ok x, modulationOctets p.body ++ antennaOctets p.body ++
          wire p.body.variable_transmitter_parameters ++ rest) ∧
        x.body = { p.body with modulation_parameter_length := 0
                               modulation_parameters := none
                               antenna_pattern := none
                               variable_transmitter_parameters := [] } := by
  have hlen := TransmitterPdu.prep_length p.body
  rw [if_neg (by omega)] at hlen
  obtain ⟨q, w, h1, h2, h3⟩ := TransmitterPdu.roundtrip p hl none (modulationOctets p.body)
    (wire_modulation _) (by rw [hlen]; rfl) (by simp) prof buf
  refine ⟨q, w, h1, by rw [h2, hlen], fun prof' rest => ⟨_, h3 prof' rest, ?_⟩⟩
  rw [h2]
  show TransmitterPdu.mk _ _ _ _ _ _ _ _ _ _ _ _ _ _ _ _ _ _ _ _ _ _ = _
  rw [← hlen]
  rfl

/-- The three hypotheses are met, by PDUs that fit. -/
example : (let b : TransmitterPdu := { (PduBody.default : TransmitterPdu) with
      modulation_parameters := some ⟨[1, 2, 3]⟩, antenna_pattern := some ⟨[4, 5]⟩ }
    12 + TransmitterPdu.fieldsLen b = 109 ∧ (modulationOctets b).length = 3) ∧
    (let b : TransmitterPdu := { (PduBody.default : TransmitterPdu) with
      modulation_parameters := some ⟨List.replicate 300 7⟩ }
    12 + TransmitterPdu.fieldsLen b = 404 ∧ 255 < (modulationOctets b).length) := by decide +kernel

example := C29_parameters ⟨exampleHeader, { (PduBody.default : TransmitterPdu) with
    modulation_parameters := some ⟨[1, 2, 3]⟩, antenna_pattern := some ⟨[4, 5]⟩ }⟩ (by decide +kernel) (by decide +kernel)
  (by intro h; cases h) ⟨true⟩ [9]
example := C29_empty_parameters ⟨exampleHeader, { (PduBody.default : TransmitterPdu) with
    modulation_parameters := some ⟨[]⟩ }⟩ (by decide +kernel) rfl ⟨true⟩ [9]

end Dis
