import Verif.Proofs.MessagePdus
import Verif.Properties.Layout
/-
C48, whole messages: Spec/Message lists the fields of a message in order.
-/
set_option maxRecDepth 8000
namespace Dis

theorem PduKind.head_contiguous (k : PduKind) : Contiguous 12 k.layoutTable (12 + k.headOctets) := by
  cases k <;> decide

theorem PduHeader.spelt (h : PduHeader) : Field.octetsOf (fieldsOf PduHeader.layout h) = wire h :=
  spelt_fixed (T := PduHeader.layout) (n := 12) (by decide) (PduHeader.layout_eq ▸ PduHeader.written h)
    (PduHeader.wire_length _)

theorem PduKind.message_octets (k : PduKind) (q : Pdu k.Body) :
    Field.octetsOf (k.message q) = wire q.header ++ wire (sent q.body) := by
  obtain ⟨A, hA, hn⟩ := k.ends q.body
  have hw : Written k.layoutTable q.body (wire q.header ++ (A ++ Field.octetsOf (k.rest q.body))) := by
    rw [← hA, k.layout_eq]; exact Written.after (PduHeader.wire_length _) (k.written q.body)
  have hs : Field.octetsOf (fieldsOf k.layoutTable q.body) = A := by
    rw [hw.spelt k.head_contiguous (by omega) (by
      rw [List.length_append, List.length_append, PduHeader.wire_length]; omega), Nat.add_sub_cancel_left,
      ← PduHeader.wire_length q.header, List.drop_left, ← hn, List.take_left]
  unfold PduKind.message
  rw [octetsOf_append, octetsOf_append, PduHeader.spelt, hs, hA, List.append_assoc]

/-- Whole messages: whenever `serialize` succeeds, what it appends are exactly the octets of the fields listed
in Spec/Message for the PDU as it now stands: every octet is accounted for, including those of lists of
records that themselves have lists. -/
theorem C48_message (k : PduKind) (p q : Pdu k.Body) (prof : Profile) (buf buf' : Bytes)
    (h : p.serialize prof buf = .ok ((q, .ok ()), buf')) :
    buf' = buf ++ Field.octetsOf (k.message q) := by
  obtain ⟨_, _, hb⟩ := Pdu.serialize_ok h
  rw [hb, k.message_octets, List.append_assoc]

/-- an emission PDU with two systems, the first of them with a beam that has a track/jam target -/
def C48_emissions : Pdu ElectromagneticEmissionsPdu :=
  ⟨PduHeader.default 7, { (Pdu.new 7 : Pdu ElectromagneticEmissionsPdu).body with
    systems := [{ (dflt : ElectromagneticEmissionSystemData) with
        beam_data_records := [{ (dflt : ElectromagneticEmissionBeamData) with track_jam_targets := [⟨dflt, 7, 9⟩] }] },
      { (dflt : ElectromagneticEmissionSystemData) with emissionspadding2 := 0x0102 }] }⟩

/-- It serializes; the target's beam number is octet 107, the second system's padding octets 110 and 111. -/
example : ∃ q w, C48_emissions.serialize ⟨true⟩ [] = .ok ((q, .ok ()), [] ++ w) ∧
    w = Field.octetsOf (PduKind.message .ElectromagneticEmissions q) ∧
    (w.drop 106).take 6 = [7, 9, 0, 0, 1, 2] := by
  have hs := Pdu.serialize_of_encodable C48_emissions
    (PduKind.encodable .ElectromagneticEmissions rfl C48_emissions.body)
    (by show 12 + ElectromagneticEmissionsPdu.fieldsLen C48_emissions.body < 65536; decide +kernel) ⟨true⟩ []
  have hw := C48_message .ElectromagneticEmissions C48_emissions _ ⟨true⟩ [] _ hs
  refine ⟨_, _, hw ▸ hs, rfl, ?_⟩
  rw [← List.nil_append (Field.octetsOf _), ← hw]; decide +kernel

/-- Records with lists on their own: what a successful `serialize` appends are exactly the octets of the
fields listed in Spec/Message. -/
theorem C48_record_lists (prof : Profile) (buf buf' : Bytes) :
    (∀ x : AttributeRecord, x.serialize prof buf = .ok ((), buf') → buf' = buf ++ Field.octetsOf x.fields) ∧
    (∀ x : AttributeRecordSet, x.serialize prof buf = .ok ((), buf') → buf' = buf ++ Field.octetsOf x.fields) ∧
    (∀ x : ElectromagneticEmissionBeamData, x.serialize prof buf = .ok ((), buf') →
      buf' = buf ++ Field.octetsOf x.fields) ∧
    (∀ x : ElectromagneticEmissionSystemData, x.serialize prof buf = .ok ((), buf') →
      buf' = buf ++ Field.octetsOf x.fields) ∧
    (∀ x : StandardVariableRecords, x.serialize prof buf = .ok ((), buf') → buf' = buf ++ Field.octetsOf x.fields) ∧
    (∀ x : VariableTransmitterParameters, x.serialize prof buf = .ok ((), buf') →
      buf' = buf ++ Field.octetsOf x.fields) ∧
    (∀ x : RecordSpecificationElement, x.serialize prof buf = .ok ((), buf') →
      buf' = buf ++ Field.octetsOf x.fields) ∧
    (∀ x : VariableDatumRecord, x.serialize prof buf = .ok ((), buf') → buf' = buf ++ Field.octetsOf x.fields) ∧
    (∀ x : GridAxisDescriptor, x.serialize prof buf = .ok ((), buf') → buf' = buf ++ Field.octetsOf x.fields) ∧
    (∀ x : GridDataRecord, x.serialize prof buf = .ok ((), buf') → buf' = buf ++ Field.octetsOf x.fields) := by
  refine ⟨fun x h => ?_, fun x h => ?_, fun x h => ?_, fun x h => ?_, fun x h => ?_, fun x h => ?_, fun x h => ?_,
    fun x h => ?_, fun x h => ?_, fun x h => ?_⟩
  all_goals first
    | rw [AttributeRecord.spelt] | rw [AttributeRecordSet.spelt] | rw [ElectromagneticEmissionBeamData.spelt]
    | rw [ElectromagneticEmissionSystemData.spelt] | rw [StandardVariableRecords.spelt]
    | rw [VariableTransmitterParameters.spelt] | rw [RecordSpecificationElement.spelt]
    | rw [VariableDatumRecord.spelt] | rw [GridAxisDescriptor.spelt] | rw [GridDataRecord.spelt]
  all_goals exact LawfulEnc.ok x prof buf _ h

/-- The value of a grid axis with spacing written out, and of a record set whose product wraps. -/
example : (∃ buf', GridAxisDescriptor.serialize ⟨⟨0⟩, ⟨0⟩, 2, 0, .IrregularAxis,
      .VariableSpacing 2 0 ⟨0⟩ ⟨0⟩ [0x0102, 0x0304] [0, 0]⟩ ⟨true⟩ [] = .ok ((), buf') ∧
      buf'.drop 40 = [1, 2, 3, 4, 0, 0]) ∧
    (∃ buf', RecordSpecificationElement.serialize ⟨0, 0, 256, 257, List.replicate 300 1⟩ ⟨false⟩ [] = .ok ((), buf') ∧
      buf'.length = 268) :=
  ⟨⟨_, rfl, by decide +kernel⟩, ⟨_, rfl, by decide +kernel⟩⟩

end Dis
