import Verif.Proofs.MessageSize
/-
C53: the size of every message, list by list.
-/
namespace Dis

/-- `calculate_length` returns the fixed part plus, list by list, the elements times their size; and when this
does not fit 16 bits, the error carrying it. -/
theorem C53_calculate_length (k : PduKind) (p : Pdu k.Body) :
    p.calculate_length =
      if k.ieeeOctets + k.listOctets p.body < 65536 then .ok (UInt16.ofNat (k.ieeeOctets + k.listOctets p.body))
      else .error (.PduSizeExceeded (k.ieeeOctets + k.listOctets p.body) 8192) := by
  rw [← k.listOctets_eq p.body]
  rfl

/-- A message that is written carries this number in its header; -/
theorem C53_length_field (k : PduKind) (p q : Pdu k.Body) (prof : Profile) (buf buf' : Bytes)
    (h : p.serialize prof buf = .ok ((q, .ok ()), buf')) :
    q.header.length.toNat = k.ieeeOctets + k.listOctets p.body ∧ k.ieeeOctets + k.listOctets p.body < 65536 := by
  have h1 := C06_length_not_truncated k p q prof buf buf' h
  rw [declaredOctets_eq, k.listOctets_eq] at h1
  have := q.header.length.toNat_lt
  omega

example := C53_length_field .Signal sampleSignal _ _ _ _ sampleSignal_serialize

/-- A message is refused exactly when its fixed part and its lists come to more than 65535 octets, -/
theorem C53_refused (k : PduKind) (p : Pdu k.Body) (prof : Profile) (buf : Bytes) :
    (∃ q e buf', p.serialize prof buf = .ok ((q, .error e), buf')) ↔
      65535 < k.ieeeOctets + k.listOctets p.body := by
  rw [C06_refused_iff, declaredOctets_eq, k.listOctets_eq]
  omega

theorem sum_record_sets (l : List RecordSpecificationElement) :
    (l.map fun s => 12 + s.record_length.toNat * s.record_count.toNat % 65536).sum =
      12 * l.length + (l.map fun s => s.record_length.toNat * s.record_count.toNat % 65536).sum := by
  induction l with
  | nil => rfl
  | cons s l ih => simp only [List.map_cons, List.sum_cons, List.length_cons, ih]; omega

theorem sum_grids (l : List GridDataRecord) :
    (l.map gridDataOctets).sum = (l.map fun r => gridDataOctets r - 2).sum + 2 * l.length := by
  induction l with
  | nil => rfl
  | cons s l ih =>
    have : 2 ≤ gridDataOctets s := by
      unfold gridDataOctets
      split <;> omega
    simp only [List.map_cons, List.sum_cons, List.length_cons, ih]; omega

/-- and a message that is written has exactly as many octets as `writtenOctets` counts. -/
theorem C53_written (k : PduKind) (p q : Pdu k.Body) (prof : Profile) (buf buf' : Bytes)
    (h : p.serialize prof buf = .ok ((q, .ok ()), buf')) :
    buf'.length = buf.length + k.writtenOctets p.body := by
  have hl := (C53_length_field k p q prof buf buf' h).1
  by_cases he : k.exactLength = true
  · have h1 := (C04_declared_length k he p q prof buf buf' h).1
    have h2 : k.writtenOctets p.body = k.ieeeOctets + k.listOctets p.body := by
      cases k <;> first
        | exact absurd he (by decide)
        | rfl
    omega
  · rcases (C04_inexact_kinds k).mp (by simpa using he) with rfl | rfl | hd | hs
    · have h1 := (C04_entity_state p q prof buf buf' h).1
      have h2 : PduKind.EntityState.listOctets p.body = 16 * p.body.articulation_parameter.length := rfl
      have h3 : PduKind.EntityState.ieeeOctets = 144 := rfl
      show _ = _ + (133 + (strBytes p.body.entity_marking.entity_marking_string).length +
        16 * p.body.articulation_parameter.length)
      omega
    · have h1 := C04_gridded_data p q prof buf buf' h
      have h2 : PduKind.GriddedData.listOctets p.body = (p.body.grid_axis_descriptors.map gridAxisOctets).sum +
        (p.body.grid_data_list.map fun r => gridDataOctets r - 2).sum := rfl
      have h3 : PduKind.GriddedData.ieeeOctets = 64 := rfl
      show _ = _ + (64 + (p.body.grid_axis_descriptors.map gridAxisOctets).sum +
        (p.body.grid_data_list.map gridDataOctets).sum)
      rw [sum_grids]
      omega
    · obtain ⟨ds, hds⟩ := Option.isSome_iff_exists.mp (hd p.body)
      have h1 := (C04_datum_kinds k p q ds hds prof buf buf' h).1
      have h2 : k.writtenOctets p.body = k.ieeeOctets + k.listOctets p.body +
          (((k.datums p.body).getD []).map fun d => datumPadding d.length_bits.toNat).sum := by
        cases k <;> cases hds <;> rfl
      rw [hds, Option.getD_some] at h2
      omega
    · obtain ⟨rs, hrs⟩ := Option.isSome_iff_exists.mp (hs p.body)
      have h1 := (C04_record_set_kinds k p q rs hrs prof buf buf' h).1
      have h2 : k.ieeeOctets = 40 ∧ k.listOctets p.body = setsOctets rs ∧ k.writtenOctets p.body =
          40 + (rs.map fun s => 12 + s.record_length.toNat * s.record_count.toNat % 65536).sum := by
        cases k <;> cases hrs <;> exact ⟨rfl, rfl, rfl⟩
      have h3 : setsOctets rs = 12 * rs.length + (rs.map fun s => s.record_values.length).sum := by
        unfold setsOctets
        rw [List.length_flatMap]
      rw [sum_record_sets] at h2
      omega

/-- Two emission systems, one with two beams, of which one has a target: 28 + 2 * 20 + 2 * 52 + 8. -/
example :
    let beam : ElectromagneticEmissionBeamData := dflt
    let system : ElectromagneticEmissionSystemData := dflt
    let b : ElectromagneticEmissionsPdu := { (PduBody.default : ElectromagneticEmissionsPdu) with
      systems := [{ system with beam_data_records := [{ beam with track_jam_targets := [dflt] }, beam] }, system] }
    let p : Pdu ElectromagneticEmissionsPdu := ⟨PduHeader.default 0, b⟩
    PduKind.ElectromagneticEmissions.listOctets b = 152 ∧ p.calculate_length = .ok 180 ∧
    PduKind.ElectromagneticEmissions.writtenOctets b = 180 := by
  decide +kernel
/-- A datum of one octet (eight bits): declared as 9 octets, written as 16. -/
example :
    let b : DataPdu := { (PduBody.default : DataPdu) with
      fixed_datum_records := [⟨1, 2⟩], variable_datum_records := [⟨7, 8, [1]⟩] }
    let p : Pdu DataPdu := ⟨PduHeader.default 0, b⟩
    p.calculate_length = .ok 57 ∧ PduKind.Data.writtenOctets b = 64 ∧
    (∃ q buf', p.serialize ⟨true⟩ [] = .ok ((q, .ok ()), buf') ∧ buf'.length = 64) := by
  intro b p
  have h := Pdu.serialize_of_encodable p (PduKind.encodable .Data rfl b)
    (by show 12 + DataPdu.fieldsLen b < 65536; decide +kernel) ⟨true⟩ []
  refine ⟨by decide +kernel, by decide +kernel, _, _, h, ?_⟩
  exact (C53_written .Data p _ _ _ _ h).trans (by decide +kernel)

end Dis
