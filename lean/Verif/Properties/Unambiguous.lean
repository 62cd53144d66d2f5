import Verif.Proofs.ToldPdus
import Verif.Properties.Stream
/-
C58: a message whose counts and lengths are true has one meaning.  `Spec.Truthful` says when they are.
-/
set_option maxRecDepth 8000
namespace Dis

theorem PduKind.sent_of_truthful (k : PduKind) {b : k.Body} (h : k.truthful b) :
    sent (PduBody.prep b) = k.unsentBlank (PduBody.prep b) := by
  cases k
  case EntityState => rfl
  case InformationOperationsReport => rfl
  case InformationOperationsAction => rfl
  case TransferOwnership =>
    have := RecordSpecification.sent_truthful h
    exact congrArg (fun r => ({ (sent b : TransferOwnershipPdu) with record_information := r } : TransferOwnershipPdu)) this
  case SetRecordReliable =>
    have := RecordSpecification.sent_truthful h
    exact congrArg (fun r => ({ (sent b : SetRecordReliablePdu) with record_sets := r } : SetRecordReliablePdu)) this
  all_goals exact PduKind.sent_id_all _ rfl rfl _

/-- Two PDUs of one kind with true counts, serialized by any builds: if what was written for the one begins what was written
for the other (whatever follows each), then they are the same message: what follows is the same, and so are the two PDUs
once serialized, but for the fields of which nothing is sent. -/
theorem C58_unambiguous (k : PduKind) (p p' q q' : Pdu k.Body) (prof prof' : Profile) (w w' t t' : Bytes)
    (ht : k.truthful p.body) (ht' : k.truthful p'.body)
    (h : p.serialize prof [] = .ok ((q, .ok ()), w)) (h' : p'.serialize prof' [] = .ok ((q', .ok ()), w'))
    (e : w ++ t = w' ++ t') :
    t = t' ∧ q.header = q'.header ∧ k.unsentBlank q.body = k.unsentBlank q'.body ∧ (k.zeroesFields = false → q = q') := by
  suffices hm : t = t' ∧ q.header = q'.header ∧ k.unsentBlank q.body = k.unsentBlank q'.body by
    refine ⟨hm.1, hm.2.1, hm.2.2, fun hz => ?_⟩
    have hb : q.body = q'.body := by
      have hid : ∀ x : k.Body, k.unsentBlank x = x := by
        intro x
        cases k <;> first | exact absurd hz (by decide) | rfl
      have := hm.2.2
      rwa [hid, hid] at this
    cases q; cases q'
    obtain ⟨_, rfl, _⟩ := hm
    cases hb
    rfl
  by_cases hk : k.fixedLayout = false ∧ k.oneList = false
  · obtain ⟨rfl, _, hw⟩ := Pdu.serialize_ok h
    obtain ⟨rfl, _, hw'⟩ := Pdu.serialize_ok h'
    rw [hw, hw', List.nil_append, List.nil_append, List.append_assoc, List.append_assoc] at e
    obtain ⟨e1, e2⟩ := prefix_of_reads (PduHeader.reads _) (PduHeader.reads _) e
    obtain ⟨e3, e4⟩ := k.told hk ht ht' e2
    refine ⟨e4, e1, ?_⟩
    rw [k.sent_of_truthful ht, k.sent_of_truthful ht'] at e3
    exact e3
  · have hk' : k.fixedLayout = true ∨ k.oneList = true := by
      revert hk
      cases k.fixedLayout <;> cases k.oneList <;> simp
    have hx : k.exactLength = true := by
      cases k <;> first | rfl | exact absurd hk' (by decide)
    have l := (C04_declared_length k hx p q prof [] w h).1
    have l' := (C04_declared_length k hx p' q' prof' [] w' h').1
    have e1 : q.header = q'.header := by
      obtain ⟨rfl, _, hw⟩ := Pdu.serialize_ok h
      obtain ⟨rfl, _, hw'⟩ := Pdu.serialize_ok h'
      rw [hw, hw', List.nil_append, List.nil_append, List.append_assoc, List.append_assoc] at e
      exact (prefix_of_reads (PduHeader.reads _) (PduHeader.reads _) e).1
    rw [e1] at l
    obtain ⟨rfl, rfl⟩ := List.append_inj e (l.trans l'.symm)
    obtain ⟨rfl, _⟩ := C36_injective k hk' p p' q q' prof prof' w h h'
    exact ⟨rfl, rfl, rfl⟩

/-- What a PDU says, as far as it is sent. -/
def AnyPdu.meaning (q : AnyPdu) : (k : PduKind) × PduHeader × k.Body := ⟨q.kind, q.pdu.header, q.kind.unsentBlank q.pdu.body⟩

/-- As `C58_unambiguous`, with the kinds left open. -/
theorem C58_any_kind (p p' : AnyPdu) (q : Pdu p.kind.Body) (q' : Pdu p'.kind.Body) (prof prof' : Profile) (w w' t t' : Bytes)
    (ht : p.kind.truthful p.pdu.body) (ht' : p'.kind.truthful p'.pdu.body)
    (h : p.pdu.serialize prof [] = .ok ((q, .ok ()), w)) (h' : p'.pdu.serialize prof' [] = .ok ((q', .ok ()), w'))
    (e : w ++ t = w' ++ t') : t = t' ∧ AnyPdu.meaning ⟨p.kind, q⟩ = AnyPdu.meaning ⟨p'.kind, q'⟩ := by
  obtain ⟨k, p⟩ := p
  obtain ⟨k', p'⟩ := p'
  by_cases hk : k = k'
  · subst hk
    obtain ⟨e1, e2, e3, _⟩ := C58_unambiguous k p p' q q' prof prof' w w' t t' ht ht' h h' e
    refine ⟨e1, ?_⟩
    simp only [AnyPdu.meaning]
    rw [e2, e3]
  · exact absurd e (C36_across_kinds k k' hk p q p' q' prof prof' w w' h h' t t')

/-- A receiver is possible: one function, without being told the kind, finds in any octets beginning with a serialized PDU
with true counts the PDU (but for fields of which nothing is sent) and what follows it. -/
theorem C58_receiver_exists : ∃ f : Bytes → Option (((k : PduKind) × PduHeader × k.Body) × Bytes),
    ∀ (k : PduKind) (p q : Pdu k.Body) (prof : Profile) (w rest : Bytes), k.truthful p.body →
      p.serialize prof [] = .ok ((q, .ok ()), w) → f (w ++ rest) = some (AnyPdu.meaning ⟨k, q⟩, rest) := by
  let Is (b : Bytes) (m : ((k : PduKind) × PduHeader × k.Body) × Bytes) : Prop :=
    ∃ (k : PduKind) (p q : Pdu k.Body) (prof : Profile) (w : Bytes), k.truthful p.body ∧
      p.serialize prof [] = .ok ((q, .ok ()), w) ∧ b = w ++ m.2 ∧ m.1 = AnyPdu.meaning ⟨k, q⟩
  refine ⟨fun b => open Classical in if h : ∃ m, Is b m then some h.choose else none, ?_⟩
  intro k p q prof w rest ht hs
  have hex : ∃ m, Is (w ++ rest) m := ⟨(AnyPdu.meaning ⟨k, q⟩, rest), k, p, q, prof, w, ht, hs, rfl, rfl⟩
  simp only [dif_pos hex, Option.some.injEq]
  obtain ⟨k', p', q', prof', w', ht', hs', hb, hm⟩ := hex.choose_spec
  obtain ⟨e1, e2⟩ := C58_any_kind ⟨k, p⟩ ⟨k', p'⟩ q q' prof prof' w w' rest _ ht ht' hs hs' hb
  exact Prod.ext (hm.trans e2.symm) e1.symm

/-- `qs` and the octets `w` come of sending `ps` one by one. -/
inductive Sends (prof : Profile) : List AnyPdu → List AnyPdu → Bytes → Prop
  | nil : Sends prof [] [] []
  | cons {p : AnyPdu} {ps qs : List AnyPdu} {q : Pdu p.kind.Body} {w v : Bytes}
      (h : p.pdu.serialize prof [] = .ok ((q, .ok ()), w)) (hs : Sends prof ps qs v) :
      Sends prof (p :: ps) (⟨p.kind, q⟩ :: qs) (w ++ v)

theorem sendAll_sends (prof : Profile) : ∀ (ps qs : List AnyPdu) (buf buf' : Bytes),
    sendAll ps prof buf = .ok (.ok qs, buf') → ∃ w, buf' = buf ++ w ∧ Sends prof ps qs w := by
  intro ps
  induction ps with
  | nil =>
    intro qs buf buf' h
    cases h
    exact ⟨[], (List.append_nil _).symm, .nil⟩
  | cons p ps ih =>
    intro qs buf buf' h
    rw [sendAll.eq_2, M.bind_run] at h
    cases hp : p.pdu.serialize prof buf with
    | error e => rw [hp] at h; cases h
    | ok r =>
      rw [hp] at h
      obtain ⟨⟨q, r⟩, b⟩ := r
      cases r with
      | error e => cases h
      | ok u =>
        dsimp only at h
        rw [M.bind_run] at h
        cases hs : sendAll ps prof b with
        | error e => rw [hs] at h; cases h
        | ok r =>
          rw [hs] at h
          obtain ⟨r | r, b'⟩ := r
          · cases h
          · cases h
            obtain ⟨v, rfl, hv⟩ := ih r b buf' hs
            rcases C05_append_only p.kind p.pdu prof with ⟨e, he⟩ | ⟨q', r', w, hw⟩
            · rw [he buf] at hp; cases hp
            · rw [hw buf] at hp
              cases hp
              exact ⟨w ++ v, List.append_assoc .., .cons (hw []) hv⟩

theorem Sends.unambiguous {prof prof' : Profile} {ps qs : List AnyPdu} {w : Bytes} (h : Sends prof ps qs w) :
    ∀ {ps' qs' : List AnyPdu}, Sends prof' ps' qs' w →
    (∀ p ∈ ps, p.kind.truthful p.pdu.body) → (∀ p ∈ ps', p.kind.truthful p.pdu.body) →
    qs.map AnyPdu.meaning = qs'.map AnyPdu.meaning := by
  have hne : ∀ {p : AnyPdu} {q : Pdu p.kind.Body} {prof : Profile} {w v : Bytes},
      p.pdu.serialize prof [] = .ok ((q, .ok ()), w) → w ++ v = [] → False := by
    intro p q prof w v h e
    obtain ⟨rfl, rfl⟩ := List.append_eq_nil_iff.mp e
    obtain ⟨rfl, _, hw⟩ := Pdu.serialize_ok h
    have := congrArg List.length hw
    simp only [List.length_append, PduHeader.wire_length, List.length_nil] at this
    omega
  induction h with
  | nil =>
    intro ps' qs' h' _ _
    generalize he : ([] : Bytes) = e at h'
    cases h' with
    | nil => rfl
    | cons h hs => exact (hne h he.symm).elim
  | @cons p ps qs q w v h hs ih =>
    intro ps' qs' h' ht ht'
    generalize he : w ++ v = e at h'
    cases h' with
    | nil => exact (hne h he).elim
    | @cons p' ps' qs' q' w' v' h' hs' =>
      obtain ⟨rfl, e2⟩ := C58_any_kind p p' q q' prof prof' w w' v v' (ht _ (List.mem_cons_self ..))
        (ht' _ (List.mem_cons_self ..)) h h' he
      rw [List.map_cons, List.map_cons, e2, ih hs' (fun x hx => ht x (List.mem_cons_of_mem _ hx))
        (fun x hx => ht' x (List.mem_cons_of_mem _ hx))]

/-- A buffer of PDUs with true counts, of any kinds and any number: if two senders fill their buffers with the same octets,
they sent the same messages in the same order. -/
theorem C58_sequence (ps ps' qs qs' : List AnyPdu) (prof prof' : Profile) (w : Bytes)
    (ht : ∀ p ∈ ps, p.kind.truthful p.pdu.body) (ht' : ∀ p ∈ ps', p.kind.truthful p.pdu.body)
    (h : sendAll ps prof [] = .ok (.ok qs, w)) (h' : sendAll ps' prof' [] = .ok (.ok qs', w)) :
    qs.map AnyPdu.meaning = qs'.map AnyPdu.meaning := by
  obtain ⟨_, rfl, hs⟩ := sendAll_sends prof ps qs [] w h
  obtain ⟨_, e, hs'⟩ := sendAll_sends prof' ps' qs' [] _ h'
  obtain rfl : _ = _ := e
  exact hs.unambiguous hs' ht ht'

/-- Truth is needed on both sides: of two PDUs serialized to the same octets, one has true counts, and the other has its
record in the other list. -/
theorem C58_truth_needed : ∃ (p p' q q' : Pdu SetDataPdu) (w : Bytes), PduKind.truthful .SetData p.body ∧
    p.serialize ⟨true⟩ [] = .ok ((q, .ok ()), w) ∧ p'.serialize ⟨true⟩ [] = .ok ((q', .ok ()), w) ∧ q ≠ q' := by
  let b : SetDataPdu := { (PduBody.default : SetDataPdu) with
    number_of_fixed_datum_records := 1, fixed_datum_records := [⟨5, 0⟩] }
  let b' : SetDataPdu := { (PduBody.default : SetDataPdu) with
    number_of_fixed_datum_records := 1, variable_datum_records := [⟨5, 0, []⟩] }
  let p : Pdu SetDataPdu := ⟨PduHeader.default 0, b⟩
  let p' : Pdu SetDataPdu := ⟨PduHeader.default 0, b'⟩
  have hs := Pdu.serialize_of_encodable p (PduKind.encodable .SetData rfl b)
    (by show 12 + SetDataPdu.fieldsLen b < 65536; decide +kernel) ⟨true⟩ []
  have hs' := Pdu.serialize_of_encodable p' (PduKind.encodable .SetData rfl b')
    (by show 12 + SetDataPdu.fieldsLen b' < 65536; decide +kernel) ⟨true⟩ []
  have hw : [] ++ wire p'.after.header ++ wire (sent p'.after.body) =
      [] ++ wire p.after.header ++ wire (sent p.after.body) := by decide +kernel
  rw [hw] at hs'
  refine ⟨p, p', p.after, p'.after, _, ⟨rfl, rfl, fun _ h => nomatch h⟩, hs, hs', ?_⟩
  intro h
  have := congrArg (fun q : Pdu SetDataPdu => q.body.fixed_datum_records.length) h
  exact absurd this (by decide +kernel)

/-! ### Messages with true counts, one of each sort, that serialize -/

/-- a fixed datum and two variable ones, of 16 and 64 bits -/
def truthfulSetData : SetDataPdu := { (PduBody.default : SetDataPdu) with
  number_of_fixed_datum_records := 1, number_of_variable_datum_records := 2,
  fixed_datum_records := [⟨5, 0⟩], variable_datum_records := [⟨1, 16, [7, 8]⟩, ⟨2, 64, [1, 2, 3, 4, 5, 6, 7, 8]⟩] }
example : PduKind.truthful .SetData truthfulSetData := by
  show _ ∧ _ ∧ ∀ d ∈ truthfulSetData.variable_datum_records, d.length_bits.toNat = 8 * d.value.length
  decide +kernel
example := Pdu.serialize_of_encodable ⟨PduHeader.default 0, truthfulSetData⟩ (PduKind.encodable .SetData rfl _)
  (by show 12 + SetDataPdu.fieldsLen truthfulSetData < 65536; decide +kernel) ⟨true⟩ []

/-- an emission system with two beams, one of them with a target -/
def truthfulEmissions : ElectromagneticEmissionsPdu := { (PduBody.default : ElectromagneticEmissionsPdu) with
  number_of_systems := 1
  systems := [{ (dflt : ElectromagneticEmissionSystemData) with
    number_of_beams := 2
    beam_data_records := [{ (dflt : ElectromagneticEmissionBeamData) with
      number_of_track_jam_targets := 1, track_jam_targets := [⟨dflt, 7, 9⟩] }, dflt] }] }
example : PduKind.truthful .ElectromagneticEmissions truthfulEmissions := by
  show _ ∧ ∀ s ∈ truthfulEmissions.systems, s.number_of_beams.toNat = s.beam_data_records.length ∧
    ∀ b ∈ s.beam_data_records, b.number_of_track_jam_targets.toNat = b.track_jam_targets.length
  decide +kernel

/-- a marking of eleven octets, and an articulation parameter -/
def truthfulEntityState : EntityStatePdu := { (PduBody.default : EntityStatePdu) with
  entity_marking := ⟨dflt, "ABCDEFGHIJK"⟩
  number_of_articulation_parameters := 1
  articulation_parameter := [dflt] }
example : PduKind.truthful .EntityState truthfulEntityState := by
  refine ⟨?_, by decide +kernel⟩
  decide +kernel

/-- a set of two records of two octets -/
def truthfulTransfer : TransferOwnershipPdu := { (PduBody.default : TransferOwnershipPdu) with
  record_information := ⟨1, [⟨1, 2, 2, 2, [1, 2, 3, 4]⟩]⟩ }
example : PduKind.truthful .TransferOwnership truthfulTransfer := by
  show _ ∧ ∀ s ∈ truthfulTransfer.record_information.record_sets,
    s.record_length.toNat * s.record_count.toNat < 65536 ∧
    s.record_length.toNat * s.record_count.toNat = s.record_values.length
  decide +kernel

/-- a record of three octets -/
def truthfulReport : InformationOperationsReportPdu := { (PduBody.default : InformationOperationsReportPdu) with
  io_records := ⟨1, [⟨9, 3, [1, 2, 3]⟩]⟩ }
example : PduKind.truthful .InformationOperationsReport truthfulReport := by
  show _ ∧ ∀ r ∈ truthfulReport.io_records.standard_variable_records,
    r.record_length.toNat = r.record_specific_fields.length
  decide +kernel

/-- modulation parameters, an antenna pattern and a record -/
def truthfulTransmitter : TransmitterPdu := { (PduBody.default : TransmitterPdu) with
  modulation_parameters := some ⟨[1, 2]⟩, antenna_pattern := some ⟨[3, 4, 5]⟩, antenna_pattern_length := 3
  number_of_variable_transmitter_parameters_records := 1
  variable_transmitter_parameters := [⟨dflt, 2, [6, 7]⟩] }
example : PduKind.truthful .Transmitter truthfulTransmitter := by
  refine ⟨?_, ?_, rfl, rfl, ?_⟩
  · intro m h; cases h; exact ⟨by decide, by decide⟩
  · intro m h; cases h; decide
  · show ∀ r ∈ truthfulTransmitter.variable_transmitter_parameters, r.record_length.toNat = r.record_specific_fields.length
    decide +kernel

/-- two mines, of which are reported the burial depth in the ground and the trip wires: one of two vertices, of the second mine -/
def truthfulMinefield : MinefieldDataPdu := { (PduBody.default : MinefieldDataPdu) with
  number_of_mines_in_this_pdu := 2, number_of_sensor_types := 0, sensor_types := [], data_filter := 0x81
  mine_location := [dflt, dflt], ground_burial_depth_offset := [some dflt, some dflt], mine_entity_id := [some 3, some 4]
  number_of_trip_wires := [some 0, some 1], number_of_vertices := [some 2], vertices := [some [dflt, dflt]] }
example : PduKind.truthful .MinefieldData truthfulMinefield := by
  simp only [PduKind.truthful, MinefieldDataPdu.truthful, reported]
  decide +kernel

/-- an irregular axis of three values, padded by two octets, and data of the three representations -/
def truthfulGrid : GriddedDataPdu := { (PduBody.default : GriddedDataPdu) with
  number_of_grid_axes := 1, vector_dimension := 3
  grid_axis_descriptors := [⟨dflt, dflt, 3, 0, .IrregularAxis, .VariableSpacing 3 0 dflt dflt [1, 2, 3] [0, 0]⟩]
  grid_data_list := [⟨dflt, ⟨0, by decide⟩, .Type0 3 [1, 2, 3] [0, 0, 0]⟩,
    ⟨dflt, ⟨1, by decide⟩, .Type1 dflt dflt 1 [1] []⟩, ⟨dflt, ⟨2, by decide⟩, .Type2 1 0 [dflt]⟩] }
example : PduKind.truthful .GriddedData truthfulGrid := by
  simp only [PduKind.truthful, GriddedDataPdu.truthful]
  refine ⟨rfl, ?_, rfl, ?_⟩
  · refine List.forall_mem_cons.mpr ⟨⟨rfl, rfl, by decide, by decide⟩, fun _ h => nomatch h⟩
  · refine List.forall_mem_cons.mpr ⟨⟨rfl, rfl, by decide, by decide⟩, List.forall_mem_cons.mpr
      ⟨⟨rfl, rfl, by decide, by decide⟩, List.forall_mem_cons.mpr ⟨⟨rfl, rfl⟩, fun _ h => nomatch h⟩⟩⟩

example := Pdu.serialize_of_encodable ⟨PduHeader.default 0, truthfulEmissions⟩ (PduKind.encodable .ElectromagneticEmissions rfl _)
  (by show 12 + ElectromagneticEmissionsPdu.fieldsLen truthfulEmissions < 65536; decide +kernel) ⟨true⟩ []
example := Pdu.serialize_of_encodable ⟨PduHeader.default 0, truthfulEntityState⟩ (PduKind.encodable .EntityState rfl _)
  (by show 12 + EntityStatePdu.fieldsLen truthfulEntityState < 65536; decide +kernel) ⟨true⟩ []
example := Pdu.serialize_of_encodable ⟨PduHeader.default 0, truthfulReport⟩ (PduKind.encodable .InformationOperationsReport rfl _)
  (by show 12 + InformationOperationsReportPdu.fieldsLen truthfulReport < 65536; decide +kernel) ⟨true⟩ []
example := Pdu.serialize_of_encodable ⟨PduHeader.default 0, truthfulTransmitter⟩ (PduKind.encodable .Transmitter rfl _)
  (by show 12 + TransmitterPdu.fieldsLen truthfulTransmitter < 65536; decide +kernel) ⟨true⟩ []
example := Pdu.serialize_of_encodable ⟨PduHeader.default 0, truthfulMinefield⟩ (PduKind.encodable .MinefieldData rfl _)
  (by show 12 + MinefieldDataPdu.fieldsLen truthfulMinefield < 65536; decide +kernel) ⟨true⟩ []
example := Pdu.serialize_of_encodable ⟨PduHeader.default 0, truthfulGrid⟩ (PduKind.encodable .GriddedData rfl _)
  (by show 12 + GriddedDataPdu.fieldsLen truthfulGrid < 65536; decide +kernel) ⟨true⟩ []
example := Pdu.serialize_of_encodable (B := TransferOwnershipPdu) ⟨PduHeader.default 0, truthfulTransfer⟩
  (by show ∀ s ∈ truthfulTransfer.record_information.record_sets, s.octetCount < 65536 ∧ s.octetCount ≤ s.record_values.length
      decide +kernel)
  (by show 12 + TransferOwnershipPdu.fieldsLen truthfulTransfer < 65536; decide +kernel) ⟨true⟩ []

/-- `C58_unambiguous` for the set data PDU above and itself, followed by other octets or the same. -/
example (w : Bytes) (q : Pdu SetDataPdu) (h : (⟨PduHeader.default 0, truthfulSetData⟩ : Pdu SetDataPdu).serialize ⟨true⟩ [] = .ok ((q, .ok ()), w))
    (ht : PduKind.truthful .SetData truthfulSetData) :=
  C58_unambiguous .SetData ⟨PduHeader.default 0, truthfulSetData⟩ ⟨PduHeader.default 0, truthfulSetData⟩ q q ⟨true⟩ ⟨true⟩ w w [1] [1]
    ht ht h h rfl

end Dis
