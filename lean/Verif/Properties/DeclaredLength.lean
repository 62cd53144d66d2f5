import Verif.Spec.Surplus
import Verif.Properties.RoundTrip
import Verif.Properties.Irregular
import Verif.Properties.Panics
/-
C04, the eighteen kinds whose declared length need not be the number of octets appended: by exactly how
much it is off, and when it is right.
-/
namespace Dis

/-- The kinds not listed here have exact lengths (`C04_declared_length`). -/
theorem C04_inexact_kinds (k : PduKind) : k.exactLength = false ↔
    k = .EntityState ∨ k = .GriddedData ∨ (∀ x, (k.datums x).isSome) ∨ (∀ x, (k.recordSets x).isSome) := by
  constructor
  · intro h
    cases k <;> first
      | exact absurd h (by decide)
      | exact .inl rfl
      | exact .inr (.inl rfl)
      | exact .inr (.inr (.inl fun _ => rfl))
      | exact .inr (.inr (.inr fun _ => rfl))
  · rintro (rfl | rfl | h | h)
    · rfl
    · rfl
    · have := h PduBody.default
      revert this
      cases k <;> first | exact fun _ => rfl | exact fun h => absurd h (by simp [PduKind.datums])
    · have := h PduBody.default
      revert this
      cases k <;> first | exact fun _ => rfl | exact fun h => absurd h (by simp [PduKind.recordSets])

/-- Entity state: the length is right exactly for markings whose text has eleven octets. -/
theorem C04_entity_state (p q : Pdu EntityStatePdu) (prof : Profile) (buf buf' : Bytes)
    (h : p.serialize prof buf = .ok ((q, .ok ()), buf')) :
    buf'.length + 11 = buf.length + q.header.length.toNat +
      (strBytes p.body.entity_marking.entity_marking_string).length ∧
    (buf'.length = buf.length + q.header.length.toNat ↔
      (strBytes p.body.entity_marking.entity_marking_string).length = 11) := by
  have h1 := (C04_declared_length_all_kinds .EntityState p q prof buf buf' h).2
  have h2 : surplus (show PduKind.EntityState.Body from q.body) =
      1 + ((strBytes q.body.entity_marking.entity_marking_string).length : Int) - 12 := rfl
  obtain ⟨rfl, _, _⟩ := Pdu.serialize_ok h
  have h3 : p.after.body = p.body := PduKind.prep_id .EntityState (by decide) p.body
  rw [h3] at h2
  have h2' := h1.trans (congrArg (_ + ·) h2)
  constructor
  · omega
  · omega

theorem PduKind.surplus_datums (k : PduKind) (x : k.Body) (ds : List VariableDatumRecord)
    (h : k.datums x = some ds) :
    surplus x = ((ds.map fun d => datumPadding d.length_bits.toNat).sum : Nat) := by
  have key : ∀ ds : List VariableDatumRecord, (ds.map surplus).sum =
      ((ds.map fun d => datumPadding d.length_bits.toNat).sum : Nat) := by
    intro ds
    induction ds with
    | nil => rfl
    | cons d ds ih =>
      rw [List.map_cons, List.sum_cons, ih, List.map_cons, List.sum_cons, Int.natCast_add]
      rfl
  cases k <;> first
    | exact (key _).trans (by rw [← Option.some.inj h])
    | exact nomatch h

/-- Kinds with variable datum records: the zero octets that fill up each datum are not counted; the length
is right exactly when no datum is filled up. -/
theorem C04_datum_kinds (k : PduKind) (p q : Pdu k.Body) (ds : List VariableDatumRecord)
    (hd : k.datums p.body = some ds) (prof : Profile) (buf buf' : Bytes)
    (h : p.serialize prof buf = .ok ((q, .ok ()), buf')) :
    buf'.length = buf.length + q.header.length.toNat +
      (ds.map fun d => datumPadding d.length_bits.toNat).sum ∧
    (buf'.length = buf.length + q.header.length.toNat ↔
      ∀ d ∈ ds, (d.length_bits.toNat + 7) / 8 % 8 = 0) := by
  have h1 := (C04_declared_length_all_kinds k p q prof buf buf' h).2
  obtain ⟨rfl, _, _⟩ := Pdu.serialize_ok h
  have hne : k ≠ .Transmitter := by rintro rfl; exact nomatch hd
  have h3 : p.after.body = p.body := k.prep_id hne p.body
  rw [h3, k.surplus_datums _ ds hd] at h1
  have hz : (ds.map fun d => datumPadding d.length_bits.toNat).sum = 0 ↔
      ∀ d ∈ ds, (d.length_bits.toNat + 7) / 8 % 8 = 0 := by
    rw [List.sum_eq_zero_iff_forall_eq_nat]
    constructor
    · intro hs d hm
      have := hs _ (List.mem_map.mpr ⟨d, hm, rfl⟩)
      unfold datumPadding at this
      omega
    · intro hs n hm
      obtain ⟨d, hm', rfl⟩ := List.mem_map.mp hm
      have := hs d hm'
      unfold datumPadding
      omega
  constructor
  · omega
  · rw [← hz]
    omega

theorem PduKind.surplus_recordSets (k : PduKind) (x : k.Body) (rs : List RecordSpecificationElement)
    (h : k.recordSets x = some rs) :
    surplus x = (rs.map fun r => ((min (r.record_length.toNat * r.record_count.toNat % 65536)
      r.record_values.length : Nat) : Int) - r.record_values.length).sum := by
  cases k
  case TransferOwnership => obtain rfl := Option.some.inj h; rfl
  case SetRecordReliable => obtain rfl := Option.some.inj h; rfl
  all_goals exact nomatch h

/-- Kinds with record sets: all stored octets are counted, length × count (modulo 2^16) are written. -/
theorem C04_record_set_kinds (k : PduKind) (p q : Pdu k.Body) (rs : List RecordSpecificationElement)
    (hd : k.recordSets p.body = some rs) (prof : Profile) (buf buf' : Bytes)
    (h : p.serialize prof buf = .ok ((q, .ok ()), buf')) :
    buf'.length + (rs.map fun r => r.record_values.length).sum = buf.length + q.header.length.toNat +
      (rs.map fun r => r.record_length.toNat * r.record_count.toNat % 65536).sum ∧
    (buf'.length = buf.length + q.header.length.toNat ↔
      ∀ r ∈ rs, r.record_length.toNat * r.record_count.toNat % 65536 = r.record_values.length) := by
  have h1 := (C04_declared_length_all_kinds k p q prof buf buf' h).2
  have hne : k ≠ .Transmitter := by rintro rfl; exact nomatch hd
  have hle : ∀ r ∈ rs, r.record_length.toNat * r.record_count.toNat % 65536 ≤ r.record_values.length := by
    have hno : ¬ ∃ e, p.serialize prof buf = .error e := by rintro ⟨e, he⟩; rw [he] at h; cases h
    have hl : declaredOctets p ≤ 65535 := by
      have := C06_length_not_truncated k p q prof buf buf' h
      have := q.header.length.toNat_lt
      omega
    intro r hr
    rcases Nat.lt_or_ge r.record_values.length
      (r.record_length.toNat * r.record_count.toNat % 65536) with hlt | hge
    · exfalso
      apply hno
      cases k
      case TransferOwnership =>
        exact (C40_transfer_ownership p prof buf).mpr ⟨hl, r, by rwa [← Option.some.inj hd] at hr, .inr hlt⟩
      case SetRecordReliable =>
        exact (C40_set_record p prof buf).mpr ⟨hl, r, by rwa [← Option.some.inj hd] at hr, .inr hlt⟩
      all_goals exact nomatch hd
    · exact hge
  obtain ⟨rfl, _, _⟩ := Pdu.serialize_ok h
  have h3 : p.after.body = p.body := k.prep_id hne p.body
  rw [h3, k.surplus_recordSets _ rs hd] at h1
  have key : ∀ rs : List RecordSpecificationElement,
      (∀ r ∈ rs, r.record_length.toNat * r.record_count.toNat % 65536 ≤ r.record_values.length) →
      (rs.map fun r => ((min (r.record_length.toNat * r.record_count.toNat % 65536)
        r.record_values.length : Nat) : Int) - r.record_values.length).sum +
        ((rs.map fun r => r.record_values.length).sum : Nat) =
        ((rs.map fun r => r.record_length.toNat * r.record_count.toNat % 65536).sum : Nat) ∧
      (rs.map fun r => r.record_length.toNat * r.record_count.toNat % 65536).sum ≤
        (rs.map fun r => r.record_values.length).sum ∧
      ((rs.map fun r => r.record_values.length).sum =
        (rs.map fun r => r.record_length.toNat * r.record_count.toNat % 65536).sum ↔
      ∀ r ∈ rs, r.record_length.toNat * r.record_count.toNat % 65536 = r.record_values.length) := by
    intro rs
    induction rs with
    | nil => intro _; exact ⟨rfl, Nat.le_refl _, by simp⟩
    | cons r rs ih =>
      intro hle
      obtain ⟨i1, i2, i3⟩ := ih fun r hr => hle r (List.mem_cons_of_mem _ hr)
      have hr := hle r List.mem_cons_self
      simp only [List.map_cons, List.sum_cons, List.forall_mem_cons]
      rw [← i3]
      generalize (r.record_length.toNat * r.record_count.toNat) % 65536 = a at *
      generalize hS : (rs.map fun r => ((min (r.record_length.toNat * r.record_count.toNat % 65536)
        r.record_values.length : Nat) : Int) - r.record_values.length).sum = S at *
      generalize (rs.map fun r => r.record_values.length).sum = V at *
      generalize (rs.map fun r => r.record_length.toNat * r.record_count.toNat % 65536).sum = W at *
      refine ⟨?_, ?_, ?_⟩
      · omega
      · omega
      · omega
  obtain ⟨k1, k2, k3⟩ := key rs hle
  rw [← k3]
  constructor <;> omega

/-- Gridded data: two octets for each grid data record are not counted. -/
theorem C04_gridded_data (p q : Pdu GriddedDataPdu) (prof : Profile) (buf buf' : Bytes)
    (h : p.serialize prof buf = .ok ((q, .ok ()), buf')) :
    buf'.length = buf.length + q.header.length.toNat + 2 * p.body.grid_data_list.length := by
  have h1 := (C04_declared_length_all_kinds .GriddedData p q prof buf buf' h).2
  obtain ⟨rfl, _, _⟩ := Pdu.serialize_ok h
  have h3 : p.after.body = p.body := PduKind.prep_id .GriddedData (by decide) p.body
  have key : ∀ l : List GridDataRecord, (l.map surplus).sum = ((2 * l.length : Nat) : Int) := by
    intro l
    induction l with
    | nil => rfl
    | cons d ds ih =>
      rw [List.map_cons, List.sum_cons, ih, List.length_cons]
      show (2 : Int) + _ = _
      omega
  have h2 : surplus (show PduKind.GriddedData.Body from p.after.body) =
      ((2 * p.body.grid_data_list.length : Nat) : Int) := by
    rw [h3]; exact key _
  have h2' := h1.trans (congrArg (_ + ·) h2)
  omega

/-- The octets appended less the declared length, when `serialize` succeeds. -/
def excessOf {B : Type} [PduBody B] (b : B) : Option Int :=
  match (⟨PduHeader.default 0, b⟩ : Pdu B).serialize ⟨true⟩ [] with
  | .ok ((q, .ok ()), w) => some ((w.length : Int) - q.header.length.toNat)
  | _ => none

/-- An empty marking: eleven octets too few; a comment with a datum of twenty bits: five more than
declared; a record set with one stored octet too many: one fewer; two grid data records: four more. -/
example :
    excessOf (PduBody.default : EntityStatePdu) = some (-11) ∧
    excessOf ({ (PduBody.default : CommentPdu) with variable_datum_records := [⟨7, 20, [1, 2, 3]⟩] }) = some 5 ∧
    excessOf ({ (PduBody.default : SetRecordReliablePdu) with
      record_sets := ⟨1, [⟨1, 2, 2, 1, [7, 8, 9]⟩]⟩ }) = some (-1) ∧
    excessOf ({ (PduBody.default : GriddedDataPdu) with
      grid_data_list := [⟨⟨0, by decide⟩, ⟨0, by decide⟩, .Type0 0 [1] []⟩, ⟨⟨0, by decide⟩, ⟨2, by decide⟩, .Type2 1 0 []⟩] }) = some 4 ∧
    excessOf ({ (PduBody.default : SignalPdu) with data := [1, 2, 3] }) = some 0 := by
  decide +kernel

/-- Messages as the three theorems want them: an entity with a marking of three octets; a comment with a datum of 20 bits; a
record set that says more values than it has. -/
example : ∃ (q : Pdu EntityStatePdu) (w : Bytes),
    (⟨PduHeader.default 7, { (PduBody.default : EntityStatePdu) with entity_marking := ⟨⟨1, by decide⟩, "abc"⟩ }⟩ :
      Pdu EntityStatePdu).serialize ⟨true⟩ [9] = .ok ((q, .ok ()), w) :=
  ⟨_, _, Pdu.serialize_of_encodable _ (PduKind.encodable .EntityState rfl _)
    (by show 12 + EntityStatePdu.fieldsLen _ < 65536; decide +kernel) ⟨true⟩ [9]⟩
example : ∃ (p q : Pdu CommentPdu) (ds : List VariableDatumRecord) (w : Bytes), PduKind.datums .Comment p.body = some ds ∧
    ds = [⟨7, 20, [1, 2, 3]⟩, ⟨8, 64, [1, 2, 3, 4, 5, 6, 7, 8]⟩] ∧ p.serialize ⟨true⟩ [9] = .ok ((q, .ok ()), w) := by
  have h := Pdu.serialize_of_encodable (⟨PduHeader.default 7, { (PduBody.default : CommentPdu) with
      variable_datum_records := [⟨7, 20, [1, 2, 3]⟩, ⟨8, 64, [1, 2, 3, 4, 5, 6, 7, 8]⟩] }⟩ : Pdu CommentPdu)
    (PduKind.encodable .Comment rfl _) (by show 12 + CommentPdu.fieldsLen _ < 65536; decide +kernel) ⟨true⟩ [9]
  exact ⟨_, _, _, _, rfl, rfl, h⟩

end Dis
