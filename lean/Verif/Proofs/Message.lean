import Verif.Spec.Message
import Verif.Proofs.LayoutRecords
import Verif.Proofs.Elements
/-
Messages field by field: the wire images of Spec/Wire are the octets of the fields of Spec/Message.
-/
namespace Dis

theorem octetsOf_nil : Field.octetsOf [] = [] := rfl
theorem octetsOf_cons (f : Field) (l : List Field) :
    Field.octetsOf (f :: l) = octets f.octets f.number ++ Field.octetsOf l := List.flatMap_cons
theorem octetsOf_append (l m : List Field) : Field.octetsOf (l ++ m) = Field.octetsOf l ++ Field.octetsOf m :=
  List.flatMap_append

/-- Slots that leave no gap determine the octets. -/
theorem Written.spelt {B : Type} {x : B} {w : Bytes} {b : Nat} : ∀ {T : List (Slot B)} {a : Nat},
    Contiguous a T b → Written T x w → a ≤ b → b ≤ w.length →
    Field.octetsOf (fieldsOf T x) = (w.drop a).take (b - a)
  | [], a, hc, _, _, _ => by
    have : a = b := hc
    subst this
    rw [Nat.sub_self, List.take_zero]; rfl
  | s :: T, a, hc, hw, hab, hb => by
    obtain ⟨h0, h1, h2⟩ := hc
    obtain ⟨g1, g2⟩ := hw s List.mem_cons_self
    have hle : a + s.width ≤ b := Contiguous.le h2
    have ih := Written.spelt h2 (fun t ht => hw t (List.mem_cons_of_mem _ ht)) hle hb
    show octets s.width (s.transmitted x) ++ Field.octetsOf (fieldsOf T x) = _
    rw [ih, ← g2]
    have e : octets s.width (s.found w) = (w.drop a).take s.width := by
      show octets s.width (bigEndian ((w.drop s.offset).take s.width)) = _
      have hl : ((w.drop a).take s.width).length = s.width := by
        rw [List.length_take, List.length_drop]; omega
      rw [h0, bigEndian_eq, octets_eq]
      generalize (w.drop a).take s.width = v at hl ⊢
      rw [← hl, beBytes_beVal]
    rw [e, show b - a = s.width + (b - (a + s.width)) by omega, List.take_add, List.drop_drop]
where
  Contiguous.le {B : Type} {b : Nat} : ∀ {T : List (Slot B)} {a : Nat}, Contiguous a T b → a ≤ b
    | [], _, h => Nat.le_of_eq h
    | _ :: _, _, h => Nat.le_trans (Nat.le_add_right _ _) (Contiguous.le h.2.2)

/-- A record all of whose octets are in its table. -/
theorem spelt_fixed {α : Type} {T : List (Slot α)} {n : Nat} {x : α} {w : Bytes} (hc : Contiguous 0 T n)
    (hw : Written T x w) (hn : w.length = n) : Field.octetsOf (fieldsOf T x) = w := by
  rw [hw.spelt hc (Nat.zero_le _) (Nat.le_of_eq hn.symm), List.drop_zero, Nat.sub_zero, ← hn, List.take_length]
/-- The part of a record in its table. -/
theorem spelt_head {α : Type} {T : List (Slot α)} {n : Nat} {x : α} {w v : Bytes} (hc : Contiguous 0 T n)
    (hw : Written T x (w ++ v)) (hn : w.length = n) : Field.octetsOf (fieldsOf T x) = w := by
  rw [hw.spelt hc (Nat.zero_le _) (by rw [List.length_append]; omega), List.drop_zero, Nat.sub_zero, ← hn,
    List.take_left']
  rfl

/-- The elements of a list one after the other. -/
theorem spelt_list {α : Type} {f : α → List Field} {enc : α → Bytes} (h : ∀ x, Field.octetsOf (f x) = enc x) :
    ∀ l : List α, Field.octetsOf (l.flatMap f) = l.flatMap enc
  | [] => rfl
  | x :: l => by
    rw [List.flatMap_cons, octetsOf_append, h, spelt_list h l, List.flatMap_cons]
theorem spelt_map {α : Type} {f : α → Field} {enc : α → Bytes} (h : ∀ x, octets (f x).octets (f x).number = enc x) :
    ∀ l : List α, Field.octetsOf (l.map f) = l.flatMap enc
  | [] => rfl
  | x :: l => by rw [List.map_cons, octetsOf_cons, h, spelt_map h l, List.flatMap_cons]
theorem spelt_u8s (l : List UInt8) : Field.octetsOf (Field.u8s l) = l.flatMap wire := spelt_map (fun _ => rfl) l
theorem spelt_u16s (l : List UInt16) : Field.octetsOf (Field.u16s l) = l.flatMap wire := spelt_map (fun _ => rfl) l
theorem spelt_u32s (l : List UInt32) : Field.octetsOf (Field.u32s l) = l.flatMap wire := spelt_map (fun _ => rfl) l
theorem spelt_u64s (l : List UInt64) : Field.octetsOf (Field.u64s l) = l.flatMap wire := spelt_map (fun _ => rfl) l
theorem spelt_f32s (l : List F32) : Field.octetsOf (Field.f32s l) = l.flatMap wire := spelt_map (fun _ => rfl) l
theorem spelt_enums {s : EnumSpec} {n : Nat} (h : s.repr.octets = n) (l : List (EnumVal s)) :
    Field.octetsOf (Field.enums n l) = l.flatMap wire := by subst h; exact spelt_map (fun _ => rfl) l
theorem spelt_present {α : Type} [Wire α] {f : α → List Field} (h : ∀ x, Field.octetsOf (f x) = wire x) :
    ∀ l : List (Option α), Field.octetsOf (present f l) = l.flatMap wire := spelt_list fun
  | none => rfl
  | some x => h x

theorem spelt_present_f32 : ∀ l : List (Option F32),
    Field.octetsOf (present (fun v => [⟨4, v.bits.toNat⟩]) l) = l.flatMap wire :=
  spelt_present fun _ => List.append_nil _
theorem spelt_present_u16 : ∀ l : List (Option UInt16),
    Field.octetsOf (present (fun v => [⟨2, v.toNat⟩]) l) = l.flatMap wire :=
  spelt_present fun _ => List.append_nil _
theorem spelt_present_u8 : ∀ l : List (Option UInt8),
    Field.octetsOf (present (fun v => [⟨1, v.toNat⟩]) l) = l.flatMap wire :=
  spelt_present fun _ => List.append_nil _

theorem spelt_zeros : ∀ n : Nat, Field.octetsOf (List.replicate n ⟨1, 0⟩) = List.replicate n 0
  | 0 => rfl
  | n + 1 => by rw [List.replicate_succ, octetsOf_cons, spelt_zeros n]; rfl

/-! Records with lists -/

theorem AttributeRecord.spelt (x : AttributeRecord) : Field.octetsOf x.fields = wire x := by
  unfold AttributeRecord.fields
  rw [octetsOf_append, spelt_u8s]
  show (octets 4 _ ++ (octets 2 _ ++ [])) ++ _ = octets 4 _ ++ (octets 2 _ ++ _)
  simp only [List.append_assoc, List.append_nil]
  rfl
theorem AttributeRecordSet.spelt (x : AttributeRecordSet) : Field.octetsOf x.fields = wire x := by
  unfold AttributeRecordSet.fields
  rw [octetsOf_append, spelt_list AttributeRecord.spelt]
  show (octets 2 _ ++ (octets 2 _ ++ (octets 2 _ ++ (octets 2 _ ++ [])))) ++ _ =
    ((octets 2 _ ++ octets 2 _) ++ octets 2 _) ++ (octets 2 _ ++ _)
  simp only [List.append_assoc, List.append_nil]
  rfl
theorem TrackJamTarget.spelt (x : TrackJamTarget) : Field.octetsOf (fieldsOf TrackJamTarget.layout x) = wire x :=
  spelt_fixed (T := TrackJamTarget.layout) (n := 8) (by decide) (TrackJamTarget.written x)
    (TrackJamTarget.wire_length x)
theorem ElectromagneticEmissionBeamData.spelt (x : ElectromagneticEmissionBeamData) :
    Field.octetsOf x.fields = wire x := by
  unfold ElectromagneticEmissionBeamData.fields
  have e : wire x = (wire x.beam_data_length ++ (wire x.beam_id_number ++ (wire x.beam_parameter_index ++
      (wire x.fundamental_parameter_data ++ (wire x.beam_function ++ (wire x.number_of_track_jam_targets ++
      (wire x.high_density_track_jam ++ (wire x.pad4 ++ wire x.jamming_mode_sequence)))))))) ++
      wire x.track_jam_targets := by
    simp only [List.append_assoc]; rfl
  rw [octetsOf_append, spelt_list TrackJamTarget.spelt,
    spelt_head (T := ElectromagneticEmissionBeamData.layout) (n := 52) (by decide)
      (e ▸ ElectromagneticEmissionBeamData.written x :) (by
        simp only [List.length_append, FundamentalParameterData.wire_length]; rfl), e]
  rfl
theorem ElectromagneticEmissionSystemData.spelt (x : ElectromagneticEmissionSystemData) :
    Field.octetsOf x.fields = wire x := by
  unfold ElectromagneticEmissionSystemData.fields
  have e : wire x = (wire x.system_data_length ++ (wire x.number_of_beams ++ (wire x.emissionspadding2 ++
      (wire x.emitter_system ++ wire x.location)))) ++ wire x.beam_data_records := by
    simp only [List.append_assoc]; rfl
  rw [octetsOf_append, spelt_list ElectromagneticEmissionBeamData.spelt,
    spelt_head (T := ElectromagneticEmissionSystemData.layout) (n := 20) (by decide)
      (e ▸ ElectromagneticEmissionSystemData.written x :) (by
        simp only [List.length_append, EmitterSystem.wire_length, Vector3Float.wire_length]; rfl), e]
  rfl
theorem StandardVariableRecords.spelt (x : StandardVariableRecords) : Field.octetsOf x.fields = wire x := by
  unfold StandardVariableRecords.fields
  rw [octetsOf_append, spelt_u8s]
  show (octets 4 _ ++ (octets 2 _ ++ [])) ++ _ = octets 4 _ ++ (octets 2 _ ++ _)
  simp only [List.append_assoc, List.append_nil]
  rfl
theorem VariableTransmitterParameters.spelt (x : VariableTransmitterParameters) :
    Field.octetsOf x.fields = wire x := by
  unfold VariableTransmitterParameters.fields
  rw [octetsOf_append, spelt_u8s]
  show (octets 4 _ ++ (octets 2 _ ++ [])) ++ _ = octets 4 _ ++ (octets 2 _ ++ _)
  simp only [List.append_assoc, List.append_nil]
  rfl
theorem RecordSpecificationElement.spelt (x : RecordSpecificationElement) :
    Field.octetsOf x.fields = wire (sent x) := by
  unfold RecordSpecificationElement.fields
  rw [octetsOf_append, spelt_u8s]
  show (octets 4 _ ++ (octets 4 _ ++ (octets 2 _ ++ (octets 2 _ ++ [])))) ++ _ =
    octets 4 _ ++ (octets 4 _ ++ (octets 2 _ ++ (octets 2 _ ++ _)))
  simp only [List.append_assoc, List.append_nil]
  rfl
theorem VariableDatumRecord.spelt (x : VariableDatumRecord) : Field.octetsOf x.fields = wire (sent x) := by
  unfold VariableDatumRecord.fields
  dsimp only
  rw [octetsOf_append, octetsOf_append, spelt_u8s, spelt_zeros, fill_eq]
  show ((Dis.octets 4 _ ++ (Dis.octets 4 _ ++ [])) ++ _) ++ _ = Dis.octets 4 _ ++ (Dis.octets 4 _ ++ (_ ++ _))
  simp only [List.append_assoc, List.append_nil]
  rfl
theorem GridAxisDescriptor.spelt (x : GridAxisDescriptor) : Field.octetsOf x.fields = wire x := by
  obtain ⟨a, b, c, d, e, data⟩ := x
  unfold GridAxisDescriptor.fields
  cases data with
  | FixedSpacing n i =>
    show _ = octets 8 _ ++ (octets 8 _ ++ (octets 2 _ ++ (octets 1 _ ++ (octets 1 _ ++ (octets 2 _ ++ octets 2 _)))))
    simp only [List.cons_append, octetsOf_cons, List.nil_append, octetsOf_nil, List.append_nil]
  | VariableSpacing n i s o xs p =>
    show _ = octets 8 _ ++ (octets 8 _ ++ (octets 2 _ ++ (octets 1 _ ++ (octets 1 _ ++ (octets 2 _ ++ (octets 2 _ ++
      (octets 8 _ ++ (octets 8 _ ++ (xs.flatMap wire ++ p.flatMap wire)))))))))
    simp only [List.cons_append, octetsOf_cons, List.nil_append, octetsOf_append, spelt_u16s, spelt_u8s]
theorem GridDataRecord.spelt (x : GridDataRecord) : Field.octetsOf x.fields = wire x := by
  obtain ⟨a, b, data⟩ := x
  unfold GridDataRecord.fields
  cases data with
  | Type0 n d p =>
    show _ = octets 2 _ ++ (octets 2 _ ++ (octets 2 _ ++ (d.flatMap wire ++ p.flatMap wire)))
    simp only [List.cons_append, octetsOf_cons, List.nil_append, octetsOf_append, spelt_u8s]
  | Type1 s o n d p =>
    show _ = octets 2 _ ++ (octets 2 _ ++ (octets 4 _ ++ (octets 4 _ ++ (octets 2 _ ++ (d.flatMap wire ++ p.flatMap wire)))))
    simp only [List.cons_append, octetsOf_cons, List.nil_append, octetsOf_append, spelt_u8s, spelt_u16s]
  | Type2 n p d =>
    show _ = octets 2 _ ++ (octets 2 _ ++ (octets 2 _ ++ (octets 2 _ ++ d.flatMap wire)))
    simp only [List.cons_append, octetsOf_cons, List.nil_append, spelt_f32s]

theorem spelt_sent {α : Type} [Wire α] [Enc α] {f : α → List Field} (h : ∀ x, Field.octetsOf (f x) = wire (sent x))
    (l : List α) : Field.octetsOf (l.flatMap f) = wire (sent l) := by
  rw [spelt_list h]
  show _ = (l.map sent).flatMap wire
  rw [List.flatMap_map]

/-! The end of a message -/

/-- `w` ends in the octets of the fields `l`, after `n` octets. -/
def EndsIn (w : Bytes) (n : Nat) (l : List Field) : Prop := ∃ A, w = A ++ Field.octetsOf l ∧ A.length = n

theorem EndsIn.skip {A w : Bytes} {a n : Nat} {l : List Field} (hA : A.length = a) (h : EndsIn w n l) :
    EndsIn (A ++ w) (a + n) l := by
  obtain ⟨B, rfl, hB⟩ := h
  exact ⟨A ++ B, (List.append_assoc ..).symm, by rw [List.length_append, hA, hB]⟩
/-- skipping the first part of a record -/
theorem EndsIn.into {A B w : Bytes} {a n : Nat} {l : List Field} (hA : A.length = a) (h : EndsIn (B ++ w) n l) :
    EndsIn ((A ++ B) ++ w) (a + n) l := by
  rw [List.append_assoc]; exact h.skip hA
theorem EndsIn.here {w : Bytes} {l : List Field} (h : Field.octetsOf l = w) : EndsIn w 0 l :=
  ⟨[], by rw [h]; rfl, rfl⟩
/-- all of `w` is before the end -/
theorem EndsIn.last {A : Bytes} {a : Nat} (hA : A.length = a) : EndsIn A (a + 0) [] :=
  ⟨A, by rw [octetsOf_nil, List.append_nil], hA⟩

end Dis
