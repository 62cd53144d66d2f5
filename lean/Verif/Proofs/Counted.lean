import Verif.Spec.Counted
import Verif.Proofs.Records
/-
Counted records: the decoder reads what precedes the list and then exactly as many elements as the count
says.
-/
set_option maxRecDepth 4000
namespace Dis

/-- Reading `w` leaves `g` to continue as `h`. -/
def Continues {α β : Type} (g : Get α) (w : Bytes) (h : Get β) (f : β → α) : Prop :=
  ∀ prof rest, g prof (w ++ rest) = match h prof rest with
    | .error e => .error e
    | .ok (b, r) => .ok (f b, r)

theorem Continues.bind {α β γ : Type} {m : Get γ} {k : γ → Get α} {w v : Bytes} {c : γ} {h : Get β}
    {f : β → α} (hm : Reads m w c) (hk : Continues (k c) v h f) : Continues (m >>= k) (w ++ v) h f := by
  intro prof rest
  rw [M.bind_run, List.append_assoc, hm prof (v ++ rest)]
  exact hk prof rest

theorem Continues.last {α β γ : Type} {m : Get γ} {k : γ → Get α} {w : Bytes} {c : γ} {h : Get β}
    {f : β → α} (hm : Reads m w c) (hk : Continues (k c) [] h f) : Continues (m >>= k) w h f := by
  have := Continues.bind hm hk
  rwa [List.append_nil] at this

theorem Continues.ret {α β : Type} (h : Get β) (f : β → α) :
    Continues (do let b ← h; return f b) [] h f := by
  intro prof rest
  rw [M.bind_run]
  rw [List.nil_append]
  cases h prof rest with
  | error e => rfl
  | ok p => rfl

structure CountedRecord.Lawful (r : CountedRecord) : Prop where
  lens₁ : ∀ x l, r.list (r.withList x l) = l
  lens₂ : ∀ x, r.withList x (r.list x) = x
  count_eq : ∀ x l, r.count (r.withList x l) = r.count x
  writes : ∀ x, (∀ e ∈ r.list x, r.elemOk e) → Writes (r.ser x) (r.image x)
  step : ∀ x, Continues r.de (r.head x) (getN r.elemDe (r.count x)) (r.withList x)
  elem : ∀ e, r.elemOk e → Reads r.elemDe (r.elemWire e) e
  elem_empty : ∀ prof, r.elemDe prof [] = .error .bufferUnderflow
  elem_consumes : Consumes r.elemDe
  nonempty : ∀ e, r.elemOk e → r.elemWire e ≠ []

theorem nonempty_of {α : Type} {g : Get α} {w : Bytes} {a : α} (h : Reads g w a)
    (he : ∀ prof, g prof [] = .error .bufferUnderflow) : w ≠ [] := by
  rintro rfl
  have := h ⟨true⟩ []
  rw [List.append_nil, he] at this
  cases this

theorem under_empty {α β : Type} {m : Get α} {k : α → Get β} (h : ∀ prof, m prof [] = .error .bufferUnderflow)
    (prof : Profile) : (m >>= k) prof [] = .error .bufferUnderflow := by
  rw [M.bind_run, h]

theorem u8_empty (prof : Profile) : getU8 prof [] = .error .bufferUnderflow := rfl
theorem u16_empty (prof : Profile) : getU16 prof [] = .error .bufferUnderflow := rfl
theorem u32_empty (prof : Profile) : getU32 prof [] = .error .bufferUnderflow := rfl

theorem AcousticEmitterSystemData.counted_lawful : AcousticEmitterSystemData.counted.Lawful where
  lens₁ _ _ := rfl
  lens₂ _ := rfl
  count_eq _ _ := rfl
  writes (x : AcousticEmitterSystemData) _ := (AcousticEmitterSystemData.writes x).congr (by
    show _ = (_ ++ (_ ++ (_ ++ (_ ++ _)))) ++ _
    simp only [List.append_assoc]; rfl)
  step (x : AcousticEmitterSystemData) := Continues.bind (reads_u8 x.emitter_system_data_length) <|
    Continues.bind (reads_u8 x.number_of_beams) <| Continues.bind (reads_u16 x.pad2) <|
    Continues.bind (AcousticEmitterSystem.reads x.acoustic_emitter_system) <|
    Continues.last (Vector3Float.reads x.emitter_location) (Continues.ret _ _)
  elem e _ := AcousticBeamData.reads e
  elem_empty := under_empty u16_empty
  elem_consumes := AcousticBeamData.fixed.local.consumes
  nonempty e _ := nonempty_of (AcousticBeamData.reads e) (under_empty u16_empty)

theorem AttributeRecord.counted_lawful : AttributeRecord.counted.Lawful where
  lens₁ _ _ := rfl
  lens₂ _ := rfl
  count_eq _ _ := rfl
  writes (x : AttributeRecord) _ := (AttributeRecord.writes x).congr (by
    show _ = (_ ++ _) ++ _
    simp only [List.append_assoc]; rfl)
  step (x : AttributeRecord) := Continues.bind (reads_u32 x.record_type) <|
    Continues.last (reads_u16 x.record_length) (Continues.ret _ _)
  elem e _ := reads_u8 e
  elem_empty := u8_empty
  elem_consumes := fixed_u8.local.consumes
  nonempty e _ := nonempty_of (reads_u8 e) u8_empty

theorem AttributeRecordSet.counted_lawful : AttributeRecordSet.counted.Lawful where
  lens₁ _ _ := rfl
  lens₂ _ := rfl
  count_eq _ _ := rfl
  writes (x : AttributeRecordSet) _ := (AttributeRecordSet.writes x).congr (by
    show _ = (_ ++ _) ++ _
    simp only [List.append_assoc]; rfl)
  step (x : AttributeRecordSet) := Continues.bind (EntityId.reads x.entity_id) <|
    Continues.last (reads_u16 x.number_of_attribute_records) (Continues.ret _ _)
  elem e h := AttributeRecord.reads e h
  elem_empty := under_empty u32_empty
  elem_consumes := AttributeRecord.loc.consumes
  nonempty e h := nonempty_of (AttributeRecord.reads e h) (under_empty u32_empty)

theorem ElectromagneticEmissionBeamData.counted_lawful : ElectromagneticEmissionBeamData.counted.Lawful where
  lens₁ _ _ := rfl
  lens₂ _ := rfl
  count_eq _ _ := rfl
  writes (x : ElectromagneticEmissionBeamData) _ := (ElectromagneticEmissionBeamData.writes x).congr (by
    show _ = (_ ++ (_ ++ (_ ++ (_ ++ (_ ++ (_ ++ (_ ++ (_ ++ _)))))))) ++ _
    simp only [List.append_assoc]; rfl)
  step (x : ElectromagneticEmissionBeamData) := Continues.bind (reads_u8 x.beam_data_length) <|
    Continues.bind (reads_u8 x.beam_id_number) <| Continues.bind (reads_u16 x.beam_parameter_index) <|
    Continues.bind (FundamentalParameterData.reads x.fundamental_parameter_data) <|
    Continues.bind (reads_u8 x.beam_function) <| Continues.bind (reads_u8 x.number_of_track_jam_targets) <|
    Continues.bind (reads_u8 x.high_density_track_jam) <| Continues.bind (reads_u8 x.pad4) <|
    Continues.last (reads_u32 x.jamming_mode_sequence) (Continues.ret _ _)
  elem e _ := TrackJamTarget.reads e
  elem_empty prof := TrackJamTarget.fixed.run_short prof (by decide)
  elem_consumes := TrackJamTarget.fixed.local.consumes
  nonempty e _ := nonempty_of (TrackJamTarget.reads e) (fun prof => TrackJamTarget.fixed.run_short prof (by decide))

theorem ElectromagneticEmissionSystemData.counted_lawful : ElectromagneticEmissionSystemData.counted.Lawful where
  lens₁ _ _ := rfl
  lens₂ _ := rfl
  count_eq _ _ := rfl
  writes (x : ElectromagneticEmissionSystemData) _ := (ElectromagneticEmissionSystemData.writes x).congr (by
    show _ = (_ ++ (_ ++ (_ ++ (_ ++ _)))) ++ _
    simp only [List.append_assoc]; rfl)
  step (x : ElectromagneticEmissionSystemData) := Continues.bind (reads_u8 x.system_data_length) <|
    Continues.bind (reads_u8 x.number_of_beams) <| Continues.bind (reads_u16 x.emissionspadding2) <|
    Continues.bind (EmitterSystem.reads x.emitter_system) <|
    Continues.last (Vector3Float.reads x.location) (Continues.ret _ _)
  elem e h := ElectromagneticEmissionBeamData.reads e h
  elem_empty := under_empty u8_empty
  elem_consumes := ElectromagneticEmissionBeamData.loc.consumes
  nonempty e h := nonempty_of (ElectromagneticEmissionBeamData.reads e h) (under_empty u8_empty)

theorem RecordSpecificationElement.sent_of_ok (e : RecordSpecificationElement)
    (h : RecordSpecification.counted.elemOk e) : encodable e ∧ sent e = e := by
  have ho : e.octetCount = e.record_values.length := h.2
  have hs : e.octetsSent = e.record_values.length := by
    rw [← ho]; exact Nat.mod_eq_of_lt h.1
  refine ⟨⟨h.1, Nat.le_of_eq h.2⟩, ?_⟩
  show { e with record_values := e.record_values.take e.octetsSent } = e
  rw [hs, List.take_length]

theorem RecordSpecification.counted_lawful : RecordSpecification.counted.Lawful where
  lens₁ _ _ := rfl
  lens₂ _ := rfl
  count_eq _ _ := rfl
  writes (x : RecordSpecification) h := (RecordSpecification.writes x
      (fun e he => (RecordSpecificationElement.sent_of_ok e (h e he)).1)).congr (by
    show wire x.number_of_record_sets ++ wire (x.record_sets.map sent) = wire x.number_of_record_sets ++ wire x.record_sets
    congr 2
    conv => rhs; rw [← List.map_id x.record_sets]
    exact List.map_congr_left fun e he => (RecordSpecificationElement.sent_of_ok e (h e he)).2)
  step (x : RecordSpecification) := Continues.last (reads_u32 x.number_of_record_sets) (Continues.ret _ _)
  elem e h := RecordSpecificationElement.reads e h
  elem_empty := under_empty u32_empty
  elem_consumes := RecordSpecificationElement.loc.consumes
  nonempty e h := nonempty_of (RecordSpecificationElement.reads e h) (under_empty u32_empty)

theorem StandardVariableRecords.counted_lawful : StandardVariableRecords.counted.Lawful where
  lens₁ _ _ := rfl
  lens₂ _ := rfl
  count_eq _ _ := rfl
  writes (x : StandardVariableRecords) _ := (StandardVariableRecords.writes x).congr (by
    show _ = (_ ++ _) ++ _
    simp only [List.append_assoc]; rfl)
  step (x : StandardVariableRecords) := Continues.bind (reads_u32 x.record_type) <|
    Continues.last (reads_u16 x.record_length) (Continues.ret _ _)
  elem e _ := reads_u8 e
  elem_empty := u8_empty
  elem_consumes := fixed_u8.local.consumes
  nonempty e _ := nonempty_of (reads_u8 e) u8_empty

theorem StandardVariableSpecification.counted_lawful : StandardVariableSpecification.counted.Lawful where
  lens₁ _ _ := rfl
  lens₂ _ := rfl
  count_eq _ _ := rfl
  writes (x : StandardVariableSpecification) _ := StandardVariableSpecification.writes x
  step (x : StandardVariableSpecification) :=
    Continues.last (reads_u16 x.number_of_standard_variable_records) (Continues.ret _ _)
  elem e h := StandardVariableRecords.reads e h
  elem_empty := under_empty u32_empty
  elem_consumes := StandardVariableRecords.loc.consumes
  nonempty e h := nonempty_of (StandardVariableRecords.reads e h) (under_empty u32_empty)

theorem countedRecords_lawful : ∀ r ∈ countedRecords, r.Lawful := by
  unfold countedRecords
  refine List.forall_mem_cons.mpr ⟨AcousticEmitterSystemData.counted_lawful, ?_⟩
  refine List.forall_mem_cons.mpr ⟨AttributeRecord.counted_lawful, ?_⟩
  refine List.forall_mem_cons.mpr ⟨AttributeRecordSet.counted_lawful, ?_⟩
  refine List.forall_mem_cons.mpr ⟨ElectromagneticEmissionBeamData.counted_lawful, ?_⟩
  refine List.forall_mem_cons.mpr ⟨ElectromagneticEmissionSystemData.counted_lawful, ?_⟩
  refine List.forall_mem_cons.mpr ⟨RecordSpecification.counted_lawful, ?_⟩
  refine List.forall_mem_cons.mpr ⟨StandardVariableRecords.counted_lawful, ?_⟩
  refine List.forall_mem_cons.mpr ⟨StandardVariableSpecification.counted_lawful, ?_⟩
  exact fun _ h => nomatch h

/-! ### Reading n elements from a list of elements -/

section
variable {α : Type} {get : Get α} {w : α → Bytes}

/-- fewer than present: the first `n`, and the rest of the images is left -/
theorem getN_le : ∀ (n : Nat) (xs : List α), (∀ x ∈ xs, Reads get (w x) x) → n ≤ xs.length →
    Reads (getN get n) ((xs.take n).flatMap w) (xs.take n) := by
  intro n xs h hn
  have := Reads.n (xs.take n) (fun x hx => h x (List.mem_of_mem_take hx))
  rwa [List.length_take, Nat.min_eq_left hn] at this

/-- more than present: all of them, and then the remaining number from what follows -/
theorem getN_gt : ∀ (xs : List α) (m : Nat), (∀ x ∈ xs, Reads get (w x) x) →
    Continues (getN get (xs.length + m)) (xs.flatMap w) (getN get m) (xs ++ ·)
  | [], m, _ => by
    intro prof rest
    rw [show ([] : List α).length + m = m by simp]
    simp only [List.flatMap_nil, List.nil_append]
    cases getN get m prof rest <;> rfl
  | x :: xs, m, h => by
    have ih := getN_gt xs m (fun y hy => h y (by simp [hy]))
    rw [show (x :: xs).length + m = (xs.length + m) + 1 by simp; omega, List.flatMap_cons]
    refine Continues.bind (h x (by simp)) ?_
    intro prof rest
    rw [M.bind_run, ih]
    cases getN get m prof rest <;> rfl

theorem getN_empty (he : ∀ prof, get prof [] = .error .bufferUnderflow) {m : Nat} (hm : 0 < m)
    (prof : Profile) : getN get m prof [] = .error .bufferUnderflow := by
  obtain ⟨k, rfl⟩ : ∃ k, m = k + 1 := ⟨m - 1, by omega⟩
  exact under_empty he prof

theorem getN_length : ∀ (n : Nat) (prof : Profile) (b : Bytes) (xs : List α) (r : Bytes),
    getN get n prof b = .ok (xs, r) → xs.length = n
  | 0, _, _, _, _, h => by cases h; rfl
  | n + 1, prof, b, xs, r, h => by
    rw [show getN get (n + 1) = (get >>= fun x => getN get n >>= fun xs => pure (x :: xs)) from rfl,
      M.bind_run] at h
    cases hg : get prof b with
    | error e => rw [hg] at h; cases h
    | ok p =>
      rw [hg] at h
      simp only [M.bind_run] at h
      cases hn : getN get n prof p.2 with
      | error e => rw [hn] at h; cases h
      | ok q =>
        rw [hn] at h
        cases h
        simp [getN_length n prof p.2 q.1 q.2 hn]
end

end Dis
