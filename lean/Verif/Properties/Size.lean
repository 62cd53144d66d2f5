import Verif.Properties.RelayVariable
import Verif.Properties.Irregular
import Verif.Properties.Records
import Verif.Properties.Gridded
/-
C52: what a decoder returns is no larger than what it read.
-/
namespace Dis

/-! ### How many octets a reader took -/

/-- Whenever `g` succeeds, the value and the number of octets taken satisfy `P`. -/
def Measures {α : Type} (prof : Profile) (g : Get α) (P : α → Nat → Prop) : Prop :=
  ∀ b a r, g prof b = .ok (a, r) → ∃ c, b.length = c + r.length ∧ P a c

namespace Measures
variable {α β : Type} {prof : Profile}

theorem reserve (n : Nat) {f : Unit → Get α} {P : α → Nat → Prop} (h : Measures prof (f ()) P) :
    Measures prof (M.reserve n >>= f) P := h

theorem ret {a : α} {P : α → Nat → Prop} (h : P a 0) : Measures prof (pure a) P := by
  intro b a' r e
  cases e
  exact ⟨0, by omega, h⟩

theorem bind {g : Get α} {f : α → Get β} {P : α → Nat → Prop} {Q : β → Nat → Prop} (hg : Measures prof g P)
    (hf : ∀ a c, P a c → Measures prof (f a) (fun x d => Q x (c + d))) : Measures prof (g >>= f) Q := by
  intro b x r e
  rw [M.bind_run] at e
  cases hgb : g prof b with
  | error _ => rw [hgb] at e; cases e
  | ok v =>
    obtain ⟨a, b'⟩ := v
    rw [hgb] at e
    obtain ⟨c, h1, h2⟩ := hg b a b' hgb
    obtain ⟨d, h3, h4⟩ := hf a c h2 b' x r e
    exact ⟨c + d, by omega, h4⟩

theorem mono {g : Get α} {P Q : α → Nat → Prop} (hg : Measures prof g P) (h : ∀ a c, P a c → Q a c) :
    Measures prof g Q := fun b a r e => by
  obtain ⟨c, h1, h2⟩ := hg b a r e
  exact ⟨c, h1, h _ _ h2⟩

theorem fixed {g : Get α} {n : Nat} (h : Fixed g n) : Measures prof g (fun _ c => c = n) := by
  intro b a r e
  by_cases hb : b.length < n
  · rw [h.run_short prof hb] at e; cases e
  · obtain ⟨f, h⟩ := h
    rw [h, if_neg hb] at e
    simp only [Except.ok.injEq, Prod.mk.injEq] at e
    refine ⟨n, ?_, rfl⟩
    rw [← e.2, List.length_drop]
    omega

/-- A fixed-size field. -/
theorem field {g : Get α} {f : α → Get β} {n : Nat} {Q : β → Nat → Prop} (h : Fixed g n)
    (hf : ∀ a, Measures prof (f a) (fun x d => Q x (n + d))) : Measures prof (g >>= f) Q :=
  bind (fixed h) fun a _ hc => hc ▸ hf a

/-- A counted list: the sum of what the elements took. -/
theorem list {g : Get α} {size : α → Nat} (hg : Measures prof g (fun a c => c = size a)) :
    ∀ n, Measures prof (getN g n) (fun l c => c = (l.map size).sum)
  | 0 => ret rfl
  | n + 1 => bind hg fun a c hc => bind (list hg n) fun l d hd => ret (by
      rw [List.map_cons, List.sum_cons, hc, hd]; rfl)

/-- A counted list, element by element. -/
theorem elems {g : Get α} {ok : α → Prop} {enc : α → Bytes}
    (hg : Measures prof g (fun a c => ok a ∧ c = (enc a).length)) : ∀ n, Measures prof (getN g n)
      (fun l c => l.length = n ∧ (∀ e ∈ l, ok e) ∧ c = (l.flatMap enc).length)
  | 0 => ret ⟨rfl, (fun _ h => nomatch h), rfl⟩
  | n + 1 => bind hg fun a c hc => bind (elems hg n) fun l d hd => ret ⟨by simp [hd.1], by
      intro e he
      rcases List.mem_cons.mp he with rfl | he
      · exact hc.1
      · exact hd.2.1 e he, by
      rw [List.flatMap_cons, List.length_append, hc.2, hd.2.2]; rfl⟩

end Measures

/-! ### Records with counted parts -/

theorem RecordSpecificationElement.measures (prof : Profile) :
    Measures prof RecordSpecificationElement.deserialize (fun x c => c = field_len x) := by
  unfold RecordSpecificationElement.deserialize
  refine .field fixed_u32 fun id => .field fixed_u32 fun sn => .field fixed_u16 fun len => .field fixed_u16 fun cnt => ?_
  refine .bind (P := fun _ c => c = 0) (fun b a r e => ?_) fun n c hc => ?_
  · unfold mulU16 at e
    dsimp only at e
    split at e
    · cases e
    · simp only [Except.ok.injEq, Prod.mk.injEq] at e
      exact ⟨0, by rw [e.2]; omega, rfl⟩
  · subst hc
    refine .bind (Measures.list (size := fun _ : UInt8 => 1) (.fixed fixed_u8) n.toNat) fun l d hd => .ret ?_
    subst hd
    show 4 + (4 + (2 + (2 + (0 + ((l.map fun _ => 1).sum + 0))))) = 4 + 4 + 2 + 2 + (l.map field_len).sum
    show _ = 4 + 4 + 2 + 2 + (l.map fun _ => 1).sum
    omega

theorem RecordSpecification.measures (prof : Profile) :
    Measures prof RecordSpecification.deserialize (fun x c => c = field_len x) := by
  unfold RecordSpecification.deserialize
  refine .field fixed_u32 fun n => .bind (Measures.list (RecordSpecificationElement.measures prof) n.toNat) fun l c hc => .ret ?_
  subst hc
  rfl

theorem StandardVariableRecords.measures (prof : Profile) :
    Measures prof StandardVariableRecords.deserialize (fun x c => c = field_len x) := by
  unfold StandardVariableRecords.deserialize
  refine .field fixed_u32 fun t => .field fixed_u16 fun len => ?_
  refine .bind (Measures.list (size := fun _ : UInt8 => 1) (.fixed fixed_u8) len.toNat) fun l d hd => .ret ?_
  subst hd
  show 4 + (2 + ((l.map fun _ => 1).sum + 0)) = 4 + 2 + (l.map fun _ => 1).sum
  omega

theorem StandardVariableSpecification.measures (prof : Profile) :
    Measures prof StandardVariableSpecification.deserializeField (fun x c => c = field_len x) := by
  unfold StandardVariableSpecification.deserializeField
  refine .field fixed_u16 fun n => .reserve _ <| .bind (Measures.list (StandardVariableRecords.measures prof) n.toNat) fun l c hc => .ret ?_
  subst hc
  rfl


/-! ### The PDU kinds -/

theorem TransferOwnershipPdu.measures (prof : Profile) :
    Measures prof TransferOwnershipPdu.deserializeBody (fun x c => c = TransferOwnershipPdu.fieldsLen x) := by
  unfold TransferOwnershipPdu.deserializeBody
  refine .field SimulationIdentifier.fixed fun _ => .field SimulationIdentifier.fixed fun _ => .field fixed_u32 fun _ =>
    .field (EnumSpec.fixed _) fun _ => .field (EnumSpec.fixed _) fun _ => .field EntityId.fixed fun _ =>
    .bind (RecordSpecification.measures prof) fun r c hc => .ret ?_
  subst hc
  show 6 + (6 + (4 + (1 + (1 + (6 + (field_len r + 0)))))) = 6 + 6 + 4 + 1 + 1 + 6 + field_len r
  omega

theorem SetRecordReliablePdu.measures (prof : Profile) :
    Measures prof SetRecordReliablePdu.deserializeBody (fun x c => c = SetRecordReliablePdu.fieldsLen x) := by
  unfold SetRecordReliablePdu.deserializeBody
  refine .field EntityId.fixed fun _ => .field EntityId.fixed fun _ => .field fixed_u32 fun _ =>
    .field (EnumSpec.fixed _) fun _ => .field fixed_u8 fun _ => .field fixed_u16 fun _ => .field fixed_u32 fun _ =>
    .bind (RecordSpecification.measures prof) fun r c hc => .ret ?_
  subst hc
  show 6 + (6 + (4 + (1 + (1 + (2 + (4 + (field_len r + 0))))))) = 6 + 6 + 4 + 1 + 1 + 2 + 4 + field_len r
  omega

theorem InformationOperationsReportPdu.measures (prof : Profile) : Measures prof
    InformationOperationsReportPdu.deserializeBody (fun x c => c = InformationOperationsReportPdu.fieldsLen x) := by
  unfold InformationOperationsReportPdu.deserializeBody
  refine .field SimulationIdentifier.fixed fun _ => .field (EnumSpec.fixed _) fun _ => .field (EnumSpec.fixed _) fun _ =>
    .field fixed_u8 fun _ => .field EntityId.fixed fun _ => .field EntityId.fixed fun _ => .field fixed_u16 fun _ =>
    .field fixed_u16 fun _ => .bind (StandardVariableSpecification.measures prof) fun r c hc => .ret ?_
  subst hc
  show 6 + (2 + (1 + (1 + (6 + (6 + (2 + (2 + (field_len r + 0)))))))) = 6 + 2 + 1 + 1 + 6 + 6 + 2 + 2 + field_len r
  omega

theorem InformationOperationsActionPdu.measures (prof : Profile) : Measures prof
    InformationOperationsActionPdu.deserializeBody (fun x c => c = InformationOperationsActionPdu.fieldsLen x) := by
  unfold InformationOperationsActionPdu.deserializeBody
  refine .field SimulationIdentifier.fixed fun _ => .field SimulationIdentifier.fixed fun _ => .field fixed_u32 fun _ =>
    .field (EnumSpec.fixed _) fun _ => .field (EnumSpec.fixed _) fun _ => .field (EnumSpec.fixed _) fun _ =>
    .field (EnumSpec.fixed _) fun _ => .field fixed_u32 fun _ => .field EntityId.fixed fun _ =>
    .field EntityId.fixed fun _ => .field fixed_u16 fun _ =>
    .bind (StandardVariableSpecification.measures prof) fun r c hc => .ret ?_
  subst hc
  show 6 + (6 + (4 + (2 + (2 + (2 + (2 + (4 + (6 + (6 + (2 + (field_len r + 0)))))))))))
    = 6 + 6 + 4 + 2 + 2 + 2 + 2 + 4 + 6 + 6 + 2 + field_len r
  omega

theorem TransmitterPdu.measures (prof : Profile) :
    Measures prof TransmitterPdu.deserializeBody (fun x c => c = TransmitterPdu.fieldsLen x) := by
  unfold TransmitterPdu.deserializeBody
  refine .field EntityId.fixed fun _ => .field fixed_u16 fun _ => .field RadioEntityType.fixed fun _ =>
    .field (EnumSpec.fixed _) fun _ => .field (EnumSpec.fixed _) fun _ => .field fixed_u16 fun _ =>
    .field WorldCoordinate.fixed fun _ => .field EntityCoordinateVector.fixed fun _ => .field (EnumSpec.fixed _) fun _ =>
    .field fixed_u16 fun _ => .field fixed_u64 fun _ => .field fixed_f32 fun _ => .field fixed_f32 fun _ =>
    .field ModulationType.fixed fun _ => .field (EnumSpec.fixed _) fun _ => .field fixed_u16 fun _ =>
    .field fixed_u8 fun n => .field fixed_u8 fun _ => .field fixed_u16 fun _ => ?_
  refine .bind (P := fun x c => c = field_len x) ?_ fun m c hc => ?_
  · show Measures prof (if n.toNat = 0 then pure none else do return some (← deserialize_with_len n.toNat)) _
    split
    · exact .ret rfl
    · rename_i hn
      have hl : n.toNat < 256 := n.toNat_lt
      show Measures prof (do return some (← (if n.toNat < 256 then do
        return (← ModulationParameters.deserialize (UInt8.ofNat n.toNat)).getD dflt else M.panic .expectFailed))) _
      rw [if_pos hl, UInt8.ofNat_toNat]
      unfold ModulationParameters.deserialize
      have h0 : n ≠ 0 := fun h => hn (by rw [h]; rfl)
      rw [if_neg h0]
      refine .bind (P := fun x c => c = field_len x) ?_ fun x c hc => .ret hc
      refine .bind (P := fun x c => ∃ y, x = some y ∧ c = field_len y) ?_ fun x c ⟨y, h, hc⟩ => .ret ?_
      · exact .bind (Measures.list (size := fun _ : UInt8 => 1) (.fixed fixed_u8) n.toNat) fun l c hc => .ret ⟨_, rfl, hc⟩
      · rw [h]; exact hc
  · subst hc
    refine .ret ?_
    show 6 + (2 + (8 + (1 + (1 + (2 + (24 + (12 + (2 + (2 + (8 + (4 + (4 + (8 + (2 + (2 + (1 + (1 + (2 + (field_len m + 0)))))))))))))))))))
      = 6 + 2 + 8 + 1 + 1 + 2 + 24 + 12 + 2 + 2 + 8 + 4 + 4 + 8 + 2 + 2 + 1 + 1 + 2 + field_len m + 0 + 0
    omega

/-! ### Whole messages -/

theorem PduKind.measured (k : PduKind) {prof : Profile} {b rest : Bytes} {p : Pdu k.Body}
    (hd : k.decode prof b = .ok (.ok p, rest))
    (hm : Measures prof (PduBody.deserializeBody : Get k.Body) (fun x c => c = PduBody.fieldsLen x)) :
    b.length = 12 + PduBody.fieldsLen p.body + rest.length := by
  obtain ⟨h12, hb⟩ := k.body_run hd
  obtain ⟨c, h1, h2⟩ := hm _ _ _ hb
  rw [List.length_drop] at h1
  omega

theorem PduKind.taken (k : PduKind) (he : k ≠ .EntityState) {prof : Profile} {b rest : Bytes} {p : Pdu k.Body}
    (hd : k.decode prof b = .ok (.ok p, rest)) : b.length = 12 + PduBody.fieldsLen p.body + rest.length := by
  by_cases hk : k.variableDecoder = true
  · cases k
    case TransferOwnership => exact PduKind.measured .TransferOwnership hd (TransferOwnershipPdu.measures prof)
    case SetRecordReliable => exact PduKind.measured .SetRecordReliable hd (SetRecordReliablePdu.measures prof)
    case InformationOperationsReport =>
      exact PduKind.measured .InformationOperationsReport hd (InformationOperationsReportPdu.measures prof)
    case InformationOperationsAction =>
      exact PduKind.measured .InformationOperationsAction hd (InformationOperationsActionPdu.measures prof)
    case Transmitter => exact PduKind.measured .Transmitter hd (TransmitterPdu.measures prof)
    all_goals exact absurd hk (by decide)
  · have hk : k.variableDecoder = false := by simpa using hk
    have hl := k.decoded_body (k.decoded_len hk he prof) hd
    obtain ⟨h12, ht, _⟩ := C09_ok_only_own_type k prof b p rest hd
    obtain ⟨h1, h2⟩ := C14_panics_iff_short k hk he prof b h12 ht
    by_cases hb : b.length < k.ieeeOctets
    · rw [h1 hb] at hd; cases hd
    · obtain ⟨p', hp⟩ := h2 (by omega)
      rw [hd] at hp
      simp only [Except.ok.injEq, Prod.mk.injEq] at hp
      rw [hp.2, List.length_drop]
      omega

/-- A decoder returns a PDU exactly as large as the octets it took: `calculate_length` of the PDU is their number (or
the size error that carries it).  So nothing in a message can make a decoded PDU larger than the message, and every
decoded PDU brings a receiver at least the 12 octets of a header further. -/
theorem C52_size (k : PduKind) (he : k ≠ .EntityState) (prof : Profile) (b rest : Bytes) (p : Pdu k.Body)
    (hd : k.decode prof b = .ok (.ok p, rest)) :
    ∃ n, 12 ≤ n ∧ b.length = n + rest.length ∧ rest = b.drop n ∧
      p.calculate_length = if n ≤ 65535 then .ok (UInt16.ofNat n) else .error (.PduSizeExceeded n 8192) := by
  have h := k.taken he hd
  obtain ⟨u, hu⟩ := C39_suffix k prof b _ rest hd
  refine ⟨12 + PduBody.fieldsLen p.body, by omega, h, ?_, ?_⟩
  · have hl : u.length = 12 + PduBody.fieldsLen p.body := by
      have := congrArg List.length hu
      rw [List.length_append] at this
      omega
    rw [← hl, hu, List.drop_left]
  · unfold Pdu.calculate_length PduHeader.LENGTH MAX_PDU_SIZE_OCTETS
    dsimp only
    by_cases hn : 12 + PduBody.fieldsLen p.body < 65536
    · rw [if_pos hn, if_pos (by omega)]
    · rw [if_neg hn, if_neg (by omega)]

example := C52_size .Signal (by decide) ⟨true⟩ _ _ _ sampleSignal_decode

/-- Entity state messages: 133 octets are taken, and the PDU counts as 144. -/
theorem C52_entity_state (prof : Profile) (b rest : Bytes) (p : Pdu EntityStatePdu)
    (hd : decodeAs EntityStatePdu prof b = .ok (.ok p, rest)) :
    b.length = 133 + rest.length ∧ rest = b.drop 133 ∧ p.calculate_length = .ok 144 := by
  obtain ⟨h1, _, _, h2, h3⟩ := C48_entity_state_decode prof b rest p hd
  refine ⟨by rw [h3, List.length_drop]; omega, h3, ?_⟩
  unfold Pdu.calculate_length
  have hfl : PduBody.fieldsLen p.body = 132 := by
    show EntityStatePdu.fieldsLen p.body = 132
    unfold EntityStatePdu.fieldsLen
    rw [h2]
    rfl
  rw [hfl]
  rfl

/-! ### Records -/

/-- What the decoder of a counted record returns, whatever the octets: its count is the number of its elements, the
octets taken are as many as the record's encoding has, and each element could be encoded (of record sets: when
overflow is checked). -/
def CountedRecord.Measured (r : CountedRecord) : Prop := ∀ prof, Measures prof r.de (fun x c =>
  r.count x = (r.list x).length ∧ c = (r.image x).length ∧ (prof.overflowChecks = true → ∀ e ∈ r.list x, r.elemOk e))

theorem octet_measures (prof : Profile) {n : Nat} : Measures prof (getN getU8 n) (fun l c => l.length = n ∧ (∀ e ∈ l, True) ∧
    c = (l.flatMap (wire : UInt8 → Bytes)).length) :=
  Measures.elems (ok := fun _ => True) (enc := wire) ((Measures.fixed fixed_u8).mono fun e _ h =>
    ⟨trivial, by rw [show (wire e).length = 1 from octets_length _ _]; exact h⟩) n

theorem AttributeRecord.measured : AttributeRecord.counted.Measured := fun prof => by
  show Measures prof AttributeRecord.deserialize _
  unfold AttributeRecord.deserialize
  refine .field fixed_u32 fun _ => .field fixed_u16 fun n => .bind (octet_measures prof) fun l c hc => .ret ⟨hc.1.symm, ?_, fun _ _ _ => trivial⟩
  rw [hc.2.2]
  show _ = ((octets 4 _ ++ octets 2 _) ++ l.flatMap wire).length
  simp only [List.length_append, octets_length]
  omega

theorem StandardVariableRecords.measured : StandardVariableRecords.counted.Measured := fun prof => by
  show Measures prof StandardVariableRecords.deserialize _
  unfold StandardVariableRecords.deserialize
  refine .field fixed_u32 fun _ => .field fixed_u16 fun n => .bind (octet_measures prof) fun l c hc => .ret ⟨hc.1.symm, ?_, fun _ _ _ => trivial⟩
  rw [hc.2.2]
  show _ = ((octets 4 _ ++ octets 2 _) ++ l.flatMap wire).length
  simp only [List.length_append, octets_length]
  omega

theorem AttributeRecordSet.measured : AttributeRecordSet.counted.Measured := fun prof => by
  show Measures prof AttributeRecordSet.deserialize _
  unfold AttributeRecordSet.deserialize
  refine .field EntityId.fixed fun id => .field fixed_u16 fun n => .bind (Measures.elems (enc := wire)
    (ok := fun e : AttributeRecord => e.record_length.toNat = e.record_specific_fields.length)
    ((AttributeRecord.measured prof).mono fun e c h => ⟨h.1, ?_⟩) n.toNat) fun l c hc => .ret ⟨hc.1.symm, ?_, fun _ => hc.2.1⟩
  · rw [h.2.1]
    show ((wire e.record_type ++ wire e.record_length) ++ _).length = (wire e.record_type ++ (wire e.record_length ++ _)).length
    rw [List.append_assoc]
    rfl
  · rw [hc.2.2]
    show _ = ((wire id ++ octets 2 _) ++ l.flatMap wire).length
    simp only [List.length_append, octets_length, EntityId.wire_length]
    omega

theorem StandardVariableSpecification.measured : StandardVariableSpecification.counted.Measured := fun prof => by
  show Measures prof StandardVariableSpecification.deserialize _
  unfold StandardVariableSpecification.deserialize
  refine .field fixed_u16 fun n => .bind (Measures.elems (enc := wire)
    (ok := fun e : StandardVariableRecords => e.record_length.toNat = e.record_specific_fields.length)
    ((StandardVariableRecords.measured prof).mono fun e c h => ⟨h.1, ?_⟩) n.toNat) fun l c hc => .ret ⟨hc.1.symm, ?_, fun _ => hc.2.1⟩
  · rw [h.2.1]
    show ((wire e.record_type ++ wire e.record_length) ++ _).length = (wire e.record_type ++ (wire e.record_length ++ _)).length
    rw [List.append_assoc]
    rfl
  · rw [hc.2.2]
    show _ = (octets 2 _ ++ l.flatMap wire).length
    simp only [List.length_append, octets_length]
    omega

theorem AcousticEmitterSystemData.measured : AcousticEmitterSystemData.counted.Measured := fun prof => by
  show Measures prof AcousticEmitterSystemData.deserialize _
  unfold AcousticEmitterSystemData.deserialize
  refine .field fixed_u8 fun _ => .field fixed_u8 fun n => .field fixed_u16 fun _ => .field AcousticEmitterSystem.fixed fun s =>
    .field Vector3Float.fixed fun v => .bind (Measures.elems (ok := fun _ => True) (enc := wire)
    ((Measures.fixed AcousticBeamData.fixed).mono fun e c h => ⟨trivial, by rw [AcousticBeamData.wire_length]; exact h⟩) n.toNat)
    fun l c hc => .ret ⟨hc.1.symm, ?_, fun _ _ _ => trivial⟩
  rw [hc.2.2]
  show _ = ((octets 1 _ ++ (octets 1 _ ++ (octets 2 _ ++ (wire s ++ wire v)))) ++ l.flatMap wire).length
  simp only [List.length_append, octets_length, AcousticEmitterSystem.wire_length, Vector3Float.wire_length]
  omega

theorem ElectromagneticEmissionBeamData.measured : ElectromagneticEmissionBeamData.counted.Measured := fun prof => by
  show Measures prof ElectromagneticEmissionBeamData.deserialize _
  unfold ElectromagneticEmissionBeamData.deserialize
  refine .field fixed_u8 fun _ => .field fixed_u8 fun _ => .field fixed_u16 fun _ => .field FundamentalParameterData.fixed fun s =>
    .field fixed_u8 fun _ => .field fixed_u8 fun n => .field fixed_u8 fun _ => .field fixed_u8 fun _ => .field fixed_u32 fun _ =>
    .bind (Measures.elems (ok := fun _ => True) (enc := wire)
    ((Measures.fixed TrackJamTarget.fixed).mono fun e c h => ⟨trivial, by rw [TrackJamTarget.wire_length]; exact h⟩) n.toNat)
    fun l c hc => .ret ⟨hc.1.symm, ?_, fun _ _ _ => trivial⟩
  rw [hc.2.2]
  show _ = ((octets 1 _ ++ (octets 1 _ ++ (octets 2 _ ++ (wire s ++ (octets 1 _ ++ (octets 1 _ ++ (octets 1 _ ++ (octets 1 _ ++ octets 4 _))))))))
    ++ l.flatMap wire).length
  simp only [List.length_append, octets_length, FundamentalParameterData.wire_length]
  omega

theorem ElectromagneticEmissionSystemData.measured : ElectromagneticEmissionSystemData.counted.Measured := fun prof => by
  show Measures prof ElectromagneticEmissionSystemData.deserialize _
  unfold ElectromagneticEmissionSystemData.deserialize
  refine .field fixed_u8 fun _ => .field fixed_u8 fun n => .field fixed_u16 fun _ => .field EmitterSystem.fixed fun s =>
    .field Vector3Float.fixed fun v => .bind (Measures.elems (enc := wire)
    (ok := fun e : ElectromagneticEmissionBeamData => e.number_of_track_jam_targets.toNat = e.track_jam_targets.length)
    ((ElectromagneticEmissionBeamData.measured prof).mono fun e c h => ⟨h.1, ?_⟩) n.toNat)
    fun l c hc => .ret ⟨hc.1.symm, ?_, fun _ => hc.2.1⟩
  · rw [h.2.1]
    congr 1
  · rw [hc.2.2]
    show _ = ((octets 1 _ ++ (octets 1 _ ++ (octets 2 _ ++ (wire s ++ wire v)))) ++ l.flatMap wire).length
    simp only [List.length_append, octets_length, EmitterSystem.wire_length, Vector3Float.wire_length]
    omega

theorem RecordSpecificationElement.measured (prof : Profile) : Measures prof RecordSpecificationElement.deserialize
    (fun e c => (prof.overflowChecks = true → e.record_length.toNat * e.record_count.toNat < 65536 ∧
      e.record_length.toNat * e.record_count.toNat = e.record_values.length) ∧ c = (wire e).length) := by
  unfold RecordSpecificationElement.deserialize
  refine .field fixed_u32 fun _ => .field fixed_u32 fun _ => .field fixed_u16 fun a => .field fixed_u16 fun b => ?_
  refine .bind (P := fun n c => c = 0 ∧ (prof.overflowChecks = true → a.toNat * b.toNat < 65536 ∧ a.toNat * b.toNat = n.toNat))
    (fun d n r e => ?_) fun n c hc => ?_
  · unfold mulU16 at e
    dsimp only at e
    split at e
    · cases e
    · rename_i h
      simp only [Except.ok.injEq, Prod.mk.injEq] at e
      refine ⟨0, by rw [e.2]; omega, rfl, fun ho => ?_⟩
      have : a.toNat * b.toNat < 65536 := by
        simp only [ho, true_and] at h
        omega
      refine ⟨this, ?_⟩
      rw [← e.1, UInt16.toNat_mul, Nat.mod_eq_of_lt this]
  · obtain ⟨rfl, hc⟩ := hc
    refine .bind (octet_measures prof) fun l c hl => .ret ⟨fun ho => ⟨(hc ho).1, ?_⟩, ?_⟩
    · rw [(hc ho).2, ← hl.1]
    · rw [hl.2.2]
      show _ = (octets 4 _ ++ (octets 4 _ ++ (octets 2 _ ++ (octets 2 _ ++ l.flatMap wire)))).length
      simp only [List.length_append, octets_length]
      omega

theorem RecordSpecification.measured : RecordSpecification.counted.Measured := fun prof => by
  show Measures prof RecordSpecification.deserialize _
  unfold RecordSpecification.deserialize
  refine .field fixed_u32 fun n => .bind (Measures.elems (enc := wire) (RecordSpecificationElement.measured prof) n.toNat)
    fun l c hc => .ret ⟨hc.1.symm, ?_, fun ho e he => hc.2.1 e he ho⟩
  rw [hc.2.2]
  show _ = (octets 4 _ ++ l.flatMap wire).length
  simp only [List.length_append, octets_length]
  omega

theorem countedRecords_measured : ∀ r ∈ countedRecords, r.Measured := by
  unfold countedRecords
  refine List.forall_mem_cons.mpr ⟨AcousticEmitterSystemData.measured, ?_⟩
  refine List.forall_mem_cons.mpr ⟨AttributeRecord.measured, ?_⟩
  refine List.forall_mem_cons.mpr ⟨AttributeRecordSet.measured, ?_⟩
  refine List.forall_mem_cons.mpr ⟨ElectromagneticEmissionBeamData.measured, ?_⟩
  refine List.forall_mem_cons.mpr ⟨ElectromagneticEmissionSystemData.measured, ?_⟩
  refine List.forall_mem_cons.mpr ⟨RecordSpecification.measured, ?_⟩
  refine List.forall_mem_cons.mpr ⟨StandardVariableRecords.measured, ?_⟩
  refine List.forall_mem_cons.mpr ⟨StandardVariableSpecification.measured, ?_⟩
  exact fun _ h => nomatch h

/-- Records with a counted list, whatever the octets: a decoded record has as many elements as its count says, and its
encoding has as many octets as were taken. -/
theorem C52_counted : ∀ r ∈ countedRecords, ∀ prof b x rest, r.de prof b = .ok (x, rest) →
    r.count x = (r.list x).length ∧
    b.length = (r.head x).length + ((r.list x).flatMap r.elemWire).length + rest.length := by
  intro r hr prof b x rest h
  obtain ⟨c, h1, h2, h3, _⟩ := countedRecords_measured r hr prof b x rest h
  refine ⟨h2, ?_⟩
  rw [h1, h3, CountedRecord.image, List.length_append]

/-- Such a record (with overflow checks, if it is a list of record sets) is encoded again without fail, and decoded
again to itself, whatever follows. -/
theorem C24_counted : ∀ r ∈ countedRecords, ∀ prof b x rest, prof.overflowChecks = true → r.de prof b = .ok (x, rest) →
    ∃ w, (∀ prof' buf, r.ser x prof' buf = .ok ((), buf ++ w)) ∧ b.length = w.length + rest.length ∧
      ∀ prof' rest', r.de prof' (w ++ rest') = .ok (x, rest') := by
  intro r hr prof b x rest ho h
  obtain ⟨c, h1, h2, h3, h4⟩ := countedRecords_measured r hr prof b x rest h
  obtain ⟨hs, hd, _⟩ := C26_counted r hr x (h4 ho)
  refine ⟨_, hs, by rw [h1, h3]; rfl, fun prof' rest' => ?_⟩
  rw [hd (Nat.le_of_eq h2) prof' rest', h2, List.take_length, List.drop_length]
  have hl := countedRecords_lawful r hr
  rw [hl.lens₂]
  rfl

/-! ### Grids and datums -/

theorem Measures.rest {β : Type} {prof : Profile} {f : Bytes → Get β} {Q : β → Nat → Prop}
    (hf : ∀ p, Measures prof (f p) (fun x d => Q x (p.length + d))) : Measures prof (getRest >>= f) Q :=
  .bind (P := fun p c => c = p.length) (fun b a r e => by
    cases e
    exact ⟨b.length, rfl, rfl⟩) fun p _ hc => hc ▸ hf p

theorem Measures.count {α β : Type} {prof : Profile} {g : Get α} {f : List α → Get β} {n s : Nat}
    {Q : β → Nat → Prop} (hg : Fixed g s)
    (hf : ∀ l, l.length = n → Measures prof (f l) (fun x d => Q x (s * l.length + d))) :
    Measures prof (getN g n >>= f) Q := by
  refine .bind (P := fun l c => l.length = n ∧ c = s * l.length) ?_ fun l _ hc => hc.2 ▸ hf l hc.1
  have : ∀ n, Measures prof (getN g n) (fun l c => l.length = n ∧ c = s * l.length) := by
    intro n
    induction n with
    | zero => exact .ret ⟨rfl, rfl⟩
    | succ n ih =>
      refine .field hg fun a => .bind ih fun l c hc => .ret ⟨by simp [hc.1], ?_⟩
      rw [hc.2, List.length_cons, Nat.mul_add]
      omega
  exact this n

theorem GridAxisDescriptor.measures (prof : Profile) : Measures prof GridAxisDescriptor.deserialize
    (fun x c => c = (wire x).length ∧ match x.data with
      | .FixedSpacing _ _ => x.axis_type = .RegularAxis
      | .VariableSpacing n _ _ _ xs _ => x.axis_type = .IrregularAxis ∧ n.toNat = xs.length) := by
  unfold GridAxisDescriptor.deserialize
  refine .field fixed_f64 fun _ => .field fixed_f64 fun _ => .field fixed_u16 fun _ => .field fixed_u8 fun _ =>
    .field (EnumSpec.fixed _) fun t => ?_
  refine .bind (P := fun d c => c = field_len d ∧ match d with
      | .FixedSpacing _ _ => t = .RegularAxis
      | .VariableSpacing n _ _ _ xs _ => t = .IrregularAxis ∧ n.toNat = xs.length) ?_ fun d c hc => .ret ⟨?_, hc.2⟩
  · unfold GridAxisDescriptor.deserializeData
    by_cases ht : t = .RegularAxis
    · rw [if_pos ht]
      exact .field fixed_u16 fun _ => .field fixed_u16 fun _ => .ret ⟨rfl, ht⟩
    · rw [if_neg ht]
      have ht' : t = .IrregularAxis := by
        obtain ⟨c, h⟩ := t
        have h' : c = 0 ∨ c = 1 := by simpa [GridAxisDescriptorAxisType.spec, EnumSpec.codes] using h
        rcases h' with rfl | rfl
        · exact absurd rfl ht
        · rfl
      refine .field fixed_u16 fun _ => .field fixed_u16 fun _ => .field fixed_f64 fun _ => .field fixed_f64 fun _ =>
        .count fixed_u16 fun xs hx => .rest fun p => .ret ⟨?_, ht', hx.symm⟩
      show 2 + (2 + (8 + (8 + (2 * xs.length + (p.length + 0))))) = 2 + 2 + 8 + 8 + field_len xs + field_len p
      rw [field_len_u16s, field_len_bytes]
      omega
  · rw [← len_exact]
    show _ = 8 + 8 + 2 + 1 + 1 + field_len d
    rw [hc.1]
    show 8 + (8 + (2 + (1 + (1 + (field_len d + 0))))) = _
    omega

theorem GridDataRecord.measures (prof : Profile) : Measures prof GridDataRecord.deserialize
    (fun x c => c = field_len x ∧ match x.data with
      | .Type0 n d _ => x.data_representation = .Type0 ∧ n.toNat = d.length
      | .Type1 _ _ n d _ => x.data_representation = .Type1 ∧ n.toNat = d.length
      | .Type2 n _ d => x.data_representation = .Type2 ∧ n.toNat = d.length) := by
  unfold GridDataRecord.deserialize
  refine .field (EnumSpec.fixed _) fun _ => .field (EnumSpec.fixed _) fun t => ?_
  refine .bind (P := fun x c => c = field_len x ∧ match x with
      | .Type0 n d _ => t = .Type0 ∧ n.toNat = d.length
      | .Type1 _ _ n d _ => t = .Type1 ∧ n.toNat = d.length
      | .Type2 n _ d => t = .Type2 ∧ n.toNat = d.length) ?_ fun d c hc => .ret ⟨?_, hc.2⟩
  · unfold GridDataRecord.deserializeData
    by_cases ht : t = .Type0
    · rw [if_pos ht]
      refine .field fixed_u16 fun _ => .count fixed_u8 fun xs hx => .rest fun p => .ret ⟨?_, ht, hx.symm⟩
      show 2 + (1 * xs.length + (p.length + 0)) = 2 + field_len xs + field_len p
      rw [field_len_bytes, field_len_bytes]
      omega
    rw [if_neg ht]
    by_cases ht' : t = .Type1
    · rw [if_pos ht']
      refine .field fixed_f32 fun _ => .field fixed_f32 fun _ => .field fixed_u16 fun _ => .count fixed_u16 fun xs hx =>
        .rest fun p => .ret ⟨?_, ht', hx.symm⟩
      show 4 + (4 + (2 + (2 * xs.length + (p.length + 0)))) = 4 + 4 + 2 + field_len xs + field_len p
      rw [field_len_u16s, field_len_bytes]
      omega
    rw [if_neg ht']
    have ht2 : t = .Type2 := by
      obtain ⟨c, h⟩ := t
      have h' : c = 0 ∨ c = 1 ∨ c = 2 := by simpa [GriddedDataDataRepresentation.spec, EnumSpec.codes] using h
      rcases h' with rfl | rfl | rfl
      · exact absurd rfl ht
      · exact absurd rfl ht'
      · rfl
    refine .field fixed_u16 fun _ => .field fixed_u16 fun _ => .count fixed_f32 fun xs hx => .ret ⟨?_, ht2, hx.symm⟩
    have : ∀ l : List F32, field_len l = 4 * l.length := by
      intro l
      show (l.map fun _ => 4).sum = _
      induction l with
      | nil => rfl
      | cons a l ih => rw [List.map_cons, List.sum_cons, ih, List.length_cons]; omega
    show 2 + (2 + (4 * xs.length + 0)) = 2 + 2 + field_len xs
    rw [this]
    omega
  · show 1 + (1 + (c + 0)) = 1 + 1 + field_len d
    rw [hc.1]
    omega

theorem VariableDatumRecord.measures (prof : Profile) : Measures prof VariableDatumRecord.deserialize
    (fun x c => x.value.length = 2 * ((x.length_bits.toNat + 7) / 8) ∧ c = 8 + (x.length_bits.toNat + 7) / 8) := by
  unfold VariableDatumRecord.deserialize
  refine .field fixed_u32 fun _ => .field fixed_u32 fun b => .count fixed_u8 fun l hl => .ret ?_
  unfold VariableDatumRecord.bytes_count at hl ⊢
  generalize (b.toNat + 7) / 8 = n at hl
  show (List.replicate n 0 ++ l).length = 2 * n ∧ 4 + (4 + (1 * l.length + 0)) = 8 + n
  rw [List.length_append, List.length_replicate]
  omega

/-- Axis descriptors, whatever the octets: what is decoded has the data its axis type announces and as many
coordinates as it claims, and is written again in as many octets as were taken; the octets written are decoded to the
same descriptor again. -/
theorem C52_grid_axis (prof : Profile) (b rest : Bytes) (x : GridAxisDescriptor)
    (hd : GridAxisDescriptor.deserialize prof b = .ok (x, rest)) :
    (match x.data with
      | .FixedSpacing _ _ => x.axis_type = .RegularAxis
      | .VariableSpacing n _ _ _ xs _ => x.axis_type = .IrregularAxis ∧ n.toNat = xs.length) ∧
    ∃ w, (∀ prof' buf, x.serialize prof' buf = .ok ((), buf ++ w)) ∧ b.length = w.length + rest.length ∧
      w.length = field_len x ∧ ∀ prof', GridAxisDescriptor.deserialize prof' w = .ok (x, []) := by
  obtain ⟨c, h1, h2, h3⟩ := GridAxisDescriptor.measures prof b x rest hd
  refine ⟨h3, wire x, fun prof' buf => x.writes prof' buf, by rw [h1, h2], (len_exact x).symm, fun prof' => ?_⟩
  cases hx : x.data with
  | FixedSpacing n i =>
    rw [hx] at h3
    obtain ⟨w, hw, _, _, hr⟩ := C35_regular_axis x n i h3 hx prof' [] []
    rw [x.writes prof' []] at hw
    simp only [Except.ok.injEq, Prod.mk.injEq, true_and, List.nil_append] at hw
    rw [← hw, List.append_nil] at hr
    exact hr
  | VariableSpacing n i s o xs p =>
    rw [hx] at h3
    obtain ⟨w, hw, _, _, _, hr⟩ := C35_irregular_axis x n i s o xs p h3.1 hx h3.2 prof' [] []
    rw [x.writes prof' []] at hw
    simp only [Except.ok.injEq, Prod.mk.injEq, true_and, List.nil_append] at hw
    rw [← hw, List.append_nil] at hr
    exact hr.mpr rfl

/-- Grid data records, whatever the octets: what is decoded has the data its representation announces and as many
values as it claims; its `field_len` is the number of octets taken, but two more are written. -/
theorem C52_grid_data (prof : Profile) (b rest : Bytes) (x : GridDataRecord)
    (hd : GridDataRecord.deserialize prof b = .ok (x, rest)) :
    (match x.data with
      | .Type0 n d _ => x.data_representation = .Type0 ∧ n.toNat = d.length
      | .Type1 _ _ n d _ => x.data_representation = .Type1 ∧ n.toNat = d.length
      | .Type2 n _ d => x.data_representation = .Type2 ∧ n.toNat = d.length) ∧
    b.length = field_len x + rest.length ∧
    ∀ prof' buf, ∃ w, x.serialize prof' buf = .ok ((), buf ++ w) ∧ w.length = field_len x + 2 := by
  obtain ⟨c, h1, h2, h3⟩ := GridDataRecord.measures prof b x rest hd
  refine ⟨h3, by rw [h1, h2], fun prof' buf => ?_⟩
  obtain ⟨w, d, hw, _, hl, _⟩ := C35_grid_data x prof' buf []
  exact ⟨w, hw, hl⟩

/-- Variable datums, whatever the octets: the one exception.  The value returned has twice as many octets as were taken
for it. -/
theorem C52_datum (prof : Profile) (b rest : Bytes) (x : VariableDatumRecord)
    (hd : VariableDatumRecord.deserialize prof b = .ok (x, rest)) :
    ∃ n, n = (x.length_bits.toNat + 7) / 8 ∧ b.length = 8 + n + rest.length ∧ x.value.length = 2 * n ∧
      field_len x = 8 + 2 * n := by
  obtain ⟨c, h1, h2, h3⟩ := VariableDatumRecord.measures prof b x rest hd
  refine ⟨_, rfl, by rw [h1, h3], h2, ?_⟩
  show 4 + 4 + field_len x.value = _
  rw [field_len_bytes, h2]

theorem getU8_run_cons (prof : Profile) (a : UInt8) (l : Bytes) : getU8 prof (a :: l) = .ok (a, l) := by
  show Except.ok (UInt8.ofNat (0 * 256 + a.toNat), l) = _
  rw [Nat.zero_mul, Nat.zero_add, UInt8.ofNat_toNat]

/-- The reader of all that is left is the loop `while buf.has_remaining() { v.push(buf.get_u8()) }`, step by step. -/
theorem getRest_loop : getRest =
    (do if (← remaining) = 0 then return [] else
          let x ← getU8
          let xs ← getRest
          return x :: xs : Get Bytes) := by
  refine M.ext (fun prof b => ?_) (fun prof b => ?_)
  · cases b with
    | nil => rfl
    | cons a l =>
      rw [M.bind_run]
      show _ = (if (a :: l).length = 0 then _ else _ : Get Bytes) prof (a :: l)
      rw [if_neg (by simp), M.bind_run, getU8_run_cons]
      rfl
  · cases b with
    | nil => rfl
    | cons a l =>
      rw [M.bind_log]
      show _ = [] ++ M.log (if (a :: l).length = 0 then _ else _ : Get Bytes) prof (a :: l)
      rw [if_neg (by simp), M.bind_log, getU8_run_cons]
      show _ = [] ++ ([Event.took 1] ++ (List.replicate l.length (Event.took 1) ++ []))
      rw [List.append_nil]
      rfl

/-! ### Concrete cases -/

/-- An irregular axis with one coordinate and three octets of padding; representations 0, 1 and 2; a datum of 9 bits. -/
example :
    GridAxisDescriptor.deserialize ⟨true⟩ (List.replicate 18 0 ++ [4, 1, 0, 1, 0, 0] ++ List.replicate 16 0 ++ [0, 7, 8, 9, 10]) =
      .ok (⟨⟨0⟩, ⟨0⟩, 0, 4, .IrregularAxis, .VariableSpacing 1 0 ⟨0⟩ ⟨0⟩ [7] [8, 9, 10]⟩, []) ∧
    GridDataRecord.deserialize ⟨true⟩ [0, 0, 0, 1, 5, 6] = .ok (⟨⟨0, by decide⟩, .Type0, .Type0 1 [5] [6]⟩, []) ∧
    GridDataRecord.deserialize ⟨true⟩ [0, 1, 0, 0, 0, 1, 0, 0, 0, 2, 0, 1, 0, 5, 6] =
      .ok (⟨⟨0, by decide⟩, .Type1, .Type1 ⟨1⟩ ⟨2⟩ 1 [5] [6]⟩, []) ∧
    GridDataRecord.deserialize ⟨true⟩ [0, 2, 0, 1, 0, 3, 0, 0, 0, 5, 6] =
      .ok (⟨⟨0, by decide⟩, .Type2, .Type2 1 3 [⟨5⟩]⟩, [6]) ∧
    VariableDatumRecord.deserialize ⟨true⟩ [0, 0, 0, 1, 0, 0, 0, 9, 5, 6, 7] =
      .ok (⟨1, 9, [0, 0, 5, 6]⟩, [7]) := by decide +kernel

example := C52_grid_data ⟨true⟩ [0, 0, 0, 1, 5, 6] [] ⟨⟨0, by decide⟩, .Type0, .Type0 1 [5] [6]⟩ (by decide +kernel)
example := C52_grid_axis ⟨true⟩ (List.replicate 18 0 ++ [4, 1, 0, 1, 0, 0] ++ List.replicate 16 0 ++ [0, 7, 8, 9, 10]) []
  ⟨⟨0⟩, ⟨0⟩, 0, 4, .IrregularAxis, .VariableSpacing 1 0 ⟨0⟩ ⟨0⟩ [7] [8, 9, 10]⟩ (by decide +kernel)

end Dis
