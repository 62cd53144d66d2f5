import Verif.Proofs.KindFacts
/-
What can be said of every value a PDU decoder returns.
-/
namespace Dis

/-- Every value `g` returns under profile `prof` satisfies `P`. -/
def Yields {α : Type} (prof : Profile) (g : Get α) (P : α → Prop) : Prop :=
  ∀ b a r, g prof b = .ok (a, r) → P a

namespace Yields
variable {α β : Type} {prof : Profile}

theorem top (g : Get α) : Yields prof g (fun _ => True) := fun _ _ _ _ => trivial

theorem ret {a : α} {P : α → Prop} (h : P a) : Yields prof (pure a) P := by
  intro b a' r e
  cases e
  exact h

theorem bind {g : Get α} {f : α → Get β} {P : α → Prop} {Q : β → Prop} (hg : Yields prof g P)
    (hf : ∀ a, P a → Yields prof (f a) Q) : Yields prof (g >>= f) Q := by
  intro b c r e
  rw [M.bind_run] at e
  cases hgb : g prof b with
  | error x => rw [hgb] at e; cases e
  | ok v =>
    obtain ⟨a, b'⟩ := v
    rw [hgb] at e
    exact hf a (hg b a b' hgb) b' c r e

theorem any {g : Get α} {f : α → Get β} {Q : β → Prop}
    (hf : ∀ a, Yields prof (f a) Q) : Yields prof (g >>= f) Q := bind (top g) fun a _ => hf a

theorem list [FieldDeserialize α] {f : List α → Get β} {Q : β → Prop} (hf : Yields prof (f []) Q) :
    Yields prof ((deserialize_field : Get (List α)) >>= f) Q :=
  bind (P := fun l => l = []) (ret rfl) (by rintro _ rfl; exact hf)

theorem opt [FieldDeserialize α] {f : Option α → Get β} {Q : β → Prop} (hf : Yields prof (f none) Q) :
    Yields prof ((deserialize_field : Get (Option α)) >>= f) Q :=
  bind (P := fun l => l = none) (ret rfl) (by rintro _ rfl; exact hf)

theorem mono {g : Get α} {P Q : α → Prop} (h : Yields prof g P) (hi : ∀ a, P a → Q a) :
    Yields prof g Q := fun b a r e => hi a (h b a r e)

theorem n {get : Get α} {P : α → Prop} (h : Yields prof get P) : ∀ n,
    Yields prof (getN get n) (fun l => l.length = n ∧ ∀ x ∈ l, P x)
  | 0 => ret ⟨rfl, fun _ h => nomatch h⟩
  | n + 1 => bind h fun a ha => bind (Yields.n h n) fun l hl =>
      ret ⟨by simp [hl.1], fun x hx => by
        rcases List.mem_cons.mp hx with rfl | hx
        · exact ha
        · exact hl.2 x hx⟩

end Yields

theorem FrozenBehavior.yields (prof : Profile) :
    Yields prof (deserialize_field : Get FrozenBehavior) decodable :=
  Yields.any fun bits => Yields.ret (by
    show OnlyFlags _ _
    unfold FrozenBehavior.from_u8
    by_cases h : OnlyFlags FrozenBehavior.flagBits bits.toNat
    · rw [flagsFromBits_some FrozenBehavior.all_iff h]; exact h
    · rw [flagsFromBits_none FrozenBehavior.all_iff h]
      intro i hi
      have : (0 : Nat).testBit i = true := hi
      simp at this)

theorem ObjectStateAppearanceGeneral.yields (prof : Profile) :
    Yields prof (deserialize_field : Get ObjectStateAppearanceGeneral) decodable :=
  Yields.any fun bits => Yields.ret (by
    show OnlyFlags _ _
    unfold ObjectStateAppearanceGeneral.from_u16
    by_cases h : OnlyFlags ObjectStateAppearanceGeneral.flagBits bits.toNat
    · rw [flagsFromBits_some ObjectStateAppearanceGeneral.all_iff h]; exact h
    · rw [flagsFromBits_none ObjectStateAppearanceGeneral.all_iff h]
      intro i hi
      have : (0 : Nat).testBit i = true := hi
      simp at this)

theorem RecordSpecificationElement.yields :
    Yields ⟨true⟩ (deserialize_field : Get RecordSpecificationElement) decodable :=
  Yields.any fun _ => Yields.any fun _ => Yields.any fun l => Yields.any fun c =>
    Yields.bind (P := fun n => n.toNat = l.toNat * c.toNat ∧ l.toNat * c.toNat < 65536) (by
      intro b n r e
      rw [mulU16_run] at e
      by_cases h : 65536 ≤ l.toNat * c.toNat
      · simp [h] at e
      · simp only [h, and_false, if_false, Except.ok.injEq, Prod.mk.injEq] at e
        rw [← e.1]
        refine ⟨?_, by omega⟩
        rw [UInt16.toNat_ofNat_of_lt' (by simp only [UInt16.size]; omega)]) fun n hn =>
    Yields.bind (Yields.n (Yields.top _) _) fun vs hv =>
    Yields.ret ⟨hn.2, by rw [hv.1, hn.1]; rfl⟩

theorem RecordSpecification.yields :
    Yields ⟨true⟩ (deserialize_field : Get RecordSpecification) decodable :=
  Yields.any fun _ => Yields.bind (Yields.n RecordSpecificationElement.yields _) fun _ h =>
    Yields.ret ⟨h.1.symm, h.2⟩

theorem StandardVariableRecords.yields (prof : Profile) :
    Yields prof (deserialize_field : Get StandardVariableRecords) decodable :=
  Yields.any fun _ => Yields.any fun _ => Yields.bind (Yields.n (Yields.top _) _) fun _ h =>
    Yields.ret h.1.symm

theorem StandardVariableSpecification.yields (prof : Profile) :
    Yields prof (deserialize_field : Get StandardVariableSpecification) decodable :=
  Yields.any fun _ => Yields.any fun _ => Yields.bind (Yields.n (StandardVariableRecords.yields prof) _) fun _ h =>
    Yields.ret ⟨h.1.symm, h.2⟩

theorem ModulationParameters.yields (prof : Profile) (n : UInt8) :
    Yields prof (deserialize_with_len n.toNat : Get (Option ModulationParameters))
      (fun o => n.toNat = (wire o).length ∧ o ≠ some ⟨[]⟩) := by
  show Yields prof (if n.toNat = 0 then pure none else _) _
  by_cases h : n.toNat = 0
  · rw [if_pos h]
    exact Yields.ret ⟨h, by simp⟩
  · rw [if_neg h]
    have hlt := n.toNat_lt
    show Yields prof ((if n.toNat < 256 then _ else _) >>= _) _
    rw [if_pos hlt]
    refine Yields.bind (P := fun x : ModulationParameters => x.record_specific_fields.length = n.toNat) ?_ ?_
    · have h0 : UInt8.ofNat n.toNat ≠ 0 := by
        rw [UInt8.ofNat_toNat]; rintro rfl; exact h rfl
      unfold ModulationParameters.deserialize
      rw [if_neg h0, UInt8.ofNat_toNat]
      exact Yields.bind (P := fun o => ∃ l : Bytes, l.length = n.toNat ∧ o = some ⟨l⟩)
        (Yields.bind (Yields.n (Yields.top _) _) fun l hl => Yields.ret ⟨l, hl.1, rfl⟩) fun o ho =>
        Yields.ret (by obtain ⟨l, hl, rfl⟩ := ho; exact hl)
    · intro x hx
      refine Yields.ret ⟨?_, ?_⟩
      · show _ = (wire x.record_specific_fields).length
        rw [wire_bytes, hx]
      · rintro e
        rw [Option.some.injEq] at e
        rw [e] at hx
        exact h hx.symm

/-- A value that a decoder may return: it is recovered from its own wire image, which has no tail. -/
def Settled {B : Type} [PduBody B] [Dec B] [Tail B] (x : B) : Prop :=
  decodable x ∧ kept x = x ∧ tail x = [] ∧ PduBody.prep x = x

macro "settle" : tactic => `(tactic| (
  repeat (first
    | refine Yields.list ?_
    | refine Yields.opt ?_
    | refine Yields.any fun _ => ?_)
  exact Yields.ret ⟨trivial, rfl, rfl, rfl⟩))

set_option maxRecDepth 8000

theorem TransmitterPdu.prep_of_length (x : TransmitterPdu)
    (h : x.modulation_parameter_length.toNat = (wire x.modulation_parameters).length) :
    TransmitterPdu.prep x = x := by
  have hl := len_exact x.modulation_parameters
  have hlt := x.modulation_parameter_length.toNat_lt
  unfold TransmitterPdu.prep
  simp only [hl, ← h, if_pos hlt, UInt8.ofNat_toNat]

theorem TransmitterPdu.settled (prof : Profile) : Yields prof TransmitterPdu.deserializeBody Settled := by
  iterate 16 refine Yields.any fun _ => ?_
  refine Yields.any fun n => ?_
  iterate 2 refine Yields.any fun _ => ?_
  refine Yields.bind (ModulationParameters.yields prof n) fun o ho => ?_
  refine Yields.opt ?_
  refine Yields.list ?_
  exact Yields.ret ⟨ho, rfl, rfl, TransmitterPdu.prep_of_length _ ho.1⟩

theorem AggregateStatePdu.settled (prof : Profile) : Yields prof AggregateStatePdu.deserializeBody Settled := by
  iterate 14 refine Yields.any fun _ => ?_
  iterate 5 refine Yields.list ?_
  refine Yields.any fun _ => ?_
  refine Yields.list ?_
  exact Yields.ret ⟨⟨rfl, rfl, rfl, rfl, rfl⟩, rfl, rfl, rfl⟩

theorem StopFreezePdu.settled (prof : Profile) : Yields prof StopFreezePdu.deserializeBody Settled := by
  iterate 4 refine Yields.any fun _ => ?_
  refine Yields.bind (FrozenBehavior.yields prof) fun _ h => ?_
  iterate 2 refine Yields.any fun _ => ?_
  exact Yields.ret ⟨h, rfl, rfl, rfl⟩

theorem StopFreezeReliablePdu.settled (prof : Profile) :
    Yields prof StopFreezeReliablePdu.deserializeBody Settled := by
  iterate 4 refine Yields.any fun _ => ?_
  refine Yields.bind (FrozenBehavior.yields prof) fun _ h => ?_
  iterate 3 refine Yields.any fun _ => ?_
  exact Yields.ret ⟨h, rfl, rfl, rfl⟩

theorem ArealObjectStatePdu.settled (prof : Profile) :
    Yields prof ArealObjectStatePdu.deserializeBody Settled := by
  iterate 6 refine Yields.any fun _ => ?_
  refine Yields.any fun _ => ?_
  refine Yields.bind (ObjectStateAppearanceGeneral.yields prof) fun _ h => ?_
  iterate 3 refine Yields.any fun _ => ?_
  refine Yields.list ?_
  exact Yields.ret ⟨h, rfl, rfl, rfl⟩

theorem InformationOperationsReportPdu.settled (prof : Profile) :
    Yields prof InformationOperationsReportPdu.deserializeBody Settled := by
  iterate 8 refine Yields.any fun _ => ?_
  refine Yields.bind (StandardVariableSpecification.yields prof) fun _ h => ?_
  exact Yields.ret ⟨h, rfl, rfl, rfl⟩

theorem InformationOperationsActionPdu.settled (prof : Profile) :
    Yields prof InformationOperationsActionPdu.deserializeBody Settled := by
  iterate 11 refine Yields.any fun _ => ?_
  refine Yields.bind (StandardVariableSpecification.yields prof) fun _ h => ?_
  exact Yields.ret ⟨h, rfl, rfl, rfl⟩

theorem TransferOwnershipPdu.settled :
    Yields ⟨true⟩ TransferOwnershipPdu.deserializeBody Settled := by
  iterate 6 refine Yields.any fun _ => ?_
  refine Yields.bind RecordSpecification.yields fun _ h => ?_
  exact Yields.ret ⟨h, rfl, rfl, rfl⟩

theorem SetRecordReliablePdu.settled :
    Yields ⟨true⟩ SetRecordReliablePdu.deserializeBody Settled := by
  iterate 7 refine Yields.any fun _ => ?_
  refine Yields.bind RecordSpecification.yields fun _ h => ?_
  exact Yields.ret ⟨h, rfl, rfl, rfl⟩

theorem PduKind.settled (k : PduKind) (h1 : k ≠ .EntityState) (prof : Profile)
    (h2 : k.hasRecordSets = true → prof = ⟨true⟩) :
    Yields prof (PduBody.deserializeBody : Get k.Body) Settled := by
  cases k
  case EntityState => exact absurd rfl h1
  case AggregateState => exact AggregateStatePdu.settled prof
  case StopFreeze => exact StopFreezePdu.settled prof
  case StopFreezeReliable => exact StopFreezeReliablePdu.settled prof
  case ArealObjectState => exact ArealObjectStatePdu.settled prof
  case InformationOperationsReport => exact InformationOperationsReportPdu.settled prof
  case InformationOperationsAction => exact InformationOperationsActionPdu.settled prof
  case Transmitter => exact TransmitterPdu.settled prof
  case TransferOwnership => rw [h2 rfl]; exact TransferOwnershipPdu.settled
  case SetRecordReliable => rw [h2 rfl]; exact SetRecordReliablePdu.settled
  all_goals (show Yields prof (_ >>= _) _; settle)

end Dis
