import Verif.Spec.PrivateFields
import Verif.Properties.Obtainable
/-
C57: what assignments do to a PDU.
-/
namespace Dis

theorem forall_mem_of {α : Type} {P : α → Prop} {x : α} {l : List α} (hx : P x) (hl : ∀ s ∈ l, P s) : ∀ s ∈ x :: l, P s :=
  List.forall_mem_cons.mpr ⟨hx, hl⟩

/-- Assigning every field a program can name from those of a body `c`: the private fields keep their values, the others get
those of `c`, so that nothing is left of the old body where `c` has the same private fields; and assigning the result to `c`
changes nothing. -/
theorem C57_assignment (k : PduKind) (b c : k.Body) :
    (∀ s ∈ k.privateFields, s.value (k.assign b c) = s.value b) ∧
    (∀ s ∈ k.layoutTable, s.offset ∉ k.privateFields.map (·.offset) → s.value (k.assign b c) = s.value c) ∧
    (k ≠ .AggregateState → (∀ s ∈ k.privateFields, s.value b = s.value c) → k.assign b c = c) ∧
    k.assign c (k.assign b c) = c := by
  refine ⟨?_, ?_, ?_, ?_⟩
  · cases k <;> repeat' first | exact List.forall_mem_nil _ | refine forall_mem_of rfl ?_
  · cases k <;> repeat' first
      | exact List.forall_mem_nil _
      | refine forall_mem_of (fun _ => rfl) ?_
      | refine forall_mem_of (fun h => absurd (by decide) h) ?_
  · intro hk h
    cases k
    case AggregateState => exact absurd rfl hk
    all_goals try rfl
    all_goals try first
      | have h1 := UInt8.toNat_inj.mp (h _ (.head _))
      | have h1 := UInt16.toNat_inj.mp (h _ (.head _))
      | have h1 := UInt32.toNat_inj.mp (h _ (.head _))
    all_goals try first
      | have h2 := UInt8.toNat_inj.mp (h _ (.tail _ (.head _)))
      | have h2 := UInt16.toNat_inj.mp (h _ (.tail _ (.head _)))
      | have h2 := UInt32.toNat_inj.mp (h _ (.tail _ (.head _)))
    all_goals try first
      | have h3 := UInt8.toNat_inj.mp (h _ (.tail _ (.tail _ (.head _))))
      | have h3 := UInt16.toNat_inj.mp (h _ (.tail _ (.tail _ (.head _))))
      | have h3 := UInt32.toNat_inj.mp (h _ (.tail _ (.tail _ (.head _))))
    all_goals try first
      | have h4 := UInt8.toNat_inj.mp (h _ (.tail _ (.tail _ (.tail _ (.head _)))))
      | have h4 := UInt16.toNat_inj.mp (h _ (.tail _ (.tail _ (.tail _ (.head _)))))
      | have h4 := UInt32.toNat_inj.mp (h _ (.tail _ (.tail _ (.tail _ (.head _)))))
    all_goals simp only [PduKind.assign,
      ElectromagneticEmissionsPdu.assign, DesignatorPdu.assign, UnderwaterAcousticPdu.assign, CollisionPdu.assign,
      CollisionElasticPdu.assign, EntityStateUpdatePdu.assign, AttributePdu.assign, IsGroupOfPdu.assign,
      InformationOperationsReportPdu.assign, InformationOperationsActionPdu.assign, ServiceRequestPdu.assign,
      ResupplyOfferPdu.assign, ResupplyReceivedPdu.assign, RepairCompletePdu.assign, RepairResponsePdu.assign,
      MinefieldQueryPdu.assign, MinefieldDataPdu.assign, TransmitterPdu.assign, ReceiverPdu.assign,
      StopFreezePdu.assign, SetDataPdu.assign, DataPdu.assign, EventReportPdu.assign, CreateEntityReliablePdu.assign,
      RemoveEntityReliablePdu.assign, StartResumeReliablePdu.assign, StopFreezeReliablePdu.assign,
      ActionRequestReliablePdu.assign, DataQueryReliablePdu.assign, SetDataReliablePdu.assign,
      DataReliablePdu.assign, EventReportReliablePdu.assign, RecordQueryReliablePdu.assign,
      SetRecordReliablePdu.assign, GriddedDataPdu.assign, PointObjectStatePdu.assign, DetonationPdu.assign,
      DirectedEnergyFirePdu.assign, EntityDamageStatusPdu.assign, *]
  · cases k <;> rfl

/-- The remaining private field, that of the aggregate state PDU, is a list: it is left as it is, and only it. -/
theorem C57_assignment_aggregate (b c : AggregateStatePdu) :
    (PduKind.assign .AggregateState b c).padding = b.padding ∧
    (b.padding = c.padding → PduKind.assign .AggregateState b c = c) :=
  ⟨rfl, fun h => by simp only [PduKind.assign, AggregateStatePdu.assign, h]⟩

/-- An assignment to a receiver PDU whose padding is 7: the number of the radio is assigned, the padding stays. -/
example :
    let b : ReceiverPdu := { (PduBody.default : ReceiverPdu) with padding := 7 }
    let c : ReceiverPdu := { (PduBody.default : ReceiverPdu) with padding := 9, transmitter_radio_id := 5 }
    PduKind.assign .Receiver b c = { (PduBody.default : ReceiverPdu) with padding := 7, transmitter_radio_id := 5 } ∧
    (∃ s ∈ PduKind.privateFields .Receiver, s.value b = 7 ∧ s.value c = 9) := by
  refine ⟨rfl, _, .head _, rfl, rfl⟩

/-- Two aggregate state PDUs with the same padding, one with another number of aggregates. -/
example : PduKind.assign .AggregateState { (PduBody.default : AggregateStatePdu) with padding := [1] }
    { (PduBody.default : AggregateStatePdu) with padding := [1], number_of_dis_aggregates := 3 } =
    { (PduBody.default : AggregateStatePdu) with padding := [1], number_of_dis_aggregates := 3 } :=
  (C57_assignment_aggregate _ _).2 rfl

end Dis
