import Verif.Proofs.RoundTrip
/-
Injectivity of wire images.
-/
namespace Dis
open PduBody (pduType family fieldsLen prep serializeBody deserializeBody)

theorem prefix_of_reads {α : Type} {g : Get α} {w v r s : Bytes} {a b : α} (h1 : Reads g w a)
    (h2 : Reads g v b) (e : w ++ r = v ++ s) : a = b ∧ r = s := by
  have h := h1 ⟨true⟩ r
  rw [e, h2 ⟨true⟩ s] at h
  simp only [Except.ok.injEq, Prod.mk.injEq] at h
  exact ⟨h.1.symm, h.2.symm⟩

/-- A list of elements, each recovered by the same reader and of at least one octet, is determined by
its wire image. -/
theorem wire_list_inj {α : Type} [Wire α] [FieldDeserialize α] [Dec α] [LawfulDec α] [ExactDec α]
    {n : Nat} [FixedDec α n] (hn : 0 < n) : ∀ l l' : List α, wire l = wire l' → l = l'
  | [], [], _ => rfl
  | [], y :: ys, h => by
    have hl := (reads_exact y).length_eq FixedDec.fixed
    have := congrArg List.length (show [] = wire y ++ wire ys from h)
    rw [List.length_append, List.length_nil] at this
    omega
  | x :: xs, [], h => by
    have hl := (reads_exact x).length_eq FixedDec.fixed
    have := congrArg List.length (show wire x ++ wire xs = [] from h)
    rw [List.length_append, List.length_nil] at this
    omega
  | x :: xs, y :: ys, h => by
    have h' : wire x ++ wire xs = wire y ++ wire ys := h
    obtain ⟨e1, e2⟩ := prefix_of_reads (reads_exact x) (reads_exact y) h'
    rw [e1, wire_list_inj hn xs ys e2]

theorem one_list {B α : Type} [PduBody B] [Wire B] [Enc B] [Dec B] [Tail B] [LawfulBody B]
    [Wire α] [FieldDeserialize α] [Dec α] [LawfulDec α] [ExactDec α] {n : Nat} [FixedDec α (n + 1)]
    (get : B → List α) (put : B → List α → B) (hp : ∀ x, put (kept x) (get x) = x)
    (ht : ∀ x, tail x = wire (get x)) {x y : B} (hx : decodable x) (hy : decodable y)
    (h : wire x = wire y) : x = y := by
  rw [LawfulBody.split x, LawfulBody.split y] at h
  obtain ⟨e1, e2⟩ := prefix_of_reads (LawfulBody.reads x hx) (LawfulBody.reads y hy) h
  rw [ht, ht] at e2
  rw [← hp x, ← hp y, e1, wire_list_inj (Nat.succ_pos n) _ _ e2]

theorem PduKind.wire_inj_list (k : PduKind) (hk : k.oneList = true) {x y : k.Body}
    (h : wire x = wire y) : x = y := by
  cases k
  case IFF => exact one_list IFFPdu.iff_parameters (fun x l => ({ x with iff_parameters := l } : IFFPdu)) (fun _ => rfl) (fun _ => rfl) trivial trivial h
  case EntityStateUpdate => exact one_list EntityStateUpdatePdu.variable_parameter_records (fun x l => ({ x with variable_parameter_records := l } : EntityStateUpdatePdu)) (fun _ => rfl) (fun _ => rfl) trivial trivial h
  case IsGroupOf => exact one_list IsGroupOfPdu.grouped_entity_descriptions (fun x l => ({ x with grouped_entity_descriptions := l } : IsGroupOfPdu)) (fun _ => rfl) (fun _ => rfl) trivial trivial h
  case ServiceRequest => exact one_list ServiceRequestPdu.supplies (fun x l => ({ x with supplies := l } : ServiceRequestPdu)) (fun _ => rfl) (fun _ => rfl) trivial trivial h
  case ResupplyOffer => exact one_list ResupplyOfferPdu.supplies (fun x l => ({ x with supplies := l } : ResupplyOfferPdu)) (fun _ => rfl) (fun _ => rfl) trivial trivial h
  case ResupplyReceived => exact one_list ResupplyReceivedPdu.supplies (fun x l => ({ x with supplies := l } : ResupplyReceivedPdu)) (fun _ => rfl) (fun _ => rfl) trivial trivial h
  case MinefieldResponseNack => exact one_list MinefieldResponseNackPdu.missing_pdu_sequence_numbers (fun x l => ({ x with missing_pdu_sequence_numbers := l } : MinefieldResponseNackPdu)) (fun _ => rfl) (fun _ => rfl) trivial trivial h
  case Signal => exact one_list SignalPdu.data (fun x l => ({ x with data := l } : SignalPdu)) (fun _ => rfl) (fun _ => rfl) trivial trivial h
  case IntercomSignal => exact one_list IntercomSignalPdu.data (fun x l => ({ x with data := l } : IntercomSignalPdu)) (fun _ => rfl) (fun _ => rfl) trivial trivial h
  case IntercomControl => exact one_list IntercomControlPdu.intercom_parameters (fun x l => ({ x with intercom_parameters := l } : IntercomControlPdu)) (fun _ => rfl) (fun _ => rfl) trivial trivial h
  case RecordQueryReliable => exact one_list RecordQueryReliablePdu.record_ids (fun x l => ({ x with record_ids := l } : RecordQueryReliablePdu)) (fun _ => rfl) (fun _ => rfl) trivial trivial h
  case EnvironmentalProcess => exact one_list EnvironmentalProcessPdu.environment_records (fun x l => ({ x with environment_records := l } : EnvironmentalProcessPdu)) (fun _ => rfl) (fun _ => rfl) trivial trivial h
  case LinearObjectState => exact one_list LinearObjectStatePdu.linear_segment_parameters (fun x l => ({ x with linear_segment_parameters := l } : LinearObjectStatePdu)) (fun _ => rfl) (fun _ => rfl) trivial trivial h
  case Detonation => exact one_list DetonationPdu.variable_parameters (fun x l => ({ x with variable_parameters := l } : DetonationPdu)) (fun _ => rfl) (fun _ => rfl) trivial trivial h
  case DirectedEnergyFire => exact one_list DirectedEnergyFirePdu.damage_descriptions (fun x l => ({ x with damage_descriptions := l } : DirectedEnergyFirePdu)) (fun _ => rfl) (fun _ => rfl) trivial trivial h
  case EntityDamageStatus => exact one_list EntityDamageStatusPdu.damage_descriptions (fun x l => ({ x with damage_descriptions := l } : EntityDamageStatusPdu)) (fun _ => rfl) (fun _ => rfl) trivial trivial h
  all_goals exact absurd hk (by decide)

/-- Reads the octet of a flag set as it is. -/
theorem FrozenBehavior.reads_raw (x : FrozenBehavior) :
    Reads (do return ⟨← getU8⟩ : Get FrozenBehavior) (wire x) x :=
  Reads.map (f := FrozenBehavior.mk) (reads_u8 x.bits)

theorem StopFreezePdu.wire_inj {x y : StopFreezePdu} (h : wire x = wire y) : x = y := by
  let g : Get StopFreezePdu := do
    let a ← deserialize_field
    let b ← deserialize_field
    let c ← deserialize_field
    let d ← deserialize_field
    let e ← (do return ⟨← getU8⟩ : Get FrozenBehavior)
    let f ← deserialize_field
    let i ← deserialize_field
    return ⟨a, b, c, d, e, f, i⟩
  have hr : ∀ x : StopFreezePdu, Reads g (wire x) x := fun x =>
    Reads.bind (reads_exact x.originating_entity_id) <|
    Reads.bind (reads_exact x.receiving_entity_id) <|
    Reads.bind (reads_exact x.real_world_time) <|
    Reads.bind (reads_exact x.reason) <|
    Reads.bind x.frozen_behavior.reads_raw <|
    Reads.bind (reads_exact x.padding) <|
    Reads.last (reads_exact x.request_id) (Reads.ret _)
  exact (prefix_of_reads (r := []) (s := []) (hr x) (hr y) (by rw [h])).1

theorem StopFreezeReliablePdu.wire_inj {x y : StopFreezeReliablePdu} (h : wire x = wire y) : x = y := by
  let g : Get StopFreezeReliablePdu := do
    let a ← deserialize_field
    let b ← deserialize_field
    let c ← deserialize_field
    let d ← deserialize_field
    let e ← (do return ⟨← getU8⟩ : Get FrozenBehavior)
    let f ← deserialize_field
    let i ← deserialize_field
    let j ← deserialize_field
    return ⟨a, b, c, d, e, f, i, j⟩
  have hr : ∀ x : StopFreezeReliablePdu, Reads g (wire x) x := fun x =>
    Reads.bind (reads_exact x.originating_entity_id) <|
    Reads.bind (reads_exact x.receiving_entity_id) <|
    Reads.bind (reads_exact x.real_world_time) <|
    Reads.bind (reads_exact x.reason) <|
    Reads.bind x.frozen_behavior.reads_raw <|
    Reads.bind (reads_exact x.required_reliability_service) <|
    Reads.bind (reads_exact x.padding) <|
    Reads.last (reads_exact x.request_id) (Reads.ret _)
  exact (prefix_of_reads (r := []) (s := []) (hr x) (hr y) (by rw [h])).1

theorem PduKind.wire_inj (k : PduKind) (hk : k.fixedLayout = true ∨ k.oneList = true) {x y : k.Body}
    (h : wire x = wire y) : x = y := by
  rcases hk with hk | hk
  · by_cases hu : k.unconditional = true
    · have hr := fun z : k.Body => LawfulBody.reads z (k.unconditional_decodable hu z)
      simp only [(k.layout hk _).1] at hr
      exact (prefix_of_reads (r := []) (s := []) (hr x) (hr y) (by rw [h])).1
    · cases k
      case StopFreeze => exact StopFreezePdu.wire_inj h
      case StopFreezeReliable => exact StopFreezeReliablePdu.wire_inj h
      all_goals first | exact absurd hk (by decide) | exact absurd rfl hu
  · exact k.wire_inj_list hk h

end Dis
