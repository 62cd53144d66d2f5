import Verif.Spec.ByHand
import Verif.Proofs.ToldPdus
import Verif.Proofs.MessageSize
/-
The receiver written by hand reads what the crate's encoders write: for C66.
-/
set_option maxRecDepth 8000
namespace Dis

/-! ### Records -/

theorem VariableDatumRecord.reads_byHand (x : VariableDatumRecord) (h : x.truthful) :
    Reads VariableDatumRecord.byHand (wire x) x := by
  obtain ⟨a, n, v⟩ := x
  replace h : n.toNat = 8 * v.length := h
  refine Reads.bind (reads_u32 a) <| Reads.bind (reads_u32 n) <| Reads.bind ?_ <| Reads.last (a := List.replicate (padOctets n.toNat) 0) ?_ (Reads.ret _)
  · exact Reads.counted (show (n.toNat + 7) / 8 = v.length by omega) fun e _ => reads_u8 e
  · refine reads_bytes _ ?_
    rw [List.length_replicate, padOctets_eq]

theorem beBytes_low {c : Nat} (h : c < 256) : ∀ n, beBytes (n + 1) c = List.replicate n 0 ++ beBytes 1 c
  | 0 => rfl
  | n + 1 => by
    have h1 : c / 256 ^ (n + 1) = 0 :=
      Nat.div_eq_of_lt (Nat.lt_of_lt_of_le h (Nat.le_trans (Nat.le_of_eq (Nat.pow_one 256).symm)
        (Nat.pow_le_pow_right (by decide) (by omega))))
    show UInt8.ofNat (c / 256 ^ (n + 1)) :: beBytes (n + 1) c = _
    rw [h1, beBytes_low h n]
    rfl

theorem octets_split {S : EnumSpec} (hs : ∀ c ∈ S.codes, c < 256) (n : Nat) (a : EnumVal S) :
    octets (n + 1) a.code = List.replicate n 0 ++ octets 1 a.code := by
  rw [octets_eq, octets_eq, beBytes_low (hs _ a.mem)]

theorem VariableTransmitterParameters.reads_byHand (x : VariableTransmitterParameters)
    (h : x.record_length.toNat = x.record_specific_fields.length) :
    Reads VariableTransmitterParameters.byHand (wire x) x := by
  refine Reads.congr (w := List.replicate 3 0 ++ (wire x.record_type ++ (wire x.record_length ++ wire x.record_specific_fields)))
    (a := x) ?_ ?_ rfl
  · refine Reads.bind (reads_bytes _ rfl) <| Reads.bind (EnumSpec.reads _) <| Reads.bind (reads_u16 _) <|
      Reads.last (Reads.counted h fun e _ => reads_u8 e) (Reads.ret _)
  · show _ = octets 4 _ ++ _
    rw [octets_split (by decide +kernel) 3 x.record_type, List.append_assoc]
    rfl

theorem GridAxisDescriptor.reads_byHand (x : GridAxisDescriptor) (h : x.truthful) : Reads GridAxisDescriptor.byHand (wire x) x := by
  obtain ⟨a, b, c, d, t, data⟩ := x
  refine Reads.bind (reads_f64 a) <| Reads.bind (reads_f64 b) <| Reads.bind (reads_u16 c) <| Reads.bind (reads_u8 d) <|
    Reads.bind (EnumSpec.reads t) ?_
  cases data with
  | FixedSpacing n i =>
    have ht : t = .RegularAxis := h
    subst ht
    refine Reads.bind (reads_u16 n) <| Reads.last (reads_u16 i) ?_
    rw [if_pos rfl]
    exact Reads.ret _
  | VariableSpacing n i s o values padding =>
    obtain ⟨ht, hn, hp, hp'⟩ : t = .IrregularAxis ∧ n.toNat = values.length ∧
      padding.length < 8 ∧ (40 + 2 * values.length + padding.length) % 8 = 0 := h
    subst ht
    refine Reads.bind (reads_u16 n) <| Reads.bind (reads_u16 i) ?_
    rw [if_neg (by decide)]
    refine Reads.bind (reads_f64 s) <| Reads.bind (reads_f64 o) <|
      Reads.bind (Reads.counted hn fun e _ => reads_u16 e) <| Reads.last (a := padding) ?_ (Reads.ret _)
    refine (reads_bytes padding ?_).congr (wire_bytes _).symm rfl
    omega

theorem GridDataRecord.reads_byHand (x : GridDataRecord) (h : x.truthful) : Reads GridDataRecord.byHand (wire x) x := by
  obtain ⟨t, r, data⟩ := x
  refine Reads.congr (w := [0] ++ (wire t ++ ([0] ++ (wire r ++ wire data)))) (a := ⟨t, r, data⟩) ?_ ?_ rfl
  · have h0 : Reads getU8 [0] 0 := reads_u8 0
    refine Reads.bind h0 <| Reads.bind (EnumSpec.reads t) <| Reads.bind h0 <| Reads.bind (EnumSpec.reads r) ?_
    cases data with
    | Type0 n values padding =>
      obtain ⟨hr, hn, hp, hp'⟩ : r.code = 0 ∧ n.toNat = values.length ∧ padding.length < 4 ∧
        (6 + values.length + padding.length) % 4 = 0 := h
      rw [if_pos hr]
      refine Reads.bind (reads_u16 n) <| Reads.bind (Reads.counted hn fun e _ => reads_u8 e) <|
        Reads.last (a := padding) ?_ (Reads.ret _)
      refine (reads_bytes padding ?_).congr (wire_bytes _).symm rfl
      omega
    | Type1 s o n values padding =>
      obtain ⟨hr, hn, hp, hp'⟩ : r.code = 1 ∧ n.toNat = values.length ∧ padding.length < 4 ∧
        (14 + 2 * values.length + padding.length) % 4 = 0 := h
      rw [if_neg (by omega), if_pos hr]
      refine Reads.bind (reads_f32 s) <| Reads.bind (reads_f32 o) <| Reads.bind (reads_u16 n) <|
        Reads.bind (Reads.counted hn fun e _ => reads_u16 e) <| Reads.last (a := padding) ?_ (Reads.ret _)
      refine (reads_bytes padding ?_).congr (wire_bytes _).symm rfl
      omega
    | Type2 n p values =>
      obtain ⟨hr, hn⟩ : r.code = 2 ∧ n.toNat = values.length := h
      rw [if_neg (by omega), if_neg (by omega)]
      exact Reads.bind (reads_u16 n) <| Reads.bind (reads_u16 p) <|
        Reads.last (Reads.counted hn fun e _ => reads_f32 e) (Reads.ret _)
  · show _ = octets 2 t.code ++ (octets 2 r.code ++ _)
    rw [octets_split (by decide +kernel) 1 t, octets_split (by decide +kernel) 1 r]
    simp only [List.append_assoc]
    rfl

/-! ### PDUs read by hand -/

theorem Reads.nothing {α : Type} {g : Get α} {v : Bytes} {a : α} (h : Reads g v a) : Reads g (wire ([] : Bytes) ++ v) a := h

theorem fromUTF8_strBytes (s : String) : String.fromUTF8? ⟨(strBytes s).toArray⟩ = some s := by
  have : ByteArray.mk (strBytes s).toArray = s.toByteArray := by
    unfold strBytes
    rw [Array.toArray_toList]
  rw [this]
  unfold String.fromUTF8?
  rw [dif_pos s.isValidUTF8]
  rfl

theorem EntityStatePdu.reads_byHand (x : EntityStatePdu) (h1 : (strBytes x.entity_marking.entity_marking_string).length = 11)
    (h2 : x.number_of_articulation_parameters.toNat = x.articulation_parameter.length) :
    Reads EntityStatePdu.byHand (wire x) x := by
  obtain ⟨a1, a2, a3, a4, a5, a6, a7, a8, a9, a10, ⟨c, s⟩, a12, l⟩ := x
  refine Reads.congr (w := wire a1 ++ (wire a2 ++ (wire a3 ++ (wire a4 ++ (wire a5 ++ (wire a6 ++ (wire a7 ++ (wire a8 ++
    (wire a9 ++ (wire a10 ++ (wire c ++ (strBytes s ++ (wire a12 ++ wire l))))))))))))) (a := _) ?_ ?_ rfl
  · refine Reads.bind (EntityId.reads a1) <| Reads.bind (EnumSpec.reads a2) <| Reads.bind (reads_u8 a3) <|
      Reads.bind (EntityType.reads a4) <| Reads.bind (EntityType.reads a5) <| Reads.bind (LinearVelocity.reads a6) <|
      Reads.bind (WorldCoordinate.reads a7) <| Reads.bind (EulerAngles.reads a8) <| Reads.bind (reads_u32 a9) <|
      Reads.bind (DeadReckoningParameters.reads a10) <| Reads.bind (EnumSpec.reads c) <|
      Reads.bind (reads_bytes (strBytes s) h1.symm) <| Reads.bind (reads_exact a12) <|
      Reads.last (Reads.counted h2 fun e _ => VariableParameter.reads e) ?_
    rw [fromUTF8_strBytes]
    exact Reads.ret _
  · show _ = wire a1 ++ (wire a2 ++ (wire a3 ++ (wire a4 ++ (wire a5 ++ (wire a6 ++ (wire a7 ++ (wire a8 ++
      (wire a9 ++ (wire a10 ++ ((wire c ++ strBytes s) ++ (wire a12 ++ wire l)))))))))))
    rw [List.append_assoc (wire c)]

theorem AggregateStatePdu.reads_byHand (x : AggregateStatePdu) (h : x.truthful) : Reads AggregateStatePdu.byHand (wire x) x := by
  obtain ⟨a1, a2, a3, a4, a5, a6, a7, a8, a9, a10, a11, a12, a13, a14, l1, l2, l3, l4, l5, n, l6⟩ := x
  obtain ⟨h1, h2, h3, h4, h5, h6, h7⟩ := h
  dsimp only at h1 h2 h3 h4 h5 h6 h7
  subst h3
  exact Reads.bind (AggregateId.reads a1) <| Reads.bind (EnumSpec.reads a2) <| Reads.bind (EnumSpec.reads a3) <|
    Reads.bind (EntityType.reads a4) <| Reads.bind (EnumSpec.reads a5) <| Reads.bind (AggregateMarking.reads a6) <|
    Reads.bind (Vector3Float.reads a7) <| Reads.bind (EulerAngles.reads a8) <| Reads.bind (WorldCoordinate.reads a9) <|
    Reads.bind (LinearVelocity.reads a10) <| Reads.bind (reads_u16 a11) <| Reads.bind (reads_u16 a12) <|
    Reads.bind (reads_u16 a13) <| Reads.bind (reads_u16 a14) <|
    Reads.bind (Reads.counted h1 fun e _ => AggregateId.reads e) <| Reads.bind (Reads.counted h2 fun e _ => EntityId.reads e) <|
    Reads.nothing <|
    Reads.bind (Reads.counted h4 fun e _ => EntityType.reads e) <| Reads.bind (Reads.counted h5 fun e _ => EntityType.reads e) <|
    Reads.bind (reads_u32 n) <|
    Reads.last (Reads.counted h6 fun e he => VariableDatumRecord.reads_byHand e (h7 e he)) (Reads.ret _)

theorem StopFreezePdu.reads_byHand (x : StopFreezePdu) : Reads StopFreezePdu.byHand (wire x) x :=
  Reads.bind (EntityId.reads _) <| Reads.bind (EntityId.reads _) <| Reads.bind (ClockTime.reads _) <|
    Reads.bind (reads_exact x.reason) <| Reads.bind (reads_u8 x.frozen_behavior.bits) <| Reads.bind (reads_u16 _) <|
    Reads.last (reads_u32 _) (Reads.ret x)

theorem StopFreezeReliablePdu.reads_byHand (x : StopFreezeReliablePdu) : Reads StopFreezeReliablePdu.byHand (wire x) x :=
  Reads.bind (EntityId.reads _) <| Reads.bind (EntityId.reads _) <| Reads.bind (ClockTime.reads _) <|
    Reads.bind (reads_exact x.reason) <| Reads.bind (reads_u8 x.frozen_behavior.bits) <| Reads.bind (reads_u8 _) <|
    Reads.bind (reads_u8 _) <| Reads.last (reads_u32 _) (Reads.ret x)

theorem ArealObjectStatePdu.reads_byHand (x : ArealObjectStatePdu) (h : x.number_of_points.toNat = x.object_location.length) :
    Reads ArealObjectStatePdu.byHand (wire x) x :=
  Reads.bind (ObjectIdentifier.reads _) <| Reads.bind (ObjectIdentifier.reads _) <| Reads.bind (reads_u16 _) <|
    Reads.bind (EnumSpec.reads _) <| Reads.bind (reads_u8 _) <| Reads.bind (ObjectType.reads _) <| Reads.bind (reads_u32 _) <|
    Reads.bind (reads_u16 x.general_object_appearance.bits) <| Reads.bind (reads_u16 _) <|
    Reads.bind (SimulationAddress.reads _) <| Reads.bind (SimulationAddress.reads _) <|
    Reads.last (Reads.counted h fun e _ => WorldCoordinate.reads e) (Reads.ret x)

/-! ### PDUs completed by hand -/

theorem reads_somes {α : Type} [Wire α] {get : Get α} (hg : ∀ x, Reads get (wire x) x) {l : List (Option α)}
    (hl : ∀ o ∈ l, o.isSome) {n : Nat} (hn : n = l.length) : Reads (do return (← getN get n).map some) (wire l) l := by
  obtain ⟨m, rfl⟩ : ∃ m : List α, l = m.map some := by
    clear hn
    induction l with
    | nil => exact ⟨[], rfl⟩
    | cons o l ih =>
      obtain ⟨m, rfl⟩ := ih fun o ho => hl o (List.mem_cons_of_mem _ ho)
      cases o with
      | none => cases hl none (List.mem_cons_self ..)
      | some x => exact ⟨x :: m, rfl⟩
  rw [List.length_map] at hn
  refine (Reads.map (Reads.counted hn fun e _ => hg e)).congr ?_ rfl
  show m.flatMap wire = (m.map some).flatMap wire
  rw [List.flatMap_map]
  rfl

theorem reads_reported {α : Type} [Wire α] {get : Get α} (hg : ∀ x, Reads get (wire x) x) {f : UInt32} {i n : Nat}
    {l : List (Option α)} (h : reported f i n l) : Reads (readReported f i n get) (wire l) l := by
  unfold readReported
  obtain ⟨h1, h2⟩ := h
  split
  · next hb =>
    rw [if_pos hb] at h1
    exact reads_somes hg h2 h1.symm
  · next hb =>
    rw [if_neg hb] at h1
    rw [List.eq_nil_of_length_eq_zero h1]
    exact Reads.ret []

theorem reads_vertices : ∀ (ns : List (Option UInt8)) (l : List (Option (List EntityCoordinateVector))),
    (∀ o ∈ l, o.isSome) → (l.map fun o => (o.getD []).length) = (ns.map fun o => (o.getD 0).toNat) →
    Reads (readVertices ns) (wire l) l
  | [], [], _, _ => Reads.ret []
  | [], _ :: _, _, e => nomatch e
  | _ :: _, [], _, e => nomatch e
  | _ :: _, none :: _, h, _ => nomatch h none (List.mem_cons_self ..)
  | n :: ns, some v :: l, h, e => by
    rw [List.map_cons, List.map_cons, List.cons.injEq] at e
    refine Reads.bind (Reads.counted e.1.symm fun x _ => EntityCoordinateVector.reads x) <|
      Reads.last (reads_vertices ns l (fun o ho => h o (List.mem_cons_of_mem _ ho)) e.2) (Reads.ret _)

theorem MinefieldDataPdu.completes (x : MinefieldDataPdu) (h : x.truthful) :
    Reads (MinefieldDataPdu.complete (kept x)) (tail x) x := by
  obtain ⟨h1, h2, h3, h4, h5, h6, h7, h8, h9, h10, h11, h12, h13, h14, h15, h16, h17⟩ := h
  exact Reads.bind (Reads.counted h1 fun e _ => EnumSpec.reads e) <|
    Reads.bind (Reads.counted h2 fun e _ => EntityCoordinateVector.reads e) <|
    Reads.bind (reads_reported reads_f32 h3) <| Reads.bind (reads_reported reads_f32 h4) <|
    Reads.bind (reads_reported reads_f32 h5) <| Reads.bind (reads_reported EulerAngles.reads h6) <|
    Reads.bind (reads_reported reads_f32 h7) <| Reads.bind (reads_reported reads_f32 h8) <|
    Reads.bind (reads_reported ClockTime.reads h9) <| Reads.bind (reads_somes reads_u16 h10.2 h10.1.symm) <|
    Reads.bind (reads_reported reads_u16 h11) <| Reads.bind (reads_reported reads_u8 h12) <|
    Reads.bind (reads_reported reads_u8 h13) <| Reads.bind (reads_reported reads_u8 h14) <|
    Reads.bind (reads_reported reads_u8 h15) <| Reads.last (reads_vertices _ _ h16 h17) (Reads.ret x)

theorem one_completed {B α : Type} [PduBody B] [Wire B] [Enc B] [Dec B] [Tail B] [LawfulBody B] [Wire α]
    (get : B → List α) (put : B → List α → B) (hp : ∀ x, put (kept x) (get x) = x) (ht : ∀ x, tail x = wire (get x))
    {g : Get α} (hg : ∀ e, Reads g (wire e) e) {s : Nat} (hs : 0 < s) {head n : Nat} {b : B} (hn : n = head + s * (get b).length) :
    Reads (do let l ← getN g ((n - head) / s); return put (kept b) l) (tail b) b := by
  rw [ht b]
  refine Reads.last (Reads.counted ?_ fun e _ => hg e) ?_
  · rw [hn, Nat.add_sub_cancel_left, Nat.mul_div_cancel_left _ hs]
  · rw [hp]
    exact Reads.ret b

theorem datums_completed {B : Type} [PduBody B] [Wire B] [Enc B] [Dec B] [Tail B] [LawfulBody B]
    (fixed : B → List FixedDatumRecord) (variables : B → List VariableDatumRecord)
    (put : B → List FixedDatumRecord → List VariableDatumRecord → B)
    (hp : ∀ x, put (kept x) (fixed x) (variables x) = x) (ht : ∀ x, tail x = wire (fixed x) ++ wire (variables x))
    {n m : UInt32} {b : B} (h : datumsTruthful n m (fixed b) (variables b)) :
    Reads (do
      let l ← getN FixedDatumRecord.deserialize n.toNat
      let l' ← getN VariableDatumRecord.byHand m.toNat
      return put (kept b) l l') (tail b) b := by
  rw [ht b]
  refine Reads.bind (Reads.counted h.1 fun e _ => FixedDatumRecord.reads e) <|
    Reads.last (Reads.counted h.2.1 fun e he => VariableDatumRecord.reads_byHand e (h.2.2 e he)) ?_
  rw [hp]
  exact Reads.ret b

/-- Kinds completed after the crate's decoder has run, and of which it recovers every value but for the lists. -/
theorem PduKind.completes (k : PduKind) (hk : k.unconditional = true) (b : k.Body) (ht : k.truthful b) {n : Nat}
    (hn : n = k.ieeeOctets + k.listOctets b) : Reads (k.complete n (kept b)) (tail b) b := by
  cases k
  case IFF =>
    refine one_completed (B := IFFPdu) IFFPdu.iff_parameters (fun x l => ({ x with iff_parameters := l } : IFFPdu)) (fun _ => rfl)
      (fun _ => rfl) (g := IFFFundamentalParameterData.deserialize) (fun e => IFFFundamentalParameterData.reads e) (s := 24) (by decide) hn
  case EntityStateUpdate =>
    refine one_completed (B := EntityStateUpdatePdu) EntityStateUpdatePdu.variable_parameter_records (fun x l => ({ x with variable_parameter_records := l } : EntityStateUpdatePdu)) (fun _ => rfl)
      (fun _ => rfl) (g := VariableParameter.deserialize) (fun e => VariableParameter.reads e) (s := 16) (by decide) hn
  case IsGroupOf =>
    refine one_completed (B := IsGroupOfPdu) IsGroupOfPdu.grouped_entity_descriptions (fun x l => ({ x with grouped_entity_descriptions := l } : IsGroupOfPdu)) (fun _ => rfl)
      (fun _ => rfl) (g := getU64) (fun e => reads_u64 e) (s := 8) (by decide) hn
  case ServiceRequest =>
    refine one_completed (B := ServiceRequestPdu) ServiceRequestPdu.supplies (fun x l => ({ x with supplies := l } : ServiceRequestPdu)) (fun _ => rfl)
      (fun _ => rfl) (g := SupplyQuantity.deserialize) (fun e => SupplyQuantity.reads e) (s := 12) (by decide) hn
  case ResupplyOffer =>
    refine one_completed (B := ResupplyOfferPdu) ResupplyOfferPdu.supplies (fun x l => ({ x with supplies := l } : ResupplyOfferPdu)) (fun _ => rfl)
      (fun _ => rfl) (g := SupplyQuantity.deserialize) (fun e => SupplyQuantity.reads e) (s := 12) (by decide) hn
  case ResupplyReceived =>
    refine one_completed (B := ResupplyReceivedPdu) ResupplyReceivedPdu.supplies (fun x l => ({ x with supplies := l } : ResupplyReceivedPdu)) (fun _ => rfl)
      (fun _ => rfl) (g := SupplyQuantity.deserialize) (fun e => SupplyQuantity.reads e) (s := 12) (by decide) hn
  case MinefieldResponseNack =>
    refine one_completed (B := MinefieldResponseNackPdu) MinefieldResponseNackPdu.missing_pdu_sequence_numbers (fun x l => ({ x with missing_pdu_sequence_numbers := l } : MinefieldResponseNackPdu)) (fun _ => rfl)
      (fun _ => rfl) (g := getU64) (fun e => reads_u64 e) (s := 8) (by decide) hn
  case Signal =>
    refine one_completed (B := SignalPdu) SignalPdu.data (fun x l => ({ x with data := l } : SignalPdu)) (fun _ => rfl)
      (fun _ => rfl) (g := getU8) (fun e => reads_u8 e) (s := 1) (by decide) (hn.trans (by rw [Nat.one_mul]; rfl))
  case IntercomSignal =>
    refine one_completed (B := IntercomSignalPdu) IntercomSignalPdu.data (fun x l => ({ x with data := l } : IntercomSignalPdu)) (fun _ => rfl)
      (fun _ => rfl) (g := getU8) (fun e => reads_u8 e) (s := 1) (by decide) (hn.trans (by rw [Nat.one_mul]; rfl))
  case IntercomControl =>
    refine one_completed (B := IntercomControlPdu) IntercomControlPdu.intercom_parameters (fun x l => ({ x with intercom_parameters := l } : IntercomControlPdu)) (fun _ => rfl)
      (fun _ => rfl) (g := IntercomCommunicationsParameters.deserialize) (fun e => IntercomCommunicationsParameters.reads e) (s := 8) (by decide) hn
  case RecordQueryReliable =>
    refine one_completed (B := RecordQueryReliablePdu) RecordQueryReliablePdu.record_ids (fun x l => ({ x with record_ids := l } : RecordQueryReliablePdu)) (fun _ => rfl)
      (fun _ => rfl) (g := getU32) (fun e => reads_u32 e) (s := 4) (by decide) hn
  case EnvironmentalProcess =>
    refine one_completed (B := EnvironmentalProcessPdu) EnvironmentalProcessPdu.environment_records (fun x l => ({ x with environment_records := l } : EnvironmentalProcessPdu)) (fun _ => rfl)
      (fun _ => rfl) (g := Environment.deserialize) (fun e => Environment.reads e) (s := 8) (by decide) hn
  case LinearObjectState =>
    refine one_completed (B := LinearObjectStatePdu) LinearObjectStatePdu.linear_segment_parameters (fun x l => ({ x with linear_segment_parameters := l } : LinearObjectStatePdu)) (fun _ => rfl)
      (fun _ => rfl) (g := LinearSegmentParameter.deserialize) (fun e => LinearSegmentParameter.reads e) (s := 66) (by decide) hn
  case Detonation =>
    refine one_completed (B := DetonationPdu) DetonationPdu.variable_parameters (fun x l => ({ x with variable_parameters := l } : DetonationPdu)) (fun _ => rfl)
      (fun _ => rfl) (g := VariableParameter.deserialize) (fun e => VariableParameter.reads e) (s := 16) (by decide) hn
  case DirectedEnergyFire =>
    refine one_completed (B := DirectedEnergyFirePdu) DirectedEnergyFirePdu.damage_descriptions (fun x l => ({ x with damage_descriptions := l } : DirectedEnergyFirePdu)) (fun _ => rfl)
      (fun _ => rfl) (g := DirectedEnergyDamage.deserialize) (fun e => DirectedEnergyDamage.reads e) (s := 40) (by decide) hn
  case EntityDamageStatus =>
    refine one_completed (B := EntityDamageStatusPdu) EntityDamageStatusPdu.damage_descriptions (fun x l => ({ x with damage_descriptions := l } : EntityDamageStatusPdu)) (fun _ => rfl)
      (fun _ => rfl) (g := DirectedEnergyDamage.deserialize) (fun e => DirectedEnergyDamage.reads e) (s := 40) (by decide) hn
  case ElectromagneticEmissions =>
    exact Reads.last (Reads.counted ht.1 fun e he => ElectromagneticEmissionSystemData.reads e (ht.2 e he)) (Reads.ret (α := ElectromagneticEmissionsPdu) b)
  case Attribute =>
    exact Reads.last (Reads.counted ht.1 fun e he => AttributeRecordSet.reads e (ht.2 e he)) (Reads.ret (α := AttributePdu) b)
  case UnderwaterAcoustic =>
    exact Reads.bind (Reads.counted ht.1 fun e _ => ShaftRPMs.reads e) <|
      Reads.bind (Reads.counted ht.2.1 fun e _ => ApaData.reads e) <|
      Reads.last (Reads.counted ht.2.2 fun e _ => AcousticEmitterSystem.reads e) (Reads.ret (α := UnderwaterAcousticPdu) b)
  case SupplementalEmission =>
    exact Reads.bind (Reads.counted ht.1 fun e _ => PropulsionSystemData.reads e) <|
      Reads.last (Reads.counted ht.2 fun e _ => VectoringNozzleSystemData.reads e) (Reads.ret (α := SupplementalEmissionPdu) b)
  case MinefieldState =>
    exact Reads.bind (Reads.counted ht.1 fun e _ => Point.reads e) <|
      Reads.last (Reads.counted ht.2 fun e _ => EntityType.reads e) (Reads.ret (α := MinefieldStatePdu) b)
  case MinefieldQuery =>
    exact Reads.bind (Reads.counted ht.1 fun e _ => Point.reads e) <|
      Reads.last (Reads.counted ht.2 fun e _ => EnumSpec.reads e) (Reads.ret (α := MinefieldQueryPdu) b)
  case DataQueryReliable =>
    exact Reads.bind (Reads.counted ht.1 fun e _ => EnumSpec.reads e) <|
      Reads.last (Reads.counted ht.2 fun e _ => EnumSpec.reads e) (Reads.ret (α := DataQueryReliablePdu) b)
  case GriddedData =>
    exact Reads.bind (Reads.counted ht.1 fun e he => GridAxisDescriptor.reads_byHand e (ht.2.1 e he)) <|
      Reads.last (Reads.counted ht.2.2.1 fun e he => GridDataRecord.reads_byHand e (ht.2.2.2 e he)) (Reads.ret (α := GriddedDataPdu) b)
  case ActionRequest =>
    refine datums_completed (B := ActionRequestPdu) ActionRequestPdu.fixed_datum_records ActionRequestPdu.variable_datum_records
      (fun x l l' => ({ x with fixed_datum_records := l, variable_datum_records := l' } : ActionRequestPdu))
      (fun _ => rfl) (fun _ => rfl) ht
  case ActionResponse =>
    refine datums_completed (B := ActionResponsePdu) ActionResponsePdu.fixed_datum_records ActionResponsePdu.variable_datum_records
      (fun x l l' => ({ x with fixed_datum_records := l, variable_datum_records := l' } : ActionResponsePdu))
      (fun _ => rfl) (fun _ => rfl) ht
  case DataQuery =>
    refine datums_completed (B := DataQueryPdu) DataQueryPdu.fixed_datum_records DataQueryPdu.variable_datum_records
      (fun x l l' => ({ x with fixed_datum_records := l, variable_datum_records := l' } : DataQueryPdu))
      (fun _ => rfl) (fun _ => rfl) ht
  case SetData =>
    refine datums_completed (B := SetDataPdu) SetDataPdu.fixed_datum_records SetDataPdu.variable_datum_records
      (fun x l l' => ({ x with fixed_datum_records := l, variable_datum_records := l' } : SetDataPdu))
      (fun _ => rfl) (fun _ => rfl) ht
  case Data =>
    refine datums_completed (B := DataPdu) DataPdu.fixed_datum_records DataPdu.variable_datum_records
      (fun x l l' => ({ x with fixed_datum_records := l, variable_datum_records := l' } : DataPdu))
      (fun _ => rfl) (fun _ => rfl) ht
  case EventReport =>
    refine datums_completed (B := EventReportPdu) EventReportPdu.fixed_datum_records EventReportPdu.variable_datum_records
      (fun x l l' => ({ x with fixed_datum_records := l, variable_datum_records := l' } : EventReportPdu))
      (fun _ => rfl) (fun _ => rfl) ht
  case Comment =>
    refine datums_completed (B := CommentPdu) CommentPdu.fixed_datum_records CommentPdu.variable_datum_records
      (fun x l l' => ({ x with fixed_datum_records := l, variable_datum_records := l' } : CommentPdu))
      (fun _ => rfl) (fun _ => rfl) ht
  case ActionRequestReliable =>
    refine datums_completed (B := ActionRequestReliablePdu) ActionRequestReliablePdu.fixed_datum_records ActionRequestReliablePdu.variable_datum_records
      (fun x l l' => ({ x with fixed_datum_records := l, variable_datum_records := l' } : ActionRequestReliablePdu))
      (fun _ => rfl) (fun _ => rfl) ht
  case ActionResponseReliable =>
    refine datums_completed (B := ActionResponseReliablePdu) ActionResponseReliablePdu.fixed_datum_records ActionResponseReliablePdu.variable_datum_records
      (fun x l l' => ({ x with fixed_datum_records := l, variable_datum_records := l' } : ActionResponseReliablePdu))
      (fun _ => rfl) (fun _ => rfl) ht
  case SetDataReliable =>
    refine datums_completed (B := SetDataReliablePdu) SetDataReliablePdu.fixed_datum_records SetDataReliablePdu.variable_datum_records
      (fun x l l' => ({ x with fixed_datum_records := l, variable_datum_records := l' } : SetDataReliablePdu))
      (fun _ => rfl) (fun _ => rfl) ht
  case DataReliable =>
    refine datums_completed (B := DataReliablePdu) DataReliablePdu.fixed_datum_records DataReliablePdu.variable_datum_records
      (fun x l l' => ({ x with fixed_datum_records := l, variable_datum_records := l' } : DataReliablePdu))
      (fun _ => rfl) (fun _ => rfl) ht
  case EventReportReliable =>
    refine datums_completed (B := EventReportReliablePdu) EventReportReliablePdu.fixed_datum_records EventReportReliablePdu.variable_datum_records
      (fun x l l' => ({ x with fixed_datum_records := l, variable_datum_records := l' } : EventReportReliablePdu))
      (fun _ => rfl) (fun _ => rfl) ht
  case CommentReliable =>
    refine datums_completed (B := CommentReliablePdu) CommentReliablePdu.fixed_datum_records CommentReliablePdu.variable_datum_records
      (fun x l l' => ({ x with fixed_datum_records := l, variable_datum_records := l' } : CommentReliablePdu))
      (fun _ => rfl) (fun _ => rfl) ht
  case MinefieldData => exact MinefieldDataPdu.completes b ht
  all_goals first | exact absurd hk (by decide) | exact Reads.ret _

theorem reads_antenna (o : Option AntennaPattern) {n : UInt16} (h : ∀ a, o = some a → a.record_specific_fields ≠ [])
    (hn : n.toNat = o.elim 0 fun a => a.record_specific_fields.length) : Reads (AntennaPattern.deserialize n) (wire o) o := by
  unfold AntennaPattern.deserialize
  cases o with
  | none =>
    rw [if_pos (UInt16.toNat_inj.mp hn)]
    exact Reads.ret none
  | some a =>
    have hne : n ≠ 0 := by
      intro e
      subst e
      exact h a rfl (List.eq_nil_of_length_eq_zero hn.symm)
    rw [if_neg hne]
    exact Reads.last (Reads.counted hn fun e _ => reads_u8 e) (Reads.ret _)

/-- The kinds read by hand from the start. -/
def PduKind.handRead : PduKind → Bool
  | .EntityState | .AggregateState | .StopFreeze | .StopFreezeReliable | .ArealObjectState => true
  | _ => false

/-- The other kinds, as they are sent. -/
theorem PduKind.completes_sent (k : PduKind) (hk : k.handRead = false) (b : k.Body) (ht : k.truthful b) {n : Nat}
    (hn : n = k.ieeeOctets + k.listOctets b) :
    decodable (sent (PduBody.prep b)) ∧
    Reads (k.complete n (kept (sent (PduBody.prep b)))) (tail (sent (PduBody.prep b))) (sent (PduBody.prep b)) := by
  by_cases hu : k.unconditional = true
  · rw [k.unconditional_sent hu, k.unconditional_prep hu]
    exact ⟨k.unconditional_decodable hu b, k.completes hu b ht hn⟩
  cases k
  case TransferOwnership =>
    refine ⟨?_, Reads.ret _⟩
    show decodable (sent (TransferOwnershipPdu.record_information b))
    rw [RecordSpecification.sent_truthful ht]
    exact ht
  case SetRecordReliable =>
    refine ⟨?_, Reads.ret _⟩
    show decodable (sent (SetRecordReliablePdu.record_sets b))
    rw [RecordSpecification.sent_truthful ht]
    exact ht
  case InformationOperationsReport => exact ⟨ht, Reads.ret _⟩
  case InformationOperationsAction => exact ⟨ht, Reads.ret _⟩
  case Transmitter =>
    refine ⟨TransmitterPdu.truthful_decodable ht, ?_⟩
    obtain ⟨_, h2, h3, h4, h5⟩ := ht
    exact Reads.bind (reads_antenna _ h2 h3) <|
      Reads.last (Reads.counted h4 fun e he => VariableTransmitterParameters.reads_byHand e (h5 e he))
        (Reads.ret (α := TransmitterPdu) _)
  all_goals first | exact absurd hk (by decide) | exact absurd rfl hu

end Dis
