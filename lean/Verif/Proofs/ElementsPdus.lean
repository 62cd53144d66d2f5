import Verif.Spec.PduElements
import Verif.Proofs.Elements
import Verif.Proofs.LayoutRecords
import Verif.Proofs.Pdus1
import Verif.Proofs.Pdus2
import Verif.Proofs.Pdus3
import Verif.Proofs.Pdus4
/- Generated by tools/gen_layout.py. -/
set_option maxRecDepth 8000
set_option linter.unusedSimpArgs false
namespace Dis

theorem UnderwaterAcousticPdu.placed_shaft_rpms (x : UnderwaterAcousticPdu) (hd : Bytes) (hh : hd.length = 12) :
    ItemsAt ShaftRPMs.layout x.shaft_rpms (hd ++ wire (sent x)) (fun i => 32 + 8 * i) :=
  ItemsAt.at (ItemsAt.skip hh <|
    ItemsAt.skip (a := 6) (EntityId.wire_length _) <|
    ItemsAt.skip (a := 6) (EventId.wire_length _) <|
    ItemsAt.skip (a := 1) (octets_length _ _) <|
    ItemsAt.skip (a := 1) (octets_length _ _) <|
    ItemsAt.skip (a := 2) (octets_length _ _) <|
    ItemsAt.skip (a := 1) (octets_length _ _) <|
    ItemsAt.skip (a := 1) (octets_length _ _) <|
    ItemsAt.skip (a := 1) (octets_length _ _) <|
    ItemsAt.skip (a := 1) (octets_length _ _) <|
    ItemsAt.here (S := ShaftRPMs.slots) (enc := wire) (n := 8) (ShaftRPMs.wire_length) (ShaftRPMs.written)) (fun i => by simp only [← Nat.add_assoc, Nat.reduceAdd, Nat.one_mul] <;> omega)
theorem UnderwaterAcousticPdu.placed_apa_data (x : UnderwaterAcousticPdu) (hd : Bytes) (hh : hd.length = 12) :
    ItemsAt ApaData.layout x.apa_data (hd ++ wire (sent x)) (fun i => 32 + 8 * x.shaft_rpms.length + 4 * i) :=
  ItemsAt.at (ItemsAt.skip hh <|
    ItemsAt.skip (a := 6) (EntityId.wire_length _) <|
    ItemsAt.skip (a := 6) (EventId.wire_length _) <|
    ItemsAt.skip (a := 1) (octets_length _ _) <|
    ItemsAt.skip (a := 1) (octets_length _ _) <|
    ItemsAt.skip (a := 2) (octets_length _ _) <|
    ItemsAt.skip (a := 1) (octets_length _ _) <|
    ItemsAt.skip (a := 1) (octets_length _ _) <|
    ItemsAt.skip (a := 1) (octets_length _ _) <|
    ItemsAt.skip (a := 1) (octets_length _ _) <|
    ItemsAt.skip (a := 8 * x.shaft_rpms.length) (flatMap_len (enc := wire) (ShaftRPMs.wire_length) x.shaft_rpms) <|
    ItemsAt.here (S := ApaData.slots) (enc := wire) (n := 4) (ApaData.wire_length) (ApaData.written)) (fun i => by simp only [← Nat.add_assoc, Nat.reduceAdd, Nat.one_mul] <;> omega)
theorem UnderwaterAcousticPdu.placed_emitter_systems (x : UnderwaterAcousticPdu) (hd : Bytes) (hh : hd.length = 12) :
    ItemsAt AcousticEmitterSystem.layout x.emitter_systems (hd ++ wire (sent x)) (fun i => 32 + 8 * x.shaft_rpms.length + 4 * x.apa_data.length + 4 * i) :=
  ItemsAt.at (ItemsAt.skip hh <|
    ItemsAt.skip (a := 6) (EntityId.wire_length _) <|
    ItemsAt.skip (a := 6) (EventId.wire_length _) <|
    ItemsAt.skip (a := 1) (octets_length _ _) <|
    ItemsAt.skip (a := 1) (octets_length _ _) <|
    ItemsAt.skip (a := 2) (octets_length _ _) <|
    ItemsAt.skip (a := 1) (octets_length _ _) <|
    ItemsAt.skip (a := 1) (octets_length _ _) <|
    ItemsAt.skip (a := 1) (octets_length _ _) <|
    ItemsAt.skip (a := 1) (octets_length _ _) <|
    ItemsAt.skip (a := 8 * x.shaft_rpms.length) (flatMap_len (enc := wire) (ShaftRPMs.wire_length) x.shaft_rpms) <|
    ItemsAt.skip (a := 4 * x.apa_data.length) (flatMap_len (enc := wire) (ApaData.wire_length) x.apa_data) <|
    ItemsAt.last (S := AcousticEmitterSystem.slots) (enc := wire) (n := 4) (AcousticEmitterSystem.wire_length) (AcousticEmitterSystem.written)) (fun i => by simp only [← Nat.add_assoc, Nat.reduceAdd, Nat.one_mul] <;> omega)
theorem UnderwaterAcousticPdu.placed (x : UnderwaterAcousticPdu) (hd : Bytes) (hh : hd.length = 12) :
    ∀ t ∈ PduKind.elements .UnderwaterAcoustic, t.Placed x (hd ++ wire (sent x)) := by
  show ∀ t ∈ [_, _, _], _
  refine List.forall_mem_cons.mpr ⟨UnderwaterAcousticPdu.placed_shaft_rpms x hd hh, ?_⟩
  refine List.forall_mem_cons.mpr ⟨UnderwaterAcousticPdu.placed_apa_data x hd hh, ?_⟩
  refine List.forall_mem_cons.mpr ⟨UnderwaterAcousticPdu.placed_emitter_systems x hd hh, ?_⟩
  exact fun _ h => nomatch h

theorem IFFPdu.placed_iff_parameters (x : IFFPdu) (hd : Bytes) (hh : hd.length = 12) :
    ItemsAt IFFFundamentalParameterData.layout x.iff_parameters (hd ++ wire (sent x)) (fun i => 88 + 24 * i) :=
  ItemsAt.at (ItemsAt.skip hh <|
    ItemsAt.skip (a := 6) (EntityId.wire_length _) <|
    ItemsAt.skip (a := 6) (EventId.wire_length _) <|
    ItemsAt.skip (a := 12) (EntityCoordinateVector.wire_length _) <|
    ItemsAt.skip (a := 6) (SystemId.wire_length _) <|
    ItemsAt.skip (a := 1) (octets_length _ _) <|
    ItemsAt.skip (a := 1) (octets_length _ _) <|
    ItemsAt.skip (a := 16) (FundamentalOperationalData.wire_length _) <|
    ItemsAt.skip (a := 4) (LayerHeader.wire_length _) <|
    ItemsAt.skip (a := 20) (BeamData.wire_length _) <|
    ItemsAt.skip (a := 4) (SecondaryOperationalData.wire_length _) <|
    ItemsAt.last (S := IFFFundamentalParameterData.slots) (enc := wire) (n := 24) (IFFFundamentalParameterData.wire_length) (IFFFundamentalParameterData.written)) (fun i => by simp only [← Nat.add_assoc, Nat.reduceAdd, Nat.one_mul] <;> omega)
theorem IFFPdu.placed (x : IFFPdu) (hd : Bytes) (hh : hd.length = 12) :
    ∀ t ∈ PduKind.elements .IFF, t.Placed x (hd ++ wire (sent x)) := by
  show ∀ t ∈ [_], _
  refine List.forall_mem_cons.mpr ⟨IFFPdu.placed_iff_parameters x hd hh, ?_⟩
  exact fun _ h => nomatch h

theorem SupplementalEmissionPdu.placed_propulsion_system_data (x : SupplementalEmissionPdu) (hd : Bytes) (hh : hd.length = 12) :
    ItemsAt PropulsionSystemData.layout x.propulsion_system_data (hd ++ wire (sent x)) (fun i => 28 + 8 * i) :=
  ItemsAt.at (ItemsAt.skip hh <|
    ItemsAt.skip (a := 6) (EntityId.wire_length _) <|
    ItemsAt.skip (a := 2) (octets_length _ _) <|
    ItemsAt.skip (a := 2) (octets_length _ _) <|
    ItemsAt.skip (a := 2) (octets_length _ _) <|
    ItemsAt.skip (a := 2) (octets_length _ _) <|
    ItemsAt.skip (a := 2) (octets_length _ _) <|
    ItemsAt.here (S := PropulsionSystemData.slots) (enc := wire) (n := 8) (PropulsionSystemData.wire_length) (PropulsionSystemData.written)) (fun i => by simp only [← Nat.add_assoc, Nat.reduceAdd, Nat.one_mul] <;> omega)
theorem SupplementalEmissionPdu.placed_vectoring_nozzle_system_data (x : SupplementalEmissionPdu) (hd : Bytes) (hh : hd.length = 12) :
    ItemsAt VectoringNozzleSystemData.layout x.vectoring_nozzle_system_data (hd ++ wire (sent x)) (fun i => 28 + 8 * x.propulsion_system_data.length + 8 * i) :=
  ItemsAt.at (ItemsAt.skip hh <|
    ItemsAt.skip (a := 6) (EntityId.wire_length _) <|
    ItemsAt.skip (a := 2) (octets_length _ _) <|
    ItemsAt.skip (a := 2) (octets_length _ _) <|
    ItemsAt.skip (a := 2) (octets_length _ _) <|
    ItemsAt.skip (a := 2) (octets_length _ _) <|
    ItemsAt.skip (a := 2) (octets_length _ _) <|
    ItemsAt.skip (a := 8 * x.propulsion_system_data.length) (flatMap_len (enc := wire) (PropulsionSystemData.wire_length) x.propulsion_system_data) <|
    ItemsAt.last (S := VectoringNozzleSystemData.slots) (enc := wire) (n := 8) (VectoringNozzleSystemData.wire_length) (VectoringNozzleSystemData.written)) (fun i => by simp only [← Nat.add_assoc, Nat.reduceAdd, Nat.one_mul] <;> omega)
theorem SupplementalEmissionPdu.placed (x : SupplementalEmissionPdu) (hd : Bytes) (hh : hd.length = 12) :
    ∀ t ∈ PduKind.elements .SupplementalEmission, t.Placed x (hd ++ wire (sent x)) := by
  show ∀ t ∈ [_, _], _
  refine List.forall_mem_cons.mpr ⟨SupplementalEmissionPdu.placed_propulsion_system_data x hd hh, ?_⟩
  refine List.forall_mem_cons.mpr ⟨SupplementalEmissionPdu.placed_vectoring_nozzle_system_data x hd hh, ?_⟩
  exact fun _ h => nomatch h

theorem EntityStatePdu.placed_entity_capabilities (x : EntityStatePdu) (hd : Bytes) (hh : hd.length = 12) :
    ItemsAt [Slot.enum 0 4 id] [x.entity_capabilities] (hd ++ wire (sent x)) (fun _ => 129 + (strBytes x.entity_marking.entity_marking_string).length) :=
  ItemsAt.at (ItemsAt.skip hh <|
    ItemsAt.skip (a := 6) (EntityId.wire_length _) <|
    ItemsAt.skip (a := 1) (octets_length _ _) <|
    ItemsAt.skip (a := 1) (octets_length _ _) <|
    ItemsAt.skip (a := 8) (EntityType.wire_length _) <|
    ItemsAt.skip (a := 8) (EntityType.wire_length _) <|
    ItemsAt.skip (a := 12) (LinearVelocity.wire_length _) <|
    ItemsAt.skip (a := 24) (WorldCoordinate.wire_length _) <|
    ItemsAt.skip (a := 12) (EulerAngles.wire_length _) <|
    ItemsAt.skip (a := 4) (octets_length _ _) <|
    ItemsAt.skip (a := 40) (DeadReckoningParameters.wire_length _) <|
    ItemsAt.skip (a := 1 + (strBytes x.entity_marking.entity_marking_string).length) (EntityMarking.wire_length x.entity_marking) <|
    ItemsAt.one (S := [Slot.enum 0 4 id]) (written_enum rfl x.entity_capabilities)) (fun i => by simp only [← Nat.add_assoc, Nat.reduceAdd, Nat.one_mul] <;> omega)
theorem EntityStatePdu.placed_articulation_parameter (x : EntityStatePdu) (hd : Bytes) (hh : hd.length = 12) :
    ItemsAt VariableParameter.layout x.articulation_parameter (hd ++ wire (sent x)) (fun i => 133 + (strBytes x.entity_marking.entity_marking_string).length + 16 * i) :=
  ItemsAt.at (ItemsAt.skip hh <|
    ItemsAt.skip (a := 6) (EntityId.wire_length _) <|
    ItemsAt.skip (a := 1) (octets_length _ _) <|
    ItemsAt.skip (a := 1) (octets_length _ _) <|
    ItemsAt.skip (a := 8) (EntityType.wire_length _) <|
    ItemsAt.skip (a := 8) (EntityType.wire_length _) <|
    ItemsAt.skip (a := 12) (LinearVelocity.wire_length _) <|
    ItemsAt.skip (a := 24) (WorldCoordinate.wire_length _) <|
    ItemsAt.skip (a := 12) (EulerAngles.wire_length _) <|
    ItemsAt.skip (a := 4) (octets_length _ _) <|
    ItemsAt.skip (a := 40) (DeadReckoningParameters.wire_length _) <|
    ItemsAt.skip (a := 1 + (strBytes x.entity_marking.entity_marking_string).length) (EntityMarking.wire_length x.entity_marking) <|
    ItemsAt.skip (a := 4) (octets_length _ _) <|
    ItemsAt.last (S := VariableParameter.slots) (enc := wire) (n := 16) (VariableParameter.wire_length) (VariableParameter.written)) (fun i => by simp only [← Nat.add_assoc, Nat.reduceAdd, Nat.one_mul] <;> omega)
theorem EntityStatePdu.placed (x : EntityStatePdu) (hd : Bytes) (hh : hd.length = 12) :
    ∀ t ∈ PduKind.elements .EntityState, t.Placed x (hd ++ wire (sent x)) := by
  show ∀ t ∈ [_, _], _
  refine List.forall_mem_cons.mpr ⟨EntityStatePdu.placed_entity_capabilities x hd hh, ?_⟩
  refine List.forall_mem_cons.mpr ⟨EntityStatePdu.placed_articulation_parameter x hd hh, ?_⟩
  exact fun _ h => nomatch h

theorem EntityStateUpdatePdu.placed_variable_parameter_records (x : EntityStateUpdatePdu) (hd : Bytes) (hh : hd.length = 12) :
    ItemsAt VariableParameter.layout x.variable_parameter_records (hd ++ wire (sent x)) (fun i => 72 + 16 * i) :=
  ItemsAt.at (ItemsAt.skip hh <|
    ItemsAt.skip (a := 6) (EntityId.wire_length _) <|
    ItemsAt.skip (a := 1) (octets_length _ _) <|
    ItemsAt.skip (a := 1) (octets_length _ _) <|
    ItemsAt.skip (a := 12) (LinearVelocity.wire_length _) <|
    ItemsAt.skip (a := 24) (WorldCoordinate.wire_length _) <|
    ItemsAt.skip (a := 12) (EulerAngles.wire_length _) <|
    ItemsAt.skip (a := 4) (octets_length _ _) <|
    ItemsAt.last (S := VariableParameter.slots) (enc := wire) (n := 16) (VariableParameter.wire_length) (VariableParameter.written)) (fun i => by simp only [← Nat.add_assoc, Nat.reduceAdd, Nat.one_mul] <;> omega)
theorem EntityStateUpdatePdu.placed (x : EntityStateUpdatePdu) (hd : Bytes) (hh : hd.length = 12) :
    ∀ t ∈ PduKind.elements .EntityStateUpdate, t.Placed x (hd ++ wire (sent x)) := by
  show ∀ t ∈ [_], _
  refine List.forall_mem_cons.mpr ⟨EntityStateUpdatePdu.placed_variable_parameter_records x hd hh, ?_⟩
  exact fun _ h => nomatch h

theorem AggregateStatePdu.placed_aggregate_id_list (x : AggregateStatePdu) (hd : Bytes) (hh : hd.length = 12) :
    ItemsAt AggregateId.layout x.aggregate_id_list (hd ++ wire (sent x)) (fun i => 132 + 6 * i) :=
  ItemsAt.at (ItemsAt.skip hh <|
    ItemsAt.skip (a := 6) (AggregateId.wire_length _) <|
    ItemsAt.skip (a := 1) (octets_length _ _) <|
    ItemsAt.skip (a := 1) (octets_length _ _) <|
    ItemsAt.skip (a := 8) (EntityType.wire_length _) <|
    ItemsAt.skip (a := 4) (octets_length _ _) <|
    ItemsAt.skip (a := 32) (AggregateMarking.wire_length _) <|
    ItemsAt.skip (a := 12) (Vector3Float.wire_length _) <|
    ItemsAt.skip (a := 12) (EulerAngles.wire_length _) <|
    ItemsAt.skip (a := 24) (WorldCoordinate.wire_length _) <|
    ItemsAt.skip (a := 12) (LinearVelocity.wire_length _) <|
    ItemsAt.skip (a := 2) (octets_length _ _) <|
    ItemsAt.skip (a := 2) (octets_length _ _) <|
    ItemsAt.skip (a := 2) (octets_length _ _) <|
    ItemsAt.skip (a := 2) (octets_length _ _) <|
    ItemsAt.here (S := AggregateId.slots) (enc := wire) (n := 6) (AggregateId.wire_length) (AggregateId.written)) (fun i => by simp only [← Nat.add_assoc, Nat.reduceAdd, Nat.one_mul] <;> omega)
theorem AggregateStatePdu.placed_entity_id_list (x : AggregateStatePdu) (hd : Bytes) (hh : hd.length = 12) :
    ItemsAt EntityId.layout x.entity_id_list (hd ++ wire (sent x)) (fun i => 132 + 6 * x.aggregate_id_list.length + 6 * i) :=
  ItemsAt.at (ItemsAt.skip hh <|
    ItemsAt.skip (a := 6) (AggregateId.wire_length _) <|
    ItemsAt.skip (a := 1) (octets_length _ _) <|
    ItemsAt.skip (a := 1) (octets_length _ _) <|
    ItemsAt.skip (a := 8) (EntityType.wire_length _) <|
    ItemsAt.skip (a := 4) (octets_length _ _) <|
    ItemsAt.skip (a := 32) (AggregateMarking.wire_length _) <|
    ItemsAt.skip (a := 12) (Vector3Float.wire_length _) <|
    ItemsAt.skip (a := 12) (EulerAngles.wire_length _) <|
    ItemsAt.skip (a := 24) (WorldCoordinate.wire_length _) <|
    ItemsAt.skip (a := 12) (LinearVelocity.wire_length _) <|
    ItemsAt.skip (a := 2) (octets_length _ _) <|
    ItemsAt.skip (a := 2) (octets_length _ _) <|
    ItemsAt.skip (a := 2) (octets_length _ _) <|
    ItemsAt.skip (a := 2) (octets_length _ _) <|
    ItemsAt.skip (a := 6 * x.aggregate_id_list.length) (flatMap_len (enc := wire) (AggregateId.wire_length) x.aggregate_id_list) <|
    ItemsAt.here (S := EntityId.slots) (enc := wire) (n := 6) (EntityId.wire_length) (EntityId.written)) (fun i => by simp only [← Nat.add_assoc, Nat.reduceAdd, Nat.one_mul] <;> omega)
theorem AggregateStatePdu.placed_padding (x : AggregateStatePdu) (hd : Bytes) (hh : hd.length = 12) :
    ItemsAt [Slot.u8 0 id] x.padding (hd ++ wire (sent x)) (fun i => 132 + 6 * x.aggregate_id_list.length + 6 * x.entity_id_list.length + i) :=
  ItemsAt.at (ItemsAt.skip hh <|
    ItemsAt.skip (a := 6) (AggregateId.wire_length _) <|
    ItemsAt.skip (a := 1) (octets_length _ _) <|
    ItemsAt.skip (a := 1) (octets_length _ _) <|
    ItemsAt.skip (a := 8) (EntityType.wire_length _) <|
    ItemsAt.skip (a := 4) (octets_length _ _) <|
    ItemsAt.skip (a := 32) (AggregateMarking.wire_length _) <|
    ItemsAt.skip (a := 12) (Vector3Float.wire_length _) <|
    ItemsAt.skip (a := 12) (EulerAngles.wire_length _) <|
    ItemsAt.skip (a := 24) (WorldCoordinate.wire_length _) <|
    ItemsAt.skip (a := 12) (LinearVelocity.wire_length _) <|
    ItemsAt.skip (a := 2) (octets_length _ _) <|
    ItemsAt.skip (a := 2) (octets_length _ _) <|
    ItemsAt.skip (a := 2) (octets_length _ _) <|
    ItemsAt.skip (a := 2) (octets_length _ _) <|
    ItemsAt.skip (a := 6 * x.aggregate_id_list.length) (flatMap_len (enc := wire) (AggregateId.wire_length) x.aggregate_id_list) <|
    ItemsAt.skip (a := 6 * x.entity_id_list.length) (flatMap_len (enc := wire) (EntityId.wire_length) x.entity_id_list) <|
    ItemsAt.here (S := [Slot.u8 0 id]) (enc := wire) (n := 1) (fun _ => octets_length _ _) (written_u8)) (fun i => by simp only [← Nat.add_assoc, Nat.reduceAdd, Nat.one_mul] <;> omega)
theorem AggregateStatePdu.placed_silent_aggregate_system_list (x : AggregateStatePdu) (hd : Bytes) (hh : hd.length = 12) :
    ItemsAt EntityType.layout x.silent_aggregate_system_list (hd ++ wire (sent x)) (fun i => 132 + 6 * x.aggregate_id_list.length + 6 * x.entity_id_list.length + x.padding.length + 8 * i) :=
  ItemsAt.at (ItemsAt.skip hh <|
    ItemsAt.skip (a := 6) (AggregateId.wire_length _) <|
    ItemsAt.skip (a := 1) (octets_length _ _) <|
    ItemsAt.skip (a := 1) (octets_length _ _) <|
    ItemsAt.skip (a := 8) (EntityType.wire_length _) <|
    ItemsAt.skip (a := 4) (octets_length _ _) <|
    ItemsAt.skip (a := 32) (AggregateMarking.wire_length _) <|
    ItemsAt.skip (a := 12) (Vector3Float.wire_length _) <|
    ItemsAt.skip (a := 12) (EulerAngles.wire_length _) <|
    ItemsAt.skip (a := 24) (WorldCoordinate.wire_length _) <|
    ItemsAt.skip (a := 12) (LinearVelocity.wire_length _) <|
    ItemsAt.skip (a := 2) (octets_length _ _) <|
    ItemsAt.skip (a := 2) (octets_length _ _) <|
    ItemsAt.skip (a := 2) (octets_length _ _) <|
    ItemsAt.skip (a := 2) (octets_length _ _) <|
    ItemsAt.skip (a := 6 * x.aggregate_id_list.length) (flatMap_len (enc := wire) (AggregateId.wire_length) x.aggregate_id_list) <|
    ItemsAt.skip (a := 6 * x.entity_id_list.length) (flatMap_len (enc := wire) (EntityId.wire_length) x.entity_id_list) <|
    ItemsAt.skip (a := 1 * x.padding.length) (flatMap_len (enc := wire) (fun _ => octets_length _ _) x.padding) <|
    ItemsAt.here (S := EntityType.slots) (enc := wire) (n := 8) (EntityType.wire_length) (EntityType.written)) (fun i => by simp only [← Nat.add_assoc, Nat.reduceAdd, Nat.one_mul] <;> omega)
theorem AggregateStatePdu.placed_silent_entity_system_list (x : AggregateStatePdu) (hd : Bytes) (hh : hd.length = 12) :
    ItemsAt EntityType.layout x.silent_entity_system_list (hd ++ wire (sent x)) (fun i => 132 + 6 * x.aggregate_id_list.length + 6 * x.entity_id_list.length + x.padding.length + 8 * x.silent_aggregate_system_list.length + 8 * i) :=
  ItemsAt.at (ItemsAt.skip hh <|
    ItemsAt.skip (a := 6) (AggregateId.wire_length _) <|
    ItemsAt.skip (a := 1) (octets_length _ _) <|
    ItemsAt.skip (a := 1) (octets_length _ _) <|
    ItemsAt.skip (a := 8) (EntityType.wire_length _) <|
    ItemsAt.skip (a := 4) (octets_length _ _) <|
    ItemsAt.skip (a := 32) (AggregateMarking.wire_length _) <|
    ItemsAt.skip (a := 12) (Vector3Float.wire_length _) <|
    ItemsAt.skip (a := 12) (EulerAngles.wire_length _) <|
    ItemsAt.skip (a := 24) (WorldCoordinate.wire_length _) <|
    ItemsAt.skip (a := 12) (LinearVelocity.wire_length _) <|
    ItemsAt.skip (a := 2) (octets_length _ _) <|
    ItemsAt.skip (a := 2) (octets_length _ _) <|
    ItemsAt.skip (a := 2) (octets_length _ _) <|
    ItemsAt.skip (a := 2) (octets_length _ _) <|
    ItemsAt.skip (a := 6 * x.aggregate_id_list.length) (flatMap_len (enc := wire) (AggregateId.wire_length) x.aggregate_id_list) <|
    ItemsAt.skip (a := 6 * x.entity_id_list.length) (flatMap_len (enc := wire) (EntityId.wire_length) x.entity_id_list) <|
    ItemsAt.skip (a := 1 * x.padding.length) (flatMap_len (enc := wire) (fun _ => octets_length _ _) x.padding) <|
    ItemsAt.skip (a := 8 * x.silent_aggregate_system_list.length) (flatMap_len (enc := wire) (EntityType.wire_length) x.silent_aggregate_system_list) <|
    ItemsAt.here (S := EntityType.slots) (enc := wire) (n := 8) (EntityType.wire_length) (EntityType.written)) (fun i => by simp only [← Nat.add_assoc, Nat.reduceAdd, Nat.one_mul] <;> omega)
theorem AggregateStatePdu.placed_number_of_variable_datum_records (x : AggregateStatePdu) (hd : Bytes) (hh : hd.length = 12) :
    ItemsAt [Slot.u32 0 id] [x.number_of_variable_datum_records] (hd ++ wire (sent x)) (fun _ => 132 + 6 * x.aggregate_id_list.length + 6 * x.entity_id_list.length + x.padding.length + 8 * x.silent_aggregate_system_list.length + 8 * x.silent_entity_system_list.length) :=
  ItemsAt.at (ItemsAt.skip hh <|
    ItemsAt.skip (a := 6) (AggregateId.wire_length _) <|
    ItemsAt.skip (a := 1) (octets_length _ _) <|
    ItemsAt.skip (a := 1) (octets_length _ _) <|
    ItemsAt.skip (a := 8) (EntityType.wire_length _) <|
    ItemsAt.skip (a := 4) (octets_length _ _) <|
    ItemsAt.skip (a := 32) (AggregateMarking.wire_length _) <|
    ItemsAt.skip (a := 12) (Vector3Float.wire_length _) <|
    ItemsAt.skip (a := 12) (EulerAngles.wire_length _) <|
    ItemsAt.skip (a := 24) (WorldCoordinate.wire_length _) <|
    ItemsAt.skip (a := 12) (LinearVelocity.wire_length _) <|
    ItemsAt.skip (a := 2) (octets_length _ _) <|
    ItemsAt.skip (a := 2) (octets_length _ _) <|
    ItemsAt.skip (a := 2) (octets_length _ _) <|
    ItemsAt.skip (a := 2) (octets_length _ _) <|
    ItemsAt.skip (a := 6 * x.aggregate_id_list.length) (flatMap_len (enc := wire) (AggregateId.wire_length) x.aggregate_id_list) <|
    ItemsAt.skip (a := 6 * x.entity_id_list.length) (flatMap_len (enc := wire) (EntityId.wire_length) x.entity_id_list) <|
    ItemsAt.skip (a := 1 * x.padding.length) (flatMap_len (enc := wire) (fun _ => octets_length _ _) x.padding) <|
    ItemsAt.skip (a := 8 * x.silent_aggregate_system_list.length) (flatMap_len (enc := wire) (EntityType.wire_length) x.silent_aggregate_system_list) <|
    ItemsAt.skip (a := 8 * x.silent_entity_system_list.length) (flatMap_len (enc := wire) (EntityType.wire_length) x.silent_entity_system_list) <|
    ItemsAt.one (S := [Slot.u32 0 id]) (written_u32 x.number_of_variable_datum_records)) (fun i => by simp only [← Nat.add_assoc, Nat.reduceAdd, Nat.one_mul] <;> omega)
theorem AggregateStatePdu.placed_variable_datum_list (x : AggregateStatePdu) (hd : Bytes) (hh : hd.length = 12) :
    ItemsAt VariableDatumRecord.layout x.variable_datum_list (hd ++ wire (sent x)) (fun i => 136 + 6 * x.aggregate_id_list.length + 6 * x.entity_id_list.length + x.padding.length + 8 * x.silent_aggregate_system_list.length + 8 * x.silent_entity_system_list.length + VariableDatumRecord.octetsOf (x.variable_datum_list.take i)) :=
  ItemsAt.at (ItemsAt.skip hh <|
    ItemsAt.skip (a := 6) (AggregateId.wire_length _) <|
    ItemsAt.skip (a := 1) (octets_length _ _) <|
    ItemsAt.skip (a := 1) (octets_length _ _) <|
    ItemsAt.skip (a := 8) (EntityType.wire_length _) <|
    ItemsAt.skip (a := 4) (octets_length _ _) <|
    ItemsAt.skip (a := 32) (AggregateMarking.wire_length _) <|
    ItemsAt.skip (a := 12) (Vector3Float.wire_length _) <|
    ItemsAt.skip (a := 12) (EulerAngles.wire_length _) <|
    ItemsAt.skip (a := 24) (WorldCoordinate.wire_length _) <|
    ItemsAt.skip (a := 12) (LinearVelocity.wire_length _) <|
    ItemsAt.skip (a := 2) (octets_length _ _) <|
    ItemsAt.skip (a := 2) (octets_length _ _) <|
    ItemsAt.skip (a := 2) (octets_length _ _) <|
    ItemsAt.skip (a := 2) (octets_length _ _) <|
    ItemsAt.skip (a := 6 * x.aggregate_id_list.length) (flatMap_len (enc := wire) (AggregateId.wire_length) x.aggregate_id_list) <|
    ItemsAt.skip (a := 6 * x.entity_id_list.length) (flatMap_len (enc := wire) (EntityId.wire_length) x.entity_id_list) <|
    ItemsAt.skip (a := 1 * x.padding.length) (flatMap_len (enc := wire) (fun _ => octets_length _ _) x.padding) <|
    ItemsAt.skip (a := 8 * x.silent_aggregate_system_list.length) (flatMap_len (enc := wire) (EntityType.wire_length) x.silent_aggregate_system_list) <|
    ItemsAt.skip (a := 8 * x.silent_entity_system_list.length) (flatMap_len (enc := wire) (EntityType.wire_length) x.silent_entity_system_list) <|
    ItemsAt.skip (a := 4) (octets_length _ _) <|
    VariableDatumRecord.items x.variable_datum_list) (fun i => by simp only [← Nat.add_assoc, Nat.reduceAdd, Nat.one_mul] <;> omega)
theorem AggregateStatePdu.placed (x : AggregateStatePdu) (hd : Bytes) (hh : hd.length = 12) :
    ∀ t ∈ PduKind.elements .AggregateState, t.Placed x (hd ++ wire (sent x)) := by
  show ∀ t ∈ [_, _, _, _, _, _, _], _
  refine List.forall_mem_cons.mpr ⟨AggregateStatePdu.placed_aggregate_id_list x hd hh, ?_⟩
  refine List.forall_mem_cons.mpr ⟨AggregateStatePdu.placed_entity_id_list x hd hh, ?_⟩
  refine List.forall_mem_cons.mpr ⟨AggregateStatePdu.placed_padding x hd hh, ?_⟩
  refine List.forall_mem_cons.mpr ⟨AggregateStatePdu.placed_silent_aggregate_system_list x hd hh, ?_⟩
  refine List.forall_mem_cons.mpr ⟨AggregateStatePdu.placed_silent_entity_system_list x hd hh, ?_⟩
  refine List.forall_mem_cons.mpr ⟨AggregateStatePdu.placed_number_of_variable_datum_records x hd hh, ?_⟩
  refine List.forall_mem_cons.mpr ⟨AggregateStatePdu.placed_variable_datum_list x hd hh, ?_⟩
  exact fun _ h => nomatch h

theorem IsGroupOfPdu.placed_grouped_entity_descriptions (x : IsGroupOfPdu) (hd : Bytes) (hh : hd.length = 12) :
    ItemsAt [Slot.u64 0 id] x.grouped_entity_descriptions (hd ++ wire (sent x)) (fun i => 40 + 8 * i) :=
  ItemsAt.at (ItemsAt.skip hh <|
    ItemsAt.skip (a := 6) (EntityId.wire_length _) <|
    ItemsAt.skip (a := 1) (octets_length _ _) <|
    ItemsAt.skip (a := 1) (octets_length _ _) <|
    ItemsAt.skip (a := 4) (octets_length _ _) <|
    ItemsAt.skip (a := 8) (octets_length _ _) <|
    ItemsAt.skip (a := 8) (octets_length _ _) <|
    ItemsAt.last (S := [Slot.u64 0 id]) (enc := wire) (n := 8) (fun _ => octets_length _ _) (written_u64)) (fun i => by simp only [← Nat.add_assoc, Nat.reduceAdd, Nat.one_mul] <;> omega)
theorem IsGroupOfPdu.placed (x : IsGroupOfPdu) (hd : Bytes) (hh : hd.length = 12) :
    ∀ t ∈ PduKind.elements .IsGroupOf, t.Placed x (hd ++ wire (sent x)) := by
  show ∀ t ∈ [_], _
  refine List.forall_mem_cons.mpr ⟨IsGroupOfPdu.placed_grouped_entity_descriptions x hd hh, ?_⟩
  exact fun _ h => nomatch h

theorem ServiceRequestPdu.placed_supplies (x : ServiceRequestPdu) (hd : Bytes) (hh : hd.length = 12) :
    ItemsAt SupplyQuantity.layout x.supplies (hd ++ wire (sent x)) (fun i => 28 + 12 * i) :=
  ItemsAt.at (ItemsAt.skip hh <|
    ItemsAt.skip (a := 6) (EntityId.wire_length _) <|
    ItemsAt.skip (a := 6) (EntityId.wire_length _) <|
    ItemsAt.skip (a := 1) (octets_length _ _) <|
    ItemsAt.skip (a := 1) (octets_length _ _) <|
    ItemsAt.skip (a := 2) (octets_length _ _) <|
    ItemsAt.last (S := SupplyQuantity.slots) (enc := wire) (n := 12) (SupplyQuantity.wire_length) (SupplyQuantity.written)) (fun i => by simp only [← Nat.add_assoc, Nat.reduceAdd, Nat.one_mul] <;> omega)
theorem ServiceRequestPdu.placed (x : ServiceRequestPdu) (hd : Bytes) (hh : hd.length = 12) :
    ∀ t ∈ PduKind.elements .ServiceRequest, t.Placed x (hd ++ wire (sent x)) := by
  show ∀ t ∈ [_], _
  refine List.forall_mem_cons.mpr ⟨ServiceRequestPdu.placed_supplies x hd hh, ?_⟩
  exact fun _ h => nomatch h

theorem ResupplyOfferPdu.placed_supplies (x : ResupplyOfferPdu) (hd : Bytes) (hh : hd.length = 12) :
    ItemsAt SupplyQuantity.layout x.supplies (hd ++ wire (sent x)) (fun i => 28 + 12 * i) :=
  ItemsAt.at (ItemsAt.skip hh <|
    ItemsAt.skip (a := 6) (EntityId.wire_length _) <|
    ItemsAt.skip (a := 6) (EntityId.wire_length _) <|
    ItemsAt.skip (a := 1) (octets_length _ _) <|
    ItemsAt.skip (a := 1) (octets_length _ _) <|
    ItemsAt.skip (a := 2) (octets_length _ _) <|
    ItemsAt.last (S := SupplyQuantity.slots) (enc := wire) (n := 12) (SupplyQuantity.wire_length) (SupplyQuantity.written)) (fun i => by simp only [← Nat.add_assoc, Nat.reduceAdd, Nat.one_mul] <;> omega)
theorem ResupplyOfferPdu.placed (x : ResupplyOfferPdu) (hd : Bytes) (hh : hd.length = 12) :
    ∀ t ∈ PduKind.elements .ResupplyOffer, t.Placed x (hd ++ wire (sent x)) := by
  show ∀ t ∈ [_], _
  refine List.forall_mem_cons.mpr ⟨ResupplyOfferPdu.placed_supplies x hd hh, ?_⟩
  exact fun _ h => nomatch h

theorem ResupplyReceivedPdu.placed_supplies (x : ResupplyReceivedPdu) (hd : Bytes) (hh : hd.length = 12) :
    ItemsAt SupplyQuantity.layout x.supplies (hd ++ wire (sent x)) (fun i => 28 + 12 * i) :=
  ItemsAt.at (ItemsAt.skip hh <|
    ItemsAt.skip (a := 6) (EntityId.wire_length _) <|
    ItemsAt.skip (a := 6) (EntityId.wire_length _) <|
    ItemsAt.skip (a := 1) (octets_length _ _) <|
    ItemsAt.skip (a := 1) (octets_length _ _) <|
    ItemsAt.skip (a := 2) (octets_length _ _) <|
    ItemsAt.last (S := SupplyQuantity.slots) (enc := wire) (n := 12) (SupplyQuantity.wire_length) (SupplyQuantity.written)) (fun i => by simp only [← Nat.add_assoc, Nat.reduceAdd, Nat.one_mul] <;> omega)
theorem ResupplyReceivedPdu.placed (x : ResupplyReceivedPdu) (hd : Bytes) (hh : hd.length = 12) :
    ∀ t ∈ PduKind.elements .ResupplyReceived, t.Placed x (hd ++ wire (sent x)) := by
  show ∀ t ∈ [_], _
  refine List.forall_mem_cons.mpr ⟨ResupplyReceivedPdu.placed_supplies x hd hh, ?_⟩
  exact fun _ h => nomatch h

theorem MinefieldStatePdu.placed_perimeter_points (x : MinefieldStatePdu) (hd : Bytes) (hh : hd.length = 12) :
    ItemsAt Point.layout x.perimeter_points (hd ++ wire (sent x)) (fun i => 72 + 8 * i) :=
  ItemsAt.at (ItemsAt.skip hh <|
    ItemsAt.skip (a := 6) (MinefieldIdentifier.wire_length _) <|
    ItemsAt.skip (a := 2) (octets_length _ _) <|
    ItemsAt.skip (a := 1) (octets_length _ _) <|
    ItemsAt.skip (a := 1) (octets_length _ _) <|
    ItemsAt.skip (a := 8) (EntityType.wire_length _) <|
    ItemsAt.skip (a := 2) (octets_length _ _) <|
    ItemsAt.skip (a := 24) (WorldCoordinate.wire_length _) <|
    ItemsAt.skip (a := 12) (EulerAngles.wire_length _) <|
    ItemsAt.skip (a := 2) (octets_length _ _) <|
    ItemsAt.skip (a := 2) (octets_length _ _) <|
    ItemsAt.here (S := Point.slots) (enc := wire) (n := 8) (Point.wire_length) (Point.written)) (fun i => by simp only [← Nat.add_assoc, Nat.reduceAdd, Nat.one_mul] <;> omega)
theorem MinefieldStatePdu.placed_mine_type (x : MinefieldStatePdu) (hd : Bytes) (hh : hd.length = 12) :
    ItemsAt EntityType.layout x.mine_type (hd ++ wire (sent x)) (fun i => 72 + 8 * x.perimeter_points.length + 8 * i) :=
  ItemsAt.at (ItemsAt.skip hh <|
    ItemsAt.skip (a := 6) (MinefieldIdentifier.wire_length _) <|
    ItemsAt.skip (a := 2) (octets_length _ _) <|
    ItemsAt.skip (a := 1) (octets_length _ _) <|
    ItemsAt.skip (a := 1) (octets_length _ _) <|
    ItemsAt.skip (a := 8) (EntityType.wire_length _) <|
    ItemsAt.skip (a := 2) (octets_length _ _) <|
    ItemsAt.skip (a := 24) (WorldCoordinate.wire_length _) <|
    ItemsAt.skip (a := 12) (EulerAngles.wire_length _) <|
    ItemsAt.skip (a := 2) (octets_length _ _) <|
    ItemsAt.skip (a := 2) (octets_length _ _) <|
    ItemsAt.skip (a := 8 * x.perimeter_points.length) (flatMap_len (enc := wire) (Point.wire_length) x.perimeter_points) <|
    ItemsAt.last (S := EntityType.slots) (enc := wire) (n := 8) (EntityType.wire_length) (EntityType.written)) (fun i => by simp only [← Nat.add_assoc, Nat.reduceAdd, Nat.one_mul] <;> omega)
theorem MinefieldStatePdu.placed (x : MinefieldStatePdu) (hd : Bytes) (hh : hd.length = 12) :
    ∀ t ∈ PduKind.elements .MinefieldState, t.Placed x (hd ++ wire (sent x)) := by
  show ∀ t ∈ [_, _], _
  refine List.forall_mem_cons.mpr ⟨MinefieldStatePdu.placed_perimeter_points x hd hh, ?_⟩
  refine List.forall_mem_cons.mpr ⟨MinefieldStatePdu.placed_mine_type x hd hh, ?_⟩
  exact fun _ h => nomatch h

theorem MinefieldQueryPdu.placed_requested_perimeter_points (x : MinefieldQueryPdu) (hd : Bytes) (hh : hd.length = 12) :
    ItemsAt Point.layout x.requested_perimeter_points (hd ++ wire (sent x)) (fun i => 40 + 8 * i) :=
  ItemsAt.at (ItemsAt.skip hh <|
    ItemsAt.skip (a := 6) (MinefieldIdentifier.wire_length _) <|
    ItemsAt.skip (a := 6) (EntityId.wire_length _) <|
    ItemsAt.skip (a := 1) (octets_length _ _) <|
    ItemsAt.skip (a := 1) (octets_length _ _) <|
    ItemsAt.skip (a := 1) (octets_length _ _) <|
    ItemsAt.skip (a := 1) (octets_length _ _) <|
    ItemsAt.skip (a := 4) (octets_length _ _) <|
    ItemsAt.skip (a := 8) (EntityType.wire_length _) <|
    ItemsAt.here (S := Point.slots) (enc := wire) (n := 8) (Point.wire_length) (Point.written)) (fun i => by simp only [← Nat.add_assoc, Nat.reduceAdd, Nat.one_mul] <;> omega)
theorem MinefieldQueryPdu.placed_sensor_types (x : MinefieldQueryPdu) (hd : Bytes) (hh : hd.length = 12) :
    ItemsAt [Slot.enum 0 1 id] x.sensor_types (hd ++ wire (sent x)) (fun i => 40 + 8 * x.requested_perimeter_points.length + i) :=
  ItemsAt.at (ItemsAt.skip hh <|
    ItemsAt.skip (a := 6) (MinefieldIdentifier.wire_length _) <|
    ItemsAt.skip (a := 6) (EntityId.wire_length _) <|
    ItemsAt.skip (a := 1) (octets_length _ _) <|
    ItemsAt.skip (a := 1) (octets_length _ _) <|
    ItemsAt.skip (a := 1) (octets_length _ _) <|
    ItemsAt.skip (a := 1) (octets_length _ _) <|
    ItemsAt.skip (a := 4) (octets_length _ _) <|
    ItemsAt.skip (a := 8) (EntityType.wire_length _) <|
    ItemsAt.skip (a := 8 * x.requested_perimeter_points.length) (flatMap_len (enc := wire) (Point.wire_length) x.requested_perimeter_points) <|
    ItemsAt.last (S := [Slot.enum 0 1 id]) (enc := wire) (n := 1) (fun _ => octets_length _ _) (written_enum rfl)) (fun i => by simp only [← Nat.add_assoc, Nat.reduceAdd, Nat.one_mul] <;> omega)
theorem MinefieldQueryPdu.placed (x : MinefieldQueryPdu) (hd : Bytes) (hh : hd.length = 12) :
    ∀ t ∈ PduKind.elements .MinefieldQuery, t.Placed x (hd ++ wire (sent x)) := by
  show ∀ t ∈ [_, _], _
  refine List.forall_mem_cons.mpr ⟨MinefieldQueryPdu.placed_requested_perimeter_points x hd hh, ?_⟩
  refine List.forall_mem_cons.mpr ⟨MinefieldQueryPdu.placed_sensor_types x hd hh, ?_⟩
  exact fun _ h => nomatch h

theorem MinefieldDataPdu.placed_sensor_types (x : MinefieldDataPdu) (hd : Bytes) (hh : hd.length = 12) :
    ItemsAt [Slot.enum 0 1 id] x.sensor_types (hd ++ wire (sent x)) (fun i => 44 + i) :=
  ItemsAt.at (ItemsAt.skip hh <|
    ItemsAt.skip (a := 6) (MinefieldIdentifier.wire_length _) <|
    ItemsAt.skip (a := 6) (EntityId.wire_length _) <|
    ItemsAt.skip (a := 2) (octets_length _ _) <|
    ItemsAt.skip (a := 1) (octets_length _ _) <|
    ItemsAt.skip (a := 1) (octets_length _ _) <|
    ItemsAt.skip (a := 1) (octets_length _ _) <|
    ItemsAt.skip (a := 1) (octets_length _ _) <|
    ItemsAt.skip (a := 1) (octets_length _ _) <|
    ItemsAt.skip (a := 1) (octets_length _ _) <|
    ItemsAt.skip (a := 4) (octets_length _ _) <|
    ItemsAt.skip (a := 8) (EntityType.wire_length _) <|
    ItemsAt.here (S := [Slot.enum 0 1 id]) (enc := wire) (n := 1) (fun _ => octets_length _ _) (written_enum rfl)) (fun i => by simp only [← Nat.add_assoc, Nat.reduceAdd, Nat.one_mul] <;> omega)
theorem MinefieldDataPdu.placed_mine_location (x : MinefieldDataPdu) (hd : Bytes) (hh : hd.length = 12) :
    ItemsAt EntityCoordinateVector.layout x.mine_location (hd ++ wire (sent x)) (fun i => 44 + x.sensor_types.length + 12 * i) :=
  ItemsAt.at (ItemsAt.skip hh <|
    ItemsAt.skip (a := 6) (MinefieldIdentifier.wire_length _) <|
    ItemsAt.skip (a := 6) (EntityId.wire_length _) <|
    ItemsAt.skip (a := 2) (octets_length _ _) <|
    ItemsAt.skip (a := 1) (octets_length _ _) <|
    ItemsAt.skip (a := 1) (octets_length _ _) <|
    ItemsAt.skip (a := 1) (octets_length _ _) <|
    ItemsAt.skip (a := 1) (octets_length _ _) <|
    ItemsAt.skip (a := 1) (octets_length _ _) <|
    ItemsAt.skip (a := 1) (octets_length _ _) <|
    ItemsAt.skip (a := 4) (octets_length _ _) <|
    ItemsAt.skip (a := 8) (EntityType.wire_length _) <|
    ItemsAt.skip (a := 1 * x.sensor_types.length) (flatMap_len (enc := wire) (fun _ => octets_length _ _) x.sensor_types) <|
    ItemsAt.here (S := EntityCoordinateVector.slots) (enc := wire) (n := 12) (EntityCoordinateVector.wire_length) (EntityCoordinateVector.written)) (fun i => by simp only [← Nat.add_assoc, Nat.reduceAdd, Nat.one_mul] <;> omega)
theorem MinefieldDataPdu.placed (x : MinefieldDataPdu) (hd : Bytes) (hh : hd.length = 12) :
    ∀ t ∈ PduKind.elements .MinefieldData, t.Placed x (hd ++ wire (sent x)) := by
  show ∀ t ∈ [_, _], _
  refine List.forall_mem_cons.mpr ⟨MinefieldDataPdu.placed_sensor_types x hd hh, ?_⟩
  refine List.forall_mem_cons.mpr ⟨MinefieldDataPdu.placed_mine_location x hd hh, ?_⟩
  exact fun _ h => nomatch h

theorem MinefieldResponseNackPdu.placed_missing_pdu_sequence_numbers (x : MinefieldResponseNackPdu) (hd : Bytes) (hh : hd.length = 12) :
    ItemsAt [Slot.u64 0 id] x.missing_pdu_sequence_numbers (hd ++ wire (sent x)) (fun i => 26 + 8 * i) :=
  ItemsAt.at (ItemsAt.skip hh <|
    ItemsAt.skip (a := 6) (EntityId.wire_length _) <|
    ItemsAt.skip (a := 6) (EntityId.wire_length _) <|
    ItemsAt.skip (a := 1) (octets_length _ _) <|
    ItemsAt.skip (a := 1) (octets_length _ _) <|
    ItemsAt.last (S := [Slot.u64 0 id]) (enc := wire) (n := 8) (fun _ => octets_length _ _) (written_u64)) (fun i => by simp only [← Nat.add_assoc, Nat.reduceAdd, Nat.one_mul] <;> omega)
theorem MinefieldResponseNackPdu.placed (x : MinefieldResponseNackPdu) (hd : Bytes) (hh : hd.length = 12) :
    ∀ t ∈ PduKind.elements .MinefieldResponseNack, t.Placed x (hd ++ wire (sent x)) := by
  show ∀ t ∈ [_], _
  refine List.forall_mem_cons.mpr ⟨MinefieldResponseNackPdu.placed_missing_pdu_sequence_numbers x hd hh, ?_⟩
  exact fun _ h => nomatch h

theorem SignalPdu.placed_data (x : SignalPdu) (hd : Bytes) (hh : hd.length = 12) :
    ItemsAt [Slot.u8 0 id] x.data (hd ++ wire (sent x)) (fun i => 32 + i) :=
  ItemsAt.at (ItemsAt.skip hh <|
    ItemsAt.skip (a := 6) (EntityId.wire_length _) <|
    ItemsAt.skip (a := 2) (octets_length _ _) <|
    ItemsAt.skip (a := 2) (octets_length _ _) <|
    ItemsAt.skip (a := 2) (octets_length _ _) <|
    ItemsAt.skip (a := 4) (octets_length _ _) <|
    ItemsAt.skip (a := 2) (octets_length _ _) <|
    ItemsAt.skip (a := 2) (octets_length _ _) <|
    ItemsAt.last (S := [Slot.u8 0 id]) (enc := wire) (n := 1) (fun _ => octets_length _ _) (written_u8)) (fun i => by simp only [← Nat.add_assoc, Nat.reduceAdd, Nat.one_mul] <;> omega)
theorem SignalPdu.placed (x : SignalPdu) (hd : Bytes) (hh : hd.length = 12) :
    ∀ t ∈ PduKind.elements .Signal, t.Placed x (hd ++ wire (sent x)) := by
  show ∀ t ∈ [_], _
  refine List.forall_mem_cons.mpr ⟨SignalPdu.placed_data x hd hh, ?_⟩
  exact fun _ h => nomatch h

theorem IntercomSignalPdu.placed_data (x : IntercomSignalPdu) (hd : Bytes) (hh : hd.length = 12) :
    ItemsAt [Slot.u8 0 id] x.data (hd ++ wire (sent x)) (fun i => 32 + i) :=
  ItemsAt.at (ItemsAt.skip hh <|
    ItemsAt.skip (a := 6) (EntityId.wire_length _) <|
    ItemsAt.skip (a := 2) (octets_length _ _) <|
    ItemsAt.skip (a := 2) (octets_length _ _) <|
    ItemsAt.skip (a := 2) (octets_length _ _) <|
    ItemsAt.skip (a := 4) (octets_length _ _) <|
    ItemsAt.skip (a := 2) (octets_length _ _) <|
    ItemsAt.skip (a := 2) (octets_length _ _) <|
    ItemsAt.last (S := [Slot.u8 0 id]) (enc := wire) (n := 1) (fun _ => octets_length _ _) (written_u8)) (fun i => by simp only [← Nat.add_assoc, Nat.reduceAdd, Nat.one_mul] <;> omega)
theorem IntercomSignalPdu.placed (x : IntercomSignalPdu) (hd : Bytes) (hh : hd.length = 12) :
    ∀ t ∈ PduKind.elements .IntercomSignal, t.Placed x (hd ++ wire (sent x)) := by
  show ∀ t ∈ [_], _
  refine List.forall_mem_cons.mpr ⟨IntercomSignalPdu.placed_data x hd hh, ?_⟩
  exact fun _ h => nomatch h

theorem IntercomControlPdu.placed_intercom_parameters (x : IntercomControlPdu) (hd : Bytes) (hh : hd.length = 12) :
    ItemsAt IntercomCommunicationsParameters.layout x.intercom_parameters (hd ++ wire (sent x)) (fun i => 40 + 8 * i) :=
  ItemsAt.at (ItemsAt.skip hh <|
    ItemsAt.skip (a := 1) (octets_length _ _) <|
    ItemsAt.skip (a := 1) (octets_length _ _) <|
    ItemsAt.skip (a := 6) (EntityId.wire_length _) <|
    ItemsAt.skip (a := 2) (octets_length _ _) <|
    ItemsAt.skip (a := 1) (octets_length _ _) <|
    ItemsAt.skip (a := 1) (octets_length _ _) <|
    ItemsAt.skip (a := 1) (octets_length _ _) <|
    ItemsAt.skip (a := 1) (octets_length _ _) <|
    ItemsAt.skip (a := 6) (EntityId.wire_length _) <|
    ItemsAt.skip (a := 2) (octets_length _ _) <|
    ItemsAt.skip (a := 2) (octets_length _ _) <|
    ItemsAt.skip (a := 4) (octets_length _ _) <|
    ItemsAt.last (S := IntercomCommunicationsParameters.slots) (enc := wire) (n := 8) (IntercomCommunicationsParameters.wire_length) (IntercomCommunicationsParameters.written)) (fun i => by simp only [← Nat.add_assoc, Nat.reduceAdd, Nat.one_mul] <;> omega)
theorem IntercomControlPdu.placed (x : IntercomControlPdu) (hd : Bytes) (hh : hd.length = 12) :
    ∀ t ∈ PduKind.elements .IntercomControl, t.Placed x (hd ++ wire (sent x)) := by
  show ∀ t ∈ [_], _
  refine List.forall_mem_cons.mpr ⟨IntercomControlPdu.placed_intercom_parameters x hd hh, ?_⟩
  exact fun _ h => nomatch h

theorem ActionRequestPdu.placed_fixed_datum_records (x : ActionRequestPdu) (hd : Bytes) (hh : hd.length = 12) :
    ItemsAt FixedDatumRecord.layout x.fixed_datum_records (hd ++ wire (sent x)) (fun i => 40 + 8 * i) :=
  ItemsAt.at (ItemsAt.skip hh <|
    ItemsAt.skip (a := 6) (EntityId.wire_length _) <|
    ItemsAt.skip (a := 6) (EntityId.wire_length _) <|
    ItemsAt.skip (a := 4) (octets_length _ _) <|
    ItemsAt.skip (a := 4) (octets_length _ _) <|
    ItemsAt.skip (a := 4) (octets_length _ _) <|
    ItemsAt.skip (a := 4) (octets_length _ _) <|
    ItemsAt.here (S := FixedDatumRecord.slots) (enc := wire) (n := 8) (FixedDatumRecord.wire_length) (FixedDatumRecord.written)) (fun i => by simp only [← Nat.add_assoc, Nat.reduceAdd, Nat.one_mul] <;> omega)
theorem ActionRequestPdu.placed_variable_datum_records (x : ActionRequestPdu) (hd : Bytes) (hh : hd.length = 12) :
    ItemsAt VariableDatumRecord.layout x.variable_datum_records (hd ++ wire (sent x)) (fun i => 40 + 8 * x.fixed_datum_records.length + VariableDatumRecord.octetsOf (x.variable_datum_records.take i)) :=
  ItemsAt.at (ItemsAt.skip hh <|
    ItemsAt.skip (a := 6) (EntityId.wire_length _) <|
    ItemsAt.skip (a := 6) (EntityId.wire_length _) <|
    ItemsAt.skip (a := 4) (octets_length _ _) <|
    ItemsAt.skip (a := 4) (octets_length _ _) <|
    ItemsAt.skip (a := 4) (octets_length _ _) <|
    ItemsAt.skip (a := 4) (octets_length _ _) <|
    ItemsAt.skip (a := 8 * x.fixed_datum_records.length) (flatMap_len (enc := wire) (FixedDatumRecord.wire_length) x.fixed_datum_records) <|
    VariableDatumRecord.items x.variable_datum_records) (fun i => by simp only [← Nat.add_assoc, Nat.reduceAdd, Nat.one_mul] <;> omega)
theorem ActionRequestPdu.placed (x : ActionRequestPdu) (hd : Bytes) (hh : hd.length = 12) :
    ∀ t ∈ PduKind.elements .ActionRequest, t.Placed x (hd ++ wire (sent x)) := by
  show ∀ t ∈ [_, _], _
  refine List.forall_mem_cons.mpr ⟨ActionRequestPdu.placed_fixed_datum_records x hd hh, ?_⟩
  refine List.forall_mem_cons.mpr ⟨ActionRequestPdu.placed_variable_datum_records x hd hh, ?_⟩
  exact fun _ h => nomatch h

theorem ActionResponsePdu.placed_fixed_datum_records (x : ActionResponsePdu) (hd : Bytes) (hh : hd.length = 12) :
    ItemsAt FixedDatumRecord.layout x.fixed_datum_records (hd ++ wire (sent x)) (fun i => 40 + 8 * i) :=
  ItemsAt.at (ItemsAt.skip hh <|
    ItemsAt.skip (a := 6) (EntityId.wire_length _) <|
    ItemsAt.skip (a := 6) (EntityId.wire_length _) <|
    ItemsAt.skip (a := 4) (octets_length _ _) <|
    ItemsAt.skip (a := 4) (octets_length _ _) <|
    ItemsAt.skip (a := 4) (octets_length _ _) <|
    ItemsAt.skip (a := 4) (octets_length _ _) <|
    ItemsAt.here (S := FixedDatumRecord.slots) (enc := wire) (n := 8) (FixedDatumRecord.wire_length) (FixedDatumRecord.written)) (fun i => by simp only [← Nat.add_assoc, Nat.reduceAdd, Nat.one_mul] <;> omega)
theorem ActionResponsePdu.placed_variable_datum_records (x : ActionResponsePdu) (hd : Bytes) (hh : hd.length = 12) :
    ItemsAt VariableDatumRecord.layout x.variable_datum_records (hd ++ wire (sent x)) (fun i => 40 + 8 * x.fixed_datum_records.length + VariableDatumRecord.octetsOf (x.variable_datum_records.take i)) :=
  ItemsAt.at (ItemsAt.skip hh <|
    ItemsAt.skip (a := 6) (EntityId.wire_length _) <|
    ItemsAt.skip (a := 6) (EntityId.wire_length _) <|
    ItemsAt.skip (a := 4) (octets_length _ _) <|
    ItemsAt.skip (a := 4) (octets_length _ _) <|
    ItemsAt.skip (a := 4) (octets_length _ _) <|
    ItemsAt.skip (a := 4) (octets_length _ _) <|
    ItemsAt.skip (a := 8 * x.fixed_datum_records.length) (flatMap_len (enc := wire) (FixedDatumRecord.wire_length) x.fixed_datum_records) <|
    VariableDatumRecord.items x.variable_datum_records) (fun i => by simp only [← Nat.add_assoc, Nat.reduceAdd, Nat.one_mul] <;> omega)
theorem ActionResponsePdu.placed (x : ActionResponsePdu) (hd : Bytes) (hh : hd.length = 12) :
    ∀ t ∈ PduKind.elements .ActionResponse, t.Placed x (hd ++ wire (sent x)) := by
  show ∀ t ∈ [_, _], _
  refine List.forall_mem_cons.mpr ⟨ActionResponsePdu.placed_fixed_datum_records x hd hh, ?_⟩
  refine List.forall_mem_cons.mpr ⟨ActionResponsePdu.placed_variable_datum_records x hd hh, ?_⟩
  exact fun _ h => nomatch h

theorem DataQueryPdu.placed_fixed_datum_records (x : DataQueryPdu) (hd : Bytes) (hh : hd.length = 12) :
    ItemsAt FixedDatumRecord.layout x.fixed_datum_records (hd ++ wire (sent x)) (fun i => 40 + 8 * i) :=
  ItemsAt.at (ItemsAt.skip hh <|
    ItemsAt.skip (a := 6) (EntityId.wire_length _) <|
    ItemsAt.skip (a := 6) (EntityId.wire_length _) <|
    ItemsAt.skip (a := 4) (octets_length _ _) <|
    ItemsAt.skip (a := 4) (octets_length _ _) <|
    ItemsAt.skip (a := 4) (octets_length _ _) <|
    ItemsAt.skip (a := 4) (octets_length _ _) <|
    ItemsAt.here (S := FixedDatumRecord.slots) (enc := wire) (n := 8) (FixedDatumRecord.wire_length) (FixedDatumRecord.written)) (fun i => by simp only [← Nat.add_assoc, Nat.reduceAdd, Nat.one_mul] <;> omega)
theorem DataQueryPdu.placed_variable_datum_records (x : DataQueryPdu) (hd : Bytes) (hh : hd.length = 12) :
    ItemsAt VariableDatumRecord.layout x.variable_datum_records (hd ++ wire (sent x)) (fun i => 40 + 8 * x.fixed_datum_records.length + VariableDatumRecord.octetsOf (x.variable_datum_records.take i)) :=
  ItemsAt.at (ItemsAt.skip hh <|
    ItemsAt.skip (a := 6) (EntityId.wire_length _) <|
    ItemsAt.skip (a := 6) (EntityId.wire_length _) <|
    ItemsAt.skip (a := 4) (octets_length _ _) <|
    ItemsAt.skip (a := 4) (octets_length _ _) <|
    ItemsAt.skip (a := 4) (octets_length _ _) <|
    ItemsAt.skip (a := 4) (octets_length _ _) <|
    ItemsAt.skip (a := 8 * x.fixed_datum_records.length) (flatMap_len (enc := wire) (FixedDatumRecord.wire_length) x.fixed_datum_records) <|
    VariableDatumRecord.items x.variable_datum_records) (fun i => by simp only [← Nat.add_assoc, Nat.reduceAdd, Nat.one_mul] <;> omega)
theorem DataQueryPdu.placed (x : DataQueryPdu) (hd : Bytes) (hh : hd.length = 12) :
    ∀ t ∈ PduKind.elements .DataQuery, t.Placed x (hd ++ wire (sent x)) := by
  show ∀ t ∈ [_, _], _
  refine List.forall_mem_cons.mpr ⟨DataQueryPdu.placed_fixed_datum_records x hd hh, ?_⟩
  refine List.forall_mem_cons.mpr ⟨DataQueryPdu.placed_variable_datum_records x hd hh, ?_⟩
  exact fun _ h => nomatch h

theorem SetDataPdu.placed_fixed_datum_records (x : SetDataPdu) (hd : Bytes) (hh : hd.length = 12) :
    ItemsAt FixedDatumRecord.layout x.fixed_datum_records (hd ++ wire (sent x)) (fun i => 40 + 8 * i) :=
  ItemsAt.at (ItemsAt.skip hh <|
    ItemsAt.skip (a := 6) (EntityId.wire_length _) <|
    ItemsAt.skip (a := 6) (EntityId.wire_length _) <|
    ItemsAt.skip (a := 4) (octets_length _ _) <|
    ItemsAt.skip (a := 4) (octets_length _ _) <|
    ItemsAt.skip (a := 4) (octets_length _ _) <|
    ItemsAt.skip (a := 4) (octets_length _ _) <|
    ItemsAt.here (S := FixedDatumRecord.slots) (enc := wire) (n := 8) (FixedDatumRecord.wire_length) (FixedDatumRecord.written)) (fun i => by simp only [← Nat.add_assoc, Nat.reduceAdd, Nat.one_mul] <;> omega)
theorem SetDataPdu.placed_variable_datum_records (x : SetDataPdu) (hd : Bytes) (hh : hd.length = 12) :
    ItemsAt VariableDatumRecord.layout x.variable_datum_records (hd ++ wire (sent x)) (fun i => 40 + 8 * x.fixed_datum_records.length + VariableDatumRecord.octetsOf (x.variable_datum_records.take i)) :=
  ItemsAt.at (ItemsAt.skip hh <|
    ItemsAt.skip (a := 6) (EntityId.wire_length _) <|
    ItemsAt.skip (a := 6) (EntityId.wire_length _) <|
    ItemsAt.skip (a := 4) (octets_length _ _) <|
    ItemsAt.skip (a := 4) (octets_length _ _) <|
    ItemsAt.skip (a := 4) (octets_length _ _) <|
    ItemsAt.skip (a := 4) (octets_length _ _) <|
    ItemsAt.skip (a := 8 * x.fixed_datum_records.length) (flatMap_len (enc := wire) (FixedDatumRecord.wire_length) x.fixed_datum_records) <|
    VariableDatumRecord.items x.variable_datum_records) (fun i => by simp only [← Nat.add_assoc, Nat.reduceAdd, Nat.one_mul] <;> omega)
theorem SetDataPdu.placed (x : SetDataPdu) (hd : Bytes) (hh : hd.length = 12) :
    ∀ t ∈ PduKind.elements .SetData, t.Placed x (hd ++ wire (sent x)) := by
  show ∀ t ∈ [_, _], _
  refine List.forall_mem_cons.mpr ⟨SetDataPdu.placed_fixed_datum_records x hd hh, ?_⟩
  refine List.forall_mem_cons.mpr ⟨SetDataPdu.placed_variable_datum_records x hd hh, ?_⟩
  exact fun _ h => nomatch h

theorem DataPdu.placed_fixed_datum_records (x : DataPdu) (hd : Bytes) (hh : hd.length = 12) :
    ItemsAt FixedDatumRecord.layout x.fixed_datum_records (hd ++ wire (sent x)) (fun i => 40 + 8 * i) :=
  ItemsAt.at (ItemsAt.skip hh <|
    ItemsAt.skip (a := 6) (EntityId.wire_length _) <|
    ItemsAt.skip (a := 6) (EntityId.wire_length _) <|
    ItemsAt.skip (a := 4) (octets_length _ _) <|
    ItemsAt.skip (a := 4) (octets_length _ _) <|
    ItemsAt.skip (a := 4) (octets_length _ _) <|
    ItemsAt.skip (a := 4) (octets_length _ _) <|
    ItemsAt.here (S := FixedDatumRecord.slots) (enc := wire) (n := 8) (FixedDatumRecord.wire_length) (FixedDatumRecord.written)) (fun i => by simp only [← Nat.add_assoc, Nat.reduceAdd, Nat.one_mul] <;> omega)
theorem DataPdu.placed_variable_datum_records (x : DataPdu) (hd : Bytes) (hh : hd.length = 12) :
    ItemsAt VariableDatumRecord.layout x.variable_datum_records (hd ++ wire (sent x)) (fun i => 40 + 8 * x.fixed_datum_records.length + VariableDatumRecord.octetsOf (x.variable_datum_records.take i)) :=
  ItemsAt.at (ItemsAt.skip hh <|
    ItemsAt.skip (a := 6) (EntityId.wire_length _) <|
    ItemsAt.skip (a := 6) (EntityId.wire_length _) <|
    ItemsAt.skip (a := 4) (octets_length _ _) <|
    ItemsAt.skip (a := 4) (octets_length _ _) <|
    ItemsAt.skip (a := 4) (octets_length _ _) <|
    ItemsAt.skip (a := 4) (octets_length _ _) <|
    ItemsAt.skip (a := 8 * x.fixed_datum_records.length) (flatMap_len (enc := wire) (FixedDatumRecord.wire_length) x.fixed_datum_records) <|
    VariableDatumRecord.items x.variable_datum_records) (fun i => by simp only [← Nat.add_assoc, Nat.reduceAdd, Nat.one_mul] <;> omega)
theorem DataPdu.placed (x : DataPdu) (hd : Bytes) (hh : hd.length = 12) :
    ∀ t ∈ PduKind.elements .Data, t.Placed x (hd ++ wire (sent x)) := by
  show ∀ t ∈ [_, _], _
  refine List.forall_mem_cons.mpr ⟨DataPdu.placed_fixed_datum_records x hd hh, ?_⟩
  refine List.forall_mem_cons.mpr ⟨DataPdu.placed_variable_datum_records x hd hh, ?_⟩
  exact fun _ h => nomatch h

theorem EventReportPdu.placed_fixed_datum_records (x : EventReportPdu) (hd : Bytes) (hh : hd.length = 12) :
    ItemsAt FixedDatumRecord.layout x.fixed_datum_records (hd ++ wire (sent x)) (fun i => 40 + 8 * i) :=
  ItemsAt.at (ItemsAt.skip hh <|
    ItemsAt.skip (a := 6) (EntityId.wire_length _) <|
    ItemsAt.skip (a := 6) (EntityId.wire_length _) <|
    ItemsAt.skip (a := 4) (octets_length _ _) <|
    ItemsAt.skip (a := 4) (octets_length _ _) <|
    ItemsAt.skip (a := 4) (octets_length _ _) <|
    ItemsAt.skip (a := 4) (octets_length _ _) <|
    ItemsAt.here (S := FixedDatumRecord.slots) (enc := wire) (n := 8) (FixedDatumRecord.wire_length) (FixedDatumRecord.written)) (fun i => by simp only [← Nat.add_assoc, Nat.reduceAdd, Nat.one_mul] <;> omega)
theorem EventReportPdu.placed_variable_datum_records (x : EventReportPdu) (hd : Bytes) (hh : hd.length = 12) :
    ItemsAt VariableDatumRecord.layout x.variable_datum_records (hd ++ wire (sent x)) (fun i => 40 + 8 * x.fixed_datum_records.length + VariableDatumRecord.octetsOf (x.variable_datum_records.take i)) :=
  ItemsAt.at (ItemsAt.skip hh <|
    ItemsAt.skip (a := 6) (EntityId.wire_length _) <|
    ItemsAt.skip (a := 6) (EntityId.wire_length _) <|
    ItemsAt.skip (a := 4) (octets_length _ _) <|
    ItemsAt.skip (a := 4) (octets_length _ _) <|
    ItemsAt.skip (a := 4) (octets_length _ _) <|
    ItemsAt.skip (a := 4) (octets_length _ _) <|
    ItemsAt.skip (a := 8 * x.fixed_datum_records.length) (flatMap_len (enc := wire) (FixedDatumRecord.wire_length) x.fixed_datum_records) <|
    VariableDatumRecord.items x.variable_datum_records) (fun i => by simp only [← Nat.add_assoc, Nat.reduceAdd, Nat.one_mul] <;> omega)
theorem EventReportPdu.placed (x : EventReportPdu) (hd : Bytes) (hh : hd.length = 12) :
    ∀ t ∈ PduKind.elements .EventReport, t.Placed x (hd ++ wire (sent x)) := by
  show ∀ t ∈ [_, _], _
  refine List.forall_mem_cons.mpr ⟨EventReportPdu.placed_fixed_datum_records x hd hh, ?_⟩
  refine List.forall_mem_cons.mpr ⟨EventReportPdu.placed_variable_datum_records x hd hh, ?_⟩
  exact fun _ h => nomatch h

theorem CommentPdu.placed_fixed_datum_records (x : CommentPdu) (hd : Bytes) (hh : hd.length = 12) :
    ItemsAt FixedDatumRecord.layout x.fixed_datum_records (hd ++ wire (sent x)) (fun i => 32 + 8 * i) :=
  ItemsAt.at (ItemsAt.skip hh <|
    ItemsAt.skip (a := 6) (EntityId.wire_length _) <|
    ItemsAt.skip (a := 6) (EntityId.wire_length _) <|
    ItemsAt.skip (a := 4) (octets_length _ _) <|
    ItemsAt.skip (a := 4) (octets_length _ _) <|
    ItemsAt.here (S := FixedDatumRecord.slots) (enc := wire) (n := 8) (FixedDatumRecord.wire_length) (FixedDatumRecord.written)) (fun i => by simp only [← Nat.add_assoc, Nat.reduceAdd, Nat.one_mul] <;> omega)
theorem CommentPdu.placed_variable_datum_records (x : CommentPdu) (hd : Bytes) (hh : hd.length = 12) :
    ItemsAt VariableDatumRecord.layout x.variable_datum_records (hd ++ wire (sent x)) (fun i => 32 + 8 * x.fixed_datum_records.length + VariableDatumRecord.octetsOf (x.variable_datum_records.take i)) :=
  ItemsAt.at (ItemsAt.skip hh <|
    ItemsAt.skip (a := 6) (EntityId.wire_length _) <|
    ItemsAt.skip (a := 6) (EntityId.wire_length _) <|
    ItemsAt.skip (a := 4) (octets_length _ _) <|
    ItemsAt.skip (a := 4) (octets_length _ _) <|
    ItemsAt.skip (a := 8 * x.fixed_datum_records.length) (flatMap_len (enc := wire) (FixedDatumRecord.wire_length) x.fixed_datum_records) <|
    VariableDatumRecord.items x.variable_datum_records) (fun i => by simp only [← Nat.add_assoc, Nat.reduceAdd, Nat.one_mul] <;> omega)
theorem CommentPdu.placed (x : CommentPdu) (hd : Bytes) (hh : hd.length = 12) :
    ∀ t ∈ PduKind.elements .Comment, t.Placed x (hd ++ wire (sent x)) := by
  show ∀ t ∈ [_, _], _
  refine List.forall_mem_cons.mpr ⟨CommentPdu.placed_fixed_datum_records x hd hh, ?_⟩
  refine List.forall_mem_cons.mpr ⟨CommentPdu.placed_variable_datum_records x hd hh, ?_⟩
  exact fun _ h => nomatch h

theorem ActionRequestReliablePdu.placed_fixed_datum_records (x : ActionRequestReliablePdu) (hd : Bytes) (hh : hd.length = 12) :
    ItemsAt FixedDatumRecord.layout x.fixed_datum_records (hd ++ wire (sent x)) (fun i => 48 + 8 * i) :=
  ItemsAt.at (ItemsAt.skip hh <|
    ItemsAt.skip (a := 6) (EntityId.wire_length _) <|
    ItemsAt.skip (a := 6) (EntityId.wire_length _) <|
    ItemsAt.skip (a := 1) (octets_length _ _) <|
    ItemsAt.skip (a := 1) (octets_length _ _) <|
    ItemsAt.skip (a := 2) (octets_length _ _) <|
    ItemsAt.skip (a := 4) (octets_length _ _) <|
    ItemsAt.skip (a := 4) (octets_length _ _) <|
    ItemsAt.skip (a := 4) (octets_length _ _) <|
    ItemsAt.skip (a := 4) (octets_length _ _) <|
    ItemsAt.skip (a := 4) (octets_length _ _) <|
    ItemsAt.here (S := FixedDatumRecord.slots) (enc := wire) (n := 8) (FixedDatumRecord.wire_length) (FixedDatumRecord.written)) (fun i => by simp only [← Nat.add_assoc, Nat.reduceAdd, Nat.one_mul] <;> omega)
theorem ActionRequestReliablePdu.placed_variable_datum_records (x : ActionRequestReliablePdu) (hd : Bytes) (hh : hd.length = 12) :
    ItemsAt VariableDatumRecord.layout x.variable_datum_records (hd ++ wire (sent x)) (fun i => 48 + 8 * x.fixed_datum_records.length + VariableDatumRecord.octetsOf (x.variable_datum_records.take i)) :=
  ItemsAt.at (ItemsAt.skip hh <|
    ItemsAt.skip (a := 6) (EntityId.wire_length _) <|
    ItemsAt.skip (a := 6) (EntityId.wire_length _) <|
    ItemsAt.skip (a := 1) (octets_length _ _) <|
    ItemsAt.skip (a := 1) (octets_length _ _) <|
    ItemsAt.skip (a := 2) (octets_length _ _) <|
    ItemsAt.skip (a := 4) (octets_length _ _) <|
    ItemsAt.skip (a := 4) (octets_length _ _) <|
    ItemsAt.skip (a := 4) (octets_length _ _) <|
    ItemsAt.skip (a := 4) (octets_length _ _) <|
    ItemsAt.skip (a := 4) (octets_length _ _) <|
    ItemsAt.skip (a := 8 * x.fixed_datum_records.length) (flatMap_len (enc := wire) (FixedDatumRecord.wire_length) x.fixed_datum_records) <|
    VariableDatumRecord.items x.variable_datum_records) (fun i => by simp only [← Nat.add_assoc, Nat.reduceAdd, Nat.one_mul] <;> omega)
theorem ActionRequestReliablePdu.placed (x : ActionRequestReliablePdu) (hd : Bytes) (hh : hd.length = 12) :
    ∀ t ∈ PduKind.elements .ActionRequestReliable, t.Placed x (hd ++ wire (sent x)) := by
  show ∀ t ∈ [_, _], _
  refine List.forall_mem_cons.mpr ⟨ActionRequestReliablePdu.placed_fixed_datum_records x hd hh, ?_⟩
  refine List.forall_mem_cons.mpr ⟨ActionRequestReliablePdu.placed_variable_datum_records x hd hh, ?_⟩
  exact fun _ h => nomatch h

theorem ActionResponseReliablePdu.placed_fixed_datum_records (x : ActionResponseReliablePdu) (hd : Bytes) (hh : hd.length = 12) :
    ItemsAt FixedDatumRecord.layout x.fixed_datum_records (hd ++ wire (sent x)) (fun i => 40 + 8 * i) :=
  ItemsAt.at (ItemsAt.skip hh <|
    ItemsAt.skip (a := 6) (EntityId.wire_length _) <|
    ItemsAt.skip (a := 6) (EntityId.wire_length _) <|
    ItemsAt.skip (a := 4) (octets_length _ _) <|
    ItemsAt.skip (a := 4) (octets_length _ _) <|
    ItemsAt.skip (a := 4) (octets_length _ _) <|
    ItemsAt.skip (a := 4) (octets_length _ _) <|
    ItemsAt.here (S := FixedDatumRecord.slots) (enc := wire) (n := 8) (FixedDatumRecord.wire_length) (FixedDatumRecord.written)) (fun i => by simp only [← Nat.add_assoc, Nat.reduceAdd, Nat.one_mul] <;> omega)
theorem ActionResponseReliablePdu.placed_variable_datum_records (x : ActionResponseReliablePdu) (hd : Bytes) (hh : hd.length = 12) :
    ItemsAt VariableDatumRecord.layout x.variable_datum_records (hd ++ wire (sent x)) (fun i => 40 + 8 * x.fixed_datum_records.length + VariableDatumRecord.octetsOf (x.variable_datum_records.take i)) :=
  ItemsAt.at (ItemsAt.skip hh <|
    ItemsAt.skip (a := 6) (EntityId.wire_length _) <|
    ItemsAt.skip (a := 6) (EntityId.wire_length _) <|
    ItemsAt.skip (a := 4) (octets_length _ _) <|
    ItemsAt.skip (a := 4) (octets_length _ _) <|
    ItemsAt.skip (a := 4) (octets_length _ _) <|
    ItemsAt.skip (a := 4) (octets_length _ _) <|
    ItemsAt.skip (a := 8 * x.fixed_datum_records.length) (flatMap_len (enc := wire) (FixedDatumRecord.wire_length) x.fixed_datum_records) <|
    VariableDatumRecord.items x.variable_datum_records) (fun i => by simp only [← Nat.add_assoc, Nat.reduceAdd, Nat.one_mul] <;> omega)
theorem ActionResponseReliablePdu.placed (x : ActionResponseReliablePdu) (hd : Bytes) (hh : hd.length = 12) :
    ∀ t ∈ PduKind.elements .ActionResponseReliable, t.Placed x (hd ++ wire (sent x)) := by
  show ∀ t ∈ [_, _], _
  refine List.forall_mem_cons.mpr ⟨ActionResponseReliablePdu.placed_fixed_datum_records x hd hh, ?_⟩
  refine List.forall_mem_cons.mpr ⟨ActionResponseReliablePdu.placed_variable_datum_records x hd hh, ?_⟩
  exact fun _ h => nomatch h

theorem DataQueryReliablePdu.placed_fixed_datum_ids (x : DataQueryReliablePdu) (hd : Bytes) (hh : hd.length = 12) :
    ItemsAt [Slot.enum 0 4 id] x.fixed_datum_ids (hd ++ wire (sent x)) (fun i => 44 + 4 * i) :=
  ItemsAt.at (ItemsAt.skip hh <|
    ItemsAt.skip (a := 6) (EntityId.wire_length _) <|
    ItemsAt.skip (a := 6) (EntityId.wire_length _) <|
    ItemsAt.skip (a := 1) (octets_length _ _) <|
    ItemsAt.skip (a := 1) (octets_length _ _) <|
    ItemsAt.skip (a := 2) (octets_length _ _) <|
    ItemsAt.skip (a := 4) (octets_length _ _) <|
    ItemsAt.skip (a := 4) (octets_length _ _) <|
    ItemsAt.skip (a := 4) (octets_length _ _) <|
    ItemsAt.skip (a := 4) (octets_length _ _) <|
    ItemsAt.here (S := [Slot.enum 0 4 id]) (enc := wire) (n := 4) (fun _ => octets_length _ _) (written_enum rfl)) (fun i => by simp only [← Nat.add_assoc, Nat.reduceAdd, Nat.one_mul] <;> omega)
theorem DataQueryReliablePdu.placed_variable_datum_ids (x : DataQueryReliablePdu) (hd : Bytes) (hh : hd.length = 12) :
    ItemsAt [Slot.enum 0 4 id] x.variable_datum_ids (hd ++ wire (sent x)) (fun i => 44 + 4 * x.fixed_datum_ids.length + 4 * i) :=
  ItemsAt.at (ItemsAt.skip hh <|
    ItemsAt.skip (a := 6) (EntityId.wire_length _) <|
    ItemsAt.skip (a := 6) (EntityId.wire_length _) <|
    ItemsAt.skip (a := 1) (octets_length _ _) <|
    ItemsAt.skip (a := 1) (octets_length _ _) <|
    ItemsAt.skip (a := 2) (octets_length _ _) <|
    ItemsAt.skip (a := 4) (octets_length _ _) <|
    ItemsAt.skip (a := 4) (octets_length _ _) <|
    ItemsAt.skip (a := 4) (octets_length _ _) <|
    ItemsAt.skip (a := 4) (octets_length _ _) <|
    ItemsAt.skip (a := 4 * x.fixed_datum_ids.length) (flatMap_len (enc := wire) (fun _ => octets_length _ _) x.fixed_datum_ids) <|
    ItemsAt.last (S := [Slot.enum 0 4 id]) (enc := wire) (n := 4) (fun _ => octets_length _ _) (written_enum rfl)) (fun i => by simp only [← Nat.add_assoc, Nat.reduceAdd, Nat.one_mul] <;> omega)
theorem DataQueryReliablePdu.placed (x : DataQueryReliablePdu) (hd : Bytes) (hh : hd.length = 12) :
    ∀ t ∈ PduKind.elements .DataQueryReliable, t.Placed x (hd ++ wire (sent x)) := by
  show ∀ t ∈ [_, _], _
  refine List.forall_mem_cons.mpr ⟨DataQueryReliablePdu.placed_fixed_datum_ids x hd hh, ?_⟩
  refine List.forall_mem_cons.mpr ⟨DataQueryReliablePdu.placed_variable_datum_ids x hd hh, ?_⟩
  exact fun _ h => nomatch h

theorem SetDataReliablePdu.placed_fixed_datum_records (x : SetDataReliablePdu) (hd : Bytes) (hh : hd.length = 12) :
    ItemsAt FixedDatumRecord.layout x.fixed_datum_records (hd ++ wire (sent x)) (fun i => 40 + 8 * i) :=
  ItemsAt.at (ItemsAt.skip hh <|
    ItemsAt.skip (a := 6) (EntityId.wire_length _) <|
    ItemsAt.skip (a := 6) (EntityId.wire_length _) <|
    ItemsAt.skip (a := 1) (octets_length _ _) <|
    ItemsAt.skip (a := 1) (octets_length _ _) <|
    ItemsAt.skip (a := 2) (octets_length _ _) <|
    ItemsAt.skip (a := 4) (octets_length _ _) <|
    ItemsAt.skip (a := 4) (octets_length _ _) <|
    ItemsAt.skip (a := 4) (octets_length _ _) <|
    ItemsAt.here (S := FixedDatumRecord.slots) (enc := wire) (n := 8) (FixedDatumRecord.wire_length) (FixedDatumRecord.written)) (fun i => by simp only [← Nat.add_assoc, Nat.reduceAdd, Nat.one_mul] <;> omega)
theorem SetDataReliablePdu.placed_variable_datum_records (x : SetDataReliablePdu) (hd : Bytes) (hh : hd.length = 12) :
    ItemsAt VariableDatumRecord.layout x.variable_datum_records (hd ++ wire (sent x)) (fun i => 40 + 8 * x.fixed_datum_records.length + VariableDatumRecord.octetsOf (x.variable_datum_records.take i)) :=
  ItemsAt.at (ItemsAt.skip hh <|
    ItemsAt.skip (a := 6) (EntityId.wire_length _) <|
    ItemsAt.skip (a := 6) (EntityId.wire_length _) <|
    ItemsAt.skip (a := 1) (octets_length _ _) <|
    ItemsAt.skip (a := 1) (octets_length _ _) <|
    ItemsAt.skip (a := 2) (octets_length _ _) <|
    ItemsAt.skip (a := 4) (octets_length _ _) <|
    ItemsAt.skip (a := 4) (octets_length _ _) <|
    ItemsAt.skip (a := 4) (octets_length _ _) <|
    ItemsAt.skip (a := 8 * x.fixed_datum_records.length) (flatMap_len (enc := wire) (FixedDatumRecord.wire_length) x.fixed_datum_records) <|
    VariableDatumRecord.items x.variable_datum_records) (fun i => by simp only [← Nat.add_assoc, Nat.reduceAdd, Nat.one_mul] <;> omega)
theorem SetDataReliablePdu.placed (x : SetDataReliablePdu) (hd : Bytes) (hh : hd.length = 12) :
    ∀ t ∈ PduKind.elements .SetDataReliable, t.Placed x (hd ++ wire (sent x)) := by
  show ∀ t ∈ [_, _], _
  refine List.forall_mem_cons.mpr ⟨SetDataReliablePdu.placed_fixed_datum_records x hd hh, ?_⟩
  refine List.forall_mem_cons.mpr ⟨SetDataReliablePdu.placed_variable_datum_records x hd hh, ?_⟩
  exact fun _ h => nomatch h

theorem DataReliablePdu.placed_fixed_datum_records (x : DataReliablePdu) (hd : Bytes) (hh : hd.length = 12) :
    ItemsAt FixedDatumRecord.layout x.fixed_datum_records (hd ++ wire (sent x)) (fun i => 40 + 8 * i) :=
  ItemsAt.at (ItemsAt.skip hh <|
    ItemsAt.skip (a := 6) (EntityId.wire_length _) <|
    ItemsAt.skip (a := 6) (EntityId.wire_length _) <|
    ItemsAt.skip (a := 4) (octets_length _ _) <|
    ItemsAt.skip (a := 1) (octets_length _ _) <|
    ItemsAt.skip (a := 1) (octets_length _ _) <|
    ItemsAt.skip (a := 2) (octets_length _ _) <|
    ItemsAt.skip (a := 4) (octets_length _ _) <|
    ItemsAt.skip (a := 4) (octets_length _ _) <|
    ItemsAt.here (S := FixedDatumRecord.slots) (enc := wire) (n := 8) (FixedDatumRecord.wire_length) (FixedDatumRecord.written)) (fun i => by simp only [← Nat.add_assoc, Nat.reduceAdd, Nat.one_mul] <;> omega)
theorem DataReliablePdu.placed_variable_datum_records (x : DataReliablePdu) (hd : Bytes) (hh : hd.length = 12) :
    ItemsAt VariableDatumRecord.layout x.variable_datum_records (hd ++ wire (sent x)) (fun i => 40 + 8 * x.fixed_datum_records.length + VariableDatumRecord.octetsOf (x.variable_datum_records.take i)) :=
  ItemsAt.at (ItemsAt.skip hh <|
    ItemsAt.skip (a := 6) (EntityId.wire_length _) <|
    ItemsAt.skip (a := 6) (EntityId.wire_length _) <|
    ItemsAt.skip (a := 4) (octets_length _ _) <|
    ItemsAt.skip (a := 1) (octets_length _ _) <|
    ItemsAt.skip (a := 1) (octets_length _ _) <|
    ItemsAt.skip (a := 2) (octets_length _ _) <|
    ItemsAt.skip (a := 4) (octets_length _ _) <|
    ItemsAt.skip (a := 4) (octets_length _ _) <|
    ItemsAt.skip (a := 8 * x.fixed_datum_records.length) (flatMap_len (enc := wire) (FixedDatumRecord.wire_length) x.fixed_datum_records) <|
    VariableDatumRecord.items x.variable_datum_records) (fun i => by simp only [← Nat.add_assoc, Nat.reduceAdd, Nat.one_mul] <;> omega)
theorem DataReliablePdu.placed (x : DataReliablePdu) (hd : Bytes) (hh : hd.length = 12) :
    ∀ t ∈ PduKind.elements .DataReliable, t.Placed x (hd ++ wire (sent x)) := by
  show ∀ t ∈ [_, _], _
  refine List.forall_mem_cons.mpr ⟨DataReliablePdu.placed_fixed_datum_records x hd hh, ?_⟩
  refine List.forall_mem_cons.mpr ⟨DataReliablePdu.placed_variable_datum_records x hd hh, ?_⟩
  exact fun _ h => nomatch h

theorem EventReportReliablePdu.placed_fixed_datum_records (x : EventReportReliablePdu) (hd : Bytes) (hh : hd.length = 12) :
    ItemsAt FixedDatumRecord.layout x.fixed_datum_records (hd ++ wire (sent x)) (fun i => 40 + 8 * i) :=
  ItemsAt.at (ItemsAt.skip hh <|
    ItemsAt.skip (a := 6) (EntityId.wire_length _) <|
    ItemsAt.skip (a := 6) (EntityId.wire_length _) <|
    ItemsAt.skip (a := 4) (octets_length _ _) <|
    ItemsAt.skip (a := 4) (octets_length _ _) <|
    ItemsAt.skip (a := 4) (octets_length _ _) <|
    ItemsAt.skip (a := 4) (octets_length _ _) <|
    ItemsAt.here (S := FixedDatumRecord.slots) (enc := wire) (n := 8) (FixedDatumRecord.wire_length) (FixedDatumRecord.written)) (fun i => by simp only [← Nat.add_assoc, Nat.reduceAdd, Nat.one_mul] <;> omega)
theorem EventReportReliablePdu.placed_variable_datum_records (x : EventReportReliablePdu) (hd : Bytes) (hh : hd.length = 12) :
    ItemsAt VariableDatumRecord.layout x.variable_datum_records (hd ++ wire (sent x)) (fun i => 40 + 8 * x.fixed_datum_records.length + VariableDatumRecord.octetsOf (x.variable_datum_records.take i)) :=
  ItemsAt.at (ItemsAt.skip hh <|
    ItemsAt.skip (a := 6) (EntityId.wire_length _) <|
    ItemsAt.skip (a := 6) (EntityId.wire_length _) <|
    ItemsAt.skip (a := 4) (octets_length _ _) <|
    ItemsAt.skip (a := 4) (octets_length _ _) <|
    ItemsAt.skip (a := 4) (octets_length _ _) <|
    ItemsAt.skip (a := 4) (octets_length _ _) <|
    ItemsAt.skip (a := 8 * x.fixed_datum_records.length) (flatMap_len (enc := wire) (FixedDatumRecord.wire_length) x.fixed_datum_records) <|
    VariableDatumRecord.items x.variable_datum_records) (fun i => by simp only [← Nat.add_assoc, Nat.reduceAdd, Nat.one_mul] <;> omega)
theorem EventReportReliablePdu.placed (x : EventReportReliablePdu) (hd : Bytes) (hh : hd.length = 12) :
    ∀ t ∈ PduKind.elements .EventReportReliable, t.Placed x (hd ++ wire (sent x)) := by
  show ∀ t ∈ [_, _], _
  refine List.forall_mem_cons.mpr ⟨EventReportReliablePdu.placed_fixed_datum_records x hd hh, ?_⟩
  refine List.forall_mem_cons.mpr ⟨EventReportReliablePdu.placed_variable_datum_records x hd hh, ?_⟩
  exact fun _ h => nomatch h

theorem CommentReliablePdu.placed_fixed_datum_records (x : CommentReliablePdu) (hd : Bytes) (hh : hd.length = 12) :
    ItemsAt FixedDatumRecord.layout x.fixed_datum_records (hd ++ wire (sent x)) (fun i => 32 + 8 * i) :=
  ItemsAt.at (ItemsAt.skip hh <|
    ItemsAt.skip (a := 6) (EntityId.wire_length _) <|
    ItemsAt.skip (a := 6) (EntityId.wire_length _) <|
    ItemsAt.skip (a := 4) (octets_length _ _) <|
    ItemsAt.skip (a := 4) (octets_length _ _) <|
    ItemsAt.here (S := FixedDatumRecord.slots) (enc := wire) (n := 8) (FixedDatumRecord.wire_length) (FixedDatumRecord.written)) (fun i => by simp only [← Nat.add_assoc, Nat.reduceAdd, Nat.one_mul] <;> omega)
theorem CommentReliablePdu.placed_variable_datum_records (x : CommentReliablePdu) (hd : Bytes) (hh : hd.length = 12) :
    ItemsAt VariableDatumRecord.layout x.variable_datum_records (hd ++ wire (sent x)) (fun i => 32 + 8 * x.fixed_datum_records.length + VariableDatumRecord.octetsOf (x.variable_datum_records.take i)) :=
  ItemsAt.at (ItemsAt.skip hh <|
    ItemsAt.skip (a := 6) (EntityId.wire_length _) <|
    ItemsAt.skip (a := 6) (EntityId.wire_length _) <|
    ItemsAt.skip (a := 4) (octets_length _ _) <|
    ItemsAt.skip (a := 4) (octets_length _ _) <|
    ItemsAt.skip (a := 8 * x.fixed_datum_records.length) (flatMap_len (enc := wire) (FixedDatumRecord.wire_length) x.fixed_datum_records) <|
    VariableDatumRecord.items x.variable_datum_records) (fun i => by simp only [← Nat.add_assoc, Nat.reduceAdd, Nat.one_mul] <;> omega)
theorem CommentReliablePdu.placed (x : CommentReliablePdu) (hd : Bytes) (hh : hd.length = 12) :
    ∀ t ∈ PduKind.elements .CommentReliable, t.Placed x (hd ++ wire (sent x)) := by
  show ∀ t ∈ [_, _], _
  refine List.forall_mem_cons.mpr ⟨CommentReliablePdu.placed_fixed_datum_records x hd hh, ?_⟩
  refine List.forall_mem_cons.mpr ⟨CommentReliablePdu.placed_variable_datum_records x hd hh, ?_⟩
  exact fun _ h => nomatch h

theorem RecordQueryReliablePdu.placed_record_ids (x : RecordQueryReliablePdu) (hd : Bytes) (hh : hd.length = 12) :
    ItemsAt [Slot.u32 0 id] x.record_ids (hd ++ wire (sent x)) (fun i => 40 + 4 * i) :=
  ItemsAt.at (ItemsAt.skip hh <|
    ItemsAt.skip (a := 6) (EntityId.wire_length _) <|
    ItemsAt.skip (a := 6) (EntityId.wire_length _) <|
    ItemsAt.skip (a := 4) (octets_length _ _) <|
    ItemsAt.skip (a := 1) (octets_length _ _) <|
    ItemsAt.skip (a := 1) (octets_length _ _) <|
    ItemsAt.skip (a := 2) (octets_length _ _) <|
    ItemsAt.skip (a := 4) (octets_length _ _) <|
    ItemsAt.skip (a := 4) (octets_length _ _) <|
    ItemsAt.last (S := [Slot.u32 0 id]) (enc := wire) (n := 4) (fun _ => octets_length _ _) (written_u32)) (fun i => by simp only [← Nat.add_assoc, Nat.reduceAdd, Nat.one_mul] <;> omega)
theorem RecordQueryReliablePdu.placed (x : RecordQueryReliablePdu) (hd : Bytes) (hh : hd.length = 12) :
    ∀ t ∈ PduKind.elements .RecordQueryReliable, t.Placed x (hd ++ wire (sent x)) := by
  show ∀ t ∈ [_], _
  refine List.forall_mem_cons.mpr ⟨RecordQueryReliablePdu.placed_record_ids x hd hh, ?_⟩
  exact fun _ h => nomatch h

theorem EnvironmentalProcessPdu.placed_environment_records (x : EnvironmentalProcessPdu) (hd : Bytes) (hh : hd.length = 12) :
    ItemsAt Environment.layout x.environment_records (hd ++ wire (sent x)) (fun i => 32 + 8 * i) :=
  ItemsAt.at (ItemsAt.skip hh <|
    ItemsAt.skip (a := 6) (EntityId.wire_length _) <|
    ItemsAt.skip (a := 8) (EntityType.wire_length _) <|
    ItemsAt.skip (a := 1) (octets_length _ _) <|
    ItemsAt.skip (a := 1) (octets_length _ _) <|
    ItemsAt.skip (a := 2) (octets_length _ _) <|
    ItemsAt.skip (a := 2) (octets_length _ _) <|
    ItemsAt.last (S := Environment.slots) (enc := wire) (n := 8) (Environment.wire_length) (Environment.written)) (fun i => by simp only [← Nat.add_assoc, Nat.reduceAdd, Nat.one_mul] <;> omega)
theorem EnvironmentalProcessPdu.placed (x : EnvironmentalProcessPdu) (hd : Bytes) (hh : hd.length = 12) :
    ∀ t ∈ PduKind.elements .EnvironmentalProcess, t.Placed x (hd ++ wire (sent x)) := by
  show ∀ t ∈ [_], _
  refine List.forall_mem_cons.mpr ⟨EnvironmentalProcessPdu.placed_environment_records x hd hh, ?_⟩
  exact fun _ h => nomatch h

theorem LinearObjectStatePdu.placed_linear_segment_parameters (x : LinearObjectStatePdu) (hd : Bytes) (hh : hd.length = 12) :
    ItemsAt LinearSegmentParameter.layout x.linear_segment_parameters (hd ++ wire (sent x)) (fun i => 40 + 66 * i) :=
  ItemsAt.at (ItemsAt.skip hh <|
    ItemsAt.skip (a := 6) (ObjectIdentifier.wire_length _) <|
    ItemsAt.skip (a := 6) (ObjectIdentifier.wire_length _) <|
    ItemsAt.skip (a := 2) (octets_length _ _) <|
    ItemsAt.skip (a := 1) (octets_length _ _) <|
    ItemsAt.skip (a := 1) (octets_length _ _) <|
    ItemsAt.skip (a := 4) (SimulationAddress.wire_length _) <|
    ItemsAt.skip (a := 4) (SimulationAddress.wire_length _) <|
    ItemsAt.skip (a := 4) (ObjectType.wire_length _) <|
    ItemsAt.last (S := LinearSegmentParameter.slots) (enc := wire) (n := 66) (LinearSegmentParameter.wire_length) (LinearSegmentParameter.written)) (fun i => by simp only [← Nat.add_assoc, Nat.reduceAdd, Nat.one_mul] <;> omega)
theorem LinearObjectStatePdu.placed (x : LinearObjectStatePdu) (hd : Bytes) (hh : hd.length = 12) :
    ∀ t ∈ PduKind.elements .LinearObjectState, t.Placed x (hd ++ wire (sent x)) := by
  show ∀ t ∈ [_], _
  refine List.forall_mem_cons.mpr ⟨LinearObjectStatePdu.placed_linear_segment_parameters x hd hh, ?_⟩
  exact fun _ h => nomatch h

theorem ArealObjectStatePdu.placed_object_location (x : ArealObjectStatePdu) (hd : Bytes) (hh : hd.length = 12) :
    ItemsAt WorldCoordinate.layout x.object_location (hd ++ wire (sent x)) (fun i => 48 + 24 * i) :=
  ItemsAt.at (ItemsAt.skip hh <|
    ItemsAt.skip (a := 6) (ObjectIdentifier.wire_length _) <|
    ItemsAt.skip (a := 6) (ObjectIdentifier.wire_length _) <|
    ItemsAt.skip (a := 2) (octets_length _ _) <|
    ItemsAt.skip (a := 1) (octets_length _ _) <|
    ItemsAt.skip (a := 1) (octets_length _ _) <|
    ItemsAt.skip (a := 4) (ObjectType.wire_length _) <|
    ItemsAt.skip (a := 4) (octets_length _ _) <|
    ItemsAt.skip (a := 2) (octets_length _ _) <|
    ItemsAt.skip (a := 2) (octets_length _ _) <|
    ItemsAt.skip (a := 4) (SimulationAddress.wire_length _) <|
    ItemsAt.skip (a := 4) (SimulationAddress.wire_length _) <|
    ItemsAt.last (S := WorldCoordinate.slots) (enc := wire) (n := 24) (WorldCoordinate.wire_length) (WorldCoordinate.written)) (fun i => by simp only [← Nat.add_assoc, Nat.reduceAdd, Nat.one_mul] <;> omega)
theorem ArealObjectStatePdu.placed (x : ArealObjectStatePdu) (hd : Bytes) (hh : hd.length = 12) :
    ∀ t ∈ PduKind.elements .ArealObjectState, t.Placed x (hd ++ wire (sent x)) := by
  show ∀ t ∈ [_], _
  refine List.forall_mem_cons.mpr ⟨ArealObjectStatePdu.placed_object_location x hd hh, ?_⟩
  exact fun _ h => nomatch h

theorem DetonationPdu.placed_variable_parameters (x : DetonationPdu) (hd : Bytes) (hh : hd.length = 12) :
    ItemsAt VariableParameter.layout x.variable_parameters (hd ++ wire (sent x)) (fun i => 104 + 16 * i) :=
  ItemsAt.at (ItemsAt.skip hh <|
    ItemsAt.skip (a := 6) (EntityId.wire_length _) <|
    ItemsAt.skip (a := 6) (EntityId.wire_length _) <|
    ItemsAt.skip (a := 6) (EntityId.wire_length _) <|
    ItemsAt.skip (a := 6) (EventId.wire_length _) <|
    ItemsAt.skip (a := 12) (LinearVelocity.wire_length _) <|
    ItemsAt.skip (a := 24) (WorldCoordinate.wire_length _) <|
    ItemsAt.skip (a := 16) (MunitionDescriptor.wire_length _) <|
    ItemsAt.skip (a := 12) (EntityCoordinateVector.wire_length _) <|
    ItemsAt.skip (a := 1) (octets_length _ _) <|
    ItemsAt.skip (a := 1) (octets_length _ _) <|
    ItemsAt.skip (a := 2) (octets_length _ _) <|
    ItemsAt.last (S := VariableParameter.slots) (enc := wire) (n := 16) (VariableParameter.wire_length) (VariableParameter.written)) (fun i => by simp only [← Nat.add_assoc, Nat.reduceAdd, Nat.one_mul] <;> omega)
theorem DetonationPdu.placed (x : DetonationPdu) (hd : Bytes) (hh : hd.length = 12) :
    ∀ t ∈ PduKind.elements .Detonation, t.Placed x (hd ++ wire (sent x)) := by
  show ∀ t ∈ [_], _
  refine List.forall_mem_cons.mpr ⟨DetonationPdu.placed_variable_parameters x hd hh, ?_⟩
  exact fun _ h => nomatch h

theorem DirectedEnergyFirePdu.placed_damage_descriptions (x : DirectedEnergyFirePdu) (hd : Bytes) (hh : hd.length = 12) :
    ItemsAt DirectedEnergyDamage.layout x.damage_descriptions (hd ++ wire (sent x)) (fun i => 88 + 40 * i) :=
  ItemsAt.at (ItemsAt.skip hh <|
    ItemsAt.skip (a := 6) (EntityId.wire_length _) <|
    ItemsAt.skip (a := 6) (EventId.wire_length _) <|
    ItemsAt.skip (a := 8) (EntityType.wire_length _) <|
    ItemsAt.skip (a := 8) (ClockTime.wire_length _) <|
    ItemsAt.skip (a := 4) (octets_length _ _) <|
    ItemsAt.skip (a := 12) (EntityCoordinateVector.wire_length _) <|
    ItemsAt.skip (a := 4) (octets_length _ _) <|
    ItemsAt.skip (a := 4) (octets_length _ _) <|
    ItemsAt.skip (a := 4) (octets_length _ _) <|
    ItemsAt.skip (a := 4) (octets_length _ _) <|
    ItemsAt.skip (a := 4) (octets_length _ _) <|
    ItemsAt.skip (a := 2) (octets_length _ _) <|
    ItemsAt.skip (a := 1) (octets_length _ _) <|
    ItemsAt.skip (a := 1) (octets_length _ _) <|
    ItemsAt.skip (a := 4) (octets_length _ _) <|
    ItemsAt.skip (a := 2) (octets_length _ _) <|
    ItemsAt.skip (a := 2) (octets_length _ _) <|
    ItemsAt.last (S := DirectedEnergyDamage.slots) (enc := wire) (n := 40) (DirectedEnergyDamage.wire_length) (DirectedEnergyDamage.written)) (fun i => by simp only [← Nat.add_assoc, Nat.reduceAdd, Nat.one_mul] <;> omega)
theorem DirectedEnergyFirePdu.placed (x : DirectedEnergyFirePdu) (hd : Bytes) (hh : hd.length = 12) :
    ∀ t ∈ PduKind.elements .DirectedEnergyFire, t.Placed x (hd ++ wire (sent x)) := by
  show ∀ t ∈ [_], _
  refine List.forall_mem_cons.mpr ⟨DirectedEnergyFirePdu.placed_damage_descriptions x hd hh, ?_⟩
  exact fun _ h => nomatch h

theorem EntityDamageStatusPdu.placed_damage_descriptions (x : EntityDamageStatusPdu) (hd : Bytes) (hh : hd.length = 12) :
    ItemsAt DirectedEnergyDamage.layout x.damage_descriptions (hd ++ wire (sent x)) (fun i => 24 + 40 * i) :=
  ItemsAt.at (ItemsAt.skip hh <|
    ItemsAt.skip (a := 6) (EntityId.wire_length _) <|
    ItemsAt.skip (a := 2) (octets_length _ _) <|
    ItemsAt.skip (a := 2) (octets_length _ _) <|
    ItemsAt.skip (a := 2) (octets_length _ _) <|
    ItemsAt.last (S := DirectedEnergyDamage.slots) (enc := wire) (n := 40) (DirectedEnergyDamage.wire_length) (DirectedEnergyDamage.written)) (fun i => by simp only [← Nat.add_assoc, Nat.reduceAdd, Nat.one_mul] <;> omega)
theorem EntityDamageStatusPdu.placed (x : EntityDamageStatusPdu) (hd : Bytes) (hh : hd.length = 12) :
    ∀ t ∈ PduKind.elements .EntityDamageStatus, t.Placed x (hd ++ wire (sent x)) := by
  show ∀ t ∈ [_], _
  refine List.forall_mem_cons.mpr ⟨EntityDamageStatusPdu.placed_damage_descriptions x hd hh, ?_⟩
  exact fun _ h => nomatch h

theorem PduKind.placed : (k : PduKind) → ∀ (x : k.Body) (hd : Bytes), hd.length = 12 →
    ∀ t ∈ k.elements, t.Placed x (hd ++ wire (sent x))
  | .ElectromagneticEmissions => fun _ _ _ _ h => nomatch h
  | .Designator => fun _ _ _ _ h => nomatch h
  | .UnderwaterAcoustic => UnderwaterAcousticPdu.placed
  | .IFF => IFFPdu.placed
  | .SupplementalEmission => SupplementalEmissionPdu.placed
  | .EntityState => EntityStatePdu.placed
  | .Collision => fun _ _ _ _ h => nomatch h
  | .CollisionElastic => fun _ _ _ _ h => nomatch h
  | .EntityStateUpdate => EntityStateUpdatePdu.placed
  | .Attribute => fun _ _ _ _ h => nomatch h
  | .AggregateState => AggregateStatePdu.placed
  | .IsGroupOf => IsGroupOfPdu.placed
  | .TransferOwnership => fun _ _ _ _ h => nomatch h
  | .IsPartOf => fun _ _ _ _ h => nomatch h
  | .InformationOperationsReport => fun _ _ _ _ h => nomatch h
  | .InformationOperationsAction => fun _ _ _ _ h => nomatch h
  | .ServiceRequest => ServiceRequestPdu.placed
  | .ResupplyOffer => ResupplyOfferPdu.placed
  | .ResupplyReceived => ResupplyReceivedPdu.placed
  | .ResupplyCancel => fun _ _ _ _ h => nomatch h
  | .RepairComplete => fun _ _ _ _ h => nomatch h
  | .RepairResponse => fun _ _ _ _ h => nomatch h
  | .MinefieldState => MinefieldStatePdu.placed
  | .MinefieldQuery => MinefieldQueryPdu.placed
  | .MinefieldData => MinefieldDataPdu.placed
  | .MinefieldResponseNack => MinefieldResponseNackPdu.placed
  | .Transmitter => fun _ _ _ _ h => nomatch h
  | .Signal => SignalPdu.placed
  | .Receiver => fun _ _ _ _ h => nomatch h
  | .IntercomSignal => IntercomSignalPdu.placed
  | .IntercomControl => IntercomControlPdu.placed
  | .CreateEntity => fun _ _ _ _ h => nomatch h
  | .RemoveEntity => fun _ _ _ _ h => nomatch h
  | .StartResume => fun _ _ _ _ h => nomatch h
  | .StopFreeze => fun _ _ _ _ h => nomatch h
  | .Acknowledge => fun _ _ _ _ h => nomatch h
  | .ActionRequest => ActionRequestPdu.placed
  | .ActionResponse => ActionResponsePdu.placed
  | .DataQuery => DataQueryPdu.placed
  | .SetData => SetDataPdu.placed
  | .Data => DataPdu.placed
  | .EventReport => EventReportPdu.placed
  | .Comment => CommentPdu.placed
  | .CreateEntityReliable => fun _ _ _ _ h => nomatch h
  | .RemoveEntityReliable => fun _ _ _ _ h => nomatch h
  | .StartResumeReliable => fun _ _ _ _ h => nomatch h
  | .StopFreezeReliable => fun _ _ _ _ h => nomatch h
  | .AcknowledgeReliable => fun _ _ _ _ h => nomatch h
  | .ActionRequestReliable => ActionRequestReliablePdu.placed
  | .ActionResponseReliable => ActionResponseReliablePdu.placed
  | .DataQueryReliable => DataQueryReliablePdu.placed
  | .SetDataReliable => SetDataReliablePdu.placed
  | .DataReliable => DataReliablePdu.placed
  | .EventReportReliable => EventReportReliablePdu.placed
  | .CommentReliable => CommentReliablePdu.placed
  | .RecordQueryReliable => RecordQueryReliablePdu.placed
  | .SetRecordReliable => fun _ _ _ _ h => nomatch h
  | .EnvironmentalProcess => EnvironmentalProcessPdu.placed
  | .GriddedData => fun _ _ _ _ h => nomatch h
  | .PointObjectState => fun _ _ _ _ h => nomatch h
  | .LinearObjectState => LinearObjectStatePdu.placed
  | .ArealObjectState => ArealObjectStatePdu.placed
  | .Fire => fun _ _ _ _ h => nomatch h
  | .Detonation => DetonationPdu.placed
  | .DirectedEnergyFire => DirectedEnergyFirePdu.placed
  | .EntityDamageStatus => EntityDamageStatusPdu.placed

end Dis
