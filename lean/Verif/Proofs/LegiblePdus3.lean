import Verif.Proofs.LegibleBody
/- Generated by tools/gen_printing.py: the texts of the PDUs can be read back. -/
set_option maxRecDepth 4000
namespace Dis

instance : LegibleBody RemoveEntityReliablePdu where
  named := by decide +kernel
  line hσ ha x :=
    field_line (by decide +kernel) (Legible.line hσ ha x.originating_entity_id) <|
    field_line (by decide +kernel) (Legible.line hσ ha x.receiving_entity_id) <|
    field_line (by decide +kernel) (Legible.line hσ ha x.required_reliability_service) <|
    field_line (by decide +kernel) (Legible.line hσ ha x.padding) <|
    field_line (by decide +kernel) (Legible.line hσ ha x.padding2) <|
    field_line (by decide +kernel) (Legible.line hσ ha x.request_id) <|
    no_field_line
  same _ _ := rfl
  reads {σ} hσ {x y r r'} h := by
    have h : fieldsText σ [
    ("originating_entity_id", text σ x.originating_entity_id), ("receiving_entity_id", text σ x.receiving_entity_id),
  ("required_reliability_service", text σ x.required_reliability_service), ("padding", text σ x.padding),
  ("padding2", text σ x.padding2), ("request_id", text σ x.request_id)] ++ r =
      fieldsText σ [
    ("originating_entity_id", text σ y.originating_entity_id), ("receiving_entity_id", text σ y.receiving_entity_id),
  ("required_reliability_service", text σ y.required_reliability_service), ("padding", text σ y.padding),
  ("padding2", text σ y.padding2), ("request_id", text σ y.request_id)] ++ r' := h
    obtain ⟨h1, h⟩ := read_next hσ (x := x.originating_entity_id) (y := y.originating_entity_id) h
    obtain ⟨h2, h⟩ := read_next hσ (x := x.receiving_entity_id) (y := y.receiving_entity_id) h
    obtain ⟨h3, h⟩ := read_next hσ (x := x.required_reliability_service) (y := y.required_reliability_service) h
    obtain ⟨h4, h⟩ := read_next hσ (x := x.padding) (y := y.padding) h
    obtain ⟨h5, h⟩ := read_next hσ (x := x.padding2) (y := y.padding2) h
    obtain ⟨h6, h⟩ := read_next hσ (x := x.request_id) (y := y.request_id) h
    refine ⟨?_, read_end h⟩
    show RemoveEntityReliablePdu.mk (calm x.originating_entity_id) (calm x.receiving_entity_id) (calm
      x.required_reliability_service) (calm x.padding) (calm x.padding2) (calm x.request_id) =
      RemoveEntityReliablePdu.mk (calm y.originating_entity_id) (calm y.receiving_entity_id) (calm
      y.required_reliability_service) (calm y.padding) (calm y.padding2) (calm y.request_id)
    rw [h1, h2, h3, h4, h5, h6]
instance : LegibleBody StartResumeReliablePdu where
  named := by decide +kernel
  line hσ ha x :=
    field_line (by decide +kernel) (Legible.line hσ ha x.originating_entity_id) <|
    field_line (by decide +kernel) (Legible.line hσ ha x.receiving_entity_id) <|
    field_line (by decide +kernel) (Legible.line hσ ha x.real_world_time) <|
    field_line (by decide +kernel) (Legible.line hσ ha x.simulation_time) <|
    field_line (by decide +kernel) (Legible.line hσ ha x.required_reliability_service) <|
    field_line (by decide +kernel) (Legible.line hσ ha x.padding) <|
    field_line (by decide +kernel) (Legible.line hσ ha x.padding2) <|
    field_line (by decide +kernel) (Legible.line hσ ha x.request_id) <|
    no_field_line
  same _ _ := rfl
  reads {σ} hσ {x y r r'} h := by
    have h : fieldsText σ [
    ("originating_entity_id", text σ x.originating_entity_id), ("receiving_entity_id", text σ x.receiving_entity_id),
  ("real_world_time", text σ x.real_world_time), ("simulation_time", text σ x.simulation_time),
  ("required_reliability_service", text σ x.required_reliability_service), ("padding", text σ x.padding),
  ("padding2", text σ x.padding2), ("request_id", text σ x.request_id)] ++ r =
      fieldsText σ [
    ("originating_entity_id", text σ y.originating_entity_id), ("receiving_entity_id", text σ y.receiving_entity_id),
  ("real_world_time", text σ y.real_world_time), ("simulation_time", text σ y.simulation_time),
  ("required_reliability_service", text σ y.required_reliability_service), ("padding", text σ y.padding),
  ("padding2", text σ y.padding2), ("request_id", text σ y.request_id)] ++ r' := h
    obtain ⟨h1, h⟩ := read_next hσ (x := x.originating_entity_id) (y := y.originating_entity_id) h
    obtain ⟨h2, h⟩ := read_next hσ (x := x.receiving_entity_id) (y := y.receiving_entity_id) h
    obtain ⟨h3, h⟩ := read_next hσ (x := x.real_world_time) (y := y.real_world_time) h
    obtain ⟨h4, h⟩ := read_next hσ (x := x.simulation_time) (y := y.simulation_time) h
    obtain ⟨h5, h⟩ := read_next hσ (x := x.required_reliability_service) (y := y.required_reliability_service) h
    obtain ⟨h6, h⟩ := read_next hσ (x := x.padding) (y := y.padding) h
    obtain ⟨h7, h⟩ := read_next hσ (x := x.padding2) (y := y.padding2) h
    obtain ⟨h8, h⟩ := read_next hσ (x := x.request_id) (y := y.request_id) h
    refine ⟨?_, read_end h⟩
    show StartResumeReliablePdu.mk (calm x.originating_entity_id) (calm x.receiving_entity_id) (calm
      x.real_world_time) (calm x.simulation_time) (calm x.required_reliability_service) (calm x.padding) (calm
      x.padding2) (calm x.request_id) = StartResumeReliablePdu.mk (calm y.originating_entity_id) (calm
      y.receiving_entity_id) (calm y.real_world_time) (calm y.simulation_time) (calm y.required_reliability_service)
      (calm y.padding) (calm y.padding2) (calm y.request_id)
    rw [h1, h2, h3, h4, h5, h6, h7, h8]
instance : LegibleBody StopFreezeReliablePdu where
  named := by decide +kernel
  line hσ ha x :=
    field_line (by decide +kernel) (Legible.line hσ ha x.originating_entity_id) <|
    field_line (by decide +kernel) (Legible.line hσ ha x.receiving_entity_id) <|
    field_line (by decide +kernel) (Legible.line hσ ha x.real_world_time) <|
    field_line (by decide +kernel) (Legible.line hσ ha x.reason) <|
    field_line (by decide +kernel) (Legible.line hσ ha x.frozen_behavior) <|
    field_line (by decide +kernel) (Legible.line hσ ha x.required_reliability_service) <|
    field_line (by decide +kernel) (Legible.line hσ ha x.padding) <|
    field_line (by decide +kernel) (Legible.line hσ ha x.request_id) <|
    no_field_line
  same _ _ := rfl
  reads {σ} hσ {x y r r'} h := by
    have h : fieldsText σ [
    ("originating_entity_id", text σ x.originating_entity_id), ("receiving_entity_id", text σ x.receiving_entity_id),
  ("real_world_time", text σ x.real_world_time), ("reason", text σ x.reason),
  ("frozen_behavior", text σ x.frozen_behavior),
  ("required_reliability_service", text σ x.required_reliability_service), ("padding", text σ x.padding),
  ("request_id", text σ x.request_id)] ++ r =
      fieldsText σ [
    ("originating_entity_id", text σ y.originating_entity_id), ("receiving_entity_id", text σ y.receiving_entity_id),
  ("real_world_time", text σ y.real_world_time), ("reason", text σ y.reason),
  ("frozen_behavior", text σ y.frozen_behavior),
  ("required_reliability_service", text σ y.required_reliability_service), ("padding", text σ y.padding),
  ("request_id", text σ y.request_id)] ++ r' := h
    obtain ⟨h1, h⟩ := read_next hσ (x := x.originating_entity_id) (y := y.originating_entity_id) h
    obtain ⟨h2, h⟩ := read_next hσ (x := x.receiving_entity_id) (y := y.receiving_entity_id) h
    obtain ⟨h3, h⟩ := read_next hσ (x := x.real_world_time) (y := y.real_world_time) h
    obtain ⟨h4, h⟩ := read_next hσ (x := x.reason) (y := y.reason) h
    obtain ⟨h5, h⟩ := read_next hσ (x := x.frozen_behavior) (y := y.frozen_behavior) h
    obtain ⟨h6, h⟩ := read_next hσ (x := x.required_reliability_service) (y := y.required_reliability_service) h
    obtain ⟨h7, h⟩ := read_next hσ (x := x.padding) (y := y.padding) h
    obtain ⟨h8, h⟩ := read_next hσ (x := x.request_id) (y := y.request_id) h
    refine ⟨?_, read_end h⟩
    show StopFreezeReliablePdu.mk (calm x.originating_entity_id) (calm x.receiving_entity_id) (calm x.real_world_time)
      (calm x.reason) (calm x.frozen_behavior) (calm x.required_reliability_service) (calm x.padding) (calm
      x.request_id) = StopFreezeReliablePdu.mk (calm y.originating_entity_id) (calm y.receiving_entity_id) (calm
      y.real_world_time) (calm y.reason) (calm y.frozen_behavior) (calm y.required_reliability_service) (calm
      y.padding) (calm y.request_id)
    rw [h1, h2, h3, h4, h5, h6, h7, h8]
instance : LegibleBody AcknowledgeReliablePdu where
  named := by decide +kernel
  line hσ ha x :=
    field_line (by decide +kernel) (Legible.line hσ ha x.originating_entity_id) <|
    field_line (by decide +kernel) (Legible.line hσ ha x.receiving_entity_id) <|
    field_line (by decide +kernel) (Legible.line hσ ha x.acknowledge_flag) <|
    field_line (by decide +kernel) (Legible.line hσ ha x.response_flag) <|
    field_line (by decide +kernel) (Legible.line hσ ha x.request_id) <|
    no_field_line
  same _ _ := rfl
  reads {σ} hσ {x y r r'} h := by
    have h : fieldsText σ [
    ("originating_entity_id", text σ x.originating_entity_id), ("receiving_entity_id", text σ x.receiving_entity_id),
  ("acknowledge_flag", text σ x.acknowledge_flag), ("response_flag", text σ x.response_flag),
  ("request_id", text σ x.request_id)] ++ r =
      fieldsText σ [
    ("originating_entity_id", text σ y.originating_entity_id), ("receiving_entity_id", text σ y.receiving_entity_id),
  ("acknowledge_flag", text σ y.acknowledge_flag), ("response_flag", text σ y.response_flag),
  ("request_id", text σ y.request_id)] ++ r' := h
    obtain ⟨h1, h⟩ := read_next hσ (x := x.originating_entity_id) (y := y.originating_entity_id) h
    obtain ⟨h2, h⟩ := read_next hσ (x := x.receiving_entity_id) (y := y.receiving_entity_id) h
    obtain ⟨h3, h⟩ := read_next hσ (x := x.acknowledge_flag) (y := y.acknowledge_flag) h
    obtain ⟨h4, h⟩ := read_next hσ (x := x.response_flag) (y := y.response_flag) h
    obtain ⟨h5, h⟩ := read_next hσ (x := x.request_id) (y := y.request_id) h
    refine ⟨?_, read_end h⟩
    show AcknowledgeReliablePdu.mk (calm x.originating_entity_id) (calm x.receiving_entity_id) (calm
      x.acknowledge_flag) (calm x.response_flag) (calm x.request_id) = AcknowledgeReliablePdu.mk (calm
      y.originating_entity_id) (calm y.receiving_entity_id) (calm y.acknowledge_flag) (calm y.response_flag) (calm
      y.request_id)
    rw [h1, h2, h3, h4, h5]
instance : LegibleBody ActionRequestReliablePdu where
  named := by decide +kernel
  line hσ ha x :=
    field_line (by decide +kernel) (Legible.line hσ ha x.originating_entity_id) <|
    field_line (by decide +kernel) (Legible.line hσ ha x.receiving_entity_id) <|
    field_line (by decide +kernel) (Legible.line hσ ha x.required_reliability_service) <|
    field_line (by decide +kernel) (Legible.line hσ ha x.padding) <|
    field_line (by decide +kernel) (Legible.line hσ ha x.padding2) <|
    field_line (by decide +kernel) (Legible.line hσ ha x.request_id) <|
    field_line (by decide +kernel) (Legible.line hσ ha x.action_id) <|
    field_line (by decide +kernel) (Legible.line hσ ha x.padding3) <|
    field_line (by decide +kernel) (Legible.line hσ ha x.number_of_fixed_datum_records) <|
    field_line (by decide +kernel) (Legible.line hσ ha x.number_of_variable_datum_records) <|
    field_line (by decide +kernel) (Legible.line hσ ha x.fixed_datum_records) <|
    field_line (by decide +kernel) (Legible.line hσ ha x.variable_datum_records) <|
    no_field_line
  same {σ} hσ x := by
    show [
    ("originating_entity_id", text σ (calm x.originating_entity_id)),
  ("receiving_entity_id", text σ (calm x.receiving_entity_id)),
  ("required_reliability_service", text σ (calm x.required_reliability_service)),
  ("padding", text σ (calm x.padding)), ("padding2", text σ (calm x.padding2)),
  ("request_id", text σ (calm x.request_id)), ("action_id", text σ (calm x.action_id)),
  ("padding3", text σ (calm x.padding3)),
  ("number_of_fixed_datum_records", text σ (calm x.number_of_fixed_datum_records)),
  ("number_of_variable_datum_records", text σ (calm x.number_of_variable_datum_records)),
  ("fixed_datum_records", text σ (calm x.fixed_datum_records)),
  ("variable_datum_records", text σ (calm x.variable_datum_records))] = [
    ("originating_entity_id", text σ x.originating_entity_id), ("receiving_entity_id", text σ x.receiving_entity_id),
  ("required_reliability_service", text σ x.required_reliability_service), ("padding", text σ x.padding),
  ("padding2", text σ x.padding2), ("request_id", text σ x.request_id), ("action_id", text σ x.action_id),
  ("padding3", text σ x.padding3), ("number_of_fixed_datum_records", text σ x.number_of_fixed_datum_records),
  ("number_of_variable_datum_records", text σ x.number_of_variable_datum_records),
  ("fixed_datum_records", text σ x.fixed_datum_records),
  ("variable_datum_records", text σ x.variable_datum_records)]
    simp only [Legible.same hσ]
  reads {σ} hσ {x y r r'} h := by
    have h : fieldsText σ [
    ("originating_entity_id", text σ x.originating_entity_id), ("receiving_entity_id", text σ x.receiving_entity_id),
  ("required_reliability_service", text σ x.required_reliability_service), ("padding", text σ x.padding),
  ("padding2", text σ x.padding2), ("request_id", text σ x.request_id), ("action_id", text σ x.action_id),
  ("padding3", text σ x.padding3), ("number_of_fixed_datum_records", text σ x.number_of_fixed_datum_records),
  ("number_of_variable_datum_records", text σ x.number_of_variable_datum_records),
  ("fixed_datum_records", text σ x.fixed_datum_records),
  ("variable_datum_records", text σ x.variable_datum_records)] ++ r =
      fieldsText σ [
    ("originating_entity_id", text σ y.originating_entity_id), ("receiving_entity_id", text σ y.receiving_entity_id),
  ("required_reliability_service", text σ y.required_reliability_service), ("padding", text σ y.padding),
  ("padding2", text σ y.padding2), ("request_id", text σ y.request_id), ("action_id", text σ y.action_id),
  ("padding3", text σ y.padding3), ("number_of_fixed_datum_records", text σ y.number_of_fixed_datum_records),
  ("number_of_variable_datum_records", text σ y.number_of_variable_datum_records),
  ("fixed_datum_records", text σ y.fixed_datum_records),
  ("variable_datum_records", text σ y.variable_datum_records)] ++ r' := h
    obtain ⟨h1, h⟩ := read_next hσ (x := x.originating_entity_id) (y := y.originating_entity_id) h
    obtain ⟨h2, h⟩ := read_next hσ (x := x.receiving_entity_id) (y := y.receiving_entity_id) h
    obtain ⟨h3, h⟩ := read_next hσ (x := x.required_reliability_service) (y := y.required_reliability_service) h
    obtain ⟨h4, h⟩ := read_next hσ (x := x.padding) (y := y.padding) h
    obtain ⟨h5, h⟩ := read_next hσ (x := x.padding2) (y := y.padding2) h
    obtain ⟨h6, h⟩ := read_next hσ (x := x.request_id) (y := y.request_id) h
    obtain ⟨h7, h⟩ := read_next hσ (x := x.action_id) (y := y.action_id) h
    obtain ⟨h8, h⟩ := read_next hσ (x := x.padding3) (y := y.padding3) h
    obtain ⟨h9, h⟩ := read_next hσ (x := x.number_of_fixed_datum_records) (y := y.number_of_fixed_datum_records) h
    obtain ⟨h10, h⟩ := read_next hσ (x := x.number_of_variable_datum_records) (y := y.number_of_variable_datum_records) h
    obtain ⟨h11, h⟩ := read_next hσ (x := x.fixed_datum_records) (y := y.fixed_datum_records) h
    obtain ⟨h12, h⟩ := read_next hσ (x := x.variable_datum_records) (y := y.variable_datum_records) h
    refine ⟨?_, read_end h⟩
    show ActionRequestReliablePdu.mk (calm x.originating_entity_id) (calm x.receiving_entity_id) (calm
      x.required_reliability_service) (calm x.padding) (calm x.padding2) (calm x.request_id) (calm x.action_id) (calm
      x.padding3) (calm x.number_of_fixed_datum_records) (calm x.number_of_variable_datum_records) (calm
      x.fixed_datum_records) (calm x.variable_datum_records) = ActionRequestReliablePdu.mk (calm
      y.originating_entity_id) (calm y.receiving_entity_id) (calm y.required_reliability_service) (calm y.padding)
      (calm y.padding2) (calm y.request_id) (calm y.action_id) (calm y.padding3) (calm
      y.number_of_fixed_datum_records) (calm y.number_of_variable_datum_records) (calm y.fixed_datum_records) (calm
      y.variable_datum_records)
    rw [h1, h2, h3, h4, h5, h6, h7, h8, h9, h10, h11, h12]
instance : LegibleBody ActionResponseReliablePdu where
  named := by decide +kernel
  line hσ ha x :=
    field_line (by decide +kernel) (Legible.line hσ ha x.originating_entity_id) <|
    field_line (by decide +kernel) (Legible.line hσ ha x.receiving_entity_id) <|
    field_line (by decide +kernel) (Legible.line hσ ha x.request_id) <|
    field_line (by decide +kernel) (Legible.line hσ ha x.request_status) <|
    field_line (by decide +kernel) (Legible.line hσ ha x.number_of_fixed_datum_records) <|
    field_line (by decide +kernel) (Legible.line hσ ha x.number_of_variable_datum_records) <|
    field_line (by decide +kernel) (Legible.line hσ ha x.fixed_datum_records) <|
    field_line (by decide +kernel) (Legible.line hσ ha x.variable_datum_records) <|
    no_field_line
  same {σ} hσ x := by
    show [
    ("originating_entity_id", text σ (calm x.originating_entity_id)),
  ("receiving_entity_id", text σ (calm x.receiving_entity_id)), ("request_id", text σ (calm x.request_id)),
  ("request_status", text σ (calm x.request_status)),
  ("number_of_fixed_datum_records", text σ (calm x.number_of_fixed_datum_records)),
  ("number_of_variable_datum_records", text σ (calm x.number_of_variable_datum_records)),
  ("fixed_datum_records", text σ (calm x.fixed_datum_records)),
  ("variable_datum_records", text σ (calm x.variable_datum_records))] = [
    ("originating_entity_id", text σ x.originating_entity_id), ("receiving_entity_id", text σ x.receiving_entity_id),
  ("request_id", text σ x.request_id), ("request_status", text σ x.request_status),
  ("number_of_fixed_datum_records", text σ x.number_of_fixed_datum_records),
  ("number_of_variable_datum_records", text σ x.number_of_variable_datum_records),
  ("fixed_datum_records", text σ x.fixed_datum_records),
  ("variable_datum_records", text σ x.variable_datum_records)]
    simp only [Legible.same hσ]
  reads {σ} hσ {x y r r'} h := by
    have h : fieldsText σ [
    ("originating_entity_id", text σ x.originating_entity_id), ("receiving_entity_id", text σ x.receiving_entity_id),
  ("request_id", text σ x.request_id), ("request_status", text σ x.request_status),
  ("number_of_fixed_datum_records", text σ x.number_of_fixed_datum_records),
  ("number_of_variable_datum_records", text σ x.number_of_variable_datum_records),
  ("fixed_datum_records", text σ x.fixed_datum_records),
  ("variable_datum_records", text σ x.variable_datum_records)] ++ r =
      fieldsText σ [
    ("originating_entity_id", text σ y.originating_entity_id), ("receiving_entity_id", text σ y.receiving_entity_id),
  ("request_id", text σ y.request_id), ("request_status", text σ y.request_status),
  ("number_of_fixed_datum_records", text σ y.number_of_fixed_datum_records),
  ("number_of_variable_datum_records", text σ y.number_of_variable_datum_records),
  ("fixed_datum_records", text σ y.fixed_datum_records),
  ("variable_datum_records", text σ y.variable_datum_records)] ++ r' := h
    obtain ⟨h1, h⟩ := read_next hσ (x := x.originating_entity_id) (y := y.originating_entity_id) h
    obtain ⟨h2, h⟩ := read_next hσ (x := x.receiving_entity_id) (y := y.receiving_entity_id) h
    obtain ⟨h3, h⟩ := read_next hσ (x := x.request_id) (y := y.request_id) h
    obtain ⟨h4, h⟩ := read_next hσ (x := x.request_status) (y := y.request_status) h
    obtain ⟨h5, h⟩ := read_next hσ (x := x.number_of_fixed_datum_records) (y := y.number_of_fixed_datum_records) h
    obtain ⟨h6, h⟩ := read_next hσ (x := x.number_of_variable_datum_records) (y := y.number_of_variable_datum_records) h
    obtain ⟨h7, h⟩ := read_next hσ (x := x.fixed_datum_records) (y := y.fixed_datum_records) h
    obtain ⟨h8, h⟩ := read_next hσ (x := x.variable_datum_records) (y := y.variable_datum_records) h
    refine ⟨?_, read_end h⟩
    show ActionResponseReliablePdu.mk (calm x.originating_entity_id) (calm x.receiving_entity_id) (calm x.request_id)
      (calm x.request_status) (calm x.number_of_fixed_datum_records) (calm x.number_of_variable_datum_records) (calm
      x.fixed_datum_records) (calm x.variable_datum_records) = ActionResponseReliablePdu.mk (calm
      y.originating_entity_id) (calm y.receiving_entity_id) (calm y.request_id) (calm y.request_status) (calm
      y.number_of_fixed_datum_records) (calm y.number_of_variable_datum_records) (calm y.fixed_datum_records) (calm
      y.variable_datum_records)
    rw [h1, h2, h3, h4, h5, h6, h7, h8]
instance : LegibleBody DataQueryReliablePdu where
  named := by decide +kernel
  line hσ ha x :=
    field_line (by decide +kernel) (Legible.line hσ ha x.originating_entity_id) <|
    field_line (by decide +kernel) (Legible.line hσ ha x.receiving_entity_id) <|
    field_line (by decide +kernel) (Legible.line hσ ha x.required_reliability_service) <|
    field_line (by decide +kernel) (Legible.line hσ ha x.padding) <|
    field_line (by decide +kernel) (Legible.line hσ ha x.padding2) <|
    field_line (by decide +kernel) (Legible.line hσ ha x.request_id) <|
    field_line (by decide +kernel) (Legible.line hσ ha x.time_interval) <|
    field_line (by decide +kernel) (Legible.line hσ ha x.number_of_fixed_datum_records) <|
    field_line (by decide +kernel) (Legible.line hσ ha x.number_of_variable_datum_records) <|
    field_line (by decide +kernel) (Legible.line hσ ha x.fixed_datum_ids) <|
    field_line (by decide +kernel) (Legible.line hσ ha x.variable_datum_ids) <|
    no_field_line
  same {σ} hσ x := by
    show [
    ("originating_entity_id", text σ (calm x.originating_entity_id)),
  ("receiving_entity_id", text σ (calm x.receiving_entity_id)),
  ("required_reliability_service", text σ (calm x.required_reliability_service)),
  ("padding", text σ (calm x.padding)), ("padding2", text σ (calm x.padding2)),
  ("request_id", text σ (calm x.request_id)), ("time_interval", text σ (calm x.time_interval)),
  ("number_of_fixed_datum_records", text σ (calm x.number_of_fixed_datum_records)),
  ("number_of_variable_datum_records", text σ (calm x.number_of_variable_datum_records)),
  ("fixed_datum_ids", text σ (calm x.fixed_datum_ids)), ("variable_datum_ids", text σ (calm x.variable_datum_ids))] = [
    ("originating_entity_id", text σ x.originating_entity_id), ("receiving_entity_id", text σ x.receiving_entity_id),
  ("required_reliability_service", text σ x.required_reliability_service), ("padding", text σ x.padding),
  ("padding2", text σ x.padding2), ("request_id", text σ x.request_id), ("time_interval", text σ x.time_interval),
  ("number_of_fixed_datum_records", text σ x.number_of_fixed_datum_records),
  ("number_of_variable_datum_records", text σ x.number_of_variable_datum_records),
  ("fixed_datum_ids", text σ x.fixed_datum_ids), ("variable_datum_ids", text σ x.variable_datum_ids)]
    simp only [Legible.same hσ]
  reads {σ} hσ {x y r r'} h := by
    have h : fieldsText σ [
    ("originating_entity_id", text σ x.originating_entity_id), ("receiving_entity_id", text σ x.receiving_entity_id),
  ("required_reliability_service", text σ x.required_reliability_service), ("padding", text σ x.padding),
  ("padding2", text σ x.padding2), ("request_id", text σ x.request_id), ("time_interval", text σ x.time_interval),
  ("number_of_fixed_datum_records", text σ x.number_of_fixed_datum_records),
  ("number_of_variable_datum_records", text σ x.number_of_variable_datum_records),
  ("fixed_datum_ids", text σ x.fixed_datum_ids), ("variable_datum_ids", text σ x.variable_datum_ids)] ++ r =
      fieldsText σ [
    ("originating_entity_id", text σ y.originating_entity_id), ("receiving_entity_id", text σ y.receiving_entity_id),
  ("required_reliability_service", text σ y.required_reliability_service), ("padding", text σ y.padding),
  ("padding2", text σ y.padding2), ("request_id", text σ y.request_id), ("time_interval", text σ y.time_interval),
  ("number_of_fixed_datum_records", text σ y.number_of_fixed_datum_records),
  ("number_of_variable_datum_records", text σ y.number_of_variable_datum_records),
  ("fixed_datum_ids", text σ y.fixed_datum_ids), ("variable_datum_ids", text σ y.variable_datum_ids)] ++ r' := h
    obtain ⟨h1, h⟩ := read_next hσ (x := x.originating_entity_id) (y := y.originating_entity_id) h
    obtain ⟨h2, h⟩ := read_next hσ (x := x.receiving_entity_id) (y := y.receiving_entity_id) h
    obtain ⟨h3, h⟩ := read_next hσ (x := x.required_reliability_service) (y := y.required_reliability_service) h
    obtain ⟨h4, h⟩ := read_next hσ (x := x.padding) (y := y.padding) h
    obtain ⟨h5, h⟩ := read_next hσ (x := x.padding2) (y := y.padding2) h
    obtain ⟨h6, h⟩ := read_next hσ (x := x.request_id) (y := y.request_id) h
    obtain ⟨h7, h⟩ := read_next hσ (x := x.time_interval) (y := y.time_interval) h
    obtain ⟨h8, h⟩ := read_next hσ (x := x.number_of_fixed_datum_records) (y := y.number_of_fixed_datum_records) h
    obtain ⟨h9, h⟩ := read_next hσ (x := x.number_of_variable_datum_records) (y := y.number_of_variable_datum_records) h
    obtain ⟨h10, h⟩ := read_next hσ (x := x.fixed_datum_ids) (y := y.fixed_datum_ids) h
    obtain ⟨h11, h⟩ := read_next hσ (x := x.variable_datum_ids) (y := y.variable_datum_ids) h
    refine ⟨?_, read_end h⟩
    show DataQueryReliablePdu.mk (calm x.originating_entity_id) (calm x.receiving_entity_id) (calm
      x.required_reliability_service) (calm x.padding) (calm x.padding2) (calm x.request_id) (calm x.time_interval)
      (calm x.number_of_fixed_datum_records) (calm x.number_of_variable_datum_records) (calm x.fixed_datum_ids) (calm
      x.variable_datum_ids) = DataQueryReliablePdu.mk (calm y.originating_entity_id) (calm y.receiving_entity_id)
      (calm y.required_reliability_service) (calm y.padding) (calm y.padding2) (calm y.request_id) (calm
      y.time_interval) (calm y.number_of_fixed_datum_records) (calm y.number_of_variable_datum_records) (calm
      y.fixed_datum_ids) (calm y.variable_datum_ids)
    rw [h1, h2, h3, h4, h5, h6, h7, h8, h9, h10, h11]
instance : LegibleBody SetDataReliablePdu where
  named := by decide +kernel
  line hσ ha x :=
    field_line (by decide +kernel) (Legible.line hσ ha x.originating_entity_id) <|
    field_line (by decide +kernel) (Legible.line hσ ha x.receiving_entity_id) <|
    field_line (by decide +kernel) (Legible.line hσ ha x.required_reliability_service) <|
    field_line (by decide +kernel) (Legible.line hσ ha x.padding) <|
    field_line (by decide +kernel) (Legible.line hσ ha x.padding2) <|
    field_line (by decide +kernel) (Legible.line hσ ha x.request_id) <|
    field_line (by decide +kernel) (Legible.line hσ ha x.number_of_fixed_datum_records) <|
    field_line (by decide +kernel) (Legible.line hσ ha x.number_of_variable_datum_records) <|
    field_line (by decide +kernel) (Legible.line hσ ha x.fixed_datum_records) <|
    field_line (by decide +kernel) (Legible.line hσ ha x.variable_datum_records) <|
    no_field_line
  same {σ} hσ x := by
    show [
    ("originating_entity_id", text σ (calm x.originating_entity_id)),
  ("receiving_entity_id", text σ (calm x.receiving_entity_id)),
  ("required_reliability_service", text σ (calm x.required_reliability_service)),
  ("padding", text σ (calm x.padding)), ("padding2", text σ (calm x.padding2)),
  ("request_id", text σ (calm x.request_id)),
  ("number_of_fixed_datum_records", text σ (calm x.number_of_fixed_datum_records)),
  ("number_of_variable_datum_records", text σ (calm x.number_of_variable_datum_records)),
  ("fixed_datum_records", text σ (calm x.fixed_datum_records)),
  ("variable_datum_records", text σ (calm x.variable_datum_records))] = [
    ("originating_entity_id", text σ x.originating_entity_id), ("receiving_entity_id", text σ x.receiving_entity_id),
  ("required_reliability_service", text σ x.required_reliability_service), ("padding", text σ x.padding),
  ("padding2", text σ x.padding2), ("request_id", text σ x.request_id),
  ("number_of_fixed_datum_records", text σ x.number_of_fixed_datum_records),
  ("number_of_variable_datum_records", text σ x.number_of_variable_datum_records),
  ("fixed_datum_records", text σ x.fixed_datum_records),
  ("variable_datum_records", text σ x.variable_datum_records)]
    simp only [Legible.same hσ]
  reads {σ} hσ {x y r r'} h := by
    have h : fieldsText σ [
    ("originating_entity_id", text σ x.originating_entity_id), ("receiving_entity_id", text σ x.receiving_entity_id),
  ("required_reliability_service", text σ x.required_reliability_service), ("padding", text σ x.padding),
  ("padding2", text σ x.padding2), ("request_id", text σ x.request_id),
  ("number_of_fixed_datum_records", text σ x.number_of_fixed_datum_records),
  ("number_of_variable_datum_records", text σ x.number_of_variable_datum_records),
  ("fixed_datum_records", text σ x.fixed_datum_records),
  ("variable_datum_records", text σ x.variable_datum_records)] ++ r =
      fieldsText σ [
    ("originating_entity_id", text σ y.originating_entity_id), ("receiving_entity_id", text σ y.receiving_entity_id),
  ("required_reliability_service", text σ y.required_reliability_service), ("padding", text σ y.padding),
  ("padding2", text σ y.padding2), ("request_id", text σ y.request_id),
  ("number_of_fixed_datum_records", text σ y.number_of_fixed_datum_records),
  ("number_of_variable_datum_records", text σ y.number_of_variable_datum_records),
  ("fixed_datum_records", text σ y.fixed_datum_records),
  ("variable_datum_records", text σ y.variable_datum_records)] ++ r' := h
    obtain ⟨h1, h⟩ := read_next hσ (x := x.originating_entity_id) (y := y.originating_entity_id) h
    obtain ⟨h2, h⟩ := read_next hσ (x := x.receiving_entity_id) (y := y.receiving_entity_id) h
    obtain ⟨h3, h⟩ := read_next hσ (x := x.required_reliability_service) (y := y.required_reliability_service) h
    obtain ⟨h4, h⟩ := read_next hσ (x := x.padding) (y := y.padding) h
    obtain ⟨h5, h⟩ := read_next hσ (x := x.padding2) (y := y.padding2) h
    obtain ⟨h6, h⟩ := read_next hσ (x := x.request_id) (y := y.request_id) h
    obtain ⟨h7, h⟩ := read_next hσ (x := x.number_of_fixed_datum_records) (y := y.number_of_fixed_datum_records) h
    obtain ⟨h8, h⟩ := read_next hσ (x := x.number_of_variable_datum_records) (y := y.number_of_variable_datum_records) h
    obtain ⟨h9, h⟩ := read_next hσ (x := x.fixed_datum_records) (y := y.fixed_datum_records) h
    obtain ⟨h10, h⟩ := read_next hσ (x := x.variable_datum_records) (y := y.variable_datum_records) h
    refine ⟨?_, read_end h⟩
    show SetDataReliablePdu.mk (calm x.originating_entity_id) (calm x.receiving_entity_id) (calm
      x.required_reliability_service) (calm x.padding) (calm x.padding2) (calm x.request_id) (calm
      x.number_of_fixed_datum_records) (calm x.number_of_variable_datum_records) (calm x.fixed_datum_records) (calm
      x.variable_datum_records) = SetDataReliablePdu.mk (calm y.originating_entity_id) (calm y.receiving_entity_id)
      (calm y.required_reliability_service) (calm y.padding) (calm y.padding2) (calm y.request_id) (calm
      y.number_of_fixed_datum_records) (calm y.number_of_variable_datum_records) (calm y.fixed_datum_records) (calm
      y.variable_datum_records)
    rw [h1, h2, h3, h4, h5, h6, h7, h8, h9, h10]
instance : LegibleBody DataReliablePdu where
  named := by decide +kernel
  line hσ ha x :=
    field_line (by decide +kernel) (Legible.line hσ ha x.originating_entity_id) <|
    field_line (by decide +kernel) (Legible.line hσ ha x.receiving_entity_id) <|
    field_line (by decide +kernel) (Legible.line hσ ha x.request_id) <|
    field_line (by decide +kernel) (Legible.line hσ ha x.required_reliability_service) <|
    field_line (by decide +kernel) (Legible.line hσ ha x.padding) <|
    field_line (by decide +kernel) (Legible.line hσ ha x.padding2) <|
    field_line (by decide +kernel) (Legible.line hσ ha x.number_of_fixed_datum_records) <|
    field_line (by decide +kernel) (Legible.line hσ ha x.number_of_variable_datum_records) <|
    field_line (by decide +kernel) (Legible.line hσ ha x.fixed_datum_records) <|
    field_line (by decide +kernel) (Legible.line hσ ha x.variable_datum_records) <|
    no_field_line
  same {σ} hσ x := by
    show [
    ("originating_entity_id", text σ (calm x.originating_entity_id)),
  ("receiving_entity_id", text σ (calm x.receiving_entity_id)), ("request_id", text σ (calm x.request_id)),
  ("required_reliability_service", text σ (calm x.required_reliability_service)),
  ("padding", text σ (calm x.padding)), ("padding2", text σ (calm x.padding2)),
  ("number_of_fixed_datum_records", text σ (calm x.number_of_fixed_datum_records)),
  ("number_of_variable_datum_records", text σ (calm x.number_of_variable_datum_records)),
  ("fixed_datum_records", text σ (calm x.fixed_datum_records)),
  ("variable_datum_records", text σ (calm x.variable_datum_records))] = [
    ("originating_entity_id", text σ x.originating_entity_id), ("receiving_entity_id", text σ x.receiving_entity_id),
  ("request_id", text σ x.request_id), ("required_reliability_service", text σ x.required_reliability_service),
  ("padding", text σ x.padding), ("padding2", text σ x.padding2),
  ("number_of_fixed_datum_records", text σ x.number_of_fixed_datum_records),
  ("number_of_variable_datum_records", text σ x.number_of_variable_datum_records),
  ("fixed_datum_records", text σ x.fixed_datum_records),
  ("variable_datum_records", text σ x.variable_datum_records)]
    simp only [Legible.same hσ]
  reads {σ} hσ {x y r r'} h := by
    have h : fieldsText σ [
    ("originating_entity_id", text σ x.originating_entity_id), ("receiving_entity_id", text σ x.receiving_entity_id),
  ("request_id", text σ x.request_id), ("required_reliability_service", text σ x.required_reliability_service),
  ("padding", text σ x.padding), ("padding2", text σ x.padding2),
  ("number_of_fixed_datum_records", text σ x.number_of_fixed_datum_records),
  ("number_of_variable_datum_records", text σ x.number_of_variable_datum_records),
  ("fixed_datum_records", text σ x.fixed_datum_records),
  ("variable_datum_records", text σ x.variable_datum_records)] ++ r =
      fieldsText σ [
    ("originating_entity_id", text σ y.originating_entity_id), ("receiving_entity_id", text σ y.receiving_entity_id),
  ("request_id", text σ y.request_id), ("required_reliability_service", text σ y.required_reliability_service),
  ("padding", text σ y.padding), ("padding2", text σ y.padding2),
  ("number_of_fixed_datum_records", text σ y.number_of_fixed_datum_records),
  ("number_of_variable_datum_records", text σ y.number_of_variable_datum_records),
  ("fixed_datum_records", text σ y.fixed_datum_records),
  ("variable_datum_records", text σ y.variable_datum_records)] ++ r' := h
    obtain ⟨h1, h⟩ := read_next hσ (x := x.originating_entity_id) (y := y.originating_entity_id) h
    obtain ⟨h2, h⟩ := read_next hσ (x := x.receiving_entity_id) (y := y.receiving_entity_id) h
    obtain ⟨h3, h⟩ := read_next hσ (x := x.request_id) (y := y.request_id) h
    obtain ⟨h4, h⟩ := read_next hσ (x := x.required_reliability_service) (y := y.required_reliability_service) h
    obtain ⟨h5, h⟩ := read_next hσ (x := x.padding) (y := y.padding) h
    obtain ⟨h6, h⟩ := read_next hσ (x := x.padding2) (y := y.padding2) h
    obtain ⟨h7, h⟩ := read_next hσ (x := x.number_of_fixed_datum_records) (y := y.number_of_fixed_datum_records) h
    obtain ⟨h8, h⟩ := read_next hσ (x := x.number_of_variable_datum_records) (y := y.number_of_variable_datum_records) h
    obtain ⟨h9, h⟩ := read_next hσ (x := x.fixed_datum_records) (y := y.fixed_datum_records) h
    obtain ⟨h10, h⟩ := read_next hσ (x := x.variable_datum_records) (y := y.variable_datum_records) h
    refine ⟨?_, read_end h⟩
    show DataReliablePdu.mk (calm x.originating_entity_id) (calm x.receiving_entity_id) (calm x.request_id) (calm
      x.required_reliability_service) (calm x.padding) (calm x.padding2) (calm x.number_of_fixed_datum_records) (calm
      x.number_of_variable_datum_records) (calm x.fixed_datum_records) (calm x.variable_datum_records) =
      DataReliablePdu.mk (calm y.originating_entity_id) (calm y.receiving_entity_id) (calm y.request_id) (calm
      y.required_reliability_service) (calm y.padding) (calm y.padding2) (calm y.number_of_fixed_datum_records) (calm
      y.number_of_variable_datum_records) (calm y.fixed_datum_records) (calm y.variable_datum_records)
    rw [h1, h2, h3, h4, h5, h6, h7, h8, h9, h10]
instance : LegibleBody EventReportReliablePdu where
  named := by decide +kernel
  line hσ ha x :=
    field_line (by decide +kernel) (Legible.line hσ ha x.originating_entity_id) <|
    field_line (by decide +kernel) (Legible.line hσ ha x.receiving_entity_id) <|
    field_line (by decide +kernel) (Legible.line hσ ha x.event_type) <|
    field_line (by decide +kernel) (Legible.line hσ ha x.padding) <|
    field_line (by decide +kernel) (Legible.line hσ ha x.number_of_fixed_datum_records) <|
    field_line (by decide +kernel) (Legible.line hσ ha x.number_of_variable_datum_records) <|
    field_line (by decide +kernel) (Legible.line hσ ha x.fixed_datum_records) <|
    field_line (by decide +kernel) (Legible.line hσ ha x.variable_datum_records) <|
    no_field_line
  same {σ} hσ x := by
    show [
    ("originating_entity_id", text σ (calm x.originating_entity_id)),
  ("receiving_entity_id", text σ (calm x.receiving_entity_id)), ("event_type", text σ (calm x.event_type)),
  ("padding", text σ (calm x.padding)),
  ("number_of_fixed_datum_records", text σ (calm x.number_of_fixed_datum_records)),
  ("number_of_variable_datum_records", text σ (calm x.number_of_variable_datum_records)),
  ("fixed_datum_records", text σ (calm x.fixed_datum_records)),
  ("variable_datum_records", text σ (calm x.variable_datum_records))] = [
    ("originating_entity_id", text σ x.originating_entity_id), ("receiving_entity_id", text σ x.receiving_entity_id),
  ("event_type", text σ x.event_type), ("padding", text σ x.padding),
  ("number_of_fixed_datum_records", text σ x.number_of_fixed_datum_records),
  ("number_of_variable_datum_records", text σ x.number_of_variable_datum_records),
  ("fixed_datum_records", text σ x.fixed_datum_records),
  ("variable_datum_records", text σ x.variable_datum_records)]
    simp only [Legible.same hσ]
  reads {σ} hσ {x y r r'} h := by
    have h : fieldsText σ [
    ("originating_entity_id", text σ x.originating_entity_id), ("receiving_entity_id", text σ x.receiving_entity_id),
  ("event_type", text σ x.event_type), ("padding", text σ x.padding),
  ("number_of_fixed_datum_records", text σ x.number_of_fixed_datum_records),
  ("number_of_variable_datum_records", text σ x.number_of_variable_datum_records),
  ("fixed_datum_records", text σ x.fixed_datum_records),
  ("variable_datum_records", text σ x.variable_datum_records)] ++ r =
      fieldsText σ [
    ("originating_entity_id", text σ y.originating_entity_id), ("receiving_entity_id", text σ y.receiving_entity_id),
  ("event_type", text σ y.event_type), ("padding", text σ y.padding),
  ("number_of_fixed_datum_records", text σ y.number_of_fixed_datum_records),
  ("number_of_variable_datum_records", text σ y.number_of_variable_datum_records),
  ("fixed_datum_records", text σ y.fixed_datum_records),
  ("variable_datum_records", text σ y.variable_datum_records)] ++ r' := h
    obtain ⟨h1, h⟩ := read_next hσ (x := x.originating_entity_id) (y := y.originating_entity_id) h
    obtain ⟨h2, h⟩ := read_next hσ (x := x.receiving_entity_id) (y := y.receiving_entity_id) h
    obtain ⟨h3, h⟩ := read_next hσ (x := x.event_type) (y := y.event_type) h
    obtain ⟨h4, h⟩ := read_next hσ (x := x.padding) (y := y.padding) h
    obtain ⟨h5, h⟩ := read_next hσ (x := x.number_of_fixed_datum_records) (y := y.number_of_fixed_datum_records) h
    obtain ⟨h6, h⟩ := read_next hσ (x := x.number_of_variable_datum_records) (y := y.number_of_variable_datum_records) h
    obtain ⟨h7, h⟩ := read_next hσ (x := x.fixed_datum_records) (y := y.fixed_datum_records) h
    obtain ⟨h8, h⟩ := read_next hσ (x := x.variable_datum_records) (y := y.variable_datum_records) h
    refine ⟨?_, read_end h⟩
    show EventReportReliablePdu.mk (calm x.originating_entity_id) (calm x.receiving_entity_id) (calm x.event_type)
      (calm x.padding) (calm x.number_of_fixed_datum_records) (calm x.number_of_variable_datum_records) (calm
      x.fixed_datum_records) (calm x.variable_datum_records) = EventReportReliablePdu.mk (calm
      y.originating_entity_id) (calm y.receiving_entity_id) (calm y.event_type) (calm y.padding) (calm
      y.number_of_fixed_datum_records) (calm y.number_of_variable_datum_records) (calm y.fixed_datum_records) (calm
      y.variable_datum_records)
    rw [h1, h2, h3, h4, h5, h6, h7, h8]
instance : LegibleBody CommentReliablePdu where
  named := by decide +kernel
  line hσ ha x :=
    field_line (by decide +kernel) (Legible.line hσ ha x.originating_entity_id) <|
    field_line (by decide +kernel) (Legible.line hσ ha x.receiving_entity_id) <|
    field_line (by decide +kernel) (Legible.line hσ ha x.number_of_fixed_datum_records) <|
    field_line (by decide +kernel) (Legible.line hσ ha x.number_of_variable_datum_records) <|
    field_line (by decide +kernel) (Legible.line hσ ha x.fixed_datum_records) <|
    field_line (by decide +kernel) (Legible.line hσ ha x.variable_datum_records) <|
    no_field_line
  same {σ} hσ x := by
    show [
    ("originating_entity_id", text σ (calm x.originating_entity_id)),
  ("receiving_entity_id", text σ (calm x.receiving_entity_id)),
  ("number_of_fixed_datum_records", text σ (calm x.number_of_fixed_datum_records)),
  ("number_of_variable_datum_records", text σ (calm x.number_of_variable_datum_records)),
  ("fixed_datum_records", text σ (calm x.fixed_datum_records)),
  ("variable_datum_records", text σ (calm x.variable_datum_records))] = [
    ("originating_entity_id", text σ x.originating_entity_id), ("receiving_entity_id", text σ x.receiving_entity_id),
  ("number_of_fixed_datum_records", text σ x.number_of_fixed_datum_records),
  ("number_of_variable_datum_records", text σ x.number_of_variable_datum_records),
  ("fixed_datum_records", text σ x.fixed_datum_records),
  ("variable_datum_records", text σ x.variable_datum_records)]
    simp only [Legible.same hσ]
  reads {σ} hσ {x y r r'} h := by
    have h : fieldsText σ [
    ("originating_entity_id", text σ x.originating_entity_id), ("receiving_entity_id", text σ x.receiving_entity_id),
  ("number_of_fixed_datum_records", text σ x.number_of_fixed_datum_records),
  ("number_of_variable_datum_records", text σ x.number_of_variable_datum_records),
  ("fixed_datum_records", text σ x.fixed_datum_records),
  ("variable_datum_records", text σ x.variable_datum_records)] ++ r =
      fieldsText σ [
    ("originating_entity_id", text σ y.originating_entity_id), ("receiving_entity_id", text σ y.receiving_entity_id),
  ("number_of_fixed_datum_records", text σ y.number_of_fixed_datum_records),
  ("number_of_variable_datum_records", text σ y.number_of_variable_datum_records),
  ("fixed_datum_records", text σ y.fixed_datum_records),
  ("variable_datum_records", text σ y.variable_datum_records)] ++ r' := h
    obtain ⟨h1, h⟩ := read_next hσ (x := x.originating_entity_id) (y := y.originating_entity_id) h
    obtain ⟨h2, h⟩ := read_next hσ (x := x.receiving_entity_id) (y := y.receiving_entity_id) h
    obtain ⟨h3, h⟩ := read_next hσ (x := x.number_of_fixed_datum_records) (y := y.number_of_fixed_datum_records) h
    obtain ⟨h4, h⟩ := read_next hσ (x := x.number_of_variable_datum_records) (y := y.number_of_variable_datum_records) h
    obtain ⟨h5, h⟩ := read_next hσ (x := x.fixed_datum_records) (y := y.fixed_datum_records) h
    obtain ⟨h6, h⟩ := read_next hσ (x := x.variable_datum_records) (y := y.variable_datum_records) h
    refine ⟨?_, read_end h⟩
    show CommentReliablePdu.mk (calm x.originating_entity_id) (calm x.receiving_entity_id) (calm
      x.number_of_fixed_datum_records) (calm x.number_of_variable_datum_records) (calm x.fixed_datum_records) (calm
      x.variable_datum_records) = CommentReliablePdu.mk (calm y.originating_entity_id) (calm y.receiving_entity_id)
      (calm y.number_of_fixed_datum_records) (calm y.number_of_variable_datum_records) (calm y.fixed_datum_records)
      (calm y.variable_datum_records)
    rw [h1, h2, h3, h4, h5, h6]
instance : LegibleBody RecordQueryReliablePdu where
  named := by decide +kernel
  line hσ ha x :=
    field_line (by decide +kernel) (Legible.line hσ ha x.originating_entity_id) <|
    field_line (by decide +kernel) (Legible.line hσ ha x.receiving_entity_id) <|
    field_line (by decide +kernel) (Legible.line hσ ha x.request_id) <|
    field_line (by decide +kernel) (Legible.line hσ ha x.required_reliability_service) <|
    field_line (by decide +kernel) (Legible.line hσ ha x.padding) <|
    field_line (by decide +kernel) (Legible.line hσ ha x.event_type) <|
    field_line (by decide +kernel) (Legible.line hσ ha x.time) <|
    field_line (by decide +kernel) (Legible.line hσ ha x.number_of_records) <|
    field_line (by decide +kernel) (Legible.line hσ ha x.record_ids) <|
    no_field_line
  same {σ} hσ x := by
    show [
    ("originating_entity_id", text σ (calm x.originating_entity_id)),
  ("receiving_entity_id", text σ (calm x.receiving_entity_id)), ("request_id", text σ (calm x.request_id)),
  ("required_reliability_service", text σ (calm x.required_reliability_service)),
  ("padding", text σ (calm x.padding)), ("event_type", text σ (calm x.event_type)), ("time", text σ (calm x.time)),
  ("number_of_records", text σ (calm x.number_of_records)), ("record_ids", text σ (calm x.record_ids))] = [
    ("originating_entity_id", text σ x.originating_entity_id), ("receiving_entity_id", text σ x.receiving_entity_id),
  ("request_id", text σ x.request_id), ("required_reliability_service", text σ x.required_reliability_service),
  ("padding", text σ x.padding), ("event_type", text σ x.event_type), ("time", text σ x.time),
  ("number_of_records", text σ x.number_of_records), ("record_ids", text σ x.record_ids)]
    simp only [Legible.same hσ]
  reads {σ} hσ {x y r r'} h := by
    have h : fieldsText σ [
    ("originating_entity_id", text σ x.originating_entity_id), ("receiving_entity_id", text σ x.receiving_entity_id),
  ("request_id", text σ x.request_id), ("required_reliability_service", text σ x.required_reliability_service),
  ("padding", text σ x.padding), ("event_type", text σ x.event_type), ("time", text σ x.time),
  ("number_of_records", text σ x.number_of_records), ("record_ids", text σ x.record_ids)] ++ r =
      fieldsText σ [
    ("originating_entity_id", text σ y.originating_entity_id), ("receiving_entity_id", text σ y.receiving_entity_id),
  ("request_id", text σ y.request_id), ("required_reliability_service", text σ y.required_reliability_service),
  ("padding", text σ y.padding), ("event_type", text σ y.event_type), ("time", text σ y.time),
  ("number_of_records", text σ y.number_of_records), ("record_ids", text σ y.record_ids)] ++ r' := h
    obtain ⟨h1, h⟩ := read_next hσ (x := x.originating_entity_id) (y := y.originating_entity_id) h
    obtain ⟨h2, h⟩ := read_next hσ (x := x.receiving_entity_id) (y := y.receiving_entity_id) h
    obtain ⟨h3, h⟩ := read_next hσ (x := x.request_id) (y := y.request_id) h
    obtain ⟨h4, h⟩ := read_next hσ (x := x.required_reliability_service) (y := y.required_reliability_service) h
    obtain ⟨h5, h⟩ := read_next hσ (x := x.padding) (y := y.padding) h
    obtain ⟨h6, h⟩ := read_next hσ (x := x.event_type) (y := y.event_type) h
    obtain ⟨h7, h⟩ := read_next hσ (x := x.time) (y := y.time) h
    obtain ⟨h8, h⟩ := read_next hσ (x := x.number_of_records) (y := y.number_of_records) h
    obtain ⟨h9, h⟩ := read_next hσ (x := x.record_ids) (y := y.record_ids) h
    refine ⟨?_, read_end h⟩
    show RecordQueryReliablePdu.mk (calm x.originating_entity_id) (calm x.receiving_entity_id) (calm x.request_id)
      (calm x.required_reliability_service) (calm x.padding) (calm x.event_type) (calm x.time) (calm
      x.number_of_records) (calm x.record_ids) = RecordQueryReliablePdu.mk (calm y.originating_entity_id) (calm
      y.receiving_entity_id) (calm y.request_id) (calm y.required_reliability_service) (calm y.padding) (calm
      y.event_type) (calm y.time) (calm y.number_of_records) (calm y.record_ids)
    rw [h1, h2, h3, h4, h5, h6, h7, h8, h9]
instance : LegibleBody SetRecordReliablePdu where
  named := by decide +kernel
  line hσ ha x :=
    field_line (by decide +kernel) (Legible.line hσ ha x.originating_entity_id) <|
    field_line (by decide +kernel) (Legible.line hσ ha x.receiving_entity_id) <|
    field_line (by decide +kernel) (Legible.line hσ ha x.request_id) <|
    field_line (by decide +kernel) (Legible.line hσ ha x.required_reliability_service) <|
    field_line (by decide +kernel) (Legible.line hσ ha x.padding) <|
    field_line (by decide +kernel) (Legible.line hσ ha x.padding2) <|
    field_line (by decide +kernel) (Legible.line hσ ha x.padding3) <|
    field_line (by decide +kernel) (Legible.line hσ ha x.record_sets) <|
    no_field_line
  same {σ} hσ x := by
    show [
    ("originating_entity_id", text σ (calm x.originating_entity_id)),
  ("receiving_entity_id", text σ (calm x.receiving_entity_id)), ("request_id", text σ (calm x.request_id)),
  ("required_reliability_service", text σ (calm x.required_reliability_service)),
  ("padding", text σ (calm x.padding)), ("padding2", text σ (calm x.padding2)),
  ("padding3", text σ (calm x.padding3)), ("record_sets", text σ (calm x.record_sets))] = [
    ("originating_entity_id", text σ x.originating_entity_id), ("receiving_entity_id", text σ x.receiving_entity_id),
  ("request_id", text σ x.request_id), ("required_reliability_service", text σ x.required_reliability_service),
  ("padding", text σ x.padding), ("padding2", text σ x.padding2), ("padding3", text σ x.padding3),
  ("record_sets", text σ x.record_sets)]
    simp only [Legible.same hσ]
  reads {σ} hσ {x y r r'} h := by
    have h : fieldsText σ [
    ("originating_entity_id", text σ x.originating_entity_id), ("receiving_entity_id", text σ x.receiving_entity_id),
  ("request_id", text σ x.request_id), ("required_reliability_service", text σ x.required_reliability_service),
  ("padding", text σ x.padding), ("padding2", text σ x.padding2), ("padding3", text σ x.padding3),
  ("record_sets", text σ x.record_sets)] ++ r =
      fieldsText σ [
    ("originating_entity_id", text σ y.originating_entity_id), ("receiving_entity_id", text σ y.receiving_entity_id),
  ("request_id", text σ y.request_id), ("required_reliability_service", text σ y.required_reliability_service),
  ("padding", text σ y.padding), ("padding2", text σ y.padding2), ("padding3", text σ y.padding3),
  ("record_sets", text σ y.record_sets)] ++ r' := h
    obtain ⟨h1, h⟩ := read_next hσ (x := x.originating_entity_id) (y := y.originating_entity_id) h
    obtain ⟨h2, h⟩ := read_next hσ (x := x.receiving_entity_id) (y := y.receiving_entity_id) h
    obtain ⟨h3, h⟩ := read_next hσ (x := x.request_id) (y := y.request_id) h
    obtain ⟨h4, h⟩ := read_next hσ (x := x.required_reliability_service) (y := y.required_reliability_service) h
    obtain ⟨h5, h⟩ := read_next hσ (x := x.padding) (y := y.padding) h
    obtain ⟨h6, h⟩ := read_next hσ (x := x.padding2) (y := y.padding2) h
    obtain ⟨h7, h⟩ := read_next hσ (x := x.padding3) (y := y.padding3) h
    obtain ⟨h8, h⟩ := read_next hσ (x := x.record_sets) (y := y.record_sets) h
    refine ⟨?_, read_end h⟩
    show SetRecordReliablePdu.mk (calm x.originating_entity_id) (calm x.receiving_entity_id) (calm x.request_id) (calm
      x.required_reliability_service) (calm x.padding) (calm x.padding2) (calm x.padding3) (calm x.record_sets) =
      SetRecordReliablePdu.mk (calm y.originating_entity_id) (calm y.receiving_entity_id) (calm y.request_id) (calm
      y.required_reliability_service) (calm y.padding) (calm y.padding2) (calm y.padding3) (calm y.record_sets)
    rw [h1, h2, h3, h4, h5, h6, h7, h8]
instance : LegibleBody EnvironmentalProcessPdu where
  named := by decide +kernel
  line hσ ha x :=
    field_line (by decide +kernel) (Legible.line hσ ha x.environmental_process_id) <|
    field_line (by decide +kernel) (Legible.line hσ ha x.environment_type) <|
    field_line (by decide +kernel) (Legible.line hσ ha x.model_type) <|
    field_line (by decide +kernel) (Legible.line hσ ha x.environment_status) <|
    field_line (by decide +kernel) (Legible.line hσ ha x.number_of_environment_records) <|
    field_line (by decide +kernel) (Legible.line hσ ha x.sequence_number) <|
    field_line (by decide +kernel) (Legible.line hσ ha x.environment_records) <|
    no_field_line
  same {σ} hσ x := by
    show [
    ("environmental_process_id", text σ (calm x.environmental_process_id)),
  ("environment_type", text σ (calm x.environment_type)), ("model_type", text σ (calm x.model_type)),
  ("environment_status", text σ (calm x.environment_status)),
  ("number_of_environment_records", text σ (calm x.number_of_environment_records)),
  ("sequence_number", text σ (calm x.sequence_number)),
  ("environment_records", text σ (calm x.environment_records))] = [
    ("environmental_process_id", text σ x.environmental_process_id), ("environment_type", text σ x.environment_type),
  ("model_type", text σ x.model_type), ("environment_status", text σ x.environment_status),
  ("number_of_environment_records", text σ x.number_of_environment_records),
  ("sequence_number", text σ x.sequence_number), ("environment_records", text σ x.environment_records)]
    simp only [Legible.same hσ]
  reads {σ} hσ {x y r r'} h := by
    have h : fieldsText σ [
    ("environmental_process_id", text σ x.environmental_process_id), ("environment_type", text σ x.environment_type),
  ("model_type", text σ x.model_type), ("environment_status", text σ x.environment_status),
  ("number_of_environment_records", text σ x.number_of_environment_records),
  ("sequence_number", text σ x.sequence_number), ("environment_records", text σ x.environment_records)] ++ r =
      fieldsText σ [
    ("environmental_process_id", text σ y.environmental_process_id), ("environment_type", text σ y.environment_type),
  ("model_type", text σ y.model_type), ("environment_status", text σ y.environment_status),
  ("number_of_environment_records", text σ y.number_of_environment_records),
  ("sequence_number", text σ y.sequence_number), ("environment_records", text σ y.environment_records)] ++ r' := h
    obtain ⟨h1, h⟩ := read_next hσ (x := x.environmental_process_id) (y := y.environmental_process_id) h
    obtain ⟨h2, h⟩ := read_next hσ (x := x.environment_type) (y := y.environment_type) h
    obtain ⟨h3, h⟩ := read_next hσ (x := x.model_type) (y := y.model_type) h
    obtain ⟨h4, h⟩ := read_next hσ (x := x.environment_status) (y := y.environment_status) h
    obtain ⟨h5, h⟩ := read_next hσ (x := x.number_of_environment_records) (y := y.number_of_environment_records) h
    obtain ⟨h6, h⟩ := read_next hσ (x := x.sequence_number) (y := y.sequence_number) h
    obtain ⟨h7, h⟩ := read_next hσ (x := x.environment_records) (y := y.environment_records) h
    refine ⟨?_, read_end h⟩
    show EnvironmentalProcessPdu.mk (calm x.environmental_process_id) (calm x.environment_type) (calm x.model_type)
      (calm x.environment_status) (calm x.number_of_environment_records) (calm x.sequence_number) (calm
      x.environment_records) = EnvironmentalProcessPdu.mk (calm y.environmental_process_id) (calm y.environment_type)
      (calm y.model_type) (calm y.environment_status) (calm y.number_of_environment_records) (calm y.sequence_number)
      (calm y.environment_records)
    rw [h1, h2, h3, h4, h5, h6, h7]
instance : LegibleBody GriddedDataPdu where
  named := by decide +kernel
  line hσ ha x :=
    field_line (by decide +kernel) (Legible.line hσ ha x.environmental_simulation_id) <|
    field_line (by decide +kernel) (Legible.line hσ ha x.field_number) <|
    field_line (by decide +kernel) (Legible.line hσ ha x.pdu_number) <|
    field_line (by decide +kernel) (Legible.line hσ ha x.pdu_total) <|
    field_line (by decide +kernel) (Legible.line hσ ha x.coordinate_system) <|
    field_line (by decide +kernel) (Legible.line hσ ha x.number_of_grid_axes) <|
    field_line (by decide +kernel) (Legible.line hσ ha x.constant_grid) <|
    field_line (by decide +kernel) (Legible.line hσ ha x.environment_type) <|
    field_line (by decide +kernel) (Legible.line hσ ha x.orientation) <|
    field_line (by decide +kernel) (Legible.line hσ ha x.sample_time) <|
    field_line (by decide +kernel) (Legible.line hσ ha x.total_values) <|
    field_line (by decide +kernel) (Legible.line hσ ha x.vector_dimension) <|
    field_line (by decide +kernel) (Legible.line hσ ha x.padding) <|
    field_line (by decide +kernel) (Legible.line hσ ha x.padding2) <|
    field_line (by decide +kernel) (Legible.line hσ ha x.grid_axis_descriptors) <|
    field_line (by decide +kernel) (Legible.line hσ ha x.grid_data_list) <|
    no_field_line
  same {σ} hσ x := by
    show [
    ("environmental_simulation_id", text σ (calm x.environmental_simulation_id)),
  ("field_number", text σ (calm x.field_number)), ("pdu_number", text σ (calm x.pdu_number)),
  ("pdu_total", text σ (calm x.pdu_total)), ("coordinate_system", text σ (calm x.coordinate_system)),
  ("number_of_grid_axes", text σ (calm x.number_of_grid_axes)), ("constant_grid", text σ (calm x.constant_grid)),
  ("environment_type", text σ (calm x.environment_type)), ("orientation", text σ (calm x.orientation)),
  ("sample_time", text σ (calm x.sample_time)), ("total_values", text σ (calm x.total_values)),
  ("vector_dimension", text σ (calm x.vector_dimension)), ("padding", text σ (calm x.padding)),
  ("padding2", text σ (calm x.padding2)), ("grid_axis_descriptors", text σ (calm x.grid_axis_descriptors)),
  ("grid_data_list", text σ (calm x.grid_data_list))] = [
    ("environmental_simulation_id", text σ x.environmental_simulation_id), ("field_number", text σ x.field_number),
  ("pdu_number", text σ x.pdu_number), ("pdu_total", text σ x.pdu_total),
  ("coordinate_system", text σ x.coordinate_system), ("number_of_grid_axes", text σ x.number_of_grid_axes),
  ("constant_grid", text σ x.constant_grid), ("environment_type", text σ x.environment_type),
  ("orientation", text σ x.orientation), ("sample_time", text σ x.sample_time),
  ("total_values", text σ x.total_values), ("vector_dimension", text σ x.vector_dimension),
  ("padding", text σ x.padding), ("padding2", text σ x.padding2),
  ("grid_axis_descriptors", text σ x.grid_axis_descriptors), ("grid_data_list", text σ x.grid_data_list)]
    simp only [Legible.same hσ]
  reads {σ} hσ {x y r r'} h := by
    have h : fieldsText σ [
    ("environmental_simulation_id", text σ x.environmental_simulation_id), ("field_number", text σ x.field_number),
  ("pdu_number", text σ x.pdu_number), ("pdu_total", text σ x.pdu_total),
  ("coordinate_system", text σ x.coordinate_system), ("number_of_grid_axes", text σ x.number_of_grid_axes),
  ("constant_grid", text σ x.constant_grid), ("environment_type", text σ x.environment_type),
  ("orientation", text σ x.orientation), ("sample_time", text σ x.sample_time),
  ("total_values", text σ x.total_values), ("vector_dimension", text σ x.vector_dimension),
  ("padding", text σ x.padding), ("padding2", text σ x.padding2),
  ("grid_axis_descriptors", text σ x.grid_axis_descriptors), ("grid_data_list", text σ x.grid_data_list)] ++ r =
      fieldsText σ [
    ("environmental_simulation_id", text σ y.environmental_simulation_id), ("field_number", text σ y.field_number),
  ("pdu_number", text σ y.pdu_number), ("pdu_total", text σ y.pdu_total),
  ("coordinate_system", text σ y.coordinate_system), ("number_of_grid_axes", text σ y.number_of_grid_axes),
  ("constant_grid", text σ y.constant_grid), ("environment_type", text σ y.environment_type),
  ("orientation", text σ y.orientation), ("sample_time", text σ y.sample_time),
  ("total_values", text σ y.total_values), ("vector_dimension", text σ y.vector_dimension),
  ("padding", text σ y.padding), ("padding2", text σ y.padding2),
  ("grid_axis_descriptors", text σ y.grid_axis_descriptors), ("grid_data_list", text σ y.grid_data_list)] ++ r' := h
    obtain ⟨h1, h⟩ := read_next hσ (x := x.environmental_simulation_id) (y := y.environmental_simulation_id) h
    obtain ⟨h2, h⟩ := read_next hσ (x := x.field_number) (y := y.field_number) h
    obtain ⟨h3, h⟩ := read_next hσ (x := x.pdu_number) (y := y.pdu_number) h
    obtain ⟨h4, h⟩ := read_next hσ (x := x.pdu_total) (y := y.pdu_total) h
    obtain ⟨h5, h⟩ := read_next hσ (x := x.coordinate_system) (y := y.coordinate_system) h
    obtain ⟨h6, h⟩ := read_next hσ (x := x.number_of_grid_axes) (y := y.number_of_grid_axes) h
    obtain ⟨h7, h⟩ := read_next hσ (x := x.constant_grid) (y := y.constant_grid) h
    obtain ⟨h8, h⟩ := read_next hσ (x := x.environment_type) (y := y.environment_type) h
    obtain ⟨h9, h⟩ := read_next hσ (x := x.orientation) (y := y.orientation) h
    obtain ⟨h10, h⟩ := read_next hσ (x := x.sample_time) (y := y.sample_time) h
    obtain ⟨h11, h⟩ := read_next hσ (x := x.total_values) (y := y.total_values) h
    obtain ⟨h12, h⟩ := read_next hσ (x := x.vector_dimension) (y := y.vector_dimension) h
    obtain ⟨h13, h⟩ := read_next hσ (x := x.padding) (y := y.padding) h
    obtain ⟨h14, h⟩ := read_next hσ (x := x.padding2) (y := y.padding2) h
    obtain ⟨h15, h⟩ := read_next hσ (x := x.grid_axis_descriptors) (y := y.grid_axis_descriptors) h
    obtain ⟨h16, h⟩ := read_next hσ (x := x.grid_data_list) (y := y.grid_data_list) h
    refine ⟨?_, read_end h⟩
    show GriddedDataPdu.mk (calm x.environmental_simulation_id) (calm x.field_number) (calm x.pdu_number) (calm
      x.pdu_total) (calm x.coordinate_system) (calm x.number_of_grid_axes) (calm x.constant_grid) (calm
      x.environment_type) (calm x.orientation) (calm x.sample_time) (calm x.total_values) (calm x.vector_dimension)
      (calm x.padding) (calm x.padding2) (calm x.grid_axis_descriptors) (calm x.grid_data_list) = GriddedDataPdu.mk
      (calm y.environmental_simulation_id) (calm y.field_number) (calm y.pdu_number) (calm y.pdu_total) (calm
      y.coordinate_system) (calm y.number_of_grid_axes) (calm y.constant_grid) (calm y.environment_type) (calm
      y.orientation) (calm y.sample_time) (calm y.total_values) (calm y.vector_dimension) (calm y.padding) (calm
      y.padding2) (calm y.grid_axis_descriptors) (calm y.grid_data_list)
    rw [h1, h2, h3, h4, h5, h6, h7, h8, h9, h10, h11, h12, h13, h14, h15, h16]
instance : LegibleBody PointObjectStatePdu where
  named := by decide +kernel
  line hσ ha x :=
    field_line (by decide +kernel) (Legible.line hσ ha x.object_id) <|
    field_line (by decide +kernel) (Legible.line hσ ha x.referenced_object_id) <|
    field_line (by decide +kernel) (Legible.line hσ ha x.update_number) <|
    field_line (by decide +kernel) (Legible.line hσ ha x.force_id) <|
    field_line (by decide +kernel) (Legible.line hσ ha x.modifications) <|
    field_line (by decide +kernel) (Legible.line hσ ha x.object_type) <|
    field_line (by decide +kernel) (Legible.line hσ ha x.object_location) <|
    field_line (by decide +kernel) (Legible.line hσ ha x.object_orientation) <|
    field_line (by decide +kernel) (Legible.line hσ ha x.specific_object_appearance) <|
    field_line (by decide +kernel) (Legible.line hσ ha x.general_object_appearance) <|
    field_line (by decide +kernel) (Legible.line hσ ha x.padding) <|
    field_line (by decide +kernel) (Legible.line hσ ha x.requester_id) <|
    field_line (by decide +kernel) (Legible.line hσ ha x.receiving_id) <|
    field_line (by decide +kernel) (Legible.line hσ ha x.padding2) <|
    no_field_line
  same {σ} hσ x := by
    show [
    ("object_id", text σ (calm x.object_id)), ("referenced_object_id", text σ (calm x.referenced_object_id)),
  ("update_number", text σ (calm x.update_number)), ("force_id", text σ (calm x.force_id)),
  ("modifications", text σ (calm x.modifications)), ("object_type", text σ (calm x.object_type)),
  ("object_location", text σ (calm x.object_location)), ("object_orientation", text σ (calm x.object_orientation)),
  ("specific_object_appearance", text σ (calm x.specific_object_appearance)),
  ("general_object_appearance", text σ (calm x.general_object_appearance)), ("padding", text σ (calm x.padding)),
  ("requester_id", text σ (calm x.requester_id)), ("receiving_id", text σ (calm x.receiving_id)),
  ("padding2", text σ (calm x.padding2))] = [
    ("object_id", text σ x.object_id), ("referenced_object_id", text σ x.referenced_object_id),
  ("update_number", text σ x.update_number), ("force_id", text σ x.force_id),
  ("modifications", text σ x.modifications), ("object_type", text σ x.object_type),
  ("object_location", text σ x.object_location), ("object_orientation", text σ x.object_orientation),
  ("specific_object_appearance", text σ x.specific_object_appearance),
  ("general_object_appearance", text σ x.general_object_appearance), ("padding", text σ x.padding),
  ("requester_id", text σ x.requester_id), ("receiving_id", text σ x.receiving_id), ("padding2", text σ x.padding2)]
    simp only [Legible.same hσ]
  reads {σ} hσ {x y r r'} h := by
    have h : fieldsText σ [
    ("object_id", text σ x.object_id), ("referenced_object_id", text σ x.referenced_object_id),
  ("update_number", text σ x.update_number), ("force_id", text σ x.force_id),
  ("modifications", text σ x.modifications), ("object_type", text σ x.object_type),
  ("object_location", text σ x.object_location), ("object_orientation", text σ x.object_orientation),
  ("specific_object_appearance", text σ x.specific_object_appearance),
  ("general_object_appearance", text σ x.general_object_appearance), ("padding", text σ x.padding),
  ("requester_id", text σ x.requester_id), ("receiving_id", text σ x.receiving_id), ("padding2", text σ x.padding2)] ++ r =
      fieldsText σ [
    ("object_id", text σ y.object_id), ("referenced_object_id", text σ y.referenced_object_id),
  ("update_number", text σ y.update_number), ("force_id", text σ y.force_id),
  ("modifications", text σ y.modifications), ("object_type", text σ y.object_type),
  ("object_location", text σ y.object_location), ("object_orientation", text σ y.object_orientation),
  ("specific_object_appearance", text σ y.specific_object_appearance),
  ("general_object_appearance", text σ y.general_object_appearance), ("padding", text σ y.padding),
  ("requester_id", text σ y.requester_id), ("receiving_id", text σ y.receiving_id), ("padding2", text σ y.padding2)] ++ r' := h
    obtain ⟨h1, h⟩ := read_next hσ (x := x.object_id) (y := y.object_id) h
    obtain ⟨h2, h⟩ := read_next hσ (x := x.referenced_object_id) (y := y.referenced_object_id) h
    obtain ⟨h3, h⟩ := read_next hσ (x := x.update_number) (y := y.update_number) h
    obtain ⟨h4, h⟩ := read_next hσ (x := x.force_id) (y := y.force_id) h
    obtain ⟨h5, h⟩ := read_next hσ (x := x.modifications) (y := y.modifications) h
    obtain ⟨h6, h⟩ := read_next hσ (x := x.object_type) (y := y.object_type) h
    obtain ⟨h7, h⟩ := read_next hσ (x := x.object_location) (y := y.object_location) h
    obtain ⟨h8, h⟩ := read_next hσ (x := x.object_orientation) (y := y.object_orientation) h
    obtain ⟨h9, h⟩ := read_next hσ (x := x.specific_object_appearance) (y := y.specific_object_appearance) h
    obtain ⟨h10, h⟩ := read_next hσ (x := x.general_object_appearance) (y := y.general_object_appearance) h
    obtain ⟨h11, h⟩ := read_next hσ (x := x.padding) (y := y.padding) h
    obtain ⟨h12, h⟩ := read_next hσ (x := x.requester_id) (y := y.requester_id) h
    obtain ⟨h13, h⟩ := read_next hσ (x := x.receiving_id) (y := y.receiving_id) h
    obtain ⟨h14, h⟩ := read_next hσ (x := x.padding2) (y := y.padding2) h
    refine ⟨?_, read_end h⟩
    show PointObjectStatePdu.mk (calm x.object_id) (calm x.referenced_object_id) (calm x.update_number) (calm
      x.force_id) (calm x.modifications) (calm x.object_type) (calm x.object_location) (calm x.object_orientation)
      (calm x.specific_object_appearance) (calm x.general_object_appearance) (calm x.padding) (calm x.requester_id)
      (calm x.receiving_id) (calm x.padding2) = PointObjectStatePdu.mk (calm y.object_id) (calm
      y.referenced_object_id) (calm y.update_number) (calm y.force_id) (calm y.modifications) (calm y.object_type)
      (calm y.object_location) (calm y.object_orientation) (calm y.specific_object_appearance) (calm
      y.general_object_appearance) (calm y.padding) (calm y.requester_id) (calm y.receiving_id) (calm y.padding2)
    rw [h1, h2, h3, h4, h5, h6, h7, h8, h9, h10, h11, h12, h13, h14]
instance : LegibleBody LinearObjectStatePdu where
  named := by decide +kernel
  line hσ ha x :=
    field_line (by decide +kernel) (Legible.line hσ ha x.object_id) <|
    field_line (by decide +kernel) (Legible.line hσ ha x.referenced_object_id) <|
    field_line (by decide +kernel) (Legible.line hσ ha x.update_number) <|
    field_line (by decide +kernel) (Legible.line hσ ha x.force_id) <|
    field_line (by decide +kernel) (Legible.line hσ ha x.number_of_segments) <|
    field_line (by decide +kernel) (Legible.line hσ ha x.requester_id) <|
    field_line (by decide +kernel) (Legible.line hσ ha x.receiving_id) <|
    field_line (by decide +kernel) (Legible.line hσ ha x.object_type) <|
    field_line (by decide +kernel) (Legible.line hσ ha x.linear_segment_parameters) <|
    no_field_line
  same {σ} hσ x := by
    show [
    ("object_id", text σ (calm x.object_id)), ("referenced_object_id", text σ (calm x.referenced_object_id)),
  ("update_number", text σ (calm x.update_number)), ("force_id", text σ (calm x.force_id)),
  ("number_of_segments", text σ (calm x.number_of_segments)), ("requester_id", text σ (calm x.requester_id)),
  ("receiving_id", text σ (calm x.receiving_id)), ("object_type", text σ (calm x.object_type)),
  ("linear_segment_parameters", text σ (calm x.linear_segment_parameters))] = [
    ("object_id", text σ x.object_id), ("referenced_object_id", text σ x.referenced_object_id),
  ("update_number", text σ x.update_number), ("force_id", text σ x.force_id),
  ("number_of_segments", text σ x.number_of_segments), ("requester_id", text σ x.requester_id),
  ("receiving_id", text σ x.receiving_id), ("object_type", text σ x.object_type),
  ("linear_segment_parameters", text σ x.linear_segment_parameters)]
    simp only [Legible.same hσ]
  reads {σ} hσ {x y r r'} h := by
    have h : fieldsText σ [
    ("object_id", text σ x.object_id), ("referenced_object_id", text σ x.referenced_object_id),
  ("update_number", text σ x.update_number), ("force_id", text σ x.force_id),
  ("number_of_segments", text σ x.number_of_segments), ("requester_id", text σ x.requester_id),
  ("receiving_id", text σ x.receiving_id), ("object_type", text σ x.object_type),
  ("linear_segment_parameters", text σ x.linear_segment_parameters)] ++ r =
      fieldsText σ [
    ("object_id", text σ y.object_id), ("referenced_object_id", text σ y.referenced_object_id),
  ("update_number", text σ y.update_number), ("force_id", text σ y.force_id),
  ("number_of_segments", text σ y.number_of_segments), ("requester_id", text σ y.requester_id),
  ("receiving_id", text σ y.receiving_id), ("object_type", text σ y.object_type),
  ("linear_segment_parameters", text σ y.linear_segment_parameters)] ++ r' := h
    obtain ⟨h1, h⟩ := read_next hσ (x := x.object_id) (y := y.object_id) h
    obtain ⟨h2, h⟩ := read_next hσ (x := x.referenced_object_id) (y := y.referenced_object_id) h
    obtain ⟨h3, h⟩ := read_next hσ (x := x.update_number) (y := y.update_number) h
    obtain ⟨h4, h⟩ := read_next hσ (x := x.force_id) (y := y.force_id) h
    obtain ⟨h5, h⟩ := read_next hσ (x := x.number_of_segments) (y := y.number_of_segments) h
    obtain ⟨h6, h⟩ := read_next hσ (x := x.requester_id) (y := y.requester_id) h
    obtain ⟨h7, h⟩ := read_next hσ (x := x.receiving_id) (y := y.receiving_id) h
    obtain ⟨h8, h⟩ := read_next hσ (x := x.object_type) (y := y.object_type) h
    obtain ⟨h9, h⟩ := read_next hσ (x := x.linear_segment_parameters) (y := y.linear_segment_parameters) h
    refine ⟨?_, read_end h⟩
    show LinearObjectStatePdu.mk (calm x.object_id) (calm x.referenced_object_id) (calm x.update_number) (calm
      x.force_id) (calm x.number_of_segments) (calm x.requester_id) (calm x.receiving_id) (calm x.object_type) (calm
      x.linear_segment_parameters) = LinearObjectStatePdu.mk (calm y.object_id) (calm y.referenced_object_id) (calm
      y.update_number) (calm y.force_id) (calm y.number_of_segments) (calm y.requester_id) (calm y.receiving_id) (calm
      y.object_type) (calm y.linear_segment_parameters)
    rw [h1, h2, h3, h4, h5, h6, h7, h8, h9]
instance : LegibleBody ArealObjectStatePdu where
  named := by decide +kernel
  line hσ ha x :=
    field_line (by decide +kernel) (Legible.line hσ ha x.object_id) <|
    field_line (by decide +kernel) (Legible.line hσ ha x.referenced_object_id) <|
    field_line (by decide +kernel) (Legible.line hσ ha x.update_number) <|
    field_line (by decide +kernel) (Legible.line hσ ha x.force_id) <|
    field_line (by decide +kernel) (Legible.line hσ ha x.modifications) <|
    field_line (by decide +kernel) (Legible.line hσ ha x.object_type) <|
    field_line (by decide +kernel) (Legible.line hσ ha x.specific_object_appearance) <|
    field_line (by decide +kernel) (Legible.line hσ ha x.general_object_appearance) <|
    field_line (by decide +kernel) (Legible.line hσ ha x.number_of_points) <|
    field_line (by decide +kernel) (Legible.line hσ ha x.requester_id) <|
    field_line (by decide +kernel) (Legible.line hσ ha x.receiving_id) <|
    field_line (by decide +kernel) (Legible.line hσ ha x.object_location) <|
    no_field_line
  same {σ} hσ x := by
    show [
    ("object_id", text σ (calm x.object_id)), ("referenced_object_id", text σ (calm x.referenced_object_id)),
  ("update_number", text σ (calm x.update_number)), ("force_id", text σ (calm x.force_id)),
  ("modifications", text σ (calm x.modifications)), ("object_type", text σ (calm x.object_type)),
  ("specific_object_appearance", text σ (calm x.specific_object_appearance)),
  ("general_object_appearance", text σ (calm x.general_object_appearance)),
  ("number_of_points", text σ (calm x.number_of_points)), ("requester_id", text σ (calm x.requester_id)),
  ("receiving_id", text σ (calm x.receiving_id)), ("object_location", text σ (calm x.object_location))] = [
    ("object_id", text σ x.object_id), ("referenced_object_id", text σ x.referenced_object_id),
  ("update_number", text σ x.update_number), ("force_id", text σ x.force_id),
  ("modifications", text σ x.modifications), ("object_type", text σ x.object_type),
  ("specific_object_appearance", text σ x.specific_object_appearance),
  ("general_object_appearance", text σ x.general_object_appearance),
  ("number_of_points", text σ x.number_of_points), ("requester_id", text σ x.requester_id),
  ("receiving_id", text σ x.receiving_id), ("object_location", text σ x.object_location)]
    simp only [Legible.same hσ]
  reads {σ} hσ {x y r r'} h := by
    have h : fieldsText σ [
    ("object_id", text σ x.object_id), ("referenced_object_id", text σ x.referenced_object_id),
  ("update_number", text σ x.update_number), ("force_id", text σ x.force_id),
  ("modifications", text σ x.modifications), ("object_type", text σ x.object_type),
  ("specific_object_appearance", text σ x.specific_object_appearance),
  ("general_object_appearance", text σ x.general_object_appearance),
  ("number_of_points", text σ x.number_of_points), ("requester_id", text σ x.requester_id),
  ("receiving_id", text σ x.receiving_id), ("object_location", text σ x.object_location)] ++ r =
      fieldsText σ [
    ("object_id", text σ y.object_id), ("referenced_object_id", text σ y.referenced_object_id),
  ("update_number", text σ y.update_number), ("force_id", text σ y.force_id),
  ("modifications", text σ y.modifications), ("object_type", text σ y.object_type),
  ("specific_object_appearance", text σ y.specific_object_appearance),
  ("general_object_appearance", text σ y.general_object_appearance),
  ("number_of_points", text σ y.number_of_points), ("requester_id", text σ y.requester_id),
  ("receiving_id", text σ y.receiving_id), ("object_location", text σ y.object_location)] ++ r' := h
    obtain ⟨h1, h⟩ := read_next hσ (x := x.object_id) (y := y.object_id) h
    obtain ⟨h2, h⟩ := read_next hσ (x := x.referenced_object_id) (y := y.referenced_object_id) h
    obtain ⟨h3, h⟩ := read_next hσ (x := x.update_number) (y := y.update_number) h
    obtain ⟨h4, h⟩ := read_next hσ (x := x.force_id) (y := y.force_id) h
    obtain ⟨h5, h⟩ := read_next hσ (x := x.modifications) (y := y.modifications) h
    obtain ⟨h6, h⟩ := read_next hσ (x := x.object_type) (y := y.object_type) h
    obtain ⟨h7, h⟩ := read_next hσ (x := x.specific_object_appearance) (y := y.specific_object_appearance) h
    obtain ⟨h8, h⟩ := read_next hσ (x := x.general_object_appearance) (y := y.general_object_appearance) h
    obtain ⟨h9, h⟩ := read_next hσ (x := x.number_of_points) (y := y.number_of_points) h
    obtain ⟨h10, h⟩ := read_next hσ (x := x.requester_id) (y := y.requester_id) h
    obtain ⟨h11, h⟩ := read_next hσ (x := x.receiving_id) (y := y.receiving_id) h
    obtain ⟨h12, h⟩ := read_next hσ (x := x.object_location) (y := y.object_location) h
    refine ⟨?_, read_end h⟩
    show ArealObjectStatePdu.mk (calm x.object_id) (calm x.referenced_object_id) (calm x.update_number) (calm
      x.force_id) (calm x.modifications) (calm x.object_type) (calm x.specific_object_appearance) (calm
      x.general_object_appearance) (calm x.number_of_points) (calm x.requester_id) (calm x.receiving_id) (calm
      x.object_location) = ArealObjectStatePdu.mk (calm y.object_id) (calm y.referenced_object_id) (calm
      y.update_number) (calm y.force_id) (calm y.modifications) (calm y.object_type) (calm
      y.specific_object_appearance) (calm y.general_object_appearance) (calm y.number_of_points) (calm y.requester_id)
      (calm y.receiving_id) (calm y.object_location)
    rw [h1, h2, h3, h4, h5, h6, h7, h8, h9, h10, h11, h12]
instance : LegibleBody FirePdu where
  named := by decide +kernel
  line hσ ha x :=
    field_line (by decide +kernel) (Legible.line hσ ha x.firing_entity_id) <|
    field_line (by decide +kernel) (Legible.line hσ ha x.target_entity_id) <|
    field_line (by decide +kernel) (Legible.line hσ ha x.munition_expendable_id) <|
    field_line (by decide +kernel) (Legible.line hσ ha x.event_id) <|
    field_line (by decide +kernel) (Legible.line hσ ha x.fire_mission_index) <|
    field_line (by decide +kernel) (Legible.line hσ ha x.location_in_world_coordinates) <|
    field_line (by decide +kernel) (Legible.line hσ ha x.descriptor) <|
    field_line (by decide +kernel) (Legible.line hσ ha x.velocity) <|
    field_line (by decide +kernel) (Legible.line hσ ha x.range) <|
    no_field_line
  same {σ} hσ x := by
    show [
    ("firing_entity_id", text σ (calm x.firing_entity_id)), ("target_entity_id", text σ (calm x.target_entity_id)),
  ("munition_expendable_id", text σ (calm x.munition_expendable_id)), ("event_id", text σ (calm x.event_id)),
  ("fire_mission_index", text σ (calm x.fire_mission_index)),
  ("location_in_world_coordinates", text σ (calm x.location_in_world_coordinates)),
  ("descriptor", text σ (calm x.descriptor)), ("velocity", text σ (calm x.velocity)),
  ("range", text σ (calm x.range))] = [
    ("firing_entity_id", text σ x.firing_entity_id), ("target_entity_id", text σ x.target_entity_id),
  ("munition_expendable_id", text σ x.munition_expendable_id), ("event_id", text σ x.event_id),
  ("fire_mission_index", text σ x.fire_mission_index),
  ("location_in_world_coordinates", text σ x.location_in_world_coordinates), ("descriptor", text σ x.descriptor),
  ("velocity", text σ x.velocity), ("range", text σ x.range)]
    simp only [Legible.same hσ]
  reads {σ} hσ {x y r r'} h := by
    have h : fieldsText σ [
    ("firing_entity_id", text σ x.firing_entity_id), ("target_entity_id", text σ x.target_entity_id),
  ("munition_expendable_id", text σ x.munition_expendable_id), ("event_id", text σ x.event_id),
  ("fire_mission_index", text σ x.fire_mission_index),
  ("location_in_world_coordinates", text σ x.location_in_world_coordinates), ("descriptor", text σ x.descriptor),
  ("velocity", text σ x.velocity), ("range", text σ x.range)] ++ r =
      fieldsText σ [
    ("firing_entity_id", text σ y.firing_entity_id), ("target_entity_id", text σ y.target_entity_id),
  ("munition_expendable_id", text σ y.munition_expendable_id), ("event_id", text σ y.event_id),
  ("fire_mission_index", text σ y.fire_mission_index),
  ("location_in_world_coordinates", text σ y.location_in_world_coordinates), ("descriptor", text σ y.descriptor),
  ("velocity", text σ y.velocity), ("range", text σ y.range)] ++ r' := h
    obtain ⟨h1, h⟩ := read_next hσ (x := x.firing_entity_id) (y := y.firing_entity_id) h
    obtain ⟨h2, h⟩ := read_next hσ (x := x.target_entity_id) (y := y.target_entity_id) h
    obtain ⟨h3, h⟩ := read_next hσ (x := x.munition_expendable_id) (y := y.munition_expendable_id) h
    obtain ⟨h4, h⟩ := read_next hσ (x := x.event_id) (y := y.event_id) h
    obtain ⟨h5, h⟩ := read_next hσ (x := x.fire_mission_index) (y := y.fire_mission_index) h
    obtain ⟨h6, h⟩ := read_next hσ (x := x.location_in_world_coordinates) (y := y.location_in_world_coordinates) h
    obtain ⟨h7, h⟩ := read_next hσ (x := x.descriptor) (y := y.descriptor) h
    obtain ⟨h8, h⟩ := read_next hσ (x := x.velocity) (y := y.velocity) h
    obtain ⟨h9, h⟩ := read_next hσ (x := x.range) (y := y.range) h
    refine ⟨?_, read_end h⟩
    show FirePdu.mk (calm x.firing_entity_id) (calm x.target_entity_id) (calm x.munition_expendable_id) (calm
      x.event_id) (calm x.fire_mission_index) (calm x.location_in_world_coordinates) (calm x.descriptor) (calm
      x.velocity) (calm x.range) = FirePdu.mk (calm y.firing_entity_id) (calm y.target_entity_id) (calm
      y.munition_expendable_id) (calm y.event_id) (calm y.fire_mission_index) (calm y.location_in_world_coordinates)
      (calm y.descriptor) (calm y.velocity) (calm y.range)
    rw [h1, h2, h3, h4, h5, h6, h7, h8, h9]
instance : LegibleBody DetonationPdu where
  named := by decide +kernel
  line hσ ha x :=
    field_line (by decide +kernel) (Legible.line hσ ha x.firing_entity_id) <|
    field_line (by decide +kernel) (Legible.line hσ ha x.target_entity_id) <|
    field_line (by decide +kernel) (Legible.line hσ ha x.exploding_entity_id) <|
    field_line (by decide +kernel) (Legible.line hσ ha x.event_id) <|
    field_line (by decide +kernel) (Legible.line hσ ha x.velocity) <|
    field_line (by decide +kernel) (Legible.line hσ ha x.location_in_world_coordinates) <|
    field_line (by decide +kernel) (Legible.line hσ ha x.descriptor) <|
    field_line (by decide +kernel) (Legible.line hσ ha x.location_in_entitys_coordinates) <|
    field_line (by decide +kernel) (Legible.line hσ ha x.detonation_result) <|
    field_line (by decide +kernel) (Legible.line hσ ha x.number_of_variable_parameters) <|
    field_line (by decide +kernel) (Legible.line hσ ha x.padding) <|
    field_line (by decide +kernel) (Legible.line hσ ha x.variable_parameters) <|
    no_field_line
  same {σ} hσ x := by
    show [
    ("firing_entity_id", text σ (calm x.firing_entity_id)), ("target_entity_id", text σ (calm x.target_entity_id)),
  ("exploding_entity_id", text σ (calm x.exploding_entity_id)), ("event_id", text σ (calm x.event_id)),
  ("velocity", text σ (calm x.velocity)),
  ("location_in_world_coordinates", text σ (calm x.location_in_world_coordinates)),
  ("descriptor", text σ (calm x.descriptor)),
  ("location_in_entitys_coordinates", text σ (calm x.location_in_entitys_coordinates)),
  ("detonation_result", text σ (calm x.detonation_result)),
  ("number_of_variable_parameters", text σ (calm x.number_of_variable_parameters)),
  ("padding", text σ (calm x.padding)), ("variable_parameters", text σ (calm x.variable_parameters))] = [
    ("firing_entity_id", text σ x.firing_entity_id), ("target_entity_id", text σ x.target_entity_id),
  ("exploding_entity_id", text σ x.exploding_entity_id), ("event_id", text σ x.event_id),
  ("velocity", text σ x.velocity), ("location_in_world_coordinates", text σ x.location_in_world_coordinates),
  ("descriptor", text σ x.descriptor),
  ("location_in_entitys_coordinates", text σ x.location_in_entitys_coordinates),
  ("detonation_result", text σ x.detonation_result),
  ("number_of_variable_parameters", text σ x.number_of_variable_parameters), ("padding", text σ x.padding),
  ("variable_parameters", text σ x.variable_parameters)]
    simp only [Legible.same hσ]
  reads {σ} hσ {x y r r'} h := by
    have h : fieldsText σ [
    ("firing_entity_id", text σ x.firing_entity_id), ("target_entity_id", text σ x.target_entity_id),
  ("exploding_entity_id", text σ x.exploding_entity_id), ("event_id", text σ x.event_id),
  ("velocity", text σ x.velocity), ("location_in_world_coordinates", text σ x.location_in_world_coordinates),
  ("descriptor", text σ x.descriptor),
  ("location_in_entitys_coordinates", text σ x.location_in_entitys_coordinates),
  ("detonation_result", text σ x.detonation_result),
  ("number_of_variable_parameters", text σ x.number_of_variable_parameters), ("padding", text σ x.padding),
  ("variable_parameters", text σ x.variable_parameters)] ++ r =
      fieldsText σ [
    ("firing_entity_id", text σ y.firing_entity_id), ("target_entity_id", text σ y.target_entity_id),
  ("exploding_entity_id", text σ y.exploding_entity_id), ("event_id", text σ y.event_id),
  ("velocity", text σ y.velocity), ("location_in_world_coordinates", text σ y.location_in_world_coordinates),
  ("descriptor", text σ y.descriptor),
  ("location_in_entitys_coordinates", text σ y.location_in_entitys_coordinates),
  ("detonation_result", text σ y.detonation_result),
  ("number_of_variable_parameters", text σ y.number_of_variable_parameters), ("padding", text σ y.padding),
  ("variable_parameters", text σ y.variable_parameters)] ++ r' := h
    obtain ⟨h1, h⟩ := read_next hσ (x := x.firing_entity_id) (y := y.firing_entity_id) h
    obtain ⟨h2, h⟩ := read_next hσ (x := x.target_entity_id) (y := y.target_entity_id) h
    obtain ⟨h3, h⟩ := read_next hσ (x := x.exploding_entity_id) (y := y.exploding_entity_id) h
    obtain ⟨h4, h⟩ := read_next hσ (x := x.event_id) (y := y.event_id) h
    obtain ⟨h5, h⟩ := read_next hσ (x := x.velocity) (y := y.velocity) h
    obtain ⟨h6, h⟩ := read_next hσ (x := x.location_in_world_coordinates) (y := y.location_in_world_coordinates) h
    obtain ⟨h7, h⟩ := read_next hσ (x := x.descriptor) (y := y.descriptor) h
    obtain ⟨h8, h⟩ := read_next hσ (x := x.location_in_entitys_coordinates) (y := y.location_in_entitys_coordinates) h
    obtain ⟨h9, h⟩ := read_next hσ (x := x.detonation_result) (y := y.detonation_result) h
    obtain ⟨h10, h⟩ := read_next hσ (x := x.number_of_variable_parameters) (y := y.number_of_variable_parameters) h
    obtain ⟨h11, h⟩ := read_next hσ (x := x.padding) (y := y.padding) h
    obtain ⟨h12, h⟩ := read_next hσ (x := x.variable_parameters) (y := y.variable_parameters) h
    refine ⟨?_, read_end h⟩
    show DetonationPdu.mk (calm x.firing_entity_id) (calm x.target_entity_id) (calm x.exploding_entity_id) (calm
      x.event_id) (calm x.velocity) (calm x.location_in_world_coordinates) (calm x.descriptor) (calm
      x.location_in_entitys_coordinates) (calm x.detonation_result) (calm x.number_of_variable_parameters) (calm
      x.padding) (calm x.variable_parameters) = DetonationPdu.mk (calm y.firing_entity_id) (calm y.target_entity_id)
      (calm y.exploding_entity_id) (calm y.event_id) (calm y.velocity) (calm y.location_in_world_coordinates) (calm
      y.descriptor) (calm y.location_in_entitys_coordinates) (calm y.detonation_result) (calm
      y.number_of_variable_parameters) (calm y.padding) (calm y.variable_parameters)
    rw [h1, h2, h3, h4, h5, h6, h7, h8, h9, h10, h11, h12]
instance : LegibleBody DirectedEnergyFirePdu where
  named := by decide +kernel
  line hσ ha x :=
    field_line (by decide +kernel) (Legible.line hσ ha x.firing_entity_id) <|
    field_line (by decide +kernel) (Legible.line hσ ha x.event_id) <|
    field_line (by decide +kernel) (Legible.line hσ ha x.munition_type) <|
    field_line (by decide +kernel) (Legible.line hσ ha x.shot_start_time) <|
    field_line (by decide +kernel) (Legible.line hσ ha x.cumulative_shot_time) <|
    field_line (by decide +kernel) (Legible.line hσ ha x.aperture_emitter_location) <|
    field_line (by decide +kernel) (Legible.line hσ ha x.aperture_diameter) <|
    field_line (by decide +kernel) (Legible.line hσ ha x.wavelength) <|
    field_line (by decide +kernel) (Legible.line hσ ha x.padding) <|
    field_line (by decide +kernel) (Legible.line hσ ha x.pulse_repetition_frequency) <|
    field_line (by decide +kernel) (Legible.line hσ ha x.pulse_width) <|
    field_line (by decide +kernel) (Legible.line hσ ha x.flags) <|
    field_line (by decide +kernel) (Legible.line hσ ha x.pulse_shape) <|
    field_line (by decide +kernel) (Legible.line hσ ha x.padding2) <|
    field_line (by decide +kernel) (Legible.line hσ ha x.padding3) <|
    field_line (by decide +kernel) (Legible.line hσ ha x.padding4) <|
    field_line (by decide +kernel) (Legible.line hσ ha x.number_of_de_records) <|
    field_line (by decide +kernel) (Legible.line hσ ha x.damage_descriptions) <|
    no_field_line
  same {σ} hσ x := by
    show [
    ("firing_entity_id", text σ (calm x.firing_entity_id)), ("event_id", text σ (calm x.event_id)),
  ("munition_type", text σ (calm x.munition_type)), ("shot_start_time", text σ (calm x.shot_start_time)),
  ("cumulative_shot_time", text σ (calm x.cumulative_shot_time)),
  ("aperture_emitter_location", text σ (calm x.aperture_emitter_location)),
  ("aperture_diameter", text σ (calm x.aperture_diameter)), ("wavelength", text σ (calm x.wavelength)),
  ("padding", text σ (calm x.padding)), ("pulse_repetition_frequency", text σ (calm x.pulse_repetition_frequency)),
  ("pulse_width", text σ (calm x.pulse_width)), ("flags", text σ (calm x.flags)),
  ("pulse_shape", text σ (calm x.pulse_shape)), ("padding2", text σ (calm x.padding2)),
  ("padding3", text σ (calm x.padding3)), ("padding4", text σ (calm x.padding4)),
  ("number_of_de_records", text σ (calm x.number_of_de_records)),
  ("damage_descriptions", text σ (calm x.damage_descriptions))] = [
    ("firing_entity_id", text σ x.firing_entity_id), ("event_id", text σ x.event_id),
  ("munition_type", text σ x.munition_type), ("shot_start_time", text σ x.shot_start_time),
  ("cumulative_shot_time", text σ x.cumulative_shot_time),
  ("aperture_emitter_location", text σ x.aperture_emitter_location),
  ("aperture_diameter", text σ x.aperture_diameter), ("wavelength", text σ x.wavelength),
  ("padding", text σ x.padding), ("pulse_repetition_frequency", text σ x.pulse_repetition_frequency),
  ("pulse_width", text σ x.pulse_width), ("flags", text σ x.flags), ("pulse_shape", text σ x.pulse_shape),
  ("padding2", text σ x.padding2), ("padding3", text σ x.padding3), ("padding4", text σ x.padding4),
  ("number_of_de_records", text σ x.number_of_de_records), ("damage_descriptions", text σ x.damage_descriptions)]
    simp only [Legible.same hσ]
  reads {σ} hσ {x y r r'} h := by
    have h : fieldsText σ [
    ("firing_entity_id", text σ x.firing_entity_id), ("event_id", text σ x.event_id),
  ("munition_type", text σ x.munition_type), ("shot_start_time", text σ x.shot_start_time),
  ("cumulative_shot_time", text σ x.cumulative_shot_time),
  ("aperture_emitter_location", text σ x.aperture_emitter_location),
  ("aperture_diameter", text σ x.aperture_diameter), ("wavelength", text σ x.wavelength),
  ("padding", text σ x.padding), ("pulse_repetition_frequency", text σ x.pulse_repetition_frequency),
  ("pulse_width", text σ x.pulse_width), ("flags", text σ x.flags), ("pulse_shape", text σ x.pulse_shape),
  ("padding2", text σ x.padding2), ("padding3", text σ x.padding3), ("padding4", text σ x.padding4),
  ("number_of_de_records", text σ x.number_of_de_records), ("damage_descriptions", text σ x.damage_descriptions)] ++ r =
      fieldsText σ [
    ("firing_entity_id", text σ y.firing_entity_id), ("event_id", text σ y.event_id),
  ("munition_type", text σ y.munition_type), ("shot_start_time", text σ y.shot_start_time),
  ("cumulative_shot_time", text σ y.cumulative_shot_time),
  ("aperture_emitter_location", text σ y.aperture_emitter_location),
  ("aperture_diameter", text σ y.aperture_diameter), ("wavelength", text σ y.wavelength),
  ("padding", text σ y.padding), ("pulse_repetition_frequency", text σ y.pulse_repetition_frequency),
  ("pulse_width", text σ y.pulse_width), ("flags", text σ y.flags), ("pulse_shape", text σ y.pulse_shape),
  ("padding2", text σ y.padding2), ("padding3", text σ y.padding3), ("padding4", text σ y.padding4),
  ("number_of_de_records", text σ y.number_of_de_records), ("damage_descriptions", text σ y.damage_descriptions)] ++ r' := h
    obtain ⟨h1, h⟩ := read_next hσ (x := x.firing_entity_id) (y := y.firing_entity_id) h
    obtain ⟨h2, h⟩ := read_next hσ (x := x.event_id) (y := y.event_id) h
    obtain ⟨h3, h⟩ := read_next hσ (x := x.munition_type) (y := y.munition_type) h
    obtain ⟨h4, h⟩ := read_next hσ (x := x.shot_start_time) (y := y.shot_start_time) h
    obtain ⟨h5, h⟩ := read_next hσ (x := x.cumulative_shot_time) (y := y.cumulative_shot_time) h
    obtain ⟨h6, h⟩ := read_next hσ (x := x.aperture_emitter_location) (y := y.aperture_emitter_location) h
    obtain ⟨h7, h⟩ := read_next hσ (x := x.aperture_diameter) (y := y.aperture_diameter) h
    obtain ⟨h8, h⟩ := read_next hσ (x := x.wavelength) (y := y.wavelength) h
    obtain ⟨h9, h⟩ := read_next hσ (x := x.padding) (y := y.padding) h
    obtain ⟨h10, h⟩ := read_next hσ (x := x.pulse_repetition_frequency) (y := y.pulse_repetition_frequency) h
    obtain ⟨h11, h⟩ := read_next hσ (x := x.pulse_width) (y := y.pulse_width) h
    obtain ⟨h12, h⟩ := read_next hσ (x := x.flags) (y := y.flags) h
    obtain ⟨h13, h⟩ := read_next hσ (x := x.pulse_shape) (y := y.pulse_shape) h
    obtain ⟨h14, h⟩ := read_next hσ (x := x.padding2) (y := y.padding2) h
    obtain ⟨h15, h⟩ := read_next hσ (x := x.padding3) (y := y.padding3) h
    obtain ⟨h16, h⟩ := read_next hσ (x := x.padding4) (y := y.padding4) h
    obtain ⟨h17, h⟩ := read_next hσ (x := x.number_of_de_records) (y := y.number_of_de_records) h
    obtain ⟨h18, h⟩ := read_next hσ (x := x.damage_descriptions) (y := y.damage_descriptions) h
    refine ⟨?_, read_end h⟩
    show DirectedEnergyFirePdu.mk (calm x.firing_entity_id) (calm x.event_id) (calm x.munition_type) (calm
      x.shot_start_time) (calm x.cumulative_shot_time) (calm x.aperture_emitter_location) (calm x.aperture_diameter)
      (calm x.wavelength) (calm x.padding) (calm x.pulse_repetition_frequency) (calm x.pulse_width) (calm x.flags)
      (calm x.pulse_shape) (calm x.padding2) (calm x.padding3) (calm x.padding4) (calm x.number_of_de_records) (calm
      x.damage_descriptions) = DirectedEnergyFirePdu.mk (calm y.firing_entity_id) (calm y.event_id) (calm
      y.munition_type) (calm y.shot_start_time) (calm y.cumulative_shot_time) (calm y.aperture_emitter_location) (calm
      y.aperture_diameter) (calm y.wavelength) (calm y.padding) (calm y.pulse_repetition_frequency) (calm
      y.pulse_width) (calm y.flags) (calm y.pulse_shape) (calm y.padding2) (calm y.padding3) (calm y.padding4) (calm
      y.number_of_de_records) (calm y.damage_descriptions)
    rw [h1, h2, h3, h4, h5, h6, h7, h8, h9, h10, h11, h12, h13, h14, h15, h16, h17, h18]
instance : LegibleBody EntityDamageStatusPdu where
  named := by decide +kernel
  line hσ ha x :=
    field_line (by decide +kernel) (Legible.line hσ ha x.damaged_entity_id) <|
    field_line (by decide +kernel) (Legible.line hσ ha x.padding) <|
    field_line (by decide +kernel) (Legible.line hσ ha x.padding2) <|
    field_line (by decide +kernel) (Legible.line hσ ha x.number_of_damage_descriptions) <|
    field_line (by decide +kernel) (Legible.line hσ ha x.damage_descriptions) <|
    no_field_line
  same {σ} hσ x := by
    show [
    ("damaged_entity_id", text σ (calm x.damaged_entity_id)), ("padding", text σ (calm x.padding)),
  ("padding2", text σ (calm x.padding2)),
  ("number_of_damage_descriptions", text σ (calm x.number_of_damage_descriptions)),
  ("damage_descriptions", text σ (calm x.damage_descriptions))] = [
    ("damaged_entity_id", text σ x.damaged_entity_id), ("padding", text σ x.padding),
  ("padding2", text σ x.padding2), ("number_of_damage_descriptions", text σ x.number_of_damage_descriptions),
  ("damage_descriptions", text σ x.damage_descriptions)]
    simp only [Legible.same hσ]
  reads {σ} hσ {x y r r'} h := by
    have h : fieldsText σ [
    ("damaged_entity_id", text σ x.damaged_entity_id), ("padding", text σ x.padding),
  ("padding2", text σ x.padding2), ("number_of_damage_descriptions", text σ x.number_of_damage_descriptions),
  ("damage_descriptions", text σ x.damage_descriptions)] ++ r =
      fieldsText σ [
    ("damaged_entity_id", text σ y.damaged_entity_id), ("padding", text σ y.padding),
  ("padding2", text σ y.padding2), ("number_of_damage_descriptions", text σ y.number_of_damage_descriptions),
  ("damage_descriptions", text σ y.damage_descriptions)] ++ r' := h
    obtain ⟨h1, h⟩ := read_next hσ (x := x.damaged_entity_id) (y := y.damaged_entity_id) h
    obtain ⟨h2, h⟩ := read_next hσ (x := x.padding) (y := y.padding) h
    obtain ⟨h3, h⟩ := read_next hσ (x := x.padding2) (y := y.padding2) h
    obtain ⟨h4, h⟩ := read_next hσ (x := x.number_of_damage_descriptions) (y := y.number_of_damage_descriptions) h
    obtain ⟨h5, h⟩ := read_next hσ (x := x.damage_descriptions) (y := y.damage_descriptions) h
    refine ⟨?_, read_end h⟩
    show EntityDamageStatusPdu.mk (calm x.damaged_entity_id) (calm x.padding) (calm x.padding2) (calm
      x.number_of_damage_descriptions) (calm x.damage_descriptions) = EntityDamageStatusPdu.mk (calm
      y.damaged_entity_id) (calm y.padding) (calm y.padding2) (calm y.number_of_damage_descriptions) (calm
      y.damage_descriptions)
    rw [h1, h2, h3, h4, h5]

end Dis
