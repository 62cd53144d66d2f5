import Verif.Proofs.LegibleBody
/- Generated by tools/gen_printing.py: the texts of the PDUs can be read back. -/
set_option maxRecDepth 4000
namespace Dis

instance : LegibleBody ElectromagneticEmissionsPdu where
  named := by decide +kernel
  line hσ ha x :=
    field_line (by decide +kernel) (Legible.line hσ ha x.emitting_entity_id) <|
    field_line (by decide +kernel) (Legible.line hσ ha x.event_id) <|
    field_line (by decide +kernel) (Legible.line hσ ha x.state_update_indicator) <|
    field_line (by decide +kernel) (Legible.line hσ ha x.number_of_systems) <|
    field_line (by decide +kernel) (Legible.line hσ ha x.padding) <|
    field_line (by decide +kernel) (Legible.line hσ ha x.systems) <|
    no_field_line
  same {σ} hσ x := by
    show [
    ("emitting_entity_id", text σ (calm x.emitting_entity_id)), ("event_id", text σ (calm x.event_id)),
  ("state_update_indicator", text σ (calm x.state_update_indicator)),
  ("number_of_systems", text σ (calm x.number_of_systems)), ("padding", text σ (calm x.padding)),
  ("systems", text σ (calm x.systems))] = [
    ("emitting_entity_id", text σ x.emitting_entity_id), ("event_id", text σ x.event_id),
  ("state_update_indicator", text σ x.state_update_indicator), ("number_of_systems", text σ x.number_of_systems),
  ("padding", text σ x.padding), ("systems", text σ x.systems)]
    simp only [Legible.same hσ]
  reads {σ} hσ {x y r r'} h := by
    have h : fieldsText σ [
    ("emitting_entity_id", text σ x.emitting_entity_id), ("event_id", text σ x.event_id),
  ("state_update_indicator", text σ x.state_update_indicator), ("number_of_systems", text σ x.number_of_systems),
  ("padding", text σ x.padding), ("systems", text σ x.systems)] ++ r =
      fieldsText σ [
    ("emitting_entity_id", text σ y.emitting_entity_id), ("event_id", text σ y.event_id),
  ("state_update_indicator", text σ y.state_update_indicator), ("number_of_systems", text σ y.number_of_systems),
  ("padding", text σ y.padding), ("systems", text σ y.systems)] ++ r' := h
    obtain ⟨h1, h⟩ := read_next hσ (x := x.emitting_entity_id) (y := y.emitting_entity_id) h
    obtain ⟨h2, h⟩ := read_next hσ (x := x.event_id) (y := y.event_id) h
    obtain ⟨h3, h⟩ := read_next hσ (x := x.state_update_indicator) (y := y.state_update_indicator) h
    obtain ⟨h4, h⟩ := read_next hσ (x := x.number_of_systems) (y := y.number_of_systems) h
    obtain ⟨h5, h⟩ := read_next hσ (x := x.padding) (y := y.padding) h
    obtain ⟨h6, h⟩ := read_next hσ (x := x.systems) (y := y.systems) h
    refine ⟨?_, read_end h⟩
    show ElectromagneticEmissionsPdu.mk (calm x.emitting_entity_id) (calm x.event_id) (calm x.state_update_indicator)
      (calm x.number_of_systems) (calm x.padding) (calm x.systems) = ElectromagneticEmissionsPdu.mk (calm
      y.emitting_entity_id) (calm y.event_id) (calm y.state_update_indicator) (calm y.number_of_systems) (calm
      y.padding) (calm y.systems)
    rw [h1, h2, h3, h4, h5, h6]
instance : LegibleBody DesignatorPdu where
  named := by decide +kernel
  line hσ ha x :=
    field_line (by decide +kernel) (Legible.line hσ ha x.designating_entity_id) <|
    field_line (by decide +kernel) (Legible.line hσ ha x.code_name) <|
    field_line (by decide +kernel) (Legible.line hσ ha x.designated_entity_id) <|
    field_line (by decide +kernel) (Legible.line hσ ha x.designator_code) <|
    field_line (by decide +kernel) (Legible.line hσ ha x.designator_power) <|
    field_line (by decide +kernel) (Legible.line hσ ha x.designator_wavelength) <|
    field_line (by decide +kernel) (Legible.line hσ ha x.designator_spot_wrt_designated) <|
    field_line (by decide +kernel) (Legible.line hσ ha x.designator_spot_location) <|
    field_line (by decide +kernel) (Legible.line hσ ha x.dead_reckoning_algorithm) <|
    field_line (by decide +kernel) (Legible.line hσ ha x.padding) <|
    field_line (by decide +kernel) (Legible.line hσ ha x.padding2) <|
    field_line (by decide +kernel) (Legible.line hσ ha x.entity_linear_acceleration) <|
    no_field_line
  same {σ} hσ x := by
    show [
    ("designating_entity_id", text σ (calm x.designating_entity_id)), ("code_name", text σ (calm x.code_name)),
  ("designated_entity_id", text σ (calm x.designated_entity_id)),
  ("designator_code", text σ (calm x.designator_code)), ("designator_power", text σ (calm x.designator_power)),
  ("designator_wavelength", text σ (calm x.designator_wavelength)),
  ("designator_spot_wrt_designated", text σ (calm x.designator_spot_wrt_designated)),
  ("designator_spot_location", text σ (calm x.designator_spot_location)),
  ("dead_reckoning_algorithm", text σ (calm x.dead_reckoning_algorithm)), ("padding", text σ (calm x.padding)),
  ("padding2", text σ (calm x.padding2)),
  ("entity_linear_acceleration", text σ (calm x.entity_linear_acceleration))] = [
    ("designating_entity_id", text σ x.designating_entity_id), ("code_name", text σ x.code_name),
  ("designated_entity_id", text σ x.designated_entity_id), ("designator_code", text σ x.designator_code),
  ("designator_power", text σ x.designator_power), ("designator_wavelength", text σ x.designator_wavelength),
  ("designator_spot_wrt_designated", text σ x.designator_spot_wrt_designated),
  ("designator_spot_location", text σ x.designator_spot_location),
  ("dead_reckoning_algorithm", text σ x.dead_reckoning_algorithm), ("padding", text σ x.padding),
  ("padding2", text σ x.padding2), ("entity_linear_acceleration", text σ x.entity_linear_acceleration)]
    simp only [Legible.same hσ]
  reads {σ} hσ {x y r r'} h := by
    have h : fieldsText σ [
    ("designating_entity_id", text σ x.designating_entity_id), ("code_name", text σ x.code_name),
  ("designated_entity_id", text σ x.designated_entity_id), ("designator_code", text σ x.designator_code),
  ("designator_power", text σ x.designator_power), ("designator_wavelength", text σ x.designator_wavelength),
  ("designator_spot_wrt_designated", text σ x.designator_spot_wrt_designated),
  ("designator_spot_location", text σ x.designator_spot_location),
  ("dead_reckoning_algorithm", text σ x.dead_reckoning_algorithm), ("padding", text σ x.padding),
  ("padding2", text σ x.padding2), ("entity_linear_acceleration", text σ x.entity_linear_acceleration)] ++ r =
      fieldsText σ [
    ("designating_entity_id", text σ y.designating_entity_id), ("code_name", text σ y.code_name),
  ("designated_entity_id", text σ y.designated_entity_id), ("designator_code", text σ y.designator_code),
  ("designator_power", text σ y.designator_power), ("designator_wavelength", text σ y.designator_wavelength),
  ("designator_spot_wrt_designated", text σ y.designator_spot_wrt_designated),
  ("designator_spot_location", text σ y.designator_spot_location),
  ("dead_reckoning_algorithm", text σ y.dead_reckoning_algorithm), ("padding", text σ y.padding),
  ("padding2", text σ y.padding2), ("entity_linear_acceleration", text σ y.entity_linear_acceleration)] ++ r' := h
    obtain ⟨h1, h⟩ := read_next hσ (x := x.designating_entity_id) (y := y.designating_entity_id) h
    obtain ⟨h2, h⟩ := read_next hσ (x := x.code_name) (y := y.code_name) h
    obtain ⟨h3, h⟩ := read_next hσ (x := x.designated_entity_id) (y := y.designated_entity_id) h
    obtain ⟨h4, h⟩ := read_next hσ (x := x.designator_code) (y := y.designator_code) h
    obtain ⟨h5, h⟩ := read_next hσ (x := x.designator_power) (y := y.designator_power) h
    obtain ⟨h6, h⟩ := read_next hσ (x := x.designator_wavelength) (y := y.designator_wavelength) h
    obtain ⟨h7, h⟩ := read_next hσ (x := x.designator_spot_wrt_designated) (y := y.designator_spot_wrt_designated) h
    obtain ⟨h8, h⟩ := read_next hσ (x := x.designator_spot_location) (y := y.designator_spot_location) h
    obtain ⟨h9, h⟩ := read_next hσ (x := x.dead_reckoning_algorithm) (y := y.dead_reckoning_algorithm) h
    obtain ⟨h10, h⟩ := read_next hσ (x := x.padding) (y := y.padding) h
    obtain ⟨h11, h⟩ := read_next hσ (x := x.padding2) (y := y.padding2) h
    obtain ⟨h12, h⟩ := read_next hσ (x := x.entity_linear_acceleration) (y := y.entity_linear_acceleration) h
    refine ⟨?_, read_end h⟩
    show DesignatorPdu.mk (calm x.designating_entity_id) (calm x.code_name) (calm x.designated_entity_id) (calm
      x.designator_code) (calm x.designator_power) (calm x.designator_wavelength) (calm
      x.designator_spot_wrt_designated) (calm x.designator_spot_location) (calm x.dead_reckoning_algorithm) (calm
      x.padding) (calm x.padding2) (calm x.entity_linear_acceleration) = DesignatorPdu.mk (calm
      y.designating_entity_id) (calm y.code_name) (calm y.designated_entity_id) (calm y.designator_code) (calm
      y.designator_power) (calm y.designator_wavelength) (calm y.designator_spot_wrt_designated) (calm
      y.designator_spot_location) (calm y.dead_reckoning_algorithm) (calm y.padding) (calm y.padding2) (calm
      y.entity_linear_acceleration)
    rw [h1, h2, h3, h4, h5, h6, h7, h8, h9, h10, h11, h12]
instance : LegibleBody UnderwaterAcousticPdu where
  named := by decide +kernel
  line hσ ha x :=
    field_line (by decide +kernel) (Legible.line hσ ha x.emitting_entity_id) <|
    field_line (by decide +kernel) (Legible.line hσ ha x.event_id) <|
    field_line (by decide +kernel) (Legible.line hσ ha x.state_change_update_indicator) <|
    field_line (by decide +kernel) (Legible.line hσ ha x.padding) <|
    field_line (by decide +kernel) (Legible.line hσ ha x.passive_parameter_index) <|
    field_line (by decide +kernel) (Legible.line hσ ha x.propulsion_plant_configuration) <|
    field_line (by decide +kernel) (Legible.line hσ ha x.number_of_shafts) <|
    field_line (by decide +kernel) (Legible.line hσ ha x.number_of_apas) <|
    field_line (by decide +kernel) (Legible.line hσ ha x.number_of_ua_emitter_systems) <|
    field_line (by decide +kernel) (Legible.line hσ ha x.shaft_rpms) <|
    field_line (by decide +kernel) (Legible.line hσ ha x.apa_data) <|
    field_line (by decide +kernel) (Legible.line hσ ha x.emitter_systems) <|
    no_field_line
  same {σ} hσ x := by
    show [
    ("emitting_entity_id", text σ (calm x.emitting_entity_id)), ("event_id", text σ (calm x.event_id)),
  ("state_change_update_indicator", text σ (calm x.state_change_update_indicator)),
  ("padding", text σ (calm x.padding)), ("passive_parameter_index", text σ (calm x.passive_parameter_index)),
  ("propulsion_plant_configuration", text σ (calm x.propulsion_plant_configuration)),
  ("number_of_shafts", text σ (calm x.number_of_shafts)), ("number_of_apas", text σ (calm x.number_of_apas)),
  ("number_of_ua_emitter_systems", text σ (calm x.number_of_ua_emitter_systems)),
  ("shaft_rpms", text σ (calm x.shaft_rpms)), ("apa_data", text σ (calm x.apa_data)),
  ("emitter_systems", text σ (calm x.emitter_systems))] = [
    ("emitting_entity_id", text σ x.emitting_entity_id), ("event_id", text σ x.event_id),
  ("state_change_update_indicator", text σ x.state_change_update_indicator), ("padding", text σ x.padding),
  ("passive_parameter_index", text σ x.passive_parameter_index),
  ("propulsion_plant_configuration", text σ x.propulsion_plant_configuration),
  ("number_of_shafts", text σ x.number_of_shafts), ("number_of_apas", text σ x.number_of_apas),
  ("number_of_ua_emitter_systems", text σ x.number_of_ua_emitter_systems), ("shaft_rpms", text σ x.shaft_rpms),
  ("apa_data", text σ x.apa_data), ("emitter_systems", text σ x.emitter_systems)]
    simp only [Legible.same hσ]
  reads {σ} hσ {x y r r'} h := by
    have h : fieldsText σ [
    ("emitting_entity_id", text σ x.emitting_entity_id), ("event_id", text σ x.event_id),
  ("state_change_update_indicator", text σ x.state_change_update_indicator), ("padding", text σ x.padding),
  ("passive_parameter_index", text σ x.passive_parameter_index),
  ("propulsion_plant_configuration", text σ x.propulsion_plant_configuration),
  ("number_of_shafts", text σ x.number_of_shafts), ("number_of_apas", text σ x.number_of_apas),
  ("number_of_ua_emitter_systems", text σ x.number_of_ua_emitter_systems), ("shaft_rpms", text σ x.shaft_rpms),
  ("apa_data", text σ x.apa_data), ("emitter_systems", text σ x.emitter_systems)] ++ r =
      fieldsText σ [
    ("emitting_entity_id", text σ y.emitting_entity_id), ("event_id", text σ y.event_id),
  ("state_change_update_indicator", text σ y.state_change_update_indicator), ("padding", text σ y.padding),
  ("passive_parameter_index", text σ y.passive_parameter_index),
  ("propulsion_plant_configuration", text σ y.propulsion_plant_configuration),
  ("number_of_shafts", text σ y.number_of_shafts), ("number_of_apas", text σ y.number_of_apas),
  ("number_of_ua_emitter_systems", text σ y.number_of_ua_emitter_systems), ("shaft_rpms", text σ y.shaft_rpms),
  ("apa_data", text σ y.apa_data), ("emitter_systems", text σ y.emitter_systems)] ++ r' := h
    obtain ⟨h1, h⟩ := read_next hσ (x := x.emitting_entity_id) (y := y.emitting_entity_id) h
    obtain ⟨h2, h⟩ := read_next hσ (x := x.event_id) (y := y.event_id) h
    obtain ⟨h3, h⟩ := read_next hσ (x := x.state_change_update_indicator) (y := y.state_change_update_indicator) h
    obtain ⟨h4, h⟩ := read_next hσ (x := x.padding) (y := y.padding) h
    obtain ⟨h5, h⟩ := read_next hσ (x := x.passive_parameter_index) (y := y.passive_parameter_index) h
    obtain ⟨h6, h⟩ := read_next hσ (x := x.propulsion_plant_configuration) (y := y.propulsion_plant_configuration) h
    obtain ⟨h7, h⟩ := read_next hσ (x := x.number_of_shafts) (y := y.number_of_shafts) h
    obtain ⟨h8, h⟩ := read_next hσ (x := x.number_of_apas) (y := y.number_of_apas) h
    obtain ⟨h9, h⟩ := read_next hσ (x := x.number_of_ua_emitter_systems) (y := y.number_of_ua_emitter_systems) h
    obtain ⟨h10, h⟩ := read_next hσ (x := x.shaft_rpms) (y := y.shaft_rpms) h
    obtain ⟨h11, h⟩ := read_next hσ (x := x.apa_data) (y := y.apa_data) h
    obtain ⟨h12, h⟩ := read_next hσ (x := x.emitter_systems) (y := y.emitter_systems) h
    refine ⟨?_, read_end h⟩
    show UnderwaterAcousticPdu.mk (calm x.emitting_entity_id) (calm x.event_id) (calm x.state_change_update_indicator)
      (calm x.padding) (calm x.passive_parameter_index) (calm x.propulsion_plant_configuration) (calm
      x.number_of_shafts) (calm x.number_of_apas) (calm x.number_of_ua_emitter_systems) (calm x.shaft_rpms) (calm
      x.apa_data) (calm x.emitter_systems) = UnderwaterAcousticPdu.mk (calm y.emitting_entity_id) (calm y.event_id)
      (calm y.state_change_update_indicator) (calm y.padding) (calm y.passive_parameter_index) (calm
      y.propulsion_plant_configuration) (calm y.number_of_shafts) (calm y.number_of_apas) (calm
      y.number_of_ua_emitter_systems) (calm y.shaft_rpms) (calm y.apa_data) (calm y.emitter_systems)
    rw [h1, h2, h3, h4, h5, h6, h7, h8, h9, h10, h11, h12]
instance : LegibleBody IFFPdu where
  named := by decide +kernel
  line hσ ha x :=
    field_line (by decide +kernel) (Legible.line hσ ha x.emitting_entity_id) <|
    field_line (by decide +kernel) (Legible.line hσ ha x.event_id) <|
    field_line (by decide +kernel) (Legible.line hσ ha x.relative_antenna_location) <|
    field_line (by decide +kernel) (Legible.line hσ ha x.system_id) <|
    field_line (by decide +kernel) (Legible.line hσ ha x.system_designator) <|
    field_line (by decide +kernel) (Legible.line hσ ha x.system_specific_data) <|
    field_line (by decide +kernel) (Legible.line hσ ha x.fundamental_operational_data) <|
    field_line (by decide +kernel) (Legible.line hσ ha x.layer_header) <|
    field_line (by decide +kernel) (Legible.line hσ ha x.beam_data) <|
    field_line (by decide +kernel) (Legible.line hσ ha x.secondary_operational_data) <|
    field_line (by decide +kernel) (Legible.line hσ ha x.iff_parameters) <|
    no_field_line
  same {σ} hσ x := by
    show [
    ("emitting_entity_id", text σ (calm x.emitting_entity_id)), ("event_id", text σ (calm x.event_id)),
  ("relative_antenna_location", text σ (calm x.relative_antenna_location)),
  ("system_id", text σ (calm x.system_id)), ("system_designator", text σ (calm x.system_designator)),
  ("system_specific_data", text σ (calm x.system_specific_data)),
  ("fundamental_operational_data", text σ (calm x.fundamental_operational_data)),
  ("layer_header", text σ (calm x.layer_header)), ("beam_data", text σ (calm x.beam_data)),
  ("secondary_operational_data", text σ (calm x.secondary_operational_data)),
  ("iff_parameters", text σ (calm x.iff_parameters))] = [
    ("emitting_entity_id", text σ x.emitting_entity_id), ("event_id", text σ x.event_id),
  ("relative_antenna_location", text σ x.relative_antenna_location), ("system_id", text σ x.system_id),
  ("system_designator", text σ x.system_designator), ("system_specific_data", text σ x.system_specific_data),
  ("fundamental_operational_data", text σ x.fundamental_operational_data), ("layer_header", text σ x.layer_header),
  ("beam_data", text σ x.beam_data), ("secondary_operational_data", text σ x.secondary_operational_data),
  ("iff_parameters", text σ x.iff_parameters)]
    simp only [Legible.same hσ]
  reads {σ} hσ {x y r r'} h := by
    have h : fieldsText σ [
    ("emitting_entity_id", text σ x.emitting_entity_id), ("event_id", text σ x.event_id),
  ("relative_antenna_location", text σ x.relative_antenna_location), ("system_id", text σ x.system_id),
  ("system_designator", text σ x.system_designator), ("system_specific_data", text σ x.system_specific_data),
  ("fundamental_operational_data", text σ x.fundamental_operational_data), ("layer_header", text σ x.layer_header),
  ("beam_data", text σ x.beam_data), ("secondary_operational_data", text σ x.secondary_operational_data),
  ("iff_parameters", text σ x.iff_parameters)] ++ r =
      fieldsText σ [
    ("emitting_entity_id", text σ y.emitting_entity_id), ("event_id", text σ y.event_id),
  ("relative_antenna_location", text σ y.relative_antenna_location), ("system_id", text σ y.system_id),
  ("system_designator", text σ y.system_designator), ("system_specific_data", text σ y.system_specific_data),
  ("fundamental_operational_data", text σ y.fundamental_operational_data), ("layer_header", text σ y.layer_header),
  ("beam_data", text σ y.beam_data), ("secondary_operational_data", text σ y.secondary_operational_data),
  ("iff_parameters", text σ y.iff_parameters)] ++ r' := h
    obtain ⟨h1, h⟩ := read_next hσ (x := x.emitting_entity_id) (y := y.emitting_entity_id) h
    obtain ⟨h2, h⟩ := read_next hσ (x := x.event_id) (y := y.event_id) h
    obtain ⟨h3, h⟩ := read_next hσ (x := x.relative_antenna_location) (y := y.relative_antenna_location) h
    obtain ⟨h4, h⟩ := read_next hσ (x := x.system_id) (y := y.system_id) h
    obtain ⟨h5, h⟩ := read_next hσ (x := x.system_designator) (y := y.system_designator) h
    obtain ⟨h6, h⟩ := read_next hσ (x := x.system_specific_data) (y := y.system_specific_data) h
    obtain ⟨h7, h⟩ := read_next hσ (x := x.fundamental_operational_data) (y := y.fundamental_operational_data) h
    obtain ⟨h8, h⟩ := read_next hσ (x := x.layer_header) (y := y.layer_header) h
    obtain ⟨h9, h⟩ := read_next hσ (x := x.beam_data) (y := y.beam_data) h
    obtain ⟨h10, h⟩ := read_next hσ (x := x.secondary_operational_data) (y := y.secondary_operational_data) h
    obtain ⟨h11, h⟩ := read_next hσ (x := x.iff_parameters) (y := y.iff_parameters) h
    refine ⟨?_, read_end h⟩
    show IFFPdu.mk (calm x.emitting_entity_id) (calm x.event_id) (calm x.relative_antenna_location) (calm x.system_id)
      (calm x.system_designator) (calm x.system_specific_data) (calm x.fundamental_operational_data) (calm
      x.layer_header) (calm x.beam_data) (calm x.secondary_operational_data) (calm x.iff_parameters) = IFFPdu.mk (calm
      y.emitting_entity_id) (calm y.event_id) (calm y.relative_antenna_location) (calm y.system_id) (calm
      y.system_designator) (calm y.system_specific_data) (calm y.fundamental_operational_data) (calm y.layer_header)
      (calm y.beam_data) (calm y.secondary_operational_data) (calm y.iff_parameters)
    rw [h1, h2, h3, h4, h5, h6, h7, h8, h9, h10, h11]
instance : LegibleBody SupplementalEmissionPdu where
  named := by decide +kernel
  line hσ ha x :=
    field_line (by decide +kernel) (Legible.line hσ ha x.originating_entity_id) <|
    field_line (by decide +kernel) (Legible.line hσ ha x.infrared_signature_representation_index) <|
    field_line (by decide +kernel) (Legible.line hσ ha x.acoustic_signature_representation_index) <|
    field_line (by decide +kernel) (Legible.line hσ ha x.radar_cross_section_signature_representation_index) <|
    field_line (by decide +kernel) (Legible.line hσ ha x.number_of_propulsion_systems) <|
    field_line (by decide +kernel) (Legible.line hσ ha x.number_of_vectoring_nozzle_systems) <|
    field_line (by decide +kernel) (Legible.line hσ ha x.propulsion_system_data) <|
    field_line (by decide +kernel) (Legible.line hσ ha x.vectoring_nozzle_system_data) <|
    no_field_line
  same {σ} hσ x := by
    show [
    ("originating_entity_id", text σ (calm x.originating_entity_id)),
  ("infrared_signature_representation_index", text σ (calm x.infrared_signature_representation_index)),
  ("acoustic_signature_representation_index", text σ (calm x.acoustic_signature_representation_index)),
  ("radar_cross_section_signature_representation_index", text σ (calm x.radar_cross_section_signature_representation_index)),
  ("number_of_propulsion_systems", text σ (calm x.number_of_propulsion_systems)),
  ("number_of_vectoring_nozzle_systems", text σ (calm x.number_of_vectoring_nozzle_systems)),
  ("propulsion_system_data", text σ (calm x.propulsion_system_data)),
  ("vectoring_nozzle_system_data", text σ (calm x.vectoring_nozzle_system_data))] = [
    ("originating_entity_id", text σ x.originating_entity_id),
  ("infrared_signature_representation_index", text σ x.infrared_signature_representation_index),
  ("acoustic_signature_representation_index", text σ x.acoustic_signature_representation_index),
  ("radar_cross_section_signature_representation_index", text σ x.radar_cross_section_signature_representation_index),
  ("number_of_propulsion_systems", text σ x.number_of_propulsion_systems),
  ("number_of_vectoring_nozzle_systems", text σ x.number_of_vectoring_nozzle_systems),
  ("propulsion_system_data", text σ x.propulsion_system_data),
  ("vectoring_nozzle_system_data", text σ x.vectoring_nozzle_system_data)]
    simp only [Legible.same hσ]
  reads {σ} hσ {x y r r'} h := by
    have h : fieldsText σ [
    ("originating_entity_id", text σ x.originating_entity_id),
  ("infrared_signature_representation_index", text σ x.infrared_signature_representation_index),
  ("acoustic_signature_representation_index", text σ x.acoustic_signature_representation_index),
  ("radar_cross_section_signature_representation_index", text σ x.radar_cross_section_signature_representation_index),
  ("number_of_propulsion_systems", text σ x.number_of_propulsion_systems),
  ("number_of_vectoring_nozzle_systems", text σ x.number_of_vectoring_nozzle_systems),
  ("propulsion_system_data", text σ x.propulsion_system_data),
  ("vectoring_nozzle_system_data", text σ x.vectoring_nozzle_system_data)] ++ r =
      fieldsText σ [
    ("originating_entity_id", text σ y.originating_entity_id),
  ("infrared_signature_representation_index", text σ y.infrared_signature_representation_index),
  ("acoustic_signature_representation_index", text σ y.acoustic_signature_representation_index),
  ("radar_cross_section_signature_representation_index", text σ y.radar_cross_section_signature_representation_index),
  ("number_of_propulsion_systems", text σ y.number_of_propulsion_systems),
  ("number_of_vectoring_nozzle_systems", text σ y.number_of_vectoring_nozzle_systems),
  ("propulsion_system_data", text σ y.propulsion_system_data),
  ("vectoring_nozzle_system_data", text σ y.vectoring_nozzle_system_data)] ++ r' := h
    obtain ⟨h1, h⟩ := read_next hσ (x := x.originating_entity_id) (y := y.originating_entity_id) h
    obtain ⟨h2, h⟩ := read_next hσ (x := x.infrared_signature_representation_index) (y := y.infrared_signature_representation_index) h
    obtain ⟨h3, h⟩ := read_next hσ (x := x.acoustic_signature_representation_index) (y := y.acoustic_signature_representation_index) h
    obtain ⟨h4, h⟩ := read_next hσ (x := x.radar_cross_section_signature_representation_index) (y := y.radar_cross_section_signature_representation_index) h
    obtain ⟨h5, h⟩ := read_next hσ (x := x.number_of_propulsion_systems) (y := y.number_of_propulsion_systems) h
    obtain ⟨h6, h⟩ := read_next hσ (x := x.number_of_vectoring_nozzle_systems) (y := y.number_of_vectoring_nozzle_systems) h
    obtain ⟨h7, h⟩ := read_next hσ (x := x.propulsion_system_data) (y := y.propulsion_system_data) h
    obtain ⟨h8, h⟩ := read_next hσ (x := x.vectoring_nozzle_system_data) (y := y.vectoring_nozzle_system_data) h
    refine ⟨?_, read_end h⟩
    show SupplementalEmissionPdu.mk (calm x.originating_entity_id) (calm x.infrared_signature_representation_index)
      (calm x.acoustic_signature_representation_index) (calm x.radar_cross_section_signature_representation_index)
      (calm x.number_of_propulsion_systems) (calm x.number_of_vectoring_nozzle_systems) (calm
      x.propulsion_system_data) (calm x.vectoring_nozzle_system_data) = SupplementalEmissionPdu.mk (calm
      y.originating_entity_id) (calm y.infrared_signature_representation_index) (calm
      y.acoustic_signature_representation_index) (calm y.radar_cross_section_signature_representation_index) (calm
      y.number_of_propulsion_systems) (calm y.number_of_vectoring_nozzle_systems) (calm y.propulsion_system_data)
      (calm y.vectoring_nozzle_system_data)
    rw [h1, h2, h3, h4, h5, h6, h7, h8]
instance : LegibleBody EntityStatePdu where
  named := by decide +kernel
  line hσ ha x :=
    field_line (by decide +kernel) (Legible.line hσ ha x.entity_id) <|
    field_line (by decide +kernel) (Legible.line hσ ha x.force_id) <|
    field_line (by decide +kernel) (Legible.line hσ ha x.number_of_articulation_parameters) <|
    field_line (by decide +kernel) (Legible.line hσ ha x.entity_type) <|
    field_line (by decide +kernel) (Legible.line hσ ha x.alternative_entity_type) <|
    field_line (by decide +kernel) (Legible.line hσ ha x.entity_linear_velocity) <|
    field_line (by decide +kernel) (Legible.line hσ ha x.entity_location) <|
    field_line (by decide +kernel) (Legible.line hσ ha x.entity_orientation) <|
    field_line (by decide +kernel) (Legible.line hσ ha x.entity_appearance) <|
    field_line (by decide +kernel) (Legible.line hσ ha x.dead_reckoning_parameters) <|
    field_line (by decide +kernel) (Legible.line hσ ha x.entity_marking) <|
    field_line (by decide +kernel) (Legible.line hσ ha x.entity_capabilities) <|
    field_line (by decide +kernel) (Legible.line hσ ha x.articulation_parameter) <|
    no_field_line
  same {σ} hσ x := by
    show [
    ("entity_id", text σ (calm x.entity_id)), ("force_id", text σ (calm x.force_id)),
  ("number_of_articulation_parameters", text σ (calm x.number_of_articulation_parameters)),
  ("entity_type", text σ (calm x.entity_type)),
  ("alternative_entity_type", text σ (calm x.alternative_entity_type)),
  ("entity_linear_velocity", text σ (calm x.entity_linear_velocity)),
  ("entity_location", text σ (calm x.entity_location)), ("entity_orientation", text σ (calm x.entity_orientation)),
  ("entity_appearance", text σ (calm x.entity_appearance)),
  ("dead_reckoning_parameters", text σ (calm x.dead_reckoning_parameters)),
  ("entity_marking", text σ (calm x.entity_marking)), ("entity_capabilities", text σ (calm x.entity_capabilities)),
  ("articulation_parameter", text σ (calm x.articulation_parameter))] = [
    ("entity_id", text σ x.entity_id), ("force_id", text σ x.force_id),
  ("number_of_articulation_parameters", text σ x.number_of_articulation_parameters),
  ("entity_type", text σ x.entity_type), ("alternative_entity_type", text σ x.alternative_entity_type),
  ("entity_linear_velocity", text σ x.entity_linear_velocity), ("entity_location", text σ x.entity_location),
  ("entity_orientation", text σ x.entity_orientation), ("entity_appearance", text σ x.entity_appearance),
  ("dead_reckoning_parameters", text σ x.dead_reckoning_parameters), ("entity_marking", text σ x.entity_marking),
  ("entity_capabilities", text σ x.entity_capabilities),
  ("articulation_parameter", text σ x.articulation_parameter)]
    simp only [Legible.same hσ]
  reads {σ} hσ {x y r r'} h := by
    have h : fieldsText σ [
    ("entity_id", text σ x.entity_id), ("force_id", text σ x.force_id),
  ("number_of_articulation_parameters", text σ x.number_of_articulation_parameters),
  ("entity_type", text σ x.entity_type), ("alternative_entity_type", text σ x.alternative_entity_type),
  ("entity_linear_velocity", text σ x.entity_linear_velocity), ("entity_location", text σ x.entity_location),
  ("entity_orientation", text σ x.entity_orientation), ("entity_appearance", text σ x.entity_appearance),
  ("dead_reckoning_parameters", text σ x.dead_reckoning_parameters), ("entity_marking", text σ x.entity_marking),
  ("entity_capabilities", text σ x.entity_capabilities),
  ("articulation_parameter", text σ x.articulation_parameter)] ++ r =
      fieldsText σ [
    ("entity_id", text σ y.entity_id), ("force_id", text σ y.force_id),
  ("number_of_articulation_parameters", text σ y.number_of_articulation_parameters),
  ("entity_type", text σ y.entity_type), ("alternative_entity_type", text σ y.alternative_entity_type),
  ("entity_linear_velocity", text σ y.entity_linear_velocity), ("entity_location", text σ y.entity_location),
  ("entity_orientation", text σ y.entity_orientation), ("entity_appearance", text σ y.entity_appearance),
  ("dead_reckoning_parameters", text σ y.dead_reckoning_parameters), ("entity_marking", text σ y.entity_marking),
  ("entity_capabilities", text σ y.entity_capabilities),
  ("articulation_parameter", text σ y.articulation_parameter)] ++ r' := h
    obtain ⟨h1, h⟩ := read_next hσ (x := x.entity_id) (y := y.entity_id) h
    obtain ⟨h2, h⟩ := read_next hσ (x := x.force_id) (y := y.force_id) h
    obtain ⟨h3, h⟩ := read_next hσ (x := x.number_of_articulation_parameters) (y := y.number_of_articulation_parameters) h
    obtain ⟨h4, h⟩ := read_next hσ (x := x.entity_type) (y := y.entity_type) h
    obtain ⟨h5, h⟩ := read_next hσ (x := x.alternative_entity_type) (y := y.alternative_entity_type) h
    obtain ⟨h6, h⟩ := read_next hσ (x := x.entity_linear_velocity) (y := y.entity_linear_velocity) h
    obtain ⟨h7, h⟩ := read_next hσ (x := x.entity_location) (y := y.entity_location) h
    obtain ⟨h8, h⟩ := read_next hσ (x := x.entity_orientation) (y := y.entity_orientation) h
    obtain ⟨h9, h⟩ := read_next hσ (x := x.entity_appearance) (y := y.entity_appearance) h
    obtain ⟨h10, h⟩ := read_next hσ (x := x.dead_reckoning_parameters) (y := y.dead_reckoning_parameters) h
    obtain ⟨h11, h⟩ := read_next hσ (x := x.entity_marking) (y := y.entity_marking) h
    obtain ⟨h12, h⟩ := read_next hσ (x := x.entity_capabilities) (y := y.entity_capabilities) h
    obtain ⟨h13, h⟩ := read_next hσ (x := x.articulation_parameter) (y := y.articulation_parameter) h
    refine ⟨?_, read_end h⟩
    show EntityStatePdu.mk (calm x.entity_id) (calm x.force_id) (calm x.number_of_articulation_parameters) (calm
      x.entity_type) (calm x.alternative_entity_type) (calm x.entity_linear_velocity) (calm x.entity_location) (calm
      x.entity_orientation) (calm x.entity_appearance) (calm x.dead_reckoning_parameters) (calm x.entity_marking)
      (calm x.entity_capabilities) (calm x.articulation_parameter) = EntityStatePdu.mk (calm y.entity_id) (calm
      y.force_id) (calm y.number_of_articulation_parameters) (calm y.entity_type) (calm y.alternative_entity_type)
      (calm y.entity_linear_velocity) (calm y.entity_location) (calm y.entity_orientation) (calm y.entity_appearance)
      (calm y.dead_reckoning_parameters) (calm y.entity_marking) (calm y.entity_capabilities) (calm
      y.articulation_parameter)
    rw [h1, h2, h3, h4, h5, h6, h7, h8, h9, h10, h11, h12, h13]
instance : LegibleBody CollisionPdu where
  named := by decide +kernel
  line hσ ha x :=
    field_line (by decide +kernel) (Legible.line hσ ha x.issuing_entity_id) <|
    field_line (by decide +kernel) (Legible.line hσ ha x.colliding_entity_id) <|
    field_line (by decide +kernel) (Legible.line hσ ha x.event_id) <|
    field_line (by decide +kernel) (Legible.line hσ ha x.collision_type) <|
    field_line (by decide +kernel) (Legible.line hσ ha x.padding) <|
    field_line (by decide +kernel) (Legible.line hσ ha x.velocity) <|
    field_line (by decide +kernel) (Legible.line hσ ha x.mass) <|
    field_line (by decide +kernel) (Legible.line hσ ha x.location_wrt_entity) <|
    no_field_line
  same {σ} hσ x := by
    show [
    ("issuing_entity_id", text σ (calm x.issuing_entity_id)),
  ("colliding_entity_id", text σ (calm x.colliding_entity_id)), ("event_id", text σ (calm x.event_id)),
  ("collision_type", text σ (calm x.collision_type)), ("padding", text σ (calm x.padding)),
  ("velocity", text σ (calm x.velocity)), ("mass", text σ (calm x.mass)),
  ("location_wrt_entity", text σ (calm x.location_wrt_entity))] = [
    ("issuing_entity_id", text σ x.issuing_entity_id), ("colliding_entity_id", text σ x.colliding_entity_id),
  ("event_id", text σ x.event_id), ("collision_type", text σ x.collision_type), ("padding", text σ x.padding),
  ("velocity", text σ x.velocity), ("mass", text σ x.mass), ("location_wrt_entity", text σ x.location_wrt_entity)]
    simp only [Legible.same hσ]
  reads {σ} hσ {x y r r'} h := by
    have h : fieldsText σ [
    ("issuing_entity_id", text σ x.issuing_entity_id), ("colliding_entity_id", text σ x.colliding_entity_id),
  ("event_id", text σ x.event_id), ("collision_type", text σ x.collision_type), ("padding", text σ x.padding),
  ("velocity", text σ x.velocity), ("mass", text σ x.mass), ("location_wrt_entity", text σ x.location_wrt_entity)] ++ r =
      fieldsText σ [
    ("issuing_entity_id", text σ y.issuing_entity_id), ("colliding_entity_id", text σ y.colliding_entity_id),
  ("event_id", text σ y.event_id), ("collision_type", text σ y.collision_type), ("padding", text σ y.padding),
  ("velocity", text σ y.velocity), ("mass", text σ y.mass), ("location_wrt_entity", text σ y.location_wrt_entity)] ++ r' := h
    obtain ⟨h1, h⟩ := read_next hσ (x := x.issuing_entity_id) (y := y.issuing_entity_id) h
    obtain ⟨h2, h⟩ := read_next hσ (x := x.colliding_entity_id) (y := y.colliding_entity_id) h
    obtain ⟨h3, h⟩ := read_next hσ (x := x.event_id) (y := y.event_id) h
    obtain ⟨h4, h⟩ := read_next hσ (x := x.collision_type) (y := y.collision_type) h
    obtain ⟨h5, h⟩ := read_next hσ (x := x.padding) (y := y.padding) h
    obtain ⟨h6, h⟩ := read_next hσ (x := x.velocity) (y := y.velocity) h
    obtain ⟨h7, h⟩ := read_next hσ (x := x.mass) (y := y.mass) h
    obtain ⟨h8, h⟩ := read_next hσ (x := x.location_wrt_entity) (y := y.location_wrt_entity) h
    refine ⟨?_, read_end h⟩
    show CollisionPdu.mk (calm x.issuing_entity_id) (calm x.colliding_entity_id) (calm x.event_id) (calm
      x.collision_type) (calm x.padding) (calm x.velocity) (calm x.mass) (calm x.location_wrt_entity) =
      CollisionPdu.mk (calm y.issuing_entity_id) (calm y.colliding_entity_id) (calm y.event_id) (calm
      y.collision_type) (calm y.padding) (calm y.velocity) (calm y.mass) (calm y.location_wrt_entity)
    rw [h1, h2, h3, h4, h5, h6, h7, h8]
instance : LegibleBody CollisionElasticPdu where
  named := by decide +kernel
  line hσ ha x :=
    field_line (by decide +kernel) (Legible.line hσ ha x.issuing_entity_id) <|
    field_line (by decide +kernel) (Legible.line hσ ha x.colliding_entity_id) <|
    field_line (by decide +kernel) (Legible.line hσ ha x.event_id) <|
    field_line (by decide +kernel) (Legible.line hσ ha x.padding) <|
    field_line (by decide +kernel) (Legible.line hσ ha x.contact_velocity) <|
    field_line (by decide +kernel) (Legible.line hσ ha x.mass) <|
    field_line (by decide +kernel) (Legible.line hσ ha x.location_of_impact) <|
    field_line (by decide +kernel) (Legible.line hσ ha x.collision_intermediate_result_xx) <|
    field_line (by decide +kernel) (Legible.line hσ ha x.collision_intermediate_result_xy) <|
    field_line (by decide +kernel) (Legible.line hσ ha x.collision_intermediate_result_xz) <|
    field_line (by decide +kernel) (Legible.line hσ ha x.collision_intermediate_result_yy) <|
    field_line (by decide +kernel) (Legible.line hσ ha x.collision_intermediate_result_yz) <|
    field_line (by decide +kernel) (Legible.line hσ ha x.collision_intermediate_result_zz) <|
    field_line (by decide +kernel) (Legible.line hσ ha x.unit_surface_normal) <|
    field_line (by decide +kernel) (Legible.line hσ ha x.coefficient_of_restitution) <|
    no_field_line
  same {σ} hσ x := by
    show [
    ("issuing_entity_id", text σ (calm x.issuing_entity_id)),
  ("colliding_entity_id", text σ (calm x.colliding_entity_id)), ("event_id", text σ (calm x.event_id)),
  ("padding", text σ (calm x.padding)), ("contact_velocity", text σ (calm x.contact_velocity)),
  ("mass", text σ (calm x.mass)), ("location_of_impact", text σ (calm x.location_of_impact)),
  ("collision_intermediate_result_xx", text σ (calm x.collision_intermediate_result_xx)),
  ("collision_intermediate_result_xy", text σ (calm x.collision_intermediate_result_xy)),
  ("collision_intermediate_result_xz", text σ (calm x.collision_intermediate_result_xz)),
  ("collision_intermediate_result_yy", text σ (calm x.collision_intermediate_result_yy)),
  ("collision_intermediate_result_yz", text σ (calm x.collision_intermediate_result_yz)),
  ("collision_intermediate_result_zz", text σ (calm x.collision_intermediate_result_zz)),
  ("unit_surface_normal", text σ (calm x.unit_surface_normal)),
  ("coefficient_of_restitution", text σ (calm x.coefficient_of_restitution))] = [
    ("issuing_entity_id", text σ x.issuing_entity_id), ("colliding_entity_id", text σ x.colliding_entity_id),
  ("event_id", text σ x.event_id), ("padding", text σ x.padding), ("contact_velocity", text σ x.contact_velocity),
  ("mass", text σ x.mass), ("location_of_impact", text σ x.location_of_impact),
  ("collision_intermediate_result_xx", text σ x.collision_intermediate_result_xx),
  ("collision_intermediate_result_xy", text σ x.collision_intermediate_result_xy),
  ("collision_intermediate_result_xz", text σ x.collision_intermediate_result_xz),
  ("collision_intermediate_result_yy", text σ x.collision_intermediate_result_yy),
  ("collision_intermediate_result_yz", text σ x.collision_intermediate_result_yz),
  ("collision_intermediate_result_zz", text σ x.collision_intermediate_result_zz),
  ("unit_surface_normal", text σ x.unit_surface_normal),
  ("coefficient_of_restitution", text σ x.coefficient_of_restitution)]
    simp only [Legible.same hσ]
  reads {σ} hσ {x y r r'} h := by
    have h : fieldsText σ [
    ("issuing_entity_id", text σ x.issuing_entity_id), ("colliding_entity_id", text σ x.colliding_entity_id),
  ("event_id", text σ x.event_id), ("padding", text σ x.padding), ("contact_velocity", text σ x.contact_velocity),
  ("mass", text σ x.mass), ("location_of_impact", text σ x.location_of_impact),
  ("collision_intermediate_result_xx", text σ x.collision_intermediate_result_xx),
  ("collision_intermediate_result_xy", text σ x.collision_intermediate_result_xy),
  ("collision_intermediate_result_xz", text σ x.collision_intermediate_result_xz),
  ("collision_intermediate_result_yy", text σ x.collision_intermediate_result_yy),
  ("collision_intermediate_result_yz", text σ x.collision_intermediate_result_yz),
  ("collision_intermediate_result_zz", text σ x.collision_intermediate_result_zz),
  ("unit_surface_normal", text σ x.unit_surface_normal),
  ("coefficient_of_restitution", text σ x.coefficient_of_restitution)] ++ r =
      fieldsText σ [
    ("issuing_entity_id", text σ y.issuing_entity_id), ("colliding_entity_id", text σ y.colliding_entity_id),
  ("event_id", text σ y.event_id), ("padding", text σ y.padding), ("contact_velocity", text σ y.contact_velocity),
  ("mass", text σ y.mass), ("location_of_impact", text σ y.location_of_impact),
  ("collision_intermediate_result_xx", text σ y.collision_intermediate_result_xx),
  ("collision_intermediate_result_xy", text σ y.collision_intermediate_result_xy),
  ("collision_intermediate_result_xz", text σ y.collision_intermediate_result_xz),
  ("collision_intermediate_result_yy", text σ y.collision_intermediate_result_yy),
  ("collision_intermediate_result_yz", text σ y.collision_intermediate_result_yz),
  ("collision_intermediate_result_zz", text σ y.collision_intermediate_result_zz),
  ("unit_surface_normal", text σ y.unit_surface_normal),
  ("coefficient_of_restitution", text σ y.coefficient_of_restitution)] ++ r' := h
    obtain ⟨h1, h⟩ := read_next hσ (x := x.issuing_entity_id) (y := y.issuing_entity_id) h
    obtain ⟨h2, h⟩ := read_next hσ (x := x.colliding_entity_id) (y := y.colliding_entity_id) h
    obtain ⟨h3, h⟩ := read_next hσ (x := x.event_id) (y := y.event_id) h
    obtain ⟨h4, h⟩ := read_next hσ (x := x.padding) (y := y.padding) h
    obtain ⟨h5, h⟩ := read_next hσ (x := x.contact_velocity) (y := y.contact_velocity) h
    obtain ⟨h6, h⟩ := read_next hσ (x := x.mass) (y := y.mass) h
    obtain ⟨h7, h⟩ := read_next hσ (x := x.location_of_impact) (y := y.location_of_impact) h
    obtain ⟨h8, h⟩ := read_next hσ (x := x.collision_intermediate_result_xx) (y := y.collision_intermediate_result_xx) h
    obtain ⟨h9, h⟩ := read_next hσ (x := x.collision_intermediate_result_xy) (y := y.collision_intermediate_result_xy) h
    obtain ⟨h10, h⟩ := read_next hσ (x := x.collision_intermediate_result_xz) (y := y.collision_intermediate_result_xz) h
    obtain ⟨h11, h⟩ := read_next hσ (x := x.collision_intermediate_result_yy) (y := y.collision_intermediate_result_yy) h
    obtain ⟨h12, h⟩ := read_next hσ (x := x.collision_intermediate_result_yz) (y := y.collision_intermediate_result_yz) h
    obtain ⟨h13, h⟩ := read_next hσ (x := x.collision_intermediate_result_zz) (y := y.collision_intermediate_result_zz) h
    obtain ⟨h14, h⟩ := read_next hσ (x := x.unit_surface_normal) (y := y.unit_surface_normal) h
    obtain ⟨h15, h⟩ := read_next hσ (x := x.coefficient_of_restitution) (y := y.coefficient_of_restitution) h
    refine ⟨?_, read_end h⟩
    show CollisionElasticPdu.mk (calm x.issuing_entity_id) (calm x.colliding_entity_id) (calm x.event_id) (calm
      x.padding) (calm x.contact_velocity) (calm x.mass) (calm x.location_of_impact) (calm
      x.collision_intermediate_result_xx) (calm x.collision_intermediate_result_xy) (calm
      x.collision_intermediate_result_xz) (calm x.collision_intermediate_result_yy) (calm
      x.collision_intermediate_result_yz) (calm x.collision_intermediate_result_zz) (calm x.unit_surface_normal) (calm
      x.coefficient_of_restitution) = CollisionElasticPdu.mk (calm y.issuing_entity_id) (calm y.colliding_entity_id)
      (calm y.event_id) (calm y.padding) (calm y.contact_velocity) (calm y.mass) (calm y.location_of_impact) (calm
      y.collision_intermediate_result_xx) (calm y.collision_intermediate_result_xy) (calm
      y.collision_intermediate_result_xz) (calm y.collision_intermediate_result_yy) (calm
      y.collision_intermediate_result_yz) (calm y.collision_intermediate_result_zz) (calm y.unit_surface_normal) (calm
      y.coefficient_of_restitution)
    rw [h1, h2, h3, h4, h5, h6, h7, h8, h9, h10, h11, h12, h13, h14, h15]
instance : LegibleBody EntityStateUpdatePdu where
  named := by decide +kernel
  line hσ ha x :=
    field_line (by decide +kernel) (Legible.line hσ ha x.entity_id) <|
    field_line (by decide +kernel) (Legible.line hσ ha x.padding) <|
    field_line (by decide +kernel) (Legible.line hσ ha x.number_of_variable_parameters) <|
    field_line (by decide +kernel) (Legible.line hσ ha x.entity_linear_velocity) <|
    field_line (by decide +kernel) (Legible.line hσ ha x.entity_location) <|
    field_line (by decide +kernel) (Legible.line hσ ha x.entity_orientation) <|
    field_line (by decide +kernel) (Legible.line hσ ha x.entity_appearance) <|
    field_line (by decide +kernel) (Legible.line hσ ha x.variable_parameter_records) <|
    no_field_line
  same {σ} hσ x := by
    show [
    ("entity_id", text σ (calm x.entity_id)), ("padding", text σ (calm x.padding)),
  ("number_of_variable_parameters", text σ (calm x.number_of_variable_parameters)),
  ("entity_linear_velocity", text σ (calm x.entity_linear_velocity)),
  ("entity_location", text σ (calm x.entity_location)), ("entity_orientation", text σ (calm x.entity_orientation)),
  ("entity_appearance", text σ (calm x.entity_appearance)),
  ("variable_parameter_records", text σ (calm x.variable_parameter_records))] = [
    ("entity_id", text σ x.entity_id), ("padding", text σ x.padding),
  ("number_of_variable_parameters", text σ x.number_of_variable_parameters),
  ("entity_linear_velocity", text σ x.entity_linear_velocity), ("entity_location", text σ x.entity_location),
  ("entity_orientation", text σ x.entity_orientation), ("entity_appearance", text σ x.entity_appearance),
  ("variable_parameter_records", text σ x.variable_parameter_records)]
    simp only [Legible.same hσ]
  reads {σ} hσ {x y r r'} h := by
    have h : fieldsText σ [
    ("entity_id", text σ x.entity_id), ("padding", text σ x.padding),
  ("number_of_variable_parameters", text σ x.number_of_variable_parameters),
  ("entity_linear_velocity", text σ x.entity_linear_velocity), ("entity_location", text σ x.entity_location),
  ("entity_orientation", text σ x.entity_orientation), ("entity_appearance", text σ x.entity_appearance),
  ("variable_parameter_records", text σ x.variable_parameter_records)] ++ r =
      fieldsText σ [
    ("entity_id", text σ y.entity_id), ("padding", text σ y.padding),
  ("number_of_variable_parameters", text σ y.number_of_variable_parameters),
  ("entity_linear_velocity", text σ y.entity_linear_velocity), ("entity_location", text σ y.entity_location),
  ("entity_orientation", text σ y.entity_orientation), ("entity_appearance", text σ y.entity_appearance),
  ("variable_parameter_records", text σ y.variable_parameter_records)] ++ r' := h
    obtain ⟨h1, h⟩ := read_next hσ (x := x.entity_id) (y := y.entity_id) h
    obtain ⟨h2, h⟩ := read_next hσ (x := x.padding) (y := y.padding) h
    obtain ⟨h3, h⟩ := read_next hσ (x := x.number_of_variable_parameters) (y := y.number_of_variable_parameters) h
    obtain ⟨h4, h⟩ := read_next hσ (x := x.entity_linear_velocity) (y := y.entity_linear_velocity) h
    obtain ⟨h5, h⟩ := read_next hσ (x := x.entity_location) (y := y.entity_location) h
    obtain ⟨h6, h⟩ := read_next hσ (x := x.entity_orientation) (y := y.entity_orientation) h
    obtain ⟨h7, h⟩ := read_next hσ (x := x.entity_appearance) (y := y.entity_appearance) h
    obtain ⟨h8, h⟩ := read_next hσ (x := x.variable_parameter_records) (y := y.variable_parameter_records) h
    refine ⟨?_, read_end h⟩
    show EntityStateUpdatePdu.mk (calm x.entity_id) (calm x.padding) (calm x.number_of_variable_parameters) (calm
      x.entity_linear_velocity) (calm x.entity_location) (calm x.entity_orientation) (calm x.entity_appearance) (calm
      x.variable_parameter_records) = EntityStateUpdatePdu.mk (calm y.entity_id) (calm y.padding) (calm
      y.number_of_variable_parameters) (calm y.entity_linear_velocity) (calm y.entity_location) (calm
      y.entity_orientation) (calm y.entity_appearance) (calm y.variable_parameter_records)
    rw [h1, h2, h3, h4, h5, h6, h7, h8]
instance : LegibleBody AttributePdu where
  named := by decide +kernel
  line hσ ha x :=
    field_line (by decide +kernel) (Legible.line hσ ha x.originating_simulation_address) <|
    field_line (by decide +kernel) (Legible.line hσ ha x.padding) <|
    field_line (by decide +kernel) (Legible.line hσ ha x.padding2) <|
    field_line (by decide +kernel) (Legible.line hσ ha x.attribute_record_pdu_type) <|
    field_line (by decide +kernel) (Legible.line hσ ha x.attribute_record_protocol_version) <|
    field_line (by decide +kernel) (Legible.line hσ ha x.master_attribute_record_type) <|
    field_line (by decide +kernel) (Legible.line hσ ha x.action_code) <|
    field_line (by decide +kernel) (Legible.line hσ ha x.padding3) <|
    field_line (by decide +kernel) (Legible.line hσ ha x.number_of_attribute_record_sets) <|
    field_line (by decide +kernel) (Legible.line hσ ha x.attribute_record_sets) <|
    no_field_line
  same {σ} hσ x := by
    show [
    ("originating_simulation_address", text σ (calm x.originating_simulation_address)),
  ("padding", text σ (calm x.padding)), ("padding2", text σ (calm x.padding2)),
  ("attribute_record_pdu_type", text σ (calm x.attribute_record_pdu_type)),
  ("attribute_record_protocol_version", text σ (calm x.attribute_record_protocol_version)),
  ("master_attribute_record_type", text σ (calm x.master_attribute_record_type)),
  ("action_code", text σ (calm x.action_code)), ("padding3", text σ (calm x.padding3)),
  ("number_of_attribute_record_sets", text σ (calm x.number_of_attribute_record_sets)),
  ("attribute_record_sets", text σ (calm x.attribute_record_sets))] = [
    ("originating_simulation_address", text σ x.originating_simulation_address), ("padding", text σ x.padding),
  ("padding2", text σ x.padding2), ("attribute_record_pdu_type", text σ x.attribute_record_pdu_type),
  ("attribute_record_protocol_version", text σ x.attribute_record_protocol_version),
  ("master_attribute_record_type", text σ x.master_attribute_record_type), ("action_code", text σ x.action_code),
  ("padding3", text σ x.padding3), ("number_of_attribute_record_sets", text σ x.number_of_attribute_record_sets),
  ("attribute_record_sets", text σ x.attribute_record_sets)]
    simp only [Legible.same hσ]
  reads {σ} hσ {x y r r'} h := by
    have h : fieldsText σ [
    ("originating_simulation_address", text σ x.originating_simulation_address), ("padding", text σ x.padding),
  ("padding2", text σ x.padding2), ("attribute_record_pdu_type", text σ x.attribute_record_pdu_type),
  ("attribute_record_protocol_version", text σ x.attribute_record_protocol_version),
  ("master_attribute_record_type", text σ x.master_attribute_record_type), ("action_code", text σ x.action_code),
  ("padding3", text σ x.padding3), ("number_of_attribute_record_sets", text σ x.number_of_attribute_record_sets),
  ("attribute_record_sets", text σ x.attribute_record_sets)] ++ r =
      fieldsText σ [
    ("originating_simulation_address", text σ y.originating_simulation_address), ("padding", text σ y.padding),
  ("padding2", text σ y.padding2), ("attribute_record_pdu_type", text σ y.attribute_record_pdu_type),
  ("attribute_record_protocol_version", text σ y.attribute_record_protocol_version),
  ("master_attribute_record_type", text σ y.master_attribute_record_type), ("action_code", text σ y.action_code),
  ("padding3", text σ y.padding3), ("number_of_attribute_record_sets", text σ y.number_of_attribute_record_sets),
  ("attribute_record_sets", text σ y.attribute_record_sets)] ++ r' := h
    obtain ⟨h1, h⟩ := read_next hσ (x := x.originating_simulation_address) (y := y.originating_simulation_address) h
    obtain ⟨h2, h⟩ := read_next hσ (x := x.padding) (y := y.padding) h
    obtain ⟨h3, h⟩ := read_next hσ (x := x.padding2) (y := y.padding2) h
    obtain ⟨h4, h⟩ := read_next hσ (x := x.attribute_record_pdu_type) (y := y.attribute_record_pdu_type) h
    obtain ⟨h5, h⟩ := read_next hσ (x := x.attribute_record_protocol_version) (y := y.attribute_record_protocol_version) h
    obtain ⟨h6, h⟩ := read_next hσ (x := x.master_attribute_record_type) (y := y.master_attribute_record_type) h
    obtain ⟨h7, h⟩ := read_next hσ (x := x.action_code) (y := y.action_code) h
    obtain ⟨h8, h⟩ := read_next hσ (x := x.padding3) (y := y.padding3) h
    obtain ⟨h9, h⟩ := read_next hσ (x := x.number_of_attribute_record_sets) (y := y.number_of_attribute_record_sets) h
    obtain ⟨h10, h⟩ := read_next hσ (x := x.attribute_record_sets) (y := y.attribute_record_sets) h
    refine ⟨?_, read_end h⟩
    show AttributePdu.mk (calm x.originating_simulation_address) (calm x.padding) (calm x.padding2) (calm
      x.attribute_record_pdu_type) (calm x.attribute_record_protocol_version) (calm x.master_attribute_record_type)
      (calm x.action_code) (calm x.padding3) (calm x.number_of_attribute_record_sets) (calm x.attribute_record_sets) =
      AttributePdu.mk (calm y.originating_simulation_address) (calm y.padding) (calm y.padding2) (calm
      y.attribute_record_pdu_type) (calm y.attribute_record_protocol_version) (calm y.master_attribute_record_type)
      (calm y.action_code) (calm y.padding3) (calm y.number_of_attribute_record_sets) (calm y.attribute_record_sets)
    rw [h1, h2, h3, h4, h5, h6, h7, h8, h9, h10]
instance : LegibleBody AggregateStatePdu where
  named := by decide +kernel
  line hσ ha x :=
    field_line (by decide +kernel) (Legible.line hσ ha x.aggregate_id) <|
    field_line (by decide +kernel) (Legible.line hσ ha x.force_id) <|
    field_line (by decide +kernel) (Legible.line hσ ha x.aggregate_state) <|
    field_line (by decide +kernel) (Legible.line hσ ha x.aggregate_type) <|
    field_line (by decide +kernel) (Legible.line hσ ha x.formation) <|
    field_line (by decide +kernel) (Legible.line hσ ha x.aggregate_marking) <|
    field_line (by decide +kernel) (Legible.line hσ ha x.dimensions) <|
    field_line (by decide +kernel) (Legible.line hσ ha x.orientation) <|
    field_line (by decide +kernel) (Legible.line hσ ha x.center_of_mass) <|
    field_line (by decide +kernel) (Legible.line hσ ha x.velocity) <|
    field_line (by decide +kernel) (Legible.line hσ ha x.number_of_dis_aggregates) <|
    field_line (by decide +kernel) (Legible.line hσ ha x.number_of_dis_entities) <|
    field_line (by decide +kernel) (Legible.line hσ ha x.number_of_silent_aggregate_types) <|
    field_line (by decide +kernel) (Legible.line hσ ha x.number_of_silent_entity_types) <|
    field_line (by decide +kernel) (Legible.line hσ ha x.aggregate_id_list) <|
    field_line (by decide +kernel) (Legible.line hσ ha x.entity_id_list) <|
    field_line (by decide +kernel) (Legible.line hσ ha x.padding) <|
    field_line (by decide +kernel) (Legible.line hσ ha x.silent_aggregate_system_list) <|
    field_line (by decide +kernel) (Legible.line hσ ha x.silent_entity_system_list) <|
    field_line (by decide +kernel) (Legible.line hσ ha x.number_of_variable_datum_records) <|
    field_line (by decide +kernel) (Legible.line hσ ha x.variable_datum_list) <|
    no_field_line
  same {σ} hσ x := by
    show [
    ("aggregate_id", text σ (calm x.aggregate_id)), ("force_id", text σ (calm x.force_id)),
  ("aggregate_state", text σ (calm x.aggregate_state)), ("aggregate_type", text σ (calm x.aggregate_type)),
  ("formation", text σ (calm x.formation)), ("aggregate_marking", text σ (calm x.aggregate_marking)),
  ("dimensions", text σ (calm x.dimensions)), ("orientation", text σ (calm x.orientation)),
  ("center_of_mass", text σ (calm x.center_of_mass)), ("velocity", text σ (calm x.velocity)),
  ("number_of_dis_aggregates", text σ (calm x.number_of_dis_aggregates)),
  ("number_of_dis_entities", text σ (calm x.number_of_dis_entities)),
  ("number_of_silent_aggregate_types", text σ (calm x.number_of_silent_aggregate_types)),
  ("number_of_silent_entity_types", text σ (calm x.number_of_silent_entity_types)),
  ("aggregate_id_list", text σ (calm x.aggregate_id_list)), ("entity_id_list", text σ (calm x.entity_id_list)),
  ("padding", text σ (calm x.padding)),
  ("silent_aggregate_system_list", text σ (calm x.silent_aggregate_system_list)),
  ("silent_entity_system_list", text σ (calm x.silent_entity_system_list)),
  ("number_of_variable_datum_records", text σ (calm x.number_of_variable_datum_records)),
  ("variable_datum_list", text σ (calm x.variable_datum_list))] = [
    ("aggregate_id", text σ x.aggregate_id), ("force_id", text σ x.force_id),
  ("aggregate_state", text σ x.aggregate_state), ("aggregate_type", text σ x.aggregate_type),
  ("formation", text σ x.formation), ("aggregate_marking", text σ x.aggregate_marking),
  ("dimensions", text σ x.dimensions), ("orientation", text σ x.orientation),
  ("center_of_mass", text σ x.center_of_mass), ("velocity", text σ x.velocity),
  ("number_of_dis_aggregates", text σ x.number_of_dis_aggregates),
  ("number_of_dis_entities", text σ x.number_of_dis_entities),
  ("number_of_silent_aggregate_types", text σ x.number_of_silent_aggregate_types),
  ("number_of_silent_entity_types", text σ x.number_of_silent_entity_types),
  ("aggregate_id_list", text σ x.aggregate_id_list), ("entity_id_list", text σ x.entity_id_list),
  ("padding", text σ x.padding), ("silent_aggregate_system_list", text σ x.silent_aggregate_system_list),
  ("silent_entity_system_list", text σ x.silent_entity_system_list),
  ("number_of_variable_datum_records", text σ x.number_of_variable_datum_records),
  ("variable_datum_list", text σ x.variable_datum_list)]
    simp only [Legible.same hσ]
  reads {σ} hσ {x y r r'} h := by
    have h : fieldsText σ [
    ("aggregate_id", text σ x.aggregate_id), ("force_id", text σ x.force_id),
  ("aggregate_state", text σ x.aggregate_state), ("aggregate_type", text σ x.aggregate_type),
  ("formation", text σ x.formation), ("aggregate_marking", text σ x.aggregate_marking),
  ("dimensions", text σ x.dimensions), ("orientation", text σ x.orientation),
  ("center_of_mass", text σ x.center_of_mass), ("velocity", text σ x.velocity),
  ("number_of_dis_aggregates", text σ x.number_of_dis_aggregates),
  ("number_of_dis_entities", text σ x.number_of_dis_entities),
  ("number_of_silent_aggregate_types", text σ x.number_of_silent_aggregate_types),
  ("number_of_silent_entity_types", text σ x.number_of_silent_entity_types),
  ("aggregate_id_list", text σ x.aggregate_id_list), ("entity_id_list", text σ x.entity_id_list),
  ("padding", text σ x.padding), ("silent_aggregate_system_list", text σ x.silent_aggregate_system_list),
  ("silent_entity_system_list", text σ x.silent_entity_system_list),
  ("number_of_variable_datum_records", text σ x.number_of_variable_datum_records),
  ("variable_datum_list", text σ x.variable_datum_list)] ++ r =
      fieldsText σ [
    ("aggregate_id", text σ y.aggregate_id), ("force_id", text σ y.force_id),
  ("aggregate_state", text σ y.aggregate_state), ("aggregate_type", text σ y.aggregate_type),
  ("formation", text σ y.formation), ("aggregate_marking", text σ y.aggregate_marking),
  ("dimensions", text σ y.dimensions), ("orientation", text σ y.orientation),
  ("center_of_mass", text σ y.center_of_mass), ("velocity", text σ y.velocity),
  ("number_of_dis_aggregates", text σ y.number_of_dis_aggregates),
  ("number_of_dis_entities", text σ y.number_of_dis_entities),
  ("number_of_silent_aggregate_types", text σ y.number_of_silent_aggregate_types),
  ("number_of_silent_entity_types", text σ y.number_of_silent_entity_types),
  ("aggregate_id_list", text σ y.aggregate_id_list), ("entity_id_list", text σ y.entity_id_list),
  ("padding", text σ y.padding), ("silent_aggregate_system_list", text σ y.silent_aggregate_system_list),
  ("silent_entity_system_list", text σ y.silent_entity_system_list),
  ("number_of_variable_datum_records", text σ y.number_of_variable_datum_records),
  ("variable_datum_list", text σ y.variable_datum_list)] ++ r' := h
    obtain ⟨h1, h⟩ := read_next hσ (x := x.aggregate_id) (y := y.aggregate_id) h
    obtain ⟨h2, h⟩ := read_next hσ (x := x.force_id) (y := y.force_id) h
    obtain ⟨h3, h⟩ := read_next hσ (x := x.aggregate_state) (y := y.aggregate_state) h
    obtain ⟨h4, h⟩ := read_next hσ (x := x.aggregate_type) (y := y.aggregate_type) h
    obtain ⟨h5, h⟩ := read_next hσ (x := x.formation) (y := y.formation) h
    obtain ⟨h6, h⟩ := read_next hσ (x := x.aggregate_marking) (y := y.aggregate_marking) h
    obtain ⟨h7, h⟩ := read_next hσ (x := x.dimensions) (y := y.dimensions) h
    obtain ⟨h8, h⟩ := read_next hσ (x := x.orientation) (y := y.orientation) h
    obtain ⟨h9, h⟩ := read_next hσ (x := x.center_of_mass) (y := y.center_of_mass) h
    obtain ⟨h10, h⟩ := read_next hσ (x := x.velocity) (y := y.velocity) h
    obtain ⟨h11, h⟩ := read_next hσ (x := x.number_of_dis_aggregates) (y := y.number_of_dis_aggregates) h
    obtain ⟨h12, h⟩ := read_next hσ (x := x.number_of_dis_entities) (y := y.number_of_dis_entities) h
    obtain ⟨h13, h⟩ := read_next hσ (x := x.number_of_silent_aggregate_types) (y := y.number_of_silent_aggregate_types) h
    obtain ⟨h14, h⟩ := read_next hσ (x := x.number_of_silent_entity_types) (y := y.number_of_silent_entity_types) h
    obtain ⟨h15, h⟩ := read_next hσ (x := x.aggregate_id_list) (y := y.aggregate_id_list) h
    obtain ⟨h16, h⟩ := read_next hσ (x := x.entity_id_list) (y := y.entity_id_list) h
    obtain ⟨h17, h⟩ := read_next hσ (x := x.padding) (y := y.padding) h
    obtain ⟨h18, h⟩ := read_next hσ (x := x.silent_aggregate_system_list) (y := y.silent_aggregate_system_list) h
    obtain ⟨h19, h⟩ := read_next hσ (x := x.silent_entity_system_list) (y := y.silent_entity_system_list) h
    obtain ⟨h20, h⟩ := read_next hσ (x := x.number_of_variable_datum_records) (y := y.number_of_variable_datum_records) h
    obtain ⟨h21, h⟩ := read_next hσ (x := x.variable_datum_list) (y := y.variable_datum_list) h
    refine ⟨?_, read_end h⟩
    show AggregateStatePdu.mk (calm x.aggregate_id) (calm x.force_id) (calm x.aggregate_state) (calm x.aggregate_type)
      (calm x.formation) (calm x.aggregate_marking) (calm x.dimensions) (calm x.orientation) (calm x.center_of_mass)
      (calm x.velocity) (calm x.number_of_dis_aggregates) (calm x.number_of_dis_entities) (calm
      x.number_of_silent_aggregate_types) (calm x.number_of_silent_entity_types) (calm x.aggregate_id_list) (calm
      x.entity_id_list) (calm x.padding) (calm x.silent_aggregate_system_list) (calm x.silent_entity_system_list)
      (calm x.number_of_variable_datum_records) (calm x.variable_datum_list) = AggregateStatePdu.mk (calm
      y.aggregate_id) (calm y.force_id) (calm y.aggregate_state) (calm y.aggregate_type) (calm y.formation) (calm
      y.aggregate_marking) (calm y.dimensions) (calm y.orientation) (calm y.center_of_mass) (calm y.velocity) (calm
      y.number_of_dis_aggregates) (calm y.number_of_dis_entities) (calm y.number_of_silent_aggregate_types) (calm
      y.number_of_silent_entity_types) (calm y.aggregate_id_list) (calm y.entity_id_list) (calm y.padding) (calm
      y.silent_aggregate_system_list) (calm y.silent_entity_system_list) (calm y.number_of_variable_datum_records)
      (calm y.variable_datum_list)
    rw [h1, h2, h3, h4, h5, h6, h7, h8, h9, h10, h11, h12, h13, h14, h15, h16, h17, h18, h19, h20, h21]
instance : LegibleBody IsGroupOfPdu where
  named := by decide +kernel
  line hσ ha x :=
    field_line (by decide +kernel) (Legible.line hσ ha x.group_entity_id) <|
    field_line (by decide +kernel) (Legible.line hσ ha x.grouped_entity_category) <|
    field_line (by decide +kernel) (Legible.line hσ ha x.number_of_grouped_entities) <|
    field_line (by decide +kernel) (Legible.line hσ ha x.padding) <|
    field_line (by decide +kernel) (Legible.line hσ ha x.latitude) <|
    field_line (by decide +kernel) (Legible.line hσ ha x.longitude) <|
    field_line (by decide +kernel) (Legible.line hσ ha x.grouped_entity_descriptions) <|
    no_field_line
  same {σ} hσ x := by
    show [
    ("group_entity_id", text σ (calm x.group_entity_id)),
  ("grouped_entity_category", text σ (calm x.grouped_entity_category)),
  ("number_of_grouped_entities", text σ (calm x.number_of_grouped_entities)), ("padding", text σ (calm x.padding)),
  ("latitude", text σ (calm x.latitude)), ("longitude", text σ (calm x.longitude)),
  ("grouped_entity_descriptions", text σ (calm x.grouped_entity_descriptions))] = [
    ("group_entity_id", text σ x.group_entity_id), ("grouped_entity_category", text σ x.grouped_entity_category),
  ("number_of_grouped_entities", text σ x.number_of_grouped_entities), ("padding", text σ x.padding),
  ("latitude", text σ x.latitude), ("longitude", text σ x.longitude),
  ("grouped_entity_descriptions", text σ x.grouped_entity_descriptions)]
    simp only [Legible.same hσ]
  reads {σ} hσ {x y r r'} h := by
    have h : fieldsText σ [
    ("group_entity_id", text σ x.group_entity_id), ("grouped_entity_category", text σ x.grouped_entity_category),
  ("number_of_grouped_entities", text σ x.number_of_grouped_entities), ("padding", text σ x.padding),
  ("latitude", text σ x.latitude), ("longitude", text σ x.longitude),
  ("grouped_entity_descriptions", text σ x.grouped_entity_descriptions)] ++ r =
      fieldsText σ [
    ("group_entity_id", text σ y.group_entity_id), ("grouped_entity_category", text σ y.grouped_entity_category),
  ("number_of_grouped_entities", text σ y.number_of_grouped_entities), ("padding", text σ y.padding),
  ("latitude", text σ y.latitude), ("longitude", text σ y.longitude),
  ("grouped_entity_descriptions", text σ y.grouped_entity_descriptions)] ++ r' := h
    obtain ⟨h1, h⟩ := read_next hσ (x := x.group_entity_id) (y := y.group_entity_id) h
    obtain ⟨h2, h⟩ := read_next hσ (x := x.grouped_entity_category) (y := y.grouped_entity_category) h
    obtain ⟨h3, h⟩ := read_next hσ (x := x.number_of_grouped_entities) (y := y.number_of_grouped_entities) h
    obtain ⟨h4, h⟩ := read_next hσ (x := x.padding) (y := y.padding) h
    obtain ⟨h5, h⟩ := read_next hσ (x := x.latitude) (y := y.latitude) h
    obtain ⟨h6, h⟩ := read_next hσ (x := x.longitude) (y := y.longitude) h
    obtain ⟨h7, h⟩ := read_next hσ (x := x.grouped_entity_descriptions) (y := y.grouped_entity_descriptions) h
    refine ⟨?_, read_end h⟩
    show IsGroupOfPdu.mk (calm x.group_entity_id) (calm x.grouped_entity_category) (calm x.number_of_grouped_entities)
      (calm x.padding) (calm x.latitude) (calm x.longitude) (calm x.grouped_entity_descriptions) = IsGroupOfPdu.mk
      (calm y.group_entity_id) (calm y.grouped_entity_category) (calm y.number_of_grouped_entities) (calm y.padding)
      (calm y.latitude) (calm y.longitude) (calm y.grouped_entity_descriptions)
    rw [h1, h2, h3, h4, h5, h6, h7]
instance : LegibleBody TransferOwnershipPdu where
  named := by decide +kernel
  line hσ ha x :=
    field_line (by decide +kernel) (Legible.line hσ ha x.originating_id) <|
    field_line (by decide +kernel) (Legible.line hσ ha x.receiving_id) <|
    field_line (by decide +kernel) (Legible.line hσ ha x.request_id) <|
    field_line (by decide +kernel) (Legible.line hσ ha x.required_reliability_service) <|
    field_line (by decide +kernel) (Legible.line hσ ha x.transfer_type) <|
    field_line (by decide +kernel) (Legible.line hσ ha x.transfer_entity_id) <|
    field_line (by decide +kernel) (Legible.line hσ ha x.record_information) <|
    no_field_line
  same {σ} hσ x := by
    show [
    ("originating_id", text σ (calm x.originating_id)), ("receiving_id", text σ (calm x.receiving_id)),
  ("request_id", text σ (calm x.request_id)),
  ("required_reliability_service", text σ (calm x.required_reliability_service)),
  ("transfer_type", text σ (calm x.transfer_type)), ("transfer_entity_id", text σ (calm x.transfer_entity_id)),
  ("record_information", text σ (calm x.record_information))] = [
    ("originating_id", text σ x.originating_id), ("receiving_id", text σ x.receiving_id),
  ("request_id", text σ x.request_id), ("required_reliability_service", text σ x.required_reliability_service),
  ("transfer_type", text σ x.transfer_type), ("transfer_entity_id", text σ x.transfer_entity_id),
  ("record_information", text σ x.record_information)]
    simp only [Legible.same hσ]
  reads {σ} hσ {x y r r'} h := by
    have h : fieldsText σ [
    ("originating_id", text σ x.originating_id), ("receiving_id", text σ x.receiving_id),
  ("request_id", text σ x.request_id), ("required_reliability_service", text σ x.required_reliability_service),
  ("transfer_type", text σ x.transfer_type), ("transfer_entity_id", text σ x.transfer_entity_id),
  ("record_information", text σ x.record_information)] ++ r =
      fieldsText σ [
    ("originating_id", text σ y.originating_id), ("receiving_id", text σ y.receiving_id),
  ("request_id", text σ y.request_id), ("required_reliability_service", text σ y.required_reliability_service),
  ("transfer_type", text σ y.transfer_type), ("transfer_entity_id", text σ y.transfer_entity_id),
  ("record_information", text σ y.record_information)] ++ r' := h
    obtain ⟨h1, h⟩ := read_next hσ (x := x.originating_id) (y := y.originating_id) h
    obtain ⟨h2, h⟩ := read_next hσ (x := x.receiving_id) (y := y.receiving_id) h
    obtain ⟨h3, h⟩ := read_next hσ (x := x.request_id) (y := y.request_id) h
    obtain ⟨h4, h⟩ := read_next hσ (x := x.required_reliability_service) (y := y.required_reliability_service) h
    obtain ⟨h5, h⟩ := read_next hσ (x := x.transfer_type) (y := y.transfer_type) h
    obtain ⟨h6, h⟩ := read_next hσ (x := x.transfer_entity_id) (y := y.transfer_entity_id) h
    obtain ⟨h7, h⟩ := read_next hσ (x := x.record_information) (y := y.record_information) h
    refine ⟨?_, read_end h⟩
    show TransferOwnershipPdu.mk (calm x.originating_id) (calm x.receiving_id) (calm x.request_id) (calm
      x.required_reliability_service) (calm x.transfer_type) (calm x.transfer_entity_id) (calm x.record_information) =
      TransferOwnershipPdu.mk (calm y.originating_id) (calm y.receiving_id) (calm y.request_id) (calm
      y.required_reliability_service) (calm y.transfer_type) (calm y.transfer_entity_id) (calm y.record_information)
    rw [h1, h2, h3, h4, h5, h6, h7]
instance : LegibleBody IsPartOfPdu where
  named := by decide +kernel
  line hσ ha x :=
    field_line (by decide +kernel) (Legible.line hσ ha x.originating_entity_id) <|
    field_line (by decide +kernel) (Legible.line hσ ha x.receiving_entity_id) <|
    field_line (by decide +kernel) (Legible.line hσ ha x.relationship) <|
    field_line (by decide +kernel) (Legible.line hσ ha x.part_location) <|
    field_line (by decide +kernel) (Legible.line hσ ha x.named_location_id) <|
    field_line (by decide +kernel) (Legible.line hσ ha x.part_entity_type) <|
    no_field_line
  same {σ} hσ x := by
    show [
    ("originating_entity_id", text σ (calm x.originating_entity_id)),
  ("receiving_entity_id", text σ (calm x.receiving_entity_id)), ("relationship", text σ (calm x.relationship)),
  ("part_location", text σ (calm x.part_location)), ("named_location_id", text σ (calm x.named_location_id)),
  ("part_entity_type", text σ (calm x.part_entity_type))] = [
    ("originating_entity_id", text σ x.originating_entity_id), ("receiving_entity_id", text σ x.receiving_entity_id),
  ("relationship", text σ x.relationship), ("part_location", text σ x.part_location),
  ("named_location_id", text σ x.named_location_id), ("part_entity_type", text σ x.part_entity_type)]
    simp only [Legible.same hσ]
  reads {σ} hσ {x y r r'} h := by
    have h : fieldsText σ [
    ("originating_entity_id", text σ x.originating_entity_id), ("receiving_entity_id", text σ x.receiving_entity_id),
  ("relationship", text σ x.relationship), ("part_location", text σ x.part_location),
  ("named_location_id", text σ x.named_location_id), ("part_entity_type", text σ x.part_entity_type)] ++ r =
      fieldsText σ [
    ("originating_entity_id", text σ y.originating_entity_id), ("receiving_entity_id", text σ y.receiving_entity_id),
  ("relationship", text σ y.relationship), ("part_location", text σ y.part_location),
  ("named_location_id", text σ y.named_location_id), ("part_entity_type", text σ y.part_entity_type)] ++ r' := h
    obtain ⟨h1, h⟩ := read_next hσ (x := x.originating_entity_id) (y := y.originating_entity_id) h
    obtain ⟨h2, h⟩ := read_next hσ (x := x.receiving_entity_id) (y := y.receiving_entity_id) h
    obtain ⟨h3, h⟩ := read_next hσ (x := x.relationship) (y := y.relationship) h
    obtain ⟨h4, h⟩ := read_next hσ (x := x.part_location) (y := y.part_location) h
    obtain ⟨h5, h⟩ := read_next hσ (x := x.named_location_id) (y := y.named_location_id) h
    obtain ⟨h6, h⟩ := read_next hσ (x := x.part_entity_type) (y := y.part_entity_type) h
    refine ⟨?_, read_end h⟩
    show IsPartOfPdu.mk (calm x.originating_entity_id) (calm x.receiving_entity_id) (calm x.relationship) (calm
      x.part_location) (calm x.named_location_id) (calm x.part_entity_type) = IsPartOfPdu.mk (calm
      y.originating_entity_id) (calm y.receiving_entity_id) (calm y.relationship) (calm y.part_location) (calm
      y.named_location_id) (calm y.part_entity_type)
    rw [h1, h2, h3, h4, h5, h6]
instance : LegibleBody InformationOperationsReportPdu where
  named := by decide +kernel
  line hσ ha x :=
    field_line (by decide +kernel) (Legible.line hσ ha x.originating_simulation_id) <|
    field_line (by decide +kernel) (Legible.line hσ ha x.io_simulation_source) <|
    field_line (by decide +kernel) (Legible.line hσ ha x.io_report_type) <|
    field_line (by decide +kernel) (Legible.line hσ ha x.padding) <|
    field_line (by decide +kernel) (Legible.line hσ ha x.io_attacker_entity_id) <|
    field_line (by decide +kernel) (Legible.line hσ ha x.primary_target_entity_id) <|
    field_line (by decide +kernel) (Legible.line hσ ha x.padding2) <|
    field_line (by decide +kernel) (Legible.line hσ ha x.padding3) <|
    field_line (by decide +kernel) (Legible.line hσ ha x.io_records) <|
    no_field_line
  same {σ} hσ x := by
    show [
    ("originating_simulation_id", text σ (calm x.originating_simulation_id)),
  ("io_simulation_source", text σ (calm x.io_simulation_source)),
  ("io_report_type", text σ (calm x.io_report_type)), ("padding", text σ (calm x.padding)),
  ("io_attacker_entity_id", text σ (calm x.io_attacker_entity_id)),
  ("primary_target_entity_id", text σ (calm x.primary_target_entity_id)), ("padding2", text σ (calm x.padding2)),
  ("padding3", text σ (calm x.padding3)), ("io_records", text σ (calm x.io_records))] = [
    ("originating_simulation_id", text σ x.originating_simulation_id),
  ("io_simulation_source", text σ x.io_simulation_source), ("io_report_type", text σ x.io_report_type),
  ("padding", text σ x.padding), ("io_attacker_entity_id", text σ x.io_attacker_entity_id),
  ("primary_target_entity_id", text σ x.primary_target_entity_id), ("padding2", text σ x.padding2),
  ("padding3", text σ x.padding3), ("io_records", text σ x.io_records)]
    simp only [Legible.same hσ]
  reads {σ} hσ {x y r r'} h := by
    have h : fieldsText σ [
    ("originating_simulation_id", text σ x.originating_simulation_id),
  ("io_simulation_source", text σ x.io_simulation_source), ("io_report_type", text σ x.io_report_type),
  ("padding", text σ x.padding), ("io_attacker_entity_id", text σ x.io_attacker_entity_id),
  ("primary_target_entity_id", text σ x.primary_target_entity_id), ("padding2", text σ x.padding2),
  ("padding3", text σ x.padding3), ("io_records", text σ x.io_records)] ++ r =
      fieldsText σ [
    ("originating_simulation_id", text σ y.originating_simulation_id),
  ("io_simulation_source", text σ y.io_simulation_source), ("io_report_type", text σ y.io_report_type),
  ("padding", text σ y.padding), ("io_attacker_entity_id", text σ y.io_attacker_entity_id),
  ("primary_target_entity_id", text σ y.primary_target_entity_id), ("padding2", text σ y.padding2),
  ("padding3", text σ y.padding3), ("io_records", text σ y.io_records)] ++ r' := h
    obtain ⟨h1, h⟩ := read_next hσ (x := x.originating_simulation_id) (y := y.originating_simulation_id) h
    obtain ⟨h2, h⟩ := read_next hσ (x := x.io_simulation_source) (y := y.io_simulation_source) h
    obtain ⟨h3, h⟩ := read_next hσ (x := x.io_report_type) (y := y.io_report_type) h
    obtain ⟨h4, h⟩ := read_next hσ (x := x.padding) (y := y.padding) h
    obtain ⟨h5, h⟩ := read_next hσ (x := x.io_attacker_entity_id) (y := y.io_attacker_entity_id) h
    obtain ⟨h6, h⟩ := read_next hσ (x := x.primary_target_entity_id) (y := y.primary_target_entity_id) h
    obtain ⟨h7, h⟩ := read_next hσ (x := x.padding2) (y := y.padding2) h
    obtain ⟨h8, h⟩ := read_next hσ (x := x.padding3) (y := y.padding3) h
    obtain ⟨h9, h⟩ := read_next hσ (x := x.io_records) (y := y.io_records) h
    refine ⟨?_, read_end h⟩
    show InformationOperationsReportPdu.mk (calm x.originating_simulation_id) (calm x.io_simulation_source) (calm
      x.io_report_type) (calm x.padding) (calm x.io_attacker_entity_id) (calm x.primary_target_entity_id) (calm
      x.padding2) (calm x.padding3) (calm x.io_records) = InformationOperationsReportPdu.mk (calm
      y.originating_simulation_id) (calm y.io_simulation_source) (calm y.io_report_type) (calm y.padding) (calm
      y.io_attacker_entity_id) (calm y.primary_target_entity_id) (calm y.padding2) (calm y.padding3) (calm
      y.io_records)
    rw [h1, h2, h3, h4, h5, h6, h7, h8, h9]
instance : LegibleBody InformationOperationsActionPdu where
  named := by decide +kernel
  line hσ ha x :=
    field_line (by decide +kernel) (Legible.line hσ ha x.originating_simulation_id) <|
    field_line (by decide +kernel) (Legible.line hσ ha x.receiving_simulation_id) <|
    field_line (by decide +kernel) (Legible.line hσ ha x.request_id) <|
    field_line (by decide +kernel) (Legible.line hσ ha x.io_warfare_type) <|
    field_line (by decide +kernel) (Legible.line hσ ha x.io_simulation_source) <|
    field_line (by decide +kernel) (Legible.line hσ ha x.io_action_type) <|
    field_line (by decide +kernel) (Legible.line hσ ha x.io_action_phase) <|
    field_line (by decide +kernel) (Legible.line hσ ha x.padding) <|
    field_line (by decide +kernel) (Legible.line hσ ha x.io_attacker_entity_id) <|
    field_line (by decide +kernel) (Legible.line hσ ha x.io_primary_target_entity_id) <|
    field_line (by decide +kernel) (Legible.line hσ ha x.padding2) <|
    field_line (by decide +kernel) (Legible.line hσ ha x.io_records) <|
    no_field_line
  same {σ} hσ x := by
    show [
    ("originating_simulation_id", text σ (calm x.originating_simulation_id)),
  ("receiving_simulation_id", text σ (calm x.receiving_simulation_id)), ("request_id", text σ (calm x.request_id)),
  ("io_warfare_type", text σ (calm x.io_warfare_type)),
  ("io_simulation_source", text σ (calm x.io_simulation_source)),
  ("io_action_type", text σ (calm x.io_action_type)), ("io_action_phase", text σ (calm x.io_action_phase)),
  ("padding", text σ (calm x.padding)), ("io_attacker_entity_id", text σ (calm x.io_attacker_entity_id)),
  ("io_primary_target_entity_id", text σ (calm x.io_primary_target_entity_id)),
  ("padding2", text σ (calm x.padding2)), ("io_records", text σ (calm x.io_records))] = [
    ("originating_simulation_id", text σ x.originating_simulation_id),
  ("receiving_simulation_id", text σ x.receiving_simulation_id), ("request_id", text σ x.request_id),
  ("io_warfare_type", text σ x.io_warfare_type), ("io_simulation_source", text σ x.io_simulation_source),
  ("io_action_type", text σ x.io_action_type), ("io_action_phase", text σ x.io_action_phase),
  ("padding", text σ x.padding), ("io_attacker_entity_id", text σ x.io_attacker_entity_id),
  ("io_primary_target_entity_id", text σ x.io_primary_target_entity_id), ("padding2", text σ x.padding2),
  ("io_records", text σ x.io_records)]
    simp only [Legible.same hσ]
  reads {σ} hσ {x y r r'} h := by
    have h : fieldsText σ [
    ("originating_simulation_id", text σ x.originating_simulation_id),
  ("receiving_simulation_id", text σ x.receiving_simulation_id), ("request_id", text σ x.request_id),
  ("io_warfare_type", text σ x.io_warfare_type), ("io_simulation_source", text σ x.io_simulation_source),
  ("io_action_type", text σ x.io_action_type), ("io_action_phase", text σ x.io_action_phase),
  ("padding", text σ x.padding), ("io_attacker_entity_id", text σ x.io_attacker_entity_id),
  ("io_primary_target_entity_id", text σ x.io_primary_target_entity_id), ("padding2", text σ x.padding2),
  ("io_records", text σ x.io_records)] ++ r =
      fieldsText σ [
    ("originating_simulation_id", text σ y.originating_simulation_id),
  ("receiving_simulation_id", text σ y.receiving_simulation_id), ("request_id", text σ y.request_id),
  ("io_warfare_type", text σ y.io_warfare_type), ("io_simulation_source", text σ y.io_simulation_source),
  ("io_action_type", text σ y.io_action_type), ("io_action_phase", text σ y.io_action_phase),
  ("padding", text σ y.padding), ("io_attacker_entity_id", text σ y.io_attacker_entity_id),
  ("io_primary_target_entity_id", text σ y.io_primary_target_entity_id), ("padding2", text σ y.padding2),
  ("io_records", text σ y.io_records)] ++ r' := h
    obtain ⟨h1, h⟩ := read_next hσ (x := x.originating_simulation_id) (y := y.originating_simulation_id) h
    obtain ⟨h2, h⟩ := read_next hσ (x := x.receiving_simulation_id) (y := y.receiving_simulation_id) h
    obtain ⟨h3, h⟩ := read_next hσ (x := x.request_id) (y := y.request_id) h
    obtain ⟨h4, h⟩ := read_next hσ (x := x.io_warfare_type) (y := y.io_warfare_type) h
    obtain ⟨h5, h⟩ := read_next hσ (x := x.io_simulation_source) (y := y.io_simulation_source) h
    obtain ⟨h6, h⟩ := read_next hσ (x := x.io_action_type) (y := y.io_action_type) h
    obtain ⟨h7, h⟩ := read_next hσ (x := x.io_action_phase) (y := y.io_action_phase) h
    obtain ⟨h8, h⟩ := read_next hσ (x := x.padding) (y := y.padding) h
    obtain ⟨h9, h⟩ := read_next hσ (x := x.io_attacker_entity_id) (y := y.io_attacker_entity_id) h
    obtain ⟨h10, h⟩ := read_next hσ (x := x.io_primary_target_entity_id) (y := y.io_primary_target_entity_id) h
    obtain ⟨h11, h⟩ := read_next hσ (x := x.padding2) (y := y.padding2) h
    obtain ⟨h12, h⟩ := read_next hσ (x := x.io_records) (y := y.io_records) h
    refine ⟨?_, read_end h⟩
    show InformationOperationsActionPdu.mk (calm x.originating_simulation_id) (calm x.receiving_simulation_id) (calm
      x.request_id) (calm x.io_warfare_type) (calm x.io_simulation_source) (calm x.io_action_type) (calm
      x.io_action_phase) (calm x.padding) (calm x.io_attacker_entity_id) (calm x.io_primary_target_entity_id) (calm
      x.padding2) (calm x.io_records) = InformationOperationsActionPdu.mk (calm y.originating_simulation_id) (calm
      y.receiving_simulation_id) (calm y.request_id) (calm y.io_warfare_type) (calm y.io_simulation_source) (calm
      y.io_action_type) (calm y.io_action_phase) (calm y.padding) (calm y.io_attacker_entity_id) (calm
      y.io_primary_target_entity_id) (calm y.padding2) (calm y.io_records)
    rw [h1, h2, h3, h4, h5, h6, h7, h8, h9, h10, h11, h12]
instance : LegibleBody ServiceRequestPdu where
  named := by decide +kernel
  line hσ ha x :=
    field_line (by decide +kernel) (Legible.line hσ ha x.receiving_entity_id) <|
    field_line (by decide +kernel) (Legible.line hσ ha x.servicing_entity_id) <|
    field_line (by decide +kernel) (Legible.line hσ ha x.service_type_requested) <|
    field_line (by decide +kernel) (Legible.line hσ ha x.number_of_supply_types) <|
    field_line (by decide +kernel) (Legible.line hσ ha x.padding) <|
    field_line (by decide +kernel) (Legible.line hσ ha x.supplies) <|
    no_field_line
  same {σ} hσ x := by
    show [
    ("receiving_entity_id", text σ (calm x.receiving_entity_id)),
  ("servicing_entity_id", text σ (calm x.servicing_entity_id)),
  ("service_type_requested", text σ (calm x.service_type_requested)),
  ("number_of_supply_types", text σ (calm x.number_of_supply_types)), ("padding", text σ (calm x.padding)),
  ("supplies", text σ (calm x.supplies))] = [
    ("receiving_entity_id", text σ x.receiving_entity_id), ("servicing_entity_id", text σ x.servicing_entity_id),
  ("service_type_requested", text σ x.service_type_requested),
  ("number_of_supply_types", text σ x.number_of_supply_types), ("padding", text σ x.padding),
  ("supplies", text σ x.supplies)]
    simp only [Legible.same hσ]
  reads {σ} hσ {x y r r'} h := by
    have h : fieldsText σ [
    ("receiving_entity_id", text σ x.receiving_entity_id), ("servicing_entity_id", text σ x.servicing_entity_id),
  ("service_type_requested", text σ x.service_type_requested),
  ("number_of_supply_types", text σ x.number_of_supply_types), ("padding", text σ x.padding),
  ("supplies", text σ x.supplies)] ++ r =
      fieldsText σ [
    ("receiving_entity_id", text σ y.receiving_entity_id), ("servicing_entity_id", text σ y.servicing_entity_id),
  ("service_type_requested", text σ y.service_type_requested),
  ("number_of_supply_types", text σ y.number_of_supply_types), ("padding", text σ y.padding),
  ("supplies", text σ y.supplies)] ++ r' := h
    obtain ⟨h1, h⟩ := read_next hσ (x := x.receiving_entity_id) (y := y.receiving_entity_id) h
    obtain ⟨h2, h⟩ := read_next hσ (x := x.servicing_entity_id) (y := y.servicing_entity_id) h
    obtain ⟨h3, h⟩ := read_next hσ (x := x.service_type_requested) (y := y.service_type_requested) h
    obtain ⟨h4, h⟩ := read_next hσ (x := x.number_of_supply_types) (y := y.number_of_supply_types) h
    obtain ⟨h5, h⟩ := read_next hσ (x := x.padding) (y := y.padding) h
    obtain ⟨h6, h⟩ := read_next hσ (x := x.supplies) (y := y.supplies) h
    refine ⟨?_, read_end h⟩
    show ServiceRequestPdu.mk (calm x.receiving_entity_id) (calm x.servicing_entity_id) (calm
      x.service_type_requested) (calm x.number_of_supply_types) (calm x.padding) (calm x.supplies) =
      ServiceRequestPdu.mk (calm y.receiving_entity_id) (calm y.servicing_entity_id) (calm y.service_type_requested)
      (calm y.number_of_supply_types) (calm y.padding) (calm y.supplies)
    rw [h1, h2, h3, h4, h5, h6]
instance : LegibleBody ResupplyOfferPdu where
  named := by decide +kernel
  line hσ ha x :=
    field_line (by decide +kernel) (Legible.line hσ ha x.receiving_entity_id) <|
    field_line (by decide +kernel) (Legible.line hσ ha x.supplying_entity_id) <|
    field_line (by decide +kernel) (Legible.line hσ ha x.number_of_supply_types) <|
    field_line (by decide +kernel) (Legible.line hσ ha x.padding) <|
    field_line (by decide +kernel) (Legible.line hσ ha x.padding2) <|
    field_line (by decide +kernel) (Legible.line hσ ha x.supplies) <|
    no_field_line
  same {σ} hσ x := by
    show [
    ("receiving_entity_id", text σ (calm x.receiving_entity_id)),
  ("supplying_entity_id", text σ (calm x.supplying_entity_id)),
  ("number_of_supply_types", text σ (calm x.number_of_supply_types)), ("padding", text σ (calm x.padding)),
  ("padding2", text σ (calm x.padding2)), ("supplies", text σ (calm x.supplies))] = [
    ("receiving_entity_id", text σ x.receiving_entity_id), ("supplying_entity_id", text σ x.supplying_entity_id),
  ("number_of_supply_types", text σ x.number_of_supply_types), ("padding", text σ x.padding),
  ("padding2", text σ x.padding2), ("supplies", text σ x.supplies)]
    simp only [Legible.same hσ]
  reads {σ} hσ {x y r r'} h := by
    have h : fieldsText σ [
    ("receiving_entity_id", text σ x.receiving_entity_id), ("supplying_entity_id", text σ x.supplying_entity_id),
  ("number_of_supply_types", text σ x.number_of_supply_types), ("padding", text σ x.padding),
  ("padding2", text σ x.padding2), ("supplies", text σ x.supplies)] ++ r =
      fieldsText σ [
    ("receiving_entity_id", text σ y.receiving_entity_id), ("supplying_entity_id", text σ y.supplying_entity_id),
  ("number_of_supply_types", text σ y.number_of_supply_types), ("padding", text σ y.padding),
  ("padding2", text σ y.padding2), ("supplies", text σ y.supplies)] ++ r' := h
    obtain ⟨h1, h⟩ := read_next hσ (x := x.receiving_entity_id) (y := y.receiving_entity_id) h
    obtain ⟨h2, h⟩ := read_next hσ (x := x.supplying_entity_id) (y := y.supplying_entity_id) h
    obtain ⟨h3, h⟩ := read_next hσ (x := x.number_of_supply_types) (y := y.number_of_supply_types) h
    obtain ⟨h4, h⟩ := read_next hσ (x := x.padding) (y := y.padding) h
    obtain ⟨h5, h⟩ := read_next hσ (x := x.padding2) (y := y.padding2) h
    obtain ⟨h6, h⟩ := read_next hσ (x := x.supplies) (y := y.supplies) h
    refine ⟨?_, read_end h⟩
    show ResupplyOfferPdu.mk (calm x.receiving_entity_id) (calm x.supplying_entity_id) (calm x.number_of_supply_types)
      (calm x.padding) (calm x.padding2) (calm x.supplies) = ResupplyOfferPdu.mk (calm y.receiving_entity_id) (calm
      y.supplying_entity_id) (calm y.number_of_supply_types) (calm y.padding) (calm y.padding2) (calm y.supplies)
    rw [h1, h2, h3, h4, h5, h6]
instance : LegibleBody ResupplyReceivedPdu where
  named := by decide +kernel
  line hσ ha x :=
    field_line (by decide +kernel) (Legible.line hσ ha x.receiving_entity_id) <|
    field_line (by decide +kernel) (Legible.line hσ ha x.supplying_entity_id) <|
    field_line (by decide +kernel) (Legible.line hσ ha x.number_of_supply_types) <|
    field_line (by decide +kernel) (Legible.line hσ ha x.padding) <|
    field_line (by decide +kernel) (Legible.line hσ ha x.padding2) <|
    field_line (by decide +kernel) (Legible.line hσ ha x.supplies) <|
    no_field_line
  same {σ} hσ x := by
    show [
    ("receiving_entity_id", text σ (calm x.receiving_entity_id)),
  ("supplying_entity_id", text σ (calm x.supplying_entity_id)),
  ("number_of_supply_types", text σ (calm x.number_of_supply_types)), ("padding", text σ (calm x.padding)),
  ("padding2", text σ (calm x.padding2)), ("supplies", text σ (calm x.supplies))] = [
    ("receiving_entity_id", text σ x.receiving_entity_id), ("supplying_entity_id", text σ x.supplying_entity_id),
  ("number_of_supply_types", text σ x.number_of_supply_types), ("padding", text σ x.padding),
  ("padding2", text σ x.padding2), ("supplies", text σ x.supplies)]
    simp only [Legible.same hσ]
  reads {σ} hσ {x y r r'} h := by
    have h : fieldsText σ [
    ("receiving_entity_id", text σ x.receiving_entity_id), ("supplying_entity_id", text σ x.supplying_entity_id),
  ("number_of_supply_types", text σ x.number_of_supply_types), ("padding", text σ x.padding),
  ("padding2", text σ x.padding2), ("supplies", text σ x.supplies)] ++ r =
      fieldsText σ [
    ("receiving_entity_id", text σ y.receiving_entity_id), ("supplying_entity_id", text σ y.supplying_entity_id),
  ("number_of_supply_types", text σ y.number_of_supply_types), ("padding", text σ y.padding),
  ("padding2", text σ y.padding2), ("supplies", text σ y.supplies)] ++ r' := h
    obtain ⟨h1, h⟩ := read_next hσ (x := x.receiving_entity_id) (y := y.receiving_entity_id) h
    obtain ⟨h2, h⟩ := read_next hσ (x := x.supplying_entity_id) (y := y.supplying_entity_id) h
    obtain ⟨h3, h⟩ := read_next hσ (x := x.number_of_supply_types) (y := y.number_of_supply_types) h
    obtain ⟨h4, h⟩ := read_next hσ (x := x.padding) (y := y.padding) h
    obtain ⟨h5, h⟩ := read_next hσ (x := x.padding2) (y := y.padding2) h
    obtain ⟨h6, h⟩ := read_next hσ (x := x.supplies) (y := y.supplies) h
    refine ⟨?_, read_end h⟩
    show ResupplyReceivedPdu.mk (calm x.receiving_entity_id) (calm x.supplying_entity_id) (calm
      x.number_of_supply_types) (calm x.padding) (calm x.padding2) (calm x.supplies) = ResupplyReceivedPdu.mk (calm
      y.receiving_entity_id) (calm y.supplying_entity_id) (calm y.number_of_supply_types) (calm y.padding) (calm
      y.padding2) (calm y.supplies)
    rw [h1, h2, h3, h4, h5, h6]
instance : LegibleBody ResupplyCancelPdu where
  named := by decide +kernel
  line hσ ha x :=
    field_line (by decide +kernel) (Legible.line hσ ha x.receiving_entity_id) <|
    field_line (by decide +kernel) (Legible.line hσ ha x.supplying_entity_id) <|
    no_field_line
  same _ _ := rfl
  reads {σ} hσ {x y r r'} h := by
    have h : fieldsText σ [
    ("receiving_entity_id", text σ x.receiving_entity_id), ("supplying_entity_id", text σ x.supplying_entity_id)] ++ r =
      fieldsText σ [
    ("receiving_entity_id", text σ y.receiving_entity_id), ("supplying_entity_id", text σ y.supplying_entity_id)] ++ r' := h
    obtain ⟨h1, h⟩ := read_next hσ (x := x.receiving_entity_id) (y := y.receiving_entity_id) h
    obtain ⟨h2, h⟩ := read_next hσ (x := x.supplying_entity_id) (y := y.supplying_entity_id) h
    refine ⟨?_, read_end h⟩
    show ResupplyCancelPdu.mk (calm x.receiving_entity_id) (calm x.supplying_entity_id) = ResupplyCancelPdu.mk (calm
      y.receiving_entity_id) (calm y.supplying_entity_id)
    rw [h1, h2]
instance : LegibleBody RepairCompletePdu where
  named := by decide +kernel
  line hσ ha x :=
    field_line (by decide +kernel) (Legible.line hσ ha x.receiving_entity_id) <|
    field_line (by decide +kernel) (Legible.line hσ ha x.repairing_entity_id) <|
    field_line (by decide +kernel) (Legible.line hσ ha x.repair) <|
    field_line (by decide +kernel) (Legible.line hσ ha x.padding) <|
    no_field_line
  same _ _ := rfl
  reads {σ} hσ {x y r r'} h := by
    have h : fieldsText σ [
    ("receiving_entity_id", text σ x.receiving_entity_id), ("repairing_entity_id", text σ x.repairing_entity_id),
  ("repair", text σ x.repair), ("padding", text σ x.padding)] ++ r =
      fieldsText σ [
    ("receiving_entity_id", text σ y.receiving_entity_id), ("repairing_entity_id", text σ y.repairing_entity_id),
  ("repair", text σ y.repair), ("padding", text σ y.padding)] ++ r' := h
    obtain ⟨h1, h⟩ := read_next hσ (x := x.receiving_entity_id) (y := y.receiving_entity_id) h
    obtain ⟨h2, h⟩ := read_next hσ (x := x.repairing_entity_id) (y := y.repairing_entity_id) h
    obtain ⟨h3, h⟩ := read_next hσ (x := x.repair) (y := y.repair) h
    obtain ⟨h4, h⟩ := read_next hσ (x := x.padding) (y := y.padding) h
    refine ⟨?_, read_end h⟩
    show RepairCompletePdu.mk (calm x.receiving_entity_id) (calm x.repairing_entity_id) (calm x.repair) (calm
      x.padding) = RepairCompletePdu.mk (calm y.receiving_entity_id) (calm y.repairing_entity_id) (calm y.repair)
      (calm y.padding)
    rw [h1, h2, h3, h4]
instance : LegibleBody RepairResponsePdu where
  named := by decide +kernel
  line hσ ha x :=
    field_line (by decide +kernel) (Legible.line hσ ha x.receiving_entity_id) <|
    field_line (by decide +kernel) (Legible.line hσ ha x.repairing_entity_id) <|
    field_line (by decide +kernel) (Legible.line hσ ha x.repair_result) <|
    field_line (by decide +kernel) (Legible.line hσ ha x.padding) <|
    field_line (by decide +kernel) (Legible.line hσ ha x.padding2) <|
    no_field_line
  same _ _ := rfl
  reads {σ} hσ {x y r r'} h := by
    have h : fieldsText σ [
    ("receiving_entity_id", text σ x.receiving_entity_id), ("repairing_entity_id", text σ x.repairing_entity_id),
  ("repair_result", text σ x.repair_result), ("padding", text σ x.padding), ("padding2", text σ x.padding2)] ++ r =
      fieldsText σ [
    ("receiving_entity_id", text σ y.receiving_entity_id), ("repairing_entity_id", text σ y.repairing_entity_id),
  ("repair_result", text σ y.repair_result), ("padding", text σ y.padding), ("padding2", text σ y.padding2)] ++ r' := h
    obtain ⟨h1, h⟩ := read_next hσ (x := x.receiving_entity_id) (y := y.receiving_entity_id) h
    obtain ⟨h2, h⟩ := read_next hσ (x := x.repairing_entity_id) (y := y.repairing_entity_id) h
    obtain ⟨h3, h⟩ := read_next hσ (x := x.repair_result) (y := y.repair_result) h
    obtain ⟨h4, h⟩ := read_next hσ (x := x.padding) (y := y.padding) h
    obtain ⟨h5, h⟩ := read_next hσ (x := x.padding2) (y := y.padding2) h
    refine ⟨?_, read_end h⟩
    show RepairResponsePdu.mk (calm x.receiving_entity_id) (calm x.repairing_entity_id) (calm x.repair_result) (calm
      x.padding) (calm x.padding2) = RepairResponsePdu.mk (calm y.receiving_entity_id) (calm y.repairing_entity_id)
      (calm y.repair_result) (calm y.padding) (calm y.padding2)
    rw [h1, h2, h3, h4, h5]

end Dis
