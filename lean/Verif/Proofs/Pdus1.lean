import Verif.Spec.PduWire1
import Verif.Proofs.Records
/- Generated by tools/gen_pdus.py. -/
set_option linter.unusedSimpArgs false
set_option maxRecDepth 8000
namespace Dis

theorem ElectromagneticEmissionsPdu.writes (x : ElectromagneticEmissionsPdu) : Writes x.serializeBody (wire (sent x)) :=
    Writes.seq (writes_exact x.emitting_entity_id) <|
    Writes.seq (writes_exact x.event_id) <|
    Writes.seq (writes_exact x.state_update_indicator) <|
    Writes.seq (writes_exact x.number_of_systems) <|
    Writes.seq (writes_exact x.padding) <|
    writes_exact x.systems
theorem ElectromagneticEmissionsPdu.len (x : ElectromagneticEmissionsPdu) : ((wire (sent x)).length : Int) = (x.fieldsLen : Nat) + surplus x := by
  show ((wire x.emitting_entity_id ++ (wire x.event_id ++ (wire x.state_update_indicator ++ (wire x.number_of_systems ++ (wire x.padding ++ (wire x.systems)))))).length : Int) = (x.fieldsLen : Nat) + ((0 : Int))
  simp only [List.length_append, ElectromagneticEmissionsPdu.fieldsLen]
  have h_emitting_entity_id := len_exact x.emitting_entity_id
  have h_event_id := len_exact x.event_id
  have h_state_update_indicator := len_exact x.state_update_indicator
  have h_number_of_systems := len_exact x.number_of_systems
  have h_padding := len_exact x.padding
  have h_systems := len_exact x.systems
  omega
theorem ElectromagneticEmissionsPdu.appends (x : ElectromagneticEmissionsPdu) : Appends x.serializeBody :=
    Appends.seq (LawfulEnc.appends x.emitting_entity_id) <|
    Appends.seq (LawfulEnc.appends x.event_id) <|
    Appends.seq (LawfulEnc.appends x.state_update_indicator) <|
    Appends.seq (LawfulEnc.appends x.number_of_systems) <|
    Appends.seq (LawfulEnc.appends x.padding) <|
    LawfulEnc.appends x.systems
theorem ElectromagneticEmissionsPdu.ifOk (x : ElectromagneticEmissionsPdu) : WritesIfOk x.serializeBody (wire (sent x)) :=
    (ElectromagneticEmissionsPdu.writes x).ifOk
theorem ElectromagneticEmissionsPdu.reads (x : ElectromagneticEmissionsPdu) : Reads ElectromagneticEmissionsPdu.deserializeBody (wire (kept x)) (kept x) :=
    Reads.bind (reads_exact x.emitting_entity_id) <|
    Reads.bind (reads_exact x.event_id) <|
    Reads.bind (reads_exact x.state_update_indicator) <|
    Reads.bind (reads_exact x.number_of_systems) <|
    Reads.bind (reads_exact x.padding) <|
    Reads.last (Reads.ret _) (Reads.ret _)
theorem ElectromagneticEmissionsPdu.fixed : Fixed ElectromagneticEmissionsPdu.deserializeBody 16 := Fixed.congr (
    Fixed.bind (FixedDec.fixed) fun _ =>
    Fixed.bind (FixedDec.fixed) fun _ =>
    Fixed.bind (FixedDec.fixed) fun _ =>
    Fixed.bind (FixedDec.fixed) fun _ =>
    Fixed.bind (FixedDec.fixed) fun _ =>
    Fixed.bind (FixedDec.fixed) fun _ =>
    Fixed.ret _) rfl
theorem ElectromagneticEmissionsPdu.loc : Local ElectromagneticEmissionsPdu.deserializeBody :=
    Local.bind (LocalDec.loc) fun _ =>
    Local.bind (LocalDec.loc) fun _ =>
    Local.bind (LocalDec.loc) fun _ =>
    Local.bind (LocalDec.loc) fun _ =>
    Local.bind (LocalDec.loc) fun _ =>
    Local.bind (LocalDec.loc) fun _ =>
    Local.ret _
theorem ElectromagneticEmissionsPdu.under : OnlyUnderflow ElectromagneticEmissionsPdu.deserializeBody :=
    OnlyUnderflow.bind (UnderflowDec.under) fun _ =>
    OnlyUnderflow.bind (UnderflowDec.under) fun _ =>
    OnlyUnderflow.bind (UnderflowDec.under) fun _ =>
    OnlyUnderflow.bind (UnderflowDec.under) fun _ =>
    OnlyUnderflow.bind (UnderflowDec.under) fun _ =>
    OnlyUnderflow.bind (UnderflowDec.under) fun _ =>
    OnlyUnderflow.ret _
theorem ElectromagneticEmissionsPdu.split (x : ElectromagneticEmissionsPdu) : wire x = wire (kept x) ++ tail x := by
  show wire x.emitting_entity_id ++ (wire x.event_id ++ (wire x.state_update_indicator ++ (wire x.number_of_systems ++ (wire x.padding ++ (wire x.systems)))))
    = (wire x.emitting_entity_id ++ (wire x.event_id ++ (wire x.state_update_indicator ++ (wire x.number_of_systems ++ (wire x.padding ++ ([]))))))
      ++ (wire x.systems)
  simp only [List.append_assoc, List.append_nil, List.nil_append]

theorem DesignatorPdu.writes (x : DesignatorPdu) : Writes x.serializeBody (wire (sent x)) :=
    Writes.seq (writes_exact x.designating_entity_id) <|
    Writes.seq (writes_exact x.code_name) <|
    Writes.seq (writes_exact x.designated_entity_id) <|
    Writes.seq (writes_exact x.designator_code) <|
    Writes.seq (writes_exact x.designator_power) <|
    Writes.seq (writes_exact x.designator_wavelength) <|
    Writes.seq (writes_exact x.designator_spot_wrt_designated) <|
    Writes.seq (writes_exact x.designator_spot_location) <|
    Writes.seq (writes_exact x.dead_reckoning_algorithm) <|
    Writes.seq (writes_exact x.padding) <|
    Writes.seq (writes_exact x.padding2) <|
    writes_exact x.entity_linear_acceleration
theorem DesignatorPdu.len (x : DesignatorPdu) : ((wire (sent x)).length : Int) = (x.fieldsLen : Nat) + surplus x := by
  show ((wire x.designating_entity_id ++ (wire x.code_name ++ (wire x.designated_entity_id ++ (wire x.designator_code ++ (wire x.designator_power ++ (wire x.designator_wavelength ++ (wire x.designator_spot_wrt_designated ++ (wire x.designator_spot_location ++ (wire x.dead_reckoning_algorithm ++ (wire x.padding ++ (wire x.padding2 ++ (wire x.entity_linear_acceleration)))))))))))).length : Int) = (x.fieldsLen : Nat) + ((0 : Int))
  simp only [List.length_append, DesignatorPdu.fieldsLen]
  have h_designating_entity_id := len_exact x.designating_entity_id
  have h_code_name := len_exact x.code_name
  have h_designated_entity_id := len_exact x.designated_entity_id
  have h_designator_code := len_exact x.designator_code
  have h_designator_power := len_exact x.designator_power
  have h_designator_wavelength := len_exact x.designator_wavelength
  have h_designator_spot_wrt_designated := len_exact x.designator_spot_wrt_designated
  have h_designator_spot_location := len_exact x.designator_spot_location
  have h_dead_reckoning_algorithm := len_exact x.dead_reckoning_algorithm
  have h_padding := len_exact x.padding
  have h_padding2 := len_exact x.padding2
  have h_entity_linear_acceleration := len_exact x.entity_linear_acceleration
  omega
theorem DesignatorPdu.appends (x : DesignatorPdu) : Appends x.serializeBody :=
    Appends.seq (LawfulEnc.appends x.designating_entity_id) <|
    Appends.seq (LawfulEnc.appends x.code_name) <|
    Appends.seq (LawfulEnc.appends x.designated_entity_id) <|
    Appends.seq (LawfulEnc.appends x.designator_code) <|
    Appends.seq (LawfulEnc.appends x.designator_power) <|
    Appends.seq (LawfulEnc.appends x.designator_wavelength) <|
    Appends.seq (LawfulEnc.appends x.designator_spot_wrt_designated) <|
    Appends.seq (LawfulEnc.appends x.designator_spot_location) <|
    Appends.seq (LawfulEnc.appends x.dead_reckoning_algorithm) <|
    Appends.seq (LawfulEnc.appends x.padding) <|
    Appends.seq (LawfulEnc.appends x.padding2) <|
    LawfulEnc.appends x.entity_linear_acceleration
theorem DesignatorPdu.ifOk (x : DesignatorPdu) : WritesIfOk x.serializeBody (wire (sent x)) :=
    (DesignatorPdu.writes x).ifOk
theorem DesignatorPdu.reads (x : DesignatorPdu) : Reads DesignatorPdu.deserializeBody (wire (kept x)) (kept x) :=
    Reads.bind (reads_exact x.designating_entity_id) <|
    Reads.bind (reads_exact x.code_name) <|
    Reads.bind (reads_exact x.designated_entity_id) <|
    Reads.bind (reads_exact x.designator_code) <|
    Reads.bind (reads_exact x.designator_power) <|
    Reads.bind (reads_exact x.designator_wavelength) <|
    Reads.bind (reads_exact x.designator_spot_wrt_designated) <|
    Reads.bind (reads_exact x.designator_spot_location) <|
    Reads.bind (reads_exact x.dead_reckoning_algorithm) <|
    Reads.bind (reads_exact x.padding) <|
    Reads.bind (reads_exact x.padding2) <|
    Reads.last (reads_exact x.entity_linear_acceleration) (Reads.ret _)
theorem DesignatorPdu.fixed : Fixed DesignatorPdu.deserializeBody 76 := Fixed.congr (
    Fixed.bind (FixedDec.fixed) fun _ =>
    Fixed.bind (FixedDec.fixed) fun _ =>
    Fixed.bind (FixedDec.fixed) fun _ =>
    Fixed.bind (FixedDec.fixed) fun _ =>
    Fixed.bind (FixedDec.fixed) fun _ =>
    Fixed.bind (FixedDec.fixed) fun _ =>
    Fixed.bind (FixedDec.fixed) fun _ =>
    Fixed.bind (FixedDec.fixed) fun _ =>
    Fixed.bind (FixedDec.fixed) fun _ =>
    Fixed.bind (FixedDec.fixed) fun _ =>
    Fixed.bind (FixedDec.fixed) fun _ =>
    Fixed.bind (FixedDec.fixed) fun _ =>
    Fixed.ret _) rfl
theorem DesignatorPdu.loc : Local DesignatorPdu.deserializeBody :=
    Local.bind (LocalDec.loc) fun _ =>
    Local.bind (LocalDec.loc) fun _ =>
    Local.bind (LocalDec.loc) fun _ =>
    Local.bind (LocalDec.loc) fun _ =>
    Local.bind (LocalDec.loc) fun _ =>
    Local.bind (LocalDec.loc) fun _ =>
    Local.bind (LocalDec.loc) fun _ =>
    Local.bind (LocalDec.loc) fun _ =>
    Local.bind (LocalDec.loc) fun _ =>
    Local.bind (LocalDec.loc) fun _ =>
    Local.bind (LocalDec.loc) fun _ =>
    Local.bind (LocalDec.loc) fun _ =>
    Local.ret _
theorem DesignatorPdu.under : OnlyUnderflow DesignatorPdu.deserializeBody :=
    OnlyUnderflow.bind (UnderflowDec.under) fun _ =>
    OnlyUnderflow.bind (UnderflowDec.under) fun _ =>
    OnlyUnderflow.bind (UnderflowDec.under) fun _ =>
    OnlyUnderflow.bind (UnderflowDec.under) fun _ =>
    OnlyUnderflow.bind (UnderflowDec.under) fun _ =>
    OnlyUnderflow.bind (UnderflowDec.under) fun _ =>
    OnlyUnderflow.bind (UnderflowDec.under) fun _ =>
    OnlyUnderflow.bind (UnderflowDec.under) fun _ =>
    OnlyUnderflow.bind (UnderflowDec.under) fun _ =>
    OnlyUnderflow.bind (UnderflowDec.under) fun _ =>
    OnlyUnderflow.bind (UnderflowDec.under) fun _ =>
    OnlyUnderflow.bind (UnderflowDec.under) fun _ =>
    OnlyUnderflow.ret _
theorem DesignatorPdu.split (x : DesignatorPdu) : wire x = wire (kept x) ++ tail x := (List.append_nil _).symm

theorem UnderwaterAcousticPdu.writes (x : UnderwaterAcousticPdu) : Writes x.serializeBody (wire (sent x)) :=
    Writes.seq (writes_exact x.emitting_entity_id) <|
    Writes.seq (writes_exact x.event_id) <|
    Writes.seq (writes_exact x.state_change_update_indicator) <|
    Writes.seq (writes_exact x.padding) <|
    Writes.seq (writes_exact x.passive_parameter_index) <|
    Writes.seq (writes_exact x.propulsion_plant_configuration) <|
    Writes.seq (writes_exact x.number_of_shafts) <|
    Writes.seq (writes_exact x.number_of_apas) <|
    Writes.seq (writes_exact x.number_of_ua_emitter_systems) <|
    Writes.seq (writes_exact x.shaft_rpms) <|
    Writes.seq (writes_exact x.apa_data) <|
    writes_exact x.emitter_systems
theorem UnderwaterAcousticPdu.len (x : UnderwaterAcousticPdu) : ((wire (sent x)).length : Int) = (x.fieldsLen : Nat) + surplus x := by
  show ((wire x.emitting_entity_id ++ (wire x.event_id ++ (wire x.state_change_update_indicator ++ (wire x.padding ++ (wire x.passive_parameter_index ++ (wire x.propulsion_plant_configuration ++ (wire x.number_of_shafts ++ (wire x.number_of_apas ++ (wire x.number_of_ua_emitter_systems ++ (wire x.shaft_rpms ++ (wire x.apa_data ++ (wire x.emitter_systems)))))))))))).length : Int) = (x.fieldsLen : Nat) + ((0 : Int))
  simp only [List.length_append, UnderwaterAcousticPdu.fieldsLen]
  have h_emitting_entity_id := len_exact x.emitting_entity_id
  have h_event_id := len_exact x.event_id
  have h_state_change_update_indicator := len_exact x.state_change_update_indicator
  have h_padding := len_exact x.padding
  have h_passive_parameter_index := len_exact x.passive_parameter_index
  have h_propulsion_plant_configuration := len_exact x.propulsion_plant_configuration
  have h_number_of_shafts := len_exact x.number_of_shafts
  have h_number_of_apas := len_exact x.number_of_apas
  have h_number_of_ua_emitter_systems := len_exact x.number_of_ua_emitter_systems
  have h_shaft_rpms := len_exact x.shaft_rpms
  have h_apa_data := len_exact x.apa_data
  have h_emitter_systems := len_exact x.emitter_systems
  omega
theorem UnderwaterAcousticPdu.appends (x : UnderwaterAcousticPdu) : Appends x.serializeBody :=
    Appends.seq (LawfulEnc.appends x.emitting_entity_id) <|
    Appends.seq (LawfulEnc.appends x.event_id) <|
    Appends.seq (LawfulEnc.appends x.state_change_update_indicator) <|
    Appends.seq (LawfulEnc.appends x.padding) <|
    Appends.seq (LawfulEnc.appends x.passive_parameter_index) <|
    Appends.seq (LawfulEnc.appends x.propulsion_plant_configuration) <|
    Appends.seq (LawfulEnc.appends x.number_of_shafts) <|
    Appends.seq (LawfulEnc.appends x.number_of_apas) <|
    Appends.seq (LawfulEnc.appends x.number_of_ua_emitter_systems) <|
    Appends.seq (LawfulEnc.appends x.shaft_rpms) <|
    Appends.seq (LawfulEnc.appends x.apa_data) <|
    LawfulEnc.appends x.emitter_systems
theorem UnderwaterAcousticPdu.ifOk (x : UnderwaterAcousticPdu) : WritesIfOk x.serializeBody (wire (sent x)) :=
    (UnderwaterAcousticPdu.writes x).ifOk
theorem UnderwaterAcousticPdu.reads (x : UnderwaterAcousticPdu) : Reads UnderwaterAcousticPdu.deserializeBody (wire (kept x)) (kept x) :=
    Reads.bind (reads_exact x.emitting_entity_id) <|
    Reads.bind (reads_exact x.event_id) <|
    Reads.bind (reads_exact x.state_change_update_indicator) <|
    Reads.bind (reads_exact x.padding) <|
    Reads.bind (reads_exact x.passive_parameter_index) <|
    Reads.bind (reads_exact x.propulsion_plant_configuration) <|
    Reads.bind (reads_exact x.number_of_shafts) <|
    Reads.bind (reads_exact x.number_of_apas) <|
    Reads.bind (reads_exact x.number_of_ua_emitter_systems) <|
    Reads.bind (Reads.ret _) <|
    Reads.bind (Reads.ret _) <|
    Reads.last (Reads.ret _) (Reads.ret _)
theorem UnderwaterAcousticPdu.fixed : Fixed UnderwaterAcousticPdu.deserializeBody 20 := Fixed.congr (
    Fixed.bind (FixedDec.fixed) fun _ =>
    Fixed.bind (FixedDec.fixed) fun _ =>
    Fixed.bind (FixedDec.fixed) fun _ =>
    Fixed.bind (FixedDec.fixed) fun _ =>
    Fixed.bind (FixedDec.fixed) fun _ =>
    Fixed.bind (FixedDec.fixed) fun _ =>
    Fixed.bind (FixedDec.fixed) fun _ =>
    Fixed.bind (FixedDec.fixed) fun _ =>
    Fixed.bind (FixedDec.fixed) fun _ =>
    Fixed.bind (FixedDec.fixed) fun _ =>
    Fixed.bind (FixedDec.fixed) fun _ =>
    Fixed.bind (FixedDec.fixed) fun _ =>
    Fixed.ret _) rfl
theorem UnderwaterAcousticPdu.loc : Local UnderwaterAcousticPdu.deserializeBody :=
    Local.bind (LocalDec.loc) fun _ =>
    Local.bind (LocalDec.loc) fun _ =>
    Local.bind (LocalDec.loc) fun _ =>
    Local.bind (LocalDec.loc) fun _ =>
    Local.bind (LocalDec.loc) fun _ =>
    Local.bind (LocalDec.loc) fun _ =>
    Local.bind (LocalDec.loc) fun _ =>
    Local.bind (LocalDec.loc) fun _ =>
    Local.bind (LocalDec.loc) fun _ =>
    Local.bind (LocalDec.loc) fun _ =>
    Local.bind (LocalDec.loc) fun _ =>
    Local.bind (LocalDec.loc) fun _ =>
    Local.ret _
theorem UnderwaterAcousticPdu.under : OnlyUnderflow UnderwaterAcousticPdu.deserializeBody :=
    OnlyUnderflow.bind (UnderflowDec.under) fun _ =>
    OnlyUnderflow.bind (UnderflowDec.under) fun _ =>
    OnlyUnderflow.bind (UnderflowDec.under) fun _ =>
    OnlyUnderflow.bind (UnderflowDec.under) fun _ =>
    OnlyUnderflow.bind (UnderflowDec.under) fun _ =>
    OnlyUnderflow.bind (UnderflowDec.under) fun _ =>
    OnlyUnderflow.bind (UnderflowDec.under) fun _ =>
    OnlyUnderflow.bind (UnderflowDec.under) fun _ =>
    OnlyUnderflow.bind (UnderflowDec.under) fun _ =>
    OnlyUnderflow.bind (UnderflowDec.under) fun _ =>
    OnlyUnderflow.bind (UnderflowDec.under) fun _ =>
    OnlyUnderflow.bind (UnderflowDec.under) fun _ =>
    OnlyUnderflow.ret _
theorem UnderwaterAcousticPdu.split (x : UnderwaterAcousticPdu) : wire x = wire (kept x) ++ tail x := by
  show wire x.emitting_entity_id ++ (wire x.event_id ++ (wire x.state_change_update_indicator ++ (wire x.padding ++ (wire x.passive_parameter_index ++ (wire x.propulsion_plant_configuration ++ (wire x.number_of_shafts ++ (wire x.number_of_apas ++ (wire x.number_of_ua_emitter_systems ++ (wire x.shaft_rpms ++ (wire x.apa_data ++ (wire x.emitter_systems)))))))))))
    = (wire x.emitting_entity_id ++ (wire x.event_id ++ (wire x.state_change_update_indicator ++ (wire x.padding ++ (wire x.passive_parameter_index ++ (wire x.propulsion_plant_configuration ++ (wire x.number_of_shafts ++ (wire x.number_of_apas ++ (wire x.number_of_ua_emitter_systems ++ ([] ++ ([] ++ ([]))))))))))))
      ++ (wire x.shaft_rpms ++ (wire x.apa_data ++ (wire x.emitter_systems)))
  simp only [List.append_assoc, List.append_nil, List.nil_append]

theorem IFFPdu.writes (x : IFFPdu) : Writes x.serializeBody (wire (sent x)) :=
    Writes.seq (writes_exact x.emitting_entity_id) <|
    Writes.seq (writes_exact x.event_id) <|
    Writes.seq (writes_exact x.relative_antenna_location) <|
    Writes.seq (writes_exact x.system_id) <|
    Writes.seq (writes_exact x.system_designator) <|
    Writes.seq (writes_exact x.system_specific_data) <|
    Writes.seq (writes_exact x.fundamental_operational_data) <|
    Writes.seq (writes_exact x.layer_header) <|
    Writes.seq (writes_exact x.beam_data) <|
    Writes.seq (writes_exact x.secondary_operational_data) <|
    writes_exact x.iff_parameters
theorem IFFPdu.len (x : IFFPdu) : ((wire (sent x)).length : Int) = (x.fieldsLen : Nat) + surplus x := by
  show ((wire x.emitting_entity_id ++ (wire x.event_id ++ (wire x.relative_antenna_location ++ (wire x.system_id ++ (wire x.system_designator ++ (wire x.system_specific_data ++ (wire x.fundamental_operational_data ++ (wire x.layer_header ++ (wire x.beam_data ++ (wire x.secondary_operational_data ++ (wire x.iff_parameters))))))))))).length : Int) = (x.fieldsLen : Nat) + ((0 : Int))
  simp only [List.length_append, IFFPdu.fieldsLen]
  have h_emitting_entity_id := len_exact x.emitting_entity_id
  have h_event_id := len_exact x.event_id
  have h_relative_antenna_location := len_exact x.relative_antenna_location
  have h_system_id := len_exact x.system_id
  have h_system_designator := len_exact x.system_designator
  have h_system_specific_data := len_exact x.system_specific_data
  have h_fundamental_operational_data := len_exact x.fundamental_operational_data
  have h_layer_header := len_exact x.layer_header
  have h_beam_data := len_exact x.beam_data
  have h_secondary_operational_data := len_exact x.secondary_operational_data
  have h_iff_parameters := len_exact x.iff_parameters
  omega
theorem IFFPdu.appends (x : IFFPdu) : Appends x.serializeBody :=
    Appends.seq (LawfulEnc.appends x.emitting_entity_id) <|
    Appends.seq (LawfulEnc.appends x.event_id) <|
    Appends.seq (LawfulEnc.appends x.relative_antenna_location) <|
    Appends.seq (LawfulEnc.appends x.system_id) <|
    Appends.seq (LawfulEnc.appends x.system_designator) <|
    Appends.seq (LawfulEnc.appends x.system_specific_data) <|
    Appends.seq (LawfulEnc.appends x.fundamental_operational_data) <|
    Appends.seq (LawfulEnc.appends x.layer_header) <|
    Appends.seq (LawfulEnc.appends x.beam_data) <|
    Appends.seq (LawfulEnc.appends x.secondary_operational_data) <|
    LawfulEnc.appends x.iff_parameters
theorem IFFPdu.ifOk (x : IFFPdu) : WritesIfOk x.serializeBody (wire (sent x)) :=
    (IFFPdu.writes x).ifOk
theorem IFFPdu.reads (x : IFFPdu) : Reads IFFPdu.deserializeBody (wire (kept x)) (kept x) :=
    Reads.bind (reads_exact x.emitting_entity_id) <|
    Reads.bind (reads_exact x.event_id) <|
    Reads.bind (reads_exact x.relative_antenna_location) <|
    Reads.bind (reads_exact x.system_id) <|
    Reads.bind (reads_exact x.system_designator) <|
    Reads.bind (reads_exact x.system_specific_data) <|
    Reads.bind (reads_exact x.fundamental_operational_data) <|
    Reads.bind (reads_exact x.layer_header) <|
    Reads.bind (reads_exact x.beam_data) <|
    Reads.bind (reads_exact x.secondary_operational_data) <|
    Reads.last (Reads.ret _) (Reads.ret _)
theorem IFFPdu.fixed : Fixed IFFPdu.deserializeBody 76 := Fixed.congr (
    Fixed.bind (FixedDec.fixed) fun _ =>
    Fixed.bind (FixedDec.fixed) fun _ =>
    Fixed.bind (FixedDec.fixed) fun _ =>
    Fixed.bind (FixedDec.fixed) fun _ =>
    Fixed.bind (FixedDec.fixed) fun _ =>
    Fixed.bind (FixedDec.fixed) fun _ =>
    Fixed.bind (FixedDec.fixed) fun _ =>
    Fixed.bind (FixedDec.fixed) fun _ =>
    Fixed.bind (FixedDec.fixed) fun _ =>
    Fixed.bind (FixedDec.fixed) fun _ =>
    Fixed.bind (FixedDec.fixed) fun _ =>
    Fixed.ret _) rfl
theorem IFFPdu.loc : Local IFFPdu.deserializeBody :=
    Local.bind (LocalDec.loc) fun _ =>
    Local.bind (LocalDec.loc) fun _ =>
    Local.bind (LocalDec.loc) fun _ =>
    Local.bind (LocalDec.loc) fun _ =>
    Local.bind (LocalDec.loc) fun _ =>
    Local.bind (LocalDec.loc) fun _ =>
    Local.bind (LocalDec.loc) fun _ =>
    Local.bind (LocalDec.loc) fun _ =>
    Local.bind (LocalDec.loc) fun _ =>
    Local.bind (LocalDec.loc) fun _ =>
    Local.bind (LocalDec.loc) fun _ =>
    Local.ret _
theorem IFFPdu.under : OnlyUnderflow IFFPdu.deserializeBody :=
    OnlyUnderflow.bind (UnderflowDec.under) fun _ =>
    OnlyUnderflow.bind (UnderflowDec.under) fun _ =>
    OnlyUnderflow.bind (UnderflowDec.under) fun _ =>
    OnlyUnderflow.bind (UnderflowDec.under) fun _ =>
    OnlyUnderflow.bind (UnderflowDec.under) fun _ =>
    OnlyUnderflow.bind (UnderflowDec.under) fun _ =>
    OnlyUnderflow.bind (UnderflowDec.under) fun _ =>
    OnlyUnderflow.bind (UnderflowDec.under) fun _ =>
    OnlyUnderflow.bind (UnderflowDec.under) fun _ =>
    OnlyUnderflow.bind (UnderflowDec.under) fun _ =>
    OnlyUnderflow.bind (UnderflowDec.under) fun _ =>
    OnlyUnderflow.ret _
theorem IFFPdu.split (x : IFFPdu) : wire x = wire (kept x) ++ tail x := by
  show wire x.emitting_entity_id ++ (wire x.event_id ++ (wire x.relative_antenna_location ++ (wire x.system_id ++ (wire x.system_designator ++ (wire x.system_specific_data ++ (wire x.fundamental_operational_data ++ (wire x.layer_header ++ (wire x.beam_data ++ (wire x.secondary_operational_data ++ (wire x.iff_parameters))))))))))
    = (wire x.emitting_entity_id ++ (wire x.event_id ++ (wire x.relative_antenna_location ++ (wire x.system_id ++ (wire x.system_designator ++ (wire x.system_specific_data ++ (wire x.fundamental_operational_data ++ (wire x.layer_header ++ (wire x.beam_data ++ (wire x.secondary_operational_data ++ ([])))))))))))
      ++ (wire x.iff_parameters)
  simp only [List.append_assoc, List.append_nil, List.nil_append]

theorem SupplementalEmissionPdu.writes (x : SupplementalEmissionPdu) : Writes x.serializeBody (wire (sent x)) :=
    Writes.seq (writes_exact x.originating_entity_id) <|
    Writes.seq (writes_exact x.infrared_signature_representation_index) <|
    Writes.seq (writes_exact x.acoustic_signature_representation_index) <|
    Writes.seq (writes_exact x.radar_cross_section_signature_representation_index) <|
    Writes.seq (writes_exact x.number_of_propulsion_systems) <|
    Writes.seq (writes_exact x.number_of_vectoring_nozzle_systems) <|
    Writes.seq (writes_exact x.propulsion_system_data) <|
    writes_exact x.vectoring_nozzle_system_data
theorem SupplementalEmissionPdu.len (x : SupplementalEmissionPdu) : ((wire (sent x)).length : Int) = (x.fieldsLen : Nat) + surplus x := by
  show ((wire x.originating_entity_id ++ (wire x.infrared_signature_representation_index ++ (wire x.acoustic_signature_representation_index ++ (wire x.radar_cross_section_signature_representation_index ++ (wire x.number_of_propulsion_systems ++ (wire x.number_of_vectoring_nozzle_systems ++ (wire x.propulsion_system_data ++ (wire x.vectoring_nozzle_system_data)))))))).length : Int) = (x.fieldsLen : Nat) + ((0 : Int))
  simp only [List.length_append, SupplementalEmissionPdu.fieldsLen]
  have h_originating_entity_id := len_exact x.originating_entity_id
  have h_infrared_signature_representation_index := len_exact x.infrared_signature_representation_index
  have h_acoustic_signature_representation_index := len_exact x.acoustic_signature_representation_index
  have h_radar_cross_section_signature_representation_index := len_exact x.radar_cross_section_signature_representation_index
  have h_number_of_propulsion_systems := len_exact x.number_of_propulsion_systems
  have h_number_of_vectoring_nozzle_systems := len_exact x.number_of_vectoring_nozzle_systems
  have h_propulsion_system_data := len_exact x.propulsion_system_data
  have h_vectoring_nozzle_system_data := len_exact x.vectoring_nozzle_system_data
  omega
theorem SupplementalEmissionPdu.appends (x : SupplementalEmissionPdu) : Appends x.serializeBody :=
    Appends.seq (LawfulEnc.appends x.originating_entity_id) <|
    Appends.seq (LawfulEnc.appends x.infrared_signature_representation_index) <|
    Appends.seq (LawfulEnc.appends x.acoustic_signature_representation_index) <|
    Appends.seq (LawfulEnc.appends x.radar_cross_section_signature_representation_index) <|
    Appends.seq (LawfulEnc.appends x.number_of_propulsion_systems) <|
    Appends.seq (LawfulEnc.appends x.number_of_vectoring_nozzle_systems) <|
    Appends.seq (LawfulEnc.appends x.propulsion_system_data) <|
    LawfulEnc.appends x.vectoring_nozzle_system_data
theorem SupplementalEmissionPdu.ifOk (x : SupplementalEmissionPdu) : WritesIfOk x.serializeBody (wire (sent x)) :=
    (SupplementalEmissionPdu.writes x).ifOk
theorem SupplementalEmissionPdu.reads (x : SupplementalEmissionPdu) : Reads SupplementalEmissionPdu.deserializeBody (wire (kept x)) (kept x) :=
    Reads.bind (reads_exact x.originating_entity_id) <|
    Reads.bind (reads_exact x.infrared_signature_representation_index) <|
    Reads.bind (reads_exact x.acoustic_signature_representation_index) <|
    Reads.bind (reads_exact x.radar_cross_section_signature_representation_index) <|
    Reads.bind (reads_exact x.number_of_propulsion_systems) <|
    Reads.bind (reads_exact x.number_of_vectoring_nozzle_systems) <|
    Reads.bind (Reads.ret _) <|
    Reads.last (Reads.ret _) (Reads.ret _)
theorem SupplementalEmissionPdu.fixed : Fixed SupplementalEmissionPdu.deserializeBody 16 := Fixed.congr (
    Fixed.bind (FixedDec.fixed) fun _ =>
    Fixed.bind (FixedDec.fixed) fun _ =>
    Fixed.bind (FixedDec.fixed) fun _ =>
    Fixed.bind (FixedDec.fixed) fun _ =>
    Fixed.bind (FixedDec.fixed) fun _ =>
    Fixed.bind (FixedDec.fixed) fun _ =>
    Fixed.bind (FixedDec.fixed) fun _ =>
    Fixed.bind (FixedDec.fixed) fun _ =>
    Fixed.ret _) rfl
theorem SupplementalEmissionPdu.loc : Local SupplementalEmissionPdu.deserializeBody :=
    Local.bind (LocalDec.loc) fun _ =>
    Local.bind (LocalDec.loc) fun _ =>
    Local.bind (LocalDec.loc) fun _ =>
    Local.bind (LocalDec.loc) fun _ =>
    Local.bind (LocalDec.loc) fun _ =>
    Local.bind (LocalDec.loc) fun _ =>
    Local.bind (LocalDec.loc) fun _ =>
    Local.bind (LocalDec.loc) fun _ =>
    Local.ret _
theorem SupplementalEmissionPdu.under : OnlyUnderflow SupplementalEmissionPdu.deserializeBody :=
    OnlyUnderflow.bind (UnderflowDec.under) fun _ =>
    OnlyUnderflow.bind (UnderflowDec.under) fun _ =>
    OnlyUnderflow.bind (UnderflowDec.under) fun _ =>
    OnlyUnderflow.bind (UnderflowDec.under) fun _ =>
    OnlyUnderflow.bind (UnderflowDec.under) fun _ =>
    OnlyUnderflow.bind (UnderflowDec.under) fun _ =>
    OnlyUnderflow.bind (UnderflowDec.under) fun _ =>
    OnlyUnderflow.bind (UnderflowDec.under) fun _ =>
    OnlyUnderflow.ret _
theorem SupplementalEmissionPdu.split (x : SupplementalEmissionPdu) : wire x = wire (kept x) ++ tail x := by
  show wire x.originating_entity_id ++ (wire x.infrared_signature_representation_index ++ (wire x.acoustic_signature_representation_index ++ (wire x.radar_cross_section_signature_representation_index ++ (wire x.number_of_propulsion_systems ++ (wire x.number_of_vectoring_nozzle_systems ++ (wire x.propulsion_system_data ++ (wire x.vectoring_nozzle_system_data)))))))
    = (wire x.originating_entity_id ++ (wire x.infrared_signature_representation_index ++ (wire x.acoustic_signature_representation_index ++ (wire x.radar_cross_section_signature_representation_index ++ (wire x.number_of_propulsion_systems ++ (wire x.number_of_vectoring_nozzle_systems ++ ([] ++ ([]))))))))
      ++ (wire x.propulsion_system_data ++ (wire x.vectoring_nozzle_system_data))
  simp only [List.append_assoc, List.append_nil, List.nil_append]

theorem EntityStatePdu.writes (x : EntityStatePdu) : Writes x.serializeBody (wire (sent x)) :=
    Writes.seq (writes_exact x.entity_id) <|
    Writes.seq (writes_exact x.force_id) <|
    Writes.seq (writes_exact x.number_of_articulation_parameters) <|
    Writes.seq (writes_exact x.entity_type) <|
    Writes.seq (writes_exact x.alternative_entity_type) <|
    Writes.seq (writes_exact x.entity_linear_velocity) <|
    Writes.seq (writes_exact x.entity_location) <|
    Writes.seq (writes_exact x.entity_orientation) <|
    Writes.seq (writes_exact x.entity_appearance) <|
    Writes.seq (LawfulEnc.writes x.dead_reckoning_parameters (trivial)) <|
    Writes.seq (LawfulEnc.writes x.entity_marking (trivial)) <|
    Writes.seq (writes_exact x.entity_capabilities) <|
    writes_exact x.articulation_parameter
theorem EntityStatePdu.len (x : EntityStatePdu) : ((wire (sent x)).length : Int) = (x.fieldsLen : Nat) + surplus x := by
  show ((wire x.entity_id ++ (wire x.force_id ++ (wire x.number_of_articulation_parameters ++ (wire x.entity_type ++ (wire x.alternative_entity_type ++ (wire x.entity_linear_velocity ++ (wire x.entity_location ++ (wire x.entity_orientation ++ (wire x.entity_appearance ++ (wire (sent x.dead_reckoning_parameters) ++ (wire (sent x.entity_marking) ++ (wire x.entity_capabilities ++ (wire x.articulation_parameter))))))))))))).length : Int) = (x.fieldsLen : Nat) + (surplus x.entity_marking)
  simp only [List.length_append, EntityStatePdu.fieldsLen]
  have h_entity_id := len_exact x.entity_id
  have h_force_id := len_exact x.force_id
  have h_number_of_articulation_parameters := len_exact x.number_of_articulation_parameters
  have h_entity_type := len_exact x.entity_type
  have h_alternative_entity_type := len_exact x.alternative_entity_type
  have h_entity_linear_velocity := len_exact x.entity_linear_velocity
  have h_entity_location := len_exact x.entity_location
  have h_entity_orientation := len_exact x.entity_orientation
  have h_entity_appearance := len_exact x.entity_appearance
  have h_dead_reckoning_parameters : ((wire (sent x.dead_reckoning_parameters)).length : Int) = field_len x.dead_reckoning_parameters + 0 := LawfulEnc.len x.dead_reckoning_parameters
  have h_entity_marking : ((wire (sent x.entity_marking)).length : Int) = field_len x.entity_marking + surplus x.entity_marking := LawfulEnc.len x.entity_marking
  have h_entity_capabilities := len_exact x.entity_capabilities
  have h_articulation_parameter := len_exact x.articulation_parameter
  omega
theorem EntityStatePdu.appends (x : EntityStatePdu) : Appends x.serializeBody :=
    Appends.seq (LawfulEnc.appends x.entity_id) <|
    Appends.seq (LawfulEnc.appends x.force_id) <|
    Appends.seq (LawfulEnc.appends x.number_of_articulation_parameters) <|
    Appends.seq (LawfulEnc.appends x.entity_type) <|
    Appends.seq (LawfulEnc.appends x.alternative_entity_type) <|
    Appends.seq (LawfulEnc.appends x.entity_linear_velocity) <|
    Appends.seq (LawfulEnc.appends x.entity_location) <|
    Appends.seq (LawfulEnc.appends x.entity_orientation) <|
    Appends.seq (LawfulEnc.appends x.entity_appearance) <|
    Appends.seq (LawfulEnc.appends x.dead_reckoning_parameters) <|
    Appends.seq (LawfulEnc.appends x.entity_marking) <|
    Appends.seq (LawfulEnc.appends x.entity_capabilities) <|
    LawfulEnc.appends x.articulation_parameter
theorem EntityStatePdu.ifOk (x : EntityStatePdu) : WritesIfOk x.serializeBody (wire (sent x)) :=
    (EntityStatePdu.writes x).ifOk
theorem EntityStatePdu.consumes : Consumes EntityStatePdu.deserializeBody :=
    Consumes.bind (ConsumesDec.consumes) fun _ =>
    Consumes.bind (ConsumesDec.consumes) fun _ =>
    Consumes.bind (ConsumesDec.consumes) fun _ =>
    Consumes.bind (ConsumesDec.consumes) fun _ =>
    Consumes.bind (ConsumesDec.consumes) fun _ =>
    Consumes.bind (ConsumesDec.consumes) fun _ =>
    Consumes.bind (ConsumesDec.consumes) fun _ =>
    Consumes.bind (ConsumesDec.consumes) fun _ =>
    Consumes.bind (ConsumesDec.consumes) fun _ =>
    Consumes.bind (ConsumesDec.consumes) fun _ =>
    Consumes.bind (ConsumesDec.consumes) fun _ =>
    Consumes.bind (ConsumesDec.consumes) fun _ =>
    Consumes.bind (ConsumesDec.consumes) fun _ =>
    Consumes.ret _
theorem EntityStatePdu.under : OnlyUnderflow EntityStatePdu.deserializeBody :=
    OnlyUnderflow.bind (UnderflowDec.under) fun _ =>
    OnlyUnderflow.bind (UnderflowDec.under) fun _ =>
    OnlyUnderflow.bind (UnderflowDec.under) fun _ =>
    OnlyUnderflow.bind (UnderflowDec.under) fun _ =>
    OnlyUnderflow.bind (UnderflowDec.under) fun _ =>
    OnlyUnderflow.bind (UnderflowDec.under) fun _ =>
    OnlyUnderflow.bind (UnderflowDec.under) fun _ =>
    OnlyUnderflow.bind (UnderflowDec.under) fun _ =>
    OnlyUnderflow.bind (UnderflowDec.under) fun _ =>
    OnlyUnderflow.bind (UnderflowDec.under) fun _ =>
    OnlyUnderflow.bind (UnderflowDec.under) fun _ =>
    OnlyUnderflow.bind (UnderflowDec.under) fun _ =>
    OnlyUnderflow.bind (UnderflowDec.under) fun _ =>
    OnlyUnderflow.ret _
theorem EntityStatePdu.split (x : EntityStatePdu) : wire x = wire (kept x) ++ tail x := by
  show wire x.entity_id ++ (wire x.force_id ++ (wire x.number_of_articulation_parameters ++ (wire x.entity_type ++ (wire x.alternative_entity_type ++ (wire x.entity_linear_velocity ++ (wire x.entity_location ++ (wire x.entity_orientation ++ (wire x.entity_appearance ++ (wire x.dead_reckoning_parameters ++ (wire x.entity_marking ++ (wire x.entity_capabilities ++ (wire x.articulation_parameter))))))))))))
    = (wire x.entity_id ++ (wire x.force_id ++ (wire x.number_of_articulation_parameters ++ (wire x.entity_type ++ (wire x.alternative_entity_type ++ (wire x.entity_linear_velocity ++ (wire x.entity_location ++ (wire x.entity_orientation ++ (wire x.entity_appearance ++ (wire x.dead_reckoning_parameters ++ (wire x.entity_marking ++ (wire x.entity_capabilities ++ ([])))))))))))))
      ++ (wire x.articulation_parameter)
  simp only [List.append_assoc, List.append_nil, List.nil_append]

theorem CollisionPdu.writes (x : CollisionPdu) : Writes x.serializeBody (wire (sent x)) :=
    Writes.seq (writes_exact x.issuing_entity_id) <|
    Writes.seq (writes_exact x.colliding_entity_id) <|
    Writes.seq (writes_exact x.event_id) <|
    Writes.seq (writes_exact x.collision_type) <|
    Writes.seq (writes_exact x.padding) <|
    Writes.seq (writes_exact x.velocity) <|
    Writes.seq (writes_exact x.mass) <|
    writes_exact x.location_wrt_entity
theorem CollisionPdu.len (x : CollisionPdu) : ((wire (sent x)).length : Int) = (x.fieldsLen : Nat) + surplus x := by
  show ((wire x.issuing_entity_id ++ (wire x.colliding_entity_id ++ (wire x.event_id ++ (wire x.collision_type ++ (wire x.padding ++ (wire x.velocity ++ (wire x.mass ++ (wire x.location_wrt_entity)))))))).length : Int) = (x.fieldsLen : Nat) + ((0 : Int))
  simp only [List.length_append, CollisionPdu.fieldsLen]
  have h_issuing_entity_id := len_exact x.issuing_entity_id
  have h_colliding_entity_id := len_exact x.colliding_entity_id
  have h_event_id := len_exact x.event_id
  have h_collision_type := len_exact x.collision_type
  have h_padding := len_exact x.padding
  have h_velocity := len_exact x.velocity
  have h_mass := len_exact x.mass
  have h_location_wrt_entity := len_exact x.location_wrt_entity
  omega
theorem CollisionPdu.appends (x : CollisionPdu) : Appends x.serializeBody :=
    Appends.seq (LawfulEnc.appends x.issuing_entity_id) <|
    Appends.seq (LawfulEnc.appends x.colliding_entity_id) <|
    Appends.seq (LawfulEnc.appends x.event_id) <|
    Appends.seq (LawfulEnc.appends x.collision_type) <|
    Appends.seq (LawfulEnc.appends x.padding) <|
    Appends.seq (LawfulEnc.appends x.velocity) <|
    Appends.seq (LawfulEnc.appends x.mass) <|
    LawfulEnc.appends x.location_wrt_entity
theorem CollisionPdu.ifOk (x : CollisionPdu) : WritesIfOk x.serializeBody (wire (sent x)) :=
    (CollisionPdu.writes x).ifOk
theorem CollisionPdu.reads (x : CollisionPdu) : Reads CollisionPdu.deserializeBody (wire (kept x)) (kept x) :=
    Reads.bind (reads_exact x.issuing_entity_id) <|
    Reads.bind (reads_exact x.colliding_entity_id) <|
    Reads.bind (reads_exact x.event_id) <|
    Reads.bind (reads_exact x.collision_type) <|
    Reads.bind (reads_exact x.padding) <|
    Reads.bind (reads_exact x.velocity) <|
    Reads.bind (reads_exact x.mass) <|
    Reads.last (reads_exact x.location_wrt_entity) (Reads.ret _)
theorem CollisionPdu.fixed : Fixed CollisionPdu.deserializeBody 48 := Fixed.congr (
    Fixed.bind (FixedDec.fixed) fun _ =>
    Fixed.bind (FixedDec.fixed) fun _ =>
    Fixed.bind (FixedDec.fixed) fun _ =>
    Fixed.bind (FixedDec.fixed) fun _ =>
    Fixed.bind (FixedDec.fixed) fun _ =>
    Fixed.bind (FixedDec.fixed) fun _ =>
    Fixed.bind (FixedDec.fixed) fun _ =>
    Fixed.bind (FixedDec.fixed) fun _ =>
    Fixed.ret _) rfl
theorem CollisionPdu.loc : Local CollisionPdu.deserializeBody :=
    Local.bind (LocalDec.loc) fun _ =>
    Local.bind (LocalDec.loc) fun _ =>
    Local.bind (LocalDec.loc) fun _ =>
    Local.bind (LocalDec.loc) fun _ =>
    Local.bind (LocalDec.loc) fun _ =>
    Local.bind (LocalDec.loc) fun _ =>
    Local.bind (LocalDec.loc) fun _ =>
    Local.bind (LocalDec.loc) fun _ =>
    Local.ret _
theorem CollisionPdu.under : OnlyUnderflow CollisionPdu.deserializeBody :=
    OnlyUnderflow.bind (UnderflowDec.under) fun _ =>
    OnlyUnderflow.bind (UnderflowDec.under) fun _ =>
    OnlyUnderflow.bind (UnderflowDec.under) fun _ =>
    OnlyUnderflow.bind (UnderflowDec.under) fun _ =>
    OnlyUnderflow.bind (UnderflowDec.under) fun _ =>
    OnlyUnderflow.bind (UnderflowDec.under) fun _ =>
    OnlyUnderflow.bind (UnderflowDec.under) fun _ =>
    OnlyUnderflow.bind (UnderflowDec.under) fun _ =>
    OnlyUnderflow.ret _
theorem CollisionPdu.split (x : CollisionPdu) : wire x = wire (kept x) ++ tail x := (List.append_nil _).symm

theorem CollisionElasticPdu.writes (x : CollisionElasticPdu) : Writes x.serializeBody (wire (sent x)) :=
    Writes.seq (writes_exact x.issuing_entity_id) <|
    Writes.seq (writes_exact x.colliding_entity_id) <|
    Writes.seq (writes_exact x.event_id) <|
    Writes.seq (writes_exact x.padding) <|
    Writes.seq (writes_exact x.contact_velocity) <|
    Writes.seq (writes_exact x.mass) <|
    Writes.seq (writes_exact x.location_of_impact) <|
    Writes.seq (writes_exact x.collision_intermediate_result_xx) <|
    Writes.seq (writes_exact x.collision_intermediate_result_xy) <|
    Writes.seq (writes_exact x.collision_intermediate_result_xz) <|
    Writes.seq (writes_exact x.collision_intermediate_result_yy) <|
    Writes.seq (writes_exact x.collision_intermediate_result_yz) <|
    Writes.seq (writes_exact x.collision_intermediate_result_zz) <|
    Writes.seq (writes_exact x.unit_surface_normal) <|
    writes_exact x.coefficient_of_restitution
theorem CollisionElasticPdu.len (x : CollisionElasticPdu) : ((wire (sent x)).length : Int) = (x.fieldsLen : Nat) + surplus x := by
  show ((wire x.issuing_entity_id ++ (wire x.colliding_entity_id ++ (wire x.event_id ++ (wire x.padding ++ (wire x.contact_velocity ++ (wire x.mass ++ (wire x.location_of_impact ++ (wire x.collision_intermediate_result_xx ++ (wire x.collision_intermediate_result_xy ++ (wire x.collision_intermediate_result_xz ++ (wire x.collision_intermediate_result_yy ++ (wire x.collision_intermediate_result_yz ++ (wire x.collision_intermediate_result_zz ++ (wire x.unit_surface_normal ++ (wire x.coefficient_of_restitution))))))))))))))).length : Int) = (x.fieldsLen : Nat) + ((0 : Int))
  simp only [List.length_append, CollisionElasticPdu.fieldsLen]
  have h_issuing_entity_id := len_exact x.issuing_entity_id
  have h_colliding_entity_id := len_exact x.colliding_entity_id
  have h_event_id := len_exact x.event_id
  have h_padding := len_exact x.padding
  have h_contact_velocity := len_exact x.contact_velocity
  have h_mass := len_exact x.mass
  have h_location_of_impact := len_exact x.location_of_impact
  have h_collision_intermediate_result_xx := len_exact x.collision_intermediate_result_xx
  have h_collision_intermediate_result_xy := len_exact x.collision_intermediate_result_xy
  have h_collision_intermediate_result_xz := len_exact x.collision_intermediate_result_xz
  have h_collision_intermediate_result_yy := len_exact x.collision_intermediate_result_yy
  have h_collision_intermediate_result_yz := len_exact x.collision_intermediate_result_yz
  have h_collision_intermediate_result_zz := len_exact x.collision_intermediate_result_zz
  have h_unit_surface_normal := len_exact x.unit_surface_normal
  have h_coefficient_of_restitution := len_exact x.coefficient_of_restitution
  omega
theorem CollisionElasticPdu.appends (x : CollisionElasticPdu) : Appends x.serializeBody :=
    Appends.seq (LawfulEnc.appends x.issuing_entity_id) <|
    Appends.seq (LawfulEnc.appends x.colliding_entity_id) <|
    Appends.seq (LawfulEnc.appends x.event_id) <|
    Appends.seq (LawfulEnc.appends x.padding) <|
    Appends.seq (LawfulEnc.appends x.contact_velocity) <|
    Appends.seq (LawfulEnc.appends x.mass) <|
    Appends.seq (LawfulEnc.appends x.location_of_impact) <|
    Appends.seq (LawfulEnc.appends x.collision_intermediate_result_xx) <|
    Appends.seq (LawfulEnc.appends x.collision_intermediate_result_xy) <|
    Appends.seq (LawfulEnc.appends x.collision_intermediate_result_xz) <|
    Appends.seq (LawfulEnc.appends x.collision_intermediate_result_yy) <|
    Appends.seq (LawfulEnc.appends x.collision_intermediate_result_yz) <|
    Appends.seq (LawfulEnc.appends x.collision_intermediate_result_zz) <|
    Appends.seq (LawfulEnc.appends x.unit_surface_normal) <|
    LawfulEnc.appends x.coefficient_of_restitution
theorem CollisionElasticPdu.ifOk (x : CollisionElasticPdu) : WritesIfOk x.serializeBody (wire (sent x)) :=
    (CollisionElasticPdu.writes x).ifOk
theorem CollisionElasticPdu.reads (x : CollisionElasticPdu) : Reads CollisionElasticPdu.deserializeBody (wire (kept x)) (kept x) :=
    Reads.bind (reads_exact x.issuing_entity_id) <|
    Reads.bind (reads_exact x.colliding_entity_id) <|
    Reads.bind (reads_exact x.event_id) <|
    Reads.bind (reads_exact x.padding) <|
    Reads.bind (reads_exact x.contact_velocity) <|
    Reads.bind (reads_exact x.mass) <|
    Reads.bind (reads_exact x.location_of_impact) <|
    Reads.bind (reads_exact x.collision_intermediate_result_xx) <|
    Reads.bind (reads_exact x.collision_intermediate_result_xy) <|
    Reads.bind (reads_exact x.collision_intermediate_result_xz) <|
    Reads.bind (reads_exact x.collision_intermediate_result_yy) <|
    Reads.bind (reads_exact x.collision_intermediate_result_yz) <|
    Reads.bind (reads_exact x.collision_intermediate_result_zz) <|
    Reads.bind (reads_exact x.unit_surface_normal) <|
    Reads.last (reads_exact x.coefficient_of_restitution) (Reads.ret _)
theorem CollisionElasticPdu.fixed : Fixed CollisionElasticPdu.deserializeBody 88 := Fixed.congr (
    Fixed.bind (FixedDec.fixed) fun _ =>
    Fixed.bind (FixedDec.fixed) fun _ =>
    Fixed.bind (FixedDec.fixed) fun _ =>
    Fixed.bind (FixedDec.fixed) fun _ =>
    Fixed.bind (FixedDec.fixed) fun _ =>
    Fixed.bind (FixedDec.fixed) fun _ =>
    Fixed.bind (FixedDec.fixed) fun _ =>
    Fixed.bind (FixedDec.fixed) fun _ =>
    Fixed.bind (FixedDec.fixed) fun _ =>
    Fixed.bind (FixedDec.fixed) fun _ =>
    Fixed.bind (FixedDec.fixed) fun _ =>
    Fixed.bind (FixedDec.fixed) fun _ =>
    Fixed.bind (FixedDec.fixed) fun _ =>
    Fixed.bind (FixedDec.fixed) fun _ =>
    Fixed.bind (FixedDec.fixed) fun _ =>
    Fixed.ret _) rfl
theorem CollisionElasticPdu.loc : Local CollisionElasticPdu.deserializeBody :=
    Local.bind (LocalDec.loc) fun _ =>
    Local.bind (LocalDec.loc) fun _ =>
    Local.bind (LocalDec.loc) fun _ =>
    Local.bind (LocalDec.loc) fun _ =>
    Local.bind (LocalDec.loc) fun _ =>
    Local.bind (LocalDec.loc) fun _ =>
    Local.bind (LocalDec.loc) fun _ =>
    Local.bind (LocalDec.loc) fun _ =>
    Local.bind (LocalDec.loc) fun _ =>
    Local.bind (LocalDec.loc) fun _ =>
    Local.bind (LocalDec.loc) fun _ =>
    Local.bind (LocalDec.loc) fun _ =>
    Local.bind (LocalDec.loc) fun _ =>
    Local.bind (LocalDec.loc) fun _ =>
    Local.bind (LocalDec.loc) fun _ =>
    Local.ret _
theorem CollisionElasticPdu.under : OnlyUnderflow CollisionElasticPdu.deserializeBody :=
    OnlyUnderflow.bind (UnderflowDec.under) fun _ =>
    OnlyUnderflow.bind (UnderflowDec.under) fun _ =>
    OnlyUnderflow.bind (UnderflowDec.under) fun _ =>
    OnlyUnderflow.bind (UnderflowDec.under) fun _ =>
    OnlyUnderflow.bind (UnderflowDec.under) fun _ =>
    OnlyUnderflow.bind (UnderflowDec.under) fun _ =>
    OnlyUnderflow.bind (UnderflowDec.under) fun _ =>
    OnlyUnderflow.bind (UnderflowDec.under) fun _ =>
    OnlyUnderflow.bind (UnderflowDec.under) fun _ =>
    OnlyUnderflow.bind (UnderflowDec.under) fun _ =>
    OnlyUnderflow.bind (UnderflowDec.under) fun _ =>
    OnlyUnderflow.bind (UnderflowDec.under) fun _ =>
    OnlyUnderflow.bind (UnderflowDec.under) fun _ =>
    OnlyUnderflow.bind (UnderflowDec.under) fun _ =>
    OnlyUnderflow.bind (UnderflowDec.under) fun _ =>
    OnlyUnderflow.ret _
theorem CollisionElasticPdu.split (x : CollisionElasticPdu) : wire x = wire (kept x) ++ tail x := (List.append_nil _).symm

theorem EntityStateUpdatePdu.writes (x : EntityStateUpdatePdu) : Writes x.serializeBody (wire (sent x)) :=
    Writes.seq (writes_exact x.entity_id) <|
    Writes.seq (writes_exact x.padding) <|
    Writes.seq (writes_exact x.number_of_variable_parameters) <|
    Writes.seq (writes_exact x.entity_linear_velocity) <|
    Writes.seq (writes_exact x.entity_location) <|
    Writes.seq (writes_exact x.entity_orientation) <|
    Writes.seq (writes_exact x.entity_appearance) <|
    writes_exact x.variable_parameter_records
theorem EntityStateUpdatePdu.len (x : EntityStateUpdatePdu) : ((wire (sent x)).length : Int) = (x.fieldsLen : Nat) + surplus x := by
  show ((wire x.entity_id ++ (wire x.padding ++ (wire x.number_of_variable_parameters ++ (wire x.entity_linear_velocity ++ (wire x.entity_location ++ (wire x.entity_orientation ++ (wire x.entity_appearance ++ (wire x.variable_parameter_records)))))))).length : Int) = (x.fieldsLen : Nat) + ((0 : Int))
  simp only [List.length_append, EntityStateUpdatePdu.fieldsLen]
  have h_entity_id := len_exact x.entity_id
  have h_padding := len_exact x.padding
  have h_number_of_variable_parameters := len_exact x.number_of_variable_parameters
  have h_entity_linear_velocity := len_exact x.entity_linear_velocity
  have h_entity_location := len_exact x.entity_location
  have h_entity_orientation := len_exact x.entity_orientation
  have h_entity_appearance := len_exact x.entity_appearance
  have h_variable_parameter_records := len_exact x.variable_parameter_records
  omega
theorem EntityStateUpdatePdu.appends (x : EntityStateUpdatePdu) : Appends x.serializeBody :=
    Appends.seq (LawfulEnc.appends x.entity_id) <|
    Appends.seq (LawfulEnc.appends x.padding) <|
    Appends.seq (LawfulEnc.appends x.number_of_variable_parameters) <|
    Appends.seq (LawfulEnc.appends x.entity_linear_velocity) <|
    Appends.seq (LawfulEnc.appends x.entity_location) <|
    Appends.seq (LawfulEnc.appends x.entity_orientation) <|
    Appends.seq (LawfulEnc.appends x.entity_appearance) <|
    LawfulEnc.appends x.variable_parameter_records
theorem EntityStateUpdatePdu.ifOk (x : EntityStateUpdatePdu) : WritesIfOk x.serializeBody (wire (sent x)) :=
    (EntityStateUpdatePdu.writes x).ifOk
theorem EntityStateUpdatePdu.reads (x : EntityStateUpdatePdu) : Reads EntityStateUpdatePdu.deserializeBody (wire (kept x)) (kept x) :=
    Reads.bind (reads_exact x.entity_id) <|
    Reads.bind (reads_exact x.padding) <|
    Reads.bind (reads_exact x.number_of_variable_parameters) <|
    Reads.bind (reads_exact x.entity_linear_velocity) <|
    Reads.bind (reads_exact x.entity_location) <|
    Reads.bind (reads_exact x.entity_orientation) <|
    Reads.bind (reads_exact x.entity_appearance) <|
    Reads.last (Reads.ret _) (Reads.ret _)
theorem EntityStateUpdatePdu.fixed : Fixed EntityStateUpdatePdu.deserializeBody 60 := Fixed.congr (
    Fixed.bind (FixedDec.fixed) fun _ =>
    Fixed.bind (FixedDec.fixed) fun _ =>
    Fixed.bind (FixedDec.fixed) fun _ =>
    Fixed.bind (FixedDec.fixed) fun _ =>
    Fixed.bind (FixedDec.fixed) fun _ =>
    Fixed.bind (FixedDec.fixed) fun _ =>
    Fixed.bind (FixedDec.fixed) fun _ =>
    Fixed.bind (FixedDec.fixed) fun _ =>
    Fixed.ret _) rfl
theorem EntityStateUpdatePdu.loc : Local EntityStateUpdatePdu.deserializeBody :=
    Local.bind (LocalDec.loc) fun _ =>
    Local.bind (LocalDec.loc) fun _ =>
    Local.bind (LocalDec.loc) fun _ =>
    Local.bind (LocalDec.loc) fun _ =>
    Local.bind (LocalDec.loc) fun _ =>
    Local.bind (LocalDec.loc) fun _ =>
    Local.bind (LocalDec.loc) fun _ =>
    Local.bind (LocalDec.loc) fun _ =>
    Local.ret _
theorem EntityStateUpdatePdu.under : OnlyUnderflow EntityStateUpdatePdu.deserializeBody :=
    OnlyUnderflow.bind (UnderflowDec.under) fun _ =>
    OnlyUnderflow.bind (UnderflowDec.under) fun _ =>
    OnlyUnderflow.bind (UnderflowDec.under) fun _ =>
    OnlyUnderflow.bind (UnderflowDec.under) fun _ =>
    OnlyUnderflow.bind (UnderflowDec.under) fun _ =>
    OnlyUnderflow.bind (UnderflowDec.under) fun _ =>
    OnlyUnderflow.bind (UnderflowDec.under) fun _ =>
    OnlyUnderflow.bind (UnderflowDec.under) fun _ =>
    OnlyUnderflow.ret _
theorem EntityStateUpdatePdu.split (x : EntityStateUpdatePdu) : wire x = wire (kept x) ++ tail x := by
  show wire x.entity_id ++ (wire x.padding ++ (wire x.number_of_variable_parameters ++ (wire x.entity_linear_velocity ++ (wire x.entity_location ++ (wire x.entity_orientation ++ (wire x.entity_appearance ++ (wire x.variable_parameter_records)))))))
    = (wire x.entity_id ++ (wire x.padding ++ (wire x.number_of_variable_parameters ++ (wire x.entity_linear_velocity ++ (wire x.entity_location ++ (wire x.entity_orientation ++ (wire x.entity_appearance ++ ([]))))))))
      ++ (wire x.variable_parameter_records)
  simp only [List.append_assoc, List.append_nil, List.nil_append]

theorem AttributePdu.writes (x : AttributePdu) : Writes x.serializeBody (wire (sent x)) :=
    Writes.seq (writes_exact x.originating_simulation_address) <|
    Writes.seq (writes_exact x.padding) <|
    Writes.seq (writes_exact x.padding2) <|
    Writes.seq (writes_exact x.attribute_record_pdu_type) <|
    Writes.seq (writes_exact x.attribute_record_protocol_version) <|
    Writes.seq (writes_exact x.master_attribute_record_type) <|
    Writes.seq (writes_exact x.action_code) <|
    Writes.seq (writes_exact x.padding3) <|
    Writes.seq (writes_exact x.number_of_attribute_record_sets) <|
    writes_exact x.attribute_record_sets
theorem AttributePdu.len (x : AttributePdu) : ((wire (sent x)).length : Int) = (x.fieldsLen : Nat) + surplus x := by
  show ((wire x.originating_simulation_address ++ (wire x.padding ++ (wire x.padding2 ++ (wire x.attribute_record_pdu_type ++ (wire x.attribute_record_protocol_version ++ (wire x.master_attribute_record_type ++ (wire x.action_code ++ (wire x.padding3 ++ (wire x.number_of_attribute_record_sets ++ (wire x.attribute_record_sets)))))))))).length : Int) = (x.fieldsLen : Nat) + ((0 : Int))
  simp only [List.length_append, AttributePdu.fieldsLen]
  have h_originating_simulation_address := len_exact x.originating_simulation_address
  have h_padding := len_exact x.padding
  have h_padding2 := len_exact x.padding2
  have h_attribute_record_pdu_type := len_exact x.attribute_record_pdu_type
  have h_attribute_record_protocol_version := len_exact x.attribute_record_protocol_version
  have h_master_attribute_record_type := len_exact x.master_attribute_record_type
  have h_action_code := len_exact x.action_code
  have h_padding3 := len_exact x.padding3
  have h_number_of_attribute_record_sets := len_exact x.number_of_attribute_record_sets
  have h_attribute_record_sets := len_exact x.attribute_record_sets
  omega
theorem AttributePdu.appends (x : AttributePdu) : Appends x.serializeBody :=
    Appends.seq (LawfulEnc.appends x.originating_simulation_address) <|
    Appends.seq (LawfulEnc.appends x.padding) <|
    Appends.seq (LawfulEnc.appends x.padding2) <|
    Appends.seq (LawfulEnc.appends x.attribute_record_pdu_type) <|
    Appends.seq (LawfulEnc.appends x.attribute_record_protocol_version) <|
    Appends.seq (LawfulEnc.appends x.master_attribute_record_type) <|
    Appends.seq (LawfulEnc.appends x.action_code) <|
    Appends.seq (LawfulEnc.appends x.padding3) <|
    Appends.seq (LawfulEnc.appends x.number_of_attribute_record_sets) <|
    LawfulEnc.appends x.attribute_record_sets
theorem AttributePdu.ifOk (x : AttributePdu) : WritesIfOk x.serializeBody (wire (sent x)) :=
    (AttributePdu.writes x).ifOk
theorem AttributePdu.reads (x : AttributePdu) : Reads AttributePdu.deserializeBody (wire (kept x)) (kept x) :=
    Reads.bind (reads_exact x.originating_simulation_address) <|
    Reads.bind (reads_exact x.padding) <|
    Reads.bind (reads_exact x.padding2) <|
    Reads.bind (reads_exact x.attribute_record_pdu_type) <|
    Reads.bind (reads_exact x.attribute_record_protocol_version) <|
    Reads.bind (reads_exact x.master_attribute_record_type) <|
    Reads.bind (reads_exact x.action_code) <|
    Reads.bind (reads_exact x.padding3) <|
    Reads.bind (reads_exact x.number_of_attribute_record_sets) <|
    Reads.last (Reads.ret _) (Reads.ret _)
theorem AttributePdu.fixed : Fixed AttributePdu.deserializeBody 20 := Fixed.congr (
    Fixed.bind (FixedDec.fixed) fun _ =>
    Fixed.bind (FixedDec.fixed) fun _ =>
    Fixed.bind (FixedDec.fixed) fun _ =>
    Fixed.bind (FixedDec.fixed) fun _ =>
    Fixed.bind (FixedDec.fixed) fun _ =>
    Fixed.bind (FixedDec.fixed) fun _ =>
    Fixed.bind (FixedDec.fixed) fun _ =>
    Fixed.bind (FixedDec.fixed) fun _ =>
    Fixed.bind (FixedDec.fixed) fun _ =>
    Fixed.bind (FixedDec.fixed) fun _ =>
    Fixed.ret _) rfl
theorem AttributePdu.loc : Local AttributePdu.deserializeBody :=
    Local.bind (LocalDec.loc) fun _ =>
    Local.bind (LocalDec.loc) fun _ =>
    Local.bind (LocalDec.loc) fun _ =>
    Local.bind (LocalDec.loc) fun _ =>
    Local.bind (LocalDec.loc) fun _ =>
    Local.bind (LocalDec.loc) fun _ =>
    Local.bind (LocalDec.loc) fun _ =>
    Local.bind (LocalDec.loc) fun _ =>
    Local.bind (LocalDec.loc) fun _ =>
    Local.bind (LocalDec.loc) fun _ =>
    Local.ret _
theorem AttributePdu.under : OnlyUnderflow AttributePdu.deserializeBody :=
    OnlyUnderflow.bind (UnderflowDec.under) fun _ =>
    OnlyUnderflow.bind (UnderflowDec.under) fun _ =>
    OnlyUnderflow.bind (UnderflowDec.under) fun _ =>
    OnlyUnderflow.bind (UnderflowDec.under) fun _ =>
    OnlyUnderflow.bind (UnderflowDec.under) fun _ =>
    OnlyUnderflow.bind (UnderflowDec.under) fun _ =>
    OnlyUnderflow.bind (UnderflowDec.under) fun _ =>
    OnlyUnderflow.bind (UnderflowDec.under) fun _ =>
    OnlyUnderflow.bind (UnderflowDec.under) fun _ =>
    OnlyUnderflow.bind (UnderflowDec.under) fun _ =>
    OnlyUnderflow.ret _
theorem AttributePdu.split (x : AttributePdu) : wire x = wire (kept x) ++ tail x := by
  show wire x.originating_simulation_address ++ (wire x.padding ++ (wire x.padding2 ++ (wire x.attribute_record_pdu_type ++ (wire x.attribute_record_protocol_version ++ (wire x.master_attribute_record_type ++ (wire x.action_code ++ (wire x.padding3 ++ (wire x.number_of_attribute_record_sets ++ (wire x.attribute_record_sets)))))))))
    = (wire x.originating_simulation_address ++ (wire x.padding ++ (wire x.padding2 ++ (wire x.attribute_record_pdu_type ++ (wire x.attribute_record_protocol_version ++ (wire x.master_attribute_record_type ++ (wire x.action_code ++ (wire x.padding3 ++ (wire x.number_of_attribute_record_sets ++ ([]))))))))))
      ++ (wire x.attribute_record_sets)
  simp only [List.append_assoc, List.append_nil, List.nil_append]

theorem AggregateStatePdu.writes (x : AggregateStatePdu) : Writes x.serializeBody (wire (sent x)) :=
    Writes.seq (writes_exact x.aggregate_id) <|
    Writes.seq (writes_exact x.force_id) <|
    Writes.seq (writes_exact x.aggregate_state) <|
    Writes.seq (writes_exact x.aggregate_type) <|
    Writes.seq (writes_exact x.formation) <|
    Writes.seq (writes_exact x.aggregate_marking) <|
    Writes.seq (writes_exact x.dimensions) <|
    Writes.seq (writes_exact x.orientation) <|
    Writes.seq (writes_exact x.center_of_mass) <|
    Writes.seq (writes_exact x.velocity) <|
    Writes.seq (writes_exact x.number_of_dis_aggregates) <|
    Writes.seq (writes_exact x.number_of_dis_entities) <|
    Writes.seq (writes_exact x.number_of_silent_aggregate_types) <|
    Writes.seq (writes_exact x.number_of_silent_entity_types) <|
    Writes.seq (writes_exact x.aggregate_id_list) <|
    Writes.seq (writes_exact x.entity_id_list) <|
    Writes.seq (writes_exact x.padding) <|
    Writes.seq (writes_exact x.silent_aggregate_system_list) <|
    Writes.seq (writes_exact x.silent_entity_system_list) <|
    Writes.seq (writes_exact x.number_of_variable_datum_records) <|
    LawfulEnc.writes x.variable_datum_list (fun _ _ => trivial)
set_option maxHeartbeats 1000000 in
theorem AggregateStatePdu.len (x : AggregateStatePdu) : ((wire (sent x)).length : Int) = (x.fieldsLen : Nat) + surplus x := by
  show ((wire x.aggregate_id ++ (wire x.force_id ++ (wire x.aggregate_state ++ (wire x.aggregate_type ++ (wire x.formation ++ (wire x.aggregate_marking ++ (wire x.dimensions ++ (wire x.orientation ++ (wire x.center_of_mass ++ (wire x.velocity ++ (wire x.number_of_dis_aggregates ++ (wire x.number_of_dis_entities ++ (wire x.number_of_silent_aggregate_types ++ (wire x.number_of_silent_entity_types ++ (wire x.aggregate_id_list ++ (wire x.entity_id_list ++ (wire x.padding ++ (wire x.silent_aggregate_system_list ++ (wire x.silent_entity_system_list ++ (wire x.number_of_variable_datum_records ++ (wire (sent x.variable_datum_list)))))))))))))))))))))).length : Int) = (x.fieldsLen : Nat) + (surplus x.variable_datum_list)
  simp only [List.length_append, AggregateStatePdu.fieldsLen]
  have h_aggregate_id := len_exact x.aggregate_id
  have h_force_id := len_exact x.force_id
  have h_aggregate_state := len_exact x.aggregate_state
  have h_aggregate_type := len_exact x.aggregate_type
  have h_formation := len_exact x.formation
  have h_aggregate_marking := len_exact x.aggregate_marking
  have h_dimensions := len_exact x.dimensions
  have h_orientation := len_exact x.orientation
  have h_center_of_mass := len_exact x.center_of_mass
  have h_velocity := len_exact x.velocity
  have h_number_of_dis_aggregates := len_exact x.number_of_dis_aggregates
  have h_number_of_dis_entities := len_exact x.number_of_dis_entities
  have h_number_of_silent_aggregate_types := len_exact x.number_of_silent_aggregate_types
  have h_number_of_silent_entity_types := len_exact x.number_of_silent_entity_types
  have h_aggregate_id_list := len_exact x.aggregate_id_list
  have h_entity_id_list := len_exact x.entity_id_list
  have h_padding := len_exact x.padding
  have h_silent_aggregate_system_list := len_exact x.silent_aggregate_system_list
  have h_silent_entity_system_list := len_exact x.silent_entity_system_list
  have h_number_of_variable_datum_records := len_exact x.number_of_variable_datum_records
  have h_variable_datum_list : ((wire (sent x.variable_datum_list)).length : Int) = field_len x.variable_datum_list + surplus x.variable_datum_list := LawfulEnc.len x.variable_datum_list
  simp only [h_aggregate_id, h_force_id, h_aggregate_state, h_aggregate_type, h_formation, h_aggregate_marking, h_dimensions, h_orientation, h_center_of_mass, h_velocity, h_number_of_dis_aggregates, h_number_of_dis_entities, h_number_of_silent_aggregate_types, h_number_of_silent_entity_types, h_aggregate_id_list, h_entity_id_list, h_padding, h_silent_aggregate_system_list, h_silent_entity_system_list, h_number_of_variable_datum_records]
  clear h_aggregate_id h_force_id h_aggregate_state h_aggregate_type h_formation h_aggregate_marking h_dimensions h_orientation h_center_of_mass h_velocity h_number_of_dis_aggregates h_number_of_dis_entities h_number_of_silent_aggregate_types h_number_of_silent_entity_types h_aggregate_id_list h_entity_id_list h_padding h_silent_aggregate_system_list h_silent_entity_system_list h_number_of_variable_datum_records
  revert h_variable_datum_list
  generalize (wire x.aggregate_id).length = n_aggregate_id
  generalize (wire x.force_id).length = n_force_id
  generalize (wire x.aggregate_state).length = n_aggregate_state
  generalize (wire x.aggregate_type).length = n_aggregate_type
  generalize (wire x.formation).length = n_formation
  generalize (wire x.aggregate_marking).length = n_aggregate_marking
  generalize (wire x.dimensions).length = n_dimensions
  generalize (wire x.orientation).length = n_orientation
  generalize (wire x.center_of_mass).length = n_center_of_mass
  generalize (wire x.velocity).length = n_velocity
  generalize (wire x.number_of_dis_aggregates).length = n_number_of_dis_aggregates
  generalize (wire x.number_of_dis_entities).length = n_number_of_dis_entities
  generalize (wire x.number_of_silent_aggregate_types).length = n_number_of_silent_aggregate_types
  generalize (wire x.number_of_silent_entity_types).length = n_number_of_silent_entity_types
  generalize (wire x.aggregate_id_list).length = n_aggregate_id_list
  generalize (wire x.entity_id_list).length = n_entity_id_list
  generalize (wire x.padding).length = n_padding
  generalize (wire x.silent_aggregate_system_list).length = n_silent_aggregate_system_list
  generalize (wire x.silent_entity_system_list).length = n_silent_entity_system_list
  generalize (wire x.number_of_variable_datum_records).length = n_number_of_variable_datum_records
  generalize field_len x.variable_datum_list = a
  generalize surplus x.variable_datum_list = b
  generalize (wire (sent x.variable_datum_list)).length = c
  intro h_variable_datum_list
  simp only [Int.natCast_add, h_variable_datum_list]
  ac_rfl
theorem AggregateStatePdu.appends (x : AggregateStatePdu) : Appends x.serializeBody :=
    Appends.seq (LawfulEnc.appends x.aggregate_id) <|
    Appends.seq (LawfulEnc.appends x.force_id) <|
    Appends.seq (LawfulEnc.appends x.aggregate_state) <|
    Appends.seq (LawfulEnc.appends x.aggregate_type) <|
    Appends.seq (LawfulEnc.appends x.formation) <|
    Appends.seq (LawfulEnc.appends x.aggregate_marking) <|
    Appends.seq (LawfulEnc.appends x.dimensions) <|
    Appends.seq (LawfulEnc.appends x.orientation) <|
    Appends.seq (LawfulEnc.appends x.center_of_mass) <|
    Appends.seq (LawfulEnc.appends x.velocity) <|
    Appends.seq (LawfulEnc.appends x.number_of_dis_aggregates) <|
    Appends.seq (LawfulEnc.appends x.number_of_dis_entities) <|
    Appends.seq (LawfulEnc.appends x.number_of_silent_aggregate_types) <|
    Appends.seq (LawfulEnc.appends x.number_of_silent_entity_types) <|
    Appends.seq (LawfulEnc.appends x.aggregate_id_list) <|
    Appends.seq (LawfulEnc.appends x.entity_id_list) <|
    Appends.seq (LawfulEnc.appends x.padding) <|
    Appends.seq (LawfulEnc.appends x.silent_aggregate_system_list) <|
    Appends.seq (LawfulEnc.appends x.silent_entity_system_list) <|
    Appends.seq (LawfulEnc.appends x.number_of_variable_datum_records) <|
    LawfulEnc.appends x.variable_datum_list
theorem AggregateStatePdu.ifOk (x : AggregateStatePdu) : WritesIfOk x.serializeBody (wire (sent x)) :=
    (AggregateStatePdu.writes x).ifOk
theorem AggregateStatePdu.reads (x : AggregateStatePdu) (h : decodable x) :
    Reads AggregateStatePdu.deserializeBody (wire (kept x)) (kept x) := by
  obtain ⟨h1, h2, h3, h4, h5⟩ := h
  have e : kept x = { x with aggregate_id_list := [], entity_id_list := [], padding := [], silent_aggregate_system_list := [], silent_entity_system_list := [], variable_datum_list := [] } := by
    show { x with variable_datum_list := [] } = _
    simp only [h1, h2, h3, h4, h5]
  rw [e]
  exact Reads.bind (reads_exact x.aggregate_id) <|
    Reads.bind (reads_exact x.force_id) <|
    Reads.bind (reads_exact x.aggregate_state) <|
    Reads.bind (reads_exact x.aggregate_type) <|
    Reads.bind (reads_exact x.formation) <|
    Reads.bind (reads_exact x.aggregate_marking) <|
    Reads.bind (reads_exact x.dimensions) <|
    Reads.bind (reads_exact x.orientation) <|
    Reads.bind (reads_exact x.center_of_mass) <|
    Reads.bind (reads_exact x.velocity) <|
    Reads.bind (reads_exact x.number_of_dis_aggregates) <|
    Reads.bind (reads_exact x.number_of_dis_entities) <|
    Reads.bind (reads_exact x.number_of_silent_aggregate_types) <|
    Reads.bind (reads_exact x.number_of_silent_entity_types) <|
    Reads.bind (Reads.ret _) <|
    Reads.bind (Reads.ret _) <|
    Reads.bind (Reads.ret _) <|
    Reads.bind (Reads.ret _) <|
    Reads.bind (Reads.ret _) <|
    Reads.bind (reads_exact x.number_of_variable_datum_records) <|
    Reads.last (Reads.ret _) (Reads.ret _)

theorem AggregateStatePdu.fixed : Fixed AggregateStatePdu.deserializeBody 124 := Fixed.congr (
    Fixed.bind (FixedDec.fixed) fun _ =>
    Fixed.bind (FixedDec.fixed) fun _ =>
    Fixed.bind (FixedDec.fixed) fun _ =>
    Fixed.bind (FixedDec.fixed) fun _ =>
    Fixed.bind (FixedDec.fixed) fun _ =>
    Fixed.bind (FixedDec.fixed) fun _ =>
    Fixed.bind (FixedDec.fixed) fun _ =>
    Fixed.bind (FixedDec.fixed) fun _ =>
    Fixed.bind (FixedDec.fixed) fun _ =>
    Fixed.bind (FixedDec.fixed) fun _ =>
    Fixed.bind (FixedDec.fixed) fun _ =>
    Fixed.bind (FixedDec.fixed) fun _ =>
    Fixed.bind (FixedDec.fixed) fun _ =>
    Fixed.bind (FixedDec.fixed) fun _ =>
    Fixed.bind (FixedDec.fixed) fun _ =>
    Fixed.bind (FixedDec.fixed) fun _ =>
    Fixed.bind (FixedDec.fixed) fun _ =>
    Fixed.bind (FixedDec.fixed) fun _ =>
    Fixed.bind (FixedDec.fixed) fun _ =>
    Fixed.bind (FixedDec.fixed) fun _ =>
    Fixed.bind (FixedDec.fixed) fun _ =>
    Fixed.ret _) rfl
theorem AggregateStatePdu.loc : Local AggregateStatePdu.deserializeBody :=
    Local.bind (LocalDec.loc) fun _ =>
    Local.bind (LocalDec.loc) fun _ =>
    Local.bind (LocalDec.loc) fun _ =>
    Local.bind (LocalDec.loc) fun _ =>
    Local.bind (LocalDec.loc) fun _ =>
    Local.bind (LocalDec.loc) fun _ =>
    Local.bind (LocalDec.loc) fun _ =>
    Local.bind (LocalDec.loc) fun _ =>
    Local.bind (LocalDec.loc) fun _ =>
    Local.bind (LocalDec.loc) fun _ =>
    Local.bind (LocalDec.loc) fun _ =>
    Local.bind (LocalDec.loc) fun _ =>
    Local.bind (LocalDec.loc) fun _ =>
    Local.bind (LocalDec.loc) fun _ =>
    Local.bind (LocalDec.loc) fun _ =>
    Local.bind (LocalDec.loc) fun _ =>
    Local.bind (LocalDec.loc) fun _ =>
    Local.bind (LocalDec.loc) fun _ =>
    Local.bind (LocalDec.loc) fun _ =>
    Local.bind (LocalDec.loc) fun _ =>
    Local.bind (LocalDec.loc) fun _ =>
    Local.ret _
theorem AggregateStatePdu.under : OnlyUnderflow AggregateStatePdu.deserializeBody :=
    OnlyUnderflow.bind (UnderflowDec.under) fun _ =>
    OnlyUnderflow.bind (UnderflowDec.under) fun _ =>
    OnlyUnderflow.bind (UnderflowDec.under) fun _ =>
    OnlyUnderflow.bind (UnderflowDec.under) fun _ =>
    OnlyUnderflow.bind (UnderflowDec.under) fun _ =>
    OnlyUnderflow.bind (UnderflowDec.under) fun _ =>
    OnlyUnderflow.bind (UnderflowDec.under) fun _ =>
    OnlyUnderflow.bind (UnderflowDec.under) fun _ =>
    OnlyUnderflow.bind (UnderflowDec.under) fun _ =>
    OnlyUnderflow.bind (UnderflowDec.under) fun _ =>
    OnlyUnderflow.bind (UnderflowDec.under) fun _ =>
    OnlyUnderflow.bind (UnderflowDec.under) fun _ =>
    OnlyUnderflow.bind (UnderflowDec.under) fun _ =>
    OnlyUnderflow.bind (UnderflowDec.under) fun _ =>
    OnlyUnderflow.bind (UnderflowDec.under) fun _ =>
    OnlyUnderflow.bind (UnderflowDec.under) fun _ =>
    OnlyUnderflow.bind (UnderflowDec.under) fun _ =>
    OnlyUnderflow.bind (UnderflowDec.under) fun _ =>
    OnlyUnderflow.bind (UnderflowDec.under) fun _ =>
    OnlyUnderflow.bind (UnderflowDec.under) fun _ =>
    OnlyUnderflow.bind (UnderflowDec.under) fun _ =>
    OnlyUnderflow.ret _
theorem AggregateStatePdu.split (x : AggregateStatePdu) : wire x = wire (kept x) ++ tail x := by
  show wire x.aggregate_id ++ (wire x.force_id ++ (wire x.aggregate_state ++ (wire x.aggregate_type ++ (wire x.formation ++ (wire x.aggregate_marking ++ (wire x.dimensions ++ (wire x.orientation ++ (wire x.center_of_mass ++ (wire x.velocity ++ (wire x.number_of_dis_aggregates ++ (wire x.number_of_dis_entities ++ (wire x.number_of_silent_aggregate_types ++ (wire x.number_of_silent_entity_types ++ (wire x.aggregate_id_list ++ (wire x.entity_id_list ++ (wire x.padding ++ (wire x.silent_aggregate_system_list ++ (wire x.silent_entity_system_list ++ (wire x.number_of_variable_datum_records ++ (wire x.variable_datum_list))))))))))))))))))))
    = (wire x.aggregate_id ++ (wire x.force_id ++ (wire x.aggregate_state ++ (wire x.aggregate_type ++ (wire x.formation ++ (wire x.aggregate_marking ++ (wire x.dimensions ++ (wire x.orientation ++ (wire x.center_of_mass ++ (wire x.velocity ++ (wire x.number_of_dis_aggregates ++ (wire x.number_of_dis_entities ++ (wire x.number_of_silent_aggregate_types ++ (wire x.number_of_silent_entity_types ++ (wire x.aggregate_id_list ++ (wire x.entity_id_list ++ (wire x.padding ++ (wire x.silent_aggregate_system_list ++ (wire x.silent_entity_system_list ++ (wire x.number_of_variable_datum_records ++ ([])))))))))))))))))))))
      ++ wire x.variable_datum_list
  simp only [List.append_assoc, List.append_nil, List.nil_append]

theorem IsGroupOfPdu.writes (x : IsGroupOfPdu) : Writes x.serializeBody (wire (sent x)) :=
    Writes.seq (writes_exact x.group_entity_id) <|
    Writes.seq (writes_exact x.grouped_entity_category) <|
    Writes.seq (writes_exact x.number_of_grouped_entities) <|
    Writes.seq (writes_exact x.padding) <|
    Writes.seq (writes_exact x.latitude) <|
    Writes.seq (writes_exact x.longitude) <|
    writes_exact x.grouped_entity_descriptions
theorem IsGroupOfPdu.len (x : IsGroupOfPdu) : ((wire (sent x)).length : Int) = (x.fieldsLen : Nat) + surplus x := by
  show ((wire x.group_entity_id ++ (wire x.grouped_entity_category ++ (wire x.number_of_grouped_entities ++ (wire x.padding ++ (wire x.latitude ++ (wire x.longitude ++ (wire x.grouped_entity_descriptions))))))).length : Int) = (x.fieldsLen : Nat) + ((0 : Int))
  simp only [List.length_append, IsGroupOfPdu.fieldsLen]
  have h_group_entity_id := len_exact x.group_entity_id
  have h_grouped_entity_category := len_exact x.grouped_entity_category
  have h_number_of_grouped_entities := len_exact x.number_of_grouped_entities
  have h_padding := len_exact x.padding
  have h_latitude := len_exact x.latitude
  have h_longitude := len_exact x.longitude
  have h_grouped_entity_descriptions := len_exact x.grouped_entity_descriptions
  omega
theorem IsGroupOfPdu.appends (x : IsGroupOfPdu) : Appends x.serializeBody :=
    Appends.seq (LawfulEnc.appends x.group_entity_id) <|
    Appends.seq (LawfulEnc.appends x.grouped_entity_category) <|
    Appends.seq (LawfulEnc.appends x.number_of_grouped_entities) <|
    Appends.seq (LawfulEnc.appends x.padding) <|
    Appends.seq (LawfulEnc.appends x.latitude) <|
    Appends.seq (LawfulEnc.appends x.longitude) <|
    LawfulEnc.appends x.grouped_entity_descriptions
theorem IsGroupOfPdu.ifOk (x : IsGroupOfPdu) : WritesIfOk x.serializeBody (wire (sent x)) :=
    (IsGroupOfPdu.writes x).ifOk
theorem IsGroupOfPdu.reads (x : IsGroupOfPdu) : Reads IsGroupOfPdu.deserializeBody (wire (kept x)) (kept x) :=
    Reads.bind (reads_exact x.group_entity_id) <|
    Reads.bind (reads_exact x.grouped_entity_category) <|
    Reads.bind (reads_exact x.number_of_grouped_entities) <|
    Reads.bind (reads_exact x.padding) <|
    Reads.bind (reads_exact x.latitude) <|
    Reads.bind (reads_exact x.longitude) <|
    Reads.last (Reads.ret _) (Reads.ret _)
theorem IsGroupOfPdu.fixed : Fixed IsGroupOfPdu.deserializeBody 28 := Fixed.congr (
    Fixed.bind (FixedDec.fixed) fun _ =>
    Fixed.bind (FixedDec.fixed) fun _ =>
    Fixed.bind (FixedDec.fixed) fun _ =>
    Fixed.bind (FixedDec.fixed) fun _ =>
    Fixed.bind (FixedDec.fixed) fun _ =>
    Fixed.bind (FixedDec.fixed) fun _ =>
    Fixed.bind (FixedDec.fixed) fun _ =>
    Fixed.ret _) rfl
theorem IsGroupOfPdu.loc : Local IsGroupOfPdu.deserializeBody :=
    Local.bind (LocalDec.loc) fun _ =>
    Local.bind (LocalDec.loc) fun _ =>
    Local.bind (LocalDec.loc) fun _ =>
    Local.bind (LocalDec.loc) fun _ =>
    Local.bind (LocalDec.loc) fun _ =>
    Local.bind (LocalDec.loc) fun _ =>
    Local.bind (LocalDec.loc) fun _ =>
    Local.ret _
theorem IsGroupOfPdu.under : OnlyUnderflow IsGroupOfPdu.deserializeBody :=
    OnlyUnderflow.bind (UnderflowDec.under) fun _ =>
    OnlyUnderflow.bind (UnderflowDec.under) fun _ =>
    OnlyUnderflow.bind (UnderflowDec.under) fun _ =>
    OnlyUnderflow.bind (UnderflowDec.under) fun _ =>
    OnlyUnderflow.bind (UnderflowDec.under) fun _ =>
    OnlyUnderflow.bind (UnderflowDec.under) fun _ =>
    OnlyUnderflow.bind (UnderflowDec.under) fun _ =>
    OnlyUnderflow.ret _
theorem IsGroupOfPdu.split (x : IsGroupOfPdu) : wire x = wire (kept x) ++ tail x := by
  show wire x.group_entity_id ++ (wire x.grouped_entity_category ++ (wire x.number_of_grouped_entities ++ (wire x.padding ++ (wire x.latitude ++ (wire x.longitude ++ (wire x.grouped_entity_descriptions))))))
    = (wire x.group_entity_id ++ (wire x.grouped_entity_category ++ (wire x.number_of_grouped_entities ++ (wire x.padding ++ (wire x.latitude ++ (wire x.longitude ++ ([])))))))
      ++ (wire x.grouped_entity_descriptions)
  simp only [List.append_assoc, List.append_nil, List.nil_append]

theorem TransferOwnershipPdu.writes (x : TransferOwnershipPdu) (h : encodable x) : Writes x.serializeBody (wire (sent x)) :=
    Writes.seq (LawfulEnc.writes x.originating_id (trivial)) <|
    Writes.seq (LawfulEnc.writes x.receiving_id (trivial)) <|
    Writes.seq (writes_exact x.request_id) <|
    Writes.seq (writes_exact x.required_reliability_service) <|
    Writes.seq (writes_exact x.transfer_type) <|
    Writes.seq (writes_exact x.transfer_entity_id) <|
    LawfulEnc.writes x.record_information h
theorem TransferOwnershipPdu.len (x : TransferOwnershipPdu) : ((wire (sent x)).length : Int) = (x.fieldsLen : Nat) + surplus x := by
  show ((wire (sent x.originating_id) ++ (wire (sent x.receiving_id) ++ (wire x.request_id ++ (wire x.required_reliability_service ++ (wire x.transfer_type ++ (wire x.transfer_entity_id ++ (wire (sent x.record_information)))))))).length : Int) = (x.fieldsLen : Nat) + (surplus x.record_information)
  simp only [List.length_append, TransferOwnershipPdu.fieldsLen]
  have h_originating_id : ((wire (sent x.originating_id)).length : Int) = field_len x.originating_id + 0 := LawfulEnc.len x.originating_id
  have h_receiving_id : ((wire (sent x.receiving_id)).length : Int) = field_len x.receiving_id + 0 := LawfulEnc.len x.receiving_id
  have h_request_id := len_exact x.request_id
  have h_required_reliability_service := len_exact x.required_reliability_service
  have h_transfer_type := len_exact x.transfer_type
  have h_transfer_entity_id := len_exact x.transfer_entity_id
  have h_record_information : ((wire (sent x.record_information)).length : Int) = field_len x.record_information + surplus x.record_information := LawfulEnc.len x.record_information
  omega
theorem TransferOwnershipPdu.appends (x : TransferOwnershipPdu) : Appends x.serializeBody :=
    Appends.seq (LawfulEnc.appends x.originating_id) <|
    Appends.seq (LawfulEnc.appends x.receiving_id) <|
    Appends.seq (LawfulEnc.appends x.request_id) <|
    Appends.seq (LawfulEnc.appends x.required_reliability_service) <|
    Appends.seq (LawfulEnc.appends x.transfer_type) <|
    Appends.seq (LawfulEnc.appends x.transfer_entity_id) <|
    LawfulEnc.appends x.record_information
theorem TransferOwnershipPdu.ifOk (x : TransferOwnershipPdu) : WritesIfOk x.serializeBody (wire (sent x)) :=
    WritesIfOk.seq (LawfulEnc.ok x.originating_id) <|
    WritesIfOk.seq (LawfulEnc.ok x.receiving_id) <|
    WritesIfOk.seq ((writes_exact x.request_id).ifOk) <|
    WritesIfOk.seq ((writes_exact x.required_reliability_service).ifOk) <|
    WritesIfOk.seq ((writes_exact x.transfer_type).ifOk) <|
    WritesIfOk.seq ((writes_exact x.transfer_entity_id).ifOk) <|
    LawfulEnc.ok x.record_information
theorem TransferOwnershipPdu.reads (x : TransferOwnershipPdu) (h : decodable x) : Reads TransferOwnershipPdu.deserializeBody (wire (kept x)) (kept x) :=
    Reads.bind (reads_exact x.originating_id) <|
    Reads.bind (reads_exact x.receiving_id) <|
    Reads.bind (reads_exact x.request_id) <|
    Reads.bind (reads_exact x.required_reliability_service) <|
    Reads.bind (reads_exact x.transfer_type) <|
    Reads.bind (reads_exact x.transfer_entity_id) <|
    Reads.last (LawfulDec.reads x.record_information h) (Reads.ret _)
theorem TransferOwnershipPdu.loc : Local TransferOwnershipPdu.deserializeBody :=
    Local.bind (LocalDec.loc) fun _ =>
    Local.bind (LocalDec.loc) fun _ =>
    Local.bind (LocalDec.loc) fun _ =>
    Local.bind (LocalDec.loc) fun _ =>
    Local.bind (LocalDec.loc) fun _ =>
    Local.bind (LocalDec.loc) fun _ =>
    Local.bind (LocalDec.loc) fun _ =>
    Local.ret _
theorem TransferOwnershipPdu.split (x : TransferOwnershipPdu) : wire x = wire (kept x) ++ tail x := (List.append_nil _).symm

theorem IsPartOfPdu.writes (x : IsPartOfPdu) : Writes x.serializeBody (wire (sent x)) :=
    Writes.seq (writes_exact x.originating_entity_id) <|
    Writes.seq (writes_exact x.receiving_entity_id) <|
    Writes.seq (writes_exact x.relationship) <|
    Writes.seq (writes_exact x.part_location) <|
    Writes.seq (writes_exact x.named_location_id) <|
    writes_exact x.part_entity_type
theorem IsPartOfPdu.len (x : IsPartOfPdu) : ((wire (sent x)).length : Int) = (x.fieldsLen : Nat) + surplus x := by
  show ((wire x.originating_entity_id ++ (wire x.receiving_entity_id ++ (wire x.relationship ++ (wire x.part_location ++ (wire x.named_location_id ++ (wire x.part_entity_type)))))).length : Int) = (x.fieldsLen : Nat) + ((0 : Int))
  simp only [List.length_append, IsPartOfPdu.fieldsLen]
  have h_originating_entity_id := len_exact x.originating_entity_id
  have h_receiving_entity_id := len_exact x.receiving_entity_id
  have h_relationship := len_exact x.relationship
  have h_part_location := len_exact x.part_location
  have h_named_location_id := len_exact x.named_location_id
  have h_part_entity_type := len_exact x.part_entity_type
  omega
theorem IsPartOfPdu.appends (x : IsPartOfPdu) : Appends x.serializeBody :=
    Appends.seq (LawfulEnc.appends x.originating_entity_id) <|
    Appends.seq (LawfulEnc.appends x.receiving_entity_id) <|
    Appends.seq (LawfulEnc.appends x.relationship) <|
    Appends.seq (LawfulEnc.appends x.part_location) <|
    Appends.seq (LawfulEnc.appends x.named_location_id) <|
    LawfulEnc.appends x.part_entity_type
theorem IsPartOfPdu.ifOk (x : IsPartOfPdu) : WritesIfOk x.serializeBody (wire (sent x)) :=
    (IsPartOfPdu.writes x).ifOk
theorem IsPartOfPdu.reads (x : IsPartOfPdu) : Reads IsPartOfPdu.deserializeBody (wire (kept x)) (kept x) :=
    Reads.bind (reads_exact x.originating_entity_id) <|
    Reads.bind (reads_exact x.receiving_entity_id) <|
    Reads.bind (reads_exact x.relationship) <|
    Reads.bind (reads_exact x.part_location) <|
    Reads.bind (reads_exact x.named_location_id) <|
    Reads.last (reads_exact x.part_entity_type) (Reads.ret _)
theorem IsPartOfPdu.fixed : Fixed IsPartOfPdu.deserializeBody 40 := Fixed.congr (
    Fixed.bind (FixedDec.fixed) fun _ =>
    Fixed.bind (FixedDec.fixed) fun _ =>
    Fixed.bind (FixedDec.fixed) fun _ =>
    Fixed.bind (FixedDec.fixed) fun _ =>
    Fixed.bind (FixedDec.fixed) fun _ =>
    Fixed.bind (FixedDec.fixed) fun _ =>
    Fixed.ret _) rfl
theorem IsPartOfPdu.loc : Local IsPartOfPdu.deserializeBody :=
    Local.bind (LocalDec.loc) fun _ =>
    Local.bind (LocalDec.loc) fun _ =>
    Local.bind (LocalDec.loc) fun _ =>
    Local.bind (LocalDec.loc) fun _ =>
    Local.bind (LocalDec.loc) fun _ =>
    Local.bind (LocalDec.loc) fun _ =>
    Local.ret _
theorem IsPartOfPdu.under : OnlyUnderflow IsPartOfPdu.deserializeBody :=
    OnlyUnderflow.bind (UnderflowDec.under) fun _ =>
    OnlyUnderflow.bind (UnderflowDec.under) fun _ =>
    OnlyUnderflow.bind (UnderflowDec.under) fun _ =>
    OnlyUnderflow.bind (UnderflowDec.under) fun _ =>
    OnlyUnderflow.bind (UnderflowDec.under) fun _ =>
    OnlyUnderflow.bind (UnderflowDec.under) fun _ =>
    OnlyUnderflow.ret _
theorem IsPartOfPdu.split (x : IsPartOfPdu) : wire x = wire (kept x) ++ tail x := (List.append_nil _).symm

theorem InformationOperationsReportPdu.writes (x : InformationOperationsReportPdu) : Writes x.serializeBody (wire (sent x)) :=
    Writes.seq (LawfulEnc.writes x.originating_simulation_id (trivial)) <|
    Writes.seq (writes_exact x.io_simulation_source) <|
    Writes.seq (writes_exact x.io_report_type) <|
    Writes.seq (writes_exact x.padding) <|
    Writes.seq (writes_exact x.io_attacker_entity_id) <|
    Writes.seq (writes_exact x.primary_target_entity_id) <|
    Writes.seq (writes_exact x.padding2) <|
    Writes.seq (writes_exact x.padding3) <|
    writes_exact x.io_records
theorem InformationOperationsReportPdu.len (x : InformationOperationsReportPdu) : ((wire (sent x)).length : Int) = (x.fieldsLen : Nat) + surplus x := by
  show ((wire (sent x.originating_simulation_id) ++ (wire x.io_simulation_source ++ (wire x.io_report_type ++ (wire x.padding ++ (wire x.io_attacker_entity_id ++ (wire x.primary_target_entity_id ++ (wire x.padding2 ++ (wire x.padding3 ++ (wire x.io_records))))))))).length : Int) = (x.fieldsLen : Nat) + ((0 : Int))
  simp only [List.length_append, InformationOperationsReportPdu.fieldsLen]
  have h_originating_simulation_id : ((wire (sent x.originating_simulation_id)).length : Int) = field_len x.originating_simulation_id + 0 := LawfulEnc.len x.originating_simulation_id
  have h_io_simulation_source := len_exact x.io_simulation_source
  have h_io_report_type := len_exact x.io_report_type
  have h_padding := len_exact x.padding
  have h_io_attacker_entity_id := len_exact x.io_attacker_entity_id
  have h_primary_target_entity_id := len_exact x.primary_target_entity_id
  have h_padding2 := len_exact x.padding2
  have h_padding3 := len_exact x.padding3
  have h_io_records := len_exact x.io_records
  omega
theorem InformationOperationsReportPdu.appends (x : InformationOperationsReportPdu) : Appends x.serializeBody :=
    Appends.seq (LawfulEnc.appends x.originating_simulation_id) <|
    Appends.seq (LawfulEnc.appends x.io_simulation_source) <|
    Appends.seq (LawfulEnc.appends x.io_report_type) <|
    Appends.seq (LawfulEnc.appends x.padding) <|
    Appends.seq (LawfulEnc.appends x.io_attacker_entity_id) <|
    Appends.seq (LawfulEnc.appends x.primary_target_entity_id) <|
    Appends.seq (LawfulEnc.appends x.padding2) <|
    Appends.seq (LawfulEnc.appends x.padding3) <|
    LawfulEnc.appends x.io_records
theorem InformationOperationsReportPdu.ifOk (x : InformationOperationsReportPdu) : WritesIfOk x.serializeBody (wire (sent x)) :=
    (InformationOperationsReportPdu.writes x).ifOk
theorem InformationOperationsReportPdu.reads (x : InformationOperationsReportPdu) (h : decodable x) : Reads InformationOperationsReportPdu.deserializeBody (wire (kept x)) (kept x) :=
    Reads.bind (reads_exact x.originating_simulation_id) <|
    Reads.bind (reads_exact x.io_simulation_source) <|
    Reads.bind (reads_exact x.io_report_type) <|
    Reads.bind (reads_exact x.padding) <|
    Reads.bind (reads_exact x.io_attacker_entity_id) <|
    Reads.bind (reads_exact x.primary_target_entity_id) <|
    Reads.bind (reads_exact x.padding2) <|
    Reads.bind (reads_exact x.padding3) <|
    Reads.last (LawfulDec.reads x.io_records h) (Reads.ret _)
theorem InformationOperationsReportPdu.loc : Local InformationOperationsReportPdu.deserializeBody :=
    Local.bind (LocalDec.loc) fun _ =>
    Local.bind (LocalDec.loc) fun _ =>
    Local.bind (LocalDec.loc) fun _ =>
    Local.bind (LocalDec.loc) fun _ =>
    Local.bind (LocalDec.loc) fun _ =>
    Local.bind (LocalDec.loc) fun _ =>
    Local.bind (LocalDec.loc) fun _ =>
    Local.bind (LocalDec.loc) fun _ =>
    Local.bind (LocalDec.loc) fun _ =>
    Local.ret _
theorem InformationOperationsReportPdu.under : OnlyUnderflow InformationOperationsReportPdu.deserializeBody :=
    OnlyUnderflow.bind (UnderflowDec.under) fun _ =>
    OnlyUnderflow.bind (UnderflowDec.under) fun _ =>
    OnlyUnderflow.bind (UnderflowDec.under) fun _ =>
    OnlyUnderflow.bind (UnderflowDec.under) fun _ =>
    OnlyUnderflow.bind (UnderflowDec.under) fun _ =>
    OnlyUnderflow.bind (UnderflowDec.under) fun _ =>
    OnlyUnderflow.bind (UnderflowDec.under) fun _ =>
    OnlyUnderflow.bind (UnderflowDec.under) fun _ =>
    OnlyUnderflow.bind (UnderflowDec.under) fun _ =>
    OnlyUnderflow.ret _
theorem InformationOperationsReportPdu.split (x : InformationOperationsReportPdu) : wire x = wire (kept x) ++ tail x := (List.append_nil _).symm

theorem InformationOperationsActionPdu.writes (x : InformationOperationsActionPdu) : Writes x.serializeBody (wire (sent x)) :=
    Writes.seq (LawfulEnc.writes x.originating_simulation_id (trivial)) <|
    Writes.seq (LawfulEnc.writes x.receiving_simulation_id (trivial)) <|
    Writes.seq (writes_exact x.request_id) <|
    Writes.seq (writes_exact x.io_warfare_type) <|
    Writes.seq (writes_exact x.io_simulation_source) <|
    Writes.seq (writes_exact x.io_action_type) <|
    Writes.seq (writes_exact x.io_action_phase) <|
    Writes.seq (writes_exact x.padding) <|
    Writes.seq (writes_exact x.io_attacker_entity_id) <|
    Writes.seq (writes_exact x.io_primary_target_entity_id) <|
    Writes.seq (writes_exact x.padding2) <|
    writes_exact x.io_records
theorem InformationOperationsActionPdu.len (x : InformationOperationsActionPdu) : ((wire (sent x)).length : Int) = (x.fieldsLen : Nat) + surplus x := by
  show ((wire (sent x.originating_simulation_id) ++ (wire (sent x.receiving_simulation_id) ++ (wire x.request_id ++ (wire x.io_warfare_type ++ (wire x.io_simulation_source ++ (wire x.io_action_type ++ (wire x.io_action_phase ++ (wire x.padding ++ (wire x.io_attacker_entity_id ++ (wire x.io_primary_target_entity_id ++ (wire x.padding2 ++ (wire x.io_records)))))))))))).length : Int) = (x.fieldsLen : Nat) + ((0 : Int))
  simp only [List.length_append, InformationOperationsActionPdu.fieldsLen]
  have h_originating_simulation_id : ((wire (sent x.originating_simulation_id)).length : Int) = field_len x.originating_simulation_id + 0 := LawfulEnc.len x.originating_simulation_id
  have h_receiving_simulation_id : ((wire (sent x.receiving_simulation_id)).length : Int) = field_len x.receiving_simulation_id + 0 := LawfulEnc.len x.receiving_simulation_id
  have h_request_id := len_exact x.request_id
  have h_io_warfare_type := len_exact x.io_warfare_type
  have h_io_simulation_source := len_exact x.io_simulation_source
  have h_io_action_type := len_exact x.io_action_type
  have h_io_action_phase := len_exact x.io_action_phase
  have h_padding := len_exact x.padding
  have h_io_attacker_entity_id := len_exact x.io_attacker_entity_id
  have h_io_primary_target_entity_id := len_exact x.io_primary_target_entity_id
  have h_padding2 := len_exact x.padding2
  have h_io_records := len_exact x.io_records
  omega
theorem InformationOperationsActionPdu.appends (x : InformationOperationsActionPdu) : Appends x.serializeBody :=
    Appends.seq (LawfulEnc.appends x.originating_simulation_id) <|
    Appends.seq (LawfulEnc.appends x.receiving_simulation_id) <|
    Appends.seq (LawfulEnc.appends x.request_id) <|
    Appends.seq (LawfulEnc.appends x.io_warfare_type) <|
    Appends.seq (LawfulEnc.appends x.io_simulation_source) <|
    Appends.seq (LawfulEnc.appends x.io_action_type) <|
    Appends.seq (LawfulEnc.appends x.io_action_phase) <|
    Appends.seq (LawfulEnc.appends x.padding) <|
    Appends.seq (LawfulEnc.appends x.io_attacker_entity_id) <|
    Appends.seq (LawfulEnc.appends x.io_primary_target_entity_id) <|
    Appends.seq (LawfulEnc.appends x.padding2) <|
    LawfulEnc.appends x.io_records
theorem InformationOperationsActionPdu.ifOk (x : InformationOperationsActionPdu) : WritesIfOk x.serializeBody (wire (sent x)) :=
    (InformationOperationsActionPdu.writes x).ifOk
theorem InformationOperationsActionPdu.reads (x : InformationOperationsActionPdu) (h : decodable x) : Reads InformationOperationsActionPdu.deserializeBody (wire (kept x)) (kept x) :=
    Reads.bind (reads_exact x.originating_simulation_id) <|
    Reads.bind (reads_exact x.receiving_simulation_id) <|
    Reads.bind (reads_exact x.request_id) <|
    Reads.bind (reads_exact x.io_warfare_type) <|
    Reads.bind (reads_exact x.io_simulation_source) <|
    Reads.bind (reads_exact x.io_action_type) <|
    Reads.bind (reads_exact x.io_action_phase) <|
    Reads.bind (reads_exact x.padding) <|
    Reads.bind (reads_exact x.io_attacker_entity_id) <|
    Reads.bind (reads_exact x.io_primary_target_entity_id) <|
    Reads.bind (reads_exact x.padding2) <|
    Reads.last (LawfulDec.reads x.io_records h) (Reads.ret _)
theorem InformationOperationsActionPdu.loc : Local InformationOperationsActionPdu.deserializeBody :=
    Local.bind (LocalDec.loc) fun _ =>
    Local.bind (LocalDec.loc) fun _ =>
    Local.bind (LocalDec.loc) fun _ =>
    Local.bind (LocalDec.loc) fun _ =>
    Local.bind (LocalDec.loc) fun _ =>
    Local.bind (LocalDec.loc) fun _ =>
    Local.bind (LocalDec.loc) fun _ =>
    Local.bind (LocalDec.loc) fun _ =>
    Local.bind (LocalDec.loc) fun _ =>
    Local.bind (LocalDec.loc) fun _ =>
    Local.bind (LocalDec.loc) fun _ =>
    Local.bind (LocalDec.loc) fun _ =>
    Local.ret _
theorem InformationOperationsActionPdu.under : OnlyUnderflow InformationOperationsActionPdu.deserializeBody :=
    OnlyUnderflow.bind (UnderflowDec.under) fun _ =>
    OnlyUnderflow.bind (UnderflowDec.under) fun _ =>
    OnlyUnderflow.bind (UnderflowDec.under) fun _ =>
    OnlyUnderflow.bind (UnderflowDec.under) fun _ =>
    OnlyUnderflow.bind (UnderflowDec.under) fun _ =>
    OnlyUnderflow.bind (UnderflowDec.under) fun _ =>
    OnlyUnderflow.bind (UnderflowDec.under) fun _ =>
    OnlyUnderflow.bind (UnderflowDec.under) fun _ =>
    OnlyUnderflow.bind (UnderflowDec.under) fun _ =>
    OnlyUnderflow.bind (UnderflowDec.under) fun _ =>
    OnlyUnderflow.bind (UnderflowDec.under) fun _ =>
    OnlyUnderflow.bind (UnderflowDec.under) fun _ =>
    OnlyUnderflow.ret _
theorem InformationOperationsActionPdu.split (x : InformationOperationsActionPdu) : wire x = wire (kept x) ++ tail x := (List.append_nil _).symm

end Dis
