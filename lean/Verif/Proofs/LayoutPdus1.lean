import Verif.Spec.PduLayout1
import Verif.Proofs.LayoutRecords
import Verif.Proofs.Pdus1
/- Generated by tools/gen_layout.py. -/
set_option maxRecDepth 8000
namespace Dis

def ElectromagneticEmissionsPdu.slots : List (Slot ElectromagneticEmissionsPdu) :=
  Slot.cons (·.emitting_entity_id) EntityId.slots 6 <|
  Slot.cons (·.event_id) EventId.slots 6 <|
  Slot.cons (·.state_update_indicator) [Slot.enum 0 1 id] 1 <|
  Slot.cons (·.number_of_systems) [Slot.u8 0 id] 1 <|
  Slot.cons (·.padding) [Slot.u16 0 id] 2 <|
  []
theorem ElectromagneticEmissionsPdu.layout_eq : ElectromagneticEmissionsPdu.layout = ElectromagneticEmissionsPdu.slots.map (Slot.shift 12) := (rfl)
theorem ElectromagneticEmissionsPdu.written (x : ElectromagneticEmissionsPdu) : Written ElectromagneticEmissionsPdu.slots x (wire (sent x)) :=
    Written.cons (EntityId.written x.emitting_entity_id) (EntityId.wire_length _) <|
    Written.cons (EventId.written x.event_id) (EventId.wire_length _) <|
    Written.cons (written_enum rfl x.state_update_indicator) (octets_length _ _) <|
    Written.cons (written_u8 x.number_of_systems) (octets_length _ _) <|
    Written.cons (written_u16 x.padding) (octets_length _ _) <|
    Written.nil _ _
theorem ElectromagneticEmissionsPdu.finds : Finds ElectromagneticEmissionsPdu.deserializeBody (ReadFrom ElectromagneticEmissionsPdu.slots) := FindsAt.finds <|
    FindsAt.cons (π := fun x : ElectromagneticEmissionsPdu => x.emitting_entity_id) (EntityId.fixed) (EntityId.finds) fun _ =>
    FindsAt.cons (π := fun x : ElectromagneticEmissionsPdu => x.event_id) (EventId.fixed) (EventId.finds) fun _ =>
    FindsAt.cons (π := fun x : ElectromagneticEmissionsPdu => x.state_update_indicator) (EnumSpec.fixed _) (EnumSpec.finds _ rfl) fun _ =>
    FindsAt.cons (π := fun x : ElectromagneticEmissionsPdu => x.number_of_systems) (fixed_u8) (finds_u8) fun _ =>
    FindsAt.cons (π := fun x : ElectromagneticEmissionsPdu => x.padding) (fixed_u16) (finds_u16) fun _ =>
    FindsAt.skip fun _ =>
    FindsAt.ret ⟨⟨⟨⟨⟨trivial, rfl⟩, rfl⟩, rfl⟩, rfl⟩, rfl⟩

def DesignatorPdu.slots : List (Slot DesignatorPdu) :=
  Slot.cons (·.designating_entity_id) EntityId.slots 6 <|
  Slot.cons (·.code_name) [Slot.enum 0 2 id] 2 <|
  Slot.cons (·.designated_entity_id) EntityId.slots 6 <|
  Slot.cons (·.designator_code) [Slot.enum 0 2 id] 2 <|
  Slot.cons (·.designator_power) [Slot.f32 0 id] 4 <|
  Slot.cons (·.designator_wavelength) [Slot.f32 0 id] 4 <|
  Slot.cons (·.designator_spot_wrt_designated) EntityCoordinateVector.slots 12 <|
  Slot.cons (·.designator_spot_location) WorldCoordinate.slots 24 <|
  Slot.cons (·.dead_reckoning_algorithm) [Slot.enum 0 1 id] 1 <|
  Slot.cons (·.padding) [Slot.u8 0 id] 1 <|
  Slot.cons (·.padding2) [Slot.u16 0 id] 2 <|
  Slot.cons (·.entity_linear_acceleration) LinearAcceleration.slots 12 <|
  []
theorem DesignatorPdu.layout_eq : DesignatorPdu.layout = DesignatorPdu.slots.map (Slot.shift 12) := (rfl)
theorem DesignatorPdu.written (x : DesignatorPdu) : Written DesignatorPdu.slots x (wire (sent x)) :=
    Written.cons (EntityId.written x.designating_entity_id) (EntityId.wire_length _) <|
    Written.cons (written_enum rfl x.code_name) (octets_length _ _) <|
    Written.cons (EntityId.written x.designated_entity_id) (EntityId.wire_length _) <|
    Written.cons (written_enum rfl x.designator_code) (octets_length _ _) <|
    Written.cons (written_f32 x.designator_power) (octets_length _ _) <|
    Written.cons (written_f32 x.designator_wavelength) (octets_length _ _) <|
    Written.cons (EntityCoordinateVector.written x.designator_spot_wrt_designated) (EntityCoordinateVector.wire_length _) <|
    Written.cons (WorldCoordinate.written x.designator_spot_location) (WorldCoordinate.wire_length _) <|
    Written.cons (written_enum rfl x.dead_reckoning_algorithm) (octets_length _ _) <|
    Written.cons (written_u8 x.padding) (octets_length _ _) <|
    Written.cons (written_u16 x.padding2) (octets_length _ _) <|
    Written.last (LinearAcceleration.written x.entity_linear_acceleration)
theorem DesignatorPdu.finds : Finds DesignatorPdu.deserializeBody (ReadFrom DesignatorPdu.slots) := FindsAt.finds <|
    FindsAt.cons (π := fun x : DesignatorPdu => x.designating_entity_id) (EntityId.fixed) (EntityId.finds) fun _ =>
    FindsAt.cons (π := fun x : DesignatorPdu => x.code_name) (EnumSpec.fixed _) (EnumSpec.finds _ rfl) fun _ =>
    FindsAt.cons (π := fun x : DesignatorPdu => x.designated_entity_id) (EntityId.fixed) (EntityId.finds) fun _ =>
    FindsAt.cons (π := fun x : DesignatorPdu => x.designator_code) (EnumSpec.fixed _) (EnumSpec.finds _ rfl) fun _ =>
    FindsAt.cons (π := fun x : DesignatorPdu => x.designator_power) (fixed_f32) (finds_f32) fun _ =>
    FindsAt.cons (π := fun x : DesignatorPdu => x.designator_wavelength) (fixed_f32) (finds_f32) fun _ =>
    FindsAt.cons (π := fun x : DesignatorPdu => x.designator_spot_wrt_designated) (EntityCoordinateVector.fixed) (EntityCoordinateVector.finds) fun _ =>
    FindsAt.cons (π := fun x : DesignatorPdu => x.designator_spot_location) (WorldCoordinate.fixed) (WorldCoordinate.finds) fun _ =>
    FindsAt.cons (π := fun x : DesignatorPdu => x.dead_reckoning_algorithm) (EnumSpec.fixed _) (EnumSpec.finds _ rfl) fun _ =>
    FindsAt.cons (π := fun x : DesignatorPdu => x.padding) (fixed_u8) (finds_u8) fun _ =>
    FindsAt.cons (π := fun x : DesignatorPdu => x.padding2) (fixed_u16) (finds_u16) fun _ =>
    FindsAt.cons (π := fun x : DesignatorPdu => x.entity_linear_acceleration) (LinearAcceleration.fixed) (LinearAcceleration.finds) fun _ =>
    FindsAt.ret ⟨⟨⟨⟨⟨⟨⟨⟨⟨⟨⟨⟨trivial, rfl⟩, rfl⟩, rfl⟩, rfl⟩, rfl⟩, rfl⟩, rfl⟩, rfl⟩, rfl⟩, rfl⟩, rfl⟩, rfl⟩
theorem DesignatorPdu.agree {x y : DesignatorPdu} (h : Agree DesignatorPdu.slots x y) : x = y := by
  have h0 := h
  have e0 : x.designating_entity_id = y.designating_entity_id := EntityId.agree (Agree.left h0)
  have h1 := Agree.right h0
  have e1 : x.code_name = y.code_name := agree_enum (Agree.left h1)
  have h2 := Agree.right h1
  have e2 : x.designated_entity_id = y.designated_entity_id := EntityId.agree (Agree.left h2)
  have h3 := Agree.right h2
  have e3 : x.designator_code = y.designator_code := agree_enum (Agree.left h3)
  have h4 := Agree.right h3
  have e4 : x.designator_power = y.designator_power := agree_f32 (Agree.left h4)
  have h5 := Agree.right h4
  have e5 : x.designator_wavelength = y.designator_wavelength := agree_f32 (Agree.left h5)
  have h6 := Agree.right h5
  have e6 : x.designator_spot_wrt_designated = y.designator_spot_wrt_designated := EntityCoordinateVector.agree (Agree.left h6)
  have h7 := Agree.right h6
  have e7 : x.designator_spot_location = y.designator_spot_location := WorldCoordinate.agree (Agree.left h7)
  have h8 := Agree.right h7
  have e8 : x.dead_reckoning_algorithm = y.dead_reckoning_algorithm := agree_enum (Agree.left h8)
  have h9 := Agree.right h8
  have e9 : x.padding = y.padding := agree_u8 (Agree.left h9)
  have h10 := Agree.right h9
  have e10 : x.padding2 = y.padding2 := agree_u16 (Agree.left h10)
  have h11 := Agree.right h10
  have e11 : x.entity_linear_acceleration = y.entity_linear_acceleration := LinearAcceleration.agree (Agree.left h11)
  cases x; cases y
  dsimp only at e0 e1 e2 e3 e4 e5 e6 e7 e8 e9 e10 e11
  subst e0 e1 e2 e3 e4 e5 e6 e7 e8 e9 e10 e11
  rfl

def UnderwaterAcousticPdu.slots : List (Slot UnderwaterAcousticPdu) :=
  Slot.cons (·.emitting_entity_id) EntityId.slots 6 <|
  Slot.cons (·.event_id) EventId.slots 6 <|
  Slot.cons (·.state_change_update_indicator) [Slot.enum 0 1 id] 1 <|
  Slot.cons (·.padding) [Slot.u8 0 id] 1 <|
  Slot.cons (·.passive_parameter_index) [Slot.enum 0 2 id] 2 <|
  Slot.cons (·.propulsion_plant_configuration) [Slot.u8 0 id] 1 <|
  Slot.cons (·.number_of_shafts) [Slot.u8 0 id] 1 <|
  Slot.cons (·.number_of_apas) [Slot.u8 0 id] 1 <|
  Slot.cons (·.number_of_ua_emitter_systems) [Slot.u8 0 id] 1 <|
  []
theorem UnderwaterAcousticPdu.layout_eq : UnderwaterAcousticPdu.layout = UnderwaterAcousticPdu.slots.map (Slot.shift 12) := (rfl)
theorem UnderwaterAcousticPdu.written (x : UnderwaterAcousticPdu) : Written UnderwaterAcousticPdu.slots x (wire (sent x)) :=
    Written.cons (EntityId.written x.emitting_entity_id) (EntityId.wire_length _) <|
    Written.cons (EventId.written x.event_id) (EventId.wire_length _) <|
    Written.cons (written_enum rfl x.state_change_update_indicator) (octets_length _ _) <|
    Written.cons (written_u8 x.padding) (octets_length _ _) <|
    Written.cons (written_enum rfl x.passive_parameter_index) (octets_length _ _) <|
    Written.cons (written_u8 x.propulsion_plant_configuration) (octets_length _ _) <|
    Written.cons (written_u8 x.number_of_shafts) (octets_length _ _) <|
    Written.cons (written_u8 x.number_of_apas) (octets_length _ _) <|
    Written.cons (written_u8 x.number_of_ua_emitter_systems) (octets_length _ _) <|
    Written.nil _ _
theorem UnderwaterAcousticPdu.finds : Finds UnderwaterAcousticPdu.deserializeBody (ReadFrom UnderwaterAcousticPdu.slots) := FindsAt.finds <|
    FindsAt.cons (π := fun x : UnderwaterAcousticPdu => x.emitting_entity_id) (EntityId.fixed) (EntityId.finds) fun _ =>
    FindsAt.cons (π := fun x : UnderwaterAcousticPdu => x.event_id) (EventId.fixed) (EventId.finds) fun _ =>
    FindsAt.cons (π := fun x : UnderwaterAcousticPdu => x.state_change_update_indicator) (EnumSpec.fixed _) (EnumSpec.finds _ rfl) fun _ =>
    FindsAt.cons (π := fun x : UnderwaterAcousticPdu => x.padding) (fixed_u8) (finds_u8) fun _ =>
    FindsAt.cons (π := fun x : UnderwaterAcousticPdu => x.passive_parameter_index) (EnumSpec.fixed _) (EnumSpec.finds _ rfl) fun _ =>
    FindsAt.cons (π := fun x : UnderwaterAcousticPdu => x.propulsion_plant_configuration) (fixed_u8) (finds_u8) fun _ =>
    FindsAt.cons (π := fun x : UnderwaterAcousticPdu => x.number_of_shafts) (fixed_u8) (finds_u8) fun _ =>
    FindsAt.cons (π := fun x : UnderwaterAcousticPdu => x.number_of_apas) (fixed_u8) (finds_u8) fun _ =>
    FindsAt.cons (π := fun x : UnderwaterAcousticPdu => x.number_of_ua_emitter_systems) (fixed_u8) (finds_u8) fun _ =>
    FindsAt.skip fun _ =>
    FindsAt.skip fun _ =>
    FindsAt.skip fun _ =>
    FindsAt.ret ⟨⟨⟨⟨⟨⟨⟨⟨⟨trivial, rfl⟩, rfl⟩, rfl⟩, rfl⟩, rfl⟩, rfl⟩, rfl⟩, rfl⟩, rfl⟩

def IFFPdu.slots : List (Slot IFFPdu) :=
  Slot.cons (·.emitting_entity_id) EntityId.slots 6 <|
  Slot.cons (·.event_id) EventId.slots 6 <|
  Slot.cons (·.relative_antenna_location) EntityCoordinateVector.slots 12 <|
  Slot.cons (·.system_id) SystemId.slots 6 <|
  Slot.cons (·.system_designator) [Slot.u8 0 id] 1 <|
  Slot.cons (·.system_specific_data) [Slot.u8 0 id] 1 <|
  Slot.cons (·.fundamental_operational_data) FundamentalOperationalData.slots 16 <|
  Slot.cons (·.layer_header) LayerHeader.slots 4 <|
  Slot.cons (·.beam_data) BeamData.slots 20 <|
  Slot.cons (·.secondary_operational_data) SecondaryOperationalData.slots 4 <|
  []
theorem IFFPdu.layout_eq : IFFPdu.layout = IFFPdu.slots.map (Slot.shift 12) := (rfl)
theorem IFFPdu.written (x : IFFPdu) : Written IFFPdu.slots x (wire (sent x)) :=
    Written.cons (EntityId.written x.emitting_entity_id) (EntityId.wire_length _) <|
    Written.cons (EventId.written x.event_id) (EventId.wire_length _) <|
    Written.cons (EntityCoordinateVector.written x.relative_antenna_location) (EntityCoordinateVector.wire_length _) <|
    Written.cons (SystemId.written x.system_id) (SystemId.wire_length _) <|
    Written.cons (written_u8 x.system_designator) (octets_length _ _) <|
    Written.cons (written_u8 x.system_specific_data) (octets_length _ _) <|
    Written.cons (FundamentalOperationalData.written x.fundamental_operational_data) (FundamentalOperationalData.wire_length _) <|
    Written.cons (LayerHeader.written x.layer_header) (LayerHeader.wire_length _) <|
    Written.cons (BeamData.written x.beam_data) (BeamData.wire_length _) <|
    Written.cons (SecondaryOperationalData.written x.secondary_operational_data) (SecondaryOperationalData.wire_length _) <|
    Written.nil _ _
theorem IFFPdu.finds : Finds IFFPdu.deserializeBody (ReadFrom IFFPdu.slots) := FindsAt.finds <|
    FindsAt.cons (π := fun x : IFFPdu => x.emitting_entity_id) (EntityId.fixed) (EntityId.finds) fun _ =>
    FindsAt.cons (π := fun x : IFFPdu => x.event_id) (EventId.fixed) (EventId.finds) fun _ =>
    FindsAt.cons (π := fun x : IFFPdu => x.relative_antenna_location) (EntityCoordinateVector.fixed) (EntityCoordinateVector.finds) fun _ =>
    FindsAt.cons (π := fun x : IFFPdu => x.system_id) (SystemId.fixed) (SystemId.finds) fun _ =>
    FindsAt.cons (π := fun x : IFFPdu => x.system_designator) (fixed_u8) (finds_u8) fun _ =>
    FindsAt.cons (π := fun x : IFFPdu => x.system_specific_data) (fixed_u8) (finds_u8) fun _ =>
    FindsAt.cons (π := fun x : IFFPdu => x.fundamental_operational_data) (FundamentalOperationalData.fixed) (FundamentalOperationalData.finds) fun _ =>
    FindsAt.cons (π := fun x : IFFPdu => x.layer_header) (LayerHeader.fixed) (LayerHeader.finds) fun _ =>
    FindsAt.cons (π := fun x : IFFPdu => x.beam_data) (BeamData.fixed) (BeamData.finds) fun _ =>
    FindsAt.cons (π := fun x : IFFPdu => x.secondary_operational_data) (SecondaryOperationalData.fixed) (SecondaryOperationalData.finds) fun _ =>
    FindsAt.skip fun _ =>
    FindsAt.ret ⟨⟨⟨⟨⟨⟨⟨⟨⟨⟨trivial, rfl⟩, rfl⟩, rfl⟩, rfl⟩, rfl⟩, rfl⟩, rfl⟩, rfl⟩, rfl⟩, rfl⟩

def SupplementalEmissionPdu.slots : List (Slot SupplementalEmissionPdu) :=
  Slot.cons (·.originating_entity_id) EntityId.slots 6 <|
  Slot.cons (·.infrared_signature_representation_index) [Slot.u16 0 id] 2 <|
  Slot.cons (·.acoustic_signature_representation_index) [Slot.u16 0 id] 2 <|
  Slot.cons (·.radar_cross_section_signature_representation_index) [Slot.u16 0 id] 2 <|
  Slot.cons (·.number_of_propulsion_systems) [Slot.u16 0 id] 2 <|
  Slot.cons (·.number_of_vectoring_nozzle_systems) [Slot.u16 0 id] 2 <|
  []
theorem SupplementalEmissionPdu.layout_eq : SupplementalEmissionPdu.layout = SupplementalEmissionPdu.slots.map (Slot.shift 12) := (rfl)
theorem SupplementalEmissionPdu.written (x : SupplementalEmissionPdu) : Written SupplementalEmissionPdu.slots x (wire (sent x)) :=
    Written.cons (EntityId.written x.originating_entity_id) (EntityId.wire_length _) <|
    Written.cons (written_u16 x.infrared_signature_representation_index) (octets_length _ _) <|
    Written.cons (written_u16 x.acoustic_signature_representation_index) (octets_length _ _) <|
    Written.cons (written_u16 x.radar_cross_section_signature_representation_index) (octets_length _ _) <|
    Written.cons (written_u16 x.number_of_propulsion_systems) (octets_length _ _) <|
    Written.cons (written_u16 x.number_of_vectoring_nozzle_systems) (octets_length _ _) <|
    Written.nil _ _
theorem SupplementalEmissionPdu.finds : Finds SupplementalEmissionPdu.deserializeBody (ReadFrom SupplementalEmissionPdu.slots) := FindsAt.finds <|
    FindsAt.cons (π := fun x : SupplementalEmissionPdu => x.originating_entity_id) (EntityId.fixed) (EntityId.finds) fun _ =>
    FindsAt.cons (π := fun x : SupplementalEmissionPdu => x.infrared_signature_representation_index) (fixed_u16) (finds_u16) fun _ =>
    FindsAt.cons (π := fun x : SupplementalEmissionPdu => x.acoustic_signature_representation_index) (fixed_u16) (finds_u16) fun _ =>
    FindsAt.cons (π := fun x : SupplementalEmissionPdu => x.radar_cross_section_signature_representation_index) (fixed_u16) (finds_u16) fun _ =>
    FindsAt.cons (π := fun x : SupplementalEmissionPdu => x.number_of_propulsion_systems) (fixed_u16) (finds_u16) fun _ =>
    FindsAt.cons (π := fun x : SupplementalEmissionPdu => x.number_of_vectoring_nozzle_systems) (fixed_u16) (finds_u16) fun _ =>
    FindsAt.skip fun _ =>
    FindsAt.skip fun _ =>
    FindsAt.ret ⟨⟨⟨⟨⟨⟨trivial, rfl⟩, rfl⟩, rfl⟩, rfl⟩, rfl⟩, rfl⟩

def EntityStatePdu.slots : List (Slot EntityStatePdu) :=
  Slot.cons (·.entity_id) EntityId.slots 6 <|
  Slot.cons (·.force_id) [Slot.enum 0 1 id] 1 <|
  Slot.cons (·.number_of_articulation_parameters) [Slot.u8 0 id] 1 <|
  Slot.cons (·.entity_type) EntityType.slots 8 <|
  Slot.cons (·.alternative_entity_type) EntityType.slots 8 <|
  Slot.cons (·.entity_linear_velocity) LinearVelocity.slots 12 <|
  Slot.cons (·.entity_location) WorldCoordinate.slots 24 <|
  Slot.cons (·.entity_orientation) EulerAngles.slots 12 <|
  Slot.cons (·.entity_appearance) [Slot.u32 0 id] 4 <|
  Slot.cons (·.dead_reckoning_parameters) DeadReckoningParameters.slots 40 <|
  Slot.cons (·.entity_marking) EntityMarking.slots 0 <|
  []
theorem EntityStatePdu.layout_eq : EntityStatePdu.layout = EntityStatePdu.slots.map (Slot.shift 12) := (rfl)
theorem EntityStatePdu.written (x : EntityStatePdu) : Written EntityStatePdu.slots x (wire (sent x)) :=
    Written.cons (EntityId.written x.entity_id) (EntityId.wire_length _) <|
    Written.cons (written_enum rfl x.force_id) (octets_length _ _) <|
    Written.cons (written_u8 x.number_of_articulation_parameters) (octets_length _ _) <|
    Written.cons (EntityType.written x.entity_type) (EntityType.wire_length _) <|
    Written.cons (EntityType.written x.alternative_entity_type) (EntityType.wire_length _) <|
    Written.cons (LinearVelocity.written x.entity_linear_velocity) (LinearVelocity.wire_length _) <|
    Written.cons (WorldCoordinate.written x.entity_location) (WorldCoordinate.wire_length _) <|
    Written.cons (EulerAngles.written x.entity_orientation) (EulerAngles.wire_length _) <|
    Written.cons (written_u32 x.entity_appearance) (octets_length _ _) <|
    Written.cons (DeadReckoningParameters.written x.dead_reckoning_parameters) (DeadReckoningParameters.wire_length _) <|
    Written.head (EntityMarking.written x.entity_marking)
theorem EntityStatePdu.finds : Finds EntityStatePdu.deserializeBody (ReadFrom EntityStatePdu.slots) := FindsAt.finds <|
    FindsAt.cons (π := fun x : EntityStatePdu => x.entity_id) (EntityId.fixed) (EntityId.finds) fun _ =>
    FindsAt.cons (π := fun x : EntityStatePdu => x.force_id) (EnumSpec.fixed _) (EnumSpec.finds _ rfl) fun _ =>
    FindsAt.cons (π := fun x : EntityStatePdu => x.number_of_articulation_parameters) (fixed_u8) (finds_u8) fun _ =>
    FindsAt.cons (π := fun x : EntityStatePdu => x.entity_type) (EntityType.fixed) (EntityType.finds) fun _ =>
    FindsAt.cons (π := fun x : EntityStatePdu => x.alternative_entity_type) (EntityType.fixed) (EntityType.finds) fun _ =>
    FindsAt.cons (π := fun x : EntityStatePdu => x.entity_linear_velocity) (LinearVelocity.fixed) (LinearVelocity.finds) fun _ =>
    FindsAt.cons (π := fun x : EntityStatePdu => x.entity_location) (WorldCoordinate.fixed) (WorldCoordinate.finds) fun _ =>
    FindsAt.cons (π := fun x : EntityStatePdu => x.entity_orientation) (EulerAngles.fixed) (EulerAngles.finds) fun _ =>
    FindsAt.cons (π := fun x : EntityStatePdu => x.entity_appearance) (fixed_u32) (finds_u32) fun _ =>
    FindsAt.cons (π := fun x : EntityStatePdu => x.dead_reckoning_parameters) (DeadReckoningParameters.fixed) (DeadReckoningParameters.finds) fun _ =>
    FindsAt.head (π := fun x : EntityStatePdu => x.entity_marking) (EntityMarking.finds) fun _ =>
    FindsAt.skip fun _ =>
    FindsAt.skip fun _ =>
    FindsAt.ret ⟨⟨⟨⟨⟨⟨⟨⟨⟨⟨⟨trivial, rfl⟩, rfl⟩, rfl⟩, rfl⟩, rfl⟩, rfl⟩, rfl⟩, rfl⟩, rfl⟩, rfl⟩, rfl⟩

def CollisionPdu.slots : List (Slot CollisionPdu) :=
  Slot.cons (·.issuing_entity_id) EntityId.slots 6 <|
  Slot.cons (·.colliding_entity_id) EntityId.slots 6 <|
  Slot.cons (·.event_id) EventId.slots 6 <|
  Slot.cons (·.collision_type) [Slot.u8 0 id] 1 <|
  Slot.cons (·.padding) [Slot.u8 0 id] 1 <|
  Slot.cons (·.velocity) LinearVelocity.slots 12 <|
  Slot.cons (·.mass) [Slot.f32 0 id] 4 <|
  Slot.cons (·.location_wrt_entity) EntityCoordinateVector.slots 12 <|
  []
theorem CollisionPdu.layout_eq : CollisionPdu.layout = CollisionPdu.slots.map (Slot.shift 12) := (rfl)
theorem CollisionPdu.written (x : CollisionPdu) : Written CollisionPdu.slots x (wire (sent x)) :=
    Written.cons (EntityId.written x.issuing_entity_id) (EntityId.wire_length _) <|
    Written.cons (EntityId.written x.colliding_entity_id) (EntityId.wire_length _) <|
    Written.cons (EventId.written x.event_id) (EventId.wire_length _) <|
    Written.cons (written_u8 x.collision_type) (octets_length _ _) <|
    Written.cons (written_u8 x.padding) (octets_length _ _) <|
    Written.cons (LinearVelocity.written x.velocity) (LinearVelocity.wire_length _) <|
    Written.cons (written_f32 x.mass) (octets_length _ _) <|
    Written.last (EntityCoordinateVector.written x.location_wrt_entity)
theorem CollisionPdu.finds : Finds CollisionPdu.deserializeBody (ReadFrom CollisionPdu.slots) := FindsAt.finds <|
    FindsAt.cons (π := fun x : CollisionPdu => x.issuing_entity_id) (EntityId.fixed) (EntityId.finds) fun _ =>
    FindsAt.cons (π := fun x : CollisionPdu => x.colliding_entity_id) (EntityId.fixed) (EntityId.finds) fun _ =>
    FindsAt.cons (π := fun x : CollisionPdu => x.event_id) (EventId.fixed) (EventId.finds) fun _ =>
    FindsAt.cons (π := fun x : CollisionPdu => x.collision_type) (fixed_u8) (finds_u8) fun _ =>
    FindsAt.cons (π := fun x : CollisionPdu => x.padding) (fixed_u8) (finds_u8) fun _ =>
    FindsAt.cons (π := fun x : CollisionPdu => x.velocity) (LinearVelocity.fixed) (LinearVelocity.finds) fun _ =>
    FindsAt.cons (π := fun x : CollisionPdu => x.mass) (fixed_f32) (finds_f32) fun _ =>
    FindsAt.cons (π := fun x : CollisionPdu => x.location_wrt_entity) (EntityCoordinateVector.fixed) (EntityCoordinateVector.finds) fun _ =>
    FindsAt.ret ⟨⟨⟨⟨⟨⟨⟨⟨trivial, rfl⟩, rfl⟩, rfl⟩, rfl⟩, rfl⟩, rfl⟩, rfl⟩, rfl⟩
theorem CollisionPdu.agree {x y : CollisionPdu} (h : Agree CollisionPdu.slots x y) : x = y := by
  have h0 := h
  have e0 : x.issuing_entity_id = y.issuing_entity_id := EntityId.agree (Agree.left h0)
  have h1 := Agree.right h0
  have e1 : x.colliding_entity_id = y.colliding_entity_id := EntityId.agree (Agree.left h1)
  have h2 := Agree.right h1
  have e2 : x.event_id = y.event_id := EventId.agree (Agree.left h2)
  have h3 := Agree.right h2
  have e3 : x.collision_type = y.collision_type := agree_u8 (Agree.left h3)
  have h4 := Agree.right h3
  have e4 : x.padding = y.padding := agree_u8 (Agree.left h4)
  have h5 := Agree.right h4
  have e5 : x.velocity = y.velocity := LinearVelocity.agree (Agree.left h5)
  have h6 := Agree.right h5
  have e6 : x.mass = y.mass := agree_f32 (Agree.left h6)
  have h7 := Agree.right h6
  have e7 : x.location_wrt_entity = y.location_wrt_entity := EntityCoordinateVector.agree (Agree.left h7)
  cases x; cases y
  dsimp only at e0 e1 e2 e3 e4 e5 e6 e7
  subst e0 e1 e2 e3 e4 e5 e6 e7
  rfl

def CollisionElasticPdu.slots : List (Slot CollisionElasticPdu) :=
  Slot.cons (·.issuing_entity_id) EntityId.slots 6 <|
  Slot.cons (·.colliding_entity_id) EntityId.slots 6 <|
  Slot.cons (·.event_id) EventId.slots 6 <|
  Slot.cons (·.padding) [Slot.u16 0 id] 2 <|
  Slot.cons (·.contact_velocity) LinearVelocity.slots 12 <|
  Slot.cons (·.mass) [Slot.f32 0 id] 4 <|
  Slot.cons (·.location_of_impact) EntityCoordinateVector.slots 12 <|
  Slot.cons (·.collision_intermediate_result_xx) [Slot.f32 0 id] 4 <|
  Slot.cons (·.collision_intermediate_result_xy) [Slot.f32 0 id] 4 <|
  Slot.cons (·.collision_intermediate_result_xz) [Slot.f32 0 id] 4 <|
  Slot.cons (·.collision_intermediate_result_yy) [Slot.f32 0 id] 4 <|
  Slot.cons (·.collision_intermediate_result_yz) [Slot.f32 0 id] 4 <|
  Slot.cons (·.collision_intermediate_result_zz) [Slot.f32 0 id] 4 <|
  Slot.cons (·.unit_surface_normal) EntityCoordinateVector.slots 12 <|
  Slot.cons (·.coefficient_of_restitution) [Slot.f32 0 id] 4 <|
  []
theorem CollisionElasticPdu.layout_eq : CollisionElasticPdu.layout = CollisionElasticPdu.slots.map (Slot.shift 12) := (rfl)
theorem CollisionElasticPdu.written (x : CollisionElasticPdu) : Written CollisionElasticPdu.slots x (wire (sent x)) :=
    Written.cons (EntityId.written x.issuing_entity_id) (EntityId.wire_length _) <|
    Written.cons (EntityId.written x.colliding_entity_id) (EntityId.wire_length _) <|
    Written.cons (EventId.written x.event_id) (EventId.wire_length _) <|
    Written.cons (written_u16 x.padding) (octets_length _ _) <|
    Written.cons (LinearVelocity.written x.contact_velocity) (LinearVelocity.wire_length _) <|
    Written.cons (written_f32 x.mass) (octets_length _ _) <|
    Written.cons (EntityCoordinateVector.written x.location_of_impact) (EntityCoordinateVector.wire_length _) <|
    Written.cons (written_f32 x.collision_intermediate_result_xx) (octets_length _ _) <|
    Written.cons (written_f32 x.collision_intermediate_result_xy) (octets_length _ _) <|
    Written.cons (written_f32 x.collision_intermediate_result_xz) (octets_length _ _) <|
    Written.cons (written_f32 x.collision_intermediate_result_yy) (octets_length _ _) <|
    Written.cons (written_f32 x.collision_intermediate_result_yz) (octets_length _ _) <|
    Written.cons (written_f32 x.collision_intermediate_result_zz) (octets_length _ _) <|
    Written.cons (EntityCoordinateVector.written x.unit_surface_normal) (EntityCoordinateVector.wire_length _) <|
    Written.last (written_f32 x.coefficient_of_restitution)
theorem CollisionElasticPdu.finds : Finds CollisionElasticPdu.deserializeBody (ReadFrom CollisionElasticPdu.slots) := FindsAt.finds <|
    FindsAt.cons (π := fun x : CollisionElasticPdu => x.issuing_entity_id) (EntityId.fixed) (EntityId.finds) fun _ =>
    FindsAt.cons (π := fun x : CollisionElasticPdu => x.colliding_entity_id) (EntityId.fixed) (EntityId.finds) fun _ =>
    FindsAt.cons (π := fun x : CollisionElasticPdu => x.event_id) (EventId.fixed) (EventId.finds) fun _ =>
    FindsAt.cons (π := fun x : CollisionElasticPdu => x.padding) (fixed_u16) (finds_u16) fun _ =>
    FindsAt.cons (π := fun x : CollisionElasticPdu => x.contact_velocity) (LinearVelocity.fixed) (LinearVelocity.finds) fun _ =>
    FindsAt.cons (π := fun x : CollisionElasticPdu => x.mass) (fixed_f32) (finds_f32) fun _ =>
    FindsAt.cons (π := fun x : CollisionElasticPdu => x.location_of_impact) (EntityCoordinateVector.fixed) (EntityCoordinateVector.finds) fun _ =>
    FindsAt.cons (π := fun x : CollisionElasticPdu => x.collision_intermediate_result_xx) (fixed_f32) (finds_f32) fun _ =>
    FindsAt.cons (π := fun x : CollisionElasticPdu => x.collision_intermediate_result_xy) (fixed_f32) (finds_f32) fun _ =>
    FindsAt.cons (π := fun x : CollisionElasticPdu => x.collision_intermediate_result_xz) (fixed_f32) (finds_f32) fun _ =>
    FindsAt.cons (π := fun x : CollisionElasticPdu => x.collision_intermediate_result_yy) (fixed_f32) (finds_f32) fun _ =>
    FindsAt.cons (π := fun x : CollisionElasticPdu => x.collision_intermediate_result_yz) (fixed_f32) (finds_f32) fun _ =>
    FindsAt.cons (π := fun x : CollisionElasticPdu => x.collision_intermediate_result_zz) (fixed_f32) (finds_f32) fun _ =>
    FindsAt.cons (π := fun x : CollisionElasticPdu => x.unit_surface_normal) (EntityCoordinateVector.fixed) (EntityCoordinateVector.finds) fun _ =>
    FindsAt.cons (π := fun x : CollisionElasticPdu => x.coefficient_of_restitution) (fixed_f32) (finds_f32) fun _ =>
    FindsAt.ret ⟨⟨⟨⟨⟨⟨⟨⟨⟨⟨⟨⟨⟨⟨⟨trivial, rfl⟩, rfl⟩, rfl⟩, rfl⟩, rfl⟩, rfl⟩, rfl⟩, rfl⟩, rfl⟩, rfl⟩, rfl⟩, rfl⟩, rfl⟩, rfl⟩, rfl⟩
theorem CollisionElasticPdu.agree {x y : CollisionElasticPdu} (h : Agree CollisionElasticPdu.slots x y) : x = y := by
  have h0 := h
  have e0 : x.issuing_entity_id = y.issuing_entity_id := EntityId.agree (Agree.left h0)
  have h1 := Agree.right h0
  have e1 : x.colliding_entity_id = y.colliding_entity_id := EntityId.agree (Agree.left h1)
  have h2 := Agree.right h1
  have e2 : x.event_id = y.event_id := EventId.agree (Agree.left h2)
  have h3 := Agree.right h2
  have e3 : x.padding = y.padding := agree_u16 (Agree.left h3)
  have h4 := Agree.right h3
  have e4 : x.contact_velocity = y.contact_velocity := LinearVelocity.agree (Agree.left h4)
  have h5 := Agree.right h4
  have e5 : x.mass = y.mass := agree_f32 (Agree.left h5)
  have h6 := Agree.right h5
  have e6 : x.location_of_impact = y.location_of_impact := EntityCoordinateVector.agree (Agree.left h6)
  have h7 := Agree.right h6
  have e7 : x.collision_intermediate_result_xx = y.collision_intermediate_result_xx := agree_f32 (Agree.left h7)
  have h8 := Agree.right h7
  have e8 : x.collision_intermediate_result_xy = y.collision_intermediate_result_xy := agree_f32 (Agree.left h8)
  have h9 := Agree.right h8
  have e9 : x.collision_intermediate_result_xz = y.collision_intermediate_result_xz := agree_f32 (Agree.left h9)
  have h10 := Agree.right h9
  have e10 : x.collision_intermediate_result_yy = y.collision_intermediate_result_yy := agree_f32 (Agree.left h10)
  have h11 := Agree.right h10
  have e11 : x.collision_intermediate_result_yz = y.collision_intermediate_result_yz := agree_f32 (Agree.left h11)
  have h12 := Agree.right h11
  have e12 : x.collision_intermediate_result_zz = y.collision_intermediate_result_zz := agree_f32 (Agree.left h12)
  have h13 := Agree.right h12
  have e13 : x.unit_surface_normal = y.unit_surface_normal := EntityCoordinateVector.agree (Agree.left h13)
  have h14 := Agree.right h13
  have e14 : x.coefficient_of_restitution = y.coefficient_of_restitution := agree_f32 (Agree.left h14)
  cases x; cases y
  dsimp only at e0 e1 e2 e3 e4 e5 e6 e7 e8 e9 e10 e11 e12 e13 e14
  subst e0 e1 e2 e3 e4 e5 e6 e7 e8 e9 e10 e11 e12 e13 e14
  rfl

def EntityStateUpdatePdu.slots : List (Slot EntityStateUpdatePdu) :=
  Slot.cons (·.entity_id) EntityId.slots 6 <|
  Slot.cons (·.padding) [Slot.u8 0 id] 1 <|
  Slot.cons (·.number_of_variable_parameters) [Slot.u8 0 id] 1 <|
  Slot.cons (·.entity_linear_velocity) LinearVelocity.slots 12 <|
  Slot.cons (·.entity_location) WorldCoordinate.slots 24 <|
  Slot.cons (·.entity_orientation) EulerAngles.slots 12 <|
  Slot.cons (·.entity_appearance) [Slot.u32 0 id] 4 <|
  []
theorem EntityStateUpdatePdu.layout_eq : EntityStateUpdatePdu.layout = EntityStateUpdatePdu.slots.map (Slot.shift 12) := (rfl)
theorem EntityStateUpdatePdu.written (x : EntityStateUpdatePdu) : Written EntityStateUpdatePdu.slots x (wire (sent x)) :=
    Written.cons (EntityId.written x.entity_id) (EntityId.wire_length _) <|
    Written.cons (written_u8 x.padding) (octets_length _ _) <|
    Written.cons (written_u8 x.number_of_variable_parameters) (octets_length _ _) <|
    Written.cons (LinearVelocity.written x.entity_linear_velocity) (LinearVelocity.wire_length _) <|
    Written.cons (WorldCoordinate.written x.entity_location) (WorldCoordinate.wire_length _) <|
    Written.cons (EulerAngles.written x.entity_orientation) (EulerAngles.wire_length _) <|
    Written.cons (written_u32 x.entity_appearance) (octets_length _ _) <|
    Written.nil _ _
theorem EntityStateUpdatePdu.finds : Finds EntityStateUpdatePdu.deserializeBody (ReadFrom EntityStateUpdatePdu.slots) := FindsAt.finds <|
    FindsAt.cons (π := fun x : EntityStateUpdatePdu => x.entity_id) (EntityId.fixed) (EntityId.finds) fun _ =>
    FindsAt.cons (π := fun x : EntityStateUpdatePdu => x.padding) (fixed_u8) (finds_u8) fun _ =>
    FindsAt.cons (π := fun x : EntityStateUpdatePdu => x.number_of_variable_parameters) (fixed_u8) (finds_u8) fun _ =>
    FindsAt.cons (π := fun x : EntityStateUpdatePdu => x.entity_linear_velocity) (LinearVelocity.fixed) (LinearVelocity.finds) fun _ =>
    FindsAt.cons (π := fun x : EntityStateUpdatePdu => x.entity_location) (WorldCoordinate.fixed) (WorldCoordinate.finds) fun _ =>
    FindsAt.cons (π := fun x : EntityStateUpdatePdu => x.entity_orientation) (EulerAngles.fixed) (EulerAngles.finds) fun _ =>
    FindsAt.cons (π := fun x : EntityStateUpdatePdu => x.entity_appearance) (fixed_u32) (finds_u32) fun _ =>
    FindsAt.skip fun _ =>
    FindsAt.ret ⟨⟨⟨⟨⟨⟨⟨trivial, rfl⟩, rfl⟩, rfl⟩, rfl⟩, rfl⟩, rfl⟩, rfl⟩

def AttributePdu.slots : List (Slot AttributePdu) :=
  Slot.cons (·.originating_simulation_address) SimulationAddress.slots 4 <|
  Slot.cons (·.padding) [Slot.u32 0 id] 4 <|
  Slot.cons (·.padding2) [Slot.u16 0 id] 2 <|
  Slot.cons (·.attribute_record_pdu_type) [Slot.u8 0 id] 1 <|
  Slot.cons (·.attribute_record_protocol_version) [Slot.u8 0 id] 1 <|
  Slot.cons (·.master_attribute_record_type) [Slot.u32 0 id] 4 <|
  Slot.cons (·.action_code) [Slot.enum 0 1 id] 1 <|
  Slot.cons (·.padding3) [Slot.u8 0 id] 1 <|
  Slot.cons (·.number_of_attribute_record_sets) [Slot.u16 0 id] 2 <|
  []
theorem AttributePdu.layout_eq : AttributePdu.layout = AttributePdu.slots.map (Slot.shift 12) := (rfl)
theorem AttributePdu.written (x : AttributePdu) : Written AttributePdu.slots x (wire (sent x)) :=
    Written.cons (SimulationAddress.written x.originating_simulation_address) (SimulationAddress.wire_length _) <|
    Written.cons (written_u32 x.padding) (octets_length _ _) <|
    Written.cons (written_u16 x.padding2) (octets_length _ _) <|
    Written.cons (written_u8 x.attribute_record_pdu_type) (octets_length _ _) <|
    Written.cons (written_u8 x.attribute_record_protocol_version) (octets_length _ _) <|
    Written.cons (written_u32 x.master_attribute_record_type) (octets_length _ _) <|
    Written.cons (written_enum rfl x.action_code) (octets_length _ _) <|
    Written.cons (written_u8 x.padding3) (octets_length _ _) <|
    Written.cons (written_u16 x.number_of_attribute_record_sets) (octets_length _ _) <|
    Written.nil _ _
theorem AttributePdu.finds : Finds AttributePdu.deserializeBody (ReadFrom AttributePdu.slots) := FindsAt.finds <|
    FindsAt.cons (π := fun x : AttributePdu => x.originating_simulation_address) (SimulationAddress.fixed) (SimulationAddress.finds) fun _ =>
    FindsAt.cons (π := fun x : AttributePdu => x.padding) (fixed_u32) (finds_u32) fun _ =>
    FindsAt.cons (π := fun x : AttributePdu => x.padding2) (fixed_u16) (finds_u16) fun _ =>
    FindsAt.cons (π := fun x : AttributePdu => x.attribute_record_pdu_type) (fixed_u8) (finds_u8) fun _ =>
    FindsAt.cons (π := fun x : AttributePdu => x.attribute_record_protocol_version) (fixed_u8) (finds_u8) fun _ =>
    FindsAt.cons (π := fun x : AttributePdu => x.master_attribute_record_type) (fixed_u32) (finds_u32) fun _ =>
    FindsAt.cons (π := fun x : AttributePdu => x.action_code) (EnumSpec.fixed _) (EnumSpec.finds _ rfl) fun _ =>
    FindsAt.cons (π := fun x : AttributePdu => x.padding3) (fixed_u8) (finds_u8) fun _ =>
    FindsAt.cons (π := fun x : AttributePdu => x.number_of_attribute_record_sets) (fixed_u16) (finds_u16) fun _ =>
    FindsAt.skip fun _ =>
    FindsAt.ret ⟨⟨⟨⟨⟨⟨⟨⟨⟨trivial, rfl⟩, rfl⟩, rfl⟩, rfl⟩, rfl⟩, rfl⟩, rfl⟩, rfl⟩, rfl⟩

def AggregateStatePdu.slots : List (Slot AggregateStatePdu) :=
  Slot.cons (·.aggregate_id) AggregateId.slots 6 <|
  Slot.cons (·.force_id) [Slot.enum 0 1 id] 1 <|
  Slot.cons (·.aggregate_state) [Slot.enum 0 1 id] 1 <|
  Slot.cons (·.aggregate_type) EntityType.slots 8 <|
  Slot.cons (·.formation) [Slot.enum 0 4 id] 4 <|
  Slot.cons (·.aggregate_marking) AggregateMarking.slots 32 <|
  Slot.cons (·.dimensions) Vector3Float.slots 12 <|
  Slot.cons (·.orientation) EulerAngles.slots 12 <|
  Slot.cons (·.center_of_mass) WorldCoordinate.slots 24 <|
  Slot.cons (·.velocity) LinearVelocity.slots 12 <|
  Slot.cons (·.number_of_dis_aggregates) [Slot.u16 0 id] 2 <|
  Slot.cons (·.number_of_dis_entities) [Slot.u16 0 id] 2 <|
  Slot.cons (·.number_of_silent_aggregate_types) [Slot.u16 0 id] 2 <|
  Slot.cons (·.number_of_silent_entity_types) [Slot.u16 0 id] 2 <|
  []
theorem AggregateStatePdu.layout_eq : AggregateStatePdu.layout = AggregateStatePdu.slots.map (Slot.shift 12) := (rfl)
theorem AggregateStatePdu.written (x : AggregateStatePdu) : Written AggregateStatePdu.slots x (wire (sent x)) :=
    Written.cons (AggregateId.written x.aggregate_id) (AggregateId.wire_length _) <|
    Written.cons (written_enum rfl x.force_id) (octets_length _ _) <|
    Written.cons (written_enum rfl x.aggregate_state) (octets_length _ _) <|
    Written.cons (EntityType.written x.aggregate_type) (EntityType.wire_length _) <|
    Written.cons (written_enum rfl x.formation) (octets_length _ _) <|
    Written.cons (AggregateMarking.written x.aggregate_marking) (AggregateMarking.wire_length _) <|
    Written.cons (Vector3Float.written x.dimensions) (Vector3Float.wire_length _) <|
    Written.cons (EulerAngles.written x.orientation) (EulerAngles.wire_length _) <|
    Written.cons (WorldCoordinate.written x.center_of_mass) (WorldCoordinate.wire_length _) <|
    Written.cons (LinearVelocity.written x.velocity) (LinearVelocity.wire_length _) <|
    Written.cons (written_u16 x.number_of_dis_aggregates) (octets_length _ _) <|
    Written.cons (written_u16 x.number_of_dis_entities) (octets_length _ _) <|
    Written.cons (written_u16 x.number_of_silent_aggregate_types) (octets_length _ _) <|
    Written.cons (written_u16 x.number_of_silent_entity_types) (octets_length _ _) <|
    Written.nil _ _
theorem AggregateStatePdu.finds : Finds AggregateStatePdu.deserializeBody (ReadFrom AggregateStatePdu.slots) := FindsAt.finds <|
    FindsAt.cons (π := fun x : AggregateStatePdu => x.aggregate_id) (AggregateId.fixed) (AggregateId.finds) fun _ =>
    FindsAt.cons (π := fun x : AggregateStatePdu => x.force_id) (EnumSpec.fixed _) (EnumSpec.finds _ rfl) fun _ =>
    FindsAt.cons (π := fun x : AggregateStatePdu => x.aggregate_state) (EnumSpec.fixed _) (EnumSpec.finds _ rfl) fun _ =>
    FindsAt.cons (π := fun x : AggregateStatePdu => x.aggregate_type) (EntityType.fixed) (EntityType.finds) fun _ =>
    FindsAt.cons (π := fun x : AggregateStatePdu => x.formation) (EnumSpec.fixed _) (EnumSpec.finds _ rfl) fun _ =>
    FindsAt.cons (π := fun x : AggregateStatePdu => x.aggregate_marking) (AggregateMarking.fixed) (AggregateMarking.finds) fun _ =>
    FindsAt.cons (π := fun x : AggregateStatePdu => x.dimensions) (Vector3Float.fixed) (Vector3Float.finds) fun _ =>
    FindsAt.cons (π := fun x : AggregateStatePdu => x.orientation) (EulerAngles.fixed) (EulerAngles.finds) fun _ =>
    FindsAt.cons (π := fun x : AggregateStatePdu => x.center_of_mass) (WorldCoordinate.fixed) (WorldCoordinate.finds) fun _ =>
    FindsAt.cons (π := fun x : AggregateStatePdu => x.velocity) (LinearVelocity.fixed) (LinearVelocity.finds) fun _ =>
    FindsAt.cons (π := fun x : AggregateStatePdu => x.number_of_dis_aggregates) (fixed_u16) (finds_u16) fun _ =>
    FindsAt.cons (π := fun x : AggregateStatePdu => x.number_of_dis_entities) (fixed_u16) (finds_u16) fun _ =>
    FindsAt.cons (π := fun x : AggregateStatePdu => x.number_of_silent_aggregate_types) (fixed_u16) (finds_u16) fun _ =>
    FindsAt.cons (π := fun x : AggregateStatePdu => x.number_of_silent_entity_types) (fixed_u16) (finds_u16) fun _ =>
    FindsAt.skip fun _ =>
    FindsAt.skip fun _ =>
    FindsAt.skip fun _ =>
    FindsAt.skip fun _ =>
    FindsAt.skip fun _ =>
    FindsAt.skip fun _ =>
    FindsAt.skip fun _ =>
    FindsAt.ret ⟨⟨⟨⟨⟨⟨⟨⟨⟨⟨⟨⟨⟨⟨trivial, rfl⟩, rfl⟩, rfl⟩, rfl⟩, rfl⟩, rfl⟩, rfl⟩, rfl⟩, rfl⟩, rfl⟩, rfl⟩, rfl⟩, rfl⟩, rfl⟩

def IsGroupOfPdu.slots : List (Slot IsGroupOfPdu) :=
  Slot.cons (·.group_entity_id) EntityId.slots 6 <|
  Slot.cons (·.grouped_entity_category) [Slot.enum 0 1 id] 1 <|
  Slot.cons (·.number_of_grouped_entities) [Slot.u8 0 id] 1 <|
  Slot.cons (·.padding) [Slot.u32 0 id] 4 <|
  Slot.cons (·.latitude) [Slot.f64 0 id] 8 <|
  Slot.cons (·.longitude) [Slot.f64 0 id] 8 <|
  []
theorem IsGroupOfPdu.layout_eq : IsGroupOfPdu.layout = IsGroupOfPdu.slots.map (Slot.shift 12) := (rfl)
theorem IsGroupOfPdu.written (x : IsGroupOfPdu) : Written IsGroupOfPdu.slots x (wire (sent x)) :=
    Written.cons (EntityId.written x.group_entity_id) (EntityId.wire_length _) <|
    Written.cons (written_enum rfl x.grouped_entity_category) (octets_length _ _) <|
    Written.cons (written_u8 x.number_of_grouped_entities) (octets_length _ _) <|
    Written.cons (written_u32 x.padding) (octets_length _ _) <|
    Written.cons (written_f64 x.latitude) (octets_length _ _) <|
    Written.cons (written_f64 x.longitude) (octets_length _ _) <|
    Written.nil _ _
theorem IsGroupOfPdu.finds : Finds IsGroupOfPdu.deserializeBody (ReadFrom IsGroupOfPdu.slots) := FindsAt.finds <|
    FindsAt.cons (π := fun x : IsGroupOfPdu => x.group_entity_id) (EntityId.fixed) (EntityId.finds) fun _ =>
    FindsAt.cons (π := fun x : IsGroupOfPdu => x.grouped_entity_category) (EnumSpec.fixed _) (EnumSpec.finds _ rfl) fun _ =>
    FindsAt.cons (π := fun x : IsGroupOfPdu => x.number_of_grouped_entities) (fixed_u8) (finds_u8) fun _ =>
    FindsAt.cons (π := fun x : IsGroupOfPdu => x.padding) (fixed_u32) (finds_u32) fun _ =>
    FindsAt.cons (π := fun x : IsGroupOfPdu => x.latitude) (fixed_f64) (finds_f64) fun _ =>
    FindsAt.cons (π := fun x : IsGroupOfPdu => x.longitude) (fixed_f64) (finds_f64) fun _ =>
    FindsAt.skip fun _ =>
    FindsAt.ret ⟨⟨⟨⟨⟨⟨trivial, rfl⟩, rfl⟩, rfl⟩, rfl⟩, rfl⟩, rfl⟩

def TransferOwnershipPdu.slots : List (Slot TransferOwnershipPdu) :=
  Slot.cons (·.originating_id) SimulationIdentifier.slots 6 <|
  Slot.cons (·.receiving_id) SimulationIdentifier.slots 6 <|
  Slot.cons (·.request_id) [Slot.u32 0 id] 4 <|
  Slot.cons (·.required_reliability_service) [Slot.enum 0 1 id] 1 <|
  Slot.cons (·.transfer_type) [Slot.enum 0 1 id] 1 <|
  Slot.cons (·.transfer_entity_id) EntityId.slots 6 <|
  Slot.cons (·.record_information) RecordSpecification.slots 0 <|
  []
theorem TransferOwnershipPdu.layout_eq : TransferOwnershipPdu.layout = TransferOwnershipPdu.slots.map (Slot.shift 12) := (rfl)
theorem TransferOwnershipPdu.written (x : TransferOwnershipPdu) : Written TransferOwnershipPdu.slots x (wire (sent x)) :=
    Written.cons (SimulationIdentifier.written x.originating_id) (SimulationIdentifier.wire_length _) <|
    Written.cons (SimulationIdentifier.written x.receiving_id) (SimulationIdentifier.wire_length _) <|
    Written.cons (written_u32 x.request_id) (octets_length _ _) <|
    Written.cons (written_enum rfl x.required_reliability_service) (octets_length _ _) <|
    Written.cons (written_enum rfl x.transfer_type) (octets_length _ _) <|
    Written.cons (EntityId.written x.transfer_entity_id) (EntityId.wire_length _) <|
    Written.only (RecordSpecification.written x.record_information)
theorem TransferOwnershipPdu.finds : Finds TransferOwnershipPdu.deserializeBody (ReadFrom TransferOwnershipPdu.slots) := FindsAt.finds <|
    FindsAt.cons (π := fun x : TransferOwnershipPdu => x.originating_id) (SimulationIdentifier.fixed) (SimulationIdentifier.finds) fun _ =>
    FindsAt.cons (π := fun x : TransferOwnershipPdu => x.receiving_id) (SimulationIdentifier.fixed) (SimulationIdentifier.finds) fun _ =>
    FindsAt.cons (π := fun x : TransferOwnershipPdu => x.request_id) (fixed_u32) (finds_u32) fun _ =>
    FindsAt.cons (π := fun x : TransferOwnershipPdu => x.required_reliability_service) (EnumSpec.fixed _) (EnumSpec.finds _ rfl) fun _ =>
    FindsAt.cons (π := fun x : TransferOwnershipPdu => x.transfer_type) (EnumSpec.fixed _) (EnumSpec.finds _ rfl) fun _ =>
    FindsAt.cons (π := fun x : TransferOwnershipPdu => x.transfer_entity_id) (EntityId.fixed) (EntityId.finds) fun _ =>
    FindsAt.head (π := fun x : TransferOwnershipPdu => x.record_information) (RecordSpecification.finds) fun _ =>
    FindsAt.ret ⟨⟨⟨⟨⟨⟨⟨trivial, rfl⟩, rfl⟩, rfl⟩, rfl⟩, rfl⟩, rfl⟩, rfl⟩

def IsPartOfPdu.slots : List (Slot IsPartOfPdu) :=
  Slot.cons (·.originating_entity_id) EntityId.slots 6 <|
  Slot.cons (·.receiving_entity_id) EntityId.slots 6 <|
  Slot.cons (·.relationship) Relationship.slots 4 <|
  Slot.cons (·.part_location) Vector3Float.slots 12 <|
  Slot.cons (·.named_location_id) NamedLocation.slots 4 <|
  Slot.cons (·.part_entity_type) EntityType.slots 8 <|
  []
theorem IsPartOfPdu.layout_eq : IsPartOfPdu.layout = IsPartOfPdu.slots.map (Slot.shift 12) := (rfl)
theorem IsPartOfPdu.written (x : IsPartOfPdu) : Written IsPartOfPdu.slots x (wire (sent x)) :=
    Written.cons (EntityId.written x.originating_entity_id) (EntityId.wire_length _) <|
    Written.cons (EntityId.written x.receiving_entity_id) (EntityId.wire_length _) <|
    Written.cons (Relationship.written x.relationship) (Relationship.wire_length _) <|
    Written.cons (Vector3Float.written x.part_location) (Vector3Float.wire_length _) <|
    Written.cons (NamedLocation.written x.named_location_id) (NamedLocation.wire_length _) <|
    Written.last (EntityType.written x.part_entity_type)
theorem IsPartOfPdu.finds : Finds IsPartOfPdu.deserializeBody (ReadFrom IsPartOfPdu.slots) := FindsAt.finds <|
    FindsAt.cons (π := fun x : IsPartOfPdu => x.originating_entity_id) (EntityId.fixed) (EntityId.finds) fun _ =>
    FindsAt.cons (π := fun x : IsPartOfPdu => x.receiving_entity_id) (EntityId.fixed) (EntityId.finds) fun _ =>
    FindsAt.cons (π := fun x : IsPartOfPdu => x.relationship) (Relationship.fixed) (Relationship.finds) fun _ =>
    FindsAt.cons (π := fun x : IsPartOfPdu => x.part_location) (Vector3Float.fixed) (Vector3Float.finds) fun _ =>
    FindsAt.cons (π := fun x : IsPartOfPdu => x.named_location_id) (NamedLocation.fixed) (NamedLocation.finds) fun _ =>
    FindsAt.cons (π := fun x : IsPartOfPdu => x.part_entity_type) (EntityType.fixed) (EntityType.finds) fun _ =>
    FindsAt.ret ⟨⟨⟨⟨⟨⟨trivial, rfl⟩, rfl⟩, rfl⟩, rfl⟩, rfl⟩, rfl⟩
theorem IsPartOfPdu.agree {x y : IsPartOfPdu} (h : Agree IsPartOfPdu.slots x y) : x = y := by
  have h0 := h
  have e0 : x.originating_entity_id = y.originating_entity_id := EntityId.agree (Agree.left h0)
  have h1 := Agree.right h0
  have e1 : x.receiving_entity_id = y.receiving_entity_id := EntityId.agree (Agree.left h1)
  have h2 := Agree.right h1
  have e2 : x.relationship = y.relationship := Relationship.agree (Agree.left h2)
  have h3 := Agree.right h2
  have e3 : x.part_location = y.part_location := Vector3Float.agree (Agree.left h3)
  have h4 := Agree.right h3
  have e4 : x.named_location_id = y.named_location_id := NamedLocation.agree (Agree.left h4)
  have h5 := Agree.right h4
  have e5 : x.part_entity_type = y.part_entity_type := EntityType.agree (Agree.left h5)
  cases x; cases y
  dsimp only at e0 e1 e2 e3 e4 e5
  subst e0 e1 e2 e3 e4 e5
  rfl

def InformationOperationsReportPdu.slots : List (Slot InformationOperationsReportPdu) :=
  Slot.cons (·.originating_simulation_id) SimulationIdentifier.slots 6 <|
  Slot.cons (·.io_simulation_source) [Slot.enum 0 2 id] 2 <|
  Slot.cons (·.io_report_type) [Slot.enum 0 1 id] 1 <|
  Slot.cons (·.padding) [Slot.u8 0 id] 1 <|
  Slot.cons (·.io_attacker_entity_id) EntityId.slots 6 <|
  Slot.cons (·.primary_target_entity_id) EntityId.slots 6 <|
  Slot.cons (·.padding2) [Slot.u16 0 id] 2 <|
  Slot.cons (·.padding3) [Slot.u16 0 id] 2 <|
  Slot.cons (·.io_records) StandardVariableSpecification.slots 0 <|
  []
theorem InformationOperationsReportPdu.layout_eq : InformationOperationsReportPdu.layout = InformationOperationsReportPdu.slots.map (Slot.shift 12) := (rfl)
theorem InformationOperationsReportPdu.written (x : InformationOperationsReportPdu) : Written InformationOperationsReportPdu.slots x (wire (sent x)) :=
    Written.cons (SimulationIdentifier.written x.originating_simulation_id) (SimulationIdentifier.wire_length _) <|
    Written.cons (written_enum rfl x.io_simulation_source) (octets_length _ _) <|
    Written.cons (written_enum rfl x.io_report_type) (octets_length _ _) <|
    Written.cons (written_u8 x.padding) (octets_length _ _) <|
    Written.cons (EntityId.written x.io_attacker_entity_id) (EntityId.wire_length _) <|
    Written.cons (EntityId.written x.primary_target_entity_id) (EntityId.wire_length _) <|
    Written.cons (written_u16 x.padding2) (octets_length _ _) <|
    Written.cons (written_u16 x.padding3) (octets_length _ _) <|
    Written.only (StandardVariableSpecification.written x.io_records)
theorem InformationOperationsReportPdu.finds : Finds InformationOperationsReportPdu.deserializeBody (ReadFrom InformationOperationsReportPdu.slots) := FindsAt.finds <|
    FindsAt.cons (π := fun x : InformationOperationsReportPdu => x.originating_simulation_id) (SimulationIdentifier.fixed) (SimulationIdentifier.finds) fun _ =>
    FindsAt.cons (π := fun x : InformationOperationsReportPdu => x.io_simulation_source) (EnumSpec.fixed _) (EnumSpec.finds _ rfl) fun _ =>
    FindsAt.cons (π := fun x : InformationOperationsReportPdu => x.io_report_type) (EnumSpec.fixed _) (EnumSpec.finds _ rfl) fun _ =>
    FindsAt.cons (π := fun x : InformationOperationsReportPdu => x.padding) (fixed_u8) (finds_u8) fun _ =>
    FindsAt.cons (π := fun x : InformationOperationsReportPdu => x.io_attacker_entity_id) (EntityId.fixed) (EntityId.finds) fun _ =>
    FindsAt.cons (π := fun x : InformationOperationsReportPdu => x.primary_target_entity_id) (EntityId.fixed) (EntityId.finds) fun _ =>
    FindsAt.cons (π := fun x : InformationOperationsReportPdu => x.padding2) (fixed_u16) (finds_u16) fun _ =>
    FindsAt.cons (π := fun x : InformationOperationsReportPdu => x.padding3) (fixed_u16) (finds_u16) fun _ =>
    FindsAt.head (π := fun x : InformationOperationsReportPdu => x.io_records) (StandardVariableSpecification.finds) fun _ =>
    FindsAt.ret ⟨⟨⟨⟨⟨⟨⟨⟨⟨trivial, rfl⟩, rfl⟩, rfl⟩, rfl⟩, rfl⟩, rfl⟩, rfl⟩, rfl⟩, rfl⟩

def InformationOperationsActionPdu.slots : List (Slot InformationOperationsActionPdu) :=
  Slot.cons (·.originating_simulation_id) SimulationIdentifier.slots 6 <|
  Slot.cons (·.receiving_simulation_id) SimulationIdentifier.slots 6 <|
  Slot.cons (·.request_id) [Slot.u32 0 id] 4 <|
  Slot.cons (·.io_warfare_type) [Slot.enum 0 2 id] 2 <|
  Slot.cons (·.io_simulation_source) [Slot.enum 0 2 id] 2 <|
  Slot.cons (·.io_action_type) [Slot.enum 0 2 id] 2 <|
  Slot.cons (·.io_action_phase) [Slot.enum 0 2 id] 2 <|
  Slot.cons (·.padding) [Slot.u32 0 id] 4 <|
  Slot.cons (·.io_attacker_entity_id) EntityId.slots 6 <|
  Slot.cons (·.io_primary_target_entity_id) EntityId.slots 6 <|
  Slot.cons (·.padding2) [Slot.u16 0 id] 2 <|
  Slot.cons (·.io_records) StandardVariableSpecification.slots 0 <|
  []
theorem InformationOperationsActionPdu.layout_eq : InformationOperationsActionPdu.layout = InformationOperationsActionPdu.slots.map (Slot.shift 12) := (rfl)
theorem InformationOperationsActionPdu.written (x : InformationOperationsActionPdu) : Written InformationOperationsActionPdu.slots x (wire (sent x)) :=
    Written.cons (SimulationIdentifier.written x.originating_simulation_id) (SimulationIdentifier.wire_length _) <|
    Written.cons (SimulationIdentifier.written x.receiving_simulation_id) (SimulationIdentifier.wire_length _) <|
    Written.cons (written_u32 x.request_id) (octets_length _ _) <|
    Written.cons (written_enum rfl x.io_warfare_type) (octets_length _ _) <|
    Written.cons (written_enum rfl x.io_simulation_source) (octets_length _ _) <|
    Written.cons (written_enum rfl x.io_action_type) (octets_length _ _) <|
    Written.cons (written_enum rfl x.io_action_phase) (octets_length _ _) <|
    Written.cons (written_u32 x.padding) (octets_length _ _) <|
    Written.cons (EntityId.written x.io_attacker_entity_id) (EntityId.wire_length _) <|
    Written.cons (EntityId.written x.io_primary_target_entity_id) (EntityId.wire_length _) <|
    Written.cons (written_u16 x.padding2) (octets_length _ _) <|
    Written.only (StandardVariableSpecification.written x.io_records)
theorem InformationOperationsActionPdu.finds : Finds InformationOperationsActionPdu.deserializeBody (ReadFrom InformationOperationsActionPdu.slots) := FindsAt.finds <|
    FindsAt.cons (π := fun x : InformationOperationsActionPdu => x.originating_simulation_id) (SimulationIdentifier.fixed) (SimulationIdentifier.finds) fun _ =>
    FindsAt.cons (π := fun x : InformationOperationsActionPdu => x.receiving_simulation_id) (SimulationIdentifier.fixed) (SimulationIdentifier.finds) fun _ =>
    FindsAt.cons (π := fun x : InformationOperationsActionPdu => x.request_id) (fixed_u32) (finds_u32) fun _ =>
    FindsAt.cons (π := fun x : InformationOperationsActionPdu => x.io_warfare_type) (EnumSpec.fixed _) (EnumSpec.finds _ rfl) fun _ =>
    FindsAt.cons (π := fun x : InformationOperationsActionPdu => x.io_simulation_source) (EnumSpec.fixed _) (EnumSpec.finds _ rfl) fun _ =>
    FindsAt.cons (π := fun x : InformationOperationsActionPdu => x.io_action_type) (EnumSpec.fixed _) (EnumSpec.finds _ rfl) fun _ =>
    FindsAt.cons (π := fun x : InformationOperationsActionPdu => x.io_action_phase) (EnumSpec.fixed _) (EnumSpec.finds _ rfl) fun _ =>
    FindsAt.cons (π := fun x : InformationOperationsActionPdu => x.padding) (fixed_u32) (finds_u32) fun _ =>
    FindsAt.cons (π := fun x : InformationOperationsActionPdu => x.io_attacker_entity_id) (EntityId.fixed) (EntityId.finds) fun _ =>
    FindsAt.cons (π := fun x : InformationOperationsActionPdu => x.io_primary_target_entity_id) (EntityId.fixed) (EntityId.finds) fun _ =>
    FindsAt.cons (π := fun x : InformationOperationsActionPdu => x.padding2) (fixed_u16) (finds_u16) fun _ =>
    FindsAt.head (π := fun x : InformationOperationsActionPdu => x.io_records) (StandardVariableSpecification.finds) fun _ =>
    FindsAt.ret ⟨⟨⟨⟨⟨⟨⟨⟨⟨⟨⟨⟨trivial, rfl⟩, rfl⟩, rfl⟩, rfl⟩, rfl⟩, rfl⟩, rfl⟩, rfl⟩, rfl⟩, rfl⟩, rfl⟩, rfl⟩

end Dis
