import Verif.Spec.RecordLayout
import Verif.Proofs.Layout
import Verif.Proofs.LayoutHeads
/- Generated by tools/gen_layout.py. -/
set_option maxRecDepth 4000
namespace Dis

def AcousticBeamFundamentalParameter.slots : List (Slot AcousticBeamFundamentalParameter) :=
  Slot.cons (·.active_emission_parameter_index) [Slot.u16 0 id] 2 <|
  Slot.cons (·.scan_pattern) [Slot.u16 0 id] 2 <|
  Slot.cons (·.beam_center_azimuth) [Slot.f32 0 id] 4 <|
  Slot.cons (·.azimuthal_beamwidth) [Slot.f32 0 id] 4 <|
  Slot.cons (·.beam_center_de) [Slot.f32 0 id] 4 <|
  Slot.cons (·.de_beamwidth) [Slot.f32 0 id] 4 <|
  []
theorem AcousticBeamFundamentalParameter.written (x : AcousticBeamFundamentalParameter) : Written AcousticBeamFundamentalParameter.slots x (wire (sent x)) :=
    Written.cons (written_u16 x.active_emission_parameter_index) (octets_length _ _) <|
    Written.cons (written_u16 x.scan_pattern) (octets_length _ _) <|
    Written.cons (written_f32 x.beam_center_azimuth) (octets_length _ _) <|
    Written.cons (written_f32 x.azimuthal_beamwidth) (octets_length _ _) <|
    Written.cons (written_f32 x.beam_center_de) (octets_length _ _) <|
    Written.last (written_f32 x.de_beamwidth)
theorem AcousticBeamFundamentalParameter.finds : Finds AcousticBeamFundamentalParameter.deserialize (ReadFrom AcousticBeamFundamentalParameter.slots) := FindsAt.finds <|
    FindsAt.cons (π := fun x : AcousticBeamFundamentalParameter => x.active_emission_parameter_index) (fixed_u16) (finds_u16) fun _ =>
    FindsAt.cons (π := fun x : AcousticBeamFundamentalParameter => x.scan_pattern) (fixed_u16) (finds_u16) fun _ =>
    FindsAt.cons (π := fun x : AcousticBeamFundamentalParameter => x.beam_center_azimuth) (fixed_f32) (finds_f32) fun _ =>
    FindsAt.cons (π := fun x : AcousticBeamFundamentalParameter => x.azimuthal_beamwidth) (fixed_f32) (finds_f32) fun _ =>
    FindsAt.cons (π := fun x : AcousticBeamFundamentalParameter => x.beam_center_de) (fixed_f32) (finds_f32) fun _ =>
    FindsAt.cons (π := fun x : AcousticBeamFundamentalParameter => x.de_beamwidth) (fixed_f32) (finds_f32) fun _ =>
    FindsAt.ret ⟨⟨⟨⟨⟨⟨trivial, rfl⟩, rfl⟩, rfl⟩, rfl⟩, rfl⟩, rfl⟩
theorem AcousticBeamFundamentalParameter.agree {x y : AcousticBeamFundamentalParameter} (h : Agree AcousticBeamFundamentalParameter.slots x y) : x = y := by
  have h0 := h
  have e0 : x.active_emission_parameter_index = y.active_emission_parameter_index := agree_u16 (Agree.left h0)
  have h1 := Agree.right h0
  have e1 : x.scan_pattern = y.scan_pattern := agree_u16 (Agree.left h1)
  have h2 := Agree.right h1
  have e2 : x.beam_center_azimuth = y.beam_center_azimuth := agree_f32 (Agree.left h2)
  have h3 := Agree.right h2
  have e3 : x.azimuthal_beamwidth = y.azimuthal_beamwidth := agree_f32 (Agree.left h3)
  have h4 := Agree.right h3
  have e4 : x.beam_center_de = y.beam_center_de := agree_f32 (Agree.left h4)
  have h5 := Agree.right h4
  have e5 : x.de_beamwidth = y.de_beamwidth := agree_f32 (Agree.left h5)
  cases x; cases y
  dsimp only at e0 e1 e2 e3 e4 e5
  subst e0 e1 e2 e3 e4 e5
  rfl

def AcousticBeamData.slots : List (Slot AcousticBeamData) :=
  Slot.cons (·.beam_data_length) [Slot.u16 0 id] 2 <|
  Slot.cons (·.beam_id_number) [Slot.u8 0 id] 1 <|
  Slot.cons (·.pad2) [Slot.u16 0 id] 2 <|
  Slot.cons (·.fundamental_data_parameters) AcousticBeamFundamentalParameter.slots 20 <|
  []
theorem AcousticBeamData.written (x : AcousticBeamData) : Written AcousticBeamData.slots x (wire (sent x)) :=
    Written.cons (written_u16 x.beam_data_length) (octets_length _ _) <|
    Written.cons (written_u8 x.beam_id_number) (octets_length _ _) <|
    Written.cons (written_u16 x.pad2) (octets_length _ _) <|
    Written.last (AcousticBeamFundamentalParameter.written x.fundamental_data_parameters)
theorem AcousticBeamData.finds : Finds AcousticBeamData.deserialize (ReadFrom AcousticBeamData.slots) := FindsAt.finds <|
    FindsAt.cons (π := fun x : AcousticBeamData => x.beam_data_length) (fixed_u16) (finds_u16) fun _ =>
    FindsAt.cons (π := fun x : AcousticBeamData => x.beam_id_number) (fixed_u8) (finds_u8) fun _ =>
    FindsAt.cons (π := fun x : AcousticBeamData => x.pad2) (fixed_u16) (finds_u16) fun _ =>
    FindsAt.cons (π := fun x : AcousticBeamData => x.fundamental_data_parameters) (AcousticBeamFundamentalParameter.fixed) (AcousticBeamFundamentalParameter.finds) fun _ =>
    FindsAt.ret ⟨⟨⟨⟨trivial, rfl⟩, rfl⟩, rfl⟩, rfl⟩
theorem AcousticBeamData.agree {x y : AcousticBeamData} (h : Agree AcousticBeamData.slots x y) : x = y := by
  have h0 := h
  have e0 : x.beam_data_length = y.beam_data_length := agree_u16 (Agree.left h0)
  have h1 := Agree.right h0
  have e1 : x.beam_id_number = y.beam_id_number := agree_u8 (Agree.left h1)
  have h2 := Agree.right h1
  have e2 : x.pad2 = y.pad2 := agree_u16 (Agree.left h2)
  have h3 := Agree.right h2
  have e3 : x.fundamental_data_parameters = y.fundamental_data_parameters := AcousticBeamFundamentalParameter.agree (Agree.left h3)
  cases x; cases y
  dsimp only at e0 e1 e2 e3
  subst e0 e1 e2 e3
  rfl

def AcousticEmitterSystem.slots : List (Slot AcousticEmitterSystem) :=
  Slot.cons (·.acoustic_name) [Slot.enum 0 2 id] 2 <|
  Slot.cons (·.acoustic_function) [Slot.enum 0 1 id] 1 <|
  Slot.cons (·.acoustic_id) [Slot.u8 0 id] 1 <|
  []
theorem AcousticEmitterSystem.written (x : AcousticEmitterSystem) : Written AcousticEmitterSystem.slots x (wire (sent x)) :=
    Written.cons (written_enum rfl x.acoustic_name) (octets_length _ _) <|
    Written.cons (written_enum rfl x.acoustic_function) (octets_length _ _) <|
    Written.last (written_u8 x.acoustic_id)
theorem AcousticEmitterSystem.finds : Finds AcousticEmitterSystem.deserialize (ReadFrom AcousticEmitterSystem.slots) := FindsAt.finds <|
    FindsAt.cons (π := fun x : AcousticEmitterSystem => x.acoustic_name) (EnumSpec.fixed _) (EnumSpec.finds _ rfl) fun _ =>
    FindsAt.cons (π := fun x : AcousticEmitterSystem => x.acoustic_function) (EnumSpec.fixed _) (EnumSpec.finds _ rfl) fun _ =>
    FindsAt.cons (π := fun x : AcousticEmitterSystem => x.acoustic_id) (fixed_u8) (finds_u8) fun _ =>
    FindsAt.ret ⟨⟨⟨trivial, rfl⟩, rfl⟩, rfl⟩
theorem AcousticEmitterSystem.agree {x y : AcousticEmitterSystem} (h : Agree AcousticEmitterSystem.slots x y) : x = y := by
  have h0 := h
  have e0 : x.acoustic_name = y.acoustic_name := agree_enum (Agree.left h0)
  have h1 := Agree.right h0
  have e1 : x.acoustic_function = y.acoustic_function := agree_enum (Agree.left h1)
  have h2 := Agree.right h1
  have e2 : x.acoustic_id = y.acoustic_id := agree_u8 (Agree.left h2)
  cases x; cases y
  dsimp only at e0 e1 e2
  subst e0 e1 e2
  rfl

def Vector3Float.slots : List (Slot Vector3Float) :=
  Slot.cons (·.x) [Slot.f32 0 id] 4 <|
  Slot.cons (·.y) [Slot.f32 0 id] 4 <|
  Slot.cons (·.z) [Slot.f32 0 id] 4 <|
  []
theorem Vector3Float.written (x : Vector3Float) : Written Vector3Float.slots x (wire (sent x)) :=
    Written.cons (written_f32 x.x) (octets_length _ _) <|
    Written.cons (written_f32 x.y) (octets_length _ _) <|
    Written.last (written_f32 x.z)
theorem Vector3Float.finds : Finds Vector3Float.deserialize (ReadFrom Vector3Float.slots) := FindsAt.finds <|
    FindsAt.cons (π := fun x : Vector3Float => x.x) (fixed_f32) (finds_f32) fun _ =>
    FindsAt.cons (π := fun x : Vector3Float => x.y) (fixed_f32) (finds_f32) fun _ =>
    FindsAt.cons (π := fun x : Vector3Float => x.z) (fixed_f32) (finds_f32) fun _ =>
    FindsAt.ret ⟨⟨⟨trivial, rfl⟩, rfl⟩, rfl⟩
theorem Vector3Float.agree {x y : Vector3Float} (h : Agree Vector3Float.slots x y) : x = y := by
  have h0 := h
  have e0 : x.x = y.x := agree_f32 (Agree.left h0)
  have h1 := Agree.right h0
  have e1 : x.y = y.y := agree_f32 (Agree.left h1)
  have h2 := Agree.right h1
  have e2 : x.z = y.z := agree_f32 (Agree.left h2)
  cases x; cases y
  dsimp only at e0 e1 e2
  subst e0 e1 e2
  rfl

def AcousticEmitterSystemData.slots : List (Slot AcousticEmitterSystemData) :=
  Slot.cons (·.emitter_system_data_length) [Slot.u8 0 id] 1 <|
  Slot.cons (·.number_of_beams) [Slot.u8 0 id] 1 <|
  Slot.cons (·.pad2) [Slot.u16 0 id] 2 <|
  Slot.cons (·.acoustic_emitter_system) AcousticEmitterSystem.slots 4 <|
  Slot.cons (·.emitter_location) Vector3Float.slots 12 <|
  []
theorem AcousticEmitterSystemData.written (x : AcousticEmitterSystemData) : Written AcousticEmitterSystemData.slots x (wire (sent x)) :=
    Written.cons (written_u8 x.emitter_system_data_length) (octets_length _ _) <|
    Written.cons (written_u8 x.number_of_beams) (octets_length _ _) <|
    Written.cons (written_u16 x.pad2) (octets_length _ _) <|
    Written.cons (AcousticEmitterSystem.written x.acoustic_emitter_system) (AcousticEmitterSystem.wire_length _) <|
    Written.cons (Vector3Float.written x.emitter_location) (Vector3Float.wire_length _) <|
    Written.nil _ _
theorem AcousticEmitterSystemData.finds : Finds AcousticEmitterSystemData.deserialize (ReadFrom AcousticEmitterSystemData.slots) := FindsAt.finds <|
    FindsAt.cons (π := fun x : AcousticEmitterSystemData => x.emitter_system_data_length) (fixed_u8) (finds_u8) fun _ =>
    FindsAt.cons (π := fun x : AcousticEmitterSystemData => x.number_of_beams) (fixed_u8) (finds_u8) fun _ =>
    FindsAt.cons (π := fun x : AcousticEmitterSystemData => x.pad2) (fixed_u16) (finds_u16) fun _ =>
    FindsAt.cons (π := fun x : AcousticEmitterSystemData => x.acoustic_emitter_system) (AcousticEmitterSystem.fixed) (AcousticEmitterSystem.finds) fun _ =>
    FindsAt.cons (π := fun x : AcousticEmitterSystemData => x.emitter_location) (Vector3Float.fixed) (Vector3Float.finds) fun _ =>
    FindsAt.skip fun _ =>
    FindsAt.ret ⟨⟨⟨⟨⟨trivial, rfl⟩, rfl⟩, rfl⟩, rfl⟩, rfl⟩

def AggregateId.slots : List (Slot AggregateId) :=
  Slot.cons (·.site) [Slot.u16 0 id] 2 <|
  Slot.cons (·.application) [Slot.u16 0 id] 2 <|
  Slot.cons (·.aggregate_id) [Slot.u16 0 id] 2 <|
  []
theorem AggregateId.written (x : AggregateId) : Written AggregateId.slots x (wire (sent x)) :=
    Written.cons (written_u16 x.site) (octets_length _ _) <|
    Written.cons (written_u16 x.application) (octets_length _ _) <|
    Written.last (written_u16 x.aggregate_id)
theorem AggregateId.finds : Finds AggregateId.deserialize (ReadFrom AggregateId.slots) := FindsAt.finds <|
    FindsAt.cons (π := fun x : AggregateId => x.site) (fixed_u16) (finds_u16) fun _ =>
    FindsAt.cons (π := fun x : AggregateId => x.application) (fixed_u16) (finds_u16) fun _ =>
    FindsAt.cons (π := fun x : AggregateId => x.aggregate_id) (fixed_u16) (finds_u16) fun _ =>
    FindsAt.ret ⟨⟨⟨trivial, rfl⟩, rfl⟩, rfl⟩
theorem AggregateId.agree {x y : AggregateId} (h : Agree AggregateId.slots x y) : x = y := by
  have h0 := h
  have e0 : x.site = y.site := agree_u16 (Agree.left h0)
  have h1 := Agree.right h0
  have e1 : x.application = y.application := agree_u16 (Agree.left h1)
  have h2 := Agree.right h1
  have e2 : x.aggregate_id = y.aggregate_id := agree_u16 (Agree.left h2)
  cases x; cases y
  dsimp only at e0 e1 e2
  subst e0 e1 e2
  rfl

def AggregateMarking.slots : List (Slot AggregateMarking) :=
  Slot.cons (·.character_set) [Slot.u8 0 id] 1 <|
  Slot.cons (·.characters) [Slot.signedOctets 0 31 id] 31 <|
  []
theorem AggregateMarking.written (x : AggregateMarking) : Written AggregateMarking.slots x (wire (sent x)) :=
    Written.cons (written_u8 x.character_set) (octets_length _ _) <|
    Written.last (written_signedOctets x.characters)
theorem AggregateMarking.finds : Finds AggregateMarking.deserialize (ReadFrom AggregateMarking.slots) := FindsAt.finds <|
    FindsAt.cons (π := fun x : AggregateMarking => x.character_set) (fixed_u8) (finds_u8) fun _ =>
    FindsAt.cons (π := fun x : AggregateMarking => x.characters) (Fixed.arr fixed_i8 31) (finds_signedOctets _) fun _ =>
    FindsAt.ret ⟨⟨trivial, rfl⟩, rfl⟩
theorem AggregateMarking.agree {x y : AggregateMarking} (h : Agree AggregateMarking.slots x y) : x = y := by
  have h0 := h
  have e0 : x.character_set = y.character_set := agree_u8 (Agree.left h0)
  have h1 := Agree.right h0
  have e1 : x.characters = y.characters := agree_signedOctets (Agree.left h1)
  cases x; cases y
  dsimp only at e0 e1
  subst e0 e1
  rfl

def AngularVelocity.slots : List (Slot AngularVelocity) :=
  Slot.cons (·.rate_about_x_axis) [Slot.f32 0 id] 4 <|
  Slot.cons (·.rate_about_y_axis) [Slot.f32 0 id] 4 <|
  Slot.cons (·.rate_about_z_axis) [Slot.f32 0 id] 4 <|
  []
theorem AngularVelocity.written (x : AngularVelocity) : Written AngularVelocity.slots x (wire (sent x)) :=
    Written.cons (written_f32 x.rate_about_x_axis) (octets_length _ _) <|
    Written.cons (written_f32 x.rate_about_y_axis) (octets_length _ _) <|
    Written.last (written_f32 x.rate_about_z_axis)
theorem AngularVelocity.finds : Finds AngularVelocity.deserialize (ReadFrom AngularVelocity.slots) := FindsAt.finds <|
    FindsAt.cons (π := fun x : AngularVelocity => x.rate_about_x_axis) (fixed_f32) (finds_f32) fun _ =>
    FindsAt.cons (π := fun x : AngularVelocity => x.rate_about_y_axis) (fixed_f32) (finds_f32) fun _ =>
    FindsAt.cons (π := fun x : AngularVelocity => x.rate_about_z_axis) (fixed_f32) (finds_f32) fun _ =>
    FindsAt.ret ⟨⟨⟨trivial, rfl⟩, rfl⟩, rfl⟩
theorem AngularVelocity.agree {x y : AngularVelocity} (h : Agree AngularVelocity.slots x y) : x = y := by
  have h0 := h
  have e0 : x.rate_about_x_axis = y.rate_about_x_axis := agree_f32 (Agree.left h0)
  have h1 := Agree.right h0
  have e1 : x.rate_about_y_axis = y.rate_about_y_axis := agree_f32 (Agree.left h1)
  have h2 := Agree.right h1
  have e2 : x.rate_about_z_axis = y.rate_about_z_axis := agree_f32 (Agree.left h2)
  cases x; cases y
  dsimp only at e0 e1 e2
  subst e0 e1 e2
  rfl

def ApaData.slots : List (Slot ApaData) :=
  Slot.cons (·.parameter_index) [Slot.u16 0 id] 2 <|
  Slot.cons (·.parameter_value) [Slot.i16 0 id] 2 <|
  []
theorem ApaData.written (x : ApaData) : Written ApaData.slots x (wire (sent x)) :=
    Written.cons (written_u16 x.parameter_index) (octets_length _ _) <|
    Written.last (written_i16 x.parameter_value)
theorem ApaData.finds : Finds ApaData.deserialize (ReadFrom ApaData.slots) := FindsAt.finds <|
    FindsAt.cons (π := fun x : ApaData => x.parameter_index) (fixed_u16) (finds_u16) fun _ =>
    FindsAt.cons (π := fun x : ApaData => x.parameter_value) (fixed_i16) (finds_i16) fun _ =>
    FindsAt.ret ⟨⟨trivial, rfl⟩, rfl⟩
theorem ApaData.agree {x y : ApaData} (h : Agree ApaData.slots x y) : x = y := by
  have h0 := h
  have e0 : x.parameter_index = y.parameter_index := agree_u16 (Agree.left h0)
  have h1 := Agree.right h0
  have e1 : x.parameter_value = y.parameter_value := agree_i16 (Agree.left h1)
  cases x; cases y
  dsimp only at e0 e1
  subst e0 e1
  rfl

def AttributeRecord.slots : List (Slot AttributeRecord) :=
  Slot.cons (·.record_type) [Slot.u32 0 id] 4 <|
  Slot.cons (·.record_length) [Slot.u16 0 id] 2 <|
  []
theorem AttributeRecord.written (x : AttributeRecord) : Written AttributeRecord.slots x (wire (sent x)) :=
    Written.cons (written_u32 x.record_type) (octets_length _ _) <|
    Written.cons (written_u16 x.record_length) (octets_length _ _) <|
    Written.nil _ _
theorem AttributeRecord.finds : Finds AttributeRecord.deserialize (ReadFrom AttributeRecord.slots) := FindsAt.finds <|
    FindsAt.cons (π := fun x : AttributeRecord => x.record_type) (fixed_u32) (finds_u32) fun _ =>
    FindsAt.cons (π := fun x : AttributeRecord => x.record_length) (fixed_u16) (finds_u16) fun _ =>
    FindsAt.skip fun _ =>
    FindsAt.ret ⟨⟨trivial, rfl⟩, rfl⟩

def SimulationAddress.slots : List (Slot SimulationAddress) :=
  Slot.cons (·.site_id) [Slot.u16 0 id] 2 <|
  Slot.cons (·.application_id) [Slot.u16 0 id] 2 <|
  []
theorem SimulationAddress.written (x : SimulationAddress) : Written SimulationAddress.slots x (wire (sent x)) :=
    Written.cons (written_u16 x.site_id) (octets_length _ _) <|
    Written.last (written_u16 x.application_id)
theorem SimulationAddress.finds : Finds SimulationAddress.deserialize (ReadFrom SimulationAddress.slots) := FindsAt.finds <|
    FindsAt.cons (π := fun x : SimulationAddress => x.site_id) (fixed_u16) (finds_u16) fun _ =>
    FindsAt.cons (π := fun x : SimulationAddress => x.application_id) (fixed_u16) (finds_u16) fun _ =>
    FindsAt.ret ⟨⟨trivial, rfl⟩, rfl⟩
theorem SimulationAddress.agree {x y : SimulationAddress} (h : Agree SimulationAddress.slots x y) : x = y := by
  have h0 := h
  have e0 : x.site_id = y.site_id := agree_u16 (Agree.left h0)
  have h1 := Agree.right h0
  have e1 : x.application_id = y.application_id := agree_u16 (Agree.left h1)
  cases x; cases y
  dsimp only at e0 e1
  subst e0 e1
  rfl

def EntityId.slots : List (Slot EntityId) :=
  Slot.cons (·.simulation_address) SimulationAddress.slots 4 <|
  Slot.cons (·.entity_id) [Slot.u16 0 id] 2 <|
  []
theorem EntityId.written (x : EntityId) : Written EntityId.slots x (wire (sent x)) :=
    Written.cons (SimulationAddress.written x.simulation_address) (SimulationAddress.wire_length _) <|
    Written.last (written_u16 x.entity_id)
theorem EntityId.deserialize_simulation_address.finds : Finds EntityId.deserialize_simulation_address (ReadFrom SimulationAddress.slots) := FindsAt.finds <|
    FindsAt.cons (π := fun x : SimulationAddress => x.site_id) (fixed_u16) (finds_u16) fun _ =>
    FindsAt.cons (π := fun x : SimulationAddress => x.application_id) (fixed_u16) (finds_u16) fun _ =>
    FindsAt.ret ⟨⟨trivial, rfl⟩, rfl⟩
theorem EntityId.finds : Finds EntityId.deserialize (ReadFrom EntityId.slots) := FindsAt.finds <|
    FindsAt.cons (π := fun x : EntityId => x.simulation_address) (EntityId.deserialize_simulation_address.fixed) (EntityId.deserialize_simulation_address.finds) fun _ =>
    FindsAt.cons (π := fun x : EntityId => x.entity_id) (fixed_u16) (finds_u16) fun _ =>
    FindsAt.ret ⟨⟨trivial, rfl⟩, rfl⟩
theorem EntityId.agree {x y : EntityId} (h : Agree EntityId.slots x y) : x = y := by
  have h0 := h
  have e0 : x.simulation_address = y.simulation_address := SimulationAddress.agree (Agree.left h0)
  have h1 := Agree.right h0
  have e1 : x.entity_id = y.entity_id := agree_u16 (Agree.left h1)
  cases x; cases y
  dsimp only at e0 e1
  subst e0 e1
  rfl

def AttributeRecordSet.slots : List (Slot AttributeRecordSet) :=
  Slot.cons (·.entity_id) EntityId.slots 6 <|
  Slot.cons (·.number_of_attribute_records) [Slot.u16 0 id] 2 <|
  []
theorem AttributeRecordSet.written (x : AttributeRecordSet) : Written AttributeRecordSet.slots x (wire (sent x)) :=
    Written.cons (EntityId.written x.entity_id) (EntityId.wire_length _) <|
    Written.cons (written_u16 x.number_of_attribute_records) (octets_length _ _) <|
    Written.nil _ _
theorem AttributeRecordSet.finds : Finds AttributeRecordSet.deserialize (ReadFrom AttributeRecordSet.slots) := FindsAt.finds <|
    FindsAt.cons (π := fun x : AttributeRecordSet => x.entity_id) (EntityId.fixed) (EntityId.finds) fun _ =>
    FindsAt.cons (π := fun x : AttributeRecordSet => x.number_of_attribute_records) (fixed_u16) (finds_u16) fun _ =>
    FindsAt.skip fun _ =>
    FindsAt.ret ⟨⟨trivial, rfl⟩, rfl⟩

def BeamData.slots : List (Slot BeamData) :=
  Slot.cons (·.beam_azimuth_center) [Slot.f32 0 id] 4 <|
  Slot.cons (·.beam_azimuth_sweep) [Slot.f32 0 id] 4 <|
  Slot.cons (·.beam_elevation_center) [Slot.f32 0 id] 4 <|
  Slot.cons (·.beam_elevation_sweep) [Slot.f32 0 id] 4 <|
  Slot.cons (·.beam_sweep_sync) [Slot.f32 0 id] 4 <|
  []
theorem BeamData.written (x : BeamData) : Written BeamData.slots x (wire (sent x)) :=
    Written.cons (written_f32 x.beam_azimuth_center) (octets_length _ _) <|
    Written.cons (written_f32 x.beam_azimuth_sweep) (octets_length _ _) <|
    Written.cons (written_f32 x.beam_elevation_center) (octets_length _ _) <|
    Written.cons (written_f32 x.beam_elevation_sweep) (octets_length _ _) <|
    Written.last (written_f32 x.beam_sweep_sync)
theorem BeamData.finds : Finds BeamData.deserialize (ReadFrom BeamData.slots) := FindsAt.finds <|
    FindsAt.cons (π := fun x : BeamData => x.beam_azimuth_center) (fixed_f32) (finds_f32) fun _ =>
    FindsAt.cons (π := fun x : BeamData => x.beam_azimuth_sweep) (fixed_f32) (finds_f32) fun _ =>
    FindsAt.cons (π := fun x : BeamData => x.beam_elevation_center) (fixed_f32) (finds_f32) fun _ =>
    FindsAt.cons (π := fun x : BeamData => x.beam_elevation_sweep) (fixed_f32) (finds_f32) fun _ =>
    FindsAt.cons (π := fun x : BeamData => x.beam_sweep_sync) (fixed_f32) (finds_f32) fun _ =>
    FindsAt.ret ⟨⟨⟨⟨⟨trivial, rfl⟩, rfl⟩, rfl⟩, rfl⟩, rfl⟩
theorem BeamData.agree {x y : BeamData} (h : Agree BeamData.slots x y) : x = y := by
  have h0 := h
  have e0 : x.beam_azimuth_center = y.beam_azimuth_center := agree_f32 (Agree.left h0)
  have h1 := Agree.right h0
  have e1 : x.beam_azimuth_sweep = y.beam_azimuth_sweep := agree_f32 (Agree.left h1)
  have h2 := Agree.right h1
  have e2 : x.beam_elevation_center = y.beam_elevation_center := agree_f32 (Agree.left h2)
  have h3 := Agree.right h2
  have e3 : x.beam_elevation_sweep = y.beam_elevation_sweep := agree_f32 (Agree.left h3)
  have h4 := Agree.right h3
  have e4 : x.beam_sweep_sync = y.beam_sweep_sync := agree_f32 (Agree.left h4)
  cases x; cases y
  dsimp only at e0 e1 e2 e3 e4
  subst e0 e1 e2 e3 e4
  rfl

def ClockTime.slots : List (Slot ClockTime) :=
  Slot.cons (·.hour) [Slot.u32 0 id] 4 <|
  Slot.cons (·.time_past_hour) [Slot.u32 0 id] 4 <|
  []
theorem ClockTime.written (x : ClockTime) : Written ClockTime.slots x (wire (sent x)) :=
    Written.cons (written_u32 x.hour) (octets_length _ _) <|
    Written.last (written_u32 x.time_past_hour)
theorem ClockTime.finds : Finds ClockTime.deserialize (ReadFrom ClockTime.slots) := FindsAt.finds <|
    FindsAt.cons (π := fun x : ClockTime => x.hour) (fixed_u32) (finds_u32) fun _ =>
    FindsAt.cons (π := fun x : ClockTime => x.time_past_hour) (fixed_u32) (finds_u32) fun _ =>
    FindsAt.ret ⟨⟨trivial, rfl⟩, rfl⟩
theorem ClockTime.agree {x y : ClockTime} (h : Agree ClockTime.slots x y) : x = y := by
  have h0 := h
  have e0 : x.hour = y.hour := agree_u32 (Agree.left h0)
  have h1 := Agree.right h0
  have e1 : x.time_past_hour = y.time_past_hour := agree_u32 (Agree.left h1)
  cases x; cases y
  dsimp only at e0 e1
  subst e0 e1
  rfl

def LinearAcceleration.slots : List (Slot LinearAcceleration) :=
  Slot.cons (·.first_vector_component) [Slot.f32 0 id] 4 <|
  Slot.cons (·.second_vector_component) [Slot.f32 0 id] 4 <|
  Slot.cons (·.third_vector_component) [Slot.f32 0 id] 4 <|
  []
theorem LinearAcceleration.written (x : LinearAcceleration) : Written LinearAcceleration.slots x (wire (sent x)) :=
    Written.cons (written_f32 x.first_vector_component) (octets_length _ _) <|
    Written.cons (written_f32 x.second_vector_component) (octets_length _ _) <|
    Written.last (written_f32 x.third_vector_component)
theorem LinearAcceleration.finds : Finds LinearAcceleration.deserialize (ReadFrom LinearAcceleration.slots) := FindsAt.finds <|
    FindsAt.cons (π := fun x : LinearAcceleration => x.first_vector_component) (fixed_f32) (finds_f32) fun _ =>
    FindsAt.cons (π := fun x : LinearAcceleration => x.second_vector_component) (fixed_f32) (finds_f32) fun _ =>
    FindsAt.cons (π := fun x : LinearAcceleration => x.third_vector_component) (fixed_f32) (finds_f32) fun _ =>
    FindsAt.ret ⟨⟨⟨trivial, rfl⟩, rfl⟩, rfl⟩
theorem LinearAcceleration.agree {x y : LinearAcceleration} (h : Agree LinearAcceleration.slots x y) : x = y := by
  have h0 := h
  have e0 : x.first_vector_component = y.first_vector_component := agree_f32 (Agree.left h0)
  have h1 := Agree.right h0
  have e1 : x.second_vector_component = y.second_vector_component := agree_f32 (Agree.left h1)
  have h2 := Agree.right h1
  have e2 : x.third_vector_component = y.third_vector_component := agree_f32 (Agree.left h2)
  cases x; cases y
  dsimp only at e0 e1 e2
  subst e0 e1 e2
  rfl

def DeadReckoningParameters.slots : List (Slot DeadReckoningParameters) :=
  Slot.cons (·.dead_reckoning_algorithm) [Slot.enum 0 1 id] 1 <|
  Slot.cons (·.dead_reckoning_other_parameters) [(Slot.octets 0 15 id).zeroed] 15 <|
  Slot.cons (·.entity_linear_acceleration) LinearAcceleration.slots 12 <|
  Slot.cons (·.entity_angular_velocity) AngularVelocity.slots 12 <|
  []
theorem DeadReckoningParameters.written (x : DeadReckoningParameters) : Written DeadReckoningParameters.slots x (wire (sent x)) :=
    Written.cons (written_enum rfl x.dead_reckoning_algorithm) (octets_length _ _) <|
    Written.cons (written_zeroed_octets x.dead_reckoning_other_parameters) (arr_wire_length _) <|
    Written.cons (LinearAcceleration.written x.entity_linear_acceleration) (LinearAcceleration.wire_length _) <|
    Written.last (AngularVelocity.written x.entity_angular_velocity)
theorem DeadReckoningParameters.finds : Finds DeadReckoningParameters.deserialize (ReadFrom DeadReckoningParameters.slots) := FindsAt.finds <|
    FindsAt.cons (π := fun x : DeadReckoningParameters => x.dead_reckoning_algorithm) (EnumSpec.fixed _) (EnumSpec.finds _ rfl) fun _ =>
    FindsAt.cons (π := fun x : DeadReckoningParameters => x.dead_reckoning_other_parameters) (Fixed.arr fixed_u8 15) (Finds.zeroed (finds_octets _)) fun _ =>
    FindsAt.cons (π := fun x : DeadReckoningParameters => x.entity_linear_acceleration) (LinearAcceleration.fixed) (LinearAcceleration.finds) fun _ =>
    FindsAt.cons (π := fun x : DeadReckoningParameters => x.entity_angular_velocity) (AngularVelocity.fixed) (AngularVelocity.finds) fun _ =>
    FindsAt.ret ⟨⟨⟨⟨trivial, rfl⟩, rfl⟩, rfl⟩, rfl⟩
theorem DeadReckoningParameters.agree {x y : DeadReckoningParameters} (h : Agree DeadReckoningParameters.slots x y) : x = y := by
  have h0 := h
  have e0 : x.dead_reckoning_algorithm = y.dead_reckoning_algorithm := agree_enum (Agree.left h0)
  have h1 := Agree.right h0
  have e1 : x.dead_reckoning_other_parameters = y.dead_reckoning_other_parameters := agree_octets (agree_zeroed (Agree.left h1))
  have h2 := Agree.right h1
  have e2 : x.entity_linear_acceleration = y.entity_linear_acceleration := LinearAcceleration.agree (Agree.left h2)
  have h3 := Agree.right h2
  have e3 : x.entity_angular_velocity = y.entity_angular_velocity := AngularVelocity.agree (Agree.left h3)
  cases x; cases y
  dsimp only at e0 e1 e2 e3
  subst e0 e1 e2 e3
  rfl

def EntityCoordinateVector.slots : List (Slot EntityCoordinateVector) :=
  Slot.cons (·.x_coordinate) [Slot.f32 0 id] 4 <|
  Slot.cons (·.y_coordinate) [Slot.f32 0 id] 4 <|
  Slot.cons (·.z_coordinate) [Slot.f32 0 id] 4 <|
  []
theorem EntityCoordinateVector.written (x : EntityCoordinateVector) : Written EntityCoordinateVector.slots x (wire (sent x)) :=
    Written.cons (written_f32 x.x_coordinate) (octets_length _ _) <|
    Written.cons (written_f32 x.y_coordinate) (octets_length _ _) <|
    Written.last (written_f32 x.z_coordinate)
theorem EntityCoordinateVector.finds : Finds EntityCoordinateVector.deserialize (ReadFrom EntityCoordinateVector.slots) := FindsAt.finds <|
    FindsAt.cons (π := fun x : EntityCoordinateVector => x.x_coordinate) (fixed_f32) (finds_f32) fun _ =>
    FindsAt.cons (π := fun x : EntityCoordinateVector => x.y_coordinate) (fixed_f32) (finds_f32) fun _ =>
    FindsAt.cons (π := fun x : EntityCoordinateVector => x.z_coordinate) (fixed_f32) (finds_f32) fun _ =>
    FindsAt.ret ⟨⟨⟨trivial, rfl⟩, rfl⟩, rfl⟩
theorem EntityCoordinateVector.agree {x y : EntityCoordinateVector} (h : Agree EntityCoordinateVector.slots x y) : x = y := by
  have h0 := h
  have e0 : x.x_coordinate = y.x_coordinate := agree_f32 (Agree.left h0)
  have h1 := Agree.right h0
  have e1 : x.y_coordinate = y.y_coordinate := agree_f32 (Agree.left h1)
  have h2 := Agree.right h1
  have e2 : x.z_coordinate = y.z_coordinate := agree_f32 (Agree.left h2)
  cases x; cases y
  dsimp only at e0 e1 e2
  subst e0 e1 e2
  rfl

def EventId.slots : List (Slot EventId) :=
  Slot.cons (·.simulation_address) SimulationAddress.slots 4 <|
  Slot.cons (·.event_identifier) [Slot.u16 0 id] 2 <|
  []
theorem EventId.written (x : EventId) : Written EventId.slots x (wire (sent x)) :=
    Written.cons (SimulationAddress.written x.simulation_address) (SimulationAddress.wire_length _) <|
    Written.last (written_u16 x.event_identifier)
theorem EventId.finds : Finds EventId.deserialize (ReadFrom EventId.slots) := FindsAt.finds <|
    FindsAt.cons (π := fun x : EventId => x.simulation_address) (SimulationAddress.fixed) (SimulationAddress.finds) fun _ =>
    FindsAt.cons (π := fun x : EventId => x.event_identifier) (fixed_u16) (finds_u16) fun _ =>
    FindsAt.ret ⟨⟨trivial, rfl⟩, rfl⟩
theorem EventId.agree {x y : EventId} (h : Agree EventId.slots x y) : x = y := by
  have h0 := h
  have e0 : x.simulation_address = y.simulation_address := SimulationAddress.agree (Agree.left h0)
  have h1 := Agree.right h0
  have e1 : x.event_identifier = y.event_identifier := agree_u16 (Agree.left h1)
  cases x; cases y
  dsimp only at e0 e1
  subst e0 e1
  rfl

def DirectedEnergyDamage.slots : List (Slot DirectedEnergyDamage) :=
  Slot.cons (·.record_type) [Slot.u32 0 id] 4 <|
  Slot.cons (·.record_length) [Slot.u16 0 id] 2 <|
  Slot.cons (·.padding) [Slot.u16 0 id] 2 <|
  Slot.cons (·.damage_location) EntityCoordinateVector.slots 12 <|
  Slot.cons (·.damage_diameter) [Slot.f32 0 id] 4 <|
  Slot.cons (·.temperature) [Slot.f32 0 id] 4 <|
  Slot.cons (·.component_identification) [Slot.enum 0 1 id] 1 <|
  Slot.cons (·.component_damage_status) [Slot.enum 0 1 id] 1 <|
  Slot.cons (·.component_visual_damage_status) [Slot.u8 0 id] 1 <|
  Slot.cons (·.component_visual_smoke_color) [Slot.enum 0 1 id] 1 <|
  Slot.cons (·.fire_event_id) EventId.slots 6 <|
  Slot.cons (·.padding2) [Slot.u16 0 id] 2 <|
  []
theorem DirectedEnergyDamage.written (x : DirectedEnergyDamage) : Written DirectedEnergyDamage.slots x (wire (sent x)) :=
    Written.cons (written_u32 x.record_type) (octets_length _ _) <|
    Written.cons (written_u16 x.record_length) (octets_length _ _) <|
    Written.cons (written_u16 x.padding) (octets_length _ _) <|
    Written.cons (EntityCoordinateVector.written x.damage_location) (EntityCoordinateVector.wire_length _) <|
    Written.cons (written_f32 x.damage_diameter) (octets_length _ _) <|
    Written.cons (written_f32 x.temperature) (octets_length _ _) <|
    Written.cons (written_enum rfl x.component_identification) (octets_length _ _) <|
    Written.cons (written_enum rfl x.component_damage_status) (octets_length _ _) <|
    Written.cons (written_u8 x.component_visual_damage_status) (octets_length _ _) <|
    Written.cons (written_enum rfl x.component_visual_smoke_color) (octets_length _ _) <|
    Written.cons (EventId.written x.fire_event_id) (EventId.wire_length _) <|
    Written.last (written_u16 x.padding2)
theorem DirectedEnergyDamage.finds : Finds DirectedEnergyDamage.deserialize (ReadFrom DirectedEnergyDamage.slots) := FindsAt.finds <|
    FindsAt.cons (π := fun x : DirectedEnergyDamage => x.record_type) (fixed_u32) (finds_u32) fun _ =>
    FindsAt.cons (π := fun x : DirectedEnergyDamage => x.record_length) (fixed_u16) (finds_u16) fun _ =>
    FindsAt.cons (π := fun x : DirectedEnergyDamage => x.padding) (fixed_u16) (finds_u16) fun _ =>
    FindsAt.cons (π := fun x : DirectedEnergyDamage => x.damage_location) (EntityCoordinateVector.fixed) (EntityCoordinateVector.finds) fun _ =>
    FindsAt.cons (π := fun x : DirectedEnergyDamage => x.damage_diameter) (fixed_f32) (finds_f32) fun _ =>
    FindsAt.cons (π := fun x : DirectedEnergyDamage => x.temperature) (fixed_f32) (finds_f32) fun _ =>
    FindsAt.cons (π := fun x : DirectedEnergyDamage => x.component_identification) (EnumSpec.fixed _) (EnumSpec.finds _ rfl) fun _ =>
    FindsAt.cons (π := fun x : DirectedEnergyDamage => x.component_damage_status) (EnumSpec.fixed _) (EnumSpec.finds _ rfl) fun _ =>
    FindsAt.cons (π := fun x : DirectedEnergyDamage => x.component_visual_damage_status) (fixed_u8) (finds_u8) fun _ =>
    FindsAt.cons (π := fun x : DirectedEnergyDamage => x.component_visual_smoke_color) (EnumSpec.fixed _) (EnumSpec.finds _ rfl) fun _ =>
    FindsAt.cons (π := fun x : DirectedEnergyDamage => x.fire_event_id) (EventId.fixed) (EventId.finds) fun _ =>
    FindsAt.cons (π := fun x : DirectedEnergyDamage => x.padding2) (fixed_u16) (finds_u16) fun _ =>
    FindsAt.ret ⟨⟨⟨⟨⟨⟨⟨⟨⟨⟨⟨⟨trivial, rfl⟩, rfl⟩, rfl⟩, rfl⟩, rfl⟩, rfl⟩, rfl⟩, rfl⟩, rfl⟩, rfl⟩, rfl⟩, rfl⟩
theorem DirectedEnergyDamage.agree {x y : DirectedEnergyDamage} (h : Agree DirectedEnergyDamage.slots x y) : x = y := by
  have h0 := h
  have e0 : x.record_type = y.record_type := agree_u32 (Agree.left h0)
  have h1 := Agree.right h0
  have e1 : x.record_length = y.record_length := agree_u16 (Agree.left h1)
  have h2 := Agree.right h1
  have e2 : x.padding = y.padding := agree_u16 (Agree.left h2)
  have h3 := Agree.right h2
  have e3 : x.damage_location = y.damage_location := EntityCoordinateVector.agree (Agree.left h3)
  have h4 := Agree.right h3
  have e4 : x.damage_diameter = y.damage_diameter := agree_f32 (Agree.left h4)
  have h5 := Agree.right h4
  have e5 : x.temperature = y.temperature := agree_f32 (Agree.left h5)
  have h6 := Agree.right h5
  have e6 : x.component_identification = y.component_identification := agree_enum (Agree.left h6)
  have h7 := Agree.right h6
  have e7 : x.component_damage_status = y.component_damage_status := agree_enum (Agree.left h7)
  have h8 := Agree.right h7
  have e8 : x.component_visual_damage_status = y.component_visual_damage_status := agree_u8 (Agree.left h8)
  have h9 := Agree.right h8
  have e9 : x.component_visual_smoke_color = y.component_visual_smoke_color := agree_enum (Agree.left h9)
  have h10 := Agree.right h9
  have e10 : x.fire_event_id = y.fire_event_id := EventId.agree (Agree.left h10)
  have h11 := Agree.right h10
  have e11 : x.padding2 = y.padding2 := agree_u16 (Agree.left h11)
  cases x; cases y
  dsimp only at e0 e1 e2 e3 e4 e5 e6 e7 e8 e9 e10 e11
  subst e0 e1 e2 e3 e4 e5 e6 e7 e8 e9 e10 e11
  rfl

def FundamentalParameterData.slots : List (Slot FundamentalParameterData) :=
  Slot.cons (·.frequency) [Slot.f32 0 id] 4 <|
  Slot.cons (·.frequency_range) [Slot.f32 0 id] 4 <|
  Slot.cons (·.effective_radiated_power) [Slot.f32 0 id] 4 <|
  Slot.cons (·.pulse_repetition_frequency) [Slot.f32 0 id] 4 <|
  Slot.cons (·.pulse_width) [Slot.f32 0 id] 4 <|
  Slot.cons (·.beam_azimuth_center) [Slot.f32 0 id] 4 <|
  Slot.cons (·.beam_azimuth_sweep) [Slot.f32 0 id] 4 <|
  Slot.cons (·.beam_elevation_center) [Slot.f32 0 id] 4 <|
  Slot.cons (·.beam_elevation_sweep) [Slot.f32 0 id] 4 <|
  Slot.cons (·.beam_sweep_sync) [Slot.f32 0 id] 4 <|
  []
theorem FundamentalParameterData.written (x : FundamentalParameterData) : Written FundamentalParameterData.slots x (wire (sent x)) :=
    Written.cons (written_f32 x.frequency) (octets_length _ _) <|
    Written.cons (written_f32 x.frequency_range) (octets_length _ _) <|
    Written.cons (written_f32 x.effective_radiated_power) (octets_length _ _) <|
    Written.cons (written_f32 x.pulse_repetition_frequency) (octets_length _ _) <|
    Written.cons (written_f32 x.pulse_width) (octets_length _ _) <|
    Written.cons (written_f32 x.beam_azimuth_center) (octets_length _ _) <|
    Written.cons (written_f32 x.beam_azimuth_sweep) (octets_length _ _) <|
    Written.cons (written_f32 x.beam_elevation_center) (octets_length _ _) <|
    Written.cons (written_f32 x.beam_elevation_sweep) (octets_length _ _) <|
    Written.last (written_f32 x.beam_sweep_sync)
theorem FundamentalParameterData.finds : Finds FundamentalParameterData.deserialize (ReadFrom FundamentalParameterData.slots) := FindsAt.finds <|
    FindsAt.cons (π := fun x : FundamentalParameterData => x.frequency) (fixed_f32) (finds_f32) fun _ =>
    FindsAt.cons (π := fun x : FundamentalParameterData => x.frequency_range) (fixed_f32) (finds_f32) fun _ =>
    FindsAt.cons (π := fun x : FundamentalParameterData => x.effective_radiated_power) (fixed_f32) (finds_f32) fun _ =>
    FindsAt.cons (π := fun x : FundamentalParameterData => x.pulse_repetition_frequency) (fixed_f32) (finds_f32) fun _ =>
    FindsAt.cons (π := fun x : FundamentalParameterData => x.pulse_width) (fixed_f32) (finds_f32) fun _ =>
    FindsAt.cons (π := fun x : FundamentalParameterData => x.beam_azimuth_center) (fixed_f32) (finds_f32) fun _ =>
    FindsAt.cons (π := fun x : FundamentalParameterData => x.beam_azimuth_sweep) (fixed_f32) (finds_f32) fun _ =>
    FindsAt.cons (π := fun x : FundamentalParameterData => x.beam_elevation_center) (fixed_f32) (finds_f32) fun _ =>
    FindsAt.cons (π := fun x : FundamentalParameterData => x.beam_elevation_sweep) (fixed_f32) (finds_f32) fun _ =>
    FindsAt.cons (π := fun x : FundamentalParameterData => x.beam_sweep_sync) (fixed_f32) (finds_f32) fun _ =>
    FindsAt.ret ⟨⟨⟨⟨⟨⟨⟨⟨⟨⟨trivial, rfl⟩, rfl⟩, rfl⟩, rfl⟩, rfl⟩, rfl⟩, rfl⟩, rfl⟩, rfl⟩, rfl⟩
theorem FundamentalParameterData.agree {x y : FundamentalParameterData} (h : Agree FundamentalParameterData.slots x y) : x = y := by
  have h0 := h
  have e0 : x.frequency = y.frequency := agree_f32 (Agree.left h0)
  have h1 := Agree.right h0
  have e1 : x.frequency_range = y.frequency_range := agree_f32 (Agree.left h1)
  have h2 := Agree.right h1
  have e2 : x.effective_radiated_power = y.effective_radiated_power := agree_f32 (Agree.left h2)
  have h3 := Agree.right h2
  have e3 : x.pulse_repetition_frequency = y.pulse_repetition_frequency := agree_f32 (Agree.left h3)
  have h4 := Agree.right h3
  have e4 : x.pulse_width = y.pulse_width := agree_f32 (Agree.left h4)
  have h5 := Agree.right h4
  have e5 : x.beam_azimuth_center = y.beam_azimuth_center := agree_f32 (Agree.left h5)
  have h6 := Agree.right h5
  have e6 : x.beam_azimuth_sweep = y.beam_azimuth_sweep := agree_f32 (Agree.left h6)
  have h7 := Agree.right h6
  have e7 : x.beam_elevation_center = y.beam_elevation_center := agree_f32 (Agree.left h7)
  have h8 := Agree.right h7
  have e8 : x.beam_elevation_sweep = y.beam_elevation_sweep := agree_f32 (Agree.left h8)
  have h9 := Agree.right h8
  have e9 : x.beam_sweep_sync = y.beam_sweep_sync := agree_f32 (Agree.left h9)
  cases x; cases y
  dsimp only at e0 e1 e2 e3 e4 e5 e6 e7 e8 e9
  subst e0 e1 e2 e3 e4 e5 e6 e7 e8 e9
  rfl

def TrackJamTarget.slots : List (Slot TrackJamTarget) :=
  Slot.cons (·.track_jam) EntityId.slots 6 <|
  Slot.cons (·.emitter_id) [Slot.u8 0 id] 1 <|
  Slot.cons (·.beam_id) [Slot.u8 0 id] 1 <|
  []
theorem TrackJamTarget.written (x : TrackJamTarget) : Written TrackJamTarget.slots x (wire (sent x)) :=
    Written.cons (EntityId.written x.track_jam) (EntityId.wire_length _) <|
    Written.cons (written_u8 x.emitter_id) (octets_length _ _) <|
    Written.last (written_u8 x.beam_id)
theorem TrackJamTarget.finds : Finds TrackJamTarget.deserialize (ReadFrom TrackJamTarget.slots) := FindsAt.finds <|
    FindsAt.cons (π := fun x : TrackJamTarget => x.track_jam) (EntityId.fixed) (EntityId.finds) fun _ =>
    FindsAt.cons (π := fun x : TrackJamTarget => x.emitter_id) (fixed_u8) (finds_u8) fun _ =>
    FindsAt.cons (π := fun x : TrackJamTarget => x.beam_id) (fixed_u8) (finds_u8) fun _ =>
    FindsAt.ret ⟨⟨⟨trivial, rfl⟩, rfl⟩, rfl⟩
theorem TrackJamTarget.agree {x y : TrackJamTarget} (h : Agree TrackJamTarget.slots x y) : x = y := by
  have h0 := h
  have e0 : x.track_jam = y.track_jam := EntityId.agree (Agree.left h0)
  have h1 := Agree.right h0
  have e1 : x.emitter_id = y.emitter_id := agree_u8 (Agree.left h1)
  have h2 := Agree.right h1
  have e2 : x.beam_id = y.beam_id := agree_u8 (Agree.left h2)
  cases x; cases y
  dsimp only at e0 e1 e2
  subst e0 e1 e2
  rfl

def ElectromagneticEmissionBeamData.slots : List (Slot ElectromagneticEmissionBeamData) :=
  Slot.cons (·.beam_data_length) [Slot.u8 0 id] 1 <|
  Slot.cons (·.beam_id_number) [Slot.u8 0 id] 1 <|
  Slot.cons (·.beam_parameter_index) [Slot.u16 0 id] 2 <|
  Slot.cons (·.fundamental_parameter_data) FundamentalParameterData.slots 40 <|
  Slot.cons (·.beam_function) [Slot.u8 0 id] 1 <|
  Slot.cons (·.number_of_track_jam_targets) [Slot.u8 0 id] 1 <|
  Slot.cons (·.high_density_track_jam) [Slot.u8 0 id] 1 <|
  Slot.cons (·.pad4) [Slot.u8 0 id] 1 <|
  Slot.cons (·.jamming_mode_sequence) [Slot.u32 0 id] 4 <|
  []
theorem ElectromagneticEmissionBeamData.written (x : ElectromagneticEmissionBeamData) : Written ElectromagneticEmissionBeamData.slots x (wire (sent x)) :=
    Written.cons (written_u8 x.beam_data_length) (octets_length _ _) <|
    Written.cons (written_u8 x.beam_id_number) (octets_length _ _) <|
    Written.cons (written_u16 x.beam_parameter_index) (octets_length _ _) <|
    Written.cons (FundamentalParameterData.written x.fundamental_parameter_data) (FundamentalParameterData.wire_length _) <|
    Written.cons (written_u8 x.beam_function) (octets_length _ _) <|
    Written.cons (written_u8 x.number_of_track_jam_targets) (octets_length _ _) <|
    Written.cons (written_u8 x.high_density_track_jam) (octets_length _ _) <|
    Written.cons (written_u8 x.pad4) (octets_length _ _) <|
    Written.cons (written_u32 x.jamming_mode_sequence) (octets_length _ _) <|
    Written.nil _ _
theorem ElectromagneticEmissionBeamData.finds : Finds ElectromagneticEmissionBeamData.deserialize (ReadFrom ElectromagneticEmissionBeamData.slots) := FindsAt.finds <|
    FindsAt.cons (π := fun x : ElectromagneticEmissionBeamData => x.beam_data_length) (fixed_u8) (finds_u8) fun _ =>
    FindsAt.cons (π := fun x : ElectromagneticEmissionBeamData => x.beam_id_number) (fixed_u8) (finds_u8) fun _ =>
    FindsAt.cons (π := fun x : ElectromagneticEmissionBeamData => x.beam_parameter_index) (fixed_u16) (finds_u16) fun _ =>
    FindsAt.cons (π := fun x : ElectromagneticEmissionBeamData => x.fundamental_parameter_data) (FundamentalParameterData.fixed) (FundamentalParameterData.finds) fun _ =>
    FindsAt.cons (π := fun x : ElectromagneticEmissionBeamData => x.beam_function) (fixed_u8) (finds_u8) fun _ =>
    FindsAt.cons (π := fun x : ElectromagneticEmissionBeamData => x.number_of_track_jam_targets) (fixed_u8) (finds_u8) fun _ =>
    FindsAt.cons (π := fun x : ElectromagneticEmissionBeamData => x.high_density_track_jam) (fixed_u8) (finds_u8) fun _ =>
    FindsAt.cons (π := fun x : ElectromagneticEmissionBeamData => x.pad4) (fixed_u8) (finds_u8) fun _ =>
    FindsAt.cons (π := fun x : ElectromagneticEmissionBeamData => x.jamming_mode_sequence) (fixed_u32) (finds_u32) fun _ =>
    FindsAt.skip fun _ =>
    FindsAt.ret ⟨⟨⟨⟨⟨⟨⟨⟨⟨trivial, rfl⟩, rfl⟩, rfl⟩, rfl⟩, rfl⟩, rfl⟩, rfl⟩, rfl⟩, rfl⟩

def EmitterSystem.slots : List (Slot EmitterSystem) :=
  Slot.cons (·.emitter_name) [Slot.enum 0 2 id] 2 <|
  Slot.cons (·.function) [Slot.enum 0 1 id] 1 <|
  Slot.cons (·.emitter_id_number) [Slot.u8 0 id] 1 <|
  []
theorem EmitterSystem.written (x : EmitterSystem) : Written EmitterSystem.slots x (wire (sent x)) :=
    Written.cons (written_enum rfl x.emitter_name) (octets_length _ _) <|
    Written.cons (written_enum rfl x.function) (octets_length _ _) <|
    Written.last (written_u8 x.emitter_id_number)
theorem EmitterSystem.finds : Finds EmitterSystem.deserialize (ReadFrom EmitterSystem.slots) := FindsAt.finds <|
    FindsAt.cons (π := fun x : EmitterSystem => x.emitter_name) (EnumSpec.fixed _) (EnumSpec.finds _ rfl) fun _ =>
    FindsAt.cons (π := fun x : EmitterSystem => x.function) (EnumSpec.fixed _) (EnumSpec.finds _ rfl) fun _ =>
    FindsAt.cons (π := fun x : EmitterSystem => x.emitter_id_number) (fixed_u8) (finds_u8) fun _ =>
    FindsAt.ret ⟨⟨⟨trivial, rfl⟩, rfl⟩, rfl⟩
theorem EmitterSystem.agree {x y : EmitterSystem} (h : Agree EmitterSystem.slots x y) : x = y := by
  have h0 := h
  have e0 : x.emitter_name = y.emitter_name := agree_enum (Agree.left h0)
  have h1 := Agree.right h0
  have e1 : x.function = y.function := agree_enum (Agree.left h1)
  have h2 := Agree.right h1
  have e2 : x.emitter_id_number = y.emitter_id_number := agree_u8 (Agree.left h2)
  cases x; cases y
  dsimp only at e0 e1 e2
  subst e0 e1 e2
  rfl

def ElectromagneticEmissionSystemData.slots : List (Slot ElectromagneticEmissionSystemData) :=
  Slot.cons (·.system_data_length) [Slot.u8 0 id] 1 <|
  Slot.cons (·.number_of_beams) [Slot.u8 0 id] 1 <|
  Slot.cons (·.emissionspadding2) [Slot.u16 0 id] 2 <|
  Slot.cons (·.emitter_system) EmitterSystem.slots 4 <|
  Slot.cons (·.location) Vector3Float.slots 12 <|
  []
theorem ElectromagneticEmissionSystemData.written (x : ElectromagneticEmissionSystemData) : Written ElectromagneticEmissionSystemData.slots x (wire (sent x)) :=
    Written.cons (written_u8 x.system_data_length) (octets_length _ _) <|
    Written.cons (written_u8 x.number_of_beams) (octets_length _ _) <|
    Written.cons (written_u16 x.emissionspadding2) (octets_length _ _) <|
    Written.cons (EmitterSystem.written x.emitter_system) (EmitterSystem.wire_length _) <|
    Written.cons (Vector3Float.written x.location) (Vector3Float.wire_length _) <|
    Written.nil _ _
theorem ElectromagneticEmissionSystemData.finds : Finds ElectromagneticEmissionSystemData.deserialize (ReadFrom ElectromagneticEmissionSystemData.slots) := FindsAt.finds <|
    FindsAt.cons (π := fun x : ElectromagneticEmissionSystemData => x.system_data_length) (fixed_u8) (finds_u8) fun _ =>
    FindsAt.cons (π := fun x : ElectromagneticEmissionSystemData => x.number_of_beams) (fixed_u8) (finds_u8) fun _ =>
    FindsAt.cons (π := fun x : ElectromagneticEmissionSystemData => x.emissionspadding2) (fixed_u16) (finds_u16) fun _ =>
    FindsAt.cons (π := fun x : ElectromagneticEmissionSystemData => x.emitter_system) (EmitterSystem.fixed) (EmitterSystem.finds) fun _ =>
    FindsAt.cons (π := fun x : ElectromagneticEmissionSystemData => x.location) (Vector3Float.fixed) (Vector3Float.finds) fun _ =>
    FindsAt.skip fun _ =>
    FindsAt.ret ⟨⟨⟨⟨⟨trivial, rfl⟩, rfl⟩, rfl⟩, rfl⟩, rfl⟩

def EntityType.slots : List (Slot EntityType) :=
  Slot.cons (·.kind) [Slot.enum 0 1 id] 1 <|
  Slot.cons (·.domain) [Slot.u8 0 id] 1 <|
  Slot.cons (·.country) [Slot.enum 0 2 id] 2 <|
  Slot.cons (·.category) [Slot.u8 0 id] 1 <|
  Slot.cons (·.subcategory) [Slot.u8 0 id] 1 <|
  Slot.cons (·.specific) [Slot.u8 0 id] 1 <|
  Slot.cons (·.extra) [Slot.u8 0 id] 1 <|
  []
theorem EntityType.written (x : EntityType) : Written EntityType.slots x (wire (sent x)) :=
    Written.cons (written_enum rfl x.kind) (octets_length _ _) <|
    Written.cons (written_u8 x.domain) (octets_length _ _) <|
    Written.cons (written_enum rfl x.country) (octets_length _ _) <|
    Written.cons (written_u8 x.category) (octets_length _ _) <|
    Written.cons (written_u8 x.subcategory) (octets_length _ _) <|
    Written.cons (written_u8 x.specific) (octets_length _ _) <|
    Written.last (written_u8 x.extra)
theorem EntityType.finds : Finds EntityType.deserialize (ReadFrom EntityType.slots) := FindsAt.finds <|
    FindsAt.cons (π := fun x : EntityType => x.kind) (EnumSpec.fixed _) (EnumSpec.finds _ rfl) fun _ =>
    FindsAt.cons (π := fun x : EntityType => x.domain) (fixed_u8) (finds_u8) fun _ =>
    FindsAt.cons (π := fun x : EntityType => x.country) (EnumSpec.fixed _) (EnumSpec.finds _ rfl) fun _ =>
    FindsAt.cons (π := fun x : EntityType => x.category) (fixed_u8) (finds_u8) fun _ =>
    FindsAt.cons (π := fun x : EntityType => x.subcategory) (fixed_u8) (finds_u8) fun _ =>
    FindsAt.cons (π := fun x : EntityType => x.specific) (fixed_u8) (finds_u8) fun _ =>
    FindsAt.cons (π := fun x : EntityType => x.extra) (fixed_u8) (finds_u8) fun _ =>
    FindsAt.ret ⟨⟨⟨⟨⟨⟨⟨trivial, rfl⟩, rfl⟩, rfl⟩, rfl⟩, rfl⟩, rfl⟩, rfl⟩
theorem EntityType.agree {x y : EntityType} (h : Agree EntityType.slots x y) : x = y := by
  have h0 := h
  have e0 : x.kind = y.kind := agree_enum (Agree.left h0)
  have h1 := Agree.right h0
  have e1 : x.domain = y.domain := agree_u8 (Agree.left h1)
  have h2 := Agree.right h1
  have e2 : x.country = y.country := agree_enum (Agree.left h2)
  have h3 := Agree.right h2
  have e3 : x.category = y.category := agree_u8 (Agree.left h3)
  have h4 := Agree.right h3
  have e4 : x.subcategory = y.subcategory := agree_u8 (Agree.left h4)
  have h5 := Agree.right h4
  have e5 : x.specific = y.specific := agree_u8 (Agree.left h5)
  have h6 := Agree.right h5
  have e6 : x.extra = y.extra := agree_u8 (Agree.left h6)
  cases x; cases y
  dsimp only at e0 e1 e2 e3 e4 e5 e6
  subst e0 e1 e2 e3 e4 e5 e6
  rfl

def Environment.slots : List (Slot Environment) :=
  Slot.cons (·.environment_type) [Slot.u32 0 id] 4 <|
  Slot.cons (·.length) [Slot.u16 0 id] 2 <|
  Slot.cons (·.index) [Slot.u8 0 id] 1 <|
  Slot.cons (·.padding) [Slot.u8 0 id] 1 <|
  []
theorem Environment.written (x : Environment) : Written Environment.slots x (wire (sent x)) :=
    Written.cons (written_u32 x.environment_type) (octets_length _ _) <|
    Written.cons (written_u16 x.length) (octets_length _ _) <|
    Written.cons (written_u8 x.index) (octets_length _ _) <|
    Written.last (written_u8 x.padding)
theorem Environment.finds : Finds Environment.deserialize (ReadFrom Environment.slots) := FindsAt.finds <|
    FindsAt.cons (π := fun x : Environment => x.environment_type) (fixed_u32) (finds_u32) fun _ =>
    FindsAt.cons (π := fun x : Environment => x.length) (fixed_u16) (finds_u16) fun _ =>
    FindsAt.cons (π := fun x : Environment => x.index) (fixed_u8) (finds_u8) fun _ =>
    FindsAt.cons (π := fun x : Environment => x.padding) (fixed_u8) (finds_u8) fun _ =>
    FindsAt.ret ⟨⟨⟨⟨trivial, rfl⟩, rfl⟩, rfl⟩, rfl⟩
theorem Environment.agree {x y : Environment} (h : Agree Environment.slots x y) : x = y := by
  have h0 := h
  have e0 : x.environment_type = y.environment_type := agree_u32 (Agree.left h0)
  have h1 := Agree.right h0
  have e1 : x.length = y.length := agree_u16 (Agree.left h1)
  have h2 := Agree.right h1
  have e2 : x.index = y.index := agree_u8 (Agree.left h2)
  have h3 := Agree.right h2
  have e3 : x.padding = y.padding := agree_u8 (Agree.left h3)
  cases x; cases y
  dsimp only at e0 e1 e2 e3
  subst e0 e1 e2 e3
  rfl

def EulerAngles.slots : List (Slot EulerAngles) :=
  Slot.cons (·.psi) [Slot.f32 0 id] 4 <|
  Slot.cons (·.theta) [Slot.f32 0 id] 4 <|
  Slot.cons (·.phi) [Slot.f32 0 id] 4 <|
  []
theorem EulerAngles.written (x : EulerAngles) : Written EulerAngles.slots x (wire (sent x)) :=
    Written.cons (written_f32 x.psi) (octets_length _ _) <|
    Written.cons (written_f32 x.theta) (octets_length _ _) <|
    Written.last (written_f32 x.phi)
theorem EulerAngles.finds : Finds EulerAngles.deserialize (ReadFrom EulerAngles.slots) := FindsAt.finds <|
    FindsAt.cons (π := fun x : EulerAngles => x.psi) (fixed_f32) (finds_f32) fun _ =>
    FindsAt.cons (π := fun x : EulerAngles => x.theta) (fixed_f32) (finds_f32) fun _ =>
    FindsAt.cons (π := fun x : EulerAngles => x.phi) (fixed_f32) (finds_f32) fun _ =>
    FindsAt.ret ⟨⟨⟨trivial, rfl⟩, rfl⟩, rfl⟩
theorem EulerAngles.agree {x y : EulerAngles} (h : Agree EulerAngles.slots x y) : x = y := by
  have h0 := h
  have e0 : x.psi = y.psi := agree_f32 (Agree.left h0)
  have h1 := Agree.right h0
  have e1 : x.theta = y.theta := agree_f32 (Agree.left h1)
  have h2 := Agree.right h1
  have e2 : x.phi = y.phi := agree_f32 (Agree.left h2)
  cases x; cases y
  dsimp only at e0 e1 e2
  subst e0 e1 e2
  rfl

def FixedDatumRecord.slots : List (Slot FixedDatumRecord) :=
  Slot.cons (·.datum_id) [Slot.u32 0 id] 4 <|
  Slot.cons (·.datum_value) [Slot.u32 0 id] 4 <|
  []
theorem FixedDatumRecord.written (x : FixedDatumRecord) : Written FixedDatumRecord.slots x (wire (sent x)) :=
    Written.cons (written_u32 x.datum_id) (octets_length _ _) <|
    Written.last (written_u32 x.datum_value)
theorem FixedDatumRecord.finds : Finds FixedDatumRecord.deserialize (ReadFrom FixedDatumRecord.slots) := FindsAt.finds <|
    FindsAt.cons (π := fun x : FixedDatumRecord => x.datum_id) (fixed_u32) (finds_u32) fun _ =>
    FindsAt.cons (π := fun x : FixedDatumRecord => x.datum_value) (fixed_u32) (finds_u32) fun _ =>
    FindsAt.ret ⟨⟨trivial, rfl⟩, rfl⟩
theorem FixedDatumRecord.agree {x y : FixedDatumRecord} (h : Agree FixedDatumRecord.slots x y) : x = y := by
  have h0 := h
  have e0 : x.datum_id = y.datum_id := agree_u32 (Agree.left h0)
  have h1 := Agree.right h0
  have e1 : x.datum_value = y.datum_value := agree_u32 (Agree.left h1)
  cases x; cases y
  dsimp only at e0 e1
  subst e0 e1
  rfl

def FundamentalOperationalData.slots : List (Slot FundamentalOperationalData) :=
  Slot.cons (·.system_status) [Slot.u8 0 id] 1 <|
  Slot.cons (·.data_field1) [Slot.u8 0 id] 1 <|
  Slot.cons (·.information_layers) [Slot.u8 0 id] 1 <|
  Slot.cons (·.data_field2) [Slot.u8 0 id] 1 <|
  Slot.cons (·.parameter1) [Slot.u16 0 id] 2 <|
  Slot.cons (·.parameter2) [Slot.u16 0 id] 2 <|
  Slot.cons (·.parameter3) [Slot.u16 0 id] 2 <|
  Slot.cons (·.parameter4) [Slot.u16 0 id] 2 <|
  Slot.cons (·.parameter5) [Slot.u16 0 id] 2 <|
  Slot.cons (·.parameter6) [Slot.u16 0 id] 2 <|
  []
theorem FundamentalOperationalData.written (x : FundamentalOperationalData) : Written FundamentalOperationalData.slots x (wire (sent x)) :=
    Written.cons (written_u8 x.system_status) (octets_length _ _) <|
    Written.cons (written_u8 x.data_field1) (octets_length _ _) <|
    Written.cons (written_u8 x.information_layers) (octets_length _ _) <|
    Written.cons (written_u8 x.data_field2) (octets_length _ _) <|
    Written.cons (written_u16 x.parameter1) (octets_length _ _) <|
    Written.cons (written_u16 x.parameter2) (octets_length _ _) <|
    Written.cons (written_u16 x.parameter3) (octets_length _ _) <|
    Written.cons (written_u16 x.parameter4) (octets_length _ _) <|
    Written.cons (written_u16 x.parameter5) (octets_length _ _) <|
    Written.last (written_u16 x.parameter6)
theorem FundamentalOperationalData.finds : Finds FundamentalOperationalData.deserialize (ReadFrom FundamentalOperationalData.slots) := FindsAt.finds <|
    FindsAt.cons (π := fun x : FundamentalOperationalData => x.system_status) (fixed_u8) (finds_u8) fun _ =>
    FindsAt.cons (π := fun x : FundamentalOperationalData => x.data_field1) (fixed_u8) (finds_u8) fun _ =>
    FindsAt.cons (π := fun x : FundamentalOperationalData => x.information_layers) (fixed_u8) (finds_u8) fun _ =>
    FindsAt.cons (π := fun x : FundamentalOperationalData => x.data_field2) (fixed_u8) (finds_u8) fun _ =>
    FindsAt.cons (π := fun x : FundamentalOperationalData => x.parameter1) (fixed_u16) (finds_u16) fun _ =>
    FindsAt.cons (π := fun x : FundamentalOperationalData => x.parameter2) (fixed_u16) (finds_u16) fun _ =>
    FindsAt.cons (π := fun x : FundamentalOperationalData => x.parameter3) (fixed_u16) (finds_u16) fun _ =>
    FindsAt.cons (π := fun x : FundamentalOperationalData => x.parameter4) (fixed_u16) (finds_u16) fun _ =>
    FindsAt.cons (π := fun x : FundamentalOperationalData => x.parameter5) (fixed_u16) (finds_u16) fun _ =>
    FindsAt.cons (π := fun x : FundamentalOperationalData => x.parameter6) (fixed_u16) (finds_u16) fun _ =>
    FindsAt.ret ⟨⟨⟨⟨⟨⟨⟨⟨⟨⟨trivial, rfl⟩, rfl⟩, rfl⟩, rfl⟩, rfl⟩, rfl⟩, rfl⟩, rfl⟩, rfl⟩, rfl⟩
theorem FundamentalOperationalData.agree {x y : FundamentalOperationalData} (h : Agree FundamentalOperationalData.slots x y) : x = y := by
  have h0 := h
  have e0 : x.system_status = y.system_status := agree_u8 (Agree.left h0)
  have h1 := Agree.right h0
  have e1 : x.data_field1 = y.data_field1 := agree_u8 (Agree.left h1)
  have h2 := Agree.right h1
  have e2 : x.information_layers = y.information_layers := agree_u8 (Agree.left h2)
  have h3 := Agree.right h2
  have e3 : x.data_field2 = y.data_field2 := agree_u8 (Agree.left h3)
  have h4 := Agree.right h3
  have e4 : x.parameter1 = y.parameter1 := agree_u16 (Agree.left h4)
  have h5 := Agree.right h4
  have e5 : x.parameter2 = y.parameter2 := agree_u16 (Agree.left h5)
  have h6 := Agree.right h5
  have e6 : x.parameter3 = y.parameter3 := agree_u16 (Agree.left h6)
  have h7 := Agree.right h6
  have e7 : x.parameter4 = y.parameter4 := agree_u16 (Agree.left h7)
  have h8 := Agree.right h7
  have e8 : x.parameter5 = y.parameter5 := agree_u16 (Agree.left h8)
  have h9 := Agree.right h8
  have e9 : x.parameter6 = y.parameter6 := agree_u16 (Agree.left h9)
  cases x; cases y
  dsimp only at e0 e1 e2 e3 e4 e5 e6 e7 e8 e9
  subst e0 e1 e2 e3 e4 e5 e6 e7 e8 e9
  rfl

def IFFFundamentalParameterData.slots : List (Slot IFFFundamentalParameterData) :=
  Slot.cons (·.erp) [Slot.f32 0 id] 4 <|
  Slot.cons (·.frequency) [Slot.f32 0 id] 4 <|
  Slot.cons (·.pgrf) [Slot.f32 0 id] 4 <|
  Slot.cons (·.pulse_width) [Slot.f32 0 id] 4 <|
  Slot.cons (·.burst_length) [Slot.u32 0 id] 4 <|
  Slot.cons (·.applicable_modes) [Slot.u8 0 id] 1 <|
  Slot.cons (·.system_specific_data) [Slot.octets 0 3 id] 3 <|
  []
theorem IFFFundamentalParameterData.written (x : IFFFundamentalParameterData) : Written IFFFundamentalParameterData.slots x (wire (sent x)) :=
    Written.cons (written_f32 x.erp) (octets_length _ _) <|
    Written.cons (written_f32 x.frequency) (octets_length _ _) <|
    Written.cons (written_f32 x.pgrf) (octets_length _ _) <|
    Written.cons (written_f32 x.pulse_width) (octets_length _ _) <|
    Written.cons (written_u32 x.burst_length) (octets_length _ _) <|
    Written.cons (written_u8 x.applicable_modes) (octets_length _ _) <|
    Written.last (written_octets x.system_specific_data)
theorem IFFFundamentalParameterData.finds : Finds IFFFundamentalParameterData.deserialize (ReadFrom IFFFundamentalParameterData.slots) := FindsAt.finds <|
    FindsAt.cons (π := fun x : IFFFundamentalParameterData => x.erp) (fixed_f32) (finds_f32) fun _ =>
    FindsAt.cons (π := fun x : IFFFundamentalParameterData => x.frequency) (fixed_f32) (finds_f32) fun _ =>
    FindsAt.cons (π := fun x : IFFFundamentalParameterData => x.pgrf) (fixed_f32) (finds_f32) fun _ =>
    FindsAt.cons (π := fun x : IFFFundamentalParameterData => x.pulse_width) (fixed_f32) (finds_f32) fun _ =>
    FindsAt.cons (π := fun x : IFFFundamentalParameterData => x.burst_length) (fixed_u32) (finds_u32) fun _ =>
    FindsAt.cons (π := fun x : IFFFundamentalParameterData => x.applicable_modes) (fixed_u8) (finds_u8) fun _ =>
    FindsAt.cons (π := fun x : IFFFundamentalParameterData => x.system_specific_data) (Fixed.arr fixed_u8 3) (finds_octets _) fun _ =>
    FindsAt.ret ⟨⟨⟨⟨⟨⟨⟨trivial, rfl⟩, rfl⟩, rfl⟩, rfl⟩, rfl⟩, rfl⟩, rfl⟩
theorem IFFFundamentalParameterData.agree {x y : IFFFundamentalParameterData} (h : Agree IFFFundamentalParameterData.slots x y) : x = y := by
  have h0 := h
  have e0 : x.erp = y.erp := agree_f32 (Agree.left h0)
  have h1 := Agree.right h0
  have e1 : x.frequency = y.frequency := agree_f32 (Agree.left h1)
  have h2 := Agree.right h1
  have e2 : x.pgrf = y.pgrf := agree_f32 (Agree.left h2)
  have h3 := Agree.right h2
  have e3 : x.pulse_width = y.pulse_width := agree_f32 (Agree.left h3)
  have h4 := Agree.right h3
  have e4 : x.burst_length = y.burst_length := agree_u32 (Agree.left h4)
  have h5 := Agree.right h4
  have e5 : x.applicable_modes = y.applicable_modes := agree_u8 (Agree.left h5)
  have h6 := Agree.right h5
  have e6 : x.system_specific_data = y.system_specific_data := agree_octets (Agree.left h6)
  cases x; cases y
  dsimp only at e0 e1 e2 e3 e4 e5 e6
  subst e0 e1 e2 e3 e4 e5 e6
  rfl

def IntercomCommunicationsParameters.slots : List (Slot IntercomCommunicationsParameters) :=
  Slot.cons (·.record_type) [Slot.u16 0 id] 2 <|
  Slot.cons (·.record_length) [Slot.u16 0 id] 2 <|
  Slot.cons (·.record_specific_field) [Slot.u32 0 id] 4 <|
  []
theorem IntercomCommunicationsParameters.written (x : IntercomCommunicationsParameters) : Written IntercomCommunicationsParameters.slots x (wire (sent x)) :=
    Written.cons (written_u16 x.record_type) (octets_length _ _) <|
    Written.cons (written_u16 x.record_length) (octets_length _ _) <|
    Written.last (written_u32 x.record_specific_field)
theorem IntercomCommunicationsParameters.finds : Finds IntercomCommunicationsParameters.deserialize (ReadFrom IntercomCommunicationsParameters.slots) := FindsAt.finds <|
    FindsAt.cons (π := fun x : IntercomCommunicationsParameters => x.record_type) (fixed_u16) (finds_u16) fun _ =>
    FindsAt.cons (π := fun x : IntercomCommunicationsParameters => x.record_length) (fixed_u16) (finds_u16) fun _ =>
    FindsAt.cons (π := fun x : IntercomCommunicationsParameters => x.record_specific_field) (fixed_u32) (finds_u32) fun _ =>
    FindsAt.ret ⟨⟨⟨trivial, rfl⟩, rfl⟩, rfl⟩
theorem IntercomCommunicationsParameters.agree {x y : IntercomCommunicationsParameters} (h : Agree IntercomCommunicationsParameters.slots x y) : x = y := by
  have h0 := h
  have e0 : x.record_type = y.record_type := agree_u16 (Agree.left h0)
  have h1 := Agree.right h0
  have e1 : x.record_length = y.record_length := agree_u16 (Agree.left h1)
  have h2 := Agree.right h1
  have e2 : x.record_specific_field = y.record_specific_field := agree_u32 (Agree.left h2)
  cases x; cases y
  dsimp only at e0 e1 e2
  subst e0 e1 e2
  rfl

def LayerHeader.slots : List (Slot LayerHeader) :=
  Slot.cons (·.layer_number) [Slot.u8 0 id] 1 <|
  Slot.cons (·.layer_specific_information) [Slot.u8 0 id] 1 <|
  Slot.cons (·.length) [Slot.u16 0 id] 2 <|
  []
theorem LayerHeader.written (x : LayerHeader) : Written LayerHeader.slots x (wire (sent x)) :=
    Written.cons (written_u8 x.layer_number) (octets_length _ _) <|
    Written.cons (written_u8 x.layer_specific_information) (octets_length _ _) <|
    Written.last (written_u16 x.length)
theorem LayerHeader.finds : Finds LayerHeader.deserialize (ReadFrom LayerHeader.slots) := FindsAt.finds <|
    FindsAt.cons (π := fun x : LayerHeader => x.layer_number) (fixed_u8) (finds_u8) fun _ =>
    FindsAt.cons (π := fun x : LayerHeader => x.layer_specific_information) (fixed_u8) (finds_u8) fun _ =>
    FindsAt.cons (π := fun x : LayerHeader => x.length) (fixed_u16) (finds_u16) fun _ =>
    FindsAt.ret ⟨⟨⟨trivial, rfl⟩, rfl⟩, rfl⟩
theorem LayerHeader.agree {x y : LayerHeader} (h : Agree LayerHeader.slots x y) : x = y := by
  have h0 := h
  have e0 : x.layer_number = y.layer_number := agree_u8 (Agree.left h0)
  have h1 := Agree.right h0
  have e1 : x.layer_specific_information = y.layer_specific_information := agree_u8 (Agree.left h1)
  have h2 := Agree.right h1
  have e2 : x.length = y.length := agree_u16 (Agree.left h2)
  cases x; cases y
  dsimp only at e0 e1 e2
  subst e0 e1 e2
  rfl

def WorldCoordinate.slots : List (Slot WorldCoordinate) :=
  Slot.cons (·.x) [Slot.f64 0 id] 8 <|
  Slot.cons (·.y) [Slot.f64 0 id] 8 <|
  Slot.cons (·.z) [Slot.f64 0 id] 8 <|
  []
theorem WorldCoordinate.written (x : WorldCoordinate) : Written WorldCoordinate.slots x (wire (sent x)) :=
    Written.cons (written_f64 x.x) (octets_length _ _) <|
    Written.cons (written_f64 x.y) (octets_length _ _) <|
    Written.last (written_f64 x.z)
theorem WorldCoordinate.finds : Finds WorldCoordinate.deserialize (ReadFrom WorldCoordinate.slots) := FindsAt.finds <|
    FindsAt.cons (π := fun x : WorldCoordinate => x.x) (fixed_f64) (finds_f64) fun _ =>
    FindsAt.cons (π := fun x : WorldCoordinate => x.y) (fixed_f64) (finds_f64) fun _ =>
    FindsAt.cons (π := fun x : WorldCoordinate => x.z) (fixed_f64) (finds_f64) fun _ =>
    FindsAt.ret ⟨⟨⟨trivial, rfl⟩, rfl⟩, rfl⟩
theorem WorldCoordinate.agree {x y : WorldCoordinate} (h : Agree WorldCoordinate.slots x y) : x = y := by
  have h0 := h
  have e0 : x.x = y.x := agree_f64 (Agree.left h0)
  have h1 := Agree.right h0
  have e1 : x.y = y.y := agree_f64 (Agree.left h1)
  have h2 := Agree.right h1
  have e2 : x.z = y.z := agree_f64 (Agree.left h2)
  cases x; cases y
  dsimp only at e0 e1 e2
  subst e0 e1 e2
  rfl

def LinearSegmentParameter.slots : List (Slot LinearSegmentParameter) :=
  Slot.cons (·.segment_number) [Slot.u8 0 id] 1 <|
  Slot.cons (·.segment_modification) [Slot.u8 0 id] 1 <|
  Slot.cons (·.general_segment_appearance) [Slot.u32 0 id] 4 <|
  Slot.cons (·.specific_segment_appearance) [Slot.u32 0 id] 4 <|
  Slot.cons (·.segment_location) WorldCoordinate.slots 24 <|
  Slot.cons (·.segment_orientation) EulerAngles.slots 12 <|
  Slot.cons (·.segment_length) [Slot.f32 0 id] 4 <|
  Slot.cons (·.segment_width) [Slot.f32 0 id] 4 <|
  Slot.cons (·.segment_height) [Slot.f32 0 id] 4 <|
  Slot.cons (·.segment_depth) [Slot.f32 0 id] 4 <|
  Slot.cons (·.padding) [Slot.u32 0 id] 4 <|
  []
theorem LinearSegmentParameter.written (x : LinearSegmentParameter) : Written LinearSegmentParameter.slots x (wire (sent x)) :=
    Written.cons (written_u8 x.segment_number) (octets_length _ _) <|
    Written.cons (written_u8 x.segment_modification) (octets_length _ _) <|
    Written.cons (written_u32 x.general_segment_appearance) (octets_length _ _) <|
    Written.cons (written_u32 x.specific_segment_appearance) (octets_length _ _) <|
    Written.cons (WorldCoordinate.written x.segment_location) (WorldCoordinate.wire_length _) <|
    Written.cons (EulerAngles.written x.segment_orientation) (EulerAngles.wire_length _) <|
    Written.cons (written_f32 x.segment_length) (octets_length _ _) <|
    Written.cons (written_f32 x.segment_width) (octets_length _ _) <|
    Written.cons (written_f32 x.segment_height) (octets_length _ _) <|
    Written.cons (written_f32 x.segment_depth) (octets_length _ _) <|
    Written.last (written_u32 x.padding)
theorem LinearSegmentParameter.finds : Finds LinearSegmentParameter.deserialize (ReadFrom LinearSegmentParameter.slots) := FindsAt.finds <|
    FindsAt.cons (π := fun x : LinearSegmentParameter => x.segment_number) (fixed_u8) (finds_u8) fun _ =>
    FindsAt.cons (π := fun x : LinearSegmentParameter => x.segment_modification) (fixed_u8) (finds_u8) fun _ =>
    FindsAt.cons (π := fun x : LinearSegmentParameter => x.general_segment_appearance) (fixed_u32) (finds_u32) fun _ =>
    FindsAt.cons (π := fun x : LinearSegmentParameter => x.specific_segment_appearance) (fixed_u32) (finds_u32) fun _ =>
    FindsAt.cons (π := fun x : LinearSegmentParameter => x.segment_location) (WorldCoordinate.fixed) (WorldCoordinate.finds) fun _ =>
    FindsAt.cons (π := fun x : LinearSegmentParameter => x.segment_orientation) (EulerAngles.fixed) (EulerAngles.finds) fun _ =>
    FindsAt.cons (π := fun x : LinearSegmentParameter => x.segment_length) (fixed_f32) (finds_f32) fun _ =>
    FindsAt.cons (π := fun x : LinearSegmentParameter => x.segment_width) (fixed_f32) (finds_f32) fun _ =>
    FindsAt.cons (π := fun x : LinearSegmentParameter => x.segment_height) (fixed_f32) (finds_f32) fun _ =>
    FindsAt.cons (π := fun x : LinearSegmentParameter => x.segment_depth) (fixed_f32) (finds_f32) fun _ =>
    FindsAt.cons (π := fun x : LinearSegmentParameter => x.padding) (fixed_u32) (finds_u32) fun _ =>
    FindsAt.ret ⟨⟨⟨⟨⟨⟨⟨⟨⟨⟨⟨trivial, rfl⟩, rfl⟩, rfl⟩, rfl⟩, rfl⟩, rfl⟩, rfl⟩, rfl⟩, rfl⟩, rfl⟩, rfl⟩
theorem LinearSegmentParameter.agree {x y : LinearSegmentParameter} (h : Agree LinearSegmentParameter.slots x y) : x = y := by
  have h0 := h
  have e0 : x.segment_number = y.segment_number := agree_u8 (Agree.left h0)
  have h1 := Agree.right h0
  have e1 : x.segment_modification = y.segment_modification := agree_u8 (Agree.left h1)
  have h2 := Agree.right h1
  have e2 : x.general_segment_appearance = y.general_segment_appearance := agree_u32 (Agree.left h2)
  have h3 := Agree.right h2
  have e3 : x.specific_segment_appearance = y.specific_segment_appearance := agree_u32 (Agree.left h3)
  have h4 := Agree.right h3
  have e4 : x.segment_location = y.segment_location := WorldCoordinate.agree (Agree.left h4)
  have h5 := Agree.right h4
  have e5 : x.segment_orientation = y.segment_orientation := EulerAngles.agree (Agree.left h5)
  have h6 := Agree.right h5
  have e6 : x.segment_length = y.segment_length := agree_f32 (Agree.left h6)
  have h7 := Agree.right h6
  have e7 : x.segment_width = y.segment_width := agree_f32 (Agree.left h7)
  have h8 := Agree.right h7
  have e8 : x.segment_height = y.segment_height := agree_f32 (Agree.left h8)
  have h9 := Agree.right h8
  have e9 : x.segment_depth = y.segment_depth := agree_f32 (Agree.left h9)
  have h10 := Agree.right h9
  have e10 : x.padding = y.padding := agree_u32 (Agree.left h10)
  cases x; cases y
  dsimp only at e0 e1 e2 e3 e4 e5 e6 e7 e8 e9 e10
  subst e0 e1 e2 e3 e4 e5 e6 e7 e8 e9 e10
  rfl

def LinearVelocity.slots : List (Slot LinearVelocity) :=
  Slot.cons (·.first_vector_component) [Slot.f32 0 id] 4 <|
  Slot.cons (·.second_vector_component) [Slot.f32 0 id] 4 <|
  Slot.cons (·.third_vector_component) [Slot.f32 0 id] 4 <|
  []
theorem LinearVelocity.written (x : LinearVelocity) : Written LinearVelocity.slots x (wire (sent x)) :=
    Written.cons (written_f32 x.first_vector_component) (octets_length _ _) <|
    Written.cons (written_f32 x.second_vector_component) (octets_length _ _) <|
    Written.last (written_f32 x.third_vector_component)
theorem LinearVelocity.finds : Finds LinearVelocity.deserialize (ReadFrom LinearVelocity.slots) := FindsAt.finds <|
    FindsAt.cons (π := fun x : LinearVelocity => x.first_vector_component) (fixed_f32) (finds_f32) fun _ =>
    FindsAt.cons (π := fun x : LinearVelocity => x.second_vector_component) (fixed_f32) (finds_f32) fun _ =>
    FindsAt.cons (π := fun x : LinearVelocity => x.third_vector_component) (fixed_f32) (finds_f32) fun _ =>
    FindsAt.ret ⟨⟨⟨trivial, rfl⟩, rfl⟩, rfl⟩
theorem LinearVelocity.agree {x y : LinearVelocity} (h : Agree LinearVelocity.slots x y) : x = y := by
  have h0 := h
  have e0 : x.first_vector_component = y.first_vector_component := agree_f32 (Agree.left h0)
  have h1 := Agree.right h0
  have e1 : x.second_vector_component = y.second_vector_component := agree_f32 (Agree.left h1)
  have h2 := Agree.right h1
  have e2 : x.third_vector_component = y.third_vector_component := agree_f32 (Agree.left h2)
  cases x; cases y
  dsimp only at e0 e1 e2
  subst e0 e1 e2
  rfl

def MinefieldIdentifier.slots : List (Slot MinefieldIdentifier) :=
  Slot.cons (·.simulation_address) SimulationAddress.slots 4 <|
  Slot.cons (·.minefield_number) [Slot.u16 0 id] 2 <|
  []
theorem MinefieldIdentifier.written (x : MinefieldIdentifier) : Written MinefieldIdentifier.slots x (wire (sent x)) :=
    Written.cons (SimulationAddress.written x.simulation_address) (SimulationAddress.wire_length _) <|
    Written.last (written_u16 x.minefield_number)
theorem MinefieldIdentifier.finds : Finds MinefieldIdentifier.deserialize (ReadFrom MinefieldIdentifier.slots) := FindsAt.finds <|
    FindsAt.cons (π := fun x : MinefieldIdentifier => x.simulation_address) (SimulationAddress.fixed) (SimulationAddress.finds) fun _ =>
    FindsAt.cons (π := fun x : MinefieldIdentifier => x.minefield_number) (fixed_u16) (finds_u16) fun _ =>
    FindsAt.ret ⟨⟨trivial, rfl⟩, rfl⟩
theorem MinefieldIdentifier.agree {x y : MinefieldIdentifier} (h : Agree MinefieldIdentifier.slots x y) : x = y := by
  have h0 := h
  have e0 : x.simulation_address = y.simulation_address := SimulationAddress.agree (Agree.left h0)
  have h1 := Agree.right h0
  have e1 : x.minefield_number = y.minefield_number := agree_u16 (Agree.left h1)
  cases x; cases y
  dsimp only at e0 e1
  subst e0 e1
  rfl

def ModulationType.slots : List (Slot ModulationType) :=
  Slot.cons (·.spread_spectrum) [Slot.u16 0 id] 2 <|
  Slot.cons (·.major) [Slot.u16 0 id] 2 <|
  Slot.cons (·.detail) [Slot.u16 0 id] 2 <|
  Slot.cons (·.system) [Slot.u16 0 id] 2 <|
  []
theorem ModulationType.written (x : ModulationType) : Written ModulationType.slots x (wire (sent x)) :=
    Written.cons (written_u16 x.spread_spectrum) (octets_length _ _) <|
    Written.cons (written_u16 x.major) (octets_length _ _) <|
    Written.cons (written_u16 x.detail) (octets_length _ _) <|
    Written.last (written_u16 x.system)
theorem ModulationType.finds : Finds ModulationType.deserialize (ReadFrom ModulationType.slots) := FindsAt.finds <|
    FindsAt.cons (π := fun x : ModulationType => x.spread_spectrum) (fixed_u16) (finds_u16) fun _ =>
    FindsAt.cons (π := fun x : ModulationType => x.major) (fixed_u16) (finds_u16) fun _ =>
    FindsAt.cons (π := fun x : ModulationType => x.detail) (fixed_u16) (finds_u16) fun _ =>
    FindsAt.cons (π := fun x : ModulationType => x.system) (fixed_u16) (finds_u16) fun _ =>
    FindsAt.ret ⟨⟨⟨⟨trivial, rfl⟩, rfl⟩, rfl⟩, rfl⟩
theorem ModulationType.agree {x y : ModulationType} (h : Agree ModulationType.slots x y) : x = y := by
  have h0 := h
  have e0 : x.spread_spectrum = y.spread_spectrum := agree_u16 (Agree.left h0)
  have h1 := Agree.right h0
  have e1 : x.major = y.major := agree_u16 (Agree.left h1)
  have h2 := Agree.right h1
  have e2 : x.detail = y.detail := agree_u16 (Agree.left h2)
  have h3 := Agree.right h2
  have e3 : x.system = y.system := agree_u16 (Agree.left h3)
  cases x; cases y
  dsimp only at e0 e1 e2 e3
  subst e0 e1 e2 e3
  rfl

def MunitionDescriptor.slots : List (Slot MunitionDescriptor) :=
  Slot.cons (·.munition_type) EntityType.slots 8 <|
  Slot.cons (·.warhead) [Slot.u16 0 id] 2 <|
  Slot.cons (·.fuse) [Slot.u16 0 id] 2 <|
  Slot.cons (·.quantity) [Slot.u16 0 id] 2 <|
  Slot.cons (·.rate) [Slot.u16 0 id] 2 <|
  []
theorem MunitionDescriptor.written (x : MunitionDescriptor) : Written MunitionDescriptor.slots x (wire (sent x)) :=
    Written.cons (EntityType.written x.munition_type) (EntityType.wire_length _) <|
    Written.cons (written_u16 x.warhead) (octets_length _ _) <|
    Written.cons (written_u16 x.fuse) (octets_length _ _) <|
    Written.cons (written_u16 x.quantity) (octets_length _ _) <|
    Written.last (written_u16 x.rate)
theorem MunitionDescriptor.finds : Finds MunitionDescriptor.deserialize (ReadFrom MunitionDescriptor.slots) := FindsAt.finds <|
    FindsAt.cons (π := fun x : MunitionDescriptor => x.munition_type) (EntityType.fixed) (EntityType.finds) fun _ =>
    FindsAt.cons (π := fun x : MunitionDescriptor => x.warhead) (fixed_u16) (finds_u16) fun _ =>
    FindsAt.cons (π := fun x : MunitionDescriptor => x.fuse) (fixed_u16) (finds_u16) fun _ =>
    FindsAt.cons (π := fun x : MunitionDescriptor => x.quantity) (fixed_u16) (finds_u16) fun _ =>
    FindsAt.cons (π := fun x : MunitionDescriptor => x.rate) (fixed_u16) (finds_u16) fun _ =>
    FindsAt.ret ⟨⟨⟨⟨⟨trivial, rfl⟩, rfl⟩, rfl⟩, rfl⟩, rfl⟩
theorem MunitionDescriptor.agree {x y : MunitionDescriptor} (h : Agree MunitionDescriptor.slots x y) : x = y := by
  have h0 := h
  have e0 : x.munition_type = y.munition_type := EntityType.agree (Agree.left h0)
  have h1 := Agree.right h0
  have e1 : x.warhead = y.warhead := agree_u16 (Agree.left h1)
  have h2 := Agree.right h1
  have e2 : x.fuse = y.fuse := agree_u16 (Agree.left h2)
  have h3 := Agree.right h2
  have e3 : x.quantity = y.quantity := agree_u16 (Agree.left h3)
  have h4 := Agree.right h3
  have e4 : x.rate = y.rate := agree_u16 (Agree.left h4)
  cases x; cases y
  dsimp only at e0 e1 e2 e3 e4
  subst e0 e1 e2 e3 e4
  rfl

def NamedLocation.slots : List (Slot NamedLocation) :=
  Slot.cons (·.station_name) [Slot.u16 0 id] 2 <|
  Slot.cons (·.station_number) [Slot.u16 0 id] 2 <|
  []
theorem NamedLocation.written (x : NamedLocation) : Written NamedLocation.slots x (wire (sent x)) :=
    Written.cons (written_u16 x.station_name) (octets_length _ _) <|
    Written.last (written_u16 x.station_number)
theorem NamedLocation.finds : Finds NamedLocation.deserialize (ReadFrom NamedLocation.slots) := FindsAt.finds <|
    FindsAt.cons (π := fun x : NamedLocation => x.station_name) (fixed_u16) (finds_u16) fun _ =>
    FindsAt.cons (π := fun x : NamedLocation => x.station_number) (fixed_u16) (finds_u16) fun _ =>
    FindsAt.ret ⟨⟨trivial, rfl⟩, rfl⟩
theorem NamedLocation.agree {x y : NamedLocation} (h : Agree NamedLocation.slots x y) : x = y := by
  have h0 := h
  have e0 : x.station_name = y.station_name := agree_u16 (Agree.left h0)
  have h1 := Agree.right h0
  have e1 : x.station_number = y.station_number := agree_u16 (Agree.left h1)
  cases x; cases y
  dsimp only at e0 e1
  subst e0 e1
  rfl

def ObjectIdentifier.slots : List (Slot ObjectIdentifier) :=
  Slot.cons (·.simulation_address) SimulationAddress.slots 4 <|
  Slot.cons (·.object_number) [Slot.u16 0 id] 2 <|
  []
theorem ObjectIdentifier.written (x : ObjectIdentifier) : Written ObjectIdentifier.slots x (wire (sent x)) :=
    Written.cons (SimulationAddress.written x.simulation_address) (SimulationAddress.wire_length _) <|
    Written.last (written_u16 x.object_number)
theorem ObjectIdentifier.finds : Finds ObjectIdentifier.deserialize (ReadFrom ObjectIdentifier.slots) := FindsAt.finds <|
    FindsAt.cons (π := fun x : ObjectIdentifier => x.simulation_address) (SimulationAddress.fixed) (SimulationAddress.finds) fun _ =>
    FindsAt.cons (π := fun x : ObjectIdentifier => x.object_number) (fixed_u16) (finds_u16) fun _ =>
    FindsAt.ret ⟨⟨trivial, rfl⟩, rfl⟩
theorem ObjectIdentifier.agree {x y : ObjectIdentifier} (h : Agree ObjectIdentifier.slots x y) : x = y := by
  have h0 := h
  have e0 : x.simulation_address = y.simulation_address := SimulationAddress.agree (Agree.left h0)
  have h1 := Agree.right h0
  have e1 : x.object_number = y.object_number := agree_u16 (Agree.left h1)
  cases x; cases y
  dsimp only at e0 e1
  subst e0 e1
  rfl

def ObjectType.slots : List (Slot ObjectType) :=
  Slot.cons (·.domain) [Slot.u8 0 id] 1 <|
  Slot.cons (·.object_kind) [Slot.u8 0 id] 1 <|
  Slot.cons (·.category) [Slot.u8 0 id] 1 <|
  Slot.cons (·.subcategory) [Slot.u8 0 id] 1 <|
  []
theorem ObjectType.written (x : ObjectType) : Written ObjectType.slots x (wire (sent x)) :=
    Written.cons (written_u8 x.domain) (octets_length _ _) <|
    Written.cons (written_u8 x.object_kind) (octets_length _ _) <|
    Written.cons (written_u8 x.category) (octets_length _ _) <|
    Written.last (written_u8 x.subcategory)
theorem ObjectType.finds : Finds ObjectType.deserialize (ReadFrom ObjectType.slots) := FindsAt.finds <|
    FindsAt.cons (π := fun x : ObjectType => x.domain) (fixed_u8) (finds_u8) fun _ =>
    FindsAt.cons (π := fun x : ObjectType => x.object_kind) (fixed_u8) (finds_u8) fun _ =>
    FindsAt.cons (π := fun x : ObjectType => x.category) (fixed_u8) (finds_u8) fun _ =>
    FindsAt.cons (π := fun x : ObjectType => x.subcategory) (fixed_u8) (finds_u8) fun _ =>
    FindsAt.ret ⟨⟨⟨⟨trivial, rfl⟩, rfl⟩, rfl⟩, rfl⟩
theorem ObjectType.agree {x y : ObjectType} (h : Agree ObjectType.slots x y) : x = y := by
  have h0 := h
  have e0 : x.domain = y.domain := agree_u8 (Agree.left h0)
  have h1 := Agree.right h0
  have e1 : x.object_kind = y.object_kind := agree_u8 (Agree.left h1)
  have h2 := Agree.right h1
  have e2 : x.category = y.category := agree_u8 (Agree.left h2)
  have h3 := Agree.right h2
  have e3 : x.subcategory = y.subcategory := agree_u8 (Agree.left h3)
  cases x; cases y
  dsimp only at e0 e1 e2 e3
  subst e0 e1 e2 e3
  rfl

def Point.slots : List (Slot Point) :=
  Slot.cons (·.x) [Slot.f32 0 id] 4 <|
  Slot.cons (·.y) [Slot.f32 0 id] 4 <|
  []
theorem Point.written (x : Point) : Written Point.slots x (wire (sent x)) :=
    Written.cons (written_f32 x.x) (octets_length _ _) <|
    Written.last (written_f32 x.y)
theorem Point.finds : Finds Point.deserialize (ReadFrom Point.slots) := FindsAt.finds <|
    FindsAt.cons (π := fun x : Point => x.x) (fixed_f32) (finds_f32) fun _ =>
    FindsAt.cons (π := fun x : Point => x.y) (fixed_f32) (finds_f32) fun _ =>
    FindsAt.ret ⟨⟨trivial, rfl⟩, rfl⟩
theorem Point.agree {x y : Point} (h : Agree Point.slots x y) : x = y := by
  have h0 := h
  have e0 : x.x = y.x := agree_f32 (Agree.left h0)
  have h1 := Agree.right h0
  have e1 : x.y = y.y := agree_f32 (Agree.left h1)
  cases x; cases y
  dsimp only at e0 e1
  subst e0 e1
  rfl

def PropulsionSystemData.slots : List (Slot PropulsionSystemData) :=
  Slot.cons (·.power_setting) [Slot.f32 0 id] 4 <|
  Slot.cons (·.engine_rpm) [Slot.f32 0 id] 4 <|
  []
theorem PropulsionSystemData.written (x : PropulsionSystemData) : Written PropulsionSystemData.slots x (wire (sent x)) :=
    Written.cons (written_f32 x.power_setting) (octets_length _ _) <|
    Written.last (written_f32 x.engine_rpm)
theorem PropulsionSystemData.finds : Finds PropulsionSystemData.deserialize (ReadFrom PropulsionSystemData.slots) := FindsAt.finds <|
    FindsAt.cons (π := fun x : PropulsionSystemData => x.power_setting) (fixed_f32) (finds_f32) fun _ =>
    FindsAt.cons (π := fun x : PropulsionSystemData => x.engine_rpm) (fixed_f32) (finds_f32) fun _ =>
    FindsAt.ret ⟨⟨trivial, rfl⟩, rfl⟩
theorem PropulsionSystemData.agree {x y : PropulsionSystemData} (h : Agree PropulsionSystemData.slots x y) : x = y := by
  have h0 := h
  have e0 : x.power_setting = y.power_setting := agree_f32 (Agree.left h0)
  have h1 := Agree.right h0
  have e1 : x.engine_rpm = y.engine_rpm := agree_f32 (Agree.left h1)
  cases x; cases y
  dsimp only at e0 e1
  subst e0 e1
  rfl

def RadioEntityType.slots : List (Slot RadioEntityType) :=
  Slot.cons (·.entity_kind) [Slot.u8 0 id] 1 <|
  Slot.cons (·.domain) [Slot.u8 0 id] 1 <|
  Slot.cons (·.country) [Slot.u16 0 id] 2 <|
  Slot.cons (·.category) [Slot.u8 0 id] 1 <|
  Slot.cons (·.nomenclature_version) [Slot.u8 0 id] 1 <|
  Slot.cons (·.nomenclature) [Slot.u16 0 id] 2 <|
  []
theorem RadioEntityType.written (x : RadioEntityType) : Written RadioEntityType.slots x (wire (sent x)) :=
    Written.cons (written_u8 x.entity_kind) (octets_length _ _) <|
    Written.cons (written_u8 x.domain) (octets_length _ _) <|
    Written.cons (written_u16 x.country) (octets_length _ _) <|
    Written.cons (written_u8 x.category) (octets_length _ _) <|
    Written.cons (written_u8 x.nomenclature_version) (octets_length _ _) <|
    Written.last (written_u16 x.nomenclature)
theorem RadioEntityType.finds : Finds RadioEntityType.deserialize (ReadFrom RadioEntityType.slots) := FindsAt.finds <|
    FindsAt.cons (π := fun x : RadioEntityType => x.entity_kind) (fixed_u8) (finds_u8) fun _ =>
    FindsAt.cons (π := fun x : RadioEntityType => x.domain) (fixed_u8) (finds_u8) fun _ =>
    FindsAt.cons (π := fun x : RadioEntityType => x.country) (fixed_u16) (finds_u16) fun _ =>
    FindsAt.cons (π := fun x : RadioEntityType => x.category) (fixed_u8) (finds_u8) fun _ =>
    FindsAt.cons (π := fun x : RadioEntityType => x.nomenclature_version) (fixed_u8) (finds_u8) fun _ =>
    FindsAt.cons (π := fun x : RadioEntityType => x.nomenclature) (fixed_u16) (finds_u16) fun _ =>
    FindsAt.ret ⟨⟨⟨⟨⟨⟨trivial, rfl⟩, rfl⟩, rfl⟩, rfl⟩, rfl⟩, rfl⟩
theorem RadioEntityType.agree {x y : RadioEntityType} (h : Agree RadioEntityType.slots x y) : x = y := by
  have h0 := h
  have e0 : x.entity_kind = y.entity_kind := agree_u8 (Agree.left h0)
  have h1 := Agree.right h0
  have e1 : x.domain = y.domain := agree_u8 (Agree.left h1)
  have h2 := Agree.right h1
  have e2 : x.country = y.country := agree_u16 (Agree.left h2)
  have h3 := Agree.right h2
  have e3 : x.category = y.category := agree_u8 (Agree.left h3)
  have h4 := Agree.right h3
  have e4 : x.nomenclature_version = y.nomenclature_version := agree_u8 (Agree.left h4)
  have h5 := Agree.right h4
  have e5 : x.nomenclature = y.nomenclature := agree_u16 (Agree.left h5)
  cases x; cases y
  dsimp only at e0 e1 e2 e3 e4 e5
  subst e0 e1 e2 e3 e4 e5
  rfl

def RecordSpecification.slots : List (Slot RecordSpecification) :=
  Slot.cons (·.number_of_record_sets) [Slot.u32 0 id] 4 <|
  []
theorem RecordSpecification.written (x : RecordSpecification) : Written RecordSpecification.slots x (wire (sent x)) :=
    Written.cons (written_u32 x.number_of_record_sets) (octets_length _ _) <|
    Written.nil _ _
theorem RecordSpecification.finds : Finds RecordSpecification.deserialize (ReadFrom RecordSpecification.slots) := FindsAt.finds <|
    FindsAt.cons (π := fun x : RecordSpecification => x.number_of_record_sets) (fixed_u32) (finds_u32) fun _ =>
    FindsAt.skip fun _ =>
    FindsAt.ret ⟨trivial, rfl⟩

def Relationship.slots : List (Slot Relationship) :=
  Slot.cons (·.nature) [Slot.u16 0 id] 2 <|
  Slot.cons (·.position) [Slot.u16 0 id] 2 <|
  []
theorem Relationship.written (x : Relationship) : Written Relationship.slots x (wire (sent x)) :=
    Written.cons (written_u16 x.nature) (octets_length _ _) <|
    Written.last (written_u16 x.position)
theorem Relationship.finds : Finds Relationship.deserialize (ReadFrom Relationship.slots) := FindsAt.finds <|
    FindsAt.cons (π := fun x : Relationship => x.nature) (fixed_u16) (finds_u16) fun _ =>
    FindsAt.cons (π := fun x : Relationship => x.position) (fixed_u16) (finds_u16) fun _ =>
    FindsAt.ret ⟨⟨trivial, rfl⟩, rfl⟩
theorem Relationship.agree {x y : Relationship} (h : Agree Relationship.slots x y) : x = y := by
  have h0 := h
  have e0 : x.nature = y.nature := agree_u16 (Agree.left h0)
  have h1 := Agree.right h0
  have e1 : x.position = y.position := agree_u16 (Agree.left h1)
  cases x; cases y
  dsimp only at e0 e1
  subst e0 e1
  rfl

def SecondaryOperationalData.slots : List (Slot SecondaryOperationalData) :=
  Slot.cons (·.operational_data1) [Slot.u8 0 id] 1 <|
  Slot.cons (·.operational_data2) [Slot.u8 0 id] 1 <|
  Slot.cons (·.number_of_iff_fundamental_parameter_records) [Slot.u16 0 id] 2 <|
  []
theorem SecondaryOperationalData.written (x : SecondaryOperationalData) : Written SecondaryOperationalData.slots x (wire (sent x)) :=
    Written.cons (written_u8 x.operational_data1) (octets_length _ _) <|
    Written.cons (written_u8 x.operational_data2) (octets_length _ _) <|
    Written.last (written_u16 x.number_of_iff_fundamental_parameter_records)
theorem SecondaryOperationalData.finds : Finds SecondaryOperationalData.deserialize (ReadFrom SecondaryOperationalData.slots) := FindsAt.finds <|
    FindsAt.cons (π := fun x : SecondaryOperationalData => x.operational_data1) (fixed_u8) (finds_u8) fun _ =>
    FindsAt.cons (π := fun x : SecondaryOperationalData => x.operational_data2) (fixed_u8) (finds_u8) fun _ =>
    FindsAt.cons (π := fun x : SecondaryOperationalData => x.number_of_iff_fundamental_parameter_records) (fixed_u16) (finds_u16) fun _ =>
    FindsAt.ret ⟨⟨⟨trivial, rfl⟩, rfl⟩, rfl⟩
theorem SecondaryOperationalData.agree {x y : SecondaryOperationalData} (h : Agree SecondaryOperationalData.slots x y) : x = y := by
  have h0 := h
  have e0 : x.operational_data1 = y.operational_data1 := agree_u8 (Agree.left h0)
  have h1 := Agree.right h0
  have e1 : x.operational_data2 = y.operational_data2 := agree_u8 (Agree.left h1)
  have h2 := Agree.right h1
  have e2 : x.number_of_iff_fundamental_parameter_records = y.number_of_iff_fundamental_parameter_records := agree_u16 (Agree.left h2)
  cases x; cases y
  dsimp only at e0 e1 e2
  subst e0 e1 e2
  rfl

def ShaftRPMs.slots : List (Slot ShaftRPMs) :=
  Slot.cons (·.current_shaft_rpms) [Slot.i16 0 id] 2 <|
  Slot.cons (·.ordered_shaft_rpms) [Slot.i16 0 id] 2 <|
  Slot.cons (·.shaft_rpm_rate_of_change) [Slot.i32 0 id] 4 <|
  []
theorem ShaftRPMs.written (x : ShaftRPMs) : Written ShaftRPMs.slots x (wire (sent x)) :=
    Written.cons (written_i16 x.current_shaft_rpms) (octets_length _ _) <|
    Written.cons (written_i16 x.ordered_shaft_rpms) (octets_length _ _) <|
    Written.last (written_i32 x.shaft_rpm_rate_of_change)
theorem ShaftRPMs.finds : Finds ShaftRPMs.deserialize (ReadFrom ShaftRPMs.slots) := FindsAt.finds <|
    FindsAt.cons (π := fun x : ShaftRPMs => x.current_shaft_rpms) (fixed_i16) (finds_i16) fun _ =>
    FindsAt.cons (π := fun x : ShaftRPMs => x.ordered_shaft_rpms) (fixed_i16) (finds_i16) fun _ =>
    FindsAt.cons (π := fun x : ShaftRPMs => x.shaft_rpm_rate_of_change) (fixed_i32) (finds_i32) fun _ =>
    FindsAt.ret ⟨⟨⟨trivial, rfl⟩, rfl⟩, rfl⟩
theorem ShaftRPMs.agree {x y : ShaftRPMs} (h : Agree ShaftRPMs.slots x y) : x = y := by
  have h0 := h
  have e0 : x.current_shaft_rpms = y.current_shaft_rpms := agree_i16 (Agree.left h0)
  have h1 := Agree.right h0
  have e1 : x.ordered_shaft_rpms = y.ordered_shaft_rpms := agree_i16 (Agree.left h1)
  have h2 := Agree.right h1
  have e2 : x.shaft_rpm_rate_of_change = y.shaft_rpm_rate_of_change := agree_i32 (Agree.left h2)
  cases x; cases y
  dsimp only at e0 e1 e2
  subst e0 e1 e2
  rfl

def SimulationIdentifier.slots : List (Slot SimulationIdentifier) :=
  Slot.cons (·.simulation_address) SimulationAddress.slots 4 <|
  Slot.cons (·.reference_number) [(Slot.u16 0 id).zeroed] 2 <|
  []
theorem SimulationIdentifier.written (x : SimulationIdentifier) : Written SimulationIdentifier.slots x (wire (sent x)) :=
    Written.cons (SimulationAddress.written x.simulation_address) (SimulationAddress.wire_length _) <|
    Written.last (written_zeroed_u16 x.reference_number)
theorem SimulationIdentifier.finds : Finds SimulationIdentifier.deserialize (ReadFrom SimulationIdentifier.slots) := FindsAt.finds <|
    FindsAt.cons (π := fun x : SimulationIdentifier => x.simulation_address) (SimulationAddress.fixed) (SimulationAddress.finds) fun _ =>
    FindsAt.cons (π := fun x : SimulationIdentifier => x.reference_number) (fixed_u16) (Finds.zeroed (finds_u16)) fun _ =>
    FindsAt.ret ⟨⟨trivial, rfl⟩, rfl⟩
theorem SimulationIdentifier.agree {x y : SimulationIdentifier} (h : Agree SimulationIdentifier.slots x y) : x = y := by
  have h0 := h
  have e0 : x.simulation_address = y.simulation_address := SimulationAddress.agree (Agree.left h0)
  have h1 := Agree.right h0
  have e1 : x.reference_number = y.reference_number := agree_u16 (agree_zeroed (Agree.left h1))
  cases x; cases y
  dsimp only at e0 e1
  subst e0 e1
  rfl

def StandardVariableRecords.slots : List (Slot StandardVariableRecords) :=
  Slot.cons (·.record_type) [Slot.u32 0 id] 4 <|
  Slot.cons (·.record_length) [Slot.u16 0 id] 2 <|
  []
theorem StandardVariableRecords.written (x : StandardVariableRecords) : Written StandardVariableRecords.slots x (wire (sent x)) :=
    Written.cons (written_u32 x.record_type) (octets_length _ _) <|
    Written.cons (written_u16 x.record_length) (octets_length _ _) <|
    Written.nil _ _
theorem StandardVariableRecords.finds : Finds StandardVariableRecords.deserialize (ReadFrom StandardVariableRecords.slots) := FindsAt.finds <|
    FindsAt.cons (π := fun x : StandardVariableRecords => x.record_type) (fixed_u32) (finds_u32) fun _ =>
    FindsAt.cons (π := fun x : StandardVariableRecords => x.record_length) (fixed_u16) (finds_u16) fun _ =>
    FindsAt.skip fun _ =>
    FindsAt.ret ⟨⟨trivial, rfl⟩, rfl⟩

def StandardVariableSpecification.slots : List (Slot StandardVariableSpecification) :=
  Slot.cons (·.number_of_standard_variable_records) [Slot.u16 0 id] 2 <|
  []
theorem StandardVariableSpecification.written (x : StandardVariableSpecification) : Written StandardVariableSpecification.slots x (wire (sent x)) :=
    Written.cons (written_u16 x.number_of_standard_variable_records) (octets_length _ _) <|
    Written.nil _ _
theorem StandardVariableSpecification.finds : Finds StandardVariableSpecification.deserialize (ReadFrom StandardVariableSpecification.slots) := FindsAt.finds <|
    FindsAt.cons (π := fun x : StandardVariableSpecification => x.number_of_standard_variable_records) (fixed_u16) (finds_u16) fun _ =>
    FindsAt.skip fun _ =>
    FindsAt.ret ⟨trivial, rfl⟩

def SupplyQuantity.slots : List (Slot SupplyQuantity) :=
  Slot.cons (·.supply_type) EntityType.slots 8 <|
  Slot.cons (·.quantity) [Slot.f32 0 id] 4 <|
  []
theorem SupplyQuantity.written (x : SupplyQuantity) : Written SupplyQuantity.slots x (wire (sent x)) :=
    Written.cons (EntityType.written x.supply_type) (EntityType.wire_length _) <|
    Written.last (written_f32 x.quantity)
theorem SupplyQuantity.finds : Finds SupplyQuantity.deserialize (ReadFrom SupplyQuantity.slots) := FindsAt.finds <|
    FindsAt.cons (π := fun x : SupplyQuantity => x.supply_type) (EntityType.fixed) (EntityType.finds) fun _ =>
    FindsAt.cons (π := fun x : SupplyQuantity => x.quantity) (fixed_f32) (finds_f32) fun _ =>
    FindsAt.ret ⟨⟨trivial, rfl⟩, rfl⟩
theorem SupplyQuantity.agree {x y : SupplyQuantity} (h : Agree SupplyQuantity.slots x y) : x = y := by
  have h0 := h
  have e0 : x.supply_type = y.supply_type := EntityType.agree (Agree.left h0)
  have h1 := Agree.right h0
  have e1 : x.quantity = y.quantity := agree_f32 (Agree.left h1)
  cases x; cases y
  dsimp only at e0 e1
  subst e0 e1
  rfl

def SystemId.slots : List (Slot SystemId) :=
  Slot.cons (·.system_type) [Slot.u16 0 id] 2 <|
  Slot.cons (·.system_name) [Slot.u16 0 id] 2 <|
  Slot.cons (·.system_mode) [Slot.u8 0 id] 1 <|
  Slot.cons (·.change_options) [Slot.u8 0 id] 1 <|
  []
theorem SystemId.written (x : SystemId) : Written SystemId.slots x (wire (sent x)) :=
    Written.cons (written_u16 x.system_type) (octets_length _ _) <|
    Written.cons (written_u16 x.system_name) (octets_length _ _) <|
    Written.cons (written_u8 x.system_mode) (octets_length _ _) <|
    Written.last (written_u8 x.change_options)
theorem SystemId.finds : Finds SystemId.deserialize (ReadFrom SystemId.slots) := FindsAt.finds <|
    FindsAt.cons (π := fun x : SystemId => x.system_type) (fixed_u16) (finds_u16) fun _ =>
    FindsAt.cons (π := fun x : SystemId => x.system_name) (fixed_u16) (finds_u16) fun _ =>
    FindsAt.cons (π := fun x : SystemId => x.system_mode) (fixed_u8) (finds_u8) fun _ =>
    FindsAt.cons (π := fun x : SystemId => x.change_options) (fixed_u8) (finds_u8) fun _ =>
    FindsAt.ret ⟨⟨⟨⟨trivial, rfl⟩, rfl⟩, rfl⟩, rfl⟩
theorem SystemId.agree {x y : SystemId} (h : Agree SystemId.slots x y) : x = y := by
  have h0 := h
  have e0 : x.system_type = y.system_type := agree_u16 (Agree.left h0)
  have h1 := Agree.right h0
  have e1 : x.system_name = y.system_name := agree_u16 (Agree.left h1)
  have h2 := Agree.right h1
  have e2 : x.system_mode = y.system_mode := agree_u8 (Agree.left h2)
  have h3 := Agree.right h2
  have e3 : x.change_options = y.change_options := agree_u8 (Agree.left h3)
  cases x; cases y
  dsimp only at e0 e1 e2 e3
  subst e0 e1 e2 e3
  rfl

def VariableParameter.slots : List (Slot VariableParameter) :=
  Slot.cons (·.record_type) [Slot.u8 0 id] 1 <|
  Slot.cons (·.variable_parameter_field1) [Slot.f64 0 id] 8 <|
  Slot.cons (·.variable_parameter_field2) [Slot.u32 0 id] 4 <|
  Slot.cons (·.variable_parameter_field3) [Slot.u16 0 id] 2 <|
  Slot.cons (·.variable_parameter_field4) [Slot.u8 0 id] 1 <|
  []
theorem VariableParameter.written (x : VariableParameter) : Written VariableParameter.slots x (wire (sent x)) :=
    Written.cons (written_u8 x.record_type) (octets_length _ _) <|
    Written.cons (written_f64 x.variable_parameter_field1) (octets_length _ _) <|
    Written.cons (written_u32 x.variable_parameter_field2) (octets_length _ _) <|
    Written.cons (written_u16 x.variable_parameter_field3) (octets_length _ _) <|
    Written.last (written_u8 x.variable_parameter_field4)
theorem VariableParameter.finds : Finds VariableParameter.deserialize (ReadFrom VariableParameter.slots) := FindsAt.finds <|
    FindsAt.cons (π := fun x : VariableParameter => x.record_type) (fixed_u8) (finds_u8) fun _ =>
    FindsAt.cons (π := fun x : VariableParameter => x.variable_parameter_field1) (fixed_f64) (finds_f64) fun _ =>
    FindsAt.cons (π := fun x : VariableParameter => x.variable_parameter_field2) (fixed_u32) (finds_u32) fun _ =>
    FindsAt.cons (π := fun x : VariableParameter => x.variable_parameter_field3) (fixed_u16) (finds_u16) fun _ =>
    FindsAt.cons (π := fun x : VariableParameter => x.variable_parameter_field4) (fixed_u8) (finds_u8) fun _ =>
    FindsAt.ret ⟨⟨⟨⟨⟨trivial, rfl⟩, rfl⟩, rfl⟩, rfl⟩, rfl⟩
theorem VariableParameter.agree {x y : VariableParameter} (h : Agree VariableParameter.slots x y) : x = y := by
  have h0 := h
  have e0 : x.record_type = y.record_type := agree_u8 (Agree.left h0)
  have h1 := Agree.right h0
  have e1 : x.variable_parameter_field1 = y.variable_parameter_field1 := agree_f64 (Agree.left h1)
  have h2 := Agree.right h1
  have e2 : x.variable_parameter_field2 = y.variable_parameter_field2 := agree_u32 (Agree.left h2)
  have h3 := Agree.right h2
  have e3 : x.variable_parameter_field3 = y.variable_parameter_field3 := agree_u16 (Agree.left h3)
  have h4 := Agree.right h3
  have e4 : x.variable_parameter_field4 = y.variable_parameter_field4 := agree_u8 (Agree.left h4)
  cases x; cases y
  dsimp only at e0 e1 e2 e3 e4
  subst e0 e1 e2 e3 e4
  rfl

def Vector3Double.slots : List (Slot Vector3Double) :=
  Slot.cons (·.x) [Slot.f64 0 id] 8 <|
  Slot.cons (·.y) [Slot.f64 0 id] 8 <|
  Slot.cons (·.z) [Slot.f64 0 id] 8 <|
  []
theorem Vector3Double.written (x : Vector3Double) : Written Vector3Double.slots x (wire (sent x)) :=
    Written.cons (written_f64 x.x) (octets_length _ _) <|
    Written.cons (written_f64 x.y) (octets_length _ _) <|
    Written.last (written_f64 x.z)
theorem Vector3Double.finds : Finds Vector3Double.deserialize (ReadFrom Vector3Double.slots) := FindsAt.finds <|
    FindsAt.cons (π := fun x : Vector3Double => x.x) (fixed_f64) (finds_f64) fun _ =>
    FindsAt.cons (π := fun x : Vector3Double => x.y) (fixed_f64) (finds_f64) fun _ =>
    FindsAt.cons (π := fun x : Vector3Double => x.z) (fixed_f64) (finds_f64) fun _ =>
    FindsAt.ret ⟨⟨⟨trivial, rfl⟩, rfl⟩, rfl⟩
theorem Vector3Double.agree {x y : Vector3Double} (h : Agree Vector3Double.slots x y) : x = y := by
  have h0 := h
  have e0 : x.x = y.x := agree_f64 (Agree.left h0)
  have h1 := Agree.right h0
  have e1 : x.y = y.y := agree_f64 (Agree.left h1)
  have h2 := Agree.right h1
  have e2 : x.z = y.z := agree_f64 (Agree.left h2)
  cases x; cases y
  dsimp only at e0 e1 e2
  subst e0 e1 e2
  rfl

def VectoringNozzleSystemData.slots : List (Slot VectoringNozzleSystemData) :=
  Slot.cons (·.horizontal_deflection_angle) [Slot.f32 0 id] 4 <|
  Slot.cons (·.vertical_deflection_angle) [Slot.f32 0 id] 4 <|
  []
theorem VectoringNozzleSystemData.written (x : VectoringNozzleSystemData) : Written VectoringNozzleSystemData.slots x (wire (sent x)) :=
    Written.cons (written_f32 x.horizontal_deflection_angle) (octets_length _ _) <|
    Written.last (written_f32 x.vertical_deflection_angle)
theorem VectoringNozzleSystemData.finds : Finds VectoringNozzleSystemData.deserialize (ReadFrom VectoringNozzleSystemData.slots) := FindsAt.finds <|
    FindsAt.cons (π := fun x : VectoringNozzleSystemData => x.horizontal_deflection_angle) (fixed_f32) (finds_f32) fun _ =>
    FindsAt.cons (π := fun x : VectoringNozzleSystemData => x.vertical_deflection_angle) (fixed_f32) (finds_f32) fun _ =>
    FindsAt.ret ⟨⟨trivial, rfl⟩, rfl⟩
theorem VectoringNozzleSystemData.agree {x y : VectoringNozzleSystemData} (h : Agree VectoringNozzleSystemData.slots x y) : x = y := by
  have h0 := h
  have e0 : x.horizontal_deflection_angle = y.horizontal_deflection_angle := agree_f32 (Agree.left h0)
  have h1 := Agree.right h0
  have e1 : x.vertical_deflection_angle = y.vertical_deflection_angle := agree_f32 (Agree.left h1)
  cases x; cases y
  dsimp only at e0 e1
  subst e0 e1
  rfl

def VelocityVector.slots : List (Slot VelocityVector) :=
  Slot.cons (·.first_vector_component) [Slot.f32 0 id] 4 <|
  Slot.cons (·.second_vector_component) [Slot.f32 0 id] 4 <|
  Slot.cons (·.third_vector_component) [Slot.f32 0 id] 4 <|
  []
theorem VelocityVector.written (x : VelocityVector) : Written VelocityVector.slots x (wire (sent x)) :=
    Written.cons (written_f32 x.first_vector_component) (octets_length _ _) <|
    Written.cons (written_f32 x.second_vector_component) (octets_length _ _) <|
    Written.last (written_f32 x.third_vector_component)
theorem VelocityVector.finds : Finds VelocityVector.deserialize (ReadFrom VelocityVector.slots) := FindsAt.finds <|
    FindsAt.cons (π := fun x : VelocityVector => x.first_vector_component) (fixed_f32) (finds_f32) fun _ =>
    FindsAt.cons (π := fun x : VelocityVector => x.second_vector_component) (fixed_f32) (finds_f32) fun _ =>
    FindsAt.cons (π := fun x : VelocityVector => x.third_vector_component) (fixed_f32) (finds_f32) fun _ =>
    FindsAt.ret ⟨⟨⟨trivial, rfl⟩, rfl⟩, rfl⟩
theorem VelocityVector.agree {x y : VelocityVector} (h : Agree VelocityVector.slots x y) : x = y := by
  have h0 := h
  have e0 : x.first_vector_component = y.first_vector_component := agree_f32 (Agree.left h0)
  have h1 := Agree.right h0
  have e1 : x.second_vector_component = y.second_vector_component := agree_f32 (Agree.left h1)
  have h2 := Agree.right h1
  have e2 : x.third_vector_component = y.third_vector_component := agree_f32 (Agree.left h2)
  cases x; cases y
  dsimp only at e0 e1 e2
  subst e0 e1 e2
  rfl

theorem fixedLayouts_lawful : ∀ r ∈ fixedLayouts, r.Lawful ∧ r.Whole := by
  unfold fixedLayouts
  refine List.forall_mem_cons.mpr ⟨⟨LaidOut.lawful _ AcousticBeamFundamentalParameter.slots rfl (fun x => ⟨_, (AcousticBeamFundamentalParameter.writes x).ifOk, AcousticBeamFundamentalParameter.written x⟩) AcousticBeamFundamentalParameter.finds (by decide), LaidOut.whole _ AcousticBeamFundamentalParameter.fixed (fun _ _ h => AcousticBeamFundamentalParameter.agree h)⟩, ?_⟩
  refine List.forall_mem_cons.mpr ⟨⟨LaidOut.lawful _ AcousticBeamData.slots rfl (fun x => ⟨_, (AcousticBeamData.writes x).ifOk, AcousticBeamData.written x⟩) AcousticBeamData.finds (by decide), LaidOut.whole _ AcousticBeamData.fixed (fun _ _ h => AcousticBeamData.agree h)⟩, ?_⟩
  refine List.forall_mem_cons.mpr ⟨⟨LaidOut.lawful _ AcousticEmitterSystem.slots rfl (fun x => ⟨_, (AcousticEmitterSystem.writes x).ifOk, AcousticEmitterSystem.written x⟩) AcousticEmitterSystem.finds (by decide), LaidOut.whole _ AcousticEmitterSystem.fixed (fun _ _ h => AcousticEmitterSystem.agree h)⟩, ?_⟩
  refine List.forall_mem_cons.mpr ⟨⟨LaidOut.lawful _ Vector3Float.slots rfl (fun x => ⟨_, (Vector3Float.writes x).ifOk, Vector3Float.written x⟩) Vector3Float.finds (by decide), LaidOut.whole _ Vector3Float.fixed (fun _ _ h => Vector3Float.agree h)⟩, ?_⟩
  refine List.forall_mem_cons.mpr ⟨⟨LaidOut.lawful _ AggregateId.slots rfl (fun x => ⟨_, (AggregateId.writes x).ifOk, AggregateId.written x⟩) AggregateId.finds (by decide), LaidOut.whole _ AggregateId.fixed (fun _ _ h => AggregateId.agree h)⟩, ?_⟩
  refine List.forall_mem_cons.mpr ⟨⟨LaidOut.lawful _ AggregateMarking.slots rfl (fun x => ⟨_, (AggregateMarking.writes x).ifOk, AggregateMarking.written x⟩) AggregateMarking.finds (by decide), LaidOut.whole _ AggregateMarking.fixed (fun _ _ h => AggregateMarking.agree h)⟩, ?_⟩
  refine List.forall_mem_cons.mpr ⟨⟨LaidOut.lawful _ AngularVelocity.slots rfl (fun x => ⟨_, (AngularVelocity.writes x).ifOk, AngularVelocity.written x⟩) AngularVelocity.finds (by decide), LaidOut.whole _ AngularVelocity.fixed (fun _ _ h => AngularVelocity.agree h)⟩, ?_⟩
  refine List.forall_mem_cons.mpr ⟨⟨LaidOut.lawful _ ApaData.slots rfl (fun x => ⟨_, (ApaData.writes x).ifOk, ApaData.written x⟩) ApaData.finds (by decide), LaidOut.whole _ ApaData.fixed (fun _ _ h => ApaData.agree h)⟩, ?_⟩
  refine List.forall_mem_cons.mpr ⟨⟨LaidOut.lawful _ SimulationAddress.slots rfl (fun x => ⟨_, (SimulationAddress.writes x).ifOk, SimulationAddress.written x⟩) SimulationAddress.finds (by decide), LaidOut.whole _ SimulationAddress.fixed (fun _ _ h => SimulationAddress.agree h)⟩, ?_⟩
  refine List.forall_mem_cons.mpr ⟨⟨LaidOut.lawful _ EntityId.slots rfl (fun x => ⟨_, (EntityId.writes x).ifOk, EntityId.written x⟩) EntityId.finds (by decide), LaidOut.whole _ EntityId.fixed (fun _ _ h => EntityId.agree h)⟩, ?_⟩
  refine List.forall_mem_cons.mpr ⟨⟨LaidOut.lawful _ BeamData.slots rfl (fun x => ⟨_, (BeamData.writes x).ifOk, BeamData.written x⟩) BeamData.finds (by decide), LaidOut.whole _ BeamData.fixed (fun _ _ h => BeamData.agree h)⟩, ?_⟩
  refine List.forall_mem_cons.mpr ⟨⟨LaidOut.lawful _ ClockTime.slots rfl (fun x => ⟨_, (ClockTime.writes x).ifOk, ClockTime.written x⟩) ClockTime.finds (by decide), LaidOut.whole _ ClockTime.fixed (fun _ _ h => ClockTime.agree h)⟩, ?_⟩
  refine List.forall_mem_cons.mpr ⟨⟨LaidOut.lawful _ LinearAcceleration.slots rfl (fun x => ⟨_, (LinearAcceleration.writes x).ifOk, LinearAcceleration.written x⟩) LinearAcceleration.finds (by decide), LaidOut.whole _ LinearAcceleration.fixed (fun _ _ h => LinearAcceleration.agree h)⟩, ?_⟩
  refine List.forall_mem_cons.mpr ⟨⟨LaidOut.lawful _ DeadReckoningParameters.slots rfl (fun x => ⟨_, (DeadReckoningParameters.writes x).ifOk, DeadReckoningParameters.written x⟩) DeadReckoningParameters.finds (by decide), LaidOut.whole _ DeadReckoningParameters.fixed (fun _ _ h => DeadReckoningParameters.agree h)⟩, ?_⟩
  refine List.forall_mem_cons.mpr ⟨⟨LaidOut.lawful _ EntityCoordinateVector.slots rfl (fun x => ⟨_, (EntityCoordinateVector.writes x).ifOk, EntityCoordinateVector.written x⟩) EntityCoordinateVector.finds (by decide), LaidOut.whole _ EntityCoordinateVector.fixed (fun _ _ h => EntityCoordinateVector.agree h)⟩, ?_⟩
  refine List.forall_mem_cons.mpr ⟨⟨LaidOut.lawful _ EventId.slots rfl (fun x => ⟨_, (EventId.writes x).ifOk, EventId.written x⟩) EventId.finds (by decide), LaidOut.whole _ EventId.fixed (fun _ _ h => EventId.agree h)⟩, ?_⟩
  refine List.forall_mem_cons.mpr ⟨⟨LaidOut.lawful _ DirectedEnergyDamage.slots rfl (fun x => ⟨_, (DirectedEnergyDamage.writes x).ifOk, DirectedEnergyDamage.written x⟩) DirectedEnergyDamage.finds (by decide), LaidOut.whole _ DirectedEnergyDamage.fixed (fun _ _ h => DirectedEnergyDamage.agree h)⟩, ?_⟩
  refine List.forall_mem_cons.mpr ⟨⟨LaidOut.lawful _ FundamentalParameterData.slots rfl (fun x => ⟨_, (FundamentalParameterData.writes x).ifOk, FundamentalParameterData.written x⟩) FundamentalParameterData.finds (by decide), LaidOut.whole _ FundamentalParameterData.fixed (fun _ _ h => FundamentalParameterData.agree h)⟩, ?_⟩
  refine List.forall_mem_cons.mpr ⟨⟨LaidOut.lawful _ TrackJamTarget.slots rfl (fun x => ⟨_, (TrackJamTarget.writes x).ifOk, TrackJamTarget.written x⟩) TrackJamTarget.finds (by decide), LaidOut.whole _ TrackJamTarget.fixed (fun _ _ h => TrackJamTarget.agree h)⟩, ?_⟩
  refine List.forall_mem_cons.mpr ⟨⟨LaidOut.lawful _ EmitterSystem.slots rfl (fun x => ⟨_, (EmitterSystem.writes x).ifOk, EmitterSystem.written x⟩) EmitterSystem.finds (by decide), LaidOut.whole _ EmitterSystem.fixed (fun _ _ h => EmitterSystem.agree h)⟩, ?_⟩
  refine List.forall_mem_cons.mpr ⟨⟨LaidOut.lawful _ EntityType.slots rfl (fun x => ⟨_, (EntityType.writes x).ifOk, EntityType.written x⟩) EntityType.finds (by decide), LaidOut.whole _ EntityType.fixed (fun _ _ h => EntityType.agree h)⟩, ?_⟩
  refine List.forall_mem_cons.mpr ⟨⟨LaidOut.lawful _ Environment.slots rfl (fun x => ⟨_, (Environment.writes x).ifOk, Environment.written x⟩) Environment.finds (by decide), LaidOut.whole _ Environment.fixed (fun _ _ h => Environment.agree h)⟩, ?_⟩
  refine List.forall_mem_cons.mpr ⟨⟨LaidOut.lawful _ EulerAngles.slots rfl (fun x => ⟨_, (EulerAngles.writes x).ifOk, EulerAngles.written x⟩) EulerAngles.finds (by decide), LaidOut.whole _ EulerAngles.fixed (fun _ _ h => EulerAngles.agree h)⟩, ?_⟩
  refine List.forall_mem_cons.mpr ⟨⟨LaidOut.lawful _ FixedDatumRecord.slots rfl (fun x => ⟨_, (FixedDatumRecord.writes x).ifOk, FixedDatumRecord.written x⟩) FixedDatumRecord.finds (by decide), LaidOut.whole _ FixedDatumRecord.fixed (fun _ _ h => FixedDatumRecord.agree h)⟩, ?_⟩
  refine List.forall_mem_cons.mpr ⟨⟨LaidOut.lawful _ FundamentalOperationalData.slots rfl (fun x => ⟨_, (FundamentalOperationalData.writes x).ifOk, FundamentalOperationalData.written x⟩) FundamentalOperationalData.finds (by decide), LaidOut.whole _ FundamentalOperationalData.fixed (fun _ _ h => FundamentalOperationalData.agree h)⟩, ?_⟩
  refine List.forall_mem_cons.mpr ⟨⟨LaidOut.lawful _ IFFFundamentalParameterData.slots rfl (fun x => ⟨_, (IFFFundamentalParameterData.writes x).ifOk, IFFFundamentalParameterData.written x⟩) IFFFundamentalParameterData.finds (by decide), LaidOut.whole _ IFFFundamentalParameterData.fixed (fun _ _ h => IFFFundamentalParameterData.agree h)⟩, ?_⟩
  refine List.forall_mem_cons.mpr ⟨⟨LaidOut.lawful _ IntercomCommunicationsParameters.slots rfl (fun x => ⟨_, (IntercomCommunicationsParameters.writes x).ifOk, IntercomCommunicationsParameters.written x⟩) IntercomCommunicationsParameters.finds (by decide), LaidOut.whole _ IntercomCommunicationsParameters.fixed (fun _ _ h => IntercomCommunicationsParameters.agree h)⟩, ?_⟩
  refine List.forall_mem_cons.mpr ⟨⟨LaidOut.lawful _ LayerHeader.slots rfl (fun x => ⟨_, (LayerHeader.writes x).ifOk, LayerHeader.written x⟩) LayerHeader.finds (by decide), LaidOut.whole _ LayerHeader.fixed (fun _ _ h => LayerHeader.agree h)⟩, ?_⟩
  refine List.forall_mem_cons.mpr ⟨⟨LaidOut.lawful _ WorldCoordinate.slots rfl (fun x => ⟨_, (WorldCoordinate.writes x).ifOk, WorldCoordinate.written x⟩) WorldCoordinate.finds (by decide), LaidOut.whole _ WorldCoordinate.fixed (fun _ _ h => WorldCoordinate.agree h)⟩, ?_⟩
  refine List.forall_mem_cons.mpr ⟨⟨LaidOut.lawful _ LinearSegmentParameter.slots rfl (fun x => ⟨_, (LinearSegmentParameter.writes x).ifOk, LinearSegmentParameter.written x⟩) LinearSegmentParameter.finds (by decide), LaidOut.whole _ LinearSegmentParameter.fixed (fun _ _ h => LinearSegmentParameter.agree h)⟩, ?_⟩
  refine List.forall_mem_cons.mpr ⟨⟨LaidOut.lawful _ LinearVelocity.slots rfl (fun x => ⟨_, (LinearVelocity.writes x).ifOk, LinearVelocity.written x⟩) LinearVelocity.finds (by decide), LaidOut.whole _ LinearVelocity.fixed (fun _ _ h => LinearVelocity.agree h)⟩, ?_⟩
  refine List.forall_mem_cons.mpr ⟨⟨LaidOut.lawful _ MinefieldIdentifier.slots rfl (fun x => ⟨_, (MinefieldIdentifier.writes x).ifOk, MinefieldIdentifier.written x⟩) MinefieldIdentifier.finds (by decide), LaidOut.whole _ MinefieldIdentifier.fixed (fun _ _ h => MinefieldIdentifier.agree h)⟩, ?_⟩
  refine List.forall_mem_cons.mpr ⟨⟨LaidOut.lawful _ ModulationType.slots rfl (fun x => ⟨_, (ModulationType.writes x).ifOk, ModulationType.written x⟩) ModulationType.finds (by decide), LaidOut.whole _ ModulationType.fixed (fun _ _ h => ModulationType.agree h)⟩, ?_⟩
  refine List.forall_mem_cons.mpr ⟨⟨LaidOut.lawful _ MunitionDescriptor.slots rfl (fun x => ⟨_, (MunitionDescriptor.writes x).ifOk, MunitionDescriptor.written x⟩) MunitionDescriptor.finds (by decide), LaidOut.whole _ MunitionDescriptor.fixed (fun _ _ h => MunitionDescriptor.agree h)⟩, ?_⟩
  refine List.forall_mem_cons.mpr ⟨⟨LaidOut.lawful _ NamedLocation.slots rfl (fun x => ⟨_, (NamedLocation.writes x).ifOk, NamedLocation.written x⟩) NamedLocation.finds (by decide), LaidOut.whole _ NamedLocation.fixed (fun _ _ h => NamedLocation.agree h)⟩, ?_⟩
  refine List.forall_mem_cons.mpr ⟨⟨LaidOut.lawful _ ObjectIdentifier.slots rfl (fun x => ⟨_, (ObjectIdentifier.writes x).ifOk, ObjectIdentifier.written x⟩) ObjectIdentifier.finds (by decide), LaidOut.whole _ ObjectIdentifier.fixed (fun _ _ h => ObjectIdentifier.agree h)⟩, ?_⟩
  refine List.forall_mem_cons.mpr ⟨⟨LaidOut.lawful _ ObjectType.slots rfl (fun x => ⟨_, (ObjectType.writes x).ifOk, ObjectType.written x⟩) ObjectType.finds (by decide), LaidOut.whole _ ObjectType.fixed (fun _ _ h => ObjectType.agree h)⟩, ?_⟩
  refine List.forall_mem_cons.mpr ⟨⟨LaidOut.lawful _ Point.slots rfl (fun x => ⟨_, (Point.writes x).ifOk, Point.written x⟩) Point.finds (by decide), LaidOut.whole _ Point.fixed (fun _ _ h => Point.agree h)⟩, ?_⟩
  refine List.forall_mem_cons.mpr ⟨⟨LaidOut.lawful _ PropulsionSystemData.slots rfl (fun x => ⟨_, (PropulsionSystemData.writes x).ifOk, PropulsionSystemData.written x⟩) PropulsionSystemData.finds (by decide), LaidOut.whole _ PropulsionSystemData.fixed (fun _ _ h => PropulsionSystemData.agree h)⟩, ?_⟩
  refine List.forall_mem_cons.mpr ⟨⟨LaidOut.lawful _ RadioEntityType.slots rfl (fun x => ⟨_, (RadioEntityType.writes x).ifOk, RadioEntityType.written x⟩) RadioEntityType.finds (by decide), LaidOut.whole _ RadioEntityType.fixed (fun _ _ h => RadioEntityType.agree h)⟩, ?_⟩
  refine List.forall_mem_cons.mpr ⟨⟨LaidOut.lawful _ Relationship.slots rfl (fun x => ⟨_, (Relationship.writes x).ifOk, Relationship.written x⟩) Relationship.finds (by decide), LaidOut.whole _ Relationship.fixed (fun _ _ h => Relationship.agree h)⟩, ?_⟩
  refine List.forall_mem_cons.mpr ⟨⟨LaidOut.lawful _ SecondaryOperationalData.slots rfl (fun x => ⟨_, (SecondaryOperationalData.writes x).ifOk, SecondaryOperationalData.written x⟩) SecondaryOperationalData.finds (by decide), LaidOut.whole _ SecondaryOperationalData.fixed (fun _ _ h => SecondaryOperationalData.agree h)⟩, ?_⟩
  refine List.forall_mem_cons.mpr ⟨⟨LaidOut.lawful _ ShaftRPMs.slots rfl (fun x => ⟨_, (ShaftRPMs.writes x).ifOk, ShaftRPMs.written x⟩) ShaftRPMs.finds (by decide), LaidOut.whole _ ShaftRPMs.fixed (fun _ _ h => ShaftRPMs.agree h)⟩, ?_⟩
  refine List.forall_mem_cons.mpr ⟨⟨LaidOut.lawful _ SimulationIdentifier.slots rfl (fun x => ⟨_, (SimulationIdentifier.writes x).ifOk, SimulationIdentifier.written x⟩) SimulationIdentifier.finds (by decide), LaidOut.whole _ SimulationIdentifier.fixed (fun _ _ h => SimulationIdentifier.agree h)⟩, ?_⟩
  refine List.forall_mem_cons.mpr ⟨⟨LaidOut.lawful _ SupplyQuantity.slots rfl (fun x => ⟨_, (SupplyQuantity.writes x).ifOk, SupplyQuantity.written x⟩) SupplyQuantity.finds (by decide), LaidOut.whole _ SupplyQuantity.fixed (fun _ _ h => SupplyQuantity.agree h)⟩, ?_⟩
  refine List.forall_mem_cons.mpr ⟨⟨LaidOut.lawful _ SystemId.slots rfl (fun x => ⟨_, (SystemId.writes x).ifOk, SystemId.written x⟩) SystemId.finds (by decide), LaidOut.whole _ SystemId.fixed (fun _ _ h => SystemId.agree h)⟩, ?_⟩
  refine List.forall_mem_cons.mpr ⟨⟨LaidOut.lawful _ VariableParameter.slots rfl (fun x => ⟨_, (VariableParameter.writes x).ifOk, VariableParameter.written x⟩) VariableParameter.finds (by decide), LaidOut.whole _ VariableParameter.fixed (fun _ _ h => VariableParameter.agree h)⟩, ?_⟩
  refine List.forall_mem_cons.mpr ⟨⟨LaidOut.lawful _ Vector3Double.slots rfl (fun x => ⟨_, (Vector3Double.writes x).ifOk, Vector3Double.written x⟩) Vector3Double.finds (by decide), LaidOut.whole _ Vector3Double.fixed (fun _ _ h => Vector3Double.agree h)⟩, ?_⟩
  refine List.forall_mem_cons.mpr ⟨⟨LaidOut.lawful _ VectoringNozzleSystemData.slots rfl (fun x => ⟨_, (VectoringNozzleSystemData.writes x).ifOk, VectoringNozzleSystemData.written x⟩) VectoringNozzleSystemData.finds (by decide), LaidOut.whole _ VectoringNozzleSystemData.fixed (fun _ _ h => VectoringNozzleSystemData.agree h)⟩, ?_⟩
  refine List.forall_mem_cons.mpr ⟨⟨LaidOut.lawful _ VelocityVector.slots rfl (fun x => ⟨_, (VelocityVector.writes x).ifOk, VelocityVector.written x⟩) VelocityVector.finds (by decide), LaidOut.whole _ VelocityVector.fixed (fun _ _ h => VelocityVector.agree h)⟩, ?_⟩
  exact fun _ h => nomatch h

theorem headLayouts_lawful : ∀ r ∈ headLayouts, r.Lawful := by
  unfold headLayouts
  refine List.forall_mem_cons.mpr ⟨LaidOut.lawful _ AcousticEmitterSystemData.slots rfl (fun x => ⟨_, (AcousticEmitterSystemData.writes x).ifOk, AcousticEmitterSystemData.written x⟩) AcousticEmitterSystemData.finds (by decide), ?_⟩
  refine List.forall_mem_cons.mpr ⟨LaidOut.lawful _ AttributeRecord.slots rfl (fun x => ⟨_, (AttributeRecord.writes x).ifOk, AttributeRecord.written x⟩) AttributeRecord.finds (by decide), ?_⟩
  refine List.forall_mem_cons.mpr ⟨LaidOut.lawful _ AttributeRecordSet.slots rfl (fun x => ⟨_, (AttributeRecordSet.writes x).ifOk, AttributeRecordSet.written x⟩) AttributeRecordSet.finds (by decide), ?_⟩
  refine List.forall_mem_cons.mpr ⟨LaidOut.lawful _ ElectromagneticEmissionBeamData.slots rfl (fun x => ⟨_, (ElectromagneticEmissionBeamData.writes x).ifOk, ElectromagneticEmissionBeamData.written x⟩) ElectromagneticEmissionBeamData.finds (by decide), ?_⟩
  refine List.forall_mem_cons.mpr ⟨LaidOut.lawful _ ElectromagneticEmissionSystemData.slots rfl (fun x => ⟨_, (ElectromagneticEmissionSystemData.writes x).ifOk, ElectromagneticEmissionSystemData.written x⟩) ElectromagneticEmissionSystemData.finds (by decide), ?_⟩
  refine List.forall_mem_cons.mpr ⟨LaidOut.lawful _ RecordSpecification.slots rfl (fun x => ⟨_, LawfulEnc.ok x, RecordSpecification.written x⟩) RecordSpecification.finds (by decide), ?_⟩
  refine List.forall_mem_cons.mpr ⟨LaidOut.lawful _ StandardVariableRecords.slots rfl (fun x => ⟨_, (StandardVariableRecords.writes x).ifOk, StandardVariableRecords.written x⟩) StandardVariableRecords.finds (by decide), ?_⟩
  refine List.forall_mem_cons.mpr ⟨LaidOut.lawful _ StandardVariableSpecification.slots rfl (fun x => ⟨_, (StandardVariableSpecification.writes x).ifOk, StandardVariableSpecification.written x⟩) StandardVariableSpecification.finds (by decide), ?_⟩
  refine List.forall_mem_cons.mpr ⟨LaidOut.lawful _ EntityMarking.slots rfl (fun x => ⟨_, (EntityMarking.writes x).ifOk, EntityMarking.written x⟩) EntityMarking.finds (by decide), ?_⟩
  refine List.forall_mem_cons.mpr ⟨LaidOut.lawful _ VariableDatumRecord.slots rfl (fun x => ⟨_, (VariableDatumRecord.writes x).ifOk, VariableDatumRecord.written x⟩) VariableDatumRecord.finds (by decide), ?_⟩
  refine List.forall_mem_cons.mpr ⟨LaidOut.lawful _ RecordSpecificationElement.slots rfl (fun x => ⟨_, RecordSpecificationElement.ifOk x, RecordSpecificationElement.written x⟩) RecordSpecificationElement.finds (by decide), ?_⟩
  exact fun _ h => nomatch h

end Dis
