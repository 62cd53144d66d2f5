import Verif.Spec.RecordWire
import Verif.Proofs.Irregular
/- Generated by tools/gen_records.py. -/
set_option maxRecDepth 4000
namespace Dis

theorem AcousticBeamFundamentalParameter.writes (x : AcousticBeamFundamentalParameter) : Writes x.serialize (wire x) :=
    Writes.seq (writes_u16 x.active_emission_parameter_index) <|
    Writes.seq (writes_u16 x.scan_pattern) <|
    Writes.seq (writes_f32 x.beam_center_azimuth) <|
    Writes.seq (writes_f32 x.azimuthal_beamwidth) <|
    Writes.seq (writes_f32 x.beam_center_de) <|
    writes_f32 x.de_beamwidth
theorem AcousticBeamFundamentalParameter.reads (x : AcousticBeamFundamentalParameter) : Reads AcousticBeamFundamentalParameter.deserialize (wire x) x :=
    Reads.bind (reads_u16 x.active_emission_parameter_index) <|
    Reads.bind (reads_u16 x.scan_pattern) <|
    Reads.bind (reads_f32 x.beam_center_azimuth) <|
    Reads.bind (reads_f32 x.azimuthal_beamwidth) <|
    Reads.bind (reads_f32 x.beam_center_de) <|
    Reads.last (reads_f32 x.de_beamwidth) (Reads.ret _)
theorem AcousticBeamFundamentalParameter.fixed : Fixed AcousticBeamFundamentalParameter.deserialize 20 := Fixed.congr (
    Fixed.bind (fixed_u16) fun _ =>
    Fixed.bind (fixed_u16) fun _ =>
    Fixed.bind (fixed_f32) fun _ =>
    Fixed.bind (fixed_f32) fun _ =>
    Fixed.bind (fixed_f32) fun _ =>
    Fixed.bind (fixed_f32) fun _ =>
    Fixed.ret _) rfl
theorem AcousticBeamFundamentalParameter.wire_length (x : AcousticBeamFundamentalParameter) : (wire x).length = 20 := (AcousticBeamFundamentalParameter.reads x).length_eq AcousticBeamFundamentalParameter.fixed

theorem AcousticBeamData.writes (x : AcousticBeamData) : Writes x.serialize (wire x) :=
    Writes.seq (writes_u16 x.beam_data_length) <|
    Writes.seq (writes_u8 x.beam_id_number) <|
    Writes.seq (writes_u16 x.pad2) <|
    AcousticBeamFundamentalParameter.writes x.fundamental_data_parameters
theorem AcousticBeamData.reads (x : AcousticBeamData) : Reads AcousticBeamData.deserialize (wire x) x :=
    Reads.bind (reads_u16 x.beam_data_length) <|
    Reads.bind (reads_u8 x.beam_id_number) <|
    Reads.bind (reads_u16 x.pad2) <|
    Reads.last (AcousticBeamFundamentalParameter.reads x.fundamental_data_parameters) (Reads.ret _)
theorem AcousticBeamData.fixed : Fixed AcousticBeamData.deserialize 25 := Fixed.congr (
    Fixed.bind (fixed_u16) fun _ =>
    Fixed.bind (fixed_u8) fun _ =>
    Fixed.bind (fixed_u16) fun _ =>
    Fixed.bind (AcousticBeamFundamentalParameter.fixed) fun _ =>
    Fixed.ret _) rfl
theorem AcousticBeamData.wire_length (x : AcousticBeamData) : (wire x).length = 25 := (AcousticBeamData.reads x).length_eq AcousticBeamData.fixed

theorem AcousticEmitterSystem.writes (x : AcousticEmitterSystem) : Writes x.serialize (wire x) :=
    Writes.seq (writes_enum16 x.acoustic_name rfl) <|
    Writes.seq (writes_enum8 x.acoustic_function rfl) <|
    writes_u8 x.acoustic_id
theorem AcousticEmitterSystem.reads (x : AcousticEmitterSystem) : Reads AcousticEmitterSystem.deserialize (wire x) x :=
    Reads.bind (EnumSpec.reads x.acoustic_name) <|
    Reads.bind (EnumSpec.reads x.acoustic_function) <|
    Reads.last (reads_u8 x.acoustic_id) (Reads.ret _)
theorem AcousticEmitterSystem.fixed : Fixed AcousticEmitterSystem.deserialize 4 := Fixed.congr (
    Fixed.bind (EnumSpec.fixed _) fun _ =>
    Fixed.bind (EnumSpec.fixed _) fun _ =>
    Fixed.bind (fixed_u8) fun _ =>
    Fixed.ret _) rfl
theorem AcousticEmitterSystem.wire_length (x : AcousticEmitterSystem) : (wire x).length = 4 := (AcousticEmitterSystem.reads x).length_eq AcousticEmitterSystem.fixed
instance : LawfulEnc AcousticEmitterSystem := ⟨fun x _ => AcousticEmitterSystem.writes x, fun x => (AcousticEmitterSystem.writes x).ifOk, fun x => by rw [show sent x = x from rfl, AcousticEmitterSystem.wire_length]; rfl, fun x => (AcousticEmitterSystem.writes x).appends⟩
instance : ExactEnc AcousticEmitterSystem := ⟨fun _ => trivial, fun _ => rfl, fun _ => rfl⟩
instance : LawfulDec AcousticEmitterSystem := ⟨fun x _ => AcousticEmitterSystem.reads x⟩
instance : ExactDec AcousticEmitterSystem := ⟨fun _ => trivial, fun _ => rfl⟩
instance : FixedDec AcousticEmitterSystem 4 := ⟨AcousticEmitterSystem.fixed⟩

theorem Vector3Float.writes (x : Vector3Float) : Writes x.serialize (wire x) :=
    Writes.seq (writes_f32 x.x) <|
    Writes.seq (writes_f32 x.y) <|
    writes_f32 x.z
theorem Vector3Float.reads (x : Vector3Float) : Reads Vector3Float.deserialize (wire x) x :=
    Reads.bind (reads_f32 x.x) <|
    Reads.bind (reads_f32 x.y) <|
    Reads.last (reads_f32 x.z) (Reads.ret _)
theorem Vector3Float.fixed : Fixed Vector3Float.deserialize 12 := Fixed.congr (
    Fixed.bind (fixed_f32) fun _ =>
    Fixed.bind (fixed_f32) fun _ =>
    Fixed.bind (fixed_f32) fun _ =>
    Fixed.ret _) rfl
theorem Vector3Float.wire_length (x : Vector3Float) : (wire x).length = 12 := (Vector3Float.reads x).length_eq Vector3Float.fixed
instance : LawfulEnc Vector3Float := ⟨fun x _ => Vector3Float.writes x, fun x => (Vector3Float.writes x).ifOk, fun x => by rw [show sent x = x from rfl, Vector3Float.wire_length]; rfl, fun x => (Vector3Float.writes x).appends⟩
instance : ExactEnc Vector3Float := ⟨fun _ => trivial, fun _ => rfl, fun _ => rfl⟩
instance : LawfulDec Vector3Float := ⟨fun x _ => Vector3Float.reads x⟩
instance : ExactDec Vector3Float := ⟨fun _ => trivial, fun _ => rfl⟩
instance : FixedDec Vector3Float 12 := ⟨Vector3Float.fixed⟩

theorem AcousticEmitterSystemData.writes (x : AcousticEmitterSystemData) : Writes x.serialize (wire x) :=
    Writes.seq (writes_u8 x.emitter_system_data_length) <|
    Writes.seq (writes_u8 x.number_of_beams) <|
    Writes.seq (writes_u16 x.pad2) <|
    Writes.seq (AcousticEmitterSystem.writes x.acoustic_emitter_system) <|
    Writes.seq (Vector3Float.writes x.emitter_location) <|
    Writes.each x.beam_records (fun e _ => AcousticBeamData.writes e)
theorem AcousticEmitterSystemData.reads (x : AcousticEmitterSystemData) (h : decodable x) : Reads AcousticEmitterSystemData.deserialize (wire x) x :=
    Reads.bind (reads_u8 x.emitter_system_data_length) <|
    Reads.bind (reads_u8 x.number_of_beams) <|
    Reads.bind (reads_u16 x.pad2) <|
    Reads.bind (AcousticEmitterSystem.reads x.acoustic_emitter_system) <|
    Reads.bind (Vector3Float.reads x.emitter_location) <|
    Reads.last (Reads.counted h (fun e _ => AcousticBeamData.reads e)) (Reads.ret _)
theorem AcousticEmitterSystemData.loc : Local AcousticEmitterSystemData.deserialize :=
    Local.bind (fixed_u8.local) fun _ =>
    Local.bind (fixed_u8.local) fun _ =>
    Local.bind (fixed_u16.local) fun _ =>
    Local.bind (AcousticEmitterSystem.fixed.local) fun _ =>
    Local.bind (Vector3Float.fixed.local) fun _ =>
    Local.bind (Local.n AcousticBeamData.fixed.local _) fun _ =>
    Local.ret _
theorem AcousticEmitterSystemData.under : OnlyUnderflow AcousticEmitterSystemData.deserialize :=
    OnlyUnderflow.bind (fixed_u8.onlyUnderflow) fun _ =>
    OnlyUnderflow.bind (fixed_u8.onlyUnderflow) fun _ =>
    OnlyUnderflow.bind (fixed_u16.onlyUnderflow) fun _ =>
    OnlyUnderflow.bind (AcousticEmitterSystem.fixed.onlyUnderflow) fun _ =>
    OnlyUnderflow.bind (Vector3Float.fixed.onlyUnderflow) fun _ =>
    OnlyUnderflow.bind (OnlyUnderflow.n AcousticBeamData.fixed.onlyUnderflow _) fun _ =>
    OnlyUnderflow.ret _

theorem AggregateId.writes (x : AggregateId) : Writes x.serialize (wire x) :=
    Writes.seq (writes_u16 x.site) <|
    Writes.seq (writes_u16 x.application) <|
    writes_u16 x.aggregate_id
theorem AggregateId.reads (x : AggregateId) : Reads AggregateId.deserialize (wire x) x :=
    Reads.bind (reads_u16 x.site) <|
    Reads.bind (reads_u16 x.application) <|
    Reads.last (reads_u16 x.aggregate_id) (Reads.ret _)
theorem AggregateId.fixed : Fixed AggregateId.deserialize 6 := Fixed.congr (
    Fixed.bind (fixed_u16) fun _ =>
    Fixed.bind (fixed_u16) fun _ =>
    Fixed.bind (fixed_u16) fun _ =>
    Fixed.ret _) rfl
theorem AggregateId.wire_length (x : AggregateId) : (wire x).length = 6 := (AggregateId.reads x).length_eq AggregateId.fixed
instance : LawfulEnc AggregateId := ⟨fun x _ => AggregateId.writes x, fun x => (AggregateId.writes x).ifOk, fun x => by rw [show sent x = x from rfl, AggregateId.wire_length]; rfl, fun x => (AggregateId.writes x).appends⟩
instance : ExactEnc AggregateId := ⟨fun _ => trivial, fun _ => rfl, fun _ => rfl⟩
instance : LawfulDec AggregateId := ⟨fun x _ => AggregateId.reads x⟩
instance : ExactDec AggregateId := ⟨fun _ => trivial, fun _ => rfl⟩
instance : FixedDec AggregateId 6 := ⟨AggregateId.fixed⟩

theorem AggregateMarking.writes (x : AggregateMarking) : Writes x.serialize (wire x) :=
    Writes.seq (writes_u8 x.character_set) <|
    Writes.each x.characters.toList (fun e _ => writes_i8 e)
theorem AggregateMarking.reads (x : AggregateMarking) : Reads AggregateMarking.deserialize (wire x) x :=
    Reads.bind (reads_u8 x.character_set) <|
    Reads.last (Reads.arr 31 x.characters reads_i8) (Reads.ret _)
theorem AggregateMarking.fixed : Fixed AggregateMarking.deserialize 32 := Fixed.congr (
    Fixed.bind (fixed_u8) fun _ =>
    Fixed.bind (Fixed.arr fixed_i8 31) fun _ =>
    Fixed.ret _) rfl
theorem AggregateMarking.wire_length (x : AggregateMarking) : (wire x).length = 32 := (AggregateMarking.reads x).length_eq AggregateMarking.fixed
instance : LawfulEnc AggregateMarking := ⟨fun x _ => AggregateMarking.writes x, fun x => (AggregateMarking.writes x).ifOk, fun x => by rw [show sent x = x from rfl, AggregateMarking.wire_length]; rfl, fun x => (AggregateMarking.writes x).appends⟩
instance : ExactEnc AggregateMarking := ⟨fun _ => trivial, fun _ => rfl, fun _ => rfl⟩
instance : LawfulDec AggregateMarking := ⟨fun x _ => AggregateMarking.reads x⟩
instance : ExactDec AggregateMarking := ⟨fun _ => trivial, fun _ => rfl⟩
instance : FixedDec AggregateMarking 32 := ⟨AggregateMarking.fixed⟩

theorem AngularVelocity.writes (x : AngularVelocity) : Writes x.serialize (wire x) :=
    Writes.seq (writes_f32 x.rate_about_x_axis) <|
    Writes.seq (writes_f32 x.rate_about_y_axis) <|
    writes_f32 x.rate_about_z_axis
theorem AngularVelocity.reads (x : AngularVelocity) : Reads AngularVelocity.deserialize (wire x) x :=
    Reads.bind (reads_f32 x.rate_about_x_axis) <|
    Reads.bind (reads_f32 x.rate_about_y_axis) <|
    Reads.last (reads_f32 x.rate_about_z_axis) (Reads.ret _)
theorem AngularVelocity.fixed : Fixed AngularVelocity.deserialize 12 := Fixed.congr (
    Fixed.bind (fixed_f32) fun _ =>
    Fixed.bind (fixed_f32) fun _ =>
    Fixed.bind (fixed_f32) fun _ =>
    Fixed.ret _) rfl
theorem AngularVelocity.wire_length (x : AngularVelocity) : (wire x).length = 12 := (AngularVelocity.reads x).length_eq AngularVelocity.fixed

theorem ApaData.writes (x : ApaData) : Writes x.serialize (wire x) :=
    Writes.seq (writes_u16 x.parameter_index) <|
    writes_i16 x.parameter_value
theorem ApaData.reads (x : ApaData) : Reads ApaData.deserialize (wire x) x :=
    Reads.bind (reads_u16 x.parameter_index) <|
    Reads.last (reads_i16 x.parameter_value) (Reads.ret _)
theorem ApaData.fixed : Fixed ApaData.deserialize 4 := Fixed.congr (
    Fixed.bind (fixed_u16) fun _ =>
    Fixed.bind (fixed_i16) fun _ =>
    Fixed.ret _) rfl
theorem ApaData.wire_length (x : ApaData) : (wire x).length = 4 := (ApaData.reads x).length_eq ApaData.fixed
instance : LawfulEnc ApaData := ⟨fun x _ => ApaData.writes x, fun x => (ApaData.writes x).ifOk, fun x => by rw [show sent x = x from rfl, ApaData.wire_length]; rfl, fun x => (ApaData.writes x).appends⟩
instance : ExactEnc ApaData := ⟨fun _ => trivial, fun _ => rfl, fun _ => rfl⟩
instance : LawfulDec ApaData := ⟨fun x _ => ApaData.reads x⟩
instance : ExactDec ApaData := ⟨fun _ => trivial, fun _ => rfl⟩
instance : FixedDec ApaData 4 := ⟨ApaData.fixed⟩

theorem AttributeRecord.writes (x : AttributeRecord) : Writes x.serialize (wire x) :=
    Writes.seq (writes_u32 x.record_type) <|
    Writes.seq (writes_u16 x.record_length) <|
    Writes.each x.record_specific_fields (fun e _ => writes_u8 e)
theorem AttributeRecord.reads (x : AttributeRecord) (h : decodable x) : Reads AttributeRecord.deserialize (wire x) x :=
    Reads.bind (reads_u32 x.record_type) <|
    Reads.bind (reads_u16 x.record_length) <|
    Reads.last (Reads.counted h (fun e _ => reads_u8 e)) (Reads.ret _)
theorem AttributeRecord.loc : Local AttributeRecord.deserialize :=
    Local.bind (fixed_u32.local) fun _ =>
    Local.bind (fixed_u16.local) fun _ =>
    Local.bind (Local.n fixed_u8.local _) fun _ =>
    Local.ret _
theorem AttributeRecord.under : OnlyUnderflow AttributeRecord.deserialize :=
    OnlyUnderflow.bind (fixed_u32.onlyUnderflow) fun _ =>
    OnlyUnderflow.bind (fixed_u16.onlyUnderflow) fun _ =>
    OnlyUnderflow.bind (OnlyUnderflow.n fixed_u8.onlyUnderflow _) fun _ =>
    OnlyUnderflow.ret _
theorem AttributeRecord.wire_length (x : AttributeRecord) : (wire x).length = 6 + (wire x.record_specific_fields).length := by
  show (wire x.record_type ++ (wire x.record_length ++ (wire x.record_specific_fields))).length = _
  simp only [List.length_append]
  have h_record_type : (wire x.record_type).length = 4 := octets_length _ _
  have h_record_length : (wire x.record_length).length = 2 := octets_length _ _
  omega
instance : LawfulEnc AttributeRecord where
  writes x _ := AttributeRecord.writes x
  ok x := (AttributeRecord.writes x).ifOk
  len x := by
    have h1 : field_len x = 6 + field_len x.record_specific_fields := rfl
    have h2 : field_len x.record_specific_fields = (wire x.record_specific_fields).length := len_exact x.record_specific_fields
    have h3 := AttributeRecord.wire_length x
    show ((wire x).length : Int) = (field_len x : Nat) + 0
    omega
  appends x := (AttributeRecord.writes x).appends
instance : ExactEnc AttributeRecord := ⟨fun _ => trivial, fun _ => rfl, fun _ => rfl⟩
instance : LawfulDec AttributeRecord := ⟨fun x h => AttributeRecord.reads x h⟩
instance : LocalDec AttributeRecord := ⟨AttributeRecord.loc⟩
instance : UnderflowDec AttributeRecord := ⟨AttributeRecord.under⟩

theorem SimulationAddress.writes (x : SimulationAddress) : Writes x.serialize (wire x) :=
    Writes.seq (writes_u16 x.site_id) <|
    writes_u16 x.application_id
theorem SimulationAddress.reads (x : SimulationAddress) : Reads SimulationAddress.deserialize (wire x) x :=
    Reads.bind (reads_u16 x.site_id) <|
    Reads.last (reads_u16 x.application_id) (Reads.ret _)
theorem SimulationAddress.fixed : Fixed SimulationAddress.deserialize 4 := Fixed.congr (
    Fixed.bind (fixed_u16) fun _ =>
    Fixed.bind (fixed_u16) fun _ =>
    Fixed.ret _) rfl
theorem SimulationAddress.wire_length (x : SimulationAddress) : (wire x).length = 4 := (SimulationAddress.reads x).length_eq SimulationAddress.fixed
instance : LawfulEnc SimulationAddress := ⟨fun x _ => SimulationAddress.writes x, fun x => (SimulationAddress.writes x).ifOk, fun x => by rw [show sent x = x from rfl, SimulationAddress.wire_length]; rfl, fun x => (SimulationAddress.writes x).appends⟩
instance : ExactEnc SimulationAddress := ⟨fun _ => trivial, fun _ => rfl, fun _ => rfl⟩
instance : LawfulDec SimulationAddress := ⟨fun x _ => SimulationAddress.reads x⟩
instance : ExactDec SimulationAddress := ⟨fun _ => trivial, fun _ => rfl⟩
instance : FixedDec SimulationAddress 4 := ⟨SimulationAddress.fixed⟩

theorem EntityId.writes (x : EntityId) : Writes x.serialize (wire x) :=
    Writes.seq (SimulationAddress.writes x.simulation_address) <|
    writes_u16 x.entity_id
theorem EntityId.deserialize_simulation_address.reads (x : SimulationAddress) : Reads EntityId.deserialize_simulation_address (wire x) x :=
    Reads.bind (reads_u16 x.site_id) <|
    Reads.last (reads_u16 x.application_id) (Reads.ret _)
theorem EntityId.deserialize_simulation_address.fixed : Fixed EntityId.deserialize_simulation_address 4 := Fixed.congr (
    Fixed.bind (fixed_u16) fun _ =>
    Fixed.bind (fixed_u16) fun _ =>
    Fixed.ret _) rfl
theorem EntityId.reads (x : EntityId) : Reads EntityId.deserialize (wire x) x :=
    Reads.bind (EntityId.deserialize_simulation_address.reads x.simulation_address) <|
    Reads.last (reads_u16 x.entity_id) (Reads.ret _)
theorem EntityId.fixed : Fixed EntityId.deserialize 6 := Fixed.congr (
    Fixed.bind (EntityId.deserialize_simulation_address.fixed) fun _ =>
    Fixed.bind (fixed_u16) fun _ =>
    Fixed.ret _) rfl
theorem EntityId.wire_length (x : EntityId) : (wire x).length = 6 := (EntityId.reads x).length_eq EntityId.fixed
instance : LawfulEnc EntityId := ⟨fun x _ => EntityId.writes x, fun x => (EntityId.writes x).ifOk, fun x => by rw [show sent x = x from rfl, EntityId.wire_length]; rfl, fun x => (EntityId.writes x).appends⟩
instance : ExactEnc EntityId := ⟨fun _ => trivial, fun _ => rfl, fun _ => rfl⟩
instance : LawfulDec EntityId := ⟨fun x _ => EntityId.reads x⟩
instance : ExactDec EntityId := ⟨fun _ => trivial, fun _ => rfl⟩
instance : FixedDec EntityId 6 := ⟨EntityId.fixed⟩

theorem AttributeRecordSet.writes (x : AttributeRecordSet) : Writes x.serialize (wire x) :=
    Writes.seq (EntityId.writes x.entity_id) <|
    Writes.seq (writes_u16 x.number_of_attribute_records) <|
    Writes.each x.attribute_records (fun e _ => AttributeRecord.writes e)
theorem AttributeRecordSet.reads (x : AttributeRecordSet) (h : decodable x) : Reads AttributeRecordSet.deserialize (wire x) x :=
    Reads.bind (EntityId.reads x.entity_id) <|
    Reads.bind (reads_u16 x.number_of_attribute_records) <|
    Reads.last (Reads.counted h.1 (fun e he => AttributeRecord.reads e (h.2 e he))) (Reads.ret _)
theorem AttributeRecordSet.loc : Local AttributeRecordSet.deserialize :=
    Local.bind (EntityId.fixed.local) fun _ =>
    Local.bind (fixed_u16.local) fun _ =>
    Local.bind (Local.n AttributeRecord.loc _) fun _ =>
    Local.ret _
theorem AttributeRecordSet.under : OnlyUnderflow AttributeRecordSet.deserialize :=
    OnlyUnderflow.bind (EntityId.fixed.onlyUnderflow) fun _ =>
    OnlyUnderflow.bind (fixed_u16.onlyUnderflow) fun _ =>
    OnlyUnderflow.bind (OnlyUnderflow.n AttributeRecord.under _) fun _ =>
    OnlyUnderflow.ret _
theorem AttributeRecordSet.wire_length (x : AttributeRecordSet) : (wire x).length = 8 + (wire x.attribute_records).length := by
  show (wire x.entity_id ++ (wire x.number_of_attribute_records ++ (wire x.attribute_records))).length = _
  simp only [List.length_append]
  have h_entity_id : (wire x.entity_id).length = 6 := EntityId.wire_length _
  have h_number_of_attribute_records : (wire x.number_of_attribute_records).length = 2 := octets_length _ _
  omega
instance : LawfulEnc AttributeRecordSet where
  writes x _ := AttributeRecordSet.writes x
  ok x := (AttributeRecordSet.writes x).ifOk
  len x := by
    have h1 : field_len x = 8 + field_len x.attribute_records := rfl
    have h2 : field_len x.attribute_records = (wire x.attribute_records).length := len_exact x.attribute_records
    have h3 := AttributeRecordSet.wire_length x
    show ((wire x).length : Int) = (field_len x : Nat) + 0
    omega
  appends x := (AttributeRecordSet.writes x).appends
instance : ExactEnc AttributeRecordSet := ⟨fun _ => trivial, fun _ => rfl, fun _ => rfl⟩
instance : LawfulDec AttributeRecordSet := ⟨fun x h => AttributeRecordSet.reads x h⟩
instance : LocalDec AttributeRecordSet := ⟨AttributeRecordSet.loc⟩
instance : UnderflowDec AttributeRecordSet := ⟨AttributeRecordSet.under⟩

theorem BeamData.writes (x : BeamData) : Writes x.serialize (wire x) :=
    Writes.seq (writes_f32 x.beam_azimuth_center) <|
    Writes.seq (writes_f32 x.beam_azimuth_sweep) <|
    Writes.seq (writes_f32 x.beam_elevation_center) <|
    Writes.seq (writes_f32 x.beam_elevation_sweep) <|
    writes_f32 x.beam_sweep_sync
theorem BeamData.reads (x : BeamData) : Reads BeamData.deserialize (wire x) x :=
    Reads.bind (reads_f32 x.beam_azimuth_center) <|
    Reads.bind (reads_f32 x.beam_azimuth_sweep) <|
    Reads.bind (reads_f32 x.beam_elevation_center) <|
    Reads.bind (reads_f32 x.beam_elevation_sweep) <|
    Reads.last (reads_f32 x.beam_sweep_sync) (Reads.ret _)
theorem BeamData.fixed : Fixed BeamData.deserialize 20 := Fixed.congr (
    Fixed.bind (fixed_f32) fun _ =>
    Fixed.bind (fixed_f32) fun _ =>
    Fixed.bind (fixed_f32) fun _ =>
    Fixed.bind (fixed_f32) fun _ =>
    Fixed.bind (fixed_f32) fun _ =>
    Fixed.ret _) rfl
theorem BeamData.wire_length (x : BeamData) : (wire x).length = 20 := (BeamData.reads x).length_eq BeamData.fixed
instance : LawfulEnc BeamData := ⟨fun x _ => BeamData.writes x, fun x => (BeamData.writes x).ifOk, fun x => by rw [show sent x = x from rfl, BeamData.wire_length]; rfl, fun x => (BeamData.writes x).appends⟩
instance : ExactEnc BeamData := ⟨fun _ => trivial, fun _ => rfl, fun _ => rfl⟩
instance : LawfulDec BeamData := ⟨fun x _ => BeamData.reads x⟩
instance : ExactDec BeamData := ⟨fun _ => trivial, fun _ => rfl⟩
instance : FixedDec BeamData 20 := ⟨BeamData.fixed⟩

theorem ClockTime.writes (x : ClockTime) : Writes x.serialize (wire x) :=
    Writes.seq (writes_u32 x.hour) <|
    writes_u32 x.time_past_hour
theorem ClockTime.reads (x : ClockTime) : Reads ClockTime.deserialize (wire x) x :=
    Reads.bind (reads_u32 x.hour) <|
    Reads.last (reads_u32 x.time_past_hour) (Reads.ret _)
theorem ClockTime.fixed : Fixed ClockTime.deserialize 8 := Fixed.congr (
    Fixed.bind (fixed_u32) fun _ =>
    Fixed.bind (fixed_u32) fun _ =>
    Fixed.ret _) rfl
theorem ClockTime.wire_length (x : ClockTime) : (wire x).length = 8 := (ClockTime.reads x).length_eq ClockTime.fixed
instance : LawfulEnc ClockTime := ⟨fun x _ => ClockTime.writes x, fun x => (ClockTime.writes x).ifOk, fun x => by rw [show sent x = x from rfl, ClockTime.wire_length]; rfl, fun x => (ClockTime.writes x).appends⟩
instance : ExactEnc ClockTime := ⟨fun _ => trivial, fun _ => rfl, fun _ => rfl⟩
instance : LawfulDec ClockTime := ⟨fun x _ => ClockTime.reads x⟩
instance : ExactDec ClockTime := ⟨fun _ => trivial, fun _ => rfl⟩
instance : FixedDec ClockTime 8 := ⟨ClockTime.fixed⟩

theorem LinearAcceleration.writes (x : LinearAcceleration) : Writes x.serialize (wire x) :=
    Writes.seq (writes_f32 x.first_vector_component) <|
    Writes.seq (writes_f32 x.second_vector_component) <|
    writes_f32 x.third_vector_component
theorem LinearAcceleration.reads (x : LinearAcceleration) : Reads LinearAcceleration.deserialize (wire x) x :=
    Reads.bind (reads_f32 x.first_vector_component) <|
    Reads.bind (reads_f32 x.second_vector_component) <|
    Reads.last (reads_f32 x.third_vector_component) (Reads.ret _)
theorem LinearAcceleration.fixed : Fixed LinearAcceleration.deserialize 12 := Fixed.congr (
    Fixed.bind (fixed_f32) fun _ =>
    Fixed.bind (fixed_f32) fun _ =>
    Fixed.bind (fixed_f32) fun _ =>
    Fixed.ret _) rfl
theorem LinearAcceleration.wire_length (x : LinearAcceleration) : (wire x).length = 12 := (LinearAcceleration.reads x).length_eq LinearAcceleration.fixed
instance : LawfulEnc LinearAcceleration := ⟨fun x _ => LinearAcceleration.writes x, fun x => (LinearAcceleration.writes x).ifOk, fun x => by rw [show sent x = x from rfl, LinearAcceleration.wire_length]; rfl, fun x => (LinearAcceleration.writes x).appends⟩
instance : ExactEnc LinearAcceleration := ⟨fun _ => trivial, fun _ => rfl, fun _ => rfl⟩
instance : LawfulDec LinearAcceleration := ⟨fun x _ => LinearAcceleration.reads x⟩
instance : ExactDec LinearAcceleration := ⟨fun _ => trivial, fun _ => rfl⟩
instance : FixedDec LinearAcceleration 12 := ⟨LinearAcceleration.fixed⟩

theorem DeadReckoningParameters.writes (x : DeadReckoningParameters) : Writes x.serialize (wire (sent x)) :=
    Writes.seq (writes_enum8 x.dead_reckoning_algorithm rfl) <|
    Writes.seq (Writes.bytes (List.replicate 15 0)) <|
    Writes.seq (LinearAcceleration.writes x.entity_linear_acceleration) <|
    AngularVelocity.writes x.entity_angular_velocity
theorem DeadReckoningParameters.reads (x : DeadReckoningParameters) : Reads DeadReckoningParameters.deserialize (wire x) x :=
    Reads.bind (EnumSpec.reads x.dead_reckoning_algorithm) <|
    Reads.bind (Reads.arr 15 x.dead_reckoning_other_parameters reads_u8) <|
    Reads.bind (LinearAcceleration.reads x.entity_linear_acceleration) <|
    Reads.last (AngularVelocity.reads x.entity_angular_velocity) (Reads.ret _)
theorem DeadReckoningParameters.fixed : Fixed DeadReckoningParameters.deserialize 40 := Fixed.congr (
    Fixed.bind (EnumSpec.fixed _) fun _ =>
    Fixed.bind (Fixed.arr fixed_u8 15) fun _ =>
    Fixed.bind (LinearAcceleration.fixed) fun _ =>
    Fixed.bind (AngularVelocity.fixed) fun _ =>
    Fixed.ret _) rfl
theorem DeadReckoningParameters.wire_length (x : DeadReckoningParameters) : (wire x).length = 40 := (DeadReckoningParameters.reads x).length_eq DeadReckoningParameters.fixed
instance : LawfulEnc DeadReckoningParameters := ⟨fun x _ => DeadReckoningParameters.writes x, fun x => (DeadReckoningParameters.writes x).ifOk, fun x => by rw [DeadReckoningParameters.wire_length]; rfl, fun x => (DeadReckoningParameters.writes x).appends⟩
instance : LawfulDec DeadReckoningParameters := ⟨fun x _ => DeadReckoningParameters.reads x⟩
instance : ExactDec DeadReckoningParameters := ⟨fun _ => trivial, fun _ => rfl⟩
instance : FixedDec DeadReckoningParameters 40 := ⟨DeadReckoningParameters.fixed⟩

theorem EntityCoordinateVector.writes (x : EntityCoordinateVector) : Writes x.serialize (wire x) :=
    Writes.seq (writes_f32 x.x_coordinate) <|
    Writes.seq (writes_f32 x.y_coordinate) <|
    writes_f32 x.z_coordinate
theorem EntityCoordinateVector.reads (x : EntityCoordinateVector) : Reads EntityCoordinateVector.deserialize (wire x) x :=
    Reads.bind (reads_f32 x.x_coordinate) <|
    Reads.bind (reads_f32 x.y_coordinate) <|
    Reads.last (reads_f32 x.z_coordinate) (Reads.ret _)
theorem EntityCoordinateVector.fixed : Fixed EntityCoordinateVector.deserialize 12 := Fixed.congr (
    Fixed.bind (fixed_f32) fun _ =>
    Fixed.bind (fixed_f32) fun _ =>
    Fixed.bind (fixed_f32) fun _ =>
    Fixed.ret _) rfl
theorem EntityCoordinateVector.wire_length (x : EntityCoordinateVector) : (wire x).length = 12 := (EntityCoordinateVector.reads x).length_eq EntityCoordinateVector.fixed
instance : LawfulEnc EntityCoordinateVector := ⟨fun x _ => EntityCoordinateVector.writes x, fun x => (EntityCoordinateVector.writes x).ifOk, fun x => by rw [show sent x = x from rfl, EntityCoordinateVector.wire_length]; rfl, fun x => (EntityCoordinateVector.writes x).appends⟩
instance : ExactEnc EntityCoordinateVector := ⟨fun _ => trivial, fun _ => rfl, fun _ => rfl⟩
instance : LawfulDec EntityCoordinateVector := ⟨fun x _ => EntityCoordinateVector.reads x⟩
instance : ExactDec EntityCoordinateVector := ⟨fun _ => trivial, fun _ => rfl⟩
instance : FixedDec EntityCoordinateVector 12 := ⟨EntityCoordinateVector.fixed⟩

theorem EventId.writes (x : EventId) : Writes x.serialize (wire x) :=
    Writes.seq (SimulationAddress.writes x.simulation_address) <|
    writes_u16 x.event_identifier
theorem EventId.reads (x : EventId) : Reads EventId.deserialize (wire x) x :=
    Reads.bind (SimulationAddress.reads x.simulation_address) <|
    Reads.last (reads_u16 x.event_identifier) (Reads.ret _)
theorem EventId.fixed : Fixed EventId.deserialize 6 := Fixed.congr (
    Fixed.bind (SimulationAddress.fixed) fun _ =>
    Fixed.bind (fixed_u16) fun _ =>
    Fixed.ret _) rfl
theorem EventId.wire_length (x : EventId) : (wire x).length = 6 := (EventId.reads x).length_eq EventId.fixed
instance : LawfulEnc EventId := ⟨fun x _ => EventId.writes x, fun x => (EventId.writes x).ifOk, fun x => by rw [show sent x = x from rfl, EventId.wire_length]; rfl, fun x => (EventId.writes x).appends⟩
instance : ExactEnc EventId := ⟨fun _ => trivial, fun _ => rfl, fun _ => rfl⟩
instance : LawfulDec EventId := ⟨fun x _ => EventId.reads x⟩
instance : ExactDec EventId := ⟨fun _ => trivial, fun _ => rfl⟩
instance : FixedDec EventId 6 := ⟨EventId.fixed⟩

theorem DirectedEnergyDamage.writes (x : DirectedEnergyDamage) : Writes x.serialize (wire x) :=
    Writes.seq (writes_u32 x.record_type) <|
    Writes.seq (writes_u16 x.record_length) <|
    Writes.seq (writes_u16 x.padding) <|
    Writes.seq (EntityCoordinateVector.writes x.damage_location) <|
    Writes.seq (writes_f32 x.damage_diameter) <|
    Writes.seq (writes_f32 x.temperature) <|
    Writes.seq (writes_enum8 x.component_identification rfl) <|
    Writes.seq (writes_enum8 x.component_damage_status rfl) <|
    Writes.seq (writes_u8 x.component_visual_damage_status) <|
    Writes.seq (writes_enum8 x.component_visual_smoke_color rfl) <|
    Writes.seq (EventId.writes x.fire_event_id) <|
    writes_u16 x.padding2
theorem DirectedEnergyDamage.reads (x : DirectedEnergyDamage) : Reads DirectedEnergyDamage.deserialize (wire x) x :=
    Reads.bind (reads_u32 x.record_type) <|
    Reads.bind (reads_u16 x.record_length) <|
    Reads.bind (reads_u16 x.padding) <|
    Reads.bind (EntityCoordinateVector.reads x.damage_location) <|
    Reads.bind (reads_f32 x.damage_diameter) <|
    Reads.bind (reads_f32 x.temperature) <|
    Reads.bind (EnumSpec.reads x.component_identification) <|
    Reads.bind (EnumSpec.reads x.component_damage_status) <|
    Reads.bind (reads_u8 x.component_visual_damage_status) <|
    Reads.bind (EnumSpec.reads x.component_visual_smoke_color) <|
    Reads.bind (EventId.reads x.fire_event_id) <|
    Reads.last (reads_u16 x.padding2) (Reads.ret _)
theorem DirectedEnergyDamage.fixed : Fixed DirectedEnergyDamage.deserialize 40 := Fixed.congr (
    Fixed.bind (fixed_u32) fun _ =>
    Fixed.bind (fixed_u16) fun _ =>
    Fixed.bind (fixed_u16) fun _ =>
    Fixed.bind (EntityCoordinateVector.fixed) fun _ =>
    Fixed.bind (fixed_f32) fun _ =>
    Fixed.bind (fixed_f32) fun _ =>
    Fixed.bind (EnumSpec.fixed _) fun _ =>
    Fixed.bind (EnumSpec.fixed _) fun _ =>
    Fixed.bind (fixed_u8) fun _ =>
    Fixed.bind (EnumSpec.fixed _) fun _ =>
    Fixed.bind (EventId.fixed) fun _ =>
    Fixed.bind (fixed_u16) fun _ =>
    Fixed.ret _) rfl
theorem DirectedEnergyDamage.wire_length (x : DirectedEnergyDamage) : (wire x).length = 40 := (DirectedEnergyDamage.reads x).length_eq DirectedEnergyDamage.fixed
instance : LawfulEnc DirectedEnergyDamage := ⟨fun x _ => DirectedEnergyDamage.writes x, fun x => (DirectedEnergyDamage.writes x).ifOk, fun x => by rw [show sent x = x from rfl, DirectedEnergyDamage.wire_length]; rfl, fun x => (DirectedEnergyDamage.writes x).appends⟩
instance : ExactEnc DirectedEnergyDamage := ⟨fun _ => trivial, fun _ => rfl, fun _ => rfl⟩
instance : LawfulDec DirectedEnergyDamage := ⟨fun x _ => DirectedEnergyDamage.reads x⟩
instance : ExactDec DirectedEnergyDamage := ⟨fun _ => trivial, fun _ => rfl⟩
instance : FixedDec DirectedEnergyDamage 40 := ⟨DirectedEnergyDamage.fixed⟩

theorem FundamentalParameterData.writes (x : FundamentalParameterData) : Writes x.serialize (wire x) :=
    Writes.seq (writes_f32 x.frequency) <|
    Writes.seq (writes_f32 x.frequency_range) <|
    Writes.seq (writes_f32 x.effective_radiated_power) <|
    Writes.seq (writes_f32 x.pulse_repetition_frequency) <|
    Writes.seq (writes_f32 x.pulse_width) <|
    Writes.seq (writes_f32 x.beam_azimuth_center) <|
    Writes.seq (writes_f32 x.beam_azimuth_sweep) <|
    Writes.seq (writes_f32 x.beam_elevation_center) <|
    Writes.seq (writes_f32 x.beam_elevation_sweep) <|
    writes_f32 x.beam_sweep_sync
theorem FundamentalParameterData.reads (x : FundamentalParameterData) : Reads FundamentalParameterData.deserialize (wire x) x :=
    Reads.bind (reads_f32 x.frequency) <|
    Reads.bind (reads_f32 x.frequency_range) <|
    Reads.bind (reads_f32 x.effective_radiated_power) <|
    Reads.bind (reads_f32 x.pulse_repetition_frequency) <|
    Reads.bind (reads_f32 x.pulse_width) <|
    Reads.bind (reads_f32 x.beam_azimuth_center) <|
    Reads.bind (reads_f32 x.beam_azimuth_sweep) <|
    Reads.bind (reads_f32 x.beam_elevation_center) <|
    Reads.bind (reads_f32 x.beam_elevation_sweep) <|
    Reads.last (reads_f32 x.beam_sweep_sync) (Reads.ret _)
theorem FundamentalParameterData.fixed : Fixed FundamentalParameterData.deserialize 40 := Fixed.congr (
    Fixed.bind (fixed_f32) fun _ =>
    Fixed.bind (fixed_f32) fun _ =>
    Fixed.bind (fixed_f32) fun _ =>
    Fixed.bind (fixed_f32) fun _ =>
    Fixed.bind (fixed_f32) fun _ =>
    Fixed.bind (fixed_f32) fun _ =>
    Fixed.bind (fixed_f32) fun _ =>
    Fixed.bind (fixed_f32) fun _ =>
    Fixed.bind (fixed_f32) fun _ =>
    Fixed.bind (fixed_f32) fun _ =>
    Fixed.ret _) rfl
theorem FundamentalParameterData.wire_length (x : FundamentalParameterData) : (wire x).length = 40 := (FundamentalParameterData.reads x).length_eq FundamentalParameterData.fixed
instance : LawfulEnc FundamentalParameterData := ⟨fun x _ => FundamentalParameterData.writes x, fun x => (FundamentalParameterData.writes x).ifOk, fun x => by rw [show sent x = x from rfl, FundamentalParameterData.wire_length]; rfl, fun x => (FundamentalParameterData.writes x).appends⟩
instance : ExactEnc FundamentalParameterData := ⟨fun _ => trivial, fun _ => rfl, fun _ => rfl⟩
instance : LawfulDec FundamentalParameterData := ⟨fun x _ => FundamentalParameterData.reads x⟩
instance : ExactDec FundamentalParameterData := ⟨fun _ => trivial, fun _ => rfl⟩
instance : FixedDec FundamentalParameterData 40 := ⟨FundamentalParameterData.fixed⟩

theorem TrackJamTarget.writes (x : TrackJamTarget) : Writes x.serialize (wire x) :=
    Writes.seq (EntityId.writes x.track_jam) <|
    Writes.seq (writes_u8 x.emitter_id) <|
    writes_u8 x.beam_id
theorem TrackJamTarget.reads (x : TrackJamTarget) : Reads TrackJamTarget.deserialize (wire x) x :=
    Reads.bind (EntityId.reads x.track_jam) <|
    Reads.bind (reads_u8 x.emitter_id) <|
    Reads.last (reads_u8 x.beam_id) (Reads.ret _)
theorem TrackJamTarget.fixed : Fixed TrackJamTarget.deserialize 8 := Fixed.congr (
    Fixed.bind (EntityId.fixed) fun _ =>
    Fixed.bind (fixed_u8) fun _ =>
    Fixed.bind (fixed_u8) fun _ =>
    Fixed.ret _) rfl
theorem TrackJamTarget.wire_length (x : TrackJamTarget) : (wire x).length = 8 := (TrackJamTarget.reads x).length_eq TrackJamTarget.fixed
instance : LawfulEnc TrackJamTarget := ⟨fun x _ => TrackJamTarget.writes x, fun x => (TrackJamTarget.writes x).ifOk, fun x => by rw [show sent x = x from rfl, TrackJamTarget.wire_length]; rfl, fun x => (TrackJamTarget.writes x).appends⟩
instance : ExactEnc TrackJamTarget := ⟨fun _ => trivial, fun _ => rfl, fun _ => rfl⟩
instance : LawfulDec TrackJamTarget := ⟨fun x _ => TrackJamTarget.reads x⟩
instance : ExactDec TrackJamTarget := ⟨fun _ => trivial, fun _ => rfl⟩
instance : FixedDec TrackJamTarget 8 := ⟨TrackJamTarget.fixed⟩

theorem ElectromagneticEmissionBeamData.writes (x : ElectromagneticEmissionBeamData) : Writes x.serialize (wire x) :=
    Writes.seq (writes_u8 x.beam_data_length) <|
    Writes.seq (writes_u8 x.beam_id_number) <|
    Writes.seq (writes_u16 x.beam_parameter_index) <|
    Writes.seq (FundamentalParameterData.writes x.fundamental_parameter_data) <|
    Writes.seq (writes_u8 x.beam_function) <|
    Writes.seq (writes_u8 x.number_of_track_jam_targets) <|
    Writes.seq (writes_u8 x.high_density_track_jam) <|
    Writes.seq (writes_u8 x.pad4) <|
    Writes.seq (writes_u32 x.jamming_mode_sequence) <|
    Writes.each x.track_jam_targets (fun e _ => TrackJamTarget.writes e)
theorem ElectromagneticEmissionBeamData.reads (x : ElectromagneticEmissionBeamData) (h : decodable x) : Reads ElectromagneticEmissionBeamData.deserialize (wire x) x :=
    Reads.bind (reads_u8 x.beam_data_length) <|
    Reads.bind (reads_u8 x.beam_id_number) <|
    Reads.bind (reads_u16 x.beam_parameter_index) <|
    Reads.bind (FundamentalParameterData.reads x.fundamental_parameter_data) <|
    Reads.bind (reads_u8 x.beam_function) <|
    Reads.bind (reads_u8 x.number_of_track_jam_targets) <|
    Reads.bind (reads_u8 x.high_density_track_jam) <|
    Reads.bind (reads_u8 x.pad4) <|
    Reads.bind (reads_u32 x.jamming_mode_sequence) <|
    Reads.last (Reads.counted h (fun e _ => TrackJamTarget.reads e)) (Reads.ret _)
theorem ElectromagneticEmissionBeamData.loc : Local ElectromagneticEmissionBeamData.deserialize :=
    Local.bind (fixed_u8.local) fun _ =>
    Local.bind (fixed_u8.local) fun _ =>
    Local.bind (fixed_u16.local) fun _ =>
    Local.bind (FundamentalParameterData.fixed.local) fun _ =>
    Local.bind (fixed_u8.local) fun _ =>
    Local.bind (fixed_u8.local) fun _ =>
    Local.bind (fixed_u8.local) fun _ =>
    Local.bind (fixed_u8.local) fun _ =>
    Local.bind (fixed_u32.local) fun _ =>
    Local.bind (Local.n TrackJamTarget.fixed.local _) fun _ =>
    Local.ret _
theorem ElectromagneticEmissionBeamData.under : OnlyUnderflow ElectromagneticEmissionBeamData.deserialize :=
    OnlyUnderflow.bind (fixed_u8.onlyUnderflow) fun _ =>
    OnlyUnderflow.bind (fixed_u8.onlyUnderflow) fun _ =>
    OnlyUnderflow.bind (fixed_u16.onlyUnderflow) fun _ =>
    OnlyUnderflow.bind (FundamentalParameterData.fixed.onlyUnderflow) fun _ =>
    OnlyUnderflow.bind (fixed_u8.onlyUnderflow) fun _ =>
    OnlyUnderflow.bind (fixed_u8.onlyUnderflow) fun _ =>
    OnlyUnderflow.bind (fixed_u8.onlyUnderflow) fun _ =>
    OnlyUnderflow.bind (fixed_u8.onlyUnderflow) fun _ =>
    OnlyUnderflow.bind (fixed_u32.onlyUnderflow) fun _ =>
    OnlyUnderflow.bind (OnlyUnderflow.n TrackJamTarget.fixed.onlyUnderflow _) fun _ =>
    OnlyUnderflow.ret _
theorem ElectromagneticEmissionBeamData.wire_length (x : ElectromagneticEmissionBeamData) : (wire x).length = 52 + (wire x.track_jam_targets).length := by
  show (wire x.beam_data_length ++ (wire x.beam_id_number ++ (wire x.beam_parameter_index ++ (wire x.fundamental_parameter_data ++ (wire x.beam_function ++ (wire x.number_of_track_jam_targets ++ (wire x.high_density_track_jam ++ (wire x.pad4 ++ (wire x.jamming_mode_sequence ++ (wire x.track_jam_targets)))))))))).length = _
  simp only [List.length_append]
  have h_beam_data_length : (wire x.beam_data_length).length = 1 := octets_length _ _
  have h_beam_id_number : (wire x.beam_id_number).length = 1 := octets_length _ _
  have h_beam_parameter_index : (wire x.beam_parameter_index).length = 2 := octets_length _ _
  have h_fundamental_parameter_data : (wire x.fundamental_parameter_data).length = 40 := FundamentalParameterData.wire_length _
  have h_beam_function : (wire x.beam_function).length = 1 := octets_length _ _
  have h_number_of_track_jam_targets : (wire x.number_of_track_jam_targets).length = 1 := octets_length _ _
  have h_high_density_track_jam : (wire x.high_density_track_jam).length = 1 := octets_length _ _
  have h_pad4 : (wire x.pad4).length = 1 := octets_length _ _
  have h_jamming_mode_sequence : (wire x.jamming_mode_sequence).length = 4 := octets_length _ _
  omega
instance : LawfulEnc ElectromagneticEmissionBeamData where
  writes x _ := ElectromagneticEmissionBeamData.writes x
  ok x := (ElectromagneticEmissionBeamData.writes x).ifOk
  len x := by
    have h1 : field_len x = 52 + field_len x.track_jam_targets := rfl
    have h2 : field_len x.track_jam_targets = (wire x.track_jam_targets).length := len_exact x.track_jam_targets
    have h3 := ElectromagneticEmissionBeamData.wire_length x
    show ((wire x).length : Int) = (field_len x : Nat) + 0
    omega
  appends x := (ElectromagneticEmissionBeamData.writes x).appends
instance : ExactEnc ElectromagneticEmissionBeamData := ⟨fun _ => trivial, fun _ => rfl, fun _ => rfl⟩
instance : LawfulDec ElectromagneticEmissionBeamData := ⟨fun x h => ElectromagneticEmissionBeamData.reads x h⟩
instance : LocalDec ElectromagneticEmissionBeamData := ⟨ElectromagneticEmissionBeamData.loc⟩
instance : UnderflowDec ElectromagneticEmissionBeamData := ⟨ElectromagneticEmissionBeamData.under⟩

theorem EmitterSystem.writes (x : EmitterSystem) : Writes x.serialize (wire x) :=
    Writes.seq (writes_enum16 x.emitter_name rfl) <|
    Writes.seq (writes_enum8 x.function rfl) <|
    writes_u8 x.emitter_id_number
theorem EmitterSystem.reads (x : EmitterSystem) : Reads EmitterSystem.deserialize (wire x) x :=
    Reads.bind (EnumSpec.reads x.emitter_name) <|
    Reads.bind (EnumSpec.reads x.function) <|
    Reads.last (reads_u8 x.emitter_id_number) (Reads.ret _)
theorem EmitterSystem.fixed : Fixed EmitterSystem.deserialize 4 := Fixed.congr (
    Fixed.bind (EnumSpec.fixed _) fun _ =>
    Fixed.bind (EnumSpec.fixed _) fun _ =>
    Fixed.bind (fixed_u8) fun _ =>
    Fixed.ret _) rfl
theorem EmitterSystem.wire_length (x : EmitterSystem) : (wire x).length = 4 := (EmitterSystem.reads x).length_eq EmitterSystem.fixed

theorem ElectromagneticEmissionSystemData.writes (x : ElectromagneticEmissionSystemData) : Writes x.serialize (wire x) :=
    Writes.seq (writes_u8 x.system_data_length) <|
    Writes.seq (writes_u8 x.number_of_beams) <|
    Writes.seq (writes_u16 x.emissionspadding2) <|
    Writes.seq (EmitterSystem.writes x.emitter_system) <|
    Writes.seq (Vector3Float.writes x.location) <|
    Writes.each x.beam_data_records (fun e _ => ElectromagneticEmissionBeamData.writes e)
theorem ElectromagneticEmissionSystemData.reads (x : ElectromagneticEmissionSystemData) (h : decodable x) : Reads ElectromagneticEmissionSystemData.deserialize (wire x) x :=
    Reads.bind (reads_u8 x.system_data_length) <|
    Reads.bind (reads_u8 x.number_of_beams) <|
    Reads.bind (reads_u16 x.emissionspadding2) <|
    Reads.bind (EmitterSystem.reads x.emitter_system) <|
    Reads.bind (Vector3Float.reads x.location) <|
    Reads.last (Reads.counted h.1 (fun e he => ElectromagneticEmissionBeamData.reads e (h.2 e he))) (Reads.ret _)
theorem ElectromagneticEmissionSystemData.loc : Local ElectromagneticEmissionSystemData.deserialize :=
    Local.bind (fixed_u8.local) fun _ =>
    Local.bind (fixed_u8.local) fun _ =>
    Local.bind (fixed_u16.local) fun _ =>
    Local.bind (EmitterSystem.fixed.local) fun _ =>
    Local.bind (Vector3Float.fixed.local) fun _ =>
    Local.bind (Local.n ElectromagneticEmissionBeamData.loc _) fun _ =>
    Local.ret _
theorem ElectromagneticEmissionSystemData.under : OnlyUnderflow ElectromagneticEmissionSystemData.deserialize :=
    OnlyUnderflow.bind (fixed_u8.onlyUnderflow) fun _ =>
    OnlyUnderflow.bind (fixed_u8.onlyUnderflow) fun _ =>
    OnlyUnderflow.bind (fixed_u16.onlyUnderflow) fun _ =>
    OnlyUnderflow.bind (EmitterSystem.fixed.onlyUnderflow) fun _ =>
    OnlyUnderflow.bind (Vector3Float.fixed.onlyUnderflow) fun _ =>
    OnlyUnderflow.bind (OnlyUnderflow.n ElectromagneticEmissionBeamData.under _) fun _ =>
    OnlyUnderflow.ret _
theorem ElectromagneticEmissionSystemData.wire_length (x : ElectromagneticEmissionSystemData) : (wire x).length = 20 + (wire x.beam_data_records).length := by
  show (wire x.system_data_length ++ (wire x.number_of_beams ++ (wire x.emissionspadding2 ++ (wire x.emitter_system ++ (wire x.location ++ (wire x.beam_data_records)))))).length = _
  simp only [List.length_append]
  have h_system_data_length : (wire x.system_data_length).length = 1 := octets_length _ _
  have h_number_of_beams : (wire x.number_of_beams).length = 1 := octets_length _ _
  have h_emissionspadding2 : (wire x.emissionspadding2).length = 2 := octets_length _ _
  have h_emitter_system : (wire x.emitter_system).length = 4 := EmitterSystem.wire_length _
  have h_location : (wire x.location).length = 12 := Vector3Float.wire_length _
  omega
instance : LawfulEnc ElectromagneticEmissionSystemData where
  writes x _ := ElectromagneticEmissionSystemData.writes x
  ok x := (ElectromagneticEmissionSystemData.writes x).ifOk
  len x := by
    have h1 : field_len x = 20 + field_len x.beam_data_records := rfl
    have h2 : field_len x.beam_data_records = (wire x.beam_data_records).length := len_exact x.beam_data_records
    have h3 := ElectromagneticEmissionSystemData.wire_length x
    show ((wire x).length : Int) = (field_len x : Nat) + 0
    omega
  appends x := (ElectromagneticEmissionSystemData.writes x).appends
instance : ExactEnc ElectromagneticEmissionSystemData := ⟨fun _ => trivial, fun _ => rfl, fun _ => rfl⟩
instance : LawfulDec ElectromagneticEmissionSystemData := ⟨fun x h => ElectromagneticEmissionSystemData.reads x h⟩
instance : LocalDec ElectromagneticEmissionSystemData := ⟨ElectromagneticEmissionSystemData.loc⟩
instance : UnderflowDec ElectromagneticEmissionSystemData := ⟨ElectromagneticEmissionSystemData.under⟩

theorem EntityType.writes (x : EntityType) : Writes x.serialize (wire x) :=
    Writes.seq (writes_enum8 x.kind rfl) <|
    Writes.seq (writes_u8 x.domain) <|
    Writes.seq (writes_enum16 x.country rfl) <|
    Writes.seq (writes_u8 x.category) <|
    Writes.seq (writes_u8 x.subcategory) <|
    Writes.seq (writes_u8 x.specific) <|
    writes_u8 x.extra
theorem EntityType.reads (x : EntityType) : Reads EntityType.deserialize (wire x) x :=
    Reads.bind (EnumSpec.reads x.kind) <|
    Reads.bind (reads_u8 x.domain) <|
    Reads.bind (EnumSpec.reads x.country) <|
    Reads.bind (reads_u8 x.category) <|
    Reads.bind (reads_u8 x.subcategory) <|
    Reads.bind (reads_u8 x.specific) <|
    Reads.last (reads_u8 x.extra) (Reads.ret _)
theorem EntityType.fixed : Fixed EntityType.deserialize 8 := Fixed.congr (
    Fixed.bind (EnumSpec.fixed _) fun _ =>
    Fixed.bind (fixed_u8) fun _ =>
    Fixed.bind (EnumSpec.fixed _) fun _ =>
    Fixed.bind (fixed_u8) fun _ =>
    Fixed.bind (fixed_u8) fun _ =>
    Fixed.bind (fixed_u8) fun _ =>
    Fixed.bind (fixed_u8) fun _ =>
    Fixed.ret _) rfl
theorem EntityType.wire_length (x : EntityType) : (wire x).length = 8 := (EntityType.reads x).length_eq EntityType.fixed
instance : LawfulEnc EntityType := ⟨fun x _ => EntityType.writes x, fun x => (EntityType.writes x).ifOk, fun x => by rw [show sent x = x from rfl, EntityType.wire_length]; rfl, fun x => (EntityType.writes x).appends⟩
instance : ExactEnc EntityType := ⟨fun _ => trivial, fun _ => rfl, fun _ => rfl⟩
instance : LawfulDec EntityType := ⟨fun x _ => EntityType.reads x⟩
instance : ExactDec EntityType := ⟨fun _ => trivial, fun _ => rfl⟩
instance : FixedDec EntityType 8 := ⟨EntityType.fixed⟩

theorem Environment.writes (x : Environment) : Writes x.serialize (wire x) :=
    Writes.seq (writes_u32 x.environment_type) <|
    Writes.seq (writes_u16 x.length) <|
    Writes.seq (writes_u8 x.index) <|
    writes_u8 x.padding
theorem Environment.reads (x : Environment) : Reads Environment.deserialize (wire x) x :=
    Reads.bind (reads_u32 x.environment_type) <|
    Reads.bind (reads_u16 x.length) <|
    Reads.bind (reads_u8 x.index) <|
    Reads.last (reads_u8 x.padding) (Reads.ret _)
theorem Environment.fixed : Fixed Environment.deserialize 8 := Fixed.congr (
    Fixed.bind (fixed_u32) fun _ =>
    Fixed.bind (fixed_u16) fun _ =>
    Fixed.bind (fixed_u8) fun _ =>
    Fixed.bind (fixed_u8) fun _ =>
    Fixed.ret _) rfl
theorem Environment.wire_length (x : Environment) : (wire x).length = 8 := (Environment.reads x).length_eq Environment.fixed
instance : LawfulEnc Environment := ⟨fun x _ => Environment.writes x, fun x => (Environment.writes x).ifOk, fun x => by rw [show sent x = x from rfl, Environment.wire_length]; rfl, fun x => (Environment.writes x).appends⟩
instance : ExactEnc Environment := ⟨fun _ => trivial, fun _ => rfl, fun _ => rfl⟩
instance : LawfulDec Environment := ⟨fun x _ => Environment.reads x⟩
instance : ExactDec Environment := ⟨fun _ => trivial, fun _ => rfl⟩
instance : FixedDec Environment 8 := ⟨Environment.fixed⟩

theorem EulerAngles.writes (x : EulerAngles) : Writes x.serialize (wire x) :=
    Writes.seq (writes_f32 x.psi) <|
    Writes.seq (writes_f32 x.theta) <|
    writes_f32 x.phi
theorem EulerAngles.reads (x : EulerAngles) : Reads EulerAngles.deserialize (wire x) x :=
    Reads.bind (reads_f32 x.psi) <|
    Reads.bind (reads_f32 x.theta) <|
    Reads.last (reads_f32 x.phi) (Reads.ret _)
theorem EulerAngles.fixed : Fixed EulerAngles.deserialize 12 := Fixed.congr (
    Fixed.bind (fixed_f32) fun _ =>
    Fixed.bind (fixed_f32) fun _ =>
    Fixed.bind (fixed_f32) fun _ =>
    Fixed.ret _) rfl
theorem EulerAngles.wire_length (x : EulerAngles) : (wire x).length = 12 := (EulerAngles.reads x).length_eq EulerAngles.fixed
instance : LawfulEnc EulerAngles := ⟨fun x _ => EulerAngles.writes x, fun x => (EulerAngles.writes x).ifOk, fun x => by rw [show sent x = x from rfl, EulerAngles.wire_length]; rfl, fun x => (EulerAngles.writes x).appends⟩
instance : ExactEnc EulerAngles := ⟨fun _ => trivial, fun _ => rfl, fun _ => rfl⟩
instance : LawfulDec EulerAngles := ⟨fun x _ => EulerAngles.reads x⟩
instance : ExactDec EulerAngles := ⟨fun _ => trivial, fun _ => rfl⟩
instance : FixedDec EulerAngles 12 := ⟨EulerAngles.fixed⟩

theorem FixedDatumRecord.writes (x : FixedDatumRecord) : Writes x.serialize (wire x) :=
    Writes.seq (writes_u32 x.datum_id) <|
    writes_u32 x.datum_value
theorem FixedDatumRecord.reads (x : FixedDatumRecord) : Reads FixedDatumRecord.deserialize (wire x) x :=
    Reads.bind (reads_u32 x.datum_id) <|
    Reads.last (reads_u32 x.datum_value) (Reads.ret _)
theorem FixedDatumRecord.fixed : Fixed FixedDatumRecord.deserialize 8 := Fixed.congr (
    Fixed.bind (fixed_u32) fun _ =>
    Fixed.bind (fixed_u32) fun _ =>
    Fixed.ret _) rfl
theorem FixedDatumRecord.wire_length (x : FixedDatumRecord) : (wire x).length = 8 := (FixedDatumRecord.reads x).length_eq FixedDatumRecord.fixed
instance : LawfulEnc FixedDatumRecord := ⟨fun x _ => FixedDatumRecord.writes x, fun x => (FixedDatumRecord.writes x).ifOk, fun x => by rw [show sent x = x from rfl, FixedDatumRecord.wire_length]; rfl, fun x => (FixedDatumRecord.writes x).appends⟩
instance : ExactEnc FixedDatumRecord := ⟨fun _ => trivial, fun _ => rfl, fun _ => rfl⟩
instance : LawfulDec FixedDatumRecord := ⟨fun x _ => FixedDatumRecord.reads x⟩
instance : ExactDec FixedDatumRecord := ⟨fun _ => trivial, fun _ => rfl⟩
instance : FixedDec FixedDatumRecord 8 := ⟨FixedDatumRecord.fixed⟩

theorem FundamentalOperationalData.writes (x : FundamentalOperationalData) : Writes x.serialize (wire x) :=
    Writes.seq (writes_u8 x.system_status) <|
    Writes.seq (writes_u8 x.data_field1) <|
    Writes.seq (writes_u8 x.information_layers) <|
    Writes.seq (writes_u8 x.data_field2) <|
    Writes.seq (writes_u16 x.parameter1) <|
    Writes.seq (writes_u16 x.parameter2) <|
    Writes.seq (writes_u16 x.parameter3) <|
    Writes.seq (writes_u16 x.parameter4) <|
    Writes.seq (writes_u16 x.parameter5) <|
    writes_u16 x.parameter6
theorem FundamentalOperationalData.reads (x : FundamentalOperationalData) : Reads FundamentalOperationalData.deserialize (wire x) x :=
    Reads.bind (reads_u8 x.system_status) <|
    Reads.bind (reads_u8 x.data_field1) <|
    Reads.bind (reads_u8 x.information_layers) <|
    Reads.bind (reads_u8 x.data_field2) <|
    Reads.bind (reads_u16 x.parameter1) <|
    Reads.bind (reads_u16 x.parameter2) <|
    Reads.bind (reads_u16 x.parameter3) <|
    Reads.bind (reads_u16 x.parameter4) <|
    Reads.bind (reads_u16 x.parameter5) <|
    Reads.last (reads_u16 x.parameter6) (Reads.ret _)
theorem FundamentalOperationalData.fixed : Fixed FundamentalOperationalData.deserialize 16 := Fixed.congr (
    Fixed.bind (fixed_u8) fun _ =>
    Fixed.bind (fixed_u8) fun _ =>
    Fixed.bind (fixed_u8) fun _ =>
    Fixed.bind (fixed_u8) fun _ =>
    Fixed.bind (fixed_u16) fun _ =>
    Fixed.bind (fixed_u16) fun _ =>
    Fixed.bind (fixed_u16) fun _ =>
    Fixed.bind (fixed_u16) fun _ =>
    Fixed.bind (fixed_u16) fun _ =>
    Fixed.bind (fixed_u16) fun _ =>
    Fixed.ret _) rfl
theorem FundamentalOperationalData.wire_length (x : FundamentalOperationalData) : (wire x).length = 16 := (FundamentalOperationalData.reads x).length_eq FundamentalOperationalData.fixed
instance : LawfulEnc FundamentalOperationalData := ⟨fun x _ => FundamentalOperationalData.writes x, fun x => (FundamentalOperationalData.writes x).ifOk, fun x => by rw [show sent x = x from rfl, FundamentalOperationalData.wire_length]; rfl, fun x => (FundamentalOperationalData.writes x).appends⟩
instance : ExactEnc FundamentalOperationalData := ⟨fun _ => trivial, fun _ => rfl, fun _ => rfl⟩
instance : LawfulDec FundamentalOperationalData := ⟨fun x _ => FundamentalOperationalData.reads x⟩
instance : ExactDec FundamentalOperationalData := ⟨fun _ => trivial, fun _ => rfl⟩
instance : FixedDec FundamentalOperationalData 16 := ⟨FundamentalOperationalData.fixed⟩

theorem IFFFundamentalParameterData.writes (x : IFFFundamentalParameterData) : Writes x.serialize (wire x) :=
    Writes.seq (writes_f32 x.erp) <|
    Writes.seq (writes_f32 x.frequency) <|
    Writes.seq (writes_f32 x.pgrf) <|
    Writes.seq (writes_f32 x.pulse_width) <|
    Writes.seq (writes_u32 x.burst_length) <|
    Writes.seq (writes_u8 x.applicable_modes) <|
    Writes.each x.system_specific_data.toList (fun e _ => writes_u8 e)
theorem IFFFundamentalParameterData.reads (x : IFFFundamentalParameterData) : Reads IFFFundamentalParameterData.deserialize (wire x) x :=
    Reads.bind (reads_f32 x.erp) <|
    Reads.bind (reads_f32 x.frequency) <|
    Reads.bind (reads_f32 x.pgrf) <|
    Reads.bind (reads_f32 x.pulse_width) <|
    Reads.bind (reads_u32 x.burst_length) <|
    Reads.bind (reads_u8 x.applicable_modes) <|
    Reads.last (Reads.arr 3 x.system_specific_data reads_u8) (Reads.ret _)
theorem IFFFundamentalParameterData.fixed : Fixed IFFFundamentalParameterData.deserialize 24 := Fixed.congr (
    Fixed.bind (fixed_f32) fun _ =>
    Fixed.bind (fixed_f32) fun _ =>
    Fixed.bind (fixed_f32) fun _ =>
    Fixed.bind (fixed_f32) fun _ =>
    Fixed.bind (fixed_u32) fun _ =>
    Fixed.bind (fixed_u8) fun _ =>
    Fixed.bind (Fixed.arr fixed_u8 3) fun _ =>
    Fixed.ret _) rfl
theorem IFFFundamentalParameterData.wire_length (x : IFFFundamentalParameterData) : (wire x).length = 24 := (IFFFundamentalParameterData.reads x).length_eq IFFFundamentalParameterData.fixed
instance : LawfulEnc IFFFundamentalParameterData := ⟨fun x _ => IFFFundamentalParameterData.writes x, fun x => (IFFFundamentalParameterData.writes x).ifOk, fun x => by rw [show sent x = x from rfl, IFFFundamentalParameterData.wire_length]; rfl, fun x => (IFFFundamentalParameterData.writes x).appends⟩
instance : ExactEnc IFFFundamentalParameterData := ⟨fun _ => trivial, fun _ => rfl, fun _ => rfl⟩
instance : LawfulDec IFFFundamentalParameterData := ⟨fun x _ => IFFFundamentalParameterData.reads x⟩
instance : ExactDec IFFFundamentalParameterData := ⟨fun _ => trivial, fun _ => rfl⟩
instance : FixedDec IFFFundamentalParameterData 24 := ⟨IFFFundamentalParameterData.fixed⟩

theorem IntercomCommunicationsParameters.writes (x : IntercomCommunicationsParameters) : Writes x.serialize (wire x) :=
    Writes.seq (writes_u16 x.record_type) <|
    Writes.seq (writes_u16 x.record_length) <|
    writes_u32 x.record_specific_field
theorem IntercomCommunicationsParameters.reads (x : IntercomCommunicationsParameters) : Reads IntercomCommunicationsParameters.deserialize (wire x) x :=
    Reads.bind (reads_u16 x.record_type) <|
    Reads.bind (reads_u16 x.record_length) <|
    Reads.last (reads_u32 x.record_specific_field) (Reads.ret _)
theorem IntercomCommunicationsParameters.fixed : Fixed IntercomCommunicationsParameters.deserialize 8 := Fixed.congr (
    Fixed.bind (fixed_u16) fun _ =>
    Fixed.bind (fixed_u16) fun _ =>
    Fixed.bind (fixed_u32) fun _ =>
    Fixed.ret _) rfl
theorem IntercomCommunicationsParameters.wire_length (x : IntercomCommunicationsParameters) : (wire x).length = 8 := (IntercomCommunicationsParameters.reads x).length_eq IntercomCommunicationsParameters.fixed
instance : LawfulEnc IntercomCommunicationsParameters := ⟨fun x _ => IntercomCommunicationsParameters.writes x, fun x => (IntercomCommunicationsParameters.writes x).ifOk, fun x => by rw [show sent x = x from rfl, IntercomCommunicationsParameters.wire_length]; rfl, fun x => (IntercomCommunicationsParameters.writes x).appends⟩
instance : ExactEnc IntercomCommunicationsParameters := ⟨fun _ => trivial, fun _ => rfl, fun _ => rfl⟩
instance : LawfulDec IntercomCommunicationsParameters := ⟨fun x _ => IntercomCommunicationsParameters.reads x⟩
instance : ExactDec IntercomCommunicationsParameters := ⟨fun _ => trivial, fun _ => rfl⟩
instance : FixedDec IntercomCommunicationsParameters 8 := ⟨IntercomCommunicationsParameters.fixed⟩

theorem LayerHeader.writes (x : LayerHeader) : Writes x.serialize (wire x) :=
    Writes.seq (writes_u8 x.layer_number) <|
    Writes.seq (writes_u8 x.layer_specific_information) <|
    writes_u16 x.length
theorem LayerHeader.reads (x : LayerHeader) : Reads LayerHeader.deserialize (wire x) x :=
    Reads.bind (reads_u8 x.layer_number) <|
    Reads.bind (reads_u8 x.layer_specific_information) <|
    Reads.last (reads_u16 x.length) (Reads.ret _)
theorem LayerHeader.fixed : Fixed LayerHeader.deserialize 4 := Fixed.congr (
    Fixed.bind (fixed_u8) fun _ =>
    Fixed.bind (fixed_u8) fun _ =>
    Fixed.bind (fixed_u16) fun _ =>
    Fixed.ret _) rfl
theorem LayerHeader.wire_length (x : LayerHeader) : (wire x).length = 4 := (LayerHeader.reads x).length_eq LayerHeader.fixed
instance : LawfulEnc LayerHeader := ⟨fun x _ => LayerHeader.writes x, fun x => (LayerHeader.writes x).ifOk, fun x => by rw [show sent x = x from rfl, LayerHeader.wire_length]; rfl, fun x => (LayerHeader.writes x).appends⟩
instance : ExactEnc LayerHeader := ⟨fun _ => trivial, fun _ => rfl, fun _ => rfl⟩
instance : LawfulDec LayerHeader := ⟨fun x _ => LayerHeader.reads x⟩
instance : ExactDec LayerHeader := ⟨fun _ => trivial, fun _ => rfl⟩
instance : FixedDec LayerHeader 4 := ⟨LayerHeader.fixed⟩

theorem WorldCoordinate.writes (x : WorldCoordinate) : Writes x.serialize (wire x) :=
    Writes.seq (writes_f64 x.x) <|
    Writes.seq (writes_f64 x.y) <|
    writes_f64 x.z
theorem WorldCoordinate.reads (x : WorldCoordinate) : Reads WorldCoordinate.deserialize (wire x) x :=
    Reads.bind (reads_f64 x.x) <|
    Reads.bind (reads_f64 x.y) <|
    Reads.last (reads_f64 x.z) (Reads.ret _)
theorem WorldCoordinate.fixed : Fixed WorldCoordinate.deserialize 24 := Fixed.congr (
    Fixed.bind (fixed_f64) fun _ =>
    Fixed.bind (fixed_f64) fun _ =>
    Fixed.bind (fixed_f64) fun _ =>
    Fixed.ret _) rfl
theorem WorldCoordinate.wire_length (x : WorldCoordinate) : (wire x).length = 24 := (WorldCoordinate.reads x).length_eq WorldCoordinate.fixed
instance : LawfulEnc WorldCoordinate := ⟨fun x _ => WorldCoordinate.writes x, fun x => (WorldCoordinate.writes x).ifOk, fun x => by rw [show sent x = x from rfl, WorldCoordinate.wire_length]; rfl, fun x => (WorldCoordinate.writes x).appends⟩
instance : ExactEnc WorldCoordinate := ⟨fun _ => trivial, fun _ => rfl, fun _ => rfl⟩
instance : LawfulDec WorldCoordinate := ⟨fun x _ => WorldCoordinate.reads x⟩
instance : ExactDec WorldCoordinate := ⟨fun _ => trivial, fun _ => rfl⟩
instance : FixedDec WorldCoordinate 24 := ⟨WorldCoordinate.fixed⟩

theorem LinearSegmentParameter.writes (x : LinearSegmentParameter) : Writes x.serialize (wire x) :=
    Writes.seq (writes_u8 x.segment_number) <|
    Writes.seq (writes_u8 x.segment_modification) <|
    Writes.seq (writes_u32 x.general_segment_appearance) <|
    Writes.seq (writes_u32 x.specific_segment_appearance) <|
    Writes.seq (WorldCoordinate.writes x.segment_location) <|
    Writes.seq (EulerAngles.writes x.segment_orientation) <|
    Writes.seq (writes_f32 x.segment_length) <|
    Writes.seq (writes_f32 x.segment_width) <|
    Writes.seq (writes_f32 x.segment_height) <|
    Writes.seq (writes_f32 x.segment_depth) <|
    writes_u32 x.padding
theorem LinearSegmentParameter.reads (x : LinearSegmentParameter) : Reads LinearSegmentParameter.deserialize (wire x) x :=
    Reads.bind (reads_u8 x.segment_number) <|
    Reads.bind (reads_u8 x.segment_modification) <|
    Reads.bind (reads_u32 x.general_segment_appearance) <|
    Reads.bind (reads_u32 x.specific_segment_appearance) <|
    Reads.bind (WorldCoordinate.reads x.segment_location) <|
    Reads.bind (EulerAngles.reads x.segment_orientation) <|
    Reads.bind (reads_f32 x.segment_length) <|
    Reads.bind (reads_f32 x.segment_width) <|
    Reads.bind (reads_f32 x.segment_height) <|
    Reads.bind (reads_f32 x.segment_depth) <|
    Reads.last (reads_u32 x.padding) (Reads.ret _)
theorem LinearSegmentParameter.fixed : Fixed LinearSegmentParameter.deserialize 66 := Fixed.congr (
    Fixed.bind (fixed_u8) fun _ =>
    Fixed.bind (fixed_u8) fun _ =>
    Fixed.bind (fixed_u32) fun _ =>
    Fixed.bind (fixed_u32) fun _ =>
    Fixed.bind (WorldCoordinate.fixed) fun _ =>
    Fixed.bind (EulerAngles.fixed) fun _ =>
    Fixed.bind (fixed_f32) fun _ =>
    Fixed.bind (fixed_f32) fun _ =>
    Fixed.bind (fixed_f32) fun _ =>
    Fixed.bind (fixed_f32) fun _ =>
    Fixed.bind (fixed_u32) fun _ =>
    Fixed.ret _) rfl
theorem LinearSegmentParameter.wire_length (x : LinearSegmentParameter) : (wire x).length = 66 := (LinearSegmentParameter.reads x).length_eq LinearSegmentParameter.fixed
instance : LawfulEnc LinearSegmentParameter := ⟨fun x _ => LinearSegmentParameter.writes x, fun x => (LinearSegmentParameter.writes x).ifOk, fun x => by rw [show sent x = x from rfl, LinearSegmentParameter.wire_length]; rfl, fun x => (LinearSegmentParameter.writes x).appends⟩
instance : ExactEnc LinearSegmentParameter := ⟨fun _ => trivial, fun _ => rfl, fun _ => rfl⟩
instance : LawfulDec LinearSegmentParameter := ⟨fun x _ => LinearSegmentParameter.reads x⟩
instance : ExactDec LinearSegmentParameter := ⟨fun _ => trivial, fun _ => rfl⟩
instance : FixedDec LinearSegmentParameter 66 := ⟨LinearSegmentParameter.fixed⟩

theorem LinearVelocity.writes (x : LinearVelocity) : Writes x.serialize (wire x) :=
    Writes.seq (writes_f32 x.first_vector_component) <|
    Writes.seq (writes_f32 x.second_vector_component) <|
    writes_f32 x.third_vector_component
theorem LinearVelocity.reads (x : LinearVelocity) : Reads LinearVelocity.deserialize (wire x) x :=
    Reads.bind (reads_f32 x.first_vector_component) <|
    Reads.bind (reads_f32 x.second_vector_component) <|
    Reads.last (reads_f32 x.third_vector_component) (Reads.ret _)
theorem LinearVelocity.fixed : Fixed LinearVelocity.deserialize 12 := Fixed.congr (
    Fixed.bind (fixed_f32) fun _ =>
    Fixed.bind (fixed_f32) fun _ =>
    Fixed.bind (fixed_f32) fun _ =>
    Fixed.ret _) rfl
theorem LinearVelocity.wire_length (x : LinearVelocity) : (wire x).length = 12 := (LinearVelocity.reads x).length_eq LinearVelocity.fixed
instance : LawfulEnc LinearVelocity := ⟨fun x _ => LinearVelocity.writes x, fun x => (LinearVelocity.writes x).ifOk, fun x => by rw [show sent x = x from rfl, LinearVelocity.wire_length]; rfl, fun x => (LinearVelocity.writes x).appends⟩
instance : ExactEnc LinearVelocity := ⟨fun _ => trivial, fun _ => rfl, fun _ => rfl⟩
instance : LawfulDec LinearVelocity := ⟨fun x _ => LinearVelocity.reads x⟩
instance : ExactDec LinearVelocity := ⟨fun _ => trivial, fun _ => rfl⟩
instance : FixedDec LinearVelocity 12 := ⟨LinearVelocity.fixed⟩

theorem MinefieldIdentifier.writes (x : MinefieldIdentifier) : Writes x.serialize (wire x) :=
    Writes.seq (SimulationAddress.writes x.simulation_address) <|
    writes_u16 x.minefield_number
theorem MinefieldIdentifier.reads (x : MinefieldIdentifier) : Reads MinefieldIdentifier.deserialize (wire x) x :=
    Reads.bind (SimulationAddress.reads x.simulation_address) <|
    Reads.last (reads_u16 x.minefield_number) (Reads.ret _)
theorem MinefieldIdentifier.fixed : Fixed MinefieldIdentifier.deserialize 6 := Fixed.congr (
    Fixed.bind (SimulationAddress.fixed) fun _ =>
    Fixed.bind (fixed_u16) fun _ =>
    Fixed.ret _) rfl
theorem MinefieldIdentifier.wire_length (x : MinefieldIdentifier) : (wire x).length = 6 := (MinefieldIdentifier.reads x).length_eq MinefieldIdentifier.fixed
instance : LawfulEnc MinefieldIdentifier := ⟨fun x _ => MinefieldIdentifier.writes x, fun x => (MinefieldIdentifier.writes x).ifOk, fun x => by rw [show sent x = x from rfl, MinefieldIdentifier.wire_length]; rfl, fun x => (MinefieldIdentifier.writes x).appends⟩
instance : ExactEnc MinefieldIdentifier := ⟨fun _ => trivial, fun _ => rfl, fun _ => rfl⟩
instance : LawfulDec MinefieldIdentifier := ⟨fun x _ => MinefieldIdentifier.reads x⟩
instance : ExactDec MinefieldIdentifier := ⟨fun _ => trivial, fun _ => rfl⟩
instance : FixedDec MinefieldIdentifier 6 := ⟨MinefieldIdentifier.fixed⟩

theorem ModulationType.writes (x : ModulationType) : Writes x.serialize (wire x) :=
    Writes.seq (writes_u16 x.spread_spectrum) <|
    Writes.seq (writes_u16 x.major) <|
    Writes.seq (writes_u16 x.detail) <|
    writes_u16 x.system
theorem ModulationType.reads (x : ModulationType) : Reads ModulationType.deserialize (wire x) x :=
    Reads.bind (reads_u16 x.spread_spectrum) <|
    Reads.bind (reads_u16 x.major) <|
    Reads.bind (reads_u16 x.detail) <|
    Reads.last (reads_u16 x.system) (Reads.ret _)
theorem ModulationType.fixed : Fixed ModulationType.deserialize 8 := Fixed.congr (
    Fixed.bind (fixed_u16) fun _ =>
    Fixed.bind (fixed_u16) fun _ =>
    Fixed.bind (fixed_u16) fun _ =>
    Fixed.bind (fixed_u16) fun _ =>
    Fixed.ret _) rfl
theorem ModulationType.wire_length (x : ModulationType) : (wire x).length = 8 := (ModulationType.reads x).length_eq ModulationType.fixed
instance : LawfulEnc ModulationType := ⟨fun x _ => ModulationType.writes x, fun x => (ModulationType.writes x).ifOk, fun x => by rw [show sent x = x from rfl, ModulationType.wire_length]; rfl, fun x => (ModulationType.writes x).appends⟩
instance : ExactEnc ModulationType := ⟨fun _ => trivial, fun _ => rfl, fun _ => rfl⟩
instance : LawfulDec ModulationType := ⟨fun x _ => ModulationType.reads x⟩
instance : ExactDec ModulationType := ⟨fun _ => trivial, fun _ => rfl⟩
instance : FixedDec ModulationType 8 := ⟨ModulationType.fixed⟩

theorem MunitionDescriptor.writes (x : MunitionDescriptor) : Writes x.serialize (wire x) :=
    Writes.seq (EntityType.writes x.munition_type) <|
    Writes.seq (writes_u16 x.warhead) <|
    Writes.seq (writes_u16 x.fuse) <|
    Writes.seq (writes_u16 x.quantity) <|
    writes_u16 x.rate
theorem MunitionDescriptor.reads (x : MunitionDescriptor) : Reads MunitionDescriptor.deserialize (wire x) x :=
    Reads.bind (EntityType.reads x.munition_type) <|
    Reads.bind (reads_u16 x.warhead) <|
    Reads.bind (reads_u16 x.fuse) <|
    Reads.bind (reads_u16 x.quantity) <|
    Reads.last (reads_u16 x.rate) (Reads.ret _)
theorem MunitionDescriptor.fixed : Fixed MunitionDescriptor.deserialize 16 := Fixed.congr (
    Fixed.bind (EntityType.fixed) fun _ =>
    Fixed.bind (fixed_u16) fun _ =>
    Fixed.bind (fixed_u16) fun _ =>
    Fixed.bind (fixed_u16) fun _ =>
    Fixed.bind (fixed_u16) fun _ =>
    Fixed.ret _) rfl
theorem MunitionDescriptor.wire_length (x : MunitionDescriptor) : (wire x).length = 16 := (MunitionDescriptor.reads x).length_eq MunitionDescriptor.fixed
instance : LawfulEnc MunitionDescriptor := ⟨fun x _ => MunitionDescriptor.writes x, fun x => (MunitionDescriptor.writes x).ifOk, fun x => by rw [show sent x = x from rfl, MunitionDescriptor.wire_length]; rfl, fun x => (MunitionDescriptor.writes x).appends⟩
instance : ExactEnc MunitionDescriptor := ⟨fun _ => trivial, fun _ => rfl, fun _ => rfl⟩
instance : LawfulDec MunitionDescriptor := ⟨fun x _ => MunitionDescriptor.reads x⟩
instance : ExactDec MunitionDescriptor := ⟨fun _ => trivial, fun _ => rfl⟩
instance : FixedDec MunitionDescriptor 16 := ⟨MunitionDescriptor.fixed⟩

theorem NamedLocation.writes (x : NamedLocation) : Writes x.serialize (wire x) :=
    Writes.seq (writes_u16 x.station_name) <|
    writes_u16 x.station_number
theorem NamedLocation.reads (x : NamedLocation) : Reads NamedLocation.deserialize (wire x) x :=
    Reads.bind (reads_u16 x.station_name) <|
    Reads.last (reads_u16 x.station_number) (Reads.ret _)
theorem NamedLocation.fixed : Fixed NamedLocation.deserialize 4 := Fixed.congr (
    Fixed.bind (fixed_u16) fun _ =>
    Fixed.bind (fixed_u16) fun _ =>
    Fixed.ret _) rfl
theorem NamedLocation.wire_length (x : NamedLocation) : (wire x).length = 4 := (NamedLocation.reads x).length_eq NamedLocation.fixed
instance : LawfulEnc NamedLocation := ⟨fun x _ => NamedLocation.writes x, fun x => (NamedLocation.writes x).ifOk, fun x => by rw [show sent x = x from rfl, NamedLocation.wire_length]; rfl, fun x => (NamedLocation.writes x).appends⟩
instance : ExactEnc NamedLocation := ⟨fun _ => trivial, fun _ => rfl, fun _ => rfl⟩
instance : LawfulDec NamedLocation := ⟨fun x _ => NamedLocation.reads x⟩
instance : ExactDec NamedLocation := ⟨fun _ => trivial, fun _ => rfl⟩
instance : FixedDec NamedLocation 4 := ⟨NamedLocation.fixed⟩

theorem ObjectIdentifier.writes (x : ObjectIdentifier) : Writes x.serialize (wire x) :=
    Writes.seq (SimulationAddress.writes x.simulation_address) <|
    writes_u16 x.object_number
theorem ObjectIdentifier.reads (x : ObjectIdentifier) : Reads ObjectIdentifier.deserialize (wire x) x :=
    Reads.bind (SimulationAddress.reads x.simulation_address) <|
    Reads.last (reads_u16 x.object_number) (Reads.ret _)
theorem ObjectIdentifier.fixed : Fixed ObjectIdentifier.deserialize 6 := Fixed.congr (
    Fixed.bind (SimulationAddress.fixed) fun _ =>
    Fixed.bind (fixed_u16) fun _ =>
    Fixed.ret _) rfl
theorem ObjectIdentifier.wire_length (x : ObjectIdentifier) : (wire x).length = 6 := (ObjectIdentifier.reads x).length_eq ObjectIdentifier.fixed
instance : LawfulEnc ObjectIdentifier := ⟨fun x _ => ObjectIdentifier.writes x, fun x => (ObjectIdentifier.writes x).ifOk, fun x => by rw [show sent x = x from rfl, ObjectIdentifier.wire_length]; rfl, fun x => (ObjectIdentifier.writes x).appends⟩
instance : ExactEnc ObjectIdentifier := ⟨fun _ => trivial, fun _ => rfl, fun _ => rfl⟩
instance : LawfulDec ObjectIdentifier := ⟨fun x _ => ObjectIdentifier.reads x⟩
instance : ExactDec ObjectIdentifier := ⟨fun _ => trivial, fun _ => rfl⟩
instance : FixedDec ObjectIdentifier 6 := ⟨ObjectIdentifier.fixed⟩

theorem ObjectType.writes (x : ObjectType) : Writes x.serialize (wire x) :=
    Writes.seq (writes_u8 x.domain) <|
    Writes.seq (writes_u8 x.object_kind) <|
    Writes.seq (writes_u8 x.category) <|
    writes_u8 x.subcategory
theorem ObjectType.reads (x : ObjectType) : Reads ObjectType.deserialize (wire x) x :=
    Reads.bind (reads_u8 x.domain) <|
    Reads.bind (reads_u8 x.object_kind) <|
    Reads.bind (reads_u8 x.category) <|
    Reads.last (reads_u8 x.subcategory) (Reads.ret _)
theorem ObjectType.fixed : Fixed ObjectType.deserialize 4 := Fixed.congr (
    Fixed.bind (fixed_u8) fun _ =>
    Fixed.bind (fixed_u8) fun _ =>
    Fixed.bind (fixed_u8) fun _ =>
    Fixed.bind (fixed_u8) fun _ =>
    Fixed.ret _) rfl
theorem ObjectType.wire_length (x : ObjectType) : (wire x).length = 4 := (ObjectType.reads x).length_eq ObjectType.fixed
instance : LawfulEnc ObjectType := ⟨fun x _ => ObjectType.writes x, fun x => (ObjectType.writes x).ifOk, fun x => by rw [show sent x = x from rfl, ObjectType.wire_length]; rfl, fun x => (ObjectType.writes x).appends⟩
instance : ExactEnc ObjectType := ⟨fun _ => trivial, fun _ => rfl, fun _ => rfl⟩
instance : LawfulDec ObjectType := ⟨fun x _ => ObjectType.reads x⟩
instance : ExactDec ObjectType := ⟨fun _ => trivial, fun _ => rfl⟩
instance : FixedDec ObjectType 4 := ⟨ObjectType.fixed⟩

theorem Point.writes (x : Point) : Writes x.serialize (wire x) :=
    Writes.seq (writes_f32 x.x) <|
    writes_f32 x.y
theorem Point.reads (x : Point) : Reads Point.deserialize (wire x) x :=
    Reads.bind (reads_f32 x.x) <|
    Reads.last (reads_f32 x.y) (Reads.ret _)
theorem Point.fixed : Fixed Point.deserialize 8 := Fixed.congr (
    Fixed.bind (fixed_f32) fun _ =>
    Fixed.bind (fixed_f32) fun _ =>
    Fixed.ret _) rfl
theorem Point.wire_length (x : Point) : (wire x).length = 8 := (Point.reads x).length_eq Point.fixed
instance : LawfulEnc Point := ⟨fun x _ => Point.writes x, fun x => (Point.writes x).ifOk, fun x => by rw [show sent x = x from rfl, Point.wire_length]; rfl, fun x => (Point.writes x).appends⟩
instance : ExactEnc Point := ⟨fun _ => trivial, fun _ => rfl, fun _ => rfl⟩
instance : LawfulDec Point := ⟨fun x _ => Point.reads x⟩
instance : ExactDec Point := ⟨fun _ => trivial, fun _ => rfl⟩
instance : FixedDec Point 8 := ⟨Point.fixed⟩

theorem PropulsionSystemData.writes (x : PropulsionSystemData) : Writes x.serialize (wire x) :=
    Writes.seq (writes_f32 x.power_setting) <|
    writes_f32 x.engine_rpm
theorem PropulsionSystemData.reads (x : PropulsionSystemData) : Reads PropulsionSystemData.deserialize (wire x) x :=
    Reads.bind (reads_f32 x.power_setting) <|
    Reads.last (reads_f32 x.engine_rpm) (Reads.ret _)
theorem PropulsionSystemData.fixed : Fixed PropulsionSystemData.deserialize 8 := Fixed.congr (
    Fixed.bind (fixed_f32) fun _ =>
    Fixed.bind (fixed_f32) fun _ =>
    Fixed.ret _) rfl
theorem PropulsionSystemData.wire_length (x : PropulsionSystemData) : (wire x).length = 8 := (PropulsionSystemData.reads x).length_eq PropulsionSystemData.fixed
instance : LawfulEnc PropulsionSystemData := ⟨fun x _ => PropulsionSystemData.writes x, fun x => (PropulsionSystemData.writes x).ifOk, fun x => by rw [show sent x = x from rfl, PropulsionSystemData.wire_length]; rfl, fun x => (PropulsionSystemData.writes x).appends⟩
instance : ExactEnc PropulsionSystemData := ⟨fun _ => trivial, fun _ => rfl, fun _ => rfl⟩
instance : LawfulDec PropulsionSystemData := ⟨fun x _ => PropulsionSystemData.reads x⟩
instance : ExactDec PropulsionSystemData := ⟨fun _ => trivial, fun _ => rfl⟩
instance : FixedDec PropulsionSystemData 8 := ⟨PropulsionSystemData.fixed⟩

theorem RadioEntityType.writes (x : RadioEntityType) : Writes x.serialize (wire x) :=
    Writes.seq (writes_u8 x.entity_kind) <|
    Writes.seq (writes_u8 x.domain) <|
    Writes.seq (writes_u16 x.country) <|
    Writes.seq (writes_u8 x.category) <|
    Writes.seq (writes_u8 x.nomenclature_version) <|
    writes_u16 x.nomenclature
theorem RadioEntityType.reads (x : RadioEntityType) : Reads RadioEntityType.deserialize (wire x) x :=
    Reads.bind (reads_u8 x.entity_kind) <|
    Reads.bind (reads_u8 x.domain) <|
    Reads.bind (reads_u16 x.country) <|
    Reads.bind (reads_u8 x.category) <|
    Reads.bind (reads_u8 x.nomenclature_version) <|
    Reads.last (reads_u16 x.nomenclature) (Reads.ret _)
theorem RadioEntityType.fixed : Fixed RadioEntityType.deserialize 8 := Fixed.congr (
    Fixed.bind (fixed_u8) fun _ =>
    Fixed.bind (fixed_u8) fun _ =>
    Fixed.bind (fixed_u16) fun _ =>
    Fixed.bind (fixed_u8) fun _ =>
    Fixed.bind (fixed_u8) fun _ =>
    Fixed.bind (fixed_u16) fun _ =>
    Fixed.ret _) rfl
theorem RadioEntityType.wire_length (x : RadioEntityType) : (wire x).length = 8 := (RadioEntityType.reads x).length_eq RadioEntityType.fixed
instance : LawfulEnc RadioEntityType := ⟨fun x _ => RadioEntityType.writes x, fun x => (RadioEntityType.writes x).ifOk, fun x => by rw [show sent x = x from rfl, RadioEntityType.wire_length]; rfl, fun x => (RadioEntityType.writes x).appends⟩
instance : ExactEnc RadioEntityType := ⟨fun _ => trivial, fun _ => rfl, fun _ => rfl⟩
instance : LawfulDec RadioEntityType := ⟨fun x _ => RadioEntityType.reads x⟩
instance : ExactDec RadioEntityType := ⟨fun _ => trivial, fun _ => rfl⟩
instance : FixedDec RadioEntityType 8 := ⟨RadioEntityType.fixed⟩

theorem RecordSpecification.writes (x : RecordSpecification) (h : encodable x) : Writes x.serialize (wire (sent x)) :=
    Writes.seq (writes_u32 x.number_of_record_sets) <|
    LawfulEnc.writes x.record_sets h
theorem RecordSpecification.reads (x : RecordSpecification) (h : decodable x) : Reads RecordSpecification.deserialize (wire x) x :=
    Reads.bind (reads_u32 x.number_of_record_sets) <|
    Reads.last (Reads.counted h.1 (fun e he => RecordSpecificationElement.reads e (h.2 e he))) (Reads.ret _)
theorem RecordSpecification.loc : Local RecordSpecification.deserialize :=
    Local.bind (fixed_u32.local) fun _ =>
    Local.bind (Local.n RecordSpecificationElement.loc _) fun _ =>
    Local.ret _
instance : LawfulEnc RecordSpecification where
  writes x h := RecordSpecification.writes x h
  ok x := WritesIfOk.seq (writes_u32 _).ifOk (LawfulEnc.ok x.record_sets)
  len x := by
    have := LawfulEnc.len x.record_sets
    simp only [wire, List.length_append, octets_length, sent, field_len, surplus] at this ⊢
    omega
  appends x := Appends.seq (writes_u32 _).appends (LawfulEnc.appends x.record_sets)
instance : LawfulDec RecordSpecification := ⟨fun x h => RecordSpecification.reads x h⟩
instance : LocalDec RecordSpecification := ⟨RecordSpecification.loc⟩

theorem Relationship.writes (x : Relationship) : Writes x.serialize (wire x) :=
    Writes.seq (writes_u16 x.nature) <|
    writes_u16 x.position
theorem Relationship.reads (x : Relationship) : Reads Relationship.deserialize (wire x) x :=
    Reads.bind (reads_u16 x.nature) <|
    Reads.last (reads_u16 x.position) (Reads.ret _)
theorem Relationship.fixed : Fixed Relationship.deserialize 4 := Fixed.congr (
    Fixed.bind (fixed_u16) fun _ =>
    Fixed.bind (fixed_u16) fun _ =>
    Fixed.ret _) rfl
theorem Relationship.wire_length (x : Relationship) : (wire x).length = 4 := (Relationship.reads x).length_eq Relationship.fixed
instance : LawfulEnc Relationship := ⟨fun x _ => Relationship.writes x, fun x => (Relationship.writes x).ifOk, fun x => by rw [show sent x = x from rfl, Relationship.wire_length]; rfl, fun x => (Relationship.writes x).appends⟩
instance : ExactEnc Relationship := ⟨fun _ => trivial, fun _ => rfl, fun _ => rfl⟩
instance : LawfulDec Relationship := ⟨fun x _ => Relationship.reads x⟩
instance : ExactDec Relationship := ⟨fun _ => trivial, fun _ => rfl⟩
instance : FixedDec Relationship 4 := ⟨Relationship.fixed⟩

theorem SecondaryOperationalData.writes (x : SecondaryOperationalData) : Writes x.serialize (wire x) :=
    Writes.seq (writes_u8 x.operational_data1) <|
    Writes.seq (writes_u8 x.operational_data2) <|
    writes_u16 x.number_of_iff_fundamental_parameter_records
theorem SecondaryOperationalData.reads (x : SecondaryOperationalData) : Reads SecondaryOperationalData.deserialize (wire x) x :=
    Reads.bind (reads_u8 x.operational_data1) <|
    Reads.bind (reads_u8 x.operational_data2) <|
    Reads.last (reads_u16 x.number_of_iff_fundamental_parameter_records) (Reads.ret _)
theorem SecondaryOperationalData.fixed : Fixed SecondaryOperationalData.deserialize 4 := Fixed.congr (
    Fixed.bind (fixed_u8) fun _ =>
    Fixed.bind (fixed_u8) fun _ =>
    Fixed.bind (fixed_u16) fun _ =>
    Fixed.ret _) rfl
theorem SecondaryOperationalData.wire_length (x : SecondaryOperationalData) : (wire x).length = 4 := (SecondaryOperationalData.reads x).length_eq SecondaryOperationalData.fixed
instance : LawfulEnc SecondaryOperationalData := ⟨fun x _ => SecondaryOperationalData.writes x, fun x => (SecondaryOperationalData.writes x).ifOk, fun x => by rw [show sent x = x from rfl, SecondaryOperationalData.wire_length]; rfl, fun x => (SecondaryOperationalData.writes x).appends⟩
instance : ExactEnc SecondaryOperationalData := ⟨fun _ => trivial, fun _ => rfl, fun _ => rfl⟩
instance : LawfulDec SecondaryOperationalData := ⟨fun x _ => SecondaryOperationalData.reads x⟩
instance : ExactDec SecondaryOperationalData := ⟨fun _ => trivial, fun _ => rfl⟩
instance : FixedDec SecondaryOperationalData 4 := ⟨SecondaryOperationalData.fixed⟩

theorem ShaftRPMs.writes (x : ShaftRPMs) : Writes x.serialize (wire x) :=
    Writes.seq (writes_i16 x.current_shaft_rpms) <|
    Writes.seq (writes_i16 x.ordered_shaft_rpms) <|
    writes_i32 x.shaft_rpm_rate_of_change
theorem ShaftRPMs.reads (x : ShaftRPMs) : Reads ShaftRPMs.deserialize (wire x) x :=
    Reads.bind (reads_i16 x.current_shaft_rpms) <|
    Reads.bind (reads_i16 x.ordered_shaft_rpms) <|
    Reads.last (reads_i32 x.shaft_rpm_rate_of_change) (Reads.ret _)
theorem ShaftRPMs.fixed : Fixed ShaftRPMs.deserialize 8 := Fixed.congr (
    Fixed.bind (fixed_i16) fun _ =>
    Fixed.bind (fixed_i16) fun _ =>
    Fixed.bind (fixed_i32) fun _ =>
    Fixed.ret _) rfl
theorem ShaftRPMs.wire_length (x : ShaftRPMs) : (wire x).length = 8 := (ShaftRPMs.reads x).length_eq ShaftRPMs.fixed
instance : LawfulEnc ShaftRPMs := ⟨fun x _ => ShaftRPMs.writes x, fun x => (ShaftRPMs.writes x).ifOk, fun x => by rw [show sent x = x from rfl, ShaftRPMs.wire_length]; rfl, fun x => (ShaftRPMs.writes x).appends⟩
instance : ExactEnc ShaftRPMs := ⟨fun _ => trivial, fun _ => rfl, fun _ => rfl⟩
instance : LawfulDec ShaftRPMs := ⟨fun x _ => ShaftRPMs.reads x⟩
instance : ExactDec ShaftRPMs := ⟨fun _ => trivial, fun _ => rfl⟩
instance : FixedDec ShaftRPMs 8 := ⟨ShaftRPMs.fixed⟩

theorem SimulationIdentifier.writes (x : SimulationIdentifier) : Writes x.serialize (wire (sent x)) :=
    Writes.seq (SimulationAddress.writes x.simulation_address) <|
    writes_u16 0
theorem SimulationIdentifier.reads (x : SimulationIdentifier) : Reads SimulationIdentifier.deserialize (wire x) x :=
    Reads.bind (SimulationAddress.reads x.simulation_address) <|
    Reads.last (reads_u16 x.reference_number) (Reads.ret _)
theorem SimulationIdentifier.fixed : Fixed SimulationIdentifier.deserialize 6 := Fixed.congr (
    Fixed.bind (SimulationAddress.fixed) fun _ =>
    Fixed.bind (fixed_u16) fun _ =>
    Fixed.ret _) rfl
theorem SimulationIdentifier.wire_length (x : SimulationIdentifier) : (wire x).length = 6 := (SimulationIdentifier.reads x).length_eq SimulationIdentifier.fixed
instance : LawfulEnc SimulationIdentifier := ⟨fun x _ => SimulationIdentifier.writes x, fun x => (SimulationIdentifier.writes x).ifOk, fun x => by rw [SimulationIdentifier.wire_length]; rfl, fun x => (SimulationIdentifier.writes x).appends⟩
instance : LawfulDec SimulationIdentifier := ⟨fun x _ => SimulationIdentifier.reads x⟩
instance : ExactDec SimulationIdentifier := ⟨fun _ => trivial, fun _ => rfl⟩
instance : FixedDec SimulationIdentifier 6 := ⟨SimulationIdentifier.fixed⟩

theorem StandardVariableRecords.writes (x : StandardVariableRecords) : Writes x.serialize (wire x) :=
    Writes.seq (writes_u32 x.record_type) <|
    Writes.seq (writes_u16 x.record_length) <|
    Writes.each x.record_specific_fields (fun e _ => writes_u8 e)
theorem StandardVariableRecords.reads (x : StandardVariableRecords) (h : decodable x) : Reads StandardVariableRecords.deserialize (wire x) x :=
    Reads.bind (reads_u32 x.record_type) <|
    Reads.bind (reads_u16 x.record_length) <|
    Reads.last (Reads.counted h (fun e _ => reads_u8 e)) (Reads.ret _)
theorem StandardVariableRecords.loc : Local StandardVariableRecords.deserialize :=
    Local.bind (fixed_u32.local) fun _ =>
    Local.bind (fixed_u16.local) fun _ =>
    Local.bind (Local.n fixed_u8.local _) fun _ =>
    Local.ret _
theorem StandardVariableRecords.under : OnlyUnderflow StandardVariableRecords.deserialize :=
    OnlyUnderflow.bind (fixed_u32.onlyUnderflow) fun _ =>
    OnlyUnderflow.bind (fixed_u16.onlyUnderflow) fun _ =>
    OnlyUnderflow.bind (OnlyUnderflow.n fixed_u8.onlyUnderflow _) fun _ =>
    OnlyUnderflow.ret _
theorem StandardVariableRecords.wire_length (x : StandardVariableRecords) : (wire x).length = 6 + (wire x.record_specific_fields).length := by
  show (wire x.record_type ++ (wire x.record_length ++ (wire x.record_specific_fields))).length = _
  simp only [List.length_append]
  have h_record_type : (wire x.record_type).length = 4 := octets_length _ _
  have h_record_length : (wire x.record_length).length = 2 := octets_length _ _
  omega
instance : LawfulEnc StandardVariableRecords where
  writes x _ := StandardVariableRecords.writes x
  ok x := (StandardVariableRecords.writes x).ifOk
  len x := by
    have h1 : field_len x = 6 + field_len x.record_specific_fields := rfl
    have h2 : field_len x.record_specific_fields = (wire x.record_specific_fields).length := len_exact x.record_specific_fields
    have h3 := StandardVariableRecords.wire_length x
    show ((wire x).length : Int) = (field_len x : Nat) + 0
    omega
  appends x := (StandardVariableRecords.writes x).appends
instance : ExactEnc StandardVariableRecords := ⟨fun _ => trivial, fun _ => rfl, fun _ => rfl⟩
instance : LawfulDec StandardVariableRecords := ⟨fun x h => StandardVariableRecords.reads x h⟩
instance : LocalDec StandardVariableRecords := ⟨StandardVariableRecords.loc⟩
instance : UnderflowDec StandardVariableRecords := ⟨StandardVariableRecords.under⟩

theorem StandardVariableSpecification.writes (x : StandardVariableSpecification) : Writes x.serialize (wire x) :=
    Writes.seq (writes_u16 x.number_of_standard_variable_records) <|
    Writes.each x.standard_variable_records (fun e _ => StandardVariableRecords.writes e)
theorem StandardVariableSpecification.reads (x : StandardVariableSpecification) (h : decodable x) : Reads StandardVariableSpecification.deserialize (wire x) x :=
    Reads.bind (reads_u16 x.number_of_standard_variable_records) <|
    Reads.last (Reads.counted h.1 (fun e he => StandardVariableRecords.reads e (h.2 e he))) (Reads.ret _)
theorem StandardVariableSpecification.loc : Local StandardVariableSpecification.deserialize :=
    Local.bind (fixed_u16.local) fun _ =>
    Local.bind (Local.n StandardVariableRecords.loc _) fun _ =>
    Local.ret _
theorem StandardVariableSpecification.under : OnlyUnderflow StandardVariableSpecification.deserialize :=
    OnlyUnderflow.bind (fixed_u16.onlyUnderflow) fun _ =>
    OnlyUnderflow.bind (OnlyUnderflow.n StandardVariableRecords.under _) fun _ =>
    OnlyUnderflow.ret _
theorem StandardVariableSpecification.serializeField_eq (x : StandardVariableSpecification) : x.serializeField = x.serialize := rfl
theorem StandardVariableSpecification.deserializeField_eq : StandardVariableSpecification.deserializeField.run = StandardVariableSpecification.deserialize.run := rfl
theorem StandardVariableSpecification.wire_length (x : StandardVariableSpecification) : (wire x).length = 2 + (wire x.standard_variable_records).length := by
  show (wire x.number_of_standard_variable_records ++ (wire x.standard_variable_records)).length = _
  simp only [List.length_append]
  have h_number_of_standard_variable_records : (wire x.number_of_standard_variable_records).length = 2 := octets_length _ _
  omega
instance : LawfulEnc StandardVariableSpecification where
  writes x _ := StandardVariableSpecification.writes x
  ok x := (StandardVariableSpecification.writes x).ifOk
  len x := by
    have h1 : field_len x = 2 + field_len x.standard_variable_records := rfl
    have h2 : field_len x.standard_variable_records = (wire x.standard_variable_records).length := len_exact x.standard_variable_records
    have h3 := StandardVariableSpecification.wire_length x
    show ((wire x).length : Int) = (field_len x : Nat) + 0
    omega
  appends x := (StandardVariableSpecification.writes x).appends
instance : ExactEnc StandardVariableSpecification := ⟨fun _ => trivial, fun _ => rfl, fun _ => rfl⟩
instance : LawfulDec StandardVariableSpecification := ⟨fun x h => StandardVariableSpecification.reads x h⟩
instance : LocalDec StandardVariableSpecification := ⟨StandardVariableSpecification.loc⟩
instance : UnderflowDec StandardVariableSpecification := ⟨StandardVariableSpecification.under⟩

theorem SupplyQuantity.writes (x : SupplyQuantity) : Writes x.serialize (wire x) :=
    Writes.seq (EntityType.writes x.supply_type) <|
    writes_f32 x.quantity
theorem SupplyQuantity.reads (x : SupplyQuantity) : Reads SupplyQuantity.deserialize (wire x) x :=
    Reads.bind (EntityType.reads x.supply_type) <|
    Reads.last (reads_f32 x.quantity) (Reads.ret _)
theorem SupplyQuantity.fixed : Fixed SupplyQuantity.deserialize 12 := Fixed.congr (
    Fixed.bind (EntityType.fixed) fun _ =>
    Fixed.bind (fixed_f32) fun _ =>
    Fixed.ret _) rfl
theorem SupplyQuantity.wire_length (x : SupplyQuantity) : (wire x).length = 12 := (SupplyQuantity.reads x).length_eq SupplyQuantity.fixed
instance : LawfulEnc SupplyQuantity := ⟨fun x _ => SupplyQuantity.writes x, fun x => (SupplyQuantity.writes x).ifOk, fun x => by rw [show sent x = x from rfl, SupplyQuantity.wire_length]; rfl, fun x => (SupplyQuantity.writes x).appends⟩
instance : ExactEnc SupplyQuantity := ⟨fun _ => trivial, fun _ => rfl, fun _ => rfl⟩
instance : LawfulDec SupplyQuantity := ⟨fun x _ => SupplyQuantity.reads x⟩
instance : ExactDec SupplyQuantity := ⟨fun _ => trivial, fun _ => rfl⟩
instance : FixedDec SupplyQuantity 12 := ⟨SupplyQuantity.fixed⟩

theorem SystemId.writes (x : SystemId) : Writes x.serialize (wire x) :=
    Writes.seq (writes_u16 x.system_type) <|
    Writes.seq (writes_u16 x.system_name) <|
    Writes.seq (writes_u8 x.system_mode) <|
    writes_u8 x.change_options
theorem SystemId.reads (x : SystemId) : Reads SystemId.deserialize (wire x) x :=
    Reads.bind (reads_u16 x.system_type) <|
    Reads.bind (reads_u16 x.system_name) <|
    Reads.bind (reads_u8 x.system_mode) <|
    Reads.last (reads_u8 x.change_options) (Reads.ret _)
theorem SystemId.fixed : Fixed SystemId.deserialize 6 := Fixed.congr (
    Fixed.bind (fixed_u16) fun _ =>
    Fixed.bind (fixed_u16) fun _ =>
    Fixed.bind (fixed_u8) fun _ =>
    Fixed.bind (fixed_u8) fun _ =>
    Fixed.ret _) rfl
theorem SystemId.wire_length (x : SystemId) : (wire x).length = 6 := (SystemId.reads x).length_eq SystemId.fixed
instance : LawfulEnc SystemId := ⟨fun x _ => SystemId.writes x, fun x => (SystemId.writes x).ifOk, fun x => by rw [show sent x = x from rfl, SystemId.wire_length]; rfl, fun x => (SystemId.writes x).appends⟩
instance : ExactEnc SystemId := ⟨fun _ => trivial, fun _ => rfl, fun _ => rfl⟩
instance : LawfulDec SystemId := ⟨fun x _ => SystemId.reads x⟩
instance : ExactDec SystemId := ⟨fun _ => trivial, fun _ => rfl⟩
instance : FixedDec SystemId 6 := ⟨SystemId.fixed⟩

theorem VariableParameter.writes (x : VariableParameter) : Writes x.serialize (wire x) :=
    Writes.seq (writes_u8 x.record_type) <|
    Writes.seq (writes_f64 x.variable_parameter_field1) <|
    Writes.seq (writes_u32 x.variable_parameter_field2) <|
    Writes.seq (writes_u16 x.variable_parameter_field3) <|
    writes_u8 x.variable_parameter_field4
theorem VariableParameter.reads (x : VariableParameter) : Reads VariableParameter.deserialize (wire x) x :=
    Reads.bind (reads_u8 x.record_type) <|
    Reads.bind (reads_f64 x.variable_parameter_field1) <|
    Reads.bind (reads_u32 x.variable_parameter_field2) <|
    Reads.bind (reads_u16 x.variable_parameter_field3) <|
    Reads.last (reads_u8 x.variable_parameter_field4) (Reads.ret _)
theorem VariableParameter.fixed : Fixed VariableParameter.deserialize 16 := Fixed.congr (
    Fixed.bind (fixed_u8) fun _ =>
    Fixed.bind (fixed_f64) fun _ =>
    Fixed.bind (fixed_u32) fun _ =>
    Fixed.bind (fixed_u16) fun _ =>
    Fixed.bind (fixed_u8) fun _ =>
    Fixed.ret _) rfl
theorem VariableParameter.wire_length (x : VariableParameter) : (wire x).length = 16 := (VariableParameter.reads x).length_eq VariableParameter.fixed
instance : LawfulEnc VariableParameter := ⟨fun x _ => VariableParameter.writes x, fun x => (VariableParameter.writes x).ifOk, fun x => by rw [show sent x = x from rfl, VariableParameter.wire_length]; rfl, fun x => (VariableParameter.writes x).appends⟩
instance : ExactEnc VariableParameter := ⟨fun _ => trivial, fun _ => rfl, fun _ => rfl⟩
instance : LawfulDec VariableParameter := ⟨fun x _ => VariableParameter.reads x⟩
instance : ExactDec VariableParameter := ⟨fun _ => trivial, fun _ => rfl⟩
instance : FixedDec VariableParameter 16 := ⟨VariableParameter.fixed⟩

theorem VariableTransmitterParameters.writes (x : VariableTransmitterParameters) : Writes x.serialize (wire x) :=
    Writes.seq (writes_enum_wide32 x.record_type (by decide)) <|
    Writes.seq (writes_u16 x.record_length) <|
    Writes.each x.record_specific_fields (fun e _ => writes_u8 e)
theorem VariableTransmitterParameters.wire_length (x : VariableTransmitterParameters) :
    (wire x).length = 6 + x.record_specific_fields.length := by
  show (octets _ _ ++ (octets _ _ ++ wire x.record_specific_fields)).length = _
  rw [wire_bytes]
  simp only [List.length_append, octets_length]
  omega
instance : LawfulEnc VariableTransmitterParameters where
  writes x _ := x.writes
  ok x := x.writes.ifOk
  len x := by
    have h1 : field_len x = 4 + 2 + x.record_specific_fields.length := rfl
    have h3 := VariableTransmitterParameters.wire_length x
    show ((wire x).length : Int) = (field_len x : Nat) + 0
    omega
  appends x := x.writes.appends
instance : ExactEnc VariableTransmitterParameters := ⟨fun _ => trivial, fun _ => rfl, fun _ => rfl⟩
theorem VariableTransmitterParameters.loc : Local VariableTransmitterParameters.deserialize :=
    Local.bind (EnumSpec.fixed _).local fun _ => Local.bind fixed_u16.local fun _ =>
    Local.bind (Local.n fixed_u8.local _) fun _ => Local.ret _
theorem VariableTransmitterParameters.under : OnlyUnderflow VariableTransmitterParameters.deserialize :=
    OnlyUnderflow.bind (EnumSpec.fixed _).onlyUnderflow fun _ => OnlyUnderflow.bind fixed_u16.onlyUnderflow fun _ =>
    OnlyUnderflow.bind (OnlyUnderflow.n fixed_u8.onlyUnderflow _) fun _ => OnlyUnderflow.ret _
instance : LocalDec VariableTransmitterParameters := ⟨VariableTransmitterParameters.loc⟩
instance : UnderflowDec VariableTransmitterParameters := ⟨VariableTransmitterParameters.under⟩

theorem Vector3Double.writes (x : Vector3Double) : Writes x.serialize (wire x) :=
    Writes.seq (writes_f64 x.x) <|
    Writes.seq (writes_f64 x.y) <|
    writes_f64 x.z
theorem Vector3Double.reads (x : Vector3Double) : Reads Vector3Double.deserialize (wire x) x :=
    Reads.bind (reads_f64 x.x) <|
    Reads.bind (reads_f64 x.y) <|
    Reads.last (reads_f64 x.z) (Reads.ret _)
theorem Vector3Double.fixed : Fixed Vector3Double.deserialize 24 := Fixed.congr (
    Fixed.bind (fixed_f64) fun _ =>
    Fixed.bind (fixed_f64) fun _ =>
    Fixed.bind (fixed_f64) fun _ =>
    Fixed.ret _) rfl
theorem Vector3Double.wire_length (x : Vector3Double) : (wire x).length = 24 := (Vector3Double.reads x).length_eq Vector3Double.fixed

theorem VectoringNozzleSystemData.writes (x : VectoringNozzleSystemData) : Writes x.serialize (wire x) :=
    Writes.seq (writes_f32 x.horizontal_deflection_angle) <|
    writes_f32 x.vertical_deflection_angle
theorem VectoringNozzleSystemData.reads (x : VectoringNozzleSystemData) : Reads VectoringNozzleSystemData.deserialize (wire x) x :=
    Reads.bind (reads_f32 x.horizontal_deflection_angle) <|
    Reads.last (reads_f32 x.vertical_deflection_angle) (Reads.ret _)
theorem VectoringNozzleSystemData.fixed : Fixed VectoringNozzleSystemData.deserialize 8 := Fixed.congr (
    Fixed.bind (fixed_f32) fun _ =>
    Fixed.bind (fixed_f32) fun _ =>
    Fixed.ret _) rfl
theorem VectoringNozzleSystemData.wire_length (x : VectoringNozzleSystemData) : (wire x).length = 8 := (VectoringNozzleSystemData.reads x).length_eq VectoringNozzleSystemData.fixed
instance : LawfulEnc VectoringNozzleSystemData := ⟨fun x _ => VectoringNozzleSystemData.writes x, fun x => (VectoringNozzleSystemData.writes x).ifOk, fun x => by rw [show sent x = x from rfl, VectoringNozzleSystemData.wire_length]; rfl, fun x => (VectoringNozzleSystemData.writes x).appends⟩
instance : ExactEnc VectoringNozzleSystemData := ⟨fun _ => trivial, fun _ => rfl, fun _ => rfl⟩
instance : LawfulDec VectoringNozzleSystemData := ⟨fun x _ => VectoringNozzleSystemData.reads x⟩
instance : ExactDec VectoringNozzleSystemData := ⟨fun _ => trivial, fun _ => rfl⟩
instance : FixedDec VectoringNozzleSystemData 8 := ⟨VectoringNozzleSystemData.fixed⟩

theorem VelocityVector.writes (x : VelocityVector) : Writes x.serialize (wire x) :=
    Writes.seq (writes_f32 x.first_vector_component) <|
    Writes.seq (writes_f32 x.second_vector_component) <|
    writes_f32 x.third_vector_component
theorem VelocityVector.reads (x : VelocityVector) : Reads VelocityVector.deserialize (wire x) x :=
    Reads.bind (reads_f32 x.first_vector_component) <|
    Reads.bind (reads_f32 x.second_vector_component) <|
    Reads.last (reads_f32 x.third_vector_component) (Reads.ret _)
theorem VelocityVector.fixed : Fixed VelocityVector.deserialize 12 := Fixed.congr (
    Fixed.bind (fixed_f32) fun _ =>
    Fixed.bind (fixed_f32) fun _ =>
    Fixed.bind (fixed_f32) fun _ =>
    Fixed.ret _) rfl
theorem VelocityVector.wire_length (x : VelocityVector) : (wire x).length = 12 := (VelocityVector.reads x).length_eq VelocityVector.fixed

end Dis
