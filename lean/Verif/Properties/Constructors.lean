import Verif.Proofs.ConstructorTable
import Verif.Properties.Header
import Verif.Spec.DefaultTable
/-
C43: what the constructors (`new`) of the records and headers build, seen on the wire.
-/
set_option maxRecDepth 4000
namespace Dis

/-- Every constructor whose arguments have fixed size, all arguments: the record it makes is transmitted as the
arguments in the order given (zeros where a field is not an argument), and decoding these octets, whatever
follows, gives the very record and leaves what follows. -/
theorem C43_new : ∀ c ∈ constructors, ∀ a : c.Args,
    (∀ prof buf, c.ser (c.make a) prof buf = .ok ((), buf ++ c.octets a)) ∧
    (∀ prof rest, c.de prof (c.octets a ++ rest) = .ok (c.make a, rest)) :=
  constructors_lawful

example : constructors.length = 44 := rfl
/-- `EntityId::new(1, 0x0203, 0x0405)` -/
example : ∃ c ∈ constructors, ∃ a : c.Args, c.name = "EntityId" ∧
    c.ser (c.make a) ⟨true⟩ [9] = .ok ((), [9, 0, 1, 2, 3, 4, 5]) :=
  ⟨constructors[12], List.getElem_mem _, ((1, 0x203, 0x405) : UInt16 × UInt16 × UInt16), rfl, rfl⟩

/-- The constructors without arguments: all zeros, no list elements; a simulation address is site 1,
application 1. -/
theorem C43_empty (prof : Profile) (buf : Bytes) :
    AngularVelocity.new.serialize prof buf = .ok ((), buf ++ List.replicate 12 0) ∧
    AttributeRecord.new.serialize prof buf = .ok ((), buf ++ List.replicate 6 0) ∧
    AttributeRecordSet.new.serialize prof buf = .ok ((), buf ++ ([0, 1, 0, 1] ++ List.replicate 4 0)) ∧
    ObjectIdentifier.new.serialize prof buf = .ok ((), buf ++ [0, 1, 0, 1, 0, 0]) ∧
    SimulationIdentifier.new.serialize prof buf = .ok ((), buf ++ [0, 1, 0, 1, 0, 0]) ∧
    VariableTransmitterParameters.new.serialize prof buf = .ok ((), buf ++ List.replicate 6 0) ∧
    AntennaPattern.new.serialize prof buf = .ok ((), buf) ∧
    ModulationParameters.new.serialize prof buf = .ok ((), buf) := by
  refine ⟨?_, ?_, ?_, ?_, ?_, ?_, rfl, rfl⟩
  · exact AngularVelocity.writes _ prof buf
  · exact AttributeRecord.writes _ prof buf
  · exact AttributeRecordSet.writes _ prof buf
  · exact ObjectIdentifier.writes _ prof buf
  · exact SimulationIdentifier.writes _ prof buf
  · exact VariableTransmitterParameters.writes _ prof buf

/-- They are the very values that decoding these octets gives, also in the fields that are never transmitted
(the reference number of a simulation identifier). -/
theorem C43_empty_decode (prof : Profile) (rest : Bytes) :
    AngularVelocity.deserialize prof (List.replicate 12 0 ++ rest) = .ok (AngularVelocity.new, rest) ∧
    AttributeRecord.deserialize prof (List.replicate 6 0 ++ rest) = .ok (AttributeRecord.new, rest) ∧
    AttributeRecordSet.deserialize prof (([0, 1, 0, 1] ++ List.replicate 4 0) ++ rest) = .ok (AttributeRecordSet.new, rest) ∧
    ObjectIdentifier.deserialize prof ([0, 1, 0, 1, 0, 0] ++ rest) = .ok (ObjectIdentifier.new, rest) ∧
    SimulationIdentifier.deserialize prof ([0, 1, 0, 1, 0, 0] ++ rest) = .ok (SimulationIdentifier.new, rest) :=
  ⟨AngularVelocity.reads .new prof rest, AttributeRecord.reads .new rfl prof rest,
   AttributeRecordSet.reads .new ⟨rfl, fun _ h => nomatch h⟩ prof rest, ObjectIdentifier.reads .new prof rest,
   SimulationIdentifier.reads .new prof rest⟩

/-- The constructors that take a list or a text: the fields in order, then the elements; counts are stored as
given, not computed. (What decoding makes of them: C18, C26, C30, C35.) -/
theorem C43_lists (prof : Profile) (buf : Bytes) :
    (∀ (len : UInt8) (count : UInt8) (pad : UInt16) (sys : AcousticEmitterSystem) (loc : Vector3Float) (beams : List AcousticBeamData),
      (AcousticEmitterSystemData.new len count pad sys loc beams).serialize prof buf =
        .ok ((), buf ++ (wire len ▹ wire count ▹ wire pad ▹ wire sys ▹ wire loc ▹ beams.flatMap wire))) ∧
    (∀ (cs : EntityMarkingCharacterSet) (text : String),
      (EntityMarking.new cs text).serialize prof buf = .ok ((), buf ++ (wire cs ▹ strBytes text))) ∧
    (∀ (a b : F64) (n : UInt16) (f : UInt8) (t : GridAxisDescriptorAxisType) (d : GridAxisType),
      (GridAxisDescriptor.new a b n f t d).serialize prof buf =
        .ok ((), buf ++ (wire a ▹ wire b ▹ wire n ▹ wire f ▹ wire t ▹ wire d))) ∧
    (∀ (t : GriddedDataSampleType) (r : GriddedDataDataRepresentation) (d : DataRepresentationType),
      (GridDataRecord.new t r d).serialize prof buf =
        .ok ((), buf ++ (octets 2 t.code ▹ octets 2 r.code ▹ wire d))) ∧
    (∀ (t : UInt32) (len : UInt16) (xs : Bytes),
      (StandardVariableRecords.new t len xs).serialize prof buf = .ok ((), buf ++ (wire t ▹ wire len ▹ xs))) ∧
    (∀ (count : UInt16) (xs : List StandardVariableRecords),
      (StandardVariableSpecification.new count xs).serialize prof buf =
        .ok ((), buf ++ (wire count ▹ xs.flatMap wire))) := by
  refine ⟨fun _ _ _ _ _ _ => AcousticEmitterSystemData.writes _ prof buf,
    fun _ _ => EntityMarking.writes _ prof buf, fun _ _ _ _ _ _ => GridAxisDescriptor.writes _ prof buf,
    fun _ _ _ => GridDataRecord.writes _ prof buf, fun t len xs => ?_,
    fun _ _ => StandardVariableSpecification.writes _ prof buf⟩
  have h := StandardVariableRecords.writes (.new t len xs) prof buf
  have e : wire (StandardVariableRecords.new t len xs) = wire t ▹ wire len ▹ wire xs := rfl
  rw [h, e, wire_bytes]

/-- Record sets: stored as given; when the product of length and count is the number of octets given (and fits
16 bits) the record made is transmitted whole and comes back. -/
theorem C43_record_set (id serial : UInt32) (len count : UInt16) (xs : Bytes)
    (h1 : len.toNat * count.toNat < 65536) (h2 : len.toNat * count.toNat = xs.length) :
    ∃ w, w = (wire id ▹ wire serial ▹ wire len ▹ wire count ▹ xs) ∧
      (∀ prof buf, (RecordSpecificationElement.new id serial len count xs).serialize prof buf = .ok ((), buf ++ w)) ∧
      ∀ prof rest, RecordSpecificationElement.deserialize prof (w ++ rest) =
        .ok (RecordSpecificationElement.new id serial len count xs, rest) := by
  have hr := RecordSpecificationElement.reads (.new id serial len count xs) ⟨h1, h2⟩
  have hw := RecordSpecificationElement.writes (.new id serial len count xs) ⟨h1, Nat.le_of_eq h2⟩
  have e : wire (RecordSpecificationElement.new id serial len count xs) =
      wire id ▹ wire serial ▹ wire len ▹ wire count ▹ wire xs := rfl
  have es : sent (RecordSpecificationElement.new id serial len count xs) =
      RecordSpecificationElement.new id serial len count xs := by
    show ({ (RecordSpecificationElement.new id serial len count xs) with
      record_values := xs.take (len.toNat * count.toNat % 65536) } : RecordSpecificationElement) = _
    rw [Nat.mod_eq_of_lt h1, h2, List.take_length]
    rfl
  rw [es] at hw
  rw [e, wire_bytes] at hr hw
  exact ⟨_, rfl, hw, hr⟩

example : (2 : UInt16).toNat * (3 : UInt16).toNat < 65536 ∧
    (2 : UInt16).toNat * (3 : UInt16).toNat = [1, 2, 3, 4, 5, 6].length := by decide

/-- A specification made of record sets: the count as given, then the sets. -/
theorem C43_record_specification (count : UInt32) (sets : List RecordSpecificationElement)
    (h : ∀ s ∈ sets, s.record_length.toNat * s.record_count.toNat < 65536 ∧
      s.record_length.toNat * s.record_count.toNat = s.record_values.length) (prof : Profile) (buf : Bytes) :
    (RecordSpecification.new count sets).serialize prof buf =
      .ok ((), buf ++ (wire count ▹ sets.flatMap wire)) := by
  have hw := RecordSpecification.writes (.new count sets) (fun s hs => ⟨(h s hs).1, Nat.le_of_eq (h s hs).2⟩) prof buf
  rw [hw]
  show Except.ok ((), buf ++ (wire count ++ (sets.map sent).flatMap wire)) = _
  have : sets.map sent = sets := by
    refine (List.map_congr_left fun s hs => ?_).trans (List.map_id _)
    show ({ s with record_values := s.record_values.take (s.record_length.toNat * s.record_count.toNat % 65536) } : RecordSpecificationElement) = s
    rw [Nat.mod_eq_of_lt (h s hs).1, (h s hs).2, List.take_length]
  rw [this]

example := C43_record_specification 2 [⟨1, 2, 2, 3, [1, 2, 3, 4, 5, 6]⟩, ⟨3, 4, 0, 9, []⟩] (by decide) ⟨true⟩ [9]

/-! ### Headers -/

/-- `PduHeader::new`: version 7, the arguments, the time stamp; everything else zero. -/
theorem C43_header (now : UInt32) (t : PduType) (f : ProtocolFamily) (exercise : UInt8) (length : UInt16) :
    ∃ w, w = ([7, exercise, UInt8.ofNat t.code, UInt8.ofNat f.code] : Bytes) ++ octets 4 now.toNat ++
        octets 2 length.toNat ++ [0, 0] ∧
      (∀ prof buf, (PduHeader.new now t f exercise length).serialize prof buf = .ok ((), buf ++ w)) ∧
      ∀ prof rest, PduHeader.deserialize prof (w ++ rest) = .ok (PduHeader.new now t f exercise length, rest) := by
  refine ⟨wire (PduHeader.new now t f exercise length), ?_, PduHeader.writes _, PduHeader.reads _⟩
  simp [wire, octets, List.range_succ, IntTy.octets, ProtocolVersion.spec, PduType.spec, ProtocolFamily.spec,
    uint8_ofNat_mod, PduHeader.new, PduHeader.IEEE1278_1_2012, dflt, PduStatusRecord.new_zero]

/-- `LiveEntityPduHeader::new`: the same with subprotocol 0. -/
theorem C43_live_header (now : UInt32) (t : PduType) (f : ProtocolFamily) (exercise : UInt8) (length : UInt16) :
    ∃ w, w = ([7, exercise, UInt8.ofNat t.code, UInt8.ofNat f.code] : Bytes) ++ octets 4 now.toNat ++
        octets 2 length.toNat ++ [0, 0] ∧
      (∀ prof buf, (LiveEntityPduHeader.new now t f exercise length).serialize prof buf = .ok ((), buf ++ w)) ∧
      ∀ prof rest, LiveEntityPduHeader.deserialize prof (w ++ rest) =
        .ok (LiveEntityPduHeader.new now t f exercise length, rest) := by
  refine ⟨wire (LiveEntityPduHeader.new now t f exercise length), ?_, LiveEntityPduHeader.writes _, LiveEntityPduHeader.reads _⟩
  simp [wire, octets, List.range_succ, IntTy.octets, ProtocolVersion.spec, PduType.spec, ProtocolFamily.spec,
    uint8_ofNat_mod, LiveEntityPduHeader.new, LiveEntityPduHeader.default, PduHeader.IEEE1278_1_2012, dflt,
    DISLiveEntitySubprotocolNumber.spec]

/-- The default headers: version 7, exercise 1, the time stamp, zeros; twelve octets, as both `LENGTH`s say. -/
theorem C43_default_headers (now : UInt32) (prof : Profile) (buf : Bytes) :
    (PduHeader.default now).serialize prof buf =
      .ok ((), buf ++ (([7, 1, 0, 0] : Bytes) ++ octets 4 now.toNat ++ [0, 0, 0, 0])) ∧
    (LiveEntityPduHeader.default now).serialize prof buf =
      .ok ((), buf ++ (([7, 1, 0, 0] : Bytes) ++ octets 4 now.toNat ++ [0, 0, 0, 0])) ∧
    PduHeader.LENGTH = 12 ∧ LiveEntityPduHeader.LENGTH = 12 ∧ ∀ h : PduHeader, field_len h = 12 := by
  refine ⟨?_, ?_, rfl, rfl, fun _ => rfl⟩
  · rw [PduHeader.writes _ prof buf]
    simp [wire, octets, List.range_succ, IntTy.octets, ProtocolVersion.spec, PduType.spec, ProtocolFamily.spec,
      uint8_ofNat_mod, PduHeader.default, PduHeader.IEEE1278_1_2012, dflt, PduStatusRecord.new_zero]
  · rw [LiveEntityPduHeader.writes _ prof buf]
    simp [wire, octets, List.range_succ, IntTy.octets, ProtocolVersion.spec, PduType.spec, ProtocolFamily.spec,
      uint8_ofNat_mod, LiveEntityPduHeader.default, PduHeader.IEEE1278_1_2012, dflt,
      DISLiveEntitySubprotocolNumber.spec]

/-! ### Vector constants -/

/-- the pattern of 1.0 -/
def onePattern : Bytes := [0x3F, 0x80, 0, 0]
/-- the pattern of 0.0 -/
def zeroPattern : Bytes := [0, 0, 0, 0]

/-- `zero`, `one` and the unit vectors, as transmitted. -/
theorem C43_vectors (prof : Profile) (buf : Bytes) :
    Vector3Float.zero.serialize prof buf = .ok ((), buf ++ (zeroPattern ++ zeroPattern ++ zeroPattern)) ∧
    Vector3Float.one.serialize prof buf = .ok ((), buf ++ (onePattern ++ onePattern ++ onePattern)) ∧
    Vector3Float.unit_x.serialize prof buf = .ok ((), buf ++ (onePattern ++ zeroPattern ++ zeroPattern)) ∧
    Vector3Float.unit_y.serialize prof buf = .ok ((), buf ++ (zeroPattern ++ onePattern ++ zeroPattern)) ∧
    Vector3Float.unit_z.serialize prof buf = .ok ((), buf ++ (zeroPattern ++ zeroPattern ++ onePattern)) :=
  ⟨Vector3Float.writes _ prof buf, Vector3Float.writes _ prof buf, Vector3Float.writes _ prof buf,
   Vector3Float.writes _ prof buf, Vector3Float.writes _ prof buf⟩

/-! ### Defaults -/

/-- Every record type with a default value: the octets of that value. -/
theorem C43_defaults : ∀ r ∈ defaultRecords, ∀ prof buf,
    r.ser r.default prof buf = .ok ((), buf ++ r.octets) := by
  unfold defaultRecords
  refine List.forall_mem_cons.mpr ⟨AcousticBeamFundamentalParameter.writes dflt, ?_⟩
  refine List.forall_mem_cons.mpr ⟨AcousticBeamData.writes dflt, ?_⟩
  refine List.forall_mem_cons.mpr ⟨AcousticEmitterSystem.writes dflt, ?_⟩
  refine List.forall_mem_cons.mpr ⟨Vector3Float.writes dflt, ?_⟩
  refine List.forall_mem_cons.mpr ⟨AcousticEmitterSystemData.writes dflt, ?_⟩
  refine List.forall_mem_cons.mpr ⟨AggregateId.writes dflt, ?_⟩
  refine List.forall_mem_cons.mpr ⟨AggregateMarking.writes dflt, ?_⟩
  refine List.forall_mem_cons.mpr ⟨AngularVelocity.writes dflt, ?_⟩
  refine List.forall_mem_cons.mpr ⟨ApaData.writes dflt, ?_⟩
  refine List.forall_mem_cons.mpr ⟨AttributeRecord.writes dflt, ?_⟩
  refine List.forall_mem_cons.mpr ⟨SimulationAddress.writes dflt, ?_⟩
  refine List.forall_mem_cons.mpr ⟨EntityId.writes dflt, ?_⟩
  refine List.forall_mem_cons.mpr ⟨AttributeRecordSet.writes dflt, ?_⟩
  refine List.forall_mem_cons.mpr ⟨BeamData.writes dflt, ?_⟩
  refine List.forall_mem_cons.mpr ⟨ClockTime.writes dflt, ?_⟩
  refine List.forall_mem_cons.mpr ⟨LinearAcceleration.writes dflt, ?_⟩
  refine List.forall_mem_cons.mpr ⟨DeadReckoningParameters.writes dflt, ?_⟩
  refine List.forall_mem_cons.mpr ⟨EntityCoordinateVector.writes dflt, ?_⟩
  refine List.forall_mem_cons.mpr ⟨EventId.writes dflt, ?_⟩
  refine List.forall_mem_cons.mpr ⟨DirectedEnergyDamage.writes dflt, ?_⟩
  refine List.forall_mem_cons.mpr ⟨FundamentalParameterData.writes dflt, ?_⟩
  refine List.forall_mem_cons.mpr ⟨TrackJamTarget.writes dflt, ?_⟩
  refine List.forall_mem_cons.mpr ⟨ElectromagneticEmissionBeamData.writes dflt, ?_⟩
  refine List.forall_mem_cons.mpr ⟨EmitterSystem.writes dflt, ?_⟩
  refine List.forall_mem_cons.mpr ⟨ElectromagneticEmissionSystemData.writes dflt, ?_⟩
  refine List.forall_mem_cons.mpr ⟨EntityType.writes dflt, ?_⟩
  refine List.forall_mem_cons.mpr ⟨Environment.writes dflt, ?_⟩
  refine List.forall_mem_cons.mpr ⟨EulerAngles.writes dflt, ?_⟩
  refine List.forall_mem_cons.mpr ⟨FundamentalOperationalData.writes dflt, ?_⟩
  refine List.forall_mem_cons.mpr ⟨IFFFundamentalParameterData.writes dflt, ?_⟩
  refine List.forall_mem_cons.mpr ⟨IntercomCommunicationsParameters.writes dflt, ?_⟩
  refine List.forall_mem_cons.mpr ⟨LayerHeader.writes dflt, ?_⟩
  refine List.forall_mem_cons.mpr ⟨WorldCoordinate.writes dflt, ?_⟩
  refine List.forall_mem_cons.mpr ⟨LinearSegmentParameter.writes dflt, ?_⟩
  refine List.forall_mem_cons.mpr ⟨LinearVelocity.writes dflt, ?_⟩
  refine List.forall_mem_cons.mpr ⟨MinefieldIdentifier.writes dflt, ?_⟩
  refine List.forall_mem_cons.mpr ⟨ModulationType.writes dflt, ?_⟩
  refine List.forall_mem_cons.mpr ⟨MunitionDescriptor.writes dflt, ?_⟩
  refine List.forall_mem_cons.mpr ⟨NamedLocation.writes dflt, ?_⟩
  refine List.forall_mem_cons.mpr ⟨ObjectIdentifier.writes dflt, ?_⟩
  refine List.forall_mem_cons.mpr ⟨ObjectType.writes dflt, ?_⟩
  refine List.forall_mem_cons.mpr ⟨Point.writes dflt, ?_⟩
  refine List.forall_mem_cons.mpr ⟨PropulsionSystemData.writes dflt, ?_⟩
  refine List.forall_mem_cons.mpr ⟨RadioEntityType.writes dflt, ?_⟩
  refine List.forall_mem_cons.mpr ⟨RecordSpecification.writes dflt (fun _ h => nomatch h), ?_⟩
  refine List.forall_mem_cons.mpr ⟨Relationship.writes dflt, ?_⟩
  refine List.forall_mem_cons.mpr ⟨SecondaryOperationalData.writes dflt, ?_⟩
  refine List.forall_mem_cons.mpr ⟨ShaftRPMs.writes dflt, ?_⟩
  refine List.forall_mem_cons.mpr ⟨SimulationIdentifier.writes dflt, ?_⟩
  refine List.forall_mem_cons.mpr ⟨StandardVariableRecords.writes dflt, ?_⟩
  refine List.forall_mem_cons.mpr ⟨StandardVariableSpecification.writes dflt, ?_⟩
  refine List.forall_mem_cons.mpr ⟨SupplyQuantity.writes dflt, ?_⟩
  refine List.forall_mem_cons.mpr ⟨SystemId.writes dflt, ?_⟩
  refine List.forall_mem_cons.mpr ⟨VariableParameter.writes dflt, ?_⟩
  refine List.forall_mem_cons.mpr ⟨VariableTransmitterParameters.writes dflt, ?_⟩
  refine List.forall_mem_cons.mpr ⟨Vector3Double.writes dflt, ?_⟩
  refine List.forall_mem_cons.mpr ⟨VectoringNozzleSystemData.writes dflt, ?_⟩
  refine List.forall_mem_cons.mpr ⟨VelocityVector.writes dflt, ?_⟩
  refine List.forall_mem_cons.mpr ⟨EntityMarking.writes dflt, ?_⟩
  refine List.forall_mem_cons.mpr ⟨ModulationParameters.writes dflt, ?_⟩
  refine List.forall_mem_cons.mpr ⟨AntennaPattern.writes dflt, ?_⟩
  exact fun _ h => nomatch h

theorem forall_mem_some {α : Type} {P : α → Prop} {a : α} (h : P a) : ∀ x ∈ some a, P x := by
  intro x hx; cases hx; exact h

/-- ... and decoding these octets, whatever follows, gives the default value back (an entity marking and
variable transmitter parameters are not decodable, see C18 and C26; the decoders of modulation parameters and antenna patterns take the length from outside). -/
theorem C43_defaults_decode : ∀ r ∈ defaultRecords, ∀ de ∈ r.de, ∀ prof rest,
    de prof (r.octets ++ rest) = .ok (r.default, rest) := by
  unfold defaultRecords
  refine List.forall_mem_cons.mpr ⟨forall_mem_some (AcousticBeamFundamentalParameter.reads dflt), ?_⟩
  refine List.forall_mem_cons.mpr ⟨forall_mem_some (AcousticBeamData.reads dflt), ?_⟩
  refine List.forall_mem_cons.mpr ⟨forall_mem_some (AcousticEmitterSystem.reads dflt), ?_⟩
  refine List.forall_mem_cons.mpr ⟨forall_mem_some (Vector3Float.reads dflt), ?_⟩
  refine List.forall_mem_cons.mpr ⟨forall_mem_some (AcousticEmitterSystemData.reads dflt rfl), ?_⟩
  refine List.forall_mem_cons.mpr ⟨forall_mem_some (AggregateId.reads dflt), ?_⟩
  refine List.forall_mem_cons.mpr ⟨forall_mem_some (AggregateMarking.reads dflt), ?_⟩
  refine List.forall_mem_cons.mpr ⟨forall_mem_some (AngularVelocity.reads dflt), ?_⟩
  refine List.forall_mem_cons.mpr ⟨forall_mem_some (ApaData.reads dflt), ?_⟩
  refine List.forall_mem_cons.mpr ⟨forall_mem_some (AttributeRecord.reads dflt rfl), ?_⟩
  refine List.forall_mem_cons.mpr ⟨forall_mem_some (SimulationAddress.reads dflt), ?_⟩
  refine List.forall_mem_cons.mpr ⟨forall_mem_some (EntityId.reads dflt), ?_⟩
  refine List.forall_mem_cons.mpr ⟨forall_mem_some (AttributeRecordSet.reads dflt ⟨rfl, fun _ h => nomatch h⟩), ?_⟩
  refine List.forall_mem_cons.mpr ⟨forall_mem_some (BeamData.reads dflt), ?_⟩
  refine List.forall_mem_cons.mpr ⟨forall_mem_some (ClockTime.reads dflt), ?_⟩
  refine List.forall_mem_cons.mpr ⟨forall_mem_some (LinearAcceleration.reads dflt), ?_⟩
  refine List.forall_mem_cons.mpr ⟨forall_mem_some (DeadReckoningParameters.reads dflt), ?_⟩
  refine List.forall_mem_cons.mpr ⟨forall_mem_some (EntityCoordinateVector.reads dflt), ?_⟩
  refine List.forall_mem_cons.mpr ⟨forall_mem_some (EventId.reads dflt), ?_⟩
  refine List.forall_mem_cons.mpr ⟨forall_mem_some (DirectedEnergyDamage.reads dflt), ?_⟩
  refine List.forall_mem_cons.mpr ⟨forall_mem_some (FundamentalParameterData.reads dflt), ?_⟩
  refine List.forall_mem_cons.mpr ⟨forall_mem_some (TrackJamTarget.reads dflt), ?_⟩
  refine List.forall_mem_cons.mpr ⟨forall_mem_some (ElectromagneticEmissionBeamData.reads dflt rfl), ?_⟩
  refine List.forall_mem_cons.mpr ⟨forall_mem_some (EmitterSystem.reads dflt), ?_⟩
  refine List.forall_mem_cons.mpr ⟨forall_mem_some (ElectromagneticEmissionSystemData.reads dflt ⟨rfl, fun _ h => nomatch h⟩), ?_⟩
  refine List.forall_mem_cons.mpr ⟨forall_mem_some (EntityType.reads dflt), ?_⟩
  refine List.forall_mem_cons.mpr ⟨forall_mem_some (Environment.reads dflt), ?_⟩
  refine List.forall_mem_cons.mpr ⟨forall_mem_some (EulerAngles.reads dflt), ?_⟩
  refine List.forall_mem_cons.mpr ⟨forall_mem_some (FundamentalOperationalData.reads dflt), ?_⟩
  refine List.forall_mem_cons.mpr ⟨forall_mem_some (IFFFundamentalParameterData.reads dflt), ?_⟩
  refine List.forall_mem_cons.mpr ⟨forall_mem_some (IntercomCommunicationsParameters.reads dflt), ?_⟩
  refine List.forall_mem_cons.mpr ⟨forall_mem_some (LayerHeader.reads dflt), ?_⟩
  refine List.forall_mem_cons.mpr ⟨forall_mem_some (WorldCoordinate.reads dflt), ?_⟩
  refine List.forall_mem_cons.mpr ⟨forall_mem_some (LinearSegmentParameter.reads dflt), ?_⟩
  refine List.forall_mem_cons.mpr ⟨forall_mem_some (LinearVelocity.reads dflt), ?_⟩
  refine List.forall_mem_cons.mpr ⟨forall_mem_some (MinefieldIdentifier.reads dflt), ?_⟩
  refine List.forall_mem_cons.mpr ⟨forall_mem_some (ModulationType.reads dflt), ?_⟩
  refine List.forall_mem_cons.mpr ⟨forall_mem_some (MunitionDescriptor.reads dflt), ?_⟩
  refine List.forall_mem_cons.mpr ⟨forall_mem_some (NamedLocation.reads dflt), ?_⟩
  refine List.forall_mem_cons.mpr ⟨forall_mem_some (ObjectIdentifier.reads dflt), ?_⟩
  refine List.forall_mem_cons.mpr ⟨forall_mem_some (ObjectType.reads dflt), ?_⟩
  refine List.forall_mem_cons.mpr ⟨forall_mem_some (Point.reads dflt), ?_⟩
  refine List.forall_mem_cons.mpr ⟨forall_mem_some (PropulsionSystemData.reads dflt), ?_⟩
  refine List.forall_mem_cons.mpr ⟨forall_mem_some (RadioEntityType.reads dflt), ?_⟩
  refine List.forall_mem_cons.mpr ⟨forall_mem_some (RecordSpecification.reads dflt ⟨rfl, fun _ h => nomatch h⟩), ?_⟩
  refine List.forall_mem_cons.mpr ⟨forall_mem_some (Relationship.reads dflt), ?_⟩
  refine List.forall_mem_cons.mpr ⟨forall_mem_some (SecondaryOperationalData.reads dflt), ?_⟩
  refine List.forall_mem_cons.mpr ⟨forall_mem_some (ShaftRPMs.reads dflt), ?_⟩
  refine List.forall_mem_cons.mpr ⟨forall_mem_some (SimulationIdentifier.reads dflt), ?_⟩
  refine List.forall_mem_cons.mpr ⟨forall_mem_some (StandardVariableRecords.reads dflt rfl), ?_⟩
  refine List.forall_mem_cons.mpr ⟨forall_mem_some (StandardVariableSpecification.reads dflt ⟨rfl, fun _ h => nomatch h⟩), ?_⟩
  refine List.forall_mem_cons.mpr ⟨forall_mem_some (SupplyQuantity.reads dflt), ?_⟩
  refine List.forall_mem_cons.mpr ⟨forall_mem_some (SystemId.reads dflt), ?_⟩
  refine List.forall_mem_cons.mpr ⟨forall_mem_some (VariableParameter.reads dflt), ?_⟩
  refine List.forall_mem_cons.mpr ⟨fun _ (h : _ ∈ none) => (Option.not_mem_none _ h).elim, ?_⟩
  refine List.forall_mem_cons.mpr ⟨forall_mem_some (Vector3Double.reads dflt), ?_⟩
  refine List.forall_mem_cons.mpr ⟨forall_mem_some (VectoringNozzleSystemData.reads dflt), ?_⟩
  refine List.forall_mem_cons.mpr ⟨forall_mem_some (VelocityVector.reads dflt), ?_⟩
  refine List.forall_mem_cons.mpr ⟨fun _ (h : _ ∈ none) => (Option.not_mem_none _ h).elim, ?_⟩
  refine List.forall_mem_cons.mpr ⟨fun _ (h : _ ∈ none) => (Option.not_mem_none _ h).elim, ?_⟩
  refine List.forall_mem_cons.mpr ⟨fun _ (h : _ ∈ none) => (Option.not_mem_none _ h).elim, ?_⟩
  exact fun _ h => nomatch h

example : defaultRecords.length = 61 ∧ (defaultRecords.filter fun r => r.de.isSome).length = 57 := by decide
example : EntityId.serialize dflt ⟨true⟩ [] = .ok ((), [0, 1, 0, 1, 0, 0]) := rfl

end Dis
