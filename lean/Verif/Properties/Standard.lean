import Verif.Proofs.Standard
import Verif.Properties.RoundTrip
/-
C67: what a receiver that follows IEEE 1278.1 (Spec/Standard) finds in messages of the crate whose format is not
the standard's.
-/
set_option maxRecDepth 8000
namespace Dis

/-- Data Query PDU.  Where the standard has identifiers the crate has whole records: the receiver takes for the
identifiers of `n` fixed datums the first `n` of: the first record's identifier, its value, the second's
identifier, its value, ... -/
theorem C67_data_query (p q : Pdu DataQueryPdu) (prof : Profile) (buf buf' : Bytes)
    (h : p.serialize prof buf = .ok ((q, .ok ()), buf')) :
    ∃ w, buf' = buf ++ w ∧ ∀ n ≤ 2 * q.body.fixed_datum_records.length,
      Standard.queriedIds w n =
        (q.body.fixed_datum_records.flatMap fun r => [r.datum_id.toNat, r.datum_value.toNat]).take n := by
  obtain ⟨pre, hl, hb⟩ := serialize_ends .DataQuery p q prof buf buf' h
  refine ⟨_, hb, fun n hn => ?_⟩
  generalize hx : q.body.fixed_datum_records = l at hn ⊢
  have hr : PduKind.rest .DataQuery q.body =
      (l.flatMap fun r => [r.datum_id.toNat, r.datum_value.toNat]).map (Field.mk 4) ++
        q.body.variable_datum_records.flatMap VariableDatumRecord.fields := by
    show datums _ _ = _
    unfold datums
    rw [hx, List.map_flatMap]
    rfl
  have hlen : (l.flatMap fun r => [r.datum_id.toNat, r.datum_value.toNat]).length = 2 * l.length := by
    clear hx hn hr; induction l with
    | nil => rfl
    | cons r l ih => rw [List.flatMap_cons, List.length_append, ih]; simp only [List.length_cons, List.length_nil]; omega
  have hv : ∀ v ∈ (l.flatMap fun r => [r.datum_id.toNat, r.datum_value.toNat]), v < 256 ^ 4 := by
    intro v hv
    obtain ⟨r, -, hv⟩ := List.mem_flatMap.mp hv
    rcases List.mem_cons.mp hv with rfl | hv
    · exact r.datum_id.toNat_lt
    · cases List.mem_singleton.mp hv; exact r.datum_value.toNat_lt
  have := numbersAt_octets 4 (Field.octetsOf (q.body.variable_datum_records.flatMap VariableDatumRecord.fields))
    (l.flatMap fun r => [r.datum_id.toNat, r.datum_value.toNat]) pre 40 hl hv
  rw [hlen] at this
  rw [hr, octetsOf_append, Standard.queriedIds, numbersAt_take _ _ _ hn, this]

/-- With two or more records the receiver is asked for something else, unless the first record's value happens to
be the second's identifier. -/
theorem C67_data_query_misread (p q : Pdu DataQueryPdu) (prof : Profile) (buf buf' : Bytes)
    (h : p.serialize prof buf = .ok ((q, .ok ()), buf')) (a b : FixedDatumRecord) (l : List FixedDatumRecord)
    (hq : q.body.fixed_datum_records = a :: b :: l) (hab : a.datum_value ≠ b.datum_id) :
    ∃ w, buf' = buf ++ w ∧
      Standard.queriedIds w q.body.fixed_datum_records.length ≠ q.body.fixed_datum_records.map (·.datum_id.toNat) := by
  obtain ⟨w, hw, hi⟩ := C67_data_query p q prof buf buf' h
  refine ⟨w, hw, fun he => hab ?_⟩
  rw [hi _ (by omega), hq] at he
  have h2 := congrArg (fun l : List Nat => l[1]?) he
  exact UInt32.toNat_inj.mp (Option.some.inj h2)

/-- One fixed datum is asked for as the standard says. -/
theorem C67_data_query_single (p q : Pdu DataQueryPdu) (prof : Profile) (buf buf' : Bytes)
    (h : p.serialize prof buf = .ok ((q, .ok ()), buf')) (hq : q.body.fixed_datum_records.length ≤ 1) :
    ∃ w, buf' = buf ++ w ∧
      Standard.queriedIds w q.body.fixed_datum_records.length = q.body.fixed_datum_records.map (·.datum_id.toNat) := by
  obtain ⟨w, hw, hi⟩ := C67_data_query p q prof buf buf' h
  refine ⟨w, hw, ?_⟩
  rw [hi _ (by omega)]
  match q.body.fixed_datum_records, hq with
  | [], _ => rfl
  | [a], _ => rfl

/-- a query for the datums 1 and 2; the values, of no meaning in a query, are 0 -/
def C67_query : Pdu DataQueryPdu := ⟨PduHeader.default 7, { (Pdu.new 7 : Pdu DataQueryPdu).body with
  number_of_fixed_datum_records := 2, fixed_datum_records := [⟨1, 0⟩, ⟨2, 0⟩] }⟩

/-- It serializes; a receiver that follows the standard takes it for a query for the datums 1 and 0. -/
example : ∃ q w, C67_query.serialize ⟨true⟩ [] = .ok ((q, .ok ()), [] ++ w) ∧ Standard.queriedIds w 2 = [1, 0] := by
  have hs := Pdu.serialize_of_encodable C67_query (PduKind.encodable .DataQuery rfl C67_query.body)
    (by show 12 + DataQueryPdu.fieldsLen C67_query.body < 65536; decide +kernel) ⟨true⟩ []
  obtain ⟨w, hw, hi⟩ := C67_data_query C67_query _ ⟨true⟩ [] _ hs
  exact ⟨_, w, hw ▸ hs, hi 2 (by decide)⟩

/-- Minefield Response NACK PDU.  Each number has eight octets instead of one: the receiver takes the first `n`
octets of them for the `n` missing PDUs. -/
theorem C67_minefield_nack (p q : Pdu MinefieldResponseNackPdu) (prof : Profile) (buf buf' : Bytes)
    (h : p.serialize prof buf = .ok ((q, .ok ()), buf')) :
    ∃ w, buf' = buf ++ w ∧ ∀ n ≤ 8 * q.body.missing_pdu_sequence_numbers.length,
      Standard.missingPdus w n = (q.body.missing_pdu_sequence_numbers.flatMap fun v =>
        (octets 8 v.toNat).map UInt8.toNat).take n := by
  obtain ⟨pre, hl, hb⟩ := serialize_ends .MinefieldResponseNack p q prof buf buf' h
  refine ⟨_, hb, fun n hn => ?_⟩
  generalize hx : q.body.missing_pdu_sequence_numbers = l at hn ⊢
  have hr : Field.octetsOf (PduKind.rest .MinefieldResponseNack q.body) =
      Field.octetsOf ((l.flatMap fun v => (octets 8 v.toNat).map UInt8.toNat).map (Field.mk 1)) ++ [] := by
    show Field.octetsOf (Field.u64s _) = _
    rw [hx, List.append_nil]
    clear hx hn
    induction l with
    | nil => rfl
    | cons v l ih =>
      rw [List.flatMap_cons, List.map_append, octetsOf_append, ← ih]
      show octets 8 v.toNat ++ _ = _
      refine congrArg (· ++ _) ?_
      exact (octetsOf_bytes _).symm
  have hlen : (l.flatMap fun v => (octets 8 v.toNat).map UInt8.toNat).length = 8 * l.length := by
    clear hx hn hr; induction l with
    | nil => rfl
    | cons v l ih =>
      rw [List.flatMap_cons, List.length_append, ih, List.length_map, octets_length, List.length_cons]; omega
  have hv : ∀ v ∈ (l.flatMap fun v => (octets 8 v.toNat).map UInt8.toNat), v < 256 ^ 1 := by
    intro v hv
    obtain ⟨r, -, hv⟩ := List.mem_flatMap.mp hv
    obtain ⟨c, -, rfl⟩ := List.mem_map.mp hv
    exact c.toNat_lt
  have := numbersAt_octets 1 [] (l.flatMap fun v => (octets 8 v.toNat).map UInt8.toNat) pre 26 hl hv
  rw [hlen] at this
  rw [hr, Standard.missingPdus, numbersAt_take _ _ _ hn, this]

/-- So when up to seven PDUs with numbers the standard allows are reported missing, the receiver is told that
number 0 is, as many times. -/
theorem C67_minefield_nack_zeros (p q : Pdu MinefieldResponseNackPdu) (prof : Profile) (buf buf' : Bytes)
    (h : p.serialize prof buf = .ok ((q, .ok ()), buf')) (hn : q.body.missing_pdu_sequence_numbers.length ≤ 7)
    (hv : ∀ v ∈ q.body.missing_pdu_sequence_numbers, v.toNat < 256) :
    ∃ w, buf' = buf ++ w ∧ Standard.missingPdus w q.body.missing_pdu_sequence_numbers.length =
      List.replicate q.body.missing_pdu_sequence_numbers.length 0 := by
  obtain ⟨w, hw, hi⟩ := C67_minefield_nack p q prof buf buf' h
  refine ⟨w, hw, ?_⟩
  rw [hi _ (by omega)]
  generalize q.body.missing_pdu_sequence_numbers = l at hn hv ⊢
  cases l with
  | nil => rfl
  | cons v l =>
    have hv := hv v List.mem_cons_self
    rw [List.flatMap_cons, octets_eq, beBytes_low hv 7, List.map_append, List.map_replicate, List.append_assoc,
      List.take_append_of_le_length (by rw [List.length_replicate]; exact hn), List.take_replicate,
      Nat.min_eq_left hn]
    rfl

/-- a report that PDUs 3, 5 and 200 are missing -/
def C67_nack : Pdu MinefieldResponseNackPdu := ⟨PduHeader.default 7,
  { (Pdu.new 7 : Pdu MinefieldResponseNackPdu).body with
    number_of_missing_pdus := 3, missing_pdu_sequence_numbers := [3, 5, 200] }⟩

/-- It serializes; the receiver is told three times that number 0 is missing. -/
example : ∃ q w, C67_nack.serialize ⟨true⟩ [] = .ok ((q, .ok ()), [] ++ w) ∧
    Standard.missingPdus w 3 = [0, 0, 0] := by
  have hs := Pdu.serialize_of_encodable C67_nack (PduKind.encodable .MinefieldResponseNack rfl C67_nack.body)
    (by show 12 + MinefieldResponseNackPdu.fieldsLen C67_nack.body < 65536; decide +kernel) ⟨true⟩ []
  obtain ⟨w, hw, hi⟩ := C67_minefield_nack_zeros C67_nack _ ⟨true⟩ [] _ hs (by decide) (by decide)
  exact ⟨_, w, hw ▸ hs, hi⟩

theorem sensorCode_lt (s : MinefieldSensorTypes) : s.code < 256 := by
  have : ∀ c ∈ MinefieldSensorTypes.spec.codes, c < 256 := by decide +kernel
  exact this _ s.mem

/-- Minefield Query PDU.  Sensor types have one octet instead of two: the receiver takes two of them for one. -/
theorem C67_minefield_query (p q : Pdu MinefieldQueryPdu) (prof : Profile) (buf buf' : Bytes)
    (h : p.serialize prof buf = .ok ((q, .ok ()), buf')) :
    ∃ w, buf' = buf ++ w ∧
      Standard.queriedSensors w q.body.requested_perimeter_points.length (q.body.sensor_types.length / 2) =
        pairedUp (q.body.sensor_types.map EnumVal.code) := by
  obtain ⟨pre, hl, hb⟩ := serialize_ends .MinefieldQuery p q prof buf buf' h
  refine ⟨_, hb, ?_⟩
  show numbersAt (pre ++ Field.octetsOf (q.body.requested_perimeter_points.flatMap (fieldsOf Point.layout) ++
    Field.enums 1 q.body.sensor_types)) _ _ _ = _
  generalize q.body.requested_perimeter_points = ps
  generalize q.body.sensor_types = ss
  have hps : (Field.octetsOf (ps.flatMap (fieldsOf Point.layout))).length = 8 * ps.length := by
    induction ps with
    | nil => rfl
    | cons r l ih =>
      rw [List.flatMap_cons, octetsOf_append, List.length_append, ih, Point.spelt, List.length_cons]
      show (octets 4 _ ++ octets 4 _).length + _ = _
      rw [List.length_append, octets_length, octets_length]; omega
  have := numbersAt_pairs (ss.map EnumVal.code) (fun v hv => by
      obtain ⟨s, -, rfl⟩ := List.mem_map.mp hv
      exact sensorCode_lt s)
    (pre ++ Field.octetsOf (ps.flatMap (fieldsOf Point.layout))) [] (40 + 8 * ps.length)
    (by rw [List.length_append, hl, hps]; rfl)
  rw [List.length_map, List.map_map, List.append_nil, List.append_assoc] at this
  rw [octetsOf_append]
  exact this

/-- Minefield Data PDU: likewise. -/
theorem C67_minefield_data (p q : Pdu MinefieldDataPdu) (prof : Profile) (buf buf' : Bytes)
    (h : p.serialize prof buf = .ok ((q, .ok ()), buf')) :
    ∃ w, buf' = buf ++ w ∧
      Standard.sensors w (q.body.sensor_types.length / 2) = pairedUp (q.body.sensor_types.map EnumVal.code) := by
  obtain ⟨pre, hl, hb⟩ := serialize_ends .MinefieldData p q prof buf buf' h
  refine ⟨_, hb, ?_⟩
  obtain ⟨r, hr⟩ : ∃ r, PduKind.rest .MinefieldData q.body = Field.enums 1 q.body.sensor_types ++ r := by
    show ∃ r, MinefieldDataPdu.rest _ = _
    unfold MinefieldDataPdu.rest
    simp only [List.append_assoc]
    exact ⟨_, rfl⟩
  rw [hr, octetsOf_append]
  have := numbersAt_pairs (q.body.sensor_types.map EnumVal.code) (fun v hv => by
      obtain ⟨s, -, rfl⟩ := List.mem_map.mp hv
      exact sensorCode_lt s) pre (Field.octetsOf r) 44 hl
  rw [List.length_map, List.map_map] at this
  exact this

/-- a minefield query for three types of sensors -/
def C67_sensors : Pdu MinefieldQueryPdu := ⟨PduHeader.default 7, { (Pdu.new 7 : Pdu MinefieldQueryPdu).body with
  number_of_sensor_types := 3, sensor_types := [⟨1, by decide⟩, ⟨2, by decide⟩, ⟨3, by decide⟩] }⟩

/-- It serializes; the first sensor type a receiver that follows the standard finds is 258. -/
example : ∃ q w, C67_sensors.serialize ⟨true⟩ [] = .ok ((q, .ok ()), [] ++ w) ∧
    Standard.queriedSensors w 0 1 = [258] := by
  have hs := Pdu.serialize_of_encodable C67_sensors (PduKind.encodable .MinefieldQuery rfl C67_sensors.body)
    (by show 12 + MinefieldQueryPdu.fieldsLen C67_sensors.body < 65536; decide +kernel) ⟨true⟩ []
  obtain ⟨w, hw, hi⟩ := C67_minefield_query C67_sensors _ ⟨true⟩ [] _ hs
  exact ⟨_, w, hw ▸ hs, hi⟩

/-- Linear Object State PDU.  The general appearance has 32 bits instead of 16, and everything after it is two
octets late: of the first segment the receiver finds number and modification, for the general appearance the
upper half of the one sent, and for the specific appearance the lower half of the general and the upper half of
the specific one. -/
theorem C67_linear_segment (p q : Pdu LinearObjectStatePdu) (prof : Profile) (buf buf' : Bytes)
    (h : p.serialize prof buf = .ok ((q, .ok ()), buf')) (a : LinearSegmentParameter) (l : List LinearSegmentParameter)
    (hq : q.body.linear_segment_parameters = a :: l) :
    ∃ w, buf' = buf ++ w ∧
      Standard.segmentNumber w 0 = a.segment_number.toNat ∧
      Standard.segmentModification w 0 = a.segment_modification.toNat ∧
      Standard.segmentGeneral w 0 = a.general_segment_appearance.toNat / 65536 ∧
      Standard.segmentSpecific w 0 = 65536 * (a.general_segment_appearance.toNat % 65536) +
        a.specific_segment_appearance.toNat / 65536 := by
  obtain ⟨pre, hl, hb⟩ := serialize_ends .LinearObjectState p q prof buf buf' h
  refine ⟨_, hb, ?_⟩
  obtain ⟨R, hR⟩ : ∃ R, Field.octetsOf (PduKind.rest .LinearObjectState q.body) =
      octets 1 a.segment_number.toNat ++ (octets 1 a.segment_modification.toNat ++
        (octets 4 a.general_segment_appearance.toNat ++ (octets 4 a.specific_segment_appearance.toNat ++ R))) := by
    refine ⟨Field.octetsOf ((fieldsOf LinearSegmentParameter.layout a).drop 4 ++
      l.flatMap (fieldsOf LinearSegmentParameter.layout)), ?_⟩
    show Field.octetsOf (LinearObjectStatePdu.rest _) = _
    unfold LinearObjectStatePdu.rest
    rw [hq]
    rfl
  rw [hR]
  have hg : a.general_segment_appearance.toNat < 4294967296 := a.general_segment_appearance.toNat_lt
  have hs : a.specific_segment_appearance.toNat < 4294967296 := a.specific_segment_appearance.toNat_lt
  have h1 : a.segment_number.toNat < 256 := a.segment_number.toNat_lt
  have h2 : a.segment_modification.toNat < 256 := a.segment_modification.toNat_lt
  generalize a.general_segment_appearance.toNat = g at *
  generalize a.specific_segment_appearance.toNat = sp at *
  generalize a.segment_number.toNat = n at *
  generalize a.segment_modification.toNat = m at *
  have hl : pre.length = 40 := hl
  refine ⟨?_, ?_, ?_, ?_⟩
  · exact numberAt_octets pre _ hl h1
  · have := numberAt_octets (pre ++ octets 1 n) (octets 4 g ++ (octets 4 sp ++ R)) (start := 41) (width := 1) (v := m)
      (by rw [List.length_append, octets_length, hl]) h2
    rwa [List.append_assoc] at this
  · have := numberAt_octets (pre ++ (octets 1 n ++ octets 1 m)) (octets 2 (g % 256 ^ 2) ++ (octets 4 sp ++ R)) (start := 42)
      (width := 2) (v := g / 256 ^ 2)
      (by rw [List.length_append, List.length_append, octets_length, octets_length, hl]) (by omega)
    rw [show octets 4 g = octets 2 (g / 256 ^ 2) ++ octets 2 (g % 256 ^ 2) from octets_add 2 2 g]
    simp only [List.append_assoc] at this ⊢
    exact this
  · have e : octets 4 (65536 * (g % 65536) + sp / 65536) = octets 2 (g % 256 ^ 2) ++ octets 2 (sp / 256 ^ 2) := by
      rw [show octets 4 _ = octets 2 _ ++ octets 2 _ from octets_add 2 2 _,
        show (65536 * (g % 65536) + sp / 65536) / 256 ^ 2 = g % 256 ^ 2 by omega,
        show (65536 * (g % 65536) + sp / 65536) % 256 ^ 2 = sp / 256 ^ 2 by omega]
    have := numberAt_octets (pre ++ (octets 1 n ++ (octets 1 m ++ octets 2 (g / 256 ^ 2)))) (octets 2 (sp % 256 ^ 2) ++ R)
      (start := 44) (width := 4) (v := 65536 * (g % 65536) + sp / 65536)
      (by simp only [List.length_append, octets_length, hl]) (by omega)
    rw [e] at this
    rw [show octets 4 g = octets 2 (g / 256 ^ 2) ++ octets 2 (g % 256 ^ 2) from octets_add 2 2 g,
      show octets 4 sp = octets 2 (sp / 256 ^ 2) ++ octets 2 (sp % 256 ^ 2) from octets_add 2 2 sp]
    simp only [List.append_assoc] at this ⊢
    exact this

/-- An appearance the standard has room for is taken for 0. -/
theorem C67_linear_appearance_lost (p q : Pdu LinearObjectStatePdu) (prof : Profile) (buf buf' : Bytes)
    (h : p.serialize prof buf = .ok ((q, .ok ()), buf')) (a : LinearSegmentParameter) (l : List LinearSegmentParameter)
    (hq : q.body.linear_segment_parameters = a :: l) (ha : a.general_segment_appearance.toNat < 65536) :
    ∃ w, buf' = buf ++ w ∧ Standard.segmentGeneral w 0 = 0 := by
  obtain ⟨w, hw, -, -, hg, -⟩ := C67_linear_segment p q prof buf buf' h a l hq
  exact ⟨w, hw, by rw [hg]; omega⟩

/-- The second segment is looked for two octets before its place: its number is taken from the padding of the
first. -/
theorem C67_linear_second_segment (p q : Pdu LinearObjectStatePdu) (prof : Profile) (buf buf' : Bytes)
    (h : p.serialize prof buf = .ok ((q, .ok ()), buf')) (a : LinearSegmentParameter) (l : List LinearSegmentParameter)
    (hq : q.body.linear_segment_parameters = a :: l) :
    ∃ w, buf' = buf ++ w ∧ Standard.segmentNumber w 1 = a.padding.toNat / 256 % 256 := by
  obtain ⟨pre, hl, hb⟩ := serialize_ends .LinearObjectState p q prof buf buf' h
  refine ⟨_, hb, ?_⟩
  obtain ⟨A, R, hA, hR⟩ : ∃ A R : Bytes, A.length = 62 ∧ Field.octetsOf (PduKind.rest .LinearObjectState q.body) =
      A ++ (octets 4 a.padding.toNat ++ R) := by
    refine ⟨Field.octetsOf ((fieldsOf LinearSegmentParameter.layout a).take 14),
      Field.octetsOf (l.flatMap (fieldsOf LinearSegmentParameter.layout)), ?_, ?_⟩
    · simp only [LinearSegmentParameter.layout, fieldsOf, List.map_cons, List.take_succ_cons, List.take_zero,
        octetsOf_cons, octetsOf_nil, List.length_append, octets_length, List.length_nil]
      rfl
    · show Field.octetsOf (LinearObjectStatePdu.rest _) = _
      unfold LinearObjectStatePdu.rest
      rw [hq, List.flatMap_cons, octetsOf_append, ← List.append_assoc]
      refine congrArg (· ++ _) ?_
      show Field.octetsOf (fieldsOf LinearSegmentParameter.layout a) =
        Field.octetsOf _ ++ Field.octetsOf ((fieldsOf LinearSegmentParameter.layout a).drop 14)
      rw [← octetsOf_append, List.take_append_drop]
  rw [hR]
  have hl : pre.length = 40 := hl
  have hp : a.padding.toNat < 4294967296 := a.padding.toNat_lt
  generalize a.padding.toNat = v at *
  have e : octets 4 v = octets 2 (v / 256 ^ 2) ++ (octets 1 (v / 256 % 256) ++ octets 1 (v % 256)) := by
    rw [show octets 4 v = octets 2 _ ++ octets 2 _ from octets_add 2 2 v,
      show octets 2 (v % 256 ^ 2) = octets 1 _ ++ octets 1 _ from octets_add 1 1 _,
      show v % 256 ^ 2 / 256 ^ 1 = v / 256 % 256 by omega, show v % 256 ^ 2 % 256 ^ 1 = v % 256 by omega]
  have := numberAt_octets (pre ++ (A ++ octets 2 (v / 256 ^ 2))) (octets 1 (v % 256) ++ R) (start := 104) (width := 1)
    (v := v / 256 % 256) (by simp only [List.length_append, octets_length, hl, hA]) (by omega)
  rw [e]
  simp only [List.append_assoc] at this ⊢
  exact this

/-- two segments of a linear object -/
def C67_wall : Pdu LinearObjectStatePdu := ⟨PduHeader.default 7, { (Pdu.new 7 : Pdu LinearObjectStatePdu).body with
  number_of_segments := 2, linear_segment_parameters :=
    [{ (dflt : LinearSegmentParameter) with segment_number := 1, general_segment_appearance := 0x8001 },
      { (dflt : LinearSegmentParameter) with segment_number := 2 }] }⟩

/-- It serializes; the receiver finds segment 1 with appearance 0, and after it a segment 0. -/
example : ∃ q w, C67_wall.serialize ⟨true⟩ [] = .ok ((q, .ok ()), [] ++ w) ∧ Standard.segmentNumber w 0 = 1 ∧
    Standard.segmentGeneral w 0 = 0 ∧ Standard.segmentSpecific w 0 = 0x80010000 ∧ Standard.segmentNumber w 1 = 0 := by
  have hs := Pdu.serialize_of_encodable C67_wall (PduKind.encodable .LinearObjectState rfl C67_wall.body)
    (by show 12 + LinearObjectStatePdu.fieldsLen C67_wall.body < 65536; decide +kernel) ⟨true⟩ []
  obtain ⟨w, hw, h1, -, h2, h3⟩ := C67_linear_segment C67_wall _ ⟨true⟩ [] _ hs _ _ rfl
  obtain ⟨w', hw', h4⟩ := C67_linear_second_segment C67_wall _ ⟨true⟩ [] _ hs _ _ rfl
  obtain rfl : w = w' := hw.symm.trans hw'
  exact ⟨_, w, hw ▸ hs, h1, h2, h3, h4⟩

/-- Underwater Acoustic PDU.  The crate's emitter systems are only the four octets of name, function and
identifier: the receiver takes the two octets of the name for the length of the system and the number of its
beams. -/
theorem C67_acoustic_system (p q : Pdu UnderwaterAcousticPdu) (prof : Profile) (buf buf' : Bytes)
    (h : p.serialize prof buf = .ok ((q, .ok ()), buf')) (a : AcousticEmitterSystem) (l : List AcousticEmitterSystem)
    (hq : q.body.emitter_systems = a :: l) :
    ∃ w, buf' = buf ++ w ∧
      Standard.systemLength w q.body.shaft_rpms.length q.body.apa_data.length = a.acoustic_name.code / 256 ∧
      Standard.systemBeams w q.body.shaft_rpms.length q.body.apa_data.length = a.acoustic_name.code % 256 := by
  obtain ⟨pre, hl, hb⟩ := serialize_ends .UnderwaterAcoustic p q prof buf buf' h
  refine ⟨_, hb, ?_⟩
  have hl : pre.length = 32 := hl
  obtain ⟨A, R, hA, hR⟩ : ∃ A R : Bytes, A.length = 8 * q.body.shaft_rpms.length + 4 * q.body.apa_data.length ∧
      Field.octetsOf (PduKind.rest .UnderwaterAcoustic q.body) = A ++ (octets 2 a.acoustic_name.code ++ R) := by
    refine ⟨Field.octetsOf (q.body.shaft_rpms.flatMap (fieldsOf ShaftRPMs.layout) ++
        q.body.apa_data.flatMap (fieldsOf ApaData.layout)),
      Field.octetsOf ((fieldsOf AcousticEmitterSystem.layout a).drop 1 ++
        l.flatMap (fieldsOf AcousticEmitterSystem.layout)), ?_, ?_⟩
    · have h1 : ∀ l : List ShaftRPMs, (Field.octetsOf (l.flatMap (fieldsOf ShaftRPMs.layout))).length = 8 * l.length := by
        intro l; induction l with
        | nil => rfl
        | cons r l ih =>
          rw [List.flatMap_cons, octetsOf_append, List.length_append, ih, ShaftRPMs.spelt, ShaftRPMs.wire_length,
            List.length_cons]; omega
      have h2 : ∀ l : List ApaData, (Field.octetsOf (l.flatMap (fieldsOf ApaData.layout))).length = 4 * l.length := by
        intro l; induction l with
        | nil => rfl
        | cons r l ih =>
          rw [List.flatMap_cons, octetsOf_append, List.length_append, ih, ApaData.spelt, ApaData.wire_length,
            List.length_cons]; omega
      rw [octetsOf_append, List.length_append, h1, h2]
    · show Field.octetsOf (UnderwaterAcousticPdu.rest _) = _
      unfold UnderwaterAcousticPdu.rest
      rw [hq, octetsOf_append]
      rfl
  rw [hR]
  have hc : a.acoustic_name.code < 65536 := EnumFits.fits _ a.acoustic_name.mem
  generalize a.acoustic_name.code = c at *
  rw [show octets 2 c = octets 1 (c / 256 ^ 1) ++ octets 1 (c % 256 ^ 1) from octets_add 1 1 c]
  constructor
  · have := numberAt_octets (pre ++ A) (octets 1 (c % 256 ^ 1) ++ R)
      (start := Standard.systemStart q.body.shaft_rpms.length q.body.apa_data.length) (width := 1) (v := c / 256 ^ 1)
      (by unfold Standard.systemStart; rw [List.length_append, hl, hA]; omega) (by omega)
    simp only [List.append_assoc] at this ⊢
    exact this
  · have := numberAt_octets (pre ++ (A ++ octets 1 (c / 256 ^ 1))) R
      (start := Standard.systemStart q.body.shaft_rpms.length q.body.apa_data.length + 1) (width := 1) (v := c % 256 ^ 1)
      (by unfold Standard.systemStart; simp only [List.length_append, hl, hA, octets_length]; omega) (by omega)
    simp only [List.append_assoc] at this ⊢
    exact this

/-- an emitter system -/
def C67_sonar : Pdu UnderwaterAcousticPdu := ⟨PduHeader.default 7, { (Pdu.new 7 : Pdu UnderwaterAcousticPdu).body with
  number_of_ua_emitter_systems := 1, shaft_rpms := [dflt],
  emitter_systems := [{ (dflt : AcousticEmitterSystem) with acoustic_name := ⟨1, by decide +kernel⟩ }] }⟩

/-- It serializes; the receiver finds a system of length 0 with one beam. -/
example : ∃ q w, C67_sonar.serialize ⟨true⟩ [] = .ok ((q, .ok ()), [] ++ w) ∧
    Standard.systemLength w 1 0 = 0 ∧ Standard.systemBeams w 1 0 = 1 := by
  have hs := Pdu.serialize_of_encodable C67_sonar (PduKind.encodable .UnderwaterAcoustic rfl C67_sonar.body)
    (by show 12 + UnderwaterAcousticPdu.fieldsLen C67_sonar.body < 65536; decide +kernel) ⟨true⟩ []
  obtain ⟨w, hw, hi⟩ := C67_acoustic_system C67_sonar _ ⟨true⟩ [] _ hs _ _ rfl
  exact ⟨_, w, hw ▸ hs, hi⟩

/-- Entity State PDU, with the marking of eleven octets the standard wants.  The capabilities are a number up to
12: none from the fifth on can be reported. -/
theorem C67_capabilities (p q : Pdu EntityStatePdu) (prof : Profile) (buf buf' : Bytes)
    (h : p.serialize prof buf = .ok ((q, .ok ()), buf'))
    (hm : (strBytes q.body.entity_marking.entity_marking_string).length = 11) :
    ∃ w, buf' = buf ++ w ∧ (∀ i, Standard.capability w i = q.body.entity_capabilities.code.testBit i) ∧
      ∀ i, 4 ≤ i → Standard.capability w i = false := by
  obtain ⟨w, hw, hc, -⟩ := C48_entity_state p q prof buf buf' h hm
  have hf : numberAt w 140 4 = q.body.entity_capabilities.code := (hc _ List.mem_cons_self).2
  have hlt : q.body.entity_capabilities.code < 16 := by
    have : ∀ c ∈ EntityCapabilities.spec.codes, c < 16 := by decide +kernel
    exact this _ q.body.entity_capabilities.mem
  refine ⟨w, hw, fun i => by rw [Standard.capability, hf], fun i hi => ?_⟩
  rw [Standard.capability, hf]
  exact Nat.testBit_lt_two_pow (Nat.lt_of_lt_of_le hlt (Nat.pow_le_pow_right (n := 2) (by decide) hi))

/-- The example of C48 serializes. -/
example : ∃ q w, C48_entity.serialize ⟨true⟩ [] = .ok ((q, .ok ()), [] ++ w) ∧ Standard.capability w 4 = false := by
  have hs := Pdu.serialize_of_encodable C48_entity (PduKind.encodable .EntityState rfl C48_entity.body)
    (by show 12 + EntityStatePdu.fieldsLen C48_entity.body < 65536; decide +kernel) ⟨true⟩ []
  obtain ⟨w, hw, -, hi⟩ := C67_capabilities C48_entity _ ⟨true⟩ [] _ hs (by decide +kernel)
  exact ⟨_, w, hw ▸ hs, hi 4 (by decide)⟩

/-- IFF PDU.  Every message has layer 2, and a message with layer 1 only makes the decoder panic. -/
theorem C67_iff_layers :
    (∀ (p q : Pdu IFFPdu) (prof : Profile) (buf buf' : Bytes), p.serialize prof buf = .ok ((q, .ok ()), buf') →
      Standard.iffLayer1Octets + 28 ≤ buf'.length - buf.length) ∧
    ∀ (prof : Profile) (b : Bytes), b.length = Standard.iffLayer1Octets → (b.getD 2 0).toNat = 28 →
      decodeAs IFFPdu prof b = .error .bufferUnderflow := by
  refine ⟨fun p q prof buf buf' h => ?_, fun prof b hb ht => ?_⟩
  · obtain ⟨pre, hl, hb⟩ := serialize_ends .IFF p q prof buf buf' h
    have hl : pre.length = 88 := hl
    rw [hb, List.length_append, List.length_append, hl]
    show 60 + 28 ≤ _
    omega
  · have hb : b.length = 60 := hb
    exact (C14_panics_iff_short .IFF rfl (by decide) prof b (by omega) ht).1 (by rw [hb]; decide)

/-- the sixty octets of a message with layer 1 only -/
example : decodeAs IFFPdu ⟨true⟩ ([7, 1, 28, 6] ++ List.replicate 56 0) = .error .bufferUnderflow :=
  C67_iff_layers.2 _ _ (by decide) (by decide)

end Dis
