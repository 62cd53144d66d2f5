import Verif.Model.PduCore
import Verif.Model.Records
/- Generated by tools/gen_pdus.py from the `define_pdu!` blocks of /repo/src. -/
set_option maxRecDepth 4000
namespace Dis

/-- src/logistics.rs:22-38: the fields after the header -/
structure ServiceRequestPdu where
  receiving_entity_id : EntityId
  servicing_entity_id : EntityId
  service_type_requested : ServiceRequestServiceTypeRequested
  number_of_supply_types : UInt8
  padding : UInt16
  supplies : List SupplyQuantity
  deriving DecidableEq
/-- src/pdu_macro.rs:283-285 with the fields of src/logistics.rs:30-35 -/
def ServiceRequestPdu.fieldsLen (self : ServiceRequestPdu) : Nat :=
  field_len self.receiving_entity_id +
  field_len self.servicing_entity_id +
  field_len self.service_type_requested +
  field_len self.number_of_supply_types +
  field_len self.padding +
  field_len self.supplies
/-- src/pdu_macro.rs:319-321 with the fields of src/logistics.rs:30-35 -/
def ServiceRequestPdu.serializeBody (self : ServiceRequestPdu) : Put := do
  serialize_field self.receiving_entity_id
  serialize_field self.servicing_entity_id
  serialize_field self.service_type_requested
  serialize_field self.number_of_supply_types
  serialize_field self.padding
  serialize_field self.supplies
/-- src/pdu_macro.rs:257-272 with the fields of src/logistics.rs:30-35 -/
def ServiceRequestPdu.deserializeBody : Get ServiceRequestPdu := do
  let receiving_entity_id ← (deserialize_field : Get EntityId)
  let servicing_entity_id ← (deserialize_field : Get EntityId)
  let service_type_requested ← (deserialize_field : Get ServiceRequestServiceTypeRequested)
  let number_of_supply_types ← (deserialize_field : Get UInt8)
  let padding ← (deserialize_field : Get UInt16)
  let supplies ← (deserialize_field : Get (List SupplyQuantity))
  return { receiving_entity_id, servicing_entity_id, service_type_requested, number_of_supply_types, padding, supplies }
/-- src/logistics.rs:22-38 (`PduType::ServiceRequest`, `ProtocolFamily::Logistics`) -/
instance : PduBody ServiceRequestPdu where
  pduType := ⟨5, by decide⟩
  family := ⟨3, by decide⟩
  default := { receiving_entity_id := dflt, servicing_entity_id := dflt, service_type_requested := dflt, number_of_supply_types := dflt, padding := dflt, supplies := dflt }
  fieldsLen := ServiceRequestPdu.fieldsLen
  prep := id
  serializeBody := ServiceRequestPdu.serializeBody
  deserializeBody := ServiceRequestPdu.deserializeBody

/-- src/logistics.rs:40-56: the fields after the header -/
structure ResupplyOfferPdu where
  receiving_entity_id : EntityId
  supplying_entity_id : EntityId
  number_of_supply_types : UInt8
  padding : UInt8
  padding2 : UInt16
  supplies : List SupplyQuantity
  deriving DecidableEq
/-- src/pdu_macro.rs:283-285 with the fields of src/logistics.rs:48-53 -/
def ResupplyOfferPdu.fieldsLen (self : ResupplyOfferPdu) : Nat :=
  field_len self.receiving_entity_id +
  field_len self.supplying_entity_id +
  field_len self.number_of_supply_types +
  field_len self.padding +
  field_len self.padding2 +
  field_len self.supplies
/-- src/pdu_macro.rs:319-321 with the fields of src/logistics.rs:48-53 -/
def ResupplyOfferPdu.serializeBody (self : ResupplyOfferPdu) : Put := do
  serialize_field self.receiving_entity_id
  serialize_field self.supplying_entity_id
  serialize_field self.number_of_supply_types
  serialize_field self.padding
  serialize_field self.padding2
  serialize_field self.supplies
/-- src/pdu_macro.rs:257-272 with the fields of src/logistics.rs:48-53 -/
def ResupplyOfferPdu.deserializeBody : Get ResupplyOfferPdu := do
  let receiving_entity_id ← (deserialize_field : Get EntityId)
  let supplying_entity_id ← (deserialize_field : Get EntityId)
  let number_of_supply_types ← (deserialize_field : Get UInt8)
  let padding ← (deserialize_field : Get UInt8)
  let padding2 ← (deserialize_field : Get UInt16)
  let supplies ← (deserialize_field : Get (List SupplyQuantity))
  return { receiving_entity_id, supplying_entity_id, number_of_supply_types, padding, padding2, supplies }
/-- src/logistics.rs:40-56 (`PduType::ResupplyOffer`, `ProtocolFamily::Logistics`) -/
instance : PduBody ResupplyOfferPdu where
  pduType := ⟨6, by decide⟩
  family := ⟨3, by decide⟩
  default := { receiving_entity_id := dflt, supplying_entity_id := dflt, number_of_supply_types := dflt, padding := dflt, padding2 := dflt, supplies := dflt }
  fieldsLen := ResupplyOfferPdu.fieldsLen
  prep := id
  serializeBody := ResupplyOfferPdu.serializeBody
  deserializeBody := ResupplyOfferPdu.deserializeBody

/-- src/logistics.rs:58-74: the fields after the header -/
structure ResupplyReceivedPdu where
  receiving_entity_id : EntityId
  supplying_entity_id : EntityId
  number_of_supply_types : UInt8
  padding : UInt8
  padding2 : UInt16
  supplies : List SupplyQuantity
  deriving DecidableEq
/-- src/pdu_macro.rs:283-285 with the fields of src/logistics.rs:66-71 -/
def ResupplyReceivedPdu.fieldsLen (self : ResupplyReceivedPdu) : Nat :=
  field_len self.receiving_entity_id +
  field_len self.supplying_entity_id +
  field_len self.number_of_supply_types +
  field_len self.padding +
  field_len self.padding2 +
  field_len self.supplies
/-- src/pdu_macro.rs:319-321 with the fields of src/logistics.rs:66-71 -/
def ResupplyReceivedPdu.serializeBody (self : ResupplyReceivedPdu) : Put := do
  serialize_field self.receiving_entity_id
  serialize_field self.supplying_entity_id
  serialize_field self.number_of_supply_types
  serialize_field self.padding
  serialize_field self.padding2
  serialize_field self.supplies
/-- src/pdu_macro.rs:257-272 with the fields of src/logistics.rs:66-71 -/
def ResupplyReceivedPdu.deserializeBody : Get ResupplyReceivedPdu := do
  let receiving_entity_id ← (deserialize_field : Get EntityId)
  let supplying_entity_id ← (deserialize_field : Get EntityId)
  let number_of_supply_types ← (deserialize_field : Get UInt8)
  let padding ← (deserialize_field : Get UInt8)
  let padding2 ← (deserialize_field : Get UInt16)
  let supplies ← (deserialize_field : Get (List SupplyQuantity))
  return { receiving_entity_id, supplying_entity_id, number_of_supply_types, padding, padding2, supplies }
/-- src/logistics.rs:58-74 (`PduType::ResupplyReceived`, `ProtocolFamily::Logistics`) -/
instance : PduBody ResupplyReceivedPdu where
  pduType := ⟨7, by decide⟩
  family := ⟨3, by decide⟩
  default := { receiving_entity_id := dflt, supplying_entity_id := dflt, number_of_supply_types := dflt, padding := dflt, padding2 := dflt, supplies := dflt }
  fieldsLen := ResupplyReceivedPdu.fieldsLen
  prep := id
  serializeBody := ResupplyReceivedPdu.serializeBody
  deserializeBody := ResupplyReceivedPdu.deserializeBody

/-- src/logistics.rs:76-88: the fields after the header -/
structure ResupplyCancelPdu where
  receiving_entity_id : EntityId
  supplying_entity_id : EntityId
  deriving DecidableEq
/-- src/pdu_macro.rs:283-285 with the fields of src/logistics.rs:84-85 -/
def ResupplyCancelPdu.fieldsLen (self : ResupplyCancelPdu) : Nat :=
  field_len self.receiving_entity_id +
  field_len self.supplying_entity_id
/-- src/pdu_macro.rs:319-321 with the fields of src/logistics.rs:84-85 -/
def ResupplyCancelPdu.serializeBody (self : ResupplyCancelPdu) : Put := do
  serialize_field self.receiving_entity_id
  serialize_field self.supplying_entity_id
/-- src/pdu_macro.rs:257-272 with the fields of src/logistics.rs:84-85 -/
def ResupplyCancelPdu.deserializeBody : Get ResupplyCancelPdu := do
  let receiving_entity_id ← (deserialize_field : Get EntityId)
  let supplying_entity_id ← (deserialize_field : Get EntityId)
  return { receiving_entity_id, supplying_entity_id }
/-- src/logistics.rs:76-88 (`PduType::ResupplyCancel`, `ProtocolFamily::Logistics`) -/
instance : PduBody ResupplyCancelPdu where
  pduType := ⟨8, by decide⟩
  family := ⟨3, by decide⟩
  default := { receiving_entity_id := dflt, supplying_entity_id := dflt }
  fieldsLen := ResupplyCancelPdu.fieldsLen
  prep := id
  serializeBody := ResupplyCancelPdu.serializeBody
  deserializeBody := ResupplyCancelPdu.deserializeBody

/-- src/logistics.rs:90-104: the fields after the header -/
structure RepairCompletePdu where
  receiving_entity_id : EntityId
  repairing_entity_id : EntityId
  repair : RepairCompleteRepair
  padding : UInt16
  deriving DecidableEq
/-- src/pdu_macro.rs:283-285 with the fields of src/logistics.rs:98-101 -/
def RepairCompletePdu.fieldsLen (self : RepairCompletePdu) : Nat :=
  field_len self.receiving_entity_id +
  field_len self.repairing_entity_id +
  field_len self.repair +
  field_len self.padding
/-- src/pdu_macro.rs:319-321 with the fields of src/logistics.rs:98-101 -/
def RepairCompletePdu.serializeBody (self : RepairCompletePdu) : Put := do
  serialize_field self.receiving_entity_id
  serialize_field self.repairing_entity_id
  serialize_field self.repair
  serialize_field self.padding
/-- src/pdu_macro.rs:257-272 with the fields of src/logistics.rs:98-101 -/
def RepairCompletePdu.deserializeBody : Get RepairCompletePdu := do
  let receiving_entity_id ← (deserialize_field : Get EntityId)
  let repairing_entity_id ← (deserialize_field : Get EntityId)
  let repair ← (deserialize_field : Get RepairCompleteRepair)
  let padding ← (deserialize_field : Get UInt16)
  return { receiving_entity_id, repairing_entity_id, repair, padding }
/-- src/logistics.rs:90-104 (`PduType::RepairComplete`, `ProtocolFamily::Logistics`) -/
instance : PduBody RepairCompletePdu where
  pduType := ⟨9, by decide⟩
  family := ⟨3, by decide⟩
  default := { receiving_entity_id := dflt, repairing_entity_id := dflt, repair := dflt, padding := dflt }
  fieldsLen := RepairCompletePdu.fieldsLen
  prep := id
  serializeBody := RepairCompletePdu.serializeBody
  deserializeBody := RepairCompletePdu.deserializeBody

/-- src/logistics.rs:106-121: the fields after the header -/
structure RepairResponsePdu where
  receiving_entity_id : EntityId
  repairing_entity_id : EntityId
  repair_result : RepairResponseRepairResult
  padding : UInt8
  padding2 : UInt16
  deriving DecidableEq
/-- src/pdu_macro.rs:283-285 with the fields of src/logistics.rs:114-118 -/
def RepairResponsePdu.fieldsLen (self : RepairResponsePdu) : Nat :=
  field_len self.receiving_entity_id +
  field_len self.repairing_entity_id +
  field_len self.repair_result +
  field_len self.padding +
  field_len self.padding2
/-- src/pdu_macro.rs:319-321 with the fields of src/logistics.rs:114-118 -/
def RepairResponsePdu.serializeBody (self : RepairResponsePdu) : Put := do
  serialize_field self.receiving_entity_id
  serialize_field self.repairing_entity_id
  serialize_field self.repair_result
  serialize_field self.padding
  serialize_field self.padding2
/-- src/pdu_macro.rs:257-272 with the fields of src/logistics.rs:114-118 -/
def RepairResponsePdu.deserializeBody : Get RepairResponsePdu := do
  let receiving_entity_id ← (deserialize_field : Get EntityId)
  let repairing_entity_id ← (deserialize_field : Get EntityId)
  let repair_result ← (deserialize_field : Get RepairResponseRepairResult)
  let padding ← (deserialize_field : Get UInt8)
  let padding2 ← (deserialize_field : Get UInt16)
  return { receiving_entity_id, repairing_entity_id, repair_result, padding, padding2 }
/-- src/logistics.rs:106-121 (`PduType::RepairResponse`, `ProtocolFamily::Logistics`) -/
instance : PduBody RepairResponsePdu where
  pduType := ⟨10, by decide⟩
  family := ⟨3, by decide⟩
  default := { receiving_entity_id := dflt, repairing_entity_id := dflt, repair_result := dflt, padding := dflt, padding2 := dflt }
  fieldsLen := RepairResponsePdu.fieldsLen
  prep := id
  serializeBody := RepairResponsePdu.serializeBody
  deserializeBody := RepairResponsePdu.deserializeBody

/-- src/minefield.rs:23-45: the fields after the header -/
structure MinefieldStatePdu where
  minefield_id : MinefieldIdentifier
  minefield_sequence : UInt16
  force_id : ForceId
  number_of_perimeter_points : UInt8
  minefield_type : EntityType
  number_of_mine_types : UInt16
  minefield_location : WorldCoordinate
  minefield_orientation : EulerAngles
  appearance : UInt16
  protocol_mode : MinefieldStateProtocolMode
  perimeter_points : List Point
  mine_type : List EntityType
  deriving DecidableEq
/-- src/pdu_macro.rs:283-285 with the fields of src/minefield.rs:31-42 -/
def MinefieldStatePdu.fieldsLen (self : MinefieldStatePdu) : Nat :=
  field_len self.minefield_id +
  field_len self.minefield_sequence +
  field_len self.force_id +
  field_len self.number_of_perimeter_points +
  field_len self.minefield_type +
  field_len self.number_of_mine_types +
  field_len self.minefield_location +
  field_len self.minefield_orientation +
  field_len self.appearance +
  field_len self.protocol_mode +
  field_len self.perimeter_points +
  field_len self.mine_type
/-- src/pdu_macro.rs:319-321 with the fields of src/minefield.rs:31-42 -/
def MinefieldStatePdu.serializeBody (self : MinefieldStatePdu) : Put := do
  serialize_field self.minefield_id
  serialize_field self.minefield_sequence
  serialize_field self.force_id
  serialize_field self.number_of_perimeter_points
  serialize_field self.minefield_type
  serialize_field self.number_of_mine_types
  serialize_field self.minefield_location
  serialize_field self.minefield_orientation
  serialize_field self.appearance
  serialize_field self.protocol_mode
  serialize_field self.perimeter_points
  serialize_field self.mine_type
/-- src/pdu_macro.rs:257-272 with the fields of src/minefield.rs:31-42 -/
def MinefieldStatePdu.deserializeBody : Get MinefieldStatePdu := do
  let minefield_id ← (deserialize_field : Get MinefieldIdentifier)
  let minefield_sequence ← (deserialize_field : Get UInt16)
  let force_id ← (deserialize_field : Get ForceId)
  let number_of_perimeter_points ← (deserialize_field : Get UInt8)
  let minefield_type ← (deserialize_field : Get EntityType)
  let number_of_mine_types ← (deserialize_field : Get UInt16)
  let minefield_location ← (deserialize_field : Get WorldCoordinate)
  let minefield_orientation ← (deserialize_field : Get EulerAngles)
  let appearance ← (deserialize_field : Get UInt16)
  let protocol_mode ← (deserialize_field : Get MinefieldStateProtocolMode)
  let perimeter_points ← (deserialize_field : Get (List Point))
  let mine_type ← (deserialize_field : Get (List EntityType))
  return { minefield_id, minefield_sequence, force_id, number_of_perimeter_points, minefield_type, number_of_mine_types, minefield_location, minefield_orientation, appearance, protocol_mode, perimeter_points, mine_type }
/-- src/minefield.rs:23-45 (`PduType::MinefieldState`, `ProtocolFamily::Minefield`) -/
instance : PduBody MinefieldStatePdu where
  pduType := ⟨37, by decide⟩
  family := ⟨8, by decide⟩
  default := { minefield_id := dflt, minefield_sequence := dflt, force_id := dflt, number_of_perimeter_points := dflt, minefield_type := dflt, number_of_mine_types := dflt, minefield_location := dflt, minefield_orientation := dflt, appearance := dflt, protocol_mode := dflt, perimeter_points := dflt, mine_type := dflt }
  fieldsLen := MinefieldStatePdu.fieldsLen
  prep := id
  serializeBody := MinefieldStatePdu.serializeBody
  deserializeBody := MinefieldStatePdu.deserializeBody

/-- src/minefield.rs:47-67: the fields after the header -/
structure MinefieldQueryPdu where
  minefield_id : MinefieldIdentifier
  requesting_entity_id : EntityId
  request_id : UInt8
  number_of_perimeter_points : UInt8
  padding : UInt8
  number_of_sensor_types : UInt8
  data_filter : UInt32
  requested_mine_type : EntityType
  requested_perimeter_points : List Point
  sensor_types : List MinefieldSensorTypes
  deriving DecidableEq
/-- src/pdu_macro.rs:283-285 with the fields of src/minefield.rs:55-64 -/
def MinefieldQueryPdu.fieldsLen (self : MinefieldQueryPdu) : Nat :=
  field_len self.minefield_id +
  field_len self.requesting_entity_id +
  field_len self.request_id +
  field_len self.number_of_perimeter_points +
  field_len self.padding +
  field_len self.number_of_sensor_types +
  field_len self.data_filter +
  field_len self.requested_mine_type +
  field_len self.requested_perimeter_points +
  field_len self.sensor_types
/-- src/pdu_macro.rs:319-321 with the fields of src/minefield.rs:55-64 -/
def MinefieldQueryPdu.serializeBody (self : MinefieldQueryPdu) : Put := do
  serialize_field self.minefield_id
  serialize_field self.requesting_entity_id
  serialize_field self.request_id
  serialize_field self.number_of_perimeter_points
  serialize_field self.padding
  serialize_field self.number_of_sensor_types
  serialize_field self.data_filter
  serialize_field self.requested_mine_type
  serialize_field self.requested_perimeter_points
  serialize_field self.sensor_types
/-- src/pdu_macro.rs:257-272 with the fields of src/minefield.rs:55-64 -/
def MinefieldQueryPdu.deserializeBody : Get MinefieldQueryPdu := do
  let minefield_id ← (deserialize_field : Get MinefieldIdentifier)
  let requesting_entity_id ← (deserialize_field : Get EntityId)
  let request_id ← (deserialize_field : Get UInt8)
  let number_of_perimeter_points ← (deserialize_field : Get UInt8)
  let padding ← (deserialize_field : Get UInt8)
  let number_of_sensor_types ← (deserialize_field : Get UInt8)
  let data_filter ← (deserialize_field : Get UInt32)
  let requested_mine_type ← (deserialize_field : Get EntityType)
  let requested_perimeter_points ← (deserialize_field : Get (List Point))
  let sensor_types ← (deserialize_field : Get (List MinefieldSensorTypes))
  return { minefield_id, requesting_entity_id, request_id, number_of_perimeter_points, padding, number_of_sensor_types, data_filter, requested_mine_type, requested_perimeter_points, sensor_types }
/-- src/minefield.rs:47-67 (`PduType::MinefieldQuery`, `ProtocolFamily::Minefield`) -/
instance : PduBody MinefieldQueryPdu where
  pduType := ⟨38, by decide⟩
  family := ⟨8, by decide⟩
  default := { minefield_id := dflt, requesting_entity_id := dflt, request_id := dflt, number_of_perimeter_points := dflt, padding := dflt, number_of_sensor_types := dflt, data_filter := dflt, requested_mine_type := dflt, requested_perimeter_points := dflt, sensor_types := dflt }
  fieldsLen := MinefieldQueryPdu.fieldsLen
  prep := id
  serializeBody := MinefieldQueryPdu.serializeBody
  deserializeBody := MinefieldQueryPdu.deserializeBody

/-- src/minefield.rs:69-106: the fields after the header -/
structure MinefieldDataPdu where
  minefield_id : MinefieldIdentifier
  requesting_entity_id : EntityId
  minefield_sequence_number : UInt16
  request_id : UInt8
  pdu_sequence_number : UInt8
  number_of_pdus : UInt8
  number_of_mines_in_this_pdu : UInt8
  number_of_sensor_types : UInt8
  padding : UInt8
  data_filter : UInt32
  mine_type : EntityType
  sensor_types : List MinefieldSensorTypes
  mine_location : List EntityCoordinateVector
  ground_burial_depth_offset : List (Option F32)
  water_burial_depth_offset : List (Option F32)
  snow_burial_depth_offset : List (Option F32)
  mine_orientation : List (Option EulerAngles)
  thermal_contrast : List (Option F32)
  reflectance : List (Option F32)
  mine_emplacement_time : List (Option ClockTime)
  mine_entity_id : List (Option UInt16)
  fusing : List (Option UInt16)
  scalar_detection_coefficient : List (Option UInt8)
  paint_scheme : List (Option UInt8)
  number_of_trip_wires : List (Option UInt8)
  number_of_vertices : List (Option UInt8)
  vertices : List (Option (List EntityCoordinateVector))
  deriving DecidableEq
/-- src/pdu_macro.rs:283-285 with the fields of src/minefield.rs:77-103 -/
def MinefieldDataPdu.fieldsLen (self : MinefieldDataPdu) : Nat :=
  field_len self.minefield_id +
  field_len self.requesting_entity_id +
  field_len self.minefield_sequence_number +
  field_len self.request_id +
  field_len self.pdu_sequence_number +
  field_len self.number_of_pdus +
  field_len self.number_of_mines_in_this_pdu +
  field_len self.number_of_sensor_types +
  field_len self.padding +
  field_len self.data_filter +
  field_len self.mine_type +
  field_len self.sensor_types +
  field_len self.mine_location +
  field_len self.ground_burial_depth_offset +
  field_len self.water_burial_depth_offset +
  field_len self.snow_burial_depth_offset +
  field_len self.mine_orientation +
  field_len self.thermal_contrast +
  field_len self.reflectance +
  field_len self.mine_emplacement_time +
  field_len self.mine_entity_id +
  field_len self.fusing +
  field_len self.scalar_detection_coefficient +
  field_len self.paint_scheme +
  field_len self.number_of_trip_wires +
  field_len self.number_of_vertices +
  field_len self.vertices
/-- src/pdu_macro.rs:319-321 with the fields of src/minefield.rs:77-103 -/
def MinefieldDataPdu.serializeBody (self : MinefieldDataPdu) : Put := do
  serialize_field self.minefield_id
  serialize_field self.requesting_entity_id
  serialize_field self.minefield_sequence_number
  serialize_field self.request_id
  serialize_field self.pdu_sequence_number
  serialize_field self.number_of_pdus
  serialize_field self.number_of_mines_in_this_pdu
  serialize_field self.number_of_sensor_types
  serialize_field self.padding
  serialize_field self.data_filter
  serialize_field self.mine_type
  serialize_field self.sensor_types
  serialize_field self.mine_location
  serialize_field self.ground_burial_depth_offset
  serialize_field self.water_burial_depth_offset
  serialize_field self.snow_burial_depth_offset
  serialize_field self.mine_orientation
  serialize_field self.thermal_contrast
  serialize_field self.reflectance
  serialize_field self.mine_emplacement_time
  serialize_field self.mine_entity_id
  serialize_field self.fusing
  serialize_field self.scalar_detection_coefficient
  serialize_field self.paint_scheme
  serialize_field self.number_of_trip_wires
  serialize_field self.number_of_vertices
  serialize_field self.vertices
/-- src/pdu_macro.rs:257-272 with the fields of src/minefield.rs:77-103 -/
def MinefieldDataPdu.deserializeBody : Get MinefieldDataPdu := do
  let minefield_id ← (deserialize_field : Get MinefieldIdentifier)
  let requesting_entity_id ← (deserialize_field : Get EntityId)
  let minefield_sequence_number ← (deserialize_field : Get UInt16)
  let request_id ← (deserialize_field : Get UInt8)
  let pdu_sequence_number ← (deserialize_field : Get UInt8)
  let number_of_pdus ← (deserialize_field : Get UInt8)
  let number_of_mines_in_this_pdu ← (deserialize_field : Get UInt8)
  let number_of_sensor_types ← (deserialize_field : Get UInt8)
  let padding ← (deserialize_field : Get UInt8)
  let data_filter ← (deserialize_field : Get UInt32)
  let mine_type ← (deserialize_field : Get EntityType)
  let sensor_types ← (deserialize_field : Get (List MinefieldSensorTypes))
  let mine_location ← (deserialize_field : Get (List EntityCoordinateVector))
  let ground_burial_depth_offset ← (deserialize_field : Get (List (Option F32)))
  let water_burial_depth_offset ← (deserialize_field : Get (List (Option F32)))
  let snow_burial_depth_offset ← (deserialize_field : Get (List (Option F32)))
  let mine_orientation ← (deserialize_field : Get (List (Option EulerAngles)))
  let thermal_contrast ← (deserialize_field : Get (List (Option F32)))
  let reflectance ← (deserialize_field : Get (List (Option F32)))
  let mine_emplacement_time ← (deserialize_field : Get (List (Option ClockTime)))
  let mine_entity_id ← (deserialize_field : Get (List (Option UInt16)))
  let fusing ← (deserialize_field : Get (List (Option UInt16)))
  let scalar_detection_coefficient ← (deserialize_field : Get (List (Option UInt8)))
  let paint_scheme ← (deserialize_field : Get (List (Option UInt8)))
  let number_of_trip_wires ← (deserialize_field : Get (List (Option UInt8)))
  let number_of_vertices ← (deserialize_field : Get (List (Option UInt8)))
  let vertices ← (deserialize_field : Get (List (Option (List EntityCoordinateVector))))
  return { minefield_id, requesting_entity_id, minefield_sequence_number, request_id, pdu_sequence_number, number_of_pdus, number_of_mines_in_this_pdu, number_of_sensor_types, padding, data_filter, mine_type, sensor_types, mine_location, ground_burial_depth_offset, water_burial_depth_offset, snow_burial_depth_offset, mine_orientation, thermal_contrast, reflectance, mine_emplacement_time, mine_entity_id, fusing, scalar_detection_coefficient, paint_scheme, number_of_trip_wires, number_of_vertices, vertices }
/-- src/minefield.rs:69-106 (`PduType::MinefieldData`, `ProtocolFamily::Minefield`) -/
instance : PduBody MinefieldDataPdu where
  pduType := ⟨39, by decide⟩
  family := ⟨8, by decide⟩
  default := { minefield_id := dflt, requesting_entity_id := dflt, minefield_sequence_number := dflt, request_id := dflt, pdu_sequence_number := dflt, number_of_pdus := dflt, number_of_mines_in_this_pdu := dflt, number_of_sensor_types := dflt, padding := dflt, data_filter := dflt, mine_type := dflt, sensor_types := dflt, mine_location := dflt, ground_burial_depth_offset := dflt, water_burial_depth_offset := dflt, snow_burial_depth_offset := dflt, mine_orientation := dflt, thermal_contrast := dflt, reflectance := dflt, mine_emplacement_time := dflt, mine_entity_id := dflt, fusing := dflt, scalar_detection_coefficient := dflt, paint_scheme := dflt, number_of_trip_wires := dflt, number_of_vertices := dflt, vertices := dflt }
  fieldsLen := MinefieldDataPdu.fieldsLen
  prep := id
  serializeBody := MinefieldDataPdu.serializeBody
  deserializeBody := MinefieldDataPdu.deserializeBody

/-- src/minefield.rs:108-123: the fields after the header -/
structure MinefieldResponseNackPdu where
  minefield_id : EntityId
  requesting_entity_id : EntityId
  request_id : UInt8
  number_of_missing_pdus : UInt8
  missing_pdu_sequence_numbers : List UInt64
  deriving DecidableEq
/-- src/pdu_macro.rs:283-285 with the fields of src/minefield.rs:116-120 -/
def MinefieldResponseNackPdu.fieldsLen (self : MinefieldResponseNackPdu) : Nat :=
  field_len self.minefield_id +
  field_len self.requesting_entity_id +
  field_len self.request_id +
  field_len self.number_of_missing_pdus +
  field_len self.missing_pdu_sequence_numbers
/-- src/pdu_macro.rs:319-321 with the fields of src/minefield.rs:116-120 -/
def MinefieldResponseNackPdu.serializeBody (self : MinefieldResponseNackPdu) : Put := do
  serialize_field self.minefield_id
  serialize_field self.requesting_entity_id
  serialize_field self.request_id
  serialize_field self.number_of_missing_pdus
  serialize_field self.missing_pdu_sequence_numbers
/-- src/pdu_macro.rs:257-272 with the fields of src/minefield.rs:116-120 -/
def MinefieldResponseNackPdu.deserializeBody : Get MinefieldResponseNackPdu := do
  let minefield_id ← (deserialize_field : Get EntityId)
  let requesting_entity_id ← (deserialize_field : Get EntityId)
  let request_id ← (deserialize_field : Get UInt8)
  let number_of_missing_pdus ← (deserialize_field : Get UInt8)
  let missing_pdu_sequence_numbers ← (deserialize_field : Get (List UInt64))
  return { minefield_id, requesting_entity_id, request_id, number_of_missing_pdus, missing_pdu_sequence_numbers }
/-- src/minefield.rs:108-123 (`PduType::MinefieldResponseNack`, `ProtocolFamily::Minefield`) -/
instance : PduBody MinefieldResponseNackPdu where
  pduType := ⟨40, by decide⟩
  family := ⟨8, by decide⟩
  default := { minefield_id := dflt, requesting_entity_id := dflt, request_id := dflt, number_of_missing_pdus := dflt, missing_pdu_sequence_numbers := dflt }
  fieldsLen := MinefieldResponseNackPdu.fieldsLen
  prep := id
  serializeBody := MinefieldResponseNackPdu.serializeBody
  deserializeBody := MinefieldResponseNackPdu.deserializeBody

/-- src/radio_communications.rs:32-65: the fields after the header -/
structure TransmitterPdu where
  entity_id : EntityId
  radio_id : UInt16
  radio_entity_type : RadioEntityType
  transmit_state : TransmitterTransmitState
  input_source : TransmitterInputSource
  number_of_variable_transmitter_parameters_records : UInt16
  antenna_location : WorldCoordinate
  relative_antenna_location : EntityCoordinateVector
  antenna_pattern_type : TransmitterAntennaPatternType
  antenna_pattern_length : UInt16
  frequency : UInt64
  transmit_frequency_bandwidth : F32
  power : F32
  modulation_type : ModulationType
  crypto_system : TransmitterCryptoSystem
  crypto_key_id : UInt16
  modulation_parameter_length : UInt8
  padding : UInt8
  padding2 : UInt16
  modulation_parameters : Option ModulationParameters
  antenna_pattern : Option AntennaPattern
  variable_transmitter_parameters : List VariableTransmitterParameters
  deriving DecidableEq
/-- src/pdu_macro.rs:283-285 with the fields of src/radio_communications.rs:40-62 -/
def TransmitterPdu.fieldsLen (self : TransmitterPdu) : Nat :=
  field_len self.entity_id +
  field_len self.radio_id +
  field_len self.radio_entity_type +
  field_len self.transmit_state +
  field_len self.input_source +
  field_len self.number_of_variable_transmitter_parameters_records +
  field_len self.antenna_location +
  field_len self.relative_antenna_location +
  field_len self.antenna_pattern_type +
  field_len self.antenna_pattern_length +
  field_len self.frequency +
  field_len self.transmit_frequency_bandwidth +
  field_len self.power +
  field_len self.modulation_type +
  field_len self.crypto_system +
  field_len self.crypto_key_id +
  field_len self.modulation_parameter_length +
  field_len self.padding +
  field_len self.padding2 +
  field_len self.modulation_parameters +
  field_len self.antenna_pattern +
  field_len self.variable_transmitter_parameters
/-- src/pdu_macro.rs:319-321 with the fields of src/radio_communications.rs:40-62 -/
def TransmitterPdu.serializeBody (self : TransmitterPdu) : Put := do
  serialize_field self.entity_id
  serialize_field self.radio_id
  serialize_field self.radio_entity_type
  serialize_field self.transmit_state
  serialize_field self.input_source
  serialize_field self.number_of_variable_transmitter_parameters_records
  serialize_field self.antenna_location
  serialize_field self.relative_antenna_location
  serialize_field self.antenna_pattern_type
  serialize_field self.antenna_pattern_length
  serialize_field self.frequency
  serialize_field self.transmit_frequency_bandwidth
  serialize_field self.power
  serialize_field self.modulation_type
  serialize_field self.crypto_system
  serialize_field self.crypto_key_id
  serialize_field self.modulation_parameter_length
  serialize_field self.padding
  serialize_field self.padding2
  serialize_field self.modulation_parameters
  serialize_field self.antenna_pattern
  serialize_field self.variable_transmitter_parameters
/-- src/pdu_macro.rs:257-272 with the fields of src/radio_communications.rs:40-62 -/
def TransmitterPdu.deserializeBody : Get TransmitterPdu := do
  let entity_id ← (deserialize_field : Get EntityId)
  let radio_id ← (deserialize_field : Get UInt16)
  let radio_entity_type ← (deserialize_field : Get RadioEntityType)
  let transmit_state ← (deserialize_field : Get TransmitterTransmitState)
  let input_source ← (deserialize_field : Get TransmitterInputSource)
  let number_of_variable_transmitter_parameters_records ← (deserialize_field : Get UInt16)
  let antenna_location ← (deserialize_field : Get WorldCoordinate)
  let relative_antenna_location ← (deserialize_field : Get EntityCoordinateVector)
  let antenna_pattern_type ← (deserialize_field : Get TransmitterAntennaPatternType)
  let antenna_pattern_length ← (deserialize_field : Get UInt16)
  let frequency ← (deserialize_field : Get UInt64)
  let transmit_frequency_bandwidth ← (deserialize_field : Get F32)
  let power ← (deserialize_field : Get F32)
  let modulation_type ← (deserialize_field : Get ModulationType)
  let crypto_system ← (deserialize_field : Get TransmitterCryptoSystem)
  let crypto_key_id ← (deserialize_field : Get UInt16)
  let modulation_parameter_length ← (deserialize_field : Get UInt8)
  let padding ← (deserialize_field : Get UInt8)
  let padding2 ← (deserialize_field : Get UInt16)
  -- src/radio_communications.rs:59-60, src/pdu_macro.rs:94-99: the length-annotated field
  let modulation_parameters ← (deserialize_with_len modulation_parameter_length.toNat : Get (Option ModulationParameters))
  let antenna_pattern ← (deserialize_field : Get (Option AntennaPattern))
  let variable_transmitter_parameters ← (deserialize_field : Get (List VariableTransmitterParameters))
  return { entity_id, radio_id, radio_entity_type, transmit_state, input_source, number_of_variable_transmitter_parameters_records, antenna_location, relative_antenna_location, antenna_pattern_type, antenna_pattern_length, frequency, transmit_frequency_bandwidth, power, modulation_type, crypto_system, crypto_key_id, modulation_parameter_length, padding, padding2, modulation_parameters, antenna_pattern, variable_transmitter_parameters }
/-- src/pdu_macro.rs:61-67 for src/radio_communications.rs:59-60.  (The `Option<$inner>` arm at lines 55-59 cannot match:
the type was captured as a `ty` fragment before being passed on.) -/
def TransmitterPdu.prep (self : TransmitterPdu) : TransmitterPdu :=
  let n := field_len self.modulation_parameters
  { self with modulation_parameter_length := if n < 256 then UInt8.ofNat n else 0 }
/-- src/radio_communications.rs:32-65 (`PduType::Transmitter`, `ProtocolFamily::RadioCommunications`) -/
instance : PduBody TransmitterPdu where
  pduType := ⟨25, by decide⟩
  family := ⟨4, by decide⟩
  default := { entity_id := dflt, radio_id := dflt, radio_entity_type := dflt, transmit_state := dflt, input_source := dflt, number_of_variable_transmitter_parameters_records := dflt, antenna_location := dflt, relative_antenna_location := dflt, antenna_pattern_type := dflt, antenna_pattern_length := dflt, frequency := dflt, transmit_frequency_bandwidth := dflt, power := dflt, modulation_type := dflt, crypto_system := dflt, crypto_key_id := dflt, modulation_parameter_length := dflt, padding := dflt, padding2 := dflt, modulation_parameters := dflt, antenna_pattern := dflt, variable_transmitter_parameters := dflt }
  fieldsLen := TransmitterPdu.fieldsLen
  prep := TransmitterPdu.prep
  serializeBody := TransmitterPdu.serializeBody
  deserializeBody := TransmitterPdu.deserializeBody

/-- src/radio_communications.rs:67-85: the fields after the header -/
structure SignalPdu where
  entity_id : EntityId
  radio_id : UInt16
  encoding_scheme : UInt16
  tdl_type : SignalTDLType
  sample_rate : UInt32
  data_length : UInt16
  samples : UInt16
  data : List UInt8
  deriving DecidableEq
/-- src/pdu_macro.rs:283-285 with the fields of src/radio_communications.rs:75-82 -/
def SignalPdu.fieldsLen (self : SignalPdu) : Nat :=
  field_len self.entity_id +
  field_len self.radio_id +
  field_len self.encoding_scheme +
  field_len self.tdl_type +
  field_len self.sample_rate +
  field_len self.data_length +
  field_len self.samples +
  field_len self.data
/-- src/pdu_macro.rs:319-321 with the fields of src/radio_communications.rs:75-82 -/
def SignalPdu.serializeBody (self : SignalPdu) : Put := do
  serialize_field self.entity_id
  serialize_field self.radio_id
  serialize_field self.encoding_scheme
  serialize_field self.tdl_type
  serialize_field self.sample_rate
  serialize_field self.data_length
  serialize_field self.samples
  serialize_field self.data
/-- src/pdu_macro.rs:257-272 with the fields of src/radio_communications.rs:75-82 -/
def SignalPdu.deserializeBody : Get SignalPdu := do
  let entity_id ← (deserialize_field : Get EntityId)
  let radio_id ← (deserialize_field : Get UInt16)
  let encoding_scheme ← (deserialize_field : Get UInt16)
  let tdl_type ← (deserialize_field : Get SignalTDLType)
  let sample_rate ← (deserialize_field : Get UInt32)
  let data_length ← (deserialize_field : Get UInt16)
  let samples ← (deserialize_field : Get UInt16)
  let data ← (deserialize_field : Get (List UInt8))
  return { entity_id, radio_id, encoding_scheme, tdl_type, sample_rate, data_length, samples, data }
/-- src/radio_communications.rs:67-85 (`PduType::Signal`, `ProtocolFamily::RadioCommunications`) -/
instance : PduBody SignalPdu where
  pduType := ⟨26, by decide⟩
  family := ⟨4, by decide⟩
  default := { entity_id := dflt, radio_id := dflt, encoding_scheme := dflt, tdl_type := dflt, sample_rate := dflt, data_length := dflt, samples := dflt, data := dflt }
  fieldsLen := SignalPdu.fieldsLen
  prep := id
  serializeBody := SignalPdu.serializeBody
  deserializeBody := SignalPdu.deserializeBody

/-- src/radio_communications.rs:87-104: the fields after the header -/
structure ReceiverPdu where
  entity_id : EntityId
  radio_id : UInt16
  receiver_state : ReceiverReceiverState
  padding : UInt16
  received_power : F32
  transmitter_radio_reference_id : EntityId
  transmitter_radio_id : UInt16
  deriving DecidableEq
/-- src/pdu_macro.rs:283-285 with the fields of src/radio_communications.rs:95-101 -/
def ReceiverPdu.fieldsLen (self : ReceiverPdu) : Nat :=
  field_len self.entity_id +
  field_len self.radio_id +
  field_len self.receiver_state +
  field_len self.padding +
  field_len self.received_power +
  field_len self.transmitter_radio_reference_id +
  field_len self.transmitter_radio_id
/-- src/pdu_macro.rs:319-321 with the fields of src/radio_communications.rs:95-101 -/
def ReceiverPdu.serializeBody (self : ReceiverPdu) : Put := do
  serialize_field self.entity_id
  serialize_field self.radio_id
  serialize_field self.receiver_state
  serialize_field self.padding
  serialize_field self.received_power
  serialize_field self.transmitter_radio_reference_id
  serialize_field self.transmitter_radio_id
/-- src/pdu_macro.rs:257-272 with the fields of src/radio_communications.rs:95-101 -/
def ReceiverPdu.deserializeBody : Get ReceiverPdu := do
  let entity_id ← (deserialize_field : Get EntityId)
  let radio_id ← (deserialize_field : Get UInt16)
  let receiver_state ← (deserialize_field : Get ReceiverReceiverState)
  let padding ← (deserialize_field : Get UInt16)
  let received_power ← (deserialize_field : Get F32)
  let transmitter_radio_reference_id ← (deserialize_field : Get EntityId)
  let transmitter_radio_id ← (deserialize_field : Get UInt16)
  return { entity_id, radio_id, receiver_state, padding, received_power, transmitter_radio_reference_id, transmitter_radio_id }
/-- src/radio_communications.rs:87-104 (`PduType::Receiver`, `ProtocolFamily::RadioCommunications`) -/
instance : PduBody ReceiverPdu where
  pduType := ⟨27, by decide⟩
  family := ⟨4, by decide⟩
  default := { entity_id := dflt, radio_id := dflt, receiver_state := dflt, padding := dflt, received_power := dflt, transmitter_radio_reference_id := dflt, transmitter_radio_id := dflt }
  fieldsLen := ReceiverPdu.fieldsLen
  prep := id
  serializeBody := ReceiverPdu.serializeBody
  deserializeBody := ReceiverPdu.deserializeBody

/-- src/radio_communications.rs:106-124: the fields after the header -/
structure IntercomSignalPdu where
  intercom_reference_id : EntityId
  intercom_number : UInt16
  encoding_scheme : UInt16
  tdl_type : SignalTDLType
  sample_rate : UInt32
  data_length : UInt16
  samples : UInt16
  data : List UInt8
  deriving DecidableEq
/-- src/pdu_macro.rs:283-285 with the fields of src/radio_communications.rs:114-121 -/
def IntercomSignalPdu.fieldsLen (self : IntercomSignalPdu) : Nat :=
  field_len self.intercom_reference_id +
  field_len self.intercom_number +
  field_len self.encoding_scheme +
  field_len self.tdl_type +
  field_len self.sample_rate +
  field_len self.data_length +
  field_len self.samples +
  field_len self.data
/-- src/pdu_macro.rs:319-321 with the fields of src/radio_communications.rs:114-121 -/
def IntercomSignalPdu.serializeBody (self : IntercomSignalPdu) : Put := do
  serialize_field self.intercom_reference_id
  serialize_field self.intercom_number
  serialize_field self.encoding_scheme
  serialize_field self.tdl_type
  serialize_field self.sample_rate
  serialize_field self.data_length
  serialize_field self.samples
  serialize_field self.data
/-- src/pdu_macro.rs:257-272 with the fields of src/radio_communications.rs:114-121 -/
def IntercomSignalPdu.deserializeBody : Get IntercomSignalPdu := do
  let intercom_reference_id ← (deserialize_field : Get EntityId)
  let intercom_number ← (deserialize_field : Get UInt16)
  let encoding_scheme ← (deserialize_field : Get UInt16)
  let tdl_type ← (deserialize_field : Get SignalTDLType)
  let sample_rate ← (deserialize_field : Get UInt32)
  let data_length ← (deserialize_field : Get UInt16)
  let samples ← (deserialize_field : Get UInt16)
  let data ← (deserialize_field : Get (List UInt8))
  return { intercom_reference_id, intercom_number, encoding_scheme, tdl_type, sample_rate, data_length, samples, data }
/-- src/radio_communications.rs:106-124 (`PduType::IntercomSignal`, `ProtocolFamily::RadioCommunications`) -/
instance : PduBody IntercomSignalPdu where
  pduType := ⟨31, by decide⟩
  family := ⟨4, by decide⟩
  default := { intercom_reference_id := dflt, intercom_number := dflt, encoding_scheme := dflt, tdl_type := dflt, sample_rate := dflt, data_length := dflt, samples := dflt, data := dflt }
  fieldsLen := IntercomSignalPdu.fieldsLen
  prep := id
  serializeBody := IntercomSignalPdu.serializeBody
  deserializeBody := IntercomSignalPdu.deserializeBody

/-- src/radio_communications.rs:126-149: the fields after the header -/
structure IntercomControlPdu where
  control_type : IntercomControlControlType
  communications_channel_type : UInt8
  source_intercom_reference_id : EntityId
  source_intercom_number : UInt16
  source_line_id : UInt8
  transmit_priority : UInt8
  transmit_line_state : IntercomControlTransmitLineState
  command : IntercomControlCommand
  master_intercom_reference_id : EntityId
  master_intercom_number : UInt16
  master_channel_id : UInt16
  intercom_parameters_length : UInt32
  intercom_parameters : List IntercomCommunicationsParameters
  deriving DecidableEq
/-- src/pdu_macro.rs:283-285 with the fields of src/radio_communications.rs:134-146 -/
def IntercomControlPdu.fieldsLen (self : IntercomControlPdu) : Nat :=
  field_len self.control_type +
  field_len self.communications_channel_type +
  field_len self.source_intercom_reference_id +
  field_len self.source_intercom_number +
  field_len self.source_line_id +
  field_len self.transmit_priority +
  field_len self.transmit_line_state +
  field_len self.command +
  field_len self.master_intercom_reference_id +
  field_len self.master_intercom_number +
  field_len self.master_channel_id +
  field_len self.intercom_parameters_length +
  field_len self.intercom_parameters
/-- src/pdu_macro.rs:319-321 with the fields of src/radio_communications.rs:134-146 -/
def IntercomControlPdu.serializeBody (self : IntercomControlPdu) : Put := do
  serialize_field self.control_type
  serialize_field self.communications_channel_type
  serialize_field self.source_intercom_reference_id
  serialize_field self.source_intercom_number
  serialize_field self.source_line_id
  serialize_field self.transmit_priority
  serialize_field self.transmit_line_state
  serialize_field self.command
  serialize_field self.master_intercom_reference_id
  serialize_field self.master_intercom_number
  serialize_field self.master_channel_id
  serialize_field self.intercom_parameters_length
  serialize_field self.intercom_parameters
/-- src/pdu_macro.rs:257-272 with the fields of src/radio_communications.rs:134-146 -/
def IntercomControlPdu.deserializeBody : Get IntercomControlPdu := do
  let control_type ← (deserialize_field : Get IntercomControlControlType)
  let communications_channel_type ← (deserialize_field : Get UInt8)
  let source_intercom_reference_id ← (deserialize_field : Get EntityId)
  let source_intercom_number ← (deserialize_field : Get UInt16)
  let source_line_id ← (deserialize_field : Get UInt8)
  let transmit_priority ← (deserialize_field : Get UInt8)
  let transmit_line_state ← (deserialize_field : Get IntercomControlTransmitLineState)
  let command ← (deserialize_field : Get IntercomControlCommand)
  let master_intercom_reference_id ← (deserialize_field : Get EntityId)
  let master_intercom_number ← (deserialize_field : Get UInt16)
  let master_channel_id ← (deserialize_field : Get UInt16)
  let intercom_parameters_length ← (deserialize_field : Get UInt32)
  let intercom_parameters ← (deserialize_field : Get (List IntercomCommunicationsParameters))
  return { control_type, communications_channel_type, source_intercom_reference_id, source_intercom_number, source_line_id, transmit_priority, transmit_line_state, command, master_intercom_reference_id, master_intercom_number, master_channel_id, intercom_parameters_length, intercom_parameters }
/-- src/radio_communications.rs:126-149 (`PduType::IntercomControl`, `ProtocolFamily::RadioCommunications`) -/
instance : PduBody IntercomControlPdu where
  pduType := ⟨32, by decide⟩
  family := ⟨4, by decide⟩
  default := { control_type := dflt, communications_channel_type := dflt, source_intercom_reference_id := dflt, source_intercom_number := dflt, source_line_id := dflt, transmit_priority := dflt, transmit_line_state := dflt, command := dflt, master_intercom_reference_id := dflt, master_intercom_number := dflt, master_channel_id := dflt, intercom_parameters_length := dflt, intercom_parameters := dflt }
  fieldsLen := IntercomControlPdu.fieldsLen
  prep := id
  serializeBody := IntercomControlPdu.serializeBody
  deserializeBody := IntercomControlPdu.deserializeBody

/-- src/simulation_management.rs:24-37: the fields after the header -/
structure CreateEntityPdu where
  originating_entity_id : EntityId
  receiving_entity_id : EntityId
  request_id : UInt32
  deriving DecidableEq
/-- src/pdu_macro.rs:283-285 with the fields of src/simulation_management.rs:32-34 -/
def CreateEntityPdu.fieldsLen (self : CreateEntityPdu) : Nat :=
  field_len self.originating_entity_id +
  field_len self.receiving_entity_id +
  field_len self.request_id
/-- src/pdu_macro.rs:319-321 with the fields of src/simulation_management.rs:32-34 -/
def CreateEntityPdu.serializeBody (self : CreateEntityPdu) : Put := do
  serialize_field self.originating_entity_id
  serialize_field self.receiving_entity_id
  serialize_field self.request_id
/-- src/pdu_macro.rs:257-272 with the fields of src/simulation_management.rs:32-34 -/
def CreateEntityPdu.deserializeBody : Get CreateEntityPdu := do
  let originating_entity_id ← (deserialize_field : Get EntityId)
  let receiving_entity_id ← (deserialize_field : Get EntityId)
  let request_id ← (deserialize_field : Get UInt32)
  return { originating_entity_id, receiving_entity_id, request_id }
/-- src/simulation_management.rs:24-37 (`PduType::CreateEntity`, `ProtocolFamily::SimulationManagement`) -/
instance : PduBody CreateEntityPdu where
  pduType := ⟨11, by decide⟩
  family := ⟨5, by decide⟩
  default := { originating_entity_id := dflt, receiving_entity_id := dflt, request_id := dflt }
  fieldsLen := CreateEntityPdu.fieldsLen
  prep := id
  serializeBody := CreateEntityPdu.serializeBody
  deserializeBody := CreateEntityPdu.deserializeBody

/-- src/simulation_management.rs:39-52: the fields after the header -/
structure RemoveEntityPdu where
  originating_entity_id : EntityId
  receiving_entity_id : EntityId
  request_id : UInt32
  deriving DecidableEq
/-- src/pdu_macro.rs:283-285 with the fields of src/simulation_management.rs:47-49 -/
def RemoveEntityPdu.fieldsLen (self : RemoveEntityPdu) : Nat :=
  field_len self.originating_entity_id +
  field_len self.receiving_entity_id +
  field_len self.request_id
/-- src/pdu_macro.rs:319-321 with the fields of src/simulation_management.rs:47-49 -/
def RemoveEntityPdu.serializeBody (self : RemoveEntityPdu) : Put := do
  serialize_field self.originating_entity_id
  serialize_field self.receiving_entity_id
  serialize_field self.request_id
/-- src/pdu_macro.rs:257-272 with the fields of src/simulation_management.rs:47-49 -/
def RemoveEntityPdu.deserializeBody : Get RemoveEntityPdu := do
  let originating_entity_id ← (deserialize_field : Get EntityId)
  let receiving_entity_id ← (deserialize_field : Get EntityId)
  let request_id ← (deserialize_field : Get UInt32)
  return { originating_entity_id, receiving_entity_id, request_id }
/-- src/simulation_management.rs:39-52 (`PduType::RemoveEntity`, `ProtocolFamily::SimulationManagement`) -/
instance : PduBody RemoveEntityPdu where
  pduType := ⟨12, by decide⟩
  family := ⟨5, by decide⟩
  default := { originating_entity_id := dflt, receiving_entity_id := dflt, request_id := dflt }
  fieldsLen := RemoveEntityPdu.fieldsLen
  prep := id
  serializeBody := RemoveEntityPdu.serializeBody
  deserializeBody := RemoveEntityPdu.deserializeBody

end Dis
