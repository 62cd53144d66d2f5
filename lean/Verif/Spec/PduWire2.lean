import Verif.Model.Pdus2
import Verif.Spec.RecordWire
import Verif.Spec.PduCommon
/-
Generated by tools/gen_pdus.py from the `define_pdu!` field lists of /repo/src: a PDU body's wire image
is the concatenation of its fields' images in declaration order.
-/
set_option maxRecDepth 4000
namespace Dis

/-- the fields of src/logistics.rs:22-38 in declaration order -/
instance : Wire ServiceRequestPdu := ⟨fun x =>
  wire x.receiving_entity_id ▹ wire x.servicing_entity_id ▹ wire x.service_type_requested ▹ wire x.number_of_supply_types ▹ wire x.padding ▹ wire x.supplies⟩
instance : Enc ServiceRequestPdu := .exact _
instance : Dec ServiceRequestPdu :=
  ⟨fun _ => True, fun x => { x with supplies := [] }⟩
instance : Tail ServiceRequestPdu := ⟨fun x => wire x.supplies⟩

/-- the fields of src/logistics.rs:40-56 in declaration order -/
instance : Wire ResupplyOfferPdu := ⟨fun x =>
  wire x.receiving_entity_id ▹ wire x.supplying_entity_id ▹ wire x.number_of_supply_types ▹ wire x.padding ▹ wire x.padding2 ▹ wire x.supplies⟩
instance : Enc ResupplyOfferPdu := .exact _
instance : Dec ResupplyOfferPdu :=
  ⟨fun _ => True, fun x => { x with supplies := [] }⟩
instance : Tail ResupplyOfferPdu := ⟨fun x => wire x.supplies⟩

/-- the fields of src/logistics.rs:58-74 in declaration order -/
instance : Wire ResupplyReceivedPdu := ⟨fun x =>
  wire x.receiving_entity_id ▹ wire x.supplying_entity_id ▹ wire x.number_of_supply_types ▹ wire x.padding ▹ wire x.padding2 ▹ wire x.supplies⟩
instance : Enc ResupplyReceivedPdu := .exact _
instance : Dec ResupplyReceivedPdu :=
  ⟨fun _ => True, fun x => { x with supplies := [] }⟩
instance : Tail ResupplyReceivedPdu := ⟨fun x => wire x.supplies⟩

/-- the fields of src/logistics.rs:76-88 in declaration order -/
instance : Wire ResupplyCancelPdu := ⟨fun x =>
  wire x.receiving_entity_id ▹ wire x.supplying_entity_id⟩
instance : Enc ResupplyCancelPdu := .exact _
instance : Dec ResupplyCancelPdu := .exact _
instance : Tail ResupplyCancelPdu := ⟨fun _ => []⟩

/-- the fields of src/logistics.rs:90-104 in declaration order -/
instance : Wire RepairCompletePdu := ⟨fun x =>
  wire x.receiving_entity_id ▹ wire x.repairing_entity_id ▹ wire x.repair ▹ wire x.padding⟩
instance : Enc RepairCompletePdu := .exact _
instance : Dec RepairCompletePdu := .exact _
instance : Tail RepairCompletePdu := ⟨fun _ => []⟩

/-- the fields of src/logistics.rs:106-121 in declaration order -/
instance : Wire RepairResponsePdu := ⟨fun x =>
  wire x.receiving_entity_id ▹ wire x.repairing_entity_id ▹ wire x.repair_result ▹ wire x.padding ▹ wire x.padding2⟩
instance : Enc RepairResponsePdu := .exact _
instance : Dec RepairResponsePdu := .exact _
instance : Tail RepairResponsePdu := ⟨fun _ => []⟩

/-- the fields of src/minefield.rs:23-45 in declaration order -/
instance : Wire MinefieldStatePdu := ⟨fun x =>
  wire x.minefield_id ▹ wire x.minefield_sequence ▹ wire x.force_id ▹ wire x.number_of_perimeter_points ▹ wire x.minefield_type ▹ wire x.number_of_mine_types ▹ wire x.minefield_location ▹ wire x.minefield_orientation ▹ wire x.appearance ▹ wire x.protocol_mode ▹ wire x.perimeter_points ▹ wire x.mine_type⟩
instance : Enc MinefieldStatePdu := .exact _
instance : Dec MinefieldStatePdu :=
  ⟨fun _ => True, fun x => { x with perimeter_points := [], mine_type := [] }⟩
instance : Tail MinefieldStatePdu := ⟨fun x => wire x.perimeter_points ▹ wire x.mine_type⟩

/-- the fields of src/minefield.rs:47-67 in declaration order -/
instance : Wire MinefieldQueryPdu := ⟨fun x =>
  wire x.minefield_id ▹ wire x.requesting_entity_id ▹ wire x.request_id ▹ wire x.number_of_perimeter_points ▹ wire x.padding ▹ wire x.number_of_sensor_types ▹ wire x.data_filter ▹ wire x.requested_mine_type ▹ wire x.requested_perimeter_points ▹ wire x.sensor_types⟩
instance : Enc MinefieldQueryPdu := .exact _
instance : Dec MinefieldQueryPdu :=
  ⟨fun _ => True, fun x => { x with requested_perimeter_points := [], sensor_types := [] }⟩
instance : Tail MinefieldQueryPdu := ⟨fun x => wire x.requested_perimeter_points ▹ wire x.sensor_types⟩

/-- the fields of src/minefield.rs:69-106 in declaration order -/
instance : Wire MinefieldDataPdu := ⟨fun x =>
  wire x.minefield_id ▹ wire x.requesting_entity_id ▹ wire x.minefield_sequence_number ▹ wire x.request_id ▹ wire x.pdu_sequence_number ▹ wire x.number_of_pdus ▹ wire x.number_of_mines_in_this_pdu ▹ wire x.number_of_sensor_types ▹ wire x.padding ▹ wire x.data_filter ▹ wire x.mine_type ▹ wire x.sensor_types ▹ wire x.mine_location ▹ wire x.ground_burial_depth_offset ▹ wire x.water_burial_depth_offset ▹ wire x.snow_burial_depth_offset ▹ wire x.mine_orientation ▹ wire x.thermal_contrast ▹ wire x.reflectance ▹ wire x.mine_emplacement_time ▹ wire x.mine_entity_id ▹ wire x.fusing ▹ wire x.scalar_detection_coefficient ▹ wire x.paint_scheme ▹ wire x.number_of_trip_wires ▹ wire x.number_of_vertices ▹ wire x.vertices⟩
instance : Enc MinefieldDataPdu := .exact _
instance : Dec MinefieldDataPdu :=
  ⟨fun _ => True, fun x => { x with sensor_types := [], mine_location := [], ground_burial_depth_offset := [], water_burial_depth_offset := [], snow_burial_depth_offset := [], mine_orientation := [], thermal_contrast := [], reflectance := [], mine_emplacement_time := [], mine_entity_id := [], fusing := [], scalar_detection_coefficient := [], paint_scheme := [], number_of_trip_wires := [], number_of_vertices := [], vertices := [] }⟩
instance : Tail MinefieldDataPdu := ⟨fun x => wire x.sensor_types ▹ wire x.mine_location ▹ wire x.ground_burial_depth_offset ▹ wire x.water_burial_depth_offset ▹ wire x.snow_burial_depth_offset ▹ wire x.mine_orientation ▹ wire x.thermal_contrast ▹ wire x.reflectance ▹ wire x.mine_emplacement_time ▹ wire x.mine_entity_id ▹ wire x.fusing ▹ wire x.scalar_detection_coefficient ▹ wire x.paint_scheme ▹ wire x.number_of_trip_wires ▹ wire x.number_of_vertices ▹ wire x.vertices⟩

/-- the fields of src/minefield.rs:108-123 in declaration order -/
instance : Wire MinefieldResponseNackPdu := ⟨fun x =>
  wire x.minefield_id ▹ wire x.requesting_entity_id ▹ wire x.request_id ▹ wire x.number_of_missing_pdus ▹ wire x.missing_pdu_sequence_numbers⟩
instance : Enc MinefieldResponseNackPdu := .exact _
instance : Dec MinefieldResponseNackPdu :=
  ⟨fun _ => True, fun x => { x with missing_pdu_sequence_numbers := [] }⟩
instance : Tail MinefieldResponseNackPdu := ⟨fun x => wire x.missing_pdu_sequence_numbers⟩

/-- the fields of src/radio_communications.rs:32-65 in declaration order -/
instance : Wire TransmitterPdu := ⟨fun x =>
  wire x.entity_id ▹ wire x.radio_id ▹ wire x.radio_entity_type ▹ wire x.transmit_state ▹ wire x.input_source ▹ wire x.number_of_variable_transmitter_parameters_records ▹ wire x.antenna_location ▹ wire x.relative_antenna_location ▹ wire x.antenna_pattern_type ▹ wire x.antenna_pattern_length ▹ wire x.frequency ▹ wire x.transmit_frequency_bandwidth ▹ wire x.power ▹ wire x.modulation_type ▹ wire x.crypto_system ▹ wire x.crypto_key_id ▹ wire x.modulation_parameter_length ▹ wire x.padding ▹ wire x.padding2 ▹ wire x.modulation_parameters ▹ wire x.antenna_pattern ▹ wire x.variable_transmitter_parameters⟩
instance : Enc TransmitterPdu := .exact _
/-- the annotated length agrees with the parameters, which are absent or not empty -/
instance : Dec TransmitterPdu :=
  ⟨fun x => x.modulation_parameter_length.toNat = (wire x.modulation_parameters).length ∧ x.modulation_parameters ≠ some ⟨[]⟩, fun x => { x with antenna_pattern := none, variable_transmitter_parameters := [] }⟩
instance : Tail TransmitterPdu := ⟨fun x => wire x.antenna_pattern ▹ wire x.variable_transmitter_parameters⟩

/-- the fields of src/radio_communications.rs:67-85 in declaration order -/
instance : Wire SignalPdu := ⟨fun x =>
  wire x.entity_id ▹ wire x.radio_id ▹ wire x.encoding_scheme ▹ wire x.tdl_type ▹ wire x.sample_rate ▹ wire x.data_length ▹ wire x.samples ▹ wire x.data⟩
instance : Enc SignalPdu := .exact _
instance : Dec SignalPdu :=
  ⟨fun _ => True, fun x => { x with data := [] }⟩
instance : Tail SignalPdu := ⟨fun x => wire x.data⟩

/-- the fields of src/radio_communications.rs:87-104 in declaration order -/
instance : Wire ReceiverPdu := ⟨fun x =>
  wire x.entity_id ▹ wire x.radio_id ▹ wire x.receiver_state ▹ wire x.padding ▹ wire x.received_power ▹ wire x.transmitter_radio_reference_id ▹ wire x.transmitter_radio_id⟩
instance : Enc ReceiverPdu := .exact _
instance : Dec ReceiverPdu := .exact _
instance : Tail ReceiverPdu := ⟨fun _ => []⟩

/-- the fields of src/radio_communications.rs:106-124 in declaration order -/
instance : Wire IntercomSignalPdu := ⟨fun x =>
  wire x.intercom_reference_id ▹ wire x.intercom_number ▹ wire x.encoding_scheme ▹ wire x.tdl_type ▹ wire x.sample_rate ▹ wire x.data_length ▹ wire x.samples ▹ wire x.data⟩
instance : Enc IntercomSignalPdu := .exact _
instance : Dec IntercomSignalPdu :=
  ⟨fun _ => True, fun x => { x with data := [] }⟩
instance : Tail IntercomSignalPdu := ⟨fun x => wire x.data⟩

/-- the fields of src/radio_communications.rs:126-149 in declaration order -/
instance : Wire IntercomControlPdu := ⟨fun x =>
  wire x.control_type ▹ wire x.communications_channel_type ▹ wire x.source_intercom_reference_id ▹ wire x.source_intercom_number ▹ wire x.source_line_id ▹ wire x.transmit_priority ▹ wire x.transmit_line_state ▹ wire x.command ▹ wire x.master_intercom_reference_id ▹ wire x.master_intercom_number ▹ wire x.master_channel_id ▹ wire x.intercom_parameters_length ▹ wire x.intercom_parameters⟩
instance : Enc IntercomControlPdu := .exact _
instance : Dec IntercomControlPdu :=
  ⟨fun _ => True, fun x => { x with intercom_parameters := [] }⟩
instance : Tail IntercomControlPdu := ⟨fun x => wire x.intercom_parameters⟩

/-- the fields of src/simulation_management.rs:24-37 in declaration order -/
instance : Wire CreateEntityPdu := ⟨fun x =>
  wire x.originating_entity_id ▹ wire x.receiving_entity_id ▹ wire x.request_id⟩
instance : Enc CreateEntityPdu := .exact _
instance : Dec CreateEntityPdu := .exact _
instance : Tail CreateEntityPdu := ⟨fun _ => []⟩

/-- the fields of src/simulation_management.rs:39-52 in declaration order -/
instance : Wire RemoveEntityPdu := ⟨fun x =>
  wire x.originating_entity_id ▹ wire x.receiving_entity_id ▹ wire x.request_id⟩
instance : Enc RemoveEntityPdu := .exact _
instance : Dec RemoveEntityPdu := .exact _
instance : Tail RemoveEntityPdu := ⟨fun _ => []⟩

end Dis
