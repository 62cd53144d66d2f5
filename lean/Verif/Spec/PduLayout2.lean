import Verif.Model.Pdus2
import Verif.Spec.Layout
/-
Layout tables of the PDU kinds: the octets, counted from the beginning of the message (the header occupies
octets 0 to 11), of every field up to the first list.  Drafted by tools/gen_layout.py from the field
lists and read through by hand; the totals are compared with those of IEEE 1278.1 in C48_complete.  Known
deviations of the crate from the standard are listed in DESIGN.md.
-/
set_option maxRecDepth 4000
namespace Dis

/-- src/logistics.rs:22-38 -/
def ServiceRequestPdu.layout : List (Slot ServiceRequestPdu) := [
  Slot.u16 12 (·.receiving_entity_id.simulation_address.site_id),
  Slot.u16 14 (·.receiving_entity_id.simulation_address.application_id),
  Slot.u16 16 (·.receiving_entity_id.entity_id),
  Slot.u16 18 (·.servicing_entity_id.simulation_address.site_id),
  Slot.u16 20 (·.servicing_entity_id.simulation_address.application_id),
  Slot.u16 22 (·.servicing_entity_id.entity_id),
  Slot.enum 24 1 (·.service_type_requested),
  Slot.u8 25 (·.number_of_supply_types),
  Slot.u16 26 (·.padding)]

/-- src/logistics.rs:40-56 -/
def ResupplyOfferPdu.layout : List (Slot ResupplyOfferPdu) := [
  Slot.u16 12 (·.receiving_entity_id.simulation_address.site_id),
  Slot.u16 14 (·.receiving_entity_id.simulation_address.application_id),
  Slot.u16 16 (·.receiving_entity_id.entity_id),
  Slot.u16 18 (·.supplying_entity_id.simulation_address.site_id),
  Slot.u16 20 (·.supplying_entity_id.simulation_address.application_id),
  Slot.u16 22 (·.supplying_entity_id.entity_id),
  Slot.u8 24 (·.number_of_supply_types),
  Slot.u8 25 (·.padding),
  Slot.u16 26 (·.padding2)]

/-- src/logistics.rs:58-74 -/
def ResupplyReceivedPdu.layout : List (Slot ResupplyReceivedPdu) := [
  Slot.u16 12 (·.receiving_entity_id.simulation_address.site_id),
  Slot.u16 14 (·.receiving_entity_id.simulation_address.application_id),
  Slot.u16 16 (·.receiving_entity_id.entity_id),
  Slot.u16 18 (·.supplying_entity_id.simulation_address.site_id),
  Slot.u16 20 (·.supplying_entity_id.simulation_address.application_id),
  Slot.u16 22 (·.supplying_entity_id.entity_id),
  Slot.u8 24 (·.number_of_supply_types),
  Slot.u8 25 (·.padding),
  Slot.u16 26 (·.padding2)]

/-- src/logistics.rs:76-88 -/
def ResupplyCancelPdu.layout : List (Slot ResupplyCancelPdu) := [
  Slot.u16 12 (·.receiving_entity_id.simulation_address.site_id),
  Slot.u16 14 (·.receiving_entity_id.simulation_address.application_id),
  Slot.u16 16 (·.receiving_entity_id.entity_id),
  Slot.u16 18 (·.supplying_entity_id.simulation_address.site_id),
  Slot.u16 20 (·.supplying_entity_id.simulation_address.application_id),
  Slot.u16 22 (·.supplying_entity_id.entity_id)]

/-- src/logistics.rs:90-104 -/
def RepairCompletePdu.layout : List (Slot RepairCompletePdu) := [
  Slot.u16 12 (·.receiving_entity_id.simulation_address.site_id),
  Slot.u16 14 (·.receiving_entity_id.simulation_address.application_id),
  Slot.u16 16 (·.receiving_entity_id.entity_id),
  Slot.u16 18 (·.repairing_entity_id.simulation_address.site_id),
  Slot.u16 20 (·.repairing_entity_id.simulation_address.application_id),
  Slot.u16 22 (·.repairing_entity_id.entity_id),
  Slot.enum 24 2 (·.repair),
  Slot.u16 26 (·.padding)]

/-- src/logistics.rs:106-121 -/
def RepairResponsePdu.layout : List (Slot RepairResponsePdu) := [
  Slot.u16 12 (·.receiving_entity_id.simulation_address.site_id),
  Slot.u16 14 (·.receiving_entity_id.simulation_address.application_id),
  Slot.u16 16 (·.receiving_entity_id.entity_id),
  Slot.u16 18 (·.repairing_entity_id.simulation_address.site_id),
  Slot.u16 20 (·.repairing_entity_id.simulation_address.application_id),
  Slot.u16 22 (·.repairing_entity_id.entity_id),
  Slot.enum 24 1 (·.repair_result),
  Slot.u8 25 (·.padding),
  Slot.u16 26 (·.padding2)]

/-- src/minefield.rs:23-45 -/
def MinefieldStatePdu.layout : List (Slot MinefieldStatePdu) := [
  Slot.u16 12 (·.minefield_id.simulation_address.site_id),
  Slot.u16 14 (·.minefield_id.simulation_address.application_id),
  Slot.u16 16 (·.minefield_id.minefield_number),
  Slot.u16 18 (·.minefield_sequence),
  Slot.enum 20 1 (·.force_id),
  Slot.u8 21 (·.number_of_perimeter_points),
  Slot.enum 22 1 (·.minefield_type.kind),
  Slot.u8 23 (·.minefield_type.domain),
  Slot.enum 24 2 (·.minefield_type.country),
  Slot.u8 26 (·.minefield_type.category),
  Slot.u8 27 (·.minefield_type.subcategory),
  Slot.u8 28 (·.minefield_type.specific),
  Slot.u8 29 (·.minefield_type.extra),
  Slot.u16 30 (·.number_of_mine_types),
  Slot.f64 32 (·.minefield_location.x),
  Slot.f64 40 (·.minefield_location.y),
  Slot.f64 48 (·.minefield_location.z),
  Slot.f32 56 (·.minefield_orientation.psi),
  Slot.f32 60 (·.minefield_orientation.theta),
  Slot.f32 64 (·.minefield_orientation.phi),
  Slot.u16 68 (·.appearance),
  Slot.enum 70 2 (·.protocol_mode)]

/-- src/minefield.rs:47-67 -/
def MinefieldQueryPdu.layout : List (Slot MinefieldQueryPdu) := [
  Slot.u16 12 (·.minefield_id.simulation_address.site_id),
  Slot.u16 14 (·.minefield_id.simulation_address.application_id),
  Slot.u16 16 (·.minefield_id.minefield_number),
  Slot.u16 18 (·.requesting_entity_id.simulation_address.site_id),
  Slot.u16 20 (·.requesting_entity_id.simulation_address.application_id),
  Slot.u16 22 (·.requesting_entity_id.entity_id),
  Slot.u8 24 (·.request_id),
  Slot.u8 25 (·.number_of_perimeter_points),
  Slot.u8 26 (·.padding),
  Slot.u8 27 (·.number_of_sensor_types),
  Slot.u32 28 (·.data_filter),
  Slot.enum 32 1 (·.requested_mine_type.kind),
  Slot.u8 33 (·.requested_mine_type.domain),
  Slot.enum 34 2 (·.requested_mine_type.country),
  Slot.u8 36 (·.requested_mine_type.category),
  Slot.u8 37 (·.requested_mine_type.subcategory),
  Slot.u8 38 (·.requested_mine_type.specific),
  Slot.u8 39 (·.requested_mine_type.extra)]

/-- src/minefield.rs:69-106 -/
def MinefieldDataPdu.layout : List (Slot MinefieldDataPdu) := [
  Slot.u16 12 (·.minefield_id.simulation_address.site_id),
  Slot.u16 14 (·.minefield_id.simulation_address.application_id),
  Slot.u16 16 (·.minefield_id.minefield_number),
  Slot.u16 18 (·.requesting_entity_id.simulation_address.site_id),
  Slot.u16 20 (·.requesting_entity_id.simulation_address.application_id),
  Slot.u16 22 (·.requesting_entity_id.entity_id),
  Slot.u16 24 (·.minefield_sequence_number),
  Slot.u8 26 (·.request_id),
  Slot.u8 27 (·.pdu_sequence_number),
  Slot.u8 28 (·.number_of_pdus),
  Slot.u8 29 (·.number_of_mines_in_this_pdu),
  Slot.u8 30 (·.number_of_sensor_types),
  Slot.u8 31 (·.padding),
  Slot.u32 32 (·.data_filter),
  Slot.enum 36 1 (·.mine_type.kind),
  Slot.u8 37 (·.mine_type.domain),
  Slot.enum 38 2 (·.mine_type.country),
  Slot.u8 40 (·.mine_type.category),
  Slot.u8 41 (·.mine_type.subcategory),
  Slot.u8 42 (·.mine_type.specific),
  Slot.u8 43 (·.mine_type.extra)]

/-- src/minefield.rs:108-123 -/
def MinefieldResponseNackPdu.layout : List (Slot MinefieldResponseNackPdu) := [
  Slot.u16 12 (·.minefield_id.simulation_address.site_id),
  Slot.u16 14 (·.minefield_id.simulation_address.application_id),
  Slot.u16 16 (·.minefield_id.entity_id),
  Slot.u16 18 (·.requesting_entity_id.simulation_address.site_id),
  Slot.u16 20 (·.requesting_entity_id.simulation_address.application_id),
  Slot.u16 22 (·.requesting_entity_id.entity_id),
  Slot.u8 24 (·.request_id),
  Slot.u8 25 (·.number_of_missing_pdus)]

/-- src/radio_communications.rs:32-65 -/
def TransmitterPdu.layout : List (Slot TransmitterPdu) := [
  Slot.u16 12 (·.entity_id.simulation_address.site_id),
  Slot.u16 14 (·.entity_id.simulation_address.application_id),
  Slot.u16 16 (·.entity_id.entity_id),
  Slot.u16 18 (·.radio_id),
  Slot.u8 20 (·.radio_entity_type.entity_kind),
  Slot.u8 21 (·.radio_entity_type.domain),
  Slot.u16 22 (·.radio_entity_type.country),
  Slot.u8 24 (·.radio_entity_type.category),
  Slot.u8 25 (·.radio_entity_type.nomenclature_version),
  Slot.u16 26 (·.radio_entity_type.nomenclature),
  Slot.enum 28 1 (·.transmit_state),
  Slot.enum 29 1 (·.input_source),
  Slot.u16 30 (·.number_of_variable_transmitter_parameters_records),
  Slot.f64 32 (·.antenna_location.x),
  Slot.f64 40 (·.antenna_location.y),
  Slot.f64 48 (·.antenna_location.z),
  Slot.f32 56 (·.relative_antenna_location.x_coordinate),
  Slot.f32 60 (·.relative_antenna_location.y_coordinate),
  Slot.f32 64 (·.relative_antenna_location.z_coordinate),
  Slot.enum 68 2 (·.antenna_pattern_type),
  Slot.u16 70 (·.antenna_pattern_length),
  Slot.u64 72 (·.frequency),
  Slot.f32 80 (·.transmit_frequency_bandwidth),
  Slot.f32 84 (·.power),
  Slot.u16 88 (·.modulation_type.spread_spectrum),
  Slot.u16 90 (·.modulation_type.major),
  Slot.u16 92 (·.modulation_type.detail),
  Slot.u16 94 (·.modulation_type.system),
  Slot.enum 96 2 (·.crypto_system),
  Slot.u16 98 (·.crypto_key_id),
  Slot.u8 100 (·.modulation_parameter_length),
  Slot.u8 101 (·.padding),
  Slot.u16 102 (·.padding2)]

/-- src/radio_communications.rs:67-85 -/
def SignalPdu.layout : List (Slot SignalPdu) := [
  Slot.u16 12 (·.entity_id.simulation_address.site_id),
  Slot.u16 14 (·.entity_id.simulation_address.application_id),
  Slot.u16 16 (·.entity_id.entity_id),
  Slot.u16 18 (·.radio_id),
  Slot.u16 20 (·.encoding_scheme),
  Slot.enum 22 2 (·.tdl_type),
  Slot.u32 24 (·.sample_rate),
  Slot.u16 28 (·.data_length),
  Slot.u16 30 (·.samples)]

/-- src/radio_communications.rs:87-104 -/
def ReceiverPdu.layout : List (Slot ReceiverPdu) := [
  Slot.u16 12 (·.entity_id.simulation_address.site_id),
  Slot.u16 14 (·.entity_id.simulation_address.application_id),
  Slot.u16 16 (·.entity_id.entity_id),
  Slot.u16 18 (·.radio_id),
  Slot.enum 20 2 (·.receiver_state),
  Slot.u16 22 (·.padding),
  Slot.f32 24 (·.received_power),
  Slot.u16 28 (·.transmitter_radio_reference_id.simulation_address.site_id),
  Slot.u16 30 (·.transmitter_radio_reference_id.simulation_address.application_id),
  Slot.u16 32 (·.transmitter_radio_reference_id.entity_id),
  Slot.u16 34 (·.transmitter_radio_id)]

/-- src/radio_communications.rs:106-124 -/
def IntercomSignalPdu.layout : List (Slot IntercomSignalPdu) := [
  Slot.u16 12 (·.intercom_reference_id.simulation_address.site_id),
  Slot.u16 14 (·.intercom_reference_id.simulation_address.application_id),
  Slot.u16 16 (·.intercom_reference_id.entity_id),
  Slot.u16 18 (·.intercom_number),
  Slot.u16 20 (·.encoding_scheme),
  Slot.enum 22 2 (·.tdl_type),
  Slot.u32 24 (·.sample_rate),
  Slot.u16 28 (·.data_length),
  Slot.u16 30 (·.samples)]

/-- src/radio_communications.rs:126-149 -/
def IntercomControlPdu.layout : List (Slot IntercomControlPdu) := [
  Slot.enum 12 1 (·.control_type),
  Slot.u8 13 (·.communications_channel_type),
  Slot.u16 14 (·.source_intercom_reference_id.simulation_address.site_id),
  Slot.u16 16 (·.source_intercom_reference_id.simulation_address.application_id),
  Slot.u16 18 (·.source_intercom_reference_id.entity_id),
  Slot.u16 20 (·.source_intercom_number),
  Slot.u8 22 (·.source_line_id),
  Slot.u8 23 (·.transmit_priority),
  Slot.enum 24 1 (·.transmit_line_state),
  Slot.enum 25 1 (·.command),
  Slot.u16 26 (·.master_intercom_reference_id.simulation_address.site_id),
  Slot.u16 28 (·.master_intercom_reference_id.simulation_address.application_id),
  Slot.u16 30 (·.master_intercom_reference_id.entity_id),
  Slot.u16 32 (·.master_intercom_number),
  Slot.u16 34 (·.master_channel_id),
  Slot.u32 36 (·.intercom_parameters_length)]

/-- src/simulation_management.rs:24-37 -/
def CreateEntityPdu.layout : List (Slot CreateEntityPdu) := [
  Slot.u16 12 (·.originating_entity_id.simulation_address.site_id),
  Slot.u16 14 (·.originating_entity_id.simulation_address.application_id),
  Slot.u16 16 (·.originating_entity_id.entity_id),
  Slot.u16 18 (·.receiving_entity_id.simulation_address.site_id),
  Slot.u16 20 (·.receiving_entity_id.simulation_address.application_id),
  Slot.u16 22 (·.receiving_entity_id.entity_id),
  Slot.u32 24 (·.request_id)]

/-- src/simulation_management.rs:39-52 -/
def RemoveEntityPdu.layout : List (Slot RemoveEntityPdu) := [
  Slot.u16 12 (·.originating_entity_id.simulation_address.site_id),
  Slot.u16 14 (·.originating_entity_id.simulation_address.application_id),
  Slot.u16 16 (·.originating_entity_id.entity_id),
  Slot.u16 18 (·.receiving_entity_id.simulation_address.site_id),
  Slot.u16 20 (·.receiving_entity_id.simulation_address.application_id),
  Slot.u16 22 (·.receiving_entity_id.entity_id),
  Slot.u32 24 (·.request_id)]

end Dis
