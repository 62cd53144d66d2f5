import Verif.Model.Pdus3
import Verif.Spec.Layout
/-
Layout tables of the PDU kinds: the octets, counted from the beginning of the message (the header occupies
octets 0 to 11), of every field up to the first list.  Drafted by tools/gen_layout.py from the field
lists and read through by hand; the totals are compared with those of IEEE 1278.1 in C48_complete.  Known
deviations of the crate from the standard are listed in DESIGN.md.
-/
set_option maxRecDepth 4000
namespace Dis

/-- src/simulation_management.rs:54-69 -/
def StartResumePdu.layout : List (Slot StartResumePdu) := [
  Slot.u16 12 (·.originating_entity_id.simulation_address.site_id),
  Slot.u16 14 (·.originating_entity_id.simulation_address.application_id),
  Slot.u16 16 (·.originating_entity_id.entity_id),
  Slot.u16 18 (·.receiving_entity_id.simulation_address.site_id),
  Slot.u16 20 (·.receiving_entity_id.simulation_address.application_id),
  Slot.u16 22 (·.receiving_entity_id.entity_id),
  Slot.u32 24 (·.real_world_time.hour),
  Slot.u32 28 (·.real_world_time.time_past_hour),
  Slot.u32 32 (·.simulation_time.hour),
  Slot.u32 36 (·.simulation_time.time_past_hour),
  Slot.u32 40 (·.request_id)]

/-- src/simulation_management.rs:71-88 -/
def StopFreezePdu.layout : List (Slot StopFreezePdu) := [
  Slot.u16 12 (·.originating_entity_id.simulation_address.site_id),
  Slot.u16 14 (·.originating_entity_id.simulation_address.application_id),
  Slot.u16 16 (·.originating_entity_id.entity_id),
  Slot.u16 18 (·.receiving_entity_id.simulation_address.site_id),
  Slot.u16 20 (·.receiving_entity_id.simulation_address.application_id),
  Slot.u16 22 (·.receiving_entity_id.entity_id),
  Slot.u32 24 (·.real_world_time.hour),
  Slot.u32 28 (·.real_world_time.time_past_hour),
  Slot.enum 32 1 (·.reason),
  Slot.flags 33 1 [0, 1, 2] (·.frozen_behavior.bits.toNat),
  Slot.u16 34 (·.padding),
  Slot.u32 36 (·.request_id)]

/-- src/simulation_management.rs:90-105 -/
def AcknowledgePdu.layout : List (Slot AcknowledgePdu) := [
  Slot.u16 12 (·.originating_entity_id.simulation_address.site_id),
  Slot.u16 14 (·.originating_entity_id.simulation_address.application_id),
  Slot.u16 16 (·.originating_entity_id.entity_id),
  Slot.u16 18 (·.receiving_entity_id.simulation_address.site_id),
  Slot.u16 20 (·.receiving_entity_id.simulation_address.application_id),
  Slot.u16 22 (·.receiving_entity_id.entity_id),
  Slot.enum 24 2 (·.acknowledge_flag),
  Slot.enum 26 2 (·.response_flag),
  Slot.u32 28 (·.request_id)]

/-- src/simulation_management.rs:107-125 -/
def ActionRequestPdu.layout : List (Slot ActionRequestPdu) := [
  Slot.u16 12 (·.originating_entity_id.simulation_address.site_id),
  Slot.u16 14 (·.originating_entity_id.simulation_address.application_id),
  Slot.u16 16 (·.originating_entity_id.entity_id),
  Slot.u16 18 (·.receiving_entity_id.simulation_address.site_id),
  Slot.u16 20 (·.receiving_entity_id.simulation_address.application_id),
  Slot.u16 22 (·.receiving_entity_id.entity_id),
  Slot.u32 24 (·.request_id),
  Slot.u32 28 (·.action_id),
  Slot.u32 32 (·.number_of_fixed_datum_records),
  Slot.u32 36 (·.number_of_variable_datum_records)]

/-- src/simulation_management.rs:127-145 -/
def ActionResponsePdu.layout : List (Slot ActionResponsePdu) := [
  Slot.u16 12 (·.originating_entity_id.simulation_address.site_id),
  Slot.u16 14 (·.originating_entity_id.simulation_address.application_id),
  Slot.u16 16 (·.originating_entity_id.entity_id),
  Slot.u16 18 (·.receiving_entity_id.simulation_address.site_id),
  Slot.u16 20 (·.receiving_entity_id.simulation_address.application_id),
  Slot.u16 22 (·.receiving_entity_id.entity_id),
  Slot.u32 24 (·.request_id),
  Slot.enum 28 4 (·.request_status),
  Slot.u32 32 (·.number_of_fixed_datum_records),
  Slot.u32 36 (·.number_of_variable_datum_records)]

/-- src/simulation_management.rs:147-165 -/
def DataQueryPdu.layout : List (Slot DataQueryPdu) := [
  Slot.u16 12 (·.originating_entity_id.simulation_address.site_id),
  Slot.u16 14 (·.originating_entity_id.simulation_address.application_id),
  Slot.u16 16 (·.originating_entity_id.entity_id),
  Slot.u16 18 (·.receiving_entity_id.simulation_address.site_id),
  Slot.u16 20 (·.receiving_entity_id.simulation_address.application_id),
  Slot.u16 22 (·.receiving_entity_id.entity_id),
  Slot.u32 24 (·.request_id),
  Slot.u32 28 (·.time_interval),
  Slot.u32 32 (·.number_of_fixed_datum_records),
  Slot.u32 36 (·.number_of_variable_datum_records)]

/-- src/simulation_management.rs:167-185 -/
def SetDataPdu.layout : List (Slot SetDataPdu) := [
  Slot.u16 12 (·.originating_entity_id.simulation_address.site_id),
  Slot.u16 14 (·.originating_entity_id.simulation_address.application_id),
  Slot.u16 16 (·.originating_entity_id.entity_id),
  Slot.u16 18 (·.receiving_entity_id.simulation_address.site_id),
  Slot.u16 20 (·.receiving_entity_id.simulation_address.application_id),
  Slot.u16 22 (·.receiving_entity_id.entity_id),
  Slot.u32 24 (·.request_id),
  Slot.u32 28 (·.padding),
  Slot.u32 32 (·.number_of_fixed_datum_records),
  Slot.u32 36 (·.number_of_variable_datum_records)]

/-- src/simulation_management.rs:187-205 -/
def DataPdu.layout : List (Slot DataPdu) := [
  Slot.u16 12 (·.originating_entity_id.simulation_address.site_id),
  Slot.u16 14 (·.originating_entity_id.simulation_address.application_id),
  Slot.u16 16 (·.originating_entity_id.entity_id),
  Slot.u16 18 (·.receiving_entity_id.simulation_address.site_id),
  Slot.u16 20 (·.receiving_entity_id.simulation_address.application_id),
  Slot.u16 22 (·.receiving_entity_id.entity_id),
  Slot.u32 24 (·.request_id),
  Slot.u32 28 (·.padding),
  Slot.u32 32 (·.number_of_fixed_datum_records),
  Slot.u32 36 (·.number_of_variable_datum_records)]

/-- src/simulation_management.rs:207-225 -/
def EventReportPdu.layout : List (Slot EventReportPdu) := [
  Slot.u16 12 (·.originating_entity_id.simulation_address.site_id),
  Slot.u16 14 (·.originating_entity_id.simulation_address.application_id),
  Slot.u16 16 (·.originating_entity_id.entity_id),
  Slot.u16 18 (·.receiving_entity_id.simulation_address.site_id),
  Slot.u16 20 (·.receiving_entity_id.simulation_address.application_id),
  Slot.u16 22 (·.receiving_entity_id.entity_id),
  Slot.enum 24 4 (·.event_type),
  Slot.u32 28 (·.padding),
  Slot.u32 32 (·.number_of_fixed_datum_records),
  Slot.u32 36 (·.number_of_variable_datum_records)]

/-- src/simulation_management.rs:227-243 -/
def CommentPdu.layout : List (Slot CommentPdu) := [
  Slot.u16 12 (·.originating_entity_id.simulation_address.site_id),
  Slot.u16 14 (·.originating_entity_id.simulation_address.application_id),
  Slot.u16 16 (·.originating_entity_id.entity_id),
  Slot.u16 18 (·.receiving_entity_id.simulation_address.site_id),
  Slot.u16 20 (·.receiving_entity_id.simulation_address.application_id),
  Slot.u16 22 (·.receiving_entity_id.entity_id),
  Slot.u32 24 (·.number_of_fixed_datum_records),
  Slot.u32 28 (·.number_of_variable_datum_records)]

/-- src/simulation_management_with_reliability.rs:29-45 -/
def CreateEntityReliablePdu.layout : List (Slot CreateEntityReliablePdu) := [
  Slot.u16 12 (·.originating_entity_id.simulation_address.site_id),
  Slot.u16 14 (·.originating_entity_id.simulation_address.application_id),
  Slot.u16 16 (·.originating_entity_id.entity_id),
  Slot.u16 18 (·.receiving_entity_id.simulation_address.site_id),
  Slot.u16 20 (·.receiving_entity_id.simulation_address.application_id),
  Slot.u16 22 (·.receiving_entity_id.entity_id),
  Slot.enum 24 1 (·.required_reliability_service),
  Slot.u8 25 (·.padding),
  Slot.u16 26 (·.padding2),
  Slot.u32 28 (·.request_id)]

/-- src/simulation_management_with_reliability.rs:47-63 -/
def RemoveEntityReliablePdu.layout : List (Slot RemoveEntityReliablePdu) := [
  Slot.u16 12 (·.originating_entity_id.simulation_address.site_id),
  Slot.u16 14 (·.originating_entity_id.simulation_address.application_id),
  Slot.u16 16 (·.originating_entity_id.entity_id),
  Slot.u16 18 (·.receiving_entity_id.simulation_address.site_id),
  Slot.u16 20 (·.receiving_entity_id.simulation_address.application_id),
  Slot.u16 22 (·.receiving_entity_id.entity_id),
  Slot.enum 24 1 (·.required_reliability_service),
  Slot.u8 25 (·.padding),
  Slot.u16 26 (·.padding2),
  Slot.u32 28 (·.request_id)]

/-- src/simulation_management_with_reliability.rs:65-83 -/
def StartResumeReliablePdu.layout : List (Slot StartResumeReliablePdu) := [
  Slot.u16 12 (·.originating_entity_id.simulation_address.site_id),
  Slot.u16 14 (·.originating_entity_id.simulation_address.application_id),
  Slot.u16 16 (·.originating_entity_id.entity_id),
  Slot.u16 18 (·.receiving_entity_id.simulation_address.site_id),
  Slot.u16 20 (·.receiving_entity_id.simulation_address.application_id),
  Slot.u16 22 (·.receiving_entity_id.entity_id),
  Slot.u32 24 (·.real_world_time.hour),
  Slot.u32 28 (·.real_world_time.time_past_hour),
  Slot.u32 32 (·.simulation_time.hour),
  Slot.u32 36 (·.simulation_time.time_past_hour),
  Slot.enum 40 1 (·.required_reliability_service),
  Slot.u8 41 (·.padding),
  Slot.u16 42 (·.padding2),
  Slot.u32 44 (·.request_id)]

/-- src/simulation_management_with_reliability.rs:85-103 -/
def StopFreezeReliablePdu.layout : List (Slot StopFreezeReliablePdu) := [
  Slot.u16 12 (·.originating_entity_id.simulation_address.site_id),
  Slot.u16 14 (·.originating_entity_id.simulation_address.application_id),
  Slot.u16 16 (·.originating_entity_id.entity_id),
  Slot.u16 18 (·.receiving_entity_id.simulation_address.site_id),
  Slot.u16 20 (·.receiving_entity_id.simulation_address.application_id),
  Slot.u16 22 (·.receiving_entity_id.entity_id),
  Slot.u32 24 (·.real_world_time.hour),
  Slot.u32 28 (·.real_world_time.time_past_hour),
  Slot.enum 32 1 (·.reason),
  Slot.flags 33 1 [0, 1, 2] (·.frozen_behavior.bits.toNat),
  Slot.u8 34 (·.required_reliability_service),
  Slot.u8 35 (·.padding),
  Slot.u32 36 (·.request_id)]

/-- src/simulation_management_with_reliability.rs:105-120 -/
def AcknowledgeReliablePdu.layout : List (Slot AcknowledgeReliablePdu) := [
  Slot.u16 12 (·.originating_entity_id.simulation_address.site_id),
  Slot.u16 14 (·.originating_entity_id.simulation_address.application_id),
  Slot.u16 16 (·.originating_entity_id.entity_id),
  Slot.u16 18 (·.receiving_entity_id.simulation_address.site_id),
  Slot.u16 20 (·.receiving_entity_id.simulation_address.application_id),
  Slot.u16 22 (·.receiving_entity_id.entity_id),
  Slot.enum 24 2 (·.acknowledge_flag),
  Slot.enum 26 2 (·.response_flag),
  Slot.u32 28 (·.request_id)]

/-- src/simulation_management_with_reliability.rs:122-144 -/
def ActionRequestReliablePdu.layout : List (Slot ActionRequestReliablePdu) := [
  Slot.u16 12 (·.originating_entity_id.simulation_address.site_id),
  Slot.u16 14 (·.originating_entity_id.simulation_address.application_id),
  Slot.u16 16 (·.originating_entity_id.entity_id),
  Slot.u16 18 (·.receiving_entity_id.simulation_address.site_id),
  Slot.u16 20 (·.receiving_entity_id.simulation_address.application_id),
  Slot.u16 22 (·.receiving_entity_id.entity_id),
  Slot.enum 24 1 (·.required_reliability_service),
  Slot.u8 25 (·.padding),
  Slot.u16 26 (·.padding2),
  Slot.u32 28 (·.request_id),
  Slot.u32 32 (·.action_id),
  Slot.u32 36 (·.padding3),
  Slot.u32 40 (·.number_of_fixed_datum_records),
  Slot.u32 44 (·.number_of_variable_datum_records)]

/-- src/simulation_management_with_reliability.rs:146-164 -/
def ActionResponseReliablePdu.layout : List (Slot ActionResponseReliablePdu) := [
  Slot.u16 12 (·.originating_entity_id.simulation_address.site_id),
  Slot.u16 14 (·.originating_entity_id.simulation_address.application_id),
  Slot.u16 16 (·.originating_entity_id.entity_id),
  Slot.u16 18 (·.receiving_entity_id.simulation_address.site_id),
  Slot.u16 20 (·.receiving_entity_id.simulation_address.application_id),
  Slot.u16 22 (·.receiving_entity_id.entity_id),
  Slot.u32 24 (·.request_id),
  Slot.enum 28 4 (·.request_status),
  Slot.u32 32 (·.number_of_fixed_datum_records),
  Slot.u32 36 (·.number_of_variable_datum_records)]

end Dis
