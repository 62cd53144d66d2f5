import Verif.Model.Header
import Verif.Spec.Layout
/-
Layout tables of the two headers, after IEEE 1278.1 tables "PDU Header record" and "Live Entity PDU
Header record".
-/
namespace Dis

/-- src/common/pdu_header.rs:136-154 -/
def PduHeader.layout : List (Slot PduHeader) := [
  Slot.enum 0 1 (·.protocol_version),
  Slot.u8 1 (·.exercise_id),
  Slot.enum 2 1 (·.pdu_type),
  Slot.enum 3 1 (·.protocol_family),
  Slot.u32 4 (·.timestamp),
  Slot.u16 8 (·.length),
  Slot.u8 10 (·.status_record.bits),
  Slot.u8 11 (·.padding)]

/-- src/common/live_entity_pdu_header.rs -/
def LiveEntityPduHeader.layout : List (Slot LiveEntityPduHeader) := [
  Slot.enum 0 1 (·.protocol_version),
  Slot.u8 1 (·.exercise_id),
  Slot.enum 2 1 (·.pdu_type),
  Slot.enum 3 1 (·.protocol_family),
  Slot.u32 4 (·.timestamp),
  Slot.u16 8 (·.length),
  Slot.enum 10 1 (·.subprotocol_number),
  Slot.u8 11 (·.padding)]

end Dis
