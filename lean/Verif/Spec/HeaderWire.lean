import Verif.Model.Header
import Verif.Spec.Wire
/-
Wire images of the two headers, after IEEE 1278.1 table "PDU Header record": version, exercise, type,
family, timestamp, length, then status (or subprotocol) and padding.
-/
namespace Dis

instance : Wire PduStatusRecord := ⟨fun s => octets 1 s.bits.toNat⟩

instance : Wire PduHeader :=
  ⟨fun h => wire h.protocol_version ▹ wire h.exercise_id ▹ wire h.pdu_type ▹ wire h.protocol_family ▹
    wire h.timestamp ▹ wire h.length ▹ wire h.status_record ▹ wire h.padding⟩

instance : Wire LiveEntityPduHeader :=
  ⟨fun h => wire h.protocol_version ▹ wire h.exercise_id ▹ wire h.pdu_type ▹ wire h.protocol_family ▹
    wire h.timestamp ▹ wire h.length ▹ wire h.subprotocol_number ▹ wire h.padding⟩

end Dis
