import Verif.Model.PduKind
/-
Which PDUs a program outside the crate can come by (C57).
-/
namespace Dis

/-- Modulation parameters of at most 255 octets, an antenna pattern of at most 65535 octets; no padding in an aggregate
state PDU; of every other kind any value whatever. -/
def PduKind.buildable : (k : PduKind) → k.Body → Prop
  | .Transmitter, (b : TransmitterPdu) =>
    (∀ m, b.modulation_parameters = some m → m.record_specific_fields.length ≤ 255) ∧
    ∀ a, b.antenna_pattern = some a → a.record_specific_fields.length ≤ 65535
  | .AggregateState, (b : AggregateStatePdu) => b.padding = []
  | _, _ => True

end Dis
