import Verif.Model.LogText
import Verif.Spec.CalmRecords
/- Specification for C69: what can be read off a line of the radio server's log. -/
namespace Dis

/-- What is assumed of the standard library's texts (`{}` of an `f32`, `{}` of a socket address). -/
structure LogFmt.Lawful {Addr : Type} (σ : LogFmt Addr) : Prop extends σ.toFmt.Lawful where
  /-- a number's text is not empty and consists of the octets of numbers -/
  shownF32_octets : ∀ x, σ.shownF32 x ≠ [] ∧ ∀ b ∈ σ.shownF32 x, b ∈ floatOctets
  /-- all NaNs have the same text -/
  shownF32_nan : ∀ x y, x.nanBits → y.nanBits → σ.shownF32 x = σ.shownF32 y
  /-- apart from that, different numbers have different texts -/
  shownF32_tells : ∀ x y, σ.shownF32 x = σ.shownF32 y → x = y ∨ (x.nanBits ∧ y.nanBits)
  /-- the text of an address contains no space and no line feed -/
  addr_octets : ∀ a, 32 ∉ σ.addr a ∧ 10 ∉ σ.addr a

/-- What a line shows: the values in it, the address as its text, every NaN as one NaN. -/
def LogLine.shown {Addr : Type} (σ : LogFmt Addr) : LogLine Addr → LogLine Text
  | .Transmitter peer entity freq state => .Transmitter (σ.addr peer) entity freq state
  | .Signal peer entity samples data_length => .Signal (σ.addr peer) entity samples data_length
  | .Receiver peer entity state power => .Receiver (σ.addr peer) entity state (calm power)
  | .IntercomSignal peer intercom samples => .IntercomSignal (σ.addr peer) intercom samples
  | .IntercomControl peer intercom command transmit_state =>
    .IntercomControl (σ.addr peer) intercom command transmit_state
  | .Unknown size peer => .Unknown size (σ.addr peer)

end Dis
