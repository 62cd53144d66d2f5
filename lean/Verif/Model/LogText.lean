import Verif.Model.Printing
import Verif.Model.PrintedPdus
import Verif.Model.Examples
/-
The text of what the examples print (Verif.Model.Examples has the values).
-/
namespace Dis

/-- `Fmt`, with what the standard library prints with `{}` for an `f32` and for a socket address (not modelled further). -/
structure LogFmt (Addr : Type) extends Fmt where
  shownF32 : F32 → Text
  addr : Addr → Text

/-- the formatter of `{:?}` (the radio server does not ask for the indented form) -/
def LogFmt.oneLine {Addr : Type} (σ : LogFmt Addr) : Fmt := { σ.toFmt with alternate := false }

/-- examples/radio_processing_server.rs:60-81: the line without the line feed.  `{}` of an unsigned number is the same
text as `{:?}`. -/
def LogLine.text {Addr : Type} (σ : LogFmt Addr) : LogLine Addr → Text
  | .Transmitter peer entity freq state =>
    strBytes "Transmitter from " ++ (σ.addr peer ++ (strBytes ": entity=" ++ (RDebug.text σ.oneLine entity ++
      (strBytes " freq=" ++ (decimal freq.toNat ++ (strBytes " state=" ++ RDebug.text σ.oneLine state))))))
  | .Signal peer entity samples data_length =>
    strBytes "Signal from " ++ (σ.addr peer ++ (strBytes ": entity=" ++ (RDebug.text σ.oneLine entity ++
      (strBytes " samples=" ++ (decimal samples.toNat ++ (strBytes " data_length=" ++ decimal data_length.toNat))))))
  | .Receiver peer entity state power =>
    strBytes "Receiver from " ++ (σ.addr peer ++ (strBytes ": entity=" ++ (RDebug.text σ.oneLine entity ++
      (strBytes " state=" ++ (RDebug.text σ.oneLine state ++ (strBytes " power=" ++ σ.shownF32 power))))))
  | .IntercomSignal peer intercom samples =>
    strBytes "IntercomSignal from " ++ (σ.addr peer ++ (strBytes ": intercom=" ++ (RDebug.text σ.oneLine intercom ++
      (strBytes " samples=" ++ decimal samples.toNat))))
  | .IntercomControl peer intercom command transmit_state =>
    strBytes "IntercomControl from " ++ (σ.addr peer ++ (strBytes ": intercom=" ++ (RDebug.text σ.oneLine intercom ++
      (strBytes " command=" ++ (RDebug.text σ.oneLine command ++
        (strBytes " transmit_state=" ++ RDebug.text σ.oneLine transmit_state))))))
  | .Unknown size peer =>
    strBytes "Unknown or non-radio PDU (" ++ (decimal size ++ (strBytes " bytes) from " ++ σ.addr peer))

/-- examples/radio_processing_server.rs:60-81 (`println!`): the lines one after the other, each with a line feed -/
def logText {Addr : Type} (σ : LogFmt Addr) (ls : List (LogLine Addr)) : Text := ls.flatMap fun l => l.text σ ++ [10]

/-- examples/udp_server.rs:32 (`println!`): one line for each datagram sent back.  `amt`, what `send_to` returns, is the
size of the datagram: a datagram socket sends all of it or fails. -/
def echoText {Addr : Type} (σ : LogFmt Addr) (echoed : List (Bytes × Addr)) : Text := echoed.flatMap fun e =>
  strBytes "Echoed " ++ (decimal e.1.length ++ (strBytes "/" ++ (decimal e.1.length ++ (strBytes " bytes to " ++
    (σ.addr e.2 ++ [10])))))

/-- examples/radio_processing_client.rs:54-66 (`println!`): one line for each PDU sent, with the name of its type -/
def sentText (lines : List PduKind) : Text := lines.flatMap fun k =>
  strBytes "Sent " ++ (strBytes (PduDebug.name k.Body) ++ [10])

/-- examples/udp_client.rs:65-68 (`dbg!`): the place and the text of the expression (fixed when the program is compiled:
a parameter), then the value in the indented form -/
def UdpClient.shownText (σ : Fmt) (place : Text) (p : Pdu AcknowledgePdu) : Text :=
  place ++ (strBytes " = " ++ (RDebug.text { σ with alternate := true } p ++ [10]))

end Dis
