import Verif.Model.Header
/-
Model of src/common/dis_error.rs: the error type of every fallible operation of the crate, the text it
displays (the `#[error("..")]` attributes, from which `thiserror` derives `Display`) and the underlying
error it reports (`#[source]` / `#[from]`, from which `thiserror` derives `Error::source`).
-/
namespace Dis

/-- An error of another crate: `Box<dyn std::error::Error + Send + Sync>` in
src/common/dis_error.rs:27, 34, 41 and `std::io::Error` at line 67.  Simplification: only the text
such an error displays is modelled. -/
structure ForeignError where
  text : String
  deriving DecidableEq, Repr

/-- src/common/dis_error.rs:13-18 -/
inductive PduState where
  | Uninitialized
  | HeaderValid
  | BodyValid
  | Complete
  deriving DecidableEq, Repr

/-- src/common/dis_error.rs:12 (`derive(Debug)`) -/
def PduState.debug : PduState → String
  | .Uninitialized => "Uninitialized"
  | .HeaderValid => "HeaderValid"
  | .BodyValid => "BodyValid"
  | .Complete => "Complete"

/-- src/common/dis_error.rs:22-71.  The default arguments are a notational convenience. -/
inductive DISError where
  | InvalidHeader (reason : String) (source : Option ForeignError := none)
  | DeserializationError (msg : String) (source : Option ForeignError := none)
  | SerializationError (msg : String) (source : Option ForeignError := none)
  | InvalidStateTransition (current_state target_state : PduState)
  | ProtocolVersionMismatch (expected got : ProtocolVersion)
  | InvalidFieldValue (field value reason : String)
  | BufferUnderflow (attempted available : Nat)
  | NetworkError (error : ForeignError)
  | PduSizeExceeded (size max_size : Nat)
  deriving DecidableEq

namespace DISError

/-- src/common/dis_error.rs:75-83 -/
def invalid_header (reason : String) (source : Option ForeignError) : DISError :=
  .InvalidHeader reason source
/-- src/common/dis_error.rs:86-94 -/
def deserialization_error (msg : String) (source : Option ForeignError) : DISError :=
  .DeserializationError msg source
/-- src/common/dis_error.rs:97-105 -/
def serialization_error (msg : String) (source : Option ForeignError) : DISError :=
  .SerializationError msg source
/-- src/common/dis_error.rs:108-114 -/
def invalid_field (field value reason : String) : DISError :=
  .InvalidFieldValue field value reason
/-- src/common/dis_error.rs:118-123 -/
def buffer_underflow (attempted available : Nat) : DISError :=
  .BufferUnderflow attempted available
/-- src/common/dis_error.rs:127-129 -/
def pdu_size_exceeded (size max_size : Nat) : DISError :=
  .PduSizeExceeded size max_size
/-- src/common/dis_error.rs:67 (`#[from]`: `impl From<std::io::Error> for DISError`) -/
def of_io_error (error : ForeignError) : DISError := .NetworkError error

/-- src/common/dis_error.rs:23, 30, 37, 44, 50, 56, 63, 66, 69 (`impl Display`) -/
def display : DISError → String
  | InvalidHeader reason _ => "Invalid PDU header: " ++ reason
  | DeserializationError msg _ => "PDU deserialization error: " ++ msg
  | SerializationError msg _ => "PDU serialization error: " ++ msg
  | InvalidStateTransition c t => "Invalid PDU state transition: " ++ c.debug ++ " -> " ++ t.debug
  | ProtocolVersionMismatch e g => "Protocol version mismatch: expected " ++ e.debug ++ ", got " ++ g.debug
  | InvalidFieldValue f v r => "Invalid field value: " ++ f ++ " = " ++ v ++ ", " ++ r
  | BufferUnderflow a n =>
    "Buffer underflow: tried to read " ++ toString a ++ " bytes, but only " ++ toString n ++ " bytes remain"
  | NetworkError e => "Network error: " ++ e.text
  | PduSizeExceeded s m => "PDU size exceeds maximum allowed: " ++ toString s ++ " > " ++ toString m

/-- src/common/dis_error.rs:26, 33, 40, 67 (`Error::source`) -/
def source : DISError → Option ForeignError
  | InvalidHeader _ s => s
  | DeserializationError _ s => s
  | SerializationError _ s => s
  | NetworkError e => some e
  | InvalidStateTransition .. | ProtocolVersionMismatch .. | InvalidFieldValue .. | BufferUnderflow ..
  | PduSizeExceeded .. => none

end DISError
end Dis
