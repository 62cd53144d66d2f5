import Verif.Model.Header
/- Specification for C46: histories of calls of the header's setters. -/
namespace Dis

/-- A call of one of the three setters of `GenericHeader` (src/common/generic_header.rs:11-23). -/
inductive HeaderCall where
  | setType (t : PduType)
  | setFamily (f : ProtocolFamily)
  | setLength (n : UInt16)

/-- The value set last by the calls that `pick` recognises, `init` if there is none. -/
def lastSet {α : Type} (pick : HeaderCall → Option α) (init : α) (calls : List HeaderCall) : α :=
  (calls.filterMap pick).getLast?.getD init

def HeaderCall.type? : HeaderCall → Option PduType
  | setType t => some t | _ => none
def HeaderCall.family? : HeaderCall → Option ProtocolFamily
  | setFamily f => some f | _ => none
def HeaderCall.length? : HeaderCall → Option UInt16
  | setLength n => some n | _ => none

/-- Performing one call on a header. -/
def HeaderCall.on (h : PduHeader) : HeaderCall → PduHeader
  | setType t => h.set_pdu_type t
  | setFamily f => h.set_protocol_family f
  | setLength n => h.set_length n

/-- Performing one call on a live-entity header. -/
def HeaderCall.onLive (h : LiveEntityPduHeader) : HeaderCall → LiveEntityPduHeader
  | setType t => h.set_pdu_type t
  | setFamily f => h.set_protocol_family f
  | setLength n => h.set_length n

end Dis
