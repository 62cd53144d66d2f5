import Verif.Model.PduCore
/-
Model of src/pdu_macro.rs:215-369 (`define_pdu!`) as what it is for a user of the crate: an exported macro that turns any
list of fields into a PDU type.  Verif.Model.Pdus1 to Pdus4 model the 66 expansions in the crate itself one by one;
here the macro is a function of the field list.  That the 66 are instances of it is proved (C62_crate_kinds).

The header type is fixed to `PduHeader`: it is the only header that implements `FieldDeserialize`
(src/common/pdu_header.rs), which the expansion needs (src/pdu_macro.rs:329).
-/
namespace Dis

/-- A Rust type usable as the type of a field: what the expansion asks of every one (src/pdu_macro.rs:14-16, 24-26, and
`Default`, used at 245).  The implementations may be the user's, so nothing is assumed about them, except that they
touch nothing but the buffer. -/
structure FieldType where
  T : Type
  ser : T → Put
  len : T → Nat
  dflt : T

/-- A type through its trait implementations. -/
@[reducible] def FieldType.of (T : Type) [FieldSerialize T] [FieldLen T] [RDefault T] : FieldType :=
  ⟨T, serialize_field, field_len, RDefault.dflt⟩

/-- One line of the `fields` block, src/pdu_macro.rs:224-226.  Names are replaced by positions.

The type of a field named in a `#[len = ...]` must be `u8`: src/pdu_macro.rs:63-66 assigns it a `u8`.  Fields of
type `u8` are therefore kept apart.  (They are never `counted` themselves: `FieldDeserializeWithLen` is not implemented
for `u8`, and neither the trait nor the type is the user's.) -/
inductive FieldDef where
  /-- a field of type `u8` -/
  | byte
  /-- a field of another type, without an attribute; `de` is its `FieldDeserialize` (src/pdu_macro.rs:19-21) -/
  | plain (t : FieldType) (de : Get t.T)
  /-- a field with `#[len = name]`, where `name` is the field at position `ref`; `withLen` is its
  `FieldDeserializeWithLen` (src/pdu_macro.rs:30-32) -/
  | counted (t : FieldType) (withLen : Nat → Get t.T) (ref : Nat)

namespace FieldDef

/-- An unannotated field, through the trait implementations of its type. -/
@[reducible] def of (T : Type) [FieldSerialize T] [FieldLen T] [RDefault T] [FieldDeserialize T] : FieldDef :=
  .plain (.of T) deserialize_field

/-- An annotated field, through the trait implementations of its type. -/
@[reducible] def ofLen (T : Type) [FieldSerialize T] [FieldLen T] [RDefault T] [FieldDeserializeWithLen T]
    (ref : Nat) : FieldDef :=
  .counted (.of T) deserialize_with_len ref

/-- The type of the field with its implementations. -/
@[reducible] def type : FieldDef → FieldType
  | byte => .of UInt8
  | plain t _ => t
  | counted t _ _ => t

/-- The Rust type of the field. -/
@[reducible] def T (f : FieldDef) : Type := f.type.T

end FieldDef

/-- The fields of the structure, src/pdu_macro.rs:234-236. -/
@[reducible] def Fields : List FieldDef → Type
  | [] => Unit
  | f :: fs => f.T × Fields fs

namespace Fields

/-- src/pdu_macro.rs:244-246 -/
def default : (fs : List FieldDef) → Fields fs
  | [] => ()
  | f :: fs => (f.type.dflt, default fs)

/-- src/pdu_macro.rs:283-285 -/
def len : (fs : List FieldDef) → Fields fs → Nat
  | [], _ => 0
  | f :: fs, x => f.type.len x.1 + len fs x.2

/-- src/pdu_macro.rs:319-321 -/
def ser : (fs : List FieldDef) → Fields fs → Put
  | [], _ => pure ()
  | f :: fs, x => do
    f.type.ser x.1
    ser fs x.2

/-- The assignment `self.len_field = n` of src/pdu_macro.rs:63; `i` is the position of `len_field`.  (A position that
is not that of a `u8` field does not compile; here it changes nothing.) -/
def setByte : (fs : List FieldDef) → Nat → UInt8 → Fields fs → Fields fs
  | [], _, _, x => x
  | .byte :: _, 0, n, x => (n, x.2)
  | .plain .. :: _, 0, _, x => x
  | .counted .. :: _, 0, _, x => x
  | _ :: fs, i + 1, n, x => (x.1, setByte fs i n x.2)

/-- src/pdu_macro.rs:61-72: the assignments made before the length is computed, in order: position and value.  They are
collected first and carried out by `prep`: none of them changes the length of a field that another one looks at, since
these are not `u8` fields.  (The arm at lines 55-59 cannot match: the type was captured as a `ty` fragment
before being passed on.) -/
def counts : (fs : List FieldDef) → Fields fs → List (Nat × UInt8)
  | [], _ => []
  | .counted t _ ref :: fs, x =>
    let n := t.len x.1
    (ref, if n < 256 then UInt8.ofNat n else 0) :: counts fs x.2
  | .byte :: fs, x => counts fs x.2
  | .plain .. :: fs, x => counts fs x.2

/-- src/pdu_macro.rs:309 -/
def prep (fs : List FieldDef) (x : Fields fs) : Fields fs :=
  (counts fs x).foldl (fun y a => setByte fs a.1 a.2 y) x

/-- src/pdu_macro.rs:257-272 with 75-107.  `seen` holds what has been read into the `u8` fields before, by position
(zero at the positions of other fields). -/
def de : (fs : List FieldDef) → (seen : List UInt8) → Get (Fields fs)
  | [], _ => pure ()
  | .byte :: fs, seen => do
    let x ← (deserialize_field : Get UInt8)
    let xs ← de fs (seen ++ [x])
    return (x, xs)
  | .plain _ d :: fs, seen => do
    let x ← d
    let xs ← de fs (seen ++ [0])
    return (x, xs)
  | .counted _ d ref :: fs, seen => do
    let x ← d (seen.getD ref 0).toNat
    let xs ← de fs (seen ++ [0])
    return (x, xs)

end Fields

/-- Every `#[len = name]` names a `u8` field further up; otherwise the expansion does not compile (src/pdu_macro.rs:63,
95-98).  `above` are the fields further up. -/
def Scoped : (above : List FieldDef) → List FieldDef → Prop
  | _, [] => True
  | above, .counted t d ref :: fs => above[ref]? = some .byte ∧ Scoped (above ++ [.counted t d ref]) fs
  | above, f :: fs => Scoped (above ++ [f]) fs

/-- One use of the macro that compiles: src/pdu_macro.rs:217-230. -/
structure Definition where
  type : PduType
  family : ProtocolFamily
  fields : List FieldDef
  resolved : Scoped [] fields

/-- The structure the macro declares, without its header. -/
def Definition.Body (d : Definition) : Type := Fields d.fields

/-- src/pdu_macro.rs:240-367, what depends on the fields -/
instance (d : Definition) : PduBody d.Body where
  pduType := d.type
  family := d.family
  default := Fields.default d.fields
  fieldsLen := Fields.len d.fields
  prep := Fields.prep d.fields
  serializeBody := Fields.ser d.fields
  deserializeBody := Fields.de d.fields []

end Dis
