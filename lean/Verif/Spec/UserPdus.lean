import Verif.Model.DefinePdu
import Verif.Model.CrateDefinitions
/-
What C62 says about PDUs that a user defines with `define_pdu!`, in terms of the list of fields with their values.
-/
namespace Dis

/-- A field with its value. -/
abbrev FieldValue := Σ f : FieldDef, f.T

/-- The fields of a value in the order of their declaration. -/
def Fields.list : (fs : List FieldDef) → Fields fs → List FieldValue
  | [], _ => []
  | f :: fs, x => ⟨f, x.1⟩ :: list fs x.2

/-- The fields of a PDU. -/
def Definition.list (d : Definition) (x : d.Body) : List FieldValue := Fields.list d.fields x

/-- What a writer leaves in an empty buffer. -/
def alone (m : Put) : Bytes :=
  match m ⟨true⟩ [] with
  | .ok (_, b) => b
  | .error _ => []

/-- The octets of one field. -/
def FieldValue.octets (v : FieldValue) : Bytes := alone (v.1.type.ser v.2)

/-- The number of octets that the field says it has. -/
def FieldValue.claims (v : FieldValue) : Nat := v.1.type.len v.2

/-- A type whose serializer appends the same octets to any buffer in any build, and whose length is their number. -/
def FieldType.Tidy (t : FieldType) : Prop :=
  ∀ x : t.T, (∀ prof buf, t.ser x prof buf = .ok ((), buf ++ alone (t.ser x))) ∧ t.len x = (alone (t.ser x)).length

/-- All fields are of such types. -/
def Definition.Tidy (d : Definition) : Prop := ∀ f ∈ d.fields, f.type.Tidy

/-- Reading finds the value `x` in the octets `w` whatever follows, in any build, and takes just these octets. -/
def FoundIn {α : Type} (m : Get α) (w : Bytes) (x : α) : Prop := ∀ prof rest, m prof (w ++ rest) = .ok (x, rest)

/-- The field is read back as it was written.  A `#[len = ...]` field is read back if it is told the number of its octets, which
an octet can hold up to 255. -/
def FieldValue.ReadBack : FieldValue → Prop
  | ⟨.byte, _⟩ => True
  | ⟨.plain t d, x⟩ => FoundIn d (alone (t.ser x)) x
  | ⟨.counted t d _, x⟩ => (alone (t.ser x)).length ≤ 255 ∧ FoundIn (d (alone (t.ser x)).length) (alone (t.ser x)) x

/-- The field is not read at all: `Vec`, `String` and `Option` without an attribute (src/pdu_macro.rs:148-152, 170-177,
198-205). -/
def FieldDef.Unread : FieldDef → Prop
  | .plain t d => d = pure t.dflt
  | _ => False

/-- No two `#[len = ...]` name the same field. -/
def Definition.OwnLengths (d : Definition) : Prop :=
  ∀ (i j ref : Nat) (t u : FieldType) (r : Nat → Get t.T) (s : Nat → Get u.T),
    d.fields[i]? = some (.counted t r ref) → d.fields[j]? = some (.counted u s ref) → i = j

/-- The code of the type that a header's third octet stands for: `Other`, code zero, if it is none of the 73 assigned. -/
def typeSaid (octet : UInt8) : Nat := if octet.toNat ≤ 72 then octet.toNat else 0

/-- A PDU of a crate's kind from a PDU of its definition: the same header, the same fields in order. -/
def PduKind.ofDefined (k : PduKind) (p : Pdu k.definition.Body) : Pdu k.Body := ⟨p.header, k.ofFields p.body⟩

end Dis
