import Verif.Spec.Layout
import Verif.Model.Irregular
/-
Vocabulary for the lists of a message: where each element starts, and the layout of an element.
-/
namespace Dis

/-- A list of a message of type `B`. -/
structure Elements (B : Type) where
  Elem : Type
  items : B → List Elem
  /-- octets of the message before element `i` -/
  start : B → Nat → Nat
  /-- where the fields of an element are, counted from its start -/
  layout : List (Slot Elem)

/-- In the message `w` every element of the list is where the table says. -/
def Elements.Placed {B : Type} (t : Elements B) (x : B) (w : Bytes) : Prop :=
  ∀ i (h : i < (t.items x).length), Written t.layout (t.items x)[i] (w.drop (t.start x i))

/-- Octets of a variable datum record: two numbers, the value, and octets to fill up to a multiple of 64
bits what the record says the value has. -/
def VariableDatumRecord.octets (x : VariableDatumRecord) : Nat :=
  let full := (x.length_bits.toNat + 7) / 8
  8 + x.value.length + ((full + 7) / 8 * 8 - full)

/-- Octets of the variable datum records, one after the other. -/
def VariableDatumRecord.octetsOf (l : List VariableDatumRecord) : Nat := (l.map VariableDatumRecord.octets).sum

end Dis
