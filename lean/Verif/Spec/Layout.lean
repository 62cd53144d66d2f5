import Verif.Model.EnumCore
/-
Vocabulary for layout tables: which octets of a message hold which field.

A `Slot` is one row of such a table, as in the tables of IEEE 1278.1: at which octet a field starts, how
many octets it has, and which number it holds.  Nothing here refers to the code that writes or reads the
octets, nor to the wire images of Spec/Wire.
-/
namespace Dis

/-- The number written by octets, most significant first. -/
def bigEndian : Bytes → Nat
  | [] => 0
  | b :: w => b.toNat * 256 ^ w.length + bigEndian w

/-- One field of a record or message of type `B`. -/
structure Slot (B : Type) where
  /-- octets before the field -/
  offset : Nat
  /-- octets of the field -/
  width : Nat
  /-- the number the field holds in memory: the number itself, the two's complement of a negative one,
  the bit pattern of a float, the code of an enumeration, the octets of an array read as one number -/
  value : B → Nat
  /-- the number in memory after reading a number from the wire -/
  read : Nat → Nat := id
  /-- whether zeros are written whatever the field holds -/
  alwaysZero : Bool := false

namespace Slot
variable {B : Type}

/-- The number in the octets of the slot in a message `w`. -/
def found (s : Slot B) (w : Bytes) : Nat := bigEndian ((w.drop s.offset).take s.width)

/-- The number put on the wire. -/
def transmitted (s : Slot B) (x : B) : Nat := if s.alwaysZero then 0 else s.value x

/-- The number forwarded by a relay (one that decodes a message and serializes what it decoded) in a slot
that held the number `n`: meaningless codes become the default, and always-zero fields zero. -/
def relayed (s : Slot B) (n : Nat) : Nat := if s.alwaysZero then 0 else s.read n

/-- The first octet after the slot. -/
def stop (s : Slot B) : Nat := s.offset + s.width

/-! Slots of numbers -/
def u8 (offset : Nat) (f : B → UInt8) : Slot B := { offset, width := 1, value := fun x => (f x).toNat }
def u16 (offset : Nat) (f : B → UInt16) : Slot B := { offset, width := 2, value := fun x => (f x).toNat }
def u32 (offset : Nat) (f : B → UInt32) : Slot B := { offset, width := 4, value := fun x => (f x).toNat }
def u64 (offset : Nat) (f : B → UInt64) : Slot B := { offset, width := 8, value := fun x => (f x).toNat }
def i8 (offset : Nat) (f : B → Int8) : Slot B :=
  { offset, width := 1, value := fun x => ((f x).toInt % 256).toNat }
def i16 (offset : Nat) (f : B → Int16) : Slot B :=
  { offset, width := 2, value := fun x => ((f x).toInt % 65536).toNat }
def i32 (offset : Nat) (f : B → Int32) : Slot B :=
  { offset, width := 4, value := fun x => ((f x).toInt % 4294967296).toNat }
def i64 (offset : Nat) (f : B → Int64) : Slot B :=
  { offset, width := 8, value := fun x => ((f x).toInt % 18446744073709551616).toNat }
def f32 (offset : Nat) (f : B → F32) : Slot B := { offset, width := 4, value := fun x => (f x).bits.toNat }
def f64 (offset : Nat) (f : B → F64) : Slot B := { offset, width := 8, value := fun x => (f x).bits.toNat }

/-- An enumeration: a code without a meaning is read as the default. -/
def enum {s : EnumSpec} (offset width : Nat) (f : B → EnumVal s) : Slot B :=
  { offset, width, value := fun x => (f x).code
    read := fun n => if n ∈ s.codes then n else s.default }

/-- A set of flags, the named ones at the given bit positions: a number with other bits set is read as
the empty set. -/
def flags (offset width : Nat) (named : List Nat) (f : B → Nat) : Slot B :=
  { offset, width, value := f
    read := fun n => if ∀ i < 8 * width, n.testBit i = true → i ∈ named then n else 0 }

/-- An array of octets. -/
def octets (offset width : Nat) (f : B → Arr UInt8 width) : Slot B :=
  { offset, width, value := fun x => bigEndian (f x).toList }

/-- An array of signed octets. -/
def signedOctets (offset width : Nat) (f : B → Arr Int8 width) : Slot B :=
  { offset, width, value := fun x => bigEndian ((f x).toList.map (fun c => UInt8.ofNat (c.toInt % 256).toNat)) }

/-- A field the crate reads, but in whose place it always writes zeros. -/
def zeroed (s : Slot B) : Slot B := { s with alwaysZero := true }

end Slot

/-- In the octets `w` every slot of the table lies within `w` and holds what is transmitted of `x`. -/
def Written {B : Type} (table : List (Slot B)) (x : B) (w : Bytes) : Prop :=
  ∀ s ∈ table, s.stop ≤ w.length ∧ s.found w = s.transmitted x

/-- `x` is what one reads at the slots of the table in the octets `w`. -/
def ReadFrom {B : Type} (table : List (Slot B)) (x : B) (w : Bytes) : Prop :=
  ∀ s ∈ table, s.stop ≤ w.length ∧ s.value x = s.read (s.found w)

/-- The slots of the table lie one after the other, without gap, from octet `a` to octet `b`. -/
def Contiguous {B : Type} : Nat → List (Slot B) → Nat → Prop
  | a, [], b => a = b
  | a, s :: l, b => s.offset = a ∧ 0 < s.width ∧ Contiguous (a + s.width) l b

end Dis
