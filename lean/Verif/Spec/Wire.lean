import Verif.Model.Traits
import Verif.Model.EnumCore
import Verif.Spec.Predicates
/-
Specification of wire images, independent of the serializers.

`wire x` is the octet string IEEE 1278.1 assigns to a value: every number most significant octet
first, a record the concatenation of its fields in declaration order, a list the concatenation of
its elements, an absent optional nothing at all.
-/
namespace Dis

/-- The `n` octets of the number `v`, most significant first, by positional notation:
octet `i` (from the left) is digit `n-1-i` of `v` in base 256. -/
def octets (n v : Nat) : Bytes :=
  (List.range n).map fun i => UInt8.ofNat (v / 256 ^ (n - 1 - i) % 256)

/-- Concatenation of wire images (right associative). -/
infixr:65 " ▹ " => @HAppend.hAppend Bytes Bytes Bytes _

/-- Values with a wire image. -/
class Wire (α : Type) where
  wire : α → Bytes
export Wire (wire)

instance : Wire UInt8 := ⟨fun v => octets 1 v.toNat⟩
instance : Wire UInt16 := ⟨fun v => octets 2 v.toNat⟩
instance : Wire UInt32 := ⟨fun v => octets 4 v.toNat⟩
instance : Wire UInt64 := ⟨fun v => octets 8 v.toNat⟩
/-! signed numbers: two's complement -/
instance : Wire Int8 := ⟨fun v => octets 1 (v.toInt % 256).toNat⟩
instance : Wire Int16 := ⟨fun v => octets 2 (v.toInt % 65536).toNat⟩
instance : Wire Int32 := ⟨fun v => octets 4 (v.toInt % 4294967296).toNat⟩
instance : Wire Int64 := ⟨fun v => octets 8 (v.toInt % 18446744073709551616).toNat⟩
/-! floats: the IEEE 754 bit pattern -/
instance : Wire F32 := ⟨fun v => octets 4 v.bits.toNat⟩
instance : Wire F64 := ⟨fun v => octets 8 v.bits.toNat⟩
/-- an enumeration value: its code, in the enumeration's width -/
instance {s : EnumSpec} : Wire (EnumVal s) := ⟨fun x => octets s.repr.octets x.code⟩
instance : Wire String := ⟨strBytes⟩
instance {α : Type} [Wire α] : Wire (List α) := ⟨fun xs => xs.flatMap wire⟩
instance {α : Type} [Wire α] : Wire (Option α) where
  wire
    | none => []
    | some x => wire x
instance {α : Type} {n : Nat} [Wire α] : Wire (Arr α n) := ⟨fun a => a.toList.flatMap wire⟩

/-- What an encoder of `α` is expected to transmit.

* `encodable x`: serializing `x` does not panic (in any build profile);
* `sent x`: the value whose wire image is transmitted (differs from `x` where the crate writes
  zeros instead of a field, or only part of a list);
* `surplus x`: octets transmitted minus octets accounted for by `field_len`. -/
class Enc (α : Type) where
  encodable : α → Prop
  sent : α → α
  surplus : α → Int
export Enc (encodable sent surplus)

/-- The ordinary case: always encodable, everything transmitted, length exact. -/
@[reducible] def Enc.exact (α : Type) : Enc α := ⟨fun _ => True, id, fun _ => 0⟩

/-- What a decoder of `α` is expected to recover from the wire image of a value.

* `kept x`: the part of `x` the decoder can see (lists and optionals without a length are lost);
* `decodable x`: decoding the wire image of `kept x` gives back `kept x`. -/
class Dec (α : Type) where
  decodable : α → Prop
  kept : α → α
export Dec (decodable kept)

/-- The ordinary case: everything is recovered. -/
@[reducible] def Dec.exact (α : Type) : Dec α := ⟨fun _ => True, id⟩

instance : Enc UInt8 := .exact _
instance : Enc UInt16 := .exact _
instance : Enc UInt32 := .exact _
instance : Enc UInt64 := .exact _
instance : Enc Int8 := .exact _
instance : Enc Int16 := .exact _
instance : Enc Int32 := .exact _
instance : Enc Int64 := .exact _
instance : Enc F32 := .exact _
instance : Enc F64 := .exact _
instance : Enc String := .exact _
instance {s : EnumSpec} : Enc (EnumVal s) := .exact _
instance {α : Type} [Enc α] : Enc (List α) :=
  ⟨fun xs => ∀ x ∈ xs, encodable x, fun xs => xs.map sent, fun xs => (xs.map surplus).sum⟩
instance {α : Type} [Enc α] : Enc (Option α) :=
  ⟨fun o => ∀ x, o = some x → encodable x, fun o => o.map sent, fun o => (o.map surplus).getD 0⟩

instance : Dec UInt8 := .exact _
instance : Dec UInt16 := .exact _
instance : Dec UInt32 := .exact _
instance : Dec UInt64 := .exact _
instance : Dec Int8 := .exact _
instance : Dec Int16 := .exact _
instance : Dec Int32 := .exact _
instance : Dec Int64 := .exact _
instance : Dec F32 := .exact _
instance : Dec F64 := .exact _
instance {s : EnumSpec} : Dec (EnumVal s) := .exact _
/-! Lists, optionals and strings are not recovered at all by the plain field decoder. -/
instance {α : Type} : Dec (List α) := ⟨fun _ => True, fun _ => []⟩
instance {α : Type} : Dec (Option α) := ⟨fun _ => True, fun _ => none⟩
instance : Dec String := ⟨fun _ => True, fun _ => ""⟩

end Dis
