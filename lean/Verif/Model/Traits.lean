import Verif.Core.Basic
/-
Model of src/pdu_macro.rs:13-213 - the field traits and their implementations for primitive
types, `String`, `Vec<T>` and `Option<T>`.
-/
namespace Dis

/-- src/pdu_macro.rs:14-16 -/
class FieldSerialize (α : Type) where
  serialize_field : α → Put

/-- src/pdu_macro.rs:19-21 -/
class FieldDeserialize (α : Type) where
  deserialize_field : Get α

/-- src/pdu_macro.rs:24-26 -/
class FieldLen (α : Type) where
  field_len : α → Nat

/-- src/pdu_macro.rs:30-32 -/
class FieldDeserializeWithLen (α : Type) where
  deserialize_with_len : Nat → Get α

export FieldSerialize (serialize_field)
export FieldDeserialize (deserialize_field)
export FieldLen (field_len)
export FieldDeserializeWithLen (deserialize_with_len)

/-- Rust's `Default` trait, used by the PDU macro and the fallbacks. -/
class RDefault (α : Type) where
  dflt : α
export RDefault (dflt)

/-- src/pdu_macro.rs:35-48: the blanket impl for `Option<T>`. -/
instance {α : Type} [FieldDeserializeWithLen α] : FieldDeserializeWithLen (Option α) where
  deserialize_with_len len :=
    if len = 0 then pure none
    else do return some (← deserialize_with_len len)

/-! src/pdu_macro.rs:109-129 `impl_primitive!`, instantiated at src/pdu_macro.rs:131-140.
Each instantiation below cites its line. -/

/-- src/pdu_macro.rs:131 -/ instance : FieldSerialize UInt8 := ⟨putU8⟩
/-- src/pdu_macro.rs:131 -/ instance : FieldDeserialize UInt8 := ⟨getU8⟩
/-- src/pdu_macro.rs:131 -/ instance : FieldLen UInt8 := ⟨fun _ => 1⟩
/-- src/pdu_macro.rs:132 -/ instance : FieldSerialize Int8 := ⟨putI8⟩
/-- src/pdu_macro.rs:132 -/ instance : FieldDeserialize Int8 := ⟨getI8⟩
/-- src/pdu_macro.rs:132 -/ instance : FieldLen Int8 := ⟨fun _ => 1⟩
/-- src/pdu_macro.rs:133 -/ instance : FieldSerialize UInt16 := ⟨putU16⟩
/-- src/pdu_macro.rs:133 -/ instance : FieldDeserialize UInt16 := ⟨getU16⟩
/-- src/pdu_macro.rs:133 -/ instance : FieldLen UInt16 := ⟨fun _ => 2⟩
/-- src/pdu_macro.rs:134 -/ instance : FieldSerialize Int16 := ⟨putI16⟩
/-- src/pdu_macro.rs:134 -/ instance : FieldDeserialize Int16 := ⟨getI16⟩
/-- src/pdu_macro.rs:134 -/ instance : FieldLen Int16 := ⟨fun _ => 2⟩
/-- src/pdu_macro.rs:135 -/ instance : FieldSerialize UInt32 := ⟨putU32⟩
/-- src/pdu_macro.rs:135 -/ instance : FieldDeserialize UInt32 := ⟨getU32⟩
/-- src/pdu_macro.rs:135 -/ instance : FieldLen UInt32 := ⟨fun _ => 4⟩
/-- src/pdu_macro.rs:136 -/ instance : FieldSerialize Int32 := ⟨putI32⟩
/-- src/pdu_macro.rs:136 -/ instance : FieldDeserialize Int32 := ⟨getI32⟩
/-- src/pdu_macro.rs:136 -/ instance : FieldLen Int32 := ⟨fun _ => 4⟩
/-- src/pdu_macro.rs:137 -/ instance : FieldSerialize UInt64 := ⟨putU64⟩
/-- src/pdu_macro.rs:137 -/ instance : FieldDeserialize UInt64 := ⟨getU64⟩
/-- src/pdu_macro.rs:137 -/ instance : FieldLen UInt64 := ⟨fun _ => 8⟩
/-- src/pdu_macro.rs:138 -/ instance : FieldSerialize Int64 := ⟨putI64⟩
/-- src/pdu_macro.rs:138 -/ instance : FieldDeserialize Int64 := ⟨getI64⟩
/-- src/pdu_macro.rs:138 -/ instance : FieldLen Int64 := ⟨fun _ => 8⟩
/-- src/pdu_macro.rs:139 -/ instance : FieldSerialize F32 := ⟨putF32⟩
/-- src/pdu_macro.rs:139 -/ instance : FieldDeserialize F32 := ⟨getF32⟩
/-- src/pdu_macro.rs:139 -/ instance : FieldLen F32 := ⟨fun _ => 4⟩
/-- src/pdu_macro.rs:140 -/ instance : FieldSerialize F64 := ⟨putF64⟩
/-- src/pdu_macro.rs:140 -/ instance : FieldDeserialize F64 := ⟨getF64⟩
/-- src/pdu_macro.rs:140 -/ instance : FieldLen F64 := ⟨fun _ => 8⟩

/-- The octets of a Rust `String` (`as_bytes` / `into_bytes`). -/
def strBytes (s : String) : Bytes := s.toByteArray.data.toList

/-- src/pdu_macro.rs:143-147 -/
instance : FieldSerialize String := ⟨fun s => putBytes (strBytes s)⟩
/-- src/pdu_macro.rs:148-152: reads nothing. -/
instance : FieldDeserialize String := ⟨pure ""⟩
/-- src/pdu_macro.rs:153-157 -/
instance : FieldLen String := ⟨fun s => (strBytes s).length⟩

/-- src/pdu_macro.rs:160-169 -/
instance {α : Type} [FieldSerialize α] : FieldSerialize (List α) := ⟨putEach serialize_field⟩
/-- src/pdu_macro.rs:170-177: reads nothing. -/
instance {α : Type} [FieldDeserialize α] : FieldDeserialize (List α) := ⟨pure []⟩
/-- src/pdu_macro.rs:178-185 -/
instance {α : Type} [FieldLen α] : FieldLen (List α) := ⟨fun xs => (xs.map field_len).sum⟩

/-- src/pdu_macro.rs:188-197 -/
instance {α : Type} [FieldSerialize α] : FieldSerialize (Option α) where
  serialize_field
    | none => pure ()
    | some v => serialize_field v
/-- src/pdu_macro.rs:198-205: reads nothing. -/
instance {α : Type} [FieldDeserialize α] : FieldDeserialize (Option α) := ⟨pure none⟩
/-- src/pdu_macro.rs:206-213 -/
instance {α : Type} [FieldLen α] : FieldLen (Option α) where
  field_len
    | none => 0
    | some v => field_len v

/-! Rust's `Default` for the primitive types (standard library). -/
/-- standard library -/ instance : RDefault UInt8 := ⟨0⟩
/-- standard library -/ instance : RDefault Int8 := ⟨0⟩
/-- standard library -/ instance : RDefault UInt16 := ⟨0⟩
/-- standard library -/ instance : RDefault Int16 := ⟨0⟩
/-- standard library -/ instance : RDefault UInt32 := ⟨0⟩
/-- standard library -/ instance : RDefault Int32 := ⟨0⟩
/-- standard library -/ instance : RDefault UInt64 := ⟨0⟩
/-- standard library -/ instance : RDefault Int64 := ⟨0⟩
/-- standard library -/ instance : RDefault F32 := ⟨⟨0⟩⟩
/-- standard library -/ instance : RDefault F64 := ⟨⟨0⟩⟩
/-- standard library -/ instance : RDefault String := ⟨""⟩
/-- standard library -/ instance {α : Type} : RDefault (List α) := ⟨[]⟩
/-- standard library -/ instance {α : Type} : RDefault (Option α) := ⟨none⟩
/-- standard library -/ instance {α : Type} {n : Nat} [RDefault α] : RDefault (Arr α n) := ⟨.replicate n dflt⟩

end Dis
