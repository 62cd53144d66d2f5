import Verif.Model.Traits
/-
Generic model of the enumerations of src/common/enums.rs.  Every enumeration there has the same
shape: explicit discriminants, a `#[default]` variant, and

    pub fn deserialize<B: Buf>(buf: &mut B) -> Self {
        Self::from_uN(buf.get_uN()).unwrap_or_else(Self::default)
    }

so an enumeration is modelled by its table of (variant name, discriminant), its default and its N.
(The generator tools/gen.py refuses to emit an enumeration that does not match this shape.)
-/
namespace Dis

/-- The integer type an enumeration is read as. -/
inductive IntTy where
  | u8 | u16 | u32
  deriving DecidableEq, Repr

/-- Octets of that integer type. -/
def IntTy.octets : IntTy → Nat
  | .u8 => 1 | .u16 => 2 | .u32 => 4

/-- An enumeration: the type read by `deserialize`, the variants with their discriminants in
source order, and the discriminant of the `#[default]` variant. -/
structure EnumSpec where
  name : String
  repr : IntTy
  variants : List (String × Nat)
  default : Nat
  default_mem : default ∈ variants.map Prod.snd := by decide +kernel

/-- the discriminants of the variants (not code of /repo: reads off the table of an enumeration of src/common/enums.rs) -/
def EnumSpec.codes (s : EnumSpec) : List Nat := s.variants.map Prod.snd

/-- A value of the enumeration: one of its discriminants. -/
structure EnumVal (s : EnumSpec) where
  code : Nat
  mem : code ∈ s.codes

/-- variants are compared by discriminant, as the derived `PartialEq` of src/common/enums.rs:10391 does -/
instance {s : EnumSpec} : DecidableEq (EnumVal s) := fun a b =>
  if h : a.code = b.code then .isTrue (by cases a; cases b; cases h; rfl)
  else .isFalse (fun e => h (congrArg _ e))

theorem EnumVal.ext {s : EnumSpec} {a b : EnumVal s} (h : a.code = b.code) : a = b := by
  cases a; cases b; cases h; rfl

/-- `Default::default` (derived, `#[default]`). -/
instance {s : EnumSpec} : RDefault (EnumVal s) := ⟨⟨s.default, s.default_mem⟩⟩

/-- `num_traits::FromPrimitive::from_uN` as derived by `num_derive`: the variant with that
discriminant, if any. -/
def EnumSpec.fromPrimitive (s : EnumSpec) (n : Nat) : Option (EnumVal s) :=
  if h : n ∈ s.codes then some ⟨n, h⟩ else none

/-- `Self::from_uN(n).unwrap_or_else(Self::default)` -/
def EnumSpec.ofCode (s : EnumSpec) (n : Nat) : EnumVal s :=
  match s.fromPrimitive n with
  | some v => v
  | none => dflt

/-- `Enum::deserialize` (the body shown in the header of this file). -/
def EnumSpec.deserialize (s : EnumSpec) : Get (EnumVal s) :=
  match s.repr with
  | .u8 => do return s.ofCode (← getU8).toNat
  | .u16 => do return s.ofCode (← getU16).toNat
  | .u32 => do return s.ofCode (← getU32).toNat

namespace EnumVal
variable {s : EnumSpec}
/-- `self as u8` (truncating cast of the discriminant) -/
def asU8 (x : EnumVal s) : UInt8 := UInt8.ofNat x.code
/-- `self as u16` -/
def asU16 (x : EnumVal s) : UInt16 := UInt16.ofNat x.code
/-- `self as u32` -/
def asU32 (x : EnumVal s) : UInt32 := UInt32.ofNat x.code
/-- The derived `Debug` output: the variant's name. -/
def debug (x : EnumVal s) : String :=
  match s.variants.find? (fun v => v.2 == x.code) with
  | some v => v.1
  | none => ""
end EnumVal

end Dis
