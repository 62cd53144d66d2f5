import Verif.Model.Printing
/-
Specification for C68: what a printed text can tell, and what is assumed of the standard library's texts.

`calm x` is `x` with what printing does not show evened out: every NaN is replaced by one NaN (all print as `NaN`), and
in a status record the two reserved bits are cleared (the generated `Debug` skips them).  Everything else is kept.
Generated instances: Verif.Spec.CalmRecords.
-/
namespace Dis

/-- not a number: exponent all ones and a fraction that is not zero -/
def F32.nanBits (x : F32) : Bool := decide (255 * 2 ^ 23 < x.bits.toNat % 2 ^ 31)
/-- not a number: exponent all ones and a fraction that is not zero -/
def F64.nanBits (x : F64) : Bool := decide (2047 * 2 ^ 52 < x.bits.toNat % 2 ^ 63)

/-- the octets of the texts of floating-point numbers: digits, `-`, `.`, and the letters of `e`, `inf` and `NaN` -/
def floatOctets : List UInt8 := [45, 46, 48, 49, 50, 51, 52, 53, 54, 55, 56, 57, 78, 97, 101, 102, 105, 110]

/-- What is assumed of the standard library's `{:?}` texts. -/
structure Fmt.Lawful (σ : Fmt) : Prop where
  /-- a number's text is not empty and consists of the octets above -/
  f32_octets : ∀ x, σ.f32 x ≠ [] ∧ ∀ b ∈ σ.f32 x, b ∈ floatOctets
  f64_octets : ∀ x, σ.f64 x ≠ [] ∧ ∀ b ∈ σ.f64 x, b ∈ floatOctets
  /-- all NaNs have the same text -/
  f32_nan : ∀ x y, x.nanBits → y.nanBits → σ.f32 x = σ.f32 y
  f64_nan : ∀ x y, x.nanBits → y.nanBits → σ.f64 x = σ.f64 y
  /-- apart from that, different numbers have different texts (the shortest text that reads back as the number) -/
  f32_tells : ∀ x y, σ.f32 x = σ.f32 y → x = y ∨ (x.nanBits ∧ y.nanBits)
  f64_tells : ∀ x y, σ.f64 x = σ.f64 y → x = y ∨ (x.nanBits ∧ y.nanBits)
  /-- a string's text begins with a quotation mark -/
  str_quote : ∀ s, ∃ t, σ.str s = 34 :: t
  /-- a string's text contains no line feed (it is escaped) -/
  str_line : ∀ s, 10 ∉ σ.str s
  /-- a string's text shows where it ends, and which string it is of (quotation marks and backslashes are escaped) -/
  str_tells : ∀ s t r r', σ.str s ++ r = σ.str t ++ r' → s = t ∧ r = r'

/-- `calm x`: `x` with what printing does not show evened out. -/
class Calm (α : Type) where
  calm : α → α
export Calm (calm)

instance : Calm UInt8 := ⟨id⟩
instance : Calm UInt16 := ⟨id⟩
instance : Calm UInt32 := ⟨id⟩
instance : Calm UInt64 := ⟨id⟩
instance : Calm Int8 := ⟨id⟩
instance : Calm Int16 := ⟨id⟩
instance : Calm Int32 := ⟨id⟩
instance : Calm String := ⟨id⟩
instance {s : EnumSpec} : Calm (EnumVal s) := ⟨id⟩
instance : Calm PduState := ⟨id⟩
instance : Calm FrozenBehavior := ⟨id⟩
instance : Calm ObjectStateAppearanceGeneral := ⟨id⟩
instance : Calm LandPlatformAppearance := ⟨id⟩
/-- every NaN becomes one NaN -/
instance : Calm F32 := ⟨fun x => if x.nanBits then ⟨0x7FC00000⟩ else x⟩
/-- every NaN becomes one NaN -/
instance : Calm F64 := ⟨fun x => if x.nanBits then ⟨0x7FF8000000000000⟩ else x⟩
/-- the reserved bits 6 and 7 are cleared -/
instance : Calm PduStatusRecord := ⟨fun x => ⟨x.bits &&& 63⟩⟩
instance {α : Type} [Calm α] : Calm (List α) := ⟨List.map calm⟩
instance {α : Type} [Calm α] {n : Nat} : Calm (Arr α n) := ⟨fun x => ⟨x.toList.map calm, by simp [x.size_eq]⟩⟩
instance {α : Type} [Calm α] : Calm (Option α) := ⟨Option.map calm⟩
instance : Calm PduHeader := ⟨fun x => { x with status_record := calm x.status_record }⟩
instance : Calm LiveEntityPduHeader := ⟨id⟩
instance : Calm GridAxisType where
  calm
    | .FixedSpacing n i => .FixedSpacing n i
    | .VariableSpacing n i s o xs p => .VariableSpacing n i (calm s) (calm o) xs p
instance : Calm DataRepresentationType where
  calm
    | .Type0 n d p => .Type0 n d p
    | .Type1 s o n d p => .Type1 (calm s) (calm o) n d p
    | .Type2 n p d => .Type2 n p (calm d)

end Dis
