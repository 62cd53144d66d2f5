import Verif.Model.Flags
import Verif.Model.Irregular
import Verif.Model.Errors
/-
Model of what `{:?}` and `{:#?}` print: the derived `Debug` of the types of the crate.  Every public type of the crate
derives `Debug`.  A printed text is its UTF-8 octets.

Part of the printing is code outside /repo, modelled from its documentation: `#[derive(Debug)]` and the integer, list
and option formats of the standard library, the `Debug` generated by `bitflags` 2 and by `modular_bitfield`.  The
standard library's texts for `f32`, `f64` and strings are not modelled: they are part of the parameter `Fmt`, and what
is assumed of them is listed in Verif.Spec.Printing.

Generated instances: Verif.Model.PrintedRecords, Verif.Model.PrintedPdus.
-/
namespace Dis

/-- A printed text, as UTF-8 octets. -/
abbrev Text := Bytes

/-- The formatter: whether the indented form `{:#?}` is asked for (`Formatter::alternate`), and what the standard library
prints in either form for an `f32`, an `f64` and a string, and other crates for their errors (not modelled further). -/
structure Fmt where
  alternate : Bool
  f32 : F32 → Text
  f64 : F64 → Text
  str : String → Text
  foreign : ForeignError → Text

/-- `Debug`: the text of `{:?}`, or of `{:#?}` if the formatter says so. -/
class RDebug (α : Type) where
  text : Fmt → α → Text
export RDebug (text)

/-! ### Numbers -/

/-- the octet of a digit: `0`-`9`, then `a`-`f` (standard library) -/
def digitOctet (d : Nat) : UInt8 := if d < 10 then UInt8.ofNat (48 + d) else UInt8.ofNat (87 + d)
/-- at most `fuel + 1` digits of a number, most significant first -/
def digitsUpTo (base : Nat) : (fuel n : Nat) → Text
  | 0, n => [digitOctet n]
  | fuel + 1, n =>
    if n < base then [digitOctet n] else digitsUpTo base fuel (n / base) ++ [digitOctet (n % base)]
/-- the digits of a number (standard library; `n` is more fuel than is needed) -/
def digitsIn (base n : Nat) : Text := digitsUpTo base n n
/-- `{:?}` of an unsigned number (standard library) -/
def decimal (n : Nat) : Text := digitsIn 10 n
/-- `{:?}` of a signed number (standard library): a minus sign if it is negative, then its absolute value -/
def signedDecimal (n : Int) : Text := if n < 0 then 45 :: decimal n.natAbs else decimal n.natAbs

/-- standard library -/ instance : RDebug UInt8 := ⟨fun _ x => decimal x.toNat⟩
/-- standard library -/ instance : RDebug UInt16 := ⟨fun _ x => decimal x.toNat⟩
/-- standard library -/ instance : RDebug UInt32 := ⟨fun _ x => decimal x.toNat⟩
/-- standard library -/ instance : RDebug UInt64 := ⟨fun _ x => decimal x.toNat⟩
/-- standard library -/ instance : RDebug Int8 := ⟨fun _ x => signedDecimal x.toInt⟩
/-- standard library -/ instance : RDebug Int16 := ⟨fun _ x => signedDecimal x.toInt⟩
/-- standard library -/ instance : RDebug Int32 := ⟨fun _ x => signedDecimal x.toInt⟩
/-- standard library -/ instance : RDebug F32 := ⟨fun σ x => σ.f32 x⟩
/-- standard library -/ instance : RDebug F64 := ⟨fun σ x => σ.f64 x⟩
/-- standard library -/ instance : RDebug String := ⟨fun σ x => σ.str x⟩
/-- standard library: `usize` -/ instance : RDebug Nat := ⟨fun _ x => decimal x⟩
/-- an error of another crate -/ instance : RDebug ForeignError := ⟨fun σ x => σ.foreign x⟩

/-! ### Lists, options, structures -/

/-- the texts, each preceded by the separator -/
def joinTail (sep : Text) : List Text → Text
  | [] => []
  | t :: ts => sep ++ (t ++ joinTail sep ts)
/-- the texts with the separator between them -/
def join (sep : Text) : List Text → Text
  | [] => []
  | t :: ts => t ++ joinTail sep ts

/-- the standard library's `PadAdapter`: four spaces at the beginning of every line -/
def pad : (onNewline : Bool) → Text → Text
  | _, [] => []
  | onNewline, b :: t => (if onNewline then [32, 32, 32, 32] else []) ++ (b :: pad (b == 10) t)
/-- one field or element of the indented form (standard library): on lines of its own, shifted, with a comma -/
def padded (t : Text) : Text := pad true (t ++ strBytes ",\n")

/-- the elements of a list in the indented form -/
def paddedAll : List Text → Text
  | [] => []
  | t :: ts => padded t ++ paddedAll ts
/-- `[a, b, c]`; in the indented form each element is on lines of its own; `[]` in both (standard library) -/
def listText (σ : Fmt) : List Text → Text
  | [] => strBytes "[]"
  | t :: ts =>
    if σ.alternate then strBytes "[\n" ++ (paddedAll (t :: ts) ++ strBytes "]")
    else strBytes "[" ++ (join (strBytes ", ") (t :: ts) ++ strBytes "]")
/-- standard library: `Vec<T>` -/
instance {α : Type} [RDebug α] : RDebug (List α) := ⟨fun σ xs => listText σ (xs.map (text σ))⟩
/-- standard library: `[T; N]` -/
instance {α : Type} [RDebug α] {n : Nat} : RDebug (Arr α n) := ⟨fun σ xs => listText σ (xs.toList.map (text σ))⟩
/-- `Name(a)`: a tuple-like structure or variant with one member (`#[derive(Debug)]`) -/
def tupleText (σ : Fmt) (name : String) (t : Text) : Text :=
  if σ.alternate then strBytes name ++ (strBytes "(\n" ++ (padded t ++ strBytes ")"))
  else strBytes name ++ (strBytes "(" ++ (t ++ strBytes ")"))
/-- standard library: `Option<T>` -/
instance {α : Type} [RDebug α] : RDebug (Option α) where
  text σ
    | none => strBytes "None"
    | some x => tupleText σ "Some" (text σ x)

/-- the fields of a structure after the first, and the closing brace (`#[derive(Debug)]`) -/
def fieldsText (σ : Fmt) : List (String × Text) → Text
  | [] => if σ.alternate then strBytes "}" else strBytes " }"
  | (f, t) :: fs =>
    if σ.alternate then padded (strBytes f ++ (strBytes ": " ++ t)) ++ fieldsText σ fs
    else strBytes ", " ++ (strBytes f ++ (strBytes ": " ++ (t ++ fieldsText σ fs)))
/-- `Name { first: a, second: b }`, or `Name` if there are no fields; in the indented form each field is on lines of its
own (`#[derive(Debug)]`) -/
def structText (σ : Fmt) (name : String) : List (String × Text) → Text
  | [] => strBytes name
  | (f, t) :: fs =>
    if σ.alternate then strBytes name ++ (strBytes " {\n" ++ (padded (strBytes f ++ (strBytes ": " ++ t)) ++ fieldsText σ fs))
    else strBytes name ++ (strBytes " { " ++ (strBytes f ++ (strBytes ": " ++ (t ++ fieldsText σ fs))))

/-! ### Enumerations and flags -/

/-- `#[derive(Debug)]` on an enumeration of src/common/enums.rs (e.g. src/common/enums.rs:10391): the name of the
variant. -/
instance {s : EnumSpec} : RDebug (EnumVal s) := ⟨fun _ x => strBytes x.debug⟩
/-- src/common/dis_error.rs:12 (derived) -/
instance : RDebug PduState := ⟨fun _ x => strBytes x.debug⟩

/-- `bitflags` 2 (`iter_names` and `to_writer`): the names, in the order of declaration, of the flags that are set in
`source` and have a bit among `remaining` (the bits no earlier flag has accounted for); then, if bits are left, those in
hexadecimal. -/
def flagTexts : (flags : List (String × Nat)) → (source remaining : Nat) → List Text
  | [], _, remaining => if remaining = 0 then [] else [strBytes "0x" ++ digitsIn 16 remaining]
  | (name, flag) :: flags, source, remaining =>
    if source &&& flag = flag ∧ remaining &&& flag ≠ 0 then
      strBytes name :: flagTexts flags source (remaining - (remaining &&& flag))
    else flagTexts flags source remaining
/-- `bitflags` 2, with `#[derive(Debug)]` on the declared type: `Name(A | B | 0x8)`; `Name(0x0)` if no bit is set -/
def flagsText (σ : Fmt) (name : String) (flags : List (String × Nat)) (bits : Nat) : Text :=
  tupleText σ name (if bits = 0 then strBytes "0x0" else join (strBytes " | ") (flagTexts flags bits bits))

/-- src/common/enums.rs:3650 (derived, inside `bitflags!`) -/
instance : RDebug FrozenBehavior := ⟨fun σ x =>
  flagsText σ "FrozenBehavior" (FrozenBehavior.flags.map fun f => (f.1, f.2.bits.toNat)) x.bits.toNat⟩
/-- src/common/enums.rs:9415 (derived, inside `bitflags!`) -/
instance : RDebug ObjectStateAppearanceGeneral := ⟨fun σ x =>
  flagsText σ "ObjectStateAppearanceGeneral" (ObjectStateAppearanceGeneral.flags.map fun f => (f.1, f.2.bits.toNat))
    x.bits.toNat⟩
/-- src/common/enums.rs:1347 (derived, inside `bitflags!`) -/
instance : RDebug LandPlatformAppearance := ⟨fun σ x =>
  flagsText σ "LandPlatformAppearance" (LandPlatformAppearance.flags.map fun f => (f.1, f.2.bits.toNat)) x.bits.toNat⟩

/-! ### Headers -/

/-- src/common/pdu_header.rs:27-36: `modular_bitfield` replaces the derived `Debug` by one that prints what the getters
return; the member marked `#[skip]` has no getter and is not printed. -/
instance : RDebug PduStatusRecord := ⟨fun σ x => structText σ "PduStatusRecord" [
  ("tei", text σ x.tei), ("lvc", text σ x.lvc), ("cei", text σ x.cei), ("bit4_5", text σ x.bit4_5)]⟩
/-- src/common/pdu_header.rs:136-154 (derived) -/
instance : RDebug PduHeader := ⟨fun σ x => structText σ "PduHeader" [
  ("protocol_version", text σ x.protocol_version), ("exercise_id", text σ x.exercise_id),
  ("pdu_type", text σ x.pdu_type), ("protocol_family", text σ x.protocol_family), ("timestamp", text σ x.timestamp),
  ("length", text σ x.length), ("status_record", text σ x.status_record), ("padding", text σ x.padding)]⟩
/-- src/common/live_entity_pdu_header.rs:15-33 (derived) -/
instance : RDebug LiveEntityPduHeader := ⟨fun σ x => structText σ "LiveEntityPduHeader" [
  ("protocol_version", text σ x.protocol_version), ("exercise_id", text σ x.exercise_id),
  ("pdu_type", text σ x.pdu_type), ("protocol_family", text σ x.protocol_family), ("timestamp", text σ x.timestamp),
  ("length", text σ x.length), ("subprotocol_number", text σ x.subprotocol_number), ("padding", text σ x.padding)]⟩

/-! ### The enumerations with data -/

/-- src/common/data_types/grid_axis_descriptor.rs:13-27 (derived) -/
instance : RDebug GridAxisType where
  text σ
    | .FixedSpacing n i => structText σ "FixedSpacing" [
      ("number_of_points_on_x_axis", text σ n), ("initial_index", text σ i)]
    | .VariableSpacing n i s o xs p => structText σ "VariableSpacing" [
      ("number_of_points_on_x_axis", text σ n), ("initial_index", text σ i), ("coordinate_scale_x", text σ s),
      ("coordinate_offset_x", text σ o), ("x_values", text σ xs), ("padding", text σ p)]
/-- src/common/data_types/grid_data_record.rs:13-32 (derived) -/
instance : RDebug DataRepresentationType where
  text σ
    | .Type0 n d p => structText σ "Type0" [
      ("number_of_octets", text σ n), ("data_values", text σ d), ("padding", text σ p)]
    | .Type1 s o n d p => structText σ "Type1" [
      ("field_scale", text σ s), ("field_offset", text σ o), ("number_of_values", text σ n),
      ("data_values", text σ d), ("padding", text σ p)]
    | .Type2 n p d => structText σ "Type2" [
      ("number_of_values", text σ n), ("padding", text σ p), ("data_values", text σ d)]

/-! ### Errors -/

/-- src/common/dis_error.rs:20-71 (derived) -/
instance : RDebug DISError where
  text σ
    | .InvalidHeader reason source => structText σ "InvalidHeader" [
      ("reason", text σ reason), ("source", text σ source)]
    | .DeserializationError msg source => structText σ "DeserializationError" [
      ("msg", text σ msg), ("source", text σ source)]
    | .SerializationError msg source => structText σ "SerializationError" [
      ("msg", text σ msg), ("source", text σ source)]
    | .InvalidStateTransition current_state target_state => structText σ "InvalidStateTransition" [
      ("current_state", text σ current_state), ("target_state", text σ target_state)]
    | .ProtocolVersionMismatch expected got => structText σ "ProtocolVersionMismatch" [
      ("expected", text σ expected), ("got", text σ got)]
    | .InvalidFieldValue field value reason => structText σ "InvalidFieldValue" [
      ("field", text σ field), ("value", text σ value), ("reason", text σ reason)]
    | .BufferUnderflow attempted available => structText σ "BufferUnderflow" [
      ("attempted", text σ attempted), ("available", text σ available)]
    | .NetworkError error => tupleText σ "NetworkError" (text σ error)
    | .PduSizeExceeded size max_size => structText σ "PduSizeExceeded" [
      ("size", text σ size), ("max_size", text σ max_size)]

end Dis
