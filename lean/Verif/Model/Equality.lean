import Verif.Model.Vector3
import Verif.Model.Constants
import Verif.Model.Errors
/-
Model of `==` (`#[derive(PartialEq)]`) for the types of the crate that have it, of the conversions of the status
indicators to `u8`, and of the remaining constants of src/common/constants.rs.

Simplification: in the rest of the model `=` on floating-point fields compares bit patterns; the `==` of this file is
Rust's.
-/
namespace Dis

/-- Rust's `PartialEq::eq`. -/
class REq (α : Type) where
  /-- `a == b` -/
  eq : α → α → Bool

/-- `f64 == f64` (standard library): false if either is NaN (exponent 2047, fraction not 0); the two zeros are equal;
otherwise the patterns are compared. -/
def F64.eq (x y : F64) : Bool :=
  let a := x.bits.toNat % 2 ^ 63
  let b := y.bits.toNat % 2 ^ 63
  if 2047 * 2 ^ 52 < a || 2047 * 2 ^ 52 < b then false
  else if a == 0 && b == 0 then true
  else decide (x.bits = y.bits)

/-- standard library -/ instance : REq UInt8 := ⟨fun a b => decide (a = b)⟩
/-- standard library -/ instance : REq UInt16 := ⟨fun a b => decide (a = b)⟩
/-- standard library -/ instance : REq UInt32 := ⟨fun a b => decide (a = b)⟩
/-- standard library -/ instance : REq F32 := ⟨F32.eq⟩
/-- standard library -/ instance : REq F64 := ⟨F64.eq⟩
/-- standard library: `Vec<T> == Vec<T>` compares the lengths, then the elements in order -/
def REq.list {α : Type} [REq α] : List α → List α → Bool
  | [], [] => true
  | x :: xs, y :: ys => REq.eq x y && REq.list xs ys
  | _, _ => false
/-- standard library -/ instance {α : Type} [REq α] : REq (List α) := ⟨REq.list⟩

/-- `#[derive(.., PartialEq, Eq)]` on an enumeration of src/common/enums.rs (e.g. src/common/enums.rs:10391): the same
variant. -/
instance {s : EnumSpec} : REq (EnumVal s) := ⟨fun a b => decide (a.code = b.code)⟩
/-- src/common/enums.rs:3650 (derived, inside `bitflags!`) -/
instance : REq FrozenBehavior := ⟨fun a b => REq.eq a.bits b.bits⟩
/-- src/common/enums.rs:9415 (derived, inside `bitflags!`) -/
instance : REq ObjectStateAppearanceGeneral := ⟨fun a b => REq.eq a.bits b.bits⟩
/-- src/common/enums.rs:1347 (derived, inside `bitflags!`) -/
instance : REq LandPlatformAppearance := ⟨fun a b => REq.eq a.bits b.bits⟩
/-- src/common/dis_error.rs:12 (derived) -/
instance : REq PduState := ⟨fun a b => decide (a = b)⟩
/-- src/common/data_types/simulation_address.rs:14 (derived) -/
instance : REq SimulationAddress := ⟨fun a b =>
  REq.eq a.site_id b.site_id && REq.eq a.application_id b.application_id⟩
/-- src/common/data_types/entity_id.rs:13 (derived) -/
instance : REq EntityId := ⟨fun a b =>
  REq.eq a.simulation_address b.simulation_address && REq.eq a.entity_id b.entity_id⟩
/-- src/common/data_types/entity_type.rs:15 (derived) -/
instance : REq EntityType := ⟨fun a b =>
  REq.eq a.kind b.kind && REq.eq a.domain b.domain && REq.eq a.country b.country && REq.eq a.category b.category &&
  REq.eq a.subcategory b.subcategory && REq.eq a.specific b.specific && REq.eq a.extra b.extra⟩
/-- src/common/pdu_header.rs:28 (derived; the bitfield's only member is its octet) -/
instance : REq PduStatusRecord := ⟨fun a b => REq.eq a.bits b.bits⟩
/-- src/common/pdu_header.rs:136 (derived) -/
instance : REq PduHeader := ⟨fun a b =>
  REq.eq a.protocol_version b.protocol_version && REq.eq a.exercise_id b.exercise_id && REq.eq a.pdu_type b.pdu_type &&
  REq.eq a.protocol_family b.protocol_family && REq.eq a.timestamp b.timestamp && REq.eq a.length b.length &&
  REq.eq a.status_record b.status_record && REq.eq a.padding b.padding⟩
/-- src/common/live_entity_pdu_header.rs:15 (derived) -/
instance : REq LiveEntityPduHeader := ⟨fun a b =>
  REq.eq a.protocol_version b.protocol_version && REq.eq a.exercise_id b.exercise_id && REq.eq a.pdu_type b.pdu_type &&
  REq.eq a.protocol_family b.protocol_family && REq.eq a.timestamp b.timestamp && REq.eq a.length b.length &&
  REq.eq a.subprotocol_number b.subprotocol_number && REq.eq a.padding b.padding⟩
/-- src/common/data_types/vector3_float.rs:11 (derived) -/
instance : REq Vector3Float := ⟨fun a b => REq.eq a.x b.x && REq.eq a.y b.y && REq.eq a.z b.z⟩
/-- src/common/data_types/grid_axis_descriptor.rs:13 (derived) -/
instance : REq GridAxisType where
  eq
    | .FixedSpacing n i, .FixedSpacing n' i' => REq.eq n n' && REq.eq i i'
    | .VariableSpacing n i s o xs p, .VariableSpacing n' i' s' o' xs' p' =>
      REq.eq n n' && REq.eq i i' && REq.eq s s' && REq.eq o o' && REq.eq xs xs' && REq.eq p p'
    | _, _ => false
/-- src/common/data_types/grid_data_record.rs:13 (derived) -/
instance : REq DataRepresentationType where
  eq
    | .Type0 n d p, .Type0 n' d' p' => REq.eq n n' && REq.eq d d' && REq.eq p p'
    | .Type1 s o n d p, .Type1 s' o' n' d' p' =>
      REq.eq s s' && REq.eq o o' && REq.eq n n' && REq.eq d d' && REq.eq p p'
    | .Type2 n p d, .Type2 n' p' d' => REq.eq n n' && REq.eq p p' && REq.eq d d'
    | _, _ => false

/-! ### `u8::from` of the status indicators -/

/-- src/common/enums.rs:10410-10414 -/
def u8OfDti (value : DetonationTypeIndicator) : UInt8 := value.asU8
/-- src/common/enums.rs:10443-10447 -/
def u8OfRai (value : RadioAttachedIndicator) : UInt8 := value.asU8
/-- src/common/enums.rs:10476-10480 -/
def u8OfIai (value : IntercomAttachedIndicator) : UInt8 := value.asU8

/-! ### Reserved identifiers and settings -/

/-- src/common/constants.rs:10 -/ def ALL_ENTITIES : UInt16 := 0xFFFF
/-- src/common/constants.rs:11 -/ def ALL_APPLIC : UInt16 := 0xFFFF
/-- src/common/constants.rs:12 -/ def ALL_SITES : UInt16 := 0xFFFF
/-- src/common/constants.rs:14 -/ def NO_ENTITY : UInt16 := 0x0000
/-- src/common/constants.rs:15 -/ def NO_APPLIC : UInt16 := 0x0000
/-- src/common/constants.rs:16 -/ def NO_SITE : UInt16 := 0x0000
/-- src/common/constants.rs:21 -/ def BITS_PER_BYTE : UInt16 := 8
/-- src/common/constants.rs:27 -/ def MAX_ARTICULATION_PARAMS : UInt64 := 64
/-- src/common/constants.rs:33 -/ def ALL_AGGS : UInt16 := 0xFFFF
/-- src/common/constants.rs:34 -/ def ALL_EMITTERS : UInt16 := 0xFF
/-- src/common/constants.rs:35 -/ def ALL_BEAMS : UInt16 := 0xFF
/-- src/common/constants.rs:36 -/ def ALL_OBJECTS : UInt16 := 0xFFFF
/-- src/common/constants.rs:38 -/ def EP_NO_SEQUENCE : UInt16 := 0xFFFF
/-- src/common/constants.rs:40 -/ def NO_AGG : UInt16 := 0x0000
/-- src/common/constants.rs:41 -/ def NO_BEAM : UInt16 := 0x0000
/-- src/common/constants.rs:42 -/ def NO_CATEGORY : UInt16 := 0x0000
/-- src/common/constants.rs:43 -/ def NO_EMITTER : UInt16 := 0x0000
/-- src/common/constants.rs:44 -/ def NO_FIRE_MISSION : UInt16 := 0x0000
/-- src/common/constants.rs:45 -/ def NO_KIND : UInt16 := 0x0000
/-- src/common/constants.rs:46 -/ def NO_OBJECT : UInt16 := 0x0000
/-- src/common/constants.rs:47 (0.0) -/ def NO_PATTERN : F32 := ⟨0⟩
/-- src/common/constants.rs:48 -/ def NO_REF_NUMBER : UInt16 := 0x0000
/-- src/common/constants.rs:49 -/ def NO_SPECIFIC : UInt16 := 0x0000
/-- src/common/constants.rs:50 -/ def NO_SUBCAT : UInt16 := 0x0000
/-- src/common/constants.rs:51 -/ def NO_VALUE : UInt16 := 0x0000
/-- src/common/constants.rs:53 (-100.0) -/ def POWER_ENGINE_OFF : F32 := ⟨0xC2C80000⟩
/-- src/common/constants.rs:54 (0.0) -/ def POWER_IDLE : F32 := ⟨0⟩
/-- src/common/constants.rs:55 (100.0) -/ def POWER_MAX_AFTERBURNER : F32 := ⟨0x42C80000⟩
/-- src/common/constants.rs:56 (50.0) -/ def POWER_MILITARY : F32 := ⟨0x42480000⟩
/-- src/common/constants.rs:57 (51.0) -/ def POWER_MIN_AFTERBURNER : F32 := ⟨0x424C0000⟩
/-- src/common/constants.rs:59 -/ def RQST_ASSIGN_ID : UInt16 := 0xFFFE

end Dis
