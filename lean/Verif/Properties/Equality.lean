import Verif.Proofs.Vector3
import Verif.Model.Equality
import Verif.Model.Constructors
import Verif.Properties.Gridded
import Verif.Properties.Header
import Verif.Proofs.Injective
/-
C51: what `==` means on the types that have it.
-/
namespace Dis

/-! ### Specification: comparison of floating-point numbers (IEEE 754) -/

/-- not a number: exponent all ones, fraction not zero -/
def F32.NotANumber (x : F32) : Prop := x.bits.toNat / 2 ^ 23 % 256 = 255 ∧ x.bits.toNat % 2 ^ 23 ≠ 0
/-- not a number: exponent all ones, fraction not zero -/
def F64.NotANumber (x : F64) : Prop := x.bits.toNat / 2 ^ 52 % 2048 = 2047 ∧ x.bits.toNat % 2 ^ 52 ≠ 0
/-- +0 or -0 -/
def F32.IsAZero (x : F32) : Prop := x.bits = 0 ∨ x.bits = 0x80000000
/-- +0 or -0 -/
def F64.IsAZero (x : F64) : Prop := x.bits = 0 ∨ x.bits = 0x8000000000000000
/-- two numbers, and the same number: the zeros are the same, every other number has one pattern -/
def F32.SameNumber (x y : F32) : Prop :=
  ¬ x.NotANumber ∧ ¬ y.NotANumber ∧ (x.bits = y.bits ∨ (x.IsAZero ∧ y.IsAZero))
/-- two numbers, and the same number: the zeros are the same, every other number has one pattern -/
def F64.SameNumber (x y : F64) : Prop :=
  ¬ x.NotANumber ∧ ¬ y.NotANumber ∧ (x.bits = y.bits ∨ (x.IsAZero ∧ y.IsAZero))

/-! ### Lemmas -/

theorem F32.isNaN_iff (x : F32) : x.isNaN = true ↔ x.NotANumber := by
  have h := x.bits.toNat_lt
  unfold F32.isNaN F32.mag F32.infMag F32.NotANumber
  rw [decide_eq_true_eq]
  omega
theorem F32.isZero_iff (x : F32) : x.isZero = true ↔ x.IsAZero := by
  have h := x.bits.toNat_lt
  unfold F32.isZero F32.mag F32.IsAZero
  rw [decide_eq_true_eq, ← UInt32.toNat_inj, ← UInt32.toNat_inj]
  show _ ↔ _ = 0 ∨ _ = 2147483648
  omega
theorem F64.nan_iff (x : F64) : 2047 * 2 ^ 52 < x.bits.toNat % 2 ^ 63 ↔ x.NotANumber := by
  have h := x.bits.toNat_lt
  unfold F64.NotANumber
  omega
theorem F64.zero_iff (x : F64) : x.bits.toNat % 2 ^ 63 = 0 ↔ x.IsAZero := by
  have h := x.bits.toNat_lt
  unfold F64.IsAZero
  rw [← UInt64.toNat_inj, ← UInt64.toNat_inj]
  show _ ↔ _ = 0 ∨ _ = 9223372036854775808
  omega

/-- `==` is equality. -/
class ExactEq (α : Type) [REq α] : Prop where
  iff : ∀ a b : α, REq.eq a b = true ↔ a = b
/-- `==` is symmetric and transitive. -/
class PartialEquiv (α : Type) [REq α] : Prop where
  symm : ∀ a b : α, REq.eq a b = REq.eq b a
  trans : ∀ a b c : α, REq.eq a b = true → REq.eq b c = true → REq.eq a c = true

/-- Comparing bit patterns decides floats. -/
theorem F32.eq_iff (x y : F32) : REq.eq x y = true ↔ F32.SameNumber x y := by
  show F32.eq x y = true ↔ _
  unfold F32.eq F32.SameNumber
  rw [← F32.isNaN_iff, ← F32.isNaN_iff, ← F32.isZero_iff, ← F32.isZero_iff]
  cases x.isNaN <;> cases y.isNaN <;> cases x.isZero <;> cases y.isZero <;> simp
theorem F64.eq_iff (x y : F64) : REq.eq x y = true ↔ F64.SameNumber x y := by
  show F64.eq x y = true ↔ _
  unfold F64.eq F64.SameNumber
  rw [← F64.nan_iff, ← F64.nan_iff, ← F64.zero_iff, ← F64.zero_iff]
  generalize x.bits.toNat % 2 ^ 63 = a
  generalize y.bits.toNat % 2 ^ 63 = b
  by_cases ha : 2047 * 2 ^ 52 < a <;> by_cases hb : 2047 * 2 ^ 52 < b <;> by_cases h0 : a = 0 <;>
    by_cases h1 : b = 0 <;> simp [ha, hb, h0, h1]

instance : ExactEq UInt8 := ⟨fun _ _ => decide_eq_true_iff⟩
instance : ExactEq UInt16 := ⟨fun _ _ => decide_eq_true_iff⟩
instance : ExactEq UInt32 := ⟨fun _ _ => decide_eq_true_iff⟩
instance : ExactEq PduState := ⟨fun _ _ => decide_eq_true_iff⟩
instance {s : EnumSpec} : ExactEq (EnumVal s) :=
  ⟨fun _ _ => decide_eq_true_iff.trans ⟨EnumVal.ext, congrArg _⟩⟩
instance {α : Type} [REq α] [h : ExactEq α] : ExactEq (List α) := ⟨by
  intro a
  induction a with
  | nil => intro b; cases b <;> simp [REq.eq, REq.list]
  | cons x xs ih =>
    intro b
    cases b with
    | nil => simp [REq.eq, REq.list]
    | cons y ys =>
      show (REq.eq x y && REq.eq xs ys) = true ↔ _
      rw [Bool.and_eq_true, h.iff, ih, List.cons.injEq]⟩
instance : ExactEq FrozenBehavior := ⟨fun a b => by
  cases a; cases b; show REq.eq (α := UInt8) _ _ = true ↔ _; rw [ExactEq.iff]; simp⟩
instance : ExactEq ObjectStateAppearanceGeneral := ⟨fun a b => by
  cases a; cases b; show REq.eq (α := UInt16) _ _ = true ↔ _; rw [ExactEq.iff]; simp⟩
instance : ExactEq LandPlatformAppearance := ⟨fun a b => by
  cases a; cases b; show REq.eq (α := UInt32) _ _ = true ↔ _; rw [ExactEq.iff]; simp⟩
instance : ExactEq PduStatusRecord := ⟨fun a b => by
  cases a; cases b; show REq.eq (α := UInt8) _ _ = true ↔ _; rw [ExactEq.iff]; simp⟩
instance : ExactEq SimulationAddress := ⟨fun a b => by
  cases a; cases b
  show (REq.eq (α := UInt16) _ _ && REq.eq (α := UInt16) _ _) = true ↔ _
  simp only [Bool.and_eq_true, ExactEq.iff, SimulationAddress.mk.injEq]⟩
instance : ExactEq EntityId := ⟨fun a b => by
  cases a; cases b
  show (REq.eq (α := SimulationAddress) _ _ && REq.eq (α := UInt16) _ _) = true ↔ _
  simp only [Bool.and_eq_true, ExactEq.iff, EntityId.mk.injEq]⟩
instance : ExactEq EntityType := ⟨fun a b => by
  rcases a with ⟨a1, a2, a3, a4, a5, a6, a7⟩; rcases b with ⟨b1, b2, b3, b4, b5, b6, b7⟩
  show (REq.eq a1 b1 && REq.eq a2 b2 && REq.eq a3 b3 && REq.eq a4 b4 && REq.eq a5 b5 && REq.eq a6 b6 &&
    REq.eq a7 b7) = true ↔ _
  simp only [Bool.and_eq_true, ExactEq.iff, EntityType.mk.injEq, and_assoc]⟩
instance : ExactEq PduHeader := ⟨fun a b => by
  rcases a with ⟨a1, a2, a3, a4, a5, a6, a7, a8⟩; rcases b with ⟨b1, b2, b3, b4, b5, b6, b7, b8⟩
  show (REq.eq a1 b1 && REq.eq a2 b2 && REq.eq a3 b3 && REq.eq a4 b4 && REq.eq a5 b5 && REq.eq a6 b6 &&
    REq.eq a7 b7 && REq.eq a8 b8) = true ↔ _
  simp only [Bool.and_eq_true, ExactEq.iff, PduHeader.mk.injEq, and_assoc]⟩
instance : ExactEq LiveEntityPduHeader := ⟨fun a b => by
  rcases a with ⟨a1, a2, a3, a4, a5, a6, a7, a8⟩; rcases b with ⟨b1, b2, b3, b4, b5, b6, b7, b8⟩
  show (REq.eq a1 b1 && REq.eq a2 b2 && REq.eq a3 b3 && REq.eq a4 b4 && REq.eq a5 b5 && REq.eq a6 b6 &&
    REq.eq a7 b7 && REq.eq a8 b8) = true ↔ _
  simp only [Bool.and_eq_true, ExactEq.iff, LiveEntityPduHeader.mk.injEq, and_assoc]⟩

theorem ExactEq.self {α : Type} [REq α] [h : ExactEq α] (a : α) : REq.eq a a = true := (h.iff a a).mpr rfl

/-- If two writers of one decoder's values write the same, the values are the same. -/
theorem same_octets {α : Type} [Wire α] {put : α → Put} {g : Get α} (hw : ∀ x, Writes (put x) (wire x))
    (hr : ∀ x, Reads g (wire x) x) (a b : α) : a = b ↔ ∃ prof buf, put a prof buf = put b prof buf := by
  refine ⟨fun h => ⟨⟨true⟩, [], by rw [h]⟩, fun ⟨prof, buf, h⟩ => ?_⟩
  rw [hw a prof buf, hw b prof buf] at h
  simp only [Except.ok.injEq, Prod.mk.injEq, true_and] at h
  have h := List.append_cancel_left h
  exact (prefix_of_reads (r := []) (s := []) (hr a) (hr b) (by rw [h])).1

/-! ### The theorems -/

/-- On every enumeration, on the flag sets, on the states of an error and on the status record, `==` holds between
a value and itself and between no others. -/
theorem C51_exact_values :
    (∀ (s : EnumSpec) (a b : EnumVal s), REq.eq a b = true ↔ a = b) ∧
    (∀ a b : FrozenBehavior, REq.eq a b = true ↔ a.as_u8 = b.as_u8) ∧
    (∀ a b : ObjectStateAppearanceGeneral, REq.eq a b = true ↔ a.as_u16 = b.as_u16) ∧
    (∀ a b : LandPlatformAppearance, REq.eq a b = true ↔ a.as_u32 = b.as_u32) ∧
    (∀ a b : PduState, REq.eq a b = true ↔ a = b) ∧
    (∀ a b : PduStatusRecord, REq.eq a b = true ↔ a.to_u8 = b.to_u8) :=
  ⟨fun _ _ _ => ExactEq.iff _ _, fun _ _ => ExactEq.iff (α := UInt8) _ _, fun _ _ => ExactEq.iff (α := UInt16) _ _,
    fun _ _ => ExactEq.iff (α := UInt32) _ _, fun _ _ => ExactEq.iff _ _, fun _ _ => ExactEq.iff (α := UInt8) _ _⟩

/-- Addresses, entity identifiers, entity types and headers are `==` exactly if they are written as the same
octets. -/
theorem C51_same_octets :
    (∀ a b : SimulationAddress, REq.eq a b = true ↔ ∃ prof buf, a.serialize prof buf = b.serialize prof buf) ∧
    (∀ a b : EntityId, REq.eq a b = true ↔ ∃ prof buf, a.serialize prof buf = b.serialize prof buf) ∧
    (∀ a b : EntityType, REq.eq a b = true ↔ ∃ prof buf, a.serialize prof buf = b.serialize prof buf) ∧
    (∀ a b : PduHeader, REq.eq a b = true ↔ ∃ prof buf, a.serialize prof buf = b.serialize prof buf) ∧
    (∀ a b : LiveEntityPduHeader, REq.eq a b = true ↔ ∃ prof buf, a.serialize prof buf = b.serialize prof buf) :=
  ⟨fun a b => (ExactEq.iff a b).trans (same_octets SimulationAddress.writes SimulationAddress.reads a b),
   fun a b => (ExactEq.iff a b).trans (same_octets EntityId.writes EntityId.reads a b),
   fun a b => (ExactEq.iff a b).trans (same_octets EntityType.writes EntityType.reads a b),
   fun a b => (ExactEq.iff a b).trans (same_octets PduHeader.writes PduHeader.reads a b),
   fun a b => (ExactEq.iff a b).trans (same_octets LiveEntityPduHeader.writes LiveEntityPduHeader.reads a b)⟩

example : REq.eq (EntityId.new 1 2 3) (EntityId.new 1 2 3) = true ∧ REq.eq (EntityId.new 1 2 3) (EntityId.new 2 1 3) = false :=
  ⟨by decide, by decide⟩

/-- Vectors are `==` exactly if their components are the same numbers. -/
theorem C51_vector (v w : Vector3Float) : REq.eq v w = true ↔
    F32.SameNumber v.x w.x ∧ F32.SameNumber v.y w.y ∧ F32.SameNumber v.z w.z := by
  rw [← F32.eq_iff, ← F32.eq_iff, ← F32.eq_iff]
  show (REq.eq v.x w.x && REq.eq v.y w.y && REq.eq v.z w.z) = true ↔ _
  rw [Bool.and_eq_true, Bool.and_eq_true, and_assoc]

theorem F32.same_self (x : F32) : F32.SameNumber x x ↔ ¬ x.NotANumber := by
  unfold F32.SameNumber; simp
theorem F64.same_self (x : F64) : F64.SameNumber x x ↔ ¬ x.NotANumber := by
  unfold F64.SameNumber; simp

/-- For finite components "the same number" means equal values (in units of 2^-149, with sign); an infinity is the
same number as itself only; NaN as nothing. -/
theorem C51_number (x y : F32) :
    (x.isFinite = true → y.isFinite = true → (F32.SameNumber x y ↔ x.value = y.value)) ∧
    (x.isInf = true → (F32.SameNumber x y ↔ x.bits = y.bits)) ∧
    (x.isNaN = true → ¬ F32.SameNumber x y) := by
  refine ⟨fun hx hy => ?_, fun hx => ?_, fun hx h => h.1 (F32.isNaN_iff x |>.mp hx)⟩
  · unfold F32.SameNumber
    rw [← F32.isNaN_iff, ← F32.isNaN_iff, ← F32.isZero_iff, ← F32.isZero_iff, ← UInt32.toNat_inj]
    unfold F32.isNaN F32.isZero F32.isFinite F32.value F32.neg? F32.units at *
    simp only [decide_eq_true_eq] at *
    have e1 : x.bits.toNat = x.mag + (if 2147483648 ≤ x.bits.toNat then 2147483648 else 0) := by
      have := x.bits.toNat_lt; unfold F32.mag; split <;> omega
    have e2 : y.bits.toNat = y.mag + (if 2147483648 ≤ y.bits.toNat then 2147483648 else 0) := by
      have := y.bits.toNat_lt; unfold F32.mag; split <;> omega
    have inj : F32.unitsOf x.mag = F32.unitsOf y.mag → x.mag = y.mag := fun h => by
      rcases Nat.lt_trichotomy x.mag y.mag with h' | h' | h'
      · have := F32.unitsOf_strict h' hy; omega
      · exact h'
      · have := F32.unitsOf_strict h' hx; omega
    have px : 0 < x.mag → 0 < F32.unitsOf x.mag := F32.unitsOf_pos
    have py : 0 < y.mag → 0 < F32.unitsOf y.mag := F32.unitsOf_pos
    have z : F32.unitsOf 0 = 0 := by decide
    have cong : x.mag = y.mag → F32.unitsOf x.mag = F32.unitsOf y.mag := congrArg _
    have zx : x.mag = 0 → F32.unitsOf x.mag = 0 := fun h => by rw [h]; exact z
    have zy : y.mag = 0 → F32.unitsOf y.mag = 0 := fun h => by rw [h]; exact z
    generalize F32.unitsOf x.mag = ux at *
    generalize F32.unitsOf y.mag = uy at *
    generalize x.mag = mx at *
    generalize y.mag = my at *
    generalize x.bits.toNat = bx at *
    generalize y.bits.toNat = by' at *
    constructor
    · rintro ⟨_, _, h⟩
      split <;> split <;> simp_all <;> omega
    · intro h
      refine ⟨by omega, by omega, ?_⟩
      by_cases h1 : 2147483648 ≤ bx <;> by_cases h2 : 2147483648 ≤ by' <;> simp only [h1, h2, if_true, if_false] at * <;> omega
  · unfold F32.SameNumber
    rw [← F32.isNaN_iff, ← F32.isNaN_iff, ← F32.isZero_iff, ← F32.isZero_iff, ← UInt32.toNat_inj]
    unfold F32.isInf F32.isNaN F32.isZero F32.mag F32.infMag at *
    simp only [decide_eq_true_eq] at *
    omega

/-- A vector sent and received is `==` the original exactly if no component is NaN. -/
theorem C51_vector_round_trip (v : Vector3Float) (prof : Profile) (buf rest : Bytes) :
    ∃ w v', v.serialize prof buf = .ok ((), buf ++ w) ∧ Vector3Float.deserialize prof (w ++ rest) = .ok (v', rest) ∧
      (REq.eq v' v = true ↔ ¬ v.x.NotANumber ∧ ¬ v.y.NotANumber ∧ ¬ v.z.NotANumber) := by
  refine ⟨wire v, v, v.writes prof buf, v.reads prof rest, ?_⟩
  rw [C51_vector, F32.same_self, F32.same_self, F32.same_self]

/-- Vectors that are `==` are written alike, up to the sign of zeros: where neither has a zero component, as the same
octets. -/
theorem C51_vector_octets (v w : Vector3Float) (h : REq.eq v w = true)
    (hz : ¬ v.x.IsAZero ∧ ¬ v.y.IsAZero ∧ ¬ v.z.IsAZero) (prof : Profile) (buf : Bytes) :
    v.serialize prof buf = w.serialize prof buf := by
  obtain ⟨⟨_, _, hx⟩, ⟨_, _, hy⟩, ⟨_, _, hzz⟩⟩ := (C51_vector v w).mp h
  have e : v = w := by
    rcases v with ⟨⟨x⟩, ⟨y⟩, ⟨z⟩⟩; rcases w with ⟨⟨x'⟩, ⟨y'⟩, ⟨z'⟩⟩
    simp only at hx hy hzz
    rcases hx with rfl | hx
    · rcases hy with rfl | hy
      · rcases hzz with rfl | hzz
        · rfl
        · exact absurd hzz.1 hz.2.2
      · exact absurd hy.1 hz.2.1
    · exact absurd hx.1 hz.1
  rw [e]

/-- a NaN, and the two zeros -/
example : REq.eq (Vector3Float.new ⟨0x7FC00000⟩ .zero .zero) (Vector3Float.new ⟨0x7FC00000⟩ .zero .zero) = false ∧
    REq.eq Vector3Float.zero (Vector3Float.new ⟨0x80000000⟩ .zero .zero) = true ∧
    REq.eq Vector3Float.unit_x Vector3Float.unit_x = true := ⟨by decide, by decide, by decide⟩

/-! ### Symmetry and transitivity -/

instance (priority := low) {α : Type} [REq α] [h : ExactEq α] : PartialEquiv α :=
  ⟨fun a b => by rw [Bool.eq_iff_iff, h.iff, h.iff]; exact eq_comm,
   fun a b c h1 h2 => by rw [h.iff] at *; exact h1.trans h2⟩
instance : PartialEquiv F32 := by
  refine ⟨fun a b => ?_, fun a b c h1 h2 => ?_⟩
  · rw [Bool.eq_iff_iff, F32.eq_iff, F32.eq_iff]
    exact ⟨fun ⟨h1, h2, h3⟩ => ⟨h2, h1, h3.imp Eq.symm And.symm⟩, fun ⟨h1, h2, h3⟩ => ⟨h2, h1, h3.imp Eq.symm And.symm⟩⟩
  · rw [F32.eq_iff] at *
    obtain ⟨a1, a2, a3⟩ := h1
    obtain ⟨b1, b2, b3⟩ := h2
    refine ⟨a1, b2, ?_⟩
    unfold F32.IsAZero at *
    rcases a3 with e | ⟨e1, e2⟩ <;> rcases b3 with e' | ⟨e1', e2'⟩
    · exact .inl (e.trans e')
    · rw [← e] at e1'; exact .inr ⟨e1', e2'⟩
    · rw [e'] at e2; exact .inr ⟨e1, e2⟩
    · exact .inr ⟨e1, e2'⟩
instance : PartialEquiv F64 := by
  refine ⟨fun a b => ?_, fun a b c h1 h2 => ?_⟩
  · rw [Bool.eq_iff_iff, F64.eq_iff, F64.eq_iff]
    exact ⟨fun ⟨h1, h2, h3⟩ => ⟨h2, h1, h3.imp Eq.symm And.symm⟩, fun ⟨h1, h2, h3⟩ => ⟨h2, h1, h3.imp Eq.symm And.symm⟩⟩
  · rw [F64.eq_iff] at *
    obtain ⟨a1, a2, a3⟩ := h1
    obtain ⟨b1, b2, b3⟩ := h2
    refine ⟨a1, b2, ?_⟩
    unfold F64.IsAZero at *
    rcases a3 with e | ⟨e1, e2⟩ <;> rcases b3 with e' | ⟨e1', e2'⟩
    · exact .inl (e.trans e')
    · rw [← e] at e1'; exact .inr ⟨e1', e2'⟩
    · rw [e'] at e2; exact .inr ⟨e1, e2⟩
    · exact .inr ⟨e1, e2'⟩
theorem REq.list_symm {α : Type} [REq α] [h : PartialEquiv α] : ∀ a b : List α, REq.eq a b = REq.eq b a
  | [], [] => rfl
  | [], _ :: _ => rfl
  | _ :: _, [] => rfl
  | x :: xs, y :: ys => by
    show (REq.eq x y && REq.eq xs ys) = (REq.eq y x && REq.eq ys xs)
    rw [h.symm, REq.list_symm xs ys]
theorem REq.list_trans {α : Type} [REq α] [h : PartialEquiv α] : ∀ a b c : List α, REq.eq a b = true →
    REq.eq b c = true → REq.eq a c = true
  | [], [], [], _, _ => rfl
  | x :: xs, y :: ys, z :: zs, h1, h2 => by
    replace h1 : (REq.eq x y && REq.eq xs ys) = true := h1
    replace h2 : (REq.eq y z && REq.eq ys zs) = true := h2
    show (REq.eq x z && REq.eq xs zs) = true
    rw [Bool.and_eq_true] at *
    exact ⟨h.trans _ _ _ h1.1 h2.1, REq.list_trans _ _ _ h1.2 h2.2⟩
instance (priority := low) {α : Type} [REq α] [PartialEquiv α] : PartialEquiv (List α) :=
  ⟨REq.list_symm, REq.list_trans⟩
instance : PartialEquiv Vector3Float :=
  ⟨fun a b => by
    show (REq.eq a.x b.x && REq.eq a.y b.y && REq.eq a.z b.z) = (REq.eq b.x a.x && REq.eq b.y a.y && REq.eq b.z a.z)
    rw [PartialEquiv.symm a.x, PartialEquiv.symm a.y, PartialEquiv.symm a.z],
   fun a b c h1 h2 => by
    replace h1 : (REq.eq a.x b.x && REq.eq a.y b.y && REq.eq a.z b.z) = true := h1
    replace h2 : (REq.eq b.x c.x && REq.eq b.y c.y && REq.eq b.z c.z) = true := h2
    show (REq.eq a.x c.x && REq.eq a.y c.y && REq.eq a.z c.z) = true
    simp only [Bool.and_eq_true] at *
    exact ⟨⟨PartialEquiv.trans _ _ _ h1.1.1 h2.1.1, PartialEquiv.trans _ _ _ h1.1.2 h2.1.2⟩,
      PartialEquiv.trans _ _ _ h1.2 h2.2⟩⟩

theorem GridAxisType.eq_variable (n n' i i' : UInt16) (s s' o o' : F64) (xs xs' : List UInt16) (p p' : Bytes) :
    REq.eq (GridAxisType.VariableSpacing n i s o xs p) (.VariableSpacing n' i' s' o' xs' p') = true ↔
      n = n' ∧ i = i' ∧ F64.SameNumber s s' ∧ F64.SameNumber o o' ∧ xs = xs' ∧ p = p' := by
  show (REq.eq n n' && REq.eq i i' && REq.eq s s' && REq.eq o o' && REq.eq xs xs' && REq.eq p p') = true ↔ _
  simp only [Bool.and_eq_true, ExactEq.iff, F64.eq_iff, and_assoc]
theorem GridAxisType.eq_fixed (n n' i i' : UInt16) :
    REq.eq (GridAxisType.FixedSpacing n i) (.FixedSpacing n' i') = true ↔ n = n' ∧ i = i' := by
  show (REq.eq n n' && REq.eq i i') = true ↔ _
  simp only [Bool.and_eq_true, ExactEq.iff]

instance : PartialEquiv GridAxisType :=
  ⟨fun a b => by
    rcases a with ⟨a1, a2⟩ | ⟨a1, a2, a3, a4, a5, a6⟩ <;> rcases b with ⟨b1, b2⟩ | ⟨b1, b2, b3, b4, b5, b6⟩
    · show (_ && _) = (_ && _); rw [PartialEquiv.symm a1, PartialEquiv.symm a2]
    · rfl
    · rfl
    · show (_ && _) = (_ && _)
      rw [PartialEquiv.symm a1, PartialEquiv.symm a2, PartialEquiv.symm a3, PartialEquiv.symm a4, PartialEquiv.symm a5,
        PartialEquiv.symm a6],
   fun a b c h1 h2 => by
    rcases a with ⟨a1, a2⟩ | ⟨a1, a2, a3, a4, a5, a6⟩ <;> rcases b with ⟨b1, b2⟩ | ⟨b1, b2, b3, b4, b5, b6⟩ <;>
      rcases c with ⟨c1, c2⟩ | ⟨c1, c2, c3, c4, c5, c6⟩ <;> first | (cases h1; done) | (cases h2; done) | skip
    · rw [GridAxisType.eq_fixed] at *
      exact ⟨h1.1.trans h2.1, h1.2.trans h2.2⟩
    · rw [GridAxisType.eq_variable] at *
      refine ⟨h1.1.trans h2.1, h1.2.1.trans h2.2.1, ?_, ?_, h1.2.2.2.2.1.trans h2.2.2.2.2.1,
        h1.2.2.2.2.2.trans h2.2.2.2.2.2⟩
      · exact (F64.eq_iff _ _).mp (PartialEquiv.trans _ _ _ ((F64.eq_iff _ _).mpr h1.2.2.1) ((F64.eq_iff _ _).mpr h2.2.2.1))
      · exact (F64.eq_iff _ _).mp
          (PartialEquiv.trans _ _ _ ((F64.eq_iff _ _).mpr h1.2.2.2.1) ((F64.eq_iff _ _).mpr h2.2.2.2.1))⟩

theorem REq.list_iff {α : Type} [REq α] : ∀ a b : List α, REq.eq a b = true ↔
    a.length = b.length ∧ ∀ i (h : i < a.length) (h' : i < b.length), REq.eq a[i] b[i] = true
  | [], [] => by simp [REq.eq, REq.list]
  | [], _ :: _ => by simp [REq.eq, REq.list]
  | _ :: _, [] => by simp [REq.eq, REq.list]
  | x :: xs, y :: ys => by
    show (REq.eq x y && REq.eq xs ys) = true ↔ _
    rw [Bool.and_eq_true, REq.list_iff xs ys]
    constructor
    · rintro ⟨h1, h2, h3⟩
      refine ⟨by simp [h2], fun i h h' => ?_⟩
      cases i with
      | zero => exact h1
      | succ i => exact h3 i (by simpa using h) (by simpa using h')
    · rintro ⟨h1, h2⟩
      refine ⟨h2 0 (by simp) (by simp), by simpa using h1, fun i h h' => ?_⟩
      exact h2 (i + 1) (by simpa using h) (by simpa using h')

theorem DataRepresentationType.eq_0 (n n' : UInt16) (d d' p p' : Bytes) :
    REq.eq (DataRepresentationType.Type0 n d p) (.Type0 n' d' p') = true ↔ n = n' ∧ d = d' ∧ p = p' := by
  show (REq.eq n n' && REq.eq d d' && REq.eq p p') = true ↔ _
  simp only [Bool.and_eq_true, ExactEq.iff, and_assoc]
theorem DataRepresentationType.eq_1 (s s' o o' : F32) (n n' : UInt16) (d d' : List UInt16) (p p' : Bytes) :
    REq.eq (DataRepresentationType.Type1 s o n d p) (.Type1 s' o' n' d' p') = true ↔
      F32.SameNumber s s' ∧ F32.SameNumber o o' ∧ n = n' ∧ d = d' ∧ p = p' := by
  show (REq.eq s s' && REq.eq o o' && REq.eq n n' && REq.eq d d' && REq.eq p p') = true ↔ _
  simp only [Bool.and_eq_true, ExactEq.iff, F32.eq_iff, and_assoc]
theorem DataRepresentationType.eq_2 (n n' p p' : UInt16) (d d' : List F32) :
    REq.eq (DataRepresentationType.Type2 n p d) (.Type2 n' p' d') = true ↔ n = n' ∧ p = p' ∧ REq.eq d d' = true := by
  show (REq.eq n n' && REq.eq p p' && REq.eq d d') = true ↔ _
  simp only [Bool.and_eq_true, ExactEq.iff, and_assoc]

instance : PartialEquiv DataRepresentationType :=
  ⟨fun a b => by
    rcases a with ⟨a1, a2, a3⟩ | ⟨a1, a2, a3, a4, a5⟩ | ⟨a1, a2, a3⟩ <;>
      rcases b with ⟨b1, b2, b3⟩ | ⟨b1, b2, b3, b4, b5⟩ | ⟨b1, b2, b3⟩ <;> first | rfl | skip
    · show (_ && _) = (_ && _); rw [PartialEquiv.symm a1, PartialEquiv.symm a2, PartialEquiv.symm a3]
    · show (_ && _) = (_ && _)
      rw [PartialEquiv.symm a1, PartialEquiv.symm a2, PartialEquiv.symm a3, PartialEquiv.symm a4, PartialEquiv.symm a5]
    · show (_ && _) = (_ && _); rw [PartialEquiv.symm a1, PartialEquiv.symm a2, PartialEquiv.symm a3],
   fun a b c h1 h2 => by
    rcases a with ⟨a1, a2, a3⟩ | ⟨a1, a2, a3, a4, a5⟩ | ⟨a1, a2, a3⟩ <;>
      rcases b with ⟨b1, b2, b3⟩ | ⟨b1, b2, b3, b4, b5⟩ | ⟨b1, b2, b3⟩ <;> first | (cases h1; done) | skip
    all_goals rcases c with ⟨c1, c2, c3⟩ | ⟨c1, c2, c3, c4, c5⟩ | ⟨c1, c2, c3⟩ <;> first | (cases h2; done) | skip
    · rw [DataRepresentationType.eq_0] at *
      exact ⟨h1.1.trans h2.1, h1.2.1.trans h2.2.1, h1.2.2.trans h2.2.2⟩
    · rw [DataRepresentationType.eq_1, ← F32.eq_iff, ← F32.eq_iff] at *
      exact ⟨PartialEquiv.trans _ _ _ h1.1 h2.1, PartialEquiv.trans _ _ _ h1.2.1 h2.2.1, h1.2.2.1.trans h2.2.2.1,
        h1.2.2.2.1.trans h2.2.2.2.1, h1.2.2.2.2.trans h2.2.2.2.2⟩
    · rw [DataRepresentationType.eq_2] at *
      exact ⟨h1.1.trans h2.1, h1.2.1.trans h2.2.1, PartialEquiv.trans _ _ _ h1.2.2 h2.2.2⟩⟩

/-- On the types with floating-point members `==` is symmetric and transitive too (but not reflexive, see
`C51_vector_round_trip`). -/
theorem C51_equivalence :
    (∀ a b : Vector3Float, REq.eq a b = REq.eq b a) ∧
    (∀ a b c : Vector3Float, REq.eq a b = true → REq.eq b c = true → REq.eq a c = true) ∧
    (∀ a b : GridAxisType, REq.eq a b = REq.eq b a) ∧
    (∀ a b c : GridAxisType, REq.eq a b = true → REq.eq b c = true → REq.eq a c = true) ∧
    (∀ a b : DataRepresentationType, REq.eq a b = REq.eq b a) ∧
    (∀ a b c : DataRepresentationType, REq.eq a b = true → REq.eq b c = true → REq.eq a c = true) :=
  ⟨PartialEquiv.symm, PartialEquiv.trans, PartialEquiv.symm, PartialEquiv.trans, PartialEquiv.symm, PartialEquiv.trans⟩

/-- When the data of two grid axes are `==`: same kind of axis, same integers and lists, same numbers. -/
theorem C51_grid_axis (a b : GridAxisType) : REq.eq a b = true ↔
    (∃ n i, a = .FixedSpacing n i ∧ b = .FixedSpacing n i) ∨
    (∃ n i s s' o o' xs p, a = .VariableSpacing n i s o xs p ∧ b = .VariableSpacing n i s' o' xs p ∧
      F64.SameNumber s s' ∧ F64.SameNumber o o') := by
  rcases a with ⟨a1, a2⟩ | ⟨a1, a2, a3, a4, a5, a6⟩ <;> rcases b with ⟨b1, b2⟩ | ⟨b1, b2, b3, b4, b5, b6⟩
  · rw [GridAxisType.eq_fixed]
    constructor
    · rintro ⟨rfl, rfl⟩; exact .inl ⟨_, _, rfl, rfl⟩
    · rintro (⟨n, i, e1, e2⟩ | ⟨_, _, _, _, _, _, _, _, e, _⟩)
      · cases e1; cases e2; exact ⟨rfl, rfl⟩
      · cases e
  · constructor
    · intro h; cases h
    · rintro (⟨_, _, _, e⟩ | ⟨_, _, _, _, _, _, _, _, e, _⟩) <;> cases e
  · constructor
    · intro h; cases h
    · rintro (⟨_, _, e, _⟩ | ⟨_, _, _, _, _, _, _, _, _, e, _⟩) <;> cases e
  · rw [GridAxisType.eq_variable]
    constructor
    · rintro ⟨rfl, rfl, h1, h2, rfl, rfl⟩; exact .inr ⟨_, _, _, _, _, _, _, _, rfl, rfl, h1, h2⟩
    · rintro (⟨_, _, e, _⟩ | ⟨_, _, _, _, _, _, _, _, e1, e2, h1, h2⟩)
      · cases e
      · cases e1; cases e2; exact ⟨rfl, rfl, h1, h2, rfl, rfl⟩

/-- An irregular axis sent and received as the last thing in a message has `==` data exactly if scale and offset are
numbers. -/
theorem C51_grid_axis_round_trip (x : GridAxisDescriptor) (n i : UInt16) (s o : F64) (xs : List UInt16) (p : Bytes)
    (ht : x.axis_type = .IrregularAxis) (hd : x.data = .VariableSpacing n i s o xs p)
    (hn : n.toNat = xs.length) (prof : Profile) (buf : Bytes) :
    ∃ w x', x.serialize prof buf = .ok ((), buf ++ w) ∧ GridAxisDescriptor.deserialize prof w = .ok (x', []) ∧
      (REq.eq x'.data x.data = true ↔ ¬ s.NotANumber ∧ ¬ o.NotANumber) := by
  obtain ⟨w, h1, _, _, _, h2⟩ := C35_irregular_axis x n i s o xs p ht hd hn prof buf []
  have h3 := h2.mpr rfl
  rw [List.append_nil] at h3
  refine ⟨w, x, h1, h3, ?_⟩
  rw [hd, GridAxisType.eq_variable, F64.same_self, F64.same_self]
  exact ⟨fun h => ⟨h.2.2.1, h.2.2.2.1⟩, fun h => ⟨rfl, rfl, h.1, h.2, rfl, rfl⟩⟩

example : REq.eq (GridAxisType.VariableSpacing 1 0 ⟨0x7FF8000000000000⟩ ⟨0⟩ [5] []) (.VariableSpacing 1 0 ⟨0x7FF8000000000000⟩ ⟨0⟩ [5] []) = false ∧
    REq.eq (GridAxisType.VariableSpacing 1 0 ⟨0x3FF0000000000000⟩ ⟨0⟩ [5] []) (.VariableSpacing 1 0 ⟨0x3FF0000000000000⟩ ⟨0x8000000000000000⟩ [5] []) = true :=
  ⟨by decide, by decide⟩

/-- When grid values are `==`: same representation, same integers and lists, same numbers one by one. -/
theorem C51_grid_data (a b : DataRepresentationType) : REq.eq a b = true ↔
    (∃ n d p, a = .Type0 n d p ∧ b = .Type0 n d p) ∨
    (∃ s s' o o' n d p, a = .Type1 s o n d p ∧ b = .Type1 s' o' n d p ∧ F32.SameNumber s s' ∧ F32.SameNumber o o') ∨
    (∃ n p d d', a = .Type2 n p d ∧ b = .Type2 n p d' ∧ d.length = d'.length ∧
      ∀ i (h : i < d.length) (h' : i < d'.length), F32.SameNumber d[i] d'[i]) := by
  rcases a with ⟨a1, a2, a3⟩ | ⟨a1, a2, a3, a4, a5⟩ | ⟨a1, a2, a3⟩ <;>
    rcases b with ⟨b1, b2, b3⟩ | ⟨b1, b2, b3, b4, b5⟩ | ⟨b1, b2, b3⟩
  case Type0.Type0 =>
    rw [DataRepresentationType.eq_0]
    constructor
    · rintro ⟨rfl, rfl, rfl⟩; exact .inl ⟨_, _, _, rfl, rfl⟩
    · rintro (⟨_, _, _, e1, e2⟩ | ⟨_, _, _, _, _, _, _, e, _⟩ | ⟨_, _, _, _, e, _⟩)
      · cases e1; cases e2; exact ⟨rfl, rfl, rfl⟩
      · cases e
      · cases e
  case Type1.Type1 =>
    rw [DataRepresentationType.eq_1]
    constructor
    · rintro ⟨h1, h2, rfl, rfl, rfl⟩; exact .inr (.inl ⟨_, _, _, _, _, _, _, rfl, rfl, h1, h2⟩)
    · rintro (⟨_, _, _, e, _⟩ | ⟨_, _, _, _, _, _, _, e1, e2, h1, h2⟩ | ⟨_, _, _, _, e, _⟩)
      · cases e
      · cases e1; cases e2; exact ⟨h1, h2, rfl, rfl, rfl⟩
      · cases e
  case Type2.Type2 =>
    rw [DataRepresentationType.eq_2, REq.list_iff]
    simp only [F32.eq_iff]
    constructor
    · rintro ⟨rfl, rfl, h1, h2⟩; exact .inr (.inr ⟨_, _, _, _, rfl, rfl, h1, h2⟩)
    · rintro (⟨_, _, _, e, _⟩ | ⟨_, _, _, _, _, _, _, e, _⟩ | ⟨_, _, _, _, e1, e2, h1, h2⟩)
      · cases e
      · cases e
      · cases e1; cases e2; exact ⟨rfl, rfl, h1, h2⟩
  all_goals
    constructor
    · intro h; cases h
    · rintro (⟨_, _, _, e1, e2⟩ | ⟨_, _, _, _, _, _, _, e1, e2, _⟩ | ⟨_, _, _, _, e1, e2, _⟩) <;>
        first | (cases e1; done) | (cases e2; done)

/-! ### Status indicators as `u8`, reserved identifiers -/

/-- Every indicator converted to `u8` and back is itself; every octet converted to an indicator and back keeps its
two low bits, except that the unassigned pattern 3 becomes 0. -/
theorem C20_indicator_u8 :
    (∀ x, PduStatusRecord.dtiOfU8 (u8OfDti x) = x) ∧ (∀ x, PduStatusRecord.raiOfU8 (u8OfRai x) = x) ∧
    (∀ x, PduStatusRecord.iaiOfU8 (u8OfIai x) = x) ∧
    (∀ v : UInt8, u8OfDti (PduStatusRecord.dtiOfU8 v) = if v.toNat % 4 = 3 then 0 else UInt8.ofNat (v.toNat % 4)) ∧
    (∀ v : UInt8, u8OfRai (PduStatusRecord.raiOfU8 v) = if v.toNat % 4 = 3 then 0 else UInt8.ofNat (v.toNat % 4)) ∧
    (∀ v : UInt8, u8OfIai (PduStatusRecord.iaiOfU8 v) = if v.toNat % 4 = 3 then 0 else UInt8.ofNat (v.toNat % 4)) := by
  have all : ∀ n < 256, (u8OfDti (PduStatusRecord.dtiOfU8 (UInt8.ofNat n)) = if n % 4 = 3 then 0 else UInt8.ofNat (n % 4)) ∧
      (u8OfRai (PduStatusRecord.raiOfU8 (UInt8.ofNat n)) = if n % 4 = 3 then 0 else UInt8.ofNat (n % 4)) ∧
      (u8OfIai (PduStatusRecord.iaiOfU8 (UInt8.ofNat n)) = if n % 4 = 3 then 0 else UInt8.ofNat (n % 4)) := by
    decide +kernel
  have back : ∀ v : UInt8, _ := fun v => all v.toNat v.toNat_lt
  simp only [UInt8.ofNat_toNat] at back
  refine ⟨?_, ?_, ?_, fun v => (back v).1, fun v => (back v).2.1, fun v => (back v).2.2⟩
  · rintro ⟨c, hc⟩
    have : c = 0 ∨ c = 1 ∨ c = 2 := by simpa [DetonationTypeIndicator.spec, EnumSpec.codes] using hc
    rcases this with rfl | rfl | rfl <;> (clear all back; decide +revert +kernel)
  · rintro ⟨c, hc⟩
    have : c = 0 ∨ c = 1 ∨ c = 2 := by simpa [RadioAttachedIndicator.spec, EnumSpec.codes] using hc
    rcases this with rfl | rfl | rfl <;> (clear all back; decide +revert +kernel)
  · rintro ⟨c, hc⟩
    have : c = 0 ∨ c = 1 ∨ c = 2 := by simpa [IntercomAttachedIndicator.spec, EnumSpec.codes] using hc
    rcases this with rfl | rfl | rfl <;> (clear all back; decide +revert +kernel)

/-- The reserved identifiers: "all", "none" and "please assign" are told apart in every identifier field, the
wildcards for emitters and beams fit their one-octet fields, and the engine settings are the percentages in rising
order (`F32.value` counts units of 2^-149). -/
theorem C38_reserved :
    (∀ all ∈ [ALL_ENTITIES, ALL_APPLIC, ALL_SITES, ALL_AGGS, ALL_OBJECTS, ALL_EMITTERS, ALL_BEAMS], ∀ none ∈ [NO_ENTITY,
      NO_APPLIC, NO_SITE, NO_AGG, NO_OBJECT, NO_EMITTER, NO_BEAM], all ≠ none ∧ RQST_ASSIGN_ID ≠ all ∧ RQST_ASSIGN_ID ≠ none) ∧
    (∀ n ∈ [NO_ENTITY, NO_APPLIC, NO_SITE, NO_AGG, NO_BEAM, NO_CATEGORY, NO_EMITTER, NO_FIRE_MISSION, NO_KIND, NO_OBJECT,
      NO_REF_NUMBER, NO_SPECIFIC, NO_SUBCAT, NO_VALUE], n = 0) ∧
    (∀ n ∈ [ALL_ENTITIES, ALL_APPLIC, ALL_SITES, ALL_AGGS, ALL_OBJECTS, EP_NO_SEQUENCE], n.toNat = 65535) ∧
    RQST_ASSIGN_ID.toNat = 65534 ∧ (∀ n ∈ [ALL_EMITTERS, ALL_BEAMS], n.toNat = 255) ∧
    BITS_PER_BYTE.toNat * 8192 = MAX_PDU_SIZE_BITS ∧ MAX_ARTICULATION_PARAMS.toNat = 64 ∧
    POWER_ENGINE_OFF.value = -100 * 2 ^ 149 ∧ POWER_IDLE.value = 0 ∧ POWER_MILITARY.value = 50 * 2 ^ 149 ∧
    POWER_MIN_AFTERBURNER.value = 51 * 2 ^ 149 ∧ POWER_MAX_AFTERBURNER.value = 100 * 2 ^ 149 ∧ NO_PATTERN.value = 0 := by
  refine ⟨by decide, by decide, by decide, by decide, by decide, by decide, by decide, ?_⟩
  decide +kernel

end Dis
