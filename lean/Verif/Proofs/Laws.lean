import Verif.Proofs.Prims
/-
Law classes relating the field traits (Verif.Model.Traits) to the wire specification
(Verif.Spec.Wire), and their instances for primitives, enumerations, lists and optionals.
-/
namespace Dis

/-- The field serializer transmits what the specification says, and its length claim is off by
exactly `surplus`. -/
class LawfulEnc (α : Type) [FieldSerialize α] [FieldLen α] [Wire α] [Enc α] : Prop where
  writes : ∀ x : α, encodable x → Writes (serialize_field x) (wire (sent x))
  ok : ∀ x : α, WritesIfOk (serialize_field x) (wire (sent x))
  len : ∀ x : α, ((wire (sent x)).length : Int) = field_len x + surplus x
  appends : ∀ x : α, Appends (serialize_field x)

/-- Types whose encoder never panics, transmits everything and claims the exact length. -/
class ExactEnc (α : Type) [Enc α] : Prop where
  all : ∀ x : α, encodable x
  sent_id : ∀ x : α, sent x = x
  exact : ∀ x : α, surplus x = 0

class LawfulDec (α : Type) [FieldDeserialize α] [Wire α] [Dec α] : Prop where
  reads : ∀ x : α, decodable x → Reads (deserialize_field : Get α) (wire (kept x)) (kept x)

/-- Types whose decoder recovers every value completely. -/
class ExactDec (α : Type) [Dec α] : Prop where
  all : ∀ x : α, decodable x
  kept_id : ∀ x : α, kept x = x

class FixedDec (α : Type) [FieldDeserialize α] (n : outParam Nat) : Prop where
  fixed : Fixed (deserialize_field : Get α) n

class LocalDec (α : Type) [FieldDeserialize α] : Prop where
  loc : Local (deserialize_field : Get α)

class ConsumesDec (α : Type) [FieldDeserialize α] : Prop where
  consumes : Consumes (deserialize_field : Get α)

class UnderflowDec (α : Type) [FieldDeserialize α] : Prop where
  under : OnlyUnderflow (deserialize_field : Get α)

section derived
variable {α : Type}

theorem writes_exact [FieldSerialize α] [FieldLen α] [Wire α] [Enc α] [LawfulEnc α] [ExactEnc α]
    (x : α) : Writes (serialize_field x) (wire x) := by
  have := LawfulEnc.writes x (ExactEnc.all x)
  rwa [ExactEnc.sent_id] at this

theorem len_exact [FieldSerialize α] [FieldLen α] [Wire α] [Enc α] [LawfulEnc α] [ExactEnc α]
    (x : α) : field_len x = (wire x).length := by
  have := LawfulEnc.len x
  rw [ExactEnc.sent_id, ExactEnc.exact] at this
  omega

theorem reads_exact [FieldDeserialize α] [Wire α] [Dec α] [LawfulDec α] [ExactDec α]
    (x : α) : Reads (deserialize_field : Get α) (wire x) x := by
  have := LawfulDec.reads x (ExactDec.all x)
  rwa [ExactDec.kept_id] at this

instance FixedDec.toLocal [FieldDeserialize α] {n : Nat} [FixedDec α n] : LocalDec α :=
  ⟨FixedDec.fixed.local⟩
instance FixedDec.toUnderflow [FieldDeserialize α] {n : Nat} [FixedDec α n] : UnderflowDec α :=
  ⟨FixedDec.fixed.onlyUnderflow⟩
instance LocalDec.toConsumes [FieldDeserialize α] [LocalDec α] : ConsumesDec α :=
  ⟨LocalDec.loc.consumes⟩

end derived

/-- A reader that reads `w` and has fixed size `n` shows `w` has `n` octets. -/
theorem Reads.length_eq {α : Type} {g : Get α} {w : Bytes} {a : α} {n : Nat}
    (hr : Reads g w a) (hf : Fixed g n) : w.length = n := by
  have h1 := hr.run ⟨true⟩
  by_cases h : w.length < n
  · rw [hf.run_short _ h] at h1; cases h1
  · obtain ⟨a', h2⟩ := hf.run_long ⟨true⟩ (Nat.not_lt.mp h)
    rw [h1] at h2
    simp only [Except.ok.injEq, Prod.mk.injEq] at h2
    have : w.length ≤ n := by
      have h3 := congrArg List.length h2.2
      simp at h3
      omega
    omega

theorem Reads.counted {α : Type} [Wire α] {get : Get α} {xs : List α} {n : Nat} (h : n = xs.length)
    (hx : ∀ x ∈ xs, Reads get (wire x) x) : Reads (getN get n) (wire xs) xs := by
  subst h; exact Reads.n xs hx

/-! ### Primitives -/

local macro "prim_enc" w:ident : term => `(⟨fun x _ => $w x, fun x => ($w x).ifOk, fun x => by
  simp [wire, sent, field_len, surplus, octets_length], fun x => (Writes.appends ($w x))⟩)

instance : LawfulEnc UInt8 := prim_enc writes_u8
instance : LawfulEnc UInt16 := prim_enc writes_u16
instance : LawfulEnc UInt32 := prim_enc writes_u32
instance : LawfulEnc UInt64 := prim_enc writes_u64
instance : LawfulEnc Int8 := prim_enc writes_i8
instance : LawfulEnc Int16 := prim_enc writes_i16
instance : LawfulEnc Int32 := prim_enc writes_i32
instance : LawfulEnc Int64 := prim_enc writes_i64
instance : LawfulEnc F32 := prim_enc writes_f32
instance : LawfulEnc F64 := prim_enc writes_f64
instance : LawfulEnc String :=
  ⟨fun x _ => Writes.bytes (strBytes x), fun x => (Writes.bytes (strBytes x)).ifOk, fun x => by simp [wire, sent, field_len, surplus],
   fun x => (Writes.bytes (strBytes x)).appends⟩

local macro "triv_enc" : term => `(⟨fun _ => trivial, fun _ => rfl, fun _ => rfl⟩)
local macro "triv_dec" : term => `(⟨fun _ => trivial, fun _ => rfl⟩)

instance : ExactEnc UInt8 := triv_enc
instance : ExactEnc UInt16 := triv_enc
instance : ExactEnc UInt32 := triv_enc
instance : ExactEnc UInt64 := triv_enc
instance : ExactEnc Int8 := triv_enc
instance : ExactEnc Int16 := triv_enc
instance : ExactEnc Int32 := triv_enc
instance : ExactEnc Int64 := triv_enc
instance : ExactEnc F32 := triv_enc
instance : ExactEnc F64 := triv_enc
instance : ExactEnc String := triv_enc
instance {s : EnumSpec} : ExactEnc (EnumVal s) := triv_enc

instance : LawfulDec UInt8 := ⟨fun x _ => reads_u8 x⟩
instance : LawfulDec UInt16 := ⟨fun x _ => reads_u16 x⟩
instance : LawfulDec UInt32 := ⟨fun x _ => reads_u32 x⟩
instance : LawfulDec UInt64 := ⟨fun x _ => reads_u64 x⟩
instance : LawfulDec Int8 := ⟨fun x _ => reads_i8 x⟩
instance : LawfulDec Int16 := ⟨fun x _ => reads_i16 x⟩
instance : LawfulDec Int32 := ⟨fun x _ => reads_i32 x⟩
instance : LawfulDec Int64 := ⟨fun x _ => reads_i64 x⟩
instance : LawfulDec F32 := ⟨fun x _ => reads_f32 x⟩
instance : LawfulDec F64 := ⟨fun x _ => reads_f64 x⟩

instance : ExactDec UInt8 := triv_dec
instance : ExactDec UInt16 := triv_dec
instance : ExactDec UInt32 := triv_dec
instance : ExactDec UInt64 := triv_dec
instance : ExactDec Int8 := triv_dec
instance : ExactDec Int16 := triv_dec
instance : ExactDec Int32 := triv_dec
instance : ExactDec Int64 := triv_dec
instance : ExactDec F32 := triv_dec
instance : ExactDec F64 := triv_dec
instance {s : EnumSpec} : ExactDec (EnumVal s) := triv_dec

instance : FixedDec UInt8 1 := ⟨fixed_u8⟩
instance : FixedDec UInt16 2 := ⟨fixed_u16⟩
instance : FixedDec UInt32 4 := ⟨fixed_u32⟩
instance : FixedDec UInt64 8 := ⟨fixed_u64⟩
instance : FixedDec Int8 1 := ⟨fixed_i8⟩
instance : FixedDec Int16 2 := ⟨fixed_i16⟩
instance : FixedDec Int32 4 := ⟨fixed_i32⟩
instance : FixedDec Int64 8 := ⟨fixed_i64⟩
instance : FixedDec F32 4 := ⟨fixed_f32⟩
instance : FixedDec F64 8 := ⟨fixed_f64⟩

/-! ### Lists and optionals -/

section containers
variable {α : Type}

theorem wire_list_append [Wire α] (xs ys : List α) : wire (xs ++ ys) = wire xs ++ wire ys := by
  simp [wire]

theorem wire_cons [Wire α] (x : α) (xs : List α) : wire (x :: xs) = wire x ++ wire xs := by
  simp [wire]

instance [FieldSerialize α] [FieldLen α] [Wire α] [Enc α] [LawfulEnc α] : LawfulEnc (List α) where
  writes xs h := by
    have : wire (sent xs) = xs.flatMap (fun x => wire (sent x)) := by
      simp [wire, sent, List.flatMap_map]
    rw [this]
    exact Writes.each xs (fun x hx => LawfulEnc.writes x (h x hx))
  ok xs := by
    have : wire (sent xs) = xs.flatMap (fun x => wire (sent x)) := by
      simp [wire, sent, List.flatMap_map]
    rw [this]
    exact WritesIfOk.each xs (fun x _ => LawfulEnc.ok x)
  len xs := by
    induction xs with
    | nil => simp [wire, sent, field_len, surplus]
    | cons x xs ih =>
      have h1 := LawfulEnc.len x
      have h2 := ih
      have e1 : wire (sent (x :: xs)) = wire (sent x) ++ wire (sent xs) := wire_cons _ _
      have e2 : field_len (x :: xs) = field_len x + field_len xs := by simp [field_len]
      have e3 : surplus (x :: xs) = surplus x + surplus xs := by simp [surplus]
      rw [e1, e2, e3, List.length_append]
      omega
  appends xs := Appends.each (fun x => LawfulEnc.appends x) xs

instance [Enc α] [ExactEnc α] : ExactEnc (List α) where
  all xs x _ := ExactEnc.all x
  sent_id xs := by
    show xs.map sent = xs
    rw [List.map_congr_left (g := id) (fun x _ => ExactEnc.sent_id x), List.map_id]
  exact xs := by
    induction xs with
    | nil => rfl
    | cons x xs ih =>
      have e3 : surplus (x :: xs) = surplus x + surplus xs := by simp [surplus]
      rw [e3, ih, ExactEnc.exact]
      rfl

instance [FieldSerialize α] [FieldLen α] [Wire α] [Enc α] [LawfulEnc α] : LawfulEnc (Option α) where
  writes
    | none, _ => Writes.nil
    | some x, h => LawfulEnc.writes x (h x rfl)
  ok
    | none => Writes.nil.ifOk
    | some x => LawfulEnc.ok x
  len
    | none => rfl
    | some x => LawfulEnc.len x
  appends
    | none => Writes.nil.appends
    | some x => LawfulEnc.appends x

instance [Enc α] [ExactEnc α] : ExactEnc (Option α) where
  all _ x _ := ExactEnc.all x
  sent_id
    | none => rfl
    | some x => congrArg some (ExactEnc.sent_id x)
  exact
    | none => rfl
    | some x => ExactEnc.exact x

instance [FieldDeserialize α] [Wire α] : LawfulDec (List α) := ⟨fun _ _ => Reads.ret []⟩
instance [FieldDeserialize α] [Wire α] : LawfulDec (Option α) := ⟨fun _ _ => Reads.ret none⟩
instance [FieldDeserialize α] : FixedDec (List α) 0 := ⟨Fixed.ret []⟩
instance [FieldDeserialize α] : FixedDec (Option α) 0 := ⟨Fixed.ret none⟩
instance : LawfulDec String := ⟨fun _ _ => Reads.ret ""⟩
instance : FixedDec String 0 := ⟨Fixed.ret ""⟩

end containers

end Dis
