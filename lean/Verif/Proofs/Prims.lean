import Verif.Proofs.Combinators
import Verif.Spec.Wire
/-
Laws of the primitive codecs and of enumerations.
-/
namespace Dis

theorem beBytes_length (n v : Nat) : (beBytes n v).length = n := by
  induction n with
  | zero => rfl
  | succ n ih => simp [beBytes, ih]

theorem uint8_ofNat_mod (v : Nat) : UInt8.ofNat (v % 256) = UInt8.ofNat v := by
  apply UInt8.toNat.inj
  simp

theorem octets_eq (n v : Nat) : octets n v = beBytes n v := by
  induction n with
  | zero => rfl
  | succ n ih =>
    unfold octets
    rw [List.range_succ_eq_map]
    simp only [List.map_cons, List.map_map, beBytes]
    congr 1
    · simp [uint8_ofNat_mod]
    · rw [← ih]
      unfold octets
      apply List.map_congr_left
      intro i _
      simp only [Function.comp]
      rw [show n + 1 - 1 - i.succ = n - 1 - i by omega]

theorem octets_length (n v : Nat) : (octets n v).length = n := by simp [octets]

theorem foldl_be (w : Bytes) (a : Nat) :
    w.foldl (fun acc b => acc * 256 + b.toNat) a = a * 256 ^ w.length + beVal w := by
  unfold beVal
  induction w generalizing a with
  | nil => simp
  | cons x w ih =>
    simp only [List.foldl_cons, List.length_cons]
    rw [ih, ih (0 * 256 + x.toNat)]
    rw [Nat.pow_succ, Nat.add_mul, Nat.add_mul, Nat.mul_assoc, Nat.mul_comm 256 (256 ^ w.length)]
    omega

theorem beVal_cons (x : UInt8) (w : Bytes) : beVal (x :: w) = x.toNat * 256 ^ w.length + beVal w := by
  have := foldl_be w x.toNat
  simpa [beVal] using this

theorem beVal_beBytes (n v : Nat) : beVal (beBytes n v) = v % 256 ^ n := by
  induction n with
  | zero => simp [beBytes, beVal, Nat.mod_one]
  | succ n ih =>
    rw [beBytes, beVal_cons, ih, beBytes_length]
    simp only [UInt8.toNat_ofNat', Nat.reducePow]
    rw [Nat.pow_succ, Nat.mod_mul, Nat.add_comm, Nat.mul_comm]

theorem beVal_lt (w : Bytes) : beVal w < 256 ^ w.length := by
  induction w with
  | nil => simp [beVal]
  | cons x w ih =>
    rw [beVal_cons, List.length_cons, Nat.pow_succ]
    have : x.toNat < 256 := x.toNat_lt
    have h2 : x.toNat * 256 ^ w.length + 256 ^ w.length ≤ 256 * 256 ^ w.length := by
      rw [← Nat.succ_mul]
      exact Nat.mul_le_mul_right _ (by omega)
    rw [Nat.mul_comm (256 ^ w.length) 256]
    omega

theorem Reads.bytes (w : Bytes) {n : Nat} (h : w.length = n) : Reads (getBytes n) w w := by
  intro prof rest
  subst h
  simp [getBytes]

/-- Reading back big-endian octets. -/
theorem Reads.be {α : Type} (n : Nat) (v : Nat) (f : Nat → α) (hv : v < 256 ^ n) :
    Reads (do return f (beVal (← getBytes n))) (octets n v) (f v) := by
  rw [octets_eq]
  have := Reads.map (f := fun w => f (beVal w)) (Reads.bytes (beBytes n v) (beBytes_length n v))
  rwa [beVal_beBytes, Nat.mod_eq_of_lt hv] at this

theorem writes_u8 (v : UInt8) : Writes (putU8 v) (wire v) := by
  show Writes (putBytes _) (octets _ _); rw [octets_eq]; exact Writes.bytes _
theorem writes_u16 (v : UInt16) : Writes (putU16 v) (wire v) := by
  show Writes (putBytes _) (octets _ _); rw [octets_eq]; exact Writes.bytes _
theorem writes_u32 (v : UInt32) : Writes (putU32 v) (wire v) := by
  show Writes (putBytes _) (octets _ _); rw [octets_eq]; exact Writes.bytes _
theorem writes_u64 (v : UInt64) : Writes (putU64 v) (wire v) := by
  show Writes (putBytes _) (octets _ _); rw [octets_eq]; exact Writes.bytes _
theorem writes_f32 (v : F32) : Writes (putF32 v) (wire v) := writes_u32 v.bits
theorem writes_f64 (v : F64) : Writes (putF64 v) (wire v) := writes_u64 v.bits

theorem wire_i8 (v : Int8) : wire v = wire v.toUInt8 := by
  show octets _ _ = octets _ _
  congr 1
  show (v.toBitVec.toInt % 256).toNat = v.toBitVec.toNat
  rw [BitVec.toInt_eq_toNat_bmod]
  have h := Int.bmod_emod (x := (v.toBitVec.toNat : Int)) (m := 256)
  have h2 := v.toBitVec.isLt
  simp only [Nat.reducePow, Int.cast_ofNat_Int] at h h2 ⊢
  omega
theorem wire_i16 (v : Int16) : wire v = wire v.toUInt16 := by
  show octets _ _ = octets _ _
  congr 1
  show (v.toBitVec.toInt % 65536).toNat = v.toBitVec.toNat
  rw [BitVec.toInt_eq_toNat_bmod]
  have h := Int.bmod_emod (x := (v.toBitVec.toNat : Int)) (m := 65536)
  have h2 := v.toBitVec.isLt
  simp only [Nat.reducePow, Int.cast_ofNat_Int] at h h2 ⊢
  omega
theorem wire_i32 (v : Int32) : wire v = wire v.toUInt32 := by
  show octets _ _ = octets _ _
  congr 1
  show (v.toBitVec.toInt % 4294967296).toNat = v.toBitVec.toNat
  rw [BitVec.toInt_eq_toNat_bmod]
  have h := Int.bmod_emod (x := (v.toBitVec.toNat : Int)) (m := 4294967296)
  have h2 := v.toBitVec.isLt
  simp only [Nat.reducePow, Int.cast_ofNat_Int] at h h2 ⊢
  omega
theorem wire_i64 (v : Int64) : wire v = wire v.toUInt64 := by
  show octets _ _ = octets _ _
  congr 1
  show (v.toBitVec.toInt % 18446744073709551616).toNat = v.toBitVec.toNat
  rw [BitVec.toInt_eq_toNat_bmod]
  have h := Int.bmod_emod (x := (v.toBitVec.toNat : Int)) (m := 18446744073709551616)
  have h2 := v.toBitVec.isLt
  simp only [Nat.reducePow, Int.cast_ofNat_Int] at h h2 ⊢
  omega

theorem writes_i8 (v : Int8) : Writes (putI8 v) (wire v) := wire_i8 v ▸ writes_u8 _
theorem writes_i16 (v : Int16) : Writes (putI16 v) (wire v) := wire_i16 v ▸ writes_u16 _
theorem writes_i32 (v : Int32) : Writes (putI32 v) (wire v) := wire_i32 v ▸ writes_u32 _
theorem writes_i64 (v : Int64) : Writes (putI64 v) (wire v) := wire_i64 v ▸ writes_u64 _

theorem reads_u8 (v : UInt8) : Reads getU8 (wire v) v :=
  (Reads.be 1 v.toNat UInt8.ofNat v.toNat_lt).congr rfl (by simp)
theorem reads_u16 (v : UInt16) : Reads getU16 (wire v) v :=
  (Reads.be 2 v.toNat UInt16.ofNat v.toNat_lt).congr rfl (by simp)
theorem reads_u32 (v : UInt32) : Reads getU32 (wire v) v :=
  (Reads.be 4 v.toNat UInt32.ofNat v.toNat_lt).congr rfl (by simp)
theorem reads_u64 (v : UInt64) : Reads getU64 (wire v) v :=
  (Reads.be 8 v.toNat UInt64.ofNat v.toNat_lt).congr rfl (by simp)
theorem reads_f32 (v : F32) : Reads getF32 (wire v) v :=
  Reads.map (f := F32.mk) (reads_u32 v.bits)
theorem reads_f64 (v : F64) : Reads getF64 (wire v) v :=
  Reads.map (f := F64.mk) (reads_u64 v.bits)
theorem reads_i8 (v : Int8) : Reads getI8 (wire v) v :=
  (Reads.map (f := UInt8.toInt8) (reads_u8 v.toUInt8)).congr (wire_i8 v).symm (by simp)
theorem reads_i16 (v : Int16) : Reads getI16 (wire v) v :=
  (Reads.map (f := UInt16.toInt16) (reads_u16 v.toUInt16)).congr (wire_i16 v).symm (by simp)
theorem reads_i32 (v : Int32) : Reads getI32 (wire v) v :=
  (Reads.map (f := UInt32.toInt32) (reads_u32 v.toUInt32)).congr (wire_i32 v).symm (by simp)
theorem reads_i64 (v : Int64) : Reads getI64 (wire v) v :=
  (Reads.map (f := UInt64.toInt64) (reads_u64 v.toUInt64)).congr (wire_i64 v).symm (by simp)

theorem fixed_u8 : Fixed getU8 1 := Fixed.map (Fixed.bytes 1)
theorem fixed_u16 : Fixed getU16 2 := Fixed.map (Fixed.bytes 2)
theorem fixed_u32 : Fixed getU32 4 := Fixed.map (Fixed.bytes 4)
theorem fixed_u64 : Fixed getU64 8 := Fixed.map (Fixed.bytes 8)
theorem fixed_i8 : Fixed getI8 1 := Fixed.map fixed_u8
theorem fixed_i16 : Fixed getI16 2 := Fixed.map fixed_u16
theorem fixed_i32 : Fixed getI32 4 := Fixed.map fixed_u32
theorem fixed_i64 : Fixed getI64 8 := Fixed.map fixed_u64
theorem fixed_f32 : Fixed getF32 4 := Fixed.map fixed_u32
theorem fixed_f64 : Fixed getF64 8 := Fixed.map fixed_u64

/-! ### Enumerations -/

/-- Every code of the enumeration fits the integer type it is read as. -/
class EnumFits (s : EnumSpec) : Prop where
  fits : ∀ c ∈ s.codes, c < 256 ^ s.repr.octets

theorem EnumFits.of_all {s : EnumSpec} (h : s.codes.all (fun c => decide (c < 256 ^ s.repr.octets)) = true) :
    EnumFits s := ⟨fun c hc => by simpa using List.all_eq_true.mp h c hc⟩

theorem EnumSpec.ofCode_code {s : EnumSpec} (x : EnumVal s) : s.ofCode x.code = x := by
  simp [EnumSpec.ofCode, EnumSpec.fromPrimitive, x.mem]

theorem EnumSpec.ofCode_of_mem {s : EnumSpec} {n : Nat} (h : n ∈ s.codes) : (s.ofCode n).code = n := by
  simp [EnumSpec.ofCode, EnumSpec.fromPrimitive, h]

theorem EnumSpec.ofCode_of_not_mem {s : EnumSpec} {n : Nat} (h : n ∉ s.codes) :
    s.ofCode n = dflt := by
  simp [EnumSpec.ofCode, EnumSpec.fromPrimitive, h]

theorem getBytes_map_mod {α : Type} (n : Nat) (f : Nat → α) (g : Nat → Nat)
    (hg : ∀ v < 256 ^ n, g v = v) :
    (do return f (g (beVal (← getBytes n))) : Get α) = (do return f (beVal (← getBytes n))) := by
  refine M.ext (fun prof b => ?_) fun prof b => ?_
  · simp only [M.bind_run, getBytes]
    by_cases hb : b.length < n
    · simp [hb]
    · simp only [hb, if_false, M.pure_run]
      rw [hg]
      have := beVal_lt (b.take n)
      rwa [List.length_take, Nat.min_eq_left (by omega)] at this
  · simp only [M.bind_log, M.pure_log]

theorem M.map_map {α β γ : Type} (m : M α) (h : α → β) (f : β → γ) :
    ((m >>= fun a => pure (h a)) >>= fun b => pure (f b)) = (m >>= fun a => (pure (f (h a)) : M γ)) := by
  refine M.ext (fun prof b => ?_) fun prof b => ?_
  · simp only [M.bind_run]
    cases m prof b <;> rfl
  · simp only [M.bind_log, M.bind_run]
    cases m.run prof b with
    | error e => exact List.append_nil _
    | ok r =>
      show (m.log prof b ++ []) ++ [] = m.log prof b ++ []
      rw [List.append_nil]

theorem EnumSpec.deserialize_eq (s : EnumSpec) :
    s.deserialize = (do return s.ofCode (beVal (← getBytes s.repr.octets))) := by
  unfold EnumSpec.deserialize
  cases hr : s.repr
  · refine (M.map_map (getBytes 1) (fun w => UInt8.ofNat (beVal w)) (fun v => s.ofCode v.toNat)).trans ?_
    exact getBytes_map_mod 1 s.ofCode (fun v => (UInt8.ofNat v).toNat)
      (fun v hv => by simpa using Nat.mod_eq_of_lt hv)
  · refine (M.map_map (getBytes 2) (fun w => UInt16.ofNat (beVal w)) (fun v => s.ofCode v.toNat)).trans ?_
    exact getBytes_map_mod 2 s.ofCode (fun v => (UInt16.ofNat v).toNat)
      (fun v hv => by simpa using Nat.mod_eq_of_lt hv)
  · refine (M.map_map (getBytes 4) (fun w => UInt32.ofNat (beVal w)) (fun v => s.ofCode v.toNat)).trans ?_
    exact getBytes_map_mod 4 s.ofCode (fun v => (UInt32.ofNat v).toNat)
      (fun v hv => by simpa using Nat.mod_eq_of_lt hv)

theorem EnumSpec.fixed (s : EnumSpec) : Fixed s.deserialize s.repr.octets := by
  rw [EnumSpec.deserialize_eq]; exact Fixed.map (Fixed.bytes _)

theorem EnumSpec.reads {s : EnumSpec} [EnumFits s] (x : EnumVal s) :
    Reads s.deserialize (wire x) x := by
  rw [EnumSpec.deserialize_eq]
  exact (Reads.be s.repr.octets x.code s.ofCode (EnumFits.fits _ x.mem)).congr rfl
    (EnumSpec.ofCode_code x)

theorem writes_enum8 {s : EnumSpec} [EnumFits s] (x : EnumVal s) (h : s.repr = .u8) :
    Writes (putU8 x.asU8) (wire x) := by
  have hx := EnumFits.fits _ x.mem
  refine (writes_u8 x.asU8).congr ?_
  show octets _ _ = octets _ _
  rw [h] at hx ⊢
  simp only [IntTy.octets, EnumVal.asU8, UInt8.toNat_ofNat'] at hx ⊢
  rw [Nat.mod_eq_of_lt (by simpa using hx)]

theorem writes_enum16 {s : EnumSpec} [EnumFits s] (x : EnumVal s) (h : s.repr = .u16) :
    Writes (putU16 x.asU16) (wire x) := by
  have hx := EnumFits.fits _ x.mem
  refine (writes_u16 x.asU16).congr ?_
  show octets _ _ = octets _ _
  rw [h] at hx ⊢
  simp only [IntTy.octets, EnumVal.asU16, UInt16.toNat_ofNat'] at hx ⊢
  rw [Nat.mod_eq_of_lt (by simpa using hx)]

theorem writes_enum32 {s : EnumSpec} [EnumFits s] (x : EnumVal s) (h : s.repr = .u32) :
    Writes (putU32 x.asU32) (wire x) := by
  have hx := EnumFits.fits _ x.mem
  refine (writes_u32 x.asU32).congr ?_
  show octets _ _ = octets _ _
  rw [h] at hx ⊢
  simp only [IntTy.octets, EnumVal.asU32, UInt32.toNat_ofNat'] at hx ⊢
  rw [Nat.mod_eq_of_lt (by simpa using hx)]

end Dis
