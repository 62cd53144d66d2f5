import Verif.Core.Basic
/-
IEEE 754 binary32 arithmetic on bit patterns, as Rust's `f32` performs it: every operation gives the
representable number nearest to the exact result (ties to the one with the even significand).

This is not code of /repo but the meaning of the `f32` operations /repo uses
(src/common/pdu_header.rs:252-253, src/common/data_types/vector3_float.rs).  Simplification: a NaN result
is always the pattern `0x7FC00000` (Rust leaves payload and sign of NaN results unspecified).

Magnitudes are counted in units of 2^-149, the smallest positive `f32`; every finite `f32` is a whole
number of units.
-/
namespace Dis
namespace F32

/-- the pattern without its sign bit -/
def mag (x : F32) : Nat := x.bits.toNat % 2147483648
/-- the sign bit -/
def neg? (x : F32) : Bool := decide (2147483648 ≤ x.bits.toNat)
/-- the magnitude pattern of infinity, exponent 255 and fraction 0 -/
def infMag : Nat := 2139095040
/-- `f32::is_nan` (standard library): exponent 255, fraction not 0 -/
def isNaN (x : F32) : Bool := decide (infMag < x.mag)
/-- `f32::is_infinite` (standard library) -/
def isInf (x : F32) : Bool := decide (x.mag = infMag)
/-- +0 or -0 -/
def isZero (x : F32) : Bool := decide (x.mag = 0)
/-- `f32::is_finite` (standard library) -/
def isFinite (x : F32) : Bool := decide (x.mag < infMag)
/-- sign and magnitude pattern put together -/
def pack (neg : Bool) (m : Nat) : F32 := ⟨UInt32.ofNat (if neg then 2147483648 + m else m)⟩
/-- the NaN that stands for all NaN results (see above) -/
def nan : F32 := ⟨0x7FC00000⟩
/-- `f32::INFINITY`, `f32::NEG_INFINITY` (standard library) -/
def inf (neg : Bool) : F32 := pack neg infMag
/-- 0.0 -/
def zero : F32 := ⟨0⟩
/-- 1.0 -/
def one : F32 := ⟨0x3F800000⟩

/-- The units denoted by a magnitude pattern: exponent `e`, fraction `f`. -/
def unitsOf (m : Nat) : Nat :=
  let e := m / 8388608
  let f := m % 8388608
  if e = 0 then f else (8388608 + f) * 2 ^ (e - 1)
/-- the magnitude of a number, in units of 2^-149 -/
def units (x : F32) : Nat := unitsOf x.mag
/-- with its sign -/
def value (x : F32) : Int := if x.neg? then -(x.units : Int) else x.units

/-- The whole number nearest to `a / b`, ties to even. -/
def rne (a b : Nat) : Nat :=
  let q := a / b
  let r := a % b
  if 2 * r < b then q
  else if b < 2 * r then q + 1
  else if q % 2 = 0 then q else q + 1

/-- The magnitude pattern nearest to `num / den` units: with the exponent `s` for which the significand has
24 bits (or 0), the significand is rounded; a significand of 2^24 carries into the exponent; too large a
magnitude is infinity. -/
def roundMag (num den : Nat) : Nat :=
  let s := (num / den).log2 - 23
  min infMag (s * 8388608 + rne num (den * 2 ^ s))

/-- The greatest whole number whose square is at most `k`, if below `2 ^ n * 2 ^ (bits of acc)`. -/
def isqrtAux (k : Nat) : Nat → Nat → Nat
  | 0, acc => acc
  | n + 1, acc => isqrtAux k n (if (acc + 2 ^ n) * (acc + 2 ^ n) ≤ k then acc + 2 ^ n else acc)
/-- the whole square root, used by `roundSqrt` (meaning of `f32::sqrt`, standard library) -/
def isqrt (k : Nat) : Nat := isqrtAux k (k.log2 + 1) 0

/-- The magnitude pattern nearest to the square root of `k` (square) units. -/
def roundSqrt (k : Nat) : Nat :=
  let s := (isqrt k).log2 - 23
  let q := isqrt (k / 4 ^ s)
  let up := (2 * q + 1) * (2 * q + 1) * 4 ^ s
  min infMag (s * 8388608 + (if 4 * k < up then q else if up < 4 * k then q + 1 else if q % 2 = 0 then q else q + 1))

/-- `u64 as f32` -/
def ofNat (n : Nat) : F32 := pack false (roundMag (n * 2 ^ 149) 1)

/-- `f32 as u32`: truncates, saturates; NaN gives 0 -/
def toU32 (x : F32) : UInt32 :=
  if x.isNaN then 0
  else if x.neg? then 0
  else if x.isInf then 4294967295
  else UInt32.ofNat (min 4294967295 (x.units / 2 ^ 149))

/-- `-x` -/
def negate (x : F32) : F32 := pack (!x.neg?) x.mag

/-- The `f32` nearest to `v / den` units, `v ≠ 0`; a zero result keeps the sign. -/
def round (v : Int) (den : Nat) : F32 := pack (decide (v < 0)) (roundMag v.natAbs den)

/-- `x + y` -/
def add (x y : F32) : F32 :=
  if x.isNaN || y.isNaN then nan
  else if x.isInf then (if y.isInf && (x.neg? != y.neg?) then nan else x)
  else if y.isInf then y
  else
    let v := x.value + y.value
    if v = 0 then pack (x.neg? && y.neg?) 0 else round v 1

/-- `x - y` -/
def sub (x y : F32) : F32 :=
  if x.isNaN || y.isNaN then nan else add x y.negate

/-- `x * y` -/
def mul (x y : F32) : F32 :=
  if x.isNaN || y.isNaN then nan
  else if x.isInf || y.isInf then (if x.isZero || y.isZero then nan else inf (x.neg? != y.neg?))
  else pack (x.neg? != y.neg?) (roundMag (x.units * y.units) (2 ^ 149))

/-- `x.mul_add(y, z)`: `x * y + z` rounded once -/
def mulAdd (x y z : F32) : F32 :=
  if x.isNaN || y.isNaN || z.isNaN then nan
  else if x.isInf || y.isInf then
    (if x.isZero || y.isZero then nan
     else if z.isInf && (z.neg? != (x.neg? != y.neg?)) then nan else inf (x.neg? != y.neg?))
  else if z.isInf then z
  else
    let v := x.value * y.value + z.value * 2 ^ 149
    if v = 0 then pack ((x.neg? != y.neg?) && z.neg?) 0 else round v (2 ^ 149)

/-- `x / y` -/
def div (x y : F32) : F32 :=
  if x.isNaN || y.isNaN then nan
  else if x.isInf then (if y.isInf then nan else inf (x.neg? != y.neg?))
  else if y.isInf then pack (x.neg? != y.neg?) 0
  else if y.isZero then (if x.isZero then nan else inf (x.neg? != y.neg?))
  else pack (x.neg? != y.neg?) (roundMag (x.units * 2 ^ 149) y.units)

/-- `x.sqrt()` -/
def sqrt (x : F32) : F32 :=
  if x.isNaN then nan
  else if x.isZero then x
  else if x.neg? then nan
  else if x.isInf then x
  else pack false (roundSqrt (x.units * 2 ^ 149))

/-- `x == y` -/
def eq (x y : F32) : Bool :=
  if x.isNaN || y.isNaN then false
  else if x.isZero && y.isZero then true
  else decide (x.bits = y.bits)

end F32
end Dis
