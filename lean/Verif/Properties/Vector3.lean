import Verif.Proofs.Sqrt
/-
C41: arithmetic of three-component vectors.

`F32.value` is the exact value of a finite `f32` in units of 2^-149; `F32.units` is its absolute value.
-/
namespace Dis
open F32

/-! ### Specification -/

/-- All three components are numbers (neither NaN nor infinite). -/
def Vector3Float.Finite (v : Vector3Float) : Prop :=
  v.x.isFinite = true ∧ v.y.isFinite = true ∧ v.z.isFinite = true

/-- `r` is what IEEE 754 (round to nearest, ties to even) wants for the exact result `num / den` (in units):
it is not NaN; it has the sign of the exact result; it is infinite exactly if the exact result is at least
2^128 - 2^103 (half a step beyond the largest number; in units, (2^25 - 1) * 2^252) in absolute value; otherwise
no number is nearer to the exact result, and if another number is as near, then the significand of `r` is even. -/
structure Rounded (r : F32) (num : Int) (den : Nat) : Prop where
  number : r.isNaN = false
  sign : num ≠ 0 → r.neg? = decide (num < 0)
  overflow : r.isInf = true ↔ den * (33554431 * 2 ^ 252) ≤ num.natAbs
  nearest : r.isFinite = true → ∀ z : F32, z.isFinite = true →
    ((den : Int) * r.value - num).natAbs ≤ ((den : Int) * z.value - num).natAbs
  even : r.isFinite = true → ∀ z : F32, z.isFinite = true → z.value ≠ r.value →
    ((den : Int) * r.value - num).natAbs = ((den : Int) * z.value - num).natAbs → r.bits.toNat % 2 = 0

/-- `r` is what IEEE 754 wants for the square root of `k` (in square units): a number without sign nearer to the
root than any other, that is, the midpoint of `r` and any smaller number is below the root and the midpoint of `r`
and any greater number above it. (A root is never half way between two numbers.) -/
structure SqrtRounded (r : F32) (k : Int) : Prop where
  number : r.isFinite = true
  positive : r.neg? = false
  below : ∀ y : F32, y.isFinite = true → 0 ≤ y.value → y.value < r.value →
    (y.value + r.value) * (y.value + r.value) < 4 * k
  above : ∀ y : F32, y.isFinite = true → r.value < y.value →
    4 * k < (y.value + r.value) * (y.value + r.value)

/-- The sum of the squares of the components, exactly (in square units). -/
def Vector3Float.sumOfSquares (v : Vector3Float) : Nat :=
  v.x.units * v.x.units + v.y.units * v.y.units + v.z.units * v.z.units

/-! ### Rounding of the four operations -/

theorem isFinite_iff {x : F32} : x.isFinite = true ↔ x.mag < infMag := by unfold isFinite; simp

theorem Vector3Float.Finite.all {v : Vector3Float} (h : v.Finite) : allFinite v :=
  ⟨isFinite_iff.mp h.1, isFinite_iff.mp h.2.1, isFinite_iff.mp h.2.2⟩

theorem signed_nearest {d U Z : Nat} {num : Int}
    (h : (((d * U : Nat) : Int) - num.natAbs).natAbs ≤ (((d * Z : Nat) : Int) - num.natAbs).natAbs)
    (h0 : (((d * U : Nat) : Int) - num.natAbs).natAbs ≤ num.natAbs) :
    (num < 0 → (-((d : Int) * U) - num).natAbs ≤ ((d : Int) * Z - num).natAbs ∧
      (-((d : Int) * U) - num).natAbs ≤ (-((d : Int) * Z) - num).natAbs) ∧
    (0 ≤ num → ((d : Int) * U - num).natAbs ≤ ((d : Int) * Z - num).natAbs ∧
      ((d : Int) * U - num).natAbs ≤ (-((d : Int) * Z) - num).natAbs) := by
  have e1 : (d : Int) * U = ((d * U : Nat) : Int) := (Int.natCast_mul ..).symm
  have e2 : (d : Int) * Z = ((d * Z : Nat) : Int) := (Int.natCast_mul ..).symm
  rw [e1, e2]
  generalize d * U = A at *
  generalize d * Z = B at *
  obtain ⟨n, rfl | rfl⟩ := num.eq_nat_or_neg
  · rw [Int.natAbs_natCast] at h h0
    omega
  · rw [Int.natAbs_neg, Int.natAbs_natCast] at h h0
    omega

theorem bits_mod_two (r : F32) : r.bits.toNat % 2 = r.mag % 2 := by unfold mag; omega

theorem value_cases (z : F32) : z.value = (unitsOf z.mag : Int) ∨ z.value = -(unitsOf z.mag : Int) := by
  unfold value units
  cases z.neg? <;> simp

/-- Rounding to a magnitude pattern with the right sign. -/
theorem rounded_pack {s : Bool} {num : Int} {den : Nat} (hd : 0 < den)
    (hs : num ≠ 0 → s = decide (num < 0)) : Rounded (pack s (roundMag num.natAbs den)) num den := by
  have hle := roundMag_le num.natAbs den
  have hlt := roundMag_lt num.natAbs den
  have h00 : unitsOf 0 = 0 := by decide
  refine ⟨(pack_facts hle).1, ?_, ?_, ?_, ?_⟩
  · intro h0
    rw [pack_neg hlt, hs h0]
  · unfold isInf
    rw [pack_mag hlt, decide_eq_true_iff]
    exact roundMag_inf_iff hd
  · intro hf z _
    rw [isFinite_iff, pack_mag hlt] at hf
    have hn := roundMag_nearest hd hf z.mag
    have hn0 := roundMag_nearest hd hf 0
    rw [h00] at hn0
    rw [value_pack hlt]
    have hz := value_cases z
    generalize unitsOf z.mag = Z at *
    rw [show den * 0 = 0 from rfl] at hn0
    by_cases h0 : num = 0
    · subst h0
      rw [show (0 : Int).natAbs = 0 from rfl, roundMag_zero, h00]
      cases s <;> simp
    · rw [hs h0]
      generalize unitsOf (roundMag num.natAbs den) = U at *
      rw [show ((0 : Nat) : Int) - (num.natAbs : Int) = -(num.natAbs : Int) from Int.zero_sub _,
        Int.natAbs_neg, Int.natAbs_natCast] at hn0
      have key := signed_nearest hn hn0
      rcases hz with hz | hz <;> rw [hz] <;> by_cases hneg : num < 0 <;>
        simp only [hneg, decide_true, decide_false, if_true, if_false, Bool.false_eq_true, Int.mul_neg]
      · exact (key.1 hneg).1
      · exact (key.2 (by omega)).1
      · exact (key.1 hneg).2
      · exact (key.2 (by omega)).2
  · intro hf z _ hne ht
    rw [bits_mod_two, pack_mag hlt]
    rw [isFinite_iff, pack_mag hlt] at hf
    by_cases h0 : num = 0
    · subst h0
      rw [show (0 : Int).natAbs = 0 from rfl, roundMag_zero]
    have hn0 := roundMag_nearest hd hf 0
    rw [h00] at hn0
    have hz := value_cases z
    have hev := roundMag_even hd hf z.mag
    rw [value_pack hlt, hs h0] at ht hne
    generalize unitsOf (roundMag num.natAbs den) = U at *
    generalize unitsOf z.mag = Z at *
    have hUZ : den * Z = den * U → Z = U := fun h => Nat.eq_of_mul_eq_mul_left hd h
    have hZ0 : den * Z = 0 → Z = 0 := fun h => by
      rcases Nat.mul_eq_zero.mp h with h | h <;> omega
    have e1 : (den : Int) * U = ((den * U : Nat) : Int) := (Int.natCast_mul ..).symm
    have e2 : (den : Int) * Z = ((den * Z : Nat) : Int) := (Int.natCast_mul ..).symm
    rw [show den * 0 = 0 from rfl] at hn0
    have main : Z ≠ U ∧ (((den * U : Nat) : Int) - num.natAbs).natAbs = (((den * Z : Nat) : Int) - num.natAbs).natAbs := by
      have hU0 : den * U = 0 → U = 0 := fun h => by
        rcases Nat.mul_eq_zero.mp h with h | h <;> omega
      have hUZ' : Z = U → den * Z = den * U := fun h => by rw [h]
      rcases hz with hz | hz <;> rw [hz] at ht hne <;> by_cases hneg : num < 0 <;>
        simp only [hneg, decide_true, decide_false, if_true, if_false, Bool.false_eq_true, Int.mul_neg, e1, e2] at ht hne <;>
        generalize den * U = A at * <;> generalize den * Z = B at * <;> clear hev hs <;> omega
    exact hev main.1 main.2

theorem rounded_round {num : Int} {den : Nat} (hd : 0 < den) : Rounded (round num den) num den :=
  rounded_pack hd fun _ => rfl

theorem rounded_zero (s : Bool) {den : Nat} (hd : 0 < den) : Rounded (pack s 0) 0 den := by
  have := rounded_pack (s := s) (num := 0) hd (fun h => absurd rfl h)
  rwa [show (0 : Int).natAbs = 0 from rfl, roundMag_zero] at this

theorem add_rounded {x y : F32} (hx : x.isFinite = true) (hy : y.isFinite = true) :
    Rounded (x.add y) (x.value + y.value) 1 := by
  obtain ⟨a1, a2⟩ := finite_facts (isFinite_iff.mp hx)
  obtain ⟨b1, b2⟩ := finite_facts (isFinite_iff.mp hy)
  unfold add
  simp only [a1, a2, b1, b2, Bool.or_self, Bool.false_eq_true, if_false]
  split
  · rename_i h
    rw [h]
    exact rounded_zero _ (by decide)
  · exact rounded_round (by decide)

theorem negate_facts (y : F32) : y.negate.mag = y.mag ∧ y.negate.neg? = !y.neg? ∧ y.negate.value = -y.value := by
  have hm := mag_lt y
  refine ⟨pack_mag hm, pack_neg hm, ?_⟩
  unfold negate
  rw [value_pack hm]
  unfold value units
  cases y.neg? <;> simp

theorem sub_rounded {x y : F32} (hx : x.isFinite = true) (hy : y.isFinite = true) :
    Rounded (x.sub y) (x.value - y.value) 1 := by
  obtain ⟨a1, a2⟩ := finite_facts (isFinite_iff.mp hx)
  obtain ⟨b1, b2⟩ := finite_facts (isFinite_iff.mp hy)
  obtain ⟨n1, n2, n3⟩ := negate_facts y
  unfold sub
  simp only [a1, b1, Bool.or_self, Bool.false_eq_true, if_false]
  rw [Int.sub_eq_add_neg, ← n3]
  exact add_rounded hx (isFinite_iff.mpr (by rw [n1]; exact isFinite_iff.mp hy))

theorem value_mul_natAbs (x y : F32) : (x.value * y.value).natAbs = x.units * y.units := by
  rw [Int.natAbs_mul]
  unfold value
  cases x.neg? <;> cases y.neg? <;> simp

theorem value_mul_sign (x y : F32) (h : x.value * y.value ≠ 0) :
    (x.neg? != y.neg?) = decide (x.value * y.value < 0) := by
  have hx : (x.units : Int) ≠ 0 := by
    intro h0; apply h
    unfold value; rw [h0]; cases x.neg? <;> simp
  have hy : (y.units : Int) ≠ 0 := by
    intro h0; apply h
    unfold value; rw [h0]; cases y.neg? <;> simp
  have hpos : 0 < (x.units : Int) * (y.units : Int) := Int.mul_pos (by omega) (by omega)
  clear h hx hy
  unfold value
  cases x.neg? <;> cases y.neg? <;>
    simp only [if_true, if_false, Bool.false_eq_true, Int.mul_neg, Int.neg_mul] <;>
    generalize (x.units : Int) * (y.units : Int) = a at * <;> simp <;> omega

theorem mul_rounded {x y : F32} (hx : x.isFinite = true) (hy : y.isFinite = true) :
    Rounded (x.mul y) (x.value * y.value) (2 ^ 149) := by
  obtain ⟨a1, a2⟩ := finite_facts (isFinite_iff.mp hx)
  obtain ⟨b1, b2⟩ := finite_facts (isFinite_iff.mp hy)
  unfold mul
  simp only [a1, a2, b1, b2, Bool.or_self, Bool.false_eq_true, if_false]
  rw [← value_mul_natAbs]
  exact rounded_pack (two_pow_pos _) (value_mul_sign x y)

theorem cast_pow (k : Nat) : ((2 ^ k : Nat) : Int) = (2 : Int) ^ k := Int.natCast_pow 2 k

theorem mulAdd_rounded {x y z : F32} (hx : x.isFinite = true) (hy : y.isFinite = true) (hz : z.isFinite = true) :
    Rounded (x.mulAdd y z) (x.value * y.value + z.value * 2 ^ 149) (2 ^ 149) := by
  obtain ⟨a1, a2⟩ := finite_facts (isFinite_iff.mp hx)
  obtain ⟨b1, b2⟩ := finite_facts (isFinite_iff.mp hy)
  obtain ⟨c1, c2⟩ := finite_facts (isFinite_iff.mp hz)
  unfold mulAdd
  simp only [a1, a2, b1, b2, c1, c2, Bool.or_self, Bool.false_eq_true, if_false]
  generalize x.value * y.value + z.value * 2 ^ 149 = v
  split
  · rename_i h
    rw [h]
    exact rounded_zero _ (two_pow_pos _)
  · exact rounded_round (two_pow_pos _)

theorem div_rounded {x y : F32} (hx : x.isFinite = true) (hy : y.isFinite = true) (h0 : y.isZero = false) :
    Rounded (x.div y) (if y.neg? then -(x.value * 2 ^ 149) else x.value * 2 ^ 149) y.units := by
  obtain ⟨a1, a2⟩ := finite_facts (isFinite_iff.mp hx)
  obtain ⟨b1, b2⟩ := finite_facts (isFinite_iff.mp hy)
  have hyu : 0 < y.units := unitsOf_pos (by unfold isZero at h0; simp at h0; omega)
  unfold div
  simp only [a1, a2, b1, b2, h0, Bool.or_self, Bool.false_eq_true, if_false]
  have hn : (if y.neg? then -(x.value * 2 ^ 149) else x.value * 2 ^ 149 : Int).natAbs = x.units * 2 ^ 149 := by
    rw [← cast_pow]
    have hp := two_pow_pos 149
    generalize 2 ^ 149 = D at *
    unfold value
    cases x.neg? <;> cases y.neg? <;> simp [Int.natAbs_mul, Int.natAbs_neg]
  rw [← hn]
  refine rounded_pack hyu ?_
  rw [← cast_pow]
  have hp := two_pow_pos 149
  clear hn
  generalize 2 ^ 149 = D at *
  unfold value
  intro h
  have hpos : 0 < (x.units : Int) * (D : Int) := by
    refine Int.mul_pos ?_ (by omega)
    have : (x.units : Int) ≠ 0 := by
      intro h0; apply h; rw [h0]
      cases x.neg? <;> cases y.neg? <;> simp
    omega
  clear h
  generalize hq : (x.units : Int) * (D : Int) = a at *
  cases x.neg? <;> cases y.neg? <;>
    simp only [if_true, if_false, Bool.false_eq_true, Int.neg_mul, hq, Int.neg_neg] <;> simp <;> omega

/-- An exact result that is a number is the result. -/
theorem Rounded.exact {r z : F32} {num : Int} {den : Nat} (hd : 0 < den) (h : Rounded r num den)
    (hz : z.isFinite = true) (e : (den : Int) * z.value = num) :
    r.isFinite = true ∧ (den : Int) * r.value = num := by
  have hf : r.isFinite = true := by
    rcases hr : r.isInf with _ | _
    · have h1 := h.number
      unfold isNaN at h1
      unfold isInf at hr
      unfold isFinite
      simp only [decide_eq_false_iff_not, decide_eq_true_eq] at *
      omega
    · have h1 := h.overflow.mp hr
      rw [← e, Int.natAbs_mul, Int.natAbs_natCast] at h1
      have h2 : z.value.natAbs = z.units := by unfold value; cases z.neg? <;> simp
      have h3 : z.units ≤ 16777215 * 2 ^ 253 := by
        rw [← unitsOf_max]
        have := isFinite_iff.mp hz
        exact unitsOf_mono (by omega)
      have h4 := Nat.le_of_mul_le_mul_left h1 hd
      rw [h2] at h4
      exact absurd (Nat.le_trans h4 h3) (by decide +kernel)
  refine ⟨hf, ?_⟩
  have h1 := h.nearest hf z hz
  rw [e] at h1
  omega

/-- `x` is the whole number `n`. -/
def Whole (x : F32) (n : Int) : Prop := x.isFinite = true ∧ x.value = n * 2 ^ 149

theorem whole_nat {n : Nat} (h0 : 0 < n) (h : n < 16777216) : ∃ m, m < infMag ∧ unitsOf m = n * 2 ^ 149 := by
  have hl : n.log2 < 24 := (Nat.log2_lt (by omega)).mpr h
  have h1 : 2 ^ n.log2 ≤ n := Nat.log2_self_le (by omega)
  have h2 : n < 2 ^ (n.log2 + 1) := Nat.lt_log2_self
  generalize n.log2 = l at *
  have e1 : 2 ^ (23 - l) * 2 ^ l = 8388608 := by rw [← Nat.pow_add, show 23 - l + l = 23 by omega]
  have e2 : 2 ^ (23 - l) * 2 ^ (l + 1) = 16777216 := by rw [← Nat.pow_add, show 23 - l + (l + 1) = 24 by omega]
  have b1 := Nat.mul_le_mul_left (2 ^ (23 - l)) h1
  have b2 := (Nat.mul_lt_mul_left (two_pow_pos (23 - l))).mpr h2
  rw [e1] at b1
  rw [e2] at b2
  have e3 : 2 ^ (23 - l) * 2 ^ (126 + l) = 2 ^ 149 := by rw [← Nat.pow_add, show 23 - l + (126 + l) = 149 by omega]
  refine ⟨(126 + l) * 8388608 + 2 ^ (23 - l) * n, ?_, ?_⟩
  · unfold infMag
    generalize 2 ^ (23 - l) * n = X at *
    omega
  · rw [unitsOf_pattern (by omega) (.inr b1), Nat.mul_comm (2 ^ (23 - l)), Nat.mul_assoc, e3]

theorem whole_exists {n : Int} (h : n.natAbs < 16777216) : ∃ z, Whole z n := by
  unfold Whole
  rw [← cast_pow]
  by_cases h0 : n = 0
  · exact ⟨zero, by decide, by subst h0; rw [Int.zero_mul]; decide⟩
  · obtain ⟨m, hm, hu⟩ := whole_nat (n := n.natAbs) (by omega) h
    have hm2 : m < 2147483648 := by unfold infMag at hm; omega
    refine ⟨pack (decide (n < 0)) m, isFinite_iff.mpr (by rwa [pack_mag hm2]), ?_⟩
    rw [value_pack hm2, hu]
    generalize 2 ^ 149 = D
    by_cases hn : n < 0
    · simp only [hn, decide_true, if_true]
      rw [Int.natCast_mul, ← Int.neg_mul, Int.ofNat_natAbs_of_nonpos (by omega), Int.neg_neg]
    · simp only [hn, decide_false, Bool.false_eq_true, if_false]
      rw [Int.natCast_mul, Int.natAbs_of_nonneg (by omega)]

theorem pow_ne : ((2 : Int) ^ 149) ≠ 0 := by rw [← cast_pow]; have := two_pow_pos 149; omega

theorem whole_mul {x y : F32} {n m : Int} (hx : Whole x n) (hy : Whole y m) (h : (n * m).natAbs < 16777216) :
    Whole (x.mul y) (n * m) := by
  obtain ⟨z, hz1, hz2⟩ := whole_exists h
  have e : ((2 ^ 149 : Nat) : Int) * z.value = x.value * y.value := by
    rw [hz2, hx.2, hy.2, cast_pow]
    generalize (2 : Int) ^ 149 = D
    simp only [Int.mul_assoc, Int.mul_left_comm]
  obtain ⟨h1, h2⟩ := (mul_rounded hx.1 hy.1).exact (two_pow_pos _) hz1 e
  refine ⟨h1, ?_⟩
  rw [← e] at h2
  rw [← hz2]
  exact Int.eq_of_mul_eq_mul_left (by rw [cast_pow]; exact pow_ne) h2

theorem whole_mulAdd {x y z : F32} {n m k : Int} (hx : Whole x n) (hy : Whole y m) (hz : Whole z k)
    (h : (n * m + k).natAbs < 16777216) : Whole (x.mulAdd y z) (n * m + k) := by
  obtain ⟨w, hw1, hw2⟩ := whole_exists h
  have e : ((2 ^ 149 : Nat) : Int) * w.value = x.value * y.value + z.value * 2 ^ 149 := by
    rw [hw2, hx.2, hy.2, hz.2, cast_pow]
    generalize (2 : Int) ^ 149 = D
    simp only [Int.mul_assoc, Int.mul_left_comm, Int.add_mul, Int.mul_add]
  obtain ⟨h1, h2⟩ := (mulAdd_rounded hx.1 hy.1 hz.1).exact (two_pow_pos _) hw1 e
  refine ⟨h1, ?_⟩
  rw [← e] at h2
  rw [← hw2]
  exact Int.eq_of_mul_eq_mul_left (by rw [cast_pow]; exact pow_ne) h2

theorem whole_negate {x : F32} {n : Int} (hx : Whole x n) : Whole x.negate (-n) := by
  obtain ⟨h1, _, h3⟩ := negate_facts x
  exact ⟨isFinite_iff.mpr (by rw [h1]; exact isFinite_iff.mp hx.1), by rw [h3, hx.2, Int.neg_mul]⟩

theorem natAbs_mul_le {n m : Int} (hn : n.natAbs ≤ 2048) (hm : m.natAbs ≤ 2048) : (n * m).natAbs ≤ 4194304 := by
  rw [Int.natAbs_mul]
  exact Nat.mul_le_mul hn hm

theorem Rounded.mag_trichotomy {r : F32} (h : r.isNaN = false) : r.isFinite = true ∨ r.mag = infMag := by
  unfold isNaN at h
  unfold isFinite
  simp only [decide_eq_false_iff_not, decide_eq_true_eq] at *
  omega

theorem value_of_sign {r : F32} {b : Bool} (h : r.neg? = b) : r.value = if b then -(unitsOf r.mag : Int) else unitsOf r.mag := by
  unfold value units
  rw [h]

/-- Two nearest magnitudes that are both even coincide: a tie is between neighbours. -/
theorem nearest_even_unique {den N m m' : Nat} (hd : 0 < den) (hm' : m' < infMag)
    (h1 : ∀ k, k < infMag → (((den * unitsOf m : Nat) : Int) - N).natAbs ≤ (((den * unitsOf k : Nat) : Int) - N).natAbs)
    (ht : (((den * unitsOf m : Nat) : Int) - N).natAbs = (((den * unitsOf m' : Nat) : Int) - N).natAbs)
    (he : m % 2 = 0) (he' : m' % 2 = 0) : ¬ m < m' := by
  intro hlt
  have s1 := unitsOf_strict (m := m) (m' := m + 1) (by omega) (by omega)
  have s2 := unitsOf_strict (m := m + 1) (m' := m') (by omega) hm'
  have t1 := (Nat.mul_lt_mul_left hd).mpr s1
  have t2 := (Nat.mul_lt_mul_left hd).mpr s2
  have := h1 (m + 1) (by omega)
  omega

/-! ### The property -/

/-- The specification of rounding leaves no choice: it determines the result, but for the sign of a zero that is
the exact result (see below for these). -/
theorem C41_rounding_determined {r r' : F32} {num : Int} {den : Nat} (hd : 0 < den) (h0 : num ≠ 0)
    (h : Rounded r num den) (h' : Rounded r' num den) : r = r' := by
  have hs : r.neg? = r'.neg? := by rw [h.sign h0, h'.sign h0]
  apply ext_mag hs
  rcases Rounded.mag_trichotomy h.number with hf | hi <;> rcases Rounded.mag_trichotomy h'.number with hf' | hi'
  · have c1 := h.nearest hf r' hf'
    have c2 := h'.nearest hf' r hf
    have ht : ((den : Int) * r.value - num).natAbs = ((den : Int) * r'.value - num).natAbs := by omega
    have f1 := isFinite_iff.mp hf
    have f2 := isFinite_iff.mp hf'
    have conv : ∀ x : F32, x.neg? = decide (num < 0) →
        ((den : Int) * x.value - num).natAbs = (((den * unitsOf x.mag : Nat) : Int) - num.natAbs).natAbs := by
      intro x hx
      rw [value_of_sign hx]
      have e1 : (den : Int) * unitsOf x.mag = ((den * unitsOf x.mag : Nat) : Int) := (Int.natCast_mul ..).symm
      by_cases hneg : num < 0 <;>
        simp only [hneg, decide_true, decide_false, if_true, if_false, Bool.false_eq_true, Int.mul_neg, e1] <;>
        generalize den * unitsOf x.mag = A <;> omega
    have near : ∀ x : F32, Rounded x num den → x.isFinite = true → ∀ k, k < infMag →
        (((den * unitsOf x.mag : Nat) : Int) - num.natAbs).natAbs ≤ (((den * unitsOf k : Nat) : Int) - num.natAbs).natAbs := by
      intro x hx hxf k hk
      have hk2 : k < 2147483648 := by unfold infMag at hk; omega
      have := hx.nearest hxf (pack (decide (num < 0)) k) (isFinite_iff.mpr (by rwa [pack_mag hk2]))
      rwa [conv x (hx.sign h0), conv _ (pack_neg hk2), pack_mag hk2] at this
    have ht' := ht
    rw [conv r (h.sign h0), conv r' (h'.sign h0)] at ht'
    by_cases hv : r.value = r'.value
    · have hu : unitsOf r.mag = unitsOf r'.mag := by
        rw [value_of_sign rfl, value_of_sign hs.symm] at hv
        cases hb : r.neg? <;> rw [hb] at hv <;>
          simp only [if_true, if_false, Bool.false_eq_true] at hv <;> omega
      rcases Nat.lt_trichotomy r.mag r'.mag with hl | hl | hl
      · have := unitsOf_strict hl f2; omega
      · exact hl
      · have := unitsOf_strict hl f1; omega
    · have p1 := h.even hf r' hf' (fun e => hv e.symm) ht
      have p2 := h'.even hf' r hf hv ht.symm
      rw [bits_mod_two] at p1 p2
      have q1 := nearest_even_unique hd f2 (near r h hf) ht' p1 p2
      have q2 := nearest_even_unique hd f1 (near r' h' hf') ht'.symm p2 p1
      omega
  · have hinf : r'.isInf = true := by unfold isInf; simp [hi']
    have : r.isInf = true := h.overflow.mpr (h'.overflow.mp hinf)
    unfold isInf at this
    rw [decide_eq_true_iff] at this
    omega
  · have hinf : r.isInf = true := by unfold isInf; simp [hi]
    have : r'.isInf = true := h'.overflow.mpr (h.overflow.mp hinf)
    unfold isInf at this
    rw [decide_eq_true_iff] at this
    omega
  · omega


/-- Sum, difference: every component is the correctly rounded exact result. -/
theorem C41_sum (a b : Vector3Float) (ha : a.Finite) (hb : b.Finite) :
    Rounded (a.add b).x (a.x.value + b.x.value) 1 ∧ Rounded (a.add b).y (a.y.value + b.y.value) 1 ∧
    Rounded (a.add b).z (a.z.value + b.z.value) 1 :=
  ⟨add_rounded ha.1 hb.1, add_rounded ha.2.1 hb.2.1, add_rounded ha.2.2 hb.2.2⟩

theorem C41_difference (a b : Vector3Float) (ha : a.Finite) (hb : b.Finite) :
    Rounded (a.sub b).x (a.x.value - b.x.value) 1 ∧ Rounded (a.sub b).y (a.y.value - b.y.value) 1 ∧
    Rounded (a.sub b).z (a.z.value - b.z.value) 1 :=
  ⟨sub_rounded ha.1 hb.1, sub_rounded ha.2.1 hb.2.1, sub_rounded ha.2.2 hb.2.2⟩

/-- Scaling likewise (a product of two values is in units of 2^-298). -/
theorem C41_product (a : Vector3Float) (k : F32) (ha : a.Finite) (hk : k.isFinite = true) :
    Rounded (a.mul k).x (a.x.value * k.value) (2 ^ 149) ∧ Rounded (a.mul k).y (a.y.value * k.value) (2 ^ 149) ∧
    Rounded (a.mul k).z (a.z.value * k.value) (2 ^ 149) :=
  ⟨mul_rounded ha.1 hk, mul_rounded ha.2.1 hk, mul_rounded ha.2.2 hk⟩

/-- Division by a number that is not zero likewise: the exact quotient is `± value · 2^149 / |k|`. -/
theorem C41_quotient (a : Vector3Float) (k : F32) (ha : a.Finite) (hk : k.isFinite = true) (h0 : k.isZero = false) :
    Rounded (a.div k).x (if k.neg? then -(a.x.value * 2 ^ 149) else a.x.value * 2 ^ 149) k.units ∧
    Rounded (a.div k).y (if k.neg? then -(a.y.value * 2 ^ 149) else a.y.value * 2 ^ 149) k.units ∧
    Rounded (a.div k).z (if k.neg? then -(a.z.value * 2 ^ 149) else a.z.value * 2 ^ 149) k.units :=
  ⟨div_rounded ha.1 hk h0, div_rounded ha.2.1 hk h0, div_rounded ha.2.2 hk h0⟩

/-- The dot product is rounded three times: the product of the `y`, then with that of the `x` added, then with
that of the `z` added (as long as the first two results are numbers). -/
theorem C41_dot_rounding (a b : Vector3Float) (ha : a.Finite) (hb : b.Finite) :
    ∃ s t : F32, Rounded s (a.y.value * b.y.value) (2 ^ 149) ∧
      (s.isFinite = true → Rounded t (a.x.value * b.x.value + s.value * 2 ^ 149) (2 ^ 149)) ∧
      (s.isFinite = true → t.isFinite = true →
        Rounded (a.dot b) (a.z.value * b.z.value + t.value * 2 ^ 149) (2 ^ 149)) :=
  ⟨a.y.mul b.y, a.x.mulAdd b.x (a.y.mul b.y), mul_rounded ha.2.1 hb.2.1,
    fun hs => mulAdd_rounded ha.1 hb.1 hs, fun _ ht => mulAdd_rounded ha.2.2 hb.2.2 ht⟩

/-- Each component of the cross product is rounded twice: the product to be subtracted, then the difference. -/
theorem C41_cross_rounding (a b : Vector3Float) (ha : a.Finite) (hb : b.Finite) :
    (∃ s : F32, Rounded s (a.z.value * b.y.value) (2 ^ 149) ∧ (s.isFinite = true →
      Rounded (a.cross b).x (a.y.value * b.z.value - s.value * 2 ^ 149) (2 ^ 149))) ∧
    (∃ s : F32, Rounded s (a.x.value * b.z.value) (2 ^ 149) ∧ (s.isFinite = true →
      Rounded (a.cross b).y (a.z.value * b.x.value - s.value * 2 ^ 149) (2 ^ 149))) ∧
    (∃ s : F32, Rounded s (a.y.value * b.x.value) (2 ^ 149) ∧ (s.isFinite = true →
      Rounded (a.cross b).z (a.x.value * b.y.value - s.value * 2 ^ 149) (2 ^ 149))) := by
  have one {x y z w : F32} (hx : x.isFinite = true) (hy : y.isFinite = true) (hz : z.isFinite = true)
      (hw : w.isFinite = true) : ∃ s : F32, Rounded s (z.value * w.value) (2 ^ 149) ∧ (s.isFinite = true →
        Rounded (x.mulAdd y (z.mul w).negate) (x.value * y.value - s.value * 2 ^ 149) (2 ^ 149)) := by
    refine ⟨z.mul w, mul_rounded hz hw, fun hs => ?_⟩
    obtain ⟨n1, _, n3⟩ := negate_facts (z.mul w)
    have h := mulAdd_rounded hx hy (z := (z.mul w).negate)
      (isFinite_iff.mpr (by rw [n1]; exact isFinite_iff.mp hs))
    rwa [n3, Int.neg_mul, ← Int.sub_eq_add_neg] at h
  exact ⟨one ha.2.1 hb.2.2 ha.2.2 hb.2.1, one ha.2.2 hb.1 ha.1 hb.2.2, one ha.1 hb.2.1 ha.2.1 hb.1⟩

/-! NaN, infinities and zeros, in every component `π`. -/

/-- The three components. -/
def components : List (Vector3Float → F32) := [Vector3Float.x, Vector3Float.y, Vector3Float.z]

theorem components_op {P : F32 → F32 → F32 → Prop} {f : F32 → F32 → F32} (h : ∀ x y, P x y (f x y))
    (op : Vector3Float → Vector3Float → Vector3Float)
    (e : ∀ a b, op a b = ⟨f a.x b.x, f a.y b.y, f a.z b.z⟩) :
    ∀ π ∈ components, ∀ a b, P (π a) (π b) (π (op a b)) := by
  intro π hπ a b
  rw [e]
  simp only [components, List.mem_cons, List.not_mem_nil, or_false] at hπ
  rcases hπ with rfl | rfl | rfl <;> exact h _ _

theorem components_scalar {P : F32 → F32 → F32 → Prop} {f : F32 → F32 → F32} (h : ∀ x y, P x y (f x y))
    (op : Vector3Float → F32 → Vector3Float)
    (e : ∀ a k, op a k = ⟨f a.x k, f a.y k, f a.z k⟩) :
    ∀ π ∈ components, ∀ a k, P (π a) k (π (op a k)) := by
  intro π hπ a b
  rw [e]
  simp only [components, List.mem_cons, List.not_mem_nil, or_false] at hπ
  rcases hπ with rfl | rfl | rfl <;> exact h _ _

theorem nan_isNaN : nan.isNaN = true := by decide
theorem inf_facts (b : Bool) : (inf b).isNaN = false ∧ (inf b).isInf = true ∧ (inf b).neg? = b := by
  cases b <;> decide
theorem zero_facts (b : Bool) : (pack b 0).isNaN = false ∧ (pack b 0).isZero = true ∧ (pack b 0).neg? = b := by
  cases b <;> decide

/-- What IEEE 754 says of a sum `r` of `x` and `y`, the rounding of numbers aside. -/
structure SumSpecial (x y r : F32) : Prop where
  nan : r.isNaN = true ↔
    x.isNaN = true ∨ y.isNaN = true ∨ (x.isInf = true ∧ y.isInf = true ∧ x.neg? ≠ y.neg?)
  infinite_left : x.isInf = true → r.isNaN = false → r = x
  infinite_right : y.isInf = true → r.isNaN = false → r = y
  zero : x.isFinite = true → y.isFinite = true → x.value + y.value = 0 →
    r.isZero = true ∧ r.neg? = (x.neg? && y.neg?)

theorem inf_ext {x y : F32} (hx : x.isInf = true) (hy : y.isInf = true) (h : x.neg? = y.neg?) : x = y := by
  unfold isInf at hx hy
  simp only [decide_eq_true_eq] at hx hy
  exact ext_mag h (by omega)

theorem add_special (x y : F32) : SumSpecial x y (x.add y) := by
  have hxx : x.isInf = true → x.isNaN = false := fun h => by
    unfold isInf at h; unfold isNaN; simp only [decide_eq_true_eq] at h; simp [h]
  have hyy : y.isInf = true → y.isNaN = false := fun h => by
    unfold isInf at h; unfold isNaN; simp only [decide_eq_true_eq] at h; simp [h]
  rcases hxn : x.isNaN with _ | _ <;> rcases hyn : y.isNaN with _ | _
  · rcases hxi : x.isInf with _ | _ <;> rcases hyi : y.isInf with _ | _
    · have fx : x.isFinite = true := by
        rcases Rounded.mag_trichotomy hxn with h | h
        · exact h
        · unfold isInf at hxi; simp [h] at hxi
      have fy : y.isFinite = true := by
        rcases Rounded.mag_trichotomy hyn with h | h
        · exact h
        · unfold isInf at hyi; simp [h] at hyi
      have hr := add_rounded fx fy
      refine ⟨?_, ?_, ?_, ?_⟩
      · rw [hr.number]; simp [hxn, hyn, hxi, hyi]
      · simp [hxi, hyi]
      · simp [hxi, hyi]
      · intro _ _ h0
        have : x.add y = pack (x.neg? && y.neg?) 0 := by
          unfold add; simp [hxn, hyn, hxi, hyi, h0]
        rw [this]
        exact (zero_facts _).2
    · have : x.add y = y := by unfold add; simp [hxn, hyn, hxi, hyi]
      rw [this]
      refine ⟨?_, ?_, ?_, ?_⟩
      · simp [hxn, hyn, hxi, hyi]
      · simp [hxi, hyi]
      · simp [hxi, hyi]
      · intro _ h; unfold isFinite at h; unfold isInf at hyi; simp only [decide_eq_true_eq] at *; omega
    · have : x.add y = x := by unfold add; simp [hxn, hyn, hxi, hyi]
      rw [this]
      refine ⟨?_, ?_, ?_, ?_⟩
      · simp [hxn, hyn, hxi, hyi]
      · simp [hxi, hyi]
      · simp [hxi, hyi]
      · intro h; unfold isFinite at h; unfold isInf at hxi; simp only [decide_eq_true_eq] at *; omega
    · by_cases hne : x.neg? = y.neg?
      · have : x.add y = x := by unfold add; simp [hxn, hyn, hxi, hyi, hne]
        rw [this]
        refine ⟨?_, ?_, ?_, ?_⟩
        · simp [hxn, hyn, hne]
        · simp
        · intro _ _; exact inf_ext hxi hyi hne
        · intro h; unfold isFinite at h; unfold isInf at hxi; simp only [decide_eq_true_eq] at *; omega
      · have : x.add y = nan := by unfold add; simp [hxn, hyn, hxi, hyi, hne]
        rw [this]
        refine ⟨?_, ?_, ?_, ?_⟩
        · simp [nan_isNaN, hxi, hyi, hne]
        · simp [nan_isNaN]
        · simp [nan_isNaN]
        · intro h; unfold isFinite at h; unfold isInf at hxi; simp only [decide_eq_true_eq] at *; omega
  all_goals
    have : x.add y = nan := by unfold add; simp [hxn, hyn]
    rw [this]
    refine ⟨by simp [nan_isNaN, hxn, hyn], by simp [nan_isNaN], by simp [nan_isNaN], ?_⟩
    intro hx hy
    unfold isFinite at hx hy
    unfold isNaN at hxn hyn
    simp only [decide_eq_true_eq, decide_eq_false_iff_not] at *
    omega

/-- Sums with NaN, infinities and zero results. -/
theorem C41_sum_special : ∀ π ∈ components, ∀ a b, SumSpecial (π a) (π b) (π (a.add b)) :=
  components_op add_special _ fun _ _ => rfl

theorem negate_special (y : F32) : y.negate.isNaN = y.isNaN ∧ y.negate.isInf = y.isInf ∧
    y.negate.isFinite = y.isFinite := by
  obtain ⟨h, _⟩ := negate_facts y
  unfold isNaN isInf isFinite
  rw [h]
  exact ⟨rfl, rfl, rfl⟩

/-- What IEEE 754 says of a difference: the sum with the second operand's sign changed. -/
theorem sub_special (x y : F32) : SumSpecial x y.negate (x.sub y) := by
  have h := add_special x y.negate
  rcases hx : x.isNaN with _ | _ <;> rcases hy : y.isNaN with _ | _
  · have : x.sub y = x.add y.negate := by unfold sub; simp [hx, hy]
    rw [this]; exact h
  all_goals
    have : x.sub y = x.add y.negate := by
      unfold sub add
      simp [hx, hy, (negate_special y).1]
    rw [this]; exact h

/-- Differences with NaN, infinities and zero results. -/
theorem C41_difference_special : ∀ π ∈ components, ∀ a b, SumSpecial (π a) (π b).negate (π (a.sub b)) :=
  components_op (P := fun x y r => SumSpecial x y.negate r) sub_special _ fun _ _ => rfl

/-- What IEEE 754 says of a product `r` of `x` and `y`, the rounding of numbers aside. -/
structure ProductSpecial (x y r : F32) : Prop where
  nan : r.isNaN = true ↔ x.isNaN = true ∨ y.isNaN = true ∨
    (x.isInf = true ∧ y.isZero = true) ∨ (x.isZero = true ∧ y.isInf = true)
  sign : r.isNaN = false → r.neg? = (x.neg? != y.neg?)
  infinite : x.isInf = true ∨ y.isInf = true → r.isNaN = false → r.isInf = true
  zero : x.isZero = true ∨ y.isZero = true → r.isNaN = false → r.isZero = true

theorem zero_not_inf {x : F32} (h : x.isZero = true) : x.isInf = false := by
  unfold isZero at h; unfold isInf infMag
  simp only [decide_eq_true_eq] at h
  simp [h]

theorem mul_special (x y : F32) : ProductSpecial x y (x.mul y) := by
  have z1 := zero_not_inf (x := x)
  have z2 := zero_not_inf (x := y)
  rcases hxn : x.isNaN with _ | _ <;> rcases hyn : y.isNaN with _ | _
  · by_cases hi : x.isInf = true ∨ y.isInf = true
    · by_cases hz : x.isZero = true ∨ y.isZero = true
      · have : x.mul y = nan := by unfold mul; simp [hxn, hyn, hi, hz]
        rw [this]
        refine ⟨?_, by simp [nan_isNaN], by simp [nan_isNaN], by simp [nan_isNaN]⟩
        simp only [nan_isNaN, hxn, hyn, Bool.false_eq_true, false_or, true_iff]
        rcases hi with hi | hi <;> rcases hz with hz | hz
        · rw [z1 hz] at hi; exact absurd hi (by decide)
        · exact .inl ⟨hi, hz⟩
        · exact .inr ⟨hz, hi⟩
        · rw [z2 hz] at hi; exact absurd hi (by decide)
      · have : x.mul y = inf (x.neg? != y.neg?) := by unfold mul; simp [hxn, hyn, hi, hz]
        rw [this]
        obtain ⟨i1, i2, i3⟩ := inf_facts (x.neg? != y.neg?)
        refine ⟨?_, fun _ => i3, fun _ _ => i2, fun h => absurd h hz⟩
        rw [i1]
        simp only [hxn, hyn, Bool.false_eq_true, false_or, false_iff]
        rintro (⟨_, h⟩ | ⟨h, _⟩)
        · exact hz (.inr h)
        · exact hz (.inl h)
    · have : x.mul y = pack (x.neg? != y.neg?) (roundMag (x.units * y.units) (2 ^ 149)) := by
        unfold mul; simp [hxn, hyn, hi]
      rw [this]
      obtain ⟨p1, p2, p3, p4⟩ := pack_facts (neg := x.neg? != y.neg?) (roundMag_le (x.units * y.units) (2 ^ 149))
      refine ⟨?_, fun _ => p4, fun h => absurd h hi, ?_⟩
      · rw [p1]
        simp only [hxn, hyn, Bool.false_eq_true, false_or, false_iff]
        rintro (⟨h, _⟩ | ⟨_, h⟩)
        · exact hi (.inl h)
        · exact hi (.inr h)
      · intro hz _
        have h0 : x.units * y.units = 0 := by
          have u0 : ∀ w : F32, w.isZero = true → w.units = 0 := fun w hw => by
            unfold isZero at hw; unfold units
            rw [decide_eq_true_eq] at hw
            rw [hw]; decide
          rcases hz with hz | hz <;> simp [u0 _ hz]
        rw [p3, h0, roundMag_zero]; rfl
  all_goals
    have : x.mul y = nan := by unfold mul; simp [hxn, hyn]
    rw [this]
    exact ⟨by simp [nan_isNaN, hxn, hyn], by simp [nan_isNaN], by simp [nan_isNaN], by simp [nan_isNaN]⟩

/-- Products with NaN, infinities and zeros. -/
theorem C41_product_special : ∀ π ∈ components, ∀ a k, ProductSpecial (π a) k (π (a.mul k)) :=
  components_scalar mul_special _ fun _ _ => rfl

/-- What IEEE 754 says of a quotient `r` of `x` by `y`, the rounding of numbers aside. -/
structure QuotientSpecial (x y r : F32) : Prop where
  nan : r.isNaN = true ↔ x.isNaN = true ∨ y.isNaN = true ∨
    (x.isInf = true ∧ y.isInf = true) ∨ (x.isZero = true ∧ y.isZero = true)
  sign : r.isNaN = false → r.neg? = (x.neg? != y.neg?)
  infinite : x.isInf = true ∨ y.isZero = true → r.isNaN = false → r.isInf = true
  zero : x.isZero = true ∨ y.isInf = true → r.isNaN = false → r.isZero = true

theorem div_special (x y : F32) : QuotientSpecial x y (x.div y) := by
  have z1 := zero_not_inf (x := x)
  have z2 := zero_not_inf (x := y)
  rcases hxn : x.isNaN with _ | _ <;> rcases hyn : y.isNaN with _ | _
  · rcases hxi : x.isInf with _ | _ <;> rcases hyi : y.isInf with _ | _
    · rcases hyz : y.isZero with _ | _
      · have : x.div y = pack (x.neg? != y.neg?) (roundMag (x.units * 2 ^ 149) y.units) := by
          unfold div; simp [hxn, hyn, hxi, hyi, hyz]
        rw [this]
        obtain ⟨p1, p2, p3, p4⟩ := pack_facts (neg := x.neg? != y.neg?) (roundMag_le (x.units * 2 ^ 149) y.units)
        refine ⟨by rw [p1]; simp [hxn, hyn, hxi, hyi, hyz], fun _ => p4, by simp [hxi, hyz], ?_⟩
        rintro (hz | hz) _
        · have h0 : x.units = 0 := by
            unfold isZero at hz; unfold units
            rw [decide_eq_true_eq] at hz
            rw [hz]; decide
          rw [p3, h0, Nat.zero_mul, roundMag_zero]; rfl
        · rw [hyi] at hz; exact absurd hz (by decide)
      · rcases hxz : x.isZero with _ | _
        · have : x.div y = inf (x.neg? != y.neg?) := by unfold div; simp [hxn, hyn, hxi, hyi, hyz, hxz]
          rw [this]
          obtain ⟨i1, i2, i3⟩ := inf_facts (x.neg? != y.neg?)
          exact ⟨by rw [i1]; simp [hxn, hyn, hxi, hyi, hxz], fun _ => i3, fun _ _ => i2, by simp [hyi, hxz]⟩
        · have : x.div y = nan := by unfold div; simp [hxn, hyn, hxi, hyi, hyz, hxz]
          rw [this]
          exact ⟨by simp [nan_isNaN, hxz, hyz], by simp [nan_isNaN], by simp [nan_isNaN], by simp [nan_isNaN]⟩
    · have hyz : y.isZero = false := by
        rcases h : y.isZero with _ | _
        · rfl
        · rw [z2 h] at hyi; exact absurd hyi (by decide)
      have : x.div y = pack (x.neg? != y.neg?) 0 := by unfold div; simp [hxn, hyn, hxi, hyi]
      rw [this]
      obtain ⟨i1, i2, i3⟩ := zero_facts (x.neg? != y.neg?)
      exact ⟨by rw [i1]; simp [hxn, hyn, hxi, hyi, hyz], fun _ => i3, by simp [hxi, hyz], fun _ _ => i2⟩
    · have hxz : x.isZero = false := by
        rcases h : x.isZero with _ | _
        · rfl
        · rw [z1 h] at hxi; exact absurd hxi (by decide)
      have : x.div y = inf (x.neg? != y.neg?) := by unfold div; simp [hxn, hyn, hxi, hyi]
      rw [this]
      obtain ⟨i1, i2, i3⟩ := inf_facts (x.neg? != y.neg?)
      exact ⟨by rw [i1]; simp [hxn, hyn, hxi, hyi, hxz], fun _ => i3, fun _ _ => i2, by simp [hyi, hxz]⟩
    · have : x.div y = nan := by unfold div; simp [hxn, hyn, hxi, hyi]
      rw [this]
      exact ⟨by simp [nan_isNaN, hxi, hyi], by simp [nan_isNaN], by simp [nan_isNaN], by simp [nan_isNaN]⟩
  all_goals
    have : x.div y = nan := by unfold div; simp [hxn, hyn]
    rw [this]
    exact ⟨by simp [nan_isNaN, hxn, hyn], by simp [nan_isNaN], by simp [nan_isNaN], by simp [nan_isNaN]⟩

/-- Quotients with NaN, infinities and zeros; in particular division by zero. -/
theorem C41_quotient_special : ∀ π ∈ components, ∀ a k, QuotientSpecial (π a) k (π (a.div k)) :=
  components_scalar div_special _ fun _ _ => rfl

/-- One divided by minus zero is minus infinity; zero by zero is not a number. -/
example : ((Vector3Float.new F32.one F32.zero F32.one).div ⟨0x80000000⟩).x = ⟨0xFF800000⟩ ∧
    ((Vector3Float.new F32.one F32.zero F32.one).div ⟨0x80000000⟩).y.isNaN = true := by decide +kernel

/-- The dot product of vectors of whole numbers up to 2048 is exact. -/
theorem C41_dot_exact (a b : Vector3Float) (ax ay az bx b_y bz : Int)
    (hax : Whole a.x ax) (hay : Whole a.y ay) (haz : Whole a.z az)
    (hbx : Whole b.x bx) (hby : Whole b.y b_y) (hbz : Whole b.z bz)
    (hle : ∀ n ∈ [ax, ay, az, bx, b_y, bz], n.natAbs ≤ 2048) :
    Whole (a.dot b) (ax * bx + ay * b_y + az * bz) := by
  simp only [List.mem_cons, List.not_mem_nil, or_false, forall_eq_or_imp, forall_eq] at hle
  obtain ⟨l1, l2, l3, l4, l5, l6⟩ := hle
  have m1 := natAbs_mul_le l1 l4
  have m2 := natAbs_mul_le l2 l5
  have m3 := natAbs_mul_le l3 l6
  have s1 := whole_mul hay hby (by omega)
  have s2 := whole_mulAdd hax hbx s1 (by omega)
  have s3 := whole_mulAdd haz hbz s2 (by omega)
  rwa [show ax * bx + ay * b_y + az * bz = az * bz + (ax * bx + ay * b_y) by omega]

/-- So is the cross product. -/
theorem C41_cross_exact (a b : Vector3Float) (ax ay az bx b_y bz : Int)
    (hax : Whole a.x ax) (hay : Whole a.y ay) (haz : Whole a.z az)
    (hbx : Whole b.x bx) (hby : Whole b.y b_y) (hbz : Whole b.z bz)
    (hle : ∀ n ∈ [ax, ay, az, bx, b_y, bz], n.natAbs ≤ 2048) :
    Whole (a.cross b).x (ay * bz - az * b_y) ∧ Whole (a.cross b).y (az * bx - ax * bz) ∧
    Whole (a.cross b).z (ax * b_y - ay * bx) := by
  simp only [List.mem_cons, List.not_mem_nil, or_false, forall_eq_or_imp, forall_eq] at hle
  obtain ⟨l1, l2, l3, l4, l5, l6⟩ := hle
  have one {x y z w : F32} {n m k l : Int} (hx : Whole x n) (hy : Whole y m) (hz : Whole z k) (hw : Whole w l)
      (i1 : n.natAbs ≤ 2048) (i2 : m.natAbs ≤ 2048) (i3 : k.natAbs ≤ 2048) (i4 : l.natAbs ≤ 2048) :
      Whole (x.mulAdd y (z.mul w).negate) (n * m - k * l) := by
    have j1 := natAbs_mul_le i1 i2
    have j2 := natAbs_mul_le i3 i4
    rw [Int.sub_eq_add_neg]
    exact whole_mulAdd hx hy (whole_negate (whole_mul hz hw (by omega))) (by omega)
  exact ⟨one hay hbz haz hby l2 l6 l3 l5, one haz hbx hax hbz l3 l4 l1 l6, one hax hby hay hbx l1 l5 l2 l4⟩

/-- The vectors of the crate's unit test. -/
example : Whole ((Vector3Float.new ⟨0x3F800000⟩ ⟨0x40000000⟩ ⟨0x40400000⟩).dot
    (Vector3Float.new ⟨0x40800000⟩ ⟨0x40A00000⟩ ⟨0x40C00000⟩)) 32 :=
  C41_dot_exact _ _ 1 2 3 4 5 6 ⟨by decide, by decide +kernel⟩ ⟨by decide, by decide +kernel⟩ ⟨by decide, by decide +kernel⟩
    ⟨by decide, by decide +kernel⟩ ⟨by decide, by decide +kernel⟩ ⟨by decide, by decide +kernel⟩ (by decide)

/-! Laws, for all vectors including NaN and infinities (NaN results being the same NaN). -/

theorem add_comm (x y : F32) : x.add y = y.add x := by
  unfold add
  rw [Bool.or_comm y.isNaN, Bool.and_comm y.neg?, Int.add_comm y.value]
  split
  · rfl
  · by_cases h1 : x.isInf = true <;> by_cases h2 : y.isInf = true <;> simp [h1, h2]
    have hx : x.mag = infMag := by unfold isInf at h1; simpa using h1
    have hy : y.mag = infMag := by unfold isInf at h2; simpa using h2
    by_cases h3 : x.neg? = y.neg?
    · simp [h3]
      exact ext_mag h3 (by rw [hx, hy])
    · simp [h3, Ne.symm h3]

theorem mul_comm (x y : F32) : x.mul y = y.mul x := by
  unfold mul
  rw [Bool.or_comm y.isNaN, Bool.or_comm y.isInf, Bool.or_comm y.isZero, Nat.mul_comm y.units,
    show (y.neg? != x.neg?) = (x.neg? != y.neg?) from by cases x.neg? <;> cases y.neg? <;> rfl]

theorem mulAdd_comm (x y z : F32) : x.mulAdd y z = y.mulAdd x z := by
  unfold mulAdd
  rw [Bool.or_comm y.isNaN, Bool.or_comm y.isInf, Bool.or_comm y.isZero, Int.mul_comm y.value,
    show (y.neg? != x.neg?) = (x.neg? != y.neg?) from by cases x.neg? <;> cases y.neg? <;> rfl]

/-- Addition is commutative and the dot product symmetric, bit for bit. -/
theorem C41_commutative (a b : Vector3Float) : a.add b = b.add a ∧ a.dot b = b.dot a := by
  constructor
  · unfold Vector3Float.add
    rw [add_comm a.x, add_comm a.y, add_comm a.z]
  · unfold Vector3Float.dot
    rw [mulAdd_comm a.z, mulAdd_comm a.x, mul_comm a.y]

/-- A vector of numbers less itself is zero (+0 in every component). -/
theorem C41_self_difference (a : Vector3Float) (ha : a.Finite) : a.sub a = Vector3Float.zero := by
  have one {x : F32} (hx : x.isFinite = true) : x.sub x = F32.zero := by
    obtain ⟨a1, a2⟩ := finite_facts (isFinite_iff.mp hx)
    obtain ⟨n1, n2, n3⟩ := negate_facts x
    obtain ⟨b1, b2⟩ := finite_facts (x := x.negate) (by rw [n1]; exact isFinite_iff.mp hx)
    unfold sub add
    simp only [a1, a2, b1, b2, n2, n3, Bool.or_self, Bool.false_eq_true, if_false, Int.add_right_neg, if_true]
    cases x.neg? <;> rfl
  unfold Vector3Float.sub Vector3Float.zero
  rw [one ha.1, one ha.2.1, one ha.2.2]

/-- Scaling by 1 and dividing by 1 change nothing (a NaN component may change its payload). -/
theorem C41_scale_by_one (a : Vector3Float)
    (ha : a.x.isNaN = false ∧ a.y.isNaN = false ∧ a.z.isNaN = false) : a.mul .one = a ∧ a.div .one = a := by
  have f1 : F32.one.isNaN = false ∧ F32.one.isInf = false ∧ F32.one.isZero = false ∧ F32.one.neg? = false ∧
    F32.one.units = 2 ^ 149 := by decide +kernel
  obtain ⟨o1, o2, o3, o4, o5⟩ := f1
  have inf_eq {x : F32} (hi : x.isInf = true) : inf x.neg? = x := by
    unfold isInf at hi
    simp only [decide_eq_true_eq] at hi
    unfold inf
    rw [← hi]
    exact pack_self x
  have fin_eq {x : F32} (hn : x.isNaN = false) (hi : ¬ x.isInf = true) : x.mag < infMag := by
    unfold isNaN at hn
    unfold isInf at hi
    simp at hn hi
    omega
  have one {x : F32} (hx : x.isNaN = false) : x.mul .one = x := by
    unfold mul
    simp only [o1, o2, o3, o4, o5, hx, Bool.or_false, Bool.or_self, Bool.bne_false, Bool.false_eq_true, if_false]
    by_cases hi : x.isInf = true
    · have hz : x.isZero = false := by
        unfold isInf isZero at *
        simp only [decide_eq_true_eq] at hi
        rw [hi]; decide
      simp [hi, hz, inf_eq hi]
    · rw [if_neg hi, Nat.mul_comm]
      unfold units
      rw [roundMag_units (fin_eq hx hi) (two_pow_pos _)]
      exact pack_self x
  have one' {x : F32} (hx : x.isNaN = false) : x.div .one = x := by
    unfold div
    simp only [o1, o2, o3, o4, o5, hx, Bool.or_self, Bool.bne_false, Bool.false_eq_true, if_false]
    by_cases hi : x.isInf = true
    · simp [hi, inf_eq hi]
    · rw [if_neg hi, Nat.mul_comm]
      unfold units
      rw [roundMag_units (fin_eq hx hi) (two_pow_pos _)]
      exact pack_self x
  constructor
  · unfold Vector3Float.mul
    rw [one ha.1, one ha.2.1, one ha.2.2]; rfl
  · unfold Vector3Float.div
    rw [one' ha.1, one' ha.2.1, one' ha.2.2]; rfl

/-- The cross product of a vector with itself need not be zero: the two products it subtracts are rounded
differently. -/
theorem C41_cross_self_not_zero : ∃ v : Vector3Float, v.Finite ∧ v.cross v ≠ Vector3Float.zero ∧
    (v.cross v).x.isZero = false :=
  ⟨⟨⟨0⟩, ⟨0x3F800001⟩, ⟨0x3F800001⟩⟩, ⟨by decide, by decide, by decide⟩, by decide +kernel, by decide +kernel⟩

/-! ### Magnitude -/

theorem dot_self (v : Vector3Float) : v.dot v = ofMag (sumSq v) := sumSq_eq v

theorem value_pack_false {m : Nat} (h : m < 2147483648) : (pack false m).value = (unitsOf m : Int) := by
  unfold value
  rw [pack_neg h, pack_units h]
  simp

/-- The numbers with a value that is not negative, by their patterns. -/
theorem nonneg_value {y : F32} (h : 0 ≤ y.value) : y.value = (unitsOf y.mag : Int) := by
  rcases value_cases y with h1 | h1
  · exact h1
  · rw [h1] at h ⊢; omega

theorem mag_lt_of_units {m m' : Nat} (h : unitsOf m < unitsOf m') : m < m' := by
  rcases Nat.lt_or_ge m m' with h1 | h1
  · exact h1
  · have := unitsOf_mono h1; omega

theorem sqrtRounded_pack {r k : Nat} (hr : r < infMag)
    (hb : ∀ m, m < r → (unitsOf m + unitsOf r) * (unitsOf m + unitsOf r) < 4 * k)
    (ha : ∀ m, r < m → 4 * k < (unitsOf m + unitsOf r) * (unitsOf m + unitsOf r)) :
    SqrtRounded (pack false r) (k : Int) := by
  have h2 : r < 2147483648 := by unfold infMag at hr; omega
  refine ⟨?_, pack_neg h2, ?_, ?_⟩
  · unfold isFinite; rw [pack_mag h2]; simpa using hr
  · intro y _ hy0 hy
    rw [nonneg_value hy0, value_pack_false h2] at *
    have := hb y.mag (mag_lt_of_units (by omega))
    have e : ((unitsOf y.mag : Int) + (unitsOf r : Int)) * ((unitsOf y.mag : Int) + (unitsOf r : Int)) =
      (((unitsOf y.mag + unitsOf r) * (unitsOf y.mag + unitsOf r) : Nat) : Int) := by simp
    rw [e]
    generalize (unitsOf y.mag + unitsOf r) * (unitsOf y.mag + unitsOf r) = P at *
    omega
  · intro y _ hy
    rw [value_pack_false h2] at *
    rw [nonneg_value (y := y) (by omega)] at *
    have := ha y.mag (mag_lt_of_units (by omega))
    have e : ((unitsOf y.mag : Int) + (unitsOf r : Int)) * ((unitsOf y.mag : Int) + (unitsOf r : Int)) =
      (((unitsOf y.mag + unitsOf r) * (unitsOf y.mag + unitsOf r) : Nat) : Int) := by simp
    rw [e]
    generalize (unitsOf y.mag + unitsOf r) * (unitsOf y.mag + unitsOf r) = P at *
    omega

/-- The magnitude is the rounded square root of the dot product of the vector with itself (rounded as
`C41_dot_rounding` says). That is NaN exactly when a component is, and then so is the magnitude; when it is infinite, it is
positive, and so is the magnitude; and otherwise no number is as near to its square root as the magnitude is. -/
theorem C41_magnitude (v : Vector3Float) :
    ((v.dot v).isNaN = true ↔ v.x.isNaN = true ∨ v.y.isNaN = true ∨ v.z.isNaN = true) ∧
    ((v.dot v).isNaN = true → v.magnitude.isNaN = true) ∧
    ((v.dot v).isInf = true → (v.dot v).neg? = false ∧ v.magnitude = v.dot v) ∧
    ((v.dot v).isFinite = true → SqrtRounded v.magnitude ((v.dot v).value * 2 ^ 149)) := by
  have hnan : sumSq v = none ↔ v.x.isNaN = true ∨ v.y.isNaN = true ∨ v.z.isNaN = true := by
    unfold sumSq fmaOpt
    cases hy : v.y.isNaN <;> cases hi : v.y.isInf <;> cases hx : v.x.isNaN <;> cases hxi : v.x.isInf <;>
      cases hz : v.z.isNaN <;> cases hzi : v.z.isInf <;> simp
  rw [dot_self, magnitude_eq, ← hnan]
  have hle := sumSq_le v
  cases h : sumSq v with
  | none =>
    refine ⟨by simp [ofMag, nan_facts.1], fun _ => by simp [ofMag, nan_facts.1], ?_, ?_⟩
    · intro h; exact absurd h (by decide)
    · intro h; exact absurd h (by decide)
  | some m =>
    have hm := hle m h
    obtain ⟨p1, p2, p3, p4⟩ := pack_facts (neg := false) hm
    have h2 : m < 2147483648 := by unfold infMag at hm; omega
    simp only [ofMag, Option.map_some]
    refine ⟨by simp [p1], by simp [p1], ?_, ?_⟩
    · intro hi
      rw [p2] at hi
      have hi : m = infMag := by simpa using hi
      subst hi
      exact ⟨p4, by decide⟩
    · intro hf
      rw [isFinite_iff, pack_mag h2] at hf
      rw [value_pack_false h2, ← cast_pow, ← Int.natCast_mul]
      by_cases h0 : m = 0
      · subst h0
        refine sqrtRounded_pack (r := 0) (by decide) (fun m h => by omega) (fun m h => ?_)
        have e0 : unitsOf 0 = 0 := by decide
        have hp := unitsOf_pos h
        rw [e0, Nat.zero_mul]
        exact Nat.mul_pos (by omega) (by omega)
      · have hr := roundSqrt_nearest (w := m) (by omega) hf
        have hmm : magnMag m = roundSqrt (unitsOf m * 2 ^ 149) := by
          unfold magnMag
          rw [if_neg h0, if_neg (by omega)]
        rw [hmm]
        exact sqrtRounded_pack (hr 0).2.2 (fun k => (hr k).1) (fun k => (hr k).2.1)

/-- The specification of the square root leaves no choice. -/
theorem C41_root_determined {r r' : F32} {k : Int} (h : SqrtRounded r k) (h' : SqrtRounded r' k) : r = r' := by
  have nn {r : F32} (h : SqrtRounded r k) : r.value = (unitsOf r.mag : Int) := by
    unfold value units
    rw [h.positive]
    simp
  have no {r r' : F32} (h : SqrtRounded r k) (h' : SqrtRounded r' k) : ¬ r.value < r'.value := by
    intro hlt
    have h1 := h.above r' h'.number hlt
    have h2 := h'.below r h.number (by rw [nn h]; omega) hlt
    rw [Int.add_comm r.value] at h2
    generalize (r'.value + r.value) * (r'.value + r.value) = P at *
    omega
  have e : r.value = r'.value := by
    have := no h h'
    have := no h' h
    omega
  rw [nn h, nn h'] at e
  refine ext_mag (h.positive.trans h'.positive.symm) ?_
  rcases Nat.lt_trichotomy r.mag r'.mag with hl | hl | hl
  · have := unitsOf_strict hl (isFinite_iff.mp h'.number); omega
  · exact hl
  · have := unitsOf_strict hl (isFinite_iff.mp h.number); omega

/-- Pythagoras: (3, 4, 0) has magnitude 5. -/
example : (⟨⟨0x40400000⟩, ⟨0x40800000⟩, ⟨0⟩⟩ : Vector3Float).magnitude = ⟨0x40A00000⟩ := by decide +kernel

/-! ### Normalisation -/

/-- `normalize` gives nothing exactly when every component is at most 2^-75 in magnitude (pattern
0x1A000000): the zero vector, but also non-zero vectors whose squares all underflow. -/
theorem C41_normalize_none_iff (v : Vector3Float) :
    v.normalize = none ↔ v.x.mag ≤ 0x1A000000 ∧ v.y.mag ≤ 0x1A000000 ∧ v.z.mag ≤ 0x1A000000 := by
  have hnone : v.normalize = none ↔ sumSq v = some 0 := by
    unfold Vector3Float.normalize
    rw [magnitude_eq]
    have hle := sumSq_le v
    cases h : sumSq v with
    | none => simp [ofMag, F32.eq, nan_facts.1]
    | some m =>
      have hm := magnMag_le m
      obtain ⟨p1, p2, p3, p4⟩ := pack_facts (neg := false) hm
      simp only [Option.map_some, ofMag, F32.eq, p1, p3]
      have hz : F32.zero.isNaN = false ∧ F32.zero.isZero = true := by decide
      simp only [hz, Bool.or_self, Bool.false_eq_true, if_false, Bool.and_true, decide_eq_true_eq,
        magnMag_eq_zero, Option.some.injEq]
      by_cases h0 : m = 0
      · simp [h0]
      · simp only [h0, if_false, iff_false]
        rw [if_neg]
        · simp
        · intro hb
          apply h0
          rw [← magnMag_eq_zero]
          have h1 : (pack false (magnMag m)).mag = (F32.zero).mag := by
            unfold mag; rw [of_decide_eq_true hb]
          rw [pack_mag (by unfold infMag at hm; omega)] at h1
          exact h1
  rw [hnone]
  have small {u m : Nat} (hm : m < infMag) (hu : unitsOf m = u) : 2 * (u * u) ≤ 2 ^ 149 ↔ m ≤ 0x1A000000 := by
    have hb : unitsOf 0x1A000000 = 2 ^ 74 := by decide +kernel
    have hp : (2 : Nat) ^ 149 = 2 * (2 ^ 74 * 2 ^ 74) := by decide +kernel
    rw [hp]
    have : 2 * (u * u) ≤ 2 * (2 ^ 74 * 2 ^ 74) ↔ u ≤ 2 ^ 74 := by
      rw [← sq_le (a := u)]
      generalize u * u = a
      generalize 2 ^ 74 * 2 ^ 74 = b
      omega
    rw [this, ← hu, ← hb]
    constructor
    · intro h
      rcases Nat.lt_or_ge 0x1A000000 m with h1 | h1
      · have := unitsOf_strict h1 hm
        omega
      · exact h1
    · exact unitsOf_mono
  have hfinite : sumSq v = some 0 → allFinite v := by
    intro h
    have hi : infMag ≠ 0 := by decide
    unfold sumSq fmaOpt at h
    refine ⟨?_, ?_, ?_⟩
    all_goals
      rcases hxn : v.x.isNaN with _ | _ <;> rcases hxi : v.x.isInf with _ | _ <;>
      rcases hyn : v.y.isNaN with _ | _ <;> rcases hyi : v.y.isInf with _ | _ <;>
      rcases hzn : v.z.isNaN with _ | _ <;> rcases hzi : v.z.isInf with _ | _ <;>
      simp [hxn, hxi, hyn, hyi, hzn, hzi, hi, fmaMag] at h
      all_goals
        simp only [isNaN, isInf, decide_eq_false_iff_not] at hxn hxi hyn hyi hzn hzi
        omega
  constructor
  · intro h
    have hf := hfinite h
    rw [sumSq_finite hf] at h
    simp only [Option.some.injEq] at h
    have hd := two_pow_pos 149
    have g1 := fmaMag_ge_left v.z.units (fmaMag v.x.units (roundMag (v.y.units * v.y.units) (2 ^ 149)))
    have g2 := fmaMag_ge_right v.z.units (m := fmaMag v.x.units (roundMag (v.y.units * v.y.units) (2 ^ 149))) (fmaMag_le ..)
    have g3 := fmaMag_ge_left v.x.units (roundMag (v.y.units * v.y.units) (2 ^ 149))
    have g4 := fmaMag_ge_right v.x.units (m := roundMag (v.y.units * v.y.units) (2 ^ 149)) (roundMag_le ..)
    have z1 : roundMag (v.z.units * v.z.units) (2 ^ 149) = 0 := by omega
    have z2 : roundMag (v.x.units * v.x.units) (2 ^ 149) = 0 := by omega
    have z3 : roundMag (v.y.units * v.y.units) (2 ^ 149) = 0 := by omega
    rw [roundMag_eq_zero hd] at z1 z2 z3
    exact ⟨(small hf.1 rfl).mp z2, (small hf.2.1 rfl).mp z3, (small hf.2.2 rfl).mp z1⟩
  · intro ⟨h1, h2, h3⟩
    have hi : 0x1A000000 < infMag := by decide
    have hf : allFinite v := ⟨by omega, by omega, by omega⟩
    have hd := two_pow_pos 149
    have hi0 : (0 : Nat) ≠ infMag := by decide
    have h00 : unitsOf 0 = 0 := by decide
    have z1 := (roundMag_eq_zero hd).mpr ((small hf.1 rfl).mpr h1)
    have z2 := (roundMag_eq_zero hd).mpr ((small hf.2.1 rfl).mpr h2)
    have z3 := (roundMag_eq_zero hd).mpr ((small hf.2.2 rfl).mpr h3)
    change roundMag (v.x.units * v.x.units) (2 ^ 149) = 0 at z1
    change roundMag (v.y.units * v.y.units) (2 ^ 149) = 0 at z2
    change roundMag (v.z.units * v.z.units) (2 ^ 149) = 0 at z3
    rw [sumSq_finite hf, z2]
    unfold fmaMag
    simp only [hi0, if_false, h00, Nat.zero_mul, Nat.add_zero, z1, z3]

/-- In particular some vectors that are not zero cannot be normalised. -/
example : (⟨⟨0x1A000000⟩, ⟨0⟩, ⟨0x80000001⟩⟩ : Vector3Float).normalize = none :=
  (C41_normalize_none_iff _).mpr (by decide)

/-- With a NaN component the magnitude is NaN, so `normalize` gives a vector of NaNs. -/
theorem C41_normalize_nan (v : Vector3Float)
    (h : v.x.isNaN = true ∨ v.y.isNaN = true ∨ v.z.isNaN = true) :
    ∃ n, v.normalize = some n ∧ n.x.isNaN = true ∧ n.y.isNaN = true ∧ n.z.isNaN = true := by
  have hs : sumSq v = none := by
    unfold sumSq fmaOpt
    rcases h with h | h | h
    · cases hy : v.y.isNaN <;> cases hi : v.y.isInf <;> simp [h]
    · simp [h]
    · cases hy : v.y.isNaN <;> cases hi : v.y.isInf <;> cases hx : v.x.isNaN <;> cases hxi : v.x.isInf <;> simp [h]
  have hm : v.magnitude = nan := by rw [magnitude_eq, hs]; rfl
  have hd (x : F32) : (x.div nan).isNaN = true := by
    unfold div
    simp [nan_facts.1]
  have hne : nan.eq F32.zero = false := by decide
  refine ⟨⟨v.x.div nan, v.y.div nan, v.z.div nan⟩, ?_, hd _, hd _, hd _⟩
  unfold Vector3Float.normalize
  rw [hm]
  simp [hne, Vector3Float.new]

theorem div_inf {x : F32} (hx : x.isFinite = true) : (x.div (inf false)).isZero = true := by
  obtain ⟨a1, a2⟩ := finite_facts (isFinite_iff.mp hx)
  have hf : (inf false).isNaN = false ∧ (inf false).isInf = true := by decide
  unfold div
  simp only [a1, a2, hf, Bool.or_self, Bool.false_eq_true, if_false, if_true]
  cases x.neg? <;> cases (inf false).neg? <;> decide

theorem magnitude_inf_of {v : Vector3Float} (h : sumSq v = some infMag) : v.magnitude = inf false := by
  rw [magnitude_eq, h]
  rfl

theorem normalize_of_inf {v : Vector3Float} (hv : v.Finite) (h : v.magnitude = inf false) :
    ∃ n, v.normalize = some n ∧ n.x.isZero = true ∧ n.y.isZero = true ∧ n.z.isZero = true := by
  have hne : (inf false).eq F32.zero = false := by decide
  refine ⟨⟨v.x.div (inf false), v.y.div (inf false), v.z.div (inf false)⟩, ?_, div_inf hv.1, div_inf hv.2.1,
    div_inf hv.2.2⟩
  unfold Vector3Float.normalize
  rw [h]
  simp [hne, Vector3Float.new]

/-- A number as large as 2^64 (pattern 0x5F800000) in some component overflows the magnitude: the
"normalised" vector is zero. -/
theorem C41_normalize_overflow (v : Vector3Float) (hv : v.Finite)
    (h : 0x5F800000 ≤ v.x.mag ∨ 0x5F800000 ≤ v.y.mag ∨ 0x5F800000 ≤ v.z.mag) :
    ∃ n, v.normalize = some n ∧ n.x.isZero = true ∧ n.y.isZero = true ∧ n.z.isZero = true := by
  have big {m : Nat} (h : 0x5F800000 ≤ m) : roundMag (unitsOf m * unitsOf m) (2 ^ 149) = infMag := by
    have h1 := unitsOf_mono h
    have h2 := roundMag_mono (two_pow_pos 149) (Nat.mul_le_mul h1 h1)
    have h3 : roundMag (unitsOf 0x5F800000 * unitsOf 0x5F800000) (2 ^ 149) = infMag := by decide +kernel
    have := roundMag_le (unitsOf m * unitsOf m) (2 ^ 149)
    omega
  refine normalize_of_inf hv (magnitude_inf_of ?_)
  rw [sumSq_finite hv.all]
  congr 1
  have g1 := fmaMag_ge_left v.z.units (fmaMag v.x.units (roundMag (v.y.units * v.y.units) (2 ^ 149)))
  have g2 := fmaMag_ge_right v.z.units (m := fmaMag v.x.units (roundMag (v.y.units * v.y.units) (2 ^ 149))) (fmaMag_le ..)
  have g3 := fmaMag_ge_left v.x.units (roundMag (v.y.units * v.y.units) (2 ^ 149))
  have g4 := fmaMag_ge_right v.x.units (m := roundMag (v.y.units * v.y.units) (2 ^ 149)) (roundMag_le ..)
  have g5 := fmaMag_le v.z.units (fmaMag v.x.units (roundMag (v.y.units * v.y.units) (2 ^ 149)))
  rcases h with h | h | h
  · have := big h
    change roundMag (v.x.units * v.x.units) (2 ^ 149) = infMag at this
    omega
  · have := big h
    change roundMag (v.y.units * v.y.units) (2 ^ 149) = infMag at this
    omega
  · have := big h
    change roundMag (v.z.units * v.z.units) (2 ^ 149) = infMag at this
    omega

/-- All that is needed about a finite vector with a component of at least 2^-63: its magnitude has a pattern
`R`, at least that of every component. -/
theorem magnitude_dominates {v : Vector3Float} (hv : v.Finite)
    (h : 0x20000000 ≤ v.x.mag ∨ 0x20000000 ≤ v.y.mag ∨ 0x20000000 ≤ v.z.mag) :
    ∃ M, sumSq v = some M ∧ M ≤ infMag ∧ 0 < M ∧ v.magnitude = pack false (magnMag M) ∧
      v.x.mag ≤ magnMag M ∧ v.y.mag ≤ magnMag M ∧ v.z.mag ≤ magnMag M := by
  have hf := hv.all
  have hs := sumSq_finite hf
  have g1 := fmaMag_ge_left v.z.units (fmaMag v.x.units (roundMag (v.y.units * v.y.units) (2 ^ 149)))
  have g2 := fmaMag_ge_right v.z.units (m := fmaMag v.x.units (roundMag (v.y.units * v.y.units) (2 ^ 149))) (fmaMag_le ..)
  have g3 := fmaMag_ge_left v.x.units (roundMag (v.y.units * v.y.units) (2 ^ 149))
  have g4 := fmaMag_ge_right v.x.units (m := roundMag (v.y.units * v.y.units) (2 ^ 149)) (roundMag_le ..)
  have hle := fmaMag_le v.z.units (fmaMag v.x.units (roundMag (v.y.units * v.y.units) (2 ^ 149)))
  have hme := magnitude_eq v
  rw [hs] at hme
  refine ⟨_, hs, hle, ?_, hme, ?_⟩
  all_goals
    generalize hM : fmaMag v.z.units (fmaMag v.x.units (roundMag (v.y.units * v.y.units) (2 ^ 149))) = M at *
  · rcases Nat.eq_zero_or_pos M with h0 | h0
    · subst h0
      have := (C41_normalize_none_iff v).mp (by
        unfold Vector3Float.normalize
        rw [hme]
        rfl)
      omega
    · exact h0
  · -- a component of at least 2^-63 is dominated
    have dom {m : Nat} (h1 : 0x20000000 ≤ m) (h2 : m < infMag)
        (h3 : roundMag (unitsOf m * unitsOf m) (2 ^ 149) ≤ M) : m ≤ magnMag M := by
      have hM0 : M ≠ 0 := by
        intro h0
        have h4 : roundMag (unitsOf m * unitsOf m) (2 ^ 149) = 0 := by omega
        have h5 := roundMag_mono (two_pow_pos 149) (Nat.mul_le_mul (unitsOf_mono h1) (unitsOf_mono h1))
        have h6 : 0 < roundMag (unitsOf 0x20000000 * unitsOf 0x20000000) (2 ^ 149) := by decide +kernel
        omega
      unfold magnMag
      rw [if_neg hM0]
      split
      · omega
      · exact sqrt_square_ge (by omega) h2 h3 (by omega)
    have dx : 0x20000000 ≤ v.x.mag → v.x.mag ≤ magnMag M := fun h => dom h hf.1 (by
      change roundMag (v.x.units * v.x.units) (2 ^ 149) ≤ M; omega)
    have dy : 0x20000000 ≤ v.y.mag → v.y.mag ≤ magnMag M := fun h => dom h hf.2.1 (by
      change roundMag (v.y.units * v.y.units) (2 ^ 149) ≤ M; omega)
    have dz : 0x20000000 ≤ v.z.mag → v.z.mag ≤ magnMag M := fun h => dom h hf.2.2 (by
      change roundMag (v.z.units * v.z.units) (2 ^ 149) ≤ M; omega)
    omega

theorem div_bounded {x : F32} {R : Nat} (hx : x.isFinite = true) (hR : R ≤ infMag) (h0 : 0 < R)
    (h : x.mag ≤ R) : (x.div (pack false R)).mag ≤ F32.one.mag ∧ (x.div (pack false R)).neg? = x.neg? := by
  obtain ⟨a1, a2⟩ := finite_facts (isFinite_iff.mp hx)
  obtain ⟨p1, p2, p3, p4⟩ := pack_facts (neg := false) hR
  have hR2 : R < 2147483648 := by unfold infMag at hR; omega
  unfold div
  simp only [a1, a2, p1, p2, p3, p4, Bool.or_self, Bool.false_eq_true, if_false, Bool.bne_false, pack_units hR2,
    decide_eq_true_eq]
  have hR0 : R ≠ 0 := by omega
  rw [if_neg hR0]
  split
  · rw [pack_mag (by decide), pack_neg (by decide)]
    exact ⟨Nat.zero_le _, rfl⟩
  · have hlt := roundMag_lt (x.units * 2 ^ 149) (unitsOf R)
    rw [pack_mag hlt, pack_neg hlt]
    refine ⟨?_, rfl⟩
    have hu : x.units ≤ unitsOf R := unitsOf_mono h
    have h1 := roundMag_mono (unitsOf_pos h0) (Nat.mul_le_mul_right (2 ^ 149) hu)
    have h2 := roundMag_units (m := F32.one.mag) (den := unitsOf R) (by decide) (unitsOf_pos h0)
    have h3 : unitsOf F32.one.mag = 2 ^ 149 := by decide +kernel
    rw [h3] at h2
    omega

theorem normalize_of_magnitude {v : Vector3Float} {R : Nat} (hR : R ≤ infMag) (h0 : 0 < R)
    (h : v.magnitude = pack false R) : v.normalize =
      some ⟨v.x.div (pack false R), v.y.div (pack false R), v.z.div (pack false R)⟩ := by
  unfold Vector3Float.normalize
  rw [h]
  have hne : (pack false R).eq F32.zero = false := by
    obtain ⟨p1, p2, p3, p4⟩ := pack_facts (neg := false) hR
    have hz : F32.zero.isNaN = false ∧ F32.zero.isZero = true := by decide
    unfold F32.eq
    simp only [p1, p3, hz, Bool.or_self, Bool.false_eq_true, if_false, Bool.and_true, decide_eq_true_eq]
    rw [if_neg (by omega)]
    rw [decide_eq_false_iff_not]
    intro hb
    have h1 : (pack false R).mag = (F32.zero).mag := by unfold mag; rw [hb]
    rw [pack_mag (by unfold infMag at hR; omega)] at h1
    change R = 0 at h1
    omega
  simp [hne, Vector3Float.new]

/-- When the largest component is at least 2^-63 (pattern 0x20000000), every component of the normalised
vector lies in [-1, 1] and has the sign of the component it came from. -/
theorem C41_normalize_bounded (v : Vector3Float) (hv : v.Finite)
    (h : 0x20000000 ≤ v.x.mag ∨ 0x20000000 ≤ v.y.mag ∨ 0x20000000 ≤ v.z.mag) :
    ∃ n, v.normalize = some n ∧
      n.x.mag ≤ F32.one.mag ∧ n.y.mag ≤ F32.one.mag ∧ n.z.mag ≤ F32.one.mag ∧
      n.x.neg? = v.x.neg? ∧ n.y.neg? = v.y.neg? ∧ n.z.neg? = v.z.neg? := by
  obtain ⟨M, _, hM, hM0, hm, hx, hy, hz⟩ := magnitude_dominates hv h
  have h0 : 0 < magnMag M := by
    have := magnMag_eq_zero (m := M)
    omega
  have hle := magnMag_le M
  obtain ⟨x1, x2⟩ := div_bounded hv.1 hle h0 hx
  obtain ⟨y1, y2⟩ := div_bounded hv.2.1 hle h0 hy
  obtain ⟨z1, z2⟩ := div_bounded hv.2.2 hle h0 hz
  exact ⟨_, normalize_of_magnitude hle h0 hm, x1, y1, z1, x2, y2, z2⟩

/-- Below that it fails: here the only component is 1.3 · 2^-74, and its "normalised" value exceeds 1. -/
theorem C41_normalize_unbounded : ∃ v n : Vector3Float, v.Finite ∧ v.normalize = some n ∧
    F32.one.mag < n.x.mag ∧ n.x.isFinite = true :=
  ⟨⟨⟨0x1AA66666⟩, ⟨0⟩, ⟨0⟩⟩, ((⟨⟨0x1AA66666⟩, ⟨0⟩, ⟨0⟩⟩ : Vector3Float).normalize).getD .zero,
    ⟨by decide, by decide, by decide⟩, by decide +kernel, by decide +kernel, by decide +kernel⟩

/-- When the largest component is between 2^-63 and 2^63, nothing overflows: the square of the magnitude is
within 2^-21 of the sum of the squares, and the sum of the squares of the normalised vector is within 2^-20
of 1. -/
theorem C41_normalize_unit_length (v : Vector3Float) (hv : v.Finite)
    (h : 0x20000000 ≤ v.x.mag ∨ 0x20000000 ≤ v.y.mag ∨ 0x20000000 ≤ v.z.mag)
    (hu : v.x.mag ≤ 0x5F000000 ∧ v.y.mag ≤ 0x5F000000 ∧ v.z.mag ≤ 0x5F000000) :
    ∃ n, v.normalize = some n ∧ n.Finite ∧
      16777216 * (v.magnitude.units * v.magnitude.units) ≤ 16777224 * v.sumOfSquares ∧
      16777208 * v.sumOfSquares ≤ 16777216 * (v.magnitude.units * v.magnitude.units) ∧
      1048576 * n.sumOfSquares ≤ 1048577 * (F32.one.units * F32.one.units) ∧
      1048575 * (F32.one.units * F32.one.units) ≤ 1048576 * n.sumOfSquares := by
  have hone : F32.one.units = 2 ^ 149 := by decide +kernel
  have hf := hv.all
  obtain ⟨M, hs, hM, hM0, hm, hx, hy, hz⟩ := magnitude_dominates hv h
  have hR0 : 0 < magnMag M := by
    have := magnMag_eq_zero (m := M)
    omega
  have hRle := magnMag_le M
  rw [sumSq_finite hf] at hs
  simp only [Option.some.injEq] at hs
  -- the size of the squares
  have up {x : F32} (hx : x.mag ≤ 0x5F000000) : x.units * x.units ≤ 2 ^ 212 * 2 ^ 212 := by
    have h1 : x.units ≤ unitsOf 0x5F000000 := unitsOf_mono hx
    have h2 : unitsOf 0x5F000000 = 2 ^ 212 := by decide +kernel
    rw [h2] at h1
    exact Nat.mul_le_mul h1 h1
  have ux := up hu.1
  have uy := up hu.2.1
  have uz := up hu.2.2
  have hlow : 2 ^ 149 * 8388608 ≤ v.x.units * v.x.units + v.y.units * v.y.units + v.z.units * v.z.units := by
    have lo {x : F32} (hx : 0x20000000 ≤ x.mag) : 2 ^ 149 * 8388608 ≤ x.units * x.units := by
      have h1 : unitsOf 0x20000000 ≤ x.units := unitsOf_mono hx
      have h2 : unitsOf 0x20000000 = 2 ^ 86 := by decide +kernel
      rw [h2] at h1
      exact Nat.le_trans (by decide +kernel) (Nat.mul_le_mul h1 h1)
    rcases h with h | h | h
    · have := lo h
      generalize v.x.units * v.x.units = a at *
      generalize 2 ^ 149 = D at *
      omega
    · have := lo h
      generalize v.y.units * v.y.units = a at *
      generalize 2 ^ 149 = D at *
      omega
    · have := lo h
      generalize v.z.units * v.z.units = a at *
      generalize 2 ^ 149 = D at *
      omega
  obtain ⟨f1, f2, f3⟩ := sumSq_finite_steps ux uy uz (by decide +kernel) (by decide +kernel)
  have hcl := sumSq_close hlow f1 f2 f3
  have hMe : M = roundMag (v.z.units * v.z.units + unitsOf (roundMag (v.x.units * v.x.units +
      unitsOf (roundMag (v.y.units * v.y.units) (2 ^ 149)) * 2 ^ 149) (2 ^ 149)) * 2 ^ 149) (2 ^ 149) := by
    rw [← hs]
    unfold fmaMag
    rw [if_neg (Nat.ne_of_lt f1), if_neg (Nat.ne_of_lt f2)]
  rw [← hMe] at hcl f3
  have hRe : magnMag M = roundSqrt (unitsOf M * 2 ^ 149) := by
    unfold magnMag
    rw [if_neg (by omega), if_neg (by omega)]
  rw [Nat.mul_comm (2 ^ 149)] at hcl
  have hk1 : 2 ^ 64 ≤ unitsOf M * 2 ^ 149 :=
    Nat.le_trans (by decide +kernel) (Nat.le_mul_of_pos_left (2 ^ 149) (unitsOf_pos hM0))
  have hk2 : unitsOf M * 2 ^ 149 < 2 ^ 214 * 2 ^ 214 := by
    have hMm : M ≤ 2139095039 := by unfold infMag at f3; omega
    refine Nat.lt_of_le_of_lt (Nat.mul_le_mul_right (2 ^ 149) (unitsOf_mono hMm)) ?_
    decide +kernel
  have hRf := roundSqrt_finite hk2
  obtain ⟨q1, q2, q3⟩ := roundSqrt_close hk1 hRf
  rw [← hRe] at q1 q2 q3 hRf
  obtain ⟨m1, m2⟩ := magnitude_arith hcl.1 hcl.2 q1 q2
  have hR2 : magnMag M < 2147483648 := by unfold infMag at hRf; omega
  -- the quotients
  have quot {x : F32} (hx : x.isFinite = true) (hxm : x.mag ≤ magnMag M) :
      (x.div (pack false (magnMag M))).isFinite = true ∧
      (x.div (pack false (magnMag M))).units = unitsOf (roundMag (x.units * 2 ^ 149) (unitsOf (magnMag M))) ∧
      roundMag (x.units * 2 ^ 149) (unitsOf (magnMag M)) < infMag := by
    obtain ⟨b1, _⟩ := div_bounded hx hRle hR0 hxm
    obtain ⟨a1, a2⟩ := finite_facts (isFinite_iff.mp hx)
    obtain ⟨p1, p2, p3, p4⟩ := pack_facts (neg := false) hRle
    have hlt := roundMag_lt (x.units * 2 ^ 149) (unitsOf (magnMag M))
    have hone' : F32.one.mag < infMag := by decide
    have hval : x.div (pack false (magnMag M)) =
        pack x.neg? (roundMag (x.units * 2 ^ 149) (unitsOf (magnMag M))) := by
      unfold div
      simp only [a1, a2, p1, p2, p3, p4, Bool.or_self, Bool.false_eq_true, if_false, Bool.bne_false, pack_units hR2,
        decide_eq_true_eq]
      rw [if_neg (Nat.ne_of_lt hRf), if_neg (Nat.ne_of_gt hR0)]
    rw [hval, pack_mag hlt] at b1
    have hfin : roundMag (x.units * 2 ^ 149) (unitsOf (magnMag M)) < infMag := Nat.lt_of_le_of_lt b1 hone'
    rw [hval]
    exact ⟨isFinite_iff.mpr (by rwa [pack_mag hlt]), pack_units hlt, hfin⟩
  obtain ⟨nx, nx1, nx2⟩ := quot hv.1 hx
  obtain ⟨ny, ny1, ny2⟩ := quot hv.2.1 hy
  obtain ⟨nz, nz1, nz2⟩ := quot hv.2.2 hz
  refine ⟨_, normalize_of_magnitude hRle hR0 hm, ⟨nx, ny, nz⟩, ?_⟩
  rw [hm, pack_units hR2]
  refine ⟨m1, m2, ?_⟩
  have hr : 0 < unitsOf (magnMag M) := unitsOf_pos hR0
  have cx := div_close hr nx2
  have cy := div_close hr ny2
  have cz := div_close hr nz2
  have hZ : 2 ^ 73 * 17592186044416 ≤ 2 ^ 149 * 2 ^ 149 := by decide +kernel
  unfold Vector3Float.sumOfSquares
  simp only [nx1, ny1, nz1, hone]
  obtain ⟨t1, t2⟩ := three_quotients cx cy cz
  exact unit_length_arith (Nat.mul_pos hr hr) hZ m1 m2 t1 t2

/-- A vector that meets these hypotheses: (3, 4, 12), of magnitude 13. -/
example : ∃ n, (⟨⟨0x40400000⟩, ⟨0x40800000⟩, ⟨0x41400000⟩⟩ : Vector3Float).normalize = some n ∧
    n.Finite ∧ 1048575 * (F32.one.units * F32.one.units) ≤ 1048576 * n.sumOfSquares := by
  obtain ⟨n, h1, h2, _, _, _, h3⟩ := C41_normalize_unit_length ⟨⟨0x40400000⟩, ⟨0x40800000⟩, ⟨0x41400000⟩⟩
    ⟨by decide, by decide, by decide⟩ (by decide) (by decide)
  exact ⟨n, h1, h2, h3⟩

/-- The vector (3, 4, 12) is finite; so is (1, 2, 3). -/
example := C41_sum ⟨⟨0x40400000⟩, ⟨0x40800000⟩, ⟨0x41400000⟩⟩ ⟨⟨0x3F800000⟩, ⟨0x40000000⟩, ⟨0x40400000⟩⟩
  ⟨by decide, by decide, by decide⟩ ⟨by decide, by decide, by decide⟩
example := C41_dot_rounding ⟨⟨0x40400000⟩, ⟨0x40800000⟩, ⟨0x41400000⟩⟩ ⟨⟨0x3F800000⟩, ⟨0x40000000⟩, ⟨0x40400000⟩⟩
  ⟨by decide, by decide, by decide⟩ ⟨by decide, by decide, by decide⟩
example := C41_cross_rounding ⟨⟨0x40400000⟩, ⟨0x40800000⟩, ⟨0x41400000⟩⟩ ⟨⟨0x3F800000⟩, ⟨0x40000000⟩, ⟨0x40400000⟩⟩
  ⟨by decide, by decide, by decide⟩ ⟨by decide, by decide, by decide⟩
example := C41_self_difference ⟨⟨0x40400000⟩, ⟨0x40800000⟩, ⟨0x41400000⟩⟩ ⟨by decide, by decide, by decide⟩
example := C41_scale_by_one ⟨⟨0x40400000⟩, ⟨0x7F800000⟩, ⟨0x80000000⟩⟩ ⟨by decide, by decide, by decide⟩
example := C41_normalize_nan ⟨⟨0x40400000⟩, ⟨0x7FC00000⟩, ⟨0⟩⟩ (by decide)
example := C41_normalize_overflow ⟨⟨0x40400000⟩, ⟨0x5F800000⟩, ⟨0⟩⟩ ⟨by decide, by decide, by decide⟩ (by decide)
example := C41_normalize_bounded ⟨⟨0x40400000⟩, ⟨0x40800000⟩, ⟨0⟩⟩ ⟨by decide, by decide, by decide⟩ (by decide)
/-- 1 + 2: what `C41_rounding_determined` says there is one of. -/
example : ∃ r, Rounded r (F32.one.value + F32.one.value) 1 ∧ F32.one.value + F32.one.value ≠ 0 :=
  ⟨_, (C41_sum ⟨F32.one, F32.one, F32.one⟩ ⟨F32.one, F32.one, F32.one⟩ ⟨by decide, by decide, by decide⟩
    ⟨by decide, by decide, by decide⟩).1, by decide +kernel⟩

end Dis
