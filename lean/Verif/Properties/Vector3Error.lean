import Verif.Properties.Vector3Special
/-
C41: how far dot and cross products are from the exact ones.
-/
namespace Dis
open F32

/-- A number rounded from `num / den` units is off by at most 2^-24 of it, or half a unit. -/
theorem Rounded.error {r : F32} {num : Int} {den : Nat} (hd : 0 < den) (h : Rounded r num den) (hf : r.isFinite = true) :
    16777216 * ((den : Int) * r.value - num).natAbs ≤ num.natAbs + 8388608 * den := by
  have key := rounded_round (num := num) hd
  -- the number nearest to `num / den` that `round` gives
  have hm : roundMag num.natAbs den < infMag := by
    have hni : (round num den).isInf = false := by
      have : r.isInf = false := (finite_not hf).2
      cases hi : (round num den).isInf
      · rfl
      · have := h.overflow.mpr (key.overflow.mp hi); simp_all
    have hl := roundMag_lt num.natAbs den
    have hle := roundMag_le num.natAbs den
    have : roundMag num.natAbs den ≠ infMag := by
      intro e
      have : (round num den).isInf = true := by
        unfold round isInf; rw [pack_mag hl, e]; decide
      rw [this] at hni; cases hni
    omega
  have hfin : (round num den).isFinite = true := by
    rw [isFinite_iff]; unfold round; rw [pack_mag (roundMag_lt _ _)]; exact hm
  have near := h.nearest hf _ hfin
  have hv : (round num den).value = if num < 0 then -(unitsOf (roundMag num.natAbs den) : Int) else
      (unitsOf (roundMag num.natAbs den) : Int) := by
    unfold round
    rw [value_pack (roundMag_lt _ _)]
    by_cases hn : num < 0 <;> simp [hn]
  obtain ⟨_, e1, e2⟩ := roundMag_error hd hm
  have hs : 16777216 * (den * 2 ^ scale num.natAbs den) ≤ 2 * num.natAbs + 16777216 * den := by
    rcases Nat.eq_zero_or_pos (scale num.natAbs den) with h0 | h0
    · rw [h0, Nat.pow_zero, Nat.mul_one]; omega
    · have := scale_lower num.natAbs hd h0
      omega
  have e3 : ((den : Int) * (round num den).value - num).natAbs =
      (((den * unitsOf (roundMag num.natAbs den) : Nat) : Int) - num.natAbs).natAbs := by
    rw [hv, Int.natCast_mul]
    split
    · rw [Int.mul_neg]; generalize (den : Int) * _ = A; omega
    · generalize (den : Int) * _ = A; omega
  rw [e3] at near
  generalize den * unitsOf (roundMag num.natAbs den) = U at *
  generalize den * 2 ^ scale num.natAbs den = s at *
  generalize ((den : Int) * r.value - num).natAbs = R at *
  omega

/-- The dot product of two vectors of numbers, unless it overflows, differs from the exact one by at most 2^-22 of the sum
of the absolute values of the three products, and two units (2^-148): stated in square units (2^-298). -/
theorem C41_dot_error (a b : Vector3Float) (ha : a.Finite) (hb : b.Finite) (h : (a.dot b).isFinite = true) :
    2 ^ 24 * (2 ^ 149 * (a.dot b).value - (a.x.value * b.x.value + a.y.value * b.y.value + a.z.value * b.z.value)).natAbs ≤
      4 * ((a.x.value * b.x.value).natAbs + (a.y.value * b.y.value).natAbs + (a.z.value * b.z.value).natAbs) +
      2 ^ 25 * 2 ^ 149 := by
  have ho := C41_dot_overflow a b ha hb
  have fin {x : F32} (hn : x.isNaN = false) (hi : ¬ x.isInf = true) : x.isFinite = true := by
    rw [isFinite_iff]; unfold isNaN at hn; unfold isInf at hi; simp at hn hi; omega
  have n1 := mul_not_nan ha.2.1 hb.2.1
  have hs : (a.y.mul b.y).isFinite = true := fin n1 fun hi => by
    rw [ho.1 hi] at h
    have := finite_not h; simp_all
  have n2 := mulAdd_not_nan ha.1 hb.1 n1
  have ht : (a.x.mulAdd b.x (a.y.mul b.y)).isFinite = true := fin n2 fun hi => by
    rw [ho.2 hi] at h
    have := finite_not h; simp_all
  have p : 0 < 2 ^ 149 := Nat.two_pow_pos _
  have r1 := (mul_rounded ha.2.1 hb.2.1).error p hs
  have r2 := (mulAdd_rounded ha.1 hb.1 hs).error p ht
  have r3 := (mulAdd_rounded ha.2.2 hb.2.2 ht).error p h
  change 16777216 * (_ * (a.dot b).value - _).natAbs ≤ _ at r3
  rw [cast_pow] at r1 r2 r3
  rw [Int.mul_comm _ ((2 : Int) ^ 149)] at r2 r3
  rw [show (2 : Nat) ^ 24 = 16777216 from by decide, show (2 : Nat) ^ 25 = 33554432 from by decide]
  have hD : ((2 : Int) ^ 149) = ((2 ^ 149 : Nat) : Int) := (cast_pow 149).symm
  generalize (2 : Nat) ^ 149 = D at *
  generalize (2 : Int) ^ 149 * (a.y.mul b.y).value = S at *
  generalize (2 : Int) ^ 149 * (a.x.mulAdd b.x (a.y.mul b.y)).value = T at *
  generalize (2 : Int) ^ 149 * (a.dot b).value = R at *
  generalize a.x.value * b.x.value = X at *
  generalize a.y.value * b.y.value = Y at *
  generalize a.z.value * b.z.value = Z at *
  omega

/-- Each component `p q - r s` of the cross product of two vectors of numbers, unless it overflows, differs from the exact
one by at most 3 * 2^-24 of `|p q| + |r s|`, and two units (2^-148). -/
theorem C41_cross_error (a b : Vector3Float) (ha : a.Finite) (hb : b.Finite) :
    ∀ t ∈ [((a.cross b).x, a.y.value * b.z.value, a.z.value * b.y.value),
           ((a.cross b).y, a.z.value * b.x.value, a.x.value * b.z.value),
           ((a.cross b).z, a.x.value * b.y.value, a.y.value * b.x.value)],
      t.1.isFinite = true →
      2 ^ 24 * (2 ^ 149 * t.1.value - (t.2.1 - t.2.2)).natAbs ≤ 3 * (t.2.1.natAbs + t.2.2.natAbs) + 2 ^ 25 * 2 ^ 149 := by
  have fin {x : F32} (hn : x.isNaN = false) (hi : ¬ x.isInf = true) : x.isFinite = true := by
    rw [isFinite_iff]; unfold isNaN at hn; unfold isInf at hi; simp at hn hi; omega
  have one {x y z w : F32} (hx : x.isFinite = true) (hy : y.isFinite = true) (hz : z.isFinite = true)
      (hw : w.isFinite = true) (h : (x.mulAdd y (z.mul w).negate).isFinite = true) :
      2 ^ 24 * (2 ^ 149 * (x.mulAdd y (z.mul w).negate).value - (x.value * y.value - z.value * w.value)).natAbs ≤
        3 * ((x.value * y.value).natAbs + (z.value * w.value).natAbs) + 2 ^ 25 * 2 ^ 149 := by
    have n1 := mul_not_nan hz hw
    obtain ⟨m1, m2, m3⟩ := negate_special (z.mul w)
    have hs : (z.mul w).isFinite = true := fin n1 fun hi => by
      rw [(mulAdd_special x y _).infinite_addend hx hy (m2.trans hi), m3] at h
      have := finite_not h; simp_all
    have p : 0 < 2 ^ 149 := Nat.two_pow_pos _
    have r1 := (mul_rounded hz hw).error p hs
    have r2 := (mulAdd_rounded hx hy (m3.trans hs)).error p h
    rw [(negate_facts (z.mul w)).2.2] at r2
    rw [cast_pow] at r1 r2
    rw [Int.neg_mul, Int.mul_comm _ ((2 : Int) ^ 149)] at r2
    rw [show (2 : Nat) ^ 24 = 16777216 from by decide, show (2 : Nat) ^ 25 = 33554432 from by decide]
    generalize (2 : Nat) ^ 149 = D at *
    generalize (2 : Int) ^ 149 * (z.mul w).value = S at *
    generalize (2 : Int) ^ 149 * (x.mulAdd y (z.mul w).negate).value = R at *
    generalize x.value * y.value = X at *
    generalize z.value * w.value = Y at *
    omega
  intro t ht h
  simp only [List.mem_cons, List.not_mem_nil, or_false] at ht
  rcases ht with rfl | rfl | rfl
  · exact one ha.2.1 hb.2.2 ha.2.2 hb.2.1 h
  · exact one ha.2.2 hb.1 ha.1 hb.2.2 h
  · exact one ha.1 hb.2.1 ha.2.1 hb.1 h

/-- (0.1, 0.2, 0.3) and (0.7, -0.5, 0.9): numbers whose products are numbers. -/
example : let a : Vector3Float := ⟨⟨0x3DCCCCCD⟩, ⟨0x3E4CCCCD⟩, ⟨0x3E99999A⟩⟩
    let b : Vector3Float := ⟨⟨0x3F333333⟩, ⟨0xBF000000⟩, ⟨0x3F666666⟩⟩
    a.Finite ∧ b.Finite ∧ (a.dot b).isFinite = true ∧ (a.dot b).isZero = false ∧
    ∀ π ∈ components, (π (a.cross b)).isFinite = true ∧ (π (a.cross b)).isZero = false := by
  refine ⟨⟨?_, ?_, ?_⟩, ⟨?_, ?_, ?_⟩, ?_⟩ <;> decide +kernel

end Dis
