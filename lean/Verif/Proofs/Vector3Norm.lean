import Verif.Proofs.Vector3
/-
Rounding-error analysis of `Vector3Float::magnitude` and `normalize`, for C41.
-/
namespace Dis
namespace F32

/-- One rounding: the error is at most 2^-24 of the number, or half a unit. -/
theorem roundMag_rel {num den : Nat} (hd : 0 < den) (h : roundMag num den < infMag) :
    16777216 * (den * unitsOf (roundMag num den)) ≤ 16777216 * num + max num (den * 8388608) ∧
    16777216 * num ≤ 16777216 * (den * unitsOf (roundMag num den)) + max num (den * 8388608) := by
  obtain ⟨_, h1, h2⟩ := roundMag_error hd h
  rcases Nat.eq_zero_or_pos (scale num den) with h0 | h0
  · rw [h0] at h1 h2
    simp only [Nat.pow_zero, Nat.mul_one] at h1 h2
    generalize den * unitsOf (roundMag num den) = r at *
    omega
  · have h3 := scale_lower num hd h0
    generalize den * unitsOf (roundMag num den) = r at *
    generalize den * 2 ^ scale num den = D at *
    omega

/-- If the exact number is below 2^128 less a hair, it does not become infinity. -/
theorem roundMag_finite {num den : Nat} (hd : 0 < den) (h : num ≤ den * unitsOf 2139095039) :
    roundMag num den < infMag := by
  have h1 := roundMag_units (m := 2139095039) (by decide) hd
  have h2 := roundMag_mono hd h
  rw [h1] at h2
  unfold infMag
  omega

/-- The three roundings of the sum of squares: relative error at most 4 · 2^-24. -/
theorem sumSq_close {a b c : Nat} (hlow : 2 ^ 149 * 8388608 ≤ a + b + c)
    (h1 : roundMag b (2 ^ 149) < infMag)
    (h2 : roundMag (a + unitsOf (roundMag b (2 ^ 149)) * 2 ^ 149) (2 ^ 149) < infMag)
    (h3 : roundMag (c + unitsOf (roundMag (a + unitsOf (roundMag b (2 ^ 149)) * 2 ^ 149) (2 ^ 149)) * 2 ^ 149) (2 ^ 149) < infMag) :
    16777216 * (2 ^ 149 * unitsOf (roundMag (c + unitsOf (roundMag (a + unitsOf (roundMag b (2 ^ 149)) * 2 ^ 149) (2 ^ 149)) * 2 ^ 149) (2 ^ 149))) ≤ 16777220 * (a + b + c) ∧
    16777212 * (a + b + c) ≤ 16777216 * (2 ^ 149 * unitsOf (roundMag (c + unitsOf (roundMag (a + unitsOf (roundMag b (2 ^ 149)) * 2 ^ 149) (2 ^ 149)) * 2 ^ 149) (2 ^ 149))) := by
  have hd := two_pow_pos 149
  generalize 2 ^ 149 = D at *
  have e1 := roundMag_rel hd h1
  have e2 := roundMag_rel hd h2
  have e3 := roundMag_rel hd h3
  clear h1 h2 h3
  generalize roundMag b D = r1 at *
  generalize roundMag (a + unitsOf r1 * D) D = r2 at *
  generalize roundMag (c + unitsOf r2 * D) D = r3 at *
  rw [Nat.mul_comm (unitsOf r1) D] at *
  rw [Nat.mul_comm (unitsOf r2) D] at *
  generalize D * unitsOf r1 = R1 at *
  generalize D * unitsOf r2 = R2 at *
  generalize D * unitsOf r3 = R3 at *
  generalize D * 8388608 = E at *
  omega

theorem signifS_le (k : Nat) : signifS k ≤ 16777216 := by
  rcases Nat.lt_or_ge 16777216 (signifS k) with hh | hh
  · exfalso
    obtain ⟨h1, _⟩ := signifS_bounds k
    rcases h1 with h1 | h1
    · omega
    · have h3 := scaleS_upper k
      have h4 : 33554433 * 33554433 ≤ (2 * signifS k - 1) * (2 * signifS k - 1) := sq_le.mpr (by omega)
      have h5 := Nat.mul_le_mul_right (4 ^ scaleS k) h4
      generalize 4 ^ scaleS k = F at *
      omega
  · exact hh

/-- The root of a number below 2^428 does not overflow. -/
theorem roundSqrt_finite {k : Nat} (h : k < 2 ^ 214 * 2 ^ 214) : roundSqrt k < infMag := by
  have h1 : isqrt k < 2 ^ 214 := by
    obtain ⟨h2, _⟩ := isqrt_spec k
    exact sq_lt.mp (Nat.lt_of_le_of_lt h2 h)
  have h3 : (isqrt k).log2 < 214 := by
    by_cases h0 : isqrt k = 0
    · rw [h0]; decide
    · exact (Nat.log2_lt h0).mpr h1
  have h4 := signifS_le k
  have h5 : scaleS k ≤ 190 := by unfold scaleS; omega
  rw [roundSqrt_eq]
  unfold infMag
  omega

/-- Nothing overflows in the sum of the squares `a`, `b`, `c` of numbers up to 2^63. -/
theorem sumSq_finite_steps {a b c B : Nat} (ha : a ≤ B) (hb : b ≤ B) (hc : c ≤ B) (hE : 2 ^ 149 * 8388608 ≤ B)
    (hB : 7 * B ≤ 2 * (2 ^ 149 * unitsOf 2139095039)) :
    roundMag b (2 ^ 149) < infMag ∧
    roundMag (a + unitsOf (roundMag b (2 ^ 149)) * 2 ^ 149) (2 ^ 149) < infMag ∧
    roundMag (c + unitsOf (roundMag (a + unitsOf (roundMag b (2 ^ 149)) * 2 ^ 149) (2 ^ 149)) * 2 ^ 149) (2 ^ 149) < infMag := by
  have hd := two_pow_pos 149
  generalize 2 ^ 149 = D at *
  have f1 : roundMag b D < infMag := by
    refine roundMag_finite hd ?_
    generalize D * unitsOf 2139095039 = C at *
    omega
  have e1 := roundMag_rel hd f1
  have f2 : roundMag (a + unitsOf (roundMag b D) * D) D < infMag := by
    refine roundMag_finite hd ?_
    generalize D * unitsOf 2139095039 = C at *
    rw [Nat.mul_comm (unitsOf _) D]
    generalize D * unitsOf (roundMag b D) = R1 at *
    generalize D * 8388608 = E at *
    omega
  refine ⟨f1, f2, ?_⟩
  have e2 := roundMag_rel hd f2
  refine roundMag_finite hd ?_
  generalize D * unitsOf 2139095039 = C at *
  clear f1 f2
  generalize roundMag b D = r1 at *
  generalize roundMag (a + unitsOf r1 * D) D = r2 at *
  rw [Nat.mul_comm (unitsOf r1) D] at e2
  rw [Nat.mul_comm (unitsOf r2) D]
  generalize D * unitsOf r1 = R1 at *
  generalize D * unitsOf r2 = R2 at *
  generalize D * 8388608 = E at *
  omega

/-- The square root and the sum of squares together. -/
theorem magnitude_arith {r2 k S : Nat} (a1 : 16777216 * k ≤ 16777220 * S) (a2 : 16777212 * S ≤ 16777216 * k)
    (b1 : 8388607 * r2 ≤ 8388608 * k) (b2 : 4194304 * k ≤ 4194305 * r2) :
    16777216 * r2 ≤ 16777224 * S ∧ 16777208 * S ≤ 16777216 * r2 := by
  omega

/-- One square root: the square of the result is within 2^-22 of the number. -/
theorem roundSqrt_close {k : Nat} (hlow : 2 ^ 64 ≤ k) (h : roundSqrt k < infMag) :
    8388607 * (unitsOf (roundSqrt k) * unitsOf (roundSqrt k)) ≤ 8388608 * k ∧
    4194304 * k ≤ 4194305 * (unitsOf (roundSqrt k) * unitsOf (roundSqrt k)) ∧
    8388608 ≤ unitsOf (roundSqrt k) := by
  have hs : 0 < scaleS k := by
    have h1 : 2 ^ 32 ≤ isqrt k := isqrt_le_iff.mpr (by simpa using hlow)
    have h2 : 32 ≤ (isqrt k).log2 := (Nat.le_log2 (by omega)).mpr h1
    unfold scaleS
    omega
  have hg := signifS_ge k hs
  have e : roundSqrt k = scaleS k * 8388608 + signifS k := by rw [roundSqrt_eq] at h ⊢; omega
  have hgu := signifS_le k
  have hu : unitsOf (roundSqrt k) = signifS k * 2 ^ scaleS k := by
    rw [e]; exact unitsOf_pattern hgu (.inr hg)
  obtain ⟨b1, b2⟩ := signifS_bounds k
  have hsq : signifS k * 2 ^ scaleS k * (signifS k * 2 ^ scaleS k) = signifS k * signifS k * 4 ^ scaleS k := by
    rw [four_pow, Nat.mul_mul_mul_comm]
  rw [hu, hsq]
  have b1' : (2 * signifS k - 1) * (2 * signifS k - 1) * 4 ^ scaleS k ≤ 4 * k := by
    rcases b1 with h | h
    · omega
    · exact h
  have hp : 1 ≤ 2 ^ scaleS k := two_pow_pos _
  have hpg : signifS k * 1 ≤ signifS k * 2 ^ scaleS k := Nat.mul_le_mul_left _ hp
  generalize signifS k = g at *
  generalize 4 ^ scaleS k = F at *
  have e1 : (2 * g - 1) * (2 * g - 1) * F + 4 * (g * F) = 4 * (g * g * F) + F := by
    obtain ⟨Y, rfl⟩ : ∃ Y, g = Y + 1 := ⟨g - 1, by omega⟩
    rw [show 2 * (Y + 1) - 1 = 2 * Y + 1 by omega, ← Nat.mul_assoc 4 (Y + 1), ← Nat.add_mul, square_step,
      Nat.add_mul, Nat.one_mul, Nat.mul_assoc]
  have e2 : (2 * g + 1) * (2 * g + 1) * F = 4 * (g * g * F) + 4 * (g * F) + F := by
    have := square_step g
    have h4 : (2 * g + 1) * (2 * g + 1) = 4 * (g * g) + 4 * g + 1 := by
      have h5 : (g + 1) * (g + 1) = g * g + g + g + 1 := by
        simp only [Nat.add_mul, Nat.mul_add]; omega
      rw [h5] at this; omega
    rw [h4, Nat.add_mul, Nat.add_mul, Nat.one_mul, Nat.mul_assoc 4 (g * g), Nat.mul_assoc 4 g]
  have e3 : 8388608 * (g * F) ≤ g * g * F := by
    rw [Nat.mul_assoc]; exact Nat.mul_le_mul_right _ hg
  have e4 : 8388608 * F ≤ g * F := Nat.mul_le_mul_right _ hg
  generalize (2 * g - 1) * (2 * g - 1) * F = P at *
  generalize (2 * g + 1) * (2 * g + 1) * F = Q at *
  generalize g * g * F = G at *
  generalize g * F = T at *
  omega

/-- Squares of two numbers a relative 2^-24 apart. -/
theorem square_close {P N E : Nat} (h1 : 16777216 * N ≤ 16777216 * P + P)
    (h2 : 16777216 * P ≤ 16777216 * N + P) :
    16777216 * (N * N) ≤ 16777219 * (P * P) + E ∧ 16777213 * (P * P) ≤ 16777216 * (N * N) + E := by
  have a1 : 16777216 * N ≤ 16777217 * P := by omega
  have a2 : 16777215 * P ≤ 16777216 * N := by omega
  have b1 := Nat.mul_le_mul a1 a1
  have b2 := Nat.mul_le_mul a2 a2
  rw [Nat.mul_mul_mul_comm, Nat.mul_mul_mul_comm 16777217] at b1
  rw [Nat.mul_mul_mul_comm, Nat.mul_mul_mul_comm 16777216] at b2
  generalize N * N = NN at *
  generalize P * P = PP at *
  omega

/-- One division by the magnitude, squared (`D` is 2^149). -/
theorem div_close {c r D : Nat} (hr : 0 < r) (h : roundMag (c * D) r < infMag) :
    16777216 * (r * r * (unitsOf (roundMag (c * D) r) * unitsOf (roundMag (c * D) r))) ≤
      16777219 * (c * c * (D * D)) + r * r * 2 ^ 73 ∧
    16777213 * (c * c * (D * D)) ≤
      16777216 * (r * r * (unitsOf (roundMag (c * D) r) * unitsOf (roundMag (c * D) r))) + r * r * 2 ^ 73 := by
  obtain ⟨h1, h2⟩ := roundMag_rel hr h
  rw [← Nat.mul_mul_mul_comm r _ r _, ← Nat.mul_mul_mul_comm c D c D]
  generalize r * unitsOf (roundMag (c * D) r) = N at *
  generalize c * D = P at *
  rcases Nat.le_total (r * 8388608) P with hle | hle
  · rw [Nat.max_eq_left hle] at h1 h2
    exact square_close h1 h2
  · rw [Nat.max_eq_right hle] at h1 h2
    have p1 := Nat.mul_le_mul hle hle
    have n1 : N ≤ r * 16777216 := by omega
    have n2 := Nat.mul_le_mul n1 n1
    rw [Nat.mul_mul_mul_comm r _ r _] at p1 n2
    clear h1 h2 h
    generalize N * N = NN at *
    generalize P * P = PP at *
    generalize r * r = RR at *
    omega

theorem three_quotients {R Z w a b c x y z : Nat}
    (hx : 16777216 * (R * x) ≤ 16777219 * (a * Z) + R * w ∧ 16777213 * (a * Z) ≤ 16777216 * (R * x) + R * w)
    (hy : 16777216 * (R * y) ≤ 16777219 * (b * Z) + R * w ∧ 16777213 * (b * Z) ≤ 16777216 * (R * y) + R * w)
    (hz : 16777216 * (R * z) ≤ 16777219 * (c * Z) + R * w ∧ 16777213 * (c * Z) ≤ 16777216 * (R * z) + R * w) :
    16777216 * (R * (x + y + z)) ≤ 16777219 * ((a + b + c) * Z) + 3 * (R * w) ∧
    16777213 * ((a + b + c) * Z) ≤ 16777216 * (R * (x + y + z)) + 3 * (R * w) := by
  simp only [Nat.mul_add, Nat.add_mul]
  omega

/-- The last step, on numbers: the sum of squares `q` of the quotients is within 2^-20 of `Z` (one). -/
theorem unit_length_arith {S R q Z : Nat} (hS : 0 < R) (hZ : 2 ^ 73 * 17592186044416 ≤ Z)
    (a1 : 16777216 * R ≤ 16777224 * S) (a2 : 16777208 * S ≤ 16777216 * R)
    (b1 : 16777216 * (R * q) ≤ 16777219 * (S * Z) + 3 * (R * 2 ^ 73))
    (b2 : 16777213 * (S * Z) ≤ 16777216 * (R * q) + 3 * (R * 2 ^ 73)) :
    1048576 * q ≤ 1048577 * Z ∧ 1048575 * Z ≤ 1048576 * q := by
  generalize 2 ^ 73 = w at *
  have c1 := Nat.mul_le_mul_right Z a1
  have c2 := Nat.mul_le_mul_right Z a2
  have c3 := Nat.mul_le_mul_left R hZ
  rw [Nat.mul_assoc, Nat.mul_assoc] at c1 c2
  rw [← Nat.mul_assoc R] at c3
  have goal1 : R * (1048576 * q) ≤ R * (1048577 * Z) := by
    rw [Nat.mul_left_comm, Nat.mul_left_comm R]
    generalize R * q = Y at *
    generalize R * Z = RZ at *
    generalize S * Z = SZ at *
    generalize R * w = Rw at *
    omega
  have goal2 : R * (1048575 * Z) ≤ R * (1048576 * q) := by
    rw [Nat.mul_left_comm, Nat.mul_left_comm R]
    generalize R * q = Y at *
    generalize R * Z = RZ at *
    generalize S * Z = SZ at *
    generalize R * w = Rw at *
    omega
  exact ⟨Nat.le_of_mul_le_mul_left goal1 hS, Nat.le_of_mul_le_mul_left goal2 hS⟩

end F32
end Dis
