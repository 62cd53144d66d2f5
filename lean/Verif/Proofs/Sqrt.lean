import Verif.Proofs.Vector3Norm
/-
The rounded square root is the nearest number, for C41.
-/
namespace Dis
namespace F32

/-- `k` units of the square of a unit, where `k` is a number's count of units times 2^149: never half way between
two candidate roots, since the square of a half-way point has more than 24 significant bits. -/
theorem sqrt_no_tie {w q s : Nat} (h0 : 0 < w) (hq : 8388608 ≤ q) :
    (2 * q + 1) * (2 * q + 1) * 4 ^ s ≠ 4 * (unitsOf w * 2 ^ 149) := by
  intro h
  obtain ⟨e, X, rfl, hX', hX⟩ := pattern_form w
  rw [unitsOf_pattern (by omega) hX] at h
  have hd : (2 * q + 1) * (2 * q + 1) ∣ 2 ^ (2 + e + 149) * X := by
    refine ⟨4 ^ s, ?_⟩
    rw [h, Nat.pow_add, Nat.pow_add]
    simp only [Nat.mul_assoc, Nat.mul_comm, Nat.mul_left_comm]
  have hc : Nat.Coprime ((2 * q + 1) * (2 * q + 1)) (2 ^ (2 + e + 149)) := by
    apply Nat.Coprime.pow_right
    have h1 : Nat.Coprime (2 * q + 1) 2 := by
      unfold Nat.Coprime
      rw [Nat.gcd_comm, Nat.gcd_rec, show (2 * q + 1) % 2 = 1 by omega]
      rfl
    exact Nat.Coprime.mul_left h1 h1
  have hd2 := hc.dvd_of_dvd_mul_left hd
  have hXpos : 0 < X := by
    rcases hX with h1 | h1
    · subst h1; omega
    · omega
  have h1 := Nat.le_of_dvd hXpos hd2
  have h2 : 16777217 * 16777217 ≤ (2 * q + 1) * (2 * q + 1) := sq_le.mpr (by omega)
  omega

theorem scaleS_pos {k : Nat} (h : 2 ^ 64 ≤ k) : 0 < scaleS k := by
  have h1 : 2 ^ 32 ≤ isqrt k := isqrt_le_iff.mpr (by simpa using h)
  have h2 : 32 ≤ (isqrt k).log2 := (Nat.le_log2 (by omega)).mpr h1
  unfold scaleS
  omega

theorem half_sum_sq {a b s : Nat} : (a * 2 ^ s + b * 2 ^ s) * (a * 2 ^ s + b * 2 ^ s) = (a + b) * (a + b) * 4 ^ s := by
  rw [← Nat.add_mul, four_pow, Nat.mul_mul_mul_comm]

/-- Every number other than the result is on the far side of the midpoint between it and the result. -/
theorem roundSqrt_nearest {w : Nat} (h0 : 0 < w) (hw : w < infMag) (m : Nat) :
    (m < roundSqrt (unitsOf w * 2 ^ 149) →
      (unitsOf m + unitsOf (roundSqrt (unitsOf w * 2 ^ 149))) * (unitsOf m + unitsOf (roundSqrt (unitsOf w * 2 ^ 149)))
        < 4 * (unitsOf w * 2 ^ 149)) ∧
    (roundSqrt (unitsOf w * 2 ^ 149) < m →
      4 * (unitsOf w * 2 ^ 149) <
        (unitsOf m + unitsOf (roundSqrt (unitsOf w * 2 ^ 149))) * (unitsOf m + unitsOf (roundSqrt (unitsOf w * 2 ^ 149)))) ∧
    roundSqrt (unitsOf w * 2 ^ 149) < infMag := by
  have hpos := unitsOf_pos h0
  have hlow : 2 ^ 64 ≤ unitsOf w * 2 ^ 149 := by
    have : 1 * 2 ^ 149 ≤ unitsOf w * 2 ^ 149 := Nat.mul_le_mul_right _ hpos
    exact Nat.le_trans (by decide) this
  have hfin : roundSqrt (unitsOf w * 2 ^ 149) < infMag := by
    refine roundSqrt_finite ?_
    have h1 : unitsOf w ≤ unitsOf (infMag - 1) := unitsOf_mono (by omega)
    rw [unitsOf_max] at h1
    have := Nat.mul_le_mul_right (2 ^ 149) h1
    exact Nat.lt_of_le_of_lt this (by decide)
  have htie : ∀ q, 8388608 ≤ q → (2 * q + 1) * (2 * q + 1) * 4 ^ scaleS (unitsOf w * 2 ^ 149) ≠
      4 * (unitsOf w * 2 ^ 149) := fun q hq => sqrt_no_tie h0 hq
  generalize unitsOf w * 2 ^ 149 = k at *
  have hs := scaleS_pos hlow
  have hg := signifS_ge k hs
  have hgu := signifS_le k
  have e : roundSqrt k = scaleS k * 8388608 + signifS k := by rw [roundSqrt_eq] at hfin ⊢; omega
  obtain ⟨b1, b2⟩ := signifS_bounds k
  have hup := scaleS_upper k
  have hlo := scaleS_lower k hs
  rw [e]
  rw [unitsOf_pattern hgu (.inr hg)]
  generalize hX : signifS k = X at *
  generalize scaleS k = s at *
  refine ⟨fun hm => ?_, fun hm => ?_, by rw [← e]; exact hfin⟩
  · rcases Nat.lt_or_ge 8388608 X with hx | hx
    · have h1 : unitsOf m ≤ unitsOf (s * 8388608 + (X - 1)) := unitsOf_mono (by omega)
      rw [unitsOf_pattern (by omega) (.inr (by omega))] at h1
      have h2 : (unitsOf m + X * 2 ^ s) * (unitsOf m + X * 2 ^ s) ≤ (2 * X - 1) * (2 * X - 1) * 4 ^ s := by
        rw [show 2 * X - 1 = (X - 1) + X by omega, ← half_sum_sq]
        exact sq_le.mpr (by omega)
      have h3 := htie (X - 1) (by omega)
      rw [show 2 * (X - 1) + 1 = 2 * X - 1 by omega] at h3
      rcases b1 with b | b
      · omega
      · omega
    · have hx : X = 8388608 := by omega
      subst hx
      have h1 : unitsOf m < 8388608 * 2 ^ s := by
        have := unitsOf_strict hm (by omega)
        rwa [unitsOf_pattern (by omega) (.inr (by omega))] at this
      have h2 : (unitsOf m + 8388608 * 2 ^ s) * (unitsOf m + 8388608 * 2 ^ s) <
          (8388608 * 2 ^ s + 8388608 * 2 ^ s) * (8388608 * 2 ^ s + 8388608 * 2 ^ s) := sq_lt.mpr (by omega)
      rw [half_sum_sq] at h2
      omega
  · rcases Nat.lt_or_ge X 16777216 with hx | hx
    · have h1 : unitsOf (s * 8388608 + (X + 1)) ≤ unitsOf m := unitsOf_mono (by omega)
      rw [unitsOf_pattern (by omega) (.inr (by omega))] at h1
      have h2 : (2 * X + 1) * (2 * X + 1) * 4 ^ s ≤ (unitsOf m + X * 2 ^ s) * (unitsOf m + X * 2 ^ s) := by
        rw [show 2 * X + 1 = (X + 1) + X by omega, ← half_sum_sq]
        exact sq_le.mpr (by omega)
      have h3 := htie X (by omega)
      omega
    · have hx : X = 16777216 := by omega
      subst hx
      have h1 : 16777216 * 2 ^ s ≤ unitsOf m := by
        have := unitsOf_mono (Nat.le_of_lt hm)
        rwa [unitsOf_pattern (by omega) (.inr (by omega))] at this
      have h2 : (16777216 * 2 ^ s + 16777216 * 2 ^ s) * (16777216 * 2 ^ s + 16777216 * 2 ^ s) ≤
          (unitsOf m + 16777216 * 2 ^ s) * (unitsOf m + 16777216 * 2 ^ s) := sq_le.mpr (by omega)
      rw [half_sum_sq] at h2
      omega

end F32
end Dis
