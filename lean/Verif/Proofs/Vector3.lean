import Verif.Model.Vector3
import Verif.Proofs.Float32
/-
Lemmas on square roots and sums of squares, for C41.
-/
namespace Dis
namespace F32

/-! ### Whole square roots -/

theorem isqrtAux_spec (k : Nat) : ∀ n acc, acc * acc ≤ k → k < (acc + 2 ^ n) * (acc + 2 ^ n) →
    isqrtAux k n acc * isqrtAux k n acc ≤ k ∧ k < (isqrtAux k n acc + 1) * (isqrtAux k n acc + 1) := by
  intro n
  induction n with
  | zero => intro acc h1 h2; exact ⟨h1, h2⟩
  | succ n ih =>
    intro acc h1 h2
    have hp : 2 ^ (n + 1) = 2 ^ n + 2 ^ n := by rw [Nat.pow_succ]; omega
    unfold isqrtAux
    split
    · rename_i h
      exact ih _ h (by rw [Nat.add_assoc, ← hp]; exact h2)
    · rename_i h
      exact ih _ h1 (by omega)

theorem isqrt_spec (k : Nat) : isqrt k * isqrt k ≤ k ∧ k < (isqrt k + 1) * (isqrt k + 1) := by
  refine isqrtAux_spec k _ 0 (by simp) ?_
  have h := Nat.lt_log2_self (n := k)
  have h1 : 1 ≤ 2 ^ (k.log2 + 1) := two_pow_pos _
  have h2 : 2 ^ (k.log2 + 1) * 1 ≤ 2 ^ (k.log2 + 1) * 2 ^ (k.log2 + 1) := Nat.mul_le_mul_left _ h1
  rw [Nat.zero_add]
  omega

theorem sq_le {a b : Nat} : a * a ≤ b * b ↔ a ≤ b :=
  ⟨fun h => by
    rcases Nat.lt_or_ge b a with h1 | h1
    · have := Nat.mul_lt_mul_of_lt_of_le h1 (Nat.le_of_lt h1) (by omega)
      omega
    · exact h1, fun h => Nat.mul_le_mul h h⟩

theorem sq_lt {a b : Nat} : a * a < b * b ↔ a < b := by
  have := @sq_le b a
  omega

theorem isqrt_le_iff {a k : Nat} : a ≤ isqrt k ↔ a * a ≤ k := by
  obtain ⟨h1, h2⟩ := isqrt_spec k
  constructor
  · intro h; exact Nat.le_trans (sq_le.mpr h) h1
  · intro h
    have : a * a < (isqrt k + 1) * (isqrt k + 1) := by omega
    have := sq_lt.mp this
    omega

/-! ### The rounded square root -/

/-- The scale and the significand used for the square root of `k`. -/
def scaleS (k : Nat) : Nat := (isqrt k).log2 - 23
def signifS (k : Nat) : Nat :=
  let q := isqrt (k / 4 ^ scaleS k)
  let up := (2 * q + 1) * (2 * q + 1) * 4 ^ scaleS k
  if 4 * k < up then q else if up < 4 * k then q + 1 else if q % 2 = 0 then q else q + 1

theorem roundSqrt_eq (k : Nat) : roundSqrt k = min infMag (scaleS k * 8388608 + signifS k) := rfl

theorem four_pow (s : Nat) : 4 ^ s = 2 ^ s * 2 ^ s := by
  rw [show (4 : Nat) = 2 * 2 from rfl, Nat.mul_pow]

theorem four_pow_pos (s : Nat) : 0 < 4 ^ s := by rw [four_pow]; exact Nat.mul_pos (two_pow_pos _) (two_pow_pos _)

theorem sqrt_floor (k s : Nat) :
    isqrt (k / 4 ^ s) * isqrt (k / 4 ^ s) * 4 ^ s ≤ k ∧
    k < (isqrt (k / 4 ^ s) + 1) * (isqrt (k / 4 ^ s) + 1) * 4 ^ s := by
  obtain ⟨h1, h2⟩ := isqrt_spec (k / 4 ^ s)
  generalize isqrt (k / 4 ^ s) = q at *
  exact ⟨by rwa [Nat.le_div_iff_mul_le (four_pow_pos s)] at h1,
    by rwa [Nat.div_lt_iff_lt_mul (four_pow_pos s)] at h2⟩

theorem scaleS_upper (k : Nat) : k < 16777216 * 16777216 * 4 ^ scaleS k := by
  obtain ⟨_, h2⟩ := isqrt_spec k
  have h3 : isqrt k < 2 ^ ((isqrt k).log2 + 1) := Nat.lt_log2_self
  have h4 : 2 ^ ((isqrt k).log2 + 1) ≤ 2 ^ (24 + scaleS k) :=
    Nat.pow_le_pow_right (by decide) (by unfold scaleS; omega)
  have h5 : isqrt k + 1 ≤ 16777216 * 2 ^ scaleS k := by
    rw [Nat.pow_add 2 24, show 2 ^ 24 = 16777216 from rfl] at h4; omega
  have h6 := sq_le.mpr h5
  have h7 : 16777216 * 2 ^ scaleS k * (16777216 * 2 ^ scaleS k) = 16777216 * 16777216 * 4 ^ scaleS k := by
    rw [four_pow, Nat.mul_mul_mul_comm]
  omega

theorem scaleS_lower (k : Nat) (hs : 0 < scaleS k) : 8388608 * 8388608 * 4 ^ scaleS k ≤ k := by
  obtain ⟨h1, _⟩ := isqrt_spec k
  have h0 : isqrt k ≠ 0 := by
    intro h; unfold scaleS at hs; rw [h] at hs; simp at hs
  have h3 := Nat.log2_self_le h0
  have h4 : (isqrt k).log2 = 23 + scaleS k := by unfold scaleS at *; omega
  rw [h4, Nat.pow_add] at h3
  have h6 := sq_le.mpr h3
  have h7 : 2 ^ 23 * 2 ^ scaleS k * (2 ^ 23 * 2 ^ scaleS k) = 8388608 * 8388608 * 4 ^ scaleS k := by
    rw [four_pow, Nat.mul_mul_mul_comm]
  omega

/-- The significand is the whole number nearest to the root. -/
theorem signifS_bounds (k : Nat) :
    (signifS k = 0 ∨ (2 * signifS k - 1) * (2 * signifS k - 1) * 4 ^ scaleS k ≤ 4 * k) ∧
    4 * k ≤ (2 * signifS k + 1) * (2 * signifS k + 1) * 4 ^ scaleS k := by
  obtain ⟨h1, h2⟩ := sqrt_floor k (scaleS k)
  unfold signifS
  simp only
  generalize isqrt (k / 4 ^ scaleS k) = q at *
  generalize 4 ^ scaleS k = F at *
  have e1 : (2 * (q + 1) - 1) * (2 * (q + 1) - 1) * F = (2 * q + 1) * (2 * q + 1) * F := by
    rw [show 2 * (q + 1) - 1 = 2 * q + 1 by omega]
  have e2 : (2 * (q + 1) + 1) * (2 * (q + 1) + 1) * F ≥ 4 * ((q + 1) * (q + 1) * F) := by
    have : 2 * (q + 1) * (2 * (q + 1)) ≤ (2 * (q + 1) + 1) * (2 * (q + 1) + 1) := sq_le.mpr (by omega)
    have h3 := Nat.mul_le_mul_right F this
    have : 2 * (q + 1) * (2 * (q + 1)) * F = 4 * ((q + 1) * (q + 1) * F) := by
      rw [Nat.mul_mul_mul_comm]; exact Nat.mul_assoc 4 _ _
    omega
  have e3 : q = 0 ∨ (2 * q - 1) * (2 * q - 1) * F ≤ 4 * (q * q * F) := by
    right
    have : (2 * q - 1) * (2 * q - 1) ≤ 2 * q * (2 * q) := sq_le.mpr (by omega)
    have h3 := Nat.mul_le_mul_right F this
    have : 2 * q * (2 * q) * F = 4 * (q * q * F) := by
      rw [Nat.mul_mul_mul_comm]; exact Nat.mul_assoc 4 _ _
    omega
  split
  · exact ⟨by omega, by omega⟩
  split
  · exact ⟨by omega, by omega⟩
  split
  · exact ⟨by omega, by omega⟩
  · exact ⟨by omega, by omega⟩

theorem signifS_ge (k : Nat) (hs : 0 < scaleS k) : 8388608 ≤ signifS k := by
  have h1 : 8388608 ≤ isqrt (k / 4 ^ scaleS k) := by
    rw [isqrt_le_iff, Nat.le_div_iff_mul_le (four_pow_pos _)]
    exact scaleS_lower k hs
  unfold signifS
  simp only
  generalize isqrt (k / 4 ^ scaleS k) = q at *
  split
  · exact h1
  split
  · omega
  split <;> omega

/-- A root of at least half a step below `X · 2^e` is rounded to no less than that (`X` not the least
significand of its scale, where the steps below are shorter). -/
theorem roundSqrt_ge {k X e : Nat} (hX : 8388608 < X) (hX' : X < 16777216)
    (hk : (2 * X - 1) * (2 * X - 1) * 4 ^ e < 4 * k) : min infMag (e * 8388608 + X) ≤ roundSqrt k := by
  rw [roundSqrt_eq]
  rcases Nat.lt_trichotomy (scaleS k) e with h | h | h
  · exfalso
    have h1 := scaleS_upper k
    have h2 : 4 ^ (scaleS k + 1) ≤ 4 ^ e := Nat.pow_le_pow_right (by decide) h
    have h3 : 16777217 * 16777217 ≤ (2 * X - 1) * (2 * X - 1) := sq_le.mpr (by omega)
    have h4 := Nat.mul_le_mul h3 h2
    rw [Nat.pow_succ] at h4
    generalize 4 ^ scaleS k = F at *
    generalize (2 * X - 1) * (2 * X - 1) * 4 ^ e = G at *
    omega
  · have h1 := (signifS_bounds k).2
    have : X ≤ signifS k := by
      rcases Nat.lt_or_ge (signifS k) X with h2 | h2
      · exfalso
        have h3 : (2 * signifS k + 1) * (2 * signifS k + 1) ≤ (2 * X - 1) * (2 * X - 1) := sq_le.mpr (by omega)
        have h4 := Nat.mul_le_mul_right (4 ^ e) h3
        rw [h] at h1
        omega
      · exact h2
    omega
  · have := signifS_ge k (by omega)
    omega

/-- A root of at least `X · 2^e` is rounded to no less than that. -/
theorem roundSqrt_ge' {k X e : Nat} (hX : 8388608 ≤ X) (hX' : X < 16777216)
    (hk : X * X * 4 ^ e ≤ k) : min infMag (e * 8388608 + X) ≤ roundSqrt k := by
  rw [roundSqrt_eq]
  rcases Nat.lt_trichotomy (scaleS k) e with h | h | h
  · exfalso
    have h1 := scaleS_upper k
    have h2 : 4 ^ (scaleS k + 1) ≤ 4 ^ e := Nat.pow_le_pow_right (by decide) h
    have h3 : 8388608 * 8388608 ≤ X * X := sq_le.mpr hX
    have h4 := Nat.mul_le_mul h3 h2
    rw [Nat.pow_succ] at h4
    generalize 4 ^ scaleS k = F at *
    generalize X * X * 4 ^ e = G at *
    omega
  · have h1 := (signifS_bounds k).2
    have : X ≤ signifS k := by
      rcases Nat.lt_or_ge (signifS k) X with h2 | h2
      · exfalso
        have h3 : (2 * signifS k + 1) * (2 * signifS k + 1) < 2 * X * (2 * X) := sq_lt.mpr (by omega)
        have h4 := Nat.mul_lt_mul_of_lt_of_le h3 (Nat.le_refl (4 ^ e)) (four_pow_pos e)
        rw [h] at h1
        have : 2 * X * (2 * X) * 4 ^ e = 4 * (X * X * 4 ^ e) := by
          rw [Nat.mul_mul_mul_comm]; exact Nat.mul_assoc 4 _ _
        omega
      · exact h2
    omega
  · have := signifS_ge k (by omega)
    omega

theorem roundSqrt_le (k : Nat) : roundSqrt k ≤ infMag := by rw [roundSqrt_eq]; omega
theorem roundSqrt_lt (k : Nat) : roundSqrt k < 2147483648 := by
  have := roundSqrt_le k
  unfold infMag at this
  omega

/-- The root of a positive number of units is not zero. -/
theorem roundSqrt_pos {k : Nat} (h : 1 ≤ k) : 0 < roundSqrt k := by
  rw [roundSqrt_eq]
  rcases Nat.eq_zero_or_pos (signifS k) with h0 | h0
  · have h1 := (signifS_bounds k).2
    rw [h0] at h1
    rcases Nat.eq_zero_or_pos (scaleS k) with h2 | h2
    · rw [h2] at h1; simp at h1; omega
    · have := signifS_ge k h2; omega
  · unfold infMag; omega

theorem square_step (Y : Nat) : (2 * Y + 1) * (2 * Y + 1) + 4 * (Y + 1) = 4 * ((Y + 1) * (Y + 1)) + 1 := by
  have : 2 * Y * (2 * Y) = 4 * (Y * Y) := by rw [Nat.mul_mul_mul_comm]
  simp only [Nat.add_mul, Nat.mul_add, this]
  omega

/-- The square root undoes squaring, when the square does not underflow: at least, it does not
undershoot. -/
theorem sqrt_square_ge {m : Nat} (h1 : 64 * 8388608 ≤ m) (h2 : m < infMag)
    {w : Nat} (hw : roundMag (unitsOf m * unitsOf m) (2 ^ 149) ≤ w) (hwi : w < infMag) :
    m ≤ roundSqrt (unitsOf w * 2 ^ 149) := by
  obtain ⟨e, X, rfl, hX', hX⟩ := pattern_form m
  have hX8 : 8388608 ≤ X := by
    rcases hX with h | h
    · subst h; omega
    · exact h
  have he : 63 ≤ e := by omega
  have hu := unitsOf_pattern (s := e) (n := X) (by omega) hX
  rw [hu] at hw
  have hsq : X * 2 ^ e * (X * 2 ^ e) = X * X * 4 ^ e := by rw [four_pow, Nat.mul_mul_mul_comm]
  rw [hsq] at hw
  have hden : 0 < 2 ^ 149 := two_pow_pos _
  have hri : roundMag (X * X * 4 ^ e) (2 ^ 149) < infMag := Nat.lt_of_le_of_lt hw hwi
  obtain ⟨hr, _, hb⟩ := roundMag_error hden hri
  have hmono := unitsOf_mono hw
  -- the step of the square is at most 2^-23 of it
  have hstep : 2 ^ 149 * 2 ^ scale (X * X * 4 ^ e) (2 ^ 149) * 8388608 ≤ X * X * 4 ^ e := by
    rcases Nat.eq_zero_or_pos (scale (X * X * 4 ^ e) (2 ^ 149)) with h0 | h0
    · rw [h0]
      have a1 : 8388608 * 8388608 ≤ X * X := sq_le.mpr hX8
      have a2 : 4 ^ 63 ≤ 4 ^ e := Nat.pow_le_pow_right (by decide) he
      exact Nat.le_trans (by decide) (Nat.mul_le_mul a1 a2)
    · exact scale_lower _ hden h0
  rcases Nat.lt_or_ge 8388608 X with hlt | hge
  · have := roundSqrt_ge (k := unitsOf w * 2 ^ 149) (e := e) hlt hX' ?_
    · rwa [Nat.min_eq_right (Nat.le_of_lt h2)] at this
    · have e1 : (2 * X - 1) * (2 * X - 1) * 4 ^ e + 4 * X * 4 ^ e = 4 * (X * X * 4 ^ e) + 4 ^ e := by
        obtain ⟨Y, rfl⟩ : ∃ Y, X = Y + 1 := ⟨X - 1, by omega⟩
        rw [show 2 * (Y + 1) - 1 = 2 * Y + 1 by omega]
        have : (2 * Y + 1) * (2 * Y + 1) + 4 * (Y + 1) = 4 * ((Y + 1) * (Y + 1)) + 1 := by
          exact square_step Y
        rw [← Nat.add_mul, this, Nat.add_mul, Nat.one_mul, Nat.mul_assoc]
      have e2 : X * X * 4 ^ e ≤ 16777215 * (X * 4 ^ e) := by
        rw [Nat.mul_assoc]; exact Nat.mul_le_mul_right _ (by omega)
      have e3 : 8388608 * 4 ^ e ≤ X * 4 ^ e := Nat.mul_le_mul_right _ hX8
      have e4 : 4 * X * 4 ^ e = 4 * (X * 4 ^ e) := Nat.mul_assoc ..
      have e5 : unitsOf w * 2 ^ 149 = 2 ^ 149 * unitsOf w := Nat.mul_comm ..
      have e6 := Nat.mul_le_mul_left (2 ^ 149) hmono
      rw [e5]
      generalize 2 ^ 149 * 2 ^ scale (X * X * 4 ^ e) (2 ^ 149) = D at *
      generalize 2 ^ 149 * unitsOf w = W at *
      generalize 2 ^ 149 * unitsOf (roundMag (X * X * 4 ^ e) (2 ^ 149)) = R at *
      have hF := four_pow_pos e
      generalize X * X * 4 ^ e = Q at *
      generalize (2 * X - 1) * (2 * X - 1) * 4 ^ e = P at *
      rw [e4] at e1
      generalize X * 4 ^ e = T at *
      generalize 4 ^ e = F at *
      omega
  · have hX0 : X = 8388608 := by omega
    have := roundSqrt_ge' (k := unitsOf w * 2 ^ 149) (e := e) hX8 hX' ?_
    · rwa [Nat.min_eq_right (Nat.le_of_lt h2)] at this
    · -- a power of two: its square is exact
      refine Nat.le_trans ?_ (Nat.mul_le_mul_right _ hmono)
      rw [hr]
      obtain ⟨c, hc⟩ : ∃ c, X * X * 4 ^ e = 2 ^ 149 * 2 ^ scale (X * X * 4 ^ e) (2 ^ 149) * c := by
        subst hX0
        have p1 : 8388608 * 8388608 * 4 ^ e = 2 ^ (46 + 2 * e) := by
          rw [Nat.pow_add, Nat.pow_mul]
        rw [p1] at hstep ⊢
        rw [← Nat.pow_add] at hstep ⊢
        generalize 149 + scale (2 ^ (46 + 2 * e)) (2 ^ 149) = j at *
        have hj : j ≤ 46 + 2 * e := by
          rcases Nat.lt_or_ge (46 + 2 * e) j with hh | hh
          · have := Nat.pow_lt_pow_right (a := 2) (by decide) hh
            omega
          · exact hh
        exact ⟨2 ^ (46 + 2 * e - j), by rw [← Nat.pow_add]; congr 1; omega⟩
      unfold signif
      generalize scale (X * X * 4 ^ e) (2 ^ 149) = s at *
      rw [hc, rne_mul c (Nat.mul_pos hden (two_pow_pos _))]
      apply Nat.le_of_eq
      rw [Nat.mul_comm (2 ^ 149 * 2 ^ s) c, Nat.mul_comm (2 ^ 149), Nat.mul_assoc c]

end F32
end Dis

namespace Dis
namespace F32

/-! ### Sums of squares -/

theorem rne_zero (b : Nat) : rne 0 b = 0 := by
  unfold rne
  simp only [Nat.zero_div, Nat.zero_mod, Nat.mul_zero]
  split
  · rfl
  · split
    · omega
    · rfl

theorem roundMag_zero (den : Nat) : roundMag 0 den = 0 := by
  unfold roundMag
  simp only [Nat.zero_div, rne_zero]
  rw [Nat.log2_zero]
  simp

/-- Less than half a unit, or exactly half, is rounded to zero; more is not. -/
theorem roundMag_eq_zero {n d : Nat} (hd : 0 < d) : roundMag n d = 0 ↔ 2 * n ≤ d := by
  rw [roundMag_eq]
  constructor
  · intro h
    have hi : infMag ≠ 0 := by decide
    have h0 : scale n d * 8388608 + signif n d = 0 := by omega
    have hs : scale n d = 0 := by omega
    have hg : signif n d = 0 := by omega
    unfold signif at hg
    rw [hs] at hg
    obtain ⟨_, h2⟩ := rne_bounds n (b := d * 2 ^ 0) (by simpa using hd)
    rw [hg] at h2
    simpa using h2
  · intro h
    have hq : n / d = 0 := by
      rw [Nat.div_eq_zero_iff]; omega
    have hs : scale n d = 0 := by unfold scale; rw [hq]; decide
    have hg : signif n d = 0 := by
      unfold signif rne
      rw [hs]
      simp only [Nat.pow_zero, Nat.mul_one]
      have hm : n % d = n := Nat.mod_eq_of_lt (by omega)
      rw [hq, hm]
      split
      · rfl
      · split
        · omega
        · rfl
    rw [hs, hg]
    simp

/-- A non-negative number, or NaN (`none`), by its magnitude pattern. -/
def ofMag : Option Nat → F32
  | none => nan
  | some m => pack false m

/-- The pattern of `u * u + w`, rounded once; `u` in units, `w` a pattern. -/
def fmaMag (u m : Nat) : Nat :=
  if m = infMag then infMag else roundMag (u * u + unitsOf m * 2 ^ 149) (2 ^ 149)

def fmaOpt (x : F32) : Option Nat → Option Nat
  | none => none
  | some m => if x.isNaN then none else if x.isInf then some infMag else some (fmaMag x.units m)

theorem nan_facts : nan.isNaN = true ∧ nan.isInf = false ∧ nan.isZero = false := by decide

theorem pack_facts {neg : Bool} {m : Nat} (h : m ≤ infMag) : (pack neg m).isNaN = false ∧
    (pack neg m).isInf = decide (m = infMag) ∧ (pack neg m).isZero = decide (m = 0) ∧
    (pack neg m).neg? = neg := by
  have hm : m < 2147483648 := by unfold infMag at h; omega
  refine ⟨?_, ?_, ?_, pack_neg hm⟩
  · unfold isNaN; rw [pack_mag hm]; simp; omega
  · unfold isInf; rw [pack_mag hm]
  · unfold isZero; rw [pack_mag hm]

theorem value_sq (x : F32) : x.value * x.value = ((x.units * x.units : Nat) : Int) := by
  unfold value
  cases x.neg? <;> simp [Int.neg_mul_neg]

theorem value_pack {neg : Bool} {m : Nat} (h : m < 2147483648) :
    (pack neg m).value = if neg then -(unitsOf m : Int) else unitsOf m := by
  unfold value
  rw [pack_neg h, pack_units h]

theorem fmaMag_le (u m : Nat) : fmaMag u m ≤ infMag := by
  unfold fmaMag; split
  · exact Nat.le_refl _
  · exact roundMag_le ..

theorem mul_sq (x : F32) : x.mul x = ofMag (if x.isNaN then none else if x.isInf then some infMag else
    some (roundMag (x.units * x.units) (2 ^ 149))) := by
  unfold mul
  by_cases hn : x.isNaN = true
  · simp [hn, ofMag]
  · by_cases hi : x.isInf = true
    · have hz : x.isZero = false := by
        unfold isInf isZero at *
        simp only [decide_eq_true_eq] at hi
        rw [hi]; decide
      simp [hn, hi, hz, ofMag, inf]
    · simp [hn, hi, ofMag]

theorem cast_sum (a b k : Nat) : ((a : Nat) : Int) + (b : Int) * 2 ^ k = ((a + b * 2 ^ k : Nat) : Int) := by
  simp

theorem round_nat (n d : Nat) (s : Bool) (hs : s = false) :
    (if ((n : Nat) : Int) = 0 then pack s 0 else round (n : Int) d) = pack false (roundMag n d) := by
  subst hs
  by_cases h0 : n = 0
  · subst h0
    simp [roundMag_zero]
  · rw [if_neg (by omega)]
    unfold round
    rw [Int.natAbs_natCast]
    congr 1

theorem mulAdd_sq (x : F32) (w : Option Nat) (hw : ∀ m, w = some m → m ≤ infMag) :
    x.mulAdd x (ofMag w) = ofMag (fmaOpt x w) := by
  unfold mulAdd fmaOpt
  cases w with
  | none => simp [ofMag, nan_facts.1]
  | some m =>
    obtain ⟨p1, p2, p3, p4⟩ := pack_facts (neg := false) (hw m rfl)
    have hm := hw m rfl
    have hm2 : m < 2147483648 := by unfold infMag at hm; omega
    simp only [ofMag, p1, p2, p4]
    by_cases hn : x.isNaN = true
    · simp [hn]
    · by_cases hi : x.isInf = true
      · have hz : x.isZero = false := by
          unfold isInf isZero at *
          simp only [decide_eq_true_eq] at hi
          rw [hi]; decide
        simp [hn, hi, hz, inf]
      · simp only [hn, hi, fmaMag]
        by_cases hinf : m = infMag
        · simp [hinf]
        · simp only [hinf, value_sq, value_pack hm2]
          have hc := cast_sum (x.units * x.units) (unitsOf m) 149
          simp only [Bool.false_eq_true, if_false, hc, decide_false, Bool.or_self]
          exact round_nat _ _ _ (by simp)

/-- The pattern of the sum of squares of a vector. -/
def sumSq (v : Vector3Float) : Option Nat :=
  fmaOpt v.z (fmaOpt v.x (if v.y.isNaN then none else if v.y.isInf then some infMag else
    some (roundMag (v.y.units * v.y.units) (2 ^ 149))))

theorem fmaOpt_le (x : F32) (w : Option Nat) : ∀ m, fmaOpt x w = some m → m ≤ infMag := by
  intro m h
  unfold fmaOpt at h
  cases w with
  | none => cases h
  | some k =>
    simp only at h
    split at h
    · cases h
    · split at h
      · cases h; exact Nat.le_refl _
      · cases h; exact fmaMag_le ..

theorem sumSq_le (v : Vector3Float) : ∀ m, sumSq v = some m → m ≤ infMag := fun _ h => fmaOpt_le _ _ _ h

theorem sumSq_eq (v : Vector3Float) :
    v.z.mulAdd v.z (v.x.mulAdd v.x (v.y.mul v.y)) = ofMag (sumSq v) := by
  rw [mul_sq, mulAdd_sq v.x, mulAdd_sq v.z]
  · rfl
  · exact fun _ h => fmaOpt_le _ _ _ h
  · intro m h
    split at h
    · cases h
    · split at h
      · cases h; exact Nat.le_refl _
      · cases h; exact roundMag_le ..

/-- The pattern of the magnitude. -/
def magnMag (m : Nat) : Nat := if m = 0 then 0 else if m = infMag then infMag else roundSqrt (unitsOf m * 2 ^ 149)

theorem magnitude_eq (v : Vector3Float) : v.magnitude = ofMag ((sumSq v).map magnMag) := by
  unfold Vector3Float.magnitude
  rw [sumSq_eq]
  have hle := sumSq_le v
  cases h : sumSq v with
  | none => decide +kernel
  | some m =>
    obtain ⟨p1, p2, p3, p4⟩ := pack_facts (neg := false) (hle m h)
    have hm := hle m h
    have hm2 : m < 2147483648 := by unfold infMag at hm; omega
    unfold sqrt
    simp only [ofMag, p1, p2, p3, p4, Option.map_some, magnMag]
    by_cases h0 : m = 0
    · simp [h0]
    · by_cases h1 : m = infMag
      · have : infMag ≠ 0 := by decide
        simp [h1, this]
      · simp [h0, h1, pack_units hm2]

theorem magnMag_le (m : Nat) : magnMag m ≤ infMag := by
  unfold magnMag
  split
  · exact Nat.zero_le _
  · split
    · exact Nat.le_refl _
    · exact roundSqrt_le _

theorem unitsOf_pos {m : Nat} (h : 0 < m) : 0 < unitsOf m := by
  have h1 : unitsOf 1 ≤ unitsOf m := unitsOf_mono h
  have h2 : unitsOf 1 = 1 := by decide
  omega

theorem magnMag_eq_zero {m : Nat} : magnMag m = 0 ↔ m = 0 := by
  unfold magnMag
  constructor
  · intro h
    split at h
    · assumption
    · split at h
      · exact absurd h (by decide)
      · have h1 : 0 < unitsOf m := unitsOf_pos (by omega)
        have := roundSqrt_pos (k := unitsOf m * 2 ^ 149) (Nat.mul_pos h1 (two_pow_pos _))
        omega
  · intro h; simp [h]

/-! Bounds. -/

theorem fmaMag_ge_right (u : Nat) {m : Nat} (h : m ≤ infMag) : m ≤ fmaMag u m := by
  unfold fmaMag
  split
  · omega
  · have h1 := roundMag_units (m := m) (den := 2 ^ 149) (by omega) (two_pow_pos _)
    have h2 := roundMag_mono (num := 2 ^ 149 * unitsOf m) (num' := u * u + unitsOf m * 2 ^ 149) (two_pow_pos 149)
      (by rw [Nat.mul_comm]; exact Nat.le_add_left _ _)
    omega

theorem fmaMag_ge_left (u m : Nat) : roundMag (u * u) (2 ^ 149) ≤ fmaMag u m := by
  unfold fmaMag
  split
  · exact roundMag_le ..
  · exact roundMag_mono (two_pow_pos _) (Nat.le_add_right _ _)

/-- What it means for all components of a vector to be numbers. -/
def allFinite (v : Vector3Float) : Prop := v.x.mag < infMag ∧ v.y.mag < infMag ∧ v.z.mag < infMag

theorem finite_facts {x : F32} (h : x.mag < infMag) : x.isNaN = false ∧ x.isInf = false := by
  unfold isNaN isInf
  simp
  omega

theorem sumSq_finite {v : Vector3Float} (h : allFinite v) :
    sumSq v = some (fmaMag v.z.units (fmaMag v.x.units (roundMag (v.y.units * v.y.units) (2 ^ 149)))) := by
  obtain ⟨hx, hy, hz⟩ := h
  unfold sumSq fmaOpt
  simp [finite_facts hx, finite_facts hy, finite_facts hz]

end F32
end Dis
