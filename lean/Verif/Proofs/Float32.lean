import Verif.Model.Float32
/-
Facts about rounding: it is monotone, exact on representable magnitudes, and nearest.
-/
namespace Dis
namespace F32

/-! ### The nearest whole number -/

theorem rne_bounds (a : Nat) {b : Nat} (hb : 0 < b) :
    2 * (b * rne a b) ≤ 2 * a + b ∧ 2 * a ≤ 2 * (b * rne a b) + b := by
  have h1 := Nat.div_add_mod a b
  have h2 := Nat.mod_lt a hb
  unfold rne
  simp only
  generalize a / b = q at *
  generalize a % b = r at *
  have h3 : b * (q + 1) = b * q + b := Nat.mul_succ b q
  split
  · omega
  · split
    · omega
    · split <;> omega

theorem rne_mono {a a' b : Nat} (hb : 0 < b) (h : a ≤ a') : rne a b ≤ rne a' b := by
  rcases Nat.lt_or_ge (rne a' b) (rne a b) with hlt | hge
  · obtain ⟨h1, h2⟩ := rne_bounds a hb
    obtain ⟨h3, h4⟩ := rne_bounds a' hb
    have h5 : b * (rne a' b + 1) ≤ b * rne a b := Nat.mul_le_mul_left b hlt
    rw [Nat.mul_succ] at h5
    have : a = a' := by omega
    subst this
    omega
  · exact hge

/-- Between whole numbers. -/
theorem rne_between {a b lo hi : Nat} (hb : 0 < b) (h1 : b * lo ≤ a) (h2 : a ≤ b * hi) :
    lo ≤ rne a b ∧ rne a b ≤ hi := by
  obtain ⟨h3, h4⟩ := rne_bounds a hb
  constructor
  · rcases Nat.lt_or_ge (rne a b) lo with h | h
    · exfalso
      have h5 : b * (rne a b + 1) ≤ b * lo := Nat.mul_le_mul_left b h
      rw [Nat.mul_succ] at h5
      omega
    · exact h
  · rcases Nat.lt_or_ge hi (rne a b) with h | h
    · exfalso
      have h5 : b * (hi + 1) ≤ b * rne a b := Nat.mul_le_mul_left b h
      rw [Nat.mul_succ] at h5
      omega
    · exact h

theorem rne_mul (a : Nat) {b : Nat} (hb : 0 < b) : rne (b * a) b = a := by
  have := rne_between (lo := a) (hi := a) hb (Nat.le_refl _) (Nat.le_refl _)
  omega

/-! ### Magnitude patterns -/

/-- The scale used for `num / den`. -/
def scale (num den : Nat) : Nat := (num / den).log2 - 23

theorem scale_upper (num : Nat) {den : Nat} (hd : 0 < den) :
    num < den * 2 ^ scale num den * 16777216 := by
  have h1 : num / den < 2 ^ ((num / den).log2 + 1) := Nat.lt_log2_self
  have h2 : 2 ^ ((num / den).log2 + 1) ≤ 2 ^ (scale num den + 24) :=
    Nat.pow_le_pow_right (by decide) (by unfold scale; omega)
  have h3 : num / den < 2 ^ (scale num den + 24) := Nat.lt_of_lt_of_le h1 h2
  rw [Nat.div_lt_iff_lt_mul hd, Nat.pow_add] at h3
  calc num < 2 ^ scale num den * 2 ^ 24 * den := h3
    _ = den * 2 ^ scale num den * 16777216 := by
      rw [Nat.mul_comm _ den, Nat.mul_assoc]

theorem scale_lower (num : Nat) {den : Nat} (hd : 0 < den) (hs : 0 < scale num den) :
    den * 2 ^ scale num den * 8388608 ≤ num := by
  have h0 : num / den ≠ 0 := by
    intro h
    unfold scale at hs
    rw [h] at hs
    simp at hs
  have h1 : 2 ^ (num / den).log2 ≤ num / den := Nat.log2_self_le h0
  have h2 : (num / den).log2 = scale num den + 23 := by unfold scale at *; omega
  rw [h2, Nat.le_div_iff_mul_le hd, Nat.pow_add] at h1
  calc den * 2 ^ scale num den * 8388608 = 2 ^ scale num den * 2 ^ 23 * den := by
        rw [Nat.mul_comm _ den, Nat.mul_assoc]
    _ ≤ num := h1

/-- The rounded significand. -/
def signif (num den : Nat) : Nat := rne num (den * 2 ^ scale num den)

theorem two_pow_pos (n : Nat) : 0 < 2 ^ n := Nat.pos_of_ne_zero (by simp)

theorem signif_le (num : Nat) {den : Nat} (hd : 0 < den) : signif num den ≤ 16777216 :=
  (rne_between (lo := 0) (Nat.mul_pos hd (two_pow_pos _)) (by simp)
    (Nat.le_of_lt (scale_upper num hd))).2

theorem signif_ge (num : Nat) {den : Nat} (hd : 0 < den) (hs : 0 < scale num den) :
    8388608 ≤ signif num den :=
  (rne_between (hi := 16777216) (Nat.mul_pos hd (two_pow_pos _)) (scale_lower num hd hs)
    (Nat.le_of_lt (scale_upper num hd))).1

theorem roundMag_eq (num den : Nat) :
    roundMag num den = min infMag (scale num den * 8388608 + signif num den) := rfl

theorem scale_mono {num num' : Nat} (den : Nat) (h : num ≤ num') : scale num den ≤ scale num' den := by
  have h1 : num / den ≤ num' / den := Nat.div_le_div_right h
  unfold scale
  by_cases h0 : num / den = 0
  · rw [h0]; simp
  · have h2 : 2 ^ (num / den).log2 ≤ num' / den := Nat.le_trans (Nat.log2_self_le h0) h1
    have h3 : (num / den).log2 ≤ (num' / den).log2 := (Nat.le_log2 (Nat.ne_of_gt (Nat.lt_of_lt_of_le (Nat.pos_of_ne_zero h0) h1))).mpr h2
    omega

/-- Rounding is monotone. -/
theorem roundMag_mono {num num' den : Nat} (hd : 0 < den) (h : num ≤ num') :
    roundMag num den ≤ roundMag num' den := by
  rw [roundMag_eq, roundMag_eq]
  have hs := scale_mono den h
  have key : scale num den * 8388608 + signif num den ≤ scale num' den * 8388608 + signif num' den := by
    rcases Nat.lt_or_ge (scale num den) (scale num' den) with hlt | hge
    · have h1 := signif_le num hd
      have h2 := signif_ge num' hd (by omega)
      omega
    · have he : scale num' den = scale num den := by omega
      have h1 : signif num den ≤ signif num' den := by
        unfold signif
        rw [he]
        exact rne_mono (Nat.mul_pos hd (two_pow_pos _)) h
      omega
  omega

/-- The units of a pattern put together from a scale and a significand. -/
theorem unitsOf_pattern {s n : Nat} (h1 : n ≤ 16777216) (h2 : s = 0 ∨ 8388608 ≤ n) :
    unitsOf (s * 8388608 + n) = n * 2 ^ s := by
  have hpow : ∀ k, 2 ^ (k + 1) = 2 ^ k * 2 := fun k => Nat.pow_succ ..
  unfold unitsOf
  simp only
  rcases Nat.lt_or_ge n 8388608 with h | h
  · rcases h2 with h2 | h2
    · subst h2
      have e1 : (0 * 8388608 + n) / 8388608 = 0 := by omega
      have e2 : (0 * 8388608 + n) % 8388608 = n := by omega
      rw [e1, e2, if_pos rfl]; simp
    · omega
  · rcases Nat.lt_or_ge n 16777216 with h' | h'
    · have e1 : (s * 8388608 + n) / 8388608 = s + 1 := by omega
      have e2 : (s * 8388608 + n) % 8388608 = n - 8388608 := by omega
      rw [e1, e2, if_neg (by omega)]
      have e3 : 8388608 + (n - 8388608) = n := by omega
      have e4 : s + 1 - 1 = s := by omega
      rw [e3, e4]
    · have e0 : n = 16777216 := by omega
      have e1 : (s * 8388608 + n) / 8388608 = s + 2 := by omega
      have e2 : (s * 8388608 + n) % 8388608 = 0 := by omega
      rw [e1, e2, if_neg (by omega)]
      have e4 : s + 2 - 1 = s + 1 := by omega
      rw [e4, hpow, e0]
      generalize 2 ^ s = p
      omega

/-- Every pattern is of that form, uniquely. -/
theorem pattern_form (m : Nat) : ∃ s n, m = s * 8388608 + n ∧ n < 16777216 ∧ (s = 0 ∨ 8388608 ≤ n) := by
  rcases Nat.lt_or_ge m 8388608 with h | h
  · exact ⟨0, m, by omega, by omega, .inl rfl⟩
  · exact ⟨m / 8388608 - 1, m % 8388608 + 8388608, by omega, by omega, .inr (by omega)⟩

theorem infMag_val : infMag = 254 * 8388608 + 8388608 := rfl

theorem log2_mul_pow {n s : Nat} (h1 : n < 16777216) (h2 : 8388608 ≤ n) : (n * 2 ^ s).log2 = s + 23 := by
  have hp := two_pow_pos s
  have h0 : n * 2 ^ s ≠ 0 := Nat.ne_of_gt (Nat.mul_pos (by omega) hp)
  have hl : 2 ^ (s + 23) ≤ n * 2 ^ s := by
    rw [Nat.pow_add, Nat.mul_comm]; exact Nat.mul_le_mul_right _ h2
  have hu : n * 2 ^ s < 2 ^ (s + 24) := by
    rw [Nat.pow_add, Nat.mul_comm (2 ^ s)]
    exact Nat.mul_lt_mul_of_pos_right h1 hp
  have h3 := (Nat.le_log2 h0).mpr hl
  have h4 := (Nat.log2_lt h0).mpr hu
  omega

/-- A representable magnitude is rounded to itself. -/
theorem roundMag_units {m den : Nat} (h : m < infMag) (hd : 0 < den) : roundMag (den * unitsOf m) den = m := by
  obtain ⟨s, n, rfl, hn, hs⟩ := pattern_form m
  rw [unitsOf_pattern (by omega) hs, roundMag_eq]
  have hdiv : den * (n * 2 ^ s) / den = n * 2 ^ s := Nat.mul_div_cancel_left _ hd
  have hsc : scale (den * (n * 2 ^ s)) den = s := by
    unfold scale
    rw [hdiv]
    rcases Nat.lt_or_ge n 8388608 with hlt | hge
    · have hs0 : s = 0 := by omega
      subst hs0
      simp only [Nat.pow_zero, Nat.mul_one]
      by_cases h0 : n = 0
      · subst h0; simp
      · have := (Nat.log2_lt h0).mpr (show n < 2 ^ 24 by omega)
        omega
    · rw [log2_mul_pow hn hge]; omega
  have hsi : signif (den * (n * 2 ^ s)) den = n := by
    unfold signif
    rw [hsc]
    have : den * (n * 2 ^ s) = den * 2 ^ s * n := by
      rw [Nat.mul_comm n, Nat.mul_assoc]
    rw [this]
    exact rne_mul _ (Nat.mul_pos hd (two_pow_pos _))
  rw [hsc, hsi]
  omega

/-- The error is at most half a unit in the last place. -/
theorem roundMag_error {num den : Nat} (hd : 0 < den) (h : roundMag num den < infMag) :
    unitsOf (roundMag num den) = signif num den * 2 ^ scale num den ∧
    2 * (den * unitsOf (roundMag num den)) ≤ 2 * num + den * 2 ^ scale num den ∧
    2 * num ≤ 2 * (den * unitsOf (roundMag num den)) + den * 2 ^ scale num den := by
  have e : roundMag num den = scale num den * 8388608 + signif num den := by
    rw [roundMag_eq] at h ⊢; omega
  have hu : unitsOf (roundMag num den) = signif num den * 2 ^ scale num den := by
    rw [e]
    refine unitsOf_pattern (signif_le num hd) ?_
    rcases Nat.eq_zero_or_pos (scale num den) with h0 | h0
    · exact .inl h0
    · exact .inr (signif_ge num hd h0)
  refine ⟨hu, ?_⟩
  rw [hu]
  have hb := rne_bounds num (b := den * 2 ^ scale num den) (Nat.mul_pos hd (two_pow_pos _))
  have e2 : den * (signif num den * 2 ^ scale num den) = den * 2 ^ scale num den * signif num den := by
    rw [Nat.mul_comm (signif num den), Nat.mul_assoc]
  rw [e2]
  exact ⟨hb.1, hb.2⟩

theorem unitsOf_mono {m m' : Nat} (h : m ≤ m') : unitsOf m ≤ unitsOf m' := by
  obtain ⟨s, n, rfl, hn, hs⟩ := pattern_form m
  obtain ⟨s', n', rfl, hn', hs'⟩ := pattern_form m'
  rw [unitsOf_pattern (by omega) hs, unitsOf_pattern (by omega) hs']
  have hss : s ≤ s' := by omega
  rcases Nat.lt_or_ge s s' with hlt | hge
  · have h1 : 2 ^ (s + 1) ≤ 2 ^ s' := Nat.pow_le_pow_right (by decide) hlt
    have h2 : 8388608 ≤ n' := by omega
    calc n * 2 ^ s ≤ 16777216 * 2 ^ s := Nat.mul_le_mul_right _ (by omega)
      _ = 8388608 * 2 ^ (s + 1) := by rw [Nat.pow_succ]; omega
      _ ≤ 8388608 * 2 ^ s' := Nat.mul_le_mul_left _ h1
      _ ≤ n' * 2 ^ s' := Nat.mul_le_mul_right _ h2
  · have : s = s' := by omega
    subst this
    exact Nat.mul_le_mul_right _ (by omega)

theorem unitsOf_strict {m m' : Nat} (h : m < m') (hi : m' < infMag) : unitsOf m < unitsOf m' := by
  rcases Nat.lt_or_ge (unitsOf m) (unitsOf m') with h1 | h1
  · exact h1
  · have h2 := unitsOf_mono (Nat.le_of_lt h)
    have h3 : unitsOf m = unitsOf m' := by omega
    have h4 := roundMag_units (den := 1) (m := m) (by omega) (by decide)
    have h5 := roundMag_units (den := 1) hi (by decide)
    rw [h3, h5] at h4
    omega

/-! ### Nearest -/

theorem rne_nearest (a k : Nat) {b : Nat} (hb : 0 < b) :
    (((b * rne a b : Nat) : Int) - a).natAbs ≤ (((b * k : Nat) : Int) - a).natAbs := by
  obtain ⟨h1, h2⟩ := rne_bounds a hb
  rcases Nat.lt_trichotomy k (rne a b) with h | h | h
  · have h3 : b * (k + 1) ≤ b * rne a b := Nat.mul_le_mul_left b h
    rw [Nat.mul_succ] at h3
    omega
  · rw [h]
    omega
  · have h3 : b * (rne a b + 1) ≤ b * k := Nat.mul_le_mul_left b h
    rw [Nat.mul_succ] at h3
    omega

/-- No finite magnitude is nearer to `num / den` units than the one chosen. -/
theorem roundMag_nearest {num den : Nat} (hd : 0 < den) (h : roundMag num den < infMag) (m : Nat) :
    (((den * unitsOf (roundMag num den) : Nat) : Int) - num).natAbs ≤
      (((den * unitsOf m : Nat) : Int) - num).natAbs := by
  obtain ⟨hu, _⟩ := roundMag_error hd h
  obtain ⟨s', n', rfl, hn', hs'⟩ := pattern_form m
  rw [hu, unitsOf_pattern (by omega) hs']
  have hD : 0 < den * 2 ^ scale num den := Nat.mul_pos hd (two_pow_pos _)
  have e : den * (signif num den * 2 ^ scale num den) = den * 2 ^ scale num den * rne num (den * 2 ^ scale num den) := by
    show _ = den * 2 ^ scale num den * signif num den
    rw [Nat.mul_comm (signif num den), Nat.mul_assoc]
  rw [e]
  rcases Nat.lt_or_ge s' (scale num den) with hlt | hge
  · have h1 := rne_nearest num 8388608 hD
    have h2 := scale_lower num hd (by omega)
    have h3 : den * (n' * 2 ^ s') ≤ den * 2 ^ scale num den * 8388608 := by
      have h4 : 2 ^ (s' + 1) ≤ 2 ^ scale num den := Nat.pow_le_pow_right (by decide) hlt
      have h5 : n' * 2 ^ s' ≤ 8388608 * 2 ^ (s' + 1) := by
        rw [Nat.pow_succ]
        have := Nat.mul_le_mul_right (2 ^ s') (show n' ≤ 16777216 by omega)
        omega
      calc den * (n' * 2 ^ s') ≤ den * (8388608 * 2 ^ scale num den) :=
            Nat.mul_le_mul_left _ (Nat.le_trans h5 (Nat.mul_le_mul_left _ h4))
        _ = den * 2 ^ scale num den * 8388608 := by rw [Nat.mul_comm 8388608, Nat.mul_assoc]
    omega
  · have h1 := rne_nearest num (n' * 2 ^ (s' - scale num den)) hD
    have h2 : den * 2 ^ scale num den * (n' * 2 ^ (s' - scale num den)) = den * (n' * 2 ^ s') := by
      have h3 : 2 ^ s' = 2 ^ scale num den * 2 ^ (s' - scale num den) := by
        rw [← Nat.pow_add]; congr 1; omega
      rw [h3, Nat.mul_assoc, Nat.mul_left_comm n']
    rw [h2] at h1
    exact h1

theorem roundMag_le (num den : Nat) : roundMag num den ≤ infMag := by rw [roundMag_eq]; omega

/-- Exactly half-way between two whole numbers, the even one is chosen. -/
theorem rne_even {a b : Nat} (hb : 0 < b) (h : 2 * (b * rne a b) = 2 * a + b ∨ 2 * a = 2 * (b * rne a b) + b) :
    rne a b % 2 = 0 := by
  have h1 := Nat.div_add_mod a b
  have h2 := Nat.mod_lt a hb
  unfold rne at h ⊢
  simp only at h ⊢
  generalize a / b = q at *
  generalize a % b = r at *
  have e : b * (q + 1) = b * q + b := Nat.mul_succ b q
  split at h
  · omega
  · split at h
    · rw [e] at h; omega
    · split at h
      · rename_i h5 h6 h7
        rw [if_neg h5, if_neg h6, if_pos h7]; exact h7
      · rename_i h5 h6 h7
        rw [if_neg h5, if_neg h6, if_neg h7]; omega

/-- When another magnitude is equally near, the pattern chosen is even. -/
theorem roundMag_even {num den : Nat} (hd : 0 < den) (h : roundMag num den < infMag) (m : Nat)
    (hne : unitsOf m ≠ unitsOf (roundMag num den))
    (ht : (((den * unitsOf (roundMag num den) : Nat) : Int) - num).natAbs =
      (((den * unitsOf m : Nat) : Int) - num).natAbs) : roundMag num den % 2 = 0 := by
  obtain ⟨hu, hb1, hb2⟩ := roundMag_error hd h
  have er : roundMag num den = scale num den * 8388608 + signif num den := by
    rw [roundMag_eq] at h ⊢; omega
  have hD : 0 < den * 2 ^ scale num den := Nat.mul_pos hd (two_pow_pos _)
  have e : den * unitsOf (roundMag num den) = den * 2 ^ scale num den * signif num den := by
    rw [hu, Nat.mul_comm (signif num den), Nat.mul_assoc]
  have hne' : den * unitsOf m ≠ den * unitsOf (roundMag num den) := fun hh =>
    hne (Nat.eq_of_mul_eq_mul_left hd hh)
  suffices hs : signif num den % 2 = 0 by omega
  apply rne_even hD
  show 2 * (den * 2 ^ scale num den * signif num den) = _ ∨ 2 * num = 2 * (den * 2 ^ scale num den * signif num den) + _
  rw [← e]
  -- the multiple of `D` nearest to the rival, on its side
  have hk : ∃ k, den * unitsOf m = den * 2 ^ scale num den * k := by
    obtain ⟨s', n', hm, hn', hs'⟩ := pattern_form m
    rw [hm, unitsOf_pattern (by omega) hs'] at ht hne' ⊢
    rcases Nat.lt_or_ge s' (scale num den) with hlt | hge
    · have h1 := rne_nearest num 8388608 hD
      have h2 := scale_lower num hd (by omega)
      have hg := signif_ge num hd (by omega)
      have h3 : den * (n' * 2 ^ s') ≤ den * 2 ^ scale num den * 8388608 := by
        have h4 : 2 ^ (s' + 1) ≤ 2 ^ scale num den := Nat.pow_le_pow_right (by decide) hlt
        have h5 : n' * 2 ^ s' ≤ 8388608 * 2 ^ (s' + 1) := by
          rw [Nat.pow_succ]
          have := Nat.mul_le_mul_right (2 ^ s') (show n' ≤ 16777216 by omega)
          omega
        calc den * (n' * 2 ^ s') ≤ den * (8388608 * 2 ^ scale num den) :=
              Nat.mul_le_mul_left _ (Nat.le_trans h5 (Nat.mul_le_mul_left _ h4))
          _ = den * 2 ^ scale num den * 8388608 := by rw [Nat.mul_comm 8388608, Nat.mul_assoc]
      change (((den * 2 ^ scale num den * signif num den : Nat) : Int) - num).natAbs ≤ _ at h1
      rw [← e] at h1
      exact ⟨8388608, by omega⟩
    · refine ⟨n' * 2 ^ (s' - scale num den), ?_⟩
      have h3 : 2 ^ s' = 2 ^ scale num den * 2 ^ (s' - scale num den) := by
        rw [← Nat.pow_add]; congr 1; omega
      rw [h3, Nat.mul_assoc, Nat.mul_left_comm n']
  obtain ⟨k, hk⟩ := hk
  rw [hk] at ht hne'
  rw [e] at ht hne' hb1 hb2 ⊢
  have hkn : k ≠ signif num den := fun hh => hne' (by rw [hh])
  rcases Nat.lt_or_ge k (signif num den) with hlt | hge
  · have h5 : den * 2 ^ scale num den * (k + 1) ≤ den * 2 ^ scale num den * signif num den :=
      Nat.mul_le_mul_left _ hlt
    rw [Nat.mul_succ] at h5
    generalize den * 2 ^ scale num den * signif num den = A at *
    generalize den * 2 ^ scale num den * k = B at *
    omega
  · have h5 : den * 2 ^ scale num den * (signif num den + 1) ≤ den * 2 ^ scale num den * k :=
      Nat.mul_le_mul_left _ (by omega)
    rw [Nat.mul_succ] at h5
    generalize den * 2 ^ scale num den * signif num den = A at *
    generalize den * 2 ^ scale num den * k = B at *
    omega

/-- The largest finite magnitude, in units. -/
theorem unitsOf_max : unitsOf (infMag - 1) = 16777215 * 2 ^ 253 := by
  rw [show infMag - 1 = 253 * 8388608 + 16777215 from rfl]
  exact unitsOf_pattern (by decide) (.inr (by decide))

/-- Infinity is chosen from half a step beyond the largest finite magnitude on. -/
theorem roundMag_inf_iff {num den : Nat} (hd : 0 < den) :
    roundMag num den = infMag ↔ den * (33554431 * 2 ^ 252) ≤ num := by
  obtain ⟨T, hT⟩ : ∃ T, T = 2 ^ 252 := ⟨_, rfl⟩
  have hp : (2 : Nat) ^ 253 = 2 * T := by rw [hT]
  have hp4 : (2 : Nat) ^ 254 = 4 * T := by
    have : (2 : Nat) ^ 254 = 2 * 2 ^ 253 := Nat.pow_succ' ..
    rw [this, hp, ← Nat.mul_assoc]
  have hT0 : 0 < T := hT ▸ two_pow_pos 252
  have hmx := unitsOf_max
  rw [hp] at hmx
  rw [← hT]
  constructor
  · intro h
    rw [roundMag_eq] at h
    have h1 := signif_le num hd
    have hge : 253 ≤ scale num den := by
      have : infMag ≤ scale num den * 8388608 + signif num den := by omega
      rw [infMag_val] at this
      omega
    rcases Nat.lt_or_ge 253 (scale num den) with hlt | hle
    · have h2 := scale_lower num hd (by omega)
      have h3 : 2 ^ 254 ≤ 2 ^ scale num den := Nat.pow_le_pow_right (by decide) hlt
      rw [hp4] at h3
      have h5 : den * (4 * T * 8388608) ≤ den * 2 ^ scale num den * 8388608 := by
        rw [← Nat.mul_assoc]
        exact Nat.mul_le_mul_right _ (Nat.mul_le_mul_left _ (by omega))
      have h6 : den * (33554431 * T) ≤ den * (4 * T * 8388608) :=
        Nat.mul_le_mul_left _ (by omega)
      omega
    · have hs : scale num den = 253 := by omega
      have h2 : signif num den = 16777216 := by
        have : infMag ≤ scale num den * 8388608 + signif num den := by omega
        rw [infMag_val, hs] at this
        omega
      have hD : 0 < den * 2 ^ 253 := Nat.mul_pos hd (two_pow_pos _)
      have hb := (rne_bounds num hD).1
      have h3 : rne num (den * 2 ^ 253) = 16777216 := by rw [← h2]; unfold signif; rw [hs]
      rw [h3, hp] at hb
      have e1 : den * (2 * T) = 2 * (den * T) := by rw [Nat.mul_left_comm]
      have e2 : den * (33554431 * T) = 33554431 * (den * T) := by rw [Nat.mul_left_comm]
      rw [e1] at hb
      rw [e2]
      generalize den * T = X at *
      omega
  · intro h
    rcases Nat.lt_or_ge (roundMag num den) infMag with hlt | hge
    · exfalso
      obtain ⟨hu, _, hb⟩ := roundMag_error hd hlt
      have er : roundMag num den = scale num den * 8388608 + signif num den := by
        rw [roundMag_eq] at hlt ⊢; omega
      have hmax : unitsOf (roundMag num den) ≤ 16777215 * 2 ^ 253 := by
        rw [hp, ← hmx]; exact unitsOf_mono (by omega)
      have hm2 : den * unitsOf (roundMag num den) ≤ den * (16777215 * 2 ^ 253) := Nat.mul_le_mul_left _ hmax
      have hs : scale num den ≤ 253 := by
        rcases Nat.lt_or_ge 253 (scale num den) with hgt | hle
        · have := signif_ge num hd (by omega)
          rw [infMag_val] at hlt
          omega
        · exact hle
      have e2 : den * (33554431 * T) = 33554431 * (den * T) := by rw [Nat.mul_left_comm]
      have e3 : den * (16777215 * 2 ^ 253) = 33554430 * (den * T) := by
        rw [hp, Nat.mul_left_comm, Nat.mul_left_comm den 2]; omega
      rw [e2] at h
      rw [e3] at hm2
      have hX : 0 < den * T := Nat.mul_pos hd hT0
      rcases Nat.lt_or_ge (scale num den) 253 with h6 | h6
      · have h7 : den * 2 ^ scale num den ≤ den * T := by
          rw [hT]
          exact Nat.mul_le_mul_left _ (Nat.pow_le_pow_right (by decide) (by omega))
        generalize den * T = X at *
        omega
      · have hs3 : scale num den = 253 := by omega
        have e4 : den * 2 ^ scale num den = 2 * (den * T) := by
          rw [hs3, hp, Nat.mul_left_comm]
        have h8 : 2 * num = 2 * (den * unitsOf (roundMag num den)) + den * 2 ^ scale num den ∧
            den * unitsOf (roundMag num den) = 33554430 * (den * T) := by
          rw [e4] at hb ⊢
          generalize den * T = X at *
          omega
        have hD : 0 < den * 2 ^ scale num den := Nat.mul_pos hd (two_pow_pos _)
        have e5 : den * unitsOf (roundMag num den) = den * 2 ^ scale num den * signif num den := by
          rw [hu, Nat.mul_comm (signif num den), Nat.mul_assoc]
        have hev : signif num den % 2 = 0 := rne_even hD (.inr (by
          show 2 * num = 2 * (den * 2 ^ scale num den * signif num den) + _
          rw [← e5]; exact h8.1))
        have h9 := h8.2
        rw [e5, e4] at h9
        have h10 : (den * T) * (2 * signif num den) = (den * T) * 33554430 := by
          rw [Nat.mul_comm (den * T) 33554430, ← h9, ← Nat.mul_assoc, Nat.mul_comm _ 2]
        have := Nat.eq_of_mul_eq_mul_left hX h10
        omega
    · have := roundMag_le num den
      omega

/-! ### Putting sign and magnitude together -/

theorem pack_mag {neg : Bool} {m : Nat} (h : m < 2147483648) : (pack neg m).mag = m := by
  unfold pack mag
  simp only [UInt32.toNat_ofNat']
  cases neg <;> simp <;> omega

theorem pack_neg {neg : Bool} {m : Nat} (h : m < 2147483648) : (pack neg m).neg? = neg := by
  unfold pack neg?
  simp only [UInt32.toNat_ofNat']
  cases neg <;> simp <;> omega

theorem mag_lt (x : F32) : x.mag < 2147483648 := Nat.mod_lt _ (by decide)

theorem pack_self (x : F32) : pack x.neg? x.mag = x := by
  obtain ⟨b⟩ := x
  unfold pack neg? mag
  simp only
  congr 1
  apply UInt32.toNat.inj
  have h := b.toNat_lt
  rw [UInt32.toNat_ofNat']
  by_cases hb : 2147483648 ≤ b.toNat
  · simp [hb]; omega
  · simp [hb]; omega

theorem roundMag_lt (num den : Nat) : roundMag num den < 2147483648 := by
  have := roundMag_le num den
  unfold infMag at this
  omega

theorem ext_mag {x y : F32} (h1 : x.neg? = y.neg?) (h2 : x.mag = y.mag) : x = y := by
  rw [← pack_self x, ← pack_self y, h1, h2]

theorem pack_units {neg : Bool} {m : Nat} (h : m < 2147483648) : (pack neg m).units = unitsOf m := by
  unfold units; rw [pack_mag h]

end F32
end Dis
