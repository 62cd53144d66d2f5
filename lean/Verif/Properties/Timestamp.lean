import Verif.Model.Timestamp
import Verif.Proofs.Float32
/-
C31: timestamps. Times are microseconds past the hour; `chrono` guarantees minute < 60, second < 60,
nanosecond < 2 000 000 000 (the second thousand million only during a leap second).
-/
namespace Dis
open F32

/-- Microseconds past the hour, of one clock reading. -/
def microsPastHour (minute second nanosecond : UInt32) : Nat :=
  minute.toNat * 60000000 + second.toNat * 1000000 + nanosecond.toNat / 1000

theorem mulU32_ok {a b : UInt32} (h : a.toNat * b.toNat < 4294967296) (prof : Profile) :
    mulU32 prof a b = .ok (a * b) ∧ (a * b).toNat = a.toNat * b.toNat := by
  unfold mulU32
  rw [if_neg (by omega)]
  refine ⟨rfl, ?_⟩
  rw [UInt32.toNat_mul]
  exact Nat.mod_eq_of_lt h

/-- The value of the timestamp. -/
theorem calculate_eq {minute second nanosecond : UInt32} (hm : minute.toNat < 60) (hs : second.toNat < 60)
    (prof : Profile) :
    calculate_dis_timestamp minute second nanosecond prof =
      .ok (stampOf (microsPastHour minute second nanosecond)) := by
  have c60 : (60 : UInt32).toNat = 60 := rfl
  have c6 : (1000000 : UInt32).toNat = 1000000 := rfl
  obtain ⟨e1, v1⟩ := mulU32_ok (a := minute) (b := 60) (by rw [c60]; omega) prof
  obtain ⟨e2, v2⟩ := mulU32_ok (a := minute * 60) (b := 1000000) (by rw [v1, c60, c6]; omega) prof
  obtain ⟨e3, v3⟩ := mulU32_ok (a := second) (b := 1000000) (by rw [c6]; omega) prof
  have hn : (nanosecond / 1000).toNat = nanosecond.toNat / 1000 := by rw [UInt32.toNat_div]; rfl
  unfold calculate_dis_timestamp
  rw [e1]
  show (mulU32 prof (minute * 60) 1000000 >>= _) = _
  rw [e2]
  show (mulU32 prof second 1000000 >>= _) = _
  rw [e3]
  show Except.ok _ = _
  congr 2
  rw [v3, v2, v1, hn, c60, c6]
  unfold microsPastHour
  omega

/-! The division, on magnitudes. -/

theorem dis_1_68_units : dis_1_68.units = 14092861 * 2 ^ 126 := by decide +kernel
theorem dis_1_68_facts : dis_1_68.isNaN = false ∧ dis_1_68.isInf = false ∧ dis_1_68.isZero = false ∧
    dis_1_68.neg? = false := by decide +kernel

/-- The literal is the `f32` nearest to 1.68. -/
theorem dis_1_68_nearest : dis_1_68.mag = roundMag (168 * 2 ^ 149) 100 := by decide +kernel

/-- magnitude pattern of `t as f32` -/
def tMag (t : Nat) : Nat := roundMag (t * 2 ^ 149) 1
/-- magnitude pattern of the quotient -/
def qMag (t : Nat) : Nat := roundMag (unitsOf (tMag t) * 2 ^ 149) (14092861 * 2 ^ 126)

theorem tMag_mono {t t' : Nat} (h : t ≤ t') : tMag t ≤ tMag t' :=
  roundMag_mono (by decide) (Nat.mul_le_mul_right _ h)
theorem qMag_mono {t t' : Nat} (h : t ≤ t') : qMag t ≤ qMag t' :=
  roundMag_mono (Nat.mul_pos (by decide) (two_pow_pos _))
    (Nat.mul_le_mul_right _ (unitsOf_mono (tMag_mono h)))

/-- The greatest possible sum: 59 min 59 s and 1 999 999 999 ns. -/
theorem tMag_top : tMag 3600999999 < infMag := by decide +kernel
theorem qMag_top : qMag 3600999999 < infMag ∧ unitsOf (qMag 3600999999) / 2 ^ 149 < 2147483648 := by
  decide +kernel

theorem stampOf_eq {t : Nat} (h : t ≤ 3600999999) :
    (stampOf t).toNat = unitsOf (qMag t) / 2 ^ 149 := by
  have ht : tMag t < infMag := Nat.lt_of_le_of_lt (tMag_mono h) tMag_top
  have hq : qMag t < infMag := Nat.lt_of_le_of_lt (qMag_mono h) qMag_top.1
  have hi : infMag < 2147483648 := by decide
  have hx : (F32.ofNat t).mag = tMag t := pack_mag (m := tMag t) (by omega)
  have hxn : (F32.ofNat t).neg? = false := pack_neg (neg := false) (show tMag t < _ by omega)
  have hxu : (F32.ofNat t).units = unitsOf (tMag t) := by unfold units; rw [hx]
  obtain ⟨c1, c2, c3, c4⟩ := dis_1_68_facts
  have hd : (F32.ofNat t).div dis_1_68 = pack false (qMag t) := by
    unfold F32.div
    have n1 : (F32.ofNat t).isNaN = false := by unfold isNaN; rw [hx]; simp; omega
    have n2 : (F32.ofNat t).isInf = false := by unfold isInf; rw [hx]; simp; omega
    simp only [n1, n2, c1, c2, c3, c4, hxn, Bool.or_false, Bool.false_eq_true, if_false, hxu, dis_1_68_units,
      bne_self_eq_false]
    unfold qMag
    rfl
  unfold stampOf
  rw [hd]
  have hy : (pack false (qMag t)).mag = qMag t := pack_mag (by omega)
  have hyn : (pack false (qMag t)).neg? = false := pack_neg (by omega)
  have hyu : (pack false (qMag t)).units = unitsOf (qMag t) := pack_units (by omega)
  have n1 : (pack false (qMag t)).isNaN = false := by unfold isNaN; rw [hy]; simp; omega
  have n2 : (pack false (qMag t)).isInf = false := by unfold isInf; rw [hy]; simp; omega
  unfold toU32
  simp only [n1, n2, hyn, Bool.false_eq_true, if_false, hyu]
  have hb : unitsOf (qMag t) / 2 ^ 149 ≤ unitsOf (qMag 3600999999) / 2 ^ 149 :=
    Nat.div_le_div_right (unitsOf_mono (qMag_mono h))
  have hb3 := Nat.lt_of_le_of_lt hb qMag_top.2
  generalize unitsOf (qMag t) / 2 ^ 149 = v at hb3
  rw [Nat.min_eq_right (by omega)]
  exact UInt32.toNat_ofNat_of_lt' (show v < 4294967296 by omega)

theorem stampOf_mono {t t' : Nat} (h : t ≤ t') (h' : t' ≤ 3600999999) :
    (stampOf t).toNat ≤ (stampOf t').toNat := by
  rw [stampOf_eq (by omega), stampOf_eq h']
  exact Nat.div_le_div_right (unitsOf_mono (qMag_mono h))

theorem stampOf_lt {t : Nat} (h : t ≤ 3600999999) : (stampOf t).toNat < 2147483648 := by
  have h1 := stampOf_mono h (Nat.le_refl _)
  rw [stampOf_eq (Nat.le_refl _)] at h1
  exact Nat.lt_of_le_of_lt h1 qMag_top.2

theorem stampOf_zero : (stampOf 0).toNat = 0 := by decide +kernel

/-- How far the timestamp is from `t / 1.68`. -/
theorem stampOf_close {t : Nat} (h : t ≤ 3600999999) :
    168 * (stampOf t).toNat ≤ 100 * t + 54500 ∧ 100 * t ≤ 168 * (stampOf t).toNat + 54500 := by
  by_cases h0 : t = 0
  · subst h0; rw [stampOf_zero]; omega
  have ht : tMag t < infMag := Nat.lt_of_le_of_lt (tMag_mono h) tMag_top
  have hq : qMag t < infMag := Nat.lt_of_le_of_lt (qMag_mono h) qMag_top.1
  rw [stampOf_eq h]
  -- the first rounding
  obtain ⟨_, a1, a2⟩ := roundMag_error (num := t * 2 ^ 149) (den := 1) (by decide) ht
  have as : 0 < scale (t * 2 ^ 149) 1 := by
    unfold scale
    rw [Nat.div_one]
    have : 149 ≤ (t * 2 ^ 149).log2 := (Nat.le_log2 (Nat.mul_ne_zero h0 (by decide))).mpr
      (Nat.le_mul_of_pos_left _ (by omega))
    omega
  have a3 := scale_lower (t * 2 ^ 149) (den := 1) (by decide) as
  -- the second
  have hcd : 0 < 14092861 * 2 ^ 126 := Nat.mul_pos (by decide) (two_pow_pos _)
  have hU1 : unitsOf (tMag 1) ≤ unitsOf (tMag t) := unitsOf_mono (tMag_mono (by omega))
  have hU1v : unitsOf (tMag 1) = 2 ^ 149 := by decide +kernel
  obtain ⟨_, b1, b2⟩ := roundMag_error (num := unitsOf (tMag t) * 2 ^ 149) hcd hq
  have bs : 0 < scale (unitsOf (tMag t) * 2 ^ 149) (14092861 * 2 ^ 126) := by
    unfold scale
    have hge : 2 ^ 140 ≤ unitsOf (tMag t) * 2 ^ 149 / (14092861 * 2 ^ 126) := by
      rw [Nat.le_div_iff_mul_le hcd]
      rw [hU1v] at hU1
      exact Nat.le_trans (show 2 ^ 140 * (14092861 * 2 ^ 126) ≤ 2 ^ 149 * 2 ^ 149 by decide)
        (Nat.mul_le_mul_right _ hU1)
    have : 140 ≤ (unitsOf (tMag t) * 2 ^ 149 / (14092861 * 2 ^ 126)).log2 :=
      (Nat.le_log2 (Nat.ne_of_gt (Nat.lt_of_lt_of_le (two_pow_pos 140) hge))).mpr hge
    omega
  have b3 := scale_lower (unitsOf (tMag t) * 2 ^ 149) hcd bs
  show 168 * (unitsOf (qMag t) / 2 ^ 149) ≤ _ ∧ _
  change 2 * (1 * unitsOf (tMag t)) ≤ _ at a1
  change _ ≤ 2 * (1 * unitsOf (tMag t)) + _ at a2
  change 2 * (14092861 * 2 ^ 126 * unitsOf (qMag t)) ≤ _ at b1
  change _ ≤ 2 * (14092861 * 2 ^ 126 * unitsOf (qMag t)) + _ at b2
  generalize unitsOf (tMag t) = U at *
  generalize unitsOf (qMag t) = V at *
  generalize 1 * 2 ^ scale (t * 2 ^ 149) 1 = A at *
  generalize 14092861 * 2 ^ 126 * 2 ^ scale (U * 2 ^ 149) (14092861 * 2 ^ 126) = B at *
  have hd1 := Nat.div_add_mod V (2 ^ 149)
  have hd2 := Nat.mod_lt V (two_pow_pos 149)
  generalize V / 2 ^ 149 = q at *
  generalize V % 2 ^ 149 = r at *
  subst hd1
  simp only [Nat.reducePow] at *
  omega

/-! ### The property -/

/-- Whatever the three readings, in every build, no panic; the result is below 2^31. -/
theorem C31_in_range (minute second nanosecond : UInt32) (hm : minute.toNat < 60) (hs : second.toNat < 60)
    (hn : nanosecond.toNat < 2000000000) (prof : Profile) :
    ∃ ts, calculate_dis_timestamp minute second nanosecond prof = .ok ts ∧ ts.toNat < 2 ^ 31 :=
  ⟨_, calculate_eq hm hs prof, stampOf_lt (by unfold microsPastHour; omega)⟩

/-- A later time past the hour never gets a smaller timestamp, whichever builds produced the two. -/
theorem C31_monotone (m s n m' s' n' : UInt32) (hm : m.toNat < 60) (hs : s.toNat < 60)
    (hm' : m'.toNat < 60) (hs' : s'.toNat < 60) (hn' : n'.toNat < 2000000000)
    (hle : microsPastHour m s n ≤ microsPastHour m' s' n') (prof prof' : Profile) (ts ts' : UInt32)
    (h : calculate_dis_timestamp m s n prof = .ok ts)
    (h' : calculate_dis_timestamp m' s' n' prof' = .ok ts') : ts.toNat ≤ ts'.toNat := by
  rw [calculate_eq hm hs] at h
  rw [calculate_eq hm' hs'] at h'
  cases h
  cases h'
  exact stampOf_mono hle (by unfold microsPastHour; omega)

/-- In units of 1.68 microseconds the timestamp is right to within 545 microseconds (the precision of the
`f32` arithmetic, all the way through the hour). -/
theorem C31_accuracy (m s n : UInt32) (hm : m.toNat < 60) (hs : s.toNat < 60) (hn : n.toNat < 2000000000)
    (prof : Profile) (ts : UInt32) (h : calculate_dis_timestamp m s n prof = .ok ts) :
    168 * ts.toNat ≤ 100 * microsPastHour m s n + 54500 ∧
    100 * microsPastHour m s n ≤ 168 * ts.toNat + 54500 := by
  rw [calculate_eq hm hs] at h
  cases h
  exact stampOf_close (by unfold microsPastHour; omega)

/-- IEEE 1278.1 divides the hour into 2^31 units. Read so, the timestamp lags the clock by at least 1/465 of
the time past the hour (less 545 microseconds): more than seven seconds at the end of the hour. -/
theorem C31_lags_ieee_units (m s n : UInt32) (hm : m.toNat < 60) (hs : s.toNat < 60)
    (hn : n.toNat < 2000000000) (prof : Profile) (ts : UInt32)
    (h : calculate_dis_timestamp m s n prof = .ok ts) :
    465 * (3600000000 * ts.toNat) + 2 ^ 31 * microsPastHour m s n ≤
      465 * (2 ^ 31 * (microsPastHour m s n + 545)) := by
  have := (C31_accuracy m s n hm hs hn prof ts h).1
  generalize microsPastHour m s n = t at *
  omega

/-- ... and the field IEEE 1278.1 asks for, twice the number of units (plus the absolute flag), is never what
is sent from one millisecond past the hour on. -/
theorem C31_not_ieee_field (m s n : UInt32) (hm : m.toNat < 60) (hs : s.toNat < 60)
    (hn : n.toNat < 2000000000) (prof : Profile) (ts : UInt32)
    (h : calculate_dis_timestamp m s n prof = .ok ts) (hl : 1000 ≤ microsPastHour m s n) :
    ts.toNat < 2 * (microsPastHour m s n * 2 ^ 31 / 3600000000) := by
  have := (C31_accuracy m s n hm hs hn prof ts h).1
  generalize microsPastHour m s n = t at *
  omega

/-- The clock is read three times. When a minute passes between the first two readings (here the readings
are less than a microsecond apart: 00:59.999 999 900, then 01:00.000 000 100), the timestamp is a whole
minute too small: zero. -/
theorem C31_torn_reading (prof : Profile) :
    calculate_dis_timestamp 0 59 999999900 prof = .ok 35714288 ∧
    calculate_dis_timestamp 0 0 100 prof = .ok 0 ∧
    calculate_dis_timestamp 1 0 100 prof = .ok 35714288 := by
  cases prof with
  | mk b => cases b <;> decide +kernel

/-- Distinct microseconds need not have distinct timestamps. -/
theorem C31_coarse : ∃ t t', t + 100 ≤ t' ∧ t' ≤ 3600000000 ∧ stampOf t = stampOf t' :=
  ⟨3500000000, 3500000120, by decide +kernel⟩

/-- Half past the hour. -/
example : calculate_dis_timestamp 30 0 0 ⟨true⟩ = .ok 1071428608 ∧ microsPastHour 30 0 0 = 1800000000 := by
  decide +kernel

/-- Half past the hour and a quarter to, and a leap second. -/
example := C31_in_range 59 59 1999999999 (by decide) (by decide) (by decide) ⟨true⟩
example := C31_monotone 30 0 0 45 0 0 (by decide) (by decide) (by decide) (by decide) (by decide) (by decide +kernel) ⟨true⟩ ⟨true⟩
  1071428608 _ (by decide +kernel) (C31_in_range 45 0 0 (by decide) (by decide) (by decide) ⟨true⟩).choose_spec.1
example := C31_accuracy 30 0 0 (by decide) (by decide) (by decide) ⟨true⟩ 1071428608 (by decide +kernel)
example := C31_lags_ieee_units 30 0 0 (by decide) (by decide) (by decide) ⟨true⟩ 1071428608 (by decide +kernel)
example := C31_not_ieee_field 30 0 0 (by decide) (by decide) (by decide) ⟨true⟩ 1071428608 (by decide +kernel) (by decide +kernel)

end Dis
