import Verif.Properties.Vector3Error
/-
C41: lengths and sums respect the order of the numbers.
-/
namespace Dis
open F32

/-! ### The length -/

theorem fmaMag_mono {u u' m m' : Nat} (hu : u ≤ u') (hm : m ≤ m') (hi : m' ≤ infMag) : fmaMag u m ≤ fmaMag u' m' := by
  have hle := fmaMag_le u m
  unfold fmaMag at hle ⊢
  by_cases h' : m' = infMag
  · rw [if_pos h']; exact hle
  · rw [if_neg h', if_neg (by omega)]
    exact roundMag_mono (two_pow_pos 149)
      (Nat.add_le_add (Nat.mul_le_mul hu hu) (Nat.mul_le_mul_right _ (unitsOf_mono hm)))

theorem magnMag_mono {m m' : Nat} (h : m ≤ m') (hi : m' ≤ infMag) : magnMag m ≤ magnMag m' := by
  have hle := magnMag_le m
  unfold magnMag at hle ⊢
  by_cases h0 : m = 0
  · rw [if_pos h0]; exact Nat.zero_le _
  · by_cases h1 : m' = infMag
    · rw [if_neg (by omega : ¬ m' = 0), if_pos h1]; exact hle
    · rw [if_neg h0, if_neg (by omega : ¬ m = infMag), if_neg (by omega : ¬ m' = 0), if_neg h1]
      have a := roundSqrt_nearest (w := m) (by omega) (by omega)
      have b := roundSqrt_nearest (w := m') (by omega) (by omega)
      have hu := Nat.mul_le_mul_right (2 ^ 149) (unitsOf_mono h)
      refine Nat.le_of_not_lt fun hlt => ?_
      have a1 := (a _).1 hlt
      have b1 := (b _).2.1 hlt
      rw [Nat.add_comm (unitsOf (roundSqrt (unitsOf m' * 2 ^ 149)))] at a1
      exact absurd (Nat.mul_le_mul_left 4 hu) (Nat.not_le_of_lt (Nat.lt_trans b1 a1))

theorem natAbs_value (x : F32) : x.value.natAbs = x.units := by unfold value; cases x.neg? <;> simp

/-- Larger components make no vector shorter: if every component of `v` is at most as large, in absolute value, as that of
`w`, and the length of `w` does not overflow, neither does that of `v`, which is not negative and at most that of `w`. -/
theorem C41_magnitude_monotone (v w : Vector3Float) (hv : v.Finite) (hw : w.Finite)
    (h : ∀ π ∈ components, (π v).value.natAbs ≤ (π w).value.natAbs) (hf : w.magnitude.isFinite = true) :
    v.magnitude.isFinite = true ∧ 0 ≤ v.magnitude.value ∧ v.magnitude.value ≤ w.magnitude.value := by
  simp only [components, List.forall_mem_cons, natAbs_value] at h
  obtain ⟨hx, hy, hz, -⟩ := h
  have e1 := magnitude_eq v
  have e2 := magnitude_eq w
  rw [sumSq_finite hv.all] at e1
  rw [sumSq_finite hw.all] at e2
  have m1 := roundMag_mono (two_pow_pos 149) (Nat.mul_le_mul hy hy)
  have m2 := fmaMag_mono hx m1 (roundMag_le ..)
  have m3 := fmaMag_mono hz m2 (fmaMag_le ..)
  have m4 := magnMag_mono m3 (fmaMag_le ..)
  simp only [Option.map_some, ofMag] at e1 e2
  have l1 := magnMag_le (fmaMag v.z.units (fmaMag v.x.units (roundMag (v.y.units * v.y.units) (2 ^ 149))))
  have l2 := magnMag_le (fmaMag w.z.units (fmaMag w.x.units (roundMag (w.y.units * w.y.units) (2 ^ 149))))
  generalize magnMag (fmaMag v.z.units (fmaMag v.x.units (roundMag (v.y.units * v.y.units) (2 ^ 149)))) = A at *
  generalize magnMag (fmaMag w.z.units (fmaMag w.x.units (roundMag (w.y.units * w.y.units) (2 ^ 149)))) = B at *
  have hA : A < 2147483648 := by unfold infMag at l1; omega
  have hB : B < 2147483648 := by unfold infMag at l2; omega
  rw [e2, isFinite_iff, pack_mag hB] at hf
  rw [e1, e2, isFinite_iff, pack_mag hA, value_pack_false hA, value_pack_false hB]
  have := unitsOf_mono m4
  omega

/-- (3, 4, 0) and (3, -5, 1) -/
example : (⟨⟨0x40400000⟩, ⟨0x40800000⟩, ⟨0⟩⟩ : Vector3Float).magnitude.value ≤
    (⟨⟨0x40400000⟩, ⟨0xC0A00000⟩, ⟨0x3F800000⟩⟩ : Vector3Float).magnitude.value :=
  (C41_magnitude_monotone _ _ ⟨by decide, by decide, by decide⟩ ⟨by decide, by decide, by decide⟩ (by decide +kernel)
    (by decide +kernel)).2.2

/-- The length depends on the order of the components: those of (1635, 4421, 0) and (4421, 1635, 0) differ. -/
theorem C41_magnitude_order : ∃ x y z : F32, x.isFinite = true ∧ y.isFinite = true ∧ z.isFinite = true ∧
    (⟨x, y, z⟩ : Vector3Float).magnitude.eq (⟨y, x, z⟩ : Vector3Float).magnitude = false ∧
    (⟨x, y, z⟩ : Vector3Float).magnitude.isFinite = true ∧ (⟨y, x, z⟩ : Vector3Float).magnitude.isFinite = true :=
  ⟨⟨0x44cc6000⟩, ⟨0x458a2800⟩, ⟨0⟩, by decide +kernel⟩

/-! ### Sums, differences, multiples, quotients -/

/-- Rounding preserves order. -/
theorem C41_rounding_monotone {r r' : F32} {num num' : Int} {den : Nat} (hd : 0 < den) (h : Rounded r num den)
    (h' : Rounded r' num' den) (hle : num ≤ num') (hf : r.isFinite = true) (hf' : r'.isFinite = true) :
    r.value ≤ r'.value := by
  rcases Int.lt_or_le r'.value r.value with hlt | hge
  · have n1 := h.nearest hf r' hf'
    have n2 := h'.nearest hf' r hf
    have hm := Int.mul_lt_mul_of_pos_left hlt (by omega : (0 : Int) < den)
    have e : num = num' := by
      generalize (den : Int) * r.value = A at *
      generalize (den : Int) * r'.value = B at *
      omega
    subst e
    by_cases h0 : num = 0
    · have z1 := h.nearest hf F32.zero (by decide)
      have z2 := h'.nearest hf' F32.zero (by decide)
      have ez : F32.zero.value = 0 := by decide +kernel
      rw [ez, h0] at z1 z2
      generalize (den : Int) * r.value = A at *
      generalize (den : Int) * r'.value = B at *
      omega
    · rw [C41_rounding_determined hd h0 h h']; exact Int.le_refl _
  · exact hge

/-- Sums grow with their terms, differences with the first and against the second, multiples by a number that is not
negative and quotients by a positive one with the vector: in each component, as long as the results are numbers. -/
theorem C41_order (a b a' b' : Vector3Float) (k : F32) (ha : a.Finite) (hb : b.Finite) (ha' : a'.Finite) (hb' : b'.Finite)
    (hk : k.isFinite = true) (hle : ∀ π ∈ components, (π a).value ≤ (π a').value) :
    (∀ π ∈ components, (π b).value ≤ (π b').value → (π (a.add b)).isFinite = true → (π (a'.add b')).isFinite = true →
      (π (a.add b)).value ≤ (π (a'.add b')).value) ∧
    (∀ π ∈ components, (π b').value ≤ (π b).value → (π (a.sub b)).isFinite = true → (π (a'.sub b')).isFinite = true →
      (π (a.sub b)).value ≤ (π (a'.sub b')).value) ∧
    (∀ π ∈ components, 0 ≤ k.value → (π (a.mul k)).isFinite = true → (π (a'.mul k)).isFinite = true →
      (π (a.mul k)).value ≤ (π (a'.mul k)).value) ∧
    (∀ π ∈ components, 0 < k.value → (π (a.div k)).isFinite = true → (π (a'.div k)).isFinite = true →
      (π (a.div k)).value ≤ (π (a'.div k)).value) := by
  have fin {π : Vector3Float → F32} (hπ : π ∈ components) {v : Vector3Float} (hv : v.Finite) : (π v).isFinite = true := by
    simp only [components, List.mem_cons, List.not_mem_nil, or_false] at hπ
    rcases hπ with rfl | rfl | rfl
    · exact hv.1
    · exact hv.2.1
    · exact hv.2.2
  have each {P : (Vector3Float → F32) → Prop} (h1 : P Vector3Float.x) (h2 : P Vector3Float.y) (h3 : P Vector3Float.z) :
      ∀ π ∈ components, P π := by
    simp only [components, List.forall_mem_cons]
    exact ⟨h1, h2, h3, fun _ h => nomatch h⟩
  refine ⟨?_, ?_, ?_, ?_⟩
  · intro π hπ h
    have r1 : Rounded (π (a.add b)) ((π a).value + (π b).value) 1 :=
      each (P := fun π => Rounded (π (a.add b)) ((π a).value + (π b).value) 1)
        (C41_sum a b ha hb).1 (C41_sum a b ha hb).2.1 (C41_sum a b ha hb).2.2 π hπ
    have r2 : Rounded (π (a'.add b')) ((π a').value + (π b').value) 1 :=
      each (P := fun π => Rounded (π (a'.add b')) ((π a').value + (π b').value) 1)
        (C41_sum a' b' ha' hb').1 (C41_sum a' b' ha' hb').2.1 (C41_sum a' b' ha' hb').2.2 π hπ
    exact C41_rounding_monotone (by decide) r1 r2 (by have := hle π hπ; omega)
  · intro π hπ h
    have r1 : Rounded (π (a.sub b)) ((π a).value - (π b).value) 1 :=
      each (P := fun π => Rounded (π (a.sub b)) ((π a).value - (π b).value) 1)
        (C41_difference a b ha hb).1 (C41_difference a b ha hb).2.1 (C41_difference a b ha hb).2.2 π hπ
    have r2 : Rounded (π (a'.sub b')) ((π a').value - (π b').value) 1 :=
      each (P := fun π => Rounded (π (a'.sub b')) ((π a').value - (π b').value) 1)
        (C41_difference a' b' ha' hb').1 (C41_difference a' b' ha' hb').2.1 (C41_difference a' b' ha' hb').2.2 π hπ
    exact C41_rounding_monotone (by decide) r1 r2 (by have := hle π hπ; omega)
  · intro π hπ h
    have r1 : Rounded (π (a.mul k)) ((π a).value * k.value) (2 ^ 149) :=
      each (P := fun π => Rounded (π (a.mul k)) ((π a).value * k.value) (2 ^ 149))
        (C41_product a k ha hk).1 (C41_product a k ha hk).2.1 (C41_product a k ha hk).2.2 π hπ
    have r2 : Rounded (π (a'.mul k)) ((π a').value * k.value) (2 ^ 149) :=
      each (P := fun π => Rounded (π (a'.mul k)) ((π a').value * k.value) (2 ^ 149))
        (C41_product a' k ha' hk).1 (C41_product a' k ha' hk).2.1 (C41_product a' k ha' hk).2.2 π hπ
    exact C41_rounding_monotone (two_pow_pos 149) r1 r2 (Int.mul_le_mul_of_nonneg_right (hle π hπ) h)
  · intro π hπ h
    have hu : 0 < k.units := by have := natAbs_value k; omega
    have hz : k.isZero = false := by
      cases e : k.isZero
      · rfl
      · exfalso
        have : k.mag = 0 := by unfold isZero at e; simpa using e
        have e0 : unitsOf 0 = 0 := by decide
        have : k.units = 0 := by unfold units; rw [this, e0]
        omega
    have hs : k.neg? = false := by
      cases e : k.neg?
      · rfl
      · exfalso
        have : k.value = -(k.units : Int) := by unfold value; rw [e]; rfl
        omega
    have q1 := C41_quotient a k ha hk hz
    have q2 := C41_quotient a' k ha' hk hz
    simp only [hs, Bool.false_eq_true, if_false] at q1 q2
    have r1 : Rounded (π (a.div k)) ((π a).value * 2 ^ 149) k.units :=
      each (P := fun π => Rounded (π (a.div k)) ((π a).value * 2 ^ 149) k.units) q1.1 q1.2.1 q1.2.2 π hπ
    have r2 : Rounded (π (a'.div k)) ((π a').value * 2 ^ 149) k.units :=
      each (P := fun π => Rounded (π (a'.div k)) ((π a').value * 2 ^ 149) k.units) q2.1 q2.2.1 q2.2.2 π hπ
    exact C41_rounding_monotone hu r1 r2 (Int.mul_le_mul_of_nonneg_right (hle π hπ) (Int.le_of_lt (by decide)))

/-- (1, 2, 3) and (1, 2.5, 4), added to (-1, 0, 5) and (-1, 0, 5.5), and scaled by a third. -/
example :
    let a : Vector3Float := ⟨⟨0x3F800000⟩, ⟨0x40000000⟩, ⟨0x40400000⟩⟩
    let a' : Vector3Float := ⟨⟨0x3F800000⟩, ⟨0x40200000⟩, ⟨0x40800000⟩⟩
    let b : Vector3Float := ⟨⟨0xBF800000⟩, ⟨0⟩, ⟨0x40A00000⟩⟩
    let b' : Vector3Float := ⟨⟨0xBF800000⟩, ⟨0⟩, ⟨0x40B00000⟩⟩
    let k : F32 := ⟨0x3EAAAAAB⟩
    (a.add b).z.value ≤ (a'.add b').z.value ∧ (a.mul k).y.value ≤ (a'.mul k).y.value := by
  intro a a' b b' k
  have h := C41_order a b a' b' k ⟨by decide, by decide, by decide⟩ ⟨by decide, by decide, by decide⟩
    ⟨by decide, by decide, by decide⟩ ⟨by decide, by decide, by decide⟩ (by decide) (by decide +kernel)
  exact ⟨h.1 _ (.tail _ (.tail _ (.head _))) (by decide +kernel) (by decide +kernel) (by decide +kernel),
    h.2.2.1 _ (.tail _ (.head _)) (by decide +kernel) (by decide +kernel) (by decide +kernel)⟩

/-! ### Vectors along an axis -/

/-- Squaring, rounding, and taking the rounded root does not give more than there was. -/
theorem sqrt_square_le {m : Nat} (h1 : 64 * 8388608 ≤ m) (h2 : m < infMag)
    (hri : roundMag (unitsOf m * unitsOf m) (2 ^ 149) < infMag) (h0 : 0 < roundMag (unitsOf m * unitsOf m) (2 ^ 149)) :
    roundSqrt (unitsOf (roundMag (unitsOf m * unitsOf m) (2 ^ 149)) * 2 ^ 149) ≤ m := by
  refine Nat.le_of_not_lt fun hlt => ?_
  have hn := (roundSqrt_nearest h0 hri m).1 hlt
  have hle := unitsOf_mono (Nat.succ_le_of_lt hlt)
  obtain ⟨e, X, rfl, hX', hX⟩ := pattern_form m
  have hX8 : 8388608 ≤ X := by
    rcases hX with h | h
    · subst h; omega
    · exact h
  have he : 63 ≤ e := by omega
  have hu := unitsOf_pattern (s := e) (n := X) (by omega) hX
  have hu1 := unitsOf_pattern (s := e) (n := X + 1) (by omega) (.inr (by omega))
  rw [show (e * 8388608 + X).succ = e * 8388608 + (X + 1) from rfl, hu1] at hle
  have hsq : X * 2 ^ e * (X * 2 ^ e) = X * X * 4 ^ e := by rw [four_pow, Nat.mul_mul_mul_comm]
  rw [hu, hsq] at hn hle hri
  have hden : 0 < 2 ^ 149 := two_pow_pos _
  obtain ⟨hr, ha, hb⟩ := roundMag_error hden hri
  have hstep : 2 ^ 149 * 2 ^ scale (X * X * 4 ^ e) (2 ^ 149) * 8388608 ≤ X * X * 4 ^ e := by
    rcases Nat.eq_zero_or_pos (scale (X * X * 4 ^ e) (2 ^ 149)) with h0 | h0
    · rw [h0]
      have a1 : 8388608 * 8388608 ≤ X * X := sq_le.mpr hX8
      have a2 : 4 ^ 63 ≤ 4 ^ e := Nat.pow_le_pow_right (by decide) he
      exact Nat.le_trans (by decide) (Nat.mul_le_mul a1 a2)
    · exact scale_lower _ hden h0
  -- the midpoint of the number and the next
  have hmid : (2 * X + 1) * (2 * X + 1) * 4 ^ e ≤
      (X * 2 ^ e + unitsOf (roundSqrt (unitsOf (roundMag (X * X * 4 ^ e) (2 ^ 149)) * 2 ^ 149))) *
      (X * 2 ^ e + unitsOf (roundSqrt (unitsOf (roundMag (X * X * 4 ^ e) (2 ^ 149)) * 2 ^ 149))) := by
    have a : (2 * X + 1) * 2 ^ e ≤
        X * 2 ^ e + unitsOf (roundSqrt (unitsOf (roundMag (X * X * 4 ^ e) (2 ^ 149)) * 2 ^ 149)) := by
      refine Nat.le_trans (Nat.le_of_eq ?_) (Nat.add_le_add_left hle _)
      rw [← Nat.add_mul]; congr 1; omega
    have b := Nat.mul_le_mul a a
    rw [Nat.mul_mul_mul_comm, ← four_pow] at b
    exact b
  have hV := Nat.lt_of_le_of_lt hmid hn
  rw [Nat.mul_comm (unitsOf (roundMag (X * X * 4 ^ e) (2 ^ 149)))] at hV
  clear hmid hn hle hri h0 hr hb hlt
  generalize 2 ^ 149 * unitsOf (roundMag (X * X * 4 ^ e) (2 ^ 149)) = V at *
  generalize 2 ^ 149 * 2 ^ scale (X * X * 4 ^ e) (2 ^ 149) = S at *
  generalize 4 ^ e = Q at *
  have e1 : (2 * X + 1) * (2 * X + 1) * Q = 4 * (X * X * Q) + 4 * (X * Q) + Q := by
    simp only [Nat.add_mul, Nat.mul_add, Nat.one_mul, Nat.mul_one, Nat.mul_assoc]
    rw [Nat.mul_left_comm X 2]
    omega
  have e2 : X * X * Q ≤ 16777216 * (X * Q) := by
    rw [Nat.mul_assoc]
    exact Nat.mul_le_mul_right _ (by omega)
  rw [e1] at hV
  generalize X * X * Q = P at *
  generalize X * Q = R at *
  omega

theorem unitsOf_mag_zero {x : F32} (h : x.isZero = true) : x.units = 0 := by
  have : x.mag = 0 := by unfold isZero at h; simpa using h
  unfold units; rw [this]; decide

theorem fmaMag_zero_left {m : Nat} (h : m ≤ infMag) : fmaMag 0 m = m := by
  unfold fmaMag
  split
  · omega
  · rw [Nat.zero_mul, Nat.zero_add, Nat.mul_comm]
    exact roundMag_units (by omega) (two_pow_pos _)

theorem fmaMag_zero_right (u : Nat) : fmaMag u 0 = roundMag (u * u) (2 ^ 149) := by
  unfold fmaMag
  rw [if_neg (by decide), show unitsOf 0 = 0 by decide, Nat.zero_mul, Nat.add_zero]

theorem magnitude_of_square {v : Vector3Float} {x : F32} (hx : x.isFinite = true) (h1 : 0x20000000 ≤ x.mag)
    (h2 : x.mag < 0x5F800000) (h : sumSq v = some (roundMag (x.units * x.units) (2 ^ 149))) :
    v.magnitude = ⟨UInt32.ofNat x.mag⟩ := by
  have hf := isFinite_iff.mp hx
  have top : roundMag (unitsOf 0x5F7FFFFF * unitsOf 0x5F7FFFFF) (2 ^ 149) < infMag := by decide +kernel
  have bottom : 0 < roundMag (unitsOf 0x20000000 * unitsOf 0x20000000) (2 ^ 149) := by decide +kernel
  have u1 : unitsOf x.mag ≤ unitsOf 0x5F7FFFFF := unitsOf_mono (by omega)
  have u2 : unitsOf 0x20000000 ≤ unitsOf x.mag := unitsOf_mono h1
  have m1 := roundMag_mono (two_pow_pos 149) (Nat.mul_le_mul u1 u1)
  have m2 := roundMag_mono (two_pow_pos 149) (Nat.mul_le_mul u2 u2)
  have hri := Nat.lt_of_le_of_lt m1 top
  have h0 := Nat.lt_of_lt_of_le bottom m2
  have le := sqrt_square_le (m := x.mag) (by omega) hf hri h0
  have ge := sqrt_square_ge (m := x.mag) (by omega) hf (Nat.le_refl _) hri
  have e : roundSqrt (unitsOf (roundMag (unitsOf x.mag * unitsOf x.mag) (2 ^ 149)) * 2 ^ 149) = x.mag :=
    Nat.le_antisymm le ge
  rw [magnitude_eq, h]
  change pack false (magnMag (roundMag (unitsOf x.mag * unitsOf x.mag) (2 ^ 149))) = _
  unfold magnMag
  rw [if_neg (by omega), if_neg (by omega), e]
  unfold pack
  simp

/-- The length of a vector along an axis is exactly the absolute value of its component, if that lies in [2^-63, 2^64): the
same number without the sign, bit for bit. -/
theorem C41_magnitude_axis (v : Vector3Float) (x : F32) (hx : x.isFinite = true) (h1 : 0x20000000 ≤ x.mag)
    (h2 : x.mag < 0x5F800000)
    (h : (v.x = x ∧ v.y.isZero = true ∧ v.z.isZero = true) ∨ (v.y = x ∧ v.x.isZero = true ∧ v.z.isZero = true) ∨
      (v.z = x ∧ v.x.isZero = true ∧ v.y.isZero = true)) :
    v.magnitude.value = x.value.natAbs ∧ v.magnitude.bits = UInt32.ofNat (x.bits.toNat % 2 ^ 31) := by
  have zf {z : F32} (hz : z.isZero = true) : z.mag < infMag := by
    have : z.mag = 0 := by unfold isZero at hz; simpa using hz
    rw [this]; decide
  have hf := isFinite_iff.mp hx
  have r0 : roundMag (0 * 0) (2 ^ 149) = 0 := by decide +kernel
  have hs : sumSq v = some (roundMag (x.units * x.units) (2 ^ 149)) := by
    rcases h with ⟨rfl, hy, hz⟩ | ⟨rfl, hy, hz⟩ | ⟨rfl, hy, hz⟩
    · rw [sumSq_finite ⟨hf, zf hy, zf hz⟩, unitsOf_mag_zero hy, unitsOf_mag_zero hz, fmaMag_zero_left (fmaMag_le ..), r0,
        fmaMag_zero_right]
    · rw [sumSq_finite ⟨zf hy, hf, zf hz⟩, unitsOf_mag_zero hy, unitsOf_mag_zero hz, fmaMag_zero_left (fmaMag_le ..),
        fmaMag_zero_left (roundMag_le ..)]
    · rw [sumSq_finite ⟨zf hy, zf hz, hf⟩, unitsOf_mag_zero hy, unitsOf_mag_zero hz, r0, fmaMag_zero_left (by decide),
        fmaMag_zero_right]
  have hm := magnitude_of_square hx h1 h2 hs
  refine ⟨?_, ?_⟩
  · have e : v.magnitude = pack false x.mag := by rw [hm]; unfold pack; simp
    rw [e, value_pack_false (mag_lt x), natAbs_value]
    rfl
  · rw [hm]; rfl

/-- The length of (0, -0.1, 0) is 0.1. -/
example : (⟨⟨0⟩, ⟨0xBDCCCCCD⟩, ⟨0x80000000⟩⟩ : Vector3Float).magnitude.bits = 0x3DCCCCCD :=
  (C41_magnitude_axis ⟨⟨0⟩, ⟨0xBDCCCCCD⟩, ⟨0x80000000⟩⟩ ⟨0xBDCCCCCD⟩ (by decide) (by decide) (by decide)
    (.inr (.inl ⟨rfl, by decide, by decide⟩))).2

theorem div_self_mag {x : F32} (hx : x.isFinite = true) (h0 : 0 < x.mag) :
    x.div (pack false x.mag) = pack x.neg? F32.one.mag := by
  have hR : x.mag ≤ infMag := Nat.le_of_lt (isFinite_iff.mp hx)
  obtain ⟨a1, a2⟩ := finite_facts (isFinite_iff.mp hx)
  obtain ⟨p1, p2, p3, p4⟩ := pack_facts (neg := false) hR
  have hxz : x.isZero = false := by unfold isZero; simp; omega
  unfold div
  simp only [a1, a2, p1, p2, p3, p4, Bool.or_self, Bool.false_eq_true, if_false, Bool.bne_false, pack_units (mag_lt x),
    decide_eq_true_eq, hxz]
  rw [if_neg (Nat.ne_of_lt (isFinite_iff.mp hx)), if_neg (by omega)]
  have h2 := roundMag_units (m := F32.one.mag) (den := unitsOf x.mag) (by decide) (unitsOf_pos h0)
  rw [show unitsOf F32.one.mag = 2 ^ 149 by decide +kernel] at h2
  unfold units
  rw [h2]

theorem zero_div_mag {x z : F32} (hx : x.isFinite = true) (h0 : 0 < x.mag) (hz : z.isZero = true) :
    z.div (pack false x.mag) = z := by
  have hR : x.mag ≤ infMag := Nat.le_of_lt (isFinite_iff.mp hx)
  have hm : z.mag = 0 := by unfold isZero at hz; simpa using hz
  obtain ⟨a1, a2⟩ := finite_facts (x := z) (by rw [hm]; decide)
  obtain ⟨p1, p2, p3, p4⟩ := pack_facts (neg := false) hR
  unfold div
  simp only [a1, a2, p1, p2, p3, p4, Bool.or_self, Bool.false_eq_true, if_false, Bool.bne_false, decide_eq_true_eq, hz,
    if_true, pack_units (mag_lt x)]
  rw [if_neg (Nat.ne_of_lt (isFinite_iff.mp hx)), if_neg (by omega), unitsOf_mag_zero hz]
  have h2 := roundMag_units (m := 0) (den := unitsOf x.mag) (by decide) (unitsOf_pos h0)
  rw [show unitsOf 0 = 0 by decide, Nat.mul_zero] at h2
  have := pack_self z
  rw [hm] at this
  rw [Nat.zero_mul, h2, this]

/-- Such a vector is normalised to that axis exactly: 1 or -1 where its component was, the zeros unchanged. -/
theorem C41_normalize_axis (v : Vector3Float) (x : F32) (hx : x.isFinite = true) (h1 : 0x20000000 ≤ x.mag)
    (h2 : x.mag < 0x5F800000)
    (h : (v.x = x ∧ v.y.isZero = true ∧ v.z.isZero = true) ∨ (v.y = x ∧ v.x.isZero = true ∧ v.z.isZero = true) ∨
      (v.z = x ∧ v.x.isZero = true ∧ v.y.isZero = true)) :
    ∃ n, v.normalize = some n ∧ ∀ π ∈ components,
      ((π v).isZero = true → π n = π v) ∧ ((π v).isZero = false → (π n).value = if x.value < 0 then -2 ^ 149 else 2 ^ 149) := by
  have hm : v.magnitude = pack false x.mag := by
    have hb := (C41_magnitude_axis v x hx h1 h2 h).2
    have e : v.magnitude = ⟨UInt32.ofNat x.mag⟩ := by
      rw [show v.magnitude = ⟨v.magnitude.bits⟩ from rfl, hb]; rfl
    rw [e]; unfold pack; simp
  have h0 : 0 < x.mag := by omega
  refine ⟨_, normalize_of_magnitude (Nat.le_of_lt (isFinite_iff.mp hx)) h0 hm, ?_⟩
  have hxz : x.isZero = false := by unfold isZero; simp; omega
  have one : (x.div (pack false x.mag)).value = if x.value < 0 then -2 ^ 149 else 2 ^ 149 := by
    have hu : 0 < x.units := unitsOf_pos h0
    rw [div_self_mag hx h0, value_pack (by decide), show unitsOf F32.one.mag = 2 ^ 149 by decide +kernel]
    have hv : x.value = if x.neg? then -(x.units : Int) else x.units := rfl
    cases hn : x.neg?
    · rw [hn] at hv
      have : ¬ x.value < 0 := by simp only [Bool.false_eq_true, if_false] at hv; omega
      rw [if_neg this]; rfl
    · rw [hn] at hv
      have : x.value < 0 := by simp only [if_true] at hv; omega
      rw [if_pos this]; rfl
  simp only [components, List.forall_mem_cons]
  rcases h with ⟨rfl, hy, hz⟩ | ⟨rfl, hy, hz⟩ | ⟨rfl, hy, hz⟩
  · exact ⟨⟨fun e => absurd e (by simp [hxz]), fun _ => one⟩, ⟨fun _ => zero_div_mag hx h0 hy, fun e => absurd e (by simp [hy])⟩,
      ⟨fun _ => zero_div_mag hx h0 hz, fun e => absurd e (by simp [hz])⟩, fun _ h => nomatch h⟩
  · exact ⟨⟨fun _ => zero_div_mag hx h0 hy, fun e => absurd e (by simp [hy])⟩, ⟨fun e => absurd e (by simp [hxz]), fun _ => one⟩,
      ⟨fun _ => zero_div_mag hx h0 hz, fun e => absurd e (by simp [hz])⟩, fun _ h => nomatch h⟩
  · exact ⟨⟨fun _ => zero_div_mag hx h0 hy, fun e => absurd e (by simp [hy])⟩, ⟨fun _ => zero_div_mag hx h0 hz, fun e => absurd e (by simp [hz])⟩,
      ⟨fun e => absurd e (by simp [hxz]), fun _ => one⟩, fun _ h => nomatch h⟩

/-- (0, -0.1, 0) is normalised to (0, -1, 0). -/
example : ∃ n, (⟨⟨0⟩, ⟨0xBDCCCCCD⟩, ⟨0x80000000⟩⟩ : Vector3Float).normalize = some n ∧
    n.x = ⟨0⟩ ∧ n.y.value = -2 ^ 149 ∧ n.z = ⟨0x80000000⟩ := by
  obtain ⟨n, h, k⟩ := C41_normalize_axis ⟨⟨0⟩, ⟨0xBDCCCCCD⟩, ⟨0x80000000⟩⟩ ⟨0xBDCCCCCD⟩ (by decide) (by decide) (by decide)
    (.inr (.inl ⟨rfl, by decide, by decide⟩))
  refine ⟨n, h, (k _ (.head _)).1 (by decide), ?_, (k _ (.tail _ (.tail _ (.head _)))).1 (by decide)⟩
  rw [(k _ (.tail _ (.head _))).2 (by decide), if_pos (by decide +kernel)]

end Dis
