import Verif.Properties.Vector3
/-
C41: dot and cross products with NaN, infinities and overflows.
-/
namespace Dis
open F32

/-- What IEEE 754 says of the fused `r = x * y + z`, the rounding of numbers aside. -/
structure FusedSpecial (x y z r : F32) : Prop where
  nan : r.isNaN = true ↔ x.isNaN = true ∨ y.isNaN = true ∨ z.isNaN = true ∨
    (x.isInf = true ∧ y.isZero = true) ∨ (x.isZero = true ∧ y.isInf = true) ∨
    ((x.isInf = true ∨ y.isInf = true) ∧ z.isInf = true ∧ z.neg? ≠ (x.neg? != y.neg?))
  infinite_product : x.isInf = true ∨ y.isInf = true → r.isNaN = false →
    r.isInf = true ∧ r.neg? = (x.neg? != y.neg?)
  infinite_addend : x.isFinite = true → y.isFinite = true → z.isInf = true → r = z
  zero : x.isFinite = true → y.isFinite = true → z.isFinite = true → x.value * y.value + z.value * 2 ^ 149 = 0 →
    r.isZero = true ∧ r.neg? = ((x.neg? != y.neg?) && z.neg?)

theorem finite_not {x : F32} (h : x.isFinite = true) : x.isNaN = false ∧ x.isInf = false :=
  finite_facts (isFinite_iff.mp h)

theorem inf_not_nan {x : F32} (h : x.isInf = true) : x.isNaN = false := by
  unfold isInf at h; unfold isNaN
  simp only [decide_eq_true_eq] at h
  simp [h]

theorem mulAdd_special (x y z : F32) : FusedSpecial x y z (x.mulAdd y z) := by
  have z1 := zero_not_inf (x := x)
  have z2 := zero_not_inf (x := y)
  by_cases hn : x.isNaN = true ∨ y.isNaN = true ∨ z.isNaN = true
  · have e : x.mulAdd y z = nan := by
      unfold mulAdd
      rcases hn with h | h | h <;> simp [h]
    rw [e]
    refine ⟨⟨fun _ => ?_, fun _ => nan_isNaN⟩, by simp [nan_isNaN], fun hx hy hz => ?_, fun hx hy hz => ?_⟩
    · rcases hn with h | h | h
      · exact .inl h
      · exact .inr (.inl h)
      · exact .inr (.inr (.inl h))
    · have a := (finite_not hx).1; have b := (finite_not hy).1; have c := inf_not_nan hz
      simp [a, b, c] at hn
    · have a := (finite_not hx).1; have b := (finite_not hy).1; have c := (finite_not hz).1
      simp [a, b, c] at hn
  · obtain ⟨hx, hn⟩ := not_or.mp hn
    obtain ⟨hy, hz⟩ := not_or.mp hn
    simp only [Bool.not_eq_true] at hx hy hz
    by_cases hi : x.isInf = true ∨ y.isInf = true
    · by_cases h0 : x.isZero = true ∨ y.isZero = true
      · have e : x.mulAdd y z = nan := by unfold mulAdd; simp [hx, hy, hz, hi, h0]
        rw [e]
        refine ⟨⟨fun _ => ?_, fun _ => nan_isNaN⟩, by simp [nan_isNaN], fun fx fy _ => ?_, fun fx fy _ => ?_⟩
        · rcases hi with hi | hi <;> rcases h0 with h0 | h0
          · rw [z1 h0] at hi; exact absurd hi (by decide)
          · exact .inr (.inr (.inr (.inl ⟨hi, h0⟩)))
          · exact .inr (.inr (.inr (.inr (.inl ⟨h0, hi⟩))))
          · rw [z2 h0] at hi; exact absurd hi (by decide)
        all_goals
          have a := (finite_not fx).2; have b := (finite_not fy).2
          simp [a, b] at hi
      · have h0' := h0
        simp only [not_or, Bool.not_eq_true] at h0'
        by_cases hs : z.isInf = true ∧ z.neg? ≠ (x.neg? != y.neg?)
        · have e : x.mulAdd y z = nan := by
            unfold mulAdd
            simp only [hx, hy, hz, h0'.1, h0'.2, hs.1, Bool.or_self, Bool.false_eq_true, if_false, Bool.true_and,
              bne_iff_ne, ne_eq, Bool.or_eq_true]
            rw [if_pos hi, if_pos hs.2]
          rw [e]
          refine ⟨⟨fun _ => .inr (.inr (.inr (.inr (.inr ⟨hi, hs⟩)))), fun _ => nan_isNaN⟩, by simp [nan_isNaN],
            fun fx fy _ => ?_, fun fx fy _ => ?_⟩
          all_goals
            have a := (finite_not fx).2; have b := (finite_not fy).2
            simp [a, b] at hi
        · have e : x.mulAdd y z = inf (x.neg? != y.neg?) := by
            unfold mulAdd
            simp only [hx, hy, hz, h0'.1, h0'.2, Bool.or_self, Bool.false_eq_true, if_false, Bool.or_eq_true,
              Bool.and_eq_true, bne_iff_ne]
            rw [if_pos hi, if_neg hs]
          rw [e]
          obtain ⟨i1, i2, i3⟩ := inf_facts (x.neg? != y.neg?)
          refine ⟨?_, fun _ _ => ⟨i2, i3⟩, fun fx fy _ => ?_, fun fx fy _ => ?_⟩
          · rw [i1]
            simp only [hx, hy, hz, Bool.false_eq_true, false_or, false_iff]
            rintro (⟨_, h⟩ | ⟨h, _⟩ | ⟨_, h⟩)
            · exact h0 (.inr h)
            · exact h0 (.inl h)
            · exact hs h
          all_goals
            have a := (finite_not fx).2; have b := (finite_not fy).2
            simp [a, b] at hi
    · have hi' := hi
      simp only [not_or, Bool.not_eq_true] at hi'
      by_cases hzi : z.isInf = true
      · have e : x.mulAdd y z = z := by unfold mulAdd; simp [hx, hy, hz, hi'.1, hi'.2, hzi]
        rw [e]
        refine ⟨?_, fun h => absurd h hi, fun _ _ _ => rfl, fun _ _ fz => ?_⟩
        · rw [hz]
          simp only [hx, hy, hi'.1, hi'.2, Bool.false_eq_true, false_and, and_false, or_self]
        · rw [(finite_not fz).2] at hzi; exact absurd hzi (by decide)
      · have hzi' : z.isInf = false := by simpa using hzi
        have e : x.mulAdd y z = if x.value * y.value + z.value * 2 ^ 149 = 0
            then pack ((x.neg? != y.neg?) && z.neg?) 0 else round (x.value * y.value + z.value * 2 ^ 149) (2 ^ 149) := by
          unfold mulAdd
          simp only [hx, hy, hz, hi'.1, hi'.2, hzi', Bool.or_self, Bool.false_eq_true, if_false]
        rw [e]
        generalize hv : x.value * y.value + z.value * 2 ^ 149 = v
        refine ⟨?_, fun h => absurd h hi, fun _ _ h => absurd h hzi, fun _ _ _ h => ?_⟩
        · have hr : (if v = 0 then pack ((x.neg? != y.neg?) && z.neg?) 0 else round v (2 ^ 149)).isNaN = false := by
            split
            · exact (zero_facts _).1
            · unfold round
              exact (pack_facts (roundMag_le _ _)).1
          rw [hr]
          simp only [hx, hy, hz, hi'.1, hi'.2, hzi', Bool.false_eq_true, false_and, and_false, or_self]
        · rw [if_pos (hv.symm.trans h)]
          exact ⟨(zero_facts _).2.1, (zero_facts _).2.2⟩

/-- `r` is the product of `x` and `y` IEEE 754 wants. -/
structure IsProduct (x y r : F32) : Prop where
  special : ProductSpecial x y r
  rounded : x.isFinite = true → y.isFinite = true → Rounded r (x.value * y.value) (2 ^ 149)

/-- `r` is the fused `x * y + z` IEEE 754 wants. -/
structure IsFused (x y z r : F32) : Prop where
  special : FusedSpecial x y z r
  rounded : x.isFinite = true → y.isFinite = true → z.isFinite = true →
    Rounded r (x.value * y.value + z.value * 2 ^ 149) (2 ^ 149)

theorem mul_is (x y : F32) : IsProduct x y (x.mul y) := ⟨mul_special x y, mul_rounded⟩
theorem mulAdd_is (x y z : F32) : IsFused x y z (x.mulAdd y z) := ⟨mulAdd_special x y z, mulAdd_rounded⟩

/-- The dot product, whatever the components: the product of the `y`, then fused with that of the `x`, then with that of
the `z`, each as IEEE 754 wants, NaN, infinities, zeros and overflow included. -/
theorem C41_dot_operations (a b : Vector3Float) :
    ∃ s t : F32, IsProduct a.y b.y s ∧ IsFused a.x b.x s t ∧ IsFused a.z b.z t (a.dot b) :=
  ⟨_, _, mul_is _ _, mulAdd_is _ _ _, mulAdd_is _ _ _⟩

/-- The cross product, whatever the components: each is a product, its sign changed, fused with another. -/
theorem C41_cross_operations (a b : Vector3Float) :
    (∃ s : F32, IsProduct a.z b.y s ∧ IsFused a.y b.z s.negate (a.cross b).x) ∧
    (∃ s : F32, IsProduct a.x b.z s ∧ IsFused a.z b.x s.negate (a.cross b).y) ∧
    (∃ s : F32, IsProduct a.y b.x s ∧ IsFused a.x b.y s.negate (a.cross b).z) :=
  ⟨⟨_, mul_is _ _, mulAdd_is _ _ _⟩, ⟨_, mul_is _ _, mulAdd_is _ _ _⟩, ⟨_, mul_is _ _, mulAdd_is _ _ _⟩⟩

theorem mul_not_nan {x y : F32} (hx : x.isFinite = true) (hy : y.isFinite = true) : (x.mul y).isNaN = false := by
  have h := (mul_special x y).nan
  rw [(finite_not hx).1, (finite_not hx).2, (finite_not hy).1, (finite_not hy).2] at h
  cases hr : (x.mul y).isNaN
  · rfl
  · simp [hr] at h

theorem mulAdd_not_nan {x y z : F32} (hx : x.isFinite = true) (hy : y.isFinite = true) (hz : z.isNaN = false) :
    (x.mulAdd y z).isNaN = false := by
  have h := (mulAdd_special x y z).nan
  rw [(finite_not hx).1, (finite_not hx).2, (finite_not hy).1, (finite_not hy).2, hz] at h
  cases hr : (x.mulAdd y z).isNaN
  · rfl
  · simp [hr] at h

theorem mulAdd_nan {x y z : F32} (h : x.isNaN = true ∨ y.isNaN = true ∨ z.isNaN = true) : (x.mulAdd y z).isNaN = true :=
  (mulAdd_special x y z).nan.mpr (by
    rcases h with h | h | h
    · exact .inl h
    · exact .inr (.inl h)
    · exact .inr (.inr (.inl h)))

theorem mul_nan {x y : F32} (h : x.isNaN = true ∨ y.isNaN = true) : (x.mul y).isNaN = true :=
  (mul_special x y).nan.mpr (by
    rcases h with h | h
    · exact .inl h
    · exact .inr (.inl h))

/-- Vectors of numbers, however large, never give NaN: neither their dot product nor their cross product (an overflow
is an infinity that stays). -/
theorem C41_products_not_nan (a b : Vector3Float) (ha : a.Finite) (hb : b.Finite) :
    (a.dot b).isNaN = false ∧ ∀ π ∈ components, (π (a.cross b)).isNaN = false := by
  refine ⟨mulAdd_not_nan ha.2.2 hb.2.2 (mulAdd_not_nan ha.1 hb.1 (mul_not_nan ha.2.1 hb.2.1)), ?_⟩
  have one {x y z w : F32} (hx : x.isFinite = true) (hy : y.isFinite = true) (hz : z.isFinite = true)
      (hw : w.isFinite = true) : (x.mulAdd y (z.mul w).negate).isNaN = false :=
    mulAdd_not_nan hx hy (by rw [(negate_special _).1]; exact mul_not_nan hz hw)
  intro π hπ
  simp only [components, List.mem_cons, List.not_mem_nil, or_false] at hπ
  rcases hπ with rfl | rfl | rfl
  · exact one ha.2.1 hb.2.2 ha.2.2 hb.2.1
  · exact one ha.2.2 hb.1 ha.1 hb.2.2
  · exact one ha.1 hb.2.1 ha.2.1 hb.1

/-- The dot product overflows early: once the product of the `y` (or the sum with that of the `x`) is infinite the
result is that infinity, though the exact dot product be a number. -/
theorem C41_dot_overflow (a b : Vector3Float) (ha : a.Finite) (hb : b.Finite) :
    ((a.y.mul b.y).isInf = true → a.dot b = a.y.mul b.y) ∧
    ((a.x.mulAdd b.x (a.y.mul b.y)).isInf = true → a.dot b = a.x.mulAdd b.x (a.y.mul b.y)) := by
  refine ⟨fun h => ?_, fun h => (mulAdd_special _ _ _).infinite_addend ha.2.2 hb.2.2 h⟩
  have e := (mulAdd_special a.x b.x (a.y.mul b.y)).infinite_addend ha.1 hb.1 h
  show a.z.mulAdd b.z (a.x.mulAdd b.x (a.y.mul b.y)) = _
  rw [e]
  exact (mulAdd_special _ _ _).infinite_addend ha.2.2 hb.2.2 h

/-- For instance (0, 2^64, -2^64) and (0, 2^64, 2^64), whose exact dot product is zero: infinity. -/
example : (⟨⟨0⟩, ⟨0x5F800000⟩, ⟨0xDF800000⟩⟩ : Vector3Float).dot ⟨⟨0⟩, ⟨0x5F800000⟩, ⟨0x5F800000⟩⟩ = inf false := by
  decide +kernel

/-- A NaN in any component makes the dot product NaN, and the two components of the cross product that it enters. -/
theorem C41_products_nan (a b : Vector3Float) :
    ((∃ π ∈ components, (π a).isNaN = true ∨ (π b).isNaN = true) → (a.dot b).isNaN = true) ∧
    (a.x.isNaN = true ∨ b.x.isNaN = true → (a.cross b).y.isNaN = true ∧ (a.cross b).z.isNaN = true) ∧
    (a.y.isNaN = true ∨ b.y.isNaN = true → (a.cross b).z.isNaN = true ∧ (a.cross b).x.isNaN = true) ∧
    (a.z.isNaN = true ∨ b.z.isNaN = true → (a.cross b).x.isNaN = true ∧ (a.cross b).y.isNaN = true) := by
  have late {x y z w : F32} (h : z.isNaN = true ∨ w.isNaN = true) : (x.mulAdd y (z.mul w).negate).isNaN = true :=
    mulAdd_nan (.inr (.inr (by rw [(negate_special _).1]; exact mul_nan h)))
  have early {x y z : F32} (h : x.isNaN = true ∨ y.isNaN = true) : (x.mulAdd y z).isNaN = true :=
    mulAdd_nan (h.elim .inl fun h => .inr (.inl h))
  refine ⟨?_, fun h => ?_, fun h => ?_, fun h => ?_⟩
  · rintro ⟨π, hπ, h⟩
    simp only [components, List.mem_cons, List.not_mem_nil, or_false] at hπ
    rcases hπ with rfl | rfl | rfl
    · exact mulAdd_nan (.inr (.inr (early h)))
    · exact mulAdd_nan (.inr (.inr (mulAdd_nan (.inr (.inr (mul_nan h))))))
    · exact early h
  · refine ⟨?_, ?_⟩
    · rcases h with h | h
      · exact late (.inl h)
      · exact early (.inr h)
    · rcases h with h | h
      · exact early (.inl h)
      · exact late (.inr h)
  · refine ⟨?_, ?_⟩
    · rcases h with h | h
      · exact late (.inl h)
      · exact early (.inr h)
    · rcases h with h | h
      · exact early (.inl h)
      · exact late (.inr h)
  · refine ⟨?_, ?_⟩
    · rcases h with h | h
      · exact late (.inl h)
      · exact early (.inr h)
    · rcases h with h | h
      · exact early (.inl h)
      · exact late (.inr h)

/-- A NaN and infinities in one go. -/
example : (⟨⟨0x7FC00001⟩, F32.one, F32.one⟩ : Vector3Float).dot ⟨F32.one, F32.one, F32.one⟩ = nan ∧
    ((⟨inf false, F32.one, F32.one⟩ : Vector3Float).dot ⟨F32.one, inf true, F32.one⟩).isNaN = true ∧
    (⟨inf false, F32.one, F32.one⟩ : Vector3Float).dot ⟨⟨0xBF800000⟩, F32.one, F32.one⟩ = inf true := by decide +kernel

end Dis
