import Verif.Properties.Vector3Special
import Verif.Model.Equality
/-
C41: vectors and their opposites; zero as a neutral element.
-/
namespace Dis
open F32

/-! ### Specification -/

/-- -1.0 -/
def minusOne : F32 := ⟨0xBF800000⟩

/-- `r` is the opposite of `s`, as far as `==` can tell: both are NaN, or `r == -s`. -/
def Opposite (r s : F32) : Prop := (r.isNaN = true ∧ s.isNaN = true) ∨ (r.isNaN = false ∧ s.isNaN = false ∧ r.eq s.negate = true)

/-! ### Proofs -/

theorem opposite_iff {r s : F32} : Opposite r s ↔
    (r.isNaN = true ∧ s.isNaN = true) ∨
    (r.isNaN = false ∧ s.isNaN = false ∧ r.mag = s.mag ∧ (s.mag ≠ 0 → r.neg? = !s.neg?)) := by
  unfold Opposite
  obtain ⟨n1, n2, _⟩ := negate_facts s
  refine or_congr Iff.rfl (and_congr_right fun hr => and_congr_right fun hs => ?_)
  unfold F32.eq
  rw [(negate_special s).1, hr, hs]
  unfold isZero
  rw [n1]
  constructor
  · intro h
    by_cases h0 : r.mag = 0 ∧ s.mag = 0
    · exact ⟨h0.1.trans h0.2.symm, fun h => absurd h0.2 h⟩
    · have : r.bits = s.negate.bits := by
        simp only [Bool.or_self, Bool.false_eq_true, if_false] at h
        rw [if_neg (by simpa using h0)] at h
        exact of_decide_eq_true h
      have : r = s.negate := by cases r; cases hq : s.negate; rw [hq] at this; cases this; rfl
      rw [this]
      exact ⟨n1, fun _ => n2⟩
  · rintro ⟨hm, hs'⟩
    by_cases h0 : s.mag = 0
    · simp [hm, h0]
    · have : r = s.negate := ext_mag ((hs' h0).trans n2.symm) (hm.trans n1.symm)
      rw [this]
      simp [n1, h0]

theorem opposite_negate {r s : F32} (h : Opposite r s) : Opposite r.negate s.negate := by
  rw [opposite_iff] at h ⊢
  obtain ⟨n1, n2, _⟩ := negate_facts s
  obtain ⟨m1, m2, _⟩ := negate_facts r
  rw [(negate_special r).1, (negate_special s).1, n1, n2, m1, m2]
  rcases h with h | ⟨h1, h2, h3, h4⟩
  · exact .inl h
  · exact .inr ⟨h1, h2, h3, fun h => by rw [h4 h]⟩

theorem negate_opposite {s : F32} : Opposite s.negate s := by
  rw [opposite_iff]
  obtain ⟨n1, n2, _⟩ := negate_facts s
  rw [(negate_special s).1, n1, n2]
  cases s.isNaN
  · exact .inr ⟨rfl, rfl, rfl, fun _ => rfl⟩
  · exact .inl ⟨rfl, rfl⟩

theorem value_opp {r s : F32} (hm : r.mag = s.mag) (h : s.mag ≠ 0 → r.neg? = !s.neg?) : r.value = -s.value := by
  unfold value units
  rw [hm]
  by_cases h0 : s.mag = 0
  · rw [h0]
    have : unitsOf 0 = 0 := by decide
    rw [this]
    cases r.neg? <;> cases s.neg? <;> rfl
  · rw [h h0]
    cases s.neg? <;> simp

theorem opposite_round {v : Int} {den : Nat} (hv : v ≠ 0) : Opposite (round (-v) den) (round v den) := by
  rw [opposite_iff]
  unfold round
  rw [Int.natAbs_neg]
  have hm : roundMag v.natAbs den ≤ infMag := Nat.min_le_left _ _
  have hl : roundMag v.natAbs den < 2147483648 := by unfold infMag at hm; omega
  refine .inr ⟨(pack_facts hm).1, (pack_facts hm).1, by rw [pack_mag hl, pack_mag hl], fun _ => ?_⟩
  rw [pack_neg hl, pack_neg hl]
  by_cases h : v < 0
  · simp [h]; omega
  · simp [h]; omega

theorem opposite_inf {b : Bool} : Opposite (inf (!b)) (inf b) := by
  cases b <;> exact .inr (by decide)

theorem opposite_zero {b c : Bool} : Opposite (pack b 0) (pack c 0) := by
  cases b <;> cases c <;> exact .inr (by decide)

theorem opposite_nan : Opposite nan nan := .inl ⟨nan_isNaN, nan_isNaN⟩

theorem mulAdd_opposite {x x' y z z' : F32} (hx : Opposite x' x) (hz : Opposite z' z) :
    Opposite (x'.mulAdd y z') (x.mulAdd y z) := by
  rw [opposite_iff] at hx hz
  rcases hx with ⟨h, h'⟩ | ⟨hx1, hx2, hx3, hx4⟩
  · exact .inl ⟨mulAdd_nan (.inl h), mulAdd_nan (.inl h')⟩
  rcases hz with ⟨h, h'⟩ | ⟨hz1, hz2, hz3, hz4⟩
  · exact .inl ⟨mulAdd_nan (.inr (.inr h)), mulAdd_nan (.inr (.inr h'))⟩
  cases hy : y.isNaN
  case true => exact .inl ⟨mulAdd_nan (.inr (.inl hy)), mulAdd_nan (.inr (.inl hy))⟩
  have ex : x'.isInf = x.isInf ∧ x'.isZero = x.isZero := by unfold isInf isZero; rw [hx3]; exact ⟨rfl, rfl⟩
  have ez : z'.isInf = z.isInf ∧ z'.isZero = z.isZero := by unfold isInf isZero; rw [hz3]; exact ⟨rfl, rfl⟩
  have zi : z.isInf = true → z'.neg? = !z.neg? := fun h => hz4 (by
    unfold isInf at h; simp only [decide_eq_true_eq] at h; rw [h]; decide)
  unfold mulAdd
  simp only [hx1, hx2, hz1, hz2, hy, ex.1, ex.2, ez.1, value_opp hx3 hx4, value_opp hz3 hz4, Bool.or_self,
    Bool.false_eq_true, if_false]
  by_cases hi : (x.isInf || y.isInf) = true
  · rw [if_pos hi, if_pos hi]
    by_cases h0 : (x.isZero || y.isZero) = true
    · rw [if_pos h0, if_pos h0]; exact opposite_nan
    · rw [if_neg h0, if_neg h0]
      have hs : x'.neg? = !x.neg? := hx4 (by
        intro h; apply h0; unfold isZero; simp [h])
      rw [hs]
      cases hzi : z.isInf
      · simp only [Bool.false_and, Bool.false_eq_true, if_false]
        rw [show ((!x.neg?) != y.neg?) = !(x.neg? != y.neg?) from by cases x.neg? <;> cases y.neg? <;> rfl]
        exact opposite_inf
      · rw [zi hzi]
        cases x.neg? <;> cases y.neg? <;> cases z.neg? <;> exact by first | exact opposite_nan | exact opposite_inf
  · rw [if_neg hi, if_neg hi]
    cases hzi : z.isInf
    · simp only [Bool.false_eq_true, if_false]
      rw [show -x.value * y.value + -z.value * 2 ^ 149 = -(x.value * y.value + z.value * 2 ^ 149) from by
        rw [Int.neg_mul, Int.neg_mul]; omega]
      generalize x.value * y.value + z.value * 2 ^ 149 = v
      by_cases h : v = 0
      · rw [if_pos h, if_pos (by omega)]; exact opposite_zero
      · rw [if_neg h, if_neg (by omega)]; exact opposite_round h
    · simp only [if_true]
      rw [opposite_iff]
      exact .inr ⟨hz1, hz2, hz3, hz4⟩

theorem mul_negate {x : F32} (hx : x.isNaN = false) : x.mul minusOne = x.negate := by
  have f : minusOne.isNaN = false ∧ minusOne.isInf = false ∧ minusOne.isZero = false ∧ minusOne.neg? = true ∧
    minusOne.units = 2 ^ 149 := by decide +kernel
  obtain ⟨o1, o2, o3, o4, o5⟩ := f
  unfold mul negate
  simp only [o1, o2, o3, o4, o5, hx, Bool.or_false, Bool.or_self, Bool.bne_true, Bool.false_eq_true, if_false]
  by_cases hi : x.isInf = true
  · have hz : x.isZero = false := by
      unfold isInf isZero at *
      simp only [decide_eq_true_eq] at hi
      rw [hi]; decide
    have hm : x.mag = infMag := by unfold isInf at hi; exact of_decide_eq_true hi
    simp only [hi, hz, if_true, Bool.false_eq_true, if_false, hm]
    rfl
  · have hm : x.mag < infMag := by
      unfold isNaN at hx; unfold isInf at hi; simp at hx hi; omega
    rw [if_neg hi, Nat.mul_comm]
    unfold units
    rw [roundMag_units hm (two_pow_pos _)]

theorem mul_opposite (x : F32) : Opposite (x.mul minusOne) x := by
  cases hx : x.isNaN
  · rw [mul_negate hx]; exact negate_opposite
  · exact .inl ⟨mul_nan (.inl hx), hx⟩

theorem opposite_mul {x x' : F32} (y : F32) (h : Opposite x' x) : Opposite (x'.mul y) (x.mul y) := by
  rw [opposite_iff] at h
  rcases h with ⟨h, h'⟩ | ⟨hx1, hx2, hx3, hx4⟩
  · exact .inl ⟨mul_nan (.inl h), mul_nan (.inl h')⟩
  cases hy : y.isNaN
  case true => exact .inl ⟨mul_nan (.inr hy), mul_nan (.inr hy)⟩
  have ex : x'.isInf = x.isInf ∧ x'.isZero = x.isZero := by unfold isInf isZero; rw [hx3]; exact ⟨rfl, rfl⟩
  unfold mul units
  simp only [hx1, hx2, hy, ex.1, ex.2, hx3, Bool.or_self, Bool.false_eq_true, if_false]
  by_cases hz : x.mag = 0
  · have h1 : x.isZero = true := by unfold isZero; simp [hz]
    have h2 := zero_not_inf h1
    simp only [h1, h2, Bool.true_or, if_true, Bool.false_or]
    cases y.isInf
    · simp only [Bool.false_eq_true, if_false, hz]
      have : roundMag (unitsOf 0 * unitsOf y.mag) (2 ^ 149) = 0 := by
        rw [show unitsOf 0 = 0 from rfl, Nat.zero_mul]; decide +kernel
      rw [this]; exact opposite_zero
    · exact opposite_nan
  · rw [hx4 hz, show ((!x.neg?) != y.neg?) = !(x.neg? != y.neg?) from by cases x.neg? <;> cases y.neg? <;> rfl]
    by_cases hi : (x.isInf || y.isInf) = true
    · rw [if_pos hi, if_pos hi]
      by_cases h0 : (x.isZero || y.isZero) = true
      · rw [if_pos h0, if_pos h0]; exact opposite_nan
      · rw [if_neg h0, if_neg h0]; exact opposite_inf
    · rw [if_neg hi, if_neg hi, opposite_iff]
      have hm : roundMag (unitsOf x.mag * unitsOf y.mag) (2 ^ 149) ≤ infMag := Nat.min_le_left _ _
      have hl : roundMag (unitsOf x.mag * unitsOf y.mag) (2 ^ 149) < 2147483648 := by unfold infMag at hm; omega
      exact .inr ⟨(pack_facts hm).1, (pack_facts hm).1, by rw [pack_mag hl, pack_mag hl], fun _ => by
        rw [pack_neg hl, pack_neg hl]⟩

theorem div_nan {x y : F32} (h : x.isNaN = true ∨ y.isNaN = true) : (x.div y).isNaN = true := by
  have h : (x.isNaN || y.isNaN) = true := by simpa using h
  unfold div
  rw [h]
  exact nan_isNaN

theorem opposite_div {x x' : F32} (y : F32) (h : Opposite x' x) : Opposite (x'.div y) (x.div y) := by
  rw [opposite_iff] at h
  rcases h with ⟨h, h'⟩ | ⟨hx1, hx2, hx3, hx4⟩
  · exact .inl ⟨div_nan (.inl h), div_nan (.inl h')⟩
  cases hy : y.isNaN
  case true => exact .inl ⟨div_nan (.inr hy), div_nan (.inr hy)⟩
  have ex : x'.isInf = x.isInf ∧ x'.isZero = x.isZero := by unfold isInf isZero; rw [hx3]; exact ⟨rfl, rfl⟩
  unfold div units
  simp only [hx1, hx2, hy, ex.1, ex.2, hx3, Bool.or_self, Bool.false_eq_true, if_false]
  by_cases hz : x.mag = 0
  · have h1 : x.isZero = true := by unfold isZero; simp [hz]
    have h2 := zero_not_inf h1
    simp only [h1, h2, Bool.false_eq_true, if_false, if_true]
    cases y.isInf
    · cases y.isZero
      · simp only [Bool.false_eq_true, if_false, hz]
        have : roundMag (unitsOf 0 * 2 ^ 149) (unitsOf y.mag) = 0 := by
          rw [show unitsOf 0 = 0 from rfl, Nat.zero_mul]
          unfold roundMag rne
          simp
        rw [this]; exact opposite_zero
      · exact opposite_nan
    · exact opposite_zero
  · rw [hx4 hz, show ((!x.neg?) != y.neg?) = !(x.neg? != y.neg?) from by cases x.neg? <;> cases y.neg? <;> rfl]
    have h1 : x.isZero = false := by unfold isZero; simp [hz]
    simp only [h1, Bool.false_eq_true, if_false]
    cases x.isInf <;> cases y.isInf <;> simp only [Bool.false_eq_true, if_false, if_true]
    · cases y.isZero <;> simp only [Bool.false_eq_true, if_false, if_true]
      · rw [opposite_iff]
        have hm : roundMag (unitsOf x.mag * 2 ^ 149) (unitsOf y.mag) ≤ infMag := Nat.min_le_left _ _
        have hl : roundMag (unitsOf x.mag * 2 ^ 149) (unitsOf y.mag) < 2147483648 := by unfold infMag at hm; omega
        exact .inr ⟨(pack_facts hm).1, (pack_facts hm).1, by rw [pack_mag hl, pack_mag hl], fun _ => by
          rw [pack_neg hl, pack_neg hl]⟩
      · exact opposite_inf
    · exact opposite_zero
    · exact opposite_inf
    · exact opposite_nan

theorem add_nan {x y : F32} (h : x.isNaN = true ∨ y.isNaN = true) : (x.add y).isNaN = true :=
  (add_special x y).nan.mpr (h.elim .inl fun h => .inr (.inl h))

theorem add_opposite {x x' y y' : F32} (hx : Opposite x' x) (hy : Opposite y' y) : Opposite (x'.add y') (x.add y) := by
  rw [opposite_iff] at hx hy
  rcases hx with ⟨h, h'⟩ | ⟨hx1, hx2, hx3, hx4⟩
  · exact .inl ⟨add_nan (.inl h), add_nan (.inl h')⟩
  rcases hy with ⟨h, h'⟩ | ⟨hy1, hy2, hy3, hy4⟩
  · exact .inl ⟨add_nan (.inr h), add_nan (.inr h')⟩
  have ex : x'.isInf = x.isInf := by unfold isInf; rw [hx3]
  have ey : y'.isInf = y.isInf := by unfold isInf; rw [hy3]
  have xi : x.isInf = true → x'.neg? = !x.neg? := fun h => hx4 (by
    unfold isInf at h; simp only [decide_eq_true_eq] at h; rw [h]; decide)
  have yi : y.isInf = true → y'.neg? = !y.neg? := fun h => hy4 (by
    unfold isInf at h; simp only [decide_eq_true_eq] at h; rw [h]; decide)
  have ox : Opposite x' x := opposite_iff.mpr (.inr ⟨hx1, hx2, hx3, hx4⟩)
  have oy : Opposite y' y := opposite_iff.mpr (.inr ⟨hy1, hy2, hy3, hy4⟩)
  unfold add
  simp only [hx1, hx2, hy1, hy2, ex, ey, value_opp hx3 hx4, value_opp hy3 hy4, Bool.or_self,
    Bool.false_eq_true, if_false]
  cases hxi : x.isInf
  · cases hyi : y.isInf
    · simp only [Bool.false_eq_true, if_false]
      rw [show -x.value + -y.value = -(x.value + y.value) from by omega]
      generalize x.value + y.value = v
      by_cases h : v = 0
      · rw [if_pos h, if_pos (by omega)]; exact opposite_zero
      · rw [if_neg h, if_neg (by omega)]; exact opposite_round h
    · simpa using oy
  · cases hyi : y.isInf
    · simpa using ox
    · rw [xi hxi, yi hyi]
      cases x.neg? <;> cases y.neg? <;> simp <;> first | exact opposite_nan | exact ox

theorem sub_eq_add (x y : F32) : x.sub y = x.add y.negate := by
  unfold sub
  cases h : (x.isNaN || y.isNaN)
  · simp
  · unfold add
    rw [(negate_special y).1, h]
    simp

theorem opposite_refl_negate {x : F32} : Opposite x x.negate := by
  rw [opposite_iff]
  obtain ⟨n1, n2, _⟩ := negate_facts x
  rw [(negate_special x).1, n1, n2]
  cases x.isNaN
  · exact .inr ⟨rfl, rfl, rfl, fun _ => by simp⟩
  · exact .inl ⟨rfl, rfl⟩

/-! ### The property -/

/-- Scaling by -1 gives the opposite vector, and the operations respect it, whatever the components: `(-a) + (-b)` is the
opposite of `a + b`, `b - a` that of `a - b`, `(-a) · b` that of `a · b`, `(-a) × b` that of `a × b`, `(-a) * k` that of
`a * k` and `(-a) / k` that of `a / k`. -/
theorem C41_opposite (a b : Vector3Float) (k : F32) :
    (∀ π ∈ components,
      Opposite (π (a.mul minusOne)) (π a) ∧
      Opposite (π ((a.mul minusOne).add (b.mul minusOne))) (π (a.add b)) ∧
      Opposite (π (b.sub a)) (π (a.sub b)) ∧
      Opposite (π ((a.mul minusOne).cross b)) (π (a.cross b)) ∧
      Opposite (π ((a.mul minusOne).mul k)) (π (a.mul k)) ∧
      Opposite (π ((a.mul minusOne).div k)) (π (a.div k))) ∧
    Opposite ((a.mul minusOne).dot b) (a.dot b) := by
  have m := mul_opposite
  have sub (x y : F32) : Opposite (y.sub x) (x.sub y) := by
    rw [sub_eq_add, sub_eq_add, add_comm]
    exact add_opposite negate_opposite opposite_refl_negate
  have cr (x y z w : F32) :
      Opposite ((x.mul minusOne).mulAdd y ((z.mul minusOne).mul w).negate) (x.mulAdd y (z.mul w).negate) :=
    mulAdd_opposite (m x) (opposite_negate (opposite_mul w (m z)))
  constructor
  · intro π hπ
    simp only [components, List.mem_cons, List.not_mem_nil, or_false] at hπ
    rcases hπ with rfl | rfl | rfl <;>
      exact ⟨m _, add_opposite (m _) (m _), sub _ _, cr _ _ _ _, opposite_mul _ (m _), opposite_div _ (m _)⟩
  · exact mulAdd_opposite (m _) (mulAdd_opposite (m _) (opposite_mul _ (m _)))

/-- A vector and its opposite have the same length, bit for bit; they are normalized together, to opposite vectors. -/
theorem C41_opposite_magnitude (a : Vector3Float) :
    (a.mul minusOne).magnitude = a.magnitude ∧
    ((a.mul minusOne).normalize = none ↔ a.normalize = none) ∧
    ∀ n n', a.normalize = some n → (a.mul minusOne).normalize = some n' → ∀ π ∈ components, Opposite (π n') (π n) := by
  have nn (x : F32) : x.isNaN = true → (x.mul minusOne) = nan := fun h => by
    unfold mul; simp [h]
  have sq (x : F32) : (x.mul minusOne).mul (x.mul minusOne) = x.mul x := by
    cases hx : x.isNaN
    · rw [mul_negate hx]
      unfold mul units isInf isZero
      rw [(negate_special x).1, (negate_facts x).1, (negate_facts x).2.1]
      cases x.neg? <;> rfl
    · rw [nn x hx]
      unfold mul
      simp [hx, nan_isNaN]
  have fma (x z : F32) : (x.mul minusOne).mulAdd (x.mul minusOne) z = x.mulAdd x z := by
    cases hx : x.isNaN
    · rw [mul_negate hx]
      unfold mulAdd isInf isZero
      rw [(negate_special x).1, (negate_facts x).1, (negate_facts x).2.1, (negate_facts x).2.2, Int.neg_mul_neg]
      cases x.neg? <;> rfl
    · rw [nn x hx]
      unfold mulAdd
      simp [hx, nan_isNaN]
  have e : (a.mul minusOne).magnitude = a.magnitude := by
    show ((a.z.mul minusOne).mulAdd (a.z.mul minusOne) ((a.x.mul minusOne).mulAdd (a.x.mul minusOne)
      ((a.y.mul minusOne).mul (a.y.mul minusOne)))).sqrt = _
    rw [sq, fma, fma]
    rfl
  unfold Vector3Float.normalize
  rw [e]
  refine ⟨rfl, ?_, fun n n' h h' π hπ => ?_⟩
  · cases a.magnitude.eq F32.zero <;> simp
  · dsimp only at h h'
    split at h
    · cases h
    · rename_i hm
      rw [if_neg hm] at h'
      cases h; cases h'
      simp only [components, List.mem_cons, List.not_mem_nil, or_false] at hπ
      rcases hπ with rfl | rfl | rfl <;> exact opposite_div _ (mul_opposite _)

/-- Zero is neutral: `a - 0` is `a` bit for bit, and `a + 0 == a` (a component -0 becomes +0), for every vector
without a NaN. -/
theorem C41_zero_neutral (a : Vector3Float) (ha : ∀ π ∈ components, (π a).isNaN = false) :
    a.sub .zero = a ∧ REq.eq (a.add .zero) a = true := by
  have hx := ha _ (by simp [components] : Vector3Float.x ∈ components)
  have hy := ha _ (by simp [components] : Vector3Float.y ∈ components)
  have hz := ha _ (by simp [components] : Vector3Float.z ∈ components)
  have key {x : F32} (h : x.isNaN = false) (s : Bool) : x.add (pack s 0) = x ∨ (x.isZero = true ∧ (x.add (pack s 0)).isZero = true ∧
      (s = true → x.add (pack s 0) = x)) := by
    have f : (pack s 0).isInf = false ∧ (pack s 0).value = 0 := by cases s <;> decide
    obtain ⟨z1, z2, z3⟩ := zero_facts s
    unfold add
    simp only [h, z1, z3, f.1, f.2, Bool.or_self, Bool.false_and, Bool.false_eq_true, if_false, Int.add_zero]
    by_cases hi : x.isInf = true
    · exact .inl (by rw [if_pos hi])
    · rw [if_neg hi]
      by_cases h0 : x.mag = 0
      · have hz : x.isZero = true := by unfold isZero; simp [h0]
        have hv : x.value = 0 := by
          unfold value units; rw [h0]
          cases x.neg? <;> rfl
        rw [if_pos hv]
        refine .inr ⟨hz, (zero_facts _).2.1, fun hs => ?_⟩
        rw [hs, Bool.and_true, ← h0]
        exact pack_self x
      · have hm : x.mag < infMag := by
          unfold isNaN at h; unfold isInf at hi; simp at h hi; omega
        have hu : unitsOf x.mag ≠ 0 := by
          intro hu
          unfold unitsOf at hu
          simp only at hu
          split at hu
          · omega
          · have := Nat.two_pow_pos (x.mag / 8388608 - 1)
            rcases Nat.mul_eq_zero.mp hu with h | h <;> omega
        have hv : x.value ≠ 0 := by
          unfold value units
          cases x.neg? <;> simp <;> omega
        rw [if_neg hv]
        refine .inl ?_
        unfold round
        have e1 : decide (x.value < 0) = x.neg? := by
          unfold value units
          cases x.neg? <;> simp <;> omega
        have e2 : x.value.natAbs = unitsOf x.mag * 1 := by
          unfold value units
          cases x.neg? <;> simp
        rw [e1, e2, Nat.mul_comm, roundMag_units hm (by decide)]
        exact pack_self x
  have sub {x : F32} (h : x.isNaN = false) : x.sub F32.zero = x := by
    rw [sub_eq_add, show F32.zero.negate = pack true 0 from by decide]
    rcases key h true with h | h
    · exact h
    · exact h.2.2 rfl
  have add {x : F32} (h : x.isNaN = false) : (x.add F32.zero).eq x = true := by
    rw [show F32.zero = pack false 0 from by decide]
    have hn : ∀ y : F32, y.isZero = true → y.isNaN = false := fun y hy => by
      unfold isZero at hy; unfold isNaN; simp only [decide_eq_true_eq] at hy; rw [hy]; decide
    rcases key h false with e | ⟨h1, h2, _⟩
    · rw [e]; unfold F32.eq; rw [h]; simp
    · unfold F32.eq; rw [h, hn _ h2, h1, h2]; simp
  constructor
  · show (⟨a.x.sub F32.zero, a.y.sub F32.zero, a.z.sub F32.zero⟩ : Vector3Float) = a
    rw [sub hx, sub hy, sub hz]
  · show ((a.x.add F32.zero).eq a.x && (a.y.add F32.zero).eq a.y && (a.z.add F32.zero).eq a.z) = true
    rw [add hx, add hy, add hz]; rfl

/-- The axes: of length 1, their own normalizations, orthogonal, and each the cross product of the two before it. -/
theorem C41_axes :
    (∀ v ∈ [Vector3Float.unit_x, .unit_y, .unit_z], v.magnitude = F32.one ∧ v.normalize = some v ∧ v.dot v = F32.one) ∧
    (Vector3Float.unit_x.dot .unit_y = F32.zero ∧ Vector3Float.unit_y.dot .unit_z = F32.zero ∧
      Vector3Float.unit_z.dot .unit_x = F32.zero) ∧
    (REq.eq (Vector3Float.unit_x.cross .unit_y) .unit_z = true ∧ REq.eq (Vector3Float.unit_y.cross .unit_z) .unit_x = true ∧
      REq.eq (Vector3Float.unit_z.cross .unit_x) .unit_y = true) := by decide +kernel

/-- (1, -2, infinity) and its opposite: sums, differences and products. -/
example : let a : Vector3Float := ⟨⟨0x3F800000⟩, ⟨0xC0000000⟩, ⟨0x7F800000⟩⟩
    a.mul minusOne = ⟨⟨0xBF800000⟩, ⟨0x40000000⟩, ⟨0xFF800000⟩⟩ ∧ (∀ π ∈ components, (π a).isNaN = false) ∧
    (a.mul minusOne).dot a = ⟨0xFF800000⟩ ∧ a.dot a = ⟨0x7F800000⟩ := by decide +kernel

end Dis
