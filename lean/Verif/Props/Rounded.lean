import Verif.Spec.Rounded
import Verif.Lemmas.Rounded
import Verif.Props.Math

/-!
# Poses in floating point arithmetic
-/

namespace Geo

open Spec Matrix Rounded

/-- The roundings to `double` and to `float` have relative errors `2⁻⁵³` and `2⁻²⁴`, so the theorems below apply to both. -/
theorem C93_roundings : RelErr (1 / 2 ^ 53) toDouble ∧ RelErr (1 / 2 ^ 24) toFloat :=
  ⟨fun x => (toDouble_near x).trans (le_of_eq (by ring)), fun x => (toFloat_near x).trans (le_of_eq (by ring))⟩

/-- Without rounding the functions are those of `Model/Math`. -/
theorem C93_exact (T S : Transform3) (v : Vec3) (q : Quat) :
    Rounded.apply id T v = T.apply v ∧ Rounded.mul id T S = T.mul S ∧ Rounded.inverse id T = T.inverse ∧
    Rounded.setRotation id q = Mat3.setRotation q :=
  ⟨rfl, rfl, rfl, rfl⟩

/-- C93: applying a pose. The matrix need only be nearly orthogonal. -/
theorem C93_apply {u : ℝ} {rnd : ℝ → ℝ} (h : RelErr u rnd) (hu : u ≤ 1 / 1000) {δ : ℝ} (hδ : δ ≤ 1 / 10) {T : Transform3}
    (hT : NearlyOrthogonal δ T.R) (v : Vec3) :
    len (V (Rounded.apply rnd T v) - (M T.R *ᵥ V v + V T.t)) ≤ 8 * u * (len (V v) + len (V T.t)) :=
  apply_len h (relErr_nonneg h) hu (hT.small hδ) v

/-- C93: composing poses. The image of a point under the computed pose is near the image of its image, and the computed
matrix is nearly orthogonal again. -/
theorem C93_compose {u : ℝ} {rnd : ℝ → ℝ} (h : RelErr u rnd) (hu : u ≤ 1 / 1000) {δ ε : ℝ} (hδ : δ ≤ 1 / 10) (hε : ε ≤ 1 / 10)
    {T S : Transform3} (hT : NearlyOrthogonal δ T.R) (hS : NearlyOrthogonal ε S.R) :
    (∀ p, len ((M (Rounded.mul rnd T S).R *ᵥ p + V (Rounded.mul rnd T S).t) - (M T.R *ᵥ (M S.R *ᵥ p + V S.t) + V T.t)) ≤
      11 * u * len p + 8 * u * (len (V S.t) + len (V T.t))) ∧
    NearlyOrthogonal (3.3 * δ + ε + 23 * u) (Rounded.mul rnd T S).R :=
  ⟨mul_len h (relErr_nonneg h) hu (hT.small hδ) (hS.small hε), mulMat_orth h (relErr_nonneg h) hu hT hδ hS hε⟩

/-- C93: there and back. -/
theorem C93_inverse {u : ℝ} {rnd : ℝ → ℝ} (h : RelErr u rnd) (hu : u ≤ 1 / 1000) {δ : ℝ} (hδ : δ ≤ 1 / 10) {T : Transform3}
    (hT : NearlyOrthogonal δ T.R) (p : Vec3) :
    len (V (Rounded.apply rnd (Rounded.inverse rnd T) (Rounded.apply rnd T p)) - V p) ≤
      43 * u * (len (V p) + len (V T.t)) + 3 * δ * len (V p) :=
  inverse_len h (relErr_nonneg h) hu hT hδ p

/-- C93: the matrix of a quaternion other than zero is within `19 u` of the rotation that belongs to the quaternion, and
nearly orthogonal. -/
theorem C93_quaternion {u : ℝ} {rnd : ℝ → ℝ} (h : RelErr u rnd) (hu : u ≤ 1 / 1000) {q : Quat} (hq : q ≠ ⟨0, 0, 0, 0⟩) :
    (∃ R, Rotation R ∧ (∀ v, pureQ (R.mulVec v) * toQ q = toQ q * pureQ v) ∧
      ∀ i j, |M (Rounded.setRotation rnd q) i j - M R i j| ≤ 19 * u) ∧
    NearlyOrthogonal (68 * u) (Rounded.setRotation rnd q) :=
  ⟨⟨_, setRotation_rotation hq, (C06_setRotation hq).2.1, setRotation_err h (relErr_nonneg h) hu (length2_pos hq)⟩,
    setRotation_orth h (relErr_nonneg h) hu hq⟩

/-- A pose made from a quaternion, in `double`: there and back misses the point by at most `2⁻⁴⁵` of the lengths involved. -/
example (q : Quat) (hq : q ≠ ⟨0, 0, 0, 0⟩) (t p : Vec3) :
    len (V (Rounded.apply toDouble (Rounded.inverse toDouble ⟨Rounded.setRotation toDouble q, t⟩)
      (Rounded.apply toDouble ⟨Rounded.setRotation toDouble q, t⟩ p)) - V p) ≤ 1 / 2 ^ 45 * (len (V p) + len (V t)) := by
  have h := C93_inverse C93_roundings.1 (by norm_num) (δ := 68 * (1 / 2 ^ 53)) (by norm_num)
    (T := ⟨Rounded.setRotation toDouble q, t⟩) (C93_quaternion C93_roundings.1 (by norm_num) hq).2 p
  have := len_nonneg (V p)
  have := len_nonneg (V t)
  refine h.trans ?_
  show 43 * (1 / 2 ^ 53) * (len (V p) + len (V t)) + 3 * (68 * (1 / 2 ^ 53)) * len (V p) ≤ _
  linarith

/-- The term with the translation is needed: a translation of 1 absorbs a coordinate of `2⁻⁶⁰`, and the way back ends at the
origin. The exact round trip of C02 does not hold for doubles. -/
theorem C93_absorbed :
    Rounded.apply toDouble (Rounded.inverse toDouble ⟨Mat3.identity, ⟨1, 0, 0⟩⟩)
      (Rounded.apply toDouble ⟨Mat3.identity, ⟨1, 0, 0⟩⟩ ⟨1 / 2 ^ 60, 0, 0⟩) = ⟨0, 0, 0⟩ := by
  have z := toDouble_zero
  have o : toDouble 1 = 1 := by
    have := toDouble_eq (x := 1) (-52) (m := 2 ^ 52) (by norm_num) (by norm_num) (by norm_num)
    rw [this]; norm_num
  have o' : toDouble (-1) = -1 := toDouble_neg_one
  have a : toDouble (1 / 2 ^ 60) = 1 / 2 ^ 60 := by
    have := toDouble_eq (x := 1 / 2 ^ 60) (-112) (m := 2 ^ 52) (by norm_num) (by norm_num) (by norm_num)
    rw [this]; norm_num
  have b : toDouble (1 / 2 ^ 60 + 1) = 1 := by
    have := toDouble_eq (x := 1 / 2 ^ 60 + 1) (-52) (m := 2 ^ 52) (by norm_num) (by norm_num) (by norm_num)
    rw [this]; norm_num
  simp only [one_div] at a b
  simp [Rounded.apply, Rounded.inverse, Rounded.add, Rounded.mulVec, Rounded.dot3, Mat3.identity, Mat3.transpose, z, o, a, b, o']

end Geo
