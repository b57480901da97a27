import Verif.Lemmas.RoundedAngles
import Verif.Props.Rounded

/-!
# Roll, pitch and yaw in floating point arithmetic (C128)

`u` bounds the relative error of an operation, `e` how far the entries of the matrix are from those of a true rotation, and `c`
is a lower bound of the cosine of the pitch. Angles are compared through their sines and cosines.
-/

namespace Geo

open Spec Matrix Rounded

/-- Without rounding the functions are those of `Model/Math`. -/
theorem C128_exact (T : Transform3) (roll pitch yaw : ℝ) :
    Rounded.setRPY id roll pitch yaw = Mat3.setRPY roll pitch yaw ∧ Rounded.getRPY id T = T.getRPY ∧
    Rounded.getYaw id T = T.getYaw :=
  ⟨rfl, rfl, rfl⟩

/-- C128: the matrix of three angles. No entry is further than `10 u` from the product of the rotations about the axes, and the
matrix is orthogonal up to `63 u`. -/
theorem C128_set {u : ℝ} {rnd : ℝ → ℝ} (h : RelErr u rnd) (hu : u ≤ 1 / 1000) (roll pitch yaw : ℝ) :
    (∀ i j, |M (Rounded.setRPY rnd roll pitch yaw) i j - (Rz yaw * Ry pitch * Rx roll) i j| ≤ 10 * u) ∧
    NearlyOrthogonal (63 * u) (Rounded.setRPY rnd roll pitch yaw) := by
  have hu0 := relErr_nonneg h
  have k := RoundedAngles.set_err h hu roll pitch yaw
  constructor
  · rw [← (C03_setRPY roll pitch yaw).1]
    exact k
  · have := Chains.near_orthogonal (RoundedQuaternion.nearMat_of k) (setRPY_rotation roll pitch yaw).1 (by positivity)
      (by linarith)
    intro i j
    exact (this i j).trans (by linarith)

/-- C128: from a matrix to its angles and back. Unless the axis `x` of the rotation is vertical, no entry of the matrix of the
angles is further than `36 (u + e) / c` from the rotation. -/
theorem C128_roundtrip {u e : ℝ} {rnd : ℝ → ℝ} (h : RelErr u rnd) (hu : u ≤ 1 / 1000) {T : Transform3} {Q : Mat3} (hQ : Rotation Q)
    (ha : ∀ i j, |M T.R i j - M Q i j| ≤ e) {c : ℝ} (hc : 1e-11 ≤ c) (hC : c ≤ Real.sqrt (1 - Q.zx ^ 2)) (hs : 26 * (u + e) ≤ c) :
    let a := Rounded.getRPY rnd T
    (∀ i j, |(Rz a.2.2 * Ry a.2.1 * Rx a.1) i j - M Q i j| ≤ 26 * (u + e) / c) ∧
    ∀ i j, |M (Rounded.setRPY rnd a.1 a.2.1 a.2.2) i j - M Q i j| ≤ 36 * (u + e) / c := by
  intro a
  have hu0 := relErr_nonneg h
  have he : 0 ≤ e := (abs_nonneg _).trans (ha 0 0)
  have c0 : 0 < c := by norm_num at hc; linarith
  obtain ⟨ho, -⟩ := (rotation_iff Q).mp hQ
  obtain ⟨-, -, r3, -⟩ := orth_rows ho
  have hC' : c ≤ Real.sqrt (Q.zy * Q.zy + Q.zz * Q.zz) := by
    rwa [show Q.zy * Q.zy + Q.zz * Q.zz = 1 - Q.zx ^ 2 by linarith]
  have c1 : c ≤ 1 := hC.trans (Real.sqrt_le_one.2 (by linarith [sq_nonneg Q.zx]))
  obtain ⟨⟨b1, b2⟩, ⟨b3, b4⟩, b5, b6⟩ := RoundedAngles.read h hu hQ ha hc hC' hs
  have z1 : Q.zx ≠ 1 := by
    intro k
    rw [k] at hC
    norm_num at hC
    linarith
  have z2 : Q.zx ≠ -1 := by
    intro k
    rw [k] at hC
    norm_num at hC
    linarith
  have g := rpy_generic hQ z1 z2
  have k : ∀ i j, |M (Mat3.setRPY a.1 a.2.1 a.2.2) i j - M Q i j| ≤ 26 * (u + e) / c := by
    intro i j
    have n := RoundedAngles.rpy_near b1 b2 b3 b4 b5 b6 i j
    rw [g] at n
    refine n.trans ?_
    have w : 13.2 * (u + e) ≤ 13.2 * (u + e) / c := by
      rw [le_div_iff₀ c0]
      have := mul_le_mul_of_nonneg_left c1 (show 0 ≤ 13.2 * (u + e) by positivity)
      linarith
    have w0 : 0 ≤ (u + e) / c := by positivity
    rw [mul_div_assoc] at w
    linarith [mul_div_assoc 3.15 (u + e) c, mul_div_assoc 26 (u + e) c]
  refine ⟨by rw [← (C03_setRPY a.1 a.2.1 a.2.2).1]; exact k, fun i j => ?_⟩
  refine (abs_sub_le _ (M (Mat3.setRPY a.1 a.2.1 a.2.2) i j) _).trans ?_
  have s := RoundedAngles.set_err h hu a.1 a.2.1 a.2.2 i j
  have w : 10 * u ≤ 10 * (u + e) / c := by
    rw [le_div_iff₀ c0]
    have := mul_le_mul_of_nonneg_left c1 (show 0 ≤ 10 * u by positivity)
    linarith
  have := k i j
  have e1 : 36 * (u + e) / c = 10 * (u + e) / c + 26 * (u + e) / c := by ring
  linarith

/-- C128: from angles to the matrix and back. Sines and cosines of roll and yaw are off by no more than `35 u / c`, those of the
pitch by no more than `146 u`. -/
theorem C128_angles {u : ℝ} {rnd : ℝ → ℝ} (h : RelErr u rnd) (hu : u ≤ 1 / 1000) {roll pitch yaw c : ℝ} (hc : 1e-11 ≤ c)
    (hC : c ≤ Real.cos pitch) (hs : 286 * u ≤ c) (t : Vec3) :
    let a := Rounded.getRPY rnd ⟨Rounded.setRPY rnd roll pitch yaw, t⟩
    (|Real.cos a.1 - Real.cos roll| ≤ 35 * u / c ∧ |Real.sin a.1 - Real.sin roll| ≤ 35 * u / c) ∧
    (|Real.cos a.2.1 - Real.cos pitch| ≤ 146 * u ∧ |Real.sin a.2.1 - Real.sin pitch| ≤ 146 * u) ∧
    (|Real.cos a.2.2 - Real.cos yaw| ≤ 35 * u / c ∧ |Real.sin a.2.2 - Real.sin yaw| ≤ 35 * u / c) ∧
    a.2.2 = Rounded.getYaw rnd ⟨Rounded.setRPY rnd roll pitch yaw, t⟩ := by
  intro a
  have hu0 := relErr_nonneg h
  have c0 : 0 < c := by norm_num at hc; linarith
  have p0 : 0 < Real.cos pitch := by linarith
  obtain ⟨Q, hQ⟩ : ∃ Q, Q = Mat3.setRPY roll pitch yaw := ⟨_, rfl⟩
  have rot : Rotation Q := hQ ▸ setRPY_rotation roll pitch yaw
  have zy : Q.zy = Real.cos pitch * Real.sin roll := by rw [hQ]; rfl
  have zz : Q.zz = Real.cos pitch * Real.cos roll := by rw [hQ]; rfl
  have xx : Q.xx = Real.cos pitch * Real.cos yaw := by rw [hQ]; rfl
  have yx : Q.yx = Real.cos pitch * Real.sin yaw := by rw [hQ]; rfl
  have zx : Q.zx = -Real.sin pitch := by rw [hQ]; rfl
  have n1 : ∀ b : ℝ, Real.sqrt (Real.cos pitch * Real.cos b * (Real.cos pitch * Real.cos b) +
      Real.cos pitch * Real.sin b * (Real.cos pitch * Real.sin b)) = Real.cos pitch := by
    intro b
    rw [show Real.cos pitch * Real.cos b * (Real.cos pitch * Real.cos b) +
      Real.cos pitch * Real.sin b * (Real.cos pitch * Real.sin b) = Real.cos pitch ^ 2 * (Real.sin b ^ 2 + Real.cos b ^ 2) by ring,
      Real.sin_sq_add_cos_sq, mul_one, Real.sqrt_sq p0.le]
  have ang : ∀ b : ℝ, Real.cos (atan2 (Real.cos pitch * Real.sin b) (Real.cos pitch * Real.cos b)) = Real.cos b ∧
      Real.sin (atan2 (Real.cos pitch * Real.sin b) (Real.cos pitch * Real.cos b)) = Real.sin b := by
    intro b
    rw [sin_atan2, cos_atan2, n1]
    · exact ⟨mul_div_cancel_left₀ _ p0.ne', mul_div_cancel_left₀ _ p0.ne'⟩
    · by_contra k
      push Not at k
      have := Real.sin_sq_add_cos_sq b
      rcases mul_eq_zero.1 k.1 with k1 | k1
      · exact p0.ne' k1
      rcases mul_eq_zero.1 k.2 with k2 | k2
      · exact p0.ne' k2
      rw [k1, k2] at this
      norm_num at this
  have hC' : Real.sqrt (Q.zy * Q.zy + Q.zz * Q.zz) = Real.cos pitch := by
    rw [zy, zz, add_comm]
    exact n1 roll
  obtain ⟨⟨b1, b2⟩, ⟨b3, b4⟩, b5, b6⟩ := RoundedAngles.read (T := ⟨Rounded.setRPY rnd roll pitch yaw, t⟩) h hu rot (e := 10 * u)
    (by rw [hQ]; exact RoundedAngles.set_err h hu roll pitch yaw) hc (by rw [hC']; exact hC) (by linarith)
  obtain ⟨q1, q2⟩ := pitch_sin_cos rot
  rw [q1, zx, neg_neg] at b4
  rw [q2, hC'] at b3
  rw [zy, zz, (ang roll).1] at b1
  rw [zy, zz, (ang roll).2] at b2
  rw [yx, xx, (ang yaw).1] at b5
  rw [yx, xx, (ang yaw).2] at b6
  have w : 3.15 * (u + 10 * u) / c ≤ 35 * u / c := by
    rw [div_le_div_iff_of_pos_right c0]
    linarith
  exact ⟨⟨b1.trans w, b2.trans w⟩, ⟨b3.trans (by linarith), b4.trans (by linarith)⟩, ⟨b5.trans w, b6.trans w⟩, rfl⟩

/-- C128 case: a planar robot, in `double`: the yaw of a matrix made from a yaw has its sine and cosine up to `2⁻⁴⁷`. -/
example (yaw : ℝ) (t : Vec3) :
    |Real.cos (Rounded.getYaw toDouble ⟨Rounded.setRPY toDouble 0 0 yaw, t⟩) - Real.cos yaw| ≤ 1 / 2 ^ 47 ∧
    |Real.sin (Rounded.getYaw toDouble ⟨Rounded.setRPY toDouble 0 0 yaw, t⟩) - Real.sin yaw| ≤ 1 / 2 ^ 47 := by
  obtain ⟨-, -, ⟨h1, h2⟩, h3⟩ := C128_angles C93_roundings.1 (by norm_num) (roll := 0) (pitch := 0) (yaw := yaw) (c := 1)
    (by norm_num) (by norm_num) (by norm_num) t
  rw [← h3]
  exact ⟨h1.trans (by norm_num), h2.trans (by norm_num)⟩

/-- C128 case: a matrix with errors of a tenth of a millimetre per metre, pitched down with sine 3/5. -/
example : Rotation ⟨4 / 5, 0, 3 / 5, 0, 1, 0, -3 / 5, 0, 4 / 5⟩ ∧ (4 / 5 : ℝ) ≤ Real.sqrt (1 - (-3 / 5) ^ 2) ∧
    26 * (1 / 2 ^ 53 + 1 / 10000 : ℝ) ≤ 4 / 5 ∧
    ∀ i j, |M ⟨4 / 5, 1 / 10000, 3 / 5, 0, 1, 0, -3 / 5, 0, 4 / 5⟩ i j - M ⟨4 / 5, 0, 3 / 5, 0, 1, 0, -3 / 5, 0, 4 / 5⟩ i j| ≤ 1 / 10000 := by
  refine ⟨?_, Real.le_sqrt_of_sq_le (by norm_num), by norm_num, fun i j => ?_⟩
  · rw [rotation_iff, orth_iff]; norm_num
  · fin_cases i <;> fin_cases j <;> simp [M]

end Geo
