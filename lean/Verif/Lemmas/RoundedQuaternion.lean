import Verif.Model.RoundedQuaternion
import Verif.Lemmas.Rounded
import Verif.Lemmas.Rotation
import Verif.Lemmas.Chains

/-!
# Quaternions in floating point arithmetic: lemmas
-/

namespace Geo.RoundedQuaternion

open Spec Matrix Rounded

variable {u e : ℝ} {rnd : ℝ → ℝ}

/-- A rounding after an inexact operation. -/
theorem near_step (h : RelErr u rnd) (hu : 0 ≤ u) (he : 0 ≤ e) (hs : u + e ≤ 1 / 500) {c m x y : ℝ} (hc : 0 ≤ c)
    (hy : |y - x| ≤ c * (u + e)) (hx : |x| ≤ m) : |rnd y - x| ≤ (c + m + c / 500) * (u + e) := by
  have h1 := h y
  have h2 : |y| ≤ m + c / 500 := by
    have e1 : y = (y - x) + x := by ring
    have := abs_add_le (y - x) x
    rw [← e1] at this
    have := mul_le_mul_of_nonneg_left hs hc
    linarith
  have h3 := mul_le_mul_of_nonneg_left h2 hu
  have h4 : |rnd y - x| ≤ |rnd y - y| + |y - x| := abs_sub_le _ _ _
  have h5 : 0 ≤ e * (m + c / 500) := mul_nonneg he ((abs_nonneg _).trans h2)
  linarith

/-- The numbers of one branch. -/
theorem root (h : RelErr u rnd) (hu : 0 ≤ u) (he : 0 ≤ e) (hs : u + e ≤ 1 / 500) {r r' : ℝ} (h1 : 0.97 ≤ r) (h4 : r ≤ 4)
    (hr : |r' - r| ≤ 12.1 * (u + e)) :
    |rnd (Real.sqrt r') - Real.sqrt r| ≤ 8.3 * (u + e) ∧ 0.984 ≤ Real.sqrt r ∧ Real.sqrt r ≤ 2 := by
  have hη : 0 ≤ u + e := by linarith
  have a1 : 0.984 ≤ Real.sqrt r := Real.le_sqrt_of_sq_le (by norm_num at h1 ⊢; linarith)
  have a2 : Real.sqrt r ≤ 2 := Real.sqrt_le_iff.2 ⟨by norm_num, by linarith⟩
  obtain ⟨b1, b2⟩ := abs_le.1 hr
  have r'1 : 0.945 ≤ r' := by linarith
  have a3 : 0.97 ≤ Real.sqrt r' := Real.le_sqrt_of_sq_le (by norm_num at r'1 ⊢; linarith)
  refine ⟨?_, a1, a2⟩
  have s1 := Real.mul_self_sqrt (show 0 ≤ r by linarith)
  have s2 := Real.mul_self_sqrt (show 0 ≤ r' by linarith)
  have k : |Real.sqrt r' - Real.sqrt r| ≤ 6.21 * (u + e) := by
    have e1 : (Real.sqrt r' - Real.sqrt r) * (Real.sqrt r' + Real.sqrt r) = r' - r := by linarith
    have e2 : |Real.sqrt r' - Real.sqrt r| * (Real.sqrt r' + Real.sqrt r) = |r' - r| := by
      rw [← e1, abs_mul, abs_of_pos (by linarith : 0 < Real.sqrt r' + Real.sqrt r)]
    have := mul_le_mul_of_nonneg_left (show 1.954 ≤ Real.sqrt r' + Real.sqrt r by linarith)
      (abs_nonneg (Real.sqrt r' - Real.sqrt r))
    linarith
  have := near_step h hu he hs (by norm_num) k (m := 2) (by rw [abs_of_nonneg (by linarith)]; exact a2)
  linarith

theorem half (h : RelErr u rnd) (hu : 0 ≤ u) (he : 0 ≤ e) (hs : u + e ≤ 1 / 500) {s s' : ℝ} (h1 : 0 ≤ s) (h2 : s ≤ 2)
    (hr : |s' - s| ≤ 8.3 * (u + e)) : |rnd (s' / 2) - s / 2| ≤ 13 * (u + e) := by
  have hη : 0 ≤ u + e := by linarith
  have k : |s' / 2 - s / 2| ≤ 4.15 * (u + e) := by
    rw [← sub_div, abs_div, abs_of_pos (by norm_num : (0 : ℝ) < 2)]
    linarith
  have := near_step h hu he hs (by norm_num) k (m := 1) (by rw [abs_of_nonneg (by linarith)]; linarith)
  linarith

theorem inv_half (h : RelErr u rnd) (hu : 0 ≤ u) (he : 0 ≤ e) (hs : u + e ≤ 1 / 500) {s s' : ℝ} (h1 : 0.984 ≤ s)
    (hr : |s' - s| ≤ 8.3 * (u + e)) : |rnd (0.5 / s') - 0.5 / s| ≤ 4.91 * (u + e) ∧ 0 < 0.5 / s ∧ 0.5 / s ≤ 0.51 := by
  have hη : 0 ≤ u + e := by linarith
  obtain ⟨b1, b2⟩ := abs_le.1 hr
  have s1 : 0.967 ≤ s' := by linarith
  have hp : 0 < s := by linarith
  have hp' : 0 < s' := by linarith
  have k0 : 0.5 / s ≤ 0.51 := by
    rw [div_le_iff₀ hp]; linarith
  refine ⟨?_, by positivity, k0⟩
  have k : |0.5 / s' - 0.5 / s| ≤ 4.37 * (u + e) := by
    have e1 : 0.5 / s' - 0.5 / s = -(0.5 * (s' - s)) / (s' * s) := by field_simp; ring
    rw [e1, abs_div, abs_neg, abs_mul, abs_of_pos (by positivity : 0 < s' * s), abs_of_pos (by norm_num : (0 : ℝ) < 0.5),
      div_le_iff₀ (by positivity)]
    have m1 : 0.951 ≤ s' * s := by
      have := mul_le_mul s1 h1 (by norm_num) (by linarith)
      norm_num at this ⊢
      linarith
    have := mul_le_mul_of_nonneg_left m1 (show 0 ≤ 4.37 * (u + e) by positivity)
    linarith
  have := near_step h hu he hs (by norm_num) k (m := 0.51) (by rw [abs_of_nonneg (by positivity)]; exact k0)
  linarith

theorem product (h : RelErr u rnd) (hu : 0 ≤ u) (he : 0 ≤ e) (hs : u + e ≤ 1 / 500) {n n' t t' : ℝ} (hn : |n| ≤ 2)
    (hn' : |n' - n| ≤ 2 * (u + e)) (h0 : 0 < t) (h1 : t ≤ 0.51) (ht : |t' - t| ≤ 4.91 * (u + e)) :
    |rnd (rnd n' * t') - n * t| ≤ 13 * (u + e) := by
  have hη : 0 ≤ u + e := by linarith
  have a := near_step h hu he hs (by norm_num) hn' hn
  have b1 : |t'| ≤ 0.52 := by
    have e1 : t' = (t' - t) + t := by ring
    have := abs_add_le (t' - t) t
    rw [← e1, abs_of_pos h0] at this
    linarith
  have k : |rnd n' * t' - n * t| ≤ 11.91 * (u + e) := by
    have e1 : rnd n' * t' - n * t = (rnd n' - n) * t' + n * (t' - t) := by ring
    rw [e1]
    refine (abs_add_le _ _).trans ?_
    rw [abs_mul, abs_mul]
    have m1 := mul_le_mul a b1 (abs_nonneg _) (by positivity)
    have m2 := mul_le_mul hn ht (abs_nonneg _) (by norm_num)
    linarith
  have m : |n * t| ≤ 1.02 := by
    rw [abs_mul, abs_of_pos h0]
    have := mul_le_mul hn h1 h0.le (by norm_num)
    norm_num at this ⊢
    linarith
  have := near_step h hu he hs (by norm_num) k m
  linarith

/-- A unit quaternion from its multiple. -/
theorem unit_of {Q : Mat3} {p : Quat} {r : ℝ} (hr : 0 < r) (hl : p.length2 = 4 * r) (hp : Mat3.setRotation p = Q) :
    (p.scale (0.5 / Real.sqrt r)).length2 = 1 ∧ Mat3.setRotation (p.scale (0.5 / Real.sqrt r)) = Q := by
  have hs : 0 < Real.sqrt r := Real.sqrt_pos.mpr hr
  have hs2 : Real.sqrt r * Real.sqrt r = r := Real.mul_self_sqrt hr.le
  constructor
  · have : (p.scale (0.5 / Real.sqrt r)).length2 = p.length2 * (0.5 / Real.sqrt r) ^ 2 := by
      simp only [Quat.length2, Quat.scale]; ring
    rw [this, hl, div_pow, pow_two (Real.sqrt r), hs2]
    field_simp
    norm_num
  · rw [setRotation_scale _ (by positivity)]; exact hp

/-- The four multiples of the quaternion of a rotation. -/
theorem multiples {a : Mat3} (h : Rotation a) :
    (0 < a.xx + a.yy + a.zz + 1 → Quat.length2 ⟨a.zy - a.yz, a.xz - a.zx, a.yx - a.xy, a.xx + a.yy + a.zz + 1⟩
        = 4 * (a.xx + a.yy + a.zz + 1) ∧
      Mat3.setRotation ⟨a.zy - a.yz, a.xz - a.zx, a.yx - a.xy, a.xx + a.yy + a.zz + 1⟩ = a) ∧
    (0 < a.zz - a.xx - a.yy + 1 → Quat.length2 ⟨a.xz + a.zx, a.yz + a.zy, a.zz - a.xx - a.yy + 1, a.yx - a.xy⟩
        = 4 * (a.zz - a.xx - a.yy + 1) ∧
      Mat3.setRotation ⟨a.xz + a.zx, a.yz + a.zy, a.zz - a.xx - a.yy + 1, a.yx - a.xy⟩ = a) ∧
    (0 < a.yy - a.zz - a.xx + 1 → Quat.length2 ⟨a.xy + a.yx, a.yy - a.zz - a.xx + 1, a.zy + a.yz, a.xz - a.zx⟩
        = 4 * (a.yy - a.zz - a.xx + 1) ∧
      Mat3.setRotation ⟨a.xy + a.yx, a.yy - a.zz - a.xx + 1, a.zy + a.yz, a.xz - a.zx⟩ = a) ∧
    (0 < a.xx - a.yy - a.zz + 1 → Quat.length2 ⟨a.xx - a.yy - a.zz + 1, a.yx + a.xy, a.zx + a.xz, a.zy - a.yz⟩
        = 4 * (a.xx - a.yy - a.zz + 1) ∧
      Mat3.setRotation ⟨a.xx - a.yy - a.zz + 1, a.yx + a.xy, a.zx + a.xz, a.zy - a.yz⟩ = a) := by
  obtain ⟨ho, hd⟩ := (rotation_iff a).mp h
  obtain ⟨c1, c2, c3, c4, c5, c6⟩ := (orth_iff a).mp ho
  obtain ⟨r1, r2, r3, r4, r5, r6⟩ := orth_rows ho
  obtain ⟨k1, k2, k3, k4, k5, k6, k7, k8, k9⟩ := rotation_cofactor h
  refine ⟨fun hr => ?_, fun hr => ?_, fun hr => ?_, fun hr => ?_⟩
  · have hl : Quat.length2 ⟨a.zy - a.yz, a.xz - a.zx, a.yx - a.xy, a.xx + a.yy + a.zz + 1⟩
        = 4 * (a.xx + a.yy + a.zz + 1) := by
      simp only [Quat.length2]
      linarith
    refine ⟨hl, setRotation_of_polys hr hl ?_ ?_ ?_ ?_ ?_ ?_ ?_ ?_ ?_⟩ <;> dsimp only <;> linarith
  · have hl : Quat.length2 ⟨a.xz + a.zx, a.yz + a.zy, a.zz - a.xx - a.yy + 1, a.yx - a.xy⟩
        = 4 * (a.zz - a.xx - a.yy + 1) := by
      simp only [Quat.length2]
      linarith
    refine ⟨hl, setRotation_of_polys hr hl ?_ ?_ ?_ ?_ ?_ ?_ ?_ ?_ ?_⟩ <;> dsimp only <;> linarith
  · have hl : Quat.length2 ⟨a.xy + a.yx, a.yy - a.zz - a.xx + 1, a.zy + a.yz, a.xz - a.zx⟩
        = 4 * (a.yy - a.zz - a.xx + 1) := by
      simp only [Quat.length2]
      linarith
    refine ⟨hl, setRotation_of_polys hr hl ?_ ?_ ?_ ?_ ?_ ?_ ?_ ?_ ?_⟩ <;> dsimp only <;> linarith
  · have hl : Quat.length2 ⟨a.xx - a.yy - a.zz + 1, a.yx + a.xy, a.zx + a.xz, a.zy - a.yz⟩
        = 4 * (a.xx - a.yy - a.zz + 1) := by
      simp only [Quat.length2]
      linarith
    refine ⟨hl, setRotation_of_polys hr hl ?_ ?_ ?_ ?_ ?_ ?_ ?_ ?_ ?_⟩ <;> dsimp only <;> linarith

/-- The entries of a rotation. -/
theorem entries {a : Mat3} (h : Rotation a) (i j : Fin 3) : |M a i j| ≤ 1 := by
  obtain ⟨ho, -⟩ := (rotation_iff a).mp h
  obtain ⟨c1, c2, c3, c4, c5, c6⟩ := (orth_iff a).mp ho
  have sq : ∀ x y z : ℝ, x * x + y * y + z * z = 1 → |x| ≤ 1 ∧ |y| ≤ 1 ∧ |z| ≤ 1 := by
    intro x y z k
    have := mul_self_nonneg x
    have := mul_self_nonneg y
    have := mul_self_nonneg z
    refine ⟨abs_le_one_iff_mul_self_le_one.2 ?_, abs_le_one_iff_mul_self_le_one.2 ?_, abs_le_one_iff_mul_self_le_one.2 ?_⟩ <;>
      linarith
  obtain ⟨x1, x2, x3⟩ := sq _ _ _ c1
  obtain ⟨y1, y2, y3⟩ := sq _ _ _ c2
  obtain ⟨z1, z2, z3⟩ := sq _ _ _ c3
  fin_cases i <;> fin_cases j <;> assumption

/-- The sum under the root. -/
theorem radicand (h : RelErr u rnd) (hu : 0 ≤ u) (he : 0 ≤ e) (hs : u + e ≤ 1 / 500) {x y z x' y' z' : ℝ} (hx : |x| ≤ 1)
    (hy : |y| ≤ 1) (hz : |z| ≤ 1) (hx' : |x' - x| ≤ e) (hy' : |y' - y| ≤ e) (hz' : |z' - z| ≤ e) :
    |rnd (rnd (x' + y') + z') - (x + y + z)| ≤ 8.02 * (u + e) ∧
    |rnd (rnd (rnd (x' + y') + z') + 1) - (x + y + z + 1)| ≤ 12.1 * (u + e) ∧ x + y + z + 1 ≤ 4 := by
  have hη : 0 ≤ u + e := by linarith
  have k1 : |(x' + y') - (x + y)| ≤ 2 * (u + e) := by
    rw [show (x' + y') - (x + y) = (x' - x) + (y' - y) by ring]
    exact (abs_add_le _ _).trans (by linarith)
  have a1 := near_step h hu he hs (by norm_num) k1 (m := 2) ((abs_add_le _ _).trans (by linarith))
  have k2 : |(rnd (x' + y') + z') - (x + y + z)| ≤ 5.004 * (u + e) := by
    rw [show (rnd (x' + y') + z') - (x + y + z) = (rnd (x' + y') - (x + y)) + (z' - z) by ring]
    exact (abs_add_le _ _).trans (by linarith)
  have a2 := near_step h hu he hs (by norm_num) k2 (m := 3) ((abs_add_three _ _ _).trans (by linarith))
  have a2' : |rnd (rnd (x' + y') + z') - (x + y + z)| ≤ 8.02 * (u + e) := by linarith
  have k3 : |(rnd (rnd (x' + y') + z') + 1) - (x + y + z + 1)| ≤ 8.02 * (u + e) := by
    rw [show (rnd (rnd (x' + y') + z') + 1) - (x + y + z + 1) = rnd (rnd (x' + y') + z') - (x + y + z) by ring]
    exact a2'
  have m : |x + y + z + 1| ≤ 4 := by
    refine (abs_add_le _ _).trans ?_
    have := abs_add_three x y z
    rw [abs_one]
    linarith
  have a3 := near_step h hu he hs (by norm_num) k3 m
  exact ⟨a2', by linarith, (le_abs_self _).trans m⟩

/-- The same with differences. -/
theorem radicand_sub (h : RelErr u rnd) (hu : 0 ≤ u) (he : 0 ≤ e) (hs : u + e ≤ 1 / 500) {x y z x' y' z' : ℝ} (hx : |x| ≤ 1)
    (hy : |y| ≤ 1) (hz : |z| ≤ 1) (hx' : |x' - x| ≤ e) (hy' : |y' - y| ≤ e) (hz' : |z' - z| ≤ e) :
    |rnd (rnd (rnd (x' - y') - z') + 1) - (x - y - z + 1)| ≤ 12.1 * (u + e) ∧ x - y - z + 1 ≤ 4 := by
  have := (radicand h hu he hs hx (y := -y) (z := -z) (y' := -y') (z' := -z') (by rwa [abs_neg]) (by rwa [abs_neg]) hx'
    (by rw [show -y' - -y = -(y' - y) by ring, abs_neg]; exact hy')
    (by rw [show -z' - -z = -(z' - z) by ring, abs_neg]; exact hz')).2
  simpa only [← sub_eq_add_neg] using this

/-- A difference of two entries. -/
theorem diff {x y x' y' : ℝ} (hu : 0 ≤ u) (hx : |x| ≤ 1) (hy : |y| ≤ 1) (hx' : |x' - x| ≤ e) (hy' : |y' - y| ≤ e) :
    |x - y| ≤ 2 ∧ |(x' - y') - (x - y)| ≤ 2 * (u + e) := by
  constructor
  · exact (abs_sub _ _).trans (by linarith)
  · rw [show (x' - y') - (x - y) = (x' - x) - (y' - y) by ring]
    exact (abs_sub _ _).trans (by linarith)

theorem summ {x y x' y' : ℝ} (hu : 0 ≤ u) (hx : |x| ≤ 1) (hy : |y| ≤ 1) (hx' : |x' - x| ≤ e) (hy' : |y' - y| ≤ e) :
    |x + y| ≤ 2 ∧ |(x' + y') - (x + y)| ≤ 2 * (u + e) := by
  constructor
  · exact (abs_add_le _ _).trans (by linarith)
  · rw [show (x' + y') - (x + y) = (x' - x) + (y' - y) by ring]
    exact (abs_add_le _ _).trans (by linarith)

/-- One branch: the four numbers. -/
theorem four (h : RelErr u rnd) (hu : 0 ≤ u) (he : 0 ≤ e) (hs : u + e ≤ 1 / 500) {r r' : ℝ} (h1 : 0.97 ≤ r) (h4 : r ≤ 4)
    (hr : |r' - r| ≤ 12.1 * (u + e)) :
    |rnd (rnd (Real.sqrt r') / 2) - r * (0.5 / Real.sqrt r)| ≤ 13 * (u + e) ∧
    ∀ n n' : ℝ, |n| ≤ 2 ∧ |n' - n| ≤ 2 * (u + e) →
      |rnd (rnd n' * rnd (0.5 / rnd (Real.sqrt r'))) - n * (0.5 / Real.sqrt r)| ≤ 13 * (u + e) := by
  obtain ⟨a1, a2, a3⟩ := root h hu he hs h1 h4 hr
  obtain ⟨b1, b2, b3⟩ := inv_half h hu he hs a2 a1
  refine ⟨?_, fun n n' k => product h hu he hs k.1 k.2 b2 b3 b1⟩
  have e1 : r * (0.5 / Real.sqrt r) = Real.sqrt r / 2 := by
    have s1 := Real.mul_self_sqrt (show 0 ≤ r by linarith)
    have : Real.sqrt r ≠ 0 := by linarith
    field_simp
    linarith
  rw [e1]
  exact half h hu he hs (by linarith) a3 a1

/-- The computed quaternion is near a unit quaternion of the rotation. -/
theorem read (h : RelErr u rnd) (hu : 0 ≤ u) (he : 0 ≤ e) (hs : u + e ≤ 1 / 500) {a Q : Mat3} (hQ : Rotation Q)
    (ha : ∀ i j, |M a i j - M Q i j| ≤ e) :
    0.94 ≤ getRotationRadicand rnd a ∧ ∃ p : Quat, p.length2 = 1 ∧ Mat3.setRotation p = Q ∧
      |(getRotation rnd a).x - p.x| ≤ 13 * (u + e) ∧ |(getRotation rnd a).y - p.y| ≤ 13 * (u + e) ∧
      |(getRotation rnd a).z - p.z| ≤ 13 * (u + e) ∧ |(getRotation rnd a).w - p.w| ≤ 13 * (u + e) := by
  have hη : 0 ≤ u + e := by linarith
  have q := entries hQ
  have qxx : |Q.xx| ≤ 1 := q 0 0
  have qxy : |Q.xy| ≤ 1 := q 0 1
  have qxz : |Q.xz| ≤ 1 := q 0 2
  have qyx : |Q.yx| ≤ 1 := q 1 0
  have qyy : |Q.yy| ≤ 1 := q 1 1
  have qyz : |Q.yz| ≤ 1 := q 1 2
  have qzx : |Q.zx| ≤ 1 := q 2 0
  have qzy : |Q.zy| ≤ 1 := q 2 1
  have qzz : |Q.zz| ≤ 1 := q 2 2
  have axx : |a.xx - Q.xx| ≤ e := ha 0 0
  have axy : |a.xy - Q.xy| ≤ e := ha 0 1
  have axz : |a.xz - Q.xz| ≤ e := ha 0 2
  have ayx : |a.yx - Q.yx| ≤ e := ha 1 0
  have ayy : |a.yy - Q.yy| ≤ e := ha 1 1
  have ayz : |a.yz - Q.yz| ≤ e := ha 1 2
  have azx : |a.zx - Q.zx| ≤ e := ha 2 0
  have azy : |a.zy - Q.zy| ≤ e := ha 2 1
  have azz : |a.zz - Q.zz| ≤ e := ha 2 2
  obtain ⟨m1, m2, m3, m4⟩ := multiples hQ
  obtain ⟨t1, t2, t3⟩ := radicand h hu he hs qxx qyy qzz axx ayy azz
  obtain ⟨x1, x2⟩ := radicand_sub h hu he hs qxx qyy qzz axx ayy azz
  obtain ⟨y1, y2⟩ := radicand_sub h hu he hs qyy qzz qxx ayy azz axx
  obtain ⟨z1, z2⟩ := radicand_sub h hu he hs qzz qxx qyy azz axx ayy
  have bxx := abs_le.1 axx
  have byy := abs_le.1 ayy
  have bzz := abs_le.1 azz
  have bt := abs_le.1 t1
  unfold getRotationRadicand getRotation
  dsimp only
  split_ifs with ht h1 h2 h2
  · have hr : 0.97 ≤ Q.xx + Q.yy + Q.zz + 1 := by linarith
    obtain ⟨l, s⟩ := m1 (by linarith)
    obtain ⟨l, s⟩ := unit_of (by linarith) l s
    obtain ⟨f1, f2⟩ := four h hu he hs hr t3 t2
    refine ⟨by linarith [(abs_le.1 t2).1], _, l, s, f2 _ _ (diff hu qzy qyz azy ayz), f2 _ _ (diff hu qxz qzx axz azx),
      f2 _ _ (diff hu qyx qxy ayx axy), f1⟩
  · simp only [Mat3.get, Quat.set]
    norm_num
    have hr : 0.97 ≤ Q.zz - Q.xx - Q.yy + 1 := by linarith
    obtain ⟨l, s⟩ := m2 (by linarith)
    obtain ⟨l, s⟩ := unit_of (by linarith) l s
    obtain ⟨f1, f2⟩ := four h hu he hs hr z2 z1
    norm_num at f1 f2 l s
    refine ⟨by linarith [(abs_le.1 z1).1], _, l, s, f2 _ _ (summ hu qxz qzx axz azx).1 (summ hu qxz qzx axz azx).2,
      f2 _ _ (summ hu qyz qzy ayz azy).1 (summ hu qyz qzy ayz azy).2, f1,
      f2 _ _ (diff hu qyx qxy ayx axy).1 (diff hu qyx qxy ayx axy).2⟩
  · simp only [Mat3.get, Quat.set]
    norm_num
    have hr : 0.97 ≤ Q.yy - Q.zz - Q.xx + 1 := by linarith
    obtain ⟨l, s⟩ := m3 (by linarith)
    obtain ⟨l, s⟩ := unit_of (by linarith) l s
    obtain ⟨f1, f2⟩ := four h hu he hs hr y2 y1
    norm_num at f1 f2 l s
    exact ⟨by linarith [(abs_le.1 y1).1], _, l, s, f2 _ _ (summ hu qxy qyx axy ayx).1 (summ hu qxy qyx axy ayx).2,
      f1,
      f2 _ _ (summ hu qzy qyz azy ayz).1 (summ hu qzy qyz azy ayz).2,
      f2 _ _ (diff hu qxz qzx axz azx).1 (diff hu qxz qzx axz azx).2⟩
  · simp only [Mat3.get, Quat.set]
    norm_num
    have hr : 0.97 ≤ Q.zz - Q.xx - Q.yy + 1 := by linarith
    obtain ⟨l, s⟩ := m2 (by linarith)
    obtain ⟨l, s⟩ := unit_of (by linarith) l s
    obtain ⟨f1, f2⟩ := four h hu he hs hr z2 z1
    norm_num at f1 f2 l s
    refine ⟨by linarith [(abs_le.1 z1).1], _, l, s, f2 _ _ (summ hu qxz qzx axz azx).1 (summ hu qxz qzx axz azx).2,
      f2 _ _ (summ hu qyz qzy ayz azy).1 (summ hu qyz qzy ayz azy).2, f1,
      f2 _ _ (diff hu qyx qxy ayx axy).1 (diff hu qyx qxy ayx axy).2⟩
  · simp only [Mat3.get, Quat.set]
    norm_num
    have hr : 0.97 ≤ Q.xx - Q.yy - Q.zz + 1 := by linarith
    obtain ⟨l, s⟩ := m4 (by linarith)
    obtain ⟨l, s⟩ := unit_of (by linarith) l s
    obtain ⟨f1, f2⟩ := four h hu he hs hr x2 x1
    norm_num at f1 f2 l s
    exact ⟨by linarith [(abs_le.1 x1).1], _, l, s, f1,
      f2 _ _ (summ hu qyx qxy ayx axy).1 (summ hu qyx qxy ayx axy).2,
      f2 _ _ (summ hu qzx qxz azx axz).1 (summ hu qzx qxz azx axz).2,
      f2 _ _ (diff hu qzy qyz azy ayz).1 (diff hu qzy qyz azy ayz).2⟩

/-- A product of two components near those of a unit quaternion. -/
theorem prod_near {η x y x' y' : ℝ} (hs : η ≤ 1 / 500) (hx : |x| ≤ 1) (hy : |y| ≤ 1) (hx' : |x' - x| ≤ 13 * η)
    (hy' : |y' - y| ≤ 13 * η) : |x' * y' - x * y| ≤ 26.34 * η := by
  have hη : 0 ≤ η := by linarith [abs_nonneg (x' - x)]
  have e1 : x' * y' - x * y = (x' - x) * (y' - y) + (x' - x) * y + x * (y' - y) := by ring
  rw [e1]
  refine (abs_add_three _ _ _).trans ?_
  rw [abs_mul, abs_mul, abs_mul]
  have k1 := mul_le_mul hx' (hy'.trans (show 13 * η ≤ 0.026 by linarith)) (abs_nonneg _) (by positivity)
  have k2 := mul_le_mul hx' hy (abs_nonneg _) (by positivity)
  have k3 := mul_le_mul hx hy' (abs_nonneg _) (by norm_num)
  linarith

/-- A quotient near its numerator. -/
theorem quot_near {η g g' d : ℝ} (hη : 0 ≤ η) (hs : η ≤ 1 / 500) (hg : |g| ≤ 1) (hg' : |g' - g| ≤ 105.4 * η)
    (hd : |d - 1| ≤ 105.4 * η) : |g' / d - g| ≤ 270 * η := by
  have hp : 0.789 ≤ d := by linarith [(abs_le.1 hd).1]
  have e1 : g' / d - g = ((g' - g) - g * (d - 1)) / d := by
    have : d ≠ 0 := by linarith
    field_simp
    ring
  rw [e1, abs_div, abs_of_pos (by linarith : 0 < d), div_le_iff₀ (by linarith)]
  refine (abs_sub _ _).trans ?_
  rw [abs_mul]
  have k := mul_le_mul hg hd (abs_nonneg _) (by norm_num)
  have k2 := mul_le_mul_of_nonneg_left hp (show 0 ≤ 270 * η by positivity)
  linarith

/-- The entries of the matrix of a quaternion as quotients. -/
theorem setRotation_quot {q : Quat} (hq : q.length2 ≠ 0) :
    Mat3.setRotation q =
      ⟨(q.w * q.w + q.x * q.x - q.y * q.y - q.z * q.z) / q.length2, (q.x * q.y - q.w * q.z + (q.x * q.y - q.w * q.z)) / q.length2,
        (q.x * q.z + q.w * q.y + (q.x * q.z + q.w * q.y)) / q.length2,
       (q.x * q.y + q.w * q.z + (q.x * q.y + q.w * q.z)) / q.length2, (q.w * q.w + q.y * q.y - q.x * q.x - q.z * q.z) / q.length2,
        (q.y * q.z - q.w * q.x + (q.y * q.z - q.w * q.x)) / q.length2,
       (q.x * q.z - q.w * q.y + (q.x * q.z - q.w * q.y)) / q.length2, (q.y * q.z + q.w * q.x + (q.y * q.z + q.w * q.x)) / q.length2,
        (q.w * q.w + q.z * q.z - q.x * q.x - q.y * q.y) / q.length2⟩ := by
  have hd : q.length2 = q.x * q.x + q.y * q.y + q.z * q.z + q.w * q.w := rfl
  unfold Mat3.setRotation
  ext <;> simp only [] <;> field_simp <;> first | ring1 | linear_combination hd

/-- Near quaternions have near matrices. -/
theorem lipschitz {η : ℝ} (hs : η ≤ 1 / 500) {p q : Quat} (hp : p.length2 = 1) (hx : |q.x - p.x| ≤ 13 * η)
    (hy : |q.y - p.y| ≤ 13 * η) (hz : |q.z - p.z| ≤ 13 * η) (hw : |q.w - p.w| ≤ 13 * η) :
    0 < q.length2 ∧ ∀ i j, |M (Mat3.setRotation q) i j - M (Mat3.setRotation p) i j| ≤ 270 * η := by
  have hη : 0 ≤ η := by linarith [abs_nonneg (q.x - p.x)]
  have hd : p.x * p.x + p.y * p.y + p.z * p.z + p.w * p.w = 1 := hp
  have X := mul_self_nonneg p.x
  have Y := mul_self_nonneg p.y
  have Z := mul_self_nonneg p.z
  have W := mul_self_nonneg p.w
  have ox : |p.x| ≤ 1 := abs_le_one_iff_mul_self_le_one.2 (by linarith)
  have oy : |p.y| ≤ 1 := abs_le_one_iff_mul_self_le_one.2 (by linarith)
  have oz : |p.z| ≤ 1 := abs_le_one_iff_mul_self_le_one.2 (by linarith)
  have ow : |p.w| ≤ 1 := abs_le_one_iff_mul_self_le_one.2 (by linarith)
  have xx := abs_le.1 (prod_near hs ox ox hx hx)
  have yy := abs_le.1 (prod_near hs oy oy hy hy)
  have zz := abs_le.1 (prod_near hs oz oz hz hz)
  have ww := abs_le.1 (prod_near hs ow ow hw hw)
  have xy := abs_le.1 (prod_near hs ox oy hx hy)
  have xz := abs_le.1 (prod_near hs ox oz hx hz)
  have yz := abs_le.1 (prod_near hs oy oz hy hz)
  have wx := abs_le.1 (prod_near hs ow ox hw hx)
  have wy := abs_le.1 (prod_near hs ow oy hw hy)
  have wz := abs_le.1 (prod_near hs ow oz hw hz)
  have d : |q.length2 - 1| ≤ 105.4 * η := by
    have e1 : q.length2 = q.x * q.x + q.y * q.y + q.z * q.z + q.w * q.w := rfl
    rw [e1, abs_le]
    constructor <;> linarith
  have dp : 0 < q.length2 := by linarith [(abs_le.1 d).1]
  have hpz : p ≠ ⟨0, 0, 0, 0⟩ := by
    rintro rfl
    simp [Quat.length2] at hp
  have en := entries (setRotation_rotation hpz)
  refine ⟨dp, ?_⟩
  rw [setRotation_quot dp.ne']
  rw [setRotation_quot (by rw [hp]; norm_num), hp] at en ⊢
  simp only [div_one] at en ⊢
  intro i j
  fin_cases i <;> fin_cases j
  · exact quot_near (g' := q.w * q.w + q.x * q.x - q.y * q.y - q.z * q.z) hη hs (en 0 0)
      (abs_le.2 ⟨by show _ ≤ _ - (p.w * p.w + p.x * p.x - p.y * p.y - p.z * p.z); linarith, by show _ - (p.w * p.w + p.x * p.x - p.y * p.y - p.z * p.z) ≤ _; linarith⟩) d
  · exact quot_near (g' := q.x * q.y - q.w * q.z + (q.x * q.y - q.w * q.z)) hη hs (en 0 1)
      (abs_le.2 ⟨by show _ ≤ _ - (p.x * p.y - p.w * p.z + (p.x * p.y - p.w * p.z)); linarith, by show _ - (p.x * p.y - p.w * p.z + (p.x * p.y - p.w * p.z)) ≤ _; linarith⟩) d
  · exact quot_near (g' := q.x * q.z + q.w * q.y + (q.x * q.z + q.w * q.y)) hη hs (en 0 2)
      (abs_le.2 ⟨by show _ ≤ _ - (p.x * p.z + p.w * p.y + (p.x * p.z + p.w * p.y)); linarith, by show _ - (p.x * p.z + p.w * p.y + (p.x * p.z + p.w * p.y)) ≤ _; linarith⟩) d
  · exact quot_near (g' := q.x * q.y + q.w * q.z + (q.x * q.y + q.w * q.z)) hη hs (en 1 0)
      (abs_le.2 ⟨by show _ ≤ _ - (p.x * p.y + p.w * p.z + (p.x * p.y + p.w * p.z)); linarith, by show _ - (p.x * p.y + p.w * p.z + (p.x * p.y + p.w * p.z)) ≤ _; linarith⟩) d
  · exact quot_near (g' := q.w * q.w + q.y * q.y - q.x * q.x - q.z * q.z) hη hs (en 1 1)
      (abs_le.2 ⟨by show _ ≤ _ - (p.w * p.w + p.y * p.y - p.x * p.x - p.z * p.z); linarith, by show _ - (p.w * p.w + p.y * p.y - p.x * p.x - p.z * p.z) ≤ _; linarith⟩) d
  · exact quot_near (g' := q.y * q.z - q.w * q.x + (q.y * q.z - q.w * q.x)) hη hs (en 1 2)
      (abs_le.2 ⟨by show _ ≤ _ - (p.y * p.z - p.w * p.x + (p.y * p.z - p.w * p.x)); linarith, by show _ - (p.y * p.z - p.w * p.x + (p.y * p.z - p.w * p.x)) ≤ _; linarith⟩) d
  · exact quot_near (g' := q.x * q.z - q.w * q.y + (q.x * q.z - q.w * q.y)) hη hs (en 2 0)
      (abs_le.2 ⟨by show _ ≤ _ - (p.x * p.z - p.w * p.y + (p.x * p.z - p.w * p.y)); linarith, by show _ - (p.x * p.z - p.w * p.y + (p.x * p.z - p.w * p.y)) ≤ _; linarith⟩) d
  · exact quot_near (g' := q.y * q.z + q.w * q.x + (q.y * q.z + q.w * q.x)) hη hs (en 2 1)
      (abs_le.2 ⟨by show _ ≤ _ - (p.y * p.z + p.w * p.x + (p.y * p.z + p.w * p.x)); linarith, by show _ - (p.y * p.z + p.w * p.x + (p.y * p.z + p.w * p.x)) ≤ _; linarith⟩) d
  · exact quot_near (g' := q.w * q.w + q.z * q.z - q.x * q.x - q.y * q.y) hη hs (en 2 2)
      (abs_le.2 ⟨by show _ ≤ _ - (p.w * p.w + p.z * p.z - p.x * p.x - p.y * p.y); linarith, by show _ - (p.w * p.w + p.z * p.z - p.x * p.x - p.y * p.y) ≤ _; linarith⟩) d

/-- There and back. -/
theorem roundtrip (h : RelErr u rnd) (hu : u ≤ 1 / 1000) (hs : u + e ≤ 1 / 500) {a Q : Mat3} (hQ : Rotation Q)
    (ha : ∀ i j, |M a i j - M Q i j| ≤ e) :
    ∃ R, Rotation R ∧ (∀ i j, |M (setRotation rnd (getRotation rnd a)) i j - M R i j| ≤ 19 * u) ∧
      (∀ i j, |M R i j - M Q i j| ≤ 270 * (u + e)) ∧ NearlyOrthogonal (68 * u) (setRotation rnd (getRotation rnd a)) := by
  have hu0 := relErr_nonneg h
  have he : 0 ≤ e := (abs_nonneg _).trans (ha 0 0)
  obtain ⟨-, p, p1, p2, px, py, pz, pw⟩ := read h hu0 he hs hQ ha
  obtain ⟨d, l⟩ := lipschitz hs p1 px py pz pw
  rw [p2] at l
  have hq : getRotation rnd a ≠ ⟨0, 0, 0, 0⟩ := by
    intro k
    rw [k] at d
    simp [Quat.length2] at d
  exact ⟨_, setRotation_rotation hq, setRotation_err h hu0 hu d, l, setRotation_orth h hu0 hu hq⟩

/-- Matrices whose entries are near. -/
theorem nearMat_of {c : ℝ} {A B : Mat3} (h : ∀ i j, |M A i j - M B i j| ≤ c) : NearMat (3 * c) A B := by
  intro f
  have hc : 0 ≤ c := (abs_nonneg _).trans (h 0 0)
  rw [← Matrix.sub_mulVec]
  refine (len_mulVec _ f).trans (mul_le_mul_of_nonneg_right ?_ (len_nonneg _))
  rw [Real.sqrt_le_left (by positivity)]
  have k : ∀ i j, (M A - M B) i j ^ 2 ≤ c ^ 2 := by
    intro i j
    rw [← sq_abs]
    exact pow_le_pow_left₀ (abs_nonneg _) (h i j) 2
  simp only [Fin.sum_univ_three]
  linarith [k 0 0, k 0 1, k 0 2, k 1 0, k 1 1, k 1 2, k 2 0, k 2 1, k 2 2]

/-- A row of hops. -/
theorem hops (h : RelErr u rnd) (hu : u ≤ 1 / 10000) (hs : u + e ≤ 1 / 500) {T : Transform3} {Q : Mat3} (hQ : Rotation Q)
    (ha : ∀ i j, |M T.R i j - M Q i j| ≤ e) (n : ℕ) :
    ((hop rnd)^[n + 1] T).t = T.t ∧ NearlyOrthogonal (68 * u) ((hop rnd)^[n + 1] T).R ∧
    ∃ R, Rotation R ∧ (∀ i j, |M ((hop rnd)^[n + 1] T).R i j - M R i j| ≤ 19 * u) ∧
      ∀ i j, |M R i j - M Q i j| ≤ 270 * (u + e) + n * (5400 * u) := by
  induction n with
  | zero =>
    obtain ⟨R, r1, r2, r3, r4⟩ := roundtrip h (by linarith) hs hQ ha
    refine ⟨rfl, r4, R, r1, r2, fun i j => ?_⟩
    have := r3 i j
    simpa using this
  | succ n ih =>
    obtain ⟨t, -, R, r1, r2, r3⟩ := ih
    rw [Function.iterate_succ_apply']
    obtain ⟨R', s1, s2, s3, s4⟩ := roundtrip h (by linarith) (e := 19 * u) (by linarith) r1 r2
    refine ⟨t, s4, R', s1, s2, fun i j => ?_⟩
    have a := s3 i j
    have b := r3 i j
    have c := abs_sub_le (M R' i j) (M R i j) (M Q i j)
    push_cast
    linarith

end Geo.RoundedQuaternion
