import Verif.Spec.Math
import Mathlib.Tactic.FinCases
import Mathlib.Tactic.LinearCombination

namespace Geo

open Spec Matrix

theorem orth_iff (a : Mat3) : Orthogonal a ↔
    (a.xx * a.xx + a.yx * a.yx + a.zx * a.zx = 1 ∧
     a.xy * a.xy + a.yy * a.yy + a.zy * a.zy = 1 ∧
     a.xz * a.xz + a.yz * a.yz + a.zz * a.zz = 1 ∧
     a.xx * a.xy + a.yx * a.yy + a.zx * a.zy = 0 ∧
     a.xx * a.xz + a.yx * a.yz + a.zx * a.zz = 0 ∧
     a.xy * a.xz + a.yy * a.yz + a.zy * a.zz = 0) := by
  unfold Orthogonal M
  rw [← Matrix.ext_iff]
  simp [Fin.forall_fin_succ, Matrix.mul_apply, Fin.sum_univ_succ]
  constructor
  · rintro ⟨⟨h1, h2, h3⟩, ⟨h4, h5, h6⟩, h7, h8, h9⟩
    refine ⟨?_, ?_, ?_, ?_, ?_, ?_⟩ <;> linarith
  · rintro ⟨h1, h2, h3, h4, h5, h6⟩
    refine ⟨⟨?_, ?_, ?_⟩, ⟨?_, ?_, ?_⟩, ?_, ?_, ?_⟩ <;> linarith

theorem orth_transpose_mul {a : Mat3} (h : Orthogonal a) : M a * (M a)ᵀ = 1 := by
  unfold Orthogonal at h
  exact mul_eq_one_comm.mp h

theorem orth_rows {a : Mat3} (h : Orthogonal a) :
    a.xx * a.xx + a.xy * a.xy + a.xz * a.xz = 1 ∧
    a.yx * a.yx + a.yy * a.yy + a.yz * a.yz = 1 ∧
    a.zx * a.zx + a.zy * a.zy + a.zz * a.zz = 1 ∧
    a.xx * a.yx + a.xy * a.yy + a.xz * a.yz = 0 ∧
    a.xx * a.zx + a.xy * a.zy + a.xz * a.zz = 0 ∧
    a.yx * a.zx + a.yy * a.zy + a.yz * a.zz = 0 := by
  have h' := orth_transpose_mul h
  have : Orthogonal a.transpose := by
    unfold Orthogonal
    have e : M a.transpose = (M a)ᵀ := by
      ext i j; fin_cases i <;> fin_cases j <;> rfl
    rw [e, Matrix.transpose_transpose]; exact h'
  simpa [Mat3.transpose] using (orth_iff _).mp this

theorem det_eq (a : Mat3) : (M a).det =
    a.xx * (a.yy * a.zz - a.yz * a.zy) - a.xy * (a.yx * a.zz - a.yz * a.zx)
      + a.xz * (a.yx * a.zy - a.yy * a.zx) := by
  unfold M
  rw [Matrix.det_fin_three]
  simp
  ring

theorem rotation_iff (a : Mat3) : Rotation a ↔
    Orthogonal a ∧ a.xx * (a.yy * a.zz - a.yz * a.zy) - a.xy * (a.yx * a.zz - a.yz * a.zx)
      + a.xz * (a.yx * a.zy - a.yy * a.zx) = 1 := by
  rw [← det_eq]; rfl

/-- For a proper rotation every entry equals its cofactor. -/
theorem rotation_cofactor {a : Mat3} (h : Rotation a) :
    a.xx = a.yy * a.zz - a.yz * a.zy ∧
    a.xy = a.yz * a.zx - a.yx * a.zz ∧
    a.xz = a.yx * a.zy - a.yy * a.zx ∧
    a.yx = a.xz * a.zy - a.xy * a.zz ∧
    a.yy = a.xx * a.zz - a.xz * a.zx ∧
    a.yz = a.xy * a.zx - a.xx * a.zy ∧
    a.zx = a.xy * a.yz - a.xz * a.yy ∧
    a.zy = a.xz * a.yx - a.xx * a.yz ∧
    a.zz = a.xx * a.yy - a.xy * a.yx := by
  obtain ⟨ho, hd⟩ := (rotation_iff a).mp h
  obtain ⟨c1, c2, c3, c4, c5, c6⟩ := (orth_iff a).mp ho
  obtain ⟨r1, r2, r3, r4, r5, r6⟩ := orth_rows ho
  have h1 : M a * (M a)ᵀ = 1 := orth_transpose_mul ho
  have h2 : (M a).adjugate = (M a)ᵀ := by
    have e : (M a)ᵀ * (M a * (M a).adjugate) = (M a)ᵀ := by
      rw [Matrix.mul_adjugate, h.2, one_smul, mul_one]
    rw [← mul_assoc] at e
    rw [show (M a)ᵀ * M a = 1 from ho, one_mul] at e
    exact e
  rw [← Matrix.ext_iff] at h2
  unfold M at h2
  simp [Fin.forall_fin_succ, Matrix.adjugate_fin_three] at h2
  obtain ⟨⟨a1, a2, a3⟩, ⟨a4, a5, a6⟩, a7, a8, a9⟩ := h2
  refine ⟨?_, ?_, ?_, ?_, ?_, ?_, ?_, ?_, ?_⟩ <;> linarith

theorem M_mul (a b : Mat3) : M (a.mul b) = M a * M b := by
  ext i j
  fin_cases i <;> fin_cases j <;>
    simp [M, Mat3.mul, Matrix.mul_apply, Fin.sum_univ_succ] <;> ring

theorem M_inj {a b : Mat3} (h : M a = M b) : a = b := by
  rw [← Matrix.ext_iff] at h
  simp [M, Fin.forall_fin_succ] at h
  ext <;> tauto

theorem M_transpose (a : Mat3) : M a.transpose = (M a)ᵀ := by
  ext i j; fin_cases i <;> fin_cases j <;> rfl

theorem M_identity : M Mat3.identity = 1 := by
  ext i j; fin_cases i <;> fin_cases j <;> simp [M, Mat3.identity]

theorem rigid_apply_sq {T : Transform3} (h : Rigid T) (u v : Vec3) :
    distSq (T.apply u) (T.apply v) = distSq u v := by
  obtain ⟨c1, c2, c3, c4, c5, c6⟩ := (orth_iff T.R).mp h
  simp only [distSq, Transform3.apply, Mat3.mulVec, Vec3.add_x, Vec3.add_y, Vec3.add_z]
  linear_combination (u.x - v.x) ^ 2 * c1 + (u.y - v.y) ^ 2 * c2 + (u.z - v.z) ^ 2 * c3 +
    2 * (u.x - v.x) * (u.y - v.y) * c4 + 2 * (u.x - v.x) * (u.z - v.z) * c5 +
    2 * (u.y - v.y) * (u.z - v.z) * c6

end Geo

namespace Geo

open Spec Matrix

/-! ### atan2 -/

theorem norm_mk (x y : ℝ) : ‖(⟨x, y⟩ : ℂ)‖ = Real.sqrt (x * x + y * y) := by
  rw [Complex.norm_def, Complex.normSq_mk]

theorem sin_atan2 (y x : ℝ) : Real.sin (atan2 y x) = y / Real.sqrt (x * x + y * y) := by
  unfold atan2
  rw [Complex.sin_arg, norm_mk]

theorem cos_atan2 {y x : ℝ} (h : x ≠ 0 ∨ y ≠ 0) :
    Real.cos (atan2 y x) = x / Real.sqrt (x * x + y * y) := by
  unfold atan2
  rw [Complex.cos_arg, norm_mk]
  intro h0
  rw [Complex.ext_iff] at h0
  simp at h0
  tauto

theorem atan2_mem (y x : ℝ) : atan2 y x ∈ Set.Ioc (-Real.pi) Real.pi := Complex.arg_mem_Ioc _

theorem atan2_polar {r θ : ℝ} (hr : 0 < r) (h : θ ∈ Set.Ioc (-Real.pi) Real.pi) :
    atan2 (r * Real.sin θ) (r * Real.cos θ) = θ := by
  unfold atan2
  have := Complex.arg_mul_cos_add_sin_mul_I hr h
  refine Eq.trans ?_ this
  congr 1
  apply Complex.ext <;> simp [← Complex.ofReal_cos, ← Complex.ofReal_sin]

theorem atan2_zero_zero : atan2 0 0 = 0 := by
  unfold atan2
  rw [show (⟨0, 0⟩ : ℂ) = 0 from rfl, Complex.arg_zero]

/-! ### quaternions -/

theorem length2_pos {q : Quat} (h : q ≠ ⟨0, 0, 0, 0⟩) : 0 < q.length2 := by
  unfold Quat.length2
  by_contra hc
  apply h
  have hx := mul_self_nonneg q.x
  have hy := mul_self_nonneg q.y
  have hz := mul_self_nonneg q.z
  have hw := mul_self_nonneg q.w
  ext
  · exact mul_self_eq_zero.mp (by linarith)
  · exact mul_self_eq_zero.mp (by linarith)
  · exact mul_self_eq_zero.mp (by linarith)
  · exact mul_self_eq_zero.mp (by linarith)

theorem setRotation_rotation {q : Quat} (h : q ≠ ⟨0, 0, 0, 0⟩) : Rotation (Mat3.setRotation q) := by
  have hd : q.length2 ≠ 0 := (length2_pos h).ne'
  rw [rotation_iff, orth_iff]
  unfold Mat3.setRotation
  dsimp only
  have hs : 2 / q.length2 * q.length2 = 2 := by field_simp
  generalize 2 / q.length2 = s at *
  simp only [Quat.length2] at hs ⊢
  obtain ⟨x, y, z, w⟩ := q
  simp only at hs ⊢
  refine ⟨⟨?_, ?_, ?_, ?_, ?_, ?_⟩, ?_⟩
  · linear_combination s * (y * y + z * z) * hs
  · linear_combination s * (x * x + z * z) * hs
  · linear_combination s * (x * x + y * y) * hs
  · linear_combination -s * (x * y) * hs
  · linear_combination -s * (x * z) * hs
  · linear_combination -s * (y * z) * hs
  · linear_combination (1 - s * (y * y + z * z)) * (s * x * x) * hs
      + (s * (x * y) - s * (w * z)) * (s * x * y) * hs
      + (s * (x * z) + s * (w * y)) * (s * x * z) * hs
      + s * (y * y + z * z) * hs

theorem setRotation_scale (q : Quat) {s : ℝ} (hs : s ≠ 0) :
    Mat3.setRotation (q.scale s) = Mat3.setRotation q := by
  by_cases h : q = ⟨0, 0, 0, 0⟩
  · subst h
    simp [Quat.scale]
  have hd : q.length2 ≠ 0 := (length2_pos h).ne'
  unfold Mat3.setRotation Quat.scale
  simp only [Quat.length2] at hd ⊢
  have h2 : q.x * s * (q.x * s) + q.y * s * (q.y * s) + q.z * s * (q.z * s) + q.w * s * (q.w * s)
    = (q.x * q.x + q.y * q.y + q.z * q.z + q.w * q.w) * (s * s) := by ring
  rw [h2]
  ext <;> simp only [] <;> field_simp

/-- The scaled quaternion with the same direction as the result of `getRotation`. -/
theorem setRotation_of_polys {a : Mat3} {p : Quat} {r : ℝ} (hr : 0 < r)
    (hl : p.length2 = 4 * r)
    (h1 : 2 * r * (1 - a.xx) = p.y * p.y + p.z * p.z)
    (h2 : 2 * r * a.xy = p.x * p.y - p.w * p.z)
    (h3 : 2 * r * a.xz = p.x * p.z + p.w * p.y)
    (h4 : 2 * r * a.yx = p.x * p.y + p.w * p.z)
    (h5 : 2 * r * (1 - a.yy) = p.x * p.x + p.z * p.z)
    (h6 : 2 * r * a.yz = p.y * p.z - p.w * p.x)
    (h7 : 2 * r * a.zx = p.x * p.z - p.w * p.y)
    (h8 : 2 * r * a.zy = p.y * p.z + p.w * p.x)
    (h9 : 2 * r * (1 - a.zz) = p.x * p.x + p.y * p.y) :
    Mat3.setRotation p = a := by
  have hr' : r ≠ 0 := hr.ne'
  unfold Mat3.setRotation
  simp only [hl]
  ext <;> simp only [] <;> field_simp <;> linarith

end Geo
