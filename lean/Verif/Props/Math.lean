import Mathlib.Tactic.IntervalCases
import Verif.Lemmas.Rotation
import Verif.Model.MatrixH
import Mathlib.Algebra.Quaternion
import Mathlib.LinearAlgebra.CrossProduct
import Mathlib.Analysis.Real.Pi.Bounds
import Mathlib.Analysis.SpecialFunctions.Trigonometric.Bounds

/-!
# Property theorems C01 - C09 (linear algebra)
-/

namespace Geo

open Spec Matrix

/-! ## C01 -/

/-- C01: composition of transforms is composition of the maps, in terms of Mathlib's matrices:
the transform acts as `v ↦ R v + t`, products multiply bases, and the monoid laws hold. -/
theorem C01_composition (A B C : Transform3) (v : Vec3) :
    V (A.apply v) = (M A.R).mulVec (V v) + V A.t ∧
    (A.mul B).apply v = A.apply (B.apply v) ∧
    (A.mul B).mul C = A.mul (B.mul C) ∧
    Transform3.identity.mul A = A ∧ A.mul Transform3.identity = A ∧
    Transform3.identity.apply v = v := by
  refine ⟨?_, ?_, ?_, ?_, ?_, ?_⟩
  · ext i
    fin_cases i <;>
      simp [V, M, Transform3.apply, Mat3.mulVec] <;> ring
  · ext <;> simp [Transform3.apply, Transform3.mul, Mat3.mulVec, Mat3.mul] <;> ring
  · ext <;> simp [Transform3.mul, Mat3.mulVec, Mat3.mul] <;> ring
  · ext <;> simp [Transform3.identity, Transform3.mul, Mat3.mulVec, Mat3.mul, Mat3.identity]
  · ext <;> simp [Transform3.identity, Transform3.mul, Mat3.mulVec, Mat3.mul, Mat3.identity]
  · ext <;> simp [Transform3.identity, Transform3.apply, Mat3.mulVec, Mat3.identity]

/-- C01 case: a non-rigid transform composed with a translation. -/
example : (Transform3.mul ⟨⟨2, 0, 0, 0, 1, 0, 0, 0, 1⟩, ⟨1, 0, 0⟩⟩ ⟨Mat3.identity, ⟨3, 4, 5⟩⟩).apply
    ⟨1, 1, 1⟩ = ⟨9, 5, 6⟩ := by
  ext <;> norm_num [Transform3.mul, Transform3.apply, Mat3.mul, Mat3.mulVec, Mat3.identity]

/-! ## C02 -/

/-- C02: for a rigid pose the inverse is a two-sided inverse, `inverseTimes` solves `T * U = S`
uniquely, distances are preserved, and rigid poses form a group. -/
theorem C02_rigid_inverse {T : Transform3} (h : Rigid T) :
    T.inverse.mul T = Transform3.identity ∧ T.mul T.inverse = Transform3.identity ∧
    (∀ v, T.inverse.apply (T.apply v) = v) ∧ (∀ v, T.apply (T.inverse.apply v) = v) ∧
    (∀ S U, T.mul U = S ↔ U = T.inverseTimes S) ∧
    (∀ u v, dist (T.apply u) (T.apply v) = dist u v) ∧
    Rigid T.inverse ∧ (∀ S, Rigid S → Rigid (T.mul S)) := by
  obtain ⟨c1, c2, c3, c4, c5, c6⟩ := (orth_iff T.R).mp h
  obtain ⟨r1, r2, r3, r4, r5, r6⟩ := orth_rows h
  have i1 : T.inverse.mul T = Transform3.identity := by
    ext <;> simp [Transform3.inverse, Transform3.mul, Mat3.mul, Mat3.mulVec, Mat3.transpose,
      Transform3.identity, Mat3.identity] <;> linarith
  have i2 : T.mul T.inverse = Transform3.identity := by
    ext <;> simp [Transform3.inverse, Transform3.mul, Mat3.mul, Mat3.mulVec, Mat3.transpose,
      Transform3.identity, Mat3.identity]
    any_goals linarith
    · linear_combination (-T.t.x) * r1 - T.t.y * r4 - T.t.z * r5
    · linear_combination (-T.t.x) * r4 - T.t.y * r2 - T.t.z * r6
    · linear_combination (-T.t.x) * r5 - T.t.y * r6 - T.t.z * r3
  have act : ∀ A B : Transform3, ∀ v, (A.mul B).apply v = A.apply (B.apply v) :=
    fun A B v => (C01_composition A B B v).2.1
  have idm : ∀ A : Transform3, Transform3.identity.mul A = A :=
    fun A => (C01_composition A A A 0).2.2.2.1
  have ida : ∀ v, Transform3.identity.apply v = v := fun v => (C01_composition T T T v).2.2.2.2.2
  have assoc : ∀ A B C : Transform3, (A.mul B).mul C = A.mul (B.mul C) :=
    fun A B C => (C01_composition A B C 0).2.2.1
  refine ⟨i1, i2, ?_, ?_, ?_, ?_, ?_, ?_⟩
  · intro v; rw [← act, i1, ida]
  · intro v; rw [← act, i2, ida]
  · intro S U
    unfold Transform3.inverseTimes
    constructor
    · rintro rfl; rw [← assoc, i1, idm]
    · rintro rfl; rw [← assoc, i2, idm]
  · intro u v; unfold Spec.dist; rw [rigid_apply_sq h]
  · unfold Rigid Orthogonal Transform3.inverse
    simp only [M_transpose, Matrix.transpose_transpose]
    exact orth_transpose_mul h
  · intro S hS
    unfold Rigid Orthogonal Transform3.mul at *
    simp only [M_mul, Matrix.transpose_mul]
    rw [Matrix.mul_assoc, ← Matrix.mul_assoc (M T.R)ᵀ, h, one_mul, hS]

/-- C02 case: a quarter turn with an offset is rigid. -/
example : Rigid ⟨⟨0, -1, 0, 1, 0, 0, 0, 0, 1⟩, ⟨1, 2, 3⟩⟩ := by
  unfold Rigid; rw [orth_iff]; norm_num

/-- C02 caveat: without orthogonality `inverse()` does not undo the transform. -/
theorem C02_nonrigid_inverse_wrong : ∃ (T : Transform3) (v : Vec3),
    (M T.R).det ≠ 0 ∧ T.inverse.apply (T.apply v) ≠ v := by
  refine ⟨⟨⟨2, 0, 0, 0, 1, 0, 0, 0, 1⟩, ⟨0, 0, 0⟩⟩, ⟨1, 0, 0⟩, ?_, ?_⟩
  · rw [det_eq]; norm_num
  · intro h
    have := congrArg Vec3.x h
    norm_num [Transform3.inverse, Transform3.apply, Mat3.mulVec, Mat3.transpose] at this

/-! ## C03 -/

/-- C03: roll/pitch/yaw give the proper rotation `Rz(yaw) Ry(pitch) Rx(roll)`. -/
theorem C03_setRPY (roll pitch yaw : ℝ) :
    M (Mat3.setRPY roll pitch yaw) = Rz yaw * Ry pitch * Rx roll ∧
    Rotation (Mat3.setRPY roll pitch yaw) ∧
    ∀ T : Transform3, (T.setRPY roll pitch yaw).t = T.t ∧
      (T.setRPY roll pitch yaw).R = Mat3.setRPY roll pitch yaw :=
  ⟨setRPY_M roll pitch yaw, setRPY_rotation roll pitch yaw, fun _ => ⟨rfl, rfl⟩⟩

/-- C03 case: a quarter turn about z. -/
example : Mat3.setRPY 0 0 (Real.pi / 2) = ⟨0, -1, 0, 1, 0, 0, 0, 0, 1⟩ := by
  ext <;> simp [Mat3.setRPY]

/-! ## C04 -/

/-- C04 (partial). Full statement: for every proper rotation, `setRPY` of the angles returned by
`getRPY` is the rotation itself. Proved: exactly, for every proper rotation whose pitch is not -π/2
and not within 1e-12 of (but different from) +π/2; and up to 3e-12 per entry in that band.
Missing: pitch = -π/2, where the code is wrong (see `C04_gimbal_lock_wrong`). -/
theorem C04_rpy_roundtrip_partial {T : Transform3} (h : Rotation T.R) (hz : T.R.zx ≠ 1) :
    let a := T.getRPY
    let S := T.setRPY a.1 a.2.1 a.2.2
    (a.2.1 = Real.arcsin (-T.R.zx)) ∧
    ((T.R.zx = -1 ∨ Real.arcsin (-T.R.zx) ≤ Real.pi / 2 - 1e-12) → S = T) ∧
    (∀ i j, |M S.R i j - M T.R i j| ≤ 3e-12) ∧ S.t = T.t := by
  intro a S
  have hsc := pitch_sin_cos h
  have hle := pitch_le (a := T.R)
  rw [abs_le] at hle
  set p := atan2 (-T.R.zx) (Real.sqrt (T.R.zy * T.R.zy + T.R.zz * T.R.zz)) with hp
  have hpe : a.2.1 = p := by
    simp only [a, Transform3.getRPY, ← hp]
    split_ifs <;> rfl
  have harc : p = Real.arcsin (-T.R.zx) := by
    rw [← hsc.1, Real.arcsin_sin (by linarith) hle.2]
  have hS : (T.R.zx = -1 ∨ Real.arcsin (-T.R.zx) ≤ Real.pi / 2 - 1e-12) → S = T := by
    intro hcase
    by_cases h1 : T.R.zx = -1
    · have : p = Real.pi / 2 := by rw [harc, h1, neg_neg, Real.arcsin_one]
      have ha : a = (0, p, atan2 (-T.R.xy) T.R.yy) := by
        simp only [a, Transform3.getRPY, ← hp, this]
        norm_num
      have := rpy_singular h h1
      rw [← hp] at this
      simp only [S, ha, Transform3.setRPY, this]
    · have hle' : p ≤ Real.pi / 2 - 1e-12 := by
        rcases hcase with h' | h'
        · exact absurd h' h1
        · rw [harc]; exact h'
      have ha : a = (atan2 T.R.zy T.R.zz, p, atan2 T.R.yx T.R.xx) := by
        simp only [a, Transform3.getRPY, ← hp]
        rw [if_neg]
        rw [abs_of_nonpos (by norm_num at hle'; linarith)]
        norm_num at hle' ⊢
        linarith
      have := rpy_generic h hz h1
      rw [← hp] at this
      simp only [S, ha, Transform3.setRPY, this]
  refine ⟨hpe.trans harc, hS, ?_, rfl⟩
  by_cases hband : |p - Real.pi / 2| < 1e-12
  · have ha : a = (0, p, atan2 (-T.R.xy) T.R.yy) := by
      simp only [a, Transform3.getRPY, ← hp]
      rw [if_pos hband]
    rw [abs_lt] at hband
    have hc0 : 0 ≤ Real.cos p := Real.cos_nonneg_of_neg_pi_div_two_le_of_le (by linarith) hle.2
    have hcs : Real.cos p ≤ 1e-12 := by
      rw [← Real.sin_pi_div_two_sub]
      exact (Real.sin_le (by linarith)).trans (by linarith)
    have hcc : T.R.zy * T.R.zy + T.R.zz * T.R.zz = Real.cos p * Real.cos p := by
      rw [hsc.2, Real.mul_self_sqrt]
      nlinarith [mul_self_nonneg T.R.zy, mul_self_nonneg T.R.zz]
    have := rpy_near_singular h hc0 (by norm_num at hcs; linarith) hcc
    rw [← hp] at this
    simp only at this
    obtain ⟨b1, b2, b3, b4, b5, b6, b7, b8, b9⟩ := this
    have hSR : S.R = Mat3.setRPY 0 p (atan2 (-T.R.xy) T.R.yy) := by
      simp only [S, ha, Transform3.setRPY]
    rw [hSR]
    have h3 : 3 * Real.cos p ≤ 3e-12 := by norm_num at hcs ⊢; linarith
    intro i j
    fin_cases i <;> fin_cases j <;> simp only [M] <;> refine le_trans ?_ h3 <;> assumption
  · have : S = T := by
      apply hS
      right
      rw [← harc]
      rw [abs_of_nonpos (by linarith)] at hband
      push Not at hband
      linarith
    intro i j
    rw [this]
    norm_num

/-- C04 case: yaw 90 degrees, no pitch; the hypotheses hold and the exact branch applies. -/
example : Rotation ⟨0, -1, 0, 1, 0, 0, 0, 0, 1⟩ ∧ (0 : ℝ) ≠ 1 ∧
    Real.arcsin (-(0 : ℝ)) ≤ Real.pi / 2 - 1e-12 := by
  refine ⟨?_, by norm_num, ?_⟩
  · rw [rotation_iff, orth_iff]; norm_num
  · have := Real.pi_gt_three
    norm_num; linarith

/-- C04 refuted at pitch = -π/2: there is a proper rotation that `getRPY`/`setRPY` does not
reproduce (the singularity check only covers +π/2). -/
theorem C04_gimbal_lock_wrong : ∃ T : Transform3, Rotation T.R ∧
    (T.setRPY T.getRPY.1 T.getRPY.2.1 T.getRPY.2.2).R ≠ T.R := by
  refine ⟨⟨⟨0, -1, 0, 0, 0, -1, 1, 0, 0⟩, ⟨0, 0, 0⟩⟩, ?_, ?_⟩
  · rw [rotation_iff, orth_iff]; norm_num
  · have hR : Rotation (⟨0, -1, 0, 0, 0, -1, 1, 0, 0⟩ : Mat3) := by
      rw [rotation_iff, orth_iff]; norm_num
    have hsc := pitch_sin_cos hR
    simp only at hsc
    have hneg : Real.sqrt ((0 : ℝ) * 0 + 0 * 0) = 0 := by norm_num
    rw [hneg] at hsc
    have hp : atan2 (-1) 0 ≤ 0 := by
      have := Complex.arg_neg_iff (z := ⟨0, -1⟩)
      unfold atan2
      exact (this.mpr (by norm_num)).le
    intro h
    have hxy := congrArg Mat3.xy h
    simp only [Transform3.setRPY, Transform3.getRPY, hneg] at hxy
    rw [if_neg] at hxy
    · simp only [Mat3.setRPY, atan2_zero_zero, Real.sin_zero, Real.cos_zero] at hxy
      norm_num at hxy
    · have := Real.pi_gt_three
      rw [abs_of_nonpos (by linarith)]
      norm_num
      linarith

/-! ## C05 -/

/-- C05: for every proper rotation, `getRotation` takes the root of a number ≥ 1 (so no invalid
operation), returns a unit quaternion, and `setRotation` of it is the matrix. -/
theorem C05_quaternion_roundtrip {T : Transform3} (h : Rotation T.R) :
    1 ≤ T.R.getRotationRadicand ∧
    (let q := T.getQuaternion; q.x ^ 2 + q.y ^ 2 + q.z ^ 2 + q.w ^ 2 = 1) ∧
    Mat3.setRotation T.getQuaternion = T.R := by
  obtain ⟨h1, h2, h3⟩ := getRotation_correct h
  refine ⟨h1, ?_, h3⟩
  unfold Quat.length2 at h2
  simp only [Transform3.getQuaternion]
  linarith

/-- C05 case: half turns about each axis and a mixed one exercise all four branches. -/
example : Rotation ⟨1, 0, 0, 0, -1, 0, 0, 0, -1⟩ ∧ Rotation ⟨-1, 0, 0, 0, 1, 0, 0, 0, -1⟩ ∧
    Rotation ⟨-1, 0, 0, 0, -1, 0, 0, 0, 1⟩ ∧ Rotation ⟨3 / 5, -4 / 5, 0, 4 / 5, 3 / 5, 0, 0, 0, 1⟩ := by
  refine ⟨?_, ?_, ?_, ?_⟩ <;> rw [rotation_iff, orth_iff] <;> norm_num

/-! ## C06 -/

/-- The pure quaternion with imaginary part `v`. (Specification.) -/
def pureQ (v : Vec3) : Quaternion ℝ := ⟨0, v.x, v.y, v.z⟩

/-- A model quaternion as a Mathlib quaternion. (Specification; math_types.h:471-478.) -/
def toQ (q : Quat) : Quaternion ℝ := ⟨q.w, q.x, q.y, q.z⟩

/-- C06: a non-zero quaternion gives a proper rotation, which conjugates by the quaternion
(`R v = q v q⁻¹` in Hamilton's algebra), depends only on the direction of `q`, and reads back as
plus or minus the normalised quaternion. -/
theorem C06_setRotation {q : Quat} (h : q ≠ ⟨0, 0, 0, 0⟩) :
    Rotation (Mat3.setRotation q) ∧
    (∀ v, pureQ ((Mat3.setRotation q).mulVec v) * toQ q = toQ q * pureQ v) ∧
    (∀ s : ℝ, s ≠ 0 → Mat3.setRotation (q.scale s) = Mat3.setRotation q) ∧
    ((Mat3.setRotation q).getRotation = q.normalized ∨
      (Mat3.setRotation q).getRotation = q.normalized.scale (-1)) ∧
    q.normalized.length2 = 1 := by
  refine ⟨setRotation_rotation h, ?_, fun s hs => setRotation_scale q hs,
    getRotation_setRotation h, normalized_length2 h⟩
  intro v
  have hd : q.length2 ≠ 0 := (length2_pos h).ne'
  have hs : 2 / q.length2 * q.length2 = 2 := by field_simp
  unfold Mat3.setRotation
  dsimp only
  generalize 2 / q.length2 = s at *
  obtain ⟨x, y, z, w⟩ := q
  obtain ⟨a, b, c⟩ := v
  simp only [Quat.length2] at hs
  have re : ∀ p r : Quaternion ℝ, p * r = ⟨p.re * r.re - p.imI * r.imI - p.imJ * r.imJ - p.imK * r.imK,
      p.re * r.imI + p.imI * r.re + p.imJ * r.imK - p.imK * r.imJ,
      p.re * r.imJ - p.imI * r.imK + p.imJ * r.re + p.imK * r.imI,
      p.re * r.imK + p.imI * r.imJ - p.imJ * r.imI + p.imK * r.re⟩ := fun p r =>
    Quaternion.ext _ _ (Quaternion.re_mul ..) (Quaternion.imI_mul ..) (Quaternion.imJ_mul ..)
      (Quaternion.imK_mul ..)
  rw [re, re]
  refine Quaternion.ext _ _ ?_ ?_ ?_ ?_
  all_goals simp only [pureQ, toQ, Mat3.mulVec]
  · ring
  · linear_combination (c * y - b * z) * hs
  · linear_combination (a * z - c * x) * hs
  · linear_combination (b * x - a * y) * hs

/-- C06 case. -/
example : (⟨1, 2, 3, 4⟩ : Quat) ≠ ⟨0, 0, 0, 0⟩ := by
  intro h; have := congrArg Quat.x h; norm_num at this

/-! ## C07 -/

/-- C07: planar transforms embed faithfully in 3D and obey the group laws;
`rotation()` recovers the yaw in `(-π, π]`. -/
theorem C07_planar (A B : Transform2) (v : Vec2) :
    A.projectTo3d.projectTo2d = A ∧ v.projectTo3d.projectTo2d = v ∧
    (A.mul B).projectTo3d = A.projectTo3d.mul B.projectTo3d ∧
    (A.apply v).projectTo3d = A.projectTo3d.apply v.projectTo3d ∧
    A.inverse.projectTo3d = A.projectTo3d.inverse ∧
    Transform2.identity.projectTo3d = Transform3.identity ∧
    (A.mul B).apply v = A.apply (B.apply v) ∧
    (Orthogonal2 A.R → A.inverse.mul A = Transform2.identity ∧ A.mul A.inverse = Transform2.identity ∧
      Rigid A.projectTo3d) ∧
    (∀ yaw, Orthogonal2 (A.setRotation yaw).R ∧
      (A.setRotation yaw).projectTo3d.R = Mat3.setRPY 0 0 yaw) ∧
    (∀ yaw, -Real.pi < yaw → yaw ≤ Real.pi → (A.setRotation yaw).rotation = yaw) ∧
    (∀ yaw, ∃ k : ℤ, (A.setRotation yaw).rotation = yaw + k * (2 * Real.pi) ∧
      -Real.pi < (A.setRotation yaw).rotation ∧ (A.setRotation yaw).rotation ≤ Real.pi) := by
  have horth : ∀ a : Mat2, Orthogonal2 a ↔ (a.xx * a.xx + a.yx * a.yx = 1 ∧
      a.xx * a.xy + a.yx * a.yy = 0 ∧ a.xy * a.xy + a.yy * a.yy = 1) := by
    intro a
    unfold Orthogonal2 M2
    rw [← Matrix.ext_iff]
    simp [Fin.forall_fin_succ, Matrix.mul_apply, Fin.sum_univ_succ]
    constructor
    · rintro ⟨⟨h1, h2⟩, h3, h4⟩; exact ⟨h1, h2, h4⟩
    · rintro ⟨h1, h2, h4⟩; exact ⟨⟨h1, h2⟩, by linarith, h4⟩
  have hrot : ∀ yaw, -Real.pi < yaw → yaw ≤ Real.pi → (A.setRotation yaw).rotation = yaw := by
    intro yaw h1 h2
    have := atan2_polar (r := 1) one_pos (θ := yaw) ⟨h1, h2⟩
    simpa [Transform2.rotation, Transform2.setRotation] using this
  refine ⟨rfl, rfl, ?_, ?_, ?_, ?_, ?_, ?_, ?_, hrot, ?_⟩
  · ext <;> simp [Transform2.projectTo3d, Transform2.mul, Transform3.mul, Mat2.projectTo3d,
      Vec2.projectTo3d, Mat2.mul, Mat3.mul, Mat2.mulVec, Mat3.mulVec]
  · ext <;> simp [Transform2.projectTo3d, Transform2.apply, Transform3.apply, Mat2.projectTo3d,
      Vec2.projectTo3d, Mat2.mulVec, Mat3.mulVec]
  · ext <;> simp [Transform2.projectTo3d, Transform2.inverse, Transform3.inverse, Mat2.projectTo3d,
      Vec2.projectTo3d, Mat2.mulVec, Mat3.mulVec, Mat2.transpose, Mat3.transpose]
  · ext <;> simp [Transform2.projectTo3d, Transform2.identity, Transform3.identity,
      Mat2.projectTo3d, Vec2.projectTo3d, Mat2.identity, Mat3.identity]
  · ext <;> simp [Transform2.apply, Transform2.mul, Mat2.mulVec, Mat2.mul] <;> ring
  · intro h
    obtain ⟨h1, h2, h3⟩ := (horth _).mp h
    have ht : Orthogonal2 A.R.transpose := by
      have e : M2 A.R.transpose = (M2 A.R)ᵀ := by
        ext i j; fin_cases i <;> fin_cases j <;> rfl
      unfold Orthogonal2 at *
      rw [e, Matrix.transpose_transpose]
      exact mul_eq_one_comm.mp h
    obtain ⟨g1, g2, g3⟩ := (horth _).mp ht
    simp only [Mat2.transpose] at g1 g2 g3
    refine ⟨?_, ?_, ?_⟩
    · ext <;> simp [Transform2.inverse, Transform2.mul, Mat2.mul, Mat2.mulVec, Mat2.transpose,
        Transform2.identity, Mat2.identity] <;> linarith
    · ext <;> simp [Transform2.inverse, Transform2.mul, Mat2.mul, Mat2.mulVec, Mat2.transpose,
        Transform2.identity, Mat2.identity]
      any_goals linarith
      · linear_combination (-A.t.x) * g1 - A.t.y * g2
      · linear_combination (-A.t.x) * g2 - A.t.y * g3
    · unfold Rigid
      rw [orth_iff]
      simp only [Transform2.projectTo3d, Mat2.projectTo3d]
      refine ⟨?_, ?_, ?_, ?_, ?_, ?_⟩ <;> linarith
  · intro yaw
    constructor
    · rw [horth]
      have := Real.sin_sq_add_cos_sq yaw
      simp only [Transform2.setRotation]
      refine ⟨?_, ?_, ?_⟩ <;> linarith
    · ext <;> simp [Transform2.setRotation, Transform2.projectTo3d, Mat2.projectTo3d, Mat3.setRPY]
  · intro yaw
    obtain ⟨k, hk, -⟩ := existsUnique_add_zsmul_mem_Ioc Real.two_pi_pos yaw (-Real.pi)
    have e : A.setRotation (yaw + k • (2 * Real.pi)) = A.setRotation yaw := by
      simp [Transform2.setRotation]
    simp only [Set.mem_Ioc] at hk
    have hk2 : yaw + k • (2 * Real.pi) ≤ Real.pi := by linarith [hk.2]
    have := hrot _ hk.1 hk2
    rw [e] at this
    refine ⟨k, ?_, ?_, ?_⟩
    · rw [this]; simp
    · rw [this]; exact hk.1
    · rw [this]; exact hk2

/-- C07 case: a planar rotation by the 3-4-5 angle is orthogonal. -/
example : Orthogonal2 ⟨3 / 5, -4 / 5, 4 / 5, 3 / 5⟩ := by
  unfold Orthogonal2 M2
  rw [← Matrix.ext_iff]
  simp [Fin.forall_fin_succ, Matrix.mul_apply, Fin.sum_univ_succ]
  norm_num

/-- C07, remaining laws of C01 and C02 in the plane: associativity, identity, `inverseTimes` as the only solution of
`A * U = S`, distances, and closure of the rigid transforms. -/
theorem C07_laws (A B C : Transform2) (v : Vec2) :
    (A.mul B).mul C = A.mul (B.mul C) ∧ Transform2.identity.mul A = A ∧ A.mul Transform2.identity = A ∧
    Transform2.identity.apply v = v ∧
    (Orthogonal2 A.R → (∀ S U, A.mul U = S ↔ U = A.inverseTimes S) ∧
      (∀ u w, ((A.apply u).x - (A.apply w).x) ^ 2 + ((A.apply u).y - (A.apply w).y) ^ 2 =
        (u.x - w.x) ^ 2 + (u.y - w.y) ^ 2) ∧
      Orthogonal2 A.inverse.R ∧ (Orthogonal2 B.R → Orthogonal2 (A.mul B).R)) := by
  have assoc : ∀ A B C : Transform2, (A.mul B).mul C = A.mul (B.mul C) := by
    intro A B C
    ext <;> simp [Transform2.mul, Mat2.mul, Mat2.mulVec] <;> ring
  have idl : ∀ A : Transform2, Transform2.identity.mul A = A := by
    intro A
    ext <;> simp [Transform2.mul, Transform2.identity, Mat2.identity, Mat2.mul, Mat2.mulVec]
  refine ⟨assoc A B C, idl A, ?_, ?_, ?_⟩
  · ext <;> simp [Transform2.mul, Transform2.identity, Mat2.identity, Mat2.mul, Mat2.mulVec]
  · ext <;> simp [Transform2.apply, Transform2.identity, Mat2.identity, Mat2.mulVec]
  · intro h
    obtain ⟨i1, i2, _⟩ := (C07_planar A B v).2.2.2.2.2.2.2.1 h
    have em : ∀ a b : Mat2, M2 (a.mul b) = M2 a * M2 b := by
      intro a b
      ext i j
      fin_cases i <;> fin_cases j <;> simp [M2, Mat2.mul, Matrix.mul_apply, Fin.sum_univ_succ]
    have et : M2 A.R.transpose = (M2 A.R)ᵀ := by
      ext i j; fin_cases i <;> fin_cases j <;> rfl
    refine ⟨fun S U => ⟨?_, ?_⟩, fun u w => ?_, ?_, fun hB => ?_⟩
    · rintro rfl
      rw [Transform2.inverseTimes, ← assoc, i1, idl]
    · rintro rfl
      rw [Transform2.inverseTimes, ← assoc, i2, idl]
    · have hh := h
      unfold Orthogonal2 M2 at hh
      rw [← Matrix.ext_iff] at hh
      simp [Fin.forall_fin_succ, Matrix.mul_apply, Fin.sum_univ_succ] at hh
      obtain ⟨⟨h1, h2⟩, _, h4⟩ := hh
      simp [Transform2.apply, Mat2.mulVec]
      linear_combination (u.x - w.x) ^ 2 * h1 + 2 * (u.x - w.x) * (u.y - w.y) * h2 + (u.y - w.y) ^ 2 * h4
    · unfold Orthogonal2 at *
      show (M2 A.R.transpose)ᵀ * M2 A.R.transpose = 1
      rw [et, Matrix.transpose_transpose]
      exact mul_eq_one_comm.mp h
    · unfold Orthogonal2 at *
      show (M2 (A.R.mul B.R))ᵀ * M2 (A.R.mul B.R) = 1
      rw [em, Matrix.transpose_mul, Matrix.mul_assoc, ← Matrix.mul_assoc _ (M2 A.R), h, Matrix.one_mul, hB]

/-- C07 case: a quarter turn is orthogonal. -/
example : Orthogonal2 ⟨0, -1, 1, 0⟩ := by
  unfold Orthogonal2 M2
  rw [← Matrix.ext_iff]
  simp [Fin.forall_fin_succ, Matrix.mul_apply, Fin.sum_univ_succ]

/-! ## C08 -/

/-- The legacy vector with the same coordinates. (Specification; matrix.h:82, math_types.h:295.) -/
def toL (v : Vec3) : Legacy.Vector3 := ⟨v.x, v.y, v.z⟩
/-- The legacy matrix with the same entries. (Specification; matrix.h:163, math_types.h:678.) -/
def toLM (m : Mat3) : Legacy.Matrix3x3 :=
  ⟨m.xx, m.xy, m.xz, m.yx, m.yy, m.yz, m.zx, m.zy, m.zz⟩
/-- The legacy transform with the same entries. (Specification; matrix.h:291, math_types.h:890.) -/
def toLT (T : Transform3) : Legacy.Transform := ⟨toLM T.R, toL T.t⟩

/-- C08: each operation of matrix.h agrees with the one of math_types.h. -/
theorem C08_headers_agree (a b : Vec3) (m n : Mat3) (T S : Transform3) (s roll pitch yaw : ℝ) :
    (toL a).add (toL b) = toL (a + b) ∧ (toL a).sub (toL b) = toL (a - b) ∧
    (toL a).mul s = toL (a * s) ∧ (toL a).div s = toL (a / s) ∧ (toL a).neg = toL (-a) ∧
    (toL a).dot (toL b) = a.dot b ∧ (toL a).length = a.length ∧ (toL a).length2 = a.length2 ∧
    (toL a).normalize = toL a.normalized ∧
    (toLM m).mul (toLM n) = toLM (m.mul n) ∧ (toLM m).mulVec (toL a) = toL (m.mulVec a) ∧
    Legacy.Matrix3x3.setRPY roll pitch yaw = toLM (Mat3.setRPY roll pitch yaw) ∧
    (toLT T).apply (toL a) = toL (T.apply a) ∧ (toLT T).mul (toLT S) = toLT (T.mul S) ∧
    (toLT T).inverse = toLT T.inverse ∧
    (toLT T).setRPY roll pitch yaw = toLT (T.setRPY roll pitch yaw) := by
  refine ⟨rfl, rfl, rfl, rfl, rfl, rfl, rfl, rfl, rfl, rfl, rfl, rfl, rfl, rfl, ?_, rfl⟩
  ext <;> simp [toLT, toLM, toL, Legacy.Transform.inverse, Transform3.inverse, Mat3.transpose,
    Mat3.mulVec] <;> ring

/-- C08, rows: `getRow` agrees for the three rows and reads outside the array for any other. -/
theorem C08_rows (m : Mat3) (i : ℕ) :
    (i < 3 → (toLM m).getRow i = .ok (toL (m.getRow i))) ∧ (3 ≤ i → (toLM m).getRow i = .error .ub) := by
  constructor
  · intro h
    interval_cases i <;> rfl
  · intro h
    have : (toLM m).get (i * 3) = .error .ub := by
      unfold Legacy.Matrix3x3.get vget
      rw [List.getElem?_eq_none (by simp; omega)]
    simp [Legacy.Matrix3x3.getRow, this, bind, Except.bind]

/-- C08 case: the two headers invert a pose with an offset identically. -/
example : ((toLT ⟨⟨0, -1, 0, 1, 0, 0, 0, 0, 1⟩, ⟨1, 2, 3⟩⟩).inverse).o = ⟨-2, 1, -3⟩ := by
  ext <;> norm_num [toLT, toLM, toL, Legacy.Transform.inverse]

/-! ## C09 -/

/-- C09: vector laws. -/
theorem C09_vectors (a b : Vec3) (m : Mat3) :
    (V a ≠ 0 → a.normalized.x ^ 2 + a.normalized.y ^ 2 + a.normalized.z ^ 2 = 1 ∧
      ∃ l : ℝ, 0 < l ∧ a = l * a.normalized) ∧
    V (a.cross b) = crossProduct (V a) (V b) ∧ a.dot b = V a ⬝ᵥ V b ∧
    a.dot (a.cross b) = 0 ∧ b.dot (a.cross b) = 0 ∧ b.cross a = -(a.cross b) ∧
    (a.cross b).length2 + a.dot b ^ 2 = a.length2 * b.length2 ∧
    a.length ^ 2 = a.length2 ∧ m.normalize = m.normalized ∧
    ((∀ j, (fun i => M m i j) ≠ 0) → ∀ j, (∑ i, M m.normalize i j ^ 2) = 1) := by
  have hpos : ∀ a : Vec3, V a ≠ 0 → 0 < a.length := by
    intro a ha
    unfold Vec3.length
    apply Real.sqrt_pos.mpr
    by_contra hc
    have hx := mul_self_nonneg a.x
    have hy := mul_self_nonneg a.y
    have hz := mul_self_nonneg a.z
    apply ha
    have h1 : a.x = 0 := mul_self_eq_zero.mp (by linarith)
    have h2 : a.y = 0 := mul_self_eq_zero.mp (by linarith)
    have h3 : a.z = 0 := mul_self_eq_zero.mp (by linarith)
    ext i; fin_cases i <;> simp [V, h1, h2, h3]
  have hsq : ∀ a : Vec3, a.length ^ 2 = a.length2 := by
    intro a
    unfold Vec3.length Vec3.length2
    rw [Real.sq_sqrt]
    nlinarith [mul_self_nonneg a.x, mul_self_nonneg a.y, mul_self_nonneg a.z]
  have hone : ∀ a : Vec3, V a ≠ 0 →
      a.normalized.x ^ 2 + a.normalized.y ^ 2 + a.normalized.z ^ 2 = 1 := by
    intro a ha
    have h1 := hpos a ha
    have h2 := hsq a
    simp only [Vec3.normalized, Vec3.length2] at *
    field_simp
    linarith
  have hnn : m.normalize = m.normalized := rfl
  refine ⟨?_, ?_, ?_, ?_, ?_, ?_, ?_, hsq a, hnn, ?_⟩
  · intro ha
    refine ⟨hone a ha, a.length, hpos a ha, ?_⟩
    have h1 := (hpos a ha).ne'
    ext <;> simp [Vec3.normalized] <;> field_simp
  · ext i; fin_cases i <;> simp [V, crossProduct, Vec3.cross]
  · simp [V, Vec3.dot, dotProduct, Fin.sum_univ_succ]; ring
  · simp [Vec3.dot]; ring
  · simp [Vec3.dot]; ring
  · ext <;> simp <;> ring
  · simp [Vec3.dot, Vec3.length2]; ring
  · intro hcol j
    have h0 := hone ⟨m.xx, m.yx, m.zx⟩ (by
      intro h; apply hcol 0; ext i; have := congrFun h i; fin_cases i <;> simpa [V, M] using this)
    have h1 := hone ⟨m.xy, m.yy, m.zy⟩ (by
      intro h; apply hcol 1; ext i; have := congrFun h i; fin_cases i <;> simpa [V, M] using this)
    have h2 := hone ⟨m.xz, m.yz, m.zz⟩ (by
      intro h; apply hcol 2; ext i; have := congrFun h i; fin_cases i <;> simpa [V, M] using this)
    fin_cases j
    · simp [Fin.sum_univ_succ, M, Mat3.normalize, Mat3.getColumn, Mat3.get]
      simp [Vec3.normalized] at h0; linarith
    · simp [Fin.sum_univ_succ, M, Mat3.normalize, Mat3.getColumn, Mat3.get]
      simp [Vec3.normalized] at h1; linarith
    · simp [Fin.sum_univ_succ, M, Mat3.normalize, Mat3.getColumn, Mat3.get]
      simp [Vec3.normalized] at h2; linarith

/-- C09 case. -/
example : V ⟨3, 4, 0⟩ ≠ 0 ∧ (⟨3, 4, 0⟩ : Vec3).length = 5 := by
  constructor
  · intro h; have := congrFun h 0; norm_num [V] at this
  · simp only [Vec3.length]
    rw [show (3 : ℝ) * 3 + 4 * 4 + 0 * 0 = 5 ^ 2 by norm_num]
    exact Real.sqrt_sq (by norm_num)

/-- C09, for planar vectors and quaternions: the length is the Euclidean one, `normalized()` has length 1 and the same
direction; and the columns of a normalised matrix point the way of the original ones. -/
theorem C09_planar (a : Vec2) (q : Quat) (m : Mat3) :
    (0 ≤ a.length ∧ a.length ^ 2 = a.x ^ 2 + a.y ^ 2 ∧ a.length2 = a.x ^ 2 + a.y ^ 2) ∧
    (a ≠ ⟨0, 0⟩ → a.normalized.x ^ 2 + a.normalized.y ^ 2 = 1 ∧
      ∃ l : ℝ, 0 < l ∧ a.x = l * a.normalized.x ∧ a.y = l * a.normalized.y) ∧
    (0 ≤ q.length ∧ q.length ^ 2 = q.x ^ 2 + q.y ^ 2 + q.z ^ 2 + q.w ^ 2) ∧
    (q ≠ ⟨0, 0, 0, 0⟩ →
      q.normalized.x ^ 2 + q.normalized.y ^ 2 + q.normalized.z ^ 2 + q.normalized.w ^ 2 = 1 ∧
      ∃ l : ℝ, 0 < l ∧ q.x = l * q.normalized.x ∧ q.y = l * q.normalized.y ∧ q.z = l * q.normalized.z ∧
        q.w = l * q.normalized.w) ∧
    ((∀ j, (fun i => M m i j) ≠ 0) → ∀ j, ∃ l : ℝ, 0 < l ∧ ∀ i, M m i j = l * M m.normalize i j) := by
  have ha : a.length ^ 2 = a.x ^ 2 + a.y ^ 2 := by
    unfold Vec2.length
    rw [Real.sq_sqrt (by nlinarith [mul_self_nonneg a.x, mul_self_nonneg a.y])]; ring
  have hq : q.length ^ 2 = q.x ^ 2 + q.y ^ 2 + q.z ^ 2 + q.w ^ 2 := by
    unfold Quat.length
    rw [Real.sq_sqrt (by nlinarith [mul_self_nonneg q.x, mul_self_nonneg q.y, mul_self_nonneg q.z, mul_self_nonneg q.w])]
    ring
  have ha0 : 0 ≤ a.length := Real.sqrt_nonneg _
  have hq0 : 0 ≤ q.length := Real.sqrt_nonneg _
  refine ⟨⟨ha0, ha, by unfold Vec2.length2; ring⟩, ?_, ⟨hq0, hq⟩, ?_, ?_⟩
  · intro hne
    have hp : 0 < a.length := by
      refine lt_of_le_of_ne ha0 fun h => hne ?_
      rw [← h] at ha
      have h1 : a.x = 0 := pow_eq_zero_iff (two_ne_zero) |>.mp (by nlinarith [sq_nonneg a.x, sq_nonneg a.y])
      have h2 : a.y = 0 := pow_eq_zero_iff (two_ne_zero) |>.mp (by nlinarith [sq_nonneg a.x, sq_nonneg a.y])
      ext <;> simp [h1, h2]
    refine ⟨?_, a.length, hp, ?_, ?_⟩
    · simp only [Vec2.normalized]; field_simp; linarith
    · simp only [Vec2.normalized]; field_simp
    · simp only [Vec2.normalized]; field_simp
  · intro hne
    have hp : 0 < q.length := by
      refine lt_of_le_of_ne hq0 fun h => hne ?_
      rw [← h] at hq
      have s1 := sq_nonneg q.x; have s2 := sq_nonneg q.y; have s3 := sq_nonneg q.z; have s4 := sq_nonneg q.w
      have h1 : q.x = 0 := pow_eq_zero_iff (two_ne_zero) |>.mp (by linarith)
      have h2 : q.y = 0 := pow_eq_zero_iff (two_ne_zero) |>.mp (by linarith)
      have h3 : q.z = 0 := pow_eq_zero_iff (two_ne_zero) |>.mp (by linarith)
      have h4 : q.w = 0 := pow_eq_zero_iff (two_ne_zero) |>.mp (by linarith)
      ext <;> simp [h1, h2, h3, h4]
    refine ⟨?_, q.length, hp, ?_, ?_, ?_, ?_⟩
    · simp only [Quat.normalized]; field_simp; linarith
    all_goals simp only [Quat.normalized]; field_simp
  · intro hcol j
    have key : ∀ x y z : ℝ, ¬ (x = 0 ∧ y = 0 ∧ z = 0) → 0 < (⟨x, y, z⟩ : Vec3).length := by
      intro x y z h
      unfold Vec3.length
      apply Real.sqrt_pos.mpr
      by_contra hc
      have hx := mul_self_nonneg x
      have hy := mul_self_nonneg y
      have hz := mul_self_nonneg z
      simp only at hc
      exact h ⟨mul_self_eq_zero.mp (by linarith), mul_self_eq_zero.mp (by linarith), mul_self_eq_zero.mp (by linarith)⟩
    have hj := hcol j
    fin_cases j
    · have hp := key m.xx m.yx m.zx (fun h => hj (by ext i; fin_cases i <;> simp [M, h]))
      refine ⟨_, hp, fun i => ?_⟩
      fin_cases i <;> simp [M, Mat3.normalize, Mat3.getColumn, Mat3.get] <;> field_simp
    · have hp := key m.xy m.yy m.zy (fun h => hj (by ext i; fin_cases i <;> simp [M, h]))
      refine ⟨_, hp, fun i => ?_⟩
      fin_cases i <;> simp [M, Mat3.normalize, Mat3.getColumn, Mat3.get] <;> field_simp
    · have hp := key m.xz m.yz m.zz (fun h => hj (by ext i; fin_cases i <;> simp [M, h]))
      refine ⟨_, hp, fun i => ?_⟩
      fin_cases i <;> simp [M, Mat3.normalize, Mat3.getColumn, Mat3.get] <;> field_simp

/-- C09 case. -/
example : (⟨3, -4⟩ : Vec2) ≠ ⟨0, 0⟩ ∧ (⟨1, 2, 3, 4⟩ : Quat) ≠ ⟨0, 0, 0, 0⟩ ∧
    ∀ j, (fun i => M ⟨0, 2, 0, -3, 0, 0, 0, 0, 5⟩ i j) ≠ 0 := by
  refine ⟨fun h => ?_, fun h => ?_, fun j h => ?_⟩
  · have := congrArg Vec2.x h; norm_num at this
  · have := congrArg Quat.x h; norm_num at this
  · fin_cases j
    · have := congrFun h 1; norm_num [M] at this
    · have := congrFun h 0; norm_num [M] at this
    · have : (5 : ℝ) = 0 := congrFun h 2
      norm_num at this

end Geo
