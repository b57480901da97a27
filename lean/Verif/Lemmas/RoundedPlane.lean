import Verif.Model.RoundedPlane
import Verif.Spec.RoundedPlane
import Verif.Spec.RoundedLaser
import Verif.Lemmas.Rounded
import Verif.Lemmas.RoundedAngles

/-! # Helper lemmas about poses in the plane in floating point arithmetic -/

namespace Geo.RoundedPlane
open Spec Matrix Rounded

variable {u v δ : ℝ} {rnd : ℝ → ℝ} {F : FloatLib}

theorem rnd_zero (h : RelErr u rnd) : rnd 0 = 0 := by
  have := h 0
  simpa using this

theorem dot3_plane (h : RelErr u rnd) (hi : Idempotent rnd) (a b x y : ℝ) : dot3 rnd a b 0 x y 0 = dot2 rnd a b x y := by
  unfold dot3 dot2
  rw [mul_zero, rnd_zero h, add_zero, hi.2]

theorem apply_plane (h : RelErr u rnd) (hi : Idempotent rnd) (T : Transform2) (p : Vec2) :
    (apply rnd T p).projectTo3d = Rounded.apply rnd T.projectTo3d p.projectTo3d := by
  have z := rnd_zero h
  ext
  · exact congrArg (fun x => rnd (x + T.t.x)) (dot3_plane h hi _ _ _ _).symm
  · exact congrArg (fun x => rnd (x + T.t.y)) (dot3_plane h hi _ _ _ _).symm
  · simp [Rounded.apply, Rounded.add, Rounded.mulVec, dot3, Transform2.projectTo3d, Mat2.projectTo3d, Vec2.projectTo3d, z]

theorem mul_plane (h : RelErr u rnd) (hi : Idempotent rnd) (T S : Transform2) :
    (mul rnd T S).projectTo3d = Rounded.mul rnd T.projectTo3d S.projectTo3d := by
  have z := rnd_zero h
  have t := apply_plane h hi T S.t
  have d := dot3_plane h hi
  unfold mul Rounded.mul Transform2.projectTo3d
  rw [Transform3.mk.injEq]
  refine ⟨?_, t⟩
  ext <;> simp [Mat2.projectTo3d, mulMat, Rounded.mulMat, z, hi.1, dot3, dot2, hi.2]

theorem inverse_plane (h : RelErr u rnd) (hi : Idempotent rnd) (T : Transform2) :
    (inverse rnd T).projectTo3d = Rounded.inverse rnd T.projectTo3d := by
  have z := rnd_zero h
  have d := dot3_plane h hi
  unfold inverse Rounded.inverse Transform2.projectTo3d
  rw [Transform3.mk.injEq]
  constructor
  · ext <;> simp [Mat2.projectTo3d, Mat2.transpose, Mat3.transpose]
  · ext <;> simp [Vec2.projectTo3d, Mat2.projectTo3d, Mat3.transpose, Mat2.transpose, mulVec, Rounded.mulVec, dot3, dot2, z, hi.2]

theorem near_plane {R : Mat2} (hR : NearlyOrthogonal2 δ R) : NearlyOrthogonal δ R.projectTo3d := by
  obtain ⟨h1, h2, h3⟩ := hR
  have h0 : 0 ≤ δ := (abs_nonneg _).trans h1
  intro i j
  fin_cases i <;> fin_cases j <;>
    simp [Matrix.mul_apply, Fin.sum_univ_three, M, Mat2.projectTo3d, h0]
  · rw [← pow_two, ← pow_two]; exact h1
  · exact h3
  · rw [mul_comm R.xy, mul_comm R.yy]; exact h3
  · rw [← pow_two, ← pow_two]; exact h2

theorem plane_near {R : Mat2} (hR : NearlyOrthogonal δ R.projectTo3d) : NearlyOrthogonal2 δ R := by
  have a := hR 0 0
  have b := hR 1 1
  have c := hR 0 1
  simp only [Matrix.sub_apply, Matrix.mul_apply, Fin.sum_univ_three, M, Mat2.projectTo3d] at a b c
  simp at a b c
  rw [← pow_two, ← pow_two] at a b
  exact ⟨a, b, c⟩

theorem len_plane (p : Vec2) : len (V p.projectTo3d) = norm2 p := by
  simp [len, norm2, V, Fin.sum_univ_three, Vec2.projectTo3d]

theorem len_sub_plane (p q : Vec2) : len (V p.projectTo3d - V q.projectTo3d) = dist2 p q := by
  simp [len, dist2, V, Fin.sum_univ_three, Vec2.projectTo3d]

theorem mulVec_plane (T : Transform2) (p : Vec2) : M T.projectTo3d.R *ᵥ V p.projectTo3d + V T.projectTo3d.t = V (T.apply p).projectTo3d := by
  funext i
  fin_cases i <;> simp [M, V, Transform2.projectTo3d, Mat2.projectTo3d, Vec2.projectTo3d,
    Transform2.apply, Mat2.mulVec] <;> ring

/-- The matrix of an angle. -/
theorem set_near (hF : Accurate u v F) (hu : u ≤ 1 / 1000) (T : Transform2) (a : ℝ) : NearlyOrthogonal2 (9 * u) (setRotation F T a).R := by
  have hu0 := relErr_nonneg hF.rnd
  have hc := hF.cos a
  have hs := hF.sin a
  have one := Real.sin_sq_add_cos_sq a
  have sq : ∀ x x' : ℝ, |x' - x| ≤ 2 * u → |x| ≤ 1 → |x' ^ 2 - x ^ 2| ≤ 4.01 * u := by
    intro x x' h1 h2
    have h3 : |x' + x| ≤ 2 + 2 * u := by
      rw [show x' + x = (x' - x) + 2 * x by ring]
      have := abs_add_le (x' - x) (2 * x)
      rw [abs_mul, abs_of_pos (show (0 : ℝ) < 2 by norm_num)] at this
      linarith
    rw [show x' ^ 2 - x ^ 2 = (x' - x) * (x' + x) by ring, abs_mul]
    have := mul_le_mul h1 h3 (abs_nonneg _) (by positivity)
    have : u * u ≤ 1 / 1000 * u := mul_le_mul_of_nonneg_right hu hu0
    linarith
  have e1 := abs_le.1 (sq _ _ hc (Real.abs_cos_le_one a))
  have e2 := abs_le.1 (sq _ _ hs (Real.abs_sin_le_one a))
  refine ⟨?_, ?_, ?_⟩
  · show |F.cos a ^ 2 + F.sin a ^ 2 - 1| ≤ _
    rw [abs_le]
    constructor <;> linarith
  · show |(-F.sin a) ^ 2 + F.cos a ^ 2 - 1| ≤ _
    rw [neg_sq, abs_le]
    constructor <;> linarith
  · show |F.cos a * -F.sin a + F.sin a * F.cos a| ≤ _
    rw [show F.cos a * -F.sin a + F.sin a * F.cos a = 0 by ring, abs_zero]
    positivity

/-- The angle of a nearby direction. -/
theorem angle_near (hF : Accurate u v F) {a x y k : ℝ} (hx : |x - Real.cos a| ≤ k * u) (hy : |y - Real.sin a| ≤ k * u) (hk : 2 * (k * u) < 1) :
    |Real.cos (F.atan2 y x) - Real.cos a| ≤ (3 * k + 6.3) * u ∧ |Real.sin (F.atan2 y x) - Real.sin a| ≤ (3 * k + 6.3) * u := by
  have hu0 := relErr_nonneg hF.rnd
  have one : Real.cos a * Real.cos a + Real.sin a * Real.sin a = 1 := by
    have := Real.sin_sq_add_cos_sq a
    linarith
  have n : Real.sqrt (Real.cos a * Real.cos a + Real.sin a * Real.sin a) = 1 := by rw [one, Real.sqrt_one]
  obtain ⟨a1, a2⟩ := RoundedAngles.atan_near (c := 1) one_pos n.ge hx hy hk
  have e1 : Real.cos (atan2 (Real.sin a) (Real.cos a)) = Real.cos a ∧ Real.sin (atan2 (Real.sin a) (Real.cos a)) = Real.sin a := by
    have hz : ‖(⟨Real.cos a, Real.sin a⟩ : ℂ)‖ = 1 := by
      rw [Complex.norm_eq_sqrt_sq_add_sq, ← n]
      congr 1
      ring
    have h0 : (⟨Real.cos a, Real.sin a⟩ : ℂ) ≠ 0 := by
      intro h
      rw [h, norm_zero] at hz
      exact zero_ne_one hz
    unfold atan2
    rw [Complex.cos_arg h0, Complex.sin_arg, hz, div_one, div_one]
    exact ⟨rfl, rfl⟩
  rw [e1.1] at a1
  rw [e1.2] at a2
  have b : |F.atan2 y x - atan2 y x| ≤ 6.3 * u := by
    refine (hF.atan2 y x).trans ?_
    have h1 : |atan2 y x| ≤ 3.15 := (Complex.abs_arg_le_pi _).trans Real.pi_lt_d2.le
    have := mul_le_mul_of_nonneg_left h1 hu0
    linarith
  constructor
  · refine (abs_sub_le _ (Real.cos (atan2 y x)) _).trans ?_
    have := Real.abs_cos_sub_cos_le (F.atan2 y x) (atan2 y x)
    linarith
  · refine (abs_sub_le _ (Real.sin (atan2 y x)) _).trans ?_
    have := Real.abs_sin_sub_sin_le (F.atan2 y x) (atan2 y x)
    linarith

/-- An entry of the product of two rotations. -/
theorem entry_near {u : ℝ} {rnd : ℝ → ℝ} (h : RelErr u rnd) (hu : u ≤ 1 / 1000) {a b c d a' b' c' d' : ℝ} (ha : |a' - a| ≤ 2 * u)
    (hb : |b' - b| ≤ 2 * u) (hc : |c' - c| ≤ 2 * u) (hd : |d' - d| ≤ 2 * u) (ma : |a| ≤ 1) (mb : |b| ≤ 1) (mc : |c| ≤ 1)
    (md : |d| ≤ 1) (m : |a * c + b * d| ≤ 1) : |dot2 rnd a' b' c' d' - (a * c + b * d)| ≤ 12 * u := by
  have hu0 := relErr_nonneg h
  have p1 := RoundedAngles.prd h hu (s := 2) (t := 2) (by norm_num) (by norm_num) (by norm_num) ma mc ha hc
  have p2 := RoundedAngles.prd h hu (s := 2) (t := 2) (by norm_num) (by norm_num) (by norm_num) mb md hb hd
  have s : |rnd (a' * c') + rnd (b' * d') - (a * c + b * d)| ≤ 10.1 * u := by
    rw [show rnd (a' * c') + rnd (b' * d') - (a * c + b * d) = (rnd (a' * c') - a * c) + (rnd (b' * d') - b * d) by ring]
    have := abs_add_le (rnd (a' * c') - a * c) (rnd (b' * d') - b * d)
    linarith
  have := RoundedAngles.stp h hu (by norm_num) s m
  unfold dot2
  linarith

theorem dist2_triangle (p q r : Vec2) : dist2 p r ≤ dist2 p q + dist2 q r := by
  rw [← len_sub_plane, ← len_sub_plane, ← len_sub_plane]
  have := len_add (V p.projectTo3d - V q.projectTo3d) (V q.projectTo3d - V r.projectTo3d)
  rwa [sub_add_sub_cancel] at this

/-- Turning with sine and cosine slightly off. -/
theorem turned_near (hF : Accurate u v F) (a : ℝ) (t p : Vec2) :
    dist2 ((setRotation F ⟨Mat2.identity, t⟩ a).apply p) (turned a t p) ≤ 4 * u * norm2 p := by
  have hu0 := relErr_nonneg hF.rnd
  have hc := hF.cos a
  have hs := hF.sin a
  set c := F.cos a - Real.cos a with hcd
  set s := F.sin a - Real.sin a with hsd
  have e : dist2 ((setRotation F ⟨Mat2.identity, t⟩ a).apply p) (turned a t p) = Real.sqrt ((c ^ 2 + s ^ 2) * (p.x ^ 2 + p.y ^ 2)) := by
    unfold dist2
    congr 1
    have ex : ((setRotation F ⟨Mat2.identity, t⟩ a).apply p).x = F.cos a * p.x + -F.sin a * p.y + t.x := rfl
    have ey : ((setRotation F ⟨Mat2.identity, t⟩ a).apply p).y = F.sin a * p.x + F.cos a * p.y + t.y := rfl
    rw [ex, ey, hcd, hsd]
    unfold turned
    ring
  rw [e, Real.sqrt_mul (by positivity)]
  have h : Real.sqrt (c ^ 2 + s ^ 2) ≤ 4 * u := by
    apply Real.sqrt_le_iff.2
    refine ⟨by positivity, ?_⟩
    have h1 : c ^ 2 ≤ (2 * u) ^ 2 := sq_le_sq' (by linarith [(abs_le.1 hc).1]) (abs_le.1 hc).2
    have h2 : s ^ 2 ≤ (2 * u) ^ 2 := sq_le_sq' (by linarith [(abs_le.1 hs).1]) (abs_le.1 hs).2
    nlinarith [sq_nonneg u]
  exact mul_le_mul_of_nonneg_right h (Real.sqrt_nonneg _)

end Geo.RoundedPlane
