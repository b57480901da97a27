import Verif.Lemmas.RoundedPlane
import Verif.Lemmas.RoundedCamera
import Verif.Lemmas.RoundedOctree
import Verif.Props.Rounded
import Verif.Props.RoundedLaser

/-!
# C132: poses in the plane in floating point arithmetic
-/

namespace Geo
open Spec RoundedPlane Matrix

variable {F : FloatLib} {u v : ℝ} {rnd : ℝ → ℝ}

/-- C132. With exact operations the functions are those of `Model/Math`. -/
theorem C132_exact (T S : Transform2) (p : Vec2) (a : ℝ) :
    RoundedPlane.apply id T p = T.apply p ∧ RoundedPlane.mul id T S = T.mul S ∧ RoundedPlane.inverse id T = T.inverse ∧
    RoundedPlane.inverseTimes id T S = T.inverseTimes S ∧ RoundedPlane.setRotation .exact T a = T.setRotation a ∧
    RoundedPlane.rotation .exact T = T.rotation :=
  ⟨rfl, rfl, rfl, rfl, rfl, rfl⟩

/-- C132. With rounding, too, the plane is a plane of space: the functions of `Transform2` give, to the last bit, what those of
`Transform3` give for the embedded poses and points. -/
theorem C132_planar (h : RelErr u rnd) (hi : Idempotent rnd) (T S : Transform2) (p : Vec2) :
    (RoundedPlane.apply rnd T p).projectTo3d = Rounded.apply rnd T.projectTo3d p.projectTo3d ∧
    (RoundedPlane.mul rnd T S).projectTo3d = Rounded.mul rnd T.projectTo3d S.projectTo3d ∧
    (RoundedPlane.inverse rnd T).projectTo3d = Rounded.inverse rnd T.projectTo3d ∧
    (RoundedPlane.inverseTimes rnd T S).projectTo3d = Rounded.mul rnd (Rounded.inverse rnd T.projectTo3d) S.projectTo3d := by
  refine ⟨apply_plane h hi T p, mul_plane h hi T S, inverse_plane h hi T, ?_⟩
  unfold RoundedPlane.inverseTimes
  rw [mul_plane h hi, inverse_plane h hi]

/-- C132. Applying a pose. The matrix need only be nearly orthogonal. -/
theorem C132_apply (h : RelErr u rnd) (hi : Idempotent rnd) (hu : u ≤ 1 / 1000) {δ : ℝ} (hδ : δ ≤ 1 / 10) {T : Transform2}
    (hT : NearlyOrthogonal2 δ T.R) (p : Vec2) :
    dist2 (RoundedPlane.apply rnd T p) (T.apply p) ≤ 8 * u * (norm2 p + norm2 T.t) := by
  have := C93_apply h hu hδ (T := T.projectTo3d) (near_plane hT) p.projectTo3d
  rw [← apply_plane h hi, mulVec_plane, len_sub_plane, len_plane] at this
  exact this.trans (le_of_eq (by rw [← len_plane T.t]; rfl))

/-- C132. Composing poses. The image of a point under the computed pose is near the image of its image, and the computed matrix
is nearly orthogonal again. -/
theorem C132_compose (h : RelErr u rnd) (hi : Idempotent rnd) (hu : u ≤ 1 / 1000) {δ ε : ℝ} (hδ : δ ≤ 1 / 10) (hε : ε ≤ 1 / 10)
    {T S : Transform2} (hT : NearlyOrthogonal2 δ T.R) (hS : NearlyOrthogonal2 ε S.R) :
    (∀ p, dist2 ((RoundedPlane.mul rnd T S).apply p) (T.apply (S.apply p)) ≤
      11 * u * norm2 p + 8 * u * (norm2 S.t + norm2 T.t)) ∧
    NearlyOrthogonal2 (3.3 * δ + ε + 23 * u) (RoundedPlane.mul rnd T S).R := by
  obtain ⟨h1, h2⟩ := C93_compose h hu hδ hε (T := T.projectTo3d) (S := S.projectTo3d) (near_plane hT) (near_plane hS)
  rw [← mul_plane h hi] at h1 h2
  refine ⟨fun p => ?_, plane_near h2⟩
  have := h1 (V p.projectTo3d)
  rw [mulVec_plane, mulVec_plane, mulVec_plane, len_sub_plane, len_plane] at this
  exact this.trans (le_of_eq (by rw [← len_plane T.t, ← len_plane S.t]; rfl))

/-- C132. There and back. -/
theorem C132_inverse (h : RelErr u rnd) (hi : Idempotent rnd) (hu : u ≤ 1 / 1000) {δ : ℝ} (hδ : δ ≤ 1 / 10) {T : Transform2}
    (hT : NearlyOrthogonal2 δ T.R) (p : Vec2) :
    dist2 (RoundedPlane.apply rnd (RoundedPlane.inverse rnd T) (RoundedPlane.apply rnd T p)) p ≤
      43 * u * (norm2 p + norm2 T.t) + 3 * δ * norm2 p := by
  have := C93_inverse h hu hδ (T := T.projectTo3d) (near_plane hT) p.projectTo3d
  rw [← apply_plane h hi, ← inverse_plane h hi, ← apply_plane h hi, len_sub_plane, len_plane] at this
  exact this.trans (le_of_eq (by rw [← len_plane T.t]; rfl))

/-- C132. A pose made from an angle: the matrix is nearly orthogonal; points are turned by the angle; reading the angle back
gives the direction of the angle. -/
theorem C132_rotation (hF : Accurate u v F) (hi : Idempotent F.rnd) (hu : u ≤ 1 / 1000) (a : ℝ) (t p : Vec2) :
    NearlyOrthogonal2 (9 * u) (RoundedPlane.setRotation F ⟨Mat2.identity, t⟩ a).R ∧
    dist2 (RoundedPlane.apply F.rnd (RoundedPlane.setRotation F ⟨Mat2.identity, t⟩ a) p) (turned a t p) ≤
      12 * u * (norm2 p + norm2 t) ∧
    |Real.cos (RoundedPlane.rotation F (RoundedPlane.setRotation F ⟨Mat2.identity, t⟩ a)) - Real.cos a| ≤ 12.3 * u ∧
    |Real.sin (RoundedPlane.rotation F (RoundedPlane.setRotation F ⟨Mat2.identity, t⟩ a)) - Real.sin a| ≤ 12.3 * u := by
  have hu0 := Rounded.relErr_nonneg hF.rnd
  have n := set_near hF hu ⟨Mat2.identity, t⟩ a
  have b := C132_apply hF.rnd hi hu (by linarith) n p
  have c := turned_near hF a t p
  have d := dist2_triangle (RoundedPlane.apply F.rnd (RoundedPlane.setRotation F ⟨Mat2.identity, t⟩ a) p)
    ((RoundedPlane.setRotation F ⟨Mat2.identity, t⟩ a).apply p) (turned a t p)
  have e := angle_near hF (hF.cos a) (hF.sin a) (by linarith)
  have b' : dist2 (RoundedPlane.apply F.rnd (RoundedPlane.setRotation F ⟨Mat2.identity, t⟩ a) p)
    ((RoundedPlane.setRotation F ⟨Mat2.identity, t⟩ a).apply p) ≤ 8 * u * (norm2 p + norm2 t) := b
  have nt := mul_nonneg hu0 (show 0 ≤ norm2 t from Real.sqrt_nonneg _)
  refine ⟨n, by linarith, e.1.trans (by linarith), e.2.trans (by linarith)⟩

/-- C132. The angle of a composition is the sum of the angles. -/
theorem C132_sum (hF : Accurate u v F) (hu : u ≤ 1 / 1000) (a b : ℝ) (t s : Vec2) :
    |Real.cos (RoundedPlane.rotation F (RoundedPlane.mul F.rnd (RoundedPlane.setRotation F ⟨Mat2.identity, t⟩ a)
      (RoundedPlane.setRotation F ⟨Mat2.identity, s⟩ b))) - Real.cos (a + b)| ≤ 42.3 * u ∧
    |Real.sin (RoundedPlane.rotation F (RoundedPlane.mul F.rnd (RoundedPlane.setRotation F ⟨Mat2.identity, t⟩ a)
      (RoundedPlane.setRotation F ⟨Mat2.identity, s⟩ b))) - Real.sin (a + b)| ≤ 42.3 * u := by
  have hu0 := Rounded.relErr_nonneg hF.rnd
  have ns : |-F.sin a - -Real.sin a| ≤ 2 * u := by
    rw [neg_sub_neg, abs_sub_comm]
    exact hF.sin a
  have ca := Real.abs_cos_le_one a
  have sa := Real.abs_sin_le_one a
  have cb := Real.abs_cos_le_one b
  have sb := Real.abs_sin_le_one b
  have ec : Real.cos a * Real.cos b + -Real.sin a * Real.sin b = Real.cos (a + b) := by rw [Real.cos_add]; ring
  have es : Real.sin a * Real.cos b + Real.cos a * Real.sin b = Real.sin (a + b) := (Real.sin_add a b).symm
  have e1 := entry_near hF.rnd hu (hF.cos a) ns (hF.cos b) (hF.sin b) ca (by rwa [abs_neg]) cb sb (by rw [ec]; exact Real.abs_cos_le_one _)
  have e2 := entry_near hF.rnd hu (hF.sin a) (hF.cos a) (hF.cos b) (hF.sin b) sa ca cb sb (by rw [es]; exact Real.abs_sin_le_one _)
  rw [ec] at e1
  rw [es] at e2
  have := angle_near hF e1 e2 (by linarith)
  exact ⟨this.1.trans (by linarith), this.2.trans (by linarith)⟩

/-- Double precision meets the hypotheses on the rounding. -/
theorem C132_double : Idempotent doubleLib.rnd := by
  refine ⟨?_, toDouble_idem⟩
  have := toDouble_eq (x := 1) (-52) (m := 2 ^ 52) (by norm_num) (by norm_num) (by norm_num)
  show toDouble 1 = 1
  rw [this]; norm_num

/-- A robot at (3, 4) looking along `a`, in `double`: a point 12 m away from it goes to the map and back with an error below a
picometre. -/
example (a : ℝ) : dist2 (RoundedPlane.apply toDouble (RoundedPlane.inverse toDouble (RoundedPlane.setRotation doubleLib ⟨Mat2.identity, ⟨3, 4⟩⟩ a))
    (RoundedPlane.apply toDouble (RoundedPlane.setRotation doubleLib ⟨Mat2.identity, ⟨3, 4⟩⟩ a) ⟨12, 0⟩)) ⟨12, 0⟩ ≤ 1 / 10 ^ 12 := by
  have n := (C132_rotation C121_library C132_double (by norm_num) a ⟨3, 4⟩ ⟨12, 0⟩).1
  have := C132_inverse C93_roundings.1 C132_double (by norm_num) (by norm_num) n ⟨12, 0⟩
  have e1 : norm2 ⟨12, 0⟩ = 12 := by
    unfold norm2
    rw [show ((12 : ℝ) ^ 2 + 0 ^ 2) = 12 ^ 2 by norm_num, Real.sqrt_sq (by norm_num)]
  have e2 : norm2 ⟨3, 4⟩ = 5 := by
    unfold norm2
    rw [show ((3 : ℝ) ^ 2 + 4 ^ 2) = 5 ^ 2 by norm_num, Real.sqrt_sq (by norm_num)]
  have e3 : norm2 (RoundedPlane.setRotation doubleLib ⟨Mat2.identity, ⟨3, 4⟩⟩ a).t = 5 := e2
  rw [e1, e3] at this
  exact this.trans (by norm_num)

end Geo
