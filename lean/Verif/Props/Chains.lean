import Verif.Lemmas.Chains
import Verif.Props.Rounded

/-!
# Long chains of poses in floating point arithmetic (C98)
-/

namespace Geo

open Spec Matrix Rounded

/-- C98: the product of `n` poses whose matrices are within `e` of rotations is, for every point, within `n (11 u + 2 e)` of its
distance plus `n (20 u + 2 e)` of the length of the way from where the true motions take the point, and its matrix is nearly
orthogonal: the error grows linearly with the number of poses. -/
theorem C98_chain {u e : ℝ} {rnd : ℝ → ℝ} (h : RelErr u rnd) (hu : u ≤ 1 / 1000) (he : 0 ≤ e) {l : List (Transform3 × Transform3)}
    (hl : Follows e l) (hn : l.length * (11 * u + 2 * e) ≤ 1 / 30) :
    (∀ f, len ((M (computed rnd l).R *ᵥ f + V (computed rnd l).t) - motion l f) ≤
      l.length * (11 * u + 2 * e) * len f + l.length * (20 * u + 2 * e) * way l) ∧
    NearlyOrthogonal (2.1 * (l.length * (11 * u + 2 * e))) (computed rnd l).R := by
  obtain ⟨h1, -, h3, h4⟩ := Chains.chain h hu he hl hn
  have hu0 := relErr_nonneg h
  refine ⟨fun f => ?_, Chains.near_orthogonal h3 h1 (by positivity) hn⟩
  rw [Chains.motion_eq]
  have ex : (M (computed rnd l).R *ᵥ f + V (computed rnd l).t) - (M (Chains.exact l).R *ᵥ f + V (Chains.exact l).t) =
      (M (computed rnd l).R *ᵥ f - M (Chains.exact l).R *ᵥ f) + (V (computed rnd l).t - V (Chains.exact l).t) := by
    abel
  rw [ex]
  exact (len_add _ _).trans (add_le_add (h3 f) h4)

/-- C98: poses made from quaternions, in `double`. After up to 2^40 compositions the product misses the true place of a point by
at most `n 2⁻⁴⁵` of its distance and of the length of the way, and its matrix is orthogonal up to `n 2⁻⁴⁴`. -/
theorem C98_quaternions (l : List (Quat × Vec3)) (hq : ∀ x ∈ l, x.1 ≠ ⟨0, 0, 0, 0⟩) (hn : l.length ≤ 2 ^ 40) :
    let steps := l.map fun x => ((⟨Rounded.setRotation toDouble x.1, x.2⟩, ⟨Mat3.setRotation x.1, x.2⟩) : Transform3 × Transform3)
    (∀ f, len ((M (computed toDouble steps).R *ᵥ f + V (computed toDouble steps).t) - motion steps f) ≤
      l.length / 2 ^ 45 * (len f + way steps)) ∧
    NearlyOrthogonal (l.length / 2 ^ 44) (computed toDouble steps).R := by
  intro steps
  have hf : Follows (57 * (1 / 2 ^ 53)) steps := by
    intro x hx
    obtain ⟨y, hy, rfl⟩ := List.mem_map.1 hx
    exact ⟨(setRotation_rotation (hq y hy)).1, rfl, Chains.near_quaternion C93_roundings.1 (by norm_num) (hq y hy)⟩
  have hlen : steps.length = l.length := List.length_map _
  have hn' : (l.length : ℝ) ≤ 2 ^ 40 := by exact_mod_cast hn
  have hn0 : (0 : ℝ) ≤ l.length := Nat.cast_nonneg _
  obtain ⟨h1, h2⟩ := C98_chain C93_roundings.1 (by norm_num) (by norm_num) hf (by rw [hlen]; linarith)
  rw [hlen] at h1 h2
  refine ⟨fun f => (h1 f).trans ?_, fun i j => (h2 i j).trans ?_⟩
  · have k1 := mul_nonneg hn0 (len_nonneg f)
    have k2 := mul_nonneg hn0 (Chains.way_nonneg steps)
    have e1 : (l.length : ℝ) * (11 * (1 / 2 ^ 53) + 2 * (57 * (1 / 2 ^ 53))) * len f = 125 / 2 ^ 53 * (l.length * len f) := by ring
    have e2 : (l.length : ℝ) * (20 * (1 / 2 ^ 53) + 2 * (57 * (1 / 2 ^ 53))) * way steps =
        134 / 2 ^ 53 * (l.length * way steps) := by ring
    have e3 : (l.length : ℝ) / 2 ^ 45 * (len f + way steps) = 256 / 2 ^ 53 * (l.length * len f) +
        256 / 2 ^ 53 * (l.length * way steps) := by ring
    rw [e1, e2, e3]
    linarith
  · linarith

/-- C98 case: a thousand quarter turns about the vertical axis with steps of one metre. -/
example : (∀ x ∈ List.replicate 1000 ((⟨0, 0, 1, 1⟩, ⟨1, 0, 0⟩) : Quat × Vec3), x.1 ≠ ⟨0, 0, 0, 0⟩) ∧
    (List.replicate 1000 ((⟨0, 0, 1, 1⟩, ⟨1, 0, 0⟩) : Quat × Vec3)).length ≤ 2 ^ 40 := by
  refine ⟨fun x hx => ?_, by rw [List.length_replicate]; norm_num⟩
  rw [List.eq_of_mem_replicate hx]
  simp

/-- C98: the grouping of the factors matters: with translations of 1, 3/2⁵⁵ and 3/2⁵⁵ the product of three poses is a translation by 1
or by 1 + 2⁻⁵². The associative law of C01 does not hold for doubles. -/
theorem C98_grouping :
    let T := fun x : ℝ => (⟨Mat3.identity, ⟨x, 0, 0⟩⟩ : Transform3)
    Rounded.mul toDouble (Rounded.mul toDouble (T 1) (T (3 / 2 ^ 55))) (T (3 / 2 ^ 55)) = T 1 ∧
    Rounded.mul toDouble (T 1) (Rounded.mul toDouble (T (3 / 2 ^ 55)) (T (3 / 2 ^ 55))) = T (1 + 1 / 2 ^ 52) := by
  intro T
  have z := toDouble_zero
  have o : toDouble 1 = 1 := by
    have := toDouble_eq (x := 1) (-52) (m := 2 ^ 52) (by norm_num) (by norm_num) (by norm_num)
    rw [this]; norm_num
  have a : toDouble (3 / 2 ^ 55) = 3 / 2 ^ 55 := by
    have := toDouble_eq (x := 3 / 2 ^ 55) (-106) (m := 3 * 2 ^ 51) (by norm_num) (by norm_num) (by norm_num)
    rw [this]; norm_num
  have a2 : toDouble (3 / 2 ^ 55 + 3 / 2 ^ 55) = 3 / 2 ^ 54 := by
    have := toDouble_eq (x := 3 / 2 ^ 55 + 3 / 2 ^ 55) (-105) (m := 3 * 2 ^ 51) (by norm_num) (by norm_num) (by norm_num)
    rw [this]; norm_num
  have a3 : toDouble (3 / 2 ^ 54) = 3 / 2 ^ 54 := by
    have := toDouble_eq (x := 3 / 2 ^ 54) (-105) (m := 3 * 2 ^ 51) (by norm_num) (by norm_num) (by norm_num)
    rw [this]; norm_num
  have b : toDouble (3 / 2 ^ 55 + 1) = 1 := by
    have := toDouble_eq (x := 3 / 2 ^ 55 + 1) (-52) (m := 2 ^ 52) (by norm_num) (by norm_num) (by norm_num)
    rw [this]; norm_num
  have c : toDouble (3 / 2 ^ 54 + 1) = 1 + 1 / 2 ^ 52 := by
    have := toDouble_eq (x := 3 / 2 ^ 54 + 1) (-52) (m := 2 ^ 52 + 1) (by norm_num) (by norm_num) (by norm_num)
    rw [this]; norm_num
  have key : ∀ x y s : ℝ, toDouble y = y → toDouble (y + x) = s → Rounded.mul toDouble (T x) (T y) = T s := by
    intro x y s hy hs
    simp only [T, Rounded.mul, Rounded.mulMat, Rounded.add, Rounded.mulVec, Rounded.dot3, Mat3.identity, mul_zero, zero_mul, mul_one,
      one_mul, z, add_zero, zero_add, o, hy, hs]
  rw [key 1 _ 1 a b, key 1 _ 1 a b, key _ _ _ a a2, key 1 _ _ a3 c]
  exact ⟨rfl, rfl⟩

end Geo
