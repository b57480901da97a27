import Verif.Spec.Shape
import Verif.Lemmas.Box
import Verif.Lemmas.Triangle
import Mathlib.LinearAlgebra.Matrix.ToLinearEquiv

/-! # Helper lemmas about mesh shapes -/

namespace Geo
open Spec

theorem vol4_eq (a b c d : Vec3) : vol4 a b c d =
    (b.x - a.x) * ((c.y - a.y) * (d.z - a.z) - (c.z - a.z) * (d.y - a.y))
    - (b.y - a.y) * ((c.x - a.x) * (d.z - a.z) - (c.z - a.z) * (d.x - a.x))
    + (b.z - a.z) * ((c.x - a.x) * (d.y - a.y) - (c.y - a.y) * (d.x - a.x)) := by
  unfold vol4; rw [Matrix.det_fin_three]; simp; ring

theorem LS.new_a (a b : Vec3) : (LS.new a b).a = a := rfl
theorem LS.new_b (a b : Vec3) : (LS.new a b).b = b := rfl

theorem sideProduct_eq (a b c d : Vec3) : sideProduct (LS.new a b) (LS.new c d) =
    (b.x - a.x) * (c.y * d.z - c.z * d.y) + (b.y - a.y) * (c.z * d.x - c.x * d.z)
    + (b.z - a.z) * (c.x * d.y - c.y * d.x)
    + ((d.x - c.x) * (a.y * b.z - a.z * b.y) + (d.y - c.y) * (a.z * b.x - a.x * b.z)
    + (d.z - c.z) * (a.x * b.y - a.y * b.x)) := by
  simp [sideProduct, LS.new, Vec3.dot, Vec3.cross]

theorem sideProduct_vol (a b c d : Vec3) :
    sideProduct (LS.new a b) (LS.new c d) = vol4 a b c d := by
  rw [vol4_eq, sideProduct_eq]; ring

theorem vol4_coplanar (a b c d : Vec3) : vol4 a b c d = 0 ↔ Coplanar4 a b c d := by
  unfold vol4
  rw [← Matrix.exists_mulVec_eq_zero_iff]
  constructor
  · rintro ⟨n, hn, h⟩
    refine ⟨⟨n 0, n 1, n 2⟩, n 0 * a.x + n 1 * a.y + n 2 * a.z, ?_, ?_⟩
    · intro h0
      apply hn
      simp only [Vec3.mk.injEq] at h0
      funext i; fin_cases i
      · exact h0.1
      · exact h0.2.1
      · exact h0.2.2
    · have h0 := congrFun h 0
      have h1 := congrFun h 1
      have h2 := congrFun h 2
      simp [Matrix.mulVec, dotProduct, Fin.sum_univ_three] at h0 h1 h2
      intro q hq
      simp only [List.mem_cons, List.not_mem_nil, or_false] at hq
      rcases hq with rfl | rfl | rfl | rfl <;> linarith
  · rintro ⟨n, k, hn, h⟩
    refine ⟨![n.x, n.y, n.z], ?_, ?_⟩
    · intro h0
      apply hn
      have e0 := congrFun h0 0
      have e1 := congrFun h0 1
      have e2 := congrFun h0 2
      simp at e0 e1 e2
      ext <;> simp [e0, e1, e2]
    · have ha := h a (by simp)
      have hb := h b (by simp)
      have hc := h c (by simp)
      have hd := h d (by simp)
      funext i
      fin_cases i <;> simp [Matrix.mulVec, dotProduct, Fin.sum_univ_three] <;> linarith

/-! ## Points of a triangle and the probe line -/

/-- Side products of a line through a point of the triangle. -/
theorem side_inTri {v1 v2 v3 p P : Vec3} {a b c : ℝ} (hs : a + b + c = 1)
    (hp : p = ⟨a * v1.x + b * v2.x + c * v3.x, a * v1.y + b * v2.y + c * v3.y,
      a * v1.z + b * v2.z + c * v3.z⟩) :
    sideProduct (LS.new p P) (LS.new v1 v2) = c * vol4 v3 P v1 v2 ∧
    sideProduct (LS.new p P) (LS.new v2 v3) = a * vol4 v3 P v1 v2 ∧
    sideProduct (LS.new p P) (LS.new v3 v1) = b * vol4 v3 P v1 v2 := by
  have ha : a = 1 - b - c := by linarith
  subst ha
  subst hp
  simp only [sideProduct_eq, vol4_eq]
  refine ⟨?_, ?_, ?_⟩ <;> ring

/-- Values with a vanishing convex combination do not all have the same strict sign. -/
theorem weights_sign {a b c g1 g2 g3 : ℝ} (ha : 0 ≤ a) (hb : 0 ≤ b) (hc : 0 ≤ c) (hs : a + b + c = 1)
    (lin : a * g1 + b * g2 + c * g3 = 0) : g1 * g2 ≤ 0 ∨ g2 * g3 ≤ 0 ∨ g3 * g1 ≤ 0 := by
  by_contra hh
  push Not at hh
  obtain ⟨m12, m23, m31⟩ := hh
  rcases lt_trichotomy g1 0 with hg | hg | hg
  · have : g2 < 0 := by
      by_contra h; push Not at h; nlinarith
    have : g3 < 0 := by
      by_contra h; push Not at h; nlinarith
    have t1 : a * g1 ≤ 0 := mul_nonpos_of_nonneg_of_nonpos ha hg.le
    have t2 : b * g2 ≤ 0 := mul_nonpos_of_nonneg_of_nonpos hb (le_of_lt ‹_›)
    have t3 : c * g3 ≤ 0 := mul_nonpos_of_nonneg_of_nonpos hc (le_of_lt ‹_›)
    have z1 : a = 0 := by
      rcases mul_eq_zero.1 (show a * g1 = 0 by linarith) with h | h
      · exact h
      · linarith
    have z2 : b = 0 := by
      rcases mul_eq_zero.1 (show b * g2 = 0 by linarith) with h | h
      · exact h
      · linarith
    have z3 : c = 0 := by
      rcases mul_eq_zero.1 (show c * g3 = 0 by linarith) with h | h
      · exact h
      · linarith
    linarith
  · subst hg; simp at m12
  · have : 0 < g2 := by
      by_contra h; push Not at h; nlinarith
    have : 0 < g3 := by
      by_contra h; push Not at h; nlinarith
    have t1 : 0 ≤ a * g1 := mul_nonneg ha hg.le
    have t2 : 0 ≤ b * g2 := mul_nonneg hb (le_of_lt ‹_›)
    have t3 : 0 ≤ c * g3 := mul_nonneg hc (le_of_lt ‹_›)
    have z1 : a = 0 := by
      rcases mul_eq_zero.1 (show a * g1 = 0 by linarith) with h | h
      · exact h
      · linarith
    have z2 : b = 0 := by
      rcases mul_eq_zero.1 (show b * g2 = 0 by linarith) with h | h
      · exact h
      · linarith
    have z3 : c = 0 := by
      rcases mul_eq_zero.1 (show c * g3 = 0 by linarith) with h | h
      · exact h
      · linarith
    linarith

theorem compute2D_inTri {v1 v2 v3 p P : Vec3} (hp : InTri (v1, v2, v3) p)
    (h1 : sideProduct (LS.new p P) (LS.new v1 v2) = 0)
    (h2 : sideProduct (LS.new p P) (LS.new v2 v3) = 0)
    (h3 : sideProduct (LS.new p P) (LS.new v3 v1) = 0) :
    compute2DIntersection ⟨v1, v2, v3⟩ (LS.new p P) = true := by
  unfold compute2DIntersection
  generalize hq : displacedCorner ⟨v1, v2, v3⟩ (LS.new p P) = q
  clear hq
  obtain ⟨a, b, c, ha, hb, hc, hs, rfl⟩ := hp
  simp only at h1 h2 h3 ⊢
  set p : Vec3 := ⟨a * v1.x + b * v2.x + c * v3.x, a * v1.y + b * v2.y + c * v3.y,
    a * v1.z + b * v2.z + c * v3.z⟩ with hp
  have rev : ∀ x, sideProduct (LS.new p P) (LS.new q x) = -sideProduct (LS.new p P) (LS.new x q) := by
    intro x; simp only [sideProduct_eq]; ring
  have lin : a * sideProduct (LS.new p P) (LS.new v1 q) + b * sideProduct (LS.new p P) (LS.new v2 q)
      + c * sideProduct (LS.new p P) (LS.new v3 q) = 0 := by
    have e : a = 1 - b - c := by linarith
    simp only [sideProduct_eq, hp, e]; ring
  have key : sideProduct (LS.new p P) (LS.new v1 q) * sideProduct (LS.new p P) (LS.new v2 q) ≤ 0 ∨
      sideProduct (LS.new p P) (LS.new v2 q) * sideProduct (LS.new p P) (LS.new v3 q) ≤ 0 ∨
      sideProduct (LS.new p P) (LS.new v3 q) * sideProduct (LS.new p P) (LS.new v1 q) ≤ 0 := by
    exact weights_sign ha hb hc hs lin
  have hit : ∀ x y, sideProduct (LS.new p P) (LS.new x y) = 0 →
      sideProduct (LS.new p P) (LS.new x q) * sideProduct (LS.new p P) (LS.new y q) ≤ 0 →
      decide (sideProduct (LS.new p P) (LS.new y q) * sideProduct (LS.new p P) (LS.new q x) ≥ 0)
        = true ∧ lineLinesegmentIntersection (LS.new p P) (LS.new x y) q = true := by
    intro x y h0 hle
    have : sideProduct (LS.new p P) (LS.new y q) * sideProduct (LS.new p P) (LS.new q x) ≥ 0 := by
      rw [rev]; linarith
    refine ⟨decide_eq_true this, ?_⟩
    unfold lineLinesegmentIntersection
    simp only [h0, ne_eq, not_true_eq_false, if_false, decide_eq_true_eq]
    show sideProduct (LS.new p P) (LS.new q x) * sideProduct (LS.new p P) (LS.new y q) ≥ 0
    linarith
  rw [List.any_eq_true]
  rcases key with k | k | k
  · have := hit v1 v2 h1 k
    exact ⟨(v1, v2), by simp, by simp only [this.1, Bool.true_and, List.any_eq_true]
                                 exact ⟨(v1, v2), by simp, this.2⟩⟩
  · have := hit v2 v3 h2 k
    exact ⟨(v2, v3), by simp, by simp only [this.1, Bool.true_and, List.any_eq_true]
                                 exact ⟨(v2, v3), by simp, this.2⟩⟩
  · have := hit v3 v1 h3 k
    exact ⟨(v3, v1), by simp, by simp only [this.1, Bool.true_and, List.any_eq_true]
                                 exact ⟨(v3, v1), by simp, this.2⟩⟩

theorem length_scale {u v : Vec3} {k : ℝ} (hk : 0 ≤ k) (hx : u.x = k * v.x) (hy : u.y = k * v.y)
    (hz : u.z = k * v.z) : u.length = k * v.length := by
  unfold Vec3.length
  rw [hx, hy, hz, show k * v.x * (k * v.x) + k * v.y * (k * v.y) + k * v.z * (k * v.z) =
    k ^ 2 * (v.x * v.x + v.y * v.y + v.z * v.z) by ring, Real.sqrt_mul (sq_nonneg k),
    Real.sqrt_sq hk]

theorem length_neg_scale {u v : Vec3} {k : ℝ} (hk : 0 ≤ k) (hx : u.x = -(k * v.x))
    (hy : u.y = -(k * v.y)) (hz : u.z = -(k * v.z)) : u.length = k * v.length := by
  unfold Vec3.length
  rw [hx, hy, hz, show -(k * v.x) * -(k * v.x) + -(k * v.y) * -(k * v.y) + -(k * v.z) * -(k * v.z) =
    k ^ 2 * (v.x * v.x + v.y * v.y + v.z * v.z) by ring, Real.sqrt_mul (sq_nonneg k),
    Real.sqrt_sq hk]

theorem seg_len {x y p : Vec3} {a b : ℝ} (ha : 0 ≤ a) (hb : 0 ≤ b) (hs : a + b = 1)
    (hx : p.x = a * x.x + b * y.x) (hy : p.y = a * x.y + b * y.y) (hz : p.z = a * x.z + b * y.z) :
    |(p - x).length + (y - p).length - (y - x).length| ≤ 1e-12 := by
  have e : a = 1 - b := by linarith
  have h1 : (p - x).length = b * (y - x).length := by
    apply length_scale hb <;> simp only [Vec3.sub_x, Vec3.sub_y, Vec3.sub_z, hx, hy, hz, e] <;> ring
  have h2 : (y - p).length = a * (y - x).length := by
    apply length_scale ha <;> simp only [Vec3.sub_x, Vec3.sub_y, Vec3.sub_z, hx, hy, hz, e] <;> ring
  rw [h1, h2, e]
  rw [show b * (y - x).length + (1 - b) * (y - x).length - (y - x).length = 0 by ring]
  norm_num

theorem area_sum {v1 v2 v3 p : Vec3} {a b c : ℝ} (ha : 0 ≤ a) (hb : 0 ≤ b) (hc : 0 ≤ c)
    (hs : a + b + c = 1)
    (hp : p = ⟨a * v1.x + b * v2.x + c * v3.x, a * v1.y + b * v2.y + c * v3.y,
      a * v1.z + b * v2.z + c * v3.z⟩) :
    |triangleArea v2 p v3 + triangleArea p v1 v3 + triangleArea p v1 v2 - triangleArea v1 v2 v3|
      < 1e-12 := by
  have e : a = 1 - b - c := by linarith
  have hx := congrArg Vec3.x hp
  have hy := congrArg Vec3.y hp
  have hz := congrArg Vec3.z hp
  simp only at hx hy hz
  clear hp
  have h1 : triangleArea v2 p v3 = a * triangleArea v1 v2 v3 := by
    unfold triangleArea
    rw [length_neg_scale (u := (v2 - p).cross (v2 - v3)) (v := (v1 - v2).cross (v1 - v3)) ha]
    · ring
    all_goals
      simp only [Vec3.cross, Vec3.sub_x, Vec3.sub_y, Vec3.sub_z, hx, hy, hz, e]; ring
  have h2 : triangleArea p v1 v3 = b * triangleArea v1 v2 v3 := by
    unfold triangleArea
    rw [length_neg_scale (u := (p - v1).cross (p - v3)) (v := (v1 - v2).cross (v1 - v3)) hb]
    · ring
    all_goals
      simp only [Vec3.cross, Vec3.sub_x, Vec3.sub_y, Vec3.sub_z, hx, hy, hz, e]; ring
  have h3 : triangleArea p v1 v2 = c * triangleArea v1 v2 v3 := by
    unfold triangleArea
    rw [length_scale (u := (p - v1).cross (p - v2)) (v := (v1 - v2).cross (v1 - v3)) hc]
    · ring
    all_goals
      simp only [Vec3.cross, Vec3.sub_x, Vec3.sub_y, Vec3.sub_z, hx, hy, hz, e]; ring
  rw [h1, h2, h3, e]
  rw [show (1 - b - c) * triangleArea v1 v2 v3 + b * triangleArea v1 v2 v3
    + c * triangleArea v1 v2 v3 - triangleArea v1 v2 v3 = 0 by ring]
  norm_num

set_option linter.unusedSimpArgs false in
theorem step_surface {v1 v2 v3 p P : Vec3} (it : TriI) (st : Shape.HitState)
    (hp : InTri (v1, v2, v3) p)
    (h : ∀ e ∈ rim (v1, v2, v3), vol4 p P e.1 e.2 = 0 ∨ 1e-16 < |vol4 p P e.1 e.2|) :
    Shape.containsStep p P it v1 v2 v3 st = .inside := by
  have hp' := hp
  have h1 := h (v1, v2) (by simp [rim])
  have h2 := h (v2, v3) (by simp [rim])
  have h3 := h (v3, v1) (by simp [rim])
  simp only [← sideProduct_vol] at h1 h2 h3
  obtain ⟨a, b, c, ha, hb, hc, hs, hp⟩ := hp
  simp only at hp
  obtain ⟨e1, e2, e3⟩ := side_inTri (P := P) hs hp
  have e5 : sideProduct (LS.new v1 p) (LS.new v2 v3) = 0 := by
    have e : a = 1 - b - c := by linarith
    simp only [sideProduct_eq, hp, e]; ring
  have hcop := compute2D_inTri (P := P) hp'
  have harea := area_sum ha hb hc hs hp
  have hx := congrArg Vec3.x hp
  have hy := congrArg Vec3.y hp
  have hz := congrArg Vec3.z hp
  simp only at hx hy hz
  have hedge : (c = 0 → |(p - v1).length + (v2 - p).length - (v2 - v1).length| ≤ 1e-12 ∧
        |(p - v2).length + (v1 - p).length - (v1 - v2).length| ≤ 1e-12) ∧
      (a = 0 → |(p - v2).length + (v3 - p).length - (v3 - v2).length| ≤ 1e-12 ∧
        |(p - v3).length + (v2 - p).length - (v2 - v3).length| ≤ 1e-12) ∧
      (b = 0 → |(p - v3).length + (v1 - p).length - (v1 - v3).length| ≤ 1e-12 ∧
        |(p - v1).length + (v3 - p).length - (v3 - v1).length| ≤ 1e-12) := by
    refine ⟨?_, ?_, ?_⟩
    · rintro rfl
      exact ⟨seg_len (a := a) (b := b) ha hb (by linarith) (by linarith) (by linarith) (by linarith),
        seg_len (a := b) (b := a) hb ha (by linarith) (by linarith) (by linarith) (by linarith)⟩
    · rintro rfl
      exact ⟨seg_len (a := b) (b := c) hb hc (by linarith) (by linarith) (by linarith) (by linarith),
        seg_len (a := c) (b := b) hc hb (by linarith) (by linarith) (by linarith) (by linarith)⟩
    · rintro rfl
      exact ⟨seg_len (a := c) (b := a) hc ha (by linarith) (by linarith) (by linarith) (by linarith),
        seg_len (a := a) (b := c) ha hc (by linarith) (by linarith) (by linarith) (by linarith)⟩
  have hvert : (b = 0 → c = 0 → v1 = p) ∧ (c = 0 → a = 0 → v2 = p) ∧ (a = 0 → b = 0 → v3 = p) := by
    refine ⟨?_, ?_, ?_⟩
    · rintro rfl rfl
      have : a = 1 := by linarith
      subst this; ext <;> linarith
    · rintro rfl rfl
      have : b = 1 := by linarith
      subst this; ext <;> linarith
    · rintro rfl rfl
      have : c = 1 := by linarith
      subst this; ext <;> linarith
  have hz1 : sideProduct (LS.new p P) (LS.new v1 v2) = 0 → c = 0 ∨ vol4 v3 P v1 v2 = 0 := by
    rw [e1]; exact mul_eq_zero.1
  have hz2 : sideProduct (LS.new p P) (LS.new v2 v3) = 0 → a = 0 ∨ vol4 v3 P v1 v2 = 0 := by
    rw [e2]; exact mul_eq_zero.1
  have hz3 : sideProduct (LS.new p P) (LS.new v3 v1) = 0 → b = 0 ∨ vol4 v3 P v1 v2 = 0 := by
    rw [e3]; exact mul_eq_zero.1
  have n1 : vol4 v3 P v1 v2 = 0 → sideProduct (LS.new p P) (LS.new v1 v2) = 0 := by
    intro h; rw [e1, h, mul_zero]
  have n2 : vol4 v3 P v1 v2 = 0 → sideProduct (LS.new p P) (LS.new v2 v3) = 0 := by
    intro h; rw [e2, h, mul_zero]
  have n3 : vol4 v3 P v1 v2 = 0 → sideProduct (LS.new p P) (LS.new v3 v1) = 0 := by
    intro h; rw [e3, h, mul_zero]
  have m12 : 0 ≤ sideProduct (LS.new p P) (LS.new v1 v2) * sideProduct (LS.new p P) (LS.new v2 v3) := by
    rw [e1, e2, show ∀ D, c * D * (a * D) = a * c * (D * D) by intro D; ring]
    exact mul_nonneg (mul_nonneg ha hc) (mul_self_nonneg _)
  have m23 : 0 ≤ sideProduct (LS.new p P) (LS.new v2 v3) * sideProduct (LS.new p P) (LS.new v3 v1) := by
    rw [e2, e3, show ∀ D, a * D * (b * D) = a * b * (D * D) by intro D; ring]
    exact mul_nonneg (mul_nonneg ha hb) (mul_self_nonneg _)
  have m13 : 0 ≤ sideProduct (LS.new p P) (LS.new v1 v2) * sideProduct (LS.new p P) (LS.new v3 v1) := by
    rw [e1, e3, show ∀ D, c * D * (b * D) = b * c * (D * D) by intro D; ring]
    exact mul_nonneg (mul_nonneg hb hc) (mul_self_nonneg _)
  clear hx hy hz hp hp' h e1 e2 e3
  unfold Shape.containsStep
  simp only [e5, mul_zero]
  generalize sideProduct (LS.new p P) (LS.new v1 v2) = s1 at *
  generalize sideProduct (LS.new p P) (LS.new v2 v3) = s2 at *
  generalize sideProduct (LS.new p P) (LS.new v3 v1) = s3 at *
  generalize vol4 v3 P v1 v2 = D at *
  have tri : ∀ s : ℝ, (s = 0 ∨ 1e-16 < |s|) → s = 0 ∨
      (0 < s ∧ s ≥ -1e-16 ∧ s > 1e-16 ∧ ¬ s ≤ 1e-16 ∧ ¬ s < -1e-16 ∧ ¬ |s| < 1e-16 ∧ |s| > 1e-16) ∨
      (s < 0 ∧ ¬ s ≥ -1e-16 ∧ ¬ s > 1e-16 ∧ s ≤ 1e-16 ∧ s < -1e-16 ∧ ¬ |s| < 1e-16 ∧ |s| > 1e-16) := by
    intro s hs
    rcases hs with hs | hs
    · exact Or.inl hs
    · right
      have h0 : (0:ℝ) < 1e-16 := by norm_num
      rcases lt_abs.1 hs with hh | hh
      · left; refine ⟨by linarith, by linarith, hh, by linarith, by linarith, by linarith, hs⟩
      · right; refine ⟨by linarith, by linarith, by linarith, by linarith, by linarith, by linarith, hs⟩
  have z1 : (0:ℝ) ≥ -1e-16 := by norm_num
  have z2 : ¬ (0:ℝ) > 1e-16 := by norm_num
  have z3 : (0:ℝ) ≤ 1e-16 := by norm_num
  have z4 : ¬ (0:ℝ) < -1e-16 := by norm_num
  have z5 : |(0:ℝ)| < 1e-16 := by norm_num
  have z6 : ¬ |(0:ℝ)| > 1e-16 := by norm_num
  have z7 : (0:ℝ) < 1e-16 := by norm_num
  have bad : ∀ {x y : ℝ}, 0 ≤ x * y → 0 < x → y < 0 → False := by
    intro x y h hx hy; nlinarith
  have bad' : ∀ {x y : ℝ}, 0 ≤ x * y → x < 0 → 0 < y → False := by
    intro x y h hx hy; nlinarith
  by_cases hD : D = 0
  · have h1 := n1 hD
    have h2 := n2 hD
    have h3 := n3 hD
    simp [h1, h2, h3, z1, z3, hcop]
  have w1 : s1 = 0 → c = 0 := fun h => (hz1 h).resolve_right hD
  have w2 : s2 = 0 → a = 0 := fun h => (hz2 h).resolve_right hD
  have w3 : s3 = 0 → b = 0 := fun h => (hz3 h).resolve_right hD
  clear hz1 hz2 hz3 n1 n2 n3 hcop
  obtain ⟨hd1, hd2, hd3⟩ := hedge
  obtain ⟨hv1, hv2, hv3⟩ := hvert
  rcases tri s1 h1 with h1 | ⟨p1, q1⟩ | ⟨p1, q1⟩ <;> rcases tri s2 h2 with h2 | ⟨p2, q2⟩ | ⟨p2, q2⟩ <;>
  rcases tri s3 h3 with h3 | ⟨p3, q3⟩ | ⟨p3, q3⟩ <;>
  first
  | exact (bad m12 p1 p2).elim
  | exact (bad m13 p1 p3).elim
  | exact (bad m23 p2 p3).elim
  | exact (bad' m12 p1 p2).elim
  | exact (bad' m13 p1 p3).elim
  | exact (bad' m23 p2 p3).elim
  | (exfalso; have := w1 h1; have := w2 h2; have := w3 h3; linarith)
  | skip
  · have := hv2 (w1 h1) (w2 h2)
    simp [h1, h2, q3, z1, z2, z3, z4, z5, z6, z7, Shape.count3, this]
  · have := hv2 (w1 h1) (w2 h2)
    simp [h1, h2, q3, z1, z2, z3, z4, z5, z6, z7, Shape.count3, this]
  · have := hv1 (w3 h3) (w1 h1)
    simp [h1, q2, h3, z1, z2, z3, z4, z5, z6, z7, Shape.count3, this]
  · have := hd1 (w1 h1)
    by_cases hlt : it.i2 < it.i1 <;> simp [h1, q2, q3, z1, z2, z3, z4, z5, z6, z7, Shape.count3, hlt, this]
  · have := hv1 (w3 h3) (w1 h1)
    simp [h1, q2, h3, z1, z2, z3, z4, z5, z6, z7, Shape.count3, this]
  · have := hd1 (w1 h1)
    by_cases hlt : it.i2 < it.i1 <;> simp [h1, q2, q3, z1, z2, z3, z4, z5, z6, z7, Shape.count3, hlt, this]
  · have := hv3 (w2 h2) (w3 h3)
    simp [q1, h2, h3, z1, z2, z3, z4, z5, z6, z7, Shape.count3, this]
  · have := hd2 (w2 h2)
    by_cases hlt : it.i3 < it.i2 <;> simp [q1, h2, q3, z1, z2, z3, z4, z5, z6, z7, Shape.count3, hlt, this]
  · have := hd3 (w3 h3)
    by_cases hlt : it.i1 < it.i3 <;> simp [q1, q2, h3, z1, z2, z3, z4, z5, z6, z7, Shape.count3, hlt, this]
  · simp [q1, q2, q3, z1, z2, z3, z4, z5, z6, z7, Shape.count3, harea]
  · have := hv3 (w2 h2) (w3 h3)
    simp [q1, h2, h3, z1, z2, z3, z4, z5, z6, z7, Shape.count3, this]
  · have := hd2 (w2 h2)
    by_cases hlt : it.i3 < it.i2 <;> simp [q1, h2, q3, z1, z2, z3, z4, z5, z6, z7, Shape.count3, hlt, this]
  · have := hd3 (w3 h3)
    by_cases hlt : it.i1 < it.i3 <;> simp [q1, q2, h3, z1, z2, z3, z4, z5, z6, z7, Shape.count3, hlt, this]
  · simp [q1, q2, q3, z1, z2, z3, z4, z5, z6, z7, Shape.count3, harea]

theorem loop_inside {p P : Vec3} {ps : List Vec3} {is : List TriI} {ts : List (Vec3 × Vec3 × Vec3)}
    (hs : soup ps is = some ts) {t : Vec3 × Vec3 × Vec3} (ht : t ∈ ts)
    (h : ∀ it st, Shape.containsStep p P it t.1 t.2.1 t.2.2 st = .inside) (st : Shape.HitState) :
    Shape.containsLoop p P ps is st = .ok true := by
  rw [Mesh.soup_some] at hs
  induction hs generalizing st with
  | nil => simp at ht
  | @cons i c is ts hc _ ih =>
    unfold Shape.containsLoop
    rw [vget_ok.2 hc.1, vget_ok.2 hc.2.1, vget_ok.2 hc.2.2]
    simp only [bind, Except.bind]
    rcases List.mem_cons.1 ht with rfl | ht
    · rw [h]; rfl
    · split
      · rfl
      · exact ih ht _

/-! ## Line against triangle -/

/-- Sum of the side products. -/
theorem side_sum (p P v1 v2 v3 : Vec3) :
    vol4 p P v1 v2 + vol4 p P v2 v3 + vol4 p P v3 v1 =
      side (v1, v2, v3) P - side (v1, v2, v3) p := by
  simp only [vol4_eq, side]; ring

theorem line_hit {p P v1 v2 v3 : Vec3} {a b c s : ℝ} (hs : a + b + c = 1)
    (hp : lerp p P s = ⟨a * v1.x + b * v2.x + c * v3.x, a * v1.y + b * v2.y + c * v3.y,
      a * v1.z + b * v2.z + c * v3.z⟩) :
    let E := side (v1, v2, v3) P - side (v1, v2, v3) p
    vol4 p P v1 v2 = c * E ∧ vol4 p P v2 v3 = a * E ∧ vol4 p P v3 v1 = b * E ∧
    side (v1, v2, v3) p + s * E = 0 := by
  have ha : a = 1 - b - c := by linarith
  obtain ⟨u, hu⟩ : ∃ u, u = P.x - p.x := ⟨_, rfl⟩
  obtain ⟨v, hv⟩ : ∃ u, u = P.y - p.y := ⟨_, rfl⟩
  obtain ⟨w, hw⟩ : ∃ u, u = P.z - p.z := ⟨_, rfl⟩
  simp only [lerp, Vec3.mk.injEq, ← hu, ← hv, ← hw] at hp
  obtain ⟨h1, h2, h3⟩ := hp
  have px : p.x = a * v1.x + b * v2.x + c * v3.x - s * u := by linarith
  have py : p.y = a * v1.y + b * v2.y + c * v3.y - s * v := by linarith
  have pz : p.z = a * v1.z + b * v2.z + c * v3.z - s * w := by linarith
  have Px : P.x = a * v1.x + b * v2.x + c * v3.x - s * u + u := by linarith
  have Py : P.y = a * v1.y + b * v2.y + c * v3.y - s * v + v := by linarith
  have Pz : P.z = a * v1.z + b * v2.z + c * v3.z - s * w + w := by linarith
  simp only [vol4_eq, side, px, py, pz, Px, Py, Pz, ha]
  refine ⟨?_, ?_, ?_, ?_⟩ <;> ring

theorem line_point {p P v1 v2 v3 : Vec3}
    (hE : side (v1, v2, v3) p ≠ side (v1, v2, v3) P) :
    let E := side (v1, v2, v3) P - side (v1, v2, v3) p
    let a := vol4 p P v2 v3 / E
    let b := vol4 p P v3 v1 / E
    let c := vol4 p P v1 v2 / E
    lerp p P (-(side (v1, v2, v3) p) / E) = ⟨a * v1.x + b * v2.x + c * v3.x,
      a * v1.y + b * v2.y + c * v3.y, a * v1.z + b * v2.z + c * v3.z⟩ := by
  intro E a b c
  have hE' : E ≠ 0 := fun h => hE (by simp only [E] at h; linarith)
  simp only [lerp, a, b, c, Vec3.mk.injEq]
  refine ⟨?_, ?_, ?_⟩ <;> field_simp <;> simp only [E, vol4_eq, side] <;> ring

theorem tri_pattern {p P v1 v2 v3 : Vec3} (hE : side (v1, v2, v3) p ≠ side (v1, v2, v3) P) :
    ((0 ≤ vol4 p P v1 v2 ∧ 0 ≤ vol4 p P v2 v3 ∧ 0 ≤ vol4 p P v3 v1) ∨
     (vol4 p P v1 v2 ≤ 0 ∧ vol4 p P v2 v3 ≤ 0 ∧ vol4 p P v3 v1 ≤ 0)) ↔
    ∃ s, InTri (v1, v2, v3) (lerp p P s) := by
  have hsum := side_sum p P v1 v2 v3
  constructor
  · intro h
    refine ⟨_, vol4 p P v2 v3 / (side (v1, v2, v3) P - side (v1, v2, v3) p),
      vol4 p P v3 v1 / (side (v1, v2, v3) P - side (v1, v2, v3) p),
      vol4 p P v1 v2 / (side (v1, v2, v3) P - side (v1, v2, v3) p), ?_, ?_, ?_, ?_, line_point hE⟩
    · rcases h with h | h
      · exact div_nonneg h.2.1 (by linarith)
      · exact div_nonneg_of_nonpos h.2.1 (by linarith)
    · rcases h with h | h
      · exact div_nonneg h.2.2 (by linarith)
      · exact div_nonneg_of_nonpos h.2.2 (by linarith)
    · rcases h with h | h
      · exact div_nonneg h.1 (by linarith)
      · exact div_nonneg_of_nonpos h.1 (by linarith)
    · have : side (v1, v2, v3) P - side (v1, v2, v3) p ≠ 0 := fun h => hE (by linarith)
      field_simp; linarith
  · rintro ⟨s, a, b, c, ha, hb, hc, h1, hx⟩
    obtain ⟨e1, e2, e3, -⟩ := line_hit h1 hx
    rw [e1, e2, e3]
    rcases le_total (side (v1, v2, v3) p) (side (v1, v2, v3) P) with h | h
    · left
      have : 0 ≤ side (v1, v2, v3) P - side (v1, v2, v3) p := by linarith
      exact ⟨mul_nonneg hc this, mul_nonneg ha this, mul_nonneg hb this⟩
    · right
      have : side (v1, v2, v3) P - side (v1, v2, v3) p ≤ 0 := by linarith
      exact ⟨mul_nonpos_of_nonneg_of_nonpos hc this, mul_nonpos_of_nonneg_of_nonpos ha this,
        mul_nonpos_of_nonneg_of_nonpos hb this⟩

theorem seg_pattern {p P v1 v2 v3 : Vec3} (hE : side (v1, v2, v3) p ≠ side (v1, v2, v3) P) :
    (∃ s, 0 ≤ s ∧ s ≤ 1 ∧ InTri (v1, v2, v3) (lerp p P s)) ↔
    (∃ s, InTri (v1, v2, v3) (lerp p P s)) ∧ side (v1, v2, v3) p * side (v1, v2, v3) P ≤ 0 := by
  have key : ∀ s, InTri (v1, v2, v3) (lerp p P s) →
      ((0 ≤ s ∧ s ≤ 1) ↔ side (v1, v2, v3) p * side (v1, v2, v3) P ≤ 0) := by
    rintro s ⟨a, b, c, ha, hb, hc, h1, hx⟩
    obtain ⟨-, -, -, e⟩ := line_hit h1 hx
    simp only at e
    generalize side (v1, v2, v3) p = f at *
    generalize side (v1, v2, v3) P = g at *
    have hf : f = -(s * (g - f)) := by linarith
    have hg : g = (1 - s) * (g - f) := by linarith
    have hpos : 0 < (g - f) ^ 2 := by
      have : g - f ≠ 0 := fun h => hE (by linarith)
      positivity
    have hm : f * g = -(s * (1 - s) * (g - f) ^ 2) := by
      calc f * g = -(s * (g - f)) * ((1 - s) * (g - f)) := by rw [← hf, ← hg]
        _ = _ := by ring
    rw [hm]
    constructor
    · rintro ⟨h0, h1⟩
      have : 0 ≤ s * (1 - s) := mul_nonneg h0 (by linarith)
      have := mul_nonneg this hpos.le
      linarith
    · intro h
      have : 0 ≤ s * (1 - s) := by
        by_contra hn
        push Not at hn
        have := mul_neg_of_neg_of_pos hn hpos
        linarith
      constructor <;> nlinarith
  constructor
  · rintro ⟨s, h0, h1, h⟩; exact ⟨⟨s, h⟩, (key s h).1 ⟨h0, h1⟩⟩
  · rintro ⟨⟨s, h⟩, h'⟩
    obtain ⟨h0, h1⟩ := (key s h).2 h'
    exact ⟨s, h0, h1, h⟩

theorem vol4_side (P v1 v2 v3 : Vec3) : vol4 P v1 v2 v3 = -side (v1, v2, v3) P ∧
    vol4 v1 P v2 v3 = side (v1, v2, v3) P := by
  simp only [vol4_eq, side]; constructor <;> ring

theorem heron_eq (p q r : Vec3) : heron p q r = triangleArea p q r := by
  have h := area_heron p q r
  have h0 := area_nonneg p q r
  have d1 : Spec.dist p q ^ 2 = distSq p q := Real.sq_sqrt (by unfold distSq; positivity)
  have d2 : Spec.dist q r ^ 2 = distSq q r := Real.sq_sqrt (by unfold distSq; positivity)
  have d3 : Spec.dist r p ^ 2 = distSq r p := Real.sq_sqrt (by unfold distSq; positivity)
  unfold heron
  simp only
  rw [← d1, ← d2, ← d3] at h
  rw [← Real.sqrt_sq h0]
  congr 1
  linear_combination -h / 16

set_option linter.unusedSimpArgs false in
theorem step_generic {v1 v2 v3 p P : Vec3} (it : TriI) (st : Shape.HitState)
    (h : ∀ e ∈ rim (v1, v2, v3), 1e-16 < |vol4 p P e.1 e.2|)
    (hseg : side (v1, v2, v3) p * side (v1, v2, v3) P ≤ 0 ∨
      1e-16 < side (v1, v2, v3) p * side (v1, v2, v3) P)
    (hfar : 1e-12 ≤ |heron v2 p v3 + heron p v1 v3 + heron p v1 v2 - heron v1 v2 v3|) :
    Shape.containsStep p P it v1 v2 v3 st =
      .go { st with count := st.count + crossing p P (v1, v2, v3) } := by
  simp only [heron_eq] at hfar
  have h1 := h (v1, v2) (by simp [rim])
  have h2 := h (v2, v3) (by simp [rim])
  have h3 := h (v3, v1) (by simp [rim])
  simp only at h1 h2 h3
  have hsum := side_sum p P v1 v2 v3
  have nocross : (∃ s, InTri (v1, v2, v3) (lerp p P s)) →
      (0 < vol4 p P v1 v2 ∧ 0 < vol4 p P v2 v3 ∧ 0 < vol4 p P v3 v1) ∨
      (vol4 p P v1 v2 < 0 ∧ vol4 p P v2 v3 < 0 ∧ vol4 p P v3 v1 < 0) := by
    rintro ⟨s, a, b, c, ha, hb, hc, hs, hx⟩
    obtain ⟨e1, e2, e3, -⟩ := line_hit hs hx
    rw [e1] at h1; rw [e2] at h2; rw [e3] at h3
    rw [e1, e2, e3]
    generalize side (v1, v2, v3) P - side (v1, v2, v3) p = E at *
    have z : ∀ a : ℝ, 0 ≤ a → 1e-16 < |a * E| → 0 < a ∧ E ≠ 0 := by
      intro a ha h
      constructor
      · rcases ha.lt_or_eq with h' | h'
        · exact h'
        · rw [← h'] at h; norm_num at h
      · rintro rfl; norm_num at h
    obtain ⟨a', hE⟩ := z a ha h2
    obtain ⟨b', -⟩ := z b hb h3
    obtain ⟨c', -⟩ := z c hc h1
    rcases lt_or_gt_of_ne hE with hE | hE
    · right; exact ⟨mul_neg_of_pos_of_neg c' hE, mul_neg_of_pos_of_neg a' hE,
        mul_neg_of_pos_of_neg b' hE⟩
    · left; exact ⟨mul_pos c' hE, mul_pos a' hE, mul_pos b' hE⟩
  have hpat := @tri_pattern p P v1 v2 v3
  have hsegp := @seg_pattern p P v1 v2 v3
  have hcr : crossing p P (v1, v2, v3) = open Classical in
      if ∃ s : ℝ, 0 ≤ s ∧ s ≤ 1 ∧ InTri (v1, v2, v3) (lerp p P s) then
    (if side (v1, v2, v3) p < side (v1, v2, v3) P then 1 else -1) else 0 := rfl
  have hweak : (∃ s : ℝ, 0 ≤ s ∧ s ≤ 1 ∧ InTri (v1, v2, v3) (lerp p P s)) →
      ∃ s, InTri (v1, v2, v3) (lerp p P s) := fun ⟨s, _, _, h⟩ => ⟨s, h⟩
  unfold Shape.containsStep
  simp only [sideProduct_vol, (vol4_side P v1 v2 v3).1, (vol4_side p v1 v2 v3).2]
  rw [show -side (v1, v2, v3) P * side (v1, v2, v3) p =
    -(side (v1, v2, v3) p * side (v1, v2, v3) P) by ring]
  rw [hcr]
  have hnear : ¬ |triangleArea v2 p v3 + triangleArea p v1 v3 + triangleArea p v1 v2
      - triangleArea v1 v2 v3| < 1e-12 := not_lt.2 hfar
  generalize triangleArea v2 p v3 + triangleArea p v1 v3 + triangleArea p v1 v2
      - triangleArea v1 v2 v3 = A at *
  generalize (∃ s : ℝ, 0 ≤ s ∧ s ≤ 1 ∧ InTri (v1, v2, v3) (lerp p P s)) = X at *
  generalize (∃ s, InTri (v1, v2, v3) (lerp p P s)) = Y at *
  generalize vol4 p P v1 v2 = s1 at *
  generalize vol4 p P v2 v3 = s2 at *
  generalize vol4 p P v3 v1 = s3 at *
  generalize side (v1, v2, v3) p = f at *
  generalize side (v1, v2, v3) P = g at *
  have tri : ∀ s : ℝ, (1e-16 < |s|) →
      (0 < s ∧ s ≥ -1e-16 ∧ s > 1e-16 ∧ ¬ s ≤ 1e-16 ∧ ¬ s < -1e-16) ∨
      (s < 0 ∧ ¬ s ≥ -1e-16 ∧ ¬ s > 1e-16 ∧ s ≤ 1e-16 ∧ s < -1e-16) := by
    intro s hs
    have h0 : (0:ℝ) < 1e-16 := by norm_num
    rcases lt_abs.1 hs with hh | hh
    · left; refine ⟨by linarith, by linarith, hh, by linarith, by linarith⟩
    · right; refine ⟨by linarith, by linarith, by linarith, by linarith, by linarith⟩
  have hsegd : (-(f * g) ≥ -1e-16) ↔ f * g ≤ 0 := by
    have h0 : (0:ℝ) < 1e-16 := by norm_num
    constructor
    · intro h; rcases hseg with h' | h'
      · exact h'
      · linarith
    · intro h; linarith
  rcases tri s1 h1 with ⟨p1, q1⟩ | ⟨p1, q1⟩ <;> rcases tri s2 h2 with ⟨p2, q2⟩ | ⟨p2, q2⟩ <;>
  rcases tri s3 h3 with ⟨p3, q3⟩ | ⟨p3, q3⟩
  · have hlt : f < g := by linarith
    have hne : f ≠ g := ne_of_lt hlt
    have hY : Y := (hpat hne).1 (Or.inl ⟨p1.le, p2.le, p3.le⟩)
    have hX : X ↔ f * g ≤ 0 := by rw [hsegp hne]; simp [hY]
    by_cases hfg : f * g ≤ 0
    · simp [q1, q2, q3, Shape.count3, hsegd, hfg, hX, hlt, hnear]
    · simp [q1, q2, q3, Shape.count3, hsegd, hfg, hX]
  case inr.inr.inr =>
    have hlt : g < f := by linarith
    have hne : f ≠ g := ne_of_gt hlt
    have hY : Y := (hpat hne).1 (Or.inr ⟨p1.le, p2.le, p3.le⟩)
    have hX : X ↔ f * g ≤ 0 := by rw [hsegp hne]; simp [hY]
    by_cases hfg : f * g ≤ 0
    · simp [q1, q2, q3, Shape.count3, hsegd, hfg, hX, hlt.not_gt, hnear]
    · simp [q1, q2, q3, Shape.count3, hsegd, hfg, hX]
  all_goals
    have hX : ¬ X := fun hx => by
      rcases nocross (hweak hx) with ⟨a, b, c⟩ | ⟨a, b, c⟩ <;> linarith
    simp [q1, q2, q3, hX]

theorem loop_generic {p P : Vec3} {ps : List Vec3} {is : List TriI} {ts : List (Vec3 × Vec3 × Vec3)}
    (hs : soup ps is = some ts)
    (h : ∀ t ∈ ts, ∀ it st, Shape.containsStep p P it t.1 t.2.1 t.2.2 st =
      .go { st with count := st.count + crossing p P t }) (st : Shape.HitState) :
    Shape.containsLoop p P ps is st =
      .ok (decide (st.count + (ts.map (crossing p P)).sum = 1)) := by
  rw [Mesh.soup_some] at hs
  induction hs generalizing st with
  | nil =>
    unfold Shape.containsLoop
    simp only [List.map_nil, List.sum_nil, add_zero]
    congr 1
    split_ifs with h
    · simp; omega
    · push Not at h; simp; omega
  | @cons i c is ts hc _ ih =>
    unfold Shape.containsLoop
    rw [vget_ok.2 hc.1, vget_ok.2 hc.2.1, vget_ok.2 hc.2.2]
    simp only [bind, Except.bind]
    rw [h c (by simp)]
    simp only
    rw [ih (fun t ht => h t (by simp [ht]))]
    simp [add_assoc]

/-! ## A line in the plane of a triangle -/

/-- A point of the plane whose side product with an apex off the plane vanishes is on the line. -/
theorem on_line {t : Vec3 × Vec3 × Vec3} {p P x q : Vec3} (hp : side t p = 0) (hP : side t P = 0)
    (hx : side t x = 0) (hq : side t q ≠ 0) (hne : p ≠ P) (h : vol4 p P x q = 0) :
    ∃ s, x = lerp p P s := by
  obtain ⟨v1, v2, v3⟩ := t
  simp only [side] at hp hP hx hq
  rw [vol4_eq] at h
  generalize (v2.y - v1.y) * (v3.z - v1.z) - (v2.z - v1.z) * (v3.y - v1.y) = a at *
  generalize (v2.z - v1.z) * (v3.x - v1.x) - (v2.x - v1.x) * (v3.z - v1.z) = b at *
  generalize (v2.x - v1.x) * (v3.y - v1.y) - (v2.y - v1.y) * (v3.x - v1.x) = c at *
  -- direction and offset are orthogonal to the normal (a, b, c)
  have hU : a * (P.x - p.x) + b * (P.y - p.y) + c * (P.z - p.z) = 0 := by linarith
  have hw : a * (x.x - p.x) + b * (x.y - p.y) + c * (x.z - p.z) = 0 := by linarith
  have hr : a * (q.x - p.x) + b * (q.y - p.y) + c * (q.z - p.z) ≠ 0 := fun h => hq (by linarith)
  have hUne : ¬ (P.x - p.x = 0 ∧ P.y - p.y = 0 ∧ P.z - p.z = 0) := by
    rintro ⟨e1, e2, e3⟩; exact hne (by ext <;> linarith)
  suffices hs : ∃ s, x.x - p.x = s * (P.x - p.x) ∧ x.y - p.y = s * (P.y - p.y) ∧
      x.z - p.z = s * (P.z - p.z) by
    obtain ⟨s, h1, h2, h3⟩ := hs
    exact ⟨s, by ext <;> simp only [lerp] <;> linarith⟩
  generalize P.x - p.x = u1 at *
  generalize P.y - p.y = u2 at *
  generalize P.z - p.z = u3 at *
  generalize x.x - p.x = w1 at *
  generalize x.y - p.y = w2 at *
  generalize x.z - p.z = w3 at *
  generalize q.x - p.x = r1 at *
  generalize q.y - p.y = r2 at *
  generalize q.z - p.z = r3 at *
  have h' : (u2 * w3 - u3 * w2) * r1 + (u3 * w1 - u1 * w3) * r2 + (u1 * w2 - u2 * w1) * r3 = 0 := by
    linarith
  have k1 : (u2 * w3 - u3 * w2) * (a * r1 + b * r2 + c * r3) = 0 := by
    linear_combination a * h' - (r3 * w2 - r2 * w3) * hU - (r2 * u3 - r3 * u2) * hw
  have k2 : (u3 * w1 - u1 * w3) * (a * r1 + b * r2 + c * r3) = 0 := by
    linear_combination b * h' - (r1 * w3 - r3 * w1) * hU - (r3 * u1 - r1 * u3) * hw
  have k3 : (u1 * w2 - u2 * w1) * (a * r1 + b * r2 + c * r3) = 0 := by
    linear_combination c * h' - (r2 * w1 - r1 * w2) * hU - (r1 * u2 - r2 * u1) * hw
  have z1 := (mul_eq_zero.1 k1).resolve_right hr
  have z2 := (mul_eq_zero.1 k2).resolve_right hr
  have z3 := (mul_eq_zero.1 k3).resolve_right hr
  by_cases e1 : u1 = 0
  · by_cases e2 : u2 = 0
    · have e3 : u3 ≠ 0 := fun h => hUne ⟨e1, e2, h⟩
      refine ⟨w3 / u3, ?_, ?_, ?_⟩ <;> field_simp <;> linarith
    · refine ⟨w2 / u2, ?_, ?_, ?_⟩ <;> field_simp <;> linarith
  · refine ⟨w1 / u1, ?_, ?_, ?_⟩ <;> field_simp <;> linarith

theorem inTri_side {t : Vec3 × Vec3 × Vec3} {x : Vec3} (h : InTri t x) : side t x = 0 := by
  obtain ⟨v1, v2, v3⟩ := t
  obtain ⟨a, b, c, -, -, -, hs, rfl⟩ := h
  have e : a = 1 - b - c := by linarith
  subst e
  simp only [side]; ring

/-- If the edge test of `lineLinesegmentIntersection` succeeds with an apex off the plane, the line
meets the edge. -/
theorem edge_meets {t : Vec3 × Vec3 × Vec3} {p P x y q : Vec3} (hp : side t p = 0)
    (hP : side t P = 0) (hq : side t q ≠ 0) (hne : p ≠ P) (hx : InTri t x) (hy : InTri t y)
    (h : vol4 p P x q * vol4 p P y q ≤ 0) : ∃ s, InTri t (lerp p P s) := by
  have hconv : ∀ l, 0 ≤ l → l ≤ 1 → InTri t (lerp x y l) := by
    intro l l0 l1
    obtain ⟨a, b, c, ha, hb, hc, hs, rfl⟩ := hx
    obtain ⟨a', b', c', ha', hb', hc', hs', rfl⟩ := hy
    have m0 : 0 ≤ 1 - l := by linarith
    refine ⟨(1 - l) * a + l * a', (1 - l) * b + l * b', (1 - l) * c + l * c',
      by positivity, by positivity, by positivity, by linear_combination (1 - l) * hs + l * hs', ?_⟩
    ext <;> simp only [lerp] <;> ring
  obtain ⟨l, l0, l1, hl⟩ : ∃ l, 0 ≤ l ∧ l ≤ 1 ∧ vol4 p P (lerp x y l) q = 0 := by
    have lin : ∀ l, vol4 p P (lerp x y l) q = vol4 p P x q + l * (vol4 p P y q - vol4 p P x q) := by
      intro l; simp only [vol4_eq, lerp]; ring
    by_cases h0 : vol4 p P x q = 0
    · exact ⟨0, le_refl _, by norm_num, by rw [lin, h0]; ring⟩
    · have hd : vol4 p P x q - vol4 p P y q ≠ 0 := by
        intro hd
        have : vol4 p P y q = vol4 p P x q := by linarith
        rw [this] at h
        exact h0 (mul_self_eq_zero.1 (le_antisymm h (mul_self_nonneg _)))
      refine ⟨vol4 p P x q / (vol4 p P x q - vol4 p P y q), ?_, ?_, ?_⟩
      · rcases lt_or_gt_of_ne h0 with hl | hl
        · apply div_nonneg_of_nonpos hl.le; nlinarith
        · apply div_nonneg hl.le; nlinarith
      · rcases lt_or_gt_of_ne hd with hl | hl
        · rw [div_le_one_of_neg hl]; nlinarith
        · rw [div_le_one hl]; nlinarith
      · rw [lin]; field_simp; ring
  obtain ⟨s, hs⟩ := on_line hp hP (inTri_side (hconv l l0 l1)) hq hne hl
  exact ⟨s, hs ▸ hconv l l0 l1⟩

theorem inTri_corners (v1 v2 v3 : Vec3) : InTri (v1, v2, v3) v1 ∧ InTri (v1, v2, v3) v2 ∧
    InTri (v1, v2, v3) v3 := by
  refine ⟨⟨1, 0, 0, ?_⟩, ⟨0, 1, 0, ?_⟩, ⟨0, 0, 1, ?_⟩⟩ <;>
    exact ⟨by norm_num, by norm_num, by norm_num, by norm_num, by ext <;> simp⟩

/-- The coplanar test is exact, up to products that are non-zero but below its tolerance. -/
theorem compute2D_exact {v1 v2 v3 p P : Vec3} (hdeg : ¬ Collinear3 v1 v2 v3) (hne : p ≠ P)
    (hp : side (v1, v2, v3) p = 0) (hP : side (v1, v2, v3) P = 0)
    (htiny : ∀ q ∈ [(⟨v3.x + 1, v3.y, v3.z⟩ : Vec3), ⟨v3.x, v3.y + 1, v3.z⟩],
      vol4 p P v2 q = 0 ∨ 1e-16 ≤ |vol4 p P v2 q|) :
    compute2DIntersection ⟨v1, v2, v3⟩ (LS.new p P) = true ↔
      ∃ s, InTri (v1, v2, v3) (lerp p P s) := by
  have hcop : ∀ x y, side (v1, v2, v3) x = 0 → side (v1, v2, v3) y = 0 → vol4 p P x y = 0 := by
    intro x y hx hy
    rw [vol4_coplanar]
    refine ⟨⟨(v2.y - v1.y) * (v3.z - v1.z) - (v2.z - v1.z) * (v3.y - v1.y),
      (v2.z - v1.z) * (v3.x - v1.x) - (v2.x - v1.x) * (v3.z - v1.z),
      (v2.x - v1.x) * (v3.y - v1.y) - (v2.y - v1.y) * (v3.x - v1.x)⟩,
      ((v2.y - v1.y) * (v3.z - v1.z) - (v2.z - v1.z) * (v3.y - v1.y)) * v1.x +
      ((v2.z - v1.z) * (v3.x - v1.x) - (v2.x - v1.x) * (v3.z - v1.z)) * v1.y +
      ((v2.x - v1.x) * (v3.y - v1.y) - (v2.y - v1.y) * (v3.x - v1.x)) * v1.z, ?_, ?_⟩
    · intro h0
      apply hdeg
      rw [← cross_zero_collinear]
      simp only [Vec3.mk.injEq] at h0
      ext <;> simp only [Vec3.cross, Vec3.sub_x, Vec3.sub_y, Vec3.sub_z, Vec3.zero_x, Vec3.zero_y,
        Vec3.zero_z]
      · linear_combination h0.1
      · linear_combination h0.2.1
      · linear_combination h0.2.2
    · simp only [side] at hp hP hx hy
      intro q hq
      simp only [List.mem_cons, List.not_mem_nil, or_false] at hq
      rcases hq with rfl | rfl | rfl | rfl <;> simp only <;> linarith
  obtain ⟨c1, c2, c3⟩ := inTri_corners v1 v2 v3
  have s1 := inTri_side c1
  have s2 := inTri_side c2
  have s3 := inTri_side c3
  have h12 : sideProduct (LS.new p P) (LS.new v1 v2) = 0 := by rw [sideProduct_vol]; exact hcop _ _ s1 s2
  have h23 : sideProduct (LS.new p P) (LS.new v2 v3) = 0 := by rw [sideProduct_vol]; exact hcop _ _ s2 s3
  have h31 : sideProduct (LS.new p P) (LS.new v3 v1) = 0 := by rw [sideProduct_vol]; exact hcop _ _ s3 s1
  constructor
  · intro h
    generalize hq : displacedCorner ⟨v1, v2, v3⟩ (LS.new p P) = q at *
    by_cases hqs : side (v1, v2, v3) q = 0
    · -- the displaced corner is still in the plane
      have hv2 : ∃ q', side (v1, v2, v3) q' ≠ 0 ∧ vol4 p P v2 q' = 0 := by
        have aux : ∀ q', side (v1, v2, v3) q' = 0 →
            ¬ (|sideProduct (LS.new p P) (LS.new v2 q')| ≥ 1e-16 ∨
               |sideProduct (LS.new p P) (LS.new q' v1)| ≥ 1e-16) := by
          intro q' h'
          rw [sideProduct_vol, sideProduct_vol, hcop _ _ s2 h', hcop _ _ h' s1]
          norm_num
        unfold displacedCorner at hq
        simp only at hq
        split_ifs at hq with t0 t1
        · rw [← hq] at hqs
          exact absurd t0 (aux _ hqs)
        · rw [← hq] at hqs
          exact absurd t1 (aux _ hqs)
        · push Not at t0 t1
          by_cases n0 : side (v1, v2, v3) ⟨v3.x + 1, v3.y, v3.z⟩ = 0
          · by_cases n1 : side (v1, v2, v3) ⟨v3.x, v3.y + 1, v3.z⟩ = 0
            · exfalso
              rw [← hq] at hqs
              apply hdeg
              rw [← cross_zero_collinear]
              simp only [side] at n0 n1 hqs s3
              ext <;> simp only [Vec3.cross, Vec3.sub_x, Vec3.sub_y, Vec3.sub_z, Vec3.zero_x,
                Vec3.zero_y, Vec3.zero_z]
              · linear_combination n0 - s3
              · linear_combination n1 - s3
              · linear_combination hqs - s3
            · refine ⟨_, n1, ?_⟩
              rcases htiny ⟨v3.x, v3.y + 1, v3.z⟩ (by simp) with h' | h'
              · exact h'
              · rw [sideProduct_vol] at t1; linarith [t1.1]
          · refine ⟨_, n0, ?_⟩
            rcases htiny ⟨v3.x + 1, v3.y, v3.z⟩ (by simp) with h' | h'
            · exact h'
            · rw [sideProduct_vol] at t0; linarith [t0.1]
      obtain ⟨q', hq', hv⟩ := hv2
      obtain ⟨s, hs⟩ := on_line hp hP s2 hq' hne hv
      exact ⟨s, hs ▸ c2⟩
    · -- proper apex
      have rev : ∀ x, sideProduct (LS.new p P) (LS.new q x) = -vol4 p P x q := by
        intro x; rw [sideProduct_vol]; simp only [vol4_eq]; ring
      unfold compute2DIntersection at h
      rw [hq] at h
      simp only [List.any_cons, List.any_nil, Bool.or_false, Bool.or_eq_true, Bool.and_eq_true,
        decide_eq_true_eq, rev, sideProduct_vol] at h
      rcases h with ⟨h, -⟩ | ⟨h, -⟩ | ⟨h, -⟩
      · exact edge_meets hp hP hqs hne c1 c2 (by linarith)
      · exact edge_meets hp hP hqs hne c2 c3 (by linarith)
      · exact edge_meets hp hP hqs hne c3 c1 (by linarith)
  · rintro ⟨s, hx⟩
    -- the point of the triangle on the line plays the role of the start of the line
    have hsp : ∀ x y, sideProduct (LS.new p P) (LS.new x y) = vol4 p P x y := sideProduct_vol p P
    obtain ⟨a, b, c, ha, hb, hc, hsum, hxe⟩ := hx
    have hlin : ∀ q, a * vol4 p P v1 q + b * vol4 p P v2 q + c * vol4 p P v3 q = 0 := by
      intro q
      have e1 : a * vol4 p P v1 q + b * vol4 p P v2 q + c * vol4 p P v3 q =
          vol4 p P ⟨a * v1.x + b * v2.x + c * v3.x, a * v1.y + b * v2.y + c * v3.y,
          a * v1.z + b * v2.z + c * v3.z⟩ q := by
        have e : a = 1 - b - c := by linarith
        subst e
        simp only [vol4_eq]; ring
      rw [e1, ← hxe]
      simp only [vol4_eq, lerp]; ring
    unfold compute2DIntersection
    generalize displacedCorner ⟨v1, v2, v3⟩ (LS.new p P) = q
    have rev : ∀ x, sideProduct (LS.new p P) (LS.new q x) = -vol4 p P x q := by
      intro x; rw [sideProduct_vol]; simp only [vol4_eq]; ring
    have key := weights_sign ha hb hc hsum (hlin q)
    simp only [List.any_cons, List.any_nil, Bool.or_false, Bool.or_eq_true, Bool.and_eq_true,
        decide_eq_true_eq, rev, lineLinesegmentIntersection, h12, h23, h31, LS.new_a, LS.new_b,
        ne_eq, not_true_eq_false, if_false]
    simp only [hsp]
    rcases key with k | k | k
    · left; exact ⟨by linarith, Or.inl (by linarith)⟩
    · right; left; exact ⟨by linarith, Or.inr (Or.inl (by linarith))⟩
    · right; right; exact ⟨by linarith, Or.inr (Or.inr (by linarith))⟩

end Geo
