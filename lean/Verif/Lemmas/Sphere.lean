import Verif.Lemmas.Shape

/-! # Helper lemmas about the sphere test of mesh shapes -/

namespace Geo
open Spec

/-- Numerator of a barycentric coordinate of the projection of `p`. -/
def bary (e v p n : Vec3) : ℝ := (e.cross (p - v)).dot n

theorem bary_sum (v1 v2 v3 p : Vec3) :
    let n := (v2 - v1).cross (v3 - v2)
    bary (v2 - v1) v1 p n + bary (v3 - v2) v2 p n + bary (v1 - v3) v3 p n = n.length2 := by
  simp only [bary, Vec3.cross, Vec3.dot, Vec3.length2, Vec3.sub_x, Vec3.sub_y, Vec3.sub_z]; ring

theorem bary_point (v1 v2 v3 p : Vec3) :
    let n := (v2 - v1).cross (v3 - v2)
    let k := (v1 - p).dot n
    let b1 := bary (v2 - v1) v1 p n
    let b2 := bary (v3 - v2) v2 p n
    let b3 := bary (v1 - v3) v3 p n
    n.length2 * p.x + k * n.x = b2 * v1.x + b3 * v2.x + b1 * v3.x ∧
    n.length2 * p.y + k * n.y = b2 * v1.y + b3 * v2.y + b1 * v3.y ∧
    n.length2 * p.z + k * n.z = b2 * v1.z + b3 * v2.z + b1 * v3.z := by
  simp only [bary, Vec3.cross, Vec3.dot, Vec3.length2, Vec3.sub_x, Vec3.sub_y, Vec3.sub_z]
  refine ⟨?_, ?_, ?_⟩ <;> ring

/-- Products of two of the cross products of the surface test. -/
theorem dots (a b w : Vec3) (t : ℝ) :
    let n := a.cross b
    let c : Vec3 := ⟨-a.x - b.x, -a.y - b.y, -a.z - b.z⟩
    let c1 := a.cross (⟨w.x - t * n.x, w.y - t * n.y, w.z - t * n.z⟩)
    let c2 := b.cross (⟨w.x - a.x - t * n.x, w.y - a.y - t * n.y, w.z - a.z - t * n.z⟩)
    let c3 := c.cross (⟨w.x - a.x - b.x - t * n.x, w.y - a.y - b.y - t * n.y, w.z - a.z - b.z - t * n.z⟩)
    let B1 := (a.cross w).dot n
    let B2 := (b.cross ⟨w.x - a.x, w.y - a.y, w.z - a.z⟩).dot n
    let B3 := (c.cross ⟨w.x - a.x - b.x, w.y - a.y - b.y, w.z - a.z - b.z⟩).dot n
    let h := t * n.length2 - w.dot n
    n.length2 * c1.dot c2 = B1 * B2 + h ^ 2 * a.dot b ∧
    n.length2 * c2.dot c3 = B2 * B3 + h ^ 2 * b.dot c ∧
    n.length2 * c3.dot c1 = B3 * B1 + h ^ 2 * c.dot a := by
  simp only [Vec3.cross, Vec3.dot, Vec3.length2]
  refine ⟨?_, ?_, ?_⟩ <;> ring

theorem dots' (v1 v2 v3 p : Vec3) (t : ℝ) :
    let e1 := v2 - v1
    let e2 := v3 - v2
    let e3 := v1 - v3
    let n := e1.cross e2
    let q := p - t * n
    let h := t * n.length2 + (v1 - p).dot n
    n.length2 * (e1.cross (q - v1)).dot (e2.cross (q - v2)) =
      bary e1 v1 p n * bary e2 v2 p n + h ^ 2 * e1.dot e2 ∧
    n.length2 * (e2.cross (q - v2)).dot (e3.cross (q - v3)) =
      bary e2 v2 p n * bary e3 v3 p n + h ^ 2 * e2.dot e3 ∧
    n.length2 * (e3.cross (q - v3)).dot (e1.cross (q - v1)) =
      bary e3 v3 p n * bary e1 v1 p n + h ^ 2 * e3.dot e1 := by
  have h := dots (v2 - v1) (v3 - v2) (p - v1) t
  simp only at h ⊢
  obtain ⟨h1, h2, h3⟩ := h
  have E3 : (⟨-(v2 - v1).x - (v3 - v2).x, -(v2 - v1).y - (v3 - v2).y,
      -(v2 - v1).z - (v3 - v2).z⟩ : Vec3) = v1 - v3 := by
    ext <;> simp
  have W2 : (⟨(p - v1).x - (v2 - v1).x, (p - v1).y - (v2 - v1).y, (p - v1).z - (v2 - v1).z⟩ : Vec3)
      = p - v2 := by
    ext <;> simp
  have W3 : (⟨(p - v1).x - (v2 - v1).x - (v3 - v2).x, (p - v1).y - (v2 - v1).y - (v3 - v2).y,
      (p - v1).z - (v2 - v1).z - (v3 - v2).z⟩ : Vec3) = p - v3 := by
    ext <;> simp
  generalize hn : (v2 - v1).cross (v3 - v2) = n at *
  have Q1 : (⟨(p - v1).x - t * n.x, (p - v1).y - t * n.y, (p - v1).z - t * n.z⟩ : Vec3) =
      p - t * n - v1 := by
    ext <;> simp <;> ring
  have Q2 : (⟨(p - v1).x - (v2 - v1).x - t * n.x, (p - v1).y - (v2 - v1).y - t * n.y,
      (p - v1).z - (v2 - v1).z - t * n.z⟩ : Vec3) = p - t * n - v2 := by
    ext <;> simp <;> ring
  have Q3 : (⟨(p - v1).x - (v2 - v1).x - (v3 - v2).x - t * n.x,
      (p - v1).y - (v2 - v1).y - (v3 - v2).y - t * n.y,
      (p - v1).z - (v2 - v1).z - (v3 - v2).z - t * n.z⟩ : Vec3) = p - t * n - v3 := by
    ext <;> simp <;> ring
  have H : t * n.length2 - (p - v1).dot n = t * n.length2 + (v1 - p).dot n := by
    simp only [Vec3.dot, Vec3.sub_x, Vec3.sub_y, Vec3.sub_z]; ring
  rw [Q1, Q2, H, W2] at h1
  rw [Q2, Q3, H, W2, W3, E3] at h2
  rw [Q3, Q1, H, W3, E3] at h3
  exact ⟨h1, h2, h3⟩

theorem normal_scale {n : Vec3} (k : ℝ) (hn : n.length2 ≠ 0) :
    Real.sqrt (k * k / n.length2) * n.normalized = (|k| / n.length2) * n := by
  have hpos : 0 < n.length2 := lt_of_le_of_ne (Mesh.length2_nonneg n) (Ne.symm hn)
  have hl : n.length = Real.sqrt n.length2 := rfl
  have hs : Real.sqrt n.length2 * Real.sqrt n.length2 = n.length2 := Real.mul_self_sqrt hpos.le
  have hs0 : Real.sqrt n.length2 ≠ 0 := (Real.sqrt_pos.2 hpos).ne'
  have e : Real.sqrt (k * k / n.length2) = |k| / Real.sqrt n.length2 := by
    rw [Real.sqrt_div (mul_self_nonneg k), Real.sqrt_mul_self_eq_abs]
  have key : ∀ c : ℝ, c / Real.sqrt n.length2 * (|k| / Real.sqrt n.length2) =
      c * (|k| / n.length2) := by
    intro c
    rw [div_mul_div_comm, hs]; ring
  ext
  · simp only [Vec3.smul_x, Vec3.normalized, hl, e]; exact key _
  · simp only [Vec3.smul_y, Vec3.normalized, hl, e]; exact key _
  · simp only [Vec3.smul_z, Vec3.normalized, hl, e]; exact key _

/-- The squared-distance reading of `length2` of a difference. -/
theorem length2_sub (u v : Vec3) : (u - v).length2 = distSq u v := by
  simp only [Vec3.length2, distSq, Vec3.sub_x, Vec3.sub_y, Vec3.sub_z]; ring

/-- Soundness of `checkLinesegment`. -/
theorem checkLinesegment_sound {p a b : Vec3} {R2 : ℝ}
    (h : checkLinesegment p R2 a (b - a) = true) :
    ∃ s : ℝ, 0 ≤ s ∧ s ≤ 1 ∧
      distSq p ⟨(1 - s) * a.x + s * b.x, (1 - s) * a.y + s * b.y, (1 - s) * a.z + s * b.z⟩ ≤
        R2 * (1 + 1e-9) + 1e-18 * distSq a b := by
  unfold checkLinesegment at h
  simp only at h
  split_ifs at h with h0 h1
  push Not at h0
  rw [decide_eq_true_eq] at h
  obtain ⟨ha, hb⟩ := h
  have hL : (b - a).length2 = distSq a b := by rw [length2_sub, distSq_comm']
  have hL0 : 0 < distSq a b :=
    lt_of_le_of_ne (by rw [← hL]; exact Mesh.length2_nonneg _) (by rw [← hL]; exact Ne.symm h1)
  rw [hL] at ha hb h1
  rw [length2_sub] at hb
  obtain ⟨τ, hτ⟩ : ∃ τ, (b - a).dot (p - a) = τ * distSq a b :=
    ⟨(b - a).dot (p - a) / distSq a b, by field_simp⟩
  have hd : ∀ s : ℝ, distSq p ⟨(1 - s) * a.x + s * b.x, (1 - s) * a.y + s * b.y,
      (1 - s) * a.z + s * b.z⟩ = distSq p a - 2 * s * (τ * distSq a b) + s ^ 2 * distSq a b := by
    intro s
    rw [← hτ]
    simp only [distSq, Vec3.dot, Vec3.sub_x, Vec3.sub_y, Vec3.sub_z]; ring
  rw [hτ] at h0 ha hb
  have hdd : τ * distSq a b * (τ * distSq a b) / distSq a b = τ ^ 2 * distSq a b := by
    field_simp
  rw [hdd] at ha hb
  have hτ0 : 0 ≤ τ := by
    by_contra hn
    push Not at hn
    have := mul_neg_of_neg_of_pos hn hL0
    linarith
  have hτ2 : τ ^ 2 ≤ 1 + 1e-9 := by
    by_contra hn
    push Not at hn
    have := mul_lt_mul_of_pos_right hn hL0
    linarith
  rcases le_total τ 1 with h | h
  · refine ⟨τ, hτ0, h, ?_⟩
    rw [hd]
    have : (0:ℝ) ≤ 1e-18 * distSq a b := by positivity
    nlinarith
  · refine ⟨1, by norm_num, le_refl _, ?_⟩
    rw [hd]
    have h3 : τ - 1 ≤ 1e-9 := by nlinarith
    have h4 : (τ - 1) ^ 2 ≤ 1e-18 := by
      have : (0:ℝ) ≤ τ - 1 := by linarith
      nlinarith
    have := mul_le_mul_of_nonneg_right h4 hL0.le
    nlinarith

/-- Soundness of one iteration of the sphere test. -/
theorem sphereHits_sound {p v1 v2 v3 : Vec3} {R2 : ℝ} (hR : 0 ≤ R2)
    (h : Shape.sphereHitsTriangle p R2 v1 v2 v3 = true) :
    ∃ x, InTri (v1, v2, v3) x ∧ ∃ e ∈ rim (v1, v2, v3),
      distSq p x ≤ R2 * (1 + 1e-9) + 1e-18 * distSq e.1 e.2 := by
  have hR' : R2 ≤ R2 * (1 + 1e-9) := by linarith
  have hnn : ∀ e : Vec3 × Vec3, 0 ≤ 1e-18 * distSq e.1 e.2 := by
    intro e; unfold distSq; positivity
  unfold Shape.sphereHitsTriangle at h
  simp only [length2_sub] at h
  split_ifs at h with h1 h2 h3 h4 h5 h6 h7 h8
  · refine ⟨v1, ⟨1, 0, 0, by norm_num, by norm_num, by norm_num, by norm_num, by ext <;> simp⟩,
      (v1, v2), by simp [rim], ?_⟩
    rw [distSq_comm'] at h1
    have := hnn (v1, v2); linarith
  · refine ⟨v2, ⟨0, 1, 0, by norm_num, by norm_num, by norm_num, by norm_num, by ext <;> simp⟩,
      (v1, v2), by simp [rim], ?_⟩
    rw [distSq_comm'] at h2
    have := hnn (v1, v2); linarith
  · refine ⟨v3, ⟨0, 0, 1, by norm_num, by norm_num, by norm_num, by norm_num, by ext <;> simp⟩,
      (v1, v2), by simp [rim], ?_⟩
    rw [distSq_comm'] at h3
    have := hnn (v1, v2); linarith
  · obtain ⟨s, s0, s1, hs⟩ := checkLinesegment_sound h4
    exact ⟨_, ⟨1 - s, s, 0, by linarith, s0, le_refl _, by ring, by ext <;> simp⟩,
      (v1, v2), by simp [rim], hs⟩
  · obtain ⟨s, s0, s1, hs⟩ := checkLinesegment_sound h5
    exact ⟨_, ⟨0, 1 - s, s, le_refl _, by linarith, s0, by ring, by ext <;> simp⟩,
      (v2, v3), by simp [rim], hs⟩
  · obtain ⟨s, s0, s1, hs⟩ := checkLinesegment_sound h6
    exact ⟨_, ⟨s, 0, 1 - s, s0, le_refl _, by linarith, by ring, by ext <;> simp <;> ring⟩,
      (v3, v1), by simp [rim], hs⟩
  · rw [decide_eq_true_eq] at h
    rw [normal_scale _ h7] at h
    obtain ⟨d1, d2, d3⟩ := h
    have hsum := bary_sum v1 v2 v3 p
    have hpt := bary_point v1 v2 v3 p
    have hdots := dots' v1 v2 v3 p
      (|(v1 - p).dot ((v2 - v1).cross (v3 - v2))| / ((v2 - v1).cross (v3 - v2)).length2)
    simp only at hsum hpt hdots
    have s12 : (v2 - v1).dot (v3 - v2) + (v1 - v3).dot (v2 - v1) = -(v2 - v1).length2 := by
      simp only [Vec3.dot, Vec3.length2, Vec3.sub_x, Vec3.sub_y, Vec3.sub_z]; ring
    have s23 : (v2 - v1).dot (v3 - v2) + (v3 - v2).dot (v1 - v3) = -(v3 - v2).length2 := by
      simp only [Vec3.dot, Vec3.length2, Vec3.sub_x, Vec3.sub_y, Vec3.sub_z]; ring
    have s31 : (v3 - v2).dot (v1 - v3) + (v1 - v3).dot (v2 - v1) = -(v1 - v3).length2 := by
      simp only [Vec3.dot, Vec3.length2, Vec3.sub_x, Vec3.sub_y, Vec3.sub_z]; ring
    have l1 := Mesh.length2_nonneg (v2 - v1)
    have l2 := Mesh.length2_nonneg (v3 - v2)
    have l3 := Mesh.length2_nonneg (v1 - v3)
    have hpos : 0 < ((v2 - v1).cross (v3 - v2)).length2 :=
      lt_of_le_of_ne (Mesh.length2_nonneg _) (Ne.symm h7)
    obtain ⟨g1, g2, g3⟩ := hdots
    have d1' := mul_pos hpos d1
    have d2' := mul_pos hpos d2
    have d3' := mul_pos hpos d3
    rw [g1] at d1'
    rw [g2] at d2'
    rw [g3] at d3'
    clear g1 g2 g3 d1 d2 d3
    push Not at h8
    have hk : distSq p ⟨p.x + (v1 - p).dot ((v2 - v1).cross (v3 - v2)) /
        ((v2 - v1).cross (v3 - v2)).length2 * ((v2 - v1).cross (v3 - v2)).x,
        p.y + (v1 - p).dot ((v2 - v1).cross (v3 - v2)) /
        ((v2 - v1).cross (v3 - v2)).length2 * ((v2 - v1).cross (v3 - v2)).y,
        p.z + (v1 - p).dot ((v2 - v1).cross (v3 - v2)) /
        ((v2 - v1).cross (v3 - v2)).length2 * ((v2 - v1).cross (v3 - v2)).z⟩ =
        (v1 - p).dot ((v2 - v1).cross (v3 - v2)) * (v1 - p).dot ((v2 - v1).cross (v3 - v2)) /
        ((v2 - v1).cross (v3 - v2)).length2 := by
      generalize (v2 - v1).cross (v3 - v2) = n at *
      generalize (v1 - p).dot n = k at *
      have hN : n.length2 = n.x ^ 2 + n.y ^ 2 + n.z ^ 2 := by simp only [Vec3.length2]; ring
      unfold distSq
      simp only
      rw [show (p.x - (p.x + k / n.length2 * n.x)) ^ 2 + (p.y - (p.y + k / n.length2 * n.y)) ^ 2 +
        (p.z - (p.z + k / n.length2 * n.z)) ^ 2 =
        (k / n.length2) ^ 2 * (n.x ^ 2 + n.y ^ 2 + n.z ^ 2) by ring, ← hN]
      field_simp
    rw [← hk] at h8
    refine ⟨_, ?_, (v1, v2), by simp [rim], le_trans h8 (by have := hnn (v1, v2); linarith)⟩
    clear hk h8
    generalize (v2 - v1).cross (v3 - v2) = n at *
    generalize (v1 - p).dot n = k at *
    generalize bary (v2 - v1) v1 p n = b1 at *
    generalize bary (v3 - v2) v2 p n = b2 at *
    generalize bary (v1 - v3) v3 p n = b3 at *
    have hh := sq_nonneg (|k| / n.length2 * n.length2 + k)
    generalize (|k| / n.length2 * n.length2 + k) ^ 2 = H at *
    generalize n.length2 = N at *
    have pos : ∀ b : ℝ, 0 < b * (N - b) → 0 ≤ b := by
      intro b hb
      by_contra hn
      push Not at hn
      have : 0 < N - b := by linarith
      have := mul_neg_of_neg_of_pos hn this
      linarith
    have p1 : 0 ≤ b1 := by
      apply pos
      have e : b1 * (N - b1) = b1 * b2 + b3 * b1 := by rw [← hsum]; ring
      have := mul_nonneg hh l1
      have e' : H * (v2 - v1).dot (v3 - v2) + H * (v1 - v3).dot (v2 - v1) = -(H * (v2 - v1).length2) := by
        rw [← mul_add, s12]; ring
      rw [e]; linarith
    have p2 : 0 ≤ b2 := by
      apply pos
      have e : b2 * (N - b2) = b1 * b2 + b2 * b3 := by rw [← hsum]; ring
      have := mul_nonneg hh l2
      have e' : H * (v2 - v1).dot (v3 - v2) + H * (v3 - v2).dot (v1 - v3) = -(H * (v3 - v2).length2) := by
        rw [← mul_add, s23]; ring
      rw [e]; linarith
    have p3 : 0 ≤ b3 := by
      apply pos
      have e : b3 * (N - b3) = b2 * b3 + b3 * b1 := by rw [← hsum]; ring
      have := mul_nonneg hh l3
      have e' : H * (v3 - v2).dot (v1 - v3) + H * (v1 - v3).dot (v2 - v1) = -(H * (v1 - v3).length2) := by
        rw [← mul_add, s31]; ring
      rw [e]; linarith
    obtain ⟨q1, q2, q3⟩ := hpt
    refine ⟨b2 / N, b3 / N, b1 / N, by positivity, by positivity, by positivity, ?_, ?_⟩
    · field_simp; linarith
    · ext
      · field_simp; linarith
      · field_simp; linarith
      · field_simp; linarith

/-! ## Completeness -/

theorem hit_zero {a b c a' b' c' : ℝ} (ha : 0 ≤ a) (hb : 0 ≤ b) (hc : 0 ≤ c)
    (h : a' ≤ 0 ∨ b' ≤ 0 ∨ c' ≤ 0) : ∃ l : ℝ, 0 ≤ l ∧ l ≤ 1 ∧ 0 ≤ a + l * (a' - a) ∧
      0 ≤ b + l * (b' - b) ∧ 0 ≤ c + l * (c' - c) ∧
      (a + l * (a' - a) = 0 ∨ b + l * (b' - b) = 0 ∨ c + l * (c' - c) = 0) := by
  let m : ℝ → ℝ := fun l => min (a + l * (a' - a)) (min (b + l * (b' - b)) (c + l * (c' - c)))
  have hm : Continuous m := by fun_prop
  have h0 : 0 ≤ m 0 := by simp [m, ha, hb, hc]
  have h1 : m 1 ≤ 0 := by
    simp only [m, one_mul, add_sub_cancel]
    rcases h with h | h | h
    · exact (min_le_left _ _).trans h
    · exact (min_le_right _ _).trans ((min_le_left _ _).trans h)
    · exact (min_le_right _ _).trans ((min_le_right _ _).trans h)
  obtain ⟨l, ⟨l0, l1⟩, hl⟩ := intermediate_value_Icc' (zero_le_one) hm.continuousOn
    (show (0:ℝ) ∈ Set.Icc (m 1) (m 0) from ⟨h1, h0⟩)
  have e1 : m l ≤ a + l * (a' - a) := min_le_left _ _
  have e2 : m l ≤ b + l * (b' - b) := (min_le_right _ _).trans (min_le_left _ _)
  have e3 : m l ≤ c + l * (c' - c) := (min_le_right _ _).trans (min_le_right _ _)
  refine ⟨l, l0, l1, by linarith, by linarith, by linarith, ?_⟩
  rcases min_choice (a + l * (a' - a)) (min (b + l * (b' - b)) (c + l * (c' - c))) with h | h
  · left; rw [← h]; exact hl
  · rcases min_choice (b + l * (b' - b)) (c + l * (c' - c)) with h' | h'
    · right; left; rw [← h', ← h]; exact hl
    · right; right; rw [← h', ← h]; exact hl

/-- Completeness of the edge test together with the two vertex tests. -/
theorem edge_complete {p a b : Vec3} {R2 s : ℝ} (s0 : 0 ≤ s) (s1 : s ≤ 1)
    (h : distSq p ⟨(1 - s) * a.x + s * b.x, (1 - s) * a.y + s * b.y, (1 - s) * a.z + s * b.z⟩ < R2) :
    distSq a p < R2 ∨ distSq b p < R2 ∨ checkLinesegment p R2 a (b - a) = true := by
  have hR : 0 < R2 := lt_of_le_of_lt (by unfold distSq; positivity) h
  have hL : (b - a).length2 = distSq a b := by rw [length2_sub, distSq_comm']
  have hLn : 0 ≤ distSq a b := by unfold distSq; positivity
  have hd : ∀ s : ℝ, distSq p ⟨(1 - s) * a.x + s * b.x, (1 - s) * a.y + s * b.y,
      (1 - s) * a.z + s * b.z⟩ =
      distSq p a - 2 * s * (b - a).dot (p - a) + s ^ 2 * distSq a b := by
    intro s
    simp only [distSq, Vec3.dot, Vec3.sub_x, Vec3.sub_y, Vec3.sub_z]; ring
  have hb1 : distSq p b = distSq p a - 2 * (b - a).dot (p - a) + distSq a b := by
    simp only [distSq, Vec3.dot, Vec3.sub_x, Vec3.sub_y, Vec3.sub_z]; ring
  rw [distSq_comm' a p, distSq_comm' b p]
  rw [hd] at h
  unfold checkLinesegment
  simp only [length2_sub, hL]
  by_cases h0 : (b - a).dot (p - a) < 0
  · left
    have : 0 ≤ s * -((b - a).dot (p - a)) := mul_nonneg s0 (by linarith)
    have := mul_nonneg (sq_nonneg s) hLn
    linarith
  · by_cases hz : distSq a b = 0
    · left
      have hx : b = a := by
        have : (b - a) = 0 := length2_eq_zero.1 (by rw [hL, hz])
        have ex := congrArg Vec3.x this
        have ey := congrArg Vec3.y this
        have ez := congrArg Vec3.z this
        simp at ex ey ez
        ext <;> linarith
      have hdot : (b - a).dot (p - a) = 0 := by
        subst hx; simp [Vec3.dot]
      rw [hdot, hz] at h; linarith
    · have hLp : 0 < distSq a b := lt_of_le_of_ne hLn (Ne.symm hz)
      push Not at h0
      rw [if_neg (not_lt.2 h0), if_neg hz, decide_eq_true_eq]
      obtain ⟨τ, hτ⟩ : ∃ τ, (b - a).dot (p - a) = τ * distSq a b :=
        ⟨(b - a).dot (p - a) / distSq a b, by field_simp⟩
      rw [hτ] at h h0 hb1 ⊢
      have hdd : τ * distSq a b * (τ * distSq a b) / distSq a b = τ ^ 2 * distSq a b := by
        field_simp
      rw [hdd]
      have hτ0 : 0 ≤ τ := by
        by_contra hn
        push Not at hn
        have := mul_neg_of_neg_of_pos hn hLp
        linarith
      generalize distSq a b = L at *
      generalize distSq p a = A at *
      rcases le_total τ 1 with ht | ht
      · right; right
        have e1 : τ ^ 2 ≤ 1 := by nlinarith
        have e2 := mul_le_mul_of_nonneg_right e1 hLp.le
        have e3 : 0 ≤ (s - τ) ^ 2 * L := mul_nonneg (sq_nonneg _) hLp.le
        have e4 : (s - τ) ^ 2 * L = s ^ 2 * L - 2 * s * (τ * L) + τ ^ 2 * L := by ring
        constructor <;> linarith
      · right; left
        rw [hb1]
        have e3 : 0 ≤ (1 - s) * ((2 * τ - 1 - s) * L) :=
          mul_nonneg (by linarith) (mul_nonneg (by linarith) hLp.le)
        have e4 : (1 - s) * ((2 * τ - 1 - s) * L) =
          2 * (τ * L) - 2 * s * (τ * L) - L + s ^ 2 * L := by ring
        linarith

theorem sphereHits_rim {p v1 v2 v3 y : Vec3} {R2 : ℝ} (hy : OnRim (v1, v2, v3) y)
    (h : distSq p y < R2) : Shape.sphereHitsTriangle p R2 v1 v2 v3 = true := by
  unfold Shape.sphereHitsTriangle
  simp only [length2_sub]
  have key : distSq v1 p < R2 ∨ distSq v2 p < R2 ∨ distSq v3 p < R2 ∨
      checkLinesegment p R2 v1 (v2 - v1) = true ∨ checkLinesegment p R2 v2 (v3 - v2) = true ∨
      checkLinesegment p R2 v3 (v1 - v3) = true := by
    obtain ⟨a, b, c, ha, hb, hc, hs, hz, rfl⟩ := hy
    simp only at h
    rcases hz with rfl | rfl | rfl
    · have := edge_complete (p := p) (a := v2) (b := v3) (s := c) (R2 := R2) hc (by linarith) (by
        rw [show 1 - c = b by linarith]; simpa using h)
      rcases this with h | h | h <;> simp [h]
    · have := edge_complete (p := p) (a := v3) (b := v1) (s := a) (R2 := R2) ha (by linarith) (by
        rw [show 1 - a = c by linarith]; simpa [add_comm] using h)
      rcases this with h | h | h <;> simp [h]
    · have := edge_complete (p := p) (a := v1) (b := v2) (s := b) (R2 := R2) hb (by linarith) (by
        rw [show 1 - b = a by linarith]; simpa using h)
      rcases this with h | h | h <;> simp [h]
  rcases key with h | h | h | h | h | h <;> simp [h]

/-- In a degenerate triangle every point is on the rim. -/
theorem rim_of_degenerate {v1 v2 v3 x : Vec3} (hn : Collinear3 v1 v2 v3)
    (hx : InTri (v1, v2, v3) x) : OnRim (v1, v2, v3) x := by
  obtain ⟨a, b, c, ha, hb, hc, hs, rfl⟩ := hx
  obtain ⟨α, β, γ, h0, hsum, ex, ey, ez⟩ := hn
  have hneg : α < 0 ∨ β < 0 ∨ γ < 0 := by
    by_contra hcon
    push Not at hcon
    obtain ⟨h1, h2, h3⟩ := hcon
    rcases h0 with h | h | h
    · exact h (by linarith)
    · exact h (by linarith)
    · exact h (by linarith)
  obtain ⟨T, hT⟩ : ∃ T : ℝ, a + T * α ≤ 0 ∨ b + T * β ≤ 0 ∨ c + T * γ ≤ 0 := by
    rcases hneg with h | h | h
    · exact ⟨-a / α, Or.inl (by rw [div_mul_cancel₀ _ h.ne]; linarith)⟩
    · exact ⟨-b / β, Or.inr (Or.inl (by rw [div_mul_cancel₀ _ h.ne]; linarith))⟩
    · exact ⟨-c / γ, Or.inr (Or.inr (by rw [div_mul_cancel₀ _ h.ne]; linarith))⟩
  obtain ⟨l, l0, l1, g1, g2, g3, g⟩ := hit_zero ha hb hc hT
  refine ⟨_, _, _, g1, g2, g3, ?_, g, ?_⟩
  · linear_combination hs + l * T * hsum
  · ext
    · simp only; linear_combination -(l * T) * ex
    · simp only; linear_combination -(l * T) * ey
    · simp only; linear_combination -(l * T) * ez

theorem sphereHits_complete {p v1 v2 v3 x : Vec3} {R2 : ℝ} (hx : InTri (v1, v2, v3) x)
    (h : distSq p x < R2) (hfront : 0 ≤ side (v1, v2, v3) p) :
    Shape.sphereHitsTriangle p R2 v1 v2 v3 = true := by
  by_cases hn : ((v2 - v1).cross (v3 - v2)).length2 = 0
  · have hcol : Collinear3 v1 v2 v3 := by
      rw [← cross_zero_collinear]
      have h0 := length2_eq_zero.1 hn
      have ex := congrArg Vec3.x h0
      have ey := congrArg Vec3.y h0
      have ez := congrArg Vec3.z h0
      simp only [Vec3.cross, Vec3.sub_x, Vec3.sub_y, Vec3.sub_z, Vec3.zero_x, Vec3.zero_y,
        Vec3.zero_z] at ex ey ez
      ext <;> simp only [Vec3.cross, Vec3.sub_x, Vec3.sub_y, Vec3.sub_z, Vec3.zero_x, Vec3.zero_y,
        Vec3.zero_z]
      · linear_combination ex
      · linear_combination ey
      · linear_combination ez
    exact sphereHits_rim (rim_of_degenerate hcol hx) h
  have hN : 0 < ((v2 - v1).cross (v3 - v2)).length2 :=
    lt_of_le_of_ne (Mesh.length2_nonneg _) (Ne.symm hn)
  have hsum := bary_sum v1 v2 v3 p
  have hpt := bary_point v1 v2 v3 p
  have hdots := dots' v1 v2 v3 p
      (|(v1 - p).dot ((v2 - v1).cross (v3 - v2))| / ((v2 - v1).cross (v3 - v2)).length2)
  have hk : (v1 - p).dot ((v2 - v1).cross (v3 - v2)) ≤ 0 := by
    have : (v1 - p).dot ((v2 - v1).cross (v3 - v2)) = -side (v1, v2, v3) p := by
      simp only [Vec3.dot, Vec3.cross, Vec3.sub_x, Vec3.sub_y, Vec3.sub_z, side]; ring
    rw [this]; linarith
  have hkx : (v1 - p).dot ((v2 - v1).cross (v3 - v2)) =
      (x - p).dot ((v2 - v1).cross (v3 - v2)) := by
    obtain ⟨a, b, c, ha, hb, hc, hs, rfl⟩ := hx
    have e : a = 1 - b - c := by linarith
    subst e
    simp only [Vec3.dot, Vec3.cross, Vec3.sub_x, Vec3.sub_y, Vec3.sub_z]; ring
  simp only at hsum hpt hdots
  by_cases hall : 0 < bary (v2 - v1) v1 p ((v2 - v1).cross (v3 - v2)) ∧
      0 < bary (v3 - v2) v2 p ((v2 - v1).cross (v3 - v2)) ∧
      0 < bary (v1 - v3) v3 p ((v2 - v1).cross (v3 - v2))
  · -- projection inside
    have hpd : (v1 - p).dot ((v2 - v1).cross (v3 - v2)) * (v1 - p).dot ((v2 - v1).cross (v3 - v2)) /
        ((v2 - v1).cross (v3 - v2)).length2 ≤ R2 := by
      rw [div_le_iff₀ hN]
      have cs : (x - p).dot ((v2 - v1).cross (v3 - v2)) * (x - p).dot ((v2 - v1).cross (v3 - v2)) ≤
          distSq p x * ((v2 - v1).cross (v3 - v2)).length2 := by
        generalize (v2 - v1).cross (v3 - v2) = n
        have : distSq p x * n.length2 - (x - p).dot n * (x - p).dot n =
          ((x.x - p.x) * n.y - (x.y - p.y) * n.x) ^ 2 + ((x.y - p.y) * n.z - (x.z - p.z) * n.y) ^ 2 +
          ((x.z - p.z) * n.x - (x.x - p.x) * n.z) ^ 2 := by
          simp only [distSq, Vec3.dot, Vec3.length2, Vec3.sub_x, Vec3.sub_y, Vec3.sub_z]; ring
        have : 0 ≤ distSq p x * n.length2 - (x - p).dot n * (x - p).dot n := by
          rw [this]; positivity
        linarith
      rw [hkx]
      exact cs.trans (mul_le_mul_of_nonneg_right h.le hN.le)
    unfold Shape.sphereHitsTriangle
    simp only [length2_sub, hn, if_false, if_neg (not_lt.2 hpd), normal_scale _ hn]
    have hd : 0 < (((v2 - v1).cross (p - (|(v1 - p).dot ((v2 - v1).cross (v3 - v2))| /
        ((v2 - v1).cross (v3 - v2)).length2) * ((v2 - v1).cross (v3 - v2)) - v1)).dot
        ((v3 - v2).cross (p - (|(v1 - p).dot ((v2 - v1).cross (v3 - v2))| /
        ((v2 - v1).cross (v3 - v2)).length2) * ((v2 - v1).cross (v3 - v2)) - v2))) ∧
        0 < (((v3 - v2).cross (p - (|(v1 - p).dot ((v2 - v1).cross (v3 - v2))| /
        ((v2 - v1).cross (v3 - v2)).length2) * ((v2 - v1).cross (v3 - v2)) - v2)).dot
        ((v1 - v3).cross (p - (|(v1 - p).dot ((v2 - v1).cross (v3 - v2))| /
        ((v2 - v1).cross (v3 - v2)).length2) * ((v2 - v1).cross (v3 - v2)) - v3))) ∧
        0 < (((v1 - v3).cross (p - (|(v1 - p).dot ((v2 - v1).cross (v3 - v2))| /
        ((v2 - v1).cross (v3 - v2)).length2) * ((v2 - v1).cross (v3 - v2)) - v3)).dot
        ((v2 - v1).cross (p - (|(v1 - p).dot ((v2 - v1).cross (v3 - v2))| /
        ((v2 - v1).cross (v3 - v2)).length2) * ((v2 - v1).cross (v3 - v2)) - v1))) := by
      obtain ⟨g1, g2, g3⟩ := hdots
      have hz : |(v1 - p).dot ((v2 - v1).cross (v3 - v2))| / ((v2 - v1).cross (v3 - v2)).length2 *
          ((v2 - v1).cross (v3 - v2)).length2 + (v1 - p).dot ((v2 - v1).cross (v3 - v2)) = 0 := by
        rw [div_mul_cancel₀ _ hn, abs_of_nonpos hk]; ring
      rw [hz] at g1 g2 g3
      obtain ⟨b1, b2, b3⟩ := hall
      refine ⟨?_, ?_, ?_⟩
      · apply pos_of_mul_pos_right _ hN.le
        rw [g1]; have := mul_pos b1 b2; linarith
      · apply pos_of_mul_pos_right _ hN.le
        rw [g2]; have := mul_pos b2 b3; linarith
      · apply pos_of_mul_pos_right _ hN.le
        rw [g3]; have := mul_pos b3 b1; linarith
    simp [hd]
  · -- projection outside: a closer rim point exists
    have hcon : bary (v3 - v2) v2 p ((v2 - v1).cross (v3 - v2)) /
        ((v2 - v1).cross (v3 - v2)).length2 ≤ 0 ∨
        bary (v1 - v3) v3 p ((v2 - v1).cross (v3 - v2)) /
        ((v2 - v1).cross (v3 - v2)).length2 ≤ 0 ∨
        bary (v2 - v1) v1 p ((v2 - v1).cross (v3 - v2)) /
        ((v2 - v1).cross (v3 - v2)).length2 ≤ 0 := by
      by_contra hc
      push Not at hc
      apply hall
      refine ⟨?_, ?_, ?_⟩
      · exact (div_pos_iff_of_pos_right hN).1 hc.2.2
      · exact (div_pos_iff_of_pos_right hN).1 hc.1
      · exact (div_pos_iff_of_pos_right hN).1 hc.2.1
    obtain ⟨a, b, c, ha, hb, hc, hs, hx'⟩ := hx
    obtain ⟨l, l0, l1, g1, g2, g3, g⟩ := hit_zero ha hb hc hcon
    clear hdots hall hcon hfront
    have hx1 := congrArg Vec3.x hx'
    have hx2 := congrArg Vec3.y hx'
    have hx3 := congrArg Vec3.z hx'
    simp only at hx1 hx2 hx3
    generalize (v2 - v1).cross (v3 - v2) = n at *
    have hkx' : (v1 - p).dot n = (x.x - p.x) * n.x + (x.y - p.y) * n.y + (x.z - p.z) * n.z := hkx
    generalize (v1 - p).dot n = k at *
    generalize bary (v2 - v1) v1 p n = b1 at *
    generalize bary (v3 - v2) v2 p n = b2 at *
    generalize bary (v1 - v3) v3 p n = b3 at *
    have hNe : n.length2 = n.x * n.x + n.y * n.y + n.z * n.z := rfl
    obtain ⟨q1, q2, q3⟩ := hpt
    -- barycentric coordinates of the projection
    obtain ⟨f1, hf1⟩ : ∃ f, f = b2 / n.length2 := ⟨_, rfl⟩
    obtain ⟨f2, hf2⟩ : ∃ f, f = b3 / n.length2 := ⟨_, rfl⟩
    obtain ⟨f3, hf3⟩ : ∃ f, f = b1 / n.length2 := ⟨_, rfl⟩
    obtain ⟨κ, hκ⟩ : ∃ f, f = k / n.length2 := ⟨_, rfl⟩
    rw [← hf1, ← hf2, ← hf3] at g
    rw [← hf1] at g1
    rw [← hf2] at g2
    rw [← hf3] at g3
    have r1 : p.x + κ * n.x = f1 * v1.x + f2 * v2.x + f3 * v3.x := by
      rw [hf1, hf2, hf3, hκ]; field_simp; linarith
    have r2 : p.y + κ * n.y = f1 * v1.y + f2 * v2.y + f3 * v3.y := by
      rw [hf1, hf2, hf3, hκ]; field_simp; linarith
    have r3 : p.z + κ * n.z = f1 * v1.z + f2 * v2.z + f3 * v3.z := by
      rw [hf1, hf2, hf3, hκ]; field_simp; linarith
    have rs : f1 + f2 + f3 = 1 := by
      rw [hf1, hf2, hf3]; field_simp; linarith
    have rk : κ * n.length2 = k := by rw [hκ]; field_simp
    apply sphereHits_rim (y := ⟨x.x + l * (p.x + κ * n.x - x.x), x.y + l * (p.y + κ * n.y - x.y),
      x.z + l * (p.z + κ * n.z - x.z)⟩)
    · refine ⟨_, _, _, g1, g2, g3, ?_, g, ?_⟩
      · linear_combination (1 - l) * hs + l * rs
      · ext
        · simp only; rw [r1, hx1]; ring
        · simp only; rw [r2, hx2]; ring
        · simp only; rw [r3, hx3]; ring
    · refine lt_of_le_of_lt ?_ h
      have orth : (p.x + κ * n.x - x.x) * n.x + (p.y + κ * n.y - x.y) * n.y +
          (p.z + κ * n.z - x.z) * n.z = 0 := by
        rw [hNe] at rk; linear_combination rk + hkx'
      have e : distSq p x - distSq p ⟨x.x + l * (p.x + κ * n.x - x.x),
          x.y + l * (p.y + κ * n.y - x.y), x.z + l * (p.z + κ * n.z - x.z)⟩ =
          l * (2 - l) * ((p.x + κ * n.x - x.x) ^ 2 + (p.y + κ * n.y - x.y) ^ 2 +
          (p.z + κ * n.z - x.z) ^ 2) - 2 * l * κ * ((p.x + κ * n.x - x.x) * n.x +
          (p.y + κ * n.y - x.y) * n.y + (p.z + κ * n.z - x.z) * n.z) := by
        unfold distSq; simp only; ring
      rw [orth] at e
      have : 0 ≤ l * (2 - l) * ((p.x + κ * n.x - x.x) ^ 2 + (p.y + κ * n.y - x.y) ^ 2 +
          (p.z + κ * n.z - x.z) ^ 2) := by
        have : 0 ≤ l * (2 - l) := mul_nonneg l0 (by linarith)
        positivity
      linarith

/-! ## Whole mesh -/

theorem Spec.Reachable.coherent {m : Mesh} (h : Reachable m) : m.Coherent := by
  obtain ⟨ops, h⟩ := h
  exact Mesh.coherent_run Mesh.coherent_new h

theorem isRadius_unique {ps : List Vec3} {r r' : ℝ} (h : IsRadius ps r) (h' : IsRadius ps r') :
    r = r' := by
  have key : ∀ {r r'}, IsRadius ps r → IsRadius ps r' → r ≤ r' := by
    intro r r' h h'
    rcases h.2 with ⟨p, hp, e⟩ | ⟨he, e⟩
    · rw [← e]; exact h'.1 p hp
    · rcases h'.2 with ⟨p, hp, _⟩ | ⟨_, e'⟩
      · rw [he] at hp; simp at hp
      · rw [e, e']
  exact le_antisymm (key h h') (key h' h)

theorem radius_eq {m : Mesh} (h : m.Coherent) {r : ℝ} (hr : IsRadius m.points r) :
    m.getMaxRadius.2 = r ∧ m.getSquaredMaxRadius.2 = r ^ 2 ∧ 0 ≤ r := by
  have e := isRadius_unique hr (Mesh.sqMax_isRadius m.points)
  have h0 : 0 ≤ Mesh.sqMax m.points 0 := (Mesh.sqMax_spec m.points 0).1
  refine ⟨by rw [(Mesh.getMaxRadius_ok h).1, e], ?_, by rw [e]; exact Real.sqrt_nonneg _⟩
  rw [Mesh.getSquaredMaxRadius_ok h, e, Real.sq_sqrt h0]

/-- Points of the triangles are not farther from the origin than the radius. -/
theorem inTri_radius {ps : List Vec3} {is : List TriI} {ts : List (Vec3 × Vec3 × Vec3)} {r : ℝ}
    (hr : IsRadius ps r) (hs : soup ps is = some ts) {t} (ht : t ∈ ts) {x : Vec3} (hx : InTri t x) :
    x.length2 ≤ r ^ 2 := by
  rw [Mesh.soup_some] at hs
  obtain ⟨it, -, h1, h2, h3⟩ : ∃ it ∈ is, ps[it.i1]? = some t.1 ∧ ps[it.i2]? = some t.2.1 ∧
      ps[it.i3]? = some t.2.2 := by
    clear hx hr
    induction hs with
    | nil => simp at ht
    | @cons i c is ts hc _ ih =>
      rcases List.mem_cons.1 ht with rfl | ht
      · exact ⟨i, by simp, hc⟩
      · obtain ⟨it, hi, h⟩ := ih ht
        exact ⟨it, by simp [hi], h⟩
  have hr0 : 0 ≤ r := by
    have := hr.1 _ (List.mem_of_getElem? h1)
    exact (Real.sqrt_nonneg _).trans this
  have hv : ∀ v ∈ ps, v.length2 ≤ r ^ 2 := by
    intro v hv
    have := hr.1 v hv
    rw [Mesh.dist_origin] at this
    have h0 := Mesh.length2_nonneg v
    calc v.length2 = Real.sqrt v.length2 ^ 2 := (Real.sq_sqrt h0).symm
      _ ≤ r ^ 2 := by gcongr
  have a1 := hv _ (List.mem_of_getElem? h1)
  have a2 := hv _ (List.mem_of_getElem? h2)
  have a3 := hv _ (List.mem_of_getElem? h3)
  obtain ⟨a, b, c, ha, hb, hc, hsum, rfl⟩ := hx
  have e : (⟨a * t.1.x + b * t.2.1.x + c * t.2.2.x, a * t.1.y + b * t.2.1.y + c * t.2.2.y,
         a * t.1.z + b * t.2.1.z + c * t.2.2.z⟩ : Vec3).length2 =
      a * t.1.length2 + b * t.2.1.length2 + c * t.2.2.length2
      - (a * b * distSq t.1 t.2.1 + b * c * distSq t.2.1 t.2.2 + a * c * distSq t.1 t.2.2) := by
    have e : a = 1 - b - c := by linarith
    subst e
    simp only [Vec3.length2, distSq]; ring
  rw [e]
  have n1 : 0 ≤ a * b * distSq t.1 t.2.1 := by unfold distSq; positivity
  have n2 : 0 ≤ b * c * distSq t.2.1 t.2.2 := by unfold distSq; positivity
  have n3 : 0 ≤ a * c * distSq t.1 t.2.2 := by unfold distSq; positivity
  have m1 := mul_le_mul_of_nonneg_left a1 ha
  have m2 := mul_le_mul_of_nonneg_left a2 hb
  have m3 := mul_le_mul_of_nonneg_left a3 hc
  have : a * r ^ 2 + b * r ^ 2 + c * r ^ 2 = r ^ 2 := by rw [← add_mul, ← add_mul, hsum, one_mul]
  linarith

theorem sphereLoop_true {p : Vec3} {R2 : ℝ} {ps : List Vec3} {is : List TriI}
    {ts : List (Vec3 × Vec3 × Vec3)} (hs : soup ps is = some ts) :
    ∃ b, Shape.sphereLoop p R2 ps is = .ok b ∧
      (b = true ↔ ∃ t ∈ ts, Shape.sphereHitsTriangle p R2 t.1 t.2.1 t.2.2 = true) := by
  rw [Mesh.soup_some] at hs
  induction hs with
  | nil => exact ⟨false, rfl, by simp⟩
  | @cons i c is ts hc _ ih =>
    obtain ⟨b, h1, h2⟩ := ih
    unfold Shape.sphereLoop
    rw [vget_ok.2 hc.1, vget_ok.2 hc.2.1, vget_ok.2 hc.2.2]
    simp only [bind, Except.bind]
    split_ifs with h
    · exact ⟨true, rfl, by simp [h]⟩
    · exact ⟨b, h1, by simp [h, h2]⟩

theorem containsLoop_total {p P : Vec3} {ps : List Vec3} {is : List TriI}
    {ts : List (Vec3 × Vec3 × Vec3)} (hs : soup ps is = some ts) (st : Shape.HitState) :
    ∃ b, Shape.containsLoop p P ps is st = .ok b := by
  rw [Mesh.soup_some] at hs
  induction hs generalizing st with
  | nil => exact ⟨_, rfl⟩
  | @cons i c is ts hc _ ih =>
    unfold Shape.containsLoop
    rw [vget_ok.2 hc.1, vget_ok.2 hc.2.1, vget_ok.2 hc.2.2]
    simp only [bind, Except.bind]
    split
    · exact ⟨_, rfl⟩
    · exact ih _

theorem containsMesh_total {m : Mesh} {ts} (hs : soup m.points m.tris = some ts) (p : Vec3) :
    ∃ b, Shape.containsMesh m p = .ok b := by
  unfold Shape.containsMesh
  split_ifs
  · exact ⟨_, rfl⟩
  · exact containsLoop_total hs _

/-! ## Bounding box -/

theorem boundsOf_spec (ps : List Vec3) (lo hi : Vec3) :
    let b := Shape.boundsOf ps lo hi
    (b.1.x ≤ lo.x ∧ b.1.y ≤ lo.y ∧ b.1.z ≤ lo.z ∧ hi.x ≤ b.2.x ∧ hi.y ≤ b.2.y ∧ hi.z ≤ b.2.z) ∧
    (∀ p ∈ ps, InBox b.1 b.2 p) ∧
    (∀ l h : Vec3, (∀ p ∈ ps, InBox l h p) →
      l.x ≤ lo.x ∧ l.y ≤ lo.y ∧ l.z ≤ lo.z ∧ hi.x ≤ h.x ∧ hi.y ≤ h.y ∧ hi.z ≤ h.z →
      l.x ≤ b.1.x ∧ l.y ≤ b.1.y ∧ l.z ≤ b.1.z ∧ b.2.x ≤ h.x ∧ b.2.y ≤ h.y ∧ b.2.z ≤ h.z) := by
  induction ps generalizing lo hi with
  | nil => simp [Shape.boundsOf]
  | cons q ps ih =>
    intro b
    have hb : b = Shape.boundsOf ps ⟨min q.x lo.x, min q.y lo.y, min q.z lo.z⟩
      ⟨max q.x hi.x, max q.y hi.y, max q.z hi.z⟩ := rfl
    obtain ⟨⟨h1, h2, h3, h4, h5, h6⟩, h7, h8⟩ := ih ⟨min q.x lo.x, min q.y lo.y, min q.z lo.z⟩
      ⟨max q.x hi.x, max q.y hi.y, max q.z hi.z⟩
    rw [← hb] at h1 h2 h3 h4 h5 h6 h7 h8
    simp only [le_min_iff, max_le_iff] at h1 h2 h3 h4 h5 h6
    refine ⟨⟨h1.2, h2.2, h3.2, h4.2, h5.2, h6.2⟩, ?_, ?_⟩
    · intro p hp
      rcases List.mem_cons.1 hp with rfl | hp
      · exact ⟨h1.1, h4.1, h2.1, h5.1, h3.1, h6.1⟩
      · exact h7 p hp
    · rintro l h hall ⟨a, b, c, d, e, f⟩
      apply h8 l h (fun p hp => hall p (by simp [hp]))
      obtain ⟨q1, q2, q3, q4, q5, q6⟩ := hall q (by simp)
      simp only [le_min_iff, max_le_iff]
      exact ⟨⟨q1, a⟩, ⟨q3, b⟩, ⟨q5, c⟩, ⟨q2, d⟩, ⟨q4, e⟩, ⟨q6, f⟩⟩

/-- The bounding-box cache, if valid, is what would be recomputed. -/
def Shape.BBCoherent (s : Shape) : Prop :=
  s.bbValid = true →
    (s.bbMin, s.bbMax) = Shape.boundsOf s.mesh.points (.all 1e9) (.all (-1e9))

theorem Shape.bb_step {s : Shape} (h : s.BBCoherent) (o : Shape.Op) : (s.step o).BBCoherent := by
  cases o with
  | setMesh m => intro hv; simp [Shape.step, Shape.setMesh] at hv
  | getBoundingBox =>
    unfold Shape.step Shape.getBoundingBox
    cases hv : s.bbValid
    · intro _; simp
    · simpa [hv] using h

theorem Shape.bb_run {s : Shape} (h : s.BBCoherent) (ops : List Shape.Op) :
    (ops.foldl Shape.step s).BBCoherent := by
  induction ops generalizing s with
  | nil => exact h
  | cons o ops ih => exact ih (Shape.bb_step h o)

theorem Shape.getBoundingBox_eq {s : Shape} (h : s.BBCoherent) :
    (s.getBoundingBox.2.lo, s.getBoundingBox.2.hi) =
      Shape.boundsOf s.mesh.points (.all 1e9) (.all (-1e9)) := by
  unfold Shape.getBoundingBox
  cases hv : s.bbValid
  · simp
  · simpa [hv] using h hv

theorem box_soup (lo hi : Vec3) : soup (Box.new lo hi).mesh.points (Box.new lo hi).mesh.tris =
      (let p0 : Vec3 := ⟨lo.x, lo.y, lo.z⟩
       let p1 : Vec3 := ⟨hi.x, lo.y, lo.z⟩
       let p2 : Vec3 := ⟨lo.x, hi.y, lo.z⟩
       let p3 : Vec3 := ⟨hi.x, hi.y, lo.z⟩
       let p4 : Vec3 := ⟨lo.x, lo.y, hi.z⟩
       let p5 : Vec3 := ⟨hi.x, lo.y, hi.z⟩
       let p6 : Vec3 := ⟨lo.x, hi.y, hi.z⟩
       let p7 : Vec3 := ⟨hi.x, hi.y, hi.z⟩
       some [(p1, p0, p2), (p1, p2, p3), (p4, p5, p6), (p6, p5, p7), (p0, p4, p2), (p2, p4, p6),
        (p5, p1, p3), (p5, p3, p7), (p0, p1, p4), (p4, p1, p5), (p3, p2, p6), (p3, p6, p7)]) := by
  have ht : (Box.new lo hi).mesh.tris = [⟨1, 0, 2⟩, ⟨1, 2, 3⟩, ⟨4, 5, 6⟩, ⟨6, 5, 7⟩, ⟨0, 4, 2⟩,
      ⟨2, 4, 6⟩, ⟨5, 1, 3⟩, ⟨5, 3, 7⟩, ⟨0, 1, 4⟩, ⟨4, 1, 5⟩, ⟨3, 2, 6⟩, ⟨3, 6, 7⟩] := by
    simp [Box.new, Box.generateMesh, Mesh.addPoint, Mesh.addTriangle, Mesh.invalidateCache, u32,
      Mesh.new]
  have hp : (Box.new lo hi).mesh.points = corners8 lo hi := (generateMesh_points ⟨lo, hi, Mesh.new⟩).2.2
  rw [ht, hp]; rfl

theorem run_append {m : Mesh} {os os' : List Mesh.Op} {m' : Mesh} (h : m.run os = .ok m') :
    m.run (os ++ os') = m'.run os' := by
  induction os generalizing m with
  | nil => simp [Mesh.run] at h; simp [h]
  | cons o os ih =>
    simp only [Mesh.run, List.cons_append, Exec.bind_ok] at h ⊢
    obtain ⟨n, h1, h2⟩ := h
    rw [h1]; exact ih h2

theorem Spec.Reachable.addPoint {m : Mesh} (h : Reachable m) (p : Vec3) :
    Reachable (m.addPoint p).1 := by
  obtain ⟨ops, h⟩ := h
  exact ⟨ops ++ [.addPoint p], by rw [run_append h]; rfl⟩

theorem Spec.Reachable.addTriangle {m : Mesh} (h : Reachable m) (i j k : ℕ) :
    Reachable (m.addTriangle i j k) := by
  obtain ⟨ops, h⟩ := h
  exact ⟨ops ++ [.addTriangle i j k], by rw [run_append h]; rfl⟩

theorem box_reachable (lo hi : Vec3) : Reachable (Box.new lo hi).mesh := by
  have h0 : Reachable Mesh.new := ⟨[], rfl⟩
  unfold Box.new Box.generateMesh
  dsimp only
  iterate 12 apply Spec.Reachable.addTriangle
  iterate 8 apply Spec.Reachable.addPoint
  exact h0

theorem over_normal {v1 v2 v3 p x : Vec3} {a b c k : ℝ} (h : Over (v1, v2, v3) a b c k x p) :
    let n := (v2 - v1).cross (v3 - v2)
    (v1 - p).dot n = -k * n.length2 ∧ bary (v2 - v1) v1 p n = c * n.length2 ∧
    bary (v3 - v2) v2 p n = a * n.length2 ∧ bary (v1 - v3) v3 p n = b * n.length2 ∧
    distSq p x = k ^ 2 * n.length2 := by
  obtain ⟨h1, rfl, h2, h3, h4⟩ := h
  have e : a = 1 - b - c := by linarith
  subst e
  simp only at h2 h3 h4
  simp only [bary, Vec3.cross, Vec3.dot, Vec3.length2, Vec3.sub_x, Vec3.sub_y, Vec3.sub_z, distSq, h2, h3, h4]
  refine ⟨?_, ?_, ?_, ?_, ?_⟩ <;> ring

theorem over_exists (v1 v2 v3 p : Vec3) (hn : ((v2 - v1).cross (v3 - v2)).length2 ≠ 0) :
    ∃ a b c k x, Over (v1, v2, v3) a b c k x p := by
  have hsum := bary_sum v1 v2 v3 p
  have hpt := bary_point v1 v2 v3 p
  simp only at hsum hpt
  have hc : ∀ n : Vec3, n = (v2 - v1).cross (v3 - v2) →
      n.x = (v2.y - v1.y) * (v3.z - v1.z) - (v2.z - v1.z) * (v3.y - v1.y) ∧
      n.y = (v2.z - v1.z) * (v3.x - v1.x) - (v2.x - v1.x) * (v3.z - v1.z) ∧
      n.z = (v2.x - v1.x) * (v3.y - v1.y) - (v2.y - v1.y) * (v3.x - v1.x) := by
    rintro n rfl
    simp only [Vec3.cross, Vec3.sub_x, Vec3.sub_y, Vec3.sub_z]
    refine ⟨?_, ?_, ?_⟩ <;> ring
  have hc := hc _ rfl
  generalize hN : (v2 - v1).cross (v3 - v2) = n at *
  generalize (v1 - p).dot n = k at *
  generalize bary (v2 - v1) v1 p n = b1 at *
  generalize bary (v3 - v2) v2 p n = b2 at *
  generalize bary (v1 - v3) v3 p n = b3 at *
  obtain ⟨q1, q2, q3⟩ := hpt
  refine ⟨b2 / n.length2, b3 / n.length2, b1 / n.length2, -k / n.length2, _, ?_, rfl, ?_, ?_, ?_⟩
  · field_simp; linarith
  · simp only; rw [← hc.1]; field_simp; linarith
  · simp only; rw [← hc.2.1]; field_simp; linarith
  · simp only; rw [← hc.2.2]; field_simp; linarith

/-- The three products have the right sign exactly if the point is noticed. -/
theorem surface_iff {v1 v2 v3 p x : Vec3} {a b c k : ℝ} (hn : ((v2 - v1).cross (v3 - v2)).length2 ≠ 0)
    (h : Over (v1, v2, v3) a b c k x p) :
    let n := (v2 - v1).cross (v3 - v2)
    let q := p - (|(v1 - p).dot n| / n.length2) * n
    (0 < ((v2 - v1).cross (q - v1)).dot ((v3 - v2).cross (q - v2)) ∧
      0 < ((v3 - v2).cross (q - v2)).dot ((v1 - v3).cross (q - v3)) ∧
      0 < ((v1 - v3).cross (q - v3)).dot ((v2 - v1).cross (q - v1))) ↔ Noticed (v1, v2, v3) a b c k := by
  have hN : 0 < ((v2 - v1).cross (v3 - v2)).length2 :=
    lt_of_le_of_ne (Mesh.length2_nonneg _) (Ne.symm hn)
  obtain ⟨e1, e2, e3, e4, -⟩ := over_normal h
  have hdots := dots' v1 v2 v3 p
      (|(v1 - p).dot ((v2 - v1).cross (v3 - v2))| / ((v2 - v1).cross (v3 - v2)).length2)
  simp only at hdots e1 e2 e3 e4 ⊢
  obtain ⟨g1, g2, g3⟩ := hdots
  rw [e2, e3] at g1
  rw [e3, e4] at g2
  rw [e4, e2] at g3
  rw [div_mul_cancel₀ _ hn] at g1 g2 g3
  have c1 : (v2 - v1).dot (v3 - v2) = -cornerDot v2 v3 v1 := by
    simp only [Vec3.dot, cornerDot, Vec3.sub_x, Vec3.sub_y, Vec3.sub_z]; ring
  have c2 : (v3 - v2).dot (v1 - v3) = -cornerDot v3 v1 v2 := by
    simp only [Vec3.dot, cornerDot, Vec3.sub_x, Vec3.sub_y, Vec3.sub_z]; ring
  have c3 : (v1 - v3).dot (v2 - v1) = -cornerDot v1 v2 v3 := by
    simp only [Vec3.dot, cornerDot, Vec3.sub_x, Vec3.sub_y, Vec3.sub_z]; ring
  rw [c1] at g1
  rw [c2] at g2
  rw [c3] at g3
  have hs := h.1
  have pr : ∀ {z w : ℝ}, ((v2 - v1).cross (v3 - v2)).length2 * z = w → (0 < z ↔ 0 < w) := by
    rintro z w rfl
    exact (mul_pos_iff_of_pos_left hN).symm
  rw [pr g1, pr g2, pr g3, e1]
  clear g1 g2 g3 pr e1 e2 e3 e4 c1 c2 c3
  generalize ((v2 - v1).cross (v3 - v2)).length2 = N at *
  unfold Noticed
  split_ifs with hk
  · have : |-k * N| + -k * N = 0 := by
      rw [abs_of_nonpos (by have := mul_nonneg hk hN.le; linarith)]; ring
    rw [this]
    have f : ∀ u v w : ℝ, 0 < u * N * (v * N) + 0 ^ 2 * -w ↔ 0 < u * v := by
      intro u v w
      rw [show u * N * (v * N) + 0 ^ 2 * -w = u * v * N ^ 2 by ring]
      exact mul_pos_iff_of_pos_right (by positivity)
    rw [f, f, f]
    constructor
    · rintro ⟨q1, q2, q3⟩
      have pos : ∀ u : ℝ, 0 < u * (1 - u) → 0 < u := by
        intro u hu
        by_contra hc
        push Not at hc
        have := mul_nonpos_of_nonpos_of_nonneg hc (show (0:ℝ) ≤ 1 - u by linarith)
        linarith
      refine ⟨pos a ?_, pos b ?_, pos c ?_⟩
      · rw [show 1 - a = b + c by linarith]; linarith
      · rw [show 1 - b = a + c by linarith]; linarith
      · rw [show 1 - c = a + b by linarith]; linarith
    · rintro ⟨q1, q2, q3⟩
      exact ⟨mul_pos q3 q1, mul_pos q1 q2, mul_pos q2 q3⟩
  · push Not at hk
    have : |-k * N| + -k * N = -2 * k * N := by
      rw [abs_of_nonneg (by have := mul_nonneg (neg_nonneg.2 hk.le) hN.le; linarith)]; ring
    rw [this]
    have f : ∀ u v w : ℝ, 0 < u * N * (v * N) + (-2 * k * N) ^ 2 * -w ↔ 4 * k ^ 2 * w < u * v := by
      intro u v w
      rw [show u * N * (v * N) + (-2 * k * N) ^ 2 * -w = (u * v - 4 * k ^ 2 * w) * N ^ 2 by ring,
        mul_pos_iff_of_pos_right (by positivity)]
      constructor <;> intro h <;> linarith
    rw [f, f, f]
    tauto

/-- The iteration when the rim is out of reach. -/
theorem sphereHits_iff {p v1 v2 v3 : Vec3} {R2 : ℝ} (hR : 0 ≤ R2)
    (hrim : ∀ x, OnRim (v1, v2, v3) x → ∀ e ∈ rim (v1, v2, v3), R2 * (1 + 1e-9) + 1e-18 * distSq e.1 e.2 < distSq p x) :
    Shape.sphereHitsTriangle p R2 v1 v2 v3 = true ↔ ¬ Collinear3 v1 v2 v3 ∧
      ∃ a b c k x, Over (v1, v2, v3) a b c k x p ∧ distSq p x ≤ R2 ∧ Noticed (v1, v2, v3) a b c k := by
  have hnn : ∀ e : Vec3 × Vec3, 0 ≤ 1e-18 * distSq e.1 e.2 := by
    intro e; unfold distSq; positivity
  have far : ∀ x, OnRim (v1, v2, v3) x → R2 ≤ distSq p x := by
    intro x hx
    have := hrim x hx (v1, v2) (by simp [rim])
    have := hnn (v1, v2)
    linarith
  have r1 := far v1 ⟨1, 0, 0, by norm_num, by norm_num, by norm_num, by norm_num, by norm_num, by ext <;> simp⟩
  have r2 := far v2 ⟨0, 1, 0, by norm_num, by norm_num, by norm_num, by norm_num, by norm_num, by ext <;> simp⟩
  have r3 := far v3 ⟨0, 0, 1, by norm_num, by norm_num, by norm_num, by norm_num, by norm_num, by ext <;> simp⟩
  have l1 : checkLinesegment p R2 v1 (v2 - v1) ≠ true := by
    intro h
    obtain ⟨s, s0, s1, hs⟩ := checkLinesegment_sound h
    have := hrim _ ⟨1 - s, s, 0, by linarith, s0, le_refl _, by ring, by simp, rfl⟩ (v1, v2) (by simp [rim])
    simp only [zero_mul, add_zero] at this
    linarith
  have l2 : checkLinesegment p R2 v2 (v3 - v2) ≠ true := by
    intro h
    obtain ⟨s, s0, s1, hs⟩ := checkLinesegment_sound h
    have := hrim _ ⟨0, 1 - s, s, le_refl _, by linarith, s0, by ring, by simp, rfl⟩ (v2, v3) (by simp [rim])
    simp only [zero_mul, zero_add] at this
    linarith
  have l3 : checkLinesegment p R2 v3 (v1 - v3) ≠ true := by
    intro h
    obtain ⟨s, s0, s1, hs⟩ := checkLinesegment_sound h
    have := hrim _ ⟨s, 0, 1 - s, s0, le_refl _, by linarith, by ring, by simp, rfl⟩ (v3, v1) (by simp [rim])
    simp only [zero_mul, add_zero] at this
    simp only [add_comm (s * _)] at this
    linarith
  unfold Shape.sphereHitsTriangle
  simp only [length2_sub, distSq_comm' v1 p, distSq_comm' v2 p, distSq_comm' v3 p, if_neg (not_lt.2 r1),
    if_neg (not_lt.2 r2), if_neg (not_lt.2 r3), if_neg l1, if_neg l2, if_neg l3]
  have hcol : Collinear3 v1 v2 v3 ↔ ((v2 - v1).cross (v3 - v2)).length2 = 0 := by
    rw [← cross_zero_collinear, length2_eq_zero]
    constructor <;> intro h
    · have ex := congrArg Vec3.x h
      have ey := congrArg Vec3.y h
      have ez := congrArg Vec3.z h
      simp only [Vec3.cross, Vec3.sub_x, Vec3.sub_y, Vec3.sub_z, Vec3.zero_x, Vec3.zero_y, Vec3.zero_z] at ex ey ez
      ext <;> simp only [Vec3.cross, Vec3.sub_x, Vec3.sub_y, Vec3.sub_z, Vec3.zero_x, Vec3.zero_y, Vec3.zero_z]
      · linear_combination ex
      · linear_combination ey
      · linear_combination ez
    · have ex := congrArg Vec3.x h
      have ey := congrArg Vec3.y h
      have ez := congrArg Vec3.z h
      simp only [Vec3.cross, Vec3.sub_x, Vec3.sub_y, Vec3.sub_z, Vec3.zero_x, Vec3.zero_y, Vec3.zero_z] at ex ey ez
      ext <;> simp only [Vec3.cross, Vec3.sub_x, Vec3.sub_y, Vec3.sub_z, Vec3.zero_x, Vec3.zero_y, Vec3.zero_z]
      · linear_combination ex
      · linear_combination ey
      · linear_combination ez
  by_cases hn : ((v2 - v1).cross (v3 - v2)).length2 = 0
  · rw [if_pos hn]
    simp [hcol.2 hn]
  have hN : 0 < ((v2 - v1).cross (v3 - v2)).length2 :=
    lt_of_le_of_ne (Mesh.length2_nonneg _) (Ne.symm hn)
  rw [if_neg hn]
  have dist_eq : ∀ {a b c k x}, Over (v1, v2, v3) a b c k x p →
      (v1 - p).dot ((v2 - v1).cross (v3 - v2)) * (v1 - p).dot ((v2 - v1).cross (v3 - v2)) /
        ((v2 - v1).cross (v3 - v2)).length2 = distSq p x := by
    intro a b c k x h
    obtain ⟨e1, -, -, -, e5⟩ := over_normal h
    rw [e1, e5]
    field_simp
  obtain ⟨a, b, c, k, x, ho⟩ := over_exists v1 v2 v3 p hn
  rw [normal_scale _ hn, dist_eq ho]
  have hnc : ¬ Collinear3 v1 v2 v3 := fun h => hn (hcol.1 h)
  split_ifs with hfar
  · simp only [false_iff]
    rintro ⟨-, a', b', c', k', x', ho', hd', -⟩
    rw [← dist_eq ho, dist_eq ho'] at hfar
    linarith
  · rw [decide_eq_true_eq]
    simp only [gt_iff_lt]
    constructor
    · intro h
      exact ⟨hnc, a, b, c, k, x, ho, not_lt.1 hfar, (surface_iff hn ho).1 h⟩
    · rintro ⟨-, a', b', c', k', x', ho', hd', hno⟩
      exact (surface_iff hn ho').2 hno

end Geo
