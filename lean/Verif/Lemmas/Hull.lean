import Verif.Lemmas.Inside
import Verif.Lemmas.Composite

/-!
# Points outside the convex hull of a mesh can leave it along a straight line
-/

namespace Geo

open Spec

theorem hull_inTri {t : Vec3 × Vec3 × Vec3} {ts : List (Vec3 × Vec3 × Vec3)} (ht : t ∈ ts) {x : Vec3} (h : InTri t x) :
    InHull (cornersOf ts) x := by
  obtain ⟨u, v, w, hu, hv, hw, hs, rfl⟩ := h
  intro a b c d hd
  have m : ∀ y ∈ [t.1, t.2.1, t.2.2], y ∈ cornersOf ts := fun y hy => List.mem_flatMap.2 ⟨t, ht, hy⟩
  have h1 := mul_le_mul_of_nonneg_left (hd t.1 (m _ (by simp))) hu
  have h2 := mul_le_mul_of_nonneg_left (hd t.2.1 (m _ (by simp))) hv
  have h3 := mul_le_mul_of_nonneg_left (hd t.2.2 (m _ (by simp))) hw
  have e : d = u * d + v * d + w * d := by rw [← add_mul, ← add_mul, hs, one_mul]
  linarith

theorem escapes_of_not_hull {ts : List (Vec3 × Vec3 × Vec3)} {y : Vec3} (hy : ¬ InHull (cornersOf ts) y) : Escapes ts y := by
  unfold InHull at hy
  push Not at hy
  obtain ⟨A, B, C, D, h, hy⟩ := hy
  have hin : ∀ t ∈ ts, ∀ x, InTri t x → A * x.x + B * x.y + C * x.z ≤ D := fun t ht x hx => hull_inTri ht hx A B C D h
  have hN : 0 < A ^ 2 + B ^ 2 + C ^ 2 ∨ (A = 0 ∧ B = 0 ∧ C = 0) := by
    by_cases hA : A = 0
    · by_cases hB : B = 0
      · by_cases hC : C = 0
        · exact .inr ⟨hA, hB, hC⟩
        · left; have := sq_pos_of_ne_zero (R := ℝ) hC; nlinarith [sq_nonneg A, sq_nonneg B]
      · left; have := sq_pos_of_ne_zero (R := ℝ) hB; nlinarith [sq_nonneg A, sq_nonneg C]
    · left; have := sq_pos_of_ne_zero (R := ℝ) hA; nlinarith [sq_nonneg B, sq_nonneg C]
  rcases hN with hN | ⟨rfl, rfl, rfl⟩
  · obtain ⟨M, hM, hb⟩ := norms_bounded (cornerList ts)
    obtain ⟨N, hNe⟩ : ∃ N, N = A ^ 2 + B ^ 2 + C ^ 2 := ⟨_, rfl⟩
    rw [← hNe] at hN
    obtain ⟨P, hP⟩ : ∃ P, P = A * y.x + B * y.y + C * y.z := ⟨_, rfl⟩
    obtain ⟨K, hK0, hK⟩ : ∃ K : ℝ, 0 ≤ K ∧ M < n2 y + 2 * K * P + K ^ 2 * N := by
      refine ⟨(2 * |P| + M) / N + 1, by positivity, ?_⟩
      have e1 : ((2 * |P| + M) / N + 1) * N = 2 * |P| + M + N := by field_simp
      generalize hk : (2 * |P| + M) / N + 1 = K at *
      have hK1 : 1 ≤ K := by
        rw [← hk]
        have : 0 ≤ (2 * |P| + M) / N := by positivity
        linarith
      have e2 : K ^ 2 * N = K * (2 * |P| + M + N) := by rw [← e1]; ring
      have hy2 : 0 ≤ n2 y := by unfold n2; positivity
      have b1 : 0 ≤ K * (P + |P|) := mul_nonneg (by linarith) (by linarith [neg_abs_le P])
      have b2 : M + N ≤ K * (M + N) := le_mul_of_one_le_left (by linarith) hK1
      rw [e2]
      linarith
    have hs0 : ∀ s : ℝ, A * (lerp y ⟨y.x + K * A, y.y + K * B, y.z + K * C⟩ s).x +
        B * (lerp y ⟨y.x + K * A, y.y + K * B, y.z + K * C⟩ s).y +
        C * (lerp y ⟨y.x + K * A, y.y + K * B, y.z + K * C⟩ s).z = P + s * K * N := by
      intro s; rw [hNe, hP]; simp only [lerp]; ring
    refine ⟨⟨y.x + K * A, y.y + K * B, y.z + K * C⟩, joined_seg ?_, ?_⟩
    · intro s h0 h1 t' ht' hi
      have := hin t' ht' _ hi
      rw [hs0] at this
      have : 0 ≤ s * K * N := by positivity
      linarith
    · intro t' ht' v hv
      have h1 := hb v (mem_corners ht' hv)
      unfold Spec.dist
      apply Real.sqrt_lt_sqrt
      · unfold distSq; positivity
      · simp only [distSq, sub_zero]
        have : n2 ⟨y.x + K * A, y.y + K * B, y.z + K * C⟩ = n2 y + 2 * K * P + K ^ 2 * N := by
          rw [hP, hNe]; simp only [n2]; ring
        simp only [n2] at this h1
        rw [this]
        exact lt_of_le_of_lt h1 hK
  · cases ts with
    | nil =>
      exact ⟨y, joined_seg (fun s _ _ t' ht' => by simp at ht'), fun t' ht' => by simp at ht'⟩
    | cons t' ts =>
      exfalso
      have := h t'.1 (List.mem_flatMap.2 ⟨t', by simp, by simp⟩)
      linarith

end Geo
