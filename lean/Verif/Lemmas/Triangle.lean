import Verif.Lemmas.MeshFilter

/-! # Helper lemmas about triangles -/

namespace Geo
open Spec

theorem vlength_sq (a : Vec3) : a.length ^ 2 = a.length2 := by
  exact Real.sq_sqrt (Mesh.length2_nonneg a)

theorem vlength_nonneg (a : Vec3) : 0 ≤ a.length := Real.sqrt_nonneg _

theorem length2_eq_zero {a : Vec3} : a.length2 = 0 ↔ a = 0 := by
  constructor
  · intro h
    have h' : a.x * a.x + a.y * a.y + a.z * a.z = 0 := h
    have hx := mul_self_nonneg a.x
    have hy := mul_self_nonneg a.y
    have hz := mul_self_nonneg a.z
    ext
    · exact mul_self_eq_zero.mp (by linarith)
    · exact mul_self_eq_zero.mp (by linarith)
    · exact mul_self_eq_zero.mp (by linarith)
  · rintro rfl; simp [Vec3.length2]

/-- Heron's formula for `triangleArea`. -/
theorem area_heron (p q r : Vec3) : 16 * (triangleArea p q r) ^ 2 =
    2 * distSq p q * distSq q r + 2 * distSq q r * distSq r p + 2 * distSq r p * distSq p q
      - distSq p q ^ 2 - distSq q r ^ 2 - distSq r p ^ 2 := by
  unfold triangleArea
  rw [mul_pow, vlength_sq]
  simp only [Vec3.length2, Vec3.cross, Vec3.sub_x, Vec3.sub_y, Vec3.sub_z, distSq]
  ring

theorem area_nonneg (p q r : Vec3) : 0 ≤ triangleArea p q r := by
  unfold triangleArea
  have := vlength_nonneg ((p - q).cross (p - r))
  linarith

theorem area_eq_of_distSq {p q r p' q' r' : Vec3}
    (h : 16 * (triangleArea p q r) ^ 2 = 16 * (triangleArea p' q' r') ^ 2) :
    triangleArea p q r = triangleArea p' q' r' := by
  have := area_nonneg p q r
  have := area_nonneg p' q' r'
  apply le_antisymm <;> nlinarith

theorem distSq_comm' (p q : Vec3) : distSq p q = distSq q p := by unfold distSq; ring

theorem cross_zero_collinear {p q r : Vec3} :
    (p - q).cross (p - r) = 0 ↔ Collinear3 p q r := by
  constructor
  · intro h
    have hx := congrArg Vec3.x h
    have hy := congrArg Vec3.y h
    have hz := congrArg Vec3.z h
    simp [Vec3.cross] at hx hy hz
    by_cases h0 : p.x - q.x = 0 ∧ p.y - q.y = 0 ∧ p.z - q.z = 0
    · obtain ⟨a, b, c⟩ := h0
      exact ⟨1, -1, 0, by norm_num, by norm_num, by linarith, by linarith, by linarith⟩
    · by_cases h1 : p.x - q.x = 0
      · by_cases h2 : p.y - q.y = 0
        · have h3 : p.z - q.z ≠ 0 := fun h3 => h0 ⟨h1, h2, h3⟩
          refine ⟨(p.z - r.z) - (p.z - q.z), -(p.z - r.z), p.z - q.z, Or.inr (Or.inr h3), by ring,
            by linear_combination -hy, by linear_combination hx, by ring⟩
        · refine ⟨(p.y - r.y) - (p.y - q.y), -(p.y - r.y), p.y - q.y, Or.inr (Or.inr h2), by ring,
            by linear_combination hz, by ring, by linear_combination -hx⟩
      · refine ⟨(p.x - r.x) - (p.x - q.x), -(p.x - r.x), p.x - q.x, Or.inr (Or.inr h1), by ring,
            by ring, by linear_combination -hz, by linear_combination hy⟩
  · rintro ⟨a, b, c, h0, hs, hx, hy, hz⟩
    have ha : a = -b - c := by linarith
    subst ha
    have ex : b * (p.x - q.x) = -(c * (p.x - r.x)) := by linarith
    have ey : b * (p.y - q.y) = -(c * (p.y - r.y)) := by linarith
    have ez : b * (p.z - q.z) = -(c * (p.z - r.z)) := by linarith
    by_cases hb : b = 0
    · subst hb
      have hc : c ≠ 0 := by
        rintro rfl; simp at h0
      have e1 : p.x - r.x = 0 := by
        have : c * (p.x - r.x) = 0 := by linarith
        exact (mul_eq_zero.1 this).resolve_left hc
      have e2 : p.y - r.y = 0 := by
        have : c * (p.y - r.y) = 0 := by linarith
        exact (mul_eq_zero.1 this).resolve_left hc
      have e3 : p.z - r.z = 0 := by
        have : c * (p.z - r.z) = 0 := by linarith
        exact (mul_eq_zero.1 this).resolve_left hc
      ext <;> simp [Vec3.cross, e1, e2, e3]
    · ext
      · apply (mul_eq_zero.1 (?_ : b * _ = 0)).resolve_left hb
        simp only [Vec3.cross, Vec3.sub_x, Vec3.sub_y, Vec3.sub_z]
        linear_combination (p.z - r.z) * ey - (p.y - r.y) * ez
      · apply (mul_eq_zero.1 (?_ : b * _ = 0)).resolve_left hb
        simp only [Vec3.cross, Vec3.sub_x, Vec3.sub_y, Vec3.sub_z]
        linear_combination (p.x - r.x) * ez - (p.z - r.z) * ex
      · apply (mul_eq_zero.1 (?_ : b * _ = 0)).resolve_left hb
        simp only [Vec3.cross, Vec3.sub_x, Vec3.sub_y, Vec3.sub_z]
        linear_combination (p.y - r.y) * ex - (p.x - r.x) * ey

theorem area_zero {p q r : Vec3} : triangleArea p q r = 0 ↔ Collinear3 p q r := by
  rw [← cross_zero_collinear, ← length2_eq_zero, ← vlength_sq]
  unfold triangleArea
  constructor
  · intro h; have : ((p - q).cross (p - r)).length = 0 := by linarith
    rw [this]; norm_num
  · intro h; have := pow_eq_zero_iff (two_ne_zero) |>.1 h
    rw [this]; norm_num

end Geo
