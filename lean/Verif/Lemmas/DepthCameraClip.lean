import Verif.Spec.DepthCamera

/-!
# Near-plane clipping and culling
-/

namespace Geo

open Spec Raster

theorem onTriangle_rotate {A B C q : Vec3} : OnTriangle A B C q → OnTriangle B C A q :=
  fun ⟨a, b, c, ha, hb, hc, h1, h2, h3, h4⟩ =>
    ⟨b, c, a, hb, hc, ha, by linarith, by linarith, by linarith, by linarith⟩

theorem onTriangle_rotate_iff {A B C q : Vec3} : OnTriangle A B C q ↔ OnTriangle B C A q :=
  ⟨onTriangle_rotate, fun h => onTriangle_rotate (onTriangle_rotate h)⟩

theorem normal_rotate (A B C : Vec3) : normalOf B C A = normalOf A B C := by
  unfold normalOf
  congr 1 <;> ring

/-- The parameter of the clipped point. -/
noncomputable def clipT (v w : Vec3) : ℝ := (nearClip - v.z) / (w.z - v.z)

theorem clipT_bounds {v w : Vec3} (hv : v.z < nearClip) (hw : ¬ w.z < nearClip) : 0 < clipT v w ∧ clipT v w ≤ 1 := by
  have hw := not_lt.1 hw
  unfold clipT
  exact ⟨div_pos (by linarith) (by linarith), by rw [div_le_one (by linarith)]; linarith⟩

theorem clip_coord {v w : Vec3} (hv : v.z < nearClip) (hw : ¬ w.z < nearClip) :
    (clip v w).x = v.x + clipT v w * (w.x - v.x) ∧ (clip v w).y = v.y + clipT v w * (w.y - v.y) ∧
      (clip v w).z = v.z + clipT v w * (w.z - v.z) ∧ (clip v w).z = nearClip := by
  have hw := not_lt.1 hw
  refine ⟨?_, ?_, ?_, rfl⟩
  · show v.x + (w.x - v.x) * ((nearClip - v.z) / (w.z - v.z)) = _
    rw [mul_comm]
    rfl
  · show v.y + (w.y - v.y) * ((nearClip - v.z) / (w.z - v.z)) = _
    rw [mul_comm]
    rfl
  · show nearClip = v.z + (nearClip - v.z) / (w.z - v.z) * (w.z - v.z)
    have : w.z - v.z ≠ 0 := by linarith
    field_simp
    ring

/-- One corner in view: the part in front of the plane is the triangle with the two new corners. -/
theorem clip_one {v w1 w2 : Vec3} (hv : v.z < nearClip) (h1 : ¬ w1.z < nearClip) (h2 : ¬ w2.z < nearClip) (q : Vec3) :
    OnTriangle v (clip v w1) (clip v w2) q ↔ OnTriangle v w1 w2 q ∧ q.z ≤ nearClip := by
  obtain ⟨x1, y1, z1, n1⟩ := clip_coord hv h1
  obtain ⟨x2, y2, z2, n2⟩ := clip_coord hv h2
  obtain ⟨t1p, t1l⟩ := clipT_bounds hv h1
  obtain ⟨t2p, t2l⟩ := clipT_bounds hv h2
  generalize clipT v w1 = t at *
  generalize clipT v w2 = s at *
  constructor
  · rintro ⟨a, b, c, ha, hb, hc, e, qx, qy, qz⟩
    rw [n1, n2] at qz
    refine ⟨⟨1 - b * t - c * s, b * t, c * s, ?_, by positivity, by positivity, by ring, ?_, ?_, ?_⟩, ?_⟩
    · have := mul_le_mul_of_nonneg_left t1l hb
      have := mul_le_mul_of_nonneg_left t2l hc
      linarith
    · rw [qx, x1, x2]; linear_combination v.x * e
    · rw [qy, y1, y2]; linear_combination v.y * e
    · rw [qz]
      linear_combination v.z * e + b * (z1.symm.trans n1).symm + c * (z2.symm.trans n2).symm
    · rw [qz]
      have := mul_le_mul_of_nonneg_left hv.le ha
      have h5 : a * nearClip + b * nearClip + c * nearClip = nearClip := by linear_combination nearClip * e
      linarith
  · rintro ⟨⟨a, b, c, ha, hb, hc, e, qx, qy, qz⟩, hz⟩
    have k1 := z1.symm.trans n1
    have k2 := z2.symm.trans n2
    refine ⟨1 - b / t - c / s, b / t, c / s, ?_, div_nonneg hb t1p.le, div_nonneg hc t2p.le, by ring, ?_, ?_, ?_⟩
    · have hd : 0 < nearClip - v.z := by linarith
      have e1 : b / t * (nearClip - v.z) = b * (w1.z - v.z) := by
        rw [← k1]
        field_simp
        ring
      have e2 : c / s * (nearClip - v.z) = c * (w2.z - v.z) := by
        rw [← k2]
        field_simp
        ring
      have : 0 ≤ (1 - b / t - c / s) * (nearClip - v.z) := by
        have : (1 - b / t - c / s) * (nearClip - v.z) = nearClip - q.z := by
          rw [qz]
          linear_combination -e1 - e2 + v.z * e
        linarith
      exact nonneg_of_mul_nonneg_left this hd
    · rw [qx, x1, x2]
      field_simp
      linear_combination (v.x * t * s) * e
    · rw [qy, y1, y2]
      field_simp
      linear_combination (v.y * t * s) * e
    · rw [qz, z1, z2]
      field_simp
      linear_combination (v.z * t * s) * e

theorem clip_one_normal {v w1 w2 : Vec3} (hv : v.z < nearClip) (h1 : ¬ w1.z < nearClip) (h2 : ¬ w2.z < nearClip) :
    ∃ k, 0 < k ∧ normalOf v (clip v w1) (clip v w2) = ⟨k * (normalOf v w1 w2).x, k * (normalOf v w1 w2).y,
      k * (normalOf v w1 w2).z⟩ := by
  obtain ⟨x1, y1, z1, -⟩ := clip_coord hv h1
  obtain ⟨x2, y2, z2, -⟩ := clip_coord hv h2
  refine ⟨clipT v w1 * clipT v w2, mul_pos (clipT_bounds hv h1).1 (clipT_bounds hv h2).1, ?_⟩
  unfold normalOf
  rw [x1, x2, y1, y2, z1, z2]
  congr 1 <;> ring

/-- Two corners in view: the part in front of the plane is the union of the two new triangles. -/
theorem clip_two {v0 v1 w : Vec3} (h0 : v0.z < nearClip) (h1 : v1.z < nearClip) (hw : ¬ w.z < nearClip) (q : Vec3) :
    (OnTriangle v0 v1 (clip v0 w) q ∨ OnTriangle (clip v0 w) v1 (clip v1 w) q) ↔ OnTriangle v0 v1 w q ∧ q.z ≤ nearClip := by
  obtain ⟨x1, y1, z1, n1⟩ := clip_coord h0 hw
  obtain ⟨x2, y2, z2, n2⟩ := clip_coord h1 hw
  obtain ⟨t1p, t1l⟩ := clipT_bounds h0 hw
  obtain ⟨t2p, t2l⟩ := clipT_bounds h1 hw
  generalize clipT v0 w = t at *
  generalize clipT v1 w = s at *
  have k1 := z1.symm.trans n1
  have k2 := z2.symm.trans n2
  constructor
  · rintro (⟨a, b, c, ha, hb, hc, e, qx, qy, qz⟩ | ⟨a, b, c, ha, hb, hc, e, qx, qy, qz⟩)
    · refine ⟨⟨a + c * (1 - t), b, c * t, ?_, hb, by positivity, by linear_combination e, ?_, ?_, ?_⟩, ?_⟩
      · have : 0 ≤ c * (1 - t) := mul_nonneg hc (by linarith)
        linarith
      · rw [qx, x1]; ring
      · rw [qy, y1]; ring
      · rw [qz, z1]; ring
      · rw [qz, n1]
        have e1 := mul_le_mul_of_nonneg_left h0.le ha
        have e2 := mul_le_mul_of_nonneg_left h1.le hb
        have h5 : a * nearClip + b * nearClip + c * nearClip = nearClip := by linear_combination nearClip * e
        linarith
    · refine ⟨⟨a * (1 - t), b + c * (1 - s), a * t + c * s, mul_nonneg ha (by linarith), ?_, by positivity,
        by linear_combination e, ?_, ?_, ?_⟩, ?_⟩
      · have : 0 ≤ c * (1 - s) := mul_nonneg hc (by linarith)
        linarith
      · rw [qx, x1, x2]; ring
      · rw [qy, y1, y2]; ring
      · rw [qz, z1, z2]; ring
      · rw [qz, n1, n2]
        have e2 := mul_le_mul_of_nonneg_left h1.le hb
        have h5 : a * nearClip + b * nearClip + c * nearClip = nearClip := by linear_combination nearClip * e
        linarith
  · rintro ⟨⟨a, b, c, ha, hb, hc, e, qx, qy, qz⟩, hz⟩
    by_cases hcase : c * (1 - t) ≤ a * t
    · left
      refine ⟨a - c * (1 - t) / t, b, c / t, ?_, hb, div_nonneg hc t1p.le, ?_, ?_, ?_, ?_⟩
      · rw [sub_nonneg, div_le_iff₀ t1p]
        exact hcase
      · field_simp; linear_combination t * e
      · rw [qx, x1]; field_simp; ring
      · rw [qy, y1]; field_simp; ring
      · rw [qz, z1]; field_simp; ring
    · right
      have hcase := not_le.1 hcase
      have ht1 : 0 < 1 - t := by
        rcases t1l.eq_or_lt with h | h
        · rw [h] at hcase
          linarith
        · linarith
      have hg : 0 < c - a * t / (1 - t) := by
        rw [sub_pos, div_lt_iff₀ ht1]
        exact hcase
      have hβ : 0 ≤ b - (c - a * t / (1 - t)) / s * (1 - s) := by
        have hd : v1.z - nearClip < 0 := by linarith
        by_contra hneg
        have hpos := mul_pos_of_neg_of_neg (not_le.1 hneg) hd
        have e1 : (b - (c - a * t / (1 - t)) / s * (1 - s)) * (v1.z - nearClip) = q.z - nearClip := by
          rw [qz]
          have w1 : w.z = (nearClip - (1 - s) * v1.z) / s := by
            field_simp
            linear_combination k2
          have w2 : v0.z = (nearClip - t * w.z) / (1 - t) := by
            field_simp
            linear_combination k1
          rw [w2, w1]
          field_simp
          linear_combination (-nearClip * s * (1 - t)) * e
        linarith
      refine ⟨a / (1 - t), b - (c - a * t / (1 - t)) / s * (1 - s), (c - a * t / (1 - t)) / s, div_nonneg ha ht1.le, hβ,
        div_nonneg hg.le t2p.le, ?_, ?_, ?_, ?_⟩
      · field_simp; linear_combination (s * (1 - t)) * e
      · rw [qx, x1, x2]; field_simp; ring
      · rw [qy, y1, y2]; field_simp; ring
      · rw [qz, z1, z2]; field_simp; ring

theorem clip_two_normal {v0 v1 w : Vec3} (h0 : v0.z < nearClip) (h1 : v1.z < nearClip) (hw : ¬ w.z < nearClip) :
    (∃ k, 0 ≤ k ∧ normalOf v0 v1 (clip v0 w) = ⟨k * (normalOf v0 v1 w).x, k * (normalOf v0 v1 w).y,
      k * (normalOf v0 v1 w).z⟩) ∧
    (∃ k, 0 ≤ k ∧ normalOf (clip v0 w) v1 (clip v1 w) = ⟨k * (normalOf v0 v1 w).x, k * (normalOf v0 v1 w).y,
      k * (normalOf v0 v1 w).z⟩) := by
  obtain ⟨x1, y1, z1, -⟩ := clip_coord h0 hw
  obtain ⟨x2, y2, z2, -⟩ := clip_coord h1 hw
  obtain ⟨t1p, t1l⟩ := clipT_bounds h0 hw
  obtain ⟨t2p, t2l⟩ := clipT_bounds h1 hw
  refine ⟨⟨clipT v0 w, t1p.le, ?_⟩, ⟨(1 - clipT v0 w) * clipT v1 w, mul_nonneg (by linarith) t2p.le, ?_⟩⟩
  · unfold normalOf
    rw [x1, y1, z1]
    congr 1 <;> ring
  · unfold normalOf
    rw [x1, x2, y1, y2, z1, z2]
    congr 1 <;> ring

/-! ## Culling -/

/-- The determinant of the culling test. -/
theorem corner_cross (c : Camera) (P1 P2 P3 : Vec3) (h1 : P1.z < 0) (h2 : P2.z < 0) (h3 : P3.z < 0) :
    ((corner c P2).x - (corner c P1).x) * ((corner c P3).y - (corner c P1).y) -
      ((corner c P3).x - (corner c P1).x) * ((corner c P2).y - (corner c P1).y) =
    (1 / (-P1.z * -P2.z * -P3.z)) *
      ((c.fx * P1.x + c.Tx) * ((c.fy * -P2.y + c.Ty) * -P3.z - -P2.z * (c.fy * -P3.y + c.Ty)) +
       (c.fy * -P1.y + c.Ty) * (-P2.z * (c.fx * P3.x + c.Tx) - (c.fx * P2.x + c.Tx) * -P3.z) +
       -P1.z * ((c.fx * P2.x + c.Tx) * (c.fy * -P3.y + c.Ty) - (c.fy * -P2.y + c.Ty) * (c.fx * P3.x + c.Tx))) := by
  have k1 : P1.z ≠ 0 := h1.ne
  have k2 : P2.z ≠ 0 := h2.ne
  have k3 : P3.z ≠ 0 := h3.ne
  simp only [corner, Camera.project3Dto2D]
  field_simp
  ring

end Geo
