import Verif.Lemmas.RoundedSphereFace

/-!
# Helper lemmas on the sphere test of meshes in floating point arithmetic: positive answers
-/

namespace Geo.RoundedSphere
open Spec RoundedVec

variable {u : ℝ} {rnd : ℝ → ℝ}

/-- A positive answer bounds the distance from the plane. -/
theorem plane_sound (h : RelErr u rnd) (hu : u ≤ 1e-11) {n n' : Vec3} {κ D d a' R : ℝ} (huκ : u ≤ κ) (hκ : κ ≤ 1 / 1000)
    (hn : 0 < n.length) (hn' : (n' - n).length ≤ 5.6 * (κ * n.length)) (hd0 : 0 ≤ d) (hdD : d ≤ D)
    (hd : |(|a'| / n'.length) - d| ≤ 15.5 * (κ * D))
    (hR : rnd (rnd (a' * a') / Rounded.length2 rnd n') ≤ rnd (R * R)) :
    d ^ 2 ≤ R ^ 2 * (1 + 1e-9) + 33 * (κ * D ^ 2) := by
  have hu0 := Rounded.relErr_nonneg h
  have hu1 : u ≤ 1 / 1000 := huκ.trans hκ
  have hκ0 : 0 ≤ κ := hu0.trans huκ
  have hD0 : 0 ≤ D := hd0.trans hdD
  have hl := (abs_length_sub n' n).trans hn'
  have hκN : κ * n.length ≤ 1 / 1000 * n.length := mul_le_mul_of_nonneg_right hκ hn.le
  obtain ⟨l1, l2⟩ := abs_le.1 hl
  have hN0 : 0 < n'.length := by linarith
  have R' : Rnd u 0 rnd := ⟨le_rfl, hu0, hu1, h⟩
  have hl2 := R'.length2 n'
  rw [← length_sq] at hl2
  have hl2' : |Rounded.length2 rnd n' - n'.length ^ 2| ≤ 5.1 * u * n'.length ^ 2 := by
    refine hl2.trans ?_
    have : 0 ≤ u * n'.length ^ 2 := by positivity
    linarith
  have hw := proj_sq h hu1 hN0 hl2' (d := a')
  have e' : (a' / n'.length) ^ 2 = (|a'| / n'.length) ^ 2 := by rw [div_pow, div_pow, sq_abs]
  rw [e'] at hw
  obtain ⟨d', hd'⟩ : ∃ d', d' = |a'| / n'.length := ⟨_, rfl⟩
  rw [← hd'] at hw hd
  have hd'0 : 0 ≤ d' := by rw [hd']; positivity
  have hκD : κ * D ≤ 1 / 1000 * D := mul_le_mul_of_nonneg_right hκ hD0
  have hκD0 : 0 ≤ κ * D := by positivity
  obtain ⟨d1, d2⟩ := abs_le.1 hd
  have hd'D : d' ≤ 1.016 * D := by linarith
  have g1 : d ^ 2 ≤ (d' + 15.5 * (κ * D)) ^ 2 := pow_le_pow_left₀ hd0 (by linarith) 2
  have g5 : κ * D * d' ≤ κ * D * (1.016 * D) := mul_le_mul_of_nonneg_left hd'D hκD0
  have g6 : κ * D * (κ * D) ≤ 1 / 1000 * D * (κ * D) := mul_le_mul_of_nonneg_right hκD hκD0
  have g7 : 0 ≤ κ * D ^ 2 := by positivity
  have r1 := rnd_le h (x := R * R) (mul_self_nonneg R)
  have r2 : u * (R * R) ≤ 1e-11 * (R * R) := mul_le_mul_of_nonneg_right hu (mul_self_nonneg R)
  have r3 := (abs_le.1 hw).1
  have r4 : u * d' ^ 2 ≤ 1e-11 * d' ^ 2 := mul_le_mul_of_nonneg_right hu (sq_nonneg _)
  have r5 : (1 - 7.3e-11) * d' ^ 2 ≤ (1 + 1e-11) * R ^ 2 := by linarith
  have r6 := sq_nonneg R
  linarith

/-- Vectors with a positive computed inner product. -/
theorem dot_lower (h : RelErr u rnd) {c c' f f' : Vec3} {κ D a b : ℝ} (huκ : u ≤ κ) (hκ : κ ≤ 1 / 1000)
    (ha : 0 ≤ a) (hb : 0 ≤ b) (hc : c.length ≤ a * (2 * D)) (hf : f.length ≤ b * (2 * D))
    (hc' : (c' - c).length ≤ 53 * (κ * D) * a) (hf' : (f' - f).length ≤ 53 * (κ * D) * b)
    (hpos : Rounded.dot rnd c' f' > 0) : -(228 * (κ * D ^ 2)) * (a * b) ≤ c.dot f := by
  have hu0 := Rounded.relErr_nonneg h
  have hu1 : u ≤ 1 / 1000 := huκ.trans hκ
  have hκ0 : 0 ≤ κ := hu0.trans huκ
  have k := (abs_le.1 (dot_near h hu1 hc' hf' hc hf)).2
  obtain ⟨X, hX⟩ : ∃ X, X = κ * D ^ 2 * (a * b) := ⟨_, rfl⟩
  have hX0 : 0 ≤ X := by rw [hX]; positivity
  have e1 : κ * X ≤ 1 / 1000 * X := mul_le_mul_of_nonneg_right hκ hX0
  have e2 : u * (D ^ 2 * (a * b)) ≤ X := by
    rw [hX, mul_assoc]; exact mul_le_mul_of_nonneg_right huκ (by positivity)
  have e3 : u * X ≤ 1 / 1000 * X := mul_le_mul_of_nonneg_right hu1 hX0
  have e4 : u * (κ * X) ≤ 1 / 1000 * (κ * X) := mul_le_mul_of_nonneg_right hu1 (by positivity)
  have e : 53 * (κ * D) * a * (b * (2 * D) + 53 * (κ * D) * b) + a * (2 * D) * (53 * (κ * D) * b) +
      3.01 * u * ((a * (2 * D) + 53 * (κ * D) * a) * (b * (2 * D) + 53 * (κ * D) * b)) =
      212 * X + 53 ^ 2 * (κ * X) + 12.04 * (u * (D ^ 2 * (a * b))) + 3.01 * 212 * (u * X) + 3.01 * 53 ^ 2 * (u * (κ * X)) := by
    rw [hX]; ring
  rw [e] at k
  have : 228 * (κ * D ^ 2) * (a * b) = 228 * X := by rw [hX]; ring
  linarith

/-- A negative weight is small. -/
theorem weight_lower {B1 B2 B3 N ε a b c h e12 e31 c12 c31 K : ℝ} (hN : 0 < N) (hs : B1 + B2 + B3 = N ^ 2)
    (h12 : N ^ 2 * c12 = B1 * B2 + h ^ 2 * e12) (h31 : N ^ 2 * c31 = B3 * B1 + h ^ 2 * e31) (he : e12 + e31 = -a ^ 2)
    (l12 : -ε * (a * b) ≤ c12) (l31 : -ε * (c * a) ≤ c31) (hε : 0 ≤ ε) (k12 : a * b ≤ K * N) (k31 : c * a ≤ K * N)
    (hB : B1 ≤ 0) : (B1 / N ^ 2) ^ 2 ≤ 2 * ε * K / N := by
  have h1 : B1 ^ 2 ≤ N ^ 2 * (2 * ε * K * N) := by
    have e : B1 ^ 2 = -(N ^ 2 * c12 + N ^ 2 * c31) + B1 * N ^ 2 - h ^ 2 * a ^ 2 := by
      rw [h12, h31, ← hs]; linear_combination h ^ 2 * he
    have g1 : N ^ 2 * (-ε * (a * b)) ≤ N ^ 2 * c12 := mul_le_mul_of_nonneg_left l12 (sq_nonneg N)
    have g2 : N ^ 2 * (-ε * (c * a)) ≤ N ^ 2 * c31 := mul_le_mul_of_nonneg_left l31 (sq_nonneg N)
    have g3 : N ^ 2 * (ε * (a * b)) ≤ N ^ 2 * (ε * (K * N)) :=
      mul_le_mul_of_nonneg_left (mul_le_mul_of_nonneg_left k12 hε) (sq_nonneg N)
    have g4 : N ^ 2 * (ε * (c * a)) ≤ N ^ 2 * (ε * (K * N)) :=
      mul_le_mul_of_nonneg_left (mul_le_mul_of_nonneg_left k31 hε) (sq_nonneg N)
    have g5 : B1 * N ^ 2 ≤ 0 := mul_nonpos_of_nonpos_of_nonneg hB (sq_nonneg N)
    have g6 : 0 ≤ h ^ 2 * a ^ 2 := by positivity
    linarith
  rw [div_pow, div_le_div_iff₀ (by positivity) hN]
  have h2 : B1 ^ 2 * N ≤ N ^ 2 * (2 * ε * K * N) * N := mul_le_mul_of_nonneg_right h1 hN.le
  linarith

/-- A point of the plane whose weights are hardly negative is near the triangle. -/
theorem clamp {v1 v2 v3 : Vec3} {f1 f2 f3 φ : ℝ} (hs : f1 + f2 + f3 = 1) (h1 : -φ ≤ f1) (h2 : -φ ≤ f2) (h3 : -φ ≤ f3)
    (hφ : 0 ≤ φ) : ∃ x s t, InTri (v1, v2, v3) x ∧ |s| ≤ 3 * φ ∧ |t| ≤ 3 * φ ∧
      x = (⟨f1 * v1.x + f2 * v2.x + f3 * v3.x, f1 * v1.y + f2 * v2.y + f3 * v3.y, f1 * v1.z + f2 * v2.z + f3 * v3.z⟩ : Vec3) +
        (s * (v2 - v1) + t * (v3 - v1)) := by
  obtain ⟨S, hS⟩ : ∃ S, S = max f1 0 + max f2 0 + max f3 0 := ⟨_, rfl⟩
  have m : ∀ f : ℝ, f ≤ max f 0 := fun f => le_max_left f 0
  have m0 : ∀ f : ℝ, 0 ≤ max f 0 := fun f => le_max_right f 0
  have mφ : ∀ {f}, -φ ≤ f → max f 0 ≤ f + φ := fun h => max_le (by linarith) (by linarith)
  have hS1 : 1 ≤ S := by have := m f1; have := m f2; have := m f3; linarith
  have hS2 : S ≤ 1 + 3 * φ := by have := mφ h1; have := mφ h2; have := mφ h3; linarith
  have hS0 : 0 < S := by linarith
  have key : ∀ {f}, -φ ≤ f → f ≤ S → |max f 0 / S - f| ≤ 3 * φ := by
    intro f hf hfS
    rcases le_or_gt f 0 with h0 | h0
    · rw [max_eq_right h0, zero_div, zero_sub, abs_neg, abs_of_nonpos h0]; linarith
    · rw [max_eq_left h0.le, show f / S - f = -(f / S * (S - 1)) by field_simp; ring, abs_neg,
        abs_of_nonneg (mul_nonneg (by positivity) (by linarith))]
      have : f / S ≤ 1 := (div_le_one hS0).2 hfS
      have : f / S * (S - 1) ≤ 1 * (S - 1) := mul_le_mul_of_nonneg_right this (by linarith)
      linarith
  refine ⟨_, max f2 0 / S - f2, max f3 0 / S - f3, ⟨max f1 0 / S, max f2 0 / S, max f3 0 / S, div_nonneg (m0 _) hS0.le,
    div_nonneg (m0 _) hS0.le, div_nonneg (m0 _) hS0.le, ?_, rfl⟩, key h2 ?_, key h3 ?_, ?_⟩
  · rw [← add_div, ← add_div, ← hS, div_self hS0.ne']
  · have := m0 f1; have := m0 f3; have := m f2; linarith
  · have := m0 f1; have := m0 f2; have := m f3; linarith
  · have e1 : max f1 0 / S = 1 - max f2 0 / S - max f3 0 / S := by
      rw [eq_sub_iff_add_eq, eq_sub_iff_add_eq, ← add_div, ← add_div,
        show max f1 0 + max f3 0 + max f2 0 = S by rw [hS]; ring, div_self hS0.ne']
    have e2 : f1 = 1 - f2 - f3 := by linarith
    rw [e1]
    ext <;> simp only [Vec3.add_x, Vec3.smul_x, Vec3.sub_x, Vec3.add_y, Vec3.smul_y, Vec3.sub_y, Vec3.add_z, Vec3.smul_z,
      Vec3.sub_z] <;> rw [e2] <;> ring

/-- The offset from the foot of the perpendicular. -/
theorem offset_bound {v1 v2 v3 w : Vec3} {κ D N K s t φ : ℝ} (hN : 0 < N) (hs3 : |s| ≤ 3 * φ) (ht3 : |t| ≤ 3 * φ)
    (hφ2 : φ ^ 2 = 2 * (228 * (κ * D ^ 2)) * K / N)
    (k12 : (v2 - v1).length * (v3 - v2).length ≤ K * N) (k23 : (v3 - v2).length * (v1 - v3).length ≤ K * N)
    (k31 : (v1 - v3).length * (v2 - v1).length ≤ K * N) (hw : w = s * (v2 - v1) + t * (v3 - v1)) :
    w.length2 ≤ 24624 * K ^ 2 * (κ * D ^ 2) := by
  have hlw : w.length ≤ 3 * φ * ((v2 - v1).length + (v1 - v3).length) := by
    rw [hw]
    refine (length_add_le _ _).trans ?_
    rw [length_smul, length_smul, length_sub_comm v3 v1]
    have := mul_le_mul_of_nonneg_right hs3 (length_nonneg (v2 - v1))
    have := mul_le_mul_of_nonneg_right ht3 (length_nonneg (v1 - v3))
    linarith
  have tri1 : (v2 - v1).length ≤ (v3 - v2).length + (v1 - v3).length := by
    have := length_sub_le v2 v3 v1
    rw [length_sub_comm v2 v3, length_sub_comm v3 v1] at this
    exact this
  have tri3 : (v1 - v3).length ≤ (v2 - v1).length + (v3 - v2).length := by
    have := length_sub_le v1 v2 v3
    rw [length_sub_comm v1 v2, length_sub_comm v2 v3] at this
    exact this
  have hsq : ((v2 - v1).length + (v1 - v3).length) ^ 2 ≤ 6 * (K * N) := by
    have a1 := mul_le_mul_of_nonneg_left tri1 (length_nonneg (v2 - v1))
    have a3 := mul_le_mul_of_nonneg_left tri3 (length_nonneg (v1 - v3))
    linarith
  rw [← length_sq]
  have b1 := pow_le_pow_left₀ (length_nonneg w) hlw 2
  have b2 : 9 * φ ^ 2 * ((v2 - v1).length + (v1 - v3).length) ^ 2 ≤ 9 * φ ^ 2 * (6 * (K * N)) :=
    mul_le_mul_of_nonneg_left hsq (by positivity)
  have b3 : 9 * φ ^ 2 * (6 * (K * N)) = 24624 * K ^ 2 * (κ * D ^ 2) := by
    rw [hφ2]; field_simp; ring
  linarith

/-- A positive answer of the test of the surface. -/
theorem face_sound (h : RelErr u rnd) (hu : u ≤ 1e-11) {p v1 v2 v3 n : Vec3} {κ D N K R : ℝ} (huκ : u ≤ κ) (hκ : κ ≤ 1 / 1000)
    (hκK : κ = K * u) (hK : 1 ≤ K)
    (hne : n = (v2 - v1).cross (v3 - v2)) (hNe : N = n.length) (hN : 0 < N)
    (k12 : (v2 - v1).length * (v3 - v2).length ≤ K * N) (k23 : (v3 - v2).length * (v1 - v3).length ≤ K * N)
    (k31 : (v1 - v3).length * (v2 - v1).length ≤ K * N) (hp : p.length ≤ D) (h1 : (v1 - p).length ≤ D)
    (h2 : (v2 - p).length ≤ D) (h3 : (v3 - p).length ≤ D)
    (hf : Rounded.sphereHitsFace rnd p (rnd (R * R)) v1 v2 v3 (Rounded.sub rnd v2 v1) (Rounded.sub rnd v3 v2)
      (Rounded.sub rnd v1 v3) = true) :
    ∃ x, InTri (v1, v2, v3) x ∧ distSq p x ≤ R ^ 2 * (1 + 1e-9) + 24800 * K ^ 3 * u * D ^ 2 := by
  have hu0 := Rounded.relErr_nonneg h
  have hu1 : u ≤ 1 / 1000 := huκ.trans hκ
  have hκ0 : 0 ≤ κ := hu0.trans huκ
  have hD0 : 0 ≤ D := (length_nonneg p).trans hp
  have hN2 : N ^ 2 = n.length2 := by rw [hNe]; exact length_sq n
  have hE : u * ((v2 - v1).length * (v3 - v2).length) ≤ κ * N := by
    rw [hκK]
    have := mul_le_mul_of_nonneg_left k12 hu0
    linarith
  have g1 := sub_err h v2 v1
  have g2 := sub_err h v3 v2
  have g3 := sub_err h v1 v3
  have en := normal_err h huκ hκ g1 g2 hE
  rw [← hne, hNe] at en
  have hN' : 0 < n.length := by rw [← hNe]; exact hN
  obtain ⟨d, hd⟩ : ∃ d, d = |(v1 - p).dot n| / N := ⟨_, rfl⟩
  have hd0 : 0 ≤ d := by rw [hd]; positivity
  have hdD : d ≤ D := by
    rw [hd, div_le_iff₀ hN, hNe]
    exact (abs_dot _ _).trans (mul_le_mul_of_nonneg_right h1 (length_nonneg _))
  have ep := plane_err h huκ hκ hN' en h1
  rw [← hNe, ← hd] at ep
  obtain ⟨hnz, -, hsh⟩ := shift_err h huκ hκ hN' en hd0 hdD ep
  rw [← hNe] at hsh
  unfold Rounded.sphereHitsFace at hf
  simp only [hnz, if_false] at hf
  split_ifs at hf with hc
  rw [decide_eq_true_eq] at hf
  rw [gt_iff_lt, not_lt] at hc
  have hdR := plane_sound h hu huκ hκ hN' en hd0 hdD ep hc
  obtain ⟨q, hq⟩ : ∃ q, q = p - (d / N) * n := ⟨_, rfl⟩
  have lM : ((d / N) * n).length = d := by
    rw [length_smul, abs_of_nonneg (by positivity), ← hNe]; field_simp
  have eqp : (q - p).length = d := by
    rw [length_sub_comm, hq, show p - (p - (d / N) * n) = (d / N) * n by ext <;> simp, lM]
  have lq : q.length ≤ 2 * D := by
    have h4 := length_le_add q p
    linarith
  have lv : ∀ {v : Vec3}, (v - p).length ≤ D → (q - v).length ≤ 2 * D := by
    intro v hv
    have h4 := length_sub_le q p v
    rw [length_sub_comm p v] at h4
    linarith
  have ke1 := edge_err h huκ hκ hsh hq lq (lv h1) g1 hD0
  have ke2 := edge_err h huκ hκ hsh hq lq (lv h2) g2 hD0
  have ke3 := edge_err h huκ hκ hsh hq lq (lv h3) g3 hD0
  have lc : ∀ {e v : Vec3}, (v - p).length ≤ D → (e.cross (q - v)).length ≤ e.length * (2 * D) := fun hv =>
    (length_cross _ _).trans (mul_le_mul_of_nonneg_left (lv hv) (length_nonneg _))
  obtain ⟨f1, f2, f3⟩ := hf
  have D12 := dot_lower h huκ hκ (length_nonneg _) (length_nonneg _) (lc h1) (lc h2) ke1 ke2 f1
  have D23 := dot_lower h huκ hκ (length_nonneg _) (length_nonneg _) (lc h2) (lc h3) ke2 ke3 f2
  have D31 := dot_lower h huκ hκ (length_nonneg _) (length_nonneg _) (lc h3) (lc h1) ke3 ke1 f3
  have hs := bary_sum v1 v2 v3 p
  have hpt := bary_point v1 v2 v3 p
  obtain ⟨t1, t2, t3⟩ := dots' v1 v2 v3 p (d / N)
  simp only at hs hpt t1 t2 t3
  rw [← hne] at hs hpt t1 t2 t3
  rw [← hq, ← hN2] at t1 t2 t3
  rw [← hN2] at hs hpt
  have L1 := length_sq (v2 - v1)
  have L2 := length_sq (v3 - v2)
  have L3 := length_sq (v1 - v3)
  have E1 : (v2 - v1).dot (v3 - v2) + (v1 - v3).dot (v2 - v1) = -(v2 - v1).length ^ 2 := by
    rw [L1]; simp only [Vec3.dot, Vec3.length2, Vec3.sub_x, Vec3.sub_y, Vec3.sub_z]; ring
  have E2 : (v3 - v2).dot (v1 - v3) + (v2 - v1).dot (v3 - v2) = -(v3 - v2).length ^ 2 := by
    rw [L2]; simp only [Vec3.dot, Vec3.length2, Vec3.sub_x, Vec3.sub_y, Vec3.sub_z]; ring
  have E3 : (v1 - v3).dot (v2 - v1) + (v3 - v2).dot (v1 - v3) = -(v1 - v3).length ^ 2 := by
    rw [L3]; simp only [Vec3.dot, Vec3.length2, Vec3.sub_x, Vec3.sub_y, Vec3.sub_z]; ring
  have hε : 0 ≤ 228 * (κ * D ^ 2) := by positivity
  have W1 := weight_lower hN hs t1 t3 E1 D12 D31 hε k12 k31
  have W2 := weight_lower hN (by linarith) t2 t1 E2 D23 D12 hε k23 k12
    (B1 := bary (v3 - v2) v2 p n) (B2 := bary (v1 - v3) v3 p n) (B3 := bary (v2 - v1) v1 p n)
  have W3 := weight_lower hN (by linarith) t3 t2 E3 D31 D23 hε k31 k23
    (B1 := bary (v1 - v3) v3 p n) (B2 := bary (v2 - v1) v1 p n) (B3 := bary (v3 - v2) v2 p n)
  obtain ⟨φ, hφ⟩ : ∃ φ, φ = Real.sqrt (2 * (228 * (κ * D ^ 2)) * K / N) := ⟨_, rfl⟩
  have hφ0 : 0 ≤ φ := by rw [hφ]; positivity
  have hφ2 : φ ^ 2 = 2 * (228 * (κ * D ^ 2)) * K / N := by rw [hφ]; exact Real.sq_sqrt (by positivity)
  rw [← hφ2] at W1 W2 W3
  have low : ∀ {B : ℝ}, (B ≤ 0 → (B / N ^ 2) ^ 2 ≤ φ ^ 2) → -φ ≤ B / N ^ 2 := by
    intro B hB
    rcases le_or_gt B 0 with h0 | h0
    · exact (abs_le.1 (abs_le_of_sq_le_sq (hB h0) hφ0)).1
    · have : 0 < B / N ^ 2 := by positivity
      linarith
  obtain ⟨x, s, t, hx, hs3, ht3, hxe⟩ := clamp (v1 := v1) (v2 := v2) (v3 := v3) (φ := φ)
    (f1 := bary (v3 - v2) v2 p n / N ^ 2) (f2 := bary (v1 - v3) v3 p n / N ^ 2) (f3 := bary (v2 - v1) v1 p n / N ^ 2)
    (by rw [← add_div, ← add_div, div_eq_one_iff_eq (by positivity)]; linarith) (low W2) (low W3) (low W1) hφ0
  refine ⟨x, hx, ?_⟩
  -- the foot of the perpendicular
  have hfoot : (⟨bary (v3 - v2) v2 p n / N ^ 2 * v1.x + bary (v1 - v3) v3 p n / N ^ 2 * v2.x + bary (v2 - v1) v1 p n / N ^ 2 * v3.x,
      bary (v3 - v2) v2 p n / N ^ 2 * v1.y + bary (v1 - v3) v3 p n / N ^ 2 * v2.y + bary (v2 - v1) v1 p n / N ^ 2 * v3.y,
      bary (v3 - v2) v2 p n / N ^ 2 * v1.z + bary (v1 - v3) v3 p n / N ^ 2 * v2.z + bary (v2 - v1) v1 p n / N ^ 2 * v3.z⟩ : Vec3) =
      p + ((v1 - p).dot n / N ^ 2) * n := by
    obtain ⟨q1, q2, q3⟩ := hpt
    ext
    · simp only [Vec3.add_x, Vec3.smul_x]; field_simp; linarith
    · simp only [Vec3.add_y, Vec3.smul_y]; field_simp; linarith
    · simp only [Vec3.add_z, Vec3.smul_z]; field_simp; linarith
  rw [hfoot] at hxe
  obtain ⟨w, hw⟩ : ∃ w, w = s * (v2 - v1) + t * (v3 - v1) := ⟨_, rfl⟩
  rw [← hw] at hxe
  have hwn : w.dot n = 0 := by
    rw [hw, hne]
    simp only [Vec3.cross, Vec3.dot, Vec3.sub_x, Vec3.sub_y, Vec3.sub_z, Vec3.add_x, Vec3.add_y, Vec3.add_z, Vec3.smul_x,
      Vec3.smul_y, Vec3.smul_z]; ring
  have hdx : distSq p x = d ^ 2 + w.length2 := by
    have e : distSq p x = ((v1 - p).dot n / N ^ 2) ^ 2 * n.length2 + 2 * ((v1 - p).dot n / N ^ 2) * w.dot n + w.length2 := by
      rw [hxe]
      simp only [distSq, Vec3.dot, Vec3.length2, Vec3.add_x, Vec3.add_y, Vec3.add_z, Vec3.smul_x, Vec3.smul_y, Vec3.smul_z]
      ring
    rw [e, hwn, ← hN2, hd, div_pow |(v1 - p).dot n|, sq_abs]
    field_simp
    ring
  have hw2 := offset_bound hN hs3 ht3 hφ2 k12 k23 k31 hw
  have hK2 : 1 ≤ K ^ 2 := one_le_pow₀ hK
  have hκD : 0 ≤ κ * D ^ 2 := by positivity
  have b4 : 1 * (κ * D ^ 2) ≤ K ^ 2 * (κ * D ^ 2) := mul_le_mul_of_nonneg_right hK2 hκD
  have b5 : K ^ 3 * u * D ^ 2 = K ^ 2 * (κ * D ^ 2) := by rw [hκK]; ring
  rw [hdx]
  linarith

end Geo.RoundedSphere
