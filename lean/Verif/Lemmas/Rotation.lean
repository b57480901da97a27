import Verif.Lemmas.Math

namespace Geo
open Spec Matrix

/-- properties of one branch of getRotation -/
theorem branch_aux {a : Mat3} {p q : Quat} {r : ℝ} (hr : 1 ≤ r)
    (hq : ∀ s : ℝ, 0 < s → s * s = r → Real.sqrt r = s → q = p.scale (0.5 / s))
    (hl : p.length2 = 4 * r)
    (hp : Mat3.setRotation p = a) : q.length2 = 1 ∧ Mat3.setRotation q = a := by
  have hs : 0 < Real.sqrt r := Real.sqrt_pos.mpr (by linarith)
  have hs2 : Real.sqrt r * Real.sqrt r = r := Real.mul_self_sqrt (by linarith)
  replace hq := hq _ hs hs2 rfl
  constructor
  · have : q.length2 = p.length2 * (0.5 / Real.sqrt r) ^ 2 := by
      rw [hq]; simp only [Quat.length2, Quat.scale]; ring
    rw [this, hl, div_pow, pow_two (Real.sqrt r), hs2]
    have : r ≠ 0 := by linarith
    field_simp
    norm_num
  · rw [hq, setRotation_scale _ (by positivity)]; exact hp

theorem getRotation_correct {a : Mat3} (h : Rotation a) :
    1 ≤ a.getRotationRadicand ∧ a.getRotation.length2 = 1 ∧ Mat3.setRotation a.getRotation = a := by
  obtain ⟨ho, hd⟩ := (rotation_iff a).mp h
  obtain ⟨c1, c2, c3, c4, c5, c6⟩ := (orth_iff a).mp ho
  obtain ⟨r1, r2, r3, r4, r5, r6⟩ := orth_rows ho
  obtain ⟨k1, k2, k3, k4, k5, k6, k7, k8, k9⟩ := rotation_cofactor h
  unfold Mat3.getRotationRadicand Mat3.getRotation
  dsimp only
  split_ifs with ht h1 h2 h2
  · refine ⟨by linarith, ?_⟩
    have hl : Quat.length2 ⟨a.zy - a.yz, a.xz - a.zx, a.yx - a.xy, a.xx + a.yy + a.zz + 1⟩
        = 4 * (a.xx + a.yy + a.zz + 1) := by
      simp only [Quat.length2]
      linarith
    refine branch_aux (r := a.xx + a.yy + a.zz + 1)
      (p := ⟨a.zy - a.yz, a.xz - a.zx, a.yx - a.xy, a.xx + a.yy + a.zz + 1⟩) (by linarith) ?_ hl ?_
    · intro s hs hs2 e
      simp only [Quat.set, Quat.scale, e]; simp only [← hs2]
      ext <;> simp <;> field_simp <;> norm_num
    · refine setRotation_of_polys (r := a.xx + a.yy + a.zz + 1) (by linarith) hl ?_ ?_ ?_ ?_ ?_ ?_ ?_ ?_ ?_ <;>
        dsimp only <;> linarith
  · simp only [Mat3.get, Quat.set]
    norm_num
    have hr : 1 ≤ a.zz - a.xx - a.yy + 1 := by linarith
    refine ⟨by linarith, ?_⟩
    have hl : Quat.length2 ⟨a.xz + a.zx, a.yz + a.zy, a.zz - a.xx - a.yy + 1, a.yx - a.xy⟩
        = 4 * (a.zz - a.xx - a.yy + 1) := by
      simp only [Quat.length2]
      linarith
    refine branch_aux (r := a.zz - a.xx - a.yy + 1)
      (p := ⟨a.xz + a.zx, a.yz + a.zy, a.zz - a.xx - a.yy + 1, a.yx - a.xy⟩) (by linarith) ?_ hl ?_
    · intro s hs hs2 e
      simp only [Quat.scale, e]; simp only [← hs2]
      ext <;> simp <;> field_simp <;> norm_num
    · refine setRotation_of_polys (r := a.zz - a.xx - a.yy + 1) (by linarith) hl ?_ ?_ ?_ ?_ ?_ ?_ ?_ ?_ ?_ <;>
        dsimp only <;> linarith
  · simp only [Mat3.get, Quat.set]
    norm_num
    have hr : 1 ≤ a.yy - a.zz - a.xx + 1 := by linarith
    refine ⟨by linarith, ?_⟩
    have hl : Quat.length2 ⟨a.xy + a.yx, a.yy - a.zz - a.xx + 1, a.zy + a.yz, a.xz - a.zx⟩
        = 4 * (a.yy - a.zz - a.xx + 1) := by
      simp only [Quat.length2]
      linarith
    refine branch_aux (r := a.yy - a.zz - a.xx + 1)
      (p := ⟨a.xy + a.yx, a.yy - a.zz - a.xx + 1, a.zy + a.yz, a.xz - a.zx⟩) (by linarith) ?_ hl ?_
    · intro s hs hs2 e
      simp only [Quat.scale, e]; simp only [← hs2]
      ext <;> simp <;> field_simp <;> norm_num
    · refine setRotation_of_polys (r := a.yy - a.zz - a.xx + 1) (by linarith) hl ?_ ?_ ?_ ?_ ?_ ?_ ?_ ?_ ?_ <;>
        dsimp only <;> linarith
  · simp only [Mat3.get, Quat.set]
    norm_num
    have hr : 1 ≤ a.zz - a.xx - a.yy + 1 := by linarith
    refine ⟨by linarith, ?_⟩
    have hl : Quat.length2 ⟨a.xz + a.zx, a.yz + a.zy, a.zz - a.xx - a.yy + 1, a.yx - a.xy⟩
        = 4 * (a.zz - a.xx - a.yy + 1) := by
      simp only [Quat.length2]
      linarith
    refine branch_aux (r := a.zz - a.xx - a.yy + 1)
      (p := ⟨a.xz + a.zx, a.yz + a.zy, a.zz - a.xx - a.yy + 1, a.yx - a.xy⟩) (by linarith) ?_ hl ?_
    · intro s hs hs2 e
      simp only [Quat.scale, e]; simp only [← hs2]
      ext <;> simp <;> field_simp <;> norm_num
    · refine setRotation_of_polys (r := a.zz - a.xx - a.yy + 1) (by linarith) hl ?_ ?_ ?_ ?_ ?_ ?_ ?_ ?_ ?_ <;>
        dsimp only <;> linarith
  · simp only [Mat3.get, Quat.set]
    norm_num
    have hr : 1 ≤ a.xx - a.yy - a.zz + 1 := by linarith
    refine ⟨by linarith, ?_⟩
    have hl : Quat.length2 ⟨a.xx - a.yy - a.zz + 1, a.yx + a.xy, a.zx + a.xz, a.zy - a.yz⟩
        = 4 * (a.xx - a.yy - a.zz + 1) := by
      simp only [Quat.length2]
      linarith
    refine branch_aux (r := a.xx - a.yy - a.zz + 1)
      (p := ⟨a.xx - a.yy - a.zz + 1, a.yx + a.xy, a.zx + a.xz, a.zy - a.yz⟩) (by linarith) ?_ hl ?_
    · intro s hs hs2 e
      simp only [Quat.scale, e]; simp only [← hs2]
      ext <;> simp <;> field_simp <;> norm_num
    · refine setRotation_of_polys (r := a.xx - a.yy - a.zz + 1) (by linarith) hl ?_ ?_ ?_ ?_ ?_ ?_ ?_ ?_ ?_ <;>
        dsimp only <;> linarith

/-- Unit quaternions with the same matrix agree up to sign. -/
theorem setRotation_inj {p q : Quat} (hp : p.length2 = 1) (hq : q.length2 = 1)
    (h : Mat3.setRotation p = Mat3.setRotation q) : q = p ∨ q = p.scale (-1) := by
  unfold Mat3.setRotation at h
  simp only [hp, hq, Mat3.mk.injEq] at h
  obtain ⟨e1, e2, e3, e4, e5, e6, e7, e8, e9⟩ := h
  unfold Quat.length2 at hp hq
  obtain ⟨a, b, c, d⟩ := p
  obtain ⟨x, y, z, w⟩ := q
  simp only [Quat.scale, Quat.mk.injEq] at *
  have xx : a * a = x * x := by linarith
  have yy : b * b = y * y := by linarith
  have zz : c * c = z * z := by linarith
  have ww : d * d = w * w := by linarith
  have xy : a * b = x * y := by linarith
  have xz : a * c = x * z := by linarith
  have yz : b * c = y * z := by linarith
  have wx : d * a = w * x := by linarith
  have wy : d * b = w * y := by linarith
  have wz : d * c = w * z := by linarith
  obtain ⟨D, hD⟩ : ∃ D, D = a * x + b * y + c * z + d * w := ⟨_, rfl⟩
  have hx : x = D * a := by
    rw [hD]; linear_combination (-x) * hq - x * xx - y * xy - z * xz - w * wx
  have hy : y = D * b := by
    rw [hD]; linear_combination (-y) * hq - x * xy - y * yy - z * yz - w * wy
  have hz : z = D * c := by
    rw [hD]; linear_combination (-z) * hq - x * xz - y * yz - z * zz - w * wz
  have hw : w = D * d := by
    rw [hD]; linear_combination (-w) * hq - x * wx - y * wy - z * wz - w * ww
  have hD1 : D * D = 1 := by
    have : (D * a) * (D * a) + (D * b) * (D * b) + (D * c) * (D * c) + (D * d) * (D * d) = 1 := by
      rw [← hx, ← hy, ← hz, ← hw]; exact hq
    linear_combination this - D * D * hp
  have : (D - 1) * (D + 1) = 0 := by linear_combination hD1
  rcases mul_eq_zero.mp this with h1 | h1
  · left
    have : D = 1 := by linarith
    rw [this] at hx hy hz hw
    refine ⟨?_, ?_, ?_, ?_⟩ <;> linarith
  · right
    have : D = -1 := by linarith
    rw [this] at hx hy hz hw
    refine ⟨?_, ?_, ?_, ?_⟩ <;> linarith

theorem normalized_eq_scale (q : Quat) : q.normalized = q.scale (1 / q.length) := by
  simp only [Quat.normalized, Quat.scale]
  ext <;> simp only [] <;> ring

theorem length_sq (q : Quat) : q.length * q.length = q.length2 := by
  unfold Quat.length Quat.length2
  apply Real.mul_self_sqrt
  have hx := mul_self_nonneg q.x
  have hy := mul_self_nonneg q.y
  have hz := mul_self_nonneg q.z
  have hw := mul_self_nonneg q.w
  linarith

theorem length_pos {q : Quat} (h : q ≠ ⟨0, 0, 0, 0⟩) : 0 < q.length := by
  unfold Quat.length
  apply Real.sqrt_pos.mpr
  have := length2_pos h
  unfold Quat.length2 at this
  exact this

theorem normalized_length2 {q : Quat} (h : q ≠ ⟨0, 0, 0, 0⟩) : q.normalized.length2 = 1 := by
  have h1 := length_pos h
  have h2 := length_sq q
  rw [normalized_eq_scale]
  have : (q.scale (1 / q.length)).length2 = q.length2 * (1 / q.length) ^ 2 := by
    simp only [Quat.scale, Quat.length2]; ring
  rw [this, ← h2]
  field_simp

theorem getRotation_setRotation {q : Quat} (h : q ≠ ⟨0, 0, 0, 0⟩) :
    (Mat3.setRotation q).getRotation = q.normalized ∨
    (Mat3.setRotation q).getRotation = q.normalized.scale (-1) := by
  have hr := setRotation_rotation h
  obtain ⟨_, h1, h2⟩ := getRotation_correct hr
  apply setRotation_inj (normalized_length2 h) h1
  rw [h2, normalized_eq_scale, setRotation_scale]
  have := length_pos h
  positivity

/-! ### Roll, pitch, yaw -/

theorem setRPY_M (r p y : ℝ) : M (Mat3.setRPY r p y) = Rz y * Ry p * Rx r := by
  ext i j
  fin_cases i <;> fin_cases j <;>
    simp [M, Mat3.setRPY, Rx, Ry, Rz, Matrix.mul_apply, Fin.sum_univ_succ] <;> ring

theorem setRPY_rotation (r p y : ℝ) : Rotation (Mat3.setRPY r p y) := by
  rw [rotation_iff, orth_iff]
  have h1 := Real.sin_sq_add_cos_sq r
  have h2 := Real.sin_sq_add_cos_sq p
  have h3 := Real.sin_sq_add_cos_sq y
  unfold Mat3.setRPY
  simp only []
  generalize Real.sin r = sr at *
  generalize Real.sin p = sp at *
  generalize Real.sin y = sy at *
  generalize Real.cos r = cr at *
  generalize Real.cos p = cp at *
  generalize Real.cos y = cy at *
  refine ⟨⟨?_, ?_, ?_, ?_, ?_, ?_⟩, ?_⟩
  · linear_combination cp ^ 2 * h3 + h2
  · linear_combination (sp ^ 2 * sr ^ 2 + cr ^ 2) * h3 + sr ^ 2 * h2 + h1
  · linear_combination (sp ^ 2 * cr ^ 2 + sr ^ 2) * h3 + cr ^ 2 * h2 + h1
  · linear_combination cp * sp * sr * h3
  · linear_combination cp * sp * cr * h3
  · linear_combination (sp ^ 2 * sr * cr - sr * cr) * h3 + sr * cr * h2
  · linear_combination (sr^2+cr^2)*(cp ^ 2 * h3 + sp^2 * h3 + h2) + h1

/-- sine and cosine of the pitch computed by `getRPY`. -/
theorem pitch_sin_cos {a : Mat3} (h : Rotation a) :
    Real.sin (atan2 (-a.zx) (Real.sqrt (a.zy * a.zy + a.zz * a.zz))) = -a.zx ∧
    Real.cos (atan2 (-a.zx) (Real.sqrt (a.zy * a.zy + a.zz * a.zz)))
      = Real.sqrt (a.zy * a.zy + a.zz * a.zz) := by
  obtain ⟨ho, hd⟩ := (rotation_iff a).mp h
  obtain ⟨r1, r2, r3, r4, r5, r6⟩ := orth_rows ho
  have hn : 0 ≤ a.zy * a.zy + a.zz * a.zz := by
    have := mul_self_nonneg a.zy
    have := mul_self_nonneg a.zz
    linarith
  have hsq := Real.mul_self_sqrt hn
  have hone : Real.sqrt (a.zy * a.zy + a.zz * a.zz) * Real.sqrt (a.zy * a.zy + a.zz * a.zz)
      + -a.zx * -a.zx = 1 := by rw [hsq]; linarith
  constructor
  · rw [sin_atan2, hone]; simp
  · rw [cos_atan2, hone]
    · simp
    · by_contra hc
      push Not at hc
      rw [hc.1, hc.2] at hone
      norm_num at hone

theorem pitch_le {a : Mat3} :
    |atan2 (-a.zx) (Real.sqrt (a.zy * a.zy + a.zz * a.zz))| ≤ Real.pi / 2 := by
  unfold atan2
  rw [Complex.abs_arg_le_pi_div_two_iff]
  exact Real.sqrt_nonneg _

theorem rpy_generic {a : Mat3} (h : Rotation a) (hz : a.zx ≠ 1) (hz' : a.zx ≠ -1) :
    Mat3.setRPY (atan2 a.zy a.zz) (atan2 (-a.zx) (Real.sqrt (a.zy * a.zy + a.zz * a.zz)))
      (atan2 a.yx a.xx) = a := by
  obtain ⟨ho, hd⟩ := (rotation_iff a).mp h
  obtain ⟨c1, c2, c3, c4, c5, c6⟩ := (orth_iff a).mp ho
  obtain ⟨r1, r2, r3, r4, r5, r6⟩ := orth_rows ho
  obtain ⟨k1, k2, k3, k4, k5, k6, k7, k8, k9⟩ := rotation_cofactor h
  obtain ⟨hs, hc⟩ := pitch_sin_cos h
  have hn : 0 ≤ a.zy * a.zy + a.zz * a.zz := by
    have := mul_self_nonneg a.zy
    have := mul_self_nonneg a.zz
    linarith
  have hn0 : a.zy * a.zy + a.zz * a.zz ≠ 0 := by
    intro h0
    have : (a.zx - 1) * (a.zx + 1) = 0 := by linear_combination r3 - h0
    rcases mul_eq_zero.mp this with h' | h'
    · exact hz (by linarith)
    · exact hz' (by linarith)
  have hpos : 0 < a.zy * a.zy + a.zz * a.zz := lt_of_le_of_ne hn (Ne.symm hn0)
  have hcol : a.xx * a.xx + a.yx * a.yx = a.zy * a.zy + a.zz * a.zz := by linarith
  have hsr := sin_atan2 a.zy a.zz
  have hcr := cos_atan2 (y := a.zy) (x := a.zz) (by
    by_contra hh; push Not at hh; rw [hh.1, hh.2] at hn0; simp at hn0)
  have hsy := sin_atan2 a.yx a.xx
  have hcy := cos_atan2 (y := a.yx) (x := a.xx) (by
    by_contra hh; push Not at hh; rw [← hcol, hh.1, hh.2] at hn0; simp at hn0)
  rw [show a.zz * a.zz + a.zy * a.zy = a.zy * a.zy + a.zz * a.zz from by ring] at hsr hcr
  rw [hcol] at hsy hcy
  unfold Mat3.setRPY
  simp only [hs, hc, hsr, hcr, hsy, hcy]
  have hq0 : 0 < Real.sqrt (a.zy * a.zy + a.zz * a.zz) := Real.sqrt_pos.mpr hpos
  have hq : Real.sqrt (a.zy * a.zy + a.zz * a.zz) ^ 2 = a.zy * a.zy + a.zz * a.zz := by
    rw [sq]; exact Real.mul_self_sqrt hn
  generalize Real.sqrt (a.zy * a.zy + a.zz * a.zz) = c at *
  have hcne : c ≠ 0 := hq0.ne'
  ext <;> simp only [] <;> field_simp <;> (try rw [hq])
  · linear_combination (-a.zy) * r5 - a.zz * k4
  · linear_combination (-a.zz) * r5 + a.zy * k4
  · linear_combination (-a.zy) * r6 + a.zz * k1
  · linear_combination (-a.zz) * r6 - a.zy * k1

theorem sum_sq_zero {x y : ℝ} (h : x * x + y * y = 0) : x = 0 ∧ y = 0 := by
  have hx := mul_self_nonneg x
  have hy := mul_self_nonneg y
  exact ⟨mul_self_eq_zero.mp (by linarith), mul_self_eq_zero.mp (by linarith)⟩

theorem rpy_singular {a : Mat3} (h : Rotation a) (hz : a.zx = -1) :
    Mat3.setRPY 0 (atan2 (-a.zx) (Real.sqrt (a.zy * a.zy + a.zz * a.zz))) (atan2 (-a.xy) a.yy)
      = a := by
  obtain ⟨ho, hd⟩ := (rotation_iff a).mp h
  obtain ⟨c1, c2, c3, c4, c5, c6⟩ := (orth_iff a).mp ho
  obtain ⟨r1, r2, r3, r4, r5, r6⟩ := orth_rows ho
  obtain ⟨k1, k2, k3, k4, k5, k6, k7, k8, k9⟩ := rotation_cofactor h
  obtain ⟨hs, hc⟩ := pitch_sin_cos h
  rw [hz] at r3 c1
  obtain ⟨z1, z2⟩ := sum_sq_zero (x := a.zy) (y := a.zz) (by linarith)
  obtain ⟨z3, z4⟩ := sum_sq_zero (x := a.xx) (y := a.yx) (by linarith)
  have hn : a.yy * a.yy + -a.xy * -a.xy = 1 := by rw [z1] at c2; linarith
  have hsy := sin_atan2 (-a.xy) a.yy
  have hcy := cos_atan2 (y := -a.xy) (x := a.yy) (by
    by_contra hh; push Not at hh; rw [hh.1, hh.2] at hn; simp at hn)
  rw [hn] at hsy hcy
  unfold Mat3.setRPY
  simp only [hs, hc, hsy, hcy]
  rw [hz, z1] at k3 k6
  have e : Real.sqrt (a.zy * a.zy + a.zz * a.zz) = 0 := by rw [z1, z2]; simp
  rw [e]
  ext <;> simp only [hz, Real.sin_zero, Real.cos_zero, Real.sqrt_one] <;> linarith

theorem abs_le_of_sq {x c : ℝ} (hc : 0 ≤ c) (h : x * x ≤ c * c) : |x| ≤ c :=
  abs_le_of_sq_le_sq (by simpa [sq] using h) hc

theorem abs_le_left {x y c : ℝ} (hc : 0 ≤ c) (h : x * x + y * y = c * c) : |x| ≤ c ∧ |y| ≤ c := by
  have hx := mul_self_nonneg x
  have hy := mul_self_nonneg y
  exact ⟨abs_le_of_sq hc (by linarith), abs_le_of_sq hc (by linarith)⟩

theorem abs_mul_le {x y b c : ℝ} (hb : 0 ≤ b) (hx : |x| ≤ b) (hy : |y| ≤ c) : |x * y| ≤ b * c := by
  rw [abs_mul]
  exact mul_le_mul hx hy (abs_nonneg _) hb

/-- The polar decomposition used by the near-singular case. -/
theorem near_aux {xy yy zy c : ℝ} (hc0 : 0 ≤ c) (hc1 : c ≤ 1 / 2)
    (h : yy * yy + xy * xy = 1 - zy * zy) (hz : zy * zy ≤ c * c) :
    ∃ u v n : ℝ, yy = u * n ∧ xy = v * n ∧ |u| ≤ 1 ∧ |v| ≤ 1 ∧ |1 - n| ≤ c ∧
      Real.sin (atan2 (-xy) yy) = -v ∧ Real.cos (atan2 (-xy) yy) = u := by
  obtain ⟨n, hn⟩ : ∃ n, n = Real.sqrt (yy * yy + -xy * -xy) := ⟨_, rfl⟩
  have hn2' : yy * yy + -xy * -xy = 1 - zy * zy := by linarith
  have hcc4 : c * c ≤ c / 2 := by nlinarith
  have hnn : n * n = 1 - zy * zy := by
    rw [hn, Real.mul_self_sqrt (by nlinarith)]; exact hn2'
  have hn0 : 0 ≤ n := by rw [hn]; exact Real.sqrt_nonneg _
  have hnpos : 0 < n := by
    rcases hn0.lt_or_eq with h' | h'
    · exact h'
    · rw [← h'] at hnn; linarith
  have hn1 : n ≤ 1 := by nlinarith [mul_self_nonneg zy]
  have hn1c : 1 - n ≤ c := by nlinarith
  have hsy := sin_atan2 (-xy) yy
  have hcy := cos_atan2 (y := -xy) (x := yy) (by
    by_contra hh; push Not at hh; rw [hh.1, hh.2] at hn2'; linarith)
  rw [← hn] at hsy hcy
  have huv : yy / n * (yy / n) + xy / n * (xy / n) = 1 * 1 := by
    have hnn' : n * n = yy * yy + xy * xy := by linarith
    field_simp
    linarith
  obtain ⟨h1, h2⟩ := abs_le_left (by norm_num) huv
  refine ⟨yy / n, xy / n, n, by field_simp, by field_simp, h1, h2, ?_, ?_, hcy⟩
  · rw [abs_of_nonneg (by linarith)]; exact hn1c
  · rw [hsy]; ring

/-- Near the guarded singularity the reconstruction is within three times the cosine of pitch. -/
theorem rpy_near_singular {a : Mat3} (h : Rotation a) {c : ℝ}
    (hc0 : 0 ≤ c) (hc1 : c ≤ 1 / 2) (hcc : a.zy * a.zy + a.zz * a.zz = c * c) :
    let b := Mat3.setRPY 0 (atan2 (-a.zx) (Real.sqrt (a.zy * a.zy + a.zz * a.zz)))
      (atan2 (-a.xy) a.yy)
    |b.xx - a.xx| ≤ 3 * c ∧ |b.xy - a.xy| ≤ 3 * c ∧ |b.xz - a.xz| ≤ 3 * c ∧
    |b.yx - a.yx| ≤ 3 * c ∧ |b.yy - a.yy| ≤ 3 * c ∧ |b.yz - a.yz| ≤ 3 * c ∧
    |b.zx - a.zx| ≤ 3 * c ∧ |b.zy - a.zy| ≤ 3 * c ∧ |b.zz - a.zz| ≤ 3 * c := by
  obtain ⟨ho, hd⟩ := (rotation_iff a).mp h
  obtain ⟨c1, c2, c3, c4, c5, c6⟩ := (orth_iff a).mp ho
  obtain ⟨r1, r2, r3, r4, r5, r6⟩ := orth_rows ho
  obtain ⟨k1, k2, k3, k4, k5, k6, k7, k8, k9⟩ := rotation_cofactor h
  obtain ⟨hs, hc⟩ := pitch_sin_cos h
  have hsq : Real.sqrt (a.zy * a.zy + a.zz * a.zz) = c := by
    rw [hcc]; exact Real.sqrt_mul_self hc0
  rw [hsq] at hs hc
  obtain ⟨hzy, hzz⟩ := abs_le_left hc0 hcc
  obtain ⟨hxx, hyx⟩ := abs_le_left (x := a.xx) (y := a.yx) hc0 (by linarith)
  have hzz0 := mul_self_nonneg a.zz
  obtain ⟨u, v, n, hun, hvn, hu1, hv1, h1n, hsv, hcu⟩ :=
    near_aux (xy := a.xy) (yy := a.yy) (zy := a.zy) hc0 hc1 (by linarith) (by linarith)
  have hcc0 := mul_self_nonneg c
  have hzx1 : |a.zx| ≤ 1 := abs_le_of_sq (by norm_num) (by linarith)
  have hcabs : |c| ≤ c := by rw [abs_of_nonneg hc0]
  intro b
  have hb : b = Mat3.setRPY 0 (atan2 (-a.zx) c) (atan2 (-a.xy) a.yy) := by
    simp only [b, hsq]
  rw [hb]
  unfold Mat3.setRPY
  simp only [hs, hc, hsv, hcu, Real.sin_zero, Real.cos_zero]
  have t1 := abs_mul_le zero_le_one hu1 hcabs
  have t2 := abs_mul_le zero_le_one hv1 hcabs
  have t3 := abs_mul_le zero_le_one hv1 h1n
  have t4 := abs_mul_le zero_le_one hu1 h1n
  have t5 := abs_mul_le (by norm_num) (abs_mul_le zero_le_one hzx1 hu1) h1n
  have t6 := abs_mul_le (by norm_num) (abs_mul_le zero_le_one hzx1 hv1) h1n
  have hc1' : c ≤ 1 := by linarith
  have t7 := abs_mul_le zero_le_one (hyx.trans hc1') hzy
  have t8 := abs_mul_le zero_le_one (hxx.trans hc1') hzy
  clear hzx1
  simp only [abs_le, one_mul] at *
  refine ⟨⟨?_, ?_⟩, ⟨?_, ?_⟩, ⟨?_, ?_⟩, ⟨?_, ?_⟩, ⟨?_, ?_⟩, ⟨?_, ?_⟩, ⟨?_, ?_⟩, ⟨?_, ?_⟩, ⟨?_, ?_⟩⟩
  all_goals first
    | linarith
    | (rw [k3, hun]; linarith)
    | (rw [k6, hvn]; linarith)

end Geo
