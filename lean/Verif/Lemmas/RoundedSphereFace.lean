import Verif.Lemmas.RoundedSphere
import Verif.Lemmas.Sphere

/-!
# Helper lemmas on the sphere test of meshes in floating point arithmetic: the surface of a triangle
-/

namespace Geo.RoundedSphere
open Spec RoundedVec

variable {u : ℝ} {rnd : ℝ → ℝ}

theorem length_smul (k : ℝ) (a : Vec3) : (k * a).length = |k| * a.length := by
  refine (Real.sqrt_eq_iff_mul_self_eq (Mesh.length2_nonneg (k * a)) (mul_nonneg (abs_nonneg k) (length_nonneg a))).2 ?_
  have h1 := length_sq a
  have h2 := abs_mul_abs_self k
  rw [show |k| * a.length * (|k| * a.length) = |k| * |k| * a.length ^ 2 by ring, h1, h2]
  simp only [Vec3.length2, Vec3.smul_x, Vec3.smul_y, Vec3.smul_z]
  ring

/-- The computed normal. -/
theorem normal_err (h : RelErr u rnd) {e1 e2 e1' e2' : Vec3} {κ N : ℝ} (huκ : u ≤ κ) (hκ : κ ≤ 1 / 1000)
    (h1 : (e1' - e1).length ≤ u * e1.length) (h2 : (e2' - e2).length ≤ u * e2.length)
    (hE : u * (e1.length * e2.length) ≤ κ * N) :
    (Rounded.cross rnd e1' e2' - e1.cross e2).length ≤ 5.6 * (κ * N) := by
  have hu0 := Rounded.relErr_nonneg h
  have hu1 : u ≤ 1 / 1000 := huκ.trans hκ
  have k := cross_near h hu1 h1 h2 le_rfl le_rfl
  have l1 := length_nonneg e1
  have l2 := length_nonneg e2
  generalize e1.length = a at *
  generalize e2.length = b at *
  refine k.trans ?_
  have e : u * a * (b + u * b) + a * (u * b) + 3.5 * u * ((a + u * a) * (b + u * b)) =
    5.5 * (u * (a * b)) + 8 * (u * (u * (a * b))) + 3.5 * (u * (u * (u * (a * b)))) := by ring
  have g0 : 0 ≤ u * (a * b) := by positivity
  have g1 : u * (u * (a * b)) ≤ 1 / 1000 * (u * (a * b)) := mul_le_mul_of_nonneg_right hu1 g0
  have g2 : u * (u * (u * (a * b))) ≤ 1 / 1000 * (u * (u * (a * b))) := mul_le_mul_of_nonneg_right hu1 (by positivity)
  rw [e]
  linarith

theorem abs_length_sub (a b : Vec3) : |a.length - b.length| ≤ (a - b).length := by
  have h1 := length_le_add a b
  have h2 := length_le_add b a
  rw [length_sub_comm] at h2
  rw [abs_le]
  constructor <;> linarith

/-- The computed distance from the plane, before the square and the root. -/
theorem plane_err (h : RelErr u rnd) {v p n n' : Vec3} {κ D : ℝ} (huκ : u ≤ κ) (hκ : κ ≤ 1 / 1000) (hn : 0 < n.length)
    (hn' : (n' - n).length ≤ 5.6 * (κ * n.length)) (hD : (v - p).length ≤ D) :
    |(|Rounded.dot rnd (Rounded.sub rnd v p) n'| / n'.length) - |(v - p).dot n| / n.length| ≤ 15.5 * (κ * D) := by
  have hu0 := Rounded.relErr_nonneg h
  have hu1 : u ≤ 1 / 1000 := huκ.trans hκ
  have hκ0 : 0 ≤ κ := hu0.trans huκ
  have hD0 : 0 ≤ D := (length_nonneg _).trans hD
  have hs := sub_err h v p
  have hs' : (Rounded.sub rnd v p - (v - p)).length ≤ u * D := hs.trans (mul_le_mul_of_nonneg_left hD hu0)
  have k := dot_near h hu1 hs' hn' hD le_rfl
  have kd := abs_dot (v - p) n
  have hl := (abs_length_sub n' n).trans hn'
  generalize n.length = N at *
  generalize n'.length = N' at *
  generalize Rounded.dot rnd (Rounded.sub rnd v p) n' = a' at *
  generalize (v - p).dot n = a at *
  have hDN : 0 ≤ D * N := by positivity
  have hκDN : 0 ≤ κ * (D * N) := by positivity
  have huDN : u * (D * N) ≤ κ * (D * N) := mul_le_mul_of_nonneg_right huκ hDN
  have hkk : κ * (κ * (D * N)) ≤ 1 / 1000 * (κ * (D * N)) := mul_le_mul_of_nonneg_right hκ hκDN
  have k' : |a' - a| ≤ 9.7 * (κ * (D * N)) := by
    refine k.trans ?_
    have g1 : u * (κ * (D * N)) ≤ κ * (κ * (D * N)) := mul_le_mul_of_nonneg_right huκ hκDN
    have g2 : u * (u * (D * N)) ≤ κ * (κ * (D * N)) :=
      mul_le_mul huκ huDN (by positivity) hκ0
    have g3 : u * (u * (κ * (D * N))) ≤ κ * (κ * (κ * (D * N))) :=
      mul_le_mul huκ g1 (by positivity) hκ0
    have g4 : κ * (κ * (κ * (D * N))) ≤ 1 / 1000 * (κ * (κ * (D * N))) := mul_le_mul_of_nonneg_right hκ (by positivity)
    have e : u * D * (N + 5.6 * (κ * N)) + D * (5.6 * (κ * N)) + 3.01 * u * ((D + u * D) * (N + 5.6 * (κ * N))) =
      4.01 * (u * (D * N)) + 5.6 * (κ * (D * N)) + (5.6 + 3.01 * 5.6) * (u * (κ * (D * N))) + 3.01 * (u * (u * (D * N))) +
      3.01 * 5.6 * (u * (u * (κ * (D * N)))) := by ring
    rw [e]
    linarith
  have ka : |(|a'| - |a|)| ≤ 9.7 * (κ * (D * N)) := (abs_abs_sub_abs_le _ _).trans k'
  have hκN : κ * N ≤ 1 / 1000 * N := mul_le_mul_of_nonneg_right hκ hn.le
  obtain ⟨l1, l2⟩ := abs_le.1 hl
  have hN' : 0.994 * N ≤ N' := by linarith
  have hN0 : 0 < N' := by linarith
  have hda : |a| ≤ D * N := kd.trans (mul_le_mul_of_nonneg_right hD hn.le)
  obtain ⟨d, hd⟩ : ∃ d, d = |a| / N := ⟨_, rfl⟩
  have hd0 : 0 ≤ d := by rw [hd]; positivity
  have hdD : d ≤ D := by rw [hd, div_le_iff₀ hn]; exact hda
  have had : |a| = d * N := by rw [hd]; field_simp
  rw [← hd, show |a'| / N' - d = (|a'| - d * N') / N' by field_simp, abs_div, abs_of_pos hN0, div_le_iff₀ hN0]
  have e : |a'| - d * N' = (|a'| - |a|) + d * (N - N') := by rw [had]; ring
  have e2 : |d * (N - N')| ≤ D * (5.6 * (κ * N)) := by
    rw [abs_mul, abs_of_nonneg hd0, abs_sub_comm]
    exact mul_le_mul hdD hl (abs_nonneg _) hD0
  rw [e]
  refine (abs_add_le _ _).trans ?_
  have : κ * D * (0.994 * N) ≤ κ * D * N' := mul_le_mul_of_nonneg_left hN' (by positivity)
  linarith

/-- The displacement towards the plane as computed. -/
theorem shift_err (h : RelErr u rnd) {n n' : Vec3} {κ D d a' : ℝ} (huκ : u ≤ κ) (hκ : κ ≤ 1 / 1000) (hn : 0 < n.length)
    (hn' : (n' - n).length ≤ 5.6 * (κ * n.length)) (hd0 : 0 ≤ d) (hdD : d ≤ D)
    (hd : |(|a'| / n'.length) - d| ≤ 15.5 * (κ * D)) :
    let pd2 := rnd (rnd (a' * a') / Rounded.length2 rnd n')
    let s := rnd (Real.sqrt pd2)
    let m := Rounded.normalized rnd n'
    Rounded.length2 rnd n' ≠ 0 ∧ pd2 ≤ d ^ 2 + 39 * (κ * D ^ 2) ∧
      ((⟨rnd (m.x * s), rnd (m.y * s), rnd (m.z * s)⟩ : Vec3) - (d / n.length) * n).length ≤ 38 * (κ * D) := by
  have hu0 := Rounded.relErr_nonneg h
  have hu1 : u ≤ 1 / 1000 := huκ.trans hκ
  have hκ0 : 0 ≤ κ := hu0.trans huκ
  have hD0 : 0 ≤ D := hd0.trans hdD
  have hl := (abs_length_sub n' n).trans hn'
  have hκN : κ * n.length ≤ 1 / 1000 * n.length := mul_le_mul_of_nonneg_right hκ hn.le
  obtain ⟨l1, l2⟩ := abs_le.1 hl
  have hN' : 0.994 * n.length ≤ n'.length := by linarith
  have hN0 : 0 < n'.length := by linarith
  have R : Rnd u 0 rnd := ⟨le_rfl, hu0, hu1, h⟩
  have hl2 := R.length2 n'
  rw [← length_sq] at hl2
  have hL2 : 0 < n'.length ^ 2 := by positivity
  have huL : u * n'.length ^ 2 ≤ 1 / 1000 * n'.length ^ 2 := mul_le_mul_of_nonneg_right hu1 hL2.le
  have hl2' : |Rounded.length2 rnd n' - n'.length ^ 2| ≤ 5.1 * u * n'.length ^ 2 := by
    refine hl2.trans ?_
    have : 0 ≤ u * n'.length ^ 2 := by positivity
    linarith
  have hw := proj_sq h hu1 hN0 hl2' (d := a')
  have e' : (a' / n'.length) ^ 2 = (|a'| / n'.length) ^ 2 := by rw [div_pow, div_pow, sq_abs]
  rw [e'] at hw
  have hunit : UnitAlong n' ((1 / n'.length) * n') := by
    refine ⟨?_, n'.length, hN0, ?_, ?_, ?_⟩
    · have := length_sq n'
      simp only [Vec3.smul_x, Vec3.smul_y, Vec3.smul_z]
      field_simp
      simp only [Vec3.length2] at this
      linarith
    all_goals
      simp only [Vec3.smul_x, Vec3.smul_y, Vec3.smul_z]
      field_simp
  obtain ⟨mx, my, mz⟩ := RoundedBox.normalized_err h hu1 hunit
  obtain ⟨d', hd'⟩ : ∃ d', d' = |a'| / n'.length := ⟨_, rfl⟩
  rw [← hd'] at hw hd
  have hd'0 : 0 ≤ d' := by rw [hd']; positivity
  have hκD : κ * D ≤ 1 / 1000 * D := mul_le_mul_of_nonneg_right hκ hD0
  have hκD0 : 0 ≤ κ * D := by positivity
  obtain ⟨d1, d2⟩ := abs_le.1 hd
  have hd'D : d' ≤ 1.016 * D := by linarith
  intro pd2 s m
  have hpd : |pd2 - d' ^ 2| ≤ 7.3 * u * d' ^ 2 := hw
  have hnz : Rounded.length2 rnd n' ≠ 0 := by
    intro hz
    rw [hz] at hl2
    have := (abs_le.1 hl2).1
    linarith
  refine ⟨hnz, ?_, ?_⟩
  · have g1 : d' ^ 2 ≤ (d + 15.5 * (κ * D)) ^ 2 := pow_le_pow_left₀ hd'0 (by linarith) 2
    have g2 : d' ^ 2 ≤ (1.016 * D) ^ 2 := pow_le_pow_left₀ hd'0 hd'D 2
    have g3 := (abs_le.1 hpd).2
    have g4 : u * d' ^ 2 ≤ κ * (1.016 * D) ^ 2 := mul_le_mul huκ g2 (by positivity) hκ0
    have g5 : κ * D * d ≤ κ * D * D := mul_le_mul_of_nonneg_left hdD hκD0
    have g6 : κ * D * (κ * D) ≤ 1 / 1000 * D * (κ * D) := mul_le_mul_of_nonneg_right hκD hκD0
    have g7 : 0 ≤ κ * D ^ 2 := by positivity
    linarith
  · have hs : |s - d'| ≤ 4.8 * u * d' := by
      have hp0 : 0 ≤ pd2 := by
        have := (abs_le.1 hpd).1
        have : u * d' ^ 2 ≤ 1 / 1000 * d' ^ 2 := mul_le_mul_of_nonneg_right hu1 (sq_nonneg _)
        have := sq_nonneg d'
        linarith
      have hr : |Real.sqrt pd2 - d'| ≤ 3.7 * u * d' := by
        obtain ⟨q1, q2⟩ := abs_le.1 hpd
        have hud : 0 ≤ u * d' ^ 2 := by positivity
        have huu : u * (u * d' ^ 2) ≤ 1 / 1000 * (u * d' ^ 2) := mul_le_mul_of_nonneg_right hu1 hud
        have t1 : Real.sqrt pd2 ≤ d' * (1 + 3.7 * u) := by
          refine Real.sqrt_le_iff.2 ⟨by positivity, ?_⟩
          have : 0 ≤ u * (u * d' ^ 2) := by positivity
          linarith
        have t2 : d' * (1 - 3.7 * u) ≤ Real.sqrt pd2 := by
          refine Real.le_sqrt_of_sq_le ?_
          linarith
        rw [abs_le]
        constructor <;> linarith
      have g1 := h (Real.sqrt pd2)
      rw [abs_of_nonneg (a := Real.sqrt pd2) (Real.sqrt_nonneg _)] at g1
      obtain ⟨r1, r2⟩ := abs_le.1 hr
      have g2 : u * Real.sqrt pd2 ≤ u * (1.004 * d') := by
        refine mul_le_mul_of_nonneg_left ?_ hu0
        have : u * d' ≤ 1 / 1000 * d' := mul_le_mul_of_nonneg_right hu1 hd'0
        linarith
      have g3 := abs_sub_le s (Real.sqrt pd2) d'
      have : 0 ≤ u * d' := by positivity
      have : |s - Real.sqrt pd2| ≤ u * Real.sqrt pd2 := g1
      linarith
    have comp : ∀ {c e : ℝ}, |c - e| ≤ 3.6 * u * |e| → |rnd (c * s) - d' * e| ≤ 9.6 * u * |d' * e| := by
      intro c e hc
      have hx0 : 0 ≤ u * (d' * |e|) := by positivity
      have hxx : u * (u * (d' * |e|)) ≤ 1 / 1000 * (u * (d' * |e|)) := mul_le_mul_of_nonneg_right hu1 hx0
      have t : |c * s - d' * e| ≤ 8.5 * u * |d' * e| := by
        rw [show c * s - d' * e = (c - e) * (s - d') + (c - e) * d' + e * (s - d') by ring, abs_mul d', abs_of_nonneg hd'0]
        refine (abs_add_le _ _).trans ((add_le_add (abs_add_le _ _) le_rfl).trans ?_)
        rw [abs_mul, abs_mul, abs_mul, abs_of_nonneg (a := d') hd'0]
        have t1 := mul_le_mul hc hs (abs_nonneg _) (by positivity)
        have t2 := mul_le_mul_of_nonneg_right hc hd'0
        have t3 := mul_le_mul_of_nonneg_left hs (abs_nonneg e)
        linarith
      have := RoundedBox.rel_step h hu0 hu1 (by norm_num) t
      have : 0 ≤ u * |d' * e| := by positivity
      linarith
    have c1 := comp mx
    have c2 := comp my
    have c3 := comp mz
    have A : ((⟨rnd (m.x * s), rnd (m.y * s), rnd (m.z * s)⟩ : Vec3) - d' * ((1 / n'.length) * n')).length ≤ 9.6 * u * d' := by
      refine length_le_of_abs (b := d' * ((1 / n'.length) * n')) (by positivity) ?_ ?_ ?_ ?_
      · simp only [Vec3.sub_x, Vec3.smul_x] at *
        rwa [mul_comm _ d']
      · simp only [Vec3.sub_y, Vec3.smul_y] at *
        rwa [mul_comm _ d']
      · simp only [Vec3.sub_z, Vec3.smul_z] at *
        rwa [mul_comm _ d']
      · rw [length_smul, length_smul, abs_of_nonneg hd'0, abs_of_pos (by positivity)]
        rw [one_div_mul_cancel hN0.ne', mul_one]
    have B : (d' * ((1 / n'.length) * n') - (d / n.length) * n).length ≤ 27.3 * (κ * D) := by
      have e1 : (d' / n'.length) * n' - (d / n.length) * n =
          (d' / n'.length) * (n' - n) + (d' / n'.length - d / n.length) * n := by
        ext <;> simp only [Vec3.sub_x, Vec3.smul_x, Vec3.add_x, Vec3.sub_y, Vec3.smul_y, Vec3.add_y, Vec3.sub_z, Vec3.smul_z,
          Vec3.add_z] <;> ring
      have e0 : d' * ((1 / n'.length) * n') = (d' / n'.length) * n' := by
        ext <;> simp only [Vec3.smul_x, Vec3.smul_y, Vec3.smul_z] <;> ring
      rw [e0, e1]
      refine (length_add_le _ _).trans ?_
      rw [length_smul, length_smul, abs_of_nonneg (a := d' / n'.length) (by positivity)]
      have e2 : |d' / n'.length - d / n.length| * n.length = |(d' - d) + d' * ((n.length - n'.length) / n'.length)| := by
        rw [← abs_of_pos hn (a := n.length), ← abs_mul, abs_of_pos hn]
        congr 1
        field_simp
        ring
      rw [e2]
      have e3 : |(n.length - n'.length) / n'.length| ≤ 5.64 * κ := by
        rw [abs_div, abs_of_pos hN0, div_le_iff₀ hN0, abs_sub_comm]
        refine hl.trans ?_
        have : κ * (0.994 * n.length) ≤ κ * n'.length := mul_le_mul_of_nonneg_left hN' hκ0
        have : 0 ≤ κ * n.length := by positivity
        linarith
      have e4 : (n' - n).length / n'.length ≤ 5.64 * κ := by
        rw [div_le_iff₀ hN0]
        refine hn'.trans ?_
        have : κ * (0.994 * n.length) ≤ κ * n'.length := mul_le_mul_of_nonneg_left hN' hκ0
        have : 0 ≤ κ * n.length := by positivity
        linarith
      have e5 : d' / n'.length * (n' - n).length ≤ d' * (5.64 * κ) := by
        rw [div_mul_eq_mul_div, mul_div_assoc]
        exact mul_le_mul_of_nonneg_left e4 hd'0
      have e6 := abs_add_le (d' - d) (d' * ((n.length - n'.length) / n'.length))
      rw [abs_mul, abs_of_nonneg (a := d') hd'0] at e6
      have e7 := mul_le_mul_of_nonneg_left e3 hd'0
      have e8 : d' * (5.64 * κ) ≤ 1.016 * D * (5.64 * κ) := mul_le_mul_of_nonneg_right hd'D (by positivity)
      linarith
    have C := length_sub_le (⟨rnd (m.x * s), rnd (m.y * s), rnd (m.z * s)⟩ : Vec3) (d' * ((1 / n'.length) * n'))
      ((d / n.length) * n)
    have : u * d' ≤ κ * (1.016 * D) := mul_le_mul huκ hd'D hd'0 hκ0
    linarith

/-- The vector products with the edges as computed. -/
theorem edge_err (h : RelErr u rnd) {p q M M' v e e' : Vec3} {κ D : ℝ} (huκ : u ≤ κ) (hκ : κ ≤ 1 / 1000)
    (hM : (M' - M).length ≤ 38 * (κ * D)) (hq : q = p - M) (hqD : q.length ≤ 2 * D) (hv : (q - v).length ≤ 2 * D)
    (he : (e' - e).length ≤ u * e.length) (hD : 0 ≤ D) :
    (Rounded.cross rnd e' (Rounded.sub rnd (Rounded.sub rnd p M') v) - e.cross (q - v)).length ≤ 53 * (κ * D) * e.length := by
  have hu0 := Rounded.relErr_nonneg h
  have hu1 : u ≤ 1 / 1000 := huκ.trans hκ
  have hκ0 : 0 ≤ κ := hu0.trans huκ
  have hκD0 : 0 ≤ κ * D := by positivity
  have huD : u * D ≤ κ * D := mul_le_mul_of_nonneg_right huκ hD
  have huκD : u * (κ * D) ≤ 1 / 1000 * (κ * D) := mul_le_mul_of_nonneg_right hu1 hκD0
  have hκD : κ * D ≤ 1 / 1000 * D := mul_le_mul_of_nonneg_right hκ hD
  have z : (p - p).length ≤ 0 := by
    rw [show p - p = (0 : ℝ) * p by ext <;> simp, length_smul]; simp
  have k1 := sub_near h z hM
  rw [← hq] at k1
  have k1' : (Rounded.sub rnd p M' - q).length ≤ 40.1 * (κ * D) := by
    refine k1.trans ?_
    have : u * (q.length + 0 + 38 * (κ * D)) ≤ u * (2 * D + 38 * (κ * D)) := mul_le_mul_of_nonneg_left (by linarith) hu0
    linarith
  have zv : (v - v).length ≤ 0 := by
    rw [show v - v = (0 : ℝ) * v by ext <;> simp, length_smul]; simp
  have k2 := sub_near h k1' zv
  have k2' : (Rounded.sub rnd (Rounded.sub rnd p M') v - (q - v)).length ≤ 42.2 * (κ * D) := by
    refine k2.trans ?_
    have : u * ((q - v).length + 40.1 * (κ * D) + 0) ≤ u * (2 * D + 40.1 * (κ * D)) :=
      mul_le_mul_of_nonneg_left (by linarith) hu0
    linarith
  have k3 := cross_near h hu1 he k2' le_rfl hv
  refine k3.trans ?_
  have hl := length_nonneg e
  generalize e.length = l at *
  have hb : 2 * D + 42.2 * (κ * D) ≤ 2.05 * D := by linarith
  have g1 : u * l * (2 * D + 42.2 * (κ * D)) ≤ u * l * (2.05 * D) := mul_le_mul_of_nonneg_left hb (by positivity)
  have g2 : 3.5 * u * ((l + u * l) * (2 * D + 42.2 * (κ * D))) ≤ 3.5 * u * ((1.001 * l) * (2.05 * D)) := by
    refine mul_le_mul_of_nonneg_left (mul_le_mul ?_ hb (by positivity) (by positivity)) (by positivity)
    have : u * l ≤ 1 / 1000 * l := mul_le_mul_of_nonneg_right hu1 hl
    linarith
  have g3 : u * D * l ≤ κ * D * l := mul_le_mul_of_nonneg_right huD hl
  have g4 : 0 ≤ κ * D * l := by positivity
  linarith

/-- Two vectors along the same normal whose errors are at most a third of them have a positive computed inner product. -/
theorem dot_pos (h : RelErr u rnd) (hu : u ≤ 1 / 1000) {m c c' f f' : Vec3} {a b : ℝ} (hm : m.length = 1) (ha : 0 < a) (hb : 0 < b)
    (hc : c = a * m) (hf : f = b * m) (hc' : (c' - c).length ≤ a / 3) (hf' : (f' - f).length ≤ b / 3) :
    Rounded.dot rnd c' f' > 0 := by
  have hu0 := Rounded.relErr_nonneg h
  have lc : c.length = a := by rw [hc, length_smul, hm, abs_of_pos ha, mul_one]
  have lf : f.length = b := by rw [hf, length_smul, hm, abs_of_pos hb, mul_one]
  have hd : c.dot f = a * b := by
    have h1 := length_sq m
    rw [hm] at h1
    have : c.dot f = a * b * m.length2 := by
      rw [hc, hf]
      simp only [Vec3.dot, Vec3.length2, Vec3.smul_x, Vec3.smul_y, Vec3.smul_z]; ring
    rw [this, ← h1]; ring
  have k := dot_near h hu hc' hf' lc.le lf.le
  rw [hd] at k
  have hab : 0 < a * b := mul_pos ha hb
  have k1 := (abs_le.1 k).1
  have e : a / 3 * (b + b / 3) + a * (b / 3) + 3.01 * u * ((a + a / 3) * (b + b / 3)) =
    7 / 9 * (a * b) + 3.01 * 16 / 9 * (u * (a * b)) := by ring
  rw [e] at k1
  have : u * (a * b) ≤ 1 / 1000 * (a * b) := mul_le_mul_of_nonneg_right hu hab.le
  linarith

/-- A weight seen from the foot of the perpendicular. -/
theorem bary_shift (e v p n : Vec3) (t : ℝ) : bary e v (p - t * n) n = bary e v p n := by
  simp only [bary, Vec3.cross, Vec3.dot, Vec3.sub_x, Vec3.sub_y, Vec3.sub_z, Vec3.smul_x, Vec3.smul_y, Vec3.smul_z]
  ring

/-- In the plane the vector product with an edge is along the normal. -/
theorem cross_plane {e w n : Vec3} (he : e.dot n = 0) (hw : w.dot n = 0) (hn : 0 < n.length) :
    e.cross w = ((e.cross w).dot n / n.length) * ((1 / n.length) * n) := by
  have hl := length_sq n
  have hl0 : n.length2 ≠ 0 := by rw [← hl]; positivity
  have key : ∀ x y : ℝ, x * n.length2 = y → x = y * (1 / n.length ^ 2) := by
    intro x y hxy
    rw [hl, ← hxy]; field_simp
  have e1 : ∀ z : ℝ, (e.cross w).dot n / n.length * (1 / n.length * z) = (e.cross w).dot n * z * (1 / n.length ^ 2) := by
    intro z; field_simp
  simp only [Vec3.dot] at he hw
  ext
  · simp only [Vec3.smul_x]
    rw [mul_comm n.x, mul_comm, e1 n.x]
    refine key _ _ ?_
    simp only [Vec3.cross, Vec3.dot, Vec3.length2]
    linear_combination (n.y * w.z - n.z * w.y) * he - (n.y * e.z - n.z * e.y) * hw
  · simp only [Vec3.smul_y]
    rw [mul_comm n.y, mul_comm, e1 n.y]
    refine key _ _ ?_
    simp only [Vec3.cross, Vec3.dot, Vec3.length2]
    linear_combination (n.z * w.x - n.x * w.z) * he - (n.z * e.x - n.x * e.z) * hw
  · simp only [Vec3.smul_z]
    rw [mul_comm n.z, mul_comm, e1 n.z]
    refine key _ _ ?_
    simp only [Vec3.cross, Vec3.dot, Vec3.length2]
    linear_combination (n.x * w.y - n.y * w.x) * he - (n.x * e.y - n.y * e.x) * hw

/-- A segment from a point of a triangle to a point of its plane that is not inside meets the rim. -/
theorem rim_between {v1 v2 v3 x z : Vec3} {a b c a' b' c' : ℝ} (ha : 0 ≤ a) (hb : 0 ≤ b) (hc : 0 ≤ c) (hs : a + b + c = 1)
    (hx : x = ⟨a * v1.x + b * v2.x + c * v3.x, a * v1.y + b * v2.y + c * v3.y, a * v1.z + b * v2.z + c * v3.z⟩)
    (hs' : a' + b' + c' = 1)
    (hz : z = ⟨a' * v1.x + b' * v2.x + c' * v3.x, a' * v1.y + b' * v2.y + c' * v3.y, a' * v1.z + b' * v2.z + c' * v3.z⟩)
    (hn : a' ≤ 0 ∨ b' ≤ 0 ∨ c' ≤ 0) :
    ∃ l : ℝ, 0 ≤ l ∧ l ≤ 1 ∧ OnRim (v1, v2, v3) (x + l * (z - x)) := by
  obtain ⟨l, l0, l1, g1, g2, g3, g⟩ := hit_zero ha hb hc hn
  refine ⟨l, l0, l1, _, _, _, g1, g2, g3, ?_, g, ?_⟩
  · linear_combination (1 - l) * hs + l * hs'
  · rw [hx, hz]
    ext <;> simp only [Vec3.add_x, Vec3.smul_x, Vec3.sub_x, Vec3.add_y, Vec3.smul_y, Vec3.sub_y, Vec3.add_z, Vec3.smul_z,
      Vec3.sub_z] <;> ring

/-- The weights of a point of the plane. -/
theorem weights {v1 v2 v3 q : Vec3} (hn : 0 < ((v2 - v1).cross (v3 - v2)).length2)
    (hq : (v1 - q).dot ((v2 - v1).cross (v3 - v2)) = 0) :
    let n := (v2 - v1).cross (v3 - v2)
    let a := bary (v3 - v2) v2 q n / n.length2
    let b := bary (v1 - v3) v3 q n / n.length2
    let c := bary (v2 - v1) v1 q n / n.length2
    a + b + c = 1 ∧
    q = ⟨a * v1.x + b * v2.x + c * v3.x, a * v1.y + b * v2.y + c * v3.y, a * v1.z + b * v2.z + c * v3.z⟩ := by
  have hs := bary_sum v1 v2 v3 q
  obtain ⟨q1, q2, q3⟩ := bary_point v1 v2 v3 q
  simp only at hs q1 q2 q3 ⊢
  rw [hq] at q1 q2 q3
  generalize (v2 - v1).cross (v3 - v2) = n at *
  generalize bary (v2 - v1) v1 q n = b1 at *
  generalize bary (v3 - v2) v2 q n = b2 at *
  generalize bary (v1 - v3) v3 q n = b3 at *
  constructor
  · field_simp; linarith
  · ext
    · field_simp; linarith
    · field_simp; linarith
    · field_simp; linarith

/-- A point of the triangle near its first edge is near its rim. -/
theorem near_rim {v1 v2 v3 q : Vec3} {η : ℝ} (hn : 0 < ((v2 - v1).cross (v3 - v2)).length2)
    (hq : (v1 - q).dot ((v2 - v1).cross (v3 - v2)) = 0)
    (h1 : 0 < bary (v2 - v1) v1 q ((v2 - v1).cross (v3 - v2))) (h2 : 0 < bary (v3 - v2) v2 q ((v2 - v1).cross (v3 - v2)))
    (h3 : 0 < bary (v1 - v3) v3 q ((v2 - v1).cross (v3 - v2)))
    (hη : bary (v2 - v1) v1 q ((v2 - v1).cross (v3 - v2)) ≤ η * (v2 - v1).length * ((v2 - v1).cross (v3 - v2)).length) :
    ∃ y, OnRim (v1, v2, v3) y ∧ (y - q).dot ((v2 - v1).cross (v3 - v2)) = 0 ∧ distSq q y ≤ η ^ 2 := by
  have hL2 := length_sq (v2 - v1)
  have hN2 := length_sq ((v2 - v1).cross (v3 - v2))
  have hL0 := length_nonneg (v2 - v1)
  have hN0 := length_nonneg ((v2 - v1).cross (v3 - v2))
  obtain ⟨wq, eq⟩ := weights hn hq
  have hL : 0 < (v2 - v1).length := by
    refine lt_of_le_of_ne hL0 fun h0 => ?_
    rw [← h0] at hη
    simp only [mul_zero, zero_mul] at hη
    linarith
  have hN : 0 < ((v2 - v1).cross (v3 - v2)).length := by
    refine lt_of_le_of_ne hN0 fun h0 => ?_
    rw [← h0] at hN2
    simp only [ne_eq, OfNat.ofNat_ne_zero, not_false_eq_true, zero_pow] at hN2
    linarith
  have hl2 : 0 < (v2 - v1).length2 := by rw [← hL2]; positivity
  obtain ⟨t, ht⟩ : ∃ t, t = bary (v2 - v1) v1 q ((v2 - v1).cross (v3 - v2)) /
    ((v2 - v1).length2 * ((v2 - v1).cross (v3 - v2)).length2) := ⟨_, rfl⟩
  obtain ⟨w, hw⟩ : ∃ w, w = (v2 - v1).cross ((v2 - v1).cross (v3 - v2)) := ⟨_, rfl⟩
  have hwn : w.dot ((v2 - v1).cross (v3 - v2)) = 0 := by
    rw [hw]; simp only [Vec3.cross, Vec3.dot]; ring
  have hw2 : w.length2 = (v2 - v1).length2 * ((v2 - v1).cross (v3 - v2)).length2 := by
    rw [hw]; simp only [Vec3.cross, Vec3.length2]; ring
  have hz : (v1 - (q + t * w)).dot ((v2 - v1).cross (v3 - v2)) = 0 := by
    have : (v1 - (q + t * w)).dot ((v2 - v1).cross (v3 - v2)) = (v1 - q).dot ((v2 - v1).cross (v3 - v2)) -
        t * w.dot ((v2 - v1).cross (v3 - v2)) := by
      simp only [Vec3.dot, Vec3.sub_x, Vec3.sub_y, Vec3.sub_z, Vec3.add_x, Vec3.add_y, Vec3.add_z, Vec3.smul_x, Vec3.smul_y,
        Vec3.smul_z]; ring
    rw [this, hq, hwn]; ring
  obtain ⟨wz, ez⟩ := weights hn hz
  have hbz : bary (v2 - v1) v1 (q + t * w) ((v2 - v1).cross (v3 - v2)) = 0 := by
    have e : bary (v2 - v1) v1 (q + t * w) ((v2 - v1).cross (v3 - v2)) =
        bary (v2 - v1) v1 q ((v2 - v1).cross (v3 - v2)) - t * w.length2 := by
      rw [hw]
      simp only [bary, Vec3.cross, Vec3.dot, Vec3.length2, Vec3.sub_x, Vec3.sub_y, Vec3.sub_z, Vec3.add_x, Vec3.add_y,
        Vec3.add_z, Vec3.smul_x, Vec3.smul_y, Vec3.smul_z]; ring
    rw [e, hw2, ht, div_mul_cancel₀ _ (by positivity), sub_self]
  obtain ⟨l, l0, l1, hr⟩ := rim_between (by positivity) (by positivity) (by positivity) wq eq wz ez
    (Or.inr (Or.inr (by rw [hbz]; simp)))
  refine ⟨_, hr, ?_, ?_⟩
  · have : (q + l * (q + t * w - q) - q).dot ((v2 - v1).cross (v3 - v2)) = l * t * w.dot ((v2 - v1).cross (v3 - v2)) := by
      simp only [Vec3.dot, Vec3.sub_x, Vec3.sub_y, Vec3.sub_z, Vec3.add_x, Vec3.add_y, Vec3.add_z, Vec3.smul_x, Vec3.smul_y,
        Vec3.smul_z]; ring
    rw [this, hwn, mul_zero]
  · have e : distSq q (q + l * (q + t * w - q)) = l ^ 2 * (t ^ 2 * w.length2) := by
      simp only [distSq, Vec3.length2, Vec3.sub_x, Vec3.sub_y, Vec3.sub_z, Vec3.add_x, Vec3.add_y, Vec3.add_z, Vec3.smul_x,
        Vec3.smul_y, Vec3.smul_z]; ring
    have e2 : t ^ 2 * w.length2 =
        (bary (v2 - v1) v1 q ((v2 - v1).cross (v3 - v2)) / ((v2 - v1).length * ((v2 - v1).cross (v3 - v2)).length)) ^ 2 := by
      rw [hw2, ht, ← hL2, ← hN2]; field_simp
    have e3 : (bary (v2 - v1) v1 q ((v2 - v1).cross (v3 - v2)) / ((v2 - v1).length * ((v2 - v1).cross (v3 - v2)).length)) ^ 2 ≤
        η ^ 2 := by
      refine pow_le_pow_left₀ (by positivity) ?_ 2
      rw [div_le_iff₀ (by positivity)]
      linarith
    rw [e, e2]
    have l2 : l ^ 2 ≤ 1 := by nlinarith
    refine le_trans ?_ e3
    exact mul_le_of_le_one_left (sq_nonneg _) l2

theorem onRim_rotate {v1 v2 v3 y : Vec3} (h : OnRim (v2, v3, v1) y) : OnRim (v1, v2, v3) y := by
  obtain ⟨a, b, c, ha, hb, hc, hs, hz, rfl⟩ := h
  refine ⟨c, a, b, hc, ha, hb, by linarith, by tauto, ?_⟩
  ext <;> simp only <;> ring

theorem normal_rotate (v1 v2 v3 : Vec3) : (v3 - v2).cross (v1 - v3) = (v2 - v1).cross (v3 - v2) := by
  ext <;> simp only [Vec3.cross, Vec3.sub_x, Vec3.sub_y, Vec3.sub_z] <;> ring

theorem dist_le {a b : Vec3} {D : ℝ} (hD : 0 ≤ D) (h : distSq a b ≤ D ^ 2) : (a - b).length ≤ D :=
  length_le hD (by rw [length2_sub]; exact h)

/-- The test of the surface of a triangle succeeds if the foot of the perpendicular is clearly inside. -/
theorem face_true (h : RelErr u rnd) {p v1 v2 v3 n q : Vec3} {κ D N d R2 : ℝ} (huκ : u ≤ κ) (hκ : κ ≤ 1 / 1000)
    (hne : n = (v2 - v1).cross (v3 - v2)) (hNe : N = n.length) (hN : 0 < N)
    (hE : u * ((v2 - v1).length * (v3 - v2).length) ≤ κ * N) (hp : p.length ≤ D) (h1 : (v1 - p).length ≤ D)
    (h2 : (v2 - p).length ≤ D) (h3 : (v3 - p).length ≤ D) (hd : d = |(v1 - p).dot n| / N) (hdD : d ≤ D)
    (hq : q = p - (d / N) * n) (hpl : (v1 - q).dot n = 0)
    (b1 : 0 < bary (v2 - v1) v1 q n) (b2 : 0 < bary (v3 - v2) v2 q n) (b3 : 0 < bary (v1 - v3) v3 q n)
    (c1 : 159 * (κ * D) * (v2 - v1).length * N ≤ bary (v2 - v1) v1 q n)
    (c2 : 159 * (κ * D) * (v3 - v2).length * N ≤ bary (v3 - v2) v2 q n)
    (c3 : 159 * (κ * D) * (v1 - v3).length * N ≤ bary (v1 - v3) v3 q n)
    (hR : d ^ 2 + 39 * (κ * D ^ 2) ≤ R2) :
    Rounded.sphereHitsFace rnd p R2 v1 v2 v3 (Rounded.sub rnd v2 v1) (Rounded.sub rnd v3 v2) (Rounded.sub rnd v1 v3) = true := by
  have hu0 := Rounded.relErr_nonneg h
  have hu1 : u ≤ 1 / 1000 := huκ.trans hκ
  have hD0 : 0 ≤ D := (length_nonneg p).trans hp
  have hd0 : 0 ≤ d := by rw [hd]; positivity
  have g1 := sub_err h v2 v1
  have g2 := sub_err h v3 v2
  have g3 := sub_err h v1 v3
  have en := normal_err h huκ hκ g1 g2 hE
  rw [← hne, hNe] at en
  have hN' : 0 < n.length := by rw [← hNe]; exact hN
  have ep := plane_err h huκ hκ hN' en h1
  rw [← hNe, ← hd] at ep
  obtain ⟨hnz, hpd, hsh⟩ := shift_err h huκ hκ hN' en hd0 hdD ep
  rw [← hNe] at hsh
  have lM : ((d / N) * n).length = d := by
    rw [length_smul, abs_of_nonneg (by positivity), ← hNe]; field_simp
  have lq : q.length ≤ 2 * D := by
    have := length_add_le q ((d / N) * n)
    have h4 := length_le_add q p
    have e : (q - p).length = d := by
      rw [length_sub_comm, hq, show p - (p - (d / N) * n) = (d / N) * n by ext <;> simp, lM]
    linarith
  have lv : ∀ {v : Vec3}, (v - p).length ≤ D → (q - v).length ≤ 2 * D := by
    intro v hv
    have h4 := length_sub_le q p v
    have e : (q - p).length = d := by
      rw [length_sub_comm, hq, show p - (p - (d / N) * n) = (d / N) * n by ext <;> simp, lM]
    rw [length_sub_comm p v] at h4
    linarith
  have k1 := edge_err h huκ hκ hsh hq lq (lv h1) g1 hD0
  have k2 := edge_err h huκ hκ hsh hq lq (lv h2) g2 hD0
  have k3 := edge_err h huκ hκ hsh hq lq (lv h3) g3 hD0
  have d1 : (v2 - v1).dot n = 0 := by rw [hne]; simp only [Vec3.cross, Vec3.dot]; ring
  have d2 : (v3 - v2).dot n = 0 := by rw [hne]; simp only [Vec3.cross, Vec3.dot]; ring
  have d3 : (v1 - v3).dot n = 0 := by
    rw [hne]; simp only [Vec3.cross, Vec3.dot, Vec3.sub_x, Vec3.sub_y, Vec3.sub_z]; ring
  have q1 : (q - v1).dot n = 0 := by
    have : (q - v1).dot n = -(v1 - q).dot n := by
      simp only [Vec3.dot, Vec3.sub_x, Vec3.sub_y, Vec3.sub_z]; ring
    rw [this, hpl, neg_zero]
  have q2 : (q - v2).dot n = 0 := by
    have : (q - v2).dot n = (q - v1).dot n - (v2 - v1).dot n := by
      simp only [Vec3.dot, Vec3.sub_x, Vec3.sub_y, Vec3.sub_z]; ring
    rw [this, q1, d1, sub_zero]
  have q3 : (q - v3).dot n = 0 := by
    have : (q - v3).dot n = (q - v2).dot n - (v3 - v2).dot n := by
      simp only [Vec3.dot, Vec3.sub_x, Vec3.sub_y, Vec3.sub_z]; ring
    rw [this, q2, d2, sub_zero]
  have r1 := cross_plane d1 q1 hN'
  have r2 := cross_plane d2 q2 hN'
  have r3 := cross_plane d3 q3 hN'
  rw [← hNe] at r1 r2 r3
  have hm : ((1 / N) * n).length = 1 := by
    rw [length_smul, abs_of_pos (by positivity), ← hNe]; field_simp
  have third : ∀ {l b : ℝ}, 159 * (κ * D) * l * N ≤ b → 53 * (κ * D) * l ≤ b / N / 3 := by
    intro l b hb
    rw [div_div, le_div_iff₀ (by positivity)]
    linarith
  have t1 := k1.trans (third c1)
  have t2 := k2.trans (third c2)
  have t3 := k3.trans (third c3)
  have p1 : 0 < bary (v2 - v1) v1 q n / N := by positivity
  have p2 : 0 < bary (v3 - v2) v2 q n / N := by positivity
  have p3 : 0 < bary (v1 - v3) v3 q n / N := by positivity
  have f1 := dot_pos h hu1 hm p1 p2 r1 r2 t1 t2
  have f2 := dot_pos h hu1 hm p2 p3 r2 r3 t2 t3
  have f3 := dot_pos h hu1 hm p3 p1 r3 r1 t3 t1
  unfold Rounded.sphereHitsFace
  simp only [hnz, if_false]
  rw [if_neg (not_lt.2 (hpd.trans hR)), decide_eq_true_eq]
  exact ⟨f1, f2, f3⟩

/-- A triangle with a point clearly within the radius is noticed if the centre is on its front side. -/
theorem triangle_complete (h : RelErr u rnd) (hu : u ≤ 1e-11) {p v1 v2 v3 x : Vec3} {D K R : ℝ} (hK : 1 ≤ K)
    (hKu : K * u ≤ 1 / 1000) (hE : (v2 - v1).length * (v3 - v2).length ≤ K * ((v2 - v1).cross (v3 - v2)).length)
    (hD : 0 ≤ D) (hp : p.length ≤ D) (h1 : distSq v1 p ≤ D ^ 2) (h2 : distSq v2 p ≤ D ^ 2) (h3 : distSq v3 p ≤ D ^ 2)
    (hx : InTri (v1, v2, v3) x) (hfront : 0 ≤ side (v1, v2, v3) p) (hh : distSq p x + 100 * (K * u) * D ^ 2 < R ^ 2) :
    Rounded.sphereHitsTriangle rnd p (rnd (R * R)) v1 v2 v3 = true := by
  have hu0 := Rounded.relErr_nonneg h
  obtain ⟨κ, hκe⟩ : ∃ κ, κ = K * u := ⟨_, rfl⟩
  rw [← hκe] at hKu hh
  have huκ : u ≤ κ := by rw [hκe]; exact le_mul_of_one_le_left hu0 hK
  have hκ0 : 0 ≤ κ := hu0.trans huκ
  have hκD : 0 ≤ κ * D ^ 2 := by positivity
  have huD : u * D ^ 2 ≤ κ * D ^ 2 := mul_le_mul_of_nonneg_right huκ (sq_nonneg D)
  obtain ⟨n, hne⟩ : ∃ n, n = (v2 - v1).cross (v3 - v2) := ⟨_, rfl⟩
  obtain ⟨N, hNe⟩ : ∃ N, N = n.length := ⟨_, rfl⟩
  have hN0 : 0 ≤ N := by rw [hNe]; exact length_nonneg n
  have hN2 : N ^ 2 = n.length2 := by rw [hNe]; exact length_sq n
  rcases hN0.eq_or_lt with hz | hN
  · have hn0 : n.length2 = 0 := by rw [← hN2, ← hz]; norm_num
    have hcol : Collinear3 v1 v2 v3 := by
      rw [← cross_zero_collinear]
      have h0 := length2_eq_zero.1 hn0
      rw [hne] at h0
      have ex := congrArg Vec3.x h0
      have ey := congrArg Vec3.y h0
      have ez := congrArg Vec3.z h0
      simp only [Vec3.cross, Vec3.sub_x, Vec3.sub_y, Vec3.sub_z, Vec3.zero_x, Vec3.zero_y,
        Vec3.zero_z] at ex ey ez
      ext <;> simp only [Vec3.cross, Vec3.sub_x, Vec3.sub_y, Vec3.sub_z, Vec3.zero_x, Vec3.zero_y,
        Vec3.zero_z]
      · linear_combination ex
      · linear_combination ey
      · linear_combination ez
    exact rim_complete h hu hD h1 h2 h3 (rim_of_degenerate hcol hx) (by linarith)
  have hn2 : 0 < n.length2 := by rw [← hN2]; positivity
  obtain ⟨k, hk⟩ : ∃ k, k = (v1 - p).dot n := ⟨_, rfl⟩
  have hk0 : k ≤ 0 := by
    have : k = -side (v1, v2, v3) p := by
      rw [hk, hne]
      simp only [Vec3.dot, Vec3.cross, Vec3.sub_x, Vec3.sub_y, Vec3.sub_z, side]; ring
    rw [this]; linarith
  obtain ⟨d, hd⟩ : ∃ d, d = |k| / N := ⟨_, rfl⟩
  have hdk : d * N = -k := by rw [hd, div_mul_cancel₀ _ hN.ne', abs_of_nonpos hk0]
  have hd0 : 0 ≤ d := by rw [hd]; positivity
  have hdD : d ≤ D := by
    rw [hd, div_le_iff₀ hN, hk, hNe]
    exact (abs_dot _ _).trans (mul_le_mul_of_nonneg_right (dist_le hD h1) (length_nonneg _))
  obtain ⟨q, hq⟩ : ∃ q, q = p - (d / N) * n := ⟨_, rfl⟩
  have hdN : d / N * n.length2 = -k := by rw [← hN2, ← hdk]; field_simp
  have hpl : (v1 - q).dot n = 0 := by
    have : (v1 - q).dot n = (v1 - p).dot n + d / N * n.length2 := by
      rw [hq]
      simp only [Vec3.dot, Vec3.length2, Vec3.sub_x, Vec3.sub_y, Vec3.sub_z, Vec3.smul_x, Vec3.smul_y, Vec3.smul_z]; ring
    rw [this, hdN, hk]; ring
  -- points of the plane
  have pyth : ∀ y : Vec3, (y - q).dot n = 0 → distSq p y = d ^ 2 + distSq q y := by
    intro y hy
    have e : distSq p y = (d / N) ^ 2 * n.length2 - 2 * (d / N) * (y - q).dot n + distSq q y := by
      rw [hq]
      simp only [distSq, Vec3.dot, Vec3.length2, Vec3.sub_x, Vec3.sub_y, Vec3.sub_z, Vec3.smul_x, Vec3.smul_y, Vec3.smul_z]
      ring
    rw [e, hy, ← hN2]; field_simp; ring
  obtain ⟨a, b, c, ha, hb, hc, hs, hx'⟩ := hx
  have hxq : (x - q).dot n = 0 := by
    have e : (x - q).dot n = (v1 - q).dot n + b * (v2 - v1).dot n + c * (v3 - v1).dot n := by
      rw [hx']
      have : a = 1 - b - c := by linarith
      subst this
      simp only [Vec3.dot, Vec3.sub_x, Vec3.sub_y, Vec3.sub_z]; ring
    have d1 : (v2 - v1).dot n = 0 := by rw [hne]; simp only [Vec3.cross, Vec3.dot]; ring
    have d3 : (v3 - v1).dot n = 0 := by
      rw [hne]; simp only [Vec3.cross, Vec3.dot, Vec3.sub_x, Vec3.sub_y, Vec3.sub_z]; ring
    rw [e, hpl, d1, d3]; ring
  have hpx := pyth x hxq
  have hqx : 0 ≤ distSq q x := by unfold distSq; positivity
  have rim : ∀ y, OnRim (v1, v2, v3) y → (y - q).dot n = 0 → distSq q y ≤ distSq q x ∨ distSq q y ≤ (159 * (κ * D)) ^ 2 →
      Rounded.sphereHitsTriangle rnd p (rnd (R * R)) v1 v2 v3 = true := by
    intro y hy hyq hc
    refine rim_complete h hu hD h1 h2 h3 hy ?_
    rw [pyth y hyq]
    rcases hc with hc | hc
    · linarith
    · have : κ * (κ * D ^ 2) ≤ 1 / 1000 * (κ * D ^ 2) := mul_le_mul_of_nonneg_right hKu hκD
      linarith
  have hn2' := hn2
  have hpl' := hpl
  rw [hne] at hn2' hpl'
  obtain ⟨ws, we⟩ := weights hn2' hpl'
  rw [← hne] at ws we
  by_cases hpos : 0 < bary (v2 - v1) v1 q n ∧ 0 < bary (v3 - v2) v2 q n ∧ 0 < bary (v1 - v3) v3 q n
  · obtain ⟨b1, b2, b3⟩ := hpos
    by_cases c1 : 159 * (κ * D) * (v2 - v1).length * N ≤ bary (v2 - v1) v1 q n
    · by_cases c2 : 159 * (κ * D) * (v3 - v2).length * N ≤ bary (v3 - v2) v2 q n
      · by_cases c3 : 159 * (κ * D) * (v1 - v3).length * N ≤ bary (v1 - v3) v3 q n
        · have hE' : u * ((v2 - v1).length * (v3 - v2).length) ≤ κ * N := by
            rw [hκe, hNe, hne]
            have := mul_le_mul_of_nonneg_left hE hu0
            linarith
          have hR : d ^ 2 + 39 * (κ * D ^ 2) ≤ rnd (R * R) := by
            have r1 := rnd_ge h (x := R * R) (mul_self_nonneg R)
            have r2 : (1 - u) * (d ^ 2 + 100 * κ * D ^ 2) ≤ (1 - u) * (R * R) :=
              mul_le_mul_of_nonneg_left (by linarith) (by linarith)
            have r3 : u * d ^ 2 ≤ u * D ^ 2 := mul_le_mul_of_nonneg_left (pow_le_pow_left₀ hd0 hdD 2) hu0
            have r4 : u * (κ * D ^ 2) ≤ 1 / 1000 * (κ * D ^ 2) := mul_le_mul_of_nonneg_right (by linarith) hκD
            linarith
          have hd' : d = |(v1 - p).dot n| / N := by rw [hd, hk]
          have hf := face_true h huκ hKu hne hNe hN hE' hp (dist_le hD h1) (dist_le hD h2) (dist_le hD h3) hd' hdD hq hpl
            b1 b2 b3 c1 c2 c3 hR
          unfold Rounded.sphereHitsTriangle
          simp [hf]
        · have e1 := normal_rotate v1 v2 v3
          have e2 := normal_rotate v2 v3 v1
          rw [e1, ← hne] at e2
          obtain ⟨y, hy, hyq, hyd⟩ := near_rim (v1 := v3) (v2 := v1) (v3 := v2) (q := q) (η := 159 * (κ * D))
            (by rw [e2]; exact hn2) (by
              rw [e2]
              have : (v3 - q).dot n = (v1 - q).dot n - (v1 - v3).dot n := by
                simp only [Vec3.dot, Vec3.sub_x, Vec3.sub_y, Vec3.sub_z]; ring
              have d3 : (v1 - v3).dot n = 0 := by
                rw [hne]; simp only [Vec3.cross, Vec3.dot, Vec3.sub_x, Vec3.sub_y, Vec3.sub_z]; ring
              rw [this, hpl, d3, sub_zero]) (by rw [e2]; exact b3) (by rw [e2]; exact b1) (by rw [e2]; exact b2)
            (by rw [e2, ← hNe]; exact (not_le.1 c3).le)
          rw [e2] at hyq
          exact rim y (onRim_rotate (onRim_rotate hy)) hyq (Or.inr hyd)
      · have e1 := normal_rotate v1 v2 v3
        rw [← hne] at e1
        obtain ⟨y, hy, hyq, hyd⟩ := near_rim (v1 := v2) (v2 := v3) (v3 := v1) (q := q) (η := 159 * (κ * D))
          (by rw [e1]; exact hn2) (by
            rw [e1]
            have : (v2 - q).dot n = (v1 - q).dot n + (v2 - v1).dot n := by
              simp only [Vec3.dot, Vec3.sub_x, Vec3.sub_y, Vec3.sub_z]; ring
            have d3 : (v2 - v1).dot n = 0 := by
              rw [hne]; simp only [Vec3.cross, Vec3.dot, Vec3.sub_x, Vec3.sub_y, Vec3.sub_z]; ring
            rw [this, hpl, d3, add_zero]) (by rw [e1]; exact b2) (by rw [e1]; exact b3) (by rw [e1]; exact b1)
          (by rw [e1, ← hNe]; exact (not_le.1 c2).le)
        rw [e1] at hyq
        exact rim y (onRim_rotate hy) hyq (Or.inr hyd)
    · obtain ⟨y, hy, hyq, hyd⟩ := near_rim (v1 := v1) (v2 := v2) (v3 := v3) (q := q) (η := 159 * (κ * D))
        (by rw [← hne]; exact hn2) (by rw [← hne]; exact hpl) (by rw [← hne]; exact b1) (by rw [← hne]; exact b2)
        (by rw [← hne]; exact b3) (by rw [← hne, ← hNe]; exact (not_le.1 c1).le)
      rw [← hne] at hyq
      exact rim y hy hyq (Or.inr hyd)
  · have hcon : bary (v3 - v2) v2 q n / n.length2 ≤ 0 ∨ bary (v1 - v3) v3 q n / n.length2 ≤ 0 ∨
        bary (v2 - v1) v1 q n / n.length2 ≤ 0 := by
      by_contra hcc
      push Not at hcc
      exact hpos ⟨(div_pos_iff_of_pos_right hn2).1 hcc.2.2, (div_pos_iff_of_pos_right hn2).1 hcc.1,
        (div_pos_iff_of_pos_right hn2).1 hcc.2.1⟩
    obtain ⟨l, l0, l1, hr⟩ := rim_between ha hb hc hs hx' ws we hcon
    refine rim _ hr ?_ (Or.inl ?_)
    · have : (x + l * (q - x) - q).dot n = (1 - l) * (x - q).dot n := by
        simp only [Vec3.dot, Vec3.sub_x, Vec3.sub_y, Vec3.sub_z, Vec3.add_x, Vec3.add_y, Vec3.add_z, Vec3.smul_x, Vec3.smul_y,
          Vec3.smul_z]; ring
      rw [this, hxq, mul_zero]
    · have e : distSq q (x + l * (q - x)) = (1 - l) ^ 2 * distSq q x := by
        simp only [distSq, Vec3.sub_x, Vec3.sub_y, Vec3.sub_z, Vec3.add_x, Vec3.add_y, Vec3.add_z, Vec3.smul_x,
          Vec3.smul_y, Vec3.smul_z]; ring
      rw [e]
      exact mul_le_of_le_one_left hqx (by nlinarith)

end Geo.RoundedSphere
