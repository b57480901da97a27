import Verif.Model.RoundedAngles
import Verif.Lemmas.RoundedQuaternion
import Mathlib.Analysis.SpecialFunctions.Trigonometric.Bounds
import Mathlib.Analysis.Real.Pi.Bounds

/-!
# Roll, pitch and yaw in floating point arithmetic: lemmas
-/

namespace Geo.RoundedAngles

open Spec Matrix Rounded

variable {u e : ℝ} {rnd : ℝ → ℝ}

/-- Angles of near points. -/
theorem atan_near {x y x' y' k c : ℝ} (hc : 0 < c) (hn : c ≤ Real.sqrt (x * x + y * y)) (hx : |x' - x| ≤ k) (hy : |y' - y| ≤ k)
    (hk : 2 * k < c) :
    |Real.cos (atan2 y' x') - Real.cos (atan2 y x)| ≤ 3 * k / c ∧ |Real.sin (atan2 y' x') - Real.sin (atan2 y x)| ≤ 3 * k / c := by
  have hk0 : 0 ≤ k := (abs_nonneg _).trans hx
  obtain ⟨z, hz⟩ : ∃ z : ℂ, z = ⟨x, y⟩ := ⟨_, rfl⟩
  obtain ⟨z', hz'⟩ : ∃ z : ℂ, z = ⟨x', y'⟩ := ⟨_, rfl⟩
  have n1 : ‖z‖ = Real.sqrt (x * x + y * y) := by
    rw [hz, Complex.norm_eq_sqrt_sq_add_sq]
    congr 1
    ring
  have d1 : ‖z' - z‖ ≤ 2 * k := by
    refine (Complex.norm_le_abs_re_add_abs_im _).trans ?_
    rw [hz, hz']
    show |x' - x| + |y' - y| ≤ _
    linarith
  have d2 : |‖z'‖ - ‖z‖| ≤ 2 * k := (abs_norm_sub_norm_le z' z).trans d1
  have np : 0 < ‖z‖ := by rw [n1]; linarith
  have np' : 0 < ‖z'‖ := by
    have := (abs_le.1 d2).1
    rw [← n1] at hn
    linarith
  have key : ∀ a a' : ℝ, |a' - a| ≤ k → |a'| ≤ ‖z'‖ → |a' / ‖z'‖ - a / ‖z‖| ≤ 3 * k / c := by
    intro a a' h1 h2
    have e1 : a' / ‖z'‖ - a / ‖z‖ = ((a' - a) - (a' / ‖z'‖) * (‖z'‖ - ‖z‖)) / ‖z‖ := by
      field_simp
      ring
    have b1 : |a' / ‖z'‖| ≤ 1 := by
      rw [abs_div, abs_of_pos np', div_le_one np']
      exact h2
    have b2 : |(a' - a) - (a' / ‖z'‖) * (‖z'‖ - ‖z‖)| ≤ 3 * k := by
      refine (abs_sub _ _).trans ?_
      rw [abs_mul]
      have := mul_le_mul b1 d2 (abs_nonneg _) zero_le_one
      linarith
    rw [e1, abs_div, abs_of_pos np]
    have : c ≤ ‖z‖ := by rw [n1]; exact hn
    exact div_le_div₀ (by positivity) b2 hc this
  unfold atan2
  rw [← hz, ← hz']
  constructor
  · rw [Complex.cos_arg (norm_pos_iff.1 np'), Complex.cos_arg (norm_pos_iff.1 np)]
    refine key _ _ ?_ (Complex.abs_re_le_norm z')
    rw [hz, hz']; exact hx
  · rw [Complex.sin_arg, Complex.sin_arg]
    refine key _ _ ?_ (Complex.abs_im_le_norm z')
    rw [hz, hz']; exact hy

/-- The same with the rounding of the angle. -/
theorem atan_rnd (h : RelErr u rnd) {x y x' y' k c : ℝ} (hc : 0 < c) (hn : c ≤ Real.sqrt (x * x + y * y))
    (hx : |x' - x| ≤ k) (hy : |y' - y| ≤ k) (hk : 2 * k < c) :
    |Real.cos (rnd (atan2 y' x')) - Real.cos (atan2 y x)| ≤ 3 * k / c + 3.15 * u ∧
    |Real.sin (rnd (atan2 y' x')) - Real.sin (atan2 y x)| ≤ 3 * k / c + 3.15 * u := by
  obtain ⟨a1, a2⟩ := atan_near hc hn hx hy hk
  have hu := relErr_nonneg h
  have b : |rnd (atan2 y' x') - atan2 y' x'| ≤ 3.15 * u := by
    refine (h _).trans ?_
    have h1 : |atan2 y' x'| ≤ 3.15 := (Complex.abs_arg_le_pi _).trans Real.pi_lt_d2.le
    have := mul_le_mul_of_nonneg_left h1 hu
    linarith
  constructor
  · refine (abs_sub_le _ (Real.cos (atan2 y' x')) _).trans ?_
    linarith [Real.abs_cos_sub_cos_le (rnd (atan2 y' x')) (atan2 y' x')]
  · refine (abs_sub_le _ (Real.sin (atan2 y' x')) _).trans ?_
    linarith [Real.abs_sin_sub_sin_le (rnd (atan2 y' x')) (atan2 y' x')]

/-- The rounded length in the second argument for the pitch. -/
theorem root_near (h : RelErr u rnd) (hu : u ≤ 1 / 1000) (y z : ℝ) :
    |rnd (Real.sqrt (rnd (rnd (y * y) + rnd (z * z)))) - Real.sqrt (y * y + z * z)| ≤ 3.1 * u * Real.sqrt (y * y + z * z) := by
  have hu0 := relErr_nonneg h
  have Y := mul_self_nonneg y
  have Z := mul_self_nonneg z
  have y1 := h (y * y)
  have z1 := h (z * z)
  rw [abs_of_nonneg Y] at y1
  rw [abs_of_nonneg Z] at z1
  obtain ⟨S, hS⟩ : ∃ S, S = y * y + z * z := ⟨_, rfl⟩
  have S0 : 0 ≤ S := by linarith
  have w1 : |rnd (rnd (y * y) + rnd (z * z)) - S| ≤ (1 + 1.02) * u * S := by
    refine step h hu0 hu (by norm_num) (abs_of_nonneg S0).le ?_
    rw [show rnd (y * y) + rnd (z * z) - S = (rnd (y * y) - y * y) + (rnd (z * z) - z * z) by rw [hS]; ring]
    refine (abs_add_le _ _).trans ?_
    rw [hS]
    linarith
  rw [← hS]
  obtain ⟨w, hw⟩ : ∃ w, w = rnd (rnd (y * y) + rnd (z * z)) := ⟨_, rfl⟩
  rw [← hw] at w1 ⊢
  have us := mul_nonneg hu0 S0
  have us' := mul_le_mul_of_nonneg_right hu S0
  have w0 : 0 ≤ w := by linarith [(abs_le.1 w1).1]
  have q1 := Real.mul_self_sqrt S0
  have q2 := Real.mul_self_sqrt w0
  have r0 := Real.sqrt_nonneg S
  have r1 := Real.sqrt_nonneg w
  have k : |Real.sqrt w - Real.sqrt S| ≤ 2.02 * u * Real.sqrt S := by
    rcases r0.eq_or_lt with z | p
    · rw [← z] at q1 ⊢
      have : S = 0 := by linarith
      rw [this] at w1
      have : w = 0 := by
        have := abs_nonpos_iff.1 (w1.trans (by simp))
        linarith
      simp [this]
    · have e1 : |Real.sqrt w - Real.sqrt S| * (Real.sqrt w + Real.sqrt S) = |w - S| := by
        rw [← abs_of_nonneg (add_nonneg r1 r0), ← abs_mul]
        congr 1
        linarith
      have := mul_le_mul_of_nonneg_left (show Real.sqrt S ≤ Real.sqrt w + Real.sqrt S by linarith)
        (abs_nonneg (Real.sqrt w - Real.sqrt S))
      have e2 : (1 + 1.02) * u * S = 2.02 * u * Real.sqrt S * Real.sqrt S := by
        rw [mul_assoc _ (Real.sqrt S), q1]; norm_num
      exact le_of_mul_le_mul_right (by linarith) p
  have := step h hu0 hu (k := 2.02) (by norm_num) (abs_of_nonneg r0).le k
  have := mul_nonneg hu0 r0
  linarith

/-- Products of numbers of at most 1. -/
theorem prod_le {a b a' b' s t : ℝ} (ha : |a| ≤ 1) (hb : |b'| ≤ 1) (h1 : |a' - a| ≤ s) (h2 : |b' - b| ≤ t) :
    |a' * b' - a * b| ≤ s + t := by
  rw [show a' * b' - a * b = (a' - a) * b' + a * (b' - b) by ring]
  refine (abs_add_le _ _).trans ?_
  rw [abs_mul, abs_mul]
  have := mul_le_mul h1 hb (abs_nonneg _) ((abs_nonneg _).trans h1)
  have := mul_le_mul ha h2 (abs_nonneg _) zero_le_one
  linarith

/-- Near angles have near matrices. -/
theorem rpy_near {r p y r' p' y' s t v : ℝ} (c1 : |Real.cos r' - Real.cos r| ≤ s) (s1 : |Real.sin r' - Real.sin r| ≤ s)
    (c2 : |Real.cos p' - Real.cos p| ≤ t) (s2 : |Real.sin p' - Real.sin p| ≤ t) (c3 : |Real.cos y' - Real.cos y| ≤ v)
    (s3 : |Real.sin y' - Real.sin y| ≤ v) (i j : Fin 3) :
    |M (Mat3.setRPY r' p' y') i j - M (Mat3.setRPY r p y) i j| ≤ 2 * s + t + 2 * v := by
  have s0 := (abs_nonneg _).trans c1
  have t0 := (abs_nonneg _).trans c2
  have v0 := (abs_nonneg _).trans c3
  have C := Real.abs_cos_le_one
  have S := Real.abs_sin_le_one
  have P : ∀ {a b : ℝ}, |a| ≤ 1 → |b| ≤ 1 → |a * b| ≤ 1 := by
    intro a b ha hb
    rw [abs_mul]
    exact mul_le_one₀ ha (abs_nonneg _) hb
  have cc := prod_le (C r) (C y') c1 c3
  have cs := prod_le (C r) (S y') c1 s3
  have sc := prod_le (S r) (C y') s1 c3
  have ss := prod_le (S r) (S y') s1 s3
  have x1 := prod_le (C p) (C y') c2 c3
  have x2 := prod_le (C p) (S y') c2 s3
  have x3 := prod_le (C p) (S r') c2 s1
  have x4 := prod_le (C p) (C r') c2 c1
  have t1 := prod_le (S p) (P (S r') (C y')) s2 sc
  have t2 := prod_le (S p) (P (C r') (C y')) s2 cc
  have t3 := prod_le (S p) (P (S r') (S y')) s2 ss
  have t4 := prod_le (S p) (P (C r') (S y')) s2 cs
  rw [abs_le] at cc cs sc ss x1 x2 x3 x4 t1 t2 t3 t4 s2
  fin_cases i <;> fin_cases j <;> rw [abs_le] <;> simp only [M, Mat3.setRPY] <;> constructor <;> simp <;> linarith

/-- A rounding after an inexact operation. -/
theorem stp (h : RelErr u rnd) (hu : u ≤ 1 / 1000) {c m x y : ℝ} (hc : 0 ≤ c) (hy : |y - x| ≤ c * u) (hx : |x| ≤ m) :
    |rnd y - x| ≤ (c + m + c / 500) * u := by
  have := RoundedQuaternion.near_step h (relErr_nonneg h) le_rfl (by linarith) hc (by rwa [add_zero]) hx
  rwa [add_zero] at this

theorem prd (h : RelErr u rnd) (hu : u ≤ 1 / 1000) {a b a' b' s t : ℝ} (hs : 0 ≤ s) (ht : 0 ≤ t) (ht' : t ≤ 6) (ha : |a| ≤ 1)
    (hb : |b| ≤ 1) (h1 : |a' - a| ≤ s * u) (h2 : |b' - b| ≤ t * u) :
    |rnd (a' * b') - a * b| ≤ ((1.006 * s + t) + 1 + (1.006 * s + t) / 500) * u := by
  have hu0 := relErr_nonneg h
  have b1 : |b'| ≤ 1.006 := by
    have e1 : b' = (b' - b) + b := by ring
    have := abs_add_le (b' - b) b
    rw [← e1] at this
    have := mul_le_mul ht' hu hu0 (by norm_num)
    linarith
  refine stp h hu (by positivity) ?_ ?_
  · rw [show a' * b' - a * b = (a' - a) * b' + a * (b' - b) by ring]
    refine (abs_add_le _ _).trans ?_
    rw [abs_mul, abs_mul]
    have := mul_le_mul h1 b1 (abs_nonneg _) ((abs_nonneg _).trans h1)
    have := mul_le_mul ha h2 (abs_nonneg _) zero_le_one
    linarith
  · rw [abs_mul]
    exact mul_le_one₀ ha (abs_nonneg _) hb

/-- The matrix of three angles. -/
theorem set_err (h : RelErr u rnd) (hu : u ≤ 1 / 1000) (r p y : ℝ) (i j : Fin 3) :
    |M (Rounded.setRPY rnd r p y) i j - M (Mat3.setRPY r p y) i j| ≤ 10 * u := by
  have hu0 := relErr_nonneg h
  have C := Real.abs_cos_le_one
  have S := Real.abs_sin_le_one
  have P : ∀ {a b : ℝ}, |a| ≤ 1 → |b| ≤ 1 → |a * b| ≤ 1 := by
    intro a b ha hb
    rw [abs_mul]
    exact mul_le_one₀ ha (abs_nonneg _) hb
  have one : ∀ x : ℝ, |x| ≤ 1 → |rnd x - x| ≤ 1 * u := by
    intro x hx
    have := stp h hu (c := 0) (y := x) le_rfl (by simp) hx
    linarith
  have two : ∀ {a b : ℝ}, |a| ≤ 1 → |b| ≤ 1 → |rnd (rnd a * rnd b) - a * b| ≤ 3.02 * u := by
    intro a b ha hb
    have := prd h hu zero_le_one zero_le_one (by norm_num) ha hb (one a ha) (one b hb)
    linarith
  have three : ∀ {a b b' : ℝ}, |a| ≤ 1 → |b| ≤ 1 → |b' - b| ≤ 3.02 * u → |rnd (rnd a * b') - a * b| ≤ 5.04 * u := by
    intro a b b' ha hb hb'
    have := prd h hu zero_le_one (by norm_num) (by norm_num) ha hb (one a ha) hb'
    linarith
  have en := RoundedQuaternion.entries (setRPY_rotation r p y)
  have cc := two (C r) (C y)
  have cs := two (C r) (S y)
  have sc := two (S r) (C y)
  have ss := two (S r) (S y)
  have x1 := two (C p) (C y)
  have x2 := two (C p) (S y)
  have x3 := two (C p) (S r)
  have x4 := two (C p) (C r)
  have t1 := three (S p) (P (S r) (C y)) sc
  have t2 := three (S p) (P (C r) (C y)) cc
  have t3 := three (S p) (P (S r) (S y)) ss
  have t4 := three (S p) (P (C r) (S y)) cs
  have sub : ∀ {a b a' b' : ℝ}, |a - b| ≤ 1 → |a' - a| ≤ 5.04 * u → |b' - b| ≤ 3.02 * u → |rnd (a' - b') - (a - b)| ≤ 10 * u := by
    intro a b a' b' hab h1 h2
    have := stp h hu (c := 8.06) (by norm_num) (y := a' - b') (x := a - b) (by
      rw [show a' - b' - (a - b) = (a' - a) - (b' - b) by ring]
      exact (abs_sub _ _).trans (by linarith)) hab
    linarith
  have add : ∀ {a b a' b' : ℝ}, |a + b| ≤ 1 → |a' - a| ≤ 5.04 * u → |b' - b| ≤ 3.02 * u → |rnd (a' + b') - (a + b)| ≤ 10 * u := by
    intro a b a' b' hab h1 h2
    have := stp h hu (c := 8.06) (by norm_num) (y := a' + b') (x := a + b) (by
      rw [show a' + b' - (a + b) = (a' - a) + (b' - b) by ring]
      exact (abs_add_le _ _).trans (by linarith)) hab
    linarith
  fin_cases i <;> fin_cases j
  · exact x1.trans (by linarith)
  · exact sub (en 0 1) t1 cs
  · exact add (en 0 2) t2 ss
  · exact x2.trans (by linarith)
  · exact add (en 1 1) t3 cc
  · exact sub (en 1 2) t4 sc
  · have := one _ (S p)
    show |-(rnd (Real.sin p)) - -(Real.sin p)| ≤ _
    rw [show -(rnd (Real.sin p)) - -(Real.sin p) = -(rnd (Real.sin p) - Real.sin p) by ring, abs_neg]
    linarith
  · exact x3.trans (by linarith)
  · exact x4.trans (by linarith)

/-- Lengths of near pairs. -/
theorem sqrt_near {x y x' y' k : ℝ} (hx : |x' - x| ≤ k) (hy : |y' - y| ≤ k) :
    |Real.sqrt (x' * x' + y' * y') - Real.sqrt (x * x + y * y)| ≤ 2 * k := by
  have n : ∀ a b : ℝ, Real.sqrt (a * a + b * b) = ‖(⟨a, b⟩ : ℂ)‖ := by
    intro a b
    rw [Complex.norm_eq_sqrt_sq_add_sq]
    congr 1
    ring
  rw [n, n]
  refine (abs_norm_sub_norm_le _ _).trans ((Complex.norm_le_abs_re_add_abs_im _).trans ?_)
  show |x' - x| + |y' - y| ≤ _
  linarith

/-- What `getRPY` reads. -/
theorem read (h : RelErr u rnd) (hu : u ≤ 1 / 1000) {T : Transform3} {Q : Mat3} (hQ : Rotation Q)
    (ha : ∀ i j, |M T.R i j - M Q i j| ≤ e) {c : ℝ} (hc : 1e-11 ≤ c) (hC : c ≤ Real.sqrt (Q.zy * Q.zy + Q.zz * Q.zz))
    (hs : 26 * (u + e) ≤ c) :
    (|Real.cos (Rounded.getRPY rnd T).1 - Real.cos (atan2 Q.zy Q.zz)| ≤ 3.15 * (u + e) / c ∧
      |Real.sin (Rounded.getRPY rnd T).1 - Real.sin (atan2 Q.zy Q.zz)| ≤ 3.15 * (u + e) / c) ∧
    (|Real.cos (Rounded.getRPY rnd T).2.1 - Real.cos (atan2 (-Q.zx) (Real.sqrt (Q.zy * Q.zy + Q.zz * Q.zz)))| ≤ 13.2 * (u + e) ∧
      |Real.sin (Rounded.getRPY rnd T).2.1 - Real.sin (atan2 (-Q.zx) (Real.sqrt (Q.zy * Q.zy + Q.zz * Q.zz)))| ≤ 13.2 * (u + e)) ∧
    (|Real.cos (Rounded.getRPY rnd T).2.2 - Real.cos (atan2 Q.yx Q.xx)| ≤ 3.15 * (u + e) / c ∧
      |Real.sin (Rounded.getRPY rnd T).2.2 - Real.sin (atan2 Q.yx Q.xx)| ≤ 3.15 * (u + e) / c) := by
  have hu0 := relErr_nonneg h
  have he : 0 ≤ e := (abs_nonneg _).trans (ha 0 0)
  have c0 : 0 < c := by norm_num at hc; linarith
  obtain ⟨ho, -⟩ := (rotation_iff Q).mp hQ
  obtain ⟨q1, -⟩ := (orth_iff Q).mp ho
  obtain ⟨-, -, r3, -⟩ := orth_rows ho
  have axx : |T.R.xx - Q.xx| ≤ e := ha 0 0
  have ayx : |T.R.yx - Q.yx| ≤ e := ha 1 0
  have azx : |T.R.zx - Q.zx| ≤ e := ha 2 0
  have azy : |T.R.zy - Q.zy| ≤ e := ha 2 1
  have azz : |T.R.zz - Q.zz| ≤ e := ha 2 2
  have n0 : 0 ≤ Q.zy * Q.zy + Q.zz * Q.zz := by
    have := mul_self_nonneg Q.zy
    have := mul_self_nonneg Q.zz
    linarith
  have C1 : Real.sqrt (Q.zy * Q.zy + Q.zz * Q.zz) ≤ 1 := by
    have := mul_self_nonneg Q.zx
    exact Real.sqrt_le_one.2 (by linarith)
  have c1 : c ≤ 1 := hC.trans C1
  have w : ∀ {b : ℝ}, b ≤ 3 * e / c + 3.15 * u → b ≤ 3.15 * (u + e) / c := by
    intro b hb
    refine hb.trans ?_
    rw [le_div_iff₀ c0, add_mul, div_mul_cancel₀ _ c0.ne']
    have := mul_le_mul_of_nonneg_left c1 (show 0 ≤ 3.15 * u by positivity)
    linarith
  have e2 : 2 * e < c := by linarith
  have roll := atan_rnd h c0 (x := Q.zz) (y := Q.zy) (by rwa [add_comm]) azz azy e2
  have yaw := atan_rnd h c0 (x := Q.xx) (y := Q.yx)
    (by rwa [show Q.xx * Q.xx + Q.yx * Q.yx = Q.zy * Q.zy + Q.zz * Q.zz by linarith]) axx ayx e2
  have sn := sqrt_near azy azz
  have rt := root_near h hu T.R.zy T.R.zz
  have k : |rnd (Real.sqrt (rnd (rnd (T.R.zy * T.R.zy) + rnd (T.R.zz * T.R.zz)))) - Real.sqrt (Q.zy * Q.zy + Q.zz * Q.zz)| ≤
      3.35 * (u + e) := by
    refine (abs_sub_le _ (Real.sqrt (T.R.zy * T.R.zy + T.R.zz * T.R.zz)) _).trans ?_
    have b : Real.sqrt (T.R.zy * T.R.zy + T.R.zz * T.R.zz) ≤ 1.08 := by linarith [(abs_le.1 sn).2]
    have := mul_le_mul_of_nonneg_left b (show 0 ≤ 3.1 * u by positivity)
    linarith
  have pitch := atan_rnd h one_pos (x := Real.sqrt (Q.zy * Q.zy + Q.zz * Q.zz)) (y := -Q.zx) (y' := -T.R.zx)
    (by rw [Real.mul_self_sqrt n0, show Q.zy * Q.zy + Q.zz * Q.zz + -Q.zx * -Q.zx = 1 by linarith, Real.sqrt_one]) k
    (by rw [show -T.R.zx - -Q.zx = -(T.R.zx - Q.zx) by ring, abs_neg]; linarith) (by linarith)
  have w' : ∀ {b : ℝ}, b ≤ 3 * (3.35 * (u + e)) / 1 + 3.15 * u → b ≤ 13.2 * (u + e) := by
    intro b hb
    rw [div_one] at hb
    linarith
  have pc := w' pitch.1
  have psn := w' pitch.2
  have no : ¬ |rnd (rnd (atan2 (-T.R.zx) (rnd (Real.sqrt (rnd (rnd (T.R.zy * T.R.zy) + rnd (T.R.zz * T.R.zz)))))) -
      rnd (rnd Real.pi / 2))| < 1e-12 := by
    intro hlt
    obtain ⟨p, hp⟩ : ∃ p, p = rnd (atan2 (-T.R.zx) (rnd (Real.sqrt (rnd (rnd (T.R.zy * T.R.zy) + rnd (T.R.zz * T.R.zz)))))) := ⟨_, rfl⟩
    rw [← hp] at hlt pc
    rw [(pitch_sin_cos hQ).2] at pc
    have pi1 := Real.pi_lt_d2
    have pi0 := Real.pi_pos
    have d1 := h (p - rnd (rnd Real.pi / 2))
    have d2 : |p - rnd (rnd Real.pi / 2)| ≤ 1.002e-12 := by
      have t := abs_sub_abs_le_abs_sub (p - rnd (rnd Real.pi / 2)) (rnd (p - rnd (rnd Real.pi / 2)))
      rw [abs_sub_comm] at d1
      have := mul_le_mul_of_nonneg_right hu (abs_nonneg (p - rnd (rnd Real.pi / 2)))
      norm_num at hlt ⊢
      linarith
    have d3 : |rnd (rnd Real.pi / 2) - Real.pi / 2| ≤ 3.2 * u := by
      have a1 := h Real.pi
      rw [abs_of_pos pi0] at a1
      have a2 : |rnd Real.pi / 2 - Real.pi / 2| ≤ 1.58 * u := by
        rw [← sub_div, abs_div, abs_of_pos (by norm_num : (0 : ℝ) < 2)]
        have := mul_le_mul_of_nonneg_left pi1.le hu0
        linarith
      have := stp h hu (by norm_num) a2 (m := 1.58) (by rw [abs_of_pos (by positivity)]; linarith)
      linarith
    have d4 : |p - Real.pi / 2| ≤ 1.002e-12 + 3.2 * u := (abs_sub_le _ _ _).trans (add_le_add d2 d3)
    have d5 : Real.cos p ≤ 1.002e-12 + 3.2 * u := by
      have := Real.abs_cos_sub_cos_le p (Real.pi / 2)
      rw [Real.cos_pi_div_two, sub_zero] at this
      exact (le_abs_self _).trans (this.trans d4)
    have := (abs_le.1 pc).1
    norm_num at d5 hc
    linarith
  unfold Rounded.getRPY
  dsimp only
  rw [if_neg no]
  exact ⟨⟨w roll.1, w roll.2⟩, ⟨pc, psn⟩, ⟨w yaw.1, w yaw.2⟩⟩

end Geo.RoundedAngles
