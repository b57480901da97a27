import Verif.Model.RoundedNormalize
import Verif.Spec.RoundedNormalize
import Verif.Lemmas.RoundedBox

/-! # Helper lemmas about normalisation in floating point arithmetic -/

namespace Geo.RoundedNormalize
open Spec Matrix Rounded

variable {u : ℝ} {rnd : ℝ → ℝ}

/-- Square root of, and division by the square root of, a nearby sum of squares. -/
theorem divide (h : RelErr u rnd) (hu : u ≤ 1 / 1000) {l s k : ℝ} (hl : 0 < l) (hk0 : 0 ≤ k) (hk : k ≤ 4.2)
    (hs : |s - l ^ 2| ≤ k * u * l ^ 2) :
    |rnd (Real.sqrt s) - l| ≤ (0.51 * k + 1.02) * u * l ∧ ∀ c, |rnd (l * c / rnd (Real.sqrt s)) - c| ≤ (0.52 * k + 2.06) * u * |c| := by
  have hu0 := relErr_nonneg h
  have hl2 : 0 < l ^ 2 := by positivity
  have ku : k * u ≤ 4.2 * (1 / 1000) := mul_le_mul hk hu hu0 (by norm_num)
  have slow : 0.9801 * l ^ 2 ≤ s := by
    have := (abs_le.1 hs).1
    have := mul_le_mul_of_nonneg_right ku hl2.le
    linarith
  have s0 : 0 ≤ s := by linarith
  have rlow : 0.99 * l ≤ Real.sqrt s := by
    apply Real.le_sqrt_of_sq_le
    rw [mul_pow]
    linarith
  have root : |Real.sqrt s - l| ≤ 0.503 * k * u * |l| := by
    have e : (Real.sqrt s - l) * (Real.sqrt s + l) = s - l ^ 2 := by
      have := Real.sq_sqrt s0
      linear_combination this
    have p : 1.99 * l ≤ Real.sqrt s + l := by linarith
    have p0 : 0 < Real.sqrt s + l := by linarith
    have q : |Real.sqrt s - l| * (Real.sqrt s + l) = |s - l ^ 2| := by
      rw [← e, abs_mul, abs_of_pos p0]
    have r : |Real.sqrt s - l| * (1.99 * l) ≤ k * u * l ^ 2 := by
      have := mul_le_mul_of_nonneg_left p (abs_nonneg (Real.sqrt s - l))
      linarith
    rw [abs_of_pos hl]
    have t : |Real.sqrt s - l| * 1.99 ≤ k * u * l := by
      apply le_of_mul_le_mul_right _ hl
      linarith
    have : 0 ≤ k * u * l := by positivity
    linarith
  have st := RoundedBox.rel_step h hu0 hu (by linarith) root
  rw [abs_of_pos hl] at st
  have nn : 0 ≤ k * u * l := by positivity
  have nu : 0 ≤ u * l := by positivity
  have first : |rnd (Real.sqrt s) - l| ≤ (0.51 * k + 1.02) * u * l := by linarith
  refine ⟨first, fun c => ?_⟩
  obtain ⟨m, hm⟩ : ∃ m, m = rnd (Real.sqrt s) := ⟨_, rfl⟩
  rw [← hm] at first ⊢
  have kul : k * u * l ≤ 4.2 * (1 / 1000) * l := mul_le_mul_of_nonneg_right ku hl.le
  have ul : u * l ≤ 1 / 1000 * l := mul_le_mul_of_nonneg_right hu hl.le
  have mlow : 0.9967 * l ≤ m := by
    have := (abs_le.1 first).1
    linarith
  have m0 : 0 < m := by linarith
  have q : |l * c / m - c| ≤ (0.515 * k + 1.03) * u * |c| := by
    rw [show l * c / m - c = (l - m) / m * c by field_simp, abs_mul, abs_div, abs_of_pos m0, abs_sub_comm]
    refine mul_le_mul_of_nonneg_right ?_ (abs_nonneg c)
    rw [div_le_iff₀ m0]
    have t : (0.515 * k + 1.03) * u * (0.9967 * l) ≤ (0.515 * k + 1.03) * u * m := mul_le_mul_of_nonneg_left mlow (by positivity)
    linarith
  have := RoundedBox.rel_step h hu0 hu (by linarith) q
  have n1 : 0 ≤ k * u * |c| := by positivity
  have n2 : 0 ≤ u * |c| := by positivity
  linarith

/-- Adding a square to a sum of squares. -/
theorem add_sq (h : RelErr u rnd) (hu : u ≤ 1 / 1000) {k t S x : ℝ} (hk1 : 1 ≤ k) (hk : k ≤ 4) (hS : 0 ≤ S) (ht : |t - S| ≤ k * u * S) :
    |rnd (t + rnd (x * x)) - (S + x ^ 2)| ≤ (k + 1.02) * u * (S + x ^ 2) := by
  have hu0 := relErr_nonneg h
  have x2 : 0 ≤ x ^ 2 := sq_nonneg x
  have p := h (x * x)
  rw [← pow_two, abs_of_nonneg x2] at p
  rw [← pow_two]
  have y : |t + rnd (x ^ 2) - (S + x ^ 2)| ≤ k * u * |S + x ^ 2| := by
    rw [abs_of_nonneg (show 0 ≤ S + x ^ 2 by positivity), show t + rnd (x ^ 2) - (S + x ^ 2) = (t - S) + (rnd (x ^ 2) - x ^ 2) by ring]
    have := abs_add_le (t - S) (rnd (x ^ 2) - x ^ 2)
    have n : 1 * (u * x ^ 2) ≤ k * (u * x ^ 2) := mul_le_mul_of_nonneg_right hk1 (by positivity)
    linarith
  have := RoundedBox.rel_step h hu0 hu (by linarith) y
  rwa [abs_of_nonneg (show 0 ≤ S + x ^ 2 by positivity)] at this

theorem first_sq (h : RelErr u rnd) (x : ℝ) : |rnd (x * x) - x ^ 2| ≤ 1 * u * x ^ 2 := by
  have p := h (x * x)
  rw [← pow_two, abs_of_nonneg (sq_nonneg x)] at p
  rw [← pow_two, one_mul]
  exact p

/-- The square of a component with a relative error. -/
theorem sq_err (hu0 : 0 ≤ u) (hu : u ≤ 1 / 1000) {k n e : ℝ} (hk0 : 0 ≤ k) (hk : k ≤ 4.3) (hn : |n - e| ≤ k * u * |e|) :
    |n ^ 2 - e ^ 2| ≤ (2 * k + 0.02) * u * e ^ 2 := by
  have ku : k * u ≤ 4.3 * (1 / 1000) := mul_le_mul hk hu hu0 (by norm_num)
  have s : |n + e| ≤ (2 + k * u) * |e| := by
    rw [show n + e = (n - e) + 2 * e by ring]
    have := abs_add_le (n - e) (2 * e)
    rw [abs_mul, abs_of_pos (show (0 : ℝ) < 2 by norm_num)] at this
    linarith
  rw [show n ^ 2 - e ^ 2 = (n - e) * (n + e) by ring, abs_mul]
  have := mul_le_mul hn s (abs_nonneg _) (by positivity)
  have e2 : |e| * |e| = e ^ 2 := by rw [abs_mul_abs_self, pow_two]
  have k2 : k * (k * u) ≤ 4.3 * (4.3 * (1 / 1000)) := mul_le_mul hk ku (by positivity) (by norm_num)
  have k3 : k * (k * u) * (u * e ^ 2) ≤ 4.3 * (4.3 * (1 / 1000)) * (u * e ^ 2) := mul_le_mul_of_nonneg_right k2 (by positivity)
  have : k * u * |e| * ((2 + k * u) * |e|) = 2 * k * u * e ^ 2 + k * (k * u) * (u * e ^ 2) := by
    rw [← e2]; ring
  have : 0 ≤ u * e ^ 2 := by positivity
  linarith

/-- The product of two components with relative errors. -/
theorem mul_err (hu0 : 0 ≤ u) (hu : u ≤ 1 / 1000) {n e m f : ℝ} (hn : |n - e| ≤ 3.6 * u * |e|) (hm : |m - f| ≤ 3.6 * u * |f|) :
    |n * m - e * f| ≤ 7.3 * u * ((e ^ 2 + f ^ 2) / 2) := by
  have b : |m| ≤ 1.0036 * |f| := by
    have := abs_add_le (m - f) f
    rw [sub_add_cancel] at this
    have := mul_le_mul_of_nonneg_right hu (abs_nonneg f)
    linarith
  rw [show n * m - e * f = (n - e) * m + e * (m - f) by ring]
  have t := abs_add_le ((n - e) * m) (e * (m - f))
  rw [abs_mul, abs_mul] at t
  have t1 := mul_le_mul hn b (abs_nonneg _) (by positivity)
  have t2 := mul_le_mul_of_nonneg_left hm (abs_nonneg e)
  have am : |e| * |f| ≤ (e ^ 2 + f ^ 2) / 2 := by
    have := two_mul_le_add_sq (|e|) (|f|)
    rw [sq_abs, sq_abs] at this
    linarith
  have := mul_le_mul_of_nonneg_left am hu0
  have : 0 ≤ u * ((e ^ 2 + f ^ 2) / 2) := by positivity
  linarith

/-- Rounding to `double` does not depend on the exponent. -/
theorem toDouble_scale : ScaleFree toDouble := by
  intro k x
  by_cases hx : x = 0
  · subst hx; simp [toDouble]
  have p : (0 : ℝ) < 2 ^ k := by positivity
  have hx' : (2 : ℝ) ^ k * x ≠ 0 := mul_ne_zero p.ne' hx
  have ax : 0 < |x| := abs_pos.2 hx
  have lg : Int.log 2 |(2 : ℝ) ^ k * x| = k + Int.log 2 |x| := by
    rw [abs_mul, abs_of_pos p]
    have a := Int.zpow_log_le_self (b := 2) (by norm_num) ax
    have b := Int.lt_zpow_succ_log_self (b := 2) (by norm_num) |x|
    push_cast at a b
    apply le_antisymm
    · rw [← Int.lt_add_one_iff]
      apply (Int.lt_zpow_iff_log_lt (b := 2) (by norm_num) (by positivity)).1
      push_cast
      rw [add_assoc, zpow_add₀ two_ne_zero]
      exact mul_lt_mul_of_pos_left b p
    · apply (Int.zpow_le_iff_le_log (b := 2) (by norm_num) (by positivity)).1
      push_cast
      rw [zpow_add₀ two_ne_zero]
      exact mul_le_mul_of_nonneg_left a p.le
  unfold toDouble
  rw [if_neg hx, if_neg hx']
  simp only [lg]
  have e1 : (2 : ℝ) ^ (k + Int.log 2 |x| - 52) = 2 ^ k * 2 ^ (Int.log 2 |x| - 52) := by
    rw [← zpow_add₀ two_ne_zero]
    congr 1
    ring
  rw [e1, mul_div_mul_left _ _ p.ne']
  ring

theorem sqrt_scale (k : ℤ) (x : ℝ) : Real.sqrt (2 ^ (2 * k) * x) = 2 ^ k * Real.sqrt x := by
  have p : (0 : ℝ) ≤ 2 ^ k := by positivity
  rw [Real.sqrt_mul (by positivity), show (2 : ℝ) ^ (2 * k) = (2 ^ k) ^ 2 by rw [mul_comm, zpow_mul, zpow_ofNat], Real.sqrt_sq p]

/-- Vectors of different size and equal direction. -/
theorem normalized_scale (hs : ScaleFree rnd) (k : ℤ) (d : Vec3) :
    Rounded.normalized rnd ⟨2 ^ k * d.x, 2 ^ k * d.y, 2 ^ k * d.z⟩ = Rounded.normalized rnd d := by
  have p : (2 : ℝ) ^ k ≠ 0 := by positivity
  have sq : ∀ x : ℝ, rnd (2 ^ k * x * (2 ^ k * x)) = 2 ^ (2 * k) * rnd (x * x) := by
    intro x
    rw [← hs, show (2 : ℝ) ^ (2 * k) = 2 ^ k * 2 ^ k by rw [← zpow_add₀ two_ne_zero]; congr 1; ring]
    congr 1
    ring
  have l : Rounded.length rnd ⟨2 ^ k * d.x, 2 ^ k * d.y, 2 ^ k * d.z⟩ = 2 ^ k * Rounded.length rnd d := by
    unfold Rounded.length Rounded.length2 dot3
    rw [← hs, ← sqrt_scale, ← hs, mul_add, ← hs, mul_add, ← sq, ← sq, ← sq]
  unfold Rounded.normalized
  simp only [l, mul_div_mul_left _ _ p]

end Geo.RoundedNormalize
