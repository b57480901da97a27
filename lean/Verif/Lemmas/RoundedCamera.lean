import Verif.Model.RoundedCamera
import Verif.Lemmas.Rounded
import Verif.Lemmas.SingleComposite

/-!
# Helper lemmas on projections in floating point arithmetic
-/

namespace Geo
open Spec

variable {u : ℝ} {rnd r2 : ℝ → ℝ}

theorem relErr_step (h : RelErr u rnd) (hu : 0 ≤ u) {v k S : ℝ} (hv : |v| ≤ k * S) : |rnd v - v| ≤ k * (u * S) :=
  (h v).trans ((mul_le_mul_of_nonneg_left hv hu).trans (le_of_eq (by ring)))

theorem relErr_zero (h : RelErr u rnd) : rnd 0 = 0 := by
  have := h 0
  simp at this
  exact this

theorem relErr_neg (h : RelErr u rnd) : RelErr u (fun v => -rnd (-v)) := by
  intro v
  have := h (-v)
  rw [abs_neg] at this
  have e : -rnd (-v) - v = -(rnd (-v) - -v) := by ring
  rw [e, abs_neg]
  exact this

/-- One coordinate, to the plane at distance 1 and back. -/
theorem pixel_err (h : RelErr u rnd) (h' : RelErr u r2) (hu0 : 0 ≤ u) (hu : u ≤ 1 / 1000) {f c t x S : ℝ} (hf : f ≠ 0) (hx : |x| ≤ S) (hc : |c| ≤ S)
    (ht : |t| ≤ S) : |rnd (rnd (rnd (rnd (f * r2 (rnd (x - rnd (c + t)) / f)) + t) / 1) + c) - x| ≤ 26 * (u * S) := by
  have hS : 0 ≤ S := (abs_nonneg x).trans hx
  have hw : u * S ≤ S / 1000 := by
    have := mul_le_mul_of_nonneg_right hu hS
    linarith
  have hw0 : 0 ≤ u * S := mul_nonneg hu0 hS
  rw [abs_le] at hx hc ht
  generalize hw' : u * S = w at hw hw0 ⊢
  have step : ∀ {v : ℝ} (k : ℝ), |v| ≤ k * S → |rnd v - v| ≤ k * w := by
    intro v k hv
    rw [← hw']
    exact relErr_step h hu0 hv
  have e1 := abs_le.1 (step (v := c + t) 2 (abs_le.2 ⟨by linarith, by linarith⟩))
  generalize rnd (c + t) = s at e1 ⊢
  have e2 := abs_le.1 (step (v := x - s) 3.1 (abs_le.2 ⟨by linarith, by linarith⟩))
  generalize rnd (x - s) = a at e2 ⊢
  have e3 : |f * r2 (a / f) - a| ≤ 3.1 * w := by
    have : f * r2 (a / f) - a = f * (r2 (a / f) - a / f) := by field_simp
    rw [this, abs_mul]
    refine (mul_le_mul_of_nonneg_left (h' _) (abs_nonneg f)).trans ?_
    rw [abs_div]
    have : |f| * (u * (|a| / |f|)) = u * |a| := by
      have := abs_pos.2 hf
      field_simp
    rw [this, ← hw']
    have : |a| ≤ 3.1 * S := abs_le.2 ⟨by linarith, by linarith⟩
    exact (mul_le_mul_of_nonneg_left this hu0).trans (le_of_eq (by ring))
  have e3 := abs_le.1 e3
  generalize f * r2 (a / f) = b at e3 ⊢
  have e4 := abs_le.1 (step (v := b) 3.2 (abs_le.2 ⟨by linarith, by linarith⟩))
  generalize rnd b = m at e4 ⊢
  have e5 := abs_le.1 (step (v := m + t) 4.3 (abs_le.2 ⟨by linarith, by linarith⟩))
  generalize rnd (m + t) = n at e5 ⊢
  rw [div_one]
  have e6 := abs_le.1 (step (v := n) 4.3 (abs_le.2 ⟨by linarith, by linarith⟩))
  generalize rnd n = o at e6 ⊢
  have e7 := abs_le.1 (step (v := o + c) 5.3 (abs_le.2 ⟨by linarith, by linarith⟩))
  rw [abs_le]
  constructor <;> linarith

/-- One coordinate, to any distance and back, without offset. -/
theorem pixel_depth_err (h : RelErr u rnd) (h' : RelErr u r2) (hu0 : 0 ≤ u) (hu : u ≤ 1 / 1000) {f c x d S : ℝ} (hf : f ≠ 0) (hd : 0 < d) (hx : |x| ≤ S)
    (hc : |c| ≤ S) : |rnd (rnd (rnd (rnd (f * r2 (r2 (rnd (x - rnd (c + 0)) / f) * d)) + 0) / d) + c) - x| ≤ 26 * (u * S) := by
  have hS : 0 ≤ S := (abs_nonneg x).trans hx
  have hw : u * S ≤ S / 1000 := by
    have := mul_le_mul_of_nonneg_right hu hS
    linarith
  have hw0 : 0 ≤ u * S := mul_nonneg hu0 hS
  rw [abs_le] at hx hc
  generalize hw' : u * S = w at hw hw0 ⊢
  have step : ∀ {v : ℝ} (k : ℝ), |v| ≤ k * S → |rnd v - v| ≤ k * w := by
    intro v k hv
    rw [← hw']
    exact relErr_step h hu0 hv
  -- a rounding of a multiple of a small number
  have scaled : ∀ {r : ℝ → ℝ} (_ : RelErr u r) {v : ℝ} (g k : ℝ), g ≠ 0 → |v * g| ≤ k * S → |r v * g - v * g| ≤ k * w := by
    intro r h v g k hg hv
    have e : r v * g - v * g = (r v - v) * g := by ring
    rw [e, abs_mul]
    refine (mul_le_mul_of_nonneg_right (h v) (abs_nonneg g)).trans ?_
    rw [mul_assoc, ← abs_mul, ← hw']
    exact (mul_le_mul_of_nonneg_left hv hu0).trans (le_of_eq (by ring))
  have hd' := hd.ne'
  rw [add_zero, add_zero]
  have e1 := abs_le.1 (step (v := c) 1 (abs_le.2 ⟨by linarith, by linarith⟩))
  generalize rnd c = s at e1 ⊢
  have e2 := abs_le.1 (step (v := x - s) 2.1 (abs_le.2 ⟨by linarith, by linarith⟩))
  generalize rnd (x - s) = a at e2 ⊢
  have a0 : a / f * f = a := by field_simp
  have e3 := abs_le.1 (scaled h' (v := a / f) f 2.2 hf (by rw [a0]; exact abs_le.2 ⟨by linarith, by linarith⟩))
  rw [a0] at e3
  generalize r2 (a / f) = q at e3 ⊢
  have q0 : q * d * (f / d) = q * f := by field_simp
  have e4 := abs_le.1 (scaled h' (v := q * d) (f / d) 2.3 (div_ne_zero hf hd') (by rw [q0]; exact abs_le.2 ⟨by linarith, by linarith⟩))
  rw [q0] at e4
  generalize r2 (q * d) = p at e4 ⊢
  have p0 : f * p * (1 / d) = p * (f / d) := by field_simp
  have e5 := abs_le.1 (scaled h (v := f * p) (1 / d) 2.3 (one_div_ne_zero hd') (by rw [p0]; exact abs_le.2 ⟨by linarith, by linarith⟩))
  rw [p0] at e5
  generalize rnd (f * p) = m at e5 ⊢
  have e6 := abs_le.1 (scaled h (v := m) (1 / d) 2.3 (one_div_ne_zero hd') (abs_le.2 ⟨by linarith, by linarith⟩))
  generalize rnd m = n at e6 ⊢
  have n0 : n / d = n * (1 / d) := by ring
  rw [n0]
  have e7 := abs_le.1 (step (v := n * (1 / d)) 2.3 (abs_le.2 ⟨by linarith, by linarith⟩))
  generalize rnd (n * (1 / d)) = o at e7 ⊢
  have e8 := abs_le.1 (step (v := o + c) 3.3 (abs_le.2 ⟨by linarith, by linarith⟩))
  rw [abs_le]
  constructor <;> linarith

/-- Close to an integer the nearest `float` is the integer. -/
theorem toFloat_near_int {x : ℤ} {y : ℝ} (h1 : 1 ≤ x) (h2 : x < 2 ^ 20) (h : |y - x| ≤ 1 / 2 ^ 26) : toFloat y = x := by
  have g1 : (1 : ℝ) ≤ x := by exact_mod_cast h1
  have g2 : (x : ℝ) < 2 ^ 20 := by exact_mod_cast h2
  have hy := abs_le.1 h
  have y0 : (1 : ℝ) / 2 < y := by
    norm_num at hy ⊢
    linarith
  have hpos : 0 < y := by linarith
  unfold toFloat
  rw [if_neg hpos.ne']
  dsimp only
  rw [abs_of_pos hpos]
  have l1 : (-1 : ℤ) ≤ Int.log 2 y := by
    rw [← Int.zpow_le_iff_le_log (by norm_num) hpos]
    norm_num
    linarith
  have l2 : Int.log 2 y < 21 := by
    rw [← Int.lt_zpow_iff_log_lt (by norm_num) hpos]
    norm_num at hy g2 ⊢
    linarith
  generalize Int.log 2 y = k at l1 l2 ⊢
  obtain ⟨j, hj⟩ := Int.eq_ofNat_of_zero_le (show 0 ≤ 23 - k by omega)
  have hj' : j ≤ 24 := by omega
  have e : (2 : ℝ) ^ (k - 23) = (2 ^ j)⁻¹ := by
    rw [show k - 23 = -(j : ℤ) by omega, zpow_neg, zpow_natCast]
  rw [e]
  have hp : (0 : ℝ) < 2 ^ j := by positivity
  rw [div_inv_eq_mul, nearestEven_eq (m := x * 2 ^ j)]
  · push_cast
    field_simp
  · push_cast
    have : y * 2 ^ j - x * 2 ^ j = (y - x) * 2 ^ j := by ring
    rw [this, abs_mul, abs_of_pos hp]
    have : (2 : ℝ) ^ j ≤ 2 ^ 24 := pow_le_pow_right₀ (by norm_num) hj'
    calc |y - x| * 2 ^ j ≤ 1 / 2 ^ 26 * 2 ^ 24 := mul_le_mul h this hp.le (by norm_num)
      _ < 1 / 2 := by norm_num

/-- Truncation near an integer that is not negative. -/
theorem trunc_near {x : ℤ} {y : ℝ} (hx : 0 ≤ x) (h : |y - x| < 1) : trunc y = x ∨ trunc y = x - 1 := by
  have hy := abs_lt.1 h
  unfold trunc
  split_ifs with h0
  · have a : ⌊y⌋ < x + 1 := by
      rw [Int.floor_lt]
      push_cast
      linarith
    have b : x - 1 ≤ ⌊y⌋ := by
      rw [Int.le_floor]
      push_cast
      linarith
    omega
  · have : x < 1 := by
      have : (x : ℝ) < 1 := by linarith
      exact_mod_cast this
    have x0 : x = 0 := by omega
    subst x0
    left
    rw [Int.ceil_eq_iff]
    push_cast at hy ⊢
    constructor <;> linarith

theorem toDouble_neg_two : toDouble (-2) = -2 := by
  unfold toDouble
  rw [if_neg (by norm_num)]
  have hl : Int.log 2 |(-2 : ℝ)| = 1 := by
    rw [abs_neg, abs_of_pos two_pos]
    exact log_eq (by norm_num) (by norm_num)
  rw [hl]
  dsimp only
  rw [nearestEven_eq (m := -2 ^ 52)]
  · norm_num
  · norm_num

end Geo
