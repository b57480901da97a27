import Verif.Model.RoundedOctree
import Verif.Lemmas.Rounded
import Verif.Lemmas.SingleComposite
import Verif.Lemmas.OctreeUse
import Verif.Spec.RoundedOctree

/-!
# Octrees in floating point arithmetic: double precision numbers
-/

namespace Geo
open Spec

/-! ## The conversion to `double` -/

/-- A positive number keeps its binade. -/
theorem toDouble_pos {x : ℝ} (hx : 0 < x) :
    (2 : ℝ) ^ Int.log 2 x ≤ toDouble x ∧ toDouble x ≤ 2 ^ (Int.log 2 x + 1) := by
  unfold toDouble
  rw [if_neg hx.ne', abs_of_pos hx]
  simp only
  set l := Int.log 2 x with hl
  have h1 : (2 : ℝ) ^ l ≤ x := by exact_mod_cast Int.zpow_log_le_self (b := 2) (by norm_num) hx
  have h2 : x < 2 ^ (l + 1) := by exact_mod_cast Int.lt_zpow_succ_log_self (b := 2) (by norm_num) x
  have hp : (0 : ℝ) < 2 ^ (l - 52) := zpow_pos (by norm_num) _
  have e1 : (2 : ℝ) ^ l = ((2 ^ 52 : ℤ) : ℝ) * 2 ^ (l - 52) := by
    rw [show ((2 ^ 52 : ℤ) : ℝ) = (2 : ℝ) ^ (52 : ℤ) by norm_num, ← zpow_add₀ (by norm_num)]
    congr 1
    ring
  have e2 : (2 : ℝ) ^ (l + 1) = ((2 ^ 53 : ℤ) : ℝ) * 2 ^ (l - 52) := by
    rw [show ((2 ^ 53 : ℤ) : ℝ) = (2 : ℝ) ^ (53 : ℤ) by norm_num, ← zpow_add₀ (by norm_num)]
    congr 1
    ring
  rw [e1] at h1 ⊢
  rw [e2] at h2 ⊢
  constructor
  · refine mul_le_mul_of_nonneg_right ?_ hp.le
    have := nearestEven_mono (p := ((2 ^ 52 : ℤ) : ℝ)) (q := x / 2 ^ (l - 52)) (by rw [le_div_iff₀ hp]; exact h1)
    rw [nearestEven_int] at this
    exact_mod_cast this
  · refine mul_le_mul_of_nonneg_right ?_ hp.le
    have := nearestEven_mono (p := x / 2 ^ (l - 52)) (q := ((2 ^ 53 : ℤ) : ℝ)) (by rw [div_le_iff₀ hp]; exact h2.le)
    rw [nearestEven_int] at this
    exact_mod_cast this

/-- A negative number keeps its binade. -/
theorem toDouble_neg {x : ℝ} (hx : x < 0) :
    -(2 : ℝ) ^ (Int.log 2 (-x) + 1) ≤ toDouble x ∧ toDouble x ≤ -2 ^ Int.log 2 (-x) := by
  unfold toDouble
  rw [if_neg hx.ne, abs_of_neg hx]
  simp only
  set l := Int.log 2 (-x) with hl
  have h1 : (2 : ℝ) ^ l ≤ -x := by exact_mod_cast Int.zpow_log_le_self (b := 2) (by norm_num) (neg_pos.2 hx)
  have h2 : -x < 2 ^ (l + 1) := by exact_mod_cast Int.lt_zpow_succ_log_self (b := 2) (by norm_num) (-x)
  have hp : (0 : ℝ) < 2 ^ (l - 52) := zpow_pos (by norm_num) _
  have e1 : (2 : ℝ) ^ l = ((2 ^ 52 : ℤ) : ℝ) * 2 ^ (l - 52) := by
    rw [show ((2 ^ 52 : ℤ) : ℝ) = (2 : ℝ) ^ (52 : ℤ) by norm_num, ← zpow_add₀ (by norm_num)]
    congr 1
    ring
  have e2 : (2 : ℝ) ^ (l + 1) = ((2 ^ 53 : ℤ) : ℝ) * 2 ^ (l - 52) := by
    rw [show ((2 ^ 53 : ℤ) : ℝ) = (2 : ℝ) ^ (53 : ℤ) by norm_num, ← zpow_add₀ (by norm_num)]
    congr 1
    ring
  rw [e1] at h1 ⊢
  rw [e2] at h2 ⊢
  constructor
  · have := nearestEven_mono (p := ((-2 ^ 53 : ℤ) : ℝ)) (q := x / 2 ^ (l - 52))
      (by rw [le_div_iff₀ hp]; push_cast at h2 ⊢; linarith)
    rw [nearestEven_int] at this
    have h3 : ((-2 ^ 53 : ℤ) : ℝ) ≤ nearestEven (x / 2 ^ (l - 52)) := by exact_mod_cast this
    have := mul_le_mul_of_nonneg_right h3 hp.le
    push_cast at this ⊢
    linarith
  · have := nearestEven_mono (p := x / 2 ^ (l - 52)) (q := ((-2 ^ 52 : ℤ) : ℝ))
      (by rw [div_le_iff₀ hp]; push_cast at h1 ⊢; linarith)
    rw [nearestEven_int] at this
    have h3 : (nearestEven (x / 2 ^ (l - 52)) : ℝ) ≤ ((-2 ^ 52 : ℤ) : ℝ) := by exact_mod_cast this
    have := mul_le_mul_of_nonneg_right h3 hp.le
    push_cast at this ⊢
    linarith

/-- The cast is monotone. -/
theorem toDouble_mono : Monotone toDouble := by
  intro x y h
  have two : (1 : ℝ) < 2 := by norm_num
  rcases lt_trichotomy x 0 with hx | rfl | hx
  · have nx : toDouble x ≤ 0 := (toDouble_neg hx).2.trans (neg_nonpos.2 (zpow_pos (by norm_num) _).le)
    rcases lt_trichotomy y 0 with hy | rfl | hy
    · have hl : Int.log 2 (-y) ≤ Int.log 2 (-x) := Int.log_mono_right (by linarith) (by linarith)
      rcases hl.lt_or_eq with hl | hl
      · refine (toDouble_neg hx).2.trans (le_trans ?_ (toDouble_neg hy).1)
        exact neg_le_neg (zpow_le_zpow_right₀ two.le (by omega))
      · unfold toDouble
        rw [if_neg hx.ne, if_neg hy.ne, abs_of_neg hx, abs_of_neg hy, hl]
        have hp : (0 : ℝ) < 2 ^ (Int.log 2 (-x) - 52) := zpow_pos (by norm_num) _
        refine mul_le_mul_of_nonneg_right ?_ hp.le
        exact_mod_cast nearestEven_mono ((div_le_div_iff_of_pos_right hp).2 h)
    · rw [toDouble_zero]; exact nx
    · exact nx.trans ((zpow_pos (by norm_num) _).le.trans (toDouble_pos hy).1)
  · rw [toDouble_zero]
    rcases h.lt_or_eq with hy | rfl
    · exact (zpow_pos (by norm_num) _).le.trans (toDouble_pos hy).1
    · rw [toDouble_zero]
  · have hy : 0 < y := lt_of_lt_of_le hx h
    have hl : Int.log 2 x ≤ Int.log 2 y := Int.log_mono_right hx h
    rcases hl.lt_or_eq with hl | hl
    · refine (toDouble_pos hx).2.trans (le_trans ?_ (toDouble_pos hy).1)
      exact zpow_le_zpow_right₀ two.le (by omega)
    · unfold toDouble
      rw [if_neg hx.ne', if_neg hy.ne', abs_of_pos hx, abs_of_pos hy, hl]
      have hp : (0 : ℝ) < 2 ^ (Int.log 2 y - 52) := zpow_pos (by norm_num) _
      refine mul_le_mul_of_nonneg_right ?_ hp.le
      exact_mod_cast nearestEven_mono ((div_le_div_iff_of_pos_right hp).2 h)

theorem toDouble_int {m k : ℤ} (h1 : 2 ^ 52 ≤ |m|) (h2 : |m| ≤ 2 ^ 53) : toDouble (m * 2 ^ k) = m * 2 ^ k := by
  have hk : (0 : ℝ) < 2 ^ k := zpow_pos (by norm_num) _
  have two : (2 : ℝ) ≠ 0 := by norm_num
  have hm : (m : ℝ) ≠ 0 := by
    intro h
    have : m = 0 := by exact_mod_cast h
    subst this
    norm_num at h1
  have habs : |(m : ℝ) * 2 ^ k| = (|m| : ℤ) * 2 ^ k := by rw [abs_mul, abs_of_pos hk, Int.cast_abs]
  have g1 : ((2 ^ 52 : ℤ) : ℝ) ≤ (|m| : ℤ) := by exact_mod_cast h1
  push_cast at g1
  unfold toDouble
  rw [if_neg (mul_ne_zero hm hk.ne')]
  dsimp only
  rw [habs]
  rcases h2.lt_or_eq with h2 | h2
  · have g2 : ((|m| : ℤ) : ℝ) < ((2 ^ 53 : ℤ) : ℝ) := by exact_mod_cast h2
    push_cast at g2
    have : Int.log 2 (((|m| : ℤ) : ℝ) * 2 ^ k) = k + 52 := by
      apply log_eq
      · rw [zpow_add₀ two, mul_comm]
        refine mul_le_mul_of_nonneg_right ?_ hk.le
        norm_num at g1 ⊢
        exact g1
      · rw [show k + 52 + 1 = k + 53 by ring, zpow_add₀ two, mul_comm]
        refine mul_lt_mul_of_pos_left ?_ hk
        norm_num at g2 ⊢
        exact g2
    rw [this, show k + 52 - 52 = k by ring, mul_div_assoc, div_self hk.ne', mul_one, nearestEven_int]
  · have : Int.log 2 (((|m| : ℤ) : ℝ) * 2 ^ k) = k + 53 := by
      rw [h2]
      apply log_eq
      · rw [zpow_add₀ two, mul_comm]
        push_cast
        norm_num
      · rw [show k + 53 + 1 = k + 54 by ring, zpow_add₀ two]
        push_cast
        rw [mul_comm]
        exact mul_lt_mul_of_pos_left (by norm_num) hk
    rw [this, show k + 53 - 52 = k + 1 by ring, zpow_add₀ two, zpow_one]
    have e : (m : ℝ) * 2 ^ k / (2 ^ k * 2) = ((m / 2 : ℤ) : ℝ) := by
      have hd : (2 : ℤ) ∣ m := by
        rw [← dvd_abs, h2]
        norm_num
      obtain ⟨n, rfl⟩ := hd
      rw [Int.mul_ediv_cancel_left _ (by norm_num)]
      push_cast
      field_simp
    rw [e, nearestEven_int, ← e]
    field_simp

/-- Rounding a `double` does not change it. -/
theorem toDouble_idem (x : ℝ) : toDouble (toDouble x) = toDouble x := by
  by_cases hx : x = 0
  · subst hx
    rw [toDouble_zero, toDouble_zero]
  have habs : 0 < |x| := abs_pos.2 hx
  set e := Int.log 2 |x| - 52 with he
  have hp : (0 : ℝ) < 2 ^ e := zpow_pos (by norm_num) _
  have l1 : (2 : ℝ) ^ (e + 52) ≤ |x| := by
    have := Int.zpow_log_le_self (b := 2) one_lt_two habs
    rw [show e + 52 = Int.log 2 |x| by omega]
    exact_mod_cast this
  have l2 : |x| < (2 : ℝ) ^ (e + 53) := by
    have := Int.lt_zpow_succ_log_self (b := 2) one_lt_two |x|
    rw [show e + 53 = Int.log 2 |x| + 1 by omega]
    exact_mod_cast this
  have two : (2 : ℝ) ≠ 0 := by norm_num
  have q1 : (2 : ℝ) ^ 52 ≤ |x / 2 ^ e| := by
    rw [abs_div, abs_of_pos hp, le_div_iff₀ hp, mul_comm]
    rw [zpow_add₀ two] at l1
    exact_mod_cast l1
  have q2 : |x / 2 ^ e| ≤ (2 : ℝ) ^ 53 := by
    rw [abs_div, abs_of_pos hp, div_le_iff₀ hp, mul_comm]
    rw [zpow_add₀ two] at l2
    exact_mod_cast l2.le
  have hfx : toDouble x = nearestEven (x / 2 ^ e) * 2 ^ e := by
    unfold toDouble
    rw [if_neg hx]
  rw [hfx]
  generalize x / 2 ^ e = q at q1 q2
  have n1 := nearestEven_int (2 ^ 52)
  have n2 := nearestEven_int (2 ^ 53)
  have n3 := nearestEven_int (-2 ^ 52)
  have n4 := nearestEven_int (-2 ^ 53)
  push_cast at n1 n2 n3 n4
  apply toDouble_int
  · rcases le_abs.1 q1 with h | h
    · have := nearestEven_mono h
      norm_num [n1] at this ⊢
      exact this.trans (le_abs_self _)
    · have := nearestEven_mono (show q ≤ -2 ^ 52 by linarith)
      norm_num [n3] at this ⊢
      exact le_trans (by omega) (neg_le_abs _)
  · rw [abs_le] at q2 ⊢
    have a := nearestEven_mono q2.1
    have b := nearestEven_mono q2.2
    norm_num [n4] at a
    norm_num [n2] at b
    exact ⟨by norm_num; exact a, by norm_num; exact b⟩

theorem toDouble_grid_aux (d : ℕ) : ∀ {m k : ℤ}, 2 ^ 52 ≤ 2 ^ d * |m| → |m| ≤ 2 ^ 53 → toDouble (m * 2 ^ k) = m * 2 ^ k := by
  induction d with
  | zero => intro m k h1 h2; exact toDouble_int (by simpa using h1) h2
  | succ d ih =>
    intro m k h1 h2
    by_cases h : 2 ^ 52 ≤ |m|
    · exact toDouble_int h h2
    · have e : (m : ℝ) * 2 ^ k = ((2 * m : ℤ) : ℝ) * 2 ^ (k - 1) := by
        rw [zpow_sub₀ (by norm_num)]
        push_cast
        ring
      rw [e]
      apply ih
      · rw [abs_mul]
        calc (2 : ℤ) ^ 52 ≤ 2 ^ (d + 1) * |m| := h1
          _ = 2 ^ d * (|2| * |m|) := by rw [pow_succ]; norm_num; ring
      · rw [abs_mul]
        norm_num at h ⊢
        omega

/-- Numbers with 53 binary digits are not rounded. -/
theorem toDouble_grid {m k : ℤ} (h : |m| ≤ 2 ^ 53) : toDouble (m * 2 ^ k) = m * 2 ^ k := by
  by_cases h0 : m = 0
  · subst h0
    simp [toDouble_zero]
  · refine toDouble_grid_aux 52 ?_ h
    have : 1 ≤ |m| := Int.one_le_abs h0
    nlinarith

/-- A `double` has 53 binary digits. -/
theorem toDouble_fixed {x : ℝ} (h : toDouble x = x) : ∃ m k : ℤ, |m| ≤ 2 ^ 53 ∧ x = m * 2 ^ k := by
  by_cases hx : x = 0
  · exact ⟨0, 0, by norm_num, by simp [hx]⟩
  have habs : 0 < |x| := abs_pos.2 hx
  set e := Int.log 2 |x| - 52 with he
  have hp : (0 : ℝ) < 2 ^ e := zpow_pos (by norm_num) _
  have l2 : |x| < (2 : ℝ) ^ (e + 53) := by
    have := Int.lt_zpow_succ_log_self (b := 2) one_lt_two |x|
    rw [show e + 53 = Int.log 2 |x| + 1 by omega]
    exact_mod_cast this
  have hfx : x = nearestEven (x / 2 ^ e) * 2 ^ e := by
    conv_lhs => rw [← h]
    unfold toDouble
    rw [if_neg hx]
  refine ⟨nearestEven (x / 2 ^ e), e, ?_, hfx⟩
  rw [hfx, abs_mul, abs_of_pos hp, zpow_add₀ (by norm_num), mul_comm] at l2
  have := lt_of_mul_lt_mul_left l2 hp.le
  rw [show (2 : ℝ) ^ (53 : ℤ) = ((2 ^ 53 : ℤ) : ℝ) by norm_num, ← Int.cast_abs] at this
  exact (Int.cast_lt.1 this).le

theorem toDouble_half {x : ℝ} (h : toDouble x = x) : toDouble (x / 2) = x / 2 := by
  obtain ⟨m, k, h1, rfl⟩ := toDouble_fixed h
  have e : (m : ℝ) * 2 ^ k / 2 = m * 2 ^ (k - 1) := by
    rw [zpow_sub₀ (by norm_num)]
    norm_num
    ring
  rw [e]
  exact toDouble_grid h1

theorem toDouble_minus {x : ℝ} (h : toDouble x = x) : toDouble (-x) = -x := by
  obtain ⟨m, k, h1, rfl⟩ := toDouble_fixed h
  have e : -((m : ℝ) * 2 ^ k) = ((-m : ℤ) : ℝ) * 2 ^ k := by push_cast; ring
  rw [e]
  exact toDouble_grid (by rwa [abs_neg])

/-- The difference of two `double`s with `b ≤ a ≤ 2 b` is exact. -/
theorem toDouble_sub {a b : ℝ} (ha : toDouble a = a) (hb : toDouble b = b) (h1 : b ≤ a) (h2 : a ≤ 2 * b) :
    toDouble (a - b) = a - b := by
  obtain ⟨m, k, hm, ea⟩ := toDouble_fixed ha
  obtain ⟨n, l, hn, eb⟩ := toDouble_fixed hb
  have hb0 : 0 ≤ b := by linarith
  have key : ∀ (f : ℤ) (M N : ℤ) (q : ℤ), |q| ≤ 2 ^ 53 → a = M * 2 ^ f → b = N * 2 ^ f → (a - b ≤ |(q : ℝ)| * 2 ^ f) → toDouble (a - b) = a - b := by
    intro f M N q hq e1 e2 h3
    have hp : (0 : ℝ) < 2 ^ f := zpow_pos (by norm_num) _
    have e : a - b = ((M - N : ℤ) : ℝ) * 2 ^ f := by rw [e1, e2]; push_cast; ring
    have h0 : 0 ≤ a - b := by linarith
    rw [e] at h0 h3
    rw [e]
    apply toDouble_grid
    have g1 : (0 : ℝ) ≤ ((M - N : ℤ) : ℝ) := nonneg_of_mul_nonneg_left h0 hp
    have g2 := le_of_mul_le_mul_right h3 hp
    rw [abs_of_nonneg (by exact_mod_cast g1)]
    have : M - N ≤ |q| := by exact_mod_cast g2
    exact this.trans hq
  have two : (2 : ℝ) ≠ 0 := by norm_num
  have shift : ∀ (m k f : ℤ), f ≤ k → (m : ℝ) * 2 ^ k = ((m * 2 ^ (k - f).toNat : ℤ) : ℝ) * 2 ^ f := by
    intro m k f h
    push_cast
    rw [mul_assoc, ← zpow_natCast, Int.toNat_of_nonneg (by omega), ← zpow_add₀ two]
    congr 2
    ring
  rcases le_total k l with h | h
  · refine key k m _ m hm ea (eb.trans (shift n l k h)) ?_
    have : a ≤ |(m : ℝ)| * 2 ^ k := by
      rw [ea]
      exact mul_le_mul_of_nonneg_right (le_abs_self _) (zpow_pos (by norm_num) _).le
    linarith
  · refine key l _ n n hn (ea.trans (shift m k l h)) eb ?_
    have : b ≤ |(n : ℝ)| * 2 ^ l := by
      rw [eb]
      exact mul_le_mul_of_nonneg_right (le_abs_self _) (zpow_pos (by norm_num) _).le
    linarith

theorem toDouble_range {x a b : ℝ} (ha : toDouble a = a) (hb : toDouble b = b) (h1 : a ≤ x) (h2 : x ≤ b) :
    a ≤ toDouble x ∧ toDouble x ≤ b :=
  ⟨ha ▸ toDouble_mono h1, hb ▸ toDouble_mono h2⟩

/-! ## Adding points -/

theorem toDouble_tol : 9e-11 ≤ toDouble 1e-10 ∧ toDouble 1e-10 ≤ 11e-11 := by
  have := abs_le.1 (toDouble_near 1e-10)
  rw [abs_of_pos (by norm_num)] at this
  constructor
  · have := this.1; norm_num at this ⊢; linarith
  · have := this.2; norm_num at this ⊢; linarith

/-- The test for leaves. -/
theorem leaf_yes {res : ℝ} (h1 : 1e-10 ≤ res) (h2 : res ≤ 2 ^ 19) (hd : toDouble res = res) :
    toDouble (res - toDouble 1e-10) < res := by
  obtain ⟨c1, c2⟩ := toDouble_tol
  have hc : toDouble 1e-10 ≤ res := hd ▸ toDouble_mono h1
  have := (abs_le.1 (toDouble_near (res - toDouble 1e-10))).2
  rw [abs_of_nonneg (by linarith)] at this
  have h3 : (res - toDouble 1e-10) / 2 ^ 53 ≤ res / 2 ^ 53 := div_le_div_of_nonneg_right (by linarith) (by norm_num)
  have h4 : res / 2 ^ 53 ≤ 2 ^ 19 / 2 ^ 53 := div_le_div_of_nonneg_right h2 (by norm_num)
  norm_num at h3 h4 this c1 ⊢
  linarith

theorem leaf_no {res size : ℝ} (h1 : 1e-10 ≤ res) (hd : toDouble res = res) (h : 2 * res ≤ size) :
    ¬ toDouble (size - toDouble 1e-10) < res := by
  have hc : toDouble 1e-10 ≤ res := hd ▸ toDouble_mono h1
  have := toDouble_mono (show res ≤ size - toDouble 1e-10 by linarith)
  rw [hd] at this
  exact not_lt.2 this

/-- A place of the tree with coordinates that are `double`s. (Device of the proofs.) -/
def Inner (size : ℝ) (p : Vec3) : Prop :=
  (0 ≤ p.x ∧ p.x ≤ size ∧ toDouble p.x = p.x) ∧ (0 ≤ p.y ∧ p.y ≤ size ∧ toDouble p.y = p.y) ∧
    (0 ≤ p.z ∧ p.z ≤ size ∧ toDouble p.z = p.z)

theorem half_step {size x : ℝ} (hs : toDouble size = size) (h : 0 ≤ x ∧ x ≤ size ∧ toDouble x = x) (b : Bool) (hb : b = decide (x > size / 2)) :
    (if b = true then toDouble (x - size / 2) else x) = x - (if b = true then size / 2 else 0) ∧
    (0 ≤ x - (if b = true then size / 2 else 0) ∧ x - (if b = true then size / 2 else 0) ≤ size / 2 ∧
      toDouble (x - (if b = true then size / 2 else 0)) = x - (if b = true then size / 2 else 0)) := by
  obtain ⟨h1, h2, h3⟩ := h
  subst hb
  by_cases hx : x > size / 2
  · simp only [hx, decide_true, if_true]
    have := toDouble_sub h3 (toDouble_half hs) hx.le (by linarith)
    exact ⟨this, by linarith, by linarith, this⟩
  · simp only [hx, decide_false, Bool.false_eq_true, if_false, sub_zero]
    exact ⟨trivial, h1, not_lt.1 hx, h3⟩

theorem nodeAdd_eq {res : ℝ} (h1 : 1e-10 ≤ res) (h2 : res ≤ 2 ^ 19) (hd : toDouble res = res) : ∀ (k : ℕ) (size : ℝ) (n : ℕ) (t : OctNode) (p : Vec3),
    res * 2 ^ k = size → toDouble size = size → OctNode.WF k size t → Inner size p →
    Rounded.nodeAdd toDouble res n t p = OctNode.add res n t p := by
  intro k
  induction k with
  | zero =>
    intro size n t p hr hs hw hp
    cases n with
    | zero => rfl
    | succ n =>
      cases t with
      | null => rfl
      | node s o ch =>
        obtain ⟨rfl, -⟩ := hw
        have e : s = res := by rw [← hr]; ring
        subst e
        unfold Rounded.nodeAdd OctNode.add
        rw [if_pos (leaf_yes h1 h2 hd), if_pos (by norm_num)]
  | succ k ih =>
    intro size n t p hr hs hw hp
    cases n with
    | zero => rfl
    | succ n =>
      cases t with
      | null => rfl
      | node s o ch =>
        obtain ⟨rfl, -, hch⟩ := hw
        have hpow : (1 : ℝ) ≤ 2 ^ k := one_le_pow₀ (by norm_num)
        have hres : 0 < res := lt_of_lt_of_le (by norm_num) h1
        have h2r : 2 * res ≤ s := by
          rw [← hr, pow_succ]
          nlinarith
        have hhalf : res * 2 ^ k = s / 2 := by rw [← hr, pow_succ]; ring
        unfold Rounded.nodeAdd OctNode.add
        rw [if_neg (leaf_no h1 hd h2r), if_neg (by linarith), toDouble_half hs]
        obtain ⟨px, py, pz⟩ := hp
        obtain ⟨a1, b1⟩ := half_step hs px _ rfl
        obtain ⟨a2, b2⟩ := half_step hs py _ rfl
        obtain ⟨a3, b3⟩ := half_step hs pz _ rfl
        have hq : ∀ q : Vec3, q = ⟨p.x - (if decide (p.x > s / 2) = true then s / 2 else 0), p.y - (if decide (p.y > s / 2) = true then s / 2 else 0),
            p.z - (if decide (p.z > s / 2) = true then s / 2 else 0)⟩ → Inner (s / 2) q := by
          rintro q rfl
          exact ⟨b1, b2, b3⟩
        dsimp only
        rw [a1, a2, a3]
        have e : (⟨p.x - (if decide (p.x > s / 2) = true then s / 2 else 0), p.y - (if decide (p.y > s / 2) = true then s / 2 else 0),
            p.z - (if decide (p.z > s / 2) = true then s / 2 else 0)⟩ : Vec3) =
            p - OctNode.shift s (decide (p.x > s / 2)) (decide (p.y > s / 2)) (decide (p.z > s / 2)) := by
          ext <;> simp [OctNode.shift]
        rw [← e, ih (s / 2) n _ _ hhalf (toDouble_half hs) ?_ (hq _ rfl)]
        cases hc : ch (OctNode.index (decide (p.x > s / 2)) (decide (p.y > s / 2)) (decide (p.z > s / 2))) with
        | null => exact OctNode.WF.new _ _
        | node s' o' ch' =>
          have := hch (OctNode.index (decide (p.x > s / 2)) (decide (p.y > s / 2)) (decide (p.z > s / 2)))
          rw [hc] at this
          exact this

namespace Octree

theorem res_double {size : ℝ} (hs : toDouble size = size) : ∀ k : ℕ, toDouble (size / 2 ^ k) = size / 2 ^ k
  | 0 => by simpa using hs
  | k + 1 => by
    have := toDouble_half (res_double hs k)
    rw [pow_succ, ← div_div]
    exact this

theorem good_res {k : ℕ} {size : ℝ} {t : Octree} (h : Good k size t) (hs : toDouble size = size) : toDouble t.resolution = t.resolution := by
  have e : t.resolution = size / 2 ^ k := by
    rw [← h.res]
    field_simp
  rw [e]
  exact res_double hs k

/-- Adding a point in floating point arithmetic is adding a point nearby. -/
theorem octAdd_eq {k : ℕ} {size : ℝ} {t : Octree} (h : Good k size t) (hs : toDouble size = size) (hr : t.resolution ≤ 2 ^ 19) {p : Vec3}
    (hp : InBox ⟨-size / 2, -size / 2, -size / 2⟩ ⟨size / 2, size / 2, size / 2⟩ p) :
    ∃ p', Rounded.octAdd toDouble t p = t.add p' ∧
      InBox ⟨-size / 2, -size / 2, -size / 2⟩ ⟨size / 2, size / 2, size / 2⟩ p' ∧ Moved (size / 2 ^ 53) p' p := by
  obtain ⟨p1, p2, p3, p4, p5, p6⟩ := hp
  simp only at p1 p2 p3 p4 p5 p6
  have axis : ∀ x : ℝ, -size / 2 ≤ x → x ≤ size / 2 → (0 ≤ toDouble (x - -size / 2) ∧ toDouble (x - -size / 2) ≤ size) ∧
      |-size / 2 + toDouble (x - -size / 2) - x| ≤ size / 2 ^ 53 := by
    intro x x1 x2
    refine ⟨toDouble_range toDouble_zero hs (by linarith) (by linarith), ?_⟩
    have := toDouble_near (x - -size / 2)
    rw [abs_of_nonneg (show (0 : ℝ) ≤ x - -size / 2 by linarith)] at this
    have e : -size / 2 + toDouble (x - -size / 2) - x = toDouble (x - -size / 2) - (x - -size / 2) := by ring
    rw [e]
    exact this.trans (div_le_div_of_nonneg_right (by linarith) (by norm_num))
  have q1 := axis p.x (by linarith) (by linarith)
  have q2 := axis p.y (by linarith) (by linarith)
  have q3 := axis p.z (by linarith) (by linarith)
  refine ⟨⟨-size / 2 + toDouble (p.x - -size / 2), -size / 2 + toDouble (p.y - -size / 2), -size / 2 + toDouble (p.z - -size / 2)⟩, ?_, ?_, q1.2, q2.2, q3.2⟩
  · have hin : Inner size (Rounded.sub toDouble p t.offset) := by
      rw [h.off]
      exact ⟨⟨q1.1.1, q1.1.2, toDouble_idem _⟩, ⟨q2.1.1, q2.1.2, toDouble_idem _⟩, ⟨q3.1.1, q3.1.2, toDouble_idem _⟩⟩
    unfold Rounded.octAdd Octree.add
    have e : (⟨-size / 2 + toDouble (p.x - -size / 2), -size / 2 + toDouble (p.y - -size / 2), -size / 2 + toDouble (p.z - -size / 2)⟩ : Vec3) - t.offset =
        Rounded.sub toDouble p t.offset := by
      rw [h.off]
      ext <;> simp [Rounded.sub]
    rw [e]
    simp only [nodeAdd_eq h.tol hr (good_res h hs) k size _ t.root _ h.res hs h.wf hin]
  · unfold InBox
    simp only
    refine ⟨?_, ?_, ?_, ?_, ?_, ?_⟩ <;> linarith [q1.1.1, q1.1.2, q2.1.1, q2.1.2, q3.1.1, q3.1.2]

theorem halve_eq (limit : ℝ) : ∀ (n : ℕ) {res : ℝ}, toDouble res = res → Rounded.halve toDouble limit n res = halve limit n res
  | 0, _, _ => rfl
  | n + 1, res, h => by
    unfold Rounded.halve halve
    rw [toDouble_half h, halve_eq limit n (toDouble_half h)]

theorem octNew_eq {size : ℝ} (hs : toDouble size = size) (request : ℝ) : Rounded.octNew toDouble size request = Octree.new size request := by
  unfold Rounded.octNew Octree.new setResolution
  have e : toDouble (-size / 2) = -size / 2 := by rw [neg_div]; exact toDouble_minus (toDouble_half hs)
  simp only [halve_eq request _ hs, toDouble_half hs, e, bind, Except.bind, pure, Except.pure]
  cases unbounded fun n => halve request n size <;> rfl

end Octree

/-! ## Listing the cubes -/

theorem forall2_flatMap {α β γ : Type} {R : β → γ → Prop} {f : α → List β} {g : α → List γ} : ∀ {l : List α},
    (∀ o ∈ l, List.Forall₂ R (f o) (g o)) → List.Forall₂ R (l.flatMap f) (l.flatMap g)
  | [], _ => .nil
  | o :: l, h => by
    rw [List.flatMap_cons, List.flatMap_cons]
    exact List.rel_append (h o (by simp)) (forall2_flatMap fun o' ho' => h o' (by simp [ho']))

/-- The error of one addition. -/
theorem add_near {B j o o' d : ℝ} (hB : 0 ≤ B) (hj : j ≤ 2 ^ 52) (h : |o' - o| ≤ j * (2 * B / 2 ^ 53)) (h1 : -B ≤ o + d)
    (h2 : o + d ≤ B) : |toDouble (o' + d) - (o + d)| ≤ (j + 1) * (2 * B / 2 ^ 53) := by
  have hn := toDouble_near (o' + d)
  have hjB : j * (2 * B / 2 ^ 53) ≤ B := by
    have := mul_le_mul_of_nonneg_right hj (show 0 ≤ 2 * B / 2 ^ 53 by positivity)
    norm_num at this ⊢
    linarith
  have ha : |o' + d| ≤ 2 * B := by
    rw [abs_le] at h ⊢
    constructor <;> linarith
  have hn' : |o' + d| / 2 ^ 53 ≤ 2 * B / 2 ^ 53 := div_le_div_of_nonneg_right ha (by norm_num)
  have hn2 := abs_le.1 (hn.trans hn')
  rw [abs_le] at h ⊢
  constructor <;> linarith

theorem octant_bound {B s o : ℝ} (hs : 0 ≤ s) (h1 : -B ≤ o) (h2 : o + s ≤ B) (b : Bool) :
    -B ≤ o + (if b = true then s / 2 else 0) ∧ o + (if b = true then s / 2 else 0) + s / 2 ≤ B ∧ o + (if b = true then s / 2 else 0) ≤ B := by
  cases b <;> simp <;> refine ⟨?_, ?_, ?_⟩ <;> linarith

theorem nodeCubes_near {B : ℝ} (hB : 0 ≤ B) : ∀ (k : ℕ) (s : ℝ) (t : OctNode) (o o' : Vec3) (j : ℕ), OctNode.WF k s t → toDouble s = s → 0 ≤ s →
    (-B ≤ o.x ∧ o.x + s ≤ B) → (-B ≤ o.y ∧ o.y + s ≤ B) → (-B ≤ o.z ∧ o.z + s ≤ B) → Moved (j * (2 * B / 2 ^ 53)) o' o → j + k ≤ 2 ^ 52 →
    List.Forall₂ (MovedBox ((j + k + 1 : ℕ) * (2 * B / 2 ^ 53))) (Rounded.nodeCubes toDouble t o') (t.getCubes o) := by
  intro k
  induction k with
  | zero =>
    intro s t o o' j hw hd hs hx hy hz ho hj
    cases t with
    | null => exact .nil
    | node s' oc ch =>
      obtain ⟨rfl, hch⟩ := hw
      unfold Rounded.nodeCubes OctNode.getCubes
      cases oc with
      | true =>
        simp only [if_true]
        refine .cons ⟨?_, ?_⟩ .nil
        · obtain ⟨a, b, c⟩ := ho
          have : (j : ℝ) * (2 * B / 2 ^ 53) ≤ ((j + 0 + 1 : ℕ) : ℝ) * (2 * B / 2 ^ 53) := by
            refine mul_le_mul_of_nonneg_right ?_ (by positivity)
            push_cast
            linarith
          exact ⟨a.trans this, b.trans this, c.trans this⟩
        · have hj' : (j : ℝ) ≤ 2 ^ 52 := by exact_mod_cast hj
          obtain ⟨a, b, c⟩ := ho
          have e : ((j + 0 + 1 : ℕ) : ℝ) = (j : ℝ) + 1 := by push_cast; ring
          rw [e]
          exact ⟨add_near hB hj' a (by linarith [hx.1]) hx.2, add_near hB hj' b (by linarith [hy.1]) hy.2,
            add_near hB hj' c (by linarith [hz.1]) hz.2⟩
      | false =>
        simp only [Bool.false_eq_true, if_false]
        refine forall2_flatMap fun oc _ => ?_
        rw [hch]
        exact .nil
  | succ k ih =>
    intro s t o o' j hw hd hs hx hy hz ho hj
    cases t with
    | null => exact .nil
    | node s' oc ch =>
      obtain ⟨rfl, rfl, hch⟩ := hw
      unfold Rounded.nodeCubes OctNode.getCubes
      simp only [Bool.false_eq_true, if_false]
      refine forall2_flatMap fun oc _ => ?_
      rw [toDouble_half hd, show j + (k + 1) + 1 = (j + 1) + k + 1 by ring]
      have hj' : (j : ℝ) ≤ 2 ^ 52 := by
        have : j ≤ 2 ^ 52 := by omega
        exact_mod_cast this
      obtain ⟨x1, x2, x3⟩ := octant_bound hs hx.1 hx.2 oc.1
      obtain ⟨y1, y2, y3⟩ := octant_bound hs hy.1 hy.2 oc.2.1
      obtain ⟨z1, z2, z3⟩ := octant_bound hs hz.1 hz.2 oc.2.2
      obtain ⟨a, b, c⟩ := ho
      refine ih (s' / 2) _ _ _ (j + 1) (hch _) (toDouble_half hd) (by linarith) ⟨x1, x2⟩ ⟨y1, y2⟩ ⟨z1, z2⟩ ?_ (by omega)
      have e : ((j + 1 : ℕ) : ℝ) = (j : ℝ) + 1 := by push_cast; ring
      rw [e]
      exact ⟨add_near hB hj' a x1 x3, add_near hB hj' b y1 y3, add_near hB hj' c z1 z3⟩

/-- On a grid of 2^53 cells on each side of 0 the sums are exact. -/
theorem nodeCubes_grid (f : ℤ) : ∀ (k : ℕ) (t : OctNode) (a b c : ℤ), OctNode.WF k (2 ^ k * 2 ^ f) t →
    (-2 ^ 53 ≤ a ∧ a + 2 ^ k ≤ 2 ^ 53) → (-2 ^ 53 ≤ b ∧ b + 2 ^ k ≤ 2 ^ 53) → (-2 ^ 53 ≤ c ∧ c + 2 ^ k ≤ 2 ^ 53) →
    Rounded.nodeCubes toDouble t ⟨a * 2 ^ f, b * 2 ^ f, c * 2 ^ f⟩ = t.getCubes ⟨a * 2 ^ f, b * 2 ^ f, c * 2 ^ f⟩ := by
  have grid : ∀ (a d : ℤ), -2 ^ 53 ≤ a → 0 ≤ d → a + d ≤ 2 ^ 53 → toDouble (a * 2 ^ f + d * 2 ^ f) = a * 2 ^ f + d * 2 ^ f := by
    intro a d h1 h2 h3
    have e : (a : ℝ) * 2 ^ f + d * 2 ^ f = ((a + d : ℤ) : ℝ) * 2 ^ f := by push_cast; ring
    rw [e]
    exact toDouble_grid (abs_le.2 ⟨by linarith, h3⟩)
  intro k
  induction k with
  | zero =>
    intro t a b c hw ha hb hc
    cases t with
    | null => rfl
    | node s' oc ch =>
      obtain ⟨rfl, hch⟩ := hw
      unfold Rounded.nodeCubes OctNode.getCubes
      cases oc with
      | true =>
        simp only [if_true, Rounded.add]
        have g := fun (a : ℤ) (h : -2 ^ 53 ≤ a ∧ a + 2 ^ 0 ≤ 2 ^ 53) => grid a 1 h.1 (by norm_num) (by simpa using h.2)
        have g1 := g a ha
        have g2 := g b hb
        have g3 := g c hc
        push_cast at g1 g2 g3
        rw [pow_zero, g1, g2, g3]
        rfl
      | false =>
        simp only [Bool.false_eq_true, if_false, hch]
        rfl
  | succ k ih =>
    intro t a b c hw ha hb hc
    cases t with
    | null => rfl
    | node s' oc ch =>
      obtain ⟨rfl, rfl, hch⟩ := hw
      have hk : (0 : ℤ) < 2 ^ k := by positivity
      have e2 : (2 : ℤ) ^ (k + 1) = 2 ^ k + 2 ^ k := by rw [pow_succ]; ring
      rw [e2] at ha hb hc
      have hhalf : (2 : ℝ) ^ (k + 1) * 2 ^ f / 2 = ((2 ^ k : ℤ) : ℝ) * 2 ^ f := by push_cast; rw [pow_succ]; ring
      have hd : toDouble (((2 ^ k : ℤ) : ℝ) * 2 ^ f) = ((2 ^ k : ℤ) : ℝ) * 2 ^ f := by
        have := grid 0 (2 ^ k) (by norm_num) hk.le (by linarith)
        simpa using this
      unfold Rounded.nodeCubes OctNode.getCubes
      simp only [Bool.false_eq_true, if_false]
      congr 1
      funext oc
      rw [hhalf, hd]
      obtain ⟨ox, oy, oz⟩ := oc
      have axis : ∀ (a : ℤ) (b : Bool), (-2 ^ 53 ≤ a ∧ a + (2 ^ k + 2 ^ k) ≤ 2 ^ 53) → ∃ a' : ℤ, (-2 ^ 53 ≤ a' ∧ a' + 2 ^ k ≤ 2 ^ 53) ∧
          (a : ℝ) * 2 ^ f + (if b = true then ((2 ^ k : ℤ) : ℝ) * 2 ^ f else 0) = a' * 2 ^ f ∧
          toDouble ((a : ℝ) * 2 ^ f + (if b = true then ((2 ^ k : ℤ) : ℝ) * 2 ^ f else 0)) = a' * 2 ^ f := by
        intro a b h
        cases b
        · refine ⟨a, ⟨h.1, by linarith⟩, by simp, ?_⟩
          have := grid a 0 h.1 le_rfl (by linarith)
          simpa using this
        · refine ⟨a + 2 ^ k, ⟨by linarith, by linarith⟩, by push_cast; simp; ring, ?_⟩
          have := grid a (2 ^ k) h.1 hk.le (by linarith)
          simp only [if_true]
          rw [this]
          push_cast
          ring
      obtain ⟨a', ha', a1, a2⟩ := axis a ox ha
      obtain ⟨b', hb', b1, b2⟩ := axis b oy hb
      obtain ⟨c', hc', c1, c2⟩ := axis c oz hc
      have l : Rounded.add toDouble ⟨(a : ℝ) * 2 ^ f, (b : ℝ) * 2 ^ f, (c : ℝ) * 2 ^ f⟩
          ⟨if ox = true then ((2 ^ k : ℤ) : ℝ) * 2 ^ f else 0, if oy = true then ((2 ^ k : ℤ) : ℝ) * 2 ^ f else 0,
            if oz = true then ((2 ^ k : ℤ) : ℝ) * 2 ^ f else 0⟩ = ⟨a' * 2 ^ f, b' * 2 ^ f, c' * 2 ^ f⟩ := by
        unfold Rounded.add
        simp only [a2, b2, c2]
      have r : (⟨(a : ℝ) * 2 ^ f, (b : ℝ) * 2 ^ f, (c : ℝ) * 2 ^ f⟩ : Vec3) + OctNode.shift (2 ^ (k + 1) * 2 ^ f) ox oy oz =
          ⟨a' * 2 ^ f, b' * 2 ^ f, c' * 2 ^ f⟩ := by
        unfold OctNode.shift
        rw [hhalf]
        ext
        · exact a1
        · exact b1
        · exact c1
      simp only
      rw [l, r]
      refine ih _ a' b' c' ?_ ha' hb' hc'
      have := hch (OctNode.index ox oy oz)
      rwa [hhalf, Int.cast_pow, Int.cast_ofNat] at this

/-! ## Points and cubes -/

theorem kept_live (ops : List (Option Vec3)) (ps : List Vec3) : live (asOps ops) ps = kept ops ps := by
  induction ops generalizing ps with
  | nil => rfl
  | cons o ops ih =>
    cases o with
    | none => exact ih []
    | some p => exact ih (ps ++ [p])

theorem kept_rel {R : Vec3 → Vec3 → Prop} {ops ops' : List (Option Vec3)}
    (h : List.Forall₂ (fun o o' => (o = none ∧ o' = none) ∨ ∃ p p', o = some p ∧ o' = some p' ∧ R p p') ops ops') :
    ∀ {ps ps' : List Vec3}, List.Forall₂ R ps ps' → List.Forall₂ R (kept ops ps) (kept ops' ps') := by
  induction h with
  | nil => exact id
  | cons ho _ ih =>
    intro ps ps' hps
    rcases ho with ⟨rfl, rfl⟩ | ⟨p, p', rfl, rfl, hR⟩
    · exact ih .nil
    · exact ih (List.rel_append hps (.cons hR .nil))

theorem forall2_left {α β : Type} {R : α → β → Prop} {l : List α} {l' : List β} (h : List.Forall₂ R l l') : ∀ a ∈ l, ∃ b ∈ l', R a b := by
  induction h with
  | nil => simp
  | @cons a b _ _ h _ ih =>
    intro x hx
    rcases List.mem_cons.1 hx with rfl | hx
    · exact ⟨b, by simp, h⟩
    · obtain ⟨y, h1, h2⟩ := ih x hx
      exact ⟨y, by simp [h1], h2⟩

theorem forall2_right {α β : Type} {R : α → β → Prop} {l : List α} {l' : List β} (h : List.Forall₂ R l l') : ∀ b ∈ l', ∃ a ∈ l, R a b := by
  induction h with
  | nil => simp
  | @cons a b _ _ h _ ih =>
    intro x hx
    rcases List.mem_cons.1 hx with rfl | hx
    · exact ⟨a, by simp, h⟩
    · obtain ⟨y, h1, h2⟩ := ih x hx
      exact ⟨y, by simp [h1], h2⟩

/-- A point of the tree that falls into a cell is in the cube of the cell. -/
theorem cell_in {r size : ℝ} {n : ℕ} (hn : r * n = size) {c : ℕ × ℕ × ℕ} {p : Vec3}
    (h : InCell r n ⟨-size / 2, -size / 2, -size / 2⟩ c p)
    (hp : InBox ⟨-size / 2, -size / 2, -size / 2⟩ ⟨size / 2, size / 2, size / 2⟩ p) :
    InBox (cellLo r ⟨-size / 2, -size / 2, -size / 2⟩ c) (cellHi r ⟨-size / 2, -size / 2, -size / 2⟩ c) p := by
  have slab : ∀ (j : ℕ) (x : ℝ), InSlab r n j x → 0 ≤ x → x ≤ size → j * r ≤ x ∧ x ≤ (j + 1) * r := by
    rintro j x ⟨s1, s2, s3⟩ hx hx'
    constructor
    · rcases s2 with s2 | s2
      · rw [s2]; simpa using hx
      · exact s2.le
    · rcases s3 with s3 | s3
      · have : ((j:ℝ) + 1) = (n : ℝ) := by exact_mod_cast s3
        rw [this, mul_comm, hn]; exact hx'
      · exact s3
  obtain ⟨i1, i2, i3, i4, i5, i6⟩ := hp
  obtain ⟨s1, s2, s3⟩ := h
  simp only at s1 s2 s3 i1 i2 i3 i4 i5 i6
  have d1 := slab _ _ s1 (by linarith) (by linarith)
  have d2 := slab _ _ s2 (by linarith) (by linarith)
  have d3 := slab _ _ s3 (by linarith) (by linarith)
  simp only [InBox, cellLo, cellHi]
  refine ⟨?_, ?_, ?_, ?_, ?_, ?_⟩ <;> linarith

/-- Boxes and points nearby. -/
theorem wide_of {a b : ℝ} {B B' : Box} {p p' : Vec3} (h1 : MovedBox a B' B) (h2 : Moved b p' p) (h : InBox B.lo B.hi p') :
    InWide (a + b) B' p := by
  obtain ⟨⟨l1, l2, l3⟩, ⟨k1, k2, k3⟩⟩ := h1
  obtain ⟨q1, q2, q3⟩ := h2
  obtain ⟨i1, i2, i3, i4, i5, i6⟩ := h
  rw [abs_le] at l1 l2 l3 k1 k2 k3 q1 q2 q3
  unfold InWide InBox
  simp only
  refine ⟨?_, ?_, ?_, ?_, ?_, ?_⟩ <;> linarith

/-- The tolerance is lost beyond 2^20. -/
theorem leaf_lost : toDouble (2 ^ 21 - toDouble 1e-10) = 2 ^ 21 := by
  obtain ⟨c1, c2⟩ := toDouble_tol
  have := toDouble_eq (x := 2 ^ 21 - toDouble 1e-10) (-32) (m := 2 ^ 53) (by norm_num; norm_num at c2; linarith)
    (by norm_num; norm_num at c1; linarith) (by
      have e : (2 : ℝ) ^ 21 - toDouble 1e-10 - ((2 ^ 53 : ℤ) : ℝ) * 2 ^ (-32 : ℤ) = -toDouble 1e-10 := by
        push_cast
        norm_num
      rw [e, abs_neg, abs_of_nonneg (by norm_num at c1 ⊢; linarith)]
      norm_num at c2 ⊢
      linarith)
  rw [this]
  push_cast
  norm_num

theorem toDouble_pow (n : ℤ) : toDouble (2 ^ n) = 2 ^ n := by
  have := toDouble_grid (m := 1) (k := n) (by norm_num)
  simpa using this

end Geo
