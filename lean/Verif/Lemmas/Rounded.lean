import Verif.Model.Rounded
import Verif.Spec.Rounded
import Verif.Lemmas.Single
import Verif.Lemmas.Math
import Mathlib.Analysis.InnerProductSpace.PiL2

/-!
# Helper lemmas on poses in floating point arithmetic
-/

namespace Geo

open Spec Matrix

/-- The relative error of the conversion to `double`. -/
theorem toDouble_near (x : ℝ) : |toDouble x - x| ≤ |x| / 2 ^ 53 := by
  unfold toDouble
  split_ifs with h
  · simp [h]
  simp only
  set e := Int.log 2 |x| - 52 with he
  have hx : 0 < |x| := abs_pos.2 h
  have hp : (0 : ℝ) < 2 ^ e := zpow_pos (by norm_num) _
  have hl : (2 : ℝ) ^ (e + 52) ≤ |x| := by
    have := Int.zpow_log_le_self (b := 2) (by norm_num) hx
    rw [he, sub_add_cancel]
    exact_mod_cast this
  have e1 : (nearestEven (x / 2 ^ e) : ℝ) * 2 ^ e - x = (nearestEven (x / 2 ^ e) - x / 2 ^ e) * 2 ^ e := by
    field_simp
  rw [e1, abs_mul, abs_of_pos hp]
  have h1 := mul_le_mul_of_nonneg_right (nearestEven_near (x / 2 ^ e)) hp.le
  rw [zpow_add₀ (by norm_num)] at hl
  rw [le_div_iff₀ (by positivity)]
  have e3 : (2 : ℝ) ^ (52 : ℤ) = 2 ^ 52 := by norm_cast
  rw [e3] at hl
  nlinarith

theorem toDouble_zero : toDouble 0 = 0 := by simp [toDouble]

/-- The rounding in a given binade. -/
theorem toDouble_eq {x : ℝ} (n : ℤ) {m : ℤ} (h1 : 2 ^ (n + 52) ≤ x) (h2 : x < 2 ^ (n + 53))
    (h3 : |x - m * 2 ^ n| < 2 ^ n / 2) : toDouble x = m * 2 ^ n := by
  have hx : 0 < x := lt_of_lt_of_le (zpow_pos (by norm_num) _) h1
  unfold toDouble
  rw [if_neg hx.ne']
  have hl : Int.log 2 |x| = n + 52 := by
    rw [abs_of_pos hx]
    have l1 : n + 52 ≤ Int.log 2 x := by
      rw [← Int.zpow_le_iff_le_log (by norm_num) hx]
      exact_mod_cast h1
    have l2 : Int.log 2 x < n + 53 := by
      rw [← Int.lt_zpow_iff_log_lt (by norm_num) hx]
      exact_mod_cast h2
    omega
  simp only [hl, add_sub_cancel_right]
  have hn : (0 : ℝ) < 2 ^ n := zpow_pos (by norm_num) _
  rw [nearestEven_eq (m := m)]
  have e : x / 2 ^ n - m = (x - m * 2 ^ n) / 2 ^ n := by field_simp
  rw [e, abs_div, abs_of_pos hn, div_lt_iff₀ hn]
  linarith

theorem toDouble_neg_one : toDouble (-1) = -1 := by
  unfold toDouble
  have : Int.log 2 |(-1 : ℝ)| = 0 := by simp
  rw [if_neg (by norm_num)]
  simp only [this]
  rw [nearestEven_eq (m := -2 ^ 52)]
  · norm_num
  · norm_num

namespace Spec

theorem len_eq (f : Fin 3 → ℝ) : len f = ‖(WithLp.toLp 2 f : EuclideanSpace ℝ (Fin 3))‖ := by
  rw [EuclideanSpace.norm_eq]
  simp [len]

theorem len_nonneg (f : Fin 3 → ℝ) : 0 ≤ len f := Real.sqrt_nonneg _

theorem len_add (f g : Fin 3 → ℝ) : len (f + g) ≤ len f + len g := by
  simp only [len_eq, WithLp.toLp_add]
  exact norm_add_le _ _

theorem len_smul (c : ℝ) (f : Fin 3 → ℝ) : len (c • f) = |c| * len f := by
  simp only [len_eq, WithLp.toLp_smul, norm_smul, Real.norm_eq_abs]

theorem len_mono {f g : Fin 3 → ℝ} (h : ∀ i, |f i| ≤ g i) : len f ≤ len g := by
  refine Real.sqrt_le_sqrt (Finset.sum_le_sum fun i _ => ?_)
  rw [← sq_abs]
  exact pow_le_pow_left₀ (abs_nonneg _) (h i) 2

theorem len_abs (f : Fin 3 → ℝ) : len (fun i => |f i|) = len f := by
  simp [len]

/-- Bound by the root of the sum of the squared entries. -/
theorem len_mulVec (A : Matrix (Fin 3) (Fin 3) ℝ) (f : Fin 3 → ℝ) :
    len (A *ᵥ f) ≤ Real.sqrt (∑ i, ∑ j, A i j ^ 2) * len f := by
  unfold len
  rw [← Real.sqrt_mul (show 0 ≤ ∑ i, ∑ j, A i j ^ 2 from
    Finset.sum_nonneg fun i _ => Finset.sum_nonneg fun j _ => sq_nonneg _)]
  refine Real.sqrt_le_sqrt ?_
  rw [Finset.sum_mul]
  refine Finset.sum_le_sum fun i _ => ?_
  simp only [Matrix.mulVec, dotProduct]
  exact Finset.sum_mul_sq_le_sq_mul_sq _ _ _

/-- The matrix of absolute values. (Device of the proofs.) -/
def absM (A : Matrix (Fin 3) (Fin 3) ℝ) : Matrix (Fin 3) (Fin 3) ℝ := fun i j => |A i j|

/-- The entries are together no larger than those of nearly orthogonal matrices. (Device of the proofs.) -/
def SmallM (A : Matrix (Fin 3) (Fin 3) ℝ) : Prop := ∑ i, ∑ j, A i j ^ 2 ≤ 3.3

theorem SmallM.transpose {A : Matrix (Fin 3) (Fin 3) ℝ} (h : SmallM A) : SmallM Aᵀ := by
  unfold SmallM at *
  rw [Finset.sum_comm]
  exact h

theorem SmallM.abs {A : Matrix (Fin 3) (Fin 3) ℝ} (h : SmallM A) : SmallM (absM A) := by
  simpa [SmallM, absM] using h

theorem SmallM.len {A : Matrix (Fin 3) (Fin 3) ℝ} (h : SmallM A) (f : Fin 3 → ℝ) : len (A *ᵥ f) ≤ 1.82 * len f := by
  refine (len_mulVec A f).trans (mul_le_mul_of_nonneg_right ?_ (len_nonneg _))
  rw [Real.sqrt_le_left (by norm_num)]
  exact h.trans (by norm_num)

theorem NearlyOrthogonal.small {δ : ℝ} {R : Mat3} (h : NearlyOrthogonal δ R) (hδ : δ ≤ 1 / 10) : SmallM (M R) := by
  have d : ∀ j, ∑ i, M R i j ^ 2 ≤ 1.1 := by
    intro j
    have := (abs_le.1 (h j j)).2
    rw [Matrix.sub_apply, Matrix.mul_apply, Matrix.one_apply_eq] at this
    simp only [Matrix.transpose_apply, ← pow_two] at this
    linarith
  unfold SmallM
  rw [Finset.sum_comm]
  refine (Finset.sum_le_sum fun j _ => d j).trans ?_
  norm_num

end Spec

namespace Rounded

variable {u : ℝ} {rnd : ℝ → ℝ}

/-- One rounding. -/
theorem step (h : RelErr u rnd) (hu0 : 0 ≤ u) (hu : u ≤ 1 / 1000) {k x y M : ℝ} (hk : k ≤ 20) (hx : |x| ≤ M)
    (hy : |y - x| ≤ k * u * M) : |rnd y - x| ≤ (k + 1.02) * u * M := by
  have h1 := h y
  have h2 : |y| ≤ M + k * u * M := by
    have : |y| ≤ |x| + |y - x| := by
      have := abs_add_le x (y - x)
      rwa [add_sub_cancel] at this
    linarith
  have h3 : |rnd y - x| ≤ |rnd y - y| + |y - x| := abs_sub_le _ _ _
  have hM : 0 ≤ M := (abs_nonneg x).trans hx
  have h4 : u * |y| ≤ u * (M + k * u * M) := mul_le_mul_of_nonneg_left h2 hu0
  have h5 : k * u ≤ 0.02 := by nlinarith
  have h6 : u * (k * u * M) ≤ u * (0.02 * M) :=
    mul_le_mul_of_nonneg_left (mul_le_mul_of_nonneg_right h5 hM) hu0
  nlinarith

theorem dot3_err (h : RelErr u rnd) (hu0 : 0 ≤ u) (hu : u ≤ 1 / 1000) (a b c x y z : ℝ) :
    |dot3 rnd a b c x y z - (a * x + b * y + c * z)| ≤ 3.06 * u * (|a| * |x| + |b| * |y| + |c| * |z|) := by
  have p : ∀ a x : ℝ, |rnd (a * x) - a * x| ≤ 1.02 * u * (|a| * |x|) := by
    intro a x
    have := step h hu0 hu (k := 0) (x := a * x) (y := a * x) (M := |a| * |x|) (by norm_num) (abs_mul a x).le (by simp)
    linarith
  have ha := p a x
  have hb := p b y
  have hc := p c z
  have q1 : |a * x + b * y| ≤ |a| * |x| + |b| * |y| := by
    rw [← abs_mul, ← abs_mul]; exact abs_add_le _ _
  have q2 : |a * x + b * y + c * z| ≤ |a| * |x| + |b| * |y| + |c| * |z| := by
    rw [← abs_mul c z]; exact (abs_add_le _ _).trans (by linarith)
  have s1 := step h hu0 hu (k := 1.02) (x := a * x + b * y) (y := rnd (a * x) + rnd (b * y))
    (M := |a| * |x| + |b| * |y|) (by norm_num) q1 (by
      rw [show rnd (a * x) + rnd (b * y) - (a * x + b * y) = (rnd (a * x) - a * x) + (rnd (b * y) - b * y) by ring]
      refine (abs_add_le _ _).trans ?_
      linarith)
  have hc0 : 0 ≤ |c| * |z| := by positivity
  have hcu : 0 ≤ u * (|c| * |z|) := mul_nonneg hu0 hc0
  have s2 := step h hu0 hu (k := 2.04) (x := a * x + b * y + c * z) (y := rnd (rnd (a * x) + rnd (b * y)) + rnd (c * z))
    (M := |a| * |x| + |b| * |y| + |c| * |z|) (by norm_num) q2 (by
      rw [show rnd (rnd (a * x) + rnd (b * y)) + rnd (c * z) - (a * x + b * y + c * z) =
        (rnd (rnd (a * x) + rnd (b * y)) - (a * x + b * y)) + (rnd (c * z) - c * z) by ring]
      refine (abs_add_le _ _).trans ?_
      linarith)
  unfold dot3
  linarith

theorem sum3 (A : Matrix (Fin 3) (Fin 3) ℝ) (f : Fin 3 → ℝ) (i : Fin 3) :
    (A *ᵥ f) i = A i 0 * f 0 + A i 1 * f 1 + A i 2 * f 2 := by
  simp [Matrix.mulVec, dotProduct, Fin.sum_univ_three]

theorem mulVec_err (h : RelErr u rnd) (hu0 : 0 ≤ u) (hu : u ≤ 1 / 1000) (R : Mat3) (v : Vec3) (i : Fin 3) :
    |(V (mulVec rnd R v) - M R *ᵥ V v) i| ≤ 3.06 * u * (absM (M R) *ᵥ fun i => |V v i|) i := by
  rw [Pi.sub_apply, sum3, sum3]
  fin_cases i <;> exact dot3_err h hu0 hu _ _ _ _ _ _

theorem mulVec_len (h : RelErr u rnd) (hu0 : 0 ≤ u) (hu : u ≤ 1 / 1000) {R : Mat3} (hs : SmallM (M R)) (v : Vec3) :
    len (V (mulVec rnd R v) - M R *ᵥ V v) ≤ 5.6 * u * len (V v) := by
  refine (len_mono (g := (3.06 * u) • (absM (M R) *ᵥ fun i => |V v i|)) fun i => ?_).trans ?_
  · exact mulVec_err h hu0 hu R v i
  · rw [len_smul, abs_of_nonneg (by positivity)]
    have := hs.abs.len fun i => |V v i|
    rw [len_abs] at this
    have h0 := len_nonneg (V v)
    have h1 := mul_le_mul_of_nonneg_left this (show 0 ≤ 3.06 * u by positivity)
    have h2 : 0 ≤ u * len (V v) := mul_nonneg hu0 h0
    linarith

theorem apply_len (h : RelErr u rnd) (hu0 : 0 ≤ u) (hu : u ≤ 1 / 1000) {T : Transform3} (hs : SmallM (M T.R)) (v : Vec3) :
    len (V (apply rnd T v) - (M T.R *ᵥ V v + V T.t)) ≤ 8 * u * (len (V v) + len (V T.t)) := by
  let g : Fin 3 → ℝ := absM (M T.R) *ᵥ fun i => |V v i|
  have hg : ∀ i, |(M T.R *ᵥ V v) i| ≤ g i := by
    intro i
    simp only [g, sum3, absM]
    refine (abs_add_three _ _ _).trans ?_
    simp only [abs_mul]
    rfl
  have hg0 : ∀ i, 0 ≤ g i := fun i => (abs_nonneg _).trans (hg i)
  have key : ∀ i, |(V (apply rnd T v) - (M T.R *ᵥ V v + V T.t)) i| ≤ ((4.08 * u) • (g + fun i => |V T.t i|)) i := by
    intro i
    have e := mulVec_err h hu0 hu T.R v i
    have e0 : V (apply rnd T v) i = rnd (V (mulVec rnd T.R v) i + V T.t i) := by fin_cases i <;> rfl
    have := step h hu0 hu (k := 3.06) (x := (M T.R *ᵥ V v) i + V T.t i) (y := V (mulVec rnd T.R v) i + V T.t i)
      (M := g i + |V T.t i|) (by norm_num) ((abs_add_le _ _).trans (by linarith [hg i])) (by
        rw [add_sub_add_right_eq_sub]
        refine e.trans ?_
        have : 0 ≤ u * |V T.t i| := mul_nonneg hu0 (abs_nonneg _)
        show 3.06 * u * g i ≤ _
        linarith)
    rw [Pi.sub_apply, Pi.add_apply, e0]
    simp only [Pi.smul_apply, Pi.add_apply, smul_eq_mul]
    linarith
  refine (len_mono key).trans ?_
  rw [len_smul, abs_of_nonneg (by positivity)]
  have h1 := len_add g fun i => |V T.t i|
  rw [len_abs] at h1
  have h2 := hs.abs.len fun i => |V v i|
  rw [len_abs] at h2
  have h3 : len (g + fun i => |V T.t i|) ≤ 1.82 * len (V v) + len (V T.t) := by linarith
  have h4 := mul_le_mul_of_nonneg_left h3 (show 0 ≤ 4.08 * u by positivity)
  have h5 := mul_nonneg hu0 (len_nonneg (V v))
  have h6 := mul_nonneg hu0 (len_nonneg (V T.t))
  linarith

theorem V_neg (v : Vec3) : V (-v) = -V v := by
  funext i
  fin_cases i <;> rfl

theorem len_neg (f : Fin 3 → ℝ) : len (-f) = len f := by simp [len]

/-- The defect of a nearly orthogonal matrix. -/
theorem defect_len {δ : ℝ} {R : Mat3} (h : NearlyOrthogonal δ R) (f : Fin 3 → ℝ) :
    len (((M R)ᵀ * M R - 1) *ᵥ f) ≤ 3 * δ * len f := by
  refine (len_mulVec _ f).trans (mul_le_mul_of_nonneg_right ?_ (len_nonneg _))
  have h0 : 0 ≤ δ := (abs_nonneg _).trans (h 0 0)
  rw [Real.sqrt_le_left (by positivity)]
  have : ∀ i j, ((M R)ᵀ * M R - 1) i j ^ 2 ≤ δ ^ 2 := by
    intro i j
    rw [← sq_abs]
    exact pow_le_pow_left₀ (abs_nonneg _) (h i j) 2
  refine (Finset.sum_le_sum fun i _ => Finset.sum_le_sum fun j _ => this i j).trans ?_
  simp only [Finset.sum_const, Finset.card_univ, Fintype.card_fin, nsmul_eq_mul]
  exact le_of_eq (by push_cast; ring)

theorem inverse_len (h : RelErr u rnd) (hu0 : 0 ≤ u) (hu : u ≤ 1 / 1000) {δ : ℝ} {T : Transform3}
    (hR : NearlyOrthogonal δ T.R) (hδ : δ ≤ 1 / 10) (p : Vec3) :
    len (V (apply rnd (inverse rnd T) (apply rnd T p)) - V p) ≤
      43 * u * (len (V p) + len (V T.t)) + 3 * δ * len (V p) := by
  have hs := hR.small hδ
  have eT : M T.R.transpose = (M T.R)ᵀ := by
    ext i j
    fin_cases i <;> fin_cases j <;> rfl
  have hs' : SmallM (M T.R.transpose) := by rw [eT]; exact hs.transpose
  set a := apply rnd T p with ha
  have h1 := apply_len h hu0 hu hs p
  rw [← ha] at h1
  set e1 := V a - (M T.R *ᵥ V p + V T.t) with he1
  set t' := mulVec rnd T.R.transpose (-T.t) with ht'
  have h3 := mulVec_len h hu0 hu hs' (-T.t)
  rw [← ht', eT, V_neg, len_neg] at h3
  set e3 := V t' - (M T.R)ᵀ *ᵥ -V T.t with he3
  have h2 := apply_len h hu0 hu (T := inverse rnd T) hs' a
  have e2' : V (inverse rnd T).t = V t' := rfl
  have e2'' : M (inverse rnd T).R = (M T.R)ᵀ := eT
  rw [e2', e2''] at h2
  set b := apply rnd (inverse rnd T) a with hb
  set e2 := V b - ((M T.R)ᵀ *ᵥ V a + V t') with he2
  have hVa : V a = M T.R *ᵥ V p + V T.t + e1 := by rw [he1]; abel
  have hVt : V t' = (M T.R)ᵀ *ᵥ -V T.t + e3 := by rw [he3]; abel
  have hVb : V b - V p = ((M T.R)ᵀ * M T.R - 1) *ᵥ V p + (M T.R)ᵀ *ᵥ e1 + e3 + e2 := by
    have : V b = (M T.R)ᵀ *ᵥ V a + V t' + e2 := by rw [he2]; abel
    rw [this, hVt, hVa, Matrix.mulVec_add, Matrix.mulVec_add, Matrix.mulVec_mulVec, Matrix.mulVec_neg, Matrix.sub_mulVec,
      Matrix.one_mulVec]
    abel
  have la : len (V a) ≤ 1.82 * len (V p) + len (V T.t) + len e1 := by
    rw [hVa]
    refine (len_add _ _).trans ?_
    have := len_add (M T.R *ᵥ V p) (V T.t)
    have := hs.len (V p)
    linarith
  have lt : len (V t') ≤ 1.82 * len (V T.t) + len e3 := by
    rw [hVt]
    refine (len_add _ _).trans ?_
    have := hs.transpose.len (-V T.t)
    rw [len_neg] at this
    linarith
  have l1 := hs.transpose.len e1
  have lb := len_add (((M T.R)ᵀ * M T.R - 1) *ᵥ V p + (M T.R)ᵀ *ᵥ e1 + e3) e2
  have lb' := len_add (((M T.R)ᵀ * M T.R - 1) *ᵥ V p + (M T.R)ᵀ *ᵥ e1) e3
  have lb'' := len_add (((M T.R)ᵀ * M T.R - 1) *ᵥ V p) ((M T.R)ᵀ *ᵥ e1)
  have ld := defect_len hR (V p)
  rw [hVb]
  have p0 := len_nonneg (V p)
  have t0 := len_nonneg (V T.t)
  have uP := mul_nonneg hu0 p0
  have uQ := mul_nonneg hu0 t0
  have uuP : u * (u * len (V p)) ≤ 1 / 1000 * (u * len (V p)) := mul_le_mul_of_nonneg_right hu uP
  have uuQ : u * (u * len (V T.t)) ≤ 1 / 1000 * (u * len (V T.t)) := mul_le_mul_of_nonneg_right hu uQ
  have h2' : len e2 ≤ 8 * u * (1.82 * len (V p) + len (V T.t) + 8 * u * (len (V p) + len (V T.t)) +
      (1.82 * len (V T.t) + 5.6 * u * len (V T.t))) := by
    refine h2.trans (mul_le_mul_of_nonneg_left ?_ (by positivity))
    linarith
  linarith

theorem mulMat_err (h : RelErr u rnd) (hu0 : 0 ≤ u) (hu : u ≤ 1 / 1000) (A B : Mat3) (i j : Fin 3) :
    |(M (mulMat rnd A B) - M A * M B) i j| ≤ 3.06 * u * (absM (M A) * absM (M B)) i j := by
  rw [Matrix.sub_apply, Matrix.mul_apply, Matrix.mul_apply, Fin.sum_univ_three, Fin.sum_univ_three]
  fin_cases i <;> fin_cases j <;> exact dot3_err h hu0 hu _ _ _ _ _ _

theorem mul_len (h : RelErr u rnd) (hu0 : 0 ≤ u) (hu : u ≤ 1 / 1000) {T S : Transform3}
    (hT : SmallM (M T.R)) (hS : SmallM (M S.R)) (f : Fin 3 → ℝ) :
    len ((M (mul rnd T S).R *ᵥ f + V (mul rnd T S).t) - (M T.R *ᵥ (M S.R *ᵥ f + V S.t) + V T.t)) ≤
      11 * u * len f + 8 * u * (len (V S.t) + len (V T.t)) := by
  have h1 := apply_len h hu0 hu hT S.t
  have e : (M (mul rnd T S).R *ᵥ f + V (mul rnd T S).t) - (M T.R *ᵥ (M S.R *ᵥ f + V S.t) + V T.t) =
      (M (mulMat rnd T.R S.R) - M T.R * M S.R) *ᵥ f + (V (apply rnd T S.t) - (M T.R *ᵥ V S.t + V T.t)) := by
    rw [Matrix.mulVec_add, Matrix.mulVec_mulVec, Matrix.sub_mulVec]
    show (M (mulMat rnd T.R S.R) *ᵥ f + V (apply rnd T S.t)) - _ = _
    abel
  rw [e]
  refine (len_add _ _).trans (add_le_add ?_ h1)
  have key : ∀ i, |((M (mulMat rnd T.R S.R) - M T.R * M S.R) *ᵥ f) i| ≤
      ((3.06 * u) • (absM (M T.R) *ᵥ (absM (M S.R) *ᵥ fun i => |f i|))) i := by
    intro i
    rw [Matrix.mulVec_mulVec, Pi.smul_apply, smul_eq_mul, sum3, sum3]
    have := fun j => mul_le_mul_of_nonneg_right (mulMat_err h hu0 hu T.R S.R i j) (abs_nonneg (f j))
    have t0 := this 0
    have t1 := this 1
    have t2 := this 2
    refine (abs_add_three _ _ _).trans ?_
    rw [abs_mul, abs_mul, abs_mul]
    linarith
  refine (len_mono key).trans ?_
  rw [len_smul, abs_of_nonneg (by positivity)]
  have h2 := hS.abs.len fun i => |f i|
  rw [len_abs] at h2
  have h3 := hT.abs.len (absM (M S.R) *ᵥ fun i => |f i|)
  have h4 := mul_le_mul_of_nonneg_left (h3.trans (mul_le_mul_of_nonneg_left h2 (by norm_num)))
    (show 0 ≤ 3.06 * u by positivity)
  have := mul_nonneg hu0 (len_nonneg f)
  linarith

/-- `step` for a product with an exact factor. -/
theorem step_mul (h : RelErr u rnd) (hu0 : 0 ≤ u) (hu : u ≤ 1 / 1000) {k a x y : ℝ} (hk : k ≤ 20)
    (hy : |y - x| ≤ k * u * |x|) : |rnd (a * y) - a * x| ≤ (k + 1.02) * u * |a * x| := by
  refine step h hu0 hu hk le_rfl ?_
  rw [← mul_sub, abs_mul, abs_mul]
  have := mul_le_mul_of_nonneg_left hy (abs_nonneg a)
  linarith

theorem setRotation_err (h : RelErr u rnd) (hu0 : 0 ≤ u) (hu : u ≤ 1 / 1000) {q : Quat} (hq : 0 < q.length2) (i j : Fin 3) :
    |M (setRotation rnd q) i j - M (Mat3.setRotation q) i j| ≤ 19 * u := by
  obtain ⟨d, hd⟩ : ∃ d, d = q.x * q.x + q.y * q.y + q.z * q.z + q.w * q.w := ⟨_, rfl⟩
  have hdp : 0 < d := by rw [hd]; exact hq
  have X := mul_self_nonneg q.x
  have Y := mul_self_nonneg q.y
  have Z := mul_self_nonneg q.z
  have W := mul_self_nonneg q.w
  have sq : ∀ a : ℝ, |rnd (a * a) - a * a| ≤ 1.02 * u * (a * a) := by
    intro a
    have := step h hu0 hu (k := 0) (x := a * a) (y := a * a) (M := a * a) (by norm_num)
      (abs_of_nonneg (mul_self_nonneg a)).le (by simp)
    linarith
  have sx := sq q.x
  have sy := sq q.y
  have sz := sq q.z
  have sw := sq q.w
  have add : ∀ {k a a' b b' : ℝ}, 1.02 ≤ k → k ≤ 20 → 0 ≤ a → 0 ≤ b → |a' - a| ≤ k * u * a → |b' - b| ≤ 1.02 * u * b →
      |rnd (a' + b') - (a + b)| ≤ (k + 1.02) * u * (a + b) := by
    intro k a a' b b' hk hk' ha hb h1 h2
    refine step h hu0 hu hk' (abs_of_nonneg (add_nonneg ha hb)).le ?_
    rw [show a' + b' - (a + b) = (a' - a) + (b' - b) by ring]
    refine (abs_add_le _ _).trans ?_
    have := mul_nonneg (mul_nonneg (sub_nonneg.2 hk) hu0) hb
    linarith
  have d1 := add (k := 1.02) (by norm_num) (by norm_num) X Y sx sy
  have d2 := add (k := 1.02 + 1.02) (by norm_num) (by norm_num) (add_nonneg X Y) Z d1 sz
  have d3 := add (k := 1.02 + 1.02 + 1.02) (by norm_num) (by norm_num) (add_nonneg (add_nonneg X Y) Z) W d2 sw
  rw [← hd] at d3
  obtain ⟨D, hD⟩ : ∃ D, D = rnd (rnd (rnd (rnd (q.x * q.x) + rnd (q.y * q.y)) + rnd (q.z * q.z)) + rnd (q.w * q.w)) := ⟨_, rfl⟩
  rw [← hD] at d3
  have hDl : 0.99 * d ≤ D := by
    have := (abs_le.1 d3).1
    have : u * d ≤ 1 / 1000 * d := mul_le_mul_of_nonneg_right hu hdp.le
    linarith
  have hDp : 0 < D := by linarith
  have s0 : |2 / D - 2 / d| ≤ 4.13 * u * |2 / d| := by
    have e : 2 / D - 2 / d = (d - D) / D * (2 / d) := by field_simp
    rw [e, abs_mul]
    refine mul_le_mul_of_nonneg_right ?_ (abs_nonneg _)
    rw [abs_div, abs_of_pos hDp, div_le_iff₀ hDp, abs_sub_comm]
    have := mul_le_mul_of_nonneg_left hDl hu0
    have := mul_nonneg hu0 hdp.le
    linarith
  have s1 := step h hu0 hu (by norm_num) le_rfl s0
  obtain ⟨s, hs⟩ : ∃ s, s = rnd (2 / D) := ⟨_, rfl⟩
  rw [← hs] at s1
  have p : ∀ a b : ℝ, |rnd (a * rnd (b * s)) - a * (b * (2 / d))| ≤ 7.2 * u * |a * (b * (2 / d))| := by
    intro a b
    have := step_mul h hu0 hu (a := a) (by norm_num) (step_mul h hu0 hu (a := b) (by norm_num) s1)
    have n := mul_nonneg hu0 (abs_nonneg (a * (b * (2 / d))))
    linarith
  have hab : ∀ a b : ℝ, |a * (b * (2 / d))| = |a| * |b| * 2 / d := by
    intro a b
    rw [abs_mul, abs_mul, abs_of_pos (show 0 < 2 / d by positivity)]
    ring
  -- differences and sums of products of different components
  have off : ∀ a b c e : ℝ, a * a + b * b + c * c + e * e = d →
      |rnd (rnd (a * rnd (b * s)) - rnd (c * rnd (e * s))) - (a * (b * (2 / d)) - c * (e * (2 / d)))| ≤ 19 * u ∧
      |rnd (rnd (a * rnd (b * s)) + rnd (c * rnd (e * s))) - (a * (b * (2 / d)) + c * (e * (2 / d)))| ≤ 19 * u := by
    intro a b c e hsum
    have h1 := p a b
    have h2 := p c e
    have m : |a * (b * (2 / d))| + |c * (e * (2 / d))| ≤ 1 := by
      rw [hab, hab, ← add_div, div_le_one hdp, ← hsum]
      have := sq_nonneg (|a| - |b|)
      have := sq_nonneg (|c| - |e|)
      have := abs_mul_abs_self a
      have := abs_mul_abs_self b
      have := abs_mul_abs_self c
      have := abs_mul_abs_self e
      nlinarith
    have n := mul_le_mul_of_nonneg_left m hu0
    constructor
    · have := step h hu0 hu (k := 7.2) (x := a * (b * (2 / d)) - c * (e * (2 / d)))
        (y := rnd (a * rnd (b * s)) - rnd (c * rnd (e * s))) (M := 1) (by norm_num) ((abs_sub _ _).trans m) (by
          rw [sub_sub_sub_comm]
          refine (abs_sub _ _).trans ?_
          linarith)
      linarith
    · have := step h hu0 hu (k := 7.2) (x := a * (b * (2 / d)) + c * (e * (2 / d)))
        (y := rnd (a * rnd (b * s)) + rnd (c * rnd (e * s))) (M := 1) (by norm_num) ((abs_add_le _ _).trans m) (by
          rw [add_sub_add_comm]
          refine (abs_add_le _ _).trans ?_
          linarith)
      linarith
  have diag : ∀ a b c e : ℝ, a * a + b * b + c * c + e * e = d →
      |rnd (1 - rnd (rnd (a * rnd (a * s)) + rnd (b * rnd (b * s)))) - (1 - (a * (a * (2 / d)) + b * (b * (2 / d))))| ≤
        19 * u := by
    intro a b c e hsum
    have h1 := p a a
    have h2 := p b b
    have A : 0 ≤ a * (a * (2 / d)) := by rw [← mul_assoc]; exact mul_nonneg (mul_self_nonneg a) (by positivity)
    have B : 0 ≤ b * (b * (2 / d)) := by rw [← mul_assoc]; exact mul_nonneg (mul_self_nonneg b) (by positivity)
    have m : a * (a * (2 / d)) + b * (b * (2 / d)) ≤ 2 := by
      rw [show a * (a * (2 / d)) + b * (b * (2 / d)) = 2 * (a * a + b * b) / d by ring, div_le_iff₀ hdp]
      linarith [mul_self_nonneg c, mul_self_nonneg e]
    rw [abs_of_nonneg A] at h1
    rw [abs_of_nonneg B] at h2
    have n := mul_le_mul_of_nonneg_left m hu0
    have t1 := step h hu0 hu (k := 7.2) (x := a * (a * (2 / d)) + b * (b * (2 / d)))
      (y := rnd (a * rnd (a * s)) + rnd (b * rnd (b * s))) (M := 2) (by norm_num) (by rw [abs_of_nonneg (add_nonneg A B)]; exact m)
      (by
        rw [add_sub_add_comm]
        refine (abs_add_le _ _).trans ?_
        linarith)
    have t2 := step h hu0 hu (k := 16.44) (x := 1 - (a * (a * (2 / d)) + b * (b * (2 / d))))
      (y := 1 - rnd (rnd (a * rnd (a * s)) + rnd (b * rnd (b * s)))) (M := 1) (by norm_num)
      (by rw [abs_le]; constructor <;> linarith) (by
        rw [sub_sub_sub_cancel_left, abs_sub_comm]
        linarith)
    linarith
  have e1 : setRotation rnd q = _ := rfl
  have ed : q.length2 = d := by rw [hd]; rfl
  simp only [setRotation, Mat3.setRotation, ed, ← hD, ← hs, M]
  fin_cases i <;> fin_cases j
  · exact diag _ _ q.x q.w (by rw [hd]; ring)
  · exact (off _ _ _ _ (by rw [hd]; ring)).1
  · exact (off _ _ _ _ (by rw [hd]; ring)).2
  · exact (off _ _ _ _ (by rw [hd]; ring)).2
  · exact diag _ _ q.y q.w (by rw [hd]; ring)
  · exact (off _ _ _ _ (by rw [hd]; ring)).1
  · exact (off _ _ _ _ (by rw [hd]; ring)).1
  · exact (off _ _ _ _ (by rw [hd]; ring)).2
  · exact diag _ _ q.z q.w (by rw [hd])

theorem setRotation_orth (h : RelErr u rnd) (hu0 : 0 ≤ u) (hu : u ≤ 1 / 1000) {q : Quat} (hq : q ≠ ⟨0, 0, 0, 0⟩) :
    NearlyOrthogonal (68 * u) (setRotation rnd q) := by
  obtain ⟨h0, -⟩ := setRotation_rotation hq
  have he := setRotation_err h hu0 hu (length2_pos hq)
  obtain ⟨A, hA⟩ : ∃ A, A = M (Mat3.setRotation q) := ⟨_, rfl⟩
  obtain ⟨E, hE⟩ : ∃ E, E = M (setRotation rnd q) - A := ⟨_, rfl⟩
  have hEb : ∀ i j, |E i j| ≤ 19 * u := by
    intro i j
    rw [hE, hA]
    exact he i j
  rw [← hA] at h0
  have col : ∀ i, |A 0 i| + |A 1 i| + |A 2 i| ≤ 1.7321 := by
    intro i
    have := congrFun (congrFun h0 i) i
    rw [Matrix.mul_apply, Matrix.one_apply_eq, Fin.sum_univ_three] at this
    simp only [Matrix.transpose_apply] at this
    have a0 := abs_mul_abs_self (A 0 i)
    have a1 := abs_mul_abs_self (A 1 i)
    have a2 := abs_mul_abs_self (A 2 i)
    rw [← a0, ← a1, ← a2] at this
    refine abs_le_of_sq_le_sq' (b := 1.7321) ?_ (by norm_num) |>.2
    have := sq_nonneg (|A 0 i| - |A 1 i|)
    have := sq_nonneg (|A 0 i| - |A 2 i|)
    have := sq_nonneg (|A 1 i| - |A 2 i|)
    nlinarith
  have ae : ∀ i j, |(Aᵀ * E) i j| ≤ 32.91 * u := by
    intro i j
    rw [Matrix.mul_apply, Fin.sum_univ_three]
    simp only [Matrix.transpose_apply]
    refine (abs_add_three _ _ _).trans ?_
    rw [abs_mul, abs_mul, abs_mul]
    have b0 := mul_le_mul_of_nonneg_left (hEb 0 j) (abs_nonneg (A 0 i))
    have b1 := mul_le_mul_of_nonneg_left (hEb 1 j) (abs_nonneg (A 1 i))
    have b2 := mul_le_mul_of_nonneg_left (hEb 2 j) (abs_nonneg (A 2 i))
    have := mul_le_mul_of_nonneg_right (col i) (show 0 ≤ 19 * u by positivity)
    linarith
  have ee : ∀ i j, |(Eᵀ * E) i j| ≤ 1.09 * u := by
    intro i j
    rw [Matrix.mul_apply, Fin.sum_univ_three]
    simp only [Matrix.transpose_apply]
    refine (abs_add_three _ _ _).trans ?_
    rw [abs_mul, abs_mul, abs_mul]
    have b : ∀ k, |E k i| * |E k j| ≤ (19 * u) * (19 * u) := fun k =>
      mul_le_mul (hEb k i) (hEb k j) (abs_nonneg _) (by positivity)
    have := b 0
    have := b 1
    have := b 2
    have := mul_le_mul_of_nonneg_left hu hu0
    linarith
  intro i j
  have e : M (setRotation rnd q) = A + E := by rw [hE]; abel
  have ex : (A + E)ᵀ * (A + E) - 1 = Aᵀ * E + (Aᵀ * E)ᵀ + Eᵀ * E := by
    rw [Matrix.transpose_add, Matrix.add_mul, Matrix.mul_add, Matrix.mul_add, h0, Matrix.transpose_mul, Matrix.transpose_transpose]
    abel
  rw [e, ex, Matrix.add_apply, Matrix.add_apply, Matrix.transpose_apply]
  refine (abs_add_three _ _ _).trans ?_
  linarith [ae i j, ae j i, ee i j]

theorem _root_.Geo.Spec.NearlyOrthogonal.col {δ : ℝ} {R : Mat3} (h : NearlyOrthogonal δ R) (hδ : δ ≤ 1 / 10) (j : Fin 3) :
    |M R 0 j| ^ 2 + |M R 1 j| ^ 2 + |M R 2 j| ^ 2 ≤ 1.1 := by
  have := (abs_le.1 (h j j)).2
  rw [Matrix.sub_apply, Matrix.mul_apply, Matrix.one_apply_eq, Fin.sum_univ_three] at this
  simp only [Matrix.transpose_apply, ← pow_two, ← sq_abs (M R _ j)] at this
  linarith

/-- Composition keeps the matrix nearly orthogonal. -/
theorem mulMat_orth (h : RelErr u rnd) (hu0 : 0 ≤ u) (hu : u ≤ 1 / 1000) {a b : ℝ} {A B : Mat3}
    (hA : NearlyOrthogonal a A) (ha : a ≤ 1 / 10) (hB : NearlyOrthogonal b B) (hb : b ≤ 1 / 10) :
    NearlyOrthogonal (3.3 * a + b + 23 * u) (mulMat rnd A B) := by
  have ha0 : 0 ≤ a := (abs_nonneg _).trans (hA 0 0)
  obtain ⟨G, hG⟩ : ∃ G, G = absM (M A) * absM (M B) := ⟨_, rfl⟩
  obtain ⟨D, hD⟩ : ∃ D, D = (M A)ᵀ * M A - 1 := ⟨_, rfl⟩
  obtain ⟨E, hE⟩ : ∃ E, E = M (mulMat rnd A B) - M A * M B := ⟨_, rfl⟩
  have hE' : ∀ i j, |E i j| ≤ 3.06 * u * G i j := by
    intro i j
    rw [hE, hG]
    exact mulMat_err h hu0 hu A B i j
  have hD' : ∀ i j, |D i j| ≤ a := by
    intro i j
    rw [hD]
    exact hA i j
  have hG0 : ∀ i j, 0 ≤ G i j := by
    intro i j
    rw [hG, Matrix.mul_apply]
    exact Finset.sum_nonneg fun k _ => mul_nonneg (abs_nonneg _) (abs_nonneg _)
  have hP : ∀ i j, |(M A * M B) i j| ≤ G i j := by
    intro i j
    rw [hG, Matrix.mul_apply, Matrix.mul_apply, Fin.sum_univ_three, Fin.sum_univ_three]
    refine (abs_add_three _ _ _).trans ?_
    rw [abs_mul, abs_mul, abs_mul]
    rfl
  have hc : ∀ j, G 0 j ^ 2 + G 1 j ^ 2 + G 2 j ^ 2 ≤ 3.65 := by
    intro j
    have h1 := (hA.small ha).abs.len fun k => |M B k j|
    have e : (absM (M A) *ᵥ fun k => |M B k j|) = fun k => G k j := by
      funext k
      rw [hG]
      rfl
    rw [e] at h1
    have h2 := pow_le_pow_left₀ (len_nonneg _) h1 2
    rw [mul_pow, len, len, Real.sq_sqrt (Finset.sum_nonneg fun _ _ => sq_nonneg _),
      Real.sq_sqrt (Finset.sum_nonneg fun _ _ => sq_nonneg _), Fin.sum_univ_three, Fin.sum_univ_three] at h2
    have := hB.col hb j
    linarith
  have hGG : ∀ i j, G 0 i * G 0 j + G 1 i * G 1 j + G 2 i * G 2 j ≤ 3.65 := by
    intro i j
    have := hc i
    have := hc j
    have := sq_nonneg (G 0 i - G 0 j)
    have := sq_nonneg (G 1 i - G 1 j)
    have := sq_nonneg (G 2 i - G 2 j)
    linarith
  have pe : ∀ i j, |((M A * M B)ᵀ * E) i j| ≤ 11.169 * u := by
    intro i j
    rw [Matrix.mul_apply, Fin.sum_univ_three]
    simp only [Matrix.transpose_apply]
    refine (abs_add_three _ _ _).trans ?_
    rw [abs_mul, abs_mul, abs_mul]
    have b : ∀ k, |(M A * M B) k i| * |E k j| ≤ G k i * (3.06 * u * G k j) := fun k =>
      mul_le_mul (hP k i) (hE' k j) (abs_nonneg _) (hG0 _ _)
    have := b 0
    have := b 1
    have := b 2
    have := mul_le_mul_of_nonneg_left (hGG i j) hu0
    linarith
  have ee : ∀ i j, |(Eᵀ * E) i j| ≤ 0.1 * u := by
    intro i j
    rw [Matrix.mul_apply, Fin.sum_univ_three]
    simp only [Matrix.transpose_apply]
    refine (abs_add_three _ _ _).trans ?_
    rw [abs_mul, abs_mul, abs_mul]
    have b : ∀ k, |E k i| * |E k j| ≤ (3.06 * u * G k i) * (3.06 * u * G k j) := fun k =>
      mul_le_mul (hE' k i) (hE' k j) (abs_nonneg _) (mul_nonneg (by positivity) (hG0 _ _))
    have := b 0
    have := b 1
    have := b 2
    have t := mul_le_mul_of_nonneg_left (hGG i j) (mul_nonneg hu0 hu0)
    have := mul_le_mul_of_nonneg_left hu hu0
    linarith
  have bc : ∀ i, |M B 0 i| + |M B 1 i| + |M B 2 i| ≤ Real.sqrt 3.3 := by
    intro i
    refine Real.le_sqrt_of_sq_le ?_
    have := hB.col hb i
    have := sq_nonneg (|M B 0 i| - |M B 1 i|)
    have := sq_nonneg (|M B 0 i| - |M B 2 i|)
    have := sq_nonneg (|M B 1 i| - |M B 2 i|)
    linarith
  have db : ∀ k j, |(D * M B) k j| ≤ a * Real.sqrt 3.3 := by
    intro k j
    rw [Matrix.mul_apply, Fin.sum_univ_three]
    refine (abs_add_three _ _ _).trans ?_
    rw [abs_mul, abs_mul, abs_mul]
    have b := fun l => mul_le_mul_of_nonneg_right (hD' k l) (abs_nonneg (M B l j))
    have := b 0
    have := b 1
    have := b 2
    have := mul_le_mul_of_nonneg_left (bc j) ha0
    linarith
  have bdb : ∀ i j, |((M B)ᵀ * (D * M B)) i j| ≤ 3.3 * a := by
    intro i j
    rw [Matrix.mul_apply, Fin.sum_univ_three]
    simp only [Matrix.transpose_apply]
    refine (abs_add_three _ _ _).trans ?_
    rw [abs_mul, abs_mul, abs_mul]
    have b := fun k => mul_le_mul_of_nonneg_left (db k j) (abs_nonneg (M B k i))
    have := b 0
    have := b 1
    have := b 2
    have t := mul_le_mul_of_nonneg_right (bc i) (mul_nonneg ha0 (Real.sqrt_nonneg 3.3))
    have : Real.sqrt 3.3 * (a * Real.sqrt 3.3) = 3.3 * a := by
      rw [mul_left_comm, Real.mul_self_sqrt (by norm_num)]
      ring
    linarith
  intro i j
  have e : M (mulMat rnd A B) = M A * M B + E := by rw [hE]; abel
  have ex : (M A * M B + E)ᵀ * (M A * M B + E) - 1 =
      ((M B)ᵀ * (D * M B) + ((M B)ᵀ * M B - 1)) + ((M A * M B)ᵀ * E + ((M A * M B)ᵀ * E)ᵀ) + Eᵀ * E := by
    have e1 : (M B)ᵀ * (D * M B) = (M A * M B)ᵀ * (M A * M B) - (M B)ᵀ * M B := by
      rw [hD, Matrix.sub_mul, Matrix.mul_sub, Matrix.one_mul, Matrix.transpose_mul]
      simp only [Matrix.mul_assoc]
    rw [e1, Matrix.transpose_add, Matrix.add_mul, Matrix.mul_add, Matrix.mul_add, Matrix.transpose_mul (M A * M B)ᵀ,
      Matrix.transpose_transpose]
    abel
  rw [e, ex, Matrix.add_apply, Matrix.add_apply, Matrix.add_apply, Matrix.add_apply, Matrix.transpose_apply]
  refine (abs_add_three _ _ _).trans ?_
  have t1 := abs_add_le (((M B)ᵀ * (D * M B)) i j) (((M B)ᵀ * M B - 1) i j)
  have t2 := abs_add_le (((M A * M B)ᵀ * E) i j) (((M A * M B)ᵀ * E) j i)
  linarith [pe i j, pe j i, ee i j, bdb i j, hB i j]

theorem relErr_nonneg {u : ℝ} {rnd : ℝ → ℝ} (h : RelErr u rnd) : 0 ≤ u := by
  have := (abs_nonneg _).trans (h 1)
  simpa using this

end Rounded

end Geo
