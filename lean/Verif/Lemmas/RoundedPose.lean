import Verif.Lemmas.Rounded
import Verif.Lemmas.Chains

/-! # The inverse of a nearly rigid pose in floating point arithmetic -/

namespace Geo.Rounded
open Spec Matrix

variable {u δ : ℝ} {rnd : ℝ → ℝ}

theorem dist_eq_len (p q : Vec3) : Spec.dist p q = len (V p - V q) := by
  simp [Spec.dist, distSq, len, V, Fin.sum_univ_three]

theorem V_apply (T : Transform3) (p : Vec3) : V (T.apply p) = M T.R *ᵥ V p + V T.t := by
  rw [← Chains.V_mulVec, ← Chains.V_add]; rfl

theorem delta_nonneg {R : Mat3} (h : NearlyOrthogonal δ R) : 0 ≤ δ := (abs_nonneg _).trans (h 0 0)

theorem near_sq {R : Mat3} (h : NearlyOrthogonal δ R) (f : Fin 3 → ℝ) :
    |len (M R *ᵥ f) ^ 2 - len f ^ 2| ≤ 3 * δ * len f ^ 2 := by
  have e : len (M R *ᵥ f) ^ 2 - len f ^ 2 = f ⬝ᵥ (((M R)ᵀ * M R - 1) *ᵥ f) := by
    rw [Chains.len_sq, Chains.len_sq, Matrix.sub_mulVec, Matrix.one_mulVec, dotProduct_sub, ← Matrix.mulVec_mulVec,
      Matrix.mulVec_transpose, dotProduct_comm f ((M R *ᵥ f) ᵥ* M R), ← Matrix.dotProduct_mulVec]
  rw [e]
  have h1 := Chains.dot_len f (((M R)ᵀ * M R - 1) *ᵥ f)
  have h2 := mul_le_mul_of_nonneg_left (defect_len h f) (len_nonneg f)
  nlinarith

/-- A nearly orthogonal matrix hardly lengthens vectors. -/
theorem len_up {R : Mat3} (h : NearlyOrthogonal δ R) (f : Fin 3 → ℝ) : len (M R *ᵥ f) ≤ (1 + 1.5 * δ) * len f := by
  have h0 := delta_nonneg h
  have hf := len_nonneg f
  have h1 := (abs_le.1 (near_sq h f)).2
  refine abs_le_of_sq_le_sq' (a := len (M R *ᵥ f)) ?_ (by positivity) |>.2
  have h2 : 0 ≤ δ ^ 2 * len f ^ 2 := by positivity
  nlinarith

/-- A nearly orthogonal matrix hardly shortens vectors. -/
theorem len_down {R : Mat3} (h : NearlyOrthogonal δ R) (hδ : δ ≤ 1 / 10) (f : Fin 3 → ℝ) :
    len f ≤ (1 + 2 * δ) * len (M R *ᵥ f) := by
  have h0 := delta_nonneg h
  have hf := len_nonneg (M R *ᵥ f)
  have h1 := (abs_le.1 (near_sq h f)).1
  refine abs_le_of_sq_le_sq' (a := len f) ?_ (by positivity) |>.2
  have h2 : (1 - 3 * δ) * len f ^ 2 ≤ len (M R *ᵥ f) ^ 2 := by linarith
  have h3 : (1 + 2 * δ) ^ 2 * ((1 - 3 * δ) * len f ^ 2) ≤ (1 + 2 * δ) ^ 2 * len (M R *ᵥ f) ^ 2 :=
    mul_le_mul_of_nonneg_left h2 (by positivity)
  have h4 : 1 ≤ (1 + 2 * δ) ^ 2 * (1 - 3 * δ) := by
    have : (1 + 2 * δ) ^ 2 * (1 - 3 * δ) - 1 = δ * (1 - 8 * δ - 12 * δ ^ 2) := by ring
    have : 0 ≤ δ * (1 - 8 * δ - 12 * δ ^ 2) := mul_nonneg h0 (by nlinarith)
    linarith
  have h5 := mul_le_mul_of_nonneg_right h4 (sq_nonneg (len f))
  rw [mul_pow]
  linarith

/-- Every point is the image of one point. -/
theorem surjective {T : Transform3} (h : NearlyOrthogonal δ T.R) (hδ : δ ≤ 1 / 10) (p : Vec3) : ∃ q, T.apply q = p := by
  have hd : (M T.R).det ≠ 0 := by
    intro hd
    obtain ⟨v, hv, hz⟩ := Matrix.exists_mulVec_eq_zero_iff.2 hd
    have h1 := len_down h hδ v
    rw [hz] at h1
    have h2 : len (0 : Fin 3 → ℝ) = 0 := by simp [len]
    rw [h2, mul_zero] at h1
    apply hv
    funext i
    have h3 : ∑ i, v i ^ 2 ≤ 0 := by
      have := Real.sqrt_eq_zero'.1 (le_antisymm h1 (len_nonneg v))
      exact this
    have h4 : v i ^ 2 ≤ ∑ i, v i ^ 2 := Finset.single_le_sum (f := fun i => v i ^ 2) (fun j _ => sq_nonneg _) (Finset.mem_univ i)
    have : v i ^ 2 = 0 := le_antisymm (h4.trans h3) (sq_nonneg _)
    simpa using this
  let w := (M T.R)⁻¹ *ᵥ (V p - V T.t)
  refine ⟨⟨w 0, w 1, w 2⟩, ?_⟩
  have e : V (⟨w 0, w 1, w 2⟩ : Vec3) = w := by funext i; fin_cases i <;> rfl
  have e2 : V (T.apply ⟨w 0, w 1, w 2⟩) = V p := by
    rw [V_apply, e, Matrix.mulVec_mulVec, Matrix.mul_nonsing_inv _ (Ne.isUnit hd), Matrix.one_mulVec, sub_add_cancel]
  have x := congrFun e2 0
  have y := congrFun e2 1
  have z := congrFun e2 2
  simp only [V] at x y z
  ext
  · exact x
  · exact y
  · exact z

theorem injective {T : Transform3} (h : NearlyOrthogonal δ T.R) (hδ : δ ≤ 1 / 10) {p q : Vec3} (he : T.apply p = T.apply q) :
    p = q := by
  have h1 : M T.R *ᵥ (V p - V q) = 0 := by
    have := V_apply T p
    rw [he, V_apply] at this
    rw [Matrix.mulVec_sub]
    rw [sub_eq_zero]
    exact (add_right_cancel this).symm
  have h2 := len_down h hδ (V p - V q)
  rw [h1] at h2
  have h3 : len (0 : Fin 3 → ℝ) = 0 := by simp [len]
  rw [h3, mul_zero, ← dist_eq_len] at h2
  have h4 : distSq p q ≤ 0 := by
    have := Real.sqrt_eq_zero'.1 (le_antisymm h2 (Real.sqrt_nonneg _))
    exact this
  unfold distSq at h4
  have x := sq_nonneg (p.x - q.x)
  have y := sq_nonneg (p.y - q.y)
  have z := sq_nonneg (p.z - q.z)
  ext
  · have : (p.x - q.x) ^ 2 = 0 := by linarith
    have := pow_eq_zero_iff (two_ne_zero) |>.1 this
    linarith
  · have : (p.y - q.y) ^ 2 = 0 := by linarith
    have := pow_eq_zero_iff (two_ne_zero) |>.1 this
    linarith
  · have : (p.z - q.z) ^ 2 = 0 := by linarith
    have := pow_eq_zero_iff (two_ne_zero) |>.1 this
    linarith

/-- The computed coordinates of a point in the frame of a part. -/
theorem local_len (h : RelErr u rnd) (hu : u ≤ 1 / 1000) {T : Transform3} (hR : NearlyOrthogonal δ T.R) (hδ : δ ≤ 1 / 10)
    (q : Vec3) :
    len (V (apply rnd (inverse rnd T) (T.apply q)) - V q) ≤
      8 * u * len (V (T.apply q)) + 20.3 * u * len (V T.t) + 3 * δ * len (V q) := by
  have hu0 := relErr_nonneg h
  have hs := hR.small hδ
  have eT : M T.R.transpose = (M T.R)ᵀ := by
    ext i j
    fin_cases i <;> fin_cases j <;> rfl
  have hs' : SmallM (M T.R.transpose) := by rw [eT]; exact hs.transpose
  obtain ⟨a, ha⟩ : ∃ a, a = T.apply q := ⟨_, rfl⟩
  have hVa : V a = M T.R *ᵥ V q + V T.t := by rw [ha, V_apply]
  rw [← ha]
  set t' := mulVec rnd T.R.transpose (-T.t) with ht'
  have h3 := mulVec_len h hu0 hu hs' (-T.t)
  rw [← ht', eT, V_neg, len_neg] at h3
  set e3 := V t' - (M T.R)ᵀ *ᵥ -V T.t with he3
  have h2 := apply_len h hu0 hu (T := inverse rnd T) hs' a
  have e2' : V (inverse rnd T).t = V t' := rfl
  have e2'' : M (inverse rnd T).R = (M T.R)ᵀ := eT
  rw [e2', e2''] at h2
  set b := apply rnd (inverse rnd T) a with hb
  set e2 := V b - ((M T.R)ᵀ *ᵥ V a + V t') with he2
  have hVt : V t' = (M T.R)ᵀ *ᵥ -V T.t + e3 := by rw [he3]; abel
  have hVb : V b - V q = ((M T.R)ᵀ * M T.R - 1) *ᵥ V q + e3 + e2 := by
    have : V b = (M T.R)ᵀ *ᵥ V a + V t' + e2 := by rw [he2]; abel
    rw [this, hVt, hVa, Matrix.mulVec_add, Matrix.mulVec_mulVec, Matrix.mulVec_neg, Matrix.sub_mulVec, Matrix.one_mulVec]
    abel
  have lt : len (V t') ≤ 1.82 * len (V T.t) + len e3 := by
    rw [hVt]
    refine (len_add _ _).trans ?_
    have := hs.transpose.len (-V T.t)
    rw [len_neg] at this
    linarith
  have lb := len_add (((M T.R)ᵀ * M T.R - 1) *ᵥ V q + e3) e2
  have lb' := len_add (((M T.R)ᵀ * M T.R - 1) *ᵥ V q) e3
  have ld := defect_len hR (V q)
  rw [hVb]
  have t0 := len_nonneg (V T.t)
  have uQ := mul_nonneg hu0 t0
  have uuQ : u * (u * len (V T.t)) ≤ 1 / 1000 * (u * len (V T.t)) := mul_le_mul_of_nonneg_right hu uQ
  have h2' : len e2 ≤ 8 * u * (len (V a) + (1.82 * len (V T.t) + 5.6 * u * len (V T.t))) := by
    refine h2.trans (mul_le_mul_of_nonneg_left ?_ (by positivity))
    linarith
  linarith

/-- The point that a part is asked about, seen from outside. -/
theorem local_dist (h : RelErr u rnd) (hu : u ≤ 1 / 1000) {T : Transform3} (hR : NearlyOrthogonal δ T.R) (hδ : δ ≤ 1 / 10)
    (p : Vec3) :
    Spec.dist p (T.apply (apply rnd (inverse rnd T) p)) ≤ (24 * u + 5 * δ) * (len (V p) + len (V T.t)) := by
  have hu0 := relErr_nonneg h
  have h0 := delta_nonneg hR
  obtain ⟨q, rfl⟩ := surjective hR hδ p
  have h1 := local_len h hu hR hδ q
  obtain ⟨a, ha⟩ : ∃ a, a = T.apply q := ⟨_, rfl⟩
  have hVa : V a = M T.R *ᵥ V q + V T.t := by rw [ha, V_apply]
  rw [← ha] at h1 ⊢
  obtain ⟨b, hb⟩ : ∃ b, b = apply rnd (inverse rnd T) a := ⟨_, rfl⟩
  rw [← hb] at h1 ⊢
  have e : V a - V (T.apply b) = -(M T.R *ᵥ (V b - V q)) := by
    rw [hVa, V_apply, Matrix.mulVec_sub]; abel
  rw [dist_eq_len, e, len_neg]
  have l1 := len_up hR (V b - V q)
  have l2 := len_down hR hδ (V q)
  have e3 : M T.R *ᵥ V q = V a - V T.t := by rw [hVa]; abel
  rw [e3] at l2
  have l3 := Chains.len_sub (V a) (V T.t)
  have d0 := len_nonneg (V b - V q)
  have a0 := len_nonneg (V a)
  have t0 := len_nonneg (V T.t)
  have l4 : len (V q) ≤ 1.2 * (len (V a) + len (V T.t)) := by
    refine l2.trans ?_
    have : (1 + 2 * δ) * len (V a - V T.t) ≤ 1.2 * len (V a - V T.t) :=
      mul_le_mul_of_nonneg_right (by linarith) (len_nonneg _)
    linarith
  have l5 : len (M T.R *ᵥ (V b - V q)) ≤ 1.15 * len (V b - V q) :=
    l1.trans (mul_le_mul_of_nonneg_right (by linarith) d0)
  have l6 := mul_le_mul_of_nonneg_left l4 h0
  have u1 := mul_nonneg hu0 a0
  have u2 := mul_nonneg hu0 t0
  have v1 := mul_nonneg h0 a0
  have v2 := mul_nonneg h0 t0
  linarith

end Geo.Rounded
