import Verif.Spec.Chains
import Verif.Lemmas.Rounded

/-!
# Helper lemmas on chains of poses
-/

namespace Geo

open Spec Matrix

namespace Chains

variable {u e : ℝ} {rnd : ℝ → ℝ}

theorem len_sub (f g : Fin 3 → ℝ) : len (f - g) ≤ len f + len g := by
  have := len_add f (-g)
  rw [Rounded.len_neg] at this
  rwa [sub_eq_add_neg]

theorem dot_len (f g : Fin 3 → ℝ) : |f ⬝ᵥ g| ≤ len f * len g := by
  have h := abs_real_inner_le_norm (WithLp.toLp 2 f : EuclideanSpace ℝ (Fin 3)) (WithLp.toLp 2 g)
  rw [← len_eq, ← len_eq] at h
  have e : f ⬝ᵥ g = inner ℝ (WithLp.toLp 2 f : EuclideanSpace ℝ (Fin 3)) (WithLp.toLp 2 g) := by
    simp only [dotProduct, PiLp.inner_apply, RCLike.inner_apply, conj_trivial, mul_comm]
  rwa [e]

theorem len_sq (f : Fin 3 → ℝ) : len f ^ 2 = f ⬝ᵥ f := by
  rw [len, Real.sq_sqrt (Finset.sum_nonneg fun i _ => sq_nonneg _)]
  simp only [dotProduct, pow_two]

theorem orth_len {R : Mat3} (h : Orthogonal R) (f : Fin 3 → ℝ) : len (M R *ᵥ f) = len f := by
  have h1 : len (M R *ᵥ f) ^ 2 = len f ^ 2 := by
    rw [len_sq, len_sq, Matrix.dotProduct_mulVec, ← Matrix.mulVec_transpose, Matrix.mulVec_mulVec, h, Matrix.one_mulVec]
  exact (pow_left_inj₀ (len_nonneg _) (len_nonneg _) two_ne_zero).1 h1

theorem len_single (j : Fin 3) : len (Pi.single j 1) = 1 := by
  unfold len
  rw [Fin.sum_univ_three]
  fin_cases j <;> simp

theorem near_len {A B : Mat3} (h : NearMat e A B) (hB : Orthogonal B) (f : Fin 3 → ℝ) :
    len (M A *ᵥ f) ≤ (1 + e) * len f := by
  have := len_add (M A *ᵥ f - M B *ᵥ f) (M B *ᵥ f)
  rw [sub_add_cancel, orth_len hB] at this
  linarith [h f]

theorem near_small {A B : Mat3} (h : NearMat e A B) (hB : Orthogonal B) (h0 : 0 ≤ e) (he : e ≤ 1 / 30) : SmallM (M A) := by
  have c : ∀ j, ∑ i, M A i j ^ 2 ≤ 1.1 := by
    intro j
    have h1 := near_len h hB (Pi.single j 1)
    rw [len_single, mul_one] at h1
    have h2 := pow_le_pow_left₀ (len_nonneg _) h1 2
    rw [len, Real.sq_sqrt (Finset.sum_nonneg fun i _ => sq_nonneg _)] at h2
    simp only [Matrix.mulVec_single_one, Matrix.col_apply] at h2
    refine h2.trans ?_
    nlinarith
  unfold SmallM
  rw [Finset.sum_comm, Fin.sum_univ_three]
  linarith [c 0, c 1, c 2]

theorem near_orthogonal {A B : Mat3} (h : NearMat e A B) (hB : Orthogonal B) (h0 : 0 ≤ e) (he : e ≤ 1 / 30) :
    NearlyOrthogonal (2.1 * e) A := by
  intro i j
  let a := M A *ᵥ Pi.single i 1
  let a' := M A *ᵥ Pi.single j 1
  let b := M B *ᵥ Pi.single i 1
  let b' := M B *ᵥ Pi.single j 1
  have hA : ((M A)ᵀ * M A) i j = a ⬝ᵥ a' := by
    simp only [a, a', Matrix.mulVec_single_one, Matrix.mul_apply, dotProduct, Matrix.col_apply, Matrix.transpose_apply]
  have hb : (1 : Matrix (Fin 3) (Fin 3) ℝ) i j = b ⬝ᵥ b' := by
    have : ((M B)ᵀ * M B) i j = b ⬝ᵥ b' := by
      simp only [b, b', Matrix.mulVec_single_one, Matrix.mul_apply, dotProduct, Matrix.col_apply, Matrix.transpose_apply]
    rw [← this, hB]
  have ex : ((M A)ᵀ * M A - 1) i j = (a - b) ⬝ᵥ a' + b ⬝ᵥ (a' - b') := by
    rw [Matrix.sub_apply, hA, hb, sub_dotProduct, dotProduct_sub]
    ring
  have h1 := h (Pi.single i 1)
  have h2 := h (Pi.single j 1)
  have h3 := near_len h hB (Pi.single j 1)
  rw [len_single, mul_one] at h1 h2 h3
  have h4 : len b = 1 := by rw [orth_len hB, len_single]
  rw [ex]
  refine (abs_add_le _ _).trans ?_
  have k1 := (dot_len (a - b) a').trans (mul_le_mul h1 h3 (len_nonneg _) h0)
  have k2 := dot_len b (a' - b')
  rw [h4, one_mul] at k2
  have := mul_le_mul_of_nonneg_left he h0
  linarith [k2.trans h2]

theorem mulMat_len (h : RelErr u rnd) (hu : u ≤ 1 / 1000) {A B : Mat3} (hA : SmallM (M A)) (hB : SmallM (M B)) (f : Fin 3 → ℝ) :
    len (M (Rounded.mulMat rnd A B) *ᵥ f - M A *ᵥ (M B *ᵥ f)) ≤ 11 * u * len f := by
  have hu0 := Rounded.relErr_nonneg h
  have key : ∀ i, |(M (Rounded.mulMat rnd A B) *ᵥ f - M A *ᵥ (M B *ᵥ f)) i| ≤
      ((3.06 * u) • (absM (M A) *ᵥ (absM (M B) *ᵥ fun i => |f i|))) i := by
    intro i
    rw [Matrix.mulVec_mulVec, Matrix.mulVec_mulVec, ← Matrix.sub_mulVec, Pi.smul_apply, smul_eq_mul, Rounded.sum3, Rounded.sum3]
    have := fun j => mul_le_mul_of_nonneg_right (Rounded.mulMat_err h hu0 hu A B i j) (abs_nonneg (f j))
    have t0 := this 0
    have t1 := this 1
    have t2 := this 2
    refine (abs_add_three _ _ _).trans ?_
    rw [abs_mul, abs_mul, abs_mul]
    linarith
  refine (len_mono key).trans ?_
  rw [len_smul, abs_of_nonneg (by positivity)]
  have h2 := hB.abs.len fun i => |f i|
  rw [len_abs] at h2
  have h3 := hA.abs.len (absM (M B) *ᵥ fun i => |f i|)
  have h4 := mul_le_mul_of_nonneg_left (h3.trans (mul_le_mul_of_nonneg_left h2 (by norm_num)))
    (show 0 ≤ 3.06 * u by positivity)
  have := mul_nonneg hu0 (len_nonneg f)
  linarith

/-- The true pose after the motions. (Device of the proofs.) -/
noncomputable def exact (l : List (Transform3 × Transform3)) : Transform3 :=
  l.foldl (fun P x => P.mul x.2) Transform3.identity

theorem V_add (a b : Vec3) : V (a + b) = V a + V b := by
  funext i
  fin_cases i <;> rfl

theorem V_mulVec (R : Mat3) (v : Vec3) : V (R.mulVec v) = M R *ᵥ V v := by
  funext i
  rw [Rounded.sum3]
  fin_cases i <;> rfl

theorem motion_snoc (l : List (Transform3 × Transform3)) (x : Transform3 × Transform3) (f : Fin 3 → ℝ) :
    motion (l ++ [x]) f = motion l (M x.2.R *ᵥ f + V x.2.t) := by
  simp [motion]

theorem exact_snoc (l : List (Transform3 × Transform3)) (x : Transform3 × Transform3) : exact (l ++ [x]) = (exact l).mul x.2 := by
  simp [exact]

theorem computed_snoc (l : List (Transform3 × Transform3)) (x : Transform3 × Transform3) :
    computed rnd (l ++ [x]) = Rounded.mul rnd (computed rnd l) x.1 := by
  simp [computed]

theorem way_snoc (l : List (Transform3 × Transform3)) (x : Transform3 × Transform3) : way (l ++ [x]) = way l + len (V x.2.t) := by
  simp [way]

theorem way_nonneg (l : List (Transform3 × Transform3)) : 0 ≤ way l :=
  List.sum_nonneg fun a ha => by
    obtain ⟨x, -, rfl⟩ := List.mem_map.1 ha
    exact len_nonneg _

theorem mul_R (P S : Transform3) : M (P.mul S).R = M P.R * M S.R := M_mul _ _

theorem mul_t (P S : Transform3) : V (P.mul S).t = M P.R *ᵥ V S.t + V P.t := by
  rw [← V_mulVec, ← V_add]
  rfl

theorem motion_eq (l : List (Transform3 × Transform3)) (f : Fin 3 → ℝ) : motion l f = M (exact l).R *ᵥ f + V (exact l).t := by
  induction l using List.reverseRecOn generalizing f with
  | nil =>
    have : V (exact []).t = 0 := by
      funext i
      fin_cases i <;> rfl
    rw [this, show M (exact []).R = 1 from M_identity, Matrix.one_mulVec, add_zero]
    rfl
  | append_singleton l x ih =>
    rw [motion_snoc, ih, exact_snoc, mul_R, mul_t, Matrix.mulVec_add, Matrix.mulVec_mulVec, add_assoc]

/-- The invariant of the chain. -/
theorem chain (h : RelErr u rnd) (hu : u ≤ 1 / 1000) (he : 0 ≤ e) {l : List (Transform3 × Transform3)} (hl : Follows e l)
    (hn : l.length * (11 * u + 2 * e) ≤ 1 / 30) :
    Orthogonal (exact l).R ∧ len (V (exact l).t) ≤ way l ∧
    NearMat (l.length * (11 * u + 2 * e)) (computed rnd l).R (exact l).R ∧
    len (V (computed rnd l).t - V (exact l).t) ≤ l.length * (20 * u + 2 * e) * way l := by
  have hu0 := Rounded.relErr_nonneg h
  induction l using List.reverseRecOn with
  | nil =>
    have z : len (0 : Fin 3 → ℝ) = 0 := by simp [len]
    have hz : V (Transform3.identity).t = 0 := by
      funext i
      fin_cases i <;> rfl
    refine ⟨?_, ?_, ?_, ?_⟩
    · show (M Mat3.identity)ᵀ * M Mat3.identity = 1
      rw [M_identity, Matrix.transpose_one, Matrix.one_mul]
    · show len (V (Transform3.identity).t) ≤ 0
      rw [hz, z]
    · intro f
      show len (M Mat3.identity *ᵥ f - M Mat3.identity *ᵥ f) ≤ _
      rw [sub_self, z]
      simp
    · show len (V (Transform3.identity).t - V (Transform3.identity).t) ≤ _
      rw [sub_self, z]
      simp
  | append_singleton l x ih =>
    have hlen : ((l ++ [x]).length : ℝ) = l.length + 1 := by simp
    rw [hlen] at hn ⊢
    have hn0 : (0 : ℝ) ≤ l.length := Nat.cast_nonneg _
    obtain ⟨b, hb⟩ : ∃ b, b = 11 * u + 2 * e := ⟨_, rfl⟩
    have hb0 : 0 ≤ b := by rw [hb]; positivity
    rw [← hb] at ih hn ⊢
    have hn1 : (l.length : ℝ) * b ≤ 1 / 30 := by linarith
    obtain ⟨o1, o2, o3, o4⟩ := ih (fun y hy => hl y (by simp [hy])) hn1
    obtain ⟨r1, r2, r3⟩ := hl x (by simp)
    obtain ⟨d, hd⟩ : ∃ d : ℝ, d = l.length * b := ⟨_, rfl⟩
    have hd0 : 0 ≤ d := by rw [hd]; positivity
    rw [← hd] at o3 hn1
    have hbs : b ≤ 1 / 30 := by linarith
    have sP := near_small o3 o1 hd0 hn1
    have sS := near_small r3 r1 he (by linarith)
    rw [exact_snoc, computed_snoc, way_snoc]
    refine ⟨?_, ?_, ?_, ?_⟩
    · show (M _)ᵀ * M _ = 1
      rw [mul_R, Matrix.transpose_mul, Matrix.mul_assoc, ← Matrix.mul_assoc _ (M (exact l).R), o1, Matrix.one_mul]
      exact r1
    · rw [mul_t]
      refine (len_add _ _).trans ?_
      rw [orth_len o1]
      linarith
    · intro f
      have e1 := mulMat_len h hu sP sS f
      have e2 := near_len o3 o1 (M x.1.R *ᵥ f - M x.2.R *ᵥ f)
      have e3 := r3 f
      have e4 := o3 (M x.2.R *ᵥ f)
      rw [orth_len r1] at e4
      have ex : M (Rounded.mul rnd (computed rnd l) x.1).R *ᵥ f - M ((exact l).mul x.2).R *ᵥ f =
          (M (Rounded.mulMat rnd (computed rnd l).R x.1.R) *ᵥ f - M (computed rnd l).R *ᵥ (M x.1.R *ᵥ f)) +
          (M (computed rnd l).R *ᵥ (M x.1.R *ᵥ f - M x.2.R *ᵥ f) +
            (M (computed rnd l).R *ᵥ (M x.2.R *ᵥ f) - M (exact l).R *ᵥ (M x.2.R *ᵥ f))) := by
        rw [mul_R, ← Matrix.mulVec_mulVec, Matrix.mulVec_sub]
        show M (Rounded.mulMat rnd (computed rnd l).R x.1.R) *ᵥ f - _ = _
        abel
      rw [ex]
      refine (len_add _ _).trans ((add_le_add le_rfl (len_add _ _)).trans ?_)
      have hf := len_nonneg f
      have k1 : (1 + d) * len (M x.1.R *ᵥ f - M x.2.R *ᵥ f) ≤ (1 + d) * (e * len f) :=
        mul_le_mul_of_nonneg_left e3 (by linarith)
      have k2 : d * (e * len f) ≤ 1 / 30 * (e * len f) := mul_le_mul_of_nonneg_right hn1 (mul_nonneg he hf)
      have k3 : (↑l.length + 1) * b * len f = d * len f + (11 * u * len f + 2 * (e * len f)) := by rw [hd, hb]; ring
      have k4 := mul_nonneg he hf
      rw [k3]
      linarith
    · have e1 := Rounded.apply_len h hu0 hu sP x.1.t
      rw [r2] at e1
      have e2 := o3 (V x.2.t)
      have ex : V (Rounded.mul rnd (computed rnd l) x.1).t - V ((exact l).mul x.2).t =
          (V (Rounded.apply rnd (computed rnd l) x.2.t) - (M (computed rnd l).R *ᵥ V x.2.t + V (computed rnd l).t)) +
          ((M (computed rnd l).R *ᵥ V x.2.t - M (exact l).R *ᵥ V x.2.t) + (V (computed rnd l).t - V (exact l).t)) := by
        rw [mul_t]
        show V (Rounded.apply rnd (computed rnd l) x.1.t) - _ = _
        rw [r2]
        abel
      rw [ex]
      refine (len_add _ _).trans ((add_le_add le_rfl (len_add _ _)).trans ?_)
      obtain ⟨s, hs⟩ : ∃ s, s = len (V x.2.t) := ⟨_, rfl⟩
      obtain ⟨w, hw⟩ : ∃ w, w = way l := ⟨_, rfl⟩
      have hs0 : 0 ≤ s := by rw [hs]; exact len_nonneg _
      have hw0 : 0 ≤ w := by rw [hw]; exact way_nonneg _
      rw [← hs] at e1 e2 ⊢
      rw [← hw] at o2 o4 ⊢
      have hc : (l.length : ℝ) * (20 * u + 2 * e) ≤ 1 / 10 := by
        have : (l.length : ℝ) * (20 * u + 2 * e) ≤ 2 * (l.length * b) := by
          rw [hb]
          have := mul_nonneg hn0 hu0
          have := mul_nonneg hn0 he
          linarith
        linarith
      have ht : len (V (computed rnd l).t) ≤ 1.1 * w := by
        have := len_add (V (computed rnd l).t - V (exact l).t) (V (exact l).t)
        rw [sub_add_cancel] at this
        have := mul_le_mul_of_nonneg_right hc hw0
        linarith
      have k1 := mul_le_mul_of_nonneg_left ht hu0
      have k2 : (↑l.length + 1) * (20 * u + 2 * e) * (w + s) = ↑l.length * (20 * u + 2 * e) * w +
          (d * s + 9 * (l.length * (u * s))) + 20 * (u * s) + 20 * (u * w) + 2 * (e * s) + 2 * (e * w) := by
        rw [hd, hb]; ring
      rw [k2]
      have := mul_nonneg hu0 hs0
      have := mul_nonneg hu0 hw0
      have := mul_nonneg he hs0
      have := mul_nonneg he hw0
      have := mul_nonneg hn0 (mul_nonneg hu0 hs0)
      linarith

/-- The matrix of a quaternion. -/
theorem near_quaternion (h : RelErr u rnd) (hu : u ≤ 1 / 1000) {q : Quat} (hq : q ≠ ⟨0, 0, 0, 0⟩) :
    NearMat (57 * u) (Rounded.setRotation rnd q) (Mat3.setRotation q) := by
  intro f
  have hu0 := Rounded.relErr_nonneg h
  rw [← Matrix.sub_mulVec]
  refine (len_mulVec _ f).trans (mul_le_mul_of_nonneg_right ?_ (len_nonneg _))
  rw [Real.sqrt_le_left (by positivity)]
  have k : ∀ i j, (M (Rounded.setRotation rnd q) - M (Mat3.setRotation q)) i j ^ 2 ≤ (19 * u) ^ 2 := by
    intro i j
    rw [← sq_abs]
    exact pow_le_pow_left₀ (abs_nonneg _) (Rounded.setRotation_err h hu0 hu (length2_pos hq) i j) 2
  simp only [Fin.sum_univ_three]
  linarith [k 0 0, k 0 1, k 0 2, k 1 0, k 1 1, k 1 2, k 2 0, k 2 1, k 2 2]

end Chains

end Geo
