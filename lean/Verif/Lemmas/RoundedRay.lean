import Verif.Lemmas.RoundedBox
import Verif.Lemmas.RoundedCompositeUse
import Verif.Model.RoundedCompositeRay

/-! # Helper lemmas about the ray query of composites in floating point arithmetic -/

namespace Geo.RoundedBox
open Spec Rounded

variable {u v : ℝ} {rnd toF : ℝ → ℝ}

/-- What the query of a box computes from six bounds, whatever the order of `t0` and `t1`. -/
theorem spans {a1 a2 b1 b2 c1 c2 t0 t1 d0 : ℝ} (ha : a1 ≤ a2) (hb : b1 ≤ b2) (hc : c1 ≤ c2) (res : Bool × ℝ) (hres : res =
      (if a1 > b2 ∨ b1 > a2 then (false, d0) else
        if max b1 a1 > c2 ∨ c1 > min b2 a2 then (false, d0) else
          (@decide (t0 < min c2 (min b2 a2) ∧ max c1 (max b1 a1) < t1) (Classical.propDecidable _),
            max c1 (max b1 a1)))) :
    (res.1 = true → res.2 = max c1 (max b1 a1) ∧ res.2 < t1 ∧
      ∃ H, res.2 ≤ H ∧ t0 < H ∧ ∀ s ≤ H, s ≤ a2 ∧ s ≤ b2 ∧ s ≤ c2) ∧
    (∀ s, a1 ≤ s → s ≤ a2 → b1 ≤ s → s ≤ b2 → c1 ≤ s → s ≤ c2 → t0 < s → s < t1 → res.1 = true ∧ res.2 ≤ s) := by
  subst hres
  split_ifs with h1 h2
  · refine ⟨fun h => by simp at h, fun s x1 x2 y1 y2 z1 z2 _ _ => ?_⟩
    rcases h1 with h | h <;> linarith
  · refine ⟨fun h => by simp at h, fun s x1 x2 y1 y2 z1 z2 _ _ => ?_⟩
    rcases h2 with h | h
    · have := max_le y1 x1
      linarith
    · have := le_min y2 x2
      linarith
  · simp only [decide_eq_true_eq]
    push Not at h1 h2
    refine ⟨fun h => ⟨trivial, h.2, _, ?_, h.1, fun s hs => ?_⟩, fun s x1 x2 y1 y2 z1 z2 s1 s2 => ⟨⟨?_, ?_⟩, ?_⟩⟩
    · refine max_le (le_min hc h2.2) (le_min h2.1 ?_)
      exact max_le (le_min hb h1.2) (le_min h1.1 ha)
    · obtain ⟨s1, s2⟩ := le_min_iff.1 hs
      obtain ⟨s2, s3⟩ := le_min_iff.1 s2
      exact ⟨s3, s2, s1⟩
    · exact lt_of_lt_of_le s1 (le_min z2 (le_min y2 x2))
    · exact lt_of_le_of_lt (max_le z1 (max_le y1 x1)) s2
    · exact max_le z1 (max_le y1 x1)

/-- The query of a box by a ray with an oblique direction, for any order of `t0` and `t1`. -/
theorem ray_span (h : RelErr u rnd) (hm : Monotone rnd) (hF : RelErr v toF) (hmF : Monotone toF) (hu : u ≤ 1 / 1000)
    (hv : v ≤ 1 / 1000) {lo hi o d e : Vec3} (hp : Proper lo hi) (he : UnitAlong d e)
    (hob : 1e-9 * (1 + 8 * u) ≤ |e.x| ∧ 1e-9 * (1 + 8 * u) ≤ |e.y| ∧ 1e-9 * (1 + 8 * u) ≤ |e.z|) (t0 t1 d0 : ℝ) :
    let r := boxRay rnd toF (Box.new lo hi) (rayNew rnd o d) t0 t1 d0
    let w := 8 * u + 2 * v
    let near := fun s => InBox ⟨lo.x - w * |s|, lo.y - w * |s|, lo.z - w * |s|⟩ ⟨hi.x + w * |s|, hi.y + w * |s|, hi.z + w * |s|⟩
      (along o e s)
    (r.1 = true → r.2 < t1 ∧ (∃ x, r.2 = toF x) ∧ near r.2 ∧ ∀ T, t0 < T → r.2 < T → ∃ s, t0 < s ∧ s < T ∧ r.2 ≤ s ∧ near s) ∧
    (∀ s, t0 < s → s < t1 →
      InBox ⟨lo.x + w * |s|, lo.y + w * |s|, lo.z + w * |s|⟩ ⟨hi.x - w * |s|, hi.y - w * |s|, hi.z - w * |s|⟩ (along o e s) →
      r.1 = true ∧ r.2 ≤ s) := by
  have hu0 := relErr_nonneg h
  have hv0 := relErr_nonneg hF
  intro r w near
  obtain ⟨nx, ny, nz⟩ := normalized_err h hu he
  obtain ⟨px, py, pz⟩ := hp
  obtain ⟨ox, oy, oz⟩ := hob
  obtain ⟨x0, x1, x2, x3⟩ := axis_err h hm hF hmF hu (o := o.x) px nx ox
  obtain ⟨y0, y1, y2, y3⟩ := axis_err h hm hF hmF hu (o := o.y) py ny oy
  obtain ⟨z0, z1, z2, z3⟩ := axis_err h hm hF hmF hu (o := o.z) pz nz oz
  have hr := boxRay_eq (rnd := rnd) (toF := toF) (Box.new lo hi) o d t0 t1 d0
  rw [Box.new_lo, Box.new_hi] at hr
  obtain ⟨S1, S2⟩ := spans x1 y1 z1 r hr
  have ux := unit_le he
  obtain ⟨q, hq⟩ : ∃ q, q = 7 * u + 1.1 * v := ⟨_, rfl⟩
  have hq0 : 0 ≤ q := by rw [hq]; positivity
  have hq1 : q ≤ 1 / 100 := by rw [hq]; linarith
  have hqw : 1.02 * q ≤ w := by simp only [w]; rw [hq]; linarith
  rw [← hq] at x2 x3 y2 y3 z2 z3
  have mem : ∀ {lo hi o e L' H' s : ℝ}, lo ≤ hi → 1e-9 ≤ |e| → |e| ≤ 1 → |L' - slabLo lo hi o e| ≤ q * |slabLo lo hi o e| →
      |H' - slabHi lo hi o e| ≤ q * |slabHi lo hi o e| → L' ≤ s → s ≤ H' →
      lo - w * |s| ≤ o + s * e ∧ o + s * e ≤ hi + w * |s| := by
    intro lo hi o e L' H' s hp he he1 hL hH h1 h2
    obtain ⟨r, r1, r2, r3⟩ := near_param hq0 hq1 (slab_le hp) hL hH h1 h2
    obtain ⟨i1, i2⟩ := (slab_mem he).1 ⟨r1, r2⟩
    have e1 : o + s * e = o + r * e + (s - r) * e := by ring
    have : |(s - r) * e| ≤ w * |s| := by
      rw [abs_mul]
      calc |s - r| * |e| ≤ |s - r| * 1 := by gcongr
        _ ≤ 1.02 * q * |s| := by rw [mul_one]; exact r3
        _ ≤ w * |s| := by gcongr
    rw [abs_le] at this
    rw [e1]
    constructor <;> linarith
  have inn : ∀ {lo hi o e L' H' s m : ℝ}, 1e-9 ≤ |e| → |e| ≤ 1 → |L' - slabLo lo hi o e| ≤ q * |slabLo lo hi o e| →
      |H' - slabHi lo hi o e| ≤ q * |slabHi lo hi o e| → m = w * |s| → lo + m ≤ o + s * e → o + s * e ≤ hi - m →
      L' ≤ s ∧ s ≤ H' := by
    intro lo hi o e L' H' s m he he1 hL hH hm h1 h2
    have hm0 : 0 ≤ m := by rw [hm]; positivity
    have hme : |m * e| ≤ m := by
      rw [abs_mul, abs_of_nonneg hm0]
      exact mul_le_of_le_one_right hm0 he1
    rw [abs_le] at hme
    have a := (slab_mem (lo := lo) (hi := hi) (o := o) (t := s - m) he).2 (by rw [sub_mul]; constructor <;> linarith)
    have b := (slab_mem (lo := lo) (hi := hi) (o := o) (t := s + m) he).2 (by rw [add_mul]; constructor <;> linarith)
    have : 1.02 * q * |s| ≤ m := by rw [hm]; gcongr
    exact inner_param hq0 hq1 hL hH (by linarith [a.1]) (by linarith [b.2])
  constructor
  · intro hflag
    obtain ⟨e2, l1, H, l2, l3, l4⟩ := S1 hflag
    have span : ∀ s, r.2 ≤ s → s ≤ H → near s := by
      intro s s1 s2
      rw [e2] at s1
      obtain ⟨c1, s1⟩ := max_le_iff.1 s1
      obtain ⟨b1, a1⟩ := max_le_iff.1 s1
      obtain ⟨a2, b2, c2⟩ := l4 s s2
      obtain ⟨i1, i2⟩ := mem px x0 ux.1 x2 x3 a1 a2
      obtain ⟨i3, i4⟩ := mem py y0 ux.2.1 y2 y3 b1 b2
      obtain ⟨i5, i6⟩ := mem pz z0 ux.2.2 z2 z3 c1 c2
      exact ⟨i1, i2, i3, i4, i5, i6⟩
    refine ⟨l1, ?_, span _ le_rfl l2, ?_⟩
    · rw [e2]
      have two : ∀ a b : ℝ, (∃ x, a = toF x) → (∃ x, b = toF x) → ∃ x, max a b = toF x := by
        intro a b ha hb
        rcases max_choice a b with h | h <;> rw [h] <;> assumption
      exact two _ _ ⟨_, rfl⟩ (two _ _ ⟨_, rfl⟩ ⟨_, rfl⟩)
    · intro T hT hT'
      rcases lt_or_ge t0 r.2 with hlt | hge
      · exact ⟨r.2, hlt, hT', le_rfl, span _ le_rfl l2⟩
      · obtain ⟨s, s1, s2⟩ := exists_between (lt_min l3 hT)
        obtain ⟨s3, s4⟩ := lt_min_iff.1 s2
        exact ⟨s, s1, s4, hge.trans s1.le, span s (hge.trans s1.le) s3.le⟩
  · intro s s1 s2 ⟨i1, i2, i3, i4, i5, i6⟩
    obtain ⟨a1, a2⟩ := inn x0 ux.1 x2 x3 rfl i1 i2
    obtain ⟨b1, b2⟩ := inn y0 ux.2.1 y2 y3 rfl i3 i4
    obtain ⟨c1, c2⟩ := inn z0 ux.2.2 z2 z3 rfl i5 i6
    exact S2 s a1 a2 b1 b2 c1 c2 s1 s2

end Geo.RoundedBox

namespace Geo.Rounded
open Spec Matrix

variable {u v δ ρ τ : ℝ} {rnd toF : ℝ → ℝ}

theorem V_along (o e : Vec3) (s : ℝ) : V (along o e s) = V o + s • V e := by
  funext i
  fin_cases i <;> simp [V, along]

theorem unit_len {d e : Vec3} (he : UnitAlong d e) : len (V e) = 1 := by
  have := he.1
  simp [len, V, Fin.sum_univ_three, this]

/-- The direction of the ray that a part is asked about, seen from outside. -/
theorem local_dir (h : RelErr u rnd) (hu : u ≤ 1 / 1000) {R : Mat3} (hR : NearlyOrthogonal δ R) (hδ : δ ≤ 1 / 100) {d e : Vec3}
    (he : UnitAlong d e) :
    ∃ f, UnitAlong (mulVec rnd R.transpose (normalized rnd d)) f ∧ len (M R *ᵥ V f - V e) ≤ 20 * u + 9 * δ := by
  have hu0 := relErr_nonneg h
  have h0 := delta_nonneg hR
  have hδ' : δ ≤ 1 / 10 := by linarith
  have hs := hR.small hδ'
  have eT : M R.transpose = (M R)ᵀ := by
    ext i j
    fin_cases i <;> fin_cases j <;> rfl
  have hs' : SmallM (M R.transpose) := by rw [eT]; exact hs.transpose
  obtain ⟨n, hn⟩ : ∃ n, n = normalized rnd d := ⟨_, rfl⟩
  have l1 : len (V n - V e) ≤ 3.6 * u := by
    obtain ⟨n1, n2, n3⟩ := RoundedBox.normalized_err h hu he
    rw [← hn] at n1 n2 n3
    have := len_mono (f := V n - V e) (g := (3.6 * u) • fun i => |V e i|) (fun i => by
      fin_cases i
      · exact n1
      · exact n2
      · exact n3)
    rw [len_smul, abs_of_nonneg (by positivity)] at this
    have ea : len (fun i => |V e i|) = len (V e) := by simp [len]
    rw [ea, unit_len he, mul_one] at this
    exact this
  have l2 : len (V n) ≤ 1.0036 := by
    have := len_add (V n - V e) (V e)
    rw [sub_add_cancel, unit_len he] at this
    linarith
  obtain ⟨t, ht⟩ : ∃ t, t = mulVec rnd R.transpose n := ⟨_, rfl⟩
  rw [← hn, ← ht]
  have l3 := mulVec_len h hu0 hu hs' n
  rw [← ht, eT] at l3
  obtain ⟨q, hq⟩ := surjective (T := ⟨R, 0⟩) hR hδ' n
  have hq' : M R *ᵥ V q = V n := by
    have := V_apply ⟨R, 0⟩ q
    rw [hq] at this
    rw [this]
    funext i
    fin_cases i <;> simp [V]
  have l4 := len_down hR hδ' (V q)
  rw [hq'] at l4
  have l5 : len (V q) ≤ 1.024 := by
    have : (1 + 2 * δ) * len (V n) ≤ 1.02 * 1.0036 := mul_le_mul (by linarith) l2 (len_nonneg _) (by norm_num)
    linarith
  have l6 := defect_len hR (V q)
  have e1 : M R *ᵥ V t - V e = M R *ᵥ (((M R)ᵀ * M R - 1) *ᵥ V q + (V t - (M R)ᵀ *ᵥ V n)) + (V n - V e) := by
    rw [← hq']
    simp only [Matrix.mulVec_add, Matrix.mulVec_sub, Matrix.sub_mulVec, Matrix.one_mulVec, Matrix.mulVec_mulVec]
    abel
  obtain ⟨k, hk⟩ : ∃ k, k = len (M R *ᵥ V t - V e) := ⟨_, rfl⟩
  have l7 : k ≤ 9.33 * u + 3.13 * δ := by
    rw [hk, e1]
    have a1 := len_add (M R *ᵥ (((M R)ᵀ * M R - 1) *ᵥ V q + (V t - (M R)ᵀ *ᵥ V n))) (V n - V e)
    have a2 := len_up hR (((M R)ᵀ * M R - 1) *ᵥ V q + (V t - (M R)ᵀ *ᵥ V n))
    have a3 := len_add (((M R)ᵀ * M R - 1) *ᵥ V q) (V t - (M R)ᵀ *ᵥ V n)
    have a4 : δ * len (V q) ≤ δ * 1.024 := mul_le_mul_of_nonneg_left l5 h0
    have a5 : u * len (V n) ≤ u * 1.0036 := mul_le_mul_of_nonneg_left l2 hu0
    have a6 : (1 + 1.5 * δ) * len (((M R)ᵀ * M R - 1) *ᵥ V q + (V t - (M R)ᵀ *ᵥ V n)) ≤
        1.015 * (3 * (δ * 1.024) + 5.6 * (u * 1.0036)) :=
      mul_le_mul (by linarith) (by linarith) (len_nonneg _) (by norm_num)
    linarith
  have k1 : k ≤ 0.041 := by linarith
  have k0 : 0 ≤ k := by rw [hk]; exact len_nonneg _
  obtain ⟨L, hL⟩ : ∃ L, L = len (V t) := ⟨_, rfl⟩
  have b1 := len_add (M R *ᵥ V t - V e) (V e)
  rw [sub_add_cancel, unit_len he, ← hk] at b1
  have b2 := Chains.len_sub (M R *ᵥ V t) (M R *ᵥ V t - V e)
  rw [sub_sub_cancel, unit_len he, ← hk] at b2
  have b3 := len_down hR hδ' (V t)
  have b4 := len_up hR (V t)
  rw [← hL] at b3 b4
  have b5 : L ≤ 1.02 * 1.041 := by
    have : (1 + 2 * δ) * len (M R *ᵥ V t) ≤ 1.02 * 1.041 := mul_le_mul (by linarith) (by linarith) (len_nonneg _) (by norm_num)
    linarith
  have b6 : L - 1 ≤ 1.02 * k + 2 * δ := by
    have c1 : (1 + 2 * δ) * len (M R *ᵥ V t) ≤ (1 + 2 * δ) * (k + 1) := mul_le_mul_of_nonneg_left b1 (by positivity)
    have c2 : δ * k ≤ 1 / 100 * k := mul_le_mul_of_nonneg_right hδ k0
    linarith
  have b7 : 1 - L ≤ 1.02 * k + 2 * δ := by
    have c1 : δ * L ≤ δ * (1.02 * 1.041) := mul_le_mul_of_nonneg_left b5 h0
    linarith
  have L0 : 0 < L := by linarith
  have sq : L ^ 2 = t.x ^ 2 + t.y ^ 2 + t.z ^ 2 := by
    rw [hL, Chains.len_sq]
    simp [V, dotProduct, Fin.sum_univ_three, pow_two]
  refine ⟨⟨t.x / L, t.y / L, t.z / L⟩, ⟨?_, L, L0, ?_, ?_, ?_⟩, ?_⟩
  · rw [div_pow, div_pow, div_pow, ← add_div, ← add_div, ← sq, div_self (by positivity)]
  · field_simp
  · field_simp
  · field_simp
  · have ef : V (⟨t.x / L, t.y / L, t.z / L⟩ : Vec3) = L⁻¹ • V t := by
      funext i
      fin_cases i <;> simp [V, div_eq_inv_mul]
    have e2 : M R *ᵥ (L⁻¹ • V t) - V e = M R *ᵥ ((L⁻¹ - 1) • V t) + (M R *ᵥ V t - V e) := by
      rw [sub_smul, one_smul, Matrix.mulVec_sub]
      abel
    rw [ef, e2]
    have c1 := len_add (M R *ᵥ ((L⁻¹ - 1) • V t)) (M R *ᵥ V t - V e)
    have c2 := len_up hR ((L⁻¹ - 1) • V t)
    have c3 : len ((L⁻¹ - 1) • V t) = |1 - L| := by
      rw [len_smul, ← hL]
      nth_rewrite 2 [← abs_of_pos L0]
      rw [← abs_mul, sub_mul, inv_mul_cancel₀ L0.ne', one_mul]
    have c4 : |1 - L| ≤ 1.02 * k + 2 * δ := abs_le.2 ⟨by linarith, b7⟩
    rw [c3] at c2
    have c5 : (1 + 1.5 * δ) * |1 - L| ≤ 1.015 * (1.02 * k + 2 * δ) :=
      mul_le_mul (by linarith) c4 (abs_nonneg _) (by norm_num)
    rw [← hk] at c1
    linarith

/-- The ray that a part is asked about, seen from outside. -/
theorem local_ray (h : RelErr u rnd) (hu : u ≤ 1 / 1000) {T : Transform3} (hR : NearlyOrthogonal δ T.R) (hδ : δ ≤ 1 / 100)
    {o d e : Vec3} (he : UnitAlong d e) (hg : ∀ g, T.R.mulVec g = e →
      1.1e-9 + 21 * u + 10 * δ ≤ |g.x| ∧ 1.1e-9 + 21 * u + 10 * δ ≤ |g.y| ∧ 1.1e-9 + 21 * u + 10 * δ ≤ |g.z|) :
    ∃ f, UnitAlong (mulVec rnd T.R.transpose (normalized rnd d)) f ∧
      (1e-9 * (1 + 8 * u) ≤ |f.x| ∧ 1e-9 * (1 + 8 * u) ≤ |f.y| ∧ 1e-9 * (1 + 8 * u) ≤ |f.z|) ∧
      ∀ s, Spec.dist (along o e s) (T.apply (along (apply rnd (inverse rnd T) o) f s)) ≤
        (24 * u + 5 * δ) * (len (V o) + len (V T.t)) + (20 * u + 9 * δ) * |s| := by
  have hu0 := relErr_nonneg h
  have h0 := delta_nonneg hR
  have hδ' : δ ≤ 1 / 10 := by linarith
  obtain ⟨f, hf, hl⟩ := local_dir h hu hR hδ he
  refine ⟨f, hf, ?_, ?_⟩
  · obtain ⟨g, hg'⟩ := surjective (T := ⟨T.R, 0⟩) hR hδ' e
    have e1 : T.R.mulVec g = e := by
      rw [← hg']
      ext <;> simp [Transform3.apply]
    have e2 : V e = M T.R *ᵥ V g := by rw [← Chains.V_mulVec, e1]
    rw [e2, ← Matrix.mulVec_sub] at hl
    have h1 := len_down hR hδ' (V f - V g)
    have h2 : (1 + 2 * δ) * len (M T.R *ᵥ (V f - V g)) ≤ 1.02 * (20 * u + 9 * δ) :=
      mul_le_mul (by linarith) hl (len_nonneg _) (by norm_num)
    obtain ⟨g1, g2, g3⟩ := hg g e1
    have c : ∀ i, |V f i - V g i| ≤ 21 * u + 10 * δ := by
      intro i
      have := RoundedBox.abs_le_len (V f - V g) i
      rw [Pi.sub_apply] at this
      linarith
    have c1 : |f.x - g.x| ≤ _ := c 0
    have c2 : |f.y - g.y| ≤ _ := c 1
    have c3 : |f.z - g.z| ≤ _ := c 2
    have one : ∀ {a b : ℝ}, |a - b| ≤ 21 * u + 10 * δ → 1.1e-9 + 21 * u + 10 * δ ≤ |b| → 1e-9 * (1 + 8 * u) ≤ |a| := by
      intro a b h1 h2
      have := abs_sub_abs_le_abs_sub b a
      rw [abs_sub_comm] at this
      linarith
    exact ⟨one c1 g1, one c2 g2, one c3 g3⟩
  · intro s
    have h1 := local_dist h hu hR hδ' o
    rw [dist_eq_len, V_apply] at h1 ⊢
    rw [V_along, V_along]
    have e1 : V o + s • V e - (M T.R *ᵥ (V (apply rnd (inverse rnd T) o) + s • V f) + V T.t) =
        (V o - (M T.R *ᵥ V (apply rnd (inverse rnd T) o) + V T.t)) + -(s • (M T.R *ᵥ V f - V e)) := by
      rw [Matrix.mulVec_add, Matrix.mulVec_smul, smul_sub]
      abel
    rw [e1]
    have h2 := len_add (V o - (M T.R *ᵥ V (apply rnd (inverse rnd T) o) + V T.t)) (-(s • (M T.R *ᵥ V f - V e)))
    rw [len_neg, len_smul] at h2
    have h3 := mul_le_mul_of_nonneg_left hl (abs_nonneg s)
    linarith

theorem dist_tri (a b c : Vec3) : Spec.dist a c ≤ Spec.dist a b + Spec.dist b c := by
  simp only [dist_eq_len]
  have := len_add (V a - V b) (V b - V c)
  rwa [sub_add_sub_cancel] at this

/-- A nearly rigid pose hardly changes distances. -/
theorem dist_apply {T : Transform3} (hR : NearlyOrthogonal δ T.R) (hδ : δ ≤ 1 / 100) (a b : Vec3) :
    Spec.dist (T.apply a) (T.apply b) ≤ 1.015 * Spec.dist a b := by
  rw [dist_eq_len, dist_eq_len, V_apply, V_apply, add_sub_add_right_eq_sub, ← Matrix.mulVec_sub]
  exact (len_up hR _).trans (mul_le_mul_of_nonneg_right (by linarith) (len_nonneg _))

/-- A point with room around it in a set that a map carries into a box is in the smaller box. -/
theorem inBox_of_axis {lo hi p : Vec3} {m : ℝ} (hm : 0 ≤ m) (h : ∀ q, Spec.dist p q ≤ m → InBox lo hi q) :
    InBox ⟨lo.x + m, lo.y + m, lo.z + m⟩ ⟨hi.x - m, hi.y - m, hi.z - m⟩ p := by
  obtain ⟨d1, d2, d3, d4, d5, d6⟩ := dist_axis p hm
  have h1 := (h _ d1.le).1
  have h2 := (h _ d2.le).2.1
  have h3 := (h _ d3.le).2.2.1
  have h4 := (h _ d4.le).2.2.2.1
  have h5 := (h _ d5.le).2.2.2.2.1
  have h6 := (h _ d6.le).2.2.2.2.2
  simp only at h1 h2 h3 h4 h5 h6
  refine ⟨?_, ?_, ?_, ?_, ?_, ?_⟩ <;> simp only <;> linarith

/-- The query of one part. -/
theorem part_ray (h : RelErr u rnd) (hm : Monotone rnd) (hF : RelErr v toF) (hmF : Monotone toF) (hu : u ≤ 1 / 1000)
    (hv : v ≤ 1 / 1000) {lo hi : Vec3} (hp : Proper lo hi) {T : Transform3} (hR : NearlyOrthogonal δ T.R) (hδ : δ ≤ 1 / 100)
    {o d e : Vec3} (he : UnitAlong d e) (hg : ∀ g, T.R.mulVec g = e →
      1.1e-9 + 21 * u + 10 * δ ≤ |g.x| ∧ 1.1e-9 + 21 * u + 10 * δ ≤ |g.y| ∧ 1.1e-9 + 21 * u + 10 * δ ≤ |g.z|)
    {m : ℝ → ℝ} (hmm : ∀ s, (24 * u + 5 * δ) * (len (V o) + len (V T.t)) + (36 * u + 4 * v + 9 * δ) * |s| ≤ m s) (t0 t1 d0 : ℝ) :
    let r := boxRay rnd toF (Box.new lo hi) (rayNew rnd (apply rnd (inverse rnd T) o)
      (mulVec rnd (inverse rnd T).R (normalized rnd d))) t0 t1 d0
    let near := fun s => ∃ p, Posed T (InBox lo hi) p ∧ Spec.dist (along o e s) p ≤ m s
    (r.1 = true → r.2 < t1 ∧ (∃ x, r.2 = toF x) ∧ near r.2 ∧ ∀ t, t0 < t → r.2 < t → ∃ s, t0 < s ∧ s < t ∧ r.2 ≤ s ∧ near s) ∧
    (∀ s, t0 < s → s < t1 → (∀ p, Spec.dist (along o e s) p ≤ m s → Posed T (InBox lo hi) p) → r.1 = true ∧ r.2 ≤ s) := by
  have hu0 := relErr_nonneg h
  have hv0 := relErr_nonneg hF
  have h0 := delta_nonneg hR
  have hδ' : δ ≤ 1 / 10 := by linarith
  obtain ⟨f, hf, hfo, hd⟩ := local_ray h hu hR hδ (o := o) he hg
  obtain ⟨R1, R2⟩ := RoundedBox.ray_span h hm hF hmF hu hv (o := apply rnd (inverse rnd T) o) hp hf hfo t0 t1 d0
  intro r near
  have hn : ∀ s, InBox ⟨lo.x - (8 * u + 2 * v) * |s|, lo.y - (8 * u + 2 * v) * |s|, lo.z - (8 * u + 2 * v) * |s|⟩
      ⟨hi.x + (8 * u + 2 * v) * |s|, hi.y + (8 * u + 2 * v) * |s|, hi.z + (8 * u + 2 * v) * |s|⟩
      (along (apply rnd (inverse rnd T) o) f s) → near s := by
    intro s hs
    obtain ⟨q, hq, hdq⟩ := clamp_near hp hs (by positivity)
    refine ⟨_, ⟨q, rfl, hq⟩, ?_⟩
    have a1 := dist_tri (along o e s) (T.apply (along (apply rnd (inverse rnd T) o) f s)) (T.apply q)
    have a2 := dist_apply hR hδ (along (apply rnd (inverse rnd T) o) f s) q
    have a3 := hd s
    have a4 := hmm s
    have a5 : 0 ≤ u * |s| := by positivity
    have a6 : 0 ≤ v * |s| := by positivity
    linarith
  constructor
  · intro hr
    obtain ⟨q1, q2, q3, q4⟩ := R1 hr
    refine ⟨q1, q2, hn _ q3, fun t h1 h2 => ?_⟩
    obtain ⟨s, s1, s2, s3, s4⟩ := q4 t h1 h2
    exact ⟨s, s1, s2, s3, hn s s4⟩
  · intro s s1 s2 hall
    refine R2 s s1 s2 (inBox_of_axis (by positivity) fun q hq => ?_)
    obtain ⟨y, hy, hyb⟩ := hall (T.apply q) (by
      have a1 := dist_tri (along o e s) (T.apply (along (apply rnd (inverse rnd T) o) f s)) (T.apply q)
      have a2 := dist_apply hR hδ (along (apply rnd (inverse rnd T) o) f s) q
      have a3 := hd s
      have a4 := hmm s
      have a5 : 0 ≤ u * |s| := by positivity
      have a6 : 0 ≤ v * |s| := by positivity
      linarith)
    rwa [← injective hR hδ' hy]

/-- The loop over the parts. The part `x` answers `Q x t` to the bound `t`. -/
theorem rayLoop_spec {α : Type} (hid : ∀ x, toF (toF x) = toF x) (r : Ray) (t0 : ℝ) (obj : α → ShapeObj × Transform3)
    (Q : α → ℝ → Bool × ℝ) (near good : α → ℝ → Prop) (l : List α)
    (hQ : ∀ x ∈ l, ∀ t, (obj x).1.ray (rayNew rnd (apply rnd (obj x).2 r.origin) (mulVec rnd (obj x).2.R r.direction)) t0 t 0 =
      .ok (Q x t))
    (hA : ∀ x ∈ l, ∀ t, (Q x t).1 = true → (Q x t).2 < t ∧ (∃ y, (Q x t).2 = toF y) ∧ near x (Q x t).2)
    (hB : ∀ x ∈ l, ∀ s, good x s → ∀ t, s < t → (Q x t).1 = true ∧ (Q x t).2 ≤ s) (hit : Bool) (md : ℝ) (hmd : toF md = md) :
    ∃ res, rayLoop rnd toF r t0 (l.map obj) hit md = .ok res ∧ res.2 ≤ md ∧
      (res = (hit, md) ∨ res.1 = true ∧ res.2 < md ∧ ∃ x ∈ l, near x res.2) ∧
      ∀ x ∈ l, ∀ s, good x s → res.2 ≤ s := by
  induction l generalizing hit md with
  | nil => exact ⟨(hit, md), rfl, le_rfl, Or.inl rfl, by simp⟩
  | cons x l ih =>
    have hx := hQ x (by simp) (toF md)
    have ih' := ih (fun y hy => hQ y (by simp [hy])) (fun y hy => hA y (by simp [hy])) (fun y hy => hB y (by simp [hy]))
    have e : rayLoop rnd toF r t0 ((x :: l).map obj) hit md =
        if (Q x (toF md)).1 then rayLoop rnd toF r t0 (l.map obj) true (Q x (toF md)).2
        else rayLoop rnd toF r t0 (l.map obj) hit md := by
      rw [List.map_cons]
      show (do
        let q ← (obj x).1.ray (rayNew rnd (apply rnd (obj x).2 r.origin) (mulVec rnd (obj x).2.R r.direction)) t0 (toF md) 0
        if q.1 then rayLoop rnd toF r t0 (l.map obj) true q.2 else rayLoop rnd toF r t0 (l.map obj) hit md) = _
      rw [hx]
      rfl
    rw [e, hmd]
    rcases hq : (Q x md).1 with _ | _
    · obtain ⟨res, h1, h2, h3, h4⟩ := ih' hit md hmd
      refine ⟨res, by simpa using h1, h2, ?_, ?_⟩
      · rcases h3 with h3 | ⟨h3, h3', y, hy, h5⟩
        · exact Or.inl h3
        · exact Or.inr ⟨h3, h3', y, by simp [hy], h5⟩
      · intro y hy s hs
        rcases List.mem_cons.1 hy with rfl | hy
        · rcases lt_or_ge s md with h | h
          · have := (hB y (by simp) s hs md h).1
            rw [hq] at this
            simp at this
          · exact h2.trans h
        · exact h4 y hy s hs
    · obtain ⟨a1, ⟨z, a2⟩, a3⟩ := hA x (by simp) md hq
      obtain ⟨res, h1, h2, h3, h4⟩ := ih' true (Q x md).2 (by rw [a2, hid])
      refine ⟨res, by simpa using h1, h2.trans a1.le, Or.inr ?_, ?_⟩
      · rcases h3 with h3 | ⟨h3, h3', y, hy, h5⟩
        · rw [h3]
          exact ⟨rfl, a1, x, by simp, a3⟩
        · exact ⟨h3, h3'.trans a1, y, by simp [hy], h5⟩
      · intro y hy s hs
        rcases List.mem_cons.1 hy with rfl | hy
        · rcases lt_or_ge s md with h | h
          · exact h2.trans (hB y (by simp) s hs md h).2
          · exact (h2.trans a1.le).trans h
        · exact h4 y hy s hs

end Geo.Rounded
