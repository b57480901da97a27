import Verif.Lemmas.RoundedLaserDepth

/-!
# The laser range finder in floating point arithmetic: beams that meet a line
-/

namespace Geo
open Spec

namespace RoundedLRF

variable {u v : ℝ} {F : FloatLib}

/-- The test against the maximum range does not skip a segment that is well within it. -/
theorem not_far (h : RelErr u F.rnd) (hu : u ≤ 1 / 1000) {p1 p2 : Vec2} {R : ℝ}
    (hR : R ≤ 0 ∨ ((1 + 40 * u) * p1.length2 ≤ R ^ 2 ∧ (1 + 40 * u) * p2.length2 ≤ R ^ 2)) :
    ¬ (R > 0 ∧ distanceSq F p1 p2 > F.rnd (R * R)) := by
  rintro ⟨h1, h2⟩
  rcases hR with hR | ⟨r1, r2⟩
  · linarith
  have hu0 := relErr_nonneg' h
  obtain ⟨m, hm⟩ : ∃ m, m = Real.sqrt (max p1.length2 p2.length2) := ⟨_, rfl⟩
  have L0 : 0 ≤ p1.length2 := add_nonneg (mul_self_nonneg _) (mul_self_nonneg _)
  have hm2 : m ^ 2 = max p1.length2 p2.length2 := by rw [hm, Real.sq_sqrt (L0.trans (le_max_left _ _))]
  have d := distanceSq_le h hu (hm ▸ Real.sqrt_nonneg _ : 0 ≤ m) (hm2 ▸ le_max_left _ _) (hm2 ▸ le_max_right _ _)
  have hb : (1 + 40 * u) * m ^ 2 ≤ R ^ 2 := by
    rw [hm2]
    rcases max_choice p1.length2 p2.length2 with c | c <;> rw [c] <;> assumption
  have e := (abs_le.1 (h (R * R))).1
  rw [abs_of_nonneg (mul_self_nonneg R)] at e
  have f := mul_le_mul_of_nonneg_left hb (show (0 : ℝ) ≤ 1 - u by linarith)
  have g : 0 ≤ m ^ 2 := sq_nonneg m
  have g2 : 0 ≤ u * m ^ 2 := mul_nonneg hu0 g
  have g3 := mul_le_mul_of_nonneg_right hu g2
  nlinarith

/-- Different points have a positive computed distance. -/
theorem far_apart (h : RelErr u F.rnd) (hu : u ≤ 1 / 1000) {p1 p2 : Vec2} (hs : 0 < |(p2 - p1).x| + |(p2 - p1).y|) :
    length2 F (sub F p2 p1) ≠ 0 := by
  obtain ⟨e1, e2⟩ := sub_err h hu p1 p2
  have hne : 0 < (sub F p2 p1).length2 := by
    have z : ∀ a b : ℝ, |a - b| ≤ 1.02 * u * |b| → a = 0 → b = 0 := by
      intro a b hab ha
      rw [ha, zero_sub, abs_neg] at hab
      have := mul_le_mul_of_nonneg_right (show 1.02 * u ≤ 0.5 by linarith) (abs_nonneg b)
      have : |b| = 0 := le_antisymm (by linarith) (abs_nonneg b)
      exact abs_eq_zero.1 this
    unfold Vec2.length2
    by_contra hn
    have n1 := mul_self_nonneg (sub F p2 p1).x
    have n2 := mul_self_nonneg (sub F p2 p1).y
    have z1 := z _ _ e1 (mul_self_eq_zero.1 (by linarith))
    have z2 := z _ _ e2 (mul_self_eq_zero.1 (by linarith))
    rw [z1, z2] at hs
    simp at hs
  have := (abs_le.1 (length2_err h hu (sub F p2 p1))).1
  have := mul_le_mul_of_nonneg_right (show 2.04 * u ≤ 0.5 by linarith) hne.le
  intro h0
  linarith

/-- The indices of the end points of a segment around a beam. -/
theorem indices (hF : Accurate u v F) (hu : u ≤ 1 / 1000) {l : LRF} (h : RoundedFine u F l) {p1 p2 : Vec2}
    (a1 : l.aMin ≤ atan2 p1.y p1.x) {j : ℕ}
    (b1 : atan2 p1.y p1.x + 50 * u < beamAngle l.aMin l.aMax l.numBeams j)
    (b2 : beamAngle l.aMin l.aMax l.numBeams j ≤ atan2 p2.y p2.x - 50 * u)
    (b3 : atan2 p2.y p2.x - atan2 p1.y p1.x + 2 * spacing l + 120 * u ≤ Real.pi) :
    ∃ k1 k2 : ℤ, getAngleUpperIndexRaw2 F l p1.x p1.y = .ok k1 ∧ getAngleUpperIndexRaw2 F l p2.x p2.y = .ok k2 ∧
      k1 ≤ j ∧ (j : ℤ) < k2 ∧ k2 - k1 < l.iHalfCircle := by
  have hu0 := relErr_nonneg' hF.rnd
  have hs := spacing_pos h.order
  obtain ⟨m1, w1⟩ := abs_atan2 hF hu p1.y p1.x
  obtain ⟨m2, w2⟩ := abs_atan2 hF hu p2.y p2.x
  obtain ⟨k1, q1, e1, c1, f1, g1⟩ := index_ok hF hu h m1
  obtain ⟨k2, q2, e2, c2, f2, g2⟩ := index_ok hF hu h m2
  have hlo := h.lo
  have hhi := h.hi
  have hor := h.order
  -- bounds of the quotients times the spacing
  have B : ∀ (x q : ℝ), |x| ≤ 3.2 → |q - (x - l.aMin) / spacing l| ≤ 4.2 * u * |(x - l.aMin) / spacing l| →
      |q * spacing l - (x - l.aMin)| ≤ 31 * u := by
    intro x q hx hq
    have e : q * spacing l - (x - l.aMin) = (q - (x - l.aMin) / spacing l) * spacing l := by
      rw [sub_mul, div_mul_cancel₀ _ hs.ne']
    have e2 : |(x - l.aMin) / spacing l| * spacing l = |x - l.aMin| := by
      rw [abs_div, abs_of_pos hs, div_mul_cancel₀ _ hs.ne']
    have e3 : |x - l.aMin| ≤ 7.2 := by
      have := abs_le.1 hx
      rw [abs_le]; constructor <;> linarith
    rw [e, abs_mul, abs_of_pos hs]
    have e4 := mul_le_mul_of_nonneg_right hq hs.le
    have e5 := mul_le_mul_of_nonneg_left e3 hu0
    rw [mul_assoc, e2] at e4
    linarith
  obtain ⟨x1, y1⟩ := abs_le.1 (B _ _ m1 c1)
  obtain ⟨x2, y2⟩ := abs_le.1 (B _ _ m2 c2)
  obtain ⟨x3, y3⟩ := abs_le.1 w1
  obtain ⟨x4, y4⟩ := abs_le.1 w2
  rw [LRF.beamAngle_eq] at b1 b2
  have hj1 : 1 ≤ j := by
    by_contra hn
    have : j = 0 := by omega
    rw [this] at b1
    push_cast at b1
    linarith
  have hk1 : k1 ≤ j := by
    rcases le_or_gt 0 q1 with d | d
    · have hq : q1 < j := by
        by_contra hn
        have := mul_le_mul_of_nonneg_right (not_lt.1 hn) hs.le
        linarith
      have : (k1 : ℝ) < ((j + 1 : ℤ) : ℝ) := by
        push_cast
        linarith [(f1 d).2.1]
      have : k1 < (j : ℤ) + 1 := by exact_mod_cast this
      omega
    · have := (g1 d).1
      omega
  have hq2 : (j : ℝ) ≤ q2 := by
    by_contra hn
    have := mul_lt_mul_of_pos_right (not_le.1 hn) hs
    linarith
  have hk2 : (j : ℤ) < k2 := by
    have : ((j : ℤ) : ℝ) < k2 := by
      push_cast
      exact lt_of_le_of_lt hq2 (f2 ((Nat.cast_nonneg j).trans hq2)).2.2
    exact_mod_cast this
  refine ⟨k1, k2, e1, e2, hk1, hk2, ?_⟩
  have hf := (half_ok hF hu h).2
  have l1 : q1 < k1 := by
    rcases le_or_gt 0 q1 with d | d
    · exact (f1 d).2.2
    · linarith [(g1 d).2.1]
  have l2 := (f2 ((Nat.cast_nonneg j).trans hq2)).2.1
  have hpi := Real.pi_lt_d2
  have hpi0 := Real.pi_pos
  have hfs := mul_lt_mul_of_pos_right hf hs
  have e5 : Real.pi / spacing l * (1 - 6 * u) * spacing l = Real.pi * (1 - 6 * u) := by
    field_simp
  rw [e5] at hfs
  have hlt : ((k2 - k1 : ℤ) : ℝ) < ((l.iHalfCircle : ℤ) : ℝ) := by
    push_cast
    by_contra hn
    have A : (l.iHalfCircle : ℝ) + 1 < q2 - q1 + 2 := by linarith
    have A2 := mul_lt_mul_of_pos_right A hs
    have A3 := mul_le_mul_of_nonneg_left hpi.le hu0
    nlinarith
  exact_mod_cast hlt

/-- A line around a beam changes the range of the beam. -/
theorem line_drawn (hF : Accurate u v F) (hu : u ≤ 1 / 1000) {l : LRF} (h : RoundedFine u F l) {p1 p2 : Vec2}
    (n1 : ¬ (p1.x = 0 ∧ p1.y = 0)) (n2 : ¬ (p2.x = 0 ∧ p2.y = 0)) (hs : 0 < |(p2 - p1).x| + |(p2 - p1).y|)
    (hR : l.rangeMax ≤ 0 ∨ ((1 + 40 * u) * p1.length2 ≤ l.rangeMax ^ 2 ∧ (1 + 40 * u) * p2.length2 ≤ l.rangeMax ^ 2))
    (a1 : l.aMin ≤ atan2 p1.y p1.x) {j : ℕ} (hj : j < l.numBeams)
    (b1 : atan2 p1.y p1.x + 50 * u < beamAngle l.aMin l.aMax l.numBeams j)
    (b2 : beamAngle l.aMin l.aMax l.numBeams j ≤ atan2 p2.y p2.x - 50 * u)
    (b3 : atan2 p2.y p2.x - atan2 p1.y p1.x + 2 * spacing l + 120 * u ≤ Real.pi)
    (res : RenderResult) (hl : res.ranges.length = l.numBeams) :
    ∃ res', renderLine F l res p1 p2 = .ok res' ∧ res'.ranges.length = l.numBeams ∧
      res'.ranges[j]? = (res.ranges[j]?).map fun r =>
        match hit F l p1 (sub F p2 p1) j with | none => r | some d => combine r d := by
  have t := (tables hF hu (h.inv hF hu) h.beams h.order h.few).2.1
  obtain ⟨k1, k2, e1, e2, c1, c2, c3⟩ := indices hF hu h a1 b1 b2 b3
  have hi : intOp (max k1 k2 - min k1 k2) = .ok (max k1 k2 - min k1 k2) := by
    have hh := (half_ok hF hu h).1
    have : l.iHalfCircle < 2 ^ 31 := by
      unfold toInt32 at hh
      split_ifs at hh with c
      · exact c
      · omega
    unfold intOp
    rw [if_pos ⟨by omega, by omega⟩]
  obtain ⟨r1, d1, d2, d3⟩ := drawPart_range (F := F) l p1 (sub F p2 p1) (max 0 (min k1 k2)).toNat
    (min l.numBeams (max 0 (max k1 k2)).toNat) res.ranges (by omega) (by omega)
  have hp : parts F l p1 p2 res = .ok (some (((max 0 (min k1 k2)).toNat, min l.numBeams (max 0 (max k1 k2)).toNat), (0, 0),
      (min res.minI (max 0 (min k1 k2)).toNat, max res.maxI (min l.numBeams (max 0 (max k1 k2)).toNat)))) := by
    unfold parts
    simp only [e1, e2, bind, Except.bind, hi, (half_ok hF hu h).1, beams_ok h, pure, Except.pure]
    rw [if_pos (by omega), if_neg (by omega), if_neg (by omega)]
  refine ⟨⟨min res.minI (max 0 (min k1 k2)).toNat, max res.maxI (min l.numBeams (max 0 (max k1 k2)).toNat), r1⟩, ?_,
    d2.trans hl, ?_⟩
  rotate_left
  · rw [d3]
    congr 1
    funext r
    unfold drawn
    rw [if_pos ⟨by omega, by omega⟩]
    cases hit F l p1 (sub F p2 p1) j <;> rfl
  · unfold renderLine
    dsimp only
    rw [if_neg (by
      rintro (x | x | x)
      · exact n1 x
      · exact n2 x
      · exact far_apart hF.rnd hu hs x), if_neg (not_far hF.rnd hu hR)]
    simp only [hp, bind, Except.bind, d1]
    rfl

/-- Setting up a sensor. -/
theorem setup (hF : Accurate u v F) (hu : u ≤ 1 / 1000) {a b r R : ℝ} {n : ℕ} (hn : 0 < n) (hab : a < b) (lo : -4 ≤ a)
    (hi : b ≤ 4) (hf : n * u ≤ 1 / 1000) (hs : 8 * (max (n - 1) 1 : ℕ) ≤ (2 ^ 31 - 3) * (b - a)) :
    ∃ l, run F LRF.new [.rangeLimits r R, .angleLimits a b, .numBeams n] = .ok l ∧
      l.aMin = a ∧ l.aMax = b ∧ l.numBeams = n ∧ l.rangeMax = R ∧ RoundedFine u F l := by
  have hu0 := relErr_nonneg' hF.rnd
  have hN : (0 : ℝ) < (max (n - 1) 1 : ℕ) := by exact_mod_cast (by omega : 0 < max (n - 1) 1)
  obtain ⟨w, hw⟩ : ∃ w, w = (b - a) / (max (n - 1) 1 : ℕ) := ⟨_, rfl⟩
  have hw0 : 0 < w := by rw [hw]; exact div_pos (sub_pos.2 hab) hN
  have hst : 8 ≤ (2 ^ 31 - 3) * w := by
    rw [hw, ← mul_div_assoc, le_div_iff₀ hN]
    exact hs
  obtain ⟨incr, hincr⟩ : ∃ x, x = F.rnd (F.rnd (b - a) / (max (n - 1) 1 : ℕ)) := ⟨_, rfl⟩
  have hi1 : |incr - w| ≤ 2.04 * u * w := by
    have := incr_err (F := F) hF.rnd hu (x := b - a) hN
    rw [← hw, abs_of_pos hw0] at this
    rw [hincr]
    exact this
  have hpi := Real.pi_pos
  have hpi2 := Real.pi_lt_d2
  have hp := hF.pi
  rw [show 2 * u * Real.pi = 2 * u * |Real.pi| by rw [abs_of_pos hpi]] at hp
  obtain ⟨-, p1⟩ := div_err hu0 hu hw0 (by norm_num) hp hi1
  have p2 := Rounded.step hF.rnd hu0 hu (by norm_num) le_rfl p1
  obtain ⟨q, hq⟩ : ∃ q, q = F.rnd (F.pi / incr) := ⟨_, rfl⟩
  rw [← hq] at p2
  have hQ : 0 < Real.pi / w := div_pos hpi hw0
  rw [abs_of_pos hQ] at p2
  obtain ⟨g1, g2⟩ := abs_le.1 p2
  have hq0 : 0 ≤ q := by
    have := mul_nonneg hu0 hQ.le
    nlinarith
  obtain ⟨x1, x2, x3⟩ := (trunc_bounds q).1 hq0
  have hlt : trunc q < 2 ^ 31 := by
    have e1 : Real.pi / w * w = Real.pi := div_mul_cancel₀ _ hw0.ne'
    have e2 : q ≤ 1.01 * (Real.pi / w) := by nlinarith
    have e3 := mul_le_mul_of_nonneg_right e2 hw0.le
    have : q < 2 ^ 31 - 3 := by
      by_contra hn
      have := mul_le_mul_of_nonneg_right (not_lt.1 hn) hw0.le
      linarith
    have : (trunc q : ℝ) < ((2 ^ 31 : ℤ) : ℝ) := by push_cast; linarith
    exact_mod_cast this
  have hc : castUInt q = .ok (trunc q).toNat := by
    unfold castUInt
    rw [if_pos ⟨x1, by omega⟩]
  obtain ⟨l, hl⟩ : ∃ l, run F LRF.new [.rangeLimits r R, .angleLimits a b, .numBeams n] = .ok l := by
    simp only [run, step, LRF.setRangeLimits, setAngleLimits, setNumBeams, LRF.new, bind, Except.bind, calculateRays]
    rw [if_neg (by omega)]
    simp only
    rw [if_pos ⟨hn, (rel_pos hF.rnd hu).2 (sub_pos.2 hab)⟩, ← hincr, ← hq, hc]
    exact ⟨_, rfl⟩
  obtain ⟨_, i1, i2, i3⟩ := run_inv hF.rnd hu _ _ _ inv_new hl
  simp only [List.foldl, Prod.mk.injEq] at i1 i2 i3
  refine ⟨l, hl, i1.1, i1.2, i3, i2.2, ⟨_, hl⟩, by omega, by rw [i1.1, i1.2]; exact hab, by rw [i1.1]; exact lo,
    by rw [i1.2]; exact hi, by rw [i3]; exact hf, ?_⟩
  unfold spacing
  rw [i1.1, i1.2, i3, ← hw]
  exact hst

end RoundedLRF

end Geo
