import Verif.Lemmas.LaserRangeFinder
import Verif.Lemmas.Math

/-!
# Lemmas about `renderLine` of the laser range finder
-/

namespace Geo

open Spec

theorem polar_form {p : Vec2} (h : ¬ (p.x = 0 ∧ p.y = 0)) :
    ∃ ρ : ℝ, 0 < ρ ∧ p.x = ρ * Real.cos (atan2 p.y p.x) ∧ p.y = ρ * Real.sin (atan2 p.y p.x) := by
  have hz : (⟨p.x, p.y⟩ : ℂ) ≠ 0 := by
    intro hc
    exact h ⟨congrArg Complex.re hc, congrArg Complex.im hc⟩
  refine ⟨‖(⟨p.x, p.y⟩ : ℂ)‖, norm_pos_iff.2 hz, ?_, ?_⟩
  · exact (Complex.norm_mul_cos_arg ⟨p.x, p.y⟩).symm
  · exact (Complex.norm_mul_sin_arg ⟨p.x, p.y⟩).symm

theorem sin_pos_cases {x : ℝ} (h1 : -(2 * Real.pi) ≤ x) (h2 : x ≤ 2 * Real.pi) (h : 0 < Real.sin x) :
    (0 < x ∧ x < Real.pi) ∨ (-(2 * Real.pi) < x ∧ x < -Real.pi) := by
  have hp := Real.pi_pos
  by_cases h0 : 0 ≤ x
  · left
    have : x ≠ 0 := by rintro rfl; simp at h
    refine ⟨lt_of_le_of_ne h0 this.symm, ?_⟩
    by_contra hc
    have := Real.sin_nonneg_of_nonneg_of_le_pi (x := x - Real.pi) (by linarith) (by linarith)
    rw [Real.sin_sub_pi] at this
    linarith
  · right
    have g : Real.sin (x + 2 * Real.pi) = Real.sin x := Real.sin_add_two_pi x
    refine ⟨lt_of_le_of_ne h1 ?_, ?_⟩
    · rintro rfl
      simp at h
    · by_contra hc
      have := Real.sin_nonpos_of_nonpos_of_neg_pi_le (x := x) (by linarith) (by linarith)
      linarith

theorem sin_nonneg_cases {x : ℝ} (h1 : -(2 * Real.pi) ≤ x) (h2 : x ≤ 2 * Real.pi) (h : 0 ≤ Real.sin x) :
    (0 ≤ x ∧ x ≤ Real.pi) ∨ (-(2 * Real.pi) ≤ x ∧ x ≤ -Real.pi) ∨ x = 2 * Real.pi := by
  have hp := Real.pi_pos
  by_cases h0 : 0 ≤ x
  · by_cases hx : x ≤ Real.pi
    · exact .inl ⟨h0, hx⟩
    · right; right
      by_contra hc
      have := Real.sin_pos_of_pos_of_lt_pi (x := x - Real.pi) (by linarith)
        (by have := lt_of_le_of_ne h2 hc; linarith)
      rw [Real.sin_sub_pi] at this
      linarith
  · right; left
    refine ⟨h1, ?_⟩
    by_contra hc
    have := Real.sin_neg_of_neg_of_neg_pi_lt (x := x) (by linarith) (by linarith)
    linarith

/-- A beam between the end points of a segment seen counter-clockwise hits the segment at the computed depth. -/
theorem beam_hits {p1 p2 r : Vec2} (h : 0 < p1.cross p2) (hr : ¬ (r.x = 0 ∧ r.y = 0)) (h1 : 0 ≤ p1.cross r)
    (h2 : 0 ≤ r.cross p2) :
    0 < r.cross (p2 - p1) ∧ 0 < p1.cross (p2 - p1) / r.cross (p2 - p1) ∧
    OnSeg p1 p2 ⟨p1.cross (p2 - p1) / r.cross (p2 - p1) * r.x, p1.cross (p2 - p1) / r.cross (p2 - p1) * r.y⟩ := by
  have e1 : r.cross (p2 - p1) = r.cross p2 + p1.cross r := by simp [Vec2.cross]; ring
  have e2 : p1.cross (p2 - p1) = p1.cross p2 := by simp [Vec2.cross]; ring
  have hD : 0 < r.cross (p2 - p1) := by
    rw [e1]
    rcases h1.lt_or_eq with g | g
    · linarith
    rcases h2.lt_or_eq with g' | g'
    · linarith
    exfalso
    simp only [Vec2.cross] at g g' h
    apply hr
    constructor
    · have : (p1.x * p2.y - p1.y * p2.x) * r.x = 0 := by linear_combination p1.x * (-g') + p2.x * (-g)
      exact (mul_eq_zero.1 this).resolve_left h.ne'
    · have : (p1.x * p2.y - p1.y * p2.x) * r.y = 0 := by linear_combination p1.y * (-g') + p2.y * (-g)
      exact (mul_eq_zero.1 this).resolve_left h.ne'
  refine ⟨hD, div_pos (by rw [e2]; exact h) hD, p1.cross r / r.cross (p2 - p1), div_nonneg h1 hD.le, ?_, ?_, ?_⟩
  · rw [div_le_one hD, e1]; linarith
  · field_simp
    simp [Vec2.cross]
    ring
  · field_simp
    simp [Vec2.cross]
    ring

/-- Converse: a beam that meets a segment seen counter-clockwise lies between its end points, and the computed depth is
the distance. -/
theorem hits_beam {p1 p2 r : Vec2} {d t : ℝ} (h : 0 < p1.cross p2) (hd : 0 < d) (ht : 0 < t) (ht1 : t ≤ 1)
    (hq : AtParam p1 p2 t ⟨d * r.x, d * r.y⟩) :
    0 < p1.cross r ∧ 0 ≤ r.cross p2 ∧ p1.cross (p2 - p1) / r.cross (p2 - p1) = d ∧ (t < 1 → 0 < r.cross p2) := by
  obtain ⟨hx, hy⟩ := hq
  simp only at hx hy
  have g1 : d * p1.cross r = t * p1.cross p2 := by
    simp only [Vec2.cross]
    linear_combination p1.x * hy - p1.y * hx
  have g2 : d * r.cross p2 = (1 - t) * p1.cross p2 := by
    simp only [Vec2.cross]
    linear_combination p2.y * hx - p2.x * hy
  have a1 : 0 < p1.cross r := by
    have : 0 < d * p1.cross r := by rw [g1]; positivity
    exact (mul_pos_iff_of_pos_left hd).1 this
  have a2 : 0 ≤ r.cross p2 := by
    have : 0 ≤ d * r.cross p2 := by rw [g2]; exact mul_nonneg (by linarith) h.le
    exact nonneg_of_mul_nonneg_right this hd
  refine ⟨a1, a2, ?_, fun h1 => ?_⟩
  rotate_left
  · have : 0 < d * r.cross p2 := by rw [g2]; exact mul_pos (by linarith) h
    exact (mul_pos_iff_of_pos_left hd).1 this
  have e1 : r.cross (p2 - p1) = r.cross p2 + p1.cross r := by simp [Vec2.cross]; ring
  have e2 : p1.cross (p2 - p1) = p1.cross p2 := by simp [Vec2.cross]; ring
  rw [e1, e2, div_eq_iff (by linarith)]
  linear_combination -g1 - g2

theorem cross_polar {p q : Vec2} {ρ σ α β : ℝ} (h1 : p.x = ρ * Real.cos α) (h2 : p.y = ρ * Real.sin α)
    (h3 : q.x = σ * Real.cos β) (h4 : q.y = σ * Real.sin β) : p.cross q = ρ * σ * Real.sin (β - α) := by
  rw [Real.sin_sub]
  simp only [Vec2.cross, h1, h2, h3, h4]
  ring

/-! ## Distance of a segment -/

theorem distanceSq_least {p1 p2 : Vec2} (h : (p2 - p1).length2 ≠ 0) :
    IsLeast {m | ∃ q, OnSeg p1 p2 q ∧ m = q.x ^ 2 + q.y ^ 2} (RenderResult.distanceSq p1 p2) := by
  have hL : 0 < (p2 - p1).length2 := by
    refine lt_of_le_of_ne ?_ (Ne.symm h)
    simp only [Vec2.length2]
    nlinarith [mul_self_nonneg (p2 - p1).x, mul_self_nonneg (p2 - p1).y]
  have hLe : (p2 - p1).length2 = (p2.x - p1.x) ^ 2 + (p2.y - p1.y) ^ 2 := by simp [Vec2.length2]; ring
  obtain ⟨T, hT⟩ : ∃ T, T = p1.dot (p2 - p1) / -(p2 - p1).length2 := ⟨_, rfl⟩
  have hTL : T * (p2 - p1).length2 = -(p1.x * (p2.x - p1.x) + p1.y * (p2.y - p1.y)) := by
    rw [hT, div_neg, neg_mul, div_mul_cancel₀ _ hL.ne']
    simp [Vec2.dot]
  -- the squared distance along the segment, relative to the best parameter
  have sq : ∀ t : ℝ, (p1.x + t * (p2.x - p1.x)) ^ 2 + (p1.y + t * (p2.y - p1.y)) ^ 2 =
      p1.x ^ 2 + p1.y ^ 2 + ((t - T) ^ 2 - T ^ 2) * (p2 - p1).length2 := by
    intro t
    linear_combination (2 * t) * hTL - t ^ 2 * hLe
  have val : RenderResult.distanceSq p1 p2 = if T < 0 then p1.x ^ 2 + p1.y ^ 2 else if T > 1 then
      p2.x ^ 2 + p2.y ^ 2 else (p1.x + T * (p2.x - p1.x)) ^ 2 + (p1.y + T * (p2.y - p1.y)) ^ 2 := by
    unfold RenderResult.distanceSq
    dsimp only
    rw [← hT]
    split_ifs
    · simp [Vec2.length2]; ring
    · simp [Vec2.length2]; ring
    · simp [Vec2.length2]; ring
  rw [val]
  have one := sq 1
  split_ifs with c1 c2
  · refine ⟨⟨p1, ⟨0, le_rfl, zero_le_one, by constructor <;> ring⟩, rfl⟩, ?_⟩
    rintro m ⟨q, ⟨t, t0, t1, hx, hy⟩, rfl⟩
    rw [hx, hy, sq]
    have : 0 ≤ ((t - T) ^ 2 - T ^ 2) * (p2 - p1).length2 := mul_nonneg (by nlinarith) hL.le
    linarith
  · refine ⟨⟨p2, ⟨1, zero_le_one, le_rfl, by constructor <;> ring⟩, rfl⟩, ?_⟩
    rintro m ⟨q, ⟨t, t0, t1, hx, hy⟩, rfl⟩
    have e : p2.x ^ 2 + p2.y ^ 2 = (p1.x + 1 * (p2.x - p1.x)) ^ 2 + (p1.y + 1 * (p2.y - p1.y)) ^ 2 := by ring
    rw [hx, hy, e, sq, sq]
    have : ((1 - T) ^ 2 - T ^ 2) * (p2 - p1).length2 ≤ ((t - T) ^ 2 - T ^ 2) * (p2 - p1).length2 :=
      mul_le_mul_of_nonneg_right (by nlinarith) hL.le
    linarith
  · push Not at c1 c2
    refine ⟨⟨⟨_, _⟩, ⟨T, c1, c2, rfl, rfl⟩, rfl⟩, ?_⟩
    rintro m ⟨q, ⟨t, t0, t1, hx, hy⟩, rfl⟩
    rw [hx, hy, sq, sq]
    have : ((T - T) ^ 2 - T ^ 2) * (p2 - p1).length2 ≤ ((t - T) ^ 2 - T ^ 2) * (p2 - p1).length2 :=
      mul_le_mul_of_nonneg_right (by nlinarith [sq_nonneg (t - T)]) hL.le
    linarith

/-! ## Effect of `renderLine` -/

theorem drawPart_range (l : LRF) (p1 s : Vec2) (a b : ℕ) (ranges : List EReal) (h1 : b ≤ l.rayDirs.length)
    (h2 : b ≤ ranges.length) : ∃ ranges', RenderResult.drawPart l p1 s (b - a) a ranges = .ok ranges' ∧
      ranges'.length = ranges.length ∧ ∀ j, ranges'[j]? = (ranges[j]?).map (drawn l p1 s a b j) := by
  by_cases hab : a ≤ b
  · have := drawPart_ok l p1 s (b - a) a ranges (by omega) (by omega)
    rwa [show a + (b - a) = b by omega] at this
  · refine ⟨ranges, ?_, rfl, fun j => ?_⟩
    · rw [show b - a = 0 by omega]; rfl
    · have : drawn l p1 s a b j = id := by
        funext r
        unfold drawn
        rw [if_neg (by omega)]
        rfl
      rw [this, Option.map_id, id]

theorem Spec.Fine.index {l : LRF} (h : Fine l) {a : ℝ} (hb : a ≤ Real.pi) :
    (a - l.aMin) / spacing l < 2 ^ 31 - 1 := by
  have hs := LRF.spacing_pos h.ready
  rw [div_lt_iff₀ hs]
  have := h.steps
  have := h.lo
  linarith

theorem Spec.Fine.half {l : LRF} (h : Fine l) : (l.iHalfCircle : ℤ) = ⌊Real.pi / spacing l⌋ ∧
    toInt32 l.iHalfCircle = ⌊Real.pi / spacing l⌋ := by
  have hs := LRF.spacing_pos h.ready
  have hc := (LRF.ready_inv h.ready).2.2
  have hq : 0 ≤ Real.pi / spacing l := div_nonneg Real.pi_pos.le hs.le
  have ht : trunc (Real.pi / spacing l) = ⌊Real.pi / spacing l⌋ := by rw [trunc, if_pos hq]
  have hf : 0 ≤ ⌊Real.pi / spacing l⌋ := Int.floor_nonneg.2 hq
  have hl : ⌊Real.pi / spacing l⌋ < 2 ^ 31 - 1 := by
    apply Int.floor_lt.2
    rw [div_lt_iff₀ hs]
    have := h.steps
    have := Real.pi_pos
    push_cast
    linarith
  unfold castUInt at hc
  rw [ht] at hc
  split_ifs at hc with hcc
  simp only [Except.ok.injEq] at hc
  have e : (l.iHalfCircle : ℤ) = ⌊Real.pi / spacing l⌋ := by omega
  refine ⟨e, ?_⟩
  unfold toInt32
  rw [if_pos (by omega), e]

theorem Spec.Fine.beams {l : LRF} (h : Fine l) : toInt32 l.numBeams = l.numBeams := by
  have hs := LRF.spacing_pos h.ready
  have h1 : ((max (l.numBeams - 1) 1 : ℕ) : ℝ) * spacing l = l.aMax - l.aMin := by
    unfold spacing
    rw [mul_div_cancel₀]
    exact_mod_cast (by omega : max (l.numBeams - 1) 1 ≠ 0)
  have h2 : ((max (l.numBeams - 1) 1 : ℕ) : ℝ) < 2 ^ 31 - 1 := by
    have a := h.steps
    have b := h.lo
    have c := h.hi
    by_contra hc
    push Not at hc
    have := mul_le_mul_of_nonneg_right hc hs.le
    linarith
  have h3 : max (l.numBeams - 1) 1 < 2 ^ 31 - 1 := by
    have : ((max (l.numBeams - 1) 1 : ℕ) : ℝ) < ((2 ^ 31 - 1 : ℕ) : ℝ) := by
      refine h2.trans_le ?_
      norm_num
    exact_mod_cast this
  unfold toInt32
  rw [if_pos (by omega)]


/-- Number of the first beam beyond an angle. -/
noncomputable def idx (l : LRF) (a : ℝ) : ℤ := ⌊(a - l.aMin) / spacing l⌋ + 1

/-- The effect of `renderLine` on the ranges, given the two indices. -/
theorem renderLine_raw {l : LRF} {p1 p2 : Vec2} {k1 k2 hf : ℤ} (n1 : ¬ (p1.x = 0 ∧ p1.y = 0))
    (n2 : ¬ (p2.x = 0 ∧ p2.y = 0)) (n3 : (p2 - p1).length2 ≠ 0)
    (hr : ¬ (l.rangeMax > 0 ∧ RenderResult.distanceSq p1 p2 > l.rangeMax * l.rangeMax))
    (i1 : l.getAngleUpperIndexRaw2 p1.x p1.y = .ok k1) (i2 : l.getAngleUpperIndexRaw2 p2.x p2.y = .ok k2)
    (hk : max k1 k2 - min k1 k2 < 2 ^ 31) (hhalf : toInt32 l.iHalfCircle = hf) (hbeams : toInt32 l.numBeams = l.numBeams)
    (t2 : l.rayDirs.length = l.numBeams) (res : RenderResult) (hl : res.ranges.length = l.numBeams) :
    ∃ res', RenderResult.renderLine l res p1 p2 = .ok res' ∧ res'.ranges.length = l.numBeams ∧ ∀ j : ℕ,
      res'.ranges[j]? = (res.ranges[j]?).map (
        if max k1 k2 - min k1 k2 < hf then
          if k1 ≤ k2 then drawn l p1 (p2 - p1) k1.toNat (min l.numBeams k2.toNat) j else id
        else if k2 ≤ k1 then
          drawn l p1 (p2 - p1) 0 (min l.numBeams k2.toNat) j ∘ drawn l p1 (p2 - p1) k1.toNat l.numBeams j
        else id) := by
  have hidid : ∀ j : ℕ, res.ranges[j]? = (res.ranges[j]?).map id := by simp
  unfold RenderResult.renderLine
  dsimp only
  rw [if_neg (by rintro (c | c | c); exacts [n1 c, n2 c, n3 c]), if_neg hr]
  unfold RenderResult.parts
  simp only [i1, i2, hhalf, hbeams]
  have hio : intOp (max k1 k2 - min k1 k2) = .ok (max k1 k2 - min k1 k2) := by
    unfold intOp
    rw [if_pos ⟨by omega, by omega⟩]
  simp only [bind, Except.bind, hio]
  by_cases hlt : max k1 k2 - min k1 k2 < hf
  · simp only [if_pos hlt]
    by_cases hk : k1 > k2
    · simp only [if_pos hk, if_neg (not_le.2 hk), pure, Except.pure]
      exact ⟨res, rfl, hl, hidid⟩
    · have hle : k1 ≤ k2 := not_lt.1 hk
      simp only [if_neg hk, if_pos hle]
      by_cases hn : min k1 k2 ≥ (l.numBeams : ℤ)
      · simp only [if_pos hn, pure, Except.pure]
        refine ⟨res, rfl, hl, fun j => ?_⟩
        have : drawn l p1 (p2 - p1) k1.toNat (min l.numBeams k2.toNat) j = id := by
          funext r
          unfold drawn
          rw [if_neg (by omega)]
          rfl
        rw [this, Option.map_id, id]
      · simp only [if_neg hn, pure, Except.pure]
        have e1 : (max 0 (min k1 k2)).toNat = k1.toNat := by omega
        have e2 : (max 0 (max k1 k2)).toNat = k2.toNat := by omega
        rw [e1, e2]
        obtain ⟨r', d1, d2, d3⟩ := drawPart_range l p1 (p2 - p1) k1.toNat (min l.numBeams k2.toNat) res.ranges
          (by omega) (by omega)
        simp only [d1, RenderResult.drawPart, Nat.sub_self]
        exact ⟨_, rfl, d2.trans hl, d3⟩
  · simp only [if_neg hlt]
    by_cases hk : k2 > k1
    · simp only [if_pos hk, if_neg (not_le.2 hk), pure, Except.pure]
      exact ⟨res, rfl, hl, hidid⟩
    · have hle : k2 ≤ k1 := not_lt.1 hk
      simp only [if_neg hk, if_pos hle, pure, Except.pure]
      have e1 : (max 0 (min k1 k2)).toNat = k2.toNat := by omega
      have e2 : (max 0 (max k1 k2)).toNat = k1.toNat := by omega
      rw [e1, e2]
      obtain ⟨r1, d1, d2, d3⟩ := drawPart_range l p1 (p2 - p1) k1.toNat l.numBeams res.ranges (by omega) (by omega)
      obtain ⟨r2, f1, f2, f3⟩ := drawPart_range l p1 (p2 - p1) 0 (min l.numBeams k2.toNat) r1 (by omega) (by omega)
      simp only [d1, f1]
      refine ⟨_, rfl, f2.trans (d2.trans hl), fun j => ?_⟩
      rw [f3, d3, Option.map_map]

/-- The effect of `renderLine` on the ranges when no index computation leaves its range. -/
theorem renderLine_cases {l : LRF} (h : Fine l) {p1 p2 : Vec2} (n1 : ¬ (p1.x = 0 ∧ p1.y = 0))
    (n2 : ¬ (p2.x = 0 ∧ p2.y = 0)) (n3 : (p2 - p1).length2 ≠ 0)
    (hr : ¬ (l.rangeMax > 0 ∧ RenderResult.distanceSq p1 p2 > l.rangeMax * l.rangeMax))
    (a1 : l.aMin ≤ atan2 p1.y p1.x) (a2 : l.aMin ≤ atan2 p2.y p2.x) (res : RenderResult)
    (hl : res.ranges.length = l.numBeams) :
    ∃ res', RenderResult.renderLine l res p1 p2 = .ok res' ∧ res'.ranges.length = l.numBeams ∧ ∀ j : ℕ,
      res'.ranges[j]? = (res.ranges[j]?).map (
        if max (idx l (atan2 p1.y p1.x)) (idx l (atan2 p2.y p2.x)) - min (idx l (atan2 p1.y p1.x))
            (idx l (atan2 p2.y p2.x)) < ⌊Real.pi / spacing l⌋ then
          if idx l (atan2 p1.y p1.x) ≤ idx l (atan2 p2.y p2.x) then
            drawn l p1 (p2 - p1) (idx l (atan2 p1.y p1.x)).toNat
              (min l.numBeams (idx l (atan2 p2.y p2.x)).toNat) j else id
        else if idx l (atan2 p2.y p2.x) ≤ idx l (atan2 p1.y p1.x) then
          drawn l p1 (p2 - p1) 0 (min l.numBeams (idx l (atan2 p2.y p2.x)).toNat) j ∘
            drawn l p1 (p2 - p1) (idx l (atan2 p1.y p1.x)).toNat l.numBeams j
        else id) := by
  obtain ⟨i1, g1⟩ := LRF.raw_ok h.ready a1 (h.index (atan2_mem p1.y p1.x).2)
  obtain ⟨i2, g2⟩ := LRF.raw_ok h.ready a2 (h.index (atan2_mem p2.y p2.x).2)
  have b1 : idx l (atan2 p1.y p1.x) < 2 ^ 31 := by
    have := h.index (atan2_mem p1.y p1.x).2
    have : ⌊(atan2 p1.y p1.x - l.aMin) / spacing l⌋ < 2 ^ 31 - 1 := by
      apply Int.floor_lt.2
      refine this.trans_le ?_
      norm_num
    unfold idx
    omega
  have b2 : idx l (atan2 p2.y p2.x) < 2 ^ 31 := by
    have := h.index (atan2_mem p2.y p2.x).2
    have : ⌊(atan2 p2.y p2.x - l.aMin) / spacing l⌋ < 2 ^ 31 - 1 := by
      apply Int.floor_lt.2
      refine this.trans_le ?_
      norm_num
    unfold idx
    omega
  have c1 : 1 ≤ idx l (atan2 p1.y p1.x) := by unfold idx; omega
  have c2 : 1 ≤ idx l (atan2 p2.y p2.x) := by unfold idx; omega
  change l.getAngleUpperIndexRaw2 p1.x p1.y = .ok (idx l (atan2 p1.y p1.x)) at i1
  change l.getAngleUpperIndexRaw2 p2.x p2.y = .ok (idx l (atan2 p2.y p2.x)) at i2
  obtain ⟨_, t2, _⟩ := (LRF.ready_inv h.ready).1
  exact renderLine_raw n1 n2 n3 hr i1 i2 (by omega) h.half.2 h.beams t2 res hl

end Geo
