import Verif.Lemmas.RoundedLaserLine
import Verif.Lemmas.LaserRangeFinderLine

/-!
# The laser range finder in floating point arithmetic: depths
-/

namespace Geo
open Spec

namespace RoundedLRF

variable {u v : ℝ} {F : FloatLib}

/-- The numerator. -/
theorem num_err (h : RelErr u F.rnd) (hu : u ≤ 1 / 1000) {p s s' : Vec2} (hx : |s'.x - s.x| ≤ 1.02 * u * |s.x|)
    (hy : |s'.y - s.y| ≤ 1.02 * u * |s.y|) : |cross F p s' - p.cross s| ≤ 3.06 * u * (|p.x * s.y| + |p.y * s.x|) := by
  have hu0 := relErr_nonneg' h
  have h1 := Rounded.step_mul (a := p.x) h hu0 hu (by norm_num) hy
  have h2 := Rounded.step_mul (a := p.y) h hu0 hu (by norm_num) hx
  have h3 : |F.rnd (p.x * s'.y) - F.rnd (p.y * s'.x) - p.cross s| ≤ 2.04 * u * (|p.x * s.y| + |p.y * s.x|) := by
    have e : F.rnd (p.x * s'.y) - F.rnd (p.y * s'.x) - p.cross s =
        (F.rnd (p.x * s'.y) - p.x * s.y) - (F.rnd (p.y * s'.x) - p.y * s.x) := by
      simp only [Vec2.cross]; ring
    rw [e]
    have := abs_sub (F.rnd (p.x * s'.y) - p.x * s.y) (F.rnd (p.y * s'.x) - p.y * s.x)
    linarith
  have := Rounded.step h hu0 hu (by norm_num) (abs_sub (p.x * s.y) (p.y * s.x)) h3
  unfold cross
  refine this.trans (le_of_eq ?_)
  ring

/-- A product in the denominator. -/
theorem prod_err (h : RelErr u F.rnd) (hu : u ≤ 1 / 1000) {r r' t t' η : ℝ} (hη : η ≤ 1 / 20) (hr : |r| ≤ 1)
    (hr' : |r' - r| ≤ η) (ht : |t' - t| ≤ 1.02 * u * |t|) : |F.rnd (r' * t') - r * t| ≤ (1.01 * η + 2.1 * u) * |t| := by
  have hu0 := relErr_nonneg' h
  have hη0 := (abs_nonneg _).trans hr'
  have a1 : |t'| ≤ 1.002 * |t| := by
    have := abs_add_le t (t' - t)
    rw [add_sub_cancel] at this
    have := mul_le_mul_of_nonneg_right (show 1.02 * u ≤ 0.002 by linarith) (abs_nonneg t)
    linarith
  have a2 : |r'| ≤ 1.05 := by
    have := abs_add_le r (r' - r)
    rw [add_sub_cancel] at this
    linarith
  have a3 := h (r' * t')
  have a4 : |r' * t'| ≤ 1.05 * (1.002 * |t|) := by
    rw [abs_mul]
    exact mul_le_mul a2 a1 (abs_nonneg _) (by norm_num)
  have a5 : r' * t' - r * t = (r' - r) * t' + r * (t' - t) := by ring
  have a6 : |(r' - r) * t'| ≤ η * (1.002 * |t|) := by
    rw [abs_mul]
    exact mul_le_mul hr' a1 (abs_nonneg _) hη0
  have a7 : |r * (t' - t)| ≤ 1.02 * u * |t| := by
    rw [abs_mul]
    have := mul_le_mul hr ht (abs_nonneg _) (by norm_num : (0 : ℝ) ≤ 1)
    linarith
  have a8 := abs_add_le ((r' - r) * t') (r * (t' - t))
  rw [← a5] at a8
  have a9 := abs_sub_le (F.rnd (r' * t')) (r' * t') (r * t)
  have b1 := mul_le_mul_of_nonneg_left a4 hu0
  have b2 := mul_nonneg hu0 (abs_nonneg t)
  have b3 := mul_nonneg hη0 (abs_nonneg t)
  nlinarith

/-- The denominator. -/
theorem den_err (h : RelErr u F.rnd) (hu : u ≤ 1 / 1000) {r r' s s' : Vec2} {η : ℝ} (hη : η ≤ 1 / 20) (hη4 : 4 * u ≤ η)
    (hrx : |r.x| ≤ 1) (hry : |r.y| ≤ 1) (ex : |r'.x - r.x| ≤ η) (ey : |r'.y - r.y| ≤ η) (hx : |s'.x - s.x| ≤ 1.02 * u * |s.x|)
    (hy : |s'.y - s.y| ≤ 1.02 * u * |s.y|) : |cross F r' s' - r.cross s| ≤ 1.9 * η * (|s.x| + |s.y|) := by
  have hu0 := relErr_nonneg' h
  have h1 := prod_err h hu hη hrx ex hy
  have h2 := prod_err h hu hη hry ey hx
  obtain ⟨S, hS⟩ : ∃ S, S = |s.x| + |s.y| := ⟨_, rfl⟩
  have hS0 : 0 ≤ S := by rw [hS]; positivity
  have h3 : |F.rnd (r'.x * s'.y) - F.rnd (r'.y * s'.x) - r.cross s| ≤ (1.01 * η + 2.1 * u) * S := by
    have e : F.rnd (r'.x * s'.y) - F.rnd (r'.y * s'.x) - r.cross s =
        (F.rnd (r'.x * s'.y) - r.x * s.y) - (F.rnd (r'.y * s'.x) - r.y * s.x) := by
      simp only [Vec2.cross]; ring
    rw [e, hS]
    have := abs_sub (F.rnd (r'.x * s'.y) - r.x * s.y) (F.rnd (r'.y * s'.x) - r.y * s.x)
    linarith
  have h4 : |r.cross s| ≤ S := by
    have a := abs_sub (r.x * s.y) (r.y * s.x)
    rw [abs_mul, abs_mul] at a
    have b := mul_le_mul_of_nonneg_right hrx (abs_nonneg s.y)
    have c := mul_le_mul_of_nonneg_right hry (abs_nonneg s.x)
    unfold Vec2.cross
    linarith
  obtain ⟨w, hw⟩ : ∃ w, w = F.rnd (r'.x * s'.y) - F.rnd (r'.y * s'.x) := ⟨_, rfl⟩
  rw [← hw] at h3
  have h5 : |w| ≤ 1.06 * S := by
    have := abs_add_le (r.cross s) (w - r.cross s)
    rw [add_sub_cancel] at this
    have : (1.01 * η + 2.1 * u) * S ≤ 0.06 * S := mul_le_mul_of_nonneg_right (by linarith) hS0
    linarith
  have h6 := h w
  have h7 := abs_sub_le (F.rnd w) w (r.cross s)
  have h8 := mul_le_mul_of_nonneg_left h5 hu0
  have h9 := mul_le_mul_of_nonneg_right hη4 hS0
  have : cross F r' s' = F.rnd w := by rw [hw]; rfl
  rw [this, ← hS]
  have := mul_nonneg hu0 hS0
  linarith

/-- The quotient, its rounding and its conversion. -/
theorem depth_err (hF : Accurate u v F) (hu : u ≤ 1 / 1000) (hv : v ≤ 1 / 1000) {num den num' den' S P κ η : ℝ} (hS : 0 < S)
    (hκ : 0 < κ) (hP : 0 ≤ P) (hη4 : 4 * u ≤ η) (hηκ : 5 * η ≤ κ) (hn : |num' - num| ≤ 3.06 * u * (P * S))
    (hd : |den' - den| ≤ 1.9 * η * S) (hk : κ * S ≤ |den|) (hk1 : |den| ≤ S) :
    den' ≠ 0 ∧ |F.rnd (num' / den') - num / den| ≤ (7 * u * P + 5 * η * |num / den|) / κ ∧
    |F.toF (F.rnd (num' / den')) - num / den| ≤ depthErr u v η P κ (num / den) := by
  have hu0 := relErr_nonneg' hF.rnd
  have hv0 := relErr_nonneg' hF.toF
  have hκS := mul_pos hκ hS
  have hκ1 : κ ≤ 1 := by
    by_contra hn
    have := mul_lt_mul_of_pos_right (not_le.1 hn) hS
    linarith
  have hden : den ≠ 0 := by
    intro h0
    rw [h0, abs_zero] at hk
    linarith
  have hd1 : 0.62 * (κ * S) ≤ |den'| := by
    have a := abs_add_le den' (den - den')
    rw [add_sub_cancel, abs_sub_comm] at a
    have b := mul_le_mul_of_nonneg_right hηκ hS.le
    linarith
  have hd0 : 0 < |den'| := by linarith
  have hden' : den' ≠ 0 := abs_pos.1 hd0
  obtain ⟨d, hdd⟩ : ∃ d, d = num / den := ⟨_, rfl⟩
  obtain ⟨B, hB⟩ : ∃ B, B = (5 * u * P + 3.1 * η * |d|) / κ := ⟨_, rfl⟩
  have hη0 : 0 ≤ η := by linarith
  have hB0 : 0 ≤ B := by rw [hB]; positivity
  have hz : |num' / den' - d| ≤ B := by
    have e : num' / den' - d = ((num' - num) - d * (den' - den)) / den' := by
      rw [hdd]; field_simp; ring
    rw [e, abs_div, div_le_iff₀ hd0]
    have a := abs_sub (num' - num) (d * (den' - den))
    rw [abs_mul] at a
    have b := mul_le_mul_of_nonneg_left hd (abs_nonneg d)
    have c := mul_le_mul_of_nonneg_left hd1 hB0
    have f : B * (0.62 * (κ * S)) = 0.62 * (5 * u * P + 3.1 * η * |d|) * S := by
      rw [hB]; field_simp
    have g : 0 ≤ u * P * S := by positivity
    have g2 : 0 ≤ η * |d| * S := by positivity
    nlinarith
  have hu1 : u * |d| ≤ 0.25 * (η * |d| / κ) := by
    have a : η * |d| ≤ η * |d| / κ := by
      rw [le_div_iff₀ hκ]
      have := mul_le_mul_of_nonneg_left hκ1 (mul_nonneg hη0 (abs_nonneg d))
      linarith
    have b := mul_le_mul_of_nonneg_right hη4 (abs_nonneg d)
    linarith
  have hB2 : B = 5 * (u * P / κ) + 3.1 * (η * |d| / κ) := by rw [hB]; ring
  have hX : 0 ≤ u * P / κ := by positivity
  have hY : 0 ≤ η * |d| / κ := by positivity
  have hy : |F.rnd (num' / den') - d| ≤ 1.001 * B + u * |d| := by
    have a := hF.rnd (num' / den')
    have b := abs_sub_le (F.rnd (num' / den')) (num' / den') d
    have c := abs_add_le d (num' / den' - d)
    rw [add_sub_cancel] at c
    have e := mul_le_mul_of_nonneg_left (c.trans (add_le_add_right hz _)) hu0
    have f := mul_le_mul_of_nonneg_right hu hB0
    linarith
  have hx : |F.toF (F.rnd (num' / den')) - d| ≤ 1.001 * |F.rnd (num' / den') - d| + v * |d| := by
    have a := hF.toF (F.rnd (num' / den'))
    have b := abs_sub_le (F.toF (F.rnd (num' / den'))) (F.rnd (num' / den')) d
    have c := abs_add_le d (F.rnd (num' / den') - d)
    rw [add_sub_cancel] at c
    have e := mul_le_mul_of_nonneg_left c hv0
    have f := mul_le_mul_of_nonneg_right hv (abs_nonneg (F.rnd (num' / den') - d))
    linarith
  have hE : (7 * u * P + 5 * η * |d|) / κ = 7 * (u * P / κ) + 5 * (η * |d| / κ) := by ring
  have hvd := mul_nonneg hv0 (abs_nonneg d)
  refine ⟨hden', ?_, ?_⟩
  · rw [← hdd, hE]
    linarith
  · rw [← hdd]
    unfold depthErr
    rw [hE]
    linarith

/-- The computed difference of the end points. -/
theorem sub_err (h : RelErr u F.rnd) (hu : u ≤ 1 / 1000) (p1 p2 : Vec2) :
    |(sub F p2 p1).x - (p2 - p1).x| ≤ 1.02 * u * |(p2 - p1).x| ∧ |(sub F p2 p1).y - (p2 - p1).y| ≤ 1.02 * u * |(p2 - p1).y| :=
  ⟨one_err h hu _, one_err h hu _⟩

/-- The depth of a beam. -/
theorem hit_err (hF : Accurate u v F) (hu : u ≤ 1 / 1000) (hv : v ≤ 1 / 1000) {l : LRF} (h : RoundedFine u F l) {p1 p2 : Vec2}
    {j : ℕ} (hj : j < l.numBeams) {κ : ℝ} (hκ : 0 < κ) (hηκ : 5 * dirErr u l.aMin l.aMax j ≤ κ)
    (hη : dirErr u l.aMin l.aMax j ≤ 1 / 20) (hs : 0 < |(p2 - p1).x| + |(p2 - p1).y|)
    (hk : κ * (|(p2 - p1).x| + |(p2 - p1).y|) ≤ |(dir (beamAngle l.aMin l.aMax l.numBeams j)).cross (p2 - p1)|) :
    ∃ y : ℝ, hit F l p1 (sub F p2 p1) j = (if 0 < y then some ((F.toF y : ℝ) : EReal) else none) ∧
      |y - p1.cross (p2 - p1) / (dir (beamAngle l.aMin l.aMax l.numBeams j)).cross (p2 - p1)| ≤
        (7 * u * max |p1.x| |p1.y| + 5 * dirErr u l.aMin l.aMax j *
          |p1.cross (p2 - p1) / (dir (beamAngle l.aMin l.aMax l.numBeams j)).cross (p2 - p1)|) / κ ∧
      |F.toF y - p1.cross (p2 - p1) / (dir (beamAngle l.aMin l.aMax l.numBeams j)).cross (p2 - p1)| ≤
        depthErr u v (dirErr u l.aMin l.aMax j) (max |p1.x| |p1.y|) κ
          (p1.cross (p2 - p1) / (dir (beamAngle l.aMin l.aMax l.numBeams j)).cross (p2 - p1)) := by
  have hu0 := relErr_nonneg' hF.rnd
  obtain ⟨-, -, -, t⟩ := tables hF hu (h.inv hF hu) h.beams h.order h.few
  obtain ⟨a, d, -, d1, -, d2, d3, -⟩ := t j hj
  obtain ⟨e1, e2⟩ := sub_err hF.rnd hu p1 p2
  have hη4 : 4 * u ≤ dirErr u l.aMin l.aMax j := by
    have : 0 ≤ beamErr u l.aMin l.aMax j := by unfold beamErr; positivity
    unfold dirErr
    linarith
  have n1 := num_err (p := p1) hF.rnd hu e1 e2
  have n2 : |p1.x * (p2 - p1).y| + |p1.y * (p2 - p1).x| ≤ max |p1.x| |p1.y| * (|(p2 - p1).x| + |(p2 - p1).y|) := by
    rw [abs_mul, abs_mul]
    have a := mul_le_mul_of_nonneg_right (le_max_left |p1.x| |p1.y|) (abs_nonneg (p2 - p1).y)
    have b := mul_le_mul_of_nonneg_right (le_max_right |p1.x| |p1.y|) (abs_nonneg (p2 - p1).x)
    linarith
  have n3 := n1.trans (mul_le_mul_of_nonneg_left n2 (show 0 ≤ 3.06 * u by linarith))
  have c1 : |(dir (beamAngle l.aMin l.aMax l.numBeams j)).x| ≤ 1 := Real.abs_cos_le_one _
  have c2 : |(dir (beamAngle l.aMin l.aMax l.numBeams j)).y| ≤ 1 := Real.abs_sin_le_one _
  have m1 := den_err (r := dir (beamAngle l.aMin l.aMax l.numBeams j)) (r' := d.projectTo2d) hF.rnd hu hη hη4 c1 c2 d2 d3 e1 e2
  have k1 : |(dir (beamAngle l.aMin l.aMax l.numBeams j)).cross (p2 - p1)| ≤ |(p2 - p1).x| + |(p2 - p1).y| := by
    have a := abs_sub ((dir (beamAngle l.aMin l.aMax l.numBeams j)).x * (p2 - p1).y)
      ((dir (beamAngle l.aMin l.aMax l.numBeams j)).y * (p2 - p1).x)
    rw [abs_mul, abs_mul] at a
    have b := mul_le_mul_of_nonneg_right c1 (abs_nonneg (p2 - p1).y)
    have c := mul_le_mul_of_nonneg_right c2 (abs_nonneg (p2 - p1).x)
    unfold Vec2.cross
    linarith
  obtain ⟨z1, z2, z3⟩ := depth_err hF hu hv hs hκ ((abs_nonneg _).trans (le_max_left _ _)) hη4 hηκ n3 m1 hk k1
  refine ⟨_, ?_, z2, z3⟩
  unfold hit
  rw [d1]
  simp only [depth, RenderResult.quotient]
  rw [if_pos z1]
  simp only [Option.map_some, roundE_coe, EReal.coe_pos]

/-- A line between equal points draws nothing. -/
theorem hit_same (hF : Accurate u v F) {l : LRF} {p1 s : Vec2} (hx : s.x = 0) (hy : s.y = 0) (j : ℕ) :
    hit F l p1 s j = none := by
  have h0 := rel_zero hF.rnd
  have hc : ∀ r : Vec2, cross F r s = 0 := by
    intro r
    simp only [cross, hx, hy, mul_zero, h0, sub_zero]
  unfold hit
  split
  · rfl
  · simp only [depth, hc, RenderResult.quotient, ne_eq, not_true_eq_false, lt_irrefl, if_false, Option.map_none]

/-! ## The test against the maximum range -/

theorem length2_err (h : RelErr u F.rnd) (hu : u ≤ 1 / 1000) (p : Vec2) :
    |length2 F p - p.length2| ≤ 2.04 * u * p.length2 := by
  have hu0 := relErr_nonneg' h
  have h1 := one_err h hu (p.x * p.x)
  have h2 := one_err h hu (p.y * p.y)
  rw [abs_of_nonneg (mul_self_nonneg p.x)] at h1
  rw [abs_of_nonneg (mul_self_nonneg p.y)] at h2
  have h3 : |F.rnd (p.x * p.x) + F.rnd (p.y * p.y) - p.length2| ≤ 1.02 * u * p.length2 := by
    have e : F.rnd (p.x * p.x) + F.rnd (p.y * p.y) - p.length2 =
        (F.rnd (p.x * p.x) - p.x * p.x) + (F.rnd (p.y * p.y) - p.y * p.y) := by
      simp only [Vec2.length2]; ring
    rw [e]
    refine (abs_add_le _ _).trans ?_
    simp only [Vec2.length2]
    linarith
  have h0 : |p.length2| ≤ p.length2 := by
    rw [abs_of_nonneg]
    exact add_nonneg (mul_self_nonneg _) (mul_self_nonneg _)
  have := Rounded.step h hu0 hu (by norm_num) h0 h3
  unfold length2
  linarith

/-- A coordinate of a point between the end points. -/
theorem between_err (h : RelErr u F.rnd) (hu : u ≤ 1 / 1000) {a b t m : ℝ} (ht0 : 0 ≤ t) (ht1 : t ≤ 1) (ha : |a| ≤ m)
    (hb : |b| ≤ m) : |F.rnd (a + F.rnd (F.rnd (b - a) * t)) - (a + (b - a) * t)| ≤ 5.2 * u * m := by
  have hu0 := relErr_nonneg' h
  have hm := (abs_nonneg a).trans ha
  have h1 := one_err h hu (b - a)
  have h2 := Rounded.step_mul (a := t) h hu0 hu (by norm_num) h1
  rw [mul_comm t, mul_comm t] at h2
  have h3 : |(b - a) * t| ≤ 2 * m := by
    rw [abs_mul, abs_of_nonneg ht0]
    have a1 := abs_sub b a
    have a2 := mul_le_mul_of_nonneg_left ht1 (abs_nonneg (b - a))
    linarith
  have h4 : |a + (b - a) * t| ≤ m := by
    have e : a + (b - a) * t = (1 - t) * a + t * b := by ring
    rw [e]
    have := abs_add_le ((1 - t) * a) (t * b)
    rw [abs_mul, abs_mul, abs_of_nonneg ht0, abs_of_nonneg (sub_nonneg.2 ht1)] at this
    have a1 := mul_le_mul_of_nonneg_left ha (sub_nonneg.2 ht1)
    have a2 := mul_le_mul_of_nonneg_left hb ht0
    linarith
  have h5 : |a + F.rnd (F.rnd (b - a) * t) - (a + (b - a) * t)| ≤ 4.09 * u * m := by
    rw [add_sub_add_left_eq_sub]
    refine h2.trans ?_
    have := mul_le_mul_of_nonneg_left h3 hu0
    have := mul_nonneg hu0 hm
    linarith
  have := Rounded.step h hu0 hu (by norm_num) h4 h5
  have := mul_nonneg hu0 hm
  linarith

/-- The computed distance of a segment is not much more than that of its farther end point. -/
theorem distanceSq_le (h : RelErr u F.rnd) (hu : u ≤ 1 / 1000) {p1 p2 : Vec2} {m : ℝ} (hm : 0 ≤ m) (h1 : p1.length2 ≤ m ^ 2)
    (h2 : p2.length2 ≤ m ^ 2) : distanceSq F p1 p2 ≤ (1 + 30 * u) * m ^ 2 := by
  have hu0 := relErr_nonneg' h
  have hm2 : 0 ≤ u * m ^ 2 := by positivity
  have L : ∀ p : Vec2, p.length2 ≤ m ^ 2 → length2 F p ≤ (1 + 30 * u) * m ^ 2 := by
    intro p hp
    have a := (abs_le.1 (length2_err h hu p)).2
    have b := mul_le_mul_of_nonneg_left hp hu0
    linarith
  have C : ∀ p : Vec2, p.length2 ≤ m ^ 2 → |p.x| ≤ m ∧ |p.y| ≤ m := by
    intro p hp
    unfold Vec2.length2 at hp
    constructor
    · exact abs_le_of_sq_le_sq (by nlinarith [mul_self_nonneg p.y]) hm
    · exact abs_le_of_sq_le_sq (by nlinarith [mul_self_nonneg p.x]) hm
  unfold distanceSq
  dsimp only
  split_ifs with c1 c2
  · exact L p1 h1
  · exact L p2 h2
  · obtain ⟨t, ht⟩ : ∃ t, t = F.rnd (dot F p1 (sub F p2 p1) / -length2 F (sub F p2 p1)) := ⟨_, rfl⟩
    rw [← ht] at c1 c2 ⊢
    have ht0 := not_lt.1 c1
    have ht1 := not_lt.1 c2
    have x := between_err h hu ht0 ht1 (C p1 h1).1 (C p2 h2).1
    have y := between_err h hu ht0 ht1 (C p1 h1).2 (C p2 h2).2
    obtain ⟨wx, hwx⟩ : ∃ w, w = p1.x + (p2.x - p1.x) * t := ⟨_, rfl⟩
    obtain ⟨wy, hwy⟩ : ∃ w, w = p1.y + (p2.y - p1.y) * t := ⟨_, rfl⟩
    rw [← hwx] at x
    rw [← hwy] at y
    have hw : wx ^ 2 + wy ^ 2 ≤ m ^ 2 := by
      unfold Vec2.length2 at h1 h2
      have e : wx ^ 2 + wy ^ 2 = (1 - t) * (p1.x * p1.x + p1.y * p1.y) + t * (p2.x * p2.x + p2.y * p2.y) -
          t * (1 - t) * ((p2.x - p1.x) ^ 2 + (p2.y - p1.y) ^ 2) := by
        rw [hwx, hwy]; ring
      have a := mul_le_mul_of_nonneg_left h1 (sub_nonneg.2 ht1)
      have b := mul_le_mul_of_nonneg_left h2 ht0
      have c : 0 ≤ t * (1 - t) * ((p2.x - p1.x) ^ 2 + (p2.y - p1.y) ^ 2) :=
        mul_nonneg (mul_nonneg ht0 (sub_nonneg.2 ht1)) (by positivity)
      rw [e]
      linarith
    have hwx' : |wx| ≤ m := abs_le_of_sq_le_sq (by nlinarith [sq_nonneg wy]) hm
    have hwy' : |wy| ≤ m := abs_le_of_sq_le_sq (by nlinarith [sq_nonneg wx]) hm
    obtain ⟨V, hV⟩ : ∃ V, V = add F p1 (scale F (sub F p2 p1) t) := ⟨_, rfl⟩
    have x' : |V.x - wx| ≤ 5.2 * u * m := by rw [hV]; exact x
    have y' : |V.y - wy| ≤ 5.2 * u * m := by rw [hV]; exact y
    have sq : ∀ z w : ℝ, |z - w| ≤ 5.2 * u * m → |w| ≤ m → z * z ≤ w ^ 2 + 10.5 * u * m ^ 2 := by
      intro z w hzw hw
      have e : z * z = w ^ 2 + 2 * (w * (z - w)) + (z - w) ^ 2 := by ring
      have a : w * (z - w) ≤ m * (5.2 * u * m) := by
        refine (le_abs_self _).trans ?_
        rw [abs_mul]
        exact mul_le_mul hw hzw (abs_nonneg _) hm
      have b : (z - w) ^ 2 ≤ (5.2 * u * m) ^ 2 := by
        rw [← sq_abs]
        exact pow_le_pow_left₀ (abs_nonneg _) hzw 2
      have c : (5.2 * u * m) ^ 2 ≤ 0.03 * (u * m ^ 2) := by
        have : (5.2 * u * m) ^ 2 = 27.04 * u * (u * m ^ 2) := by ring
        rw [this]
        exact mul_le_mul_of_nonneg_right (by linarith) hm2
      rw [e]
      nlinarith
    have q1 := sq _ _ x' hwx'
    have q2 := sq _ _ y' hwy'
    have hVl : V.length2 ≤ (1 + 21 * u) * m ^ 2 := by
      unfold Vec2.length2
      linarith
    rw [← hV]
    have a := (abs_le.1 (length2_err h hu V)).2
    have b := mul_le_mul_of_nonneg_left hVl hu0
    have c := mul_le_mul_of_nonneg_right hu hm2
    nlinarith

end RoundedLRF

end Geo
