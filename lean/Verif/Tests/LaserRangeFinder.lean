import Verif.Props.LaserRangeFinder

/-!
# The test test/test_lrf.cpp of the repository, for the model

Every assertion of the file as a statement about the model, in the order of the file.
-/

namespace Geo.Tests

open Spec

/-- `TestLRF::SetUp`, test/test_lrf.cpp:22-27. -/
noncomputable def sensor (a b : ℝ) (n : ℕ) : Exec LRF := LRF.new.run [.angleLimits a b, .numBeams n, .rangeLimits 0.2 60]

/-- `ranges.resize(n_beams, range_max)`, test/test_lrf.cpp:28. -/
noncomputable def ranges (n : ℕ) : List EReal := List.replicate n ((60 : ℝ) : EReal)

theorem sensor_ok {a b : ℝ} {n : ℕ} (hn : 0 < n) (hab : a < b) (lo : -Real.pi ≤ a) (hi : b ≤ Real.pi)
    (hs : 2 * Real.pi * (max (n - 1) 1 : ℕ) < (2 ^ 31 - 1) * (b - a)) :
    ∃ l, sensor a b n = .ok l ∧ l.aMin = a ∧ l.aMax = b ∧ l.numBeams = n ∧ l.rangeMax = 60 ∧ Fine l := by
  have hm : (0 : ℝ) < (max (n - 1) 1 : ℕ) := by exact_mod_cast (by omega : 0 < max (n - 1) 1)
  have hd : 0 < (b - a) / (max (n - 1) 1 : ℕ) := div_pos (sub_pos.2 hab) hm
  have hp := Real.pi_pos
  have hst : 2 * Real.pi < (2 ^ 31 - 1) * ((b - a) / (max (n - 1) 1 : ℕ)) := by
    rw [← mul_div_assoc, lt_div_iff₀ hm]
    exact hs
  have hq : 0 ≤ Real.pi / ((b - a) / (max (n - 1) 1 : ℕ)) := div_nonneg hp.le hd.le
  have hc : castUInt (Real.pi / ((b - a) / (max (n - 1) 1 : ℕ))) =
      .ok ⌊Real.pi / ((b - a) / (max (n - 1) 1 : ℕ))⌋.toNat := by
    unfold castUInt
    rw [trunc, if_pos hq, if_pos]
    refine ⟨Int.floor_nonneg.2 hq, ?_⟩
    have : ⌊Real.pi / ((b - a) / (max (n - 1) 1 : ℕ))⌋ < 2 ^ 31 - 1 := by
      apply Int.floor_lt.2
      rw [div_lt_iff₀ hd]
      generalize (b - a) / ((max (n - 1) 1 : ℕ) : ℝ) = w at hst
      push_cast
      linarith
    omega
  obtain ⟨l, hl⟩ : ∃ l, sensor a b n = .ok l := by
    have s1 : LRF.new.setAngleLimits a b = .ok { LRF.new with aMin := a, aMax := b } := by
      unfold LRF.setAngleLimits
      exact if_neg (by simp [LRF.new])
    have s2 : ∃ l, ({ LRF.new with aMin := a, aMax := b } : LRF).setNumBeams n = .ok l := by
      unfold LRF.setNumBeams LRF.calculateRays
      simp only [LRF.new, bind, Except.bind]
      rw [if_pos ⟨hn, sub_pos.2 hab⟩, hc]
      exact ⟨_, rfl⟩
    obtain ⟨l2, s2⟩ := s2
    simp only [sensor, LRF.run, LRF.step, bind, Except.bind, s1, s2]
    exact ⟨_, rfl⟩
  obtain ⟨_, i1, i2, i3⟩ := LRF.run_inv _ _ _ LRF.inv_new hl
  simp only [List.foldl, Prod.mk.injEq] at i1 i2 i3
  refine ⟨l, hl, i1.1, i1.2, i3, i2.2, ⟨⟨⟨_, hl⟩, by omega, by rw [i1.1, i1.2]; exact hab⟩, by rw [i1.1]; exact lo,
    by rw [i1.2]; exact hi, ?_⟩⟩
  unfold spacing
  rw [i1.1, i1.2, i3]
  exact hst

/-- The sensors of the tests: 9 beams over the full circle, 9 and 30 beams over the half circle. -/
theorem sensor_full : ∃ l, sensor (-Real.pi) Real.pi 9 = .ok l ∧ l.aMin = -Real.pi ∧ l.numBeams = 9 ∧ l.rangeMax = 60 ∧
    Fine l ∧ spacing l = Real.pi / 4 := by
  have hp := Real.pi_pos
  obtain ⟨l, h1, h2, h3, h4, h5, h6⟩ := sensor_ok (a := -Real.pi) (b := Real.pi) (n := 9) (by norm_num) (by linarith)
    le_rfl le_rfl (by norm_num; linarith)
  exact ⟨l, h1, h2, h4, h5, h6, by unfold spacing; rw [h2, h3, h4]; norm_num; ring⟩

theorem sensor_half : ∃ l, sensor (-(Real.pi / 2)) (Real.pi / 2) 9 = .ok l ∧ l.aMin = -(Real.pi / 2) ∧ l.numBeams = 9 ∧
    l.rangeMax = 60 ∧ Fine l ∧ spacing l = Real.pi / 8 := by
  have hp := Real.pi_pos
  obtain ⟨l, h1, h2, h3, h4, h5, h6⟩ := sensor_ok (a := -(Real.pi / 2)) (b := Real.pi / 2) (n := 9) (by norm_num)
    (by linarith) (by linarith) (by linarith) (by norm_num; linarith)
  exact ⟨l, h1, h2, h4, h5, h6, by unfold spacing; rw [h2, h3, h4]; norm_num⟩

theorem sensor_fine : ∃ l, sensor (-(Real.pi / 2)) (Real.pi / 2) 30 = .ok l ∧ l.aMin = -(Real.pi / 2) ∧ l.numBeams = 30 ∧
    l.rangeMax = 60 ∧ Fine l ∧ spacing l = Real.pi / 29 := by
  have hp := Real.pi_pos
  obtain ⟨l, h1, h2, h3, h4, h5, h6⟩ := sensor_ok (a := -(Real.pi / 2)) (b := Real.pi / 2) (n := 30) (by norm_num)
    (by linarith) (by linarith) (by linarith) (by norm_num; linarith)
  exact ⟨l, h1, h2, h4, h5, h6, by unfold spacing; rw [h2, h3, h4]; norm_num⟩

/-- The index of an angle at or above the first beam. -/
theorem raw_at {l : LRF} (h : Fine l) {a : ℝ} (k : ℕ) (h1 : l.aMin + k * spacing l ≤ a)
    (h2 : a < l.aMin + (k + 1) * spacing l) (h3 : a ≤ Real.pi) : l.getAngleUpperIndexRaw a = .ok (k + 1) := by
  have hs := LRF.spacing_pos h.ready
  have h0 : l.aMin ≤ a := by
    have : 0 ≤ (k : ℝ) * spacing l := mul_nonneg (Nat.cast_nonneg k) hs.le
    linarith
  rw [(LRF.raw_ok h.ready h0 (h.index h3)).1]
  exact congrArg _ (idx_eq h h1 h2)

theorem upper_at {l : LRF} (h : Fine l) {a : ℝ} (k : ℕ) (h1 : l.aMin + k * spacing l ≤ a)
    (h2 : a < l.aMin + (k + 1) * spacing l) (h3 : a ≤ Real.pi) :
    l.getAngleUpperIndex a = .ok (min l.numBeams (k + 1)) := by
  unfold LRF.getAngleUpperIndex
  rw [raw_at h k h1 h2 h3]
  simp only [bind, Except.bind, pure, Except.pure, Except.ok.injEq]
  omega

/-- The index of an angle far below the first beam. -/
theorem raw_far {l : LRF} (h : Fine l) {a : ℝ} (k : ℕ) (h1 : l.aMin - (k + 2) * spacing l < a)
    (h2 : a ≤ l.aMin - (k + 1) * spacing l) (h3 : -Real.pi ≤ a) : l.getAngleUpperIndexRaw a = .ok (-k) := by
  have hs := LRF.spacing_pos h.ready
  have : 0 ≤ (k : ℝ) * spacing l := mul_nonneg (Nat.cast_nonneg k) hs.le
  rw [(raw_far_below h h3 (by linarith)).1]
  have : ⌈(a - l.aMin) / spacing l⌉ = -(k : ℤ) - 1 := by
    rw [Int.ceil_eq_iff]
    push_cast
    constructor
    · rw [lt_div_iff₀ hs]; linarith
    · rw [div_le_iff₀ hs]; linarith
  rw [this]
  simp

theorem diag : (1 : ℝ) = Real.sqrt 2 * (Real.sqrt 2 / 2) := by
  have := Real.mul_self_sqrt (show (0:ℝ) ≤ 2 by norm_num)
  linarith

/-- The angles of the eight points around the origin. -/
theorem eight : atan2 0 (-1) = Real.pi ∧ atan2 (-1) (-1) = -(3 * Real.pi / 4) ∧ atan2 (-1) 0 = -(Real.pi / 2) ∧
    atan2 (-1) 1 = -(Real.pi / 4) ∧ atan2 0 1 = 0 ∧ atan2 1 1 = Real.pi / 4 ∧ atan2 1 0 = Real.pi / 2 ∧
    atan2 1 (-1) = 3 * Real.pi / 4 := by
  have hp := Real.pi_pos
  have h2 : 0 < Real.sqrt 2 := Real.sqrt_pos.2 (by norm_num)
  have e3 : 3 * Real.pi / 4 = Real.pi - Real.pi / 4 := by ring
  have k1 := atan2_polar one_pos (θ := Real.pi) ⟨by linarith, le_rfl⟩
  have k2 := atan2_polar h2 (θ := -(3 * Real.pi / 4)) ⟨by linarith, by linarith⟩
  have k3 := atan2_polar one_pos (θ := -(Real.pi / 2)) ⟨by linarith, by linarith⟩
  have k4 := atan2_polar h2 (θ := -(Real.pi / 4)) ⟨by linarith, by linarith⟩
  have k5 := atan2_polar one_pos (θ := 0) ⟨by linarith, by linarith⟩
  have k6 := atan2_polar h2 (θ := Real.pi / 4) ⟨by linarith, by linarith⟩
  have k7 := atan2_polar one_pos (θ := Real.pi / 2) ⟨by linarith, by linarith⟩
  have k8 := atan2_polar h2 (θ := 3 * Real.pi / 4) ⟨by linarith, by linarith⟩
  simp only [e3, Real.cos_neg, Real.sin_neg, Real.sin_pi, Real.cos_pi, Real.sin_pi_div_two, Real.cos_pi_div_two,
    Real.sin_pi_div_four, Real.cos_pi_div_four, Real.sin_zero, Real.cos_zero, Real.sin_pi_sub, Real.cos_pi_sub, mul_neg,
    ← diag, mul_one, mul_zero] at k1 k2 k3 k4 k5 k6 k7 k8 ⊢
  exact ⟨k1, k2, k3, k4, k5, k6, k7, k8⟩

/-- `TEST_F(TestLRF, getAngleUpperIndexUnitCircle)`, test/test_lrf.cpp:168-179. -/
theorem upper_index_circle : ∃ l, sensor (-Real.pi) Real.pi 9 = .ok l ∧
    l.getAngleUpperIndex2 (-1) 0 = .ok (8 + 1) ∧ l.getAngleUpperIndex2 (-1) (-1) = .ok (1 + 1) ∧
    l.getAngleUpperIndex2 0 (-1) = .ok (2 + 1) ∧ l.getAngleUpperIndex2 1 (-1) = .ok (3 + 1) ∧
    l.getAngleUpperIndex2 1 0 = .ok (4 + 1) ∧ l.getAngleUpperIndex2 1 1 = .ok (5 + 1) ∧
    l.getAngleUpperIndex2 0 1 = .ok (6 + 1) ∧ l.getAngleUpperIndex2 (-1) 1 = .ok (7 + 1) ∧
    l.getAngleUpperIndex2 0 0 = .ok 5 := by
  obtain ⟨l, h1, h2, h3, -, h5, h6⟩ := sensor_full
  obtain ⟨k1, k2, k3, k4, k5, k6, k7, k8⟩ := eight
  have hp := Real.pi_pos
  have key : ∀ (k : ℕ) (a : ℝ), k ≤ 8 → a = -Real.pi + k * (Real.pi / 4) → a ≤ Real.pi →
      l.getAngleUpperIndex a = .ok (k + 1) := fun k a hk ha hl => by
    rw [upper_at h5 k (by rw [h2, h6, ha]) (by rw [h2, h6, ha]; linarith) hl, h3]
    congr 1
    omega
  refine ⟨l, h1, ?_, ?_, ?_, ?_, ?_, ?_, ?_, ?_, ?_⟩ <;> unfold LRF.getAngleUpperIndex2
  · rw [k1]; exact key 8 _ (by norm_num) (by norm_num; ring) le_rfl
  · rw [k2]; exact key 1 _ (by norm_num) (by norm_num; ring) (by linarith)
  · rw [k3]; exact key 2 _ (by norm_num) (by norm_num; ring) (by linarith)
  · rw [k4]; exact key 3 _ (by norm_num) (by norm_num; ring) (by linarith)
  · rw [k5]; exact key 4 _ (by norm_num) (by norm_num; ring) (by linarith)
  · rw [k6]; exact key 5 _ (by norm_num) (by norm_num; ring) (by linarith)
  · rw [k7]; exact key 6 _ (by norm_num) (by norm_num; ring) (by linarith)
  · rw [k8]; exact key 7 _ (by norm_num) (by norm_num; ring) (by linarith)
  · rw [atan2_zero_zero]; exact key 4 _ (by norm_num) (by norm_num; ring) (by linarith)

/-- `TEST_F(TestLRF2, getAngleUpperIndexAngle)`, test/test_lrf.cpp:149-156: `floor(0.5 * 9 - 0.5) + 1` is 5. -/
theorem upper_index_angle : ∃ l, sensor (-(Real.pi / 2)) (Real.pi / 2) 9 = .ok l ∧
    l.getAngleUpperIndex (1.5 * -(Real.pi / 2)) = .ok 0 ∧ l.getAngleUpperIndex (-(Real.pi / 2)) = .ok 1 ∧
    l.getAngleUpperIndex (0.5 * -(Real.pi / 2) + 0.5 * (Real.pi / 2)) = .ok 5 ∧
    l.getAngleUpperIndex (Real.pi / 2) = .ok 9 ∧ l.getAngleUpperIndex (1.5 * (Real.pi / 2)) = .ok 9 := by
  obtain ⟨l, h1, h2, h3, -, h5, h6⟩ := sensor_half
  have hp := Real.pi_pos
  refine ⟨l, h1, ?_, ?_, ?_, ?_, ?_⟩
  · unfold LRF.getAngleUpperIndex
    rw [raw_far h5 1 (by rw [h2, h6]; norm_num; linarith) (by rw [h2, h6]; norm_num; linarith) (by linarith)]
    simp [bind, Except.bind, pure, Except.pure]
  · rw [upper_at h5 0 (by rw [h2, h6]; norm_num) (by rw [h2, h6]; norm_num; linarith) (by linarith), h3]; rfl
  · rw [upper_at h5 4 (by rw [h2, h6]; norm_num; linarith) (by rw [h2, h6]; norm_num; linarith) (by linarith), h3]; rfl
  · rw [upper_at h5 8 (by rw [h2, h6]; norm_num; linarith) (by rw [h2, h6]; norm_num; linarith) (by linarith), h3]; rfl
  · rw [upper_at h5 10 (by rw [h2, h6]; norm_num; linarith) (by rw [h2, h6]; norm_num; linarith) (by linarith), h3]; rfl

/-- `TEST_F(TestLRF2, getAngleUpperIndexXY)`, test/test_lrf.cpp:158-167. -/
theorem upper_index_xy : ∃ l, sensor (-(Real.pi / 2)) (Real.pi / 2) 9 = .ok l ∧
    l.getAngleUpperIndex2 (Real.cos (1.5 * -(Real.pi / 2))) (Real.sin (1.5 * -(Real.pi / 2))) = .ok 0 ∧
    l.getAngleUpperIndex2 (Real.cos (-(Real.pi / 2))) (Real.sin (-(Real.pi / 2))) = .ok 1 ∧
    l.getAngleUpperIndex2 (Real.cos (0.5 * -(Real.pi / 2) + 0.5 * (Real.pi / 2)))
      (Real.sin (0.5 * -(Real.pi / 2) + 0.5 * (Real.pi / 2))) = .ok 5 ∧
    l.getAngleUpperIndex2 (Real.cos (Real.pi / 2)) (Real.sin (Real.pi / 2)) = .ok 9 ∧
    l.getAngleUpperIndex2 (Real.cos (1.5 * (Real.pi / 2))) (Real.sin (1.5 * (Real.pi / 2))) = .ok 9 := by
  obtain ⟨l, h, h1, h2, h3, h4, h5⟩ := upper_index_angle
  have hp := Real.pi_pos
  have key : ∀ a, -Real.pi < a → a ≤ Real.pi → l.getAngleUpperIndex2 (Real.cos a) (Real.sin a) = l.getAngleUpperIndex a :=
    fun a ha hb => by
      have := atan2_polar one_pos (θ := a) ⟨ha, hb⟩
      rw [one_mul, one_mul] at this
      rw [LRF.getAngleUpperIndex2, this]
  exact ⟨l, h, (key _ (by linarith) (by linarith)).trans h1, (key _ (by linarith) (by linarith)).trans h2,
    (key _ (by linarith) (by linarith)).trans h3, (key _ (by linarith) (by linarith)).trans h4,
    (key _ (by linarith) (by linarith)).trans h5⟩

/-- The ranges after a line, given the indices of its end points. -/
theorem line_at {l : LRF} (h : Fine l) (hR : l.rangeMax = 60) {p1 p2 : Vec2} {k1 k2 : ℤ} {hf : ℤ}
    (n1 : ¬ (p1.x = 0 ∧ p1.y = 0)) (n2 : ¬ (p2.x = 0 ∧ p2.y = 0)) (n3 : p1 ≠ p2) (hl : p1.length2 ≤ 3600)
    (i1 : l.getAngleUpperIndexRaw (atan2 p1.y p1.x) = .ok k1) (i2 : l.getAngleUpperIndexRaw (atan2 p2.y p2.x) = .ok k2)
    (hk : max k1 k2 - min k1 k2 < 2 ^ 31) (hh : Real.pi / spacing l = hf) :
    ∃ r, l.renderLine p1 p2 (ranges l.numBeams) = .ok r ∧ ∀ j < l.numBeams, vget r j = .ok (
      (if max k1 k2 - min k1 k2 < hf then
          if k1 ≤ k2 then drawn l p1 (p2 - p1) k1.toNat (min l.numBeams k2.toNat) j else id
        else if k2 ≤ k1 then
          drawn l p1 (p2 - p1) 0 (min l.numBeams k2.toNat) j ∘ drawn l p1 (p2 - p1) k1.toNat l.numBeams j
        else id) ((60 : ℝ) : EReal)) := by
  have ht := (LRF.ready_inv h.ready).1
  have hl2 : (p2 - p1).length2 ≠ 0 := by
    intro e
    apply n3
    have e' : (p2.x - p1.x) * (p2.x - p1.x) + (p2.y - p1.y) * (p2.y - p1.y) = 0 := by
      simpa [Vec2.length2] using e
    have a := mul_self_nonneg (p2.x - p1.x)
    have b := mul_self_nonneg (p2.y - p1.y)
    have a0 := mul_self_eq_zero.1 (by linarith : (p2.x - p1.x) * (p2.x - p1.x) = 0)
    have b0 := mul_self_eq_zero.1 (by linarith : (p2.y - p1.y) * (p2.y - p1.y) = 0)
    ext <;> linarith
  have hd : RenderResult.distanceSq p1 p2 ≤ p1.length2 := by
    have := (distanceSq_least hl2).2 ⟨p1, ⟨0, le_rfl, zero_le_one, by norm_num, by norm_num⟩, rfl⟩
    simp only [Vec2.length2]
    linarith
  obtain ⟨r, g1, g2, g3⟩ := renderLine_raw n1 n2 hl2 (by rw [hR]; rintro ⟨-, hc⟩; norm_num at hc; linarith) i1 i2 hk
    h.half.2 h.beams ht.2.1 (RenderResult.new (ranges l.numBeams)) (by simp [RenderResult.new, ranges])
  refine ⟨r.ranges, by simp only [LRF.renderLine, g1, bind, Except.bind, pure, Except.pure], fun j hj => ?_⟩
  have := g3 j
  rw [hh, Int.floor_intCast] at this
  unfold vget
  rw [this]
  simp [RenderResult.new, ranges, hj]

/-- A beam that is drawn at the distance `d`. -/
theorem drawn_at {l : LRF} (h : Fine l) {p1 s : Vec2} {a b j : ℕ} (hj : j < l.numBeams) (hab : a ≤ j ∧ j < b) {d : ℝ}
    (hD : (dir (l.aMin + j * spacing l)).cross s ≠ 0) (hq : p1.cross s / (dir (l.aMin + j * spacing l)).cross s = d)
    (h0 : 0 < d) (h60 : d < 60) : drawn l p1 s a b j ((60 : ℝ) : EReal) = ((d : ℝ) : EReal) := by
  unfold drawn
  rw [if_pos hab, hit_eq (LRF.ready_inv h.ready).1 hj hD (by rw [LRF.beamAngle_eq, hq]; exact h0), LRF.beamAngle_eq, hq]
  simp only [combine]
  rw [if_pos (.inr (by exact_mod_cast h60))]

theorem drawn_not {l : LRF} {p1 s : Vec2} {a b j : ℕ} (hab : ¬ (a ≤ j ∧ j < b)) (r : EReal) : drawn l p1 s a b j r = r := by
  unfold drawn
  rw [if_neg hab]

/-- `TEST_F(TestLRF, renderLineFront)`, test/test_lrf.cpp:58-66. -/
theorem render_front : ∃ l, sensor (-Real.pi) Real.pi 9 = .ok l ∧ ∃ r, l.renderLine ⟨1, -1⟩ ⟨1, 1⟩ (ranges 9) = .ok r ∧
    l.getAngleUpperIndex 0 = .ok (4 + 1) ∧ vget r 4 = .ok ((1 : ℝ) : EReal) := by
  obtain ⟨l, h1, h2, h3, h4, h5, h6⟩ := sensor_full
  have hp := Real.pi_pos
  obtain ⟨k1, k2, k3, k4, k5, k6, k7, k8⟩ := eight
  obtain ⟨r, g1, g2⟩ := line_at (p1 := ⟨1, -1⟩) (p2 := ⟨1, 1⟩) (k1 := 4) (k2 := 6) (hf := 4) h5 h4 (by norm_num) (by norm_num)
    (by simp; norm_num) (by norm_num [Vec2.length2])
    (by rw [show atan2 _ _ = _ from k4]
        exact raw_at h5 3 (by rw [h2, h6]; norm_num; linarith) (by rw [h2, h6]; norm_num; linarith) (by linarith))
    (by rw [show atan2 _ _ = _ from k6]
        exact raw_at h5 5 (by rw [h2, h6]; norm_num; linarith) (by rw [h2, h6]; norm_num; linarith) (by linarith))
    (by norm_num) (by rw [h6]; field_simp; norm_num)
  refine ⟨l, h1, r, by rw [h3] at g1; exact g1, ?_, ?_⟩
  · rw [upper_at h5 4 (by rw [h2, h6]; norm_num; linarith) (by rw [h2, h6]; norm_num; linarith) (by linarith), h3]; rfl
  · have hb : l.aMin + (4 : ℕ) * spacing l = 0 := by rw [h2, h6]; push_cast; ring
    rw [g2 4 (by omega), h3, if_pos (by norm_num), if_pos (by norm_num)]
    rw [drawn_at h5 (by omega) (by norm_num) (d := 1)] <;> first | rfl | rw [hb] | skip
    all_goals norm_num [dir, Vec2.cross]

/-- `TEST_F(TestLRF, renderLineLeft)`, test/test_lrf.cpp:68-75. -/
theorem render_left : ∃ l, sensor (-Real.pi) Real.pi 9 = .ok l ∧ ∃ r, l.renderLine ⟨1, 1⟩ ⟨-1, 1⟩ (ranges 9) = .ok r ∧
    l.getAngleUpperIndex (Real.pi / 2) = .ok (6 + 1) ∧ vget r 6 = .ok ((1 : ℝ) : EReal) := by
  obtain ⟨l, h1, h2, h3, h4, h5, h6⟩ := sensor_full
  have hp := Real.pi_pos
  obtain ⟨k1, k2, k3, k4, k5, k6, k7, k8⟩ := eight
  obtain ⟨r, g1, g2⟩ := line_at (p1 := ⟨1, 1⟩) (p2 := ⟨-1, 1⟩) (k1 := 6) (k2 := 8) (hf := 4) h5 h4 (by norm_num) (by norm_num)
    (by simp; norm_num) (by norm_num [Vec2.length2])
    (by rw [show atan2 _ _ = _ from k6]
        exact raw_at h5 5 (by rw [h2, h6]; norm_num; linarith) (by rw [h2, h6]; norm_num; linarith) (by linarith))
    (by rw [show atan2 _ _ = _ from k8]
        exact raw_at h5 7 (by rw [h2, h6]; norm_num; linarith) (by rw [h2, h6]; norm_num; linarith) (by linarith))
    (by norm_num) (by rw [h6]; field_simp; norm_num)
  refine ⟨l, h1, r, by rw [h3] at g1; exact g1, ?_, ?_⟩
  · rw [upper_at h5 6 (by rw [h2, h6]; norm_num; linarith) (by rw [h2, h6]; norm_num; linarith) (by linarith), h3]; rfl
  · have hb : l.aMin + (6 : ℕ) * spacing l = Real.pi / 2 := by rw [h2, h6]; push_cast; ring
    rw [g2 6 (by omega), h3, if_pos (by norm_num), if_pos (by norm_num)]
    rw [drawn_at h5 (by omega) (by norm_num) (d := 1)] <;> first | rfl | rw [hb] | skip
    all_goals norm_num [dir, Vec2.cross]

/-- `TEST_F(TestLRF, renderLineRight)`, test/test_lrf.cpp:77-84. -/
theorem render_right : ∃ l, sensor (-Real.pi) Real.pi 9 = .ok l ∧ ∃ r, l.renderLine ⟨-1, -1⟩ ⟨1, -1⟩ (ranges 9) = .ok r ∧
    l.getAngleUpperIndex (-(Real.pi / 2)) = .ok (2 + 1) ∧ vget r 2 = .ok ((1 : ℝ) : EReal) := by
  obtain ⟨l, h1, h2, h3, h4, h5, h6⟩ := sensor_full
  have hp := Real.pi_pos
  obtain ⟨k1, k2, k3, k4, k5, k6, k7, k8⟩ := eight
  obtain ⟨r, g1, g2⟩ := line_at (p1 := ⟨-1, -1⟩) (p2 := ⟨1, -1⟩) (k1 := 2) (k2 := 4) (hf := 4) h5 h4 (by norm_num) (by norm_num)
    (by simp; norm_num) (by norm_num [Vec2.length2])
    (by rw [show atan2 _ _ = _ from k2]
        exact raw_at h5 1 (by rw [h2, h6]; norm_num; linarith) (by rw [h2, h6]; norm_num; linarith) (by linarith))
    (by rw [show atan2 _ _ = _ from k4]
        exact raw_at h5 3 (by rw [h2, h6]; norm_num; linarith) (by rw [h2, h6]; norm_num; linarith) (by linarith))
    (by norm_num) (by rw [h6]; field_simp; norm_num)
  refine ⟨l, h1, r, by rw [h3] at g1; exact g1, ?_, ?_⟩
  · rw [upper_at h5 2 (by rw [h2, h6]; norm_num; linarith) (by rw [h2, h6]; norm_num; linarith) (by linarith), h3]; rfl
  · have hb : l.aMin + (2 : ℕ) * spacing l = -(Real.pi / 2) := by rw [h2, h6]; push_cast; ring
    rw [g2 2 (by omega), h3, if_pos (by norm_num), if_pos (by norm_num)]
    rw [drawn_at h5 (by omega) (by norm_num) (d := 1)] <;> first | rfl | rw [hb] | skip
    all_goals norm_num [dir, Vec2.cross]

/-- `TEST_F(TestLRF, renderLineBack)`, test/test_lrf.cpp:86-94. -/
theorem render_back : ∃ l, sensor (-Real.pi) Real.pi 9 = .ok l ∧ ∃ r, l.renderLine ⟨-1, 1⟩ ⟨-1, -1⟩ (ranges 9) = .ok r ∧
    l.getAngleUpperIndex (-Real.pi) = .ok (0 + 1) ∧ vget r 0 = .ok ((1 : ℝ) : EReal) ∧
    l.getAngleUpperIndex Real.pi = .ok (8 + 1) ∧ vget r 8 = .ok ((1 : ℝ) : EReal) := by
  obtain ⟨l, h1, h2, h3, h4, h5, h6⟩ := sensor_full
  have hp := Real.pi_pos
  obtain ⟨k1, k2, k3, k4, k5, k6, k7, k8⟩ := eight
  obtain ⟨r, g1, g2⟩ := line_at (p1 := ⟨-1, 1⟩) (p2 := ⟨-1, -1⟩) (k1 := 8) (k2 := 2) (hf := 4) h5 h4 (by norm_num) (by norm_num)
    (by simp; norm_num) (by norm_num [Vec2.length2])
    (by rw [show atan2 _ _ = _ from k8]
        exact raw_at h5 7 (by rw [h2, h6]; norm_num; linarith) (by rw [h2, h6]; norm_num; linarith) (by linarith))
    (by rw [show atan2 _ _ = _ from k2]
        exact raw_at h5 1 (by rw [h2, h6]; norm_num; linarith) (by rw [h2, h6]; norm_num; linarith) (by linarith))
    (by norm_num) (by rw [h6]; field_simp; norm_num)
  refine ⟨l, h1, r, by rw [h3] at g1; exact g1, ?_, ?_, ?_, ?_⟩
  · rw [upper_at h5 0 (by rw [h2, h6]; norm_num) (by rw [h2, h6]; norm_num; linarith) (by linarith), h3]; rfl
  · have hb : l.aMin + (0 : ℕ) * spacing l = -Real.pi := by rw [h2, h6]; push_cast; ring
    rw [g2 0 (by omega), h3, if_neg (by norm_num), if_pos (by norm_num), Function.comp_apply]
    rw [drawn_not (by norm_num) ((60 : ℝ) : EReal), drawn_at h5 (by omega) (by norm_num) (d := 1)] <;> first | rfl | rw [hb] | skip
    all_goals norm_num [dir, Vec2.cross]
  · rw [upper_at h5 8 (by rw [h2, h6]; norm_num; linarith) (by rw [h2, h6]; norm_num; linarith) (by linarith), h3]; rfl
  · have hb : l.aMin + (8 : ℕ) * spacing l = Real.pi := by rw [h2, h6]; push_cast; ring
    rw [g2 8 (by omega), h3, if_neg (by norm_num), if_pos (by norm_num), Function.comp_apply]
    rw [drawn_at h5 (by omega) (by norm_num) (d := 1), drawn_not (by norm_num)] <;> first | rfl | rw [hb] | skip
    all_goals norm_num [dir, Vec2.cross]

/-- `TEST_F(TestLRF3, renderLineWeird)`, test/test_lrf.cpp:96-126: beams below the end point at `a1` keep their value, the
other ones are at most 1. -/
theorem render_weird : ∃ l, sensor (-(Real.pi / 2)) (Real.pi / 2) 30 = .ok l ∧
    let a1 := Real.pi / 2 - 0.1
    let a2 := -(Real.pi / 2) - 1
    ∃ r, l.renderLine ⟨Real.cos a1, Real.sin a1⟩ ⟨Real.cos a2, Real.sin a2⟩ (ranges 30) = .ok r ∧
    ∃ k, l.getAngleUpperIndex a1 = .ok k ∧ (∀ i < k - 1, vget r i = .ok ((60 : ℝ) : EReal)) ∧
      ∀ i, k ≤ i → i < 30 → ∃ d : EReal, vget r i = .ok d ∧ d ≤ ((1 : ℝ) : EReal) := by
  obtain ⟨l, h1, h2, h3, h4, h5, h6⟩ := sensor_fine
  have hp := Real.pi_pos
  have hp3 := Real.pi_gt_three
  have hp4 : Real.pi < 3.15 := Real.pi_lt_d2
  refine ⟨l, h1, ?_⟩
  intro a1 a2
  have e1 : atan2 (Real.sin a1) (Real.cos a1) = a1 := by
    have := atan2_polar one_pos (θ := a1) ⟨by simp only [a1]; linarith, by simp only [a1]; linarith⟩
    rwa [one_mul, one_mul] at this
  have e2 : atan2 (Real.sin a2) (Real.cos a2) = a2 := by
    have := atan2_polar one_pos (θ := a2) ⟨by simp only [a2]; linarith, by simp only [a2]; linarith⟩
    rwa [one_mul, one_mul] at this
  have c1 : Real.cos a1 = Real.sin 0.1 := Real.cos_pi_div_two_sub _
  have c2 : Real.cos a2 = -Real.sin 1 := by
    rw [show a2 = -(1 + Real.pi / 2) by simp only [a2]; ring, Real.cos_neg, Real.cos_add_pi_div_two]
  have s01 : 0 < Real.sin 0.1 := Real.sin_pos_of_pos_of_lt_pi (by norm_num) (by linarith)
  have s1 : 0 < Real.sin 1 := Real.sin_pos_of_pos_of_lt_pi (by norm_num) (by linarith)
  obtain ⟨r, g1, g2⟩ := line_at (p1 := ⟨Real.cos a1, Real.sin a1⟩) (p2 := ⟨Real.cos a2, Real.sin a2⟩) (k1 := 29) (k2 := -8)
    (hf := 29) h5 h4 (by rintro ⟨h, -⟩; simp only [c1] at h; linarith) (by rintro ⟨h, -⟩; simp only [c2] at h; linarith)
    (by intro h; have := congrArg Vec2.x h; simp only [c1, c2] at this; linarith)
    (by
      have := Real.sin_sq_add_cos_sq a1
      simp only [Vec2.length2]; nlinarith)
    (by rw [show atan2 _ _ = _ from e1]
        exact raw_at h5 28 (by rw [h2, h6]; simp only [a1]; norm_num; linarith)
          (by rw [h2, h6]; simp only [a1]; norm_num; linarith) (by simp only [a1]; linarith))
    (by rw [show atan2 _ _ = _ from e2]
        exact raw_far h5 8 (by rw [h2, h6]; simp only [a2]; norm_num; linarith)
          (by rw [h2, h6]; simp only [a2]; norm_num; linarith) (by simp only [a2]; linarith))
    (by norm_num) (by rw [h6]; field_simp; norm_num)
  refine ⟨r, by rw [h3] at g1; exact g1, 29, ?_, ?_, ?_⟩
  · rw [upper_at h5 28 (by rw [h2, h6]; simp only [a1]; norm_num; linarith)
          (by rw [h2, h6]; simp only [a1]; norm_num; linarith) (by simp only [a1]; linarith), h3]; rfl
  · intro i hi
    rw [g2 i (by omega), if_neg (by norm_num), if_pos (by norm_num), Function.comp_apply,
      drawn_not (by simp) (drawn _ _ _ _ _ _ _), drawn_not (by simp; omega)]
  · intro i hi hi'
    obtain rfl : i = 29 := by omega
    have hb : l.aMin + (29 : ℕ) * spacing l = Real.pi / 2 := by rw [h2, h6]; push_cast; ring
    rw [g2 29 (by omega), if_neg (by norm_num), if_pos (by norm_num), Function.comp_apply]
    refine ⟨_, rfl, ?_⟩
    have hD : (dir (Real.pi / 2)).cross ((⟨Real.cos a2, Real.sin a2⟩ : Vec2) - ⟨Real.cos a1, Real.sin a1⟩) =
        Real.sin 0.1 + Real.sin 1 := by
      simp [dir, Vec2.cross, c1, c2]
    have hN : (⟨Real.cos a1, Real.sin a1⟩ : Vec2).cross ((⟨Real.cos a2, Real.sin a2⟩ : Vec2) - ⟨Real.cos a1, Real.sin a1⟩) =
        Real.sin 0.9 := by
      have e : Real.sin (a2 - a1) = Real.sin 0.9 := by
        rw [show a2 - a1 = -(0.9 + Real.pi) by simp only [a1, a2]; ring, Real.sin_neg, Real.sin_add_pi, neg_neg]
      have e' := Real.sin_sub a2 a1
      rw [← e, e']
      simp only [Vec2.cross, Vec2.sub_x, Vec2.sub_y]
      ring
    have s9 : 0 < Real.sin 0.9 := Real.sin_pos_of_pos_of_lt_pi (by norm_num) (by linarith)
    have s91 : Real.sin 0.9 ≤ Real.sin 1 := Real.sin_le_sin_of_le_of_le_pi_div_two (by linarith) (by linarith) (by norm_num)
    have hle : Real.sin 0.9 / (Real.sin 0.1 + Real.sin 1) ≤ 1 := by rw [div_le_one (by linarith)]; linarith
    rw [drawn_at h5 (by omega) (by rw [h3]; norm_num) (d := Real.sin 0.9 / (Real.sin 0.1 + Real.sin 1))
      (by rw [hb, hD]; linarith) (by rw [hb, hD, hN]) (by positivity) (by linarith), drawn_not (by simp)]
    exact_mod_cast hle

/-- `TEST_F(TestLRF3, renderLineRight2)`, test/test_lrf.cpp:128-147. -/
theorem render_right2 : ∃ l, sensor (-(Real.pi / 2)) (Real.pi / 2) 30 = .ok l ∧
    ∃ r, l.renderLine ⟨-1, -1⟩ ⟨1, -1⟩ (ranges 30) = .ok r ∧
    ∃ k, l.getAngleUpperIndex2 1 (-1) = .ok k ∧
      (∀ i < k - 1, ∃ d : EReal, vget r i = .ok d ∧ d ≤ ((Real.sqrt 2 : ℝ) : EReal)) ∧
      ∀ i, k ≤ i → i < 30 → vget r i = .ok ((60 : ℝ) : EReal) := by
  obtain ⟨l, h1, h2, h3, h4, h5, h6⟩ := sensor_fine
  have hp := Real.pi_pos
  obtain ⟨-, k2, -, k4, -⟩ := eight
  obtain ⟨r, g1, g2⟩ := line_at (p1 := ⟨-1, -1⟩) (p2 := ⟨1, -1⟩) (k1 := -6) (k2 := 8)
    (hf := 29) h5 h4 (by norm_num) (by norm_num) (by simp; norm_num) (by norm_num [Vec2.length2])
    (by rw [show atan2 _ _ = _ from k2]
        exact raw_far h5 6 (by rw [h2, h6]; norm_num; linarith) (by rw [h2, h6]; norm_num; linarith) (by linarith))
    (by rw [show atan2 _ _ = _ from k4]
        exact raw_at h5 7 (by rw [h2, h6]; norm_num; linarith) (by rw [h2, h6]; norm_num; linarith) (by linarith))
    (by norm_num) (by rw [h6]; field_simp; norm_num)
  refine ⟨l, h1, r, by rw [h3] at g1; exact g1, 8, ?_, ?_, ?_⟩
  · rw [LRF.getAngleUpperIndex2, k4, upper_at h5 7 (by rw [h2, h6]; norm_num; linarith)
      (by rw [h2, h6]; norm_num; linarith) (by linarith), h3]; rfl
  · intro i hi
    rw [g2 i (by omega), h3, if_pos (by norm_num), if_pos (by norm_num)]
    refine ⟨_, rfl, ?_⟩
    have hb : l.aMin + i * spacing l = i * (Real.pi / 29) - Real.pi / 2 := by rw [h2, h6]; ring
    have hi7 : (i : ℝ) ≤ 7 := by exact_mod_cast (by omega : i ≤ 7)
    have hi0 : (0 : ℝ) ≤ i := Nat.cast_nonneg i
    have hb0 : 0 ≤ i * (Real.pi / 29) := by positivity
    have hb1 : i * (Real.pi / 29) ≤ Real.pi / 4 := by nlinarith
    have hc : Real.sqrt 2 / 2 ≤ Real.cos (i * (Real.pi / 29)) := by
      rw [← Real.cos_pi_div_four]
      exact Real.cos_le_cos_of_nonneg_of_le_pi hb0 (by linarith) hb1
    have hD : (dir (i * (Real.pi / 29) - Real.pi / 2)).cross ((⟨1, -1⟩ : Vec2) - ⟨-1, -1⟩) =
        2 * Real.cos (i * (Real.pi / 29)) := by
      simp only [dir, Vec2.cross, Vec2.sub_x, Vec2.sub_y, Real.sin_sub_pi_div_two]; ring
    have hN : (⟨-1, -1⟩ : Vec2).cross ((⟨1, -1⟩ : Vec2) - ⟨-1, -1⟩) = 2 := by norm_num [Vec2.cross]
    have q2 : 1 < Real.sqrt 2 := by rw [Real.lt_sqrt (by norm_num)]; norm_num
    have q2' : Real.sqrt 2 < 2 := by rw [Real.sqrt_lt' (by norm_num)]; norm_num
    have qq := Real.mul_self_sqrt (show (0:ℝ) ≤ 2 by norm_num)
    have hle : 2 / (2 * Real.cos (i * (Real.pi / 29))) ≤ Real.sqrt 2 := by
      rw [div_le_iff₀ (by linarith)]
      nlinarith
    rw [drawn_at h5 (by omega) (by constructor <;> simp; omega) (d := 2 / (2 * Real.cos (i * (Real.pi / 29))))
      (by rw [hb, hD]; linarith) (by rw [hb, hD, hN]) (div_pos two_pos (by linarith)) (by linarith)]
    exact_mod_cast hle
  · intro i hi hi'
    rw [g2 i (by omega), h3, if_pos (by norm_num), if_pos (by norm_num), drawn_not (by simp; omega)]

end Geo.Tests
