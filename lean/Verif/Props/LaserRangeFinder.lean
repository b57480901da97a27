import Verif.Lemmas.LaserRangeFinderUse
import Mathlib.Analysis.Real.Pi.Bounds

/-!
# Properties of the laser range finder: beams and lines (C51–C56)
-/

namespace Geo

open Spec

/-! ## C51 -/

/-- C51: after any history of setter calls (all of which returned) the configuration is that of the last calls, and if it
has a beam and proper limits, the tables match it. -/
theorem C51_tables (ops : List LRF.Op) (l : LRF) (h : LRF.new.run ops = .ok l) :
    (l.aMin, l.aMax) = lastLimits ops ∧ (l.rangeMin, l.rangeMax) = lastRange ops ∧ l.numBeams = lastBeams ops ∧
    (0 < lastBeams ops → (lastLimits ops).1 < (lastLimits ops).2 → TablesOk l ∧ l.getAngleIncrement = spacing l) := by
  obtain ⟨h1, h2, h3, h4⟩ := LRF.run_inv ops _ _ LRF.inv_new h
  refine ⟨h2, h3, h4, fun a b => ?_⟩
  rw [show lastBeams ops = l.numBeams from h4.symm] at a
  rw [show lastLimits ops = (l.aMin, l.aMax) from h2.symm] at b
  exact ⟨(h1 a b).1, (h1 a b).2.1⟩

/-- The hypotheses of C51 are met by a sensor with three beams. -/
example : ∃ l, LRF.new.run [.rangeLimits 0 4, .angleLimits (-(Real.pi / 2)) (Real.pi / 2), .numBeams 3] = .ok l ∧
    TablesOk l ∧ l.angles[1]? = some 0 := by
  obtain ⟨l, h1, h2, h3, h4, _, h6, h7⟩ := half_sensor 4
  have t := (LRF.ready_inv h6.ready).1
  refine ⟨l, h1, t, ?_⟩
  rw [(t.2.2 1 (by omega)).1, LRF.beamAngle_eq, h2, h7]
  norm_num

/-- C51: without the condition on the limits the claim is false: the tables keep their old size and the sensor announces
five beams but has two directions. -/
theorem C51_stale_wrong : ∃ l,
    LRF.new.run [.rangeLimits 0 4, .angleLimits 0 (Real.pi / 2), .numBeams 2, .angleLimits 1 0, .numBeams 5] = .ok l ∧
    l.numBeams = 5 ∧ l.rayDirs.length = 2 ∧ ¬ TablesOk l := by
  obtain ⟨l, h1, h2, h3, h4, _, h6, h7⟩ := quarter_sensor 4
  have t := (LRF.ready_inv h6.ready).1.2.1
  refine ⟨{ l with aMin := 1, aMax := 0, numBeams := 5 }, ?_, rfl, t.trans h4, fun ht => ?_⟩
  · have := LRF.run_append _ [.angleLimits 1 0, .numBeams 5] _ _ h1
    refine Eq.trans this ?_
    simp only [LRF.run, LRF.step, LRF.setAngleLimits, LRF.setNumBeams, bind, Except.bind]
    rw [if_neg (by norm_num)]
    simp only
    rw [if_neg (by norm_num)]
  · have := ht.2.1.symm.trans (t.trans h4)
    simp at this

/-! ## C52 -/

/-- C52, except for angles less than one step below the first beam: the index is the number of beams whose angle is not
larger. -/
theorem C52_upper_partial {l : LRF} (h : Fine l) {a : ℝ} (h0 : -Real.pi ≤ a) (h1 : a ≤ Real.pi)
    (hb : l.aMin ≤ a ∨ a ≤ l.aMin - spacing l) :
    l.getAngleUpperIndex a =
      .ok (Finset.filter (fun j => beamAngle l.aMin l.aMax l.numBeams j ≤ a) (Finset.range l.numBeams)).card := by
  have hs := LRF.spacing_pos h.ready
  unfold LRF.getAngleUpperIndex
  rcases hb with hb | hb
  · obtain ⟨g1, g2⟩ := LRF.raw_ok h.ready hb (h.index h1)
    rw [g1]
    simp only [bind, Except.bind, pure, Except.pure, Except.ok.injEq]
    have : Finset.filter (fun j => beamAngle l.aMin l.aMax l.numBeams j ≤ a) (Finset.range l.numBeams) =
        Finset.range (min l.numBeams (max 0 (⌊(a - l.aMin) / spacing l⌋ + 1)).toNat) := by
      ext j
      rw [Finset.mem_filter, Finset.mem_range, Finset.mem_range, ← LRF.lt_index h.ready a j]
      omega
    rw [this, Finset.card_range]
  · obtain ⟨g1, g2⟩ := raw_far_below h h0 hb
    rw [g1]
    simp only [bind, Except.bind, pure, Except.pure, Except.ok.injEq]
    have : Finset.filter (fun j => beamAngle l.aMin l.aMax l.numBeams j ≤ a) (Finset.range l.numBeams) = ∅ := by
      rw [Finset.filter_eq_empty_iff]
      intro j _
      rw [LRF.beamAngle_eq]
      have : 0 ≤ (j : ℝ) * spacing l := mul_nonneg (Nat.cast_nonneg j) hs.le
      linarith
    rw [this, Finset.card_empty]
    omega

/-- A case of C52: angle 1 of the beams 0 and pi/2. -/
example : ∃ l, Fine l ∧ l.getAngleUpperIndex 1 = .ok 1 := by
  obtain ⟨l, h1, h2, h3, h4, _, h6, h7⟩ := quarter_sensor 4
  have hp := Real.pi_gt_three
  refine ⟨l, h6, ?_⟩
  unfold LRF.getAngleUpperIndex
  have e := (LRF.raw_ok h6.ready (a := 1) (by rw [h2]; norm_num) (h6.index (by linarith))).1
  change _ = Except.ok (idx l 1) at e
  rw [e, idx_eq (k := 0) h6 (by rw [h2]; norm_num) (by rw [h2, h7]; norm_num; linarith), h4]
  rfl

/-- C52 is false for every sensor and every angle less than one step below the first beam: the index is 1 although no beam
has an angle that is not larger. -/
theorem C52_below_wrong {l : LRF} (h : Fine l) {a : ℝ} (h1 : l.aMin - spacing l < a) (h2 : a < l.aMin) :
    l.getAngleUpperIndex a = .ok 1 ∧ ∀ j, a < beamAngle l.aMin l.aMax l.numBeams j := by
  refine ⟨?_, fun j => ?_⟩
  · unfold LRF.getAngleUpperIndex
    rw [raw_below h h1 h2]
    have := h.ready.2.1
    simp only [bind, Except.bind, pure, Except.pure, Except.ok.injEq]
    omega
  · rw [LRF.beamAngle_eq]
    have : 0 ≤ (j : ℝ) * spacing l := mul_nonneg (Nat.cast_nonneg j) (LRF.spacing_pos h.ready).le
    linarith

/-- A case of the above: angle -1 of the beams 0 and pi/2. -/
example : ∃ l, Fine l ∧ l.aMin - spacing l < -1 ∧ -1 < l.aMin := by
  obtain ⟨l, h1, h2, h3, h4, _, h6, h7⟩ := quarter_sensor 4
  have hp := Real.pi_gt_three
  exact ⟨l, h6, by rw [h2, h7]; linarith, by rw [h2]; norm_num⟩

/-- C52 for the overload with coordinates, except for directions less than one step below the first beam: for a point at angle `a`
the index is the number of beams whose angle is not larger. -/
theorem C52_xy_partial {l : LRF} (h : Fine l) {a r : ℝ} (hr : 0 < r) (h0 : -Real.pi < a) (h1 : a ≤ Real.pi)
    (hb : l.aMin ≤ a ∨ a ≤ l.aMin - spacing l) :
    l.getAngleUpperIndex2 (r * Real.cos a) (r * Real.sin a) =
      .ok (Finset.filter (fun j => beamAngle l.aMin l.aMax l.numBeams j ≤ a) (Finset.range l.numBeams)).card := by
  unfold LRF.getAngleUpperIndex2
  rw [atan2_polar hr ⟨h0, h1⟩]
  exact C52_upper_partial h h0.le h1 hb

/-- A case of the above: the point at distance 2 and angle 1, between the beams 0 and pi/2. -/
example : ∃ l, Fine l ∧ l.getAngleUpperIndex2 (2 * Real.cos 1) (2 * Real.sin 1) = .ok 1 := by
  obtain ⟨l, h1, h2, h3, h4, _, h6, h7⟩ := quarter_sensor 4
  have hp := Real.pi_gt_three
  refine ⟨l, h6, ?_⟩
  rw [C52_xy_partial h6 two_pos (by linarith) (by linarith) (Or.inl (by rw [h2]; norm_num)), h4]
  congr 1
  rw [Finset.card_eq_one]
  refine ⟨0, ?_⟩
  ext j
  rw [Finset.mem_filter, Finset.mem_range, Finset.mem_singleton, ← h4, LRF.beamAngle_eq, h2, h7, h4]
  constructor
  · rintro ⟨g1, g2⟩
    rcases (by omega : j = 0 ∨ j = 1) with rfl | rfl
    · rfl
    · norm_num at g2
      linarith
  · rintro rfl
    norm_num

/-! ## C53 -/

/-- C53: after any sequence of points with positive depths every beam shows the nearest one. -/
theorem C53_nearest (ps : List (ℕ × EReal)) (ranges : List EReal) (hi : ∀ p ∈ ps, p.1 < ranges.length)
    (hd : ∀ p ∈ ps, 0 < p.2) :
    ∃ ranges', RenderResult.renderPoints ps ranges = .ok ranges' ∧ ranges'.length = ranges.length ∧
      ∀ (j : ℕ) old new, ranges[j]? = some old → ranges'[j]? = some new → IsNearest old {d | (j, d) ∈ ps} new := by
  obtain ⟨r', h1, h2, h3⟩ := renderPoints_ok ps ranges hi
  refine ⟨r', h1, h2, fun j old new ho hn => ?_⟩
  rw [h3, ho, Option.map_some, Option.some.injEq] at hn
  subst hn
  have := foldl_nearest j old ps ∅ old hd (by simp) ⟨fun _ => rfl, fun hne => absurd hne (by simp)⟩
  simpa using this

/-- C53: the order of the points does not matter. -/
theorem C53_order (ps qs : List (ℕ × EReal)) (hp : ps.Perm qs) (ranges : List EReal)
    (hi : ∀ p ∈ ps, p.1 < ranges.length) (hd : ∀ p ∈ ps, 0 < p.2) :
    RenderResult.renderPoints ps ranges = RenderResult.renderPoints qs ranges := by
  obtain ⟨r1, a1, a2, a3⟩ := C53_nearest ps ranges hi hd
  obtain ⟨r2, b1, b2, b3⟩ := C53_nearest qs ranges (fun p h => hi p (hp.mem_iff.2 h)) (fun p h => hd p (hp.mem_iff.2 h))
  rw [a1, b1]
  congr 1
  refine List.ext_getElem (a2.trans b2.symm) fun j h1 h2 => ?_
  have ho : ranges[j]? = some (ranges[j]'(by omega)) := List.getElem?_eq_getElem (by omega)
  have e1 := a3 j _ _ ho (List.getElem?_eq_getElem h1)
  have e2 := b3 j _ _ ho (List.getElem?_eq_getElem h2)
  have : {d | (j, d) ∈ ps} = {d | (j, d) ∈ qs} := by ext d; exact hp.mem_iff
  rw [this] at e1
  exact nearest_unique e1 e2

/-- A case of C53: two beams, three points, two of them on one beam. -/
example : RenderResult.renderPoints [(0, 5), (1, 3), (0, 2)] [0, 1] = .ok [2, 1] ∧
    RenderResult.renderPoints [(0, 2), (0, 5), (1, 3)] [0, 1] = .ok [2, 1] := by
  have e1 : (2 : EReal) < 5 := by exact_mod_cast (by norm_num : (2 : ℝ) < 5)
  have e2 : ¬ (3 : EReal) < 1 := not_lt.2 (by exact_mod_cast (by norm_num : (1 : ℝ) ≤ 3))
  have e3 : ¬ (5 : EReal) < 2 := not_lt.2 e1.le
  constructor <;> simp [RenderResult.renderPoints, RenderResult.renderPoint, vget, bind, Except.bind, pure, Except.pure,
    e1, e2, e3]

/-! ## C54 -/

/-- C54, line clause, except for beams parallel to the line: a range that `renderLine` changes is a positive depth at
which the beam is on the line through the end points. For a parallel beam the new range is infinite. -/
theorem C54_line_partial {l : LRF} (h : Ready l) {p1 p2 : Vec2} {res res' : RenderResult}
    (hl : res.ranges.length = l.numBeams) (hr : RenderResult.renderLine l res p1 p2 = .ok res') (j : ℕ) (old new : EReal)
    (ho : res.ranges[j]? = some old) (hn : res'.ranges[j]? = some new) (hc : new ≠ old) :
    (∃ d : ℝ, 0 < d ∧ new = d ∧ OnLine p1 p2 ⟨d * (dir (beamAngle l.aMin l.aMax l.numBeams j)).x,
      d * (dir (beamAngle l.aMin l.aMax l.numBeams j)).y⟩) ∨
    (new = ⊤ ∧ (dir (beamAngle l.aMin l.aMax l.numBeams j)).cross (p2 - p1) = 0) := by
  have ht := (LRF.ready_inv h).1
  obtain ⟨_, g⟩ := renderLine_change ht.2.1 hl hr
  have hj : j < l.numBeams := by
    rw [← hl]
    exact (List.getElem?_eq_some_iff.1 ho).1
  rcases hit_cases ht hj (g j old new ho hn hc) with ⟨c1, c2, c3⟩ | c
  · exact .inl ⟨_, c2, c3, depth_on_line c1⟩
  · exact .inr c

/-- C54, segment clause: if both end points are at or above the first angle and the line is rendered in one part, the
point lies on the segment. -/
theorem C54_segment {l : LRF} (h : Fine l) {p1 p2 : Vec2} (a1 : l.aMin ≤ atan2 p1.y p1.x)
    (a2 : l.aMin ≤ atan2 p2.y p2.x) (hp : OnePart l p1 p2) {res res' : RenderResult}
    (hl : res.ranges.length = l.numBeams) (hr : RenderResult.renderLine l res p1 p2 = .ok res') (j : ℕ) (old new : EReal)
    (ho : res.ranges[j]? = some old) (hn : res'.ranges[j]? = some new) (hc : new ≠ old) :
    ∃ d : ℝ, 0 < d ∧ new = d ∧ OnSeg p1 p2 ⟨d * (dir (beamAngle l.aMin l.aMax l.numBeams j)).x,
      d * (dir (beamAngle l.aMin l.aMax l.numBeams j)).y⟩ := by
  by_cases hz : (p1.x = 0 ∧ p1.y = 0) ∨ (p2.x = 0 ∧ p2.y = 0) ∨ (p2 - p1).length2 = 0 ∨
      (l.rangeMax > 0 ∧ RenderResult.distanceSq p1 p2 > l.rangeMax * l.rangeMax)
  · rw [renderLine_skip res hz, Except.ok.injEq] at hr
    rw [← hr, ho, Option.some.injEq] at hn
    exact absurd hn.symm hc
  · obtain ⟨n1, n2, n3, n4⟩ : ¬ (p1.x = 0 ∧ p1.y = 0) ∧ ¬ (p2.x = 0 ∧ p2.y = 0) ∧ (p2 - p1).length2 ≠ 0 ∧
      ¬ (l.rangeMax > 0 ∧ RenderResult.distanceSq p1 p2 > l.rangeMax * l.rangeMax) := by tauto
    obtain ⟨r, e1, e2, e3⟩ := renderLine_cases h n1 n2 n3 n4 a1 a2 res hl
    rw [hr, Except.ok.injEq] at e1
    subst e1
    have hp' : |idx l (atan2 p2.y p2.x) - idx l (atan2 p1.y p1.x)| < ⌊Real.pi / spacing l⌋ := by
      unfold idx
      rw [add_sub_add_right_eq_sub]
      exact hp
    rw [abs_lt] at hp'
    rw [e3, ho, Option.map_some, Option.some.injEq] at hn
    rw [if_pos (by omega)] at hn
    split_ifs at hn with hk
    · subst hn
      have hk' : idx l (atan2 p1.y p1.x) < idx l (atan2 p2.y p2.x) := by
        have := (drawn_change hc).1
        omega
      obtain ⟨g1, g2, g3⟩ := one_part_ccw h n1 n2 hk' (by omega)
      exact sector_change h a1 g1 g3 hc
    · exact absurd hn.symm hc

/-- C54 for all lines that face the sensor, also those rendered in two parts, if the beams are at most pi apart: the point
lies on the segment. -/
theorem C54_front_partial {l : LRF} (h : Fine l) (hs : spacing l ≤ Real.pi) {p1 p2 : Vec2} (hf : 0 < p1.cross p2)
    (a1 : l.aMin ≤ atan2 p1.y p1.x) (a2 : l.aMin ≤ atan2 p2.y p2.x) {res res' : RenderResult}
    (hl : res.ranges.length = l.numBeams) (hr : RenderResult.renderLine l res p1 p2 = .ok res') (j : ℕ) (old new : EReal)
    (ho : res.ranges[j]? = some old) (hn : res'.ranges[j]? = some new) (hc : new ≠ old) :
    ∃ d : ℝ, 0 < d ∧ new = d ∧ OnSeg p1 p2 ⟨d * (dir (beamAngle l.aMin l.aMax l.numBeams j)).x,
      d * (dir (beamAngle l.aMin l.aMax l.numBeams j)).y⟩ := by
  obtain ⟨n1, n2, n3, hpos⟩ := ccw_cases hf
  by_cases hz : l.rangeMax > 0 ∧ RenderResult.distanceSq p1 p2 > l.rangeMax * l.rangeMax
  · rw [renderLine_skip res (.inr (.inr (.inr hz))), Except.ok.injEq] at hr
    rw [← hr, ho, Option.some.injEq] at hn
    exact absurd hn.symm hc
  · obtain ⟨r, e1, e2, e3⟩ := renderLine_cases h n1 n2 n3 hz a1 a2 res hl
    rw [hr, Except.ok.injEq] at e1
    subst e1
    have hh := half_pos h hs
    have hj : j < l.numBeams := by
      rw [← hl]
      exact (List.getElem?_eq_some_iff.1 ho).1
    rw [e3, ho, Option.map_some, Option.some.injEq] at hn
    rcases hpos with ⟨q1, q2⟩ | q
    · have hm := idx_mono h q1.le
      split_ifs at hn with k1 k2
      · subst hn
        exact sector_change h a1 hf q2 hc
      · omega
      · exact absurd hn.symm hc
    · have hp := Real.pi_pos
      have hm := idx_mono h (by linarith : atan2 p2.y p2.x ≤ atan2 p1.y p1.x)
      split_ifs at hn with k1 k2
      · subst hn
        have := (drawn_change hc).1
        omega
      · exact absurd hn.symm hc
      · obtain ⟨t1, t2⟩ := atan2_mem p1.y p1.x
        obtain ⟨b1, b2⟩ := beam_range h hj
        have ht := (LRF.ready_inv h.ready).1
        by_cases hd : drawn l p1 (p2 - p1) 0 (min l.numBeams (idx l (atan2 p2.y p2.x)).toNat) j
            (drawn l p1 (p2 - p1) (idx l (atan2 p1.y p1.x)).toNat l.numBeams j old) =
            drawn l p1 (p2 - p1) (idx l (atan2 p1.y p1.x)).toNat l.numBeams j old
        · rw [Function.comp, hd] at hn
          subst hn
          obtain ⟨⟨c1, _⟩, c3⟩ := drawn_change hc
          rw [le_idx_iff h a1] at c1
          refine sector_hit ht hj hf (Real.sin_nonneg_of_nonneg_of_le_pi (by linarith)
            (by linarith [(atan2_mem p2.y p2.x).1])) ?_ c3
          rw [← Real.sin_add_two_pi]
          exact Real.sin_nonneg_of_nonneg_of_le_pi (by linarith [(atan2_mem p2.y p2.x).1]) (by linarith)
        · rw [Function.comp] at hn
          obtain ⟨⟨_, c2⟩, c3⟩ := drawn_change hd
          have c2' := (lt_idx_iff h j).1 (by omega : j < (idx l (atan2 p2.y p2.x)).toNat)
          rw [hn] at c3
          refine sector_hit ht hj hf ?_ (Real.sin_nonneg_of_nonneg_of_le_pi (by linarith) (by linarith)) c3
          rw [← Real.sin_add_two_pi]
          exact Real.sin_nonneg_of_nonneg_of_le_pi (by linarith) (by linarith)

/-- A case of C54: the beam 0 of the beams -pi/2, 0, pi/2 meets the line from (1,-1) to (1,1) at distance 1. -/
example : ∃ l, Fine l ∧ spacing l ≤ Real.pi ∧ 0 < (⟨1, -1⟩ : Vec2).cross ⟨1, 1⟩ ∧ l.aMin ≤ atan2 (-1) 1 ∧
    l.aMin ≤ atan2 1 1 ∧ OnePart l ⟨1, -1⟩ ⟨1, 1⟩ ∧
    ∃ res', RenderResult.renderLine l ⟨0, 3, [0, 0, 0]⟩ ⟨1, -1⟩ ⟨1, 1⟩ = .ok res' ∧ res'.ranges[1]? = some 1 := by
  obtain ⟨l, h1, h2, h3, h4, h5, h6, h7⟩ := half_sensor 4
  have hp := Real.pi_pos
  obtain ⟨u1, u2⟩ := atan2_lower_right (x := 1) (y := -1) (by norm_num) (by norm_num)
  obtain ⟨v1, v2⟩ := atan2_upper_right (x := 1) (y := 1) (by norm_num) (by norm_num)
  obtain ⟨i1, i2, r, e1, _, e3⟩ := half_draw h2 h4 h6 h7 (x := 1) (y := 1) one_pos one_pos (.inr (by rw [h5]; norm_num))
    ⟨0, 3, [0, 0, 0]⟩ rfl
  refine ⟨l, h6, by rw [h7]; linarith, by norm_num [Vec2.cross], by rw [h2]; linarith, by rw [h2]; linarith, ?_, r, e1, ?_⟩
  · unfold OnePart
    rw [half_two h7]
    have e : ∀ a, ⌊(a - l.aMin) / spacing l⌋ = idx l a - 1 := fun a => by unfold idx; ring
    rw [e, e]
    simp only [i1, i2]
    norm_num
  · rw [e3]
    simp [combine]

/-- C54 is false for end points just below the first angle: of the beams 0 and pi/2, the first is given the range 1 by the
line from (0,-1) to (1/2,-1/2), although the point (1,0) is not on it. -/
theorem C54_below_wrong : ∃ l, Fine l ∧ l.numBeams = 2 ∧
    ∃ res', RenderResult.renderLine l ⟨0, 2, [0, 0]⟩ ⟨0, -1⟩ ⟨1 / 2, -1 / 2⟩ = .ok res' ∧
    res'.ranges[0]? = some 1 ∧ beamAngle l.aMin l.aMax l.numBeams 0 = 0 ∧ ¬ OnSeg ⟨0, -1⟩ ⟨1 / 2, -1 / 2⟩ ⟨1, 0⟩ := by
  obtain ⟨l, h1, h2, h3, h4, h5, h6, h7⟩ := quarter_sensor 0
  have hp := Real.pi_pos
  obtain ⟨u1, u2⟩ := atan2_lower_right (x := 1 / 2) (y := -1 / 2) (by norm_num) (by norm_num)
  have e1 : atan2 (-1) 0 = -(Real.pi / 2) := by
    have : (⟨0, -1⟩ : ℂ) = -Complex.I := by apply Complex.ext <;> simp
    rw [atan2, this, Complex.arg_neg_I]
  have i1 : l.getAngleUpperIndexRaw2 0 (-1) = .ok 0 := by
    unfold LRF.getAngleUpperIndexRaw2
    rw [e1, (raw_far_below h6 (by linarith) (by rw [h2, h7]; linarith)).1, h2, h7]
    have : (-(Real.pi / 2) - 0) / (Real.pi / 2) = ((-1 : ℤ) : ℝ) := by field_simp; norm_num
    rw [this, Int.ceil_intCast]
    rfl
  have i2 : l.getAngleUpperIndexRaw2 (1 / 2) (-1 / 2) = .ok 1 :=
    raw_below h6 (by rw [h2, h7]; linarith) (by rw [h2]; exact u2)
  have hb : beamAngle l.aMin l.aMax l.numBeams 0 = 0 := by rw [LRF.beamAngle_eq, h2]; norm_num
  have ht := (LRF.ready_inv h6.ready).1
  obtain ⟨r, g1, _, g3⟩ := renderLine_raw (p1 := ⟨0, -1⟩) (p2 := ⟨1 / 2, -1 / 2⟩) (by norm_num) (by norm_num)
    (by norm_num [Vec2.length2]) (by rw [h5]; norm_num) i1 i2 (by norm_num) h6.half.2 h6.beams ht.2.1 ⟨0, 2, [0, 0]⟩
    (by rw [h4]; rfl)
  refine ⟨l, h6, h4, r, g1, ?_, hb, ?_⟩
  · rw [g3]
    have hh := hit_eq ht (j := 0) (p1 := ⟨0, -1⟩) (s := (⟨1 / 2, -1 / 2⟩ : Vec2) - ⟨0, -1⟩) (by rw [h4]; norm_num)
      (by rw [hb]; norm_num [dir, Vec2.cross]) (by rw [hb]; norm_num [dir, Vec2.cross])
    rw [hb] at hh
    have hv : (⟨0, -1⟩ : Vec2).cross ((⟨1 / 2, -1 / 2⟩ : Vec2) - ⟨0, -1⟩) /
        (dir 0).cross ((⟨1 / 2, -1 / 2⟩ : Vec2) - ⟨0, -1⟩) = 1 := by norm_num [dir, Vec2.cross]
    rw [hv] at hh
    rw [half_two h7, h4]
    generalize (⟨1 / 2, -1 / 2⟩ : Vec2) - ⟨0, -1⟩ = s at hh
    norm_num [drawn, hh, combine]
  · rintro ⟨t, h0, h1, hx, hy⟩
    norm_num at hx hy
    linarith

/-- C54 is false for beams parallel to the line: the first of the beams 0 and pi/2 is given an infinite range by the line
from (0,-1) to (1,-1). -/
theorem C54_parallel_wrong : ∃ l, Fine l ∧ l.numBeams = 2 ∧
    ∃ res', RenderResult.renderLine l ⟨0, 2, [0, 0]⟩ ⟨0, -1⟩ ⟨1, -1⟩ = .ok res' ∧
    res'.ranges[0]? = some ⊤ := by
  obtain ⟨l, h1, h2, h3, h4, h5, h6, h7⟩ := quarter_sensor 0
  have hp := Real.pi_pos
  obtain ⟨u1, u2⟩ := atan2_lower_right (x := 1) (y := -1) (by norm_num) (by norm_num)
  have e1 : atan2 (-1) 0 = -(Real.pi / 2) := by
    have : (⟨0, -1⟩ : ℂ) = -Complex.I := by apply Complex.ext <;> simp
    rw [atan2, this, Complex.arg_neg_I]
  have i1 : l.getAngleUpperIndexRaw2 0 (-1) = .ok 0 := by
    unfold LRF.getAngleUpperIndexRaw2
    rw [e1, (raw_far_below h6 (by linarith) (by rw [h2, h7]; linarith)).1, h2, h7]
    have : (-(Real.pi / 2) - 0) / (Real.pi / 2) = ((-1 : ℤ) : ℝ) := by field_simp; norm_num
    rw [this, Int.ceil_intCast]
    rfl
  have i2 : l.getAngleUpperIndexRaw2 1 (-1) = .ok 1 :=
    raw_below h6 (by rw [h2, h7]; linarith) (by rw [h2]; exact u2)
  have hb : beamAngle l.aMin l.aMax l.numBeams 0 = 0 := by rw [LRF.beamAngle_eq, h2]; norm_num
  have ht := (LRF.ready_inv h6.ready).1
  obtain ⟨r, g1, _, g3⟩ := renderLine_raw (p1 := ⟨0, -1⟩) (p2 := ⟨1, -1⟩) (by norm_num) (by norm_num)
    (by norm_num [Vec2.length2]) (by rw [h5]; norm_num) i1 i2 (by norm_num) h6.half.2 h6.beams ht.2.1 ⟨0, 2, [0, 0]⟩
    (by rw [h4]; rfl)
  refine ⟨l, h6, h4, r, g1, ?_⟩
  rw [g3]
  have hh : hit l ⟨0, -1⟩ ((⟨1, -1⟩ : Vec2) - ⟨0, -1⟩) 0 = some ⊤ := by
    unfold hit
    rw [(ht.2.2 0 (by rw [h4]; norm_num)).2, hb]
    norm_num [RenderResult.quotient, Vec2.cross, Vec3.projectTo2d]
  rw [half_two h7, h4]
  norm_num [drawn, hh, combine]

/-- C54 is false for lines that face away: of the beams -2pi/3, 0 and 2pi/3, the last is given a range by the line from
(1,0) to (2,-1), all points of which have y at most 0, although the beam goes to positive y. -/
theorem C54_back_wrong : ∃ l, Fine l ∧ l.numBeams = 3 ∧ spacing l ≤ Real.pi ∧ l.aMin ≤ atan2 0 1 ∧ l.aMin ≤ atan2 (-1) 2 ∧
    ∃ res' d, RenderResult.renderLine l ⟨0, 3, [0, 0, 0]⟩ ⟨1, 0⟩ ⟨2, -1⟩ = .ok res' ∧ 0 < d ∧
      res'.ranges[2]? = some ((d : ℝ) : EReal) ∧ 0 < d * (dir (beamAngle l.aMin l.aMax l.numBeams 2)).y ∧
      ∀ q, OnSeg ⟨1, 0⟩ ⟨2, -1⟩ q → q.y ≤ 0 := by
  have hp := Real.pi_pos
  obtain ⟨l, _, h2, h3, h4, h5, h6⟩ := exists_sensor (a := -(2 * Real.pi / 3)) (b := 2 * Real.pi / 3) (R := 0) (n := 3)
    (by norm_num) (by linarith) (by linarith) (by linarith) (by norm_num; linarith)
  have h7 : spacing l = 2 * Real.pi / 3 := by unfold spacing; rw [h2, h3, h4]; norm_num
  have hh : ⌊Real.pi / spacing l⌋ = 1 := by
    have : Real.pi / spacing l = 3 / 2 := by rw [h7]; field_simp
    rw [this]
    norm_num
  obtain ⟨u1, u2⟩ := atan2_lower_right (x := 2) (y := -1) (by norm_num) (by norm_num)
  have e1 : atan2 0 1 = 0 := by
    have : (⟨1, 0⟩ : ℂ) = 1 := by apply Complex.ext <;> simp
    rw [atan2, this, Complex.arg_one]
  have a1 : l.aMin ≤ atan2 0 1 := by rw [h2, e1]; linarith
  have a2 : l.aMin ≤ atan2 (-1) 2 := by rw [h2]; linarith
  have i1 : idx l (atan2 0 1) = 2 := idx_eq (k := 1) h6 (by rw [h2, h7, e1]; norm_num) (by rw [h2, h7, e1]; norm_num; linarith)
  have i2 : idx l (atan2 (-1) 2) = 1 := idx_eq (k := 0) h6 (by rw [h2]; norm_num; linarith) (by rw [h2, h7]; norm_num; linarith)
  have hb : beamAngle l.aMin l.aMax l.numBeams 2 = Real.pi - Real.pi / 3 := by
    rw [LRF.beamAngle_eq, h2, h7]; push_cast; ring
  have ht := (LRF.ready_inv h6.ready).1
  have hsq : Real.sqrt 3 * Real.sqrt 3 = 3 := Real.mul_self_sqrt (by norm_num)
  have hs1 : 1 < Real.sqrt 3 := by
    rw [Real.lt_sqrt] <;> norm_num
  have hr : (dir (beamAngle l.aMin l.aMax l.numBeams 2)) = ⟨-(1 / 2), Real.sqrt 3 / 2⟩ := by
    rw [hb]
    simp only [dir, Real.cos_pi_sub, Real.sin_pi_sub, Real.cos_pi_div_three, Real.sin_pi_div_three]
  have hc : (⟨-(1 / 2), Real.sqrt 3 / 2⟩ : Vec2).cross ((⟨2, -1⟩ : Vec2) - ⟨1, 0⟩) = 1 / 2 - Real.sqrt 3 / 2 := by
    simp [Vec2.cross]; ring
  have hc1 : (⟨1, 0⟩ : Vec2).cross ((⟨2, -1⟩ : Vec2) - ⟨1, 0⟩) = -1 := by simp [Vec2.cross]
  have hd : 0 < -1 / (1 / 2 - Real.sqrt 3 / 2) := div_pos_of_neg_of_neg (by norm_num) (by linarith)
  obtain ⟨r, g1, _, g3⟩ := renderLine_cases (p1 := ⟨1, 0⟩) (p2 := ⟨2, -1⟩) h6 (by norm_num) (by norm_num)
    (by norm_num [Vec2.length2]) (by rw [h5]; norm_num) a1 a2 ⟨0, 3, [0, 0, 0]⟩ (by rw [h4]; rfl)
  refine ⟨l, h6, h4, by rw [h7]; linarith, a1, a2, r, _, g1, hd, ?_, ?_, ?_⟩
  · rw [g3]
    have hhit := hit_eq ht (j := 2) (p1 := ⟨1, 0⟩) (s := (⟨2, -1⟩ : Vec2) - ⟨1, 0⟩) (by rw [h4]; norm_num)
      (by rw [hr, hc]; linarith) (by rw [hr, hc, hc1]; exact hd)
    rw [hr, hc, hc1] at hhit
    simp only [i1, i2, hh, h4]
    simp [drawn, hhit, combine]
  · rw [hr]
    exact mul_pos hd (by positivity)
  · rintro q ⟨t, h0, h1, hx, hy⟩
    rw [hy]
    simp only
    linarith

/-! ## C55 -/

/-- C55, for end points not below the first angle and not more than pi minus two beams apart (as seen in the half without
the cut at pi): a beam that hits the interior of a line facing the sensor shows at most the distance of the hit. -/
theorem C55_complete_partial {l : LRF} (h : Fine l) {p1 p2 : Vec2} (hf : 0 < p1.cross p2)
    (a1 : l.aMin ≤ atan2 p1.y p1.x) (a2 : l.aMin ≤ atan2 p2.y p2.x)
    (hg : atan2 p1.y p1.x < atan2 p2.y p2.x → atan2 p2.y p2.x - atan2 p1.y p1.x ≤ Real.pi - 2 * spacing l)
    {j : ℕ} (hj : j < l.numBeams) {d t : ℝ} (hd : 0 < d) (hm : l.rangeMax ≤ 0 ∨ d ≤ l.rangeMax) (h0 : 0 < t) (h1 : t < 1)
    (hq : AtParam p1 p2 t ⟨d * (dir (beamAngle l.aMin l.aMax l.numBeams j)).x,
      d * (dir (beamAngle l.aMin l.aMax l.numBeams j)).y⟩)
    (res : RenderResult) (hl : res.ranges.length = l.numBeams) :
    ∃ res' new, RenderResult.renderLine l res p1 p2 = .ok res' ∧ res'.ranges[j]? = some new ∧ new ≤ d ∧ new ≠ 0 := by
  exact line_complete h hf a1 a2 hg hj hd hm h0 h1 hq res hl

/-- A case of C55: the beam pi of a sensor for the full turn hits the line from (-1,1) to (-1,-1), which is drawn in two
parts. -/
example : ∃ l, Fine l ∧ l.rangeMax = 2 ∧ 0 < (⟨-1, 1⟩ : Vec2).cross ⟨-1, -1⟩ ∧ l.aMin ≤ atan2 1 (-1) ∧
    l.aMin ≤ atan2 (-1) (-1) ∧ atan2 (-1) (-1) < atan2 1 (-1) ∧ 4 < l.numBeams ∧
    AtParam ⟨-1, 1⟩ ⟨-1, -1⟩ (1 / 2) ⟨1 * (dir (beamAngle l.aMin l.aMax l.numBeams 4)).x,
      1 * (dir (beamAngle l.aMin l.aMax l.numBeams 4)).y⟩ := by
  have hp := Real.pi_pos
  obtain ⟨l, _, h2, h3, h4, h5, h6⟩ := exists_sensor (a := -Real.pi) (b := Real.pi) (R := 2) (n := 5)
    (by norm_num) (by linarith) (by linarith) (by linarith) (by norm_num; linarith)
  have hb : beamAngle l.aMin l.aMax l.numBeams 4 = Real.pi := by
    rw [h2, h3, h4]; unfold beamAngle; push_cast; norm_num; ring
  refine ⟨l, h6, h5, by norm_num [Vec2.cross], by rw [h2]; exact (atan2_mem _ _).1.le, by rw [h2]; exact (atan2_mem _ _).1.le,
    ?_, by omega, by rw [hb]; norm_num [AtParam, dir]⟩
  have c1 : atan2 (-1) (-1) < 0 := Complex.arg_neg_iff.2 (by norm_num)
  have c2 : 0 ≤ atan2 1 (-1) := Complex.arg_nonneg_iff.2 (by norm_num)
  linarith

/-- C55 is false for lines that are nearly half a turn wide: every line that faces the sensor and spans at least the
largest multiple of the beam spacing within half a turn is not drawn at all. -/
theorem C55_wide_wrong {l : LRF} (h : Fine l) {p1 p2 : Vec2} (hf : 0 < p1.cross p2)
    (a1 : l.aMin ≤ atan2 p1.y p1.x) (hlt : atan2 p1.y p1.x < atan2 p2.y p2.x)
    (hw : atan2 p1.y p1.x + ⌊Real.pi / spacing l⌋ * spacing l ≤ atan2 p2.y p2.x) (hs : spacing l ≤ Real.pi)
    (res : RenderResult) (hl : res.ranges.length = l.numBeams) :
    ∃ res', RenderResult.renderLine l res p1 p2 = .ok res' ∧ res'.ranges = res.ranges := by
  obtain ⟨n1, n2, n3, _⟩ := ccw_cases hf
  by_cases hz : l.rangeMax > 0 ∧ RenderResult.distanceSq p1 p2 > l.rangeMax * l.rangeMax
  · exact ⟨res, renderLine_skip res (.inr (.inr (.inr hz))), rfl⟩
  · obtain ⟨r, e1, _, e3⟩ := renderLine_cases h n1 n2 n3 hz a1 (a1.trans hlt.le) res hl
    have hh := half_pos h hs
    have hsp := LRF.spacing_pos h.ready
    have hd : idx l (atan2 p1.y p1.x) + ⌊Real.pi / spacing l⌋ ≤ idx l (atan2 p2.y p2.x) := by
      unfold idx
      have : ⌊(atan2 p1.y p1.x - l.aMin) / spacing l⌋ + ⌊Real.pi / spacing l⌋ ≤
          ⌊(atan2 p2.y p2.x - l.aMin) / spacing l⌋ := by
        rw [Int.le_floor, le_div_iff₀ hsp]
        have := (le_div_iff₀ hsp).1 (Int.floor_le ((atan2 p1.y p1.x - l.aMin) / spacing l))
        push_cast
        linarith
      omega
    refine ⟨r, e1, List.ext_getElem? fun j => ?_⟩
    rw [e3, if_neg (by omega), if_neg (by omega)]
    simp

/-- A case of the above: of the beams -2pi/3, 0 and 2pi/3, the second crosses the line from (0,-1) to (1/2, sqrt(3)/2). -/
example : ∃ l, Fine l ∧ spacing l ≤ Real.pi ∧ 0 < (⟨0, -1⟩ : Vec2).cross ⟨1 / 2, Real.sqrt 3 / 2⟩ ∧
    l.aMin ≤ atan2 (-1) 0 ∧ atan2 (-1) 0 < atan2 (Real.sqrt 3 / 2) (1 / 2) ∧
    atan2 (-1) 0 + ⌊Real.pi / spacing l⌋ * spacing l ≤ atan2 (Real.sqrt 3 / 2) (1 / 2) := by
  have hp := Real.pi_pos
  obtain ⟨l, _, h2, h3, h4, h5, h6⟩ := exists_sensor (a := -(2 * Real.pi / 3)) (b := 2 * Real.pi / 3) (R := 0) (n := 3)
    (by norm_num) (by linarith) (by linarith) (by linarith) (by norm_num; linarith)
  have h7 : spacing l = 2 * Real.pi / 3 := by unfold spacing; rw [h2, h3, h4]; norm_num
  have hh : ⌊Real.pi / spacing l⌋ = 1 := by
    have : Real.pi / spacing l = 3 / 2 := by rw [h7]; field_simp
    rw [this]
    norm_num
  have e1 : atan2 (-1) 0 = -(Real.pi / 2) := by
    have : (⟨0, -1⟩ : ℂ) = -Complex.I := by apply Complex.ext <;> simp
    rw [atan2, this, Complex.arg_neg_I]
  have e2 : atan2 (Real.sqrt 3 / 2) (1 / 2) = Real.pi / 3 := by
    have : (⟨1 / 2, Real.sqrt 3 / 2⟩ : ℂ) = Complex.cos (Real.pi / 3 : ℝ) + Complex.sin (Real.pi / 3 : ℝ) * Complex.I := by
      rw [← Complex.ofReal_cos, ← Complex.ofReal_sin, Real.cos_pi_div_three, Real.sin_pi_div_three]
      apply Complex.ext <;> simp
    rw [atan2, this, Complex.arg_cos_add_sin_mul_I ⟨by linarith, by linarith⟩]
  refine ⟨l, h6, by rw [h7]; linarith, by norm_num [Vec2.cross], by rw [h2, e1]; linarith, by rw [e1, e2]; linarith, ?_⟩
  rw [e1, e2, hh, h7]
  push_cast
  linarith

/-- C55 is false: of the beams -pi, -pi/2, 0, pi/2 and pi, the middle one hits the line from (1,-1) to (0,1), which faces the
sensor, at distance 1/2, but the line is taken for one that faces away. -/
theorem C55_gap_wrong : ∃ l, Fine l ∧ l.rangeMax = 0 ∧ 0 < (⟨1, -1⟩ : Vec2).cross ⟨0, 1⟩ ∧
    beamAngle l.aMin l.aMax l.numBeams 2 = 0 ∧ AtParam ⟨1, -1⟩ ⟨0, 1⟩ (1 / 2) ⟨1 / 2 * (dir 0).x, 1 / 2 * (dir 0).y⟩ ∧
    l.aMin ≤ atan2 (-1) 1 ∧ l.aMin ≤ atan2 1 0 ∧
    ∃ res', RenderResult.renderLine l ⟨0, 5, [0, 0, 0, 0, 0]⟩ ⟨1, -1⟩ ⟨0, 1⟩ = .ok res' ∧ res'.ranges[2]? = some 0 := by
  have hp := Real.pi_pos
  obtain ⟨l, _, h2, h3, h4, h5, h6⟩ := exists_sensor (a := -Real.pi) (b := Real.pi) (R := 0) (n := 5)
    (by norm_num) (by linarith) (by linarith) (by linarith) (by norm_num; linarith)
  have h7 : spacing l = Real.pi / 2 := by unfold spacing; rw [h2, h3, h4]; norm_num; ring
  obtain ⟨u1, u2⟩ := atan2_lower_right (x := 1) (y := -1) (by norm_num) (by norm_num)
  have e1 : atan2 1 0 = Real.pi / 2 := by
    have : (⟨0, 1⟩ : ℂ) = Complex.I := by apply Complex.ext <;> simp
    rw [atan2, this, Complex.arg_I]
  have hf : 0 < (⟨1, -1⟩ : Vec2).cross ⟨0, 1⟩ := by norm_num [Vec2.cross]
  have a1 : l.aMin ≤ atan2 (-1) 1 := by rw [h2]; linarith
  have a2 : l.aMin ≤ atan2 1 0 := by rw [h2, e1]; linarith
  have i1 : idx l (atan2 (-1) 1) = 2 := idx_eq (k := 1) h6 (by rw [h2, h7]; norm_num; linarith)
    (by rw [h2, h7]; norm_num; linarith)
  have i2 : idx l (atan2 1 0) = 4 := idx_eq (k := 3) h6 (by rw [h2, h7, e1]; norm_num; linarith)
    (by rw [h2, h7, e1]; norm_num; linarith)
  obtain ⟨n1, n2, n3, _⟩ := ccw_cases hf
  obtain ⟨r, g1, _, g3⟩ := renderLine_cases h6 n1 n2 n3 (by rw [h5]; norm_num) a1 a2 ⟨0, 5, [0, 0, 0, 0, 0]⟩ (by rw [h4]; rfl)
  refine ⟨l, h6, h5, hf, by rw [LRF.beamAngle_eq, h2, h7]; push_cast; ring, by norm_num [AtParam, dir], a1, a2, r, g1, ?_⟩
  rw [g3]
  simp only [i1, i2, half_two h7]
  norm_num

/-- C55 is false for end points just below the first angle: the first of the beams 0 and pi/2 hits the line from (1,-1) to
(1,1), but is not drawn. -/
theorem C55_below_wrong : ∃ l, Fine l ∧ l.rangeMax = 0 ∧ 0 < (⟨1, -1⟩ : Vec2).cross ⟨1, 1⟩ ∧
    beamAngle l.aMin l.aMax l.numBeams 0 = 0 ∧ AtParam ⟨1, -1⟩ ⟨1, 1⟩ (1 / 2) ⟨1 * (dir 0).x, 1 * (dir 0).y⟩ ∧
    ∃ res', RenderResult.renderLine l ⟨0, 2, [0, 0]⟩ ⟨1, -1⟩ ⟨1, 1⟩ = .ok res' ∧ res'.ranges[0]? = some 0 := by
  obtain ⟨l, h1, h2, h3, h4, h5, h6, h7⟩ := quarter_sensor 0
  have hp := Real.pi_pos
  obtain ⟨u1, u2⟩ := atan2_lower_right (x := 1) (y := -1) (by norm_num) (by norm_num)
  obtain ⟨v1, v2⟩ := atan2_upper_right (x := 1) (y := 1) (by norm_num) (by norm_num)
  have i1 : l.getAngleUpperIndexRaw2 1 (-1) = .ok 1 :=
    raw_below h6 (by rw [h2, h7]; linarith) (by rw [h2]; exact u2)
  have i2 : l.getAngleUpperIndexRaw2 1 1 = .ok 1 := by
    unfold LRF.getAngleUpperIndexRaw2
    rw [(LRF.raw_ok h6.ready (by rw [h2]; exact v1) (h6.index (by linarith))).1]
    change Except.ok (idx l (atan2 1 1)) = _
    rw [idx_eq (k := 0) h6 (by rw [h2]; norm_num; exact v1) (by rw [h2, h7]; norm_num; exact v2)]
    rfl
  have ht := (LRF.ready_inv h6.ready).1
  obtain ⟨r, g1, _, g3⟩ := renderLine_raw (p1 := ⟨1, -1⟩) (p2 := ⟨1, 1⟩) (by norm_num) (by norm_num)
    (by norm_num [Vec2.length2]) (by rw [h5]; norm_num) i1 i2 (by norm_num) h6.half.2 h6.beams ht.2.1 ⟨0, 2, [0, 0]⟩
    (by rw [h4]; rfl)
  refine ⟨l, h6, h5, by norm_num [Vec2.cross], by rw [LRF.beamAngle_eq, h2]; norm_num, by norm_num [AtParam, dir], r, g1, ?_⟩
  rw [g3, half_two h7, h4]
  norm_num [drawn]

/-! ## C56 -/

/-- C56: `renderLine` omits a line for its distance iff there is a positive maximum range and every point of the line is
farther away; otherwise it does what it does without a maximum range. -/
theorem C56_range (l : LRF) (res : RenderResult) (p1 p2 : Vec2) (h : p1 ≠ p2) :
    ((0 < l.rangeMax ∧ ∀ q, OnSeg p1 p2 q → l.rangeMax ^ 2 < q.x ^ 2 + q.y ^ 2) →
      RenderResult.renderLine l res p1 p2 = .ok res) ∧
    (¬ (0 < l.rangeMax ∧ ∀ q, OnSeg p1 p2 q → l.rangeMax ^ 2 < q.x ^ 2 + q.y ^ 2) →
      RenderResult.renderLine l res p1 p2 = RenderResult.renderLine { l with rangeMax := 0 } res p1 p2) := by
  have n3 : (p2 - p1).length2 ≠ 0 := by
    intro hc
    apply h
    have e : (p2 - p1).length2 = (p2.x - p1.x) ^ 2 + (p2.y - p1.y) ^ 2 := by simp [Vec2.length2]; ring
    rw [e] at hc
    have hx : (p2.x - p1.x) ^ 2 = 0 := by nlinarith [sq_nonneg (p2.x - p1.x), sq_nonneg (p2.y - p1.y)]
    have hy : (p2.y - p1.y) ^ 2 = 0 := by nlinarith [sq_nonneg (p2.x - p1.x), sq_nonneg (p2.y - p1.y)]
    ext
    · have := pow_eq_zero_iff (two_ne_zero) |>.1 hx; linarith
    · have := pow_eq_zero_iff (two_ne_zero) |>.1 hy; linarith
  obtain ⟨⟨q, hq, hqe⟩, hleast⟩ := distanceSq_least n3
  have hiff : (0 < l.rangeMax ∧ ∀ q, OnSeg p1 p2 q → l.rangeMax ^ 2 < q.x ^ 2 + q.y ^ 2) ↔
      (l.rangeMax > 0 ∧ RenderResult.distanceSq p1 p2 > l.rangeMax * l.rangeMax) := by
    constructor
    · rintro ⟨a, b⟩
      refine ⟨a, ?_⟩
      rw [hqe, ← sq]
      exact b q hq
    · rintro ⟨a, b⟩
      refine ⟨a, fun q hq => ?_⟩
      rw [sq]
      exact b.trans_le (hleast ⟨q, hq, rfl⟩)
  rw [hiff]
  refine ⟨fun hc => renderLine_skip res (.inr (.inr (.inr hc))), fun hc => ?_⟩
  unfold RenderResult.renderLine
  dsimp only
  rw [if_neg hc, if_neg (c := (0 : ℝ) > 0 ∧ _) (fun hz => lt_irrefl _ hz.1)]
  simp only [drawPart_range_free]
  rfl

/-- A case of C56: the line from (3,-1) to (3,1) is out of range for a maximum range of 2, and not for 3. -/
example : (∀ q, OnSeg ⟨3, -1⟩ ⟨3, 1⟩ q → (2 : ℝ) ^ 2 < q.x ^ 2 + q.y ^ 2) ∧
    ¬ ∀ q, OnSeg ⟨3, -1⟩ ⟨3, 1⟩ q → (3 : ℝ) ^ 2 < q.x ^ 2 + q.y ^ 2 := by
  constructor
  · rintro q ⟨t, _, _, hx, hy⟩
    norm_num at hx
    rw [hx]
    nlinarith [sq_nonneg q.y]
  · intro h
    have := h ⟨3, 0⟩ ⟨1 / 2, by norm_num, by norm_num, by norm_num [AtParam]⟩
    norm_num at this

end Geo
