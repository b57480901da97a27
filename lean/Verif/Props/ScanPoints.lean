import Verif.Props.LaserRangeFinder
import Verif.Props.LaserRangeFinderMesh

/-!
# Points of a scan and the indices of their directions (C106)
-/

namespace Geo
open Spec

/-! ## C106 -/

/-- C106, except for a first beam that points straight back: the point that a positive range of beam `i` stands for is found again at
beam `i`, that is, the first beam with a larger angle is `i + 1`. -/
theorem C106_index_partial {l : LRF} (h : Fine l) {i : ℕ} (hi : i < l.numBeams) (hb : i ≠ 0 ∨ -Real.pi < l.aMin) {r : ℝ}
    (hr : 0 < r) : ∃ p, l.rangeToPoint r i = .ok p ∧ l.getAngleUpperIndex2 p.x p.y = .ok (i + 1) := by
  have hs := LRF.spacing_pos h.ready
  have hlast : beamAngle l.aMin l.aMax l.numBeams i ≤ l.aMax := by
    have hn : ((i : ℕ) : ℝ) ≤ ((max (l.numBeams - 1) 1 : ℕ) : ℝ) := by exact_mod_cast (by omega : i ≤ max (l.numBeams - 1) 1)
    have h1 : (0 : ℝ) < ((max (l.numBeams - 1) 1 : ℕ) : ℝ) := by exact_mod_cast (by omega : 0 < max (l.numBeams - 1) 1)
    have h2 : spacing l * ((max (l.numBeams - 1) 1 : ℕ) : ℝ) = l.aMax - l.aMin := by
      unfold spacing
      rw [div_mul_cancel₀ _ h1.ne']
    rw [LRF.beamAngle_eq]
    nlinarith
  have hlow : l.aMin ≤ beamAngle l.aMin l.aMax l.numBeams i := by
    rw [LRF.beamAngle_eq]
    have : (0 : ℝ) ≤ i * spacing l := by positivity
    linarith
  have hgt : -Real.pi < beamAngle l.aMin l.aMax l.numBeams i := by
    rcases hb with hb | hb
    · have : (0 : ℝ) < i * spacing l := mul_pos (by exact_mod_cast Nat.pos_of_ne_zero hb) hs
      rw [LRF.beamAngle_eq]
      linarith [h.lo]
    · linarith
  have hd := ((LRF.ready_inv h.ready).1.2.2 i hi).2
  refine ⟨_, by unfold LRF.rangeToPoint; rw [vget_ok.2 hd]; rfl, ?_⟩
  simp only [Vec3.mul_x, Vec3.mul_y]
  rw [mul_comm _ r, mul_comm _ r, C52_xy_partial h hr hgt (hlast.trans h.hi) (Or.inl hlow)]
  congr 1
  have : Finset.filter (fun j => beamAngle l.aMin l.aMax l.numBeams j ≤ beamAngle l.aMin l.aMax l.numBeams i)
      (Finset.range l.numBeams) = Finset.range (i + 1) := by
    ext j
    rw [Finset.mem_filter, Finset.mem_range, Finset.mem_range, LRF.beamAngle_eq, LRF.beamAngle_eq, add_le_add_iff_left,
      mul_le_mul_iff_left₀ hs, Nat.cast_le]
    omega
  rw [this, Finset.card_range]

/-- C106 case: the last of three beams. -/
example : ∃ l : LRF, Fine l ∧ 2 < l.numBeams ∧ (2 ≠ 0 ∨ -Real.pi < l.aMin) := by
  obtain ⟨l, _, _, _, h4, _, h6, _⟩ := half_sensor 4
  exact ⟨l, h6, by omega, Or.inl (by norm_num)⟩

/-- C106 for a whole scan of a sensor whose first beam does not point straight back: the points of `rangesToPoints` are found again at their beams. -/
theorem C106_scan_partial {l : LRF} (h : Fine l) (hb : -Real.pi < l.aMin) (ranges : List ℝ) (hl : ranges.length = l.numBeams)
    (hpos : ∀ r ∈ ranges, 0 < r) : ∃ points, l.rangesToPoints ranges [] = (true, points) ∧ points.length = ranges.length ∧
      ∀ (i : ℕ) p, points[i]? = some p → l.getAngleUpperIndex2 p.x p.y = .ok (i + 1) := by
  obtain ⟨g1, -, g3⟩ := C59_points h.ready ranges []
  obtain ⟨g4, g5⟩ := g3 hl
  refine ⟨_, Prod.ext (g1.2 hl) rfl, by rw [g4, hl], fun i p hp => ?_⟩
  have hi : i < ranges.length := by
    rw [hl, ← g4]
    exact (List.getElem?_eq_some_iff.1 hp).1
  obtain ⟨q, e1, -, -, e4⟩ := g5 i ranges[i] (List.getElem?_eq_getElem hi)
  rw [hp, Option.some.injEq] at e1
  subst e1
  obtain ⟨q, f1, f2⟩ := C106_index_partial (i := i) h (by omega) (Or.inr hb) (hpos _ (List.getElem_mem hi))
  rw [e4, Except.ok.injEq] at f1
  subst f1
  exact f2

/-- C106 case: a scan of three beams. -/
example : ∃ l : LRF, Fine l ∧ -Real.pi < l.aMin ∧ [1, 2, 3].length = l.numBeams ∧ ∀ r ∈ [(1 : ℝ), 2, 3], 0 < r := by
  obtain ⟨l, _, h2, _, h4, _, h6, _⟩ := half_sensor 4
  have := Real.pi_pos
  exact ⟨l, h6, by rw [h2]; linarith, by rw [h4]; rfl, by simp⟩

/-- C106 is false of a first beam that points straight back: its points are at the angle pi, which is past the last of the four beams. -/
theorem C106_back_wrong : ∃ l p, LRF.new.run [.rangeLimits 0 10, .angleLimits (-Real.pi) (Real.pi / 2), .numBeams 4] = .ok l ∧
    Fine l ∧ l.rangeToPoint 1 0 = .ok p ∧ l.getAngleUpperIndex2 p.x p.y = .ok 4 := by
  have hp := Real.pi_pos
  obtain ⟨l, h1, h2, h3, h4, h5, h6⟩ := exists_sensor (a := -Real.pi) (b := Real.pi / 2) (R := 10) (n := 4)
    (by norm_num) (by linarith) (by linarith) (by linarith) (by norm_num; linarith)
  have hs : spacing l = Real.pi / 2 := by unfold spacing; rw [h2, h3, h4]; norm_num; ring
  have hd := ((LRF.ready_inv h6.ready).1.2.2 0 (by omega)).2
  refine ⟨l, _, h1, h6, by unfold LRF.rangeToPoint; rw [vget_ok.2 hd]; rfl, ?_⟩
  have e : beamAngle l.aMin l.aMax l.numBeams 0 = -Real.pi := by rw [LRF.beamAngle_eq, h2]; simp
  rw [e]
  simp only [Vec3.mul_x, Vec3.mul_y, Real.cos_neg, Real.cos_pi, Real.sin_neg, Real.sin_pi]
  have : l.getAngleUpperIndex2 (1 * Real.cos Real.pi) (1 * Real.sin Real.pi) = .ok 4 := by
    rw [C52_xy_partial h6 one_pos (by linarith) le_rfl (Or.inl (by rw [h2]; linarith))]
    congr 1
    have : Finset.filter (fun j => beamAngle l.aMin l.aMax l.numBeams j ≤ Real.pi) (Finset.range l.numBeams) = Finset.range 4 := by
      ext j
      rw [Finset.mem_filter, Finset.mem_range, Finset.mem_range, LRF.beamAngle_eq, h2, hs, h4]
      constructor
      · exact fun g => g.1
      · intro g
        refine ⟨g, ?_⟩
        have : (j : ℝ) ≤ 3 := by exact_mod_cast (by omega : j ≤ 3)
        nlinarith
    rw [this, Finset.card_range]
  simpa using this

end Geo
