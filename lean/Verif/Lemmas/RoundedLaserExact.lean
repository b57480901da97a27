import Verif.Lemmas.RoundedLaserSee
import Verif.Lemmas.LaserRangeFinderUse

/-!
# Lemmas about the laser range finder in floating point arithmetic: exact operations, lines and the distances along beams
-/

namespace Geo.RoundedLRF

open Spec

/-! ## Exact operations -/

theorem roundE_id (d : EReal) : roundE id d = d := by
  unfold roundE
  split_ifs with h1 h2
  · exact h1.symm
  · exact h2.symm
  · exact EReal.coe_toReal h1 h2

theorem exact_polar (a r : ℝ) : polarTo2D .exact a r = LRF.polarTo2D a r := rfl

theorem exact_angles (incr : ℝ) : ∀ (n : ℕ) (a : ℝ), beamAngles .exact incr n a = LRF.beamAngles incr n a
  | 0, _ => rfl
  | n + 1, a => by
    simp only [beamAngles, LRF.beamAngles, exact_angles incr n]
    rfl

theorem exact_rays (l : LRF) : calculateRays .exact l = l.calculateRays := by
  unfold calculateRays LRF.calculateRays
  simp only [exact_angles]
  rfl

theorem exact_step (l : LRF) (o : LRF.Op) : step .exact l o = l.step o := by
  cases o with
  | angleLimits a b =>
    simp only [step, LRF.step, setAngleLimits, LRF.setAngleLimits, exact_rays]
    rfl
  | rangeLimits a b => rfl
  | numBeams n =>
    simp only [step, LRF.step, setNumBeams, LRF.setNumBeams, exact_rays]
    rfl

theorem exact_run : ∀ (ops : List LRF.Op) (l : LRF), run .exact l ops = l.run ops
  | [], _ => rfl
  | o :: ops, l => by
    simp only [run, LRF.run, exact_step]
    cases l.step o with
    | error e => rfl
    | ok m => exact exact_run ops m

theorem exact_index (l : LRF) (a : ℝ) : getAngleUpperIndexRaw .exact l a = l.getAngleUpperIndexRaw a := rfl

theorem exact_depth (p1 s r : Vec2) : depth .exact p1 s r = RenderResult.quotient (p1.cross s) (r.cross s) := by
  have e : roundE FloatLib.exact.rnd = id := funext roundE_id
  unfold depth
  rw [e, Option.map_id]
  rfl

theorem exact_part (l : LRF) (p1 s : Vec2) : ∀ (n i : ℕ) (rs : List EReal),
    drawPart .exact l p1 s n i rs = RenderResult.drawPart l p1 s n i rs
  | 0, _, _ => rfl
  | n + 1, i, rs => by
    have e : roundE FloatLib.exact.toF = id := funext roundE_id
    simp only [drawPart, RenderResult.drawPart, exact_depth, e, id, exact_part l p1 s n]
    rfl

theorem exact_sub (p q : Vec2) : sub .exact p q = p - q := rfl

theorem exact_distanceSq (p1 p2 : Vec2) : distanceSq .exact p1 p2 = RenderResult.distanceSq p1 p2 := rfl

theorem exact_parts (l : LRF) (p1 p2 : Vec2) (res : RenderResult) : parts .exact l p1 p2 res = RenderResult.parts l p1 p2 res := rfl

theorem exact_line (l : LRF) (res : RenderResult) (p1 p2 : Vec2) :
    renderLine .exact l res p1 p2 = RenderResult.renderLine l res p1 p2 := by
  unfold renderLine RenderResult.renderLine
  simp only [exact_part, exact_sub, exact_distanceSq, exact_parts]
  rfl

theorem exact_slice (p1 p2 p3 : Vec2) (z1 z2 z3 : ℝ) : slice .exact p1 p2 p3 z1 z2 z3 = LRF.slice p1 p2 p3 z1 z2 z3 := rfl

theorem exact_triangles (l : LRF) (T : Transform3) (ps : List Vec3) : ∀ (ts : List TriI) (res : RenderResult),
    renderTriangles .exact l T ps ts res = l.renderTriangles T ps ts res
  | [], _ => rfl
  | t :: ts, res => by
    have h1 : ∀ p, planar .exact T p = LRF.planar T p := fun _ => rfl
    have h2 : ∀ p, height .exact T p = LRF.height T p := fun _ => rfl
    simp only [renderTriangles, LRF.renderTriangles, exact_slice, h1, h2, exact_triangles l T ps ts, exact_line]
    rfl

theorem exact_render (l : LRF) (m : Mesh) (T : Transform3) (rs : List EReal) :
    render .exact l m m.getMaxRadius.2 T rs = l.render m T rs := by
  unfold render LRF.render
  simp only [exact_triangles]
  rfl

/-! ## Distances along beams -/

variable {F : FloatLib} {u v : ℝ}

/-- The quotient is the distance along the beam to the line. -/
theorem quotient_onLine {p1 p2 r : Vec2} (h : r.cross (p2 - p1) ≠ 0) :
    OnLine p1 p2 ⟨p1.cross (p2 - p1) / r.cross (p2 - p1) * r.x, p1.cross (p2 - p1) / r.cross (p2 - p1) * r.y⟩ := by
  refine ⟨p1.cross r / r.cross (p2 - p1), ?_, ?_⟩
  · field_simp
    simp only [Vec2.cross, Vec2.sub_x, Vec2.sub_y]
    ring
  · field_simp
    simp only [Vec2.cross, Vec2.sub_x, Vec2.sub_y]
    ring

/-- Directions of the table are off by little. -/
theorem dirErr_le (hu0 : 0 ≤ u) (hu : u ≤ 1 / 1000) {l : LRF} (h : RoundedFine u F l) {j : ℕ} (hj : j < l.numBeams) :
    dirErr u l.aMin l.aMax j ≤ 1 / 20 := by
  have h1 : max |l.aMin| |l.aMax| ≤ 4 :=
    max_le (abs_le.2 ⟨h.lo, by linarith [h.order, h.hi]⟩) (abs_le.2 ⟨by linarith [h.order, h.lo], h.hi⟩)
  have hj' : (j : ℝ) ≤ l.numBeams := by exact_mod_cast hj.le
  have h2 := mul_le_mul_of_nonneg_right hj' hu0
  have h3 := h.few
  have h4 : 0 ≤ u * (2 * j + 5) := by positivity
  unfold dirErr beamErr
  have h5 := mul_le_mul_of_nonneg_left h1 h4
  linarith

end Geo.RoundedLRF
