import Verif.Lemmas.LaserRangeFinderMesh
import Verif.Props.LaserRangeFinder

/-!
# Properties of the laser range finder: meshes and conversions (C57–C59, C77–C79)
-/

namespace Geo

open Spec

/-! ## C57 -/

/-- C57: for a rigid pose and a positive maximum range the early returns change nothing: `render` gives what drawing all
triangles gives. -/
theorem C57_lossless (l : LRF) (m : Mesh) (T : Transform3) (hT : Rigid T) (hm : GoodMesh m) (hR : 0 < l.rangeMax)
    (ranges : List EReal) :
    l.render m T ranges = l.renderTriangles T m.points m.tris
      ⟨0, u32 l.rayDirs.length, LRF.resizeRanges ranges l.rayDirs.length⟩ := by
  unfold LRF.render
  dsimp only
  split_ifs with hs
  · exact (skips_lossless hT hm hR hs _).symm
  · rfl

/-- A mesh of one triangle around the origin. Used in the cases below. (Device of the proofs.) -/
def plate : Mesh := ⟨[⟨0, 0, 1⟩, ⟨0, 2, -1⟩, ⟨0, -2, -1⟩], [⟨0, 1, 2⟩], [], 0, 0⟩

/-- The mesh of the cases is one that can be built. -/
theorem plate_good : GoodMesh plate := by
  refine ⟨⟨[.addPoint ⟨0, 0, 1⟩, .addPoint ⟨0, 2, -1⟩, .addPoint ⟨0, -2, -1⟩, .addTriangle 0 1 2], rfl⟩, ?_⟩
  intro t ht
  simp only [plate, List.mem_singleton] at ht
  subst ht
  decide

/-- The radius of the mesh of the cases. -/
theorem plate_radius : plate.getMaxRadius.2 = Real.sqrt 5 := by
  obtain ⟨⟨ops, hops⟩, _⟩ := plate_good
  rw [(Mesh.getMaxRadius_ok (Mesh.coherent_run Mesh.coherent_new hops)).1]
  congr 1
  norm_num [Mesh.sqMax, plate, Vec3.length2]

/-- The hypotheses of C57 are met by a plate 10 in front of a sensor that reaches 4, and the early return is taken. -/
example : ∃ l : LRF, Rigid ⟨Mat3.identity, ⟨10, 0, 0⟩⟩ ∧ GoodMesh plate ∧ 0 < l.rangeMax ∧
    l.skips ⟨Mat3.identity, ⟨10, 0, 0⟩⟩ plate.getMaxRadius.2 = true := by
  obtain ⟨l, h1, h2, h3, h4, h5, h6, h7⟩ := half_sensor 4
  refine ⟨l, by rw [Rigid, Orthogonal, M_identity]; simp, plate_good, by rw [h5]; norm_num, ?_⟩
  have h5' : Real.sqrt 5 < 3 := by rw [Real.sqrt_lt' (by norm_num)]; norm_num
  have h10 : Real.sqrt ((10 : ℝ) * 10) = 10 := Real.sqrt_mul_self (by norm_num)
  unfold LRF.skips
  rw [plate_radius, decide_eq_true_iff, h5]
  refine ⟨Real.sqrt_pos.2 (by norm_num), .inr ⟨?_, ?_⟩⟩
  · rw [Real.mul_self_sqrt (by norm_num)]; norm_num [Vec3.length2]
  · simp only [Vec3.length2, mul_zero, add_zero, h10]; linarith

/-- C57 is false for a sensor without maximum range (0, which `renderLine` takes as no limit): the plate 10 in front of it is
omitted, although drawing its triangle gives the range 10. -/
theorem C57_unlimited_wrong : ∃ l : LRF, l.rangeMax = 0 ∧ Fine l ∧ Rigid ⟨Mat3.identity, ⟨10, 0, 0⟩⟩ ∧
    (∃ r, l.render plate ⟨Mat3.identity, ⟨10, 0, 0⟩⟩ [0, 0, 0] = .ok r ∧ r.ranges[1]? = some 0) ∧
    ∃ r, l.renderTriangles ⟨Mat3.identity, ⟨10, 0, 0⟩⟩ plate.points plate.tris ⟨0, 3, [0, 0, 0]⟩ = .ok r ∧
      r.ranges[1]? = some ((10 : ℝ) : EReal) := by
  obtain ⟨l, h1, h2, h3, h4, h5, h6, h7⟩ := half_sensor 0
  have ht := (LRF.ready_inv h6.ready).1
  refine ⟨l, h5, h6, by rw [Rigid, Orthogonal, M_identity]; simp, ?_, ?_⟩
  · have hs : l.skips ⟨Mat3.identity, ⟨10, 0, 0⟩⟩ plate.getMaxRadius.2 = true := by
      have h5' : Real.sqrt 5 < 3 := by rw [Real.sqrt_lt' (by norm_num)]; norm_num
      have h10 : Real.sqrt ((10 : ℝ) * 10) = 10 := Real.sqrt_mul_self (by norm_num)
      unfold LRF.skips
      rw [plate_radius, decide_eq_true_iff, h5]
      refine ⟨Real.sqrt_pos.2 (by norm_num), .inr ⟨?_, ?_⟩⟩
      · rw [Real.mul_self_sqrt (by norm_num)]; norm_num [Vec3.length2]
      · simp only [Vec3.length2, mul_zero, add_zero, h10]; linarith
    unfold LRF.render
    dsimp only
    rw [if_pos hs]
    refine ⟨_, rfl, ?_⟩
    rw [ht.2.1, h4]
    rfl
  · have hsl : LRF.slice (LRF.planar ⟨Mat3.identity, ⟨10, 0, 0⟩⟩ ⟨0, 0, 1⟩)
        (LRF.planar ⟨Mat3.identity, ⟨10, 0, 0⟩⟩ ⟨0, 2, -1⟩) (LRF.planar ⟨Mat3.identity, ⟨10, 0, 0⟩⟩ ⟨0, -2, -1⟩)
        (LRF.height ⟨Mat3.identity, ⟨10, 0, 0⟩⟩ ⟨0, 0, 1⟩) (LRF.height ⟨Mat3.identity, ⟨10, 0, 0⟩⟩ ⟨0, 2, -1⟩)
        (LRF.height ⟨Mat3.identity, ⟨10, 0, 0⟩⟩ ⟨0, -2, -1⟩) = some (⟨10, -1⟩, ⟨10, 1⟩) := by
      simp only [height_eq, planar_eq, Transform3.apply, Mat3.mulVec, Mat3.identity, Vec3.add_x, Vec3.add_y, Vec3.add_z]
      have e1 : LRF.cut ⟨10, 0⟩ ⟨10, -2⟩ 1 (-1) = ⟨10, -1⟩ := by ext <;> norm_num [LRF.cut]
      have e2 : LRF.cut ⟨10, 0⟩ ⟨10, 2⟩ 1 (-1) = ⟨10, 1⟩ := by ext <;> norm_num [LRF.cut]
      norm_num [LRF.slice, e1, e2]
    obtain ⟨_, _, r, g1, g2, g3⟩ := half_draw h2 h4 h6 h7 (x := 10) (y := 1) (by norm_num) one_pos (.inl h5.le)
      ⟨0, 3, [0, 0, 0]⟩ rfl
    refine ⟨r, ?_, ?_⟩
    · simp only [plate, LRF.renderTriangles, vget, List.getElem?_cons_zero, List.getElem?_cons_succ, bind, Except.bind, hsl, g1]
    · rw [g3]
      simp [combine]

/-! ## C58 -/

/-- C58: the heights and planar positions used are the coordinates of the posed vertices. -/
theorem C58_posed (T : Transform3) (p : Vec3) :
    LRF.height T p = (T.apply p).z ∧ LRF.planar T p = ⟨(T.apply p).x, (T.apply p).y⟩ :=
  ⟨height_eq T p, planar_eq T p⟩

/-- C58: a triangle has a segment iff it has vertices below and not below the plane; its end points are points at height 0
of edges, and the segment is the part of the triangle at height 0. -/
theorem C58_section (p1 p2 p3 : Vec2) (z1 z2 z3 : ℝ) :
    ((z1 < 0 ∨ z2 < 0 ∨ z3 < 0) ∧ (0 ≤ z1 ∨ 0 ≤ z2 ∨ 0 ≤ z3) →
      ∃ q1 q2, LRF.slice p1 p2 p3 z1 z2 z3 = some (q1, q2) ∧
        (∀ q, OnSeg q1 q2 q ↔ InSection p1 p2 p3 z1 z2 z3 q) ∧
        ∀ q, q = q1 ∨ q = q2 → OnEdge p1 p2 z1 z2 q ∨ OnEdge p2 p3 z2 z3 q ∨ OnEdge p3 p1 z3 z1 q) ∧
    (¬ ((z1 < 0 ∨ z2 < 0 ∨ z3 < 0) ∧ (0 ≤ z1 ∨ 0 ≤ z2 ∨ 0 ≤ z3)) → LRF.slice p1 p2 p3 z1 z2 z3 = none) := by
  rcases slice_cases p1 p2 p3 z1 z2 z3 with ⟨hn, hz⟩ | ⟨ha, hs⟩ | ⟨ha, hs⟩ | ⟨ha, hs⟩
  · refine ⟨fun hc => ?_, fun _ => hn⟩
    exfalso
    rcases hz with ⟨h1, h2, h3⟩ | ⟨h1, h2, h3⟩ <;> rcases hc with ⟨c1, c2⟩
    · rcases c2 with c | c | c <;> linarith
    · rcases c1 with c | c | c <;> linarith
  all_goals
    refine ⟨fun _ => ?_, fun hc => absurd ?_ hc⟩
    rotate_left
    · rcases ha with ⟨h1, h2, h3⟩ | ⟨h1, h2, h3⟩
      · exact ⟨by tauto, by tauto⟩
      · exact ⟨by tauto, by tauto⟩
  · have e1 := ha.edge p1 p2
    have e2 := onEdge_symm (ha.swap.edge p1 p3)
    split_ifs at hs with hu <;> refine ⟨_, _, hs, slice_section hs, ?_⟩ <;> rintro q (rfl | rfl) <;> tauto
  · have e1 := ha.edge p2 p3
    have e2 := onEdge_symm (ha.swap.edge p2 p1)
    split_ifs at hs with hu <;> refine ⟨_, _, hs, slice_section hs, ?_⟩ <;> rintro q (rfl | rfl) <;> tauto
  · have e1 := ha.edge p3 p1
    have e2 := onEdge_symm (ha.swap.edge p3 p2)
    split_ifs at hs with hu <;> refine ⟨_, _, hs, slice_section hs, ?_⟩ <;> rintro q (rfl | rfl) <;> tauto

/-- C58: reversing a triangle reverses the segment; the choice of the first vertex does not matter. -/
theorem C58_orientation (p1 p2 p3 : Vec2) (z1 z2 z3 : ℝ) :
    (∀ q1 q2, LRF.slice p1 p2 p3 z1 z2 z3 = some (q1, q2) → LRF.slice p1 p3 p2 z1 z3 z2 = some (q2, q1)) ∧
    LRF.slice p2 p3 p1 z2 z3 z1 = LRF.slice p1 p2 p3 z1 z2 z3 := by
  refine ⟨fun q1 q2 h => ?_, slice_rotate _ _ _ _ _ _⟩
  rw [slice_swap, h]
  rfl

/-- C58: the segment has the triangle's outer side to its left: with the normal (nx,ny,nz) of the counter-clockwise triangle
it points along (ny,-nx). -/
theorem C58_direction (p1 p2 p3 : Vec2) (z1 z2 z3 : ℝ) (q1 q2 : Vec2)
    (h : LRF.slice p1 p2 p3 z1 z2 z3 = some (q1, q2)) :
    ∃ k : ℝ, 0 ≤ k ∧ (q1 ≠ q2 → 0 < k) ∧
      q2.x - q1.x = k * ((z2 - z1) * (p3.x - p1.x) - (p2.x - p1.x) * (z3 - z1)) ∧
      q2.y - q1.y = -k * ((p2.y - p1.y) * (z3 - z1) - (z2 - z1) * (p3.y - p1.y)) := by
  have pos : ∀ (k nx ny : ℝ), 0 ≤ k → q2.x - q1.x = k * ny → q2.y - q1.y = -k * nx → (q1 ≠ q2 → 0 < k) := by
    intro k nx ny hk hx hy hne
    refine lt_of_le_of_ne hk fun h0 => hne ?_
    rw [← h0] at hx hy
    ext <;> linarith
  rcases slice_cases p1 p2 p3 z1 z2 z3 with ⟨hn, _⟩ | ⟨ha, hs⟩ | ⟨ha, hs⟩ | ⟨ha, hs⟩
  · rw [hn] at h; cases h
  · obtain ⟨k, k1, k2, k3, kx, ky⟩ := ha.facing p1 p2 p3
    rw [h] at hs
    split_ifs at hs with hu <;> simp only [Option.some.injEq, Prod.mk.injEq] at hs <;> obtain ⟨rfl, rfl⟩ := hs
    · have hz : 0 ≤ z1 := by rcases ha with ⟨_, h2, _⟩ | ⟨h1, _, _⟩ <;> linarith
      have hk : 0 ≤ k := by rcases hz.lt_or_eq with g | g; exacts [(k1 g).le, (k2 g.symm).ge]
      exact ⟨k, hk, pos k _ _ hk kx ky, kx, ky⟩
    · have hz : z1 < 0 := by rcases ha with ⟨h1, _, _⟩ | ⟨_, h2, _⟩ <;> linarith
      have hk : 0 ≤ -k := by linarith [k3 hz]
      have hx : (LRF.cut p1 p3 z1 z3).x - (LRF.cut p1 p2 z1 z2).x =
        -k * ((z2 - z1) * (p3.x - p1.x) - (p2.x - p1.x) * (z3 - z1)) := by linarith
      have hy : (LRF.cut p1 p3 z1 z3).y - (LRF.cut p1 p2 z1 z2).y =
        -(-k) * ((p2.y - p1.y) * (z3 - z1) - (z2 - z1) * (p3.y - p1.y)) := by linarith
      exact ⟨-k, hk, pos (-k) _ _ hk hx hy, hx, hy⟩
  · obtain ⟨k, k1, k2, k3, kx, ky⟩ := ha.facing p2 p3 p1
    rw [h] at hs
    split_ifs at hs with hu <;> simp only [Option.some.injEq, Prod.mk.injEq] at hs <;> obtain ⟨rfl, rfl⟩ := hs
    · have hz : 0 ≤ z2 := by rcases ha with ⟨_, h2, _⟩ | ⟨h1, _, _⟩ <;> linarith
      have hk : 0 ≤ k := by rcases hz.lt_or_eq with g | g; exacts [(k1 g).le, (k2 g.symm).ge]
      have hx : (LRF.cut p2 p3 z2 z3).x - (LRF.cut p2 p1 z2 z1).x =
        k * ((z2 - z1) * (p3.x - p1.x) - (p2.x - p1.x) * (z3 - z1)) := by rw [kx]; ring
      have hy : (LRF.cut p2 p3 z2 z3).y - (LRF.cut p2 p1 z2 z1).y =
        -k * ((p2.y - p1.y) * (z3 - z1) - (z2 - z1) * (p3.y - p1.y)) := by rw [ky]; ring
      exact ⟨k, hk, pos k _ _ hk hx hy, hx, hy⟩
    · have hz : z2 < 0 := by rcases ha with ⟨h1, _, _⟩ | ⟨_, h2, _⟩ <;> linarith
      have hk : 0 ≤ -k := by linarith [k3 hz]
      have hx : (LRF.cut p2 p1 z2 z1).x - (LRF.cut p2 p3 z2 z3).x =
        -k * ((z2 - z1) * (p3.x - p1.x) - (p2.x - p1.x) * (z3 - z1)) := by
        linear_combination -kx
      have hy : (LRF.cut p2 p1 z2 z1).y - (LRF.cut p2 p3 z2 z3).y =
        -(-k) * ((p2.y - p1.y) * (z3 - z1) - (z2 - z1) * (p3.y - p1.y)) := by
        linear_combination -ky
      exact ⟨-k, hk, pos (-k) _ _ hk hx hy, hx, hy⟩
  · obtain ⟨k, k1, k2, k3, kx, ky⟩ := ha.facing p3 p1 p2
    rw [h] at hs
    split_ifs at hs with hu <;> simp only [Option.some.injEq, Prod.mk.injEq] at hs <;> obtain ⟨rfl, rfl⟩ := hs
    · have hz : 0 ≤ z3 := by rcases ha with ⟨_, h2, _⟩ | ⟨h1, _, _⟩ <;> linarith
      have hk : 0 ≤ k := by rcases hz.lt_or_eq with g | g; exacts [(k1 g).le, (k2 g.symm).ge]
      have hx : (LRF.cut p3 p1 z3 z1).x - (LRF.cut p3 p2 z3 z2).x =
        k * ((z2 - z1) * (p3.x - p1.x) - (p2.x - p1.x) * (z3 - z1)) := by rw [kx]; ring
      have hy : (LRF.cut p3 p1 z3 z1).y - (LRF.cut p3 p2 z3 z2).y =
        -k * ((p2.y - p1.y) * (z3 - z1) - (z2 - z1) * (p3.y - p1.y)) := by rw [ky]; ring
      exact ⟨k, hk, pos k _ _ hk hx hy, hx, hy⟩
    · have hz : z3 < 0 := by rcases ha with ⟨h1, _, _⟩ | ⟨_, h2, _⟩ <;> linarith
      have hk : 0 ≤ -k := by linarith [k3 hz]
      have hx : (LRF.cut p3 p2 z3 z2).x - (LRF.cut p3 p1 z3 z1).x =
        -k * ((z2 - z1) * (p3.x - p1.x) - (p2.x - p1.x) * (z3 - z1)) := by
        linear_combination -kx
      have hy : (LRF.cut p3 p2 z3 z2).y - (LRF.cut p3 p1 z3 z1).y =
        -(-k) * ((p2.y - p1.y) * (z3 - z1) - (z2 - z1) * (p3.y - p1.y)) := by
        linear_combination -ky
      exact ⟨-k, hk, pos (-k) _ _ hk hx hy, hx, hy⟩

/-- A case of C58: the plate of the cases. -/
example : LRF.slice ⟨0, 0⟩ ⟨0, 2⟩ ⟨0, -2⟩ 1 (-1) (-1) = some (⟨0, -1⟩, ⟨0, 1⟩) := by
  have e1 : LRF.cut ⟨0, 0⟩ ⟨0, -2⟩ 1 (-1) = ⟨0, -1⟩ := by ext <;> norm_num [LRF.cut]
  have e2 : LRF.cut ⟨0, 0⟩ ⟨0, 2⟩ 1 (-1) = ⟨0, 1⟩ := by ext <;> norm_num [LRF.cut]
  norm_num [LRF.slice, e1, e2]

/-! ## C59 -/

/-- C59: `rangesToPoints` succeeds iff there are as many ranges as beams; then point `i` is the range along beam `i`, at that
distance from the origin; otherwise the points stay as they are. -/
theorem C59_points {l : LRF} (h : Ready l) (ranges : List ℝ) (points : List Vec3) :
    ((l.rangesToPoints ranges points).1 = true ↔ ranges.length = l.numBeams) ∧
    (ranges.length ≠ l.numBeams → (l.rangesToPoints ranges points).2 = points) ∧
    (ranges.length = l.numBeams → (l.rangesToPoints ranges points).2.length = l.numBeams ∧
      ∀ (i : ℕ) r, ranges[i]? = some r →
        ∃ p, (l.rangesToPoints ranges points).2[i]? = some p ∧
          p = ⟨Real.cos (beamAngle l.aMin l.aMax l.numBeams i) * r, Real.sin (beamAngle l.aMin l.aMax l.numBeams i) * r, 0⟩ ∧
          Spec.dist p ⟨0, 0, 0⟩ = |r| ∧ l.rangeToPoint r i = .ok p) := by
  obtain ⟨_, t2, t3⟩ := (LRF.ready_inv h).1
  unfold LRF.rangesToPoints
  rw [t2]
  by_cases hc : ranges.length = l.numBeams
  · rw [if_neg (by simpa using hc)]
    refine ⟨by simp [hc], fun hn => absurd hc hn, fun _ => ⟨by simp [t2, hc], fun i r hr => ?_⟩⟩
    have hi : i < l.numBeams := by
      rw [← hc]
      exact (List.getElem?_eq_some_iff.1 hr).1
    have hd := (t3 i hi).2
    refine ⟨_, by simp only [List.getElem?_zipWith, hd, hr]; rfl, ?_, ?_, ?_⟩
    · ext <;> simp
    · have := Real.sin_sq_add_cos_sq (beamAngle l.aMin l.aMax l.numBeams i)
      unfold Spec.dist distSq
      rw [← Real.sqrt_sq_eq_abs]
      congr 1
      simp only [Vec3.mul_x, Vec3.mul_y, Vec3.mul_z]
      linear_combination r ^ 2 * this
    · unfold LRF.rangeToPoint
      rw [vget_ok.2 hd]
      rfl
  · rw [if_pos hc]
    exact ⟨by simp [hc], fun _ => rfl, fun hn => absurd hn hc⟩

/-- The hypothesis of C59 is met by a sensor with three beams, whose first beam points along -y. -/
example : ∃ l, Ready l ∧ ∃ ps, l.rangesToPoints [2, 3, 4] [] = (true, ps) ∧ ps[0]? = some ⟨0, -2, 0⟩ := by
  obtain ⟨l, h1, h2, h3, h4, h5, h6, h7⟩ := half_sensor 4
  obtain ⟨g1, _, g3⟩ := C59_points h6.ready [2, 3, 4] []
  obtain ⟨_, g4⟩ := g3 (by rw [h4]; rfl)
  obtain ⟨p, e1, e2, _⟩ := g4 0 2 rfl
  refine ⟨l, h6.ready, _, Prod.ext (g1.2 (by rw [h4]; rfl)) rfl, ?_⟩
  rw [e1, e2, LRF.beamAngle_eq, h2]
  norm_num

/-- C59: `getRayDirection` gives the unit vector at the angle of the beam, and there is none past the last beam. -/
theorem C59_direction {l : LRF} (h : Ready l) (i : ℕ) :
    (i < l.numBeams → ∃ d, l.getRayDirection i = .ok d ∧ d = ⟨Real.cos (beamAngle l.aMin l.aMax l.numBeams i),
      Real.sin (beamAngle l.aMin l.aMax l.numBeams i), 0⟩ ∧ Spec.dist d ⟨0, 0, 0⟩ = 1) ∧
    (l.numBeams ≤ i → l.getRayDirection i = .error .ub) := by
  obtain ⟨_, t2, t3⟩ := (LRF.ready_inv h).1
  unfold LRF.getRayDirection
  refine ⟨fun hi => ⟨_, vget_ok.2 (t3 i hi).2, rfl, ?_⟩, fun hi => ?_⟩
  · have := Real.sin_sq_add_cos_sq (beamAngle l.aMin l.aMax l.numBeams i)
    unfold Spec.dist distSq
    rw [Real.sqrt_eq_one]
    linear_combination this
  · unfold vget
    rw [List.getElem?_eq_none (by omega)]

/-- A case of the above: the first beam of three points along -y. -/
example : ∃ l, Ready l ∧ l.getRayDirection 0 = .ok ⟨0, -1, 0⟩ := by
  obtain ⟨l, h1, h2, h3, h4, h5, h6, h7⟩ := half_sensor 4
  obtain ⟨d, e1, e2, _⟩ := (C59_direction h6.ready 0).1 (by omega)
  refine ⟨l, h6.ready, ?_⟩
  rw [e1, e2, LRF.beamAngle_eq, h2]
  norm_num

/-- C59: `polarTo3D` is the rotation of the planar point by the basis of the pose. -/
theorem C59_polar (T : Transform3) (a r : ℝ) :
    V (LRF.polarTo3D T a r) = (M T.R).mulVec ![r * Real.cos a, r * Real.sin a, 0] ∧
    V (LRF.polarTo2D a r) = ![r * Real.cos a, r * Real.sin a, 0] := by
  constructor <;> funext i <;> fin_cases i <;>
    simp [V, M, LRF.polarTo3D, LRF.polarTo2D, Mat3.mulVec, Matrix.mulVec, Matrix.vecHead, Matrix.vecTail, mul_comm]

/-- C59: the translation of the pose plays no part in `polarTo3D`. -/
theorem C59_translation (R : Mat3) (t1 t2 : Vec3) (a r : ℝ) : LRF.polarTo3D ⟨R, t1⟩ a r = LRF.polarTo3D ⟨R, t2⟩ a r := rfl

/-! ## C77 -/

/-- C77: rendering a mesh stays within the tables whatever the pose, the maximum range and the given ranges are, leaves one
range per beam and changes a range only to a positive one that is smaller or replaces 0. Missing ranges count as 0. -/
theorem C77_render {l : LRF} (h : Fine l) (m : Mesh) (hm : Valid m.points m.tris) (T : Transform3) (ranges : List EReal) :
    ∃ res, l.render m T ranges = .ok res ∧ res.ranges.length = l.numBeams ∧
      ∀ j < l.numBeams, ∃ new, res.ranges[j]? = some new ∧ Improves ((ranges[j]?).getD 0) new := by
  have t := (LRF.ready_inv h.ready).1.2.1
  unfold LRF.render
  dsimp only
  split_ifs
  · exact ⟨_, rfl, by simp [resize_length, t], fun j hj => ⟨_, resize_get _ _ (by omega), .refl _⟩⟩
  · obtain ⟨r, e1, e2, e3⟩ := renderTriangles_any h T m.points m.tris
      ⟨0, u32 l.rayDirs.length, LRF.resizeRanges ranges l.rayDirs.length⟩ hm (by simp [resize_length, t])
    exact ⟨r, e1, e2, fun j hj => e3 j _ (resize_get _ _ (by omega))⟩

/-- The hypotheses of C77 are met by the plate and a sensor with three beams. -/
example : (∃ l, Fine l ∧ l.numBeams = 3) ∧ Valid plate.points plate.tris := by
  obtain ⟨l, _, _, _, h4, _, h6, _⟩ := half_sensor 4
  exact ⟨⟨l, h6, h4⟩, plate_good.2⟩

/-! ## C78 -/

/-- C78, for triangles not below the first angle and less than pi minus two beams wide: a beam that meets a point strictly
inside a triangle facing the sensor shows at most the distance of that point. -/
theorem C78_visible_partial {l : LRF} (h : Fine l) (m : Mesh) (hm : GoodMesh m) (T : Transform3) (hT : Rigid T)
    (hR : 0 < l.rangeMax) (ranges : List EReal) {t : TriI} (ht : t ∈ m.tris) {A B C X : Vec3}
    (hp : PosedTriangle T m.points t A B C) (hf : FacesOrigin A B C) (hX : InsideTriangle A B C X)
    {j : ℕ} (hj : j < l.numBeams) {d : ℝ} (hd : 0 < d) (hm' : d ≤ l.rangeMax)
    (hB : X = ⟨d * (dir (beamAngle l.aMin l.aMax l.numBeams j)).x, d * (dir (beamAngle l.aMin l.aMax l.numBeams j)).y, 0⟩)
    (hlo : ∀ u, InSection ⟨A.x, A.y⟩ ⟨B.x, B.y⟩ ⟨C.x, C.y⟩ A.z B.z C.z u → l.aMin ≤ atan2 u.y u.x)
    (hw : ∀ u v, InSection ⟨A.x, A.y⟩ ⟨B.x, B.y⟩ ⟨C.x, C.y⟩ A.z B.z C.z u →
      InSection ⟨A.x, A.y⟩ ⟨B.x, B.y⟩ ⟨C.x, C.y⟩ A.z B.z C.z v → 0 < u.cross v →
      atan2 u.y u.x < atan2 v.y v.x → atan2 v.y v.x - atan2 u.y u.x ≤ Real.pi - 2 * spacing l) :
    ∃ res new, l.render m T ranges = .ok res ∧ res.ranges[j]? = some new ∧ new ≤ d ∧ new ≠ 0 := by
  have tl := (LRF.ready_inv h.ready).1.2.1
  rw [C57_lossless l m T hT hm hR]
  obtain ⟨q1, q2, s, e1, e2, e3, e4, e5⟩ := slice_hit hf hX (by rw [hB])
  obtain ⟨a, b, c, p1, p2, p3, rfl, rfl, rfl⟩ := hp
  have i1 := (slice_section e1 q1).1 ⟨0, le_rfl, zero_le_one, by simp, by simp⟩
  have i2 := (slice_section e1 q2).1 ⟨1, zero_le_one, le_rfl, by simp, by simp⟩
  refine renderTriangles_low h T m.points (t := t) (e := (d : EReal)) (fun res hl => ?_) m.tris _ hm.2 ht
    (by simp [resize_length, tl])
  rw [hB] at e5
  obtain ⟨r, new, f1, f2, f3⟩ := line_complete h e2 (hlo q1 i1) (hlo q2 i2) (hw q1 q2 i1 i2 e2) hj hd (.inr hm') e3 e4 e5
    res hl
  refine ⟨r, new, ?_, ?_, f2, f3⟩
  · simp only [LRF.renderTriangles, vget, p1, p2, p3, bind, Except.bind, height_eq, planar_eq, e1, f1]
  · obtain ⟨r', g1, g2, _⟩ := renderLine_any h q1 q2 res hl
    rw [f1, Except.ok.injEq] at g1
    rw [g1]
    exact g2

/-- The hypotheses of C78 on the triangle and the beam are met: a sensor with 17 beams around the full turn that reaches 20
has the plate 10 in front of it, and its beam 8 points along x. -/
example : ∃ l, Fine l ∧ GoodMesh plate ∧ Rigid ⟨Mat3.identity, ⟨10, 0, 0⟩⟩ ∧ l.rangeMax = 20 ∧
    PosedTriangle ⟨Mat3.identity, ⟨10, 0, 0⟩⟩ plate.points ⟨0, 1, 2⟩ ⟨10, 0, 1⟩ ⟨10, 2, -1⟩ ⟨10, -2, -1⟩ ∧
    FacesOrigin ⟨10, 0, 1⟩ ⟨10, 2, -1⟩ ⟨10, -2, -1⟩ ∧ InsideTriangle ⟨10, 0, 1⟩ ⟨10, 2, -1⟩ ⟨10, -2, -1⟩ ⟨10, 0, 0⟩ ∧
    8 < l.numBeams ∧ (⟨10, 0, 0⟩ : Vec3) = ⟨10 * (dir (beamAngle l.aMin l.aMax l.numBeams 8)).x,
      10 * (dir (beamAngle l.aMin l.aMax l.numBeams 8)).y, 0⟩ ∧
    (∀ u : Vec2, l.aMin ≤ atan2 u.y u.x) ∧
    (∀ u v, InSection ⟨10, 0⟩ ⟨10, 2⟩ ⟨10, -2⟩ 1 (-1) (-1) u → InSection ⟨10, 0⟩ ⟨10, 2⟩ ⟨10, -2⟩ 1 (-1) (-1) v →
      atan2 v.y v.x - atan2 u.y u.x ≤ Real.pi - 2 * spacing l) := by
  have hp := Real.pi_pos
  obtain ⟨l, _, h2, h3, h4, h5, h6⟩ := exists_sensor (a := -Real.pi) (b := Real.pi) (R := 20) (n := 17)
    (by norm_num) (by linarith) (by linarith) (by linarith) (by norm_num; linarith)
  have hs : spacing l = Real.pi / 8 := by
    unfold spacing; rw [h2, h3, h4]; push_cast; norm_num; ring
  have hb : beamAngle l.aMin l.aMax l.numBeams 8 = 0 := by
    rw [h2, h3, h4]; unfold beamAngle; push_cast; norm_num; ring
  have cone : ∀ u, InSection ⟨10, 0⟩ ⟨10, 2⟩ ⟨10, -2⟩ 1 (-1) (-1) u → |atan2 u.y u.x| ≤ Real.pi / 4 := by
    rintro u ⟨a, b, c, g1, g2, g3, g4, g5, gx, gy⟩
    simp only at gx gy
    have hx : u.x = 10 := by linarith
    refine atan2_cone (by rw [hx]; norm_num) ?_
    rw [hx, gy, abs_le]
    constructor <;> linarith
  refine ⟨l, h6, plate_good, by rw [Rigid, Orthogonal, M_identity]; simp, h5, ⟨_, _, _, rfl, rfl, rfl, ?_, ?_, ?_⟩,
    by norm_num [FacesOrigin], ⟨1 / 2, 1 / 4, 1 / 4, by norm_num, by norm_num, by norm_num, by norm_num, by norm_num,
      by norm_num, by norm_num⟩, by omega, by rw [hb]; norm_num [dir], fun u => by rw [h2]; exact (atan2_mem _ _).1.le,
    fun u v hu hv => ?_⟩
  · ext <;> norm_num [Transform3.apply, Mat3.mulVec, Mat3.identity]
  · ext <;> norm_num [Transform3.apply, Mat3.mulVec, Mat3.identity]
  · ext <;> norm_num [Transform3.apply, Mat3.mulVec, Mat3.identity]
  · have := abs_le.1 (cone u hu)
    have := abs_le.1 (cone v hv)
    rw [hs]
    linarith

/-- A mesh of one triangle whose section with the plane of the sensor goes from `q1` to `q2`: its upper corner is above the
middle of the section. Used in the cases below. (Device of the proofs.) -/
noncomputable def wedge (q1 q2 : Vec2) : Mesh :=
  ⟨[⟨(q1.x + q2.x) / 2, (q1.y + q2.y) / 2, 1⟩, ⟨(3 * q2.x - q1.x) / 2, (3 * q2.y - q1.y) / 2, -1⟩,
    ⟨(3 * q1.x - q2.x) / 2, (3 * q1.y - q2.y) / 2, -1⟩], [⟨0, 1, 2⟩], [], 0, 0⟩

/-- The mesh of the cases is one that can be built. -/
theorem wedge_good (q1 q2 : Vec2) : GoodMesh (wedge q1 q2) := by
  refine ⟨⟨[.addPoint ⟨(q1.x + q2.x) / 2, (q1.y + q2.y) / 2, 1⟩, .addPoint ⟨(3 * q2.x - q1.x) / 2, (3 * q2.y - q1.y) / 2, -1⟩,
    .addPoint ⟨(3 * q1.x - q2.x) / 2, (3 * q1.y - q2.y) / 2, -1⟩, .addTriangle 0 1 2], rfl⟩, ?_⟩
  intro t ht
  simp only [wedge, List.mem_singleton] at ht
  subst ht
  simp [wedge]

theorem wedge_slice (q1 q2 : Vec2) : LRF.slice ⟨(q1.x + q2.x) / 2, (q1.y + q2.y) / 2⟩
    ⟨(3 * q2.x - q1.x) / 2, (3 * q2.y - q1.y) / 2⟩ ⟨(3 * q1.x - q2.x) / 2, (3 * q1.y - q2.y) / 2⟩ 1 (-1) (-1) =
      some (q1, q2) := by
  have e1 : LRF.cut ⟨(q1.x + q2.x) / 2, (q1.y + q2.y) / 2⟩ ⟨(3 * q1.x - q2.x) / 2, (3 * q1.y - q2.y) / 2⟩ 1 (-1) = q1 := by
    ext <;> simp [LRF.cut] <;> ring
  have e2 : LRF.cut ⟨(q1.x + q2.x) / 2, (q1.y + q2.y) / 2⟩ ⟨(3 * q2.x - q1.x) / 2, (3 * q2.y - q1.y) / 2⟩ 1 (-1) = q2 := by
    ext <;> simp [LRF.cut] <;> ring
  norm_num [LRF.slice, e1, e2]

theorem wedge_posed (q1 q2 : Vec2) {t : TriI} {A B C : Vec3} (ht : t ∈ (wedge q1 q2).tris)
    (h : PosedTriangle Transform3.identity (wedge q1 q2).points t A B C) :
    A = ⟨(q1.x + q2.x) / 2, (q1.y + q2.y) / 2, 1⟩ ∧ B = ⟨(3 * q2.x - q1.x) / 2, (3 * q2.y - q1.y) / 2, -1⟩ ∧
      C = ⟨(3 * q1.x - q2.x) / 2, (3 * q1.y - q2.y) / 2, -1⟩ := by
  obtain ⟨a, b, c, p1, p2, p3, rfl, rfl, rfl⟩ := h
  simp only [wedge, List.mem_singleton] at ht
  subst ht
  simp only [wedge, List.getElem?_cons_zero, List.getElem?_cons_succ, Option.some.injEq] at p1 p2 p3
  subst p1 p2 p3
  refine ⟨?_, ?_, ?_⟩ <;> ext <;> simp [Transform3.apply, Mat3.mulVec, Transform3.identity, Mat3.identity]

/-- The points at height 0 of the triangle are those of the section. -/
theorem wedge_section (q1 q2 : Vec2) {t : TriI} {A B C : Vec3} (ht : t ∈ (wedge q1 q2).tris)
    (h : PosedTriangle Transform3.identity (wedge q1 q2).points t A B C) (q : Vec2) :
    InSection ⟨A.x, A.y⟩ ⟨B.x, B.y⟩ ⟨C.x, C.y⟩ A.z B.z C.z q ↔ OnSeg q1 q2 q := by
  obtain ⟨rfl, rfl, rfl⟩ := wedge_posed q1 q2 ht h
  exact (slice_section (wedge_slice q1 q2) q).symm

/-- Rendering the mesh from the origin draws its section. -/
theorem wedge_render (l : LRF) (q1 q2 : Vec2) (ranges : List EReal) : l.render (wedge q1 q2) Transform3.identity ranges =
    RenderResult.renderLine l ⟨0, u32 l.rayDirs.length, LRF.resizeRanges ranges l.rayDirs.length⟩ q1 q2 := by
  have hs : l.skips Transform3.identity (wedge q1 q2).getMaxRadius.2 = false := by
    unfold LRF.skips
    rw [decide_eq_false_iff_not]
    rintro ⟨h, h1 | ⟨h1, -⟩⟩
    · simp [Transform3.identity] at h1; linarith
    · simp [Transform3.identity, Vec3.length2] at h1
      nlinarith
  have hsl : LRF.slice (LRF.planar Transform3.identity ⟨(q1.x + q2.x) / 2, (q1.y + q2.y) / 2, 1⟩)
      (LRF.planar Transform3.identity ⟨(3 * q2.x - q1.x) / 2, (3 * q2.y - q1.y) / 2, -1⟩)
      (LRF.planar Transform3.identity ⟨(3 * q1.x - q2.x) / 2, (3 * q1.y - q2.y) / 2, -1⟩)
      (LRF.height Transform3.identity ⟨(q1.x + q2.x) / 2, (q1.y + q2.y) / 2, 1⟩)
      (LRF.height Transform3.identity ⟨(3 * q2.x - q1.x) / 2, (3 * q2.y - q1.y) / 2, -1⟩)
      (LRF.height Transform3.identity ⟨(3 * q1.x - q2.x) / 2, (3 * q1.y - q2.y) / 2, -1⟩) = some (q1, q2) := by
    rw [← wedge_slice q1 q2]
    simp [height_eq, planar_eq, Transform3.apply, Mat3.mulVec, Transform3.identity, Mat3.identity]
  unfold LRF.render
  dsimp only
  rw [hs, if_neg (by simp)]
  simp only [wedge, LRF.renderTriangles, vget, List.getElem?_cons_zero, List.getElem?_cons_succ, bind, Except.bind, hsl]
  cases RenderResult.renderLine l _ q1 q2 <;> rfl

/-- C78 is false: of the beams -pi, -pi/2, 0, pi/2 and pi of a sensor that reaches 4, the middle one meets the inside of a
triangle that faces the sensor at distance 1/2, but still has range 0 after rendering. The triangle is nowhere below the
first angle; it is wider than pi minus two beams. -/
theorem C78_gap_wrong : ∃ l, Fine l ∧ l.rangeMax = 4 ∧ 2 < l.numBeams ∧ GoodMesh (wedge ⟨1, -1⟩ ⟨0, 1⟩) ∧
    Rigid Transform3.identity ∧ (∀ u : Vec2, l.aMin ≤ atan2 u.y u.x) ∧ ∃ A B C,
      PosedTriangle Transform3.identity (wedge ⟨1, -1⟩ ⟨0, 1⟩).points ⟨0, 1, 2⟩ A B C ∧ FacesOrigin A B C ∧
      InsideTriangle A B C ⟨1 / 2 * (dir (beamAngle l.aMin l.aMax l.numBeams 2)).x,
        1 / 2 * (dir (beamAngle l.aMin l.aMax l.numBeams 2)).y, 0⟩ ∧
      ∃ res, l.render (wedge ⟨1, -1⟩ ⟨0, 1⟩) Transform3.identity [] = .ok res ∧ res.ranges[2]? = some 0 := by
  have hp := Real.pi_pos
  obtain ⟨l, _, h2, h3, h4, h5, h6⟩ := exists_sensor (a := -Real.pi) (b := Real.pi) (R := 4) (n := 5)
    (by norm_num) (by linarith) (by linarith) (by linarith) (by norm_num; linarith)
  have h7 : spacing l = Real.pi / 2 := by unfold spacing; rw [h2, h3, h4]; norm_num; ring
  obtain ⟨u1, u2⟩ := atan2_lower_right (x := 1) (y := -1) (by norm_num) (by norm_num)
  have e1 : atan2 1 0 = Real.pi / 2 := by
    have : (⟨0, 1⟩ : ℂ) = Complex.I := by apply Complex.ext <;> simp
    rw [atan2, this, Complex.arg_I]
  have i1 : idx l (atan2 (-1) 1) = 2 := idx_eq (k := 1) h6 (by rw [h2, h7]; norm_num; linarith)
    (by rw [h2, h7]; norm_num; linarith)
  have i2 : idx l (atan2 1 0) = 4 := idx_eq (k := 3) h6 (by rw [h2, h7, e1]; norm_num; linarith)
    (by rw [h2, h7, e1]; norm_num; linarith)
  have hb : beamAngle l.aMin l.aMax l.numBeams 2 = 0 := by rw [LRF.beamAngle_eq, h2, h7]; push_cast; ring
  have tl := (LRF.ready_inv h6.ready).1.2.1
  obtain ⟨r, g1, _, g3⟩ := renderLine_cases (p1 := ⟨1, -1⟩) (p2 := ⟨0, 1⟩) h6 (by norm_num) (by norm_num)
    (by norm_num [Vec2.length2]) (by rw [h5]; norm_num [RenderResult.distanceSq, Vec2.dot, Vec2.length2])
    (by rw [h2]; exact (atan2_mem _ _).1.le) (by rw [h2]; exact (atan2_mem _ _).1.le)
    ⟨0, u32 l.rayDirs.length, LRF.resizeRanges [] l.rayDirs.length⟩ (by simp [resize_length, tl])
  refine ⟨l, h6, h5, by omega, wedge_good _ _, by rw [Rigid, Orthogonal]; simp [Transform3.identity, M_identity],
    fun u => by rw [h2]; exact (atan2_mem _ _).1.le, _, _, _, ⟨_, _, _, rfl, rfl, rfl, rfl, rfl, rfl⟩, ?_, ?_,
    r, by rw [wedge_render]; exact g1, ?_⟩
  · norm_num [FacesOrigin, Transform3.apply, Mat3.mulVec, Transform3.identity, Mat3.identity]
  · rw [hb]
    refine ⟨1 / 2, 1 / 4, 1 / 4, by norm_num, by norm_num, by norm_num, by norm_num, ?_, ?_, ?_⟩ <;>
      norm_num [dir, Transform3.apply, Mat3.mulVec, Transform3.identity, Mat3.identity]
  · rw [g3, resize_get _ _ (by omega)]
    simp only [i1, i2, half_two h7]
    norm_num

/-! ## C79 -/

/-- C79, if the sections of all triangles are at or above the first angle and narrower than the half turn of the beam grid:
a range that `render` changes is the distance along the beam to a point of some triangle. -/
theorem C79_surface_partial {l : LRF} (h : Fine l) (m : Mesh) (hm : GoodMesh m) (T : Transform3) (ranges : List EReal)
    (hw : ∀ t ∈ m.tris, ∀ A B C, PosedTriangle T m.points t A B C →
      ∀ u v, InSection ⟨A.x, A.y⟩ ⟨B.x, B.y⟩ ⟨C.x, C.y⟩ A.z B.z C.z u →
        InSection ⟨A.x, A.y⟩ ⟨B.x, B.y⟩ ⟨C.x, C.y⟩ A.z B.z C.z v → l.aMin ≤ atan2 u.y u.x ∧ OnePart l u v)
    {res : RenderResult} (hr : l.render m T ranges = .ok res) {j : ℕ} (hj : j < l.numBeams) {new : EReal}
    (hn : res.ranges[j]? = some new) (hc : new ≠ (ranges[j]?).getD 0) :
    ∃ d : ℝ, 0 < d ∧ new = d ∧ ∃ t ∈ m.tris, ∃ A B C, PosedTriangle T m.points t A B C ∧
      InSection ⟨A.x, A.y⟩ ⟨B.x, B.y⟩ ⟨C.x, C.y⟩ A.z B.z C.z ⟨d * (dir (beamAngle l.aMin l.aMax l.numBeams j)).x,
        d * (dir (beamAngle l.aMin l.aMax l.numBeams j)).y⟩ := by
  have tl := (LRF.ready_inv h.ready).1.2.1
  unfold LRF.render at hr
  dsimp only at hr
  split_ifs at hr
  · rw [← Except.ok.inj hr] at hn
    rw [resize_get _ _ (by omega : j < l.rayDirs.length), Option.some.injEq] at hn
    exact absurd hn.symm hc
  · refine renderTriangles_change h T m.points (fun j new => ∃ d : ℝ, 0 < d ∧ new = d ∧ ∃ t ∈ m.tris, ∃ A B C,
      PosedTriangle T m.points t A B C ∧ InSection ⟨A.x, A.y⟩ ⟨B.x, B.y⟩ ⟨C.x, C.y⟩ A.z B.z C.z
        ⟨d * (dir (beamAngle l.aMin l.aMax l.numBeams j)).x, d * (dir (beamAngle l.aMin l.aMax l.numBeams j)).y⟩)
      m.tris _ res hm.2 (by simp [resize_length, tl]) ?_ hr j _ new (resize_get _ _ (by omega)) hn hc
    intro t ht a b c q1 q2 p1 p2 p3 hs r r' hl hr' i old nw ho hw' hne
    rw [height_eq, height_eq, height_eq, planar_eq, planar_eq, planar_eq] at hs
    have hp : PosedTriangle T m.points t (T.apply a) (T.apply b) (T.apply c) := ⟨a, b, c, p1, p2, p3, rfl, rfl, rfl⟩
    have i1 := (slice_section hs q1).1 ⟨0, le_rfl, zero_le_one, by simp, by simp⟩
    have i2 := (slice_section hs q2).1 ⟨1, zero_le_one, le_rfl, by simp, by simp⟩
    have w := hw t ht _ _ _ hp
    obtain ⟨d, d0, d1, d2⟩ := C54_segment h (w q1 q1 i1 i1).1 (w q2 q2 i2 i2).1 (w q1 q2 i1 i2).2 hl hr' i old nw ho hw' hne
    exact ⟨d, d0, d1, t, ht, _, _, _, hp, (slice_section hs _).1 d2⟩

/-- The hypotheses of C79 are met by the plate 10 in front of a sensor with 17 beams around the full turn. -/
example : ∃ l, Fine l ∧ GoodMesh plate ∧ ∀ t ∈ plate.tris, ∀ A B C, PosedTriangle ⟨Mat3.identity, ⟨10, 0, 0⟩⟩ plate.points t A B C →
      ∀ u v, InSection ⟨A.x, A.y⟩ ⟨B.x, B.y⟩ ⟨C.x, C.y⟩ A.z B.z C.z u →
        InSection ⟨A.x, A.y⟩ ⟨B.x, B.y⟩ ⟨C.x, C.y⟩ A.z B.z C.z v → l.aMin ≤ atan2 u.y u.x ∧ OnePart l u v := by
  have hp := Real.pi_pos
  obtain ⟨l, _, h2, h3, h4, h5, h6⟩ := exists_sensor (a := -Real.pi) (b := Real.pi) (R := 20) (n := 17)
    (by norm_num) (by linarith) (by linarith) (by linarith) (by norm_num; linarith)
  have hs : spacing l = Real.pi / 8 := by
    unfold spacing; rw [h2, h3, h4]; push_cast; norm_num; ring
  refine ⟨l, h6, plate_good, ?_⟩
  rintro t ht A B C ⟨a, b, c, p1, p2, p3, rfl, rfl, rfl⟩
  simp only [plate, List.mem_singleton] at ht
  subst ht
  simp only [plate, List.getElem?_cons_zero, List.getElem?_cons_succ, Option.some.injEq] at p1 p2 p3
  subst p1 p2 p3
  have cone : ∀ u, InSection ⟨10, 0⟩ ⟨10, 2⟩ ⟨10, -2⟩ 1 (-1) (-1) u → |atan2 u.y u.x| ≤ Real.pi / 4 := by
    rintro u ⟨a, b, c, g1, g2, g3, g4, g5, gx, gy⟩
    simp only at gx gy
    have hx : u.x = 10 := by linarith
    refine atan2_cone (by rw [hx]; norm_num) ?_
    rw [hx, gy, abs_le]
    constructor <;> linarith
  intro u v hu hv
  norm_num [Transform3.apply, Mat3.mulVec, Mat3.identity] at hu hv
  refine ⟨by rw [h2]; exact (atan2_mem _ _).1.le, ?_⟩
  have c1 := abs_le.1 (cone u hu)
  have c2 := abs_le.1 (cone v hv)
  have g := fun (a b : ℝ) (hg : b - a ≤ Real.pi - 2 * spacing l) => idx_gap h6 hg
  have g1 := g (atan2 u.y u.x) (atan2 v.y v.x) (by rw [hs]; linarith)
  have g2 := g (atan2 v.y v.x) (atan2 u.y u.x) (by rw [hs]; linarith)
  unfold idx at g1 g2
  unfold OnePart
  rw [abs_lt]
  constructor <;> omega

/-- C79 is false for triangles that face away: of the beams -2pi/3, 0 and 2pi/3, the last is given a range by a triangle all
points of which at height 0 have y at most 0, although the beam goes to positive y. -/
theorem C79_back_wrong : ∃ l, Fine l ∧ GoodMesh (wedge ⟨1, 0⟩ ⟨2, -1⟩) ∧ l.aMin ≤ atan2 0 1 ∧ l.aMin ≤ atan2 (-1) 2 ∧
    ∃ res d, l.render (wedge ⟨1, 0⟩ ⟨2, -1⟩) Transform3.identity [] = .ok res ∧ 0 < d ∧
      res.ranges[2]? = some ((d : ℝ) : EReal) ∧ 0 < d * (dir (beamAngle l.aMin l.aMax l.numBeams 2)).y ∧
      ∀ t ∈ (wedge ⟨1, 0⟩ ⟨2, -1⟩).tris, ∀ A B C, PosedTriangle Transform3.identity (wedge ⟨1, 0⟩ ⟨2, -1⟩).points t A B C →
        ∀ q, InSection ⟨A.x, A.y⟩ ⟨B.x, B.y⟩ ⟨C.x, C.y⟩ A.z B.z C.z q → q.y ≤ 0 := by
  obtain ⟨l, h1, h2, _, a1, a2, r, d, g1, g2, g3, g4, g5⟩ := C54_back_wrong
  have tl := (LRF.ready_inv h1.ready).1.2.1
  refine ⟨l, h1, wedge_good _ _, a1, a2, r, d, ?_, g2, g3, g4, fun t ht A B C hp q hq => g5 q ((wedge_section _ _ ht hp q).1 hq)⟩
  rw [wedge_render, tl, h2]
  exact g1

/-- C79 is false for beams parallel to the section of a triangle: the first of the beams 0 and pi/2 is given an infinite
range. -/
theorem C79_parallel_wrong : ∃ l, Fine l ∧ GoodMesh (wedge ⟨0, -1⟩ ⟨1, -1⟩) ∧ ∃ res,
    l.render (wedge ⟨0, -1⟩ ⟨1, -1⟩) Transform3.identity [] = .ok res ∧ res.ranges[0]? = some ⊤ := by
  obtain ⟨l, h1, h2, r, g1, g2⟩ := C54_parallel_wrong
  have tl := (LRF.ready_inv h1.ready).1.2.1
  refine ⟨l, h1, wedge_good _ _, r, ?_, g2⟩
  rw [wedge_render, tl, h2]
  exact g1

/-- C79 is false for triangles just below the first angle: the first of the beams 0 and pi/2 is given the range 1, although
no triangle has the point (1,0). -/
theorem C79_below_wrong : ∃ l, Fine l ∧ GoodMesh (wedge ⟨0, -1⟩ ⟨1 / 2, -1 / 2⟩) ∧
    beamAngle l.aMin l.aMax l.numBeams 0 = 0 ∧ ∃ res,
      l.render (wedge ⟨0, -1⟩ ⟨1 / 2, -1 / 2⟩) Transform3.identity [] = .ok res ∧ res.ranges[0]? = some 1 ∧
      ∀ t ∈ (wedge ⟨0, -1⟩ ⟨1 / 2, -1 / 2⟩).tris, ∀ A B C,
        PosedTriangle Transform3.identity (wedge ⟨0, -1⟩ ⟨1 / 2, -1 / 2⟩).points t A B C →
        ¬ InSection ⟨A.x, A.y⟩ ⟨B.x, B.y⟩ ⟨C.x, C.y⟩ A.z B.z C.z ⟨1, 0⟩ := by
  obtain ⟨l, h1, h2, r, g1, g2, g3, g4⟩ := C54_below_wrong
  have tl := (LRF.ready_inv h1.ready).1.2.1
  refine ⟨l, h1, wedge_good _ _, g3, r, ?_, g2, fun t ht A B C hp hq => g4 ((wedge_section _ _ ht hp _).1 hq)⟩
  rw [wedge_render, tl, h2]
  exact g1

end Geo
