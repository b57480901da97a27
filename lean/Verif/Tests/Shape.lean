import Verif.Tests.Box
import Verif.Props.Containment

/-!
# The test test/test_shape.cpp of the repository, for the model

The assertions are those of test/test_box.cpp (`Contains`, `Intersect`), asked of the triangle mesh of the box.
-/

namespace Geo.Tests

open Spec

/-- `shape(box)`, test/test_shape.cpp:10: the copy of a `Box` to a `Shape` keeps the mesh. -/
noncomputable def shape : Shape := ⟨box.mesh, false, 0, 0⟩

theorem shape_points : shape.mesh.points = corners8 ⟨-0.5, -0.5, -0.5⟩ ⟨0.5, 0.5, 0.5⟩ :=
  (generateMesh_points ⟨_, _, Mesh.new⟩).2.2

theorem shape_tris : shape.mesh.tris = [⟨1, 0, 2⟩, ⟨1, 2, 3⟩, ⟨4, 5, 6⟩, ⟨6, 5, 7⟩, ⟨0, 4, 2⟩, ⟨2, 4, 6⟩, ⟨5, 1, 3⟩,
    ⟨5, 3, 7⟩, ⟨0, 1, 4⟩, ⟨4, 1, 5⟩, ⟨3, 2, 6⟩, ⟨3, 6, 7⟩] := rfl

theorem shape_radius : IsRadius shape.mesh.points (Real.sqrt 0.75) := by
  rw [shape_points]
  constructor
  · intro p hp
    rw [Spec.dist]
    apply Real.sqrt_le_sqrt
    simp only [corners8, List.mem_cons, List.not_mem_nil, or_false] at hp
    rcases hp with rfl | rfl | rfl | rfl | rfl | rfl | rfl | rfl <;> simp only [distSq] <;> norm_num
  · left
    refine ⟨⟨0.5, 0.5, 0.5⟩, by simp [corners8], ?_⟩
    rw [Spec.dist]; congr 1; simp only [distSq]; norm_num

/-- An iteration whose side products have both signs. -/
theorem step_miss {p P v1 v2 v3 : Vec3} (it : TriI) (st : Shape.HitState) {s1 s2 s3 : ℝ}
    (h1 : sideProduct (LS.new p P) (LS.new v1 v2) = s1) (h2 : sideProduct (LS.new p P) (LS.new v2 v3) = s2)
    (h3 : sideProduct (LS.new p P) (LS.new v3 v1) = s3)
    (hn : s1 < -1e-16 ∨ s2 < -1e-16 ∨ s3 < -1e-16) (hp : 1e-16 < s1 ∨ 1e-16 < s2 ∨ 1e-16 < s3) :
    Shape.containsStep p P it v1 v2 v3 st = .go st := by
  unfold Shape.containsStep
  dsimp only
  rw [h1, h2, h3, if_pos]
  simp only [Bool.and_eq_true, Bool.not_eq_true', decide_eq_false_iff_not]
  constructor
  · rintro ⟨a, b, c⟩
    rcases hn with h | h | h <;> linarith
  · rintro ⟨a, b, c⟩
    rcases hp with h | h | h <;> linarith

/-- An iteration whose triangle is met by the line of the probe but not by the probe. -/
theorem step_behind {p P v1 v2 v3 : Vec3} (it : TriI) (st : Shape.HitState) {s1 s2 s3 s4 s5 : ℝ}
    (h1 : sideProduct (LS.new p P) (LS.new v1 v2) = s1) (h2 : sideProduct (LS.new p P) (LS.new v2 v3) = s2)
    (h3 : sideProduct (LS.new p P) (LS.new v3 v1) = s3) (h4 : sideProduct (LS.new P v1) (LS.new v2 v3) = s4)
    (h5 : sideProduct (LS.new v1 p) (LS.new v2 v3) = s5)
    (hc : 1e-16 < |s1| ∨ 1e-16 < |s2| ∨ 1e-16 < |s3|) (hb : s4 * s5 < -1e-16) :
    Shape.containsStep p P it v1 v2 v3 st = .go st := by
  unfold Shape.containsStep
  dsimp only
  rw [h1, h2, h3, h4, h5, if_neg (show ¬ s4 * s5 ≥ -1e-16 from not_le.2 hb), ite_self]
  have c2 : ¬ ((s1 ≥ -1e-16 ∧ s2 ≥ -1e-16 ∧ s3 ≥ -1e-16) ∧ s1 ≤ 1e-16 ∧ s2 ≤ 1e-16 ∧ s3 ≤ 1e-16) := by
    rintro ⟨⟨a, b, c⟩, d, e, f⟩
    rcases hc with h | h | h <;> rcases lt_abs.1 h with h | h <;> linarith
  simp only [Bool.and_eq_true, decide_eq_true_eq, c2, if_false, ite_self]

/-- An iteration whose triangle is met by the probe in its interior, in the direction `dir`. -/
theorem step_face {p P v1 v2 v3 : Vec3} (it : TriI) (st : Shape.HitState) {s1 s2 s3 s4 s5 a : ℝ} (dir : ℤ)
    (h1 : sideProduct (LS.new p P) (LS.new v1 v2) = s1) (h2 : sideProduct (LS.new p P) (LS.new v2 v3) = s2)
    (h3 : sideProduct (LS.new p P) (LS.new v3 v1) = s3) (h4 : sideProduct (LS.new P v1) (LS.new v2 v3) = s4)
    (h5 : sideProduct (LS.new v1 p) (LS.new v2 v3) = s5)
    (hd : (1e-16 < s1 ∧ 1e-16 < s2 ∧ 1e-16 < s3 ∧ dir = 1) ∨
      (s1 < -1e-16 ∧ s2 < -1e-16 ∧ s3 < -1e-16 ∧ dir = -1)) (hs : 0 ≤ s4 * s5)
    (ha : triangleArea v2 p v3 + triangleArea p v1 v3 + triangleArea p v1 v2 - triangleArea v1 v2 v3 = a)
    (hb : 1e-12 ≤ |a|) :
    Shape.containsStep p P it v1 v2 v3 st = .go { st with count := st.count + dir } := by
  unfold Shape.containsStep
  dsimp only
  have h45 : s4 * s5 ≥ -1e-16 := by linarith
  have hb' : ¬ |a| < 1e-12 := not_lt.2 hb
  rcases hd with ⟨k1, k2, k3, rfl⟩ | ⟨k1, k2, k3, rfl⟩
  · have l1 : s1 ≥ -1e-16 := by linarith
    have l2 : s2 ≥ -1e-16 := by linarith
    have l3 : s3 ≥ -1e-16 := by linarith
    have m1 : ¬ s1 ≤ 1e-16 := not_le.2 k1
    have n1 : ¬ s1 < -1e-16 := not_lt.2 l1
    have n2 : ¬ s2 < -1e-16 := not_lt.2 l2
    have n3 : ¬ s3 < -1e-16 := not_lt.2 l3
    rw [h1, h2, h3, h4, h5, ha]
    simp only [gt_iff_lt, l1, l2, l3, k1, k2, k3, m1, n1, n2, n3, h45, hb', decide_true, decide_false, and_self,
      false_and, if_true, if_false, Shape.count3]
    rfl
  · have l1 : s1 ≤ 1e-16 := by linarith
    have l2 : s2 ≤ 1e-16 := by linarith
    have l3 : s3 ≤ 1e-16 := by linarith
    have m1 : ¬ s1 ≥ -1e-16 := not_le.2 k1
    have n1 : ¬ 1e-16 < s1 := not_lt.2 l1
    have n2 : ¬ 1e-16 < s2 := not_lt.2 l2
    have n3 : ¬ 1e-16 < s3 := not_lt.2 l3
    rw [h1, h2, h3, h4, h5, ha]
    simp only [gt_iff_lt, l1, l2, l3, k1, k2, k3, m1, n1, n2, n3, h45, hb', decide_true, decide_false, and_self,
      false_and, if_true, if_false, Shape.count3]
    rfl

theorem loop_go {p P : Vec3} {points : List Vec3} {it : TriI} {ts : List TriI} {st st' : Shape.HitState}
    {v1 v2 v3 : Vec3} (h1 : vget points it.i1 = .ok v1) (h2 : vget points it.i2 = .ok v2)
    (h3 : vget points it.i3 = .ok v3) (h : Shape.containsStep p P it v1 v2 v3 st = .go st') :
    Shape.containsLoop p P points (it :: ts) st = Shape.containsLoop p P points ts st' := by
  rw [Shape.containsLoop, h1, h2, h3]
  simp only [bind, Except.bind, h]

/-- An iteration whose triangle is met by the probe on its third edge, away from the point. -/
theorem step_edge3 {p P v1 v2 v3 : Vec3} (it : TriI) (st : Shape.HitState) {s1 s2 s4 s5 : ℝ}
    (h1 : sideProduct (LS.new p P) (LS.new v1 v2) = s1) (h2 : sideProduct (LS.new p P) (LS.new v2 v3) = s2)
    (h3 : sideProduct (LS.new p P) (LS.new v3 v1) = 0) (h4 : sideProduct (LS.new P v1) (LS.new v2 v3) = s4)
    (h5 : sideProduct (LS.new v1 p) (LS.new v2 v3) = s5) (k1 : 1e-16 < s1) (k2 : 1e-16 < s2) (hs : 0 ≤ s4 * s5)
    (hi : ¬ it.i1 < it.i3) (hf : ¬ |(p - v3).length + (v1 - p).length - (v1 - v3).length| ≤ 1e-12)
    (he : st.edge (Shape.edgeKey it.i3 it.i1) = 0) :
    Shape.containsStep p P it v1 v2 v3 st = .go { st with
      count := st.count + 1
      edge := Function.update st.edge (Shape.edgeKey it.i3 it.i1) (st.edge (Shape.edgeKey it.i3 it.i1) + 1) } := by
  unfold Shape.containsStep
  dsimp only
  have h45 : s4 * s5 ≥ -1e-16 := by linarith
  have l1 : s1 ≥ -1e-16 := by linarith
  have l2 : s2 ≥ -1e-16 := by linarith
  have l3 : (0:ℝ) ≥ -1e-16 := by norm_num
  have k3 : ¬ (1e-16:ℝ) < 0 := by norm_num
  have m1 : ¬ s1 ≤ 1e-16 := not_le.2 k1
  have n1 : ¬ s1 < -1e-16 := not_lt.2 l1
  have n2 : ¬ s2 < -1e-16 := not_lt.2 l2
  have n3 : ¬ (0:ℝ) < -1e-16 := by norm_num
  have o1 : ¬ |s1| < 1e-16 := by rw [not_lt, le_abs]; left; exact k1.le
  have o2 : ¬ |s2| < 1e-16 := by rw [not_lt, le_abs]; left; exact k2.le
  have e0 : ¬ st.edge (Shape.edgeKey it.i3 it.i1) = 1 := by rw [he]; norm_num
  rw [h1, h2, h3, h4, h5]
  simp [gt_iff_lt, l1, l2, l3, k1, k2, k3, m1, n1, n2, n3, o1, o2, h45, hi, hf, e0, Shape.count3]

/-- An iteration whose triangle is met by the probe on its first edge, counted before. -/
theorem step_edge1 {p P v1 v2 v3 : Vec3} (it : TriI) (st : Shape.HitState) {s2 s3 s4 s5 : ℝ}
    (h1 : sideProduct (LS.new p P) (LS.new v1 v2) = 0) (h2 : sideProduct (LS.new p P) (LS.new v2 v3) = s2)
    (h3 : sideProduct (LS.new p P) (LS.new v3 v1) = s3) (h4 : sideProduct (LS.new P v1) (LS.new v2 v3) = s4)
    (h5 : sideProduct (LS.new v1 p) (LS.new v2 v3) = s5) (k2 : 1e-16 < s2) (k3 : 1e-16 < s3) (hs : 0 ≤ s4 * s5)
    (hi : it.i2 < it.i1) (hf : ¬ |(p - v2).length + (v1 - p).length - (v1 - v2).length| ≤ 1e-12)
    (he : st.edge (Shape.edgeKey it.i1 it.i2) = 1) :
    Shape.containsStep p P it v1 v2 v3 st = .go st := by
  unfold Shape.containsStep
  dsimp only
  have h45 : s4 * s5 ≥ -1e-16 := by linarith
  have l1 : (0:ℝ) ≥ -1e-16 := by norm_num
  have l2 : s2 ≥ -1e-16 := by linarith
  have l3 : s3 ≥ -1e-16 := by linarith
  have k1 : ¬ (1e-16:ℝ) < 0 := by norm_num
  have m1 : ¬ s2 ≤ 1e-16 := not_le.2 k2
  have n1 : ¬ (0:ℝ) < -1e-16 := by norm_num
  have n2 : ¬ s2 < -1e-16 := not_lt.2 l2
  have n3 : ¬ s3 < -1e-16 := not_lt.2 l3
  have o1 : (0:ℝ) < 1e-16 := by norm_num
  rw [h1, h2, h3, h4, h5]
  simp [gt_iff_lt, l1, l2, l3, k1, k2, k3, m1, n1, n2, n3, o1, h45, hi, hf, he, Shape.count3]

theorem far_lt : 0.9 < 1.1 * Real.sqrt 0.75 ∧ 1.1 * Real.sqrt 0.75 < 1 := by
  have h1 : (0.85:ℝ) < Real.sqrt 0.75 := by rw [Real.lt_sqrt (by norm_num)]; norm_num
  have h2 : Real.sqrt 0.75 < 0.9 := by rw [Real.sqrt_lt' (by norm_num)]; norm_num
  constructor <;> linarith

/-- The values of the side products. -/
theorem sides (a b c d : Vec3) : sideProduct (LS.new a b) (LS.new c d) =
    (b.x - a.x) * (c.y * d.z - c.z * d.y) + (b.y - a.y) * (c.z * d.x - c.x * d.z) +
      (b.z - a.z) * (c.x * d.y - c.y * d.x) + ((d.x - c.x) * (a.y * b.z - a.z * b.y) +
      (d.y - c.y) * (a.z * b.x - a.x * b.z) + (d.z - c.z) * (a.x * b.y - a.y * b.x)) := by
  simp only [sideProduct, LS.new, Vec3.dot, Vec3.cross, Vec3.sub_x, Vec3.sub_y, Vec3.sub_z]

/-- `shape.contains` of a point within the radius is the loop. -/
theorem shape_loop (p : Vec3) (h : p.length2 ≤ 0.75) : shape.contains p =
    Shape.containsLoop p ⟨1.1 * Real.sqrt 0.75, 0, 0⟩ (corners8 ⟨-0.5, -0.5, -0.5⟩ ⟨0.5, 0.5, 0.5⟩)
      [⟨1, 0, 2⟩, ⟨1, 2, 3⟩, ⟨4, 5, 6⟩, ⟨6, 5, 7⟩, ⟨0, 4, 2⟩, ⟨2, 4, 6⟩, ⟨5, 1, 3⟩, ⟨5, 3, 7⟩, ⟨0, 1, 4⟩, ⟨4, 1, 5⟩,
        ⟨3, 2, 6⟩, ⟨3, 6, 7⟩] ⟨0, fun _ => 0, fun _ => 0⟩ := by
  obtain ⟨hR, hR2, -⟩ := radius_eq (box_reachable _ _).coherent shape_radius
  unfold Shape.contains Shape.containsMesh
  rw [if_neg, show shape.mesh.getMaxRadius.2 = Real.sqrt 0.75 from hR, shape_points, shape_tris]
  rw [show shape.mesh.getSquaredMaxRadius.2 = Real.sqrt 0.75 ^ 2 from hR2, Real.sq_sqrt (by norm_num)]
  exact not_lt.2 h

/-- `ASSERT_TRUE(shape.contains(origin))`, test/test_shape.cpp:19. The probe leaves the box through the common edge of
two triangles. -/
theorem shape_origin : shape.contains origin = .ok true := by
  obtain ⟨l1, l2⟩ := far_lt
  rw [shape_loop _ (by norm_num [origin, Vec3.length2])]
  generalize 1.1 * Real.sqrt 0.75 = R at l1 l2
  unfold origin corners8
  have hl : ¬ |Real.sqrt 3 / 2 + Real.sqrt 3 / 2 - Real.sqrt 2| ≤ 1e-12 := by
    have h1 : (1.7:ℝ) < Real.sqrt 3 := by rw [Real.lt_sqrt (by norm_num)]; norm_num
    have h2 : Real.sqrt 2 < 1.5 := by rw [Real.sqrt_lt' (by norm_num)]; norm_num
    rw [not_le, lt_abs]; left; linarith
  have s3 : Real.sqrt (3 / 4) = Real.sqrt 3 / 2 := by
    rw [Real.sqrt_div (by norm_num), show (4:ℝ) = 2 ^ 2 by norm_num, Real.sqrt_sq (by norm_num)]
  iterate 4 rw [loop_go rfl rfl rfl (step_miss _ _ (sides _ _ _ _) (sides _ _ _ _) (sides _ _ _ _)
    (by norm_num; by_contra h; push Not at h; linarith) (by norm_num; by_contra h; push Not at h; linarith))]
  iterate 2 rw [loop_go rfl rfl rfl (step_behind _ _ (sides _ _ _ _) (sides _ _ _ _) (sides _ _ _ _) (sides _ _ _ _)
    (sides _ _ _ _) (by norm_num [lt_abs]; by_contra h; push Not at h; linarith [le_abs_self R]) (by norm_num; linarith))]
  rw [loop_go rfl rfl rfl (step_edge3 _ _ (sides _ _ _ _) (sides _ _ _ _) (by rw [sides]; norm_num) (sides _ _ _ _)
    (sides _ _ _ _) (by norm_num; linarith) (by norm_num; linarith) (by norm_num; linarith) (by norm_num)
    (by norm_num [Vec3.length]; norm_num [s3] at hl ⊢; exact hl) rfl)]
  rw [loop_go rfl rfl rfl (step_edge1 _ _ (by rw [sides]; norm_num) (sides _ _ _ _) (sides _ _ _ _) (sides _ _ _ _)
    (sides _ _ _ _) (by norm_num; linarith) (by norm_num; linarith) (by norm_num; linarith) (by norm_num)
    (by norm_num [Vec3.length]; norm_num [s3] at hl ⊢; exact hl) (by simp [Shape.edgeKey]))]
  iterate 4 rw [loop_go rfl rfl rfl (step_miss _ _ (sides _ _ _ _) (sides _ _ _ _) (sides _ _ _ _)
    (by norm_num; by_contra h; push Not at h; linarith) (by norm_num; by_contra h; push Not at h; linarith))]
  simp [Shape.containsLoop]

/-- `ASSERT_FALSE(shape.contains(side_center_close))`, test/test_shape.cpp:29. The probe enters the box through one
triangle and leaves it through another one. -/
theorem shape_close : shape.contains sideCenterClose = .ok false := by
  obtain ⟨l1, l2⟩ := far_lt
  rw [shape_loop _ (by norm_num [sideCenterClose, Vec3.length2])]
  generalize 1.1 * Real.sqrt 0.75 = R at l1 l2
  unfold sideCenterClose corners8
  iterate 3 rw [loop_go rfl rfl rfl (step_miss _ _ (sides _ _ _ _) (sides _ _ _ _) (sides _ _ _ _)
    (by norm_num <;> (by_contra h; push Not at h; linarith)) (by norm_num <;> (by_contra h; push Not at h; linarith)))]
  rw [loop_go rfl rfl rfl (step_face _ _ (-1) (sides _ _ _ _) (sides _ _ _ _) (sides _ _ _ _) (sides _ _ _ _)
    (sides _ _ _ _) (by right; refine ⟨?_, ?_, ?_, rfl⟩ <;> norm_num <;> linarith) (by norm_num; linarith)
    rfl (by
      simp only [triangleArea, Vec3.length, Vec3.cross, Vec3.sub_x, Vec3.sub_y, Vec3.sub_z]
      norm_num
      have h2 : (1.4:ℝ) < Real.sqrt 2 := by rw [Real.lt_sqrt (by norm_num)]; norm_num
      have h29 : (5:ℝ) < Real.sqrt 29 := by rw [Real.lt_sqrt (by norm_num)]; norm_num
      rw [le_abs]; left; linarith))]
  iterate 3 rw [loop_go rfl rfl rfl (step_miss _ _ (sides _ _ _ _) (sides _ _ _ _) (sides _ _ _ _)
    (by norm_num; by_contra h; push Not at h; linarith) (by norm_num; by_contra h; push Not at h; linarith))]
  rw [loop_go rfl rfl rfl (step_face _ _ 1 (sides _ _ _ _) (sides _ _ _ _) (sides _ _ _ _) (sides _ _ _ _)
    (sides _ _ _ _) (by left; refine ⟨?_, ?_, ?_, rfl⟩ <;> norm_num <;> linarith) (by norm_num; linarith)
    rfl (by
      simp only [triangleArea, Vec3.length, Vec3.cross, Vec3.sub_x, Vec3.sub_y, Vec3.sub_z]
      norm_num
      have h2 : (0:ℝ) ≤ (Real.sqrt 2)⁻¹ := by positivity
      have h29 : (5:ℝ) < Real.sqrt 29 := by rw [Real.lt_sqrt (by norm_num)]; norm_num
      have h99 : (9:ℝ) < Real.sqrt 99 := by rw [Real.lt_sqrt (by norm_num)]; norm_num
      rw [le_abs]; left; linarith))]
  iterate 4 rw [loop_go rfl rfl rfl (step_miss _ _ (sides _ _ _ _) (sides _ _ _ _) (sides _ _ _ _)
    (by norm_num <;> (by_contra h; push Not at h; linarith)) (by norm_num <;> (by_contra h; push Not at h; linarith)))]
  simp [Shape.containsLoop]

/-- (Device of the proofs.) The twelve triangles of the box, src/Box.cpp:175-196. -/
noncomputable def triangles : List (Vec3 × Vec3 × Vec3) :=
  let p0 : Vec3 := ⟨-0.5, -0.5, -0.5⟩
  let p1 : Vec3 := ⟨0.5, -0.5, -0.5⟩
  let p2 : Vec3 := ⟨-0.5, 0.5, -0.5⟩
  let p3 : Vec3 := ⟨0.5, 0.5, -0.5⟩
  let p4 : Vec3 := ⟨-0.5, -0.5, 0.5⟩
  let p5 : Vec3 := ⟨0.5, -0.5, 0.5⟩
  let p6 : Vec3 := ⟨-0.5, 0.5, 0.5⟩
  let p7 : Vec3 := ⟨0.5, 0.5, 0.5⟩
  [(p1, p0, p2), (p1, p2, p3), (p4, p5, p6), (p6, p5, p7), (p0, p4, p2), (p2, p4, p6), (p5, p1, p3), (p5, p3, p7),
    (p0, p1, p4), (p4, p1, p5), (p3, p2, p6), (p3, p6, p7)]

theorem shape_soup : soup shape.mesh.points shape.mesh.tris = some triangles := box_soup _ _

/-- The points of the surface: test/test_shape.cpp:21-25. -/
theorem shape_surface : shape.contains pMin = .ok true ∧ shape.contains pMax = .ok true ∧
    shape.contains sideCenter = .ok true ∧ shape.contains sideCenterTriangle = .ok true := by
  obtain ⟨l1, l2⟩ := far_lt
  have key := C18_surface shape (box_reachable _ _) triangles shape_soup
  refine ⟨key (⟨-0.5, -0.5, -0.5⟩, ⟨-0.5, -0.5, 0.5⟩, ⟨-0.5, 0.5, -0.5⟩)
      (by simp [triangles]) _ ⟨1, 0, 0, by norm_num [pMin]⟩ _ shape_radius ?_,
    key (⟨0.5, -0.5, 0.5⟩, ⟨0.5, 0.5, -0.5⟩, ⟨0.5, 0.5, 0.5⟩)
      (by simp [triangles]) _ ⟨0, 0, 1, by norm_num [pMax]⟩ _ shape_radius ?_,
    key (⟨-0.5, -0.5, 0.5⟩, ⟨0.5, -0.5, 0.5⟩, ⟨-0.5, 0.5, 0.5⟩)
      (by simp [triangles]) _ ⟨0, 1 / 2, 1 / 2, by norm_num [sideCenter]⟩ _ shape_radius ?_,
    key (⟨-0.5, 0.5, 0.5⟩, ⟨0.5, -0.5, 0.5⟩, ⟨0.5, 0.5, 0.5⟩)
      (by simp [triangles]) _ ⟨1 / 2, 1 / 4, 1 / 4, by norm_num [sideCenterTriangle]⟩ _ shape_radius ?_⟩ <;>
  · generalize 1.1 * Real.sqrt 0.75 = R at l1 l2
    intro e he
    simp only [rim, List.mem_cons, List.not_mem_nil, or_false] at he
    rw [lt_abs]
    rcases he with rfl | rfl | rfl <;> simp only [vol4_eq, pMin, pMax, sideCenter, sideCenterTriangle] <;> norm_num <;>
      (by_contra h; push Not at h; obtain ⟨-, h1, h2⟩ := h; linarith)

/-- `ASSERT_FALSE(shape.contains(side_center_distance))`, test/test_shape.cpp:27. -/
theorem shape_distance : shape.contains sideCenterDistance = .ok false := by
  refine C19_beyond_partial shape (box_reachable _ _) _ shape_radius _ ?_
  rw [Spec.dist]
  exact Real.sqrt_lt_sqrt (by norm_num) (by norm_num [distSq, sideCenterDistance])

/-- `TEST_F(ShapeTest, Contains)`, test/test_shape.cpp:17-30. -/
theorem shape_contains : Contains shape.contains :=
  ⟨shape_origin, shape_surface.1, shape_surface.2.1, shape_surface.2.2.1, shape_surface.2.2.2, shape_distance, shape_close⟩

theorem shape_near (p : Vec3) (R : ℝ) (h : p.length2 ≤ 0.75) (hR : 0 ≤ R) :
    ¬ p.length - R > shape.mesh.getMaxRadius.2 := by
  obtain ⟨hm, -, -⟩ := radius_eq (box_reachable _ _).coherent shape_radius
  rw [show shape.mesh.getMaxRadius.2 = Real.sqrt 0.75 from hm]
  have : p.length ≤ Real.sqrt 0.75 := Real.sqrt_le_sqrt (by simpa [Vec3.length2] using h)
  linarith

/-- A contained point is reported for every radius. -/
theorem shape_inside {p : Vec3} (h : p.length2 ≤ 0.75) (hc : shape.contains p = .ok true) {R : ℝ} (hR : 0 ≤ R) :
    shape.intersectSphere p R = .ok true := by
  have hc' : Shape.containsMesh shape.mesh p = .ok true := hc
  unfold Shape.intersectSphere Shape.intersectSphereMesh
  rw [if_neg (shape_near p R h hR), hc']
  obtain ⟨b, hb, -⟩ := sphereLoop_true (p := p) (R2 := R * R) shape_soup
  rw [hb]
  cases b <;> simp [bind, Except.bind, pure, Except.pure]

/-- A point not contained is not reported for the radius 0. -/
theorem shape_zero {p : Vec3} (hc : shape.contains p = .ok false) : shape.intersectSphere p 0 = .ok false := by
  have hc' : Shape.containsMesh shape.mesh p = .ok false := hc
  unfold Shape.intersectSphere Shape.intersectSphereMesh
  rw [hc']
  simp

/-- A sphere that touches the middle of the edge from corner 5 to corner 6. -/
theorem shape_touch {p : Vec3} {R : ℝ} (hR : 0 < R) (hl : p.length - R ≤ 0.8)
    (h : checkLinesegment p (R * R) ⟨0.5, -0.5, 0.5⟩ (⟨-0.5, 0.5, 0.5⟩ - ⟨0.5, -0.5, 0.5⟩) = true) :
    shape.intersectSphere p R = .ok true := by
  obtain ⟨hm, -, -⟩ := radius_eq (box_reachable _ _).coherent shape_radius
  have h1 : (0.85:ℝ) < Real.sqrt 0.75 := by rw [Real.lt_sqrt (by norm_num)]; norm_num
  unfold Shape.intersectSphere Shape.intersectSphereMesh
  rw [show shape.mesh.getMaxRadius.2 = Real.sqrt 0.75 from hm, if_neg (by linarith), if_pos hR]
  obtain ⟨b, hb, hiff⟩ := sphereLoop_true (p := p) (R2 := R * R) shape_soup
  rw [hb, hiff.2 ⟨(⟨-0.5, -0.5, 0.5⟩, ⟨0.5, -0.5, 0.5⟩, ⟨-0.5, 0.5, 0.5⟩), by simp [triangles], ?_⟩]
  · simp [bind, Except.bind, pure, Except.pure]
  · unfold Shape.sphereHitsTriangle
    simp only [h]
    simp

theorem distance_length : sideCenterDistance.length = 1 := by norm_num [sideCenterDistance, Vec3.length]

theorem close_length : sideCenterClose.length = 0.7 := by
  norm_num [sideCenterClose, Vec3.length]

/-- `ASSERT_FALSE(shape.intersect(side_center_close, 0.1))`, test/test_shape.cpp:53. -/
theorem shape_close_small : shape.intersectSphere sideCenterClose 0.1 = .ok false := by
  obtain ⟨b, hb⟩ : ∃ b, shape.intersectSphere sideCenterClose 0.1 = .ok b := by
    unfold Shape.intersectSphere Shape.intersectSphereMesh
    obtain ⟨b, hb, -⟩ := sphereLoop_true (p := sideCenterClose) (R2 := 0.1 * 0.1) shape_soup
    rw [hb, show Shape.containsMesh shape.mesh sideCenterClose = .ok false from shape_close]
    split_ifs <;> cases b <;> simp [bind, Except.bind, pure, Except.pure]
  cases b
  · exact hb
  exfalso
  rcases C20_sphere_sound shape triangles shape_soup _ _ hb with h | ⟨t, ht, x, ⟨a, b, c, ha, hb, hc, h1, rfl⟩, e, he, hd⟩
  · rw [shape_close] at h; simp at h
  · have hz : t.1.z ≤ 0.5 ∧ t.2.1.z ≤ 0.5 ∧ t.2.2.z ≤ 0.5 ∧ ∀ e ∈ rim t, distSq e.1 e.2 ≤ 2 := by
      simp only [triangles, List.mem_cons, List.not_mem_nil, or_false] at ht
      rcases ht with rfl | rfl | rfl | rfl | rfl | rfl | rfl | rfl | rfl | rfl | rfl | rfl <;>
        norm_num [rim, distSq]
    obtain ⟨z1, z2, z3, z4⟩ := hz
    have := z4 e he
    have hzz : a * t.1.z + b * t.2.1.z + c * t.2.2.z ≤ 0.5 := by nlinarith
    have hl : (0.04:ℝ) ≤ distSq sideCenterClose
        ⟨a * t.1.x + b * t.2.1.x + c * t.2.2.x, a * t.1.y + b * t.2.1.y + c * t.2.2.y,
          a * t.1.z + b * t.2.1.z + c * t.2.2.z⟩ := by
      simp only [distSq, sideCenterClose]
      generalize a * t.1.z + b * t.2.1.z + c * t.2.2.z = z at hzz
      nlinarith [sq_nonneg (0 - (a * t.1.x + b * t.2.1.x + c * t.2.2.x)),
        sq_nonneg (0 - (a * t.1.y + b * t.2.1.y + c * t.2.2.y))]
    norm_num at hd
    linarith

/-- `TEST_F(ShapeTest, Intersect)`, test/test_shape.cpp:32-56. -/
theorem shape_intersect : Intersect shape.intersectSphere := by
  have i0 := @shape_inside origin (by norm_num [origin, Vec3.length2]) shape_origin
  have i1 := @shape_inside pMin (by norm_num [pMin, Vec3.length2]) shape_surface.1
  have i2 := @shape_inside pMax (by norm_num [pMax, Vec3.length2]) shape_surface.2.1
  have i3 := @shape_inside sideCenter (by norm_num [sideCenter, Vec3.length2]) shape_surface.2.2.1
  have i4 := @shape_inside sideCenterTriangle (by norm_num [sideCenterTriangle, Vec3.length2]) shape_surface.2.2.2
  refine ⟨⟨i0 (by norm_num), i0 (by norm_num)⟩, ⟨i1 (by norm_num), i1 (by norm_num), i2 (by norm_num), i2 (by norm_num)⟩,
    ⟨i3 (by norm_num), i3 (by norm_num), i4 (by norm_num), i4 (by norm_num)⟩,
    ⟨shape_zero shape_distance, ?_, ?_, ?_⟩, ⟨shape_zero shape_close, shape_close_small, ?_, ?_⟩⟩
  · obtain ⟨hm, -, -⟩ := radius_eq (box_reachable _ _).coherent shape_radius
    unfold Shape.intersectSphere Shape.intersectSphereMesh
    have h2 : Real.sqrt 0.75 < 0.87 := by rw [Real.sqrt_lt' (by norm_num)]; norm_num
    rw [show shape.mesh.getMaxRadius.2 = Real.sqrt 0.75 from hm, if_pos]
    rw [distance_length]; linarith
  · refine shape_touch (by norm_num) (by rw [distance_length]; norm_num) ?_
    norm_num [checkLinesegment, sideCenterDistance, Vec3.length2, Vec3.dot]
  · refine shape_touch (by norm_num) (by rw [distance_length]; norm_num) ?_
    norm_num [checkLinesegment, sideCenterDistance, Vec3.length2, Vec3.dot]
  · refine shape_touch (by norm_num) (by rw [close_length]; norm_num) ?_
    norm_num [checkLinesegment, sideCenterClose, Vec3.length2, Vec3.dot]
  · refine shape_touch (by norm_num) (by rw [close_length]; norm_num) ?_
    norm_num [checkLinesegment, sideCenterClose, Vec3.length2, Vec3.dot]

end Geo.Tests
