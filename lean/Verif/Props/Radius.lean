import Verif.Lemmas.Radius
import Verif.Props.Octree
import Verif.Props.Composite

/-!
# Sphere tests as a function of the radius (C105)
-/

namespace Geo
open Spec

/-! ## C105 -/

/-- C105 for shapes made of a mesh with valid indices: `Shape::intersect` answers for every radius, keeps its hits when the sphere
grows, and is `contains` for radius 0. -/
theorem C105_mesh (s : Shape) (h : GoodMesh s.mesh) (p : Vec3) : Grows (s.intersectSphere p) (s.contains p) := by
  obtain ⟨l, hl⟩ := Mesh.soup_valid h.2
  have hs := Mesh.mapM_corners_soup.1 hl
  obtain ⟨g1, g2⟩ := sphereThen_grows hs p (containsMesh_total hs p)
  refine ⟨g1, g2, ?_⟩
  obtain ⟨e1, e2, e3⟩ := radius_eq h.1.coherent (Mesh.sqMax_isRadius s.mesh.points)
  unfold Shape.intersectSphere Shape.intersectSphereMesh Shape.contains
  rw [sub_zero, if_neg (lt_irrefl (0 : ℝ))]
  split_ifs with hc
  · unfold Shape.containsMesh
    rw [if_pos]
    rw [e1] at hc
    rw [e2]
    have : p.length2 = p.length ^ 2 := by exact (Real.sq_sqrt (Mesh.length2_nonneg p)).symm
    rw [this]
    nlinarith
  · rfl

/-- C105 for boxes, whatever their corners. -/
theorem C105_box (b : Box) (p : Vec3) : Grows (b.toObj.sphere p) (b.toObj.contains p) := b.sphere_grows p

/-- C105 for composites: it holds if it holds for the parts, whatever the poses and the bounding box are. -/
theorem C105_composite (c : Composite) (h : ∀ x ∈ c.shapes, ∀ q, Grows (x.1.sphere q) (x.1.contains q)) (p : Vec3) :
    Grows (c.intersectSphere p) (c.contains p) := by
  have hb := c.bb.sphere_grows p
  have key : ∀ r, ∃ b, anyOf (fun s : ShapeObj × Transform3 => s.1.sphere (s.2.apply p) r) c.shapes = .ok b ∧
      (b = true ↔ ∃ a ∈ c.shapes, a.1.sphere (a.2.apply p) r = .ok true) := fun r =>
    Composite.anyOf_total _ _ fun a ha => (h a ha _).answers r
  refine ⟨fun r => ?_, fun r r' hr hc => ?_, ?_⟩
  · unfold Composite.intersectSphere
    split_ifs
    · exact ⟨_, rfl⟩
    · exact (key r).imp fun _ hb => hb.1
  · unfold Composite.intersectSphere at hc ⊢
    split_ifs at hc with h1
    · simp at hc
    · rw [Bool.not_eq_true', Bool.not_eq_false] at h1
      have h2 := hb.grows r r' hr (by rw [h1])
      rw [Except.ok.injEq] at h2
      rw [h2]
      obtain ⟨b, e1, e2⟩ := key r
      obtain ⟨b', f1, f2⟩ := key r'
      rw [hc, Except.ok.injEq] at e1
      obtain ⟨a, ha, e⟩ := e2.1 e1.symm
      simp only [Bool.not_true, Bool.false_eq_true, if_false]
      rw [f1, f2.2 ⟨a, ha, (h a ha _).grows r r' hr e⟩]
  · unfold Composite.intersectSphere Composite.contains
    have h0 := hb.zero
    rw [Except.ok.injEq] at h0
    rw [h0]
    split_ifs
    · rfl
    · obtain ⟨b, e1, e2⟩ := key 0
      obtain ⟨b', f1, f2⟩ := Composite.anyOf_total (fun s : ShapeObj × Transform3 => s.1.contains (s.2.apply p)) c.shapes
        fun a ha => by rw [← (h a ha _).zero]; exact (h a ha _).answers 0
      rw [e1, f1]
      congr 1
      rw [Bool.eq_iff_iff, e2, f2]
      constructor
      · rintro ⟨a, ha, e⟩
        exact ⟨a, ha, by rw [← (h a ha _).zero]; exact e⟩
      · rintro ⟨a, ha, e⟩
        exact ⟨a, ha, by rw [(h a ha _).zero]; exact e⟩

/-- C105 case: a composite of a box and of a mesh of one triangle. -/
example (c : Composite) (T : Transform3) (hc : c.shapes = [((Box.new ⟨0, 0, 0⟩ ⟨1, 2, 3⟩).toObj, T),
    ((Shape.new.setMesh ((((Mesh.new.addPoint ⟨0, 0, 0⟩).1.addPoint ⟨1, 0, 0⟩).1.addPoint ⟨0, 1, 0⟩).1.addTriangle 0 1 2)).toObj, T)])
    (p : Vec3) : Grows (c.intersectSphere p) (c.contains p) := by
  refine C105_composite c (fun x hx q => ?_) p
  rw [hc] at hx
  simp only [List.mem_cons, List.not_mem_nil, or_false] at hx
  rcases hx with rfl | rfl
  · exact C105_box _ q
  · refine C105_mesh _ ⟨⟨[.addPoint ⟨0, 0, 0⟩, .addPoint ⟨1, 0, 0⟩, .addPoint ⟨0, 1, 0⟩, .addTriangle 0 1 2], rfl⟩, ?_⟩ q
    intro t ht
    simp only [Shape.setMesh, Mesh.addTriangle, Mesh.addPoint, Mesh.invalidateCache, Mesh.new, Shape.new, List.nil_append,
      List.mem_singleton] at ht ⊢
    subst ht
    norm_num

/-- C105 for octrees, partial: full statement: `Grows (t.intersectSphere p) (.ok (t.contains p))`; for radius 0 it is false, see
`C105_octree_wrong`. Proved: the test answers and keeps its hits when the sphere grows, for every history, for trees below 4000 km with at
most 2^29 cubes. -/
theorem C105_octree_partial (size : ℝ) (t : Octree) (h : OctReach size t) (hsize : size < 4000000)
    (hcount : t.getCubes.length ≤ 2 ^ 29) (p : Vec3) :
    (∀ r, ∃ b, t.intersectSphere p r = .ok b) ∧
      ∀ r r', r ≤ r' → t.intersectSphere p r = .ok true → t.intersectSphere p r' = .ok true := by
  obtain ⟨t', m, l, e1, -, e2, -⟩ := C41_mesh_partial size t h hsize hcount
  have : ∀ r, t.intersectSphere p r = sphereThen m (.ok (t.contains p)) p r := by
    intro r
    unfold Octree.intersectSphere sphereThen
    rw [e1]
    rfl
  simp only [this]
  exact sphereThen_grows e2 p ⟨_, rfl⟩

/-- C105 is false of octrees: a tree with one cube, from (-1, -1, -1) to (0, 0, 0), contains the point (-1.9, -1.9, -1.9) (see C37), but
the sphere of radius 0 about it, and even that of radius 1, does not meet the tree. -/
theorem C105_octree_wrong : ∃ t0 t, Octree.new 8 1 = .ok t0 ∧ t0.run [.add ⟨-0.5, -0.5, -0.5⟩] = .ok t ∧
    t.contains ⟨-1.9, -1.9, -1.9⟩ = true ∧ t.intersectSphere ⟨-1.9, -1.9, -1.9⟩ 0 = .ok false ∧
    t.intersectSphere ⟨-1.9, -1.9, -1.9⟩ 1 = .ok false := by
  obtain ⟨t0, t, h1, h2, h3, h3', h4, h5, -, h6⟩ := single (size := 8) (r := 1) 3 (by norm_num) (by norm_num)
    (by intro j hj; interval_cases j <;> norm_num) (by norm_num) ⟨-0.5, -0.5, -0.5⟩
  have i1 : OctNode.bugIdx 3 8 2.1 = 3 := by norm_num [OctNode.bugIdx]
  have i2 : axisIdx 3 8 3.5 = 3 := by norm_num [axisIdx]
  have e1 : (-1.9 - -8 / 2 : ℝ) = 2.1 := by norm_num
  have e2 : (-0.5 - -8 / 2 : ℝ) = 3.5 := by norm_num
  obtain ⟨cells, c1, c2, c3⟩ := Octree.good_shows h3
  have hcell : ∀ c ∈ cells, c = (3, 3, 3) := by
    intro c hc
    rw [c2, h6] at hc
    simpa only [OctNode.cellOf, Vec3.sub_x, e2, Vec3.sub_y, Vec3.sub_z, i2] using hc
  have hlen : cells.length ≤ 1 := by
    match cells, c1, hcell with
    | [], _, _ => simp
    | [_], _, _ => simp
    | a :: b :: l, c1, hcell =>
      have := hcell a (by simp)
      have := hcell b (by simp)
      simp_all
  obtain ⟨t', m, l, g1, -, g2, g3, -⟩ := C41_mesh_partial 8 t h4 (by norm_num) (by rw [c3, List.length_map]; omega)
  have hco : m.Coherent := by
    unfold Octree.getMesh at g1
    rw [h5, if_pos (by rfl)] at g1
    obtain ⟨m', k1, k2⟩ := (Exec.bind_ok).1 g1
    simp only [pure, Except.pure, Except.ok.injEq, Prod.mk.injEq] at k2
    rw [← k2.2]
    refine Mesh.coherent_step (o := .filter) ?_ k1
    generalize t.getCubes = bs
    induction bs using List.reverseRecOn with
    | nil => exact Mesh.coherent_new
    | append_singleton bs b ih =>
      rw [List.foldl_append]
      exact Mesh.coherent_invalidate _
  obtain ⟨r1, -, -⟩ := radius_eq hco (Mesh.sqMax_isRadius m.points)
  have hr : m.getMaxRadius.2 ≤ 2 := by
    rw [r1]
    rcases (Mesh.sqMax_isRadius m.points).2 with ⟨p, hp, e⟩ | ⟨-, e⟩
    · rw [← e]
      obtain ⟨b, hb, hpb⟩ := g3 p hp
      rw [c3] at hb
      obtain ⟨c, hc, rfl⟩ := List.mem_map.1 hb
      change p ∈ corners8 (cellLo t.resolution t.offset c) (cellHi t.resolution t.offset c) at hpb
      rw [hcell c hc, h3', h3.off] at hpb
      unfold Spec.dist
      rw [Real.sqrt_le_iff]
      refine ⟨by norm_num, ?_⟩
      simp only [corners8, cellLo, cellHi, List.mem_cons, List.not_mem_nil, or_false] at hpb
      rcases hpb with rfl | rfl | rfl | rfl | rfl | rfl | rfl | rfl <;> norm_num [distSq]
    · rw [e]; norm_num
  have hfar : ∀ r ≤ 1, t.intersectSphere ⟨-1.9, -1.9, -1.9⟩ r = .ok false := by
    intro r hr1
    unfold Octree.intersectSphere
    rw [g1]
    simp only [bind, Except.bind]
    rw [if_pos]
    · rfl
    · have : (3.2 : ℝ) < Vec3.length ⟨-1.9, -1.9, -1.9⟩ := by
        unfold Vec3.length
        rw [Real.lt_sqrt (by norm_num)]
        norm_num
      linarith
  refine ⟨t0, t, h1, h2, ?_, hfar 0 (by norm_num), hfar 1 le_rfl⟩
  rw [contains_eq h3 (by rw [h3.off, h3.max]; norm_num [InBox]), h6, h3.off]
  simp only [OctNode.bugCell, OctNode.cellOf, Vec3.sub_x, Vec3.sub_y, Vec3.sub_z, e1, e2, i1, i2]

/-- C105 case for octrees: the tree of the counterexample meets the hypotheses of `C105_octree_partial`. -/
example : ∃ t : Octree, OctReach 8 t ∧ (8 : ℝ) < 4000000 ∧ t.getCubes.length ≤ 2 ^ 29 ∧ t.getCubes ≠ [] := by
  obtain ⟨t0, t, h1, h2, h3, h3', h4, -, -, h6⟩ := single (size := 8) (r := 1) 3 (by norm_num) (by norm_num)
    (by intro j hj; interval_cases j <;> norm_num) (by norm_num) ⟨-0.5, -0.5, -0.5⟩
  obtain ⟨cells, c1, c2, c3⟩ := Octree.good_shows h3
  simp only [h6] at c2
  rw [List.perm_singleton.1 ((List.perm_ext_iff_of_nodup c1 (List.nodup_singleton _)).2 fun c => by rw [c2, List.mem_singleton])] at c3
  exact ⟨t, h4, by norm_num, by rw [c3]; norm_num, by rw [c3]; simp⟩

end Geo
