import Verif.Props.Containment
import Verif.Props.Composite
import Verif.Props.Shape
import Verif.Spec.Hull
import Verif.Lemmas.ClearCase
import Verif.Lemmas.Hull
import Verif.Lemmas.Volume

/-!
# Property theorems C114: a mesh answers for its convex hull and its bounding box only
-/

namespace Geo

open Spec

/-- C114 for closed meshes and probes in clear position. Full claim: without the conditions on the probe, which
`C114_wrong` refutes. -/
theorem C114_hull_partial (s : Shape) (hm : GoodMesh s.mesh) (hn : s.mesh.points.length ≤ 2 ^ 32)
    (hw : Watertight s.mesh.tris) (p : Vec3) (hp : ProbeClear s.mesh p) (h : s.contains p = .ok true) :
    InHull (cornersOf (trianglesOf s.mesh)) p := by
  by_contra hh
  obtain ⟨ts, r, hs, hr, hc, hv⟩ := hp
  have e : trianglesOf s.mesh = ts := by
    have := (good_soup hm).1
    rw [hs] at this
    exact (Option.some.inj this).symm
  rw [e] at hh
  rw [C19_closed_partial s hm.1 ts hs hn hw r hr p hc hv (escapes_of_not_hull hh)] at h
  simp at h

/-- C114 for triangle soups without shared corners and generic probes. Full claim: without the conditions on the probe. -/
theorem C114_generic_partial (s : Shape) (hm : Reachable s.mesh)
    (ts : List (Vec3 × Vec3 × Vec3)) (hs : soup s.mesh.points s.mesh.tris = some ts) (hcl : ClosedSoup ts)
    (r : ℝ) (hr : IsRadius s.mesh.points r) (p : Vec3)
    (hgen : ∀ t ∈ ts, ∀ e ∈ rim t, 1e-16 < |vol4 p ⟨1.1 * r, 0, 0⟩ e.1 e.2|)
    (hseg : ∀ t ∈ ts, side t p * side t ⟨1.1 * r, 0, 0⟩ ≤ 0 ∨
      1e-16 < side t p * side t ⟨1.1 * r, 0, 0⟩)
    (hfar : ∀ t ∈ ts, 1e-12 ≤
      |heron t.2.1 p t.2.2 + heron p t.1 t.2.2 + heron p t.1 t.2.1 - heron t.1 t.2.1 t.2.2|)
    (h : s.contains p = .ok true) : InHull (cornersOf ts) p := by
  by_contra hh
  rw [C19_generic_partial s hm ts hs hcl r hr p hgen hseg hfar (escapes_of_not_hull hh)] at h
  simp at h

/-- C114 for the bounding box of a shape after any history of `setMesh` and `getBoundingBox`, under the conditions of
`C114_hull_partial`. -/
theorem C114_bounding_box_partial (ops : List Shape.Op) (p : Vec3) :
    let s := ops.foldl Shape.step Shape.new
    GoodMesh s.mesh → s.mesh.points.length ≤ 2 ^ 32 → Watertight s.mesh.tris → ProbeClear s.mesh p →
      s.contains p = .ok true → InBox s.getBoundingBox.2.lo s.getBoundingBox.2.hi p := by
  intro s hm hn hw hp h
  refine (C114_hull_partial s hm hn hw p hp h).inBox fun x hx => (C17_bounding_box ops).1 x ?_
  obtain ⟨t, ht, hx⟩ := List.mem_flatMap.1 hx
  obtain ⟨h1, h2, h3⟩ := soup_corners_mem (good_soup hm).1 t ht
  simp only [List.mem_cons, List.not_mem_nil, or_false] at hx
  rcases hx with rfl | rfl | rfl
  · exact h1
  · exact h2
  · exact h3

/-- C114 for the sphere test of any mesh: a positive answer means that the centre is contained or that a point of the convex
hull is within the radius, up to the tolerances of C20. -/
theorem C114_sphere (s : Shape) (hm : GoodMesh s.mesh) (p : Vec3) (R : ℝ) (h : s.intersectSphere p R = .ok true) :
    s.contains p = .ok true ∨ ∃ x, InHull (cornersOf (trianglesOf s.mesh)) x ∧ ∃ t ∈ trianglesOf s.mesh, ∃ e ∈ rim t,
      distSq p x ≤ R ^ 2 * (1 + 1e-9) + 1e-18 * distSq e.1 e.2 := by
  rcases C20_sphere_sound s _ (good_soup hm).1 p R h with h | ⟨t, ht, x, hx, e, he, hd⟩
  · exact .inl h
  · exact .inr ⟨x, hull_inTri ht hx, t, ht, e, he, hd⟩

/-- C114 for composites of closed meshes: where the probes of all parts are clear, a composite contains a point exactly if some
part does; the test of the bounding box loses nothing. -/
theorem C114_composite_partial (l : List (Shape × Transform3)) (hm : ∀ x ∈ l, GoodMesh x.1.mesh)
    (hn : ∀ x ∈ l, x.1.mesh.points.length ≤ 2 ^ 32) (hw : ∀ x ∈ l, Watertight x.1.mesh.tris) (hr : ∀ x ∈ l, Rigid x.2) :
    ∃ c, Composite.build (l.map fun x => (x.1.toObj, x.2)) = .ok c ∧
      ∀ p, (∀ x ∈ l, ∀ q, x.2.apply q = p → ProbeClear x.1.mesh q) →
        ∃ b, c.contains p = .ok b ∧ (b = true ↔ ∃ x ∈ l, Posed x.2 (fun q => x.1.contains q = .ok true) p) := by
  have hm' : ∀ y ∈ l.map (fun x : Shape × Transform3 => (x.1.toObj, x.2)), GoodMesh y.1.mesh := by
    intro y hy
    obtain ⟨x, hx, rfl⟩ := List.mem_map.1 hy
    exact hm x hx
  obtain ⟨c, hc, h⟩ := C31_contains (l.map fun x => (x.1.toObj, x.2)) hm' (by
      intro y hy
      obtain ⟨x, hx, rfl⟩ := List.mem_map.1 hy
      exact hr x hx) (by
      intro y hy q R
      obtain ⟨x, hx, rfl⟩ := List.mem_map.1 hy
      have hs := (good_soup (hm x hx)).1
      have ht : ∃ b, x.1.contains q = .ok b := by
        unfold Shape.contains Shape.containsMesh
        split_ifs
        · exact ⟨_, rfl⟩
        · exact containsLoop_total hs _
      refine ⟨ht, ?_⟩
      show ∃ b, x.1.intersectSphere q R = .ok b
      unfold Shape.intersectSphere Shape.intersectSphereMesh
      split_ifs
      · exact ⟨_, rfl⟩
      · obtain ⟨b, hb, -⟩ := sphereLoop_true (p := q) (R2 := R * R) hs
        rw [hb]
        cases b
        · exact ht
        · exact ⟨_, rfl⟩
      all_goals exact ht)
  refine ⟨c, hc, fun p hp => ?_⟩
  obtain ⟨⟨b, hb, hbi⟩, -⟩ := h p 0
  refine ⟨b, hb, ?_⟩
  rw [hbi]
  constructor
  · rintro ⟨-, y, hy, hP⟩
    obtain ⟨x, hx, rfl⟩ := List.mem_map.1 hy
    exact ⟨x, hx, hP⟩
  · rintro ⟨x, hx, q, rfl, hq⟩
    have hy : (x.1.toObj, x.2) ∈ l.map (fun x : Shape × Transform3 => (x.1.toObj, x.2)) := List.mem_map.2 ⟨x, hx, rfl⟩
    refine ⟨?_, _, hy, q, rfl, hq⟩
    obtain ⟨hin, -⟩ := Composite.bb_eq hm' hc
    apply ((C114_hull_partial x.1 (hm x hx) (hn x hx) (hw x hx) q (hp x hx q rfl) hq).apply x.2).inBox
    intro v hv
    apply hin
    obtain ⟨z, hz, rfl⟩ := List.mem_map.1 hv
    obtain ⟨t, ht, hz⟩ := List.mem_flatMap.1 hz
    unfold posedTriangles
    simp only [cornersOf, List.mem_flatMap]
    refine ⟨_, ⟨_, hy, List.mem_map.2 ⟨t, ht, rfl⟩⟩, ?_⟩
    simp only [List.mem_cons, List.not_mem_nil, or_false] at hz ⊢
    rcases hz with rfl | rfl | rfl <;> simp

/-- C114 fails: the mesh of the box from (0, 0, 0) to (1, 2, 2) contains (1.5, 1, 0), which is outside its bounding box, and a
composite that holds just this mesh does not contain it. -/
theorem C114_wrong : ∃ (s : Shape) (p : Vec3), GoodMesh s.mesh ∧ Watertight s.mesh.tris ∧ s.contains p = .ok true ∧
    ¬ InBox s.getBoundingBox.2.lo s.getBoundingBox.2.hi p ∧ ¬ InHull (cornersOf (trianglesOf s.mesh)) p ∧
    ∃ c, Composite.build [(s.toObj, Transform3.identity)] = .ok c ∧ c.contains p = .ok false := by
  obtain ⟨h1, h2, h3⟩ := C19_coplanar_wrong
  have hpts : (Box.new ⟨0, 0, 0⟩ ⟨1, 2, 2⟩).mesh.points = corners8 ⟨0, 0, 0⟩ ⟨1, 2, 2⟩ :=
    (generateMesh_points ⟨_, _, Mesh.new⟩).2.2
  have hin : ∀ p ∈ corners8 ⟨0, 0, 0⟩ ⟨1, 2, 2⟩, InBox ⟨0, 0, 0⟩ ⟨1, 2, 2⟩ p := by
    intro p hp
    simp only [corners8, List.mem_cons, List.not_mem_nil, or_false] at hp
    rcases hp with rfl | rfl | rfl | rfl | rfl | rfl | rfl | rfl <;> norm_num [InBox]
  have hcor : ∀ x ∈ cornersOf (trianglesOf (Box.new ⟨0, 0, 0⟩ ⟨1, 2, 2⟩).mesh), InBox ⟨0, 0, 0⟩ ⟨1, 2, 2⟩ x :=
    fun x hx => hin x ((box_trianglesOf _ _ x).1 hx)
  have hg := box_good ⟨0, 0, 0⟩ ⟨1, 2, 2⟩
  refine ⟨[Shape.Op.setMesh (Box.new ⟨0, 0, 0⟩ ⟨1, 2, 2⟩).mesh].foldl Shape.step Shape.new, ⟨1.5, 1, 0⟩, hg, h1, h2, ?_, ?_, ?_⟩
  · intro hb
    obtain ⟨-, hmin, -⟩ := C17_bounding_box [Shape.Op.setMesh (Box.new ⟨0, 0, 0⟩ ⟨1, 2, 2⟩).mesh]
    have hm : ([Shape.Op.setMesh (Box.new ⟨0, 0, 0⟩ ⟨1, 2, 2⟩).mesh].foldl Shape.step Shape.new).mesh.points =
      corners8 ⟨0, 0, 0⟩ ⟨1, 2, 2⟩ := hpts
    rw [hm] at hmin
    have := (hmin (by simp [corners8]) (by
      intro p hp
      simp only [corners8, List.mem_cons, List.not_mem_nil, or_false] at hp
      rcases hp with rfl | rfl | rfl | rfl | rfl | rfl | rfl | rfl <;> norm_num) _ _ hin).2.2.1
    have h5 := hb.2.1.trans this
    norm_num at h5
  · intro hh
    exact h3 (hh.inBox hcor)
  · have hid : ∀ v, Transform3.identity.apply v = v := by
      intro v; ext <;> simp [Transform3.identity, Transform3.apply, Mat3.identity, Mat3.mulVec]
    have hp : ∀ x ∈ cornersOf (posedTriangles
        [((⟨(Box.new ⟨0, 0, 0⟩ ⟨1, 2, 2⟩).mesh, false, 0, 0⟩ : Shape).toObj, Transform3.identity)]),
        x ∈ corners8 ⟨0, 0, 0⟩ ⟨1, 2, 2⟩ := by
      intro x hx
      refine (box_trianglesOf _ _ x).1 ?_
      simpa [posedTriangles, hid, Shape.toObj, Shape.getMesh] using hx
    have hne : cornersOf (posedTriangles
        [((⟨(Box.new ⟨0, 0, 0⟩ ⟨1, 2, 2⟩).mesh, false, 0, 0⟩ : Shape).toObj, Transform3.identity)]) ≠ [] := by
      intro he
      have : (⟨0, 0, 0⟩ : Vec3) ∈ cornersOf (trianglesOf (Box.new ⟨0, 0, 0⟩ ⟨1, 2, 2⟩).mesh) :=
        (box_trianglesOf _ _ _).2 (by simp [corners8])
      have e2 : cornersOf (trianglesOf (Box.new ⟨0, 0, 0⟩ ⟨1, 2, 2⟩).mesh) = [] := by
        simpa [posedTriangles, hid, Shape.toObj, Shape.getMesh] using he
      rw [e2] at this
      simp at this
    obtain ⟨c, hc, -, -, -, hmin⟩ := C33_aggregates
      [((⟨(Box.new ⟨0, 0, 0⟩ ⟨1, 2, 2⟩).mesh, false, 0, 0⟩ : Shape).toObj, Transform3.identity)]
      (by intro x hx; rw [List.mem_singleton.1 hx]; exact hg)
      (by
        show (Box.new ⟨0, 0, 0⟩ ⟨1, 2, 2⟩).mesh.points.length + 0 ≤ 2 ^ 32
        rw [hpts]; simp [corners8])
    refine ⟨c, hc, ?_⟩
    have := (hmin hne (by
      intro p hp'
      have hp := hp p hp'
      simp only [corners8, List.mem_cons, List.not_mem_nil, or_false] at hp
      rcases hp with rfl | rfl | rfl | rfl | rfl | rfl | rfl | rfl <;> norm_num) _ _ (fun x hx => hin x (hp x hx))).2.2.1
    unfold Composite.contains
    rw [if_pos]
    simp only [Composite.getBoundingBox] at this
    simp only [Box.contains, Bool.not_eq_true', decide_eq_false_iff_not]
    rintro ⟨-, h5, -⟩
    norm_num at h5 this
    linarith

/-- C114 case: the tetrahedron contains the origin, and its probe is clear. -/
example : GoodMesh tetraMesh ∧ tetraMesh.points.length ≤ 2 ^ 32 ∧ Watertight tetraMesh.tris ∧ ProbeClear tetraMesh ⟨0, 0, 0⟩ ∧
    (⟨tetraMesh, false, 0, 0⟩ : Shape).contains ⟨0, 0, 0⟩ = .ok true := by
  have hz : ∀ x ∈ tetraMesh.tris.zip tetraTs, x.2 ∈ tetraTs := fun x hx =>
    (List.of_mem_zip (a := x.1) (b := x.2) hx).2
  have hw : Watertight tetraMesh.tris := by unfold Watertight edges tetraMesh; decide
  have hs : soup tetraMesh.points tetraMesh.tris = some tetraTs := rfl
  refine ⟨⟨tetra_reachable, Mesh.valid_of_soup hs⟩, by simp [tetraMesh], hw, ⟨tetraTs, 3, hs, tetra_radius,
    fun t ht => (tetra_in t ht).1, fun x hx i => (tetra_in x.2 (hz x hx)).2.1 x.1 i⟩, ?_⟩
  refine C86_convex_partial ⟨tetraMesh, false, 0, 0⟩ tetra_reachable tetraTs rfl (by simp [tetraMesh]) hw tetra_convex
      tetra_face 3 tetra_radius _ (fun t ht => (tetra_in t ht).1)
      (fun x hx i => (tetra_in x.2 (hz x hx)).2.1 x.1 i) ?_
  intro t ht
  simp only [tetraTs, List.mem_cons, List.not_mem_nil, or_false] at ht
  rcases ht with rfl | rfl | rfl | rfl <;> simp only [side] <;> norm_num

/-- C114 case for composites: the tetrahedron moved by (5, 0, 0), asked at its centre. -/
example : Rigid ⟨Mat3.identity, ⟨5, 0, 0⟩⟩ ∧
    ∀ q, (⟨Mat3.identity, ⟨5, 0, 0⟩⟩ : Transform3).apply q = ⟨5, 0, 0⟩ → ProbeClear tetraMesh q := by
  constructor
  · unfold Rigid; rw [orth_iff]; norm_num [Mat3.identity]
  · intro q hq
    have hz : ∀ x ∈ tetraMesh.tris.zip tetraTs, x.2 ∈ tetraTs := fun x hx =>
      (List.of_mem_zip (a := x.1) (b := x.2) hx).2
    have hq0 : q = ⟨0, 0, 0⟩ := by
      have hx := congrArg Vec3.x hq
      have hy := congrArg Vec3.y hq
      have hz := congrArg Vec3.z hq
      simp [Transform3.apply, Mat3.identity, Mat3.mulVec] at hx hy hz
      ext
      · exact hx
      · exact hy
      · exact hz
    subst hq0
    exact ⟨tetraTs, 3, rfl, tetra_radius, fun t ht => (tetra_in t ht).1, fun x hx i => (tetra_in x.2 (hz x hx)).2.1 x.1 i⟩

/-- C114 case for the sphere test: a sphere around a corner of the tetrahedron. -/
example : (⟨tetraMesh, false, 0, 0⟩ : Shape).intersectSphere ⟨2, 2, 1.5⟩ 1 = .ok true := by
  refine C21_sphere_complete_partial ⟨tetraMesh, false, 0, 0⟩ tetra_reachable tetraTs rfl _ 1 one_pos
    (⟨2, 2, 1⟩, ⟨1, -2, 2⟩, ⟨-1, -2, -2⟩) (by simp [tetraTs]) ⟨2, 2, 1⟩ ?_ ?_ (.inr ?_)
  · exact ⟨1, 0, 0, by norm_num, by norm_num, by norm_num, by norm_num, by ext <;> norm_num⟩
  · rw [Spec.dist, Real.sqrt_lt' one_pos]; norm_num [distSq]
  · exact ⟨1, 0, 0, by norm_num, by norm_num, by norm_num, by norm_num, .inr (.inl rfl), by ext <;> norm_num⟩

end Geo
