import Verif.Lemmas.ClearCase
import Verif.Props.Shape

/-!
# Points inside and outside closed meshes (C19, C86)
-/

namespace Geo

open Spec

/-- C19: (5) a closed mesh, in which every edge belongs to two triangles that run through it in opposite
directions, and a probe in clear position that meets no vertex: `contains` is false for every point from
which a path leads outside without touching the mesh. The mesh need not be convex or connected. Not
covered are probes within tolerance of a triangle's plane or edges and probes through a vertex, for which
the claim fails (`C19_coplanar_wrong`, `C19_vertex_wrong`). -/
theorem C19_closed_partial (s : Shape) (hm : Reachable s.mesh)
    (ts : List (Vec3 × Vec3 × Vec3)) (hs : soup s.mesh.points s.mesh.tris = some ts)
    (hn : s.mesh.points.length ≤ 2 ^ 32) (hw : Watertight s.mesh.tris)
    (r : ℝ) (hr : IsRadius s.mesh.points r) (p : Vec3)
    (hc : ∀ t ∈ ts, Clear p ⟨1.1 * r, 0, 0⟩ t)
    (hv : ∀ x ∈ s.mesh.tris.zip ts, ∀ i, contact p ⟨1.1 * r, 0, 0⟩ x ≠ some (.vertex i)) :
    Escapes ts p → s.contains p = .ok false := by
  intro h
  by_cases hp : Spec.dist p ⟨0, 0, 0⟩ ≤ r
  · have hoff : ∀ t ∈ ts, ¬ InTri t p := fun t ht => off_of_heron (hc t ht).offFace
    have hnz := fun t ht => not_all_zero (hc t ht).transversal
    have hfar := far_end hs hr hp hoff
    obtain ⟨hsound, htot⟩ := total_weight ((Mesh.soup_some.1 hs).length_eq).symm hoff
      (fun t ht => off_far (hfar t ht)) hnz hv
    rw [C19_shared_edges_partial s hm ts hs hn r hr p hp hc hv
      (fun x hx e he => headings_two hs hw hnz hx he), htot,
      total_outside (watertight_closed hs hw) hsound rfl rfl hfar h]
    rfl
  · exact C19_beyond_partial s hm r hr p (not_le.1 hp)

/-- C86 (full statement refuted by `C86_vertex_wrong`): with the same conditions on mesh and probe,
`contains` is true for every point from which a path leads to the inner side of a triangle with the outside
behind it. -/
theorem C86_closed_partial (s : Shape) (hm : Reachable s.mesh)
    (ts : List (Vec3 × Vec3 × Vec3)) (hs : soup s.mesh.points s.mesh.tris = some ts)
    (hn : s.mesh.points.length ≤ 2 ^ 32) (hw : Watertight s.mesh.tris)
    (r : ℝ) (hr : IsRadius s.mesh.points r) (p : Vec3)
    (hc : ∀ t ∈ ts, Clear p ⟨1.1 * r, 0, 0⟩ t)
    (hv : ∀ x ∈ s.mesh.tris.zip ts, ∀ i, contact p ⟨1.1 * r, 0, 0⟩ x ≠ some (.vertex i)) :
    Enclosed ts p → s.contains p = .ok true := by
  intro h
  have hoff : ∀ t ∈ ts, ¬ InTri t p := fun t ht => off_of_heron (hc t ht).offFace
  have hnz := fun t ht => not_all_zero (hc t ht).transversal
  have hcl := watertight_closed hs hw
  have hfar := far_pos hs hr (enclosed_pos hs hr h)
  obtain ⟨hsound, htot⟩ := total_weight ((Mesh.soup_some.1 hs).length_eq).symm hoff
    (fun t ht => off_far (hfar t ht)) hnz hv
  rw [C19_shared_edges_partial s hm ts hs hn r hr p (enclosed_near hs hr hcl hoff hsound h) hc hv
    (fun x hx e he => headings_two hs hw hnz hx he), htot, total_inside hcl hsound rfl rfl hfar h]
  rfl

/-- C19: (6) the same for every triangle soup whose directed edges cancel, with edges shared by any number
of triangles, when the probe is in general position. -/
theorem C19_generic_partial (s : Shape) (hm : Reachable s.mesh)
    (ts : List (Vec3 × Vec3 × Vec3)) (hs : soup s.mesh.points s.mesh.tris = some ts) (hcl : ClosedSoup ts)
    (r : ℝ) (hr : IsRadius s.mesh.points r) (p : Vec3)
    (hgen : ∀ t ∈ ts, ∀ e ∈ rim t, 1e-16 < |vol4 p ⟨1.1 * r, 0, 0⟩ e.1 e.2|)
    (hseg : ∀ t ∈ ts, side t p * side t ⟨1.1 * r, 0, 0⟩ ≤ 0 ∨
      1e-16 < side t p * side t ⟨1.1 * r, 0, 0⟩)
    (hfar : ∀ t ∈ ts, 1e-12 ≤
      |heron t.2.1 p t.2.2 + heron p t.1 t.2.2 + heron p t.1 t.2.1 - heron t.1 t.2.1 t.2.2|) :
    Escapes ts p → s.contains p = .ok false := by
  intro h
  by_cases hp : Spec.dist p ⟨0, 0, 0⟩ ≤ r
  · have hoff : ∀ t ∈ ts, ¬ InTri t p := fun t ht => off_of_heron (hfar t ht)
    have hend := far_end hs hr hp hoff
    obtain ⟨hsound, htot⟩ := total_crossing hoff (fun t ht => off_far (hend t ht))
      (fun t ht e he => ne_zero_of_tolerance (hgen t ht e he))
    rw [total_outside hcl hsound rfl rfl hend h] at htot
    have : (ts.map (crossing p ⟨1.1 * r, 0, 0⟩)).sum = 0 := by omega
    rw [C19_crossing_number_partial s hm ts hs r hr p hp hgen hseg hfar, this]; rfl
  · exact C19_beyond_partial s hm r hr p (not_le.1 hp)

/-- C86: the same for every triangle soup whose directed edges cancel, when the probe is in general
position. -/
theorem C86_generic_partial (s : Shape) (hm : Reachable s.mesh)
    (ts : List (Vec3 × Vec3 × Vec3)) (hs : soup s.mesh.points s.mesh.tris = some ts) (hcl : ClosedSoup ts)
    (r : ℝ) (hr : IsRadius s.mesh.points r) (p : Vec3)
    (hgen : ∀ t ∈ ts, ∀ e ∈ rim t, 1e-16 < |vol4 p ⟨1.1 * r, 0, 0⟩ e.1 e.2|)
    (hseg : ∀ t ∈ ts, side t p * side t ⟨1.1 * r, 0, 0⟩ ≤ 0 ∨
      1e-16 < side t p * side t ⟨1.1 * r, 0, 0⟩)
    (hfar : ∀ t ∈ ts, 1e-12 ≤
      |heron t.2.1 p t.2.2 + heron p t.1 t.2.2 + heron p t.1 t.2.1 - heron t.1 t.2.1 t.2.2|) :
    Enclosed ts p → s.contains p = .ok true := by
  intro h
  have hoff : ∀ t ∈ ts, ¬ InTri t p := fun t ht => off_of_heron (hfar t ht)
  have hend := far_pos hs hr (enclosed_pos hs hr h)
  obtain ⟨hsound, htot⟩ := total_crossing hoff (fun t ht => off_far (hend t ht))
    (fun t ht e he => ne_zero_of_tolerance (hgen t ht e he))
  rw [total_inside hcl hsound rfl rfl hend h] at htot
  have : (ts.map (crossing p ⟨1.1 * r, 0, 0⟩)).sum = 1 := by omega
  rw [C19_crossing_number_partial s hm ts hs r hr p (enclosed_near hs hr hcl hoff hsound h)
    hgen hseg hfar, this]; rfl

/-- C19: (7) two points joined by a path off the mesh get the same answer. -/
theorem C19_component_partial (s : Shape) (hm : Reachable s.mesh)
    (ts : List (Vec3 × Vec3 × Vec3)) (hs : soup s.mesh.points s.mesh.tris = some ts)
    (hn : s.mesh.points.length ≤ 2 ^ 32) (hw : Watertight s.mesh.tris)
    (r : ℝ) (hr : IsRadius s.mesh.points r) (p p' : Vec3)
    (hp : Spec.dist p ⟨0, 0, 0⟩ ≤ r) (hp' : Spec.dist p' ⟨0, 0, 0⟩ ≤ r)
    (hc : ∀ t ∈ ts, Clear p ⟨1.1 * r, 0, 0⟩ t) (hc' : ∀ t ∈ ts, Clear p' ⟨1.1 * r, 0, 0⟩ t)
    (hv : ∀ x ∈ s.mesh.tris.zip ts, ∀ i, contact p ⟨1.1 * r, 0, 0⟩ x ≠ some (.vertex i))
    (hv' : ∀ x ∈ s.mesh.tris.zip ts, ∀ i, contact p' ⟨1.1 * r, 0, 0⟩ x ≠ some (.vertex i))
    (hj : Joined ts p p') : s.contains p = s.contains p' := by
  have hoff : ∀ t ∈ ts, ¬ InTri t p := fun t ht => off_of_heron (hc t ht).offFace
  have hoff' : ∀ t ∈ ts, ¬ InTri t p' := fun t ht => off_of_heron (hc' t ht).offFace
  have hfar := far_end hs hr hp hoff
  have hq : ∀ t ∈ ts, ¬ InTri t ⟨1.1 * r, 0, 0⟩ := fun t ht => off_far (hfar t ht)
  have hnz := fun t ht => not_all_zero (hc t ht).transversal
  have hnz' := fun t ht => not_all_zero (hc' t ht).transversal
  have hcl := watertight_closed hs hw
  have hlen := ((Mesh.soup_some.1 hs).length_eq).symm
  obtain ⟨hsound, htot⟩ := total_weight hlen hoff hq hnz hv
  obtain ⟨hsound', htot'⟩ := total_weight hlen hoff' hq hnz' hv'
  rw [C19_shared_edges_partial s hm ts hs hn r hr p hp hc hv
      (fun x hx e he => headings_two hs hw hnz hx he), htot,
    C19_shared_edges_partial s hm ts hs hn r hr p' hp' hc' hv'
      (fun x hx e he => headings_two hs hw hnz' hx he), htot', total_joined hcl hq hsound hsound' hj]

/-- C19: (8) a closed convex mesh: `contains` is false for every point strictly on the outer side of a
triangle. -/
theorem C19_convex_partial (s : Shape) (hm : Reachable s.mesh)
    (ts : List (Vec3 × Vec3 × Vec3)) (hs : soup s.mesh.points s.mesh.tris = some ts)
    (hn : s.mesh.points.length ≤ 2 ^ 32) (hw : Watertight s.mesh.tris) (hcv : ConvexSoup ts)
    (r : ℝ) (hr : IsRadius s.mesh.points r) (p : Vec3)
    (hc : ∀ t ∈ ts, Clear p ⟨1.1 * r, 0, 0⟩ t)
    (hv : ∀ x ∈ s.mesh.tris.zip ts, ∀ i, contact p ⟨1.1 * r, 0, 0⟩ x ≠ some (.vertex i)) :
    (∃ t ∈ ts, 0 < side t p) → s.contains p = .ok false := fun ⟨t, ht, hp⟩ =>
  C19_closed_partial s hm ts hs hn hw r hr p hc hv (escapes_side (hcv t ht) hp)

/-- C86: a closed convex mesh: `contains` is true for every point strictly on the inner side of all
triangles. -/
theorem C86_convex_partial (s : Shape) (hm : Reachable s.mesh)
    (ts : List (Vec3 × Vec3 × Vec3)) (hs : soup s.mesh.points s.mesh.tris = some ts)
    (hn : s.mesh.points.length ≤ 2 ^ 32) (hw : Watertight s.mesh.tris) (hcv : ConvexSoup ts)
    (hf : HasFace ts) (r : ℝ) (hr : IsRadius s.mesh.points r) (p : Vec3)
    (hc : ∀ t ∈ ts, Clear p ⟨1.1 * r, 0, 0⟩ t)
    (hv : ∀ x ∈ s.mesh.tris.zip ts, ∀ i, contact p ⟨1.1 * r, 0, 0⟩ x ≠ some (.vertex i)) :
    (∀ t ∈ ts, side t p < 0) → s.contains p = .ok true := fun hp =>
  C86_closed_partial s hm ts hs hn hw r hr p hc hv (enclosed_convex hcv hf hp)

/-- C19: (9) the mesh of a box with positive extents: `contains` is false for every point not in the box, for
probes in clear position that meet no corner of the box. -/
theorem C19_box_partial (lo hi : Vec3) (h1 : lo.x < hi.x) (h2 : lo.y < hi.y) (h3 : lo.z < hi.z)
    (ts : List (Vec3 × Vec3 × Vec3))
    (hs : soup (Box.new lo hi).mesh.points (Box.new lo hi).mesh.tris = some ts)
    (s : Shape) (hb : s.mesh = (Box.new lo hi).mesh)
    (r : ℝ) (hr : IsRadius (Box.new lo hi).mesh.points r) (p : Vec3)
    (hc : ∀ t ∈ ts, Clear p ⟨1.1 * r, 0, 0⟩ t)
    (hv : ∀ x ∈ (Box.new lo hi).mesh.tris.zip ts, ∀ i, contact p ⟨1.1 * r, 0, 0⟩ x ≠ some (.vertex i)) :
    ¬ InBox lo hi p → s.contains p = .ok false := by
  intro hp
  obtain ⟨hw, l, hl, hin, -⟩ := C30_mesh_partial lo hi ⟨h1.le, h2.le, h3.le⟩
  have el : l = ts := by rw [hs] at hl; exact (Option.some.inj hl).symm
  rw [el] at hin
  have hcv : ConvexSoup ts := fun t ht t' ht' v hv =>
    hin t ht v (box_corner_in h1 h2 h3 v (soup_corner_mem hs t' ht' v hv))
  exact C19_convex_partial s (hb ▸ box_reachable lo hi) ts (hb ▸ hs) (hb ▸ box_small lo hi) (hb ▸ hw) hcv r
    (hb ▸ hr) p hc (hb ▸ hv) (box_outer h1 h2 h3 hs hp)

/-- C86: the mesh of a box with positive extents: `contains` is true for every point strictly in the box, for
probes in clear position that meet no corner of the box. -/
theorem C86_box_partial (lo hi : Vec3) (h1 : lo.x < hi.x) (h2 : lo.y < hi.y) (h3 : lo.z < hi.z)
    (ts : List (Vec3 × Vec3 × Vec3))
    (hs : soup (Box.new lo hi).mesh.points (Box.new lo hi).mesh.tris = some ts)
    (s : Shape) (hb : s.mesh = (Box.new lo hi).mesh)
    (r : ℝ) (hr : IsRadius (Box.new lo hi).mesh.points r) (p : Vec3)
    (hc : ∀ t ∈ ts, Clear p ⟨1.1 * r, 0, 0⟩ t)
    (hv : ∀ x ∈ (Box.new lo hi).mesh.tris.zip ts, ∀ i, contact p ⟨1.1 * r, 0, 0⟩ x ≠ some (.vertex i)) :
    lo.x < p.x ∧ p.x < hi.x ∧ lo.y < p.y ∧ p.y < hi.y ∧ lo.z < p.z ∧ p.z < hi.z →
      s.contains p = .ok true := by
  rintro ⟨q1, q2, q3, q4, q5, q6⟩
  obtain ⟨hw, l, hl, hin, -⟩ := C30_mesh_partial lo hi ⟨h1.le, h2.le, h3.le⟩
  have el : l = ts := by rw [hs] at hl; exact (Option.some.inj hl).symm
  rw [el] at hin
  have hcv : ConvexSoup ts := fun t ht t' ht' v hv =>
    hin t ht v (box_corner_in h1 h2 h3 v (soup_corner_mem hs t' ht' v hv))
  exact C86_convex_partial s (hb ▸ box_reachable lo hi) ts (hb ▸ hs) (hb ▸ box_small lo hi) (hb ▸ hw) hcv
    (box_face h1 h2 h3 hs) r (hb ▸ hr) p hc (hb ▸ hv) (box_inner h1 h2 h3 hs q1 q2 q3 q4 q5 q6)

/-! Cases: a tetrahedron and a box with corners at distance 3 from the origin. The probe from (-1, -1, 1)
enters the tetrahedron and leaves it again; the probe from (-1.5, 0.4, -0.5) does the same with the box. -/

/-- C19 and C86 cases for closed and convex meshes. -/
example : (⟨tetraMesh, false, 0, 0⟩ : Shape).contains ⟨-1, -1, 1⟩ = .ok false ∧
    (⟨tetraMesh, false, 0, 0⟩ : Shape).contains ⟨0, 0, 0⟩ = .ok true := by
  have hz : ∀ x ∈ tetraMesh.tris.zip tetraTs, x.2 ∈ tetraTs := fun x hx =>
    (List.of_mem_zip (a := x.1) (b := x.2) hx).2
  have hw : Watertight tetraMesh.tris := by unfold Watertight edges tetraMesh; decide
  have hlen : tetraMesh.points.length ≤ 2 ^ 32 := by simp [tetraMesh]
  constructor
  · refine C19_closed_partial ⟨tetraMesh, false, 0, 0⟩ tetra_reachable tetraTs rfl hlen hw 3 tetra_radius _
      (fun t ht => (tetra_out t ht).1) (fun x hx i => (tetra_out x.2 (hz x hx)).2.1 x.1 i) ?_
    exact escapes_side (t := (⟨-2, 1, 2⟩, ⟨-1, -2, -2⟩, ⟨1, -2, 2⟩))
      (tetra_convex _ (by simp [tetraTs])) (by simp only [side]; norm_num)
  · refine C86_convex_partial ⟨tetraMesh, false, 0, 0⟩ tetra_reachable tetraTs rfl hlen hw tetra_convex
      tetra_face 3 tetra_radius _ (fun t ht => (tetra_in t ht).1)
      (fun x hx i => (tetra_in x.2 (hz x hx)).2.1 x.1 i) ?_
    intro t ht
    simp only [tetraTs, List.mem_cons, List.not_mem_nil, or_false] at ht
    rcases ht with rfl | rfl | rfl | rfl <;> simp only [side] <;> norm_num

/-- C19 case for the generic probe. -/
example : (⟨tetraMesh, false, 0, 0⟩ : Shape).contains ⟨-1, -1, 1⟩ = .ok false := by
  have hw : Watertight tetraMesh.tris := by unfold Watertight edges tetraMesh; decide
  exact C19_generic_partial ⟨tetraMesh, false, 0, 0⟩ tetra_reachable tetraTs rfl
    (watertight_closed (ps := tetraMesh.points) rfl hw) 3 tetra_radius _ (fun t ht => (tetra_out t ht).2.2)
    (fun t ht => (tetra_out t ht).1.sides) (fun t ht => (tetra_out t ht).1.offFace)
    (escapes_side (t := (⟨-2, 1, 2⟩, ⟨-1, -2, -2⟩, ⟨1, -2, 2⟩)) (tetra_convex _ (by simp [tetraTs]))
      (by simp only [side]; norm_num))

/-- C19 case for joined points: both get the same answer. -/
example : (⟨tetraMesh, false, 0, 0⟩ : Shape).contains ⟨0, 0, 0⟩ =
    (⟨tetraMesh, false, 0, 0⟩ : Shape).contains ⟨1 / 10, 1 / 5, 3 / 10⟩ := by
  have hz : ∀ x ∈ tetraMesh.tris.zip tetraTs, x.2 ∈ tetraTs := fun x hx =>
    (List.of_mem_zip (a := x.1) (b := x.2) hx).2
  have hw : Watertight tetraMesh.tris := by unfold Watertight edges tetraMesh; decide
  refine C19_component_partial ⟨tetraMesh, false, 0, 0⟩ tetra_reachable tetraTs rfl (by simp [tetraMesh]) hw 3
    tetra_radius _ _ ?_ ?_ (fun t ht => (tetra_in t ht).1) (fun t ht => (tetra_in' t ht).1)
    (fun x hx i => (tetra_in x.2 (hz x hx)).2.1 x.1 i) (fun x hx i => (tetra_in' x.2 (hz x hx)).2.1 x.1 i)
    (joined_seg ?_)
  · rw [Spec.dist, Real.sqrt_le_left (by norm_num)]; norm_num [distSq]
  · rw [Spec.dist, Real.sqrt_le_left (by norm_num)]; norm_num [distSq]
  · intro s h0 h1 t ht h
    have := inTri_side h
    simp only [tetraTs, List.mem_cons, List.not_mem_nil, or_false] at ht
    rcases ht with rfl | rfl | rfl | rfl <;> simp only [side, lerp] at this <;> linarith

/-- C19 and C86 cases for a box. -/
example : (⟨(Box.new ⟨-1, -2, -2⟩ ⟨1, 2, 2⟩).mesh, false, 0, 0⟩ : Shape).contains ⟨-3 / 2, 2 / 5, -1 / 2⟩ =
      .ok false ∧
    (⟨(Box.new ⟨-1, -2, -2⟩ ⟨1, 2, 2⟩).mesh, false, 0, 0⟩ : Shape).contains ⟨3 / 10, 2 / 5, -1 / 2⟩ =
      .ok true := by
  have hs : soup (Box.new ⟨-1, -2, -2⟩ ⟨1, 2, 2⟩).mesh.points (Box.new ⟨-1, -2, -2⟩ ⟨1, 2, 2⟩).mesh.tris =
      some boxTs := by rw [box_soup]; rfl
  have hr : IsRadius (Box.new ⟨-1, -2, -2⟩ ⟨1, 2, 2⟩).mesh.points 3 := by
    rw [show (Box.new ⟨-1, -2, -2⟩ ⟨1, 2, 2⟩).mesh.points = corners8 ⟨-1, -2, -2⟩ ⟨1, 2, 2⟩ from
      (generateMesh_points ⟨_, _, Mesh.new⟩).2.2]
    have e9 : Real.sqrt 9 = 3 := by rw [show (9:ℝ) = 3 ^ 2 by norm_num]; exact Real.sqrt_sq (by norm_num)
    constructor
    · intro p hp
      rw [Spec.dist, Real.sqrt_le_left (by norm_num)]
      simp only [corners8, List.mem_cons, List.not_mem_nil, or_false] at hp
      rcases hp with rfl | rfl | rfl | rfl | rfl | rfl | rfl | rfl <;> simp only [distSq] <;> norm_num
    · left
      refine ⟨⟨1, 2, 2⟩, by simp [corners8], ?_⟩
      rw [← e9, Spec.dist]; congr 1; simp only [distSq]; norm_num
  have hz : ∀ x ∈ (Box.new ⟨-1, -2, -2⟩ ⟨1, 2, 2⟩).mesh.tris.zip boxTs, x.2 ∈ boxTs := fun x hx =>
    (List.of_mem_zip (a := x.1) (b := x.2) hx).2
  constructor
  · refine C19_box_partial ⟨-1, -2, -2⟩ ⟨1, 2, 2⟩ (by norm_num) (by norm_num) (by norm_num) boxTs hs
      ⟨_, false, 0, 0⟩ rfl 3 hr _ (fun t ht => (box_out t ht).1) (fun x hx i => (box_out x.2 (hz x hx)).2.1 x.1 i) ?_
    rintro ⟨h, -⟩
    norm_num at h
  · refine C86_box_partial ⟨-1, -2, -2⟩ ⟨1, 2, 2⟩ (by norm_num) (by norm_num) (by norm_num) boxTs hs
      ⟨_, false, 0, 0⟩ rfl 3 hr _ (fun t ht => (box_in t ht).1) (fun x hx i => (box_in x.2 (hz x hx)).2.1 x.1 i) ?_
    norm_num

/-! ## C86: a probe through a vertex -/

/-- C86: the code violates the claim for a probe through a vertex, and its answer depends on the order of the
triangles. The mesh below is a large tetrahedron with a tetrahedral cavity; the probe from (-1, 0, 0), a
point of the solid, passes through a corner of the cavity. In one order of the triangles the point is
reported as not contained, in another as contained. -/
theorem C86_vertex_wrong :
    let pts : List Vec3 := [⟨20, 20, 10⟩, ⟨-20, 10, 20⟩, ⟨10, -20, 20⟩, ⟨-10, -20, -20⟩,
      ⟨1, 0, 0⟩, ⟨-2, -2, 1⟩, ⟨0, -1, 0⟩, ⟨0, 0, -1⟩]
    let p : Vec3 := ⟨-1, 0, 0⟩
    let tris : List TriI := [⟨4, 5, 7⟩, ⟨4, 6, 5⟩, ⟨4, 7, 6⟩, ⟨5, 6, 7⟩, ⟨0, 1, 2⟩, ⟨0, 3, 1⟩, ⟨0, 2, 3⟩,
      ⟨1, 3, 2⟩]
    let tris' : List TriI := [⟨4, 6, 5⟩, ⟨4, 7, 6⟩, ⟨4, 5, 7⟩, ⟨5, 6, 7⟩, ⟨0, 1, 2⟩, ⟨0, 3, 1⟩, ⟨0, 2, 3⟩,
      ⟨1, 3, 2⟩]
    Watertight tris ∧ tris.Perm tris' ∧ (∃ ts, soup pts tris = some ts ∧ Enclosed ts p) ∧
    (⟨⟨pts, tris, [], 0, 0⟩, false, 0, 0⟩ : Shape).contains p = .ok false ∧
    (⟨⟨pts, tris', [], 0, 0⟩, false, 0, 0⟩ : Shape).contains p = .ok true := by
  intro pts p tris tris'
  have hr : IsRadius pts 30 := by
    have e9 : Real.sqrt 900 = 30 := by
      rw [show (900:ℝ) = 30 ^ 2 by norm_num]; exact Real.sqrt_sq (by norm_num)
    constructor
    · intro p hp
      rw [Spec.dist, Real.sqrt_le_left (by norm_num)]
      simp only [pts, List.mem_cons, List.not_mem_nil, or_false] at hp
      rcases hp with rfl | rfl | rfl | rfl | rfl | rfl | rfl | rfl <;> simp only [distSq] <;> norm_num
    · left
      refine ⟨⟨20, 20, 10⟩, by simp [pts], ?_⟩
      rw [← e9, Spec.dist]; congr 1; simp only [distSq]; norm_num
  have t1 : ∀ st, Shape.containsStep p ⟨1.1 * 30, 0, 0⟩ ⟨4, 5, 7⟩ ⟨1, 0, 0⟩ ⟨-2, -2, 1⟩ ⟨0, 0, -1⟩ st =
      if st.vertex 4 = 1 then .go st else
        .go ⟨st.count + 1, st.edge, Function.update st.vertex 4 (st.vertex 4 + 1)⟩ := by
    intro st
    unfold Shape.containsStep
    simp only [sideProduct_eq, p, Shape.count3]
    norm_num
    intro h
    exfalso
    split_ifs at h <;> norm_num [Vec3.mk.injEq] at h
  have t2 : ∀ st, Shape.containsStep p ⟨1.1 * 30, 0, 0⟩ ⟨4, 6, 5⟩ ⟨1, 0, 0⟩ ⟨0, -1, 0⟩ ⟨-2, -2, 1⟩ st =
      if st.vertex 4 = -1 then .go st else
        .go ⟨st.count + -1, st.edge, Function.update st.vertex 4 (st.vertex 4 + -1)⟩ := by
    intro st
    unfold Shape.containsStep
    simp only [sideProduct_eq, p, Shape.count3]
    norm_num
    intro h
    exfalso
    split_ifs at h <;> norm_num [Vec3.mk.injEq] at h
  have t3 : ∀ st, Shape.containsStep p ⟨1.1 * 30, 0, 0⟩ ⟨4, 7, 6⟩ ⟨1, 0, 0⟩ ⟨0, 0, -1⟩ ⟨0, -1, 0⟩ st =
      if st.vertex 4 = -1 then .go st else
        .go ⟨st.count + -1, st.edge, Function.update st.vertex 4 (st.vertex 4 + -1)⟩ := by
    intro st
    unfold Shape.containsStep
    simp only [sideProduct_eq, p, Shape.count3]
    norm_num
    intro h
    exfalso
    split_ifs at h <;> norm_num [Vec3.mk.injEq] at h
  have t4 : ∀ st, Shape.containsStep p ⟨1.1 * 30, 0, 0⟩ ⟨5, 6, 7⟩ ⟨-2, -2, 1⟩ ⟨0, -1, 0⟩ ⟨0, 0, -1⟩ st =
      .go st := by
    intro st
    unfold Shape.containsStep
    simp only [sideProduct_eq, p, Shape.count3]
    norm_num
  have t5 : ∀ st, Shape.containsStep p ⟨1.1 * 30, 0, 0⟩ ⟨0, 1, 2⟩ ⟨20, 20, 10⟩ ⟨-20, 10, 20⟩ ⟨10, -20, 20⟩ st =
      .go st := by
    intro st
    unfold Shape.containsStep
    simp only [sideProduct_eq, p, Shape.count3]
    norm_num
  have t6 : ∀ st, Shape.containsStep p ⟨1.1 * 30, 0, 0⟩ ⟨0, 3, 1⟩ ⟨20, 20, 10⟩ ⟨-10, -20, -20⟩ ⟨-20, 10, 20⟩ st =
      .go st := by
    intro st
    unfold Shape.containsStep
    simp only [sideProduct_eq, p, Shape.count3]
    norm_num
  have t7 : ∀ st, Shape.containsStep p ⟨1.1 * 30, 0, 0⟩ ⟨0, 2, 3⟩ ⟨20, 20, 10⟩ ⟨10, -20, 20⟩ ⟨-10, -20, -20⟩ st =
      .go ⟨st.count + 1, st.edge, st.vertex⟩ := by
    intro st
    unfold Shape.containsStep
    simp only [sideProduct_eq, p, Shape.count3]
    norm_num
    intro h
    have := (clear_case (22383/25) (22721/50) (93043/100) (9434/5) (3067/100) (1517/50) (742/25) (4243/100) (4473/100) (5831/100)
      (p := ⟨-1, 0, 0⟩) (q := ⟨1.1 * 30, 0, 0⟩) (v1 := ⟨20, 20, 10⟩) (v2 := ⟨10, -20, 20⟩)
      (v3 := ⟨-10, -20, -20⟩) (by simp only [vol4_eq]; norm_num)
      (by simp only [vol4_eq]; norm_num) (by simp only [vol4_eq]; norm_num) (by simp only [side]; norm_num)
      (by norm_num [area4]) (by norm_num [distSq])).1.offFace
    simp only [heron_eq] at this
    norm_num at this
    exact absurd h (not_lt.2 this)
  have t8 : ∀ st, Shape.containsStep p ⟨1.1 * 30, 0, 0⟩ ⟨1, 3, 2⟩ ⟨-20, 10, 20⟩ ⟨-10, -20, -20⟩ ⟨10, -20, 20⟩ st =
      .go st := by
    intro st
    unfold Shape.containsStep
    simp only [sideProduct_eq, p, Shape.count3]
    norm_num
  refine ⟨?_, ?_, ?_, ?_, ?_⟩
  · simp [Watertight, Spec.edges, tris]
  · exact (List.perm_append_comm (l₁ := [(⟨4, 5, 7⟩ : TriI)]) (l₂ := [⟨4, 6, 5⟩, ⟨4, 7, 6⟩])).append_right _
  · refine ⟨[(⟨1, 0, 0⟩, ⟨-2, -2, 1⟩, ⟨0, 0, -1⟩),
      (⟨1, 0, 0⟩, ⟨0, -1, 0⟩, ⟨-2, -2, 1⟩),
      (⟨1, 0, 0⟩, ⟨0, 0, -1⟩, ⟨0, -1, 0⟩),
      (⟨-2, -2, 1⟩, ⟨0, -1, 0⟩, ⟨0, 0, -1⟩),
      (⟨20, 20, 10⟩, ⟨-20, 10, 20⟩, ⟨10, -20, 20⟩),
      (⟨20, 20, 10⟩, ⟨-10, -20, -20⟩, ⟨-20, 10, 20⟩),
      (⟨20, 20, 10⟩, ⟨10, -20, 20⟩, ⟨-10, -20, -20⟩),
      (⟨-20, 10, 20⟩, ⟨-10, -20, -20⟩, ⟨10, -20, 20⟩)], rfl, ?_⟩
    have avoid : ∀ {t d : Vec3 × Vec3 × Vec3}, (∀ v ∈ [t.1, t.2.1, t.2.2], side d v ≤ 0) →
        0 < side d p → 0 < side d ⟨-2.1, 8.8, 8.8⟩ → ∀ s, 0 ≤ s → s ≤ 1 →
        ¬ InTri t (lerp p ⟨-2.1, 8.8, 8.8⟩ s) := by
      intro t d h ha hb s h0 h1 hin
      have h2 := inTri_inner h hin
      rw [side_lerp'] at h2
      rcases h0.eq_or_lt with rfl | h0
      · linarith
      · have h3 := mul_nonneg (sub_nonneg.2 h1) ha.le
        have h4 := mul_pos h0 hb
        linarith
    have pt : ∀ {t d : Vec3 × Vec3 × Vec3}, (∀ v ∈ [t.1, t.2.1, t.2.2], side d v ≤ 0) →
        0 < side d p → ¬ InTri t p := fun h ha hin => absurd (inTri_inner h hin) (not_le.2 ha)
    have s1 : ∀ v ∈ [⟨1, 0, 0⟩, ⟨-2, -2, 1⟩, ⟨0, 0, -1⟩],
        side (⟨1, 0, 0⟩, ⟨0, 0, -1⟩, ⟨-2, -2, 1⟩) v ≤ (0:ℝ) := by
      intro v hv
      simp only [List.mem_cons, List.not_mem_nil, or_false] at hv
      rcases hv with rfl | rfl | rfl <;> simp only [side] <;> norm_num
    have s2 : ∀ v ∈ [⟨1, 0, 0⟩, ⟨0, -1, 0⟩, ⟨-2, -2, 1⟩],
        side (⟨1, 0, 0⟩, ⟨0, 0, -1⟩, ⟨-2, -2, 1⟩) v ≤ (0:ℝ) := by
      intro v hv
      simp only [List.mem_cons, List.not_mem_nil, or_false] at hv
      rcases hv with rfl | rfl | rfl <;> simp only [side] <;> norm_num
    have s3 : ∀ v ∈ [⟨1, 0, 0⟩, ⟨0, 0, -1⟩, ⟨0, -1, 0⟩],
        side (⟨1, 0, 0⟩, ⟨0, 0, -1⟩, ⟨-2, -2, 1⟩) v ≤ (0:ℝ) := by
      intro v hv
      simp only [List.mem_cons, List.not_mem_nil, or_false] at hv
      rcases hv with rfl | rfl | rfl <;> simp only [side] <;> norm_num
    have s4 : ∀ v ∈ [⟨-2, -2, 1⟩, ⟨0, -1, 0⟩, ⟨0, 0, -1⟩],
        side (⟨1, 0, 0⟩, ⟨0, 0, -1⟩, ⟨-2, -2, 1⟩) v ≤ (0:ℝ) := by
      intro v hv
      simp only [List.mem_cons, List.not_mem_nil, or_false] at hv
      rcases hv with rfl | rfl | rfl <;> simp only [side] <;> norm_num
    have s5 : ∀ v ∈ [⟨20, 20, 10⟩, ⟨-20, 10, 20⟩, ⟨10, -20, 20⟩],
        side (⟨20, 20, 10⟩, ⟨10, -20, 20⟩, ⟨-20, 10, 20⟩) v ≤ (0:ℝ) := by
      intro v hv
      simp only [List.mem_cons, List.not_mem_nil, or_false] at hv
      rcases hv with rfl | rfl | rfl <;> simp only [side] <;> norm_num
    have s6 : ∀ v ∈ [⟨20, 20, 10⟩, ⟨-10, -20, -20⟩, ⟨-20, 10, 20⟩],
        side (⟨20, 20, 10⟩, ⟨-20, 10, 20⟩, ⟨-10, -20, -20⟩) v ≤ (0:ℝ) := by
      intro v hv
      simp only [List.mem_cons, List.not_mem_nil, or_false] at hv
      rcases hv with rfl | rfl | rfl <;> simp only [side] <;> norm_num
    have s7 : ∀ v ∈ [⟨20, 20, 10⟩, ⟨10, -20, 20⟩, ⟨-10, -20, -20⟩],
        side (⟨20, 20, 10⟩, ⟨-10, -20, -20⟩, ⟨10, -20, 20⟩) v ≤ (0:ℝ) := by
      intro v hv
      simp only [List.mem_cons, List.not_mem_nil, or_false] at hv
      rcases hv with rfl | rfl | rfl <;> simp only [side] <;> norm_num
    have s8 : ∀ v ∈ [⟨-20, 10, 20⟩, ⟨-10, -20, -20⟩, ⟨10, -20, 20⟩],
        side (⟨-20, 10, 20⟩, ⟨10, -20, 20⟩, ⟨-10, -20, -20⟩) v ≤ (0:ℝ) := by
      intro v hv
      simp only [List.mem_cons, List.not_mem_nil, or_false] at hv
      rcases hv with rfl | rfl | rfl <;> simp only [side] <;> norm_num
    refine ⟨[(⟨1, 0, 0⟩, ⟨-2, -2, 1⟩, ⟨0, 0, -1⟩),
      (⟨1, 0, 0⟩, ⟨0, -1, 0⟩, ⟨-2, -2, 1⟩),
      (⟨1, 0, 0⟩, ⟨0, 0, -1⟩, ⟨0, -1, 0⟩),
      (⟨-2, -2, 1⟩, ⟨0, -1, 0⟩, ⟨0, 0, -1⟩),
      (⟨20, 20, 10⟩, ⟨-20, 10, 20⟩, ⟨10, -20, 20⟩)],
      (⟨20, 20, 10⟩, ⟨-10, -20, -20⟩, ⟨-20, 10, 20⟩),
      [(⟨20, 20, 10⟩, ⟨10, -20, 20⟩, ⟨-10, -20, -20⟩),
      (⟨-20, 10, 20⟩, ⟨-10, -20, -20⟩, ⟨10, -20, 20⟩)], p, ⟨-2.1, 8.8, 8.8⟩, rfl, ?_, ?_, ?_, ?_, ?_, ?_⟩
    · refine ⟨fun _ => p, continuousOn_const, continuousOn_const, continuousOn_const, rfl, rfl, ?_⟩
      intro s _ t ht
      simp only [List.mem_cons, List.not_mem_nil, or_false] at ht
      rcases ht with rfl | rfl | rfl | rfl | rfl | rfl | rfl | rfl
      · exact pt (d := (⟨1, 0, 0⟩, ⟨0, 0, -1⟩, ⟨-2, -2, 1⟩)) s1 (by simp only [side, p]; norm_num)
      · exact pt (d := (⟨1, 0, 0⟩, ⟨0, 0, -1⟩, ⟨-2, -2, 1⟩)) s2 (by simp only [side, p]; norm_num)
      · exact pt (d := (⟨1, 0, 0⟩, ⟨0, 0, -1⟩, ⟨-2, -2, 1⟩)) s3 (by simp only [side, p]; norm_num)
      · exact pt (d := (⟨1, 0, 0⟩, ⟨0, 0, -1⟩, ⟨-2, -2, 1⟩)) s4 (by simp only [side, p]; norm_num)
      · exact pt (d := (⟨20, 20, 10⟩, ⟨10, -20, 20⟩, ⟨-20, 10, 20⟩)) s5 (by simp only [side, p]; norm_num)
      · exact pt (d := (⟨20, 20, 10⟩, ⟨-20, 10, 20⟩, ⟨-10, -20, -20⟩)) s6 (by simp only [side, p]; norm_num)
      · exact pt (d := (⟨20, 20, 10⟩, ⟨-10, -20, -20⟩, ⟨10, -20, 20⟩)) s7 (by simp only [side, p]; norm_num)
      · exact pt (d := (⟨-20, 10, 20⟩, ⟨10, -20, 20⟩, ⟨-10, -20, -20⟩)) s8 (by simp only [side, p]; norm_num)
    · refine escapes_side (t := (⟨20, 20, 10⟩, ⟨-10, -20, -20⟩, ⟨-20, 10, 20⟩)) ?_ (by simp only [side]; norm_num)
      intro t ht v hv
      simp only [List.mem_cons, List.not_mem_nil, or_false] at ht
      rcases ht with rfl | rfl | rfl | rfl | rfl | rfl | rfl | rfl <;>
        (simp only [List.mem_cons, List.not_mem_nil, or_false] at hv
         rcases hv with rfl | rfl | rfl <;> simp only [side] <;> norm_num)
    · simp only [side, p]; norm_num
    · simp only [side]; norm_num
    · exact ⟨10 / 11, by norm_num, by norm_num, 0.4, 0.2, 0.4, by norm_num, by norm_num, by norm_num,
        by norm_num, by simp only [lerp, p]; ext <;> norm_num⟩
    · intro s h0 h1 t ht
      simp only [List.cons_append, List.nil_append, List.mem_cons, List.not_mem_nil, or_false] at ht
      rcases ht with rfl | rfl | rfl | rfl | rfl | rfl | rfl
      · exact avoid (d := (⟨1, 0, 0⟩, ⟨0, 0, -1⟩, ⟨-2, -2, 1⟩)) s1 (by simp only [side, p]; norm_num) (by simp only [side]; norm_num) s h0 h1
      · exact avoid (d := (⟨1, 0, 0⟩, ⟨0, 0, -1⟩, ⟨-2, -2, 1⟩)) s2 (by simp only [side, p]; norm_num) (by simp only [side]; norm_num) s h0 h1
      · exact avoid (d := (⟨1, 0, 0⟩, ⟨0, 0, -1⟩, ⟨-2, -2, 1⟩)) s3 (by simp only [side, p]; norm_num) (by simp only [side]; norm_num) s h0 h1
      · exact avoid (d := (⟨1, 0, 0⟩, ⟨0, 0, -1⟩, ⟨-2, -2, 1⟩)) s4 (by simp only [side, p]; norm_num) (by simp only [side]; norm_num) s h0 h1
      · exact avoid (d := (⟨20, 20, 10⟩, ⟨10, -20, 20⟩, ⟨-20, 10, 20⟩)) s5 (by simp only [side, p]; norm_num) (by simp only [side]; norm_num) s h0 h1
      · exact avoid (d := (⟨20, 20, 10⟩, ⟨-10, -20, -20⟩, ⟨10, -20, 20⟩)) s7 (by simp only [side, p]; norm_num) (by simp only [side]; norm_num) s h0 h1
      · exact avoid (d := (⟨-20, 10, 20⟩, ⟨10, -20, 20⟩, ⟨-10, -20, -20⟩)) s8 (by simp only [side, p]; norm_num) (by simp only [side]; norm_num) s h0 h1
  · obtain ⟨hR, hR2, h0⟩ := radius_eq (m := ⟨pts, tris, [], 0, 0⟩) (by simp [Mesh.Coherent]) hr
    unfold Shape.contains Shape.containsMesh
    simp only
    rw [hR2, hR, if_neg (by simp only [Vec3.length2, p]; norm_num)]
    simp only [tris, pts, Shape.containsLoop, vget, List.getElem?_cons_succ, List.getElem?_cons_zero, bind,
      Except.bind, t1, t2, t3, t4, t5, t6, t7, t8]
    simp
  · obtain ⟨hR, hR2, h0⟩ := radius_eq (m := ⟨pts, tris', [], 0, 0⟩) (by simp [Mesh.Coherent]) hr
    unfold Shape.contains Shape.containsMesh
    simp only
    rw [hR2, hR, if_neg (by simp only [Vec3.length2, p]; norm_num)]
    simp only [tris', pts, Shape.containsLoop, vget, List.getElem?_cons_succ, List.getElem?_cons_zero, bind,
      Except.bind, t1, t2, t3, t4, t5, t6, t7, t8]
    simp

end Geo
