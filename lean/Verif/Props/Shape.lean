import Verif.Lemmas.Sphere
import Verif.Lemmas.Contact
import Verif.Props.Box

/-!
# Property theorems C17 - C22 (Shape)
-/

namespace Geo

open Spec

/-! ## C17 -/

/-- C17: after any history of `setMesh` and `getBoundingBox` the bounding box contains every point of
the current mesh, and it is contained in every axis-aligned box that does (mesh non-empty, coordinates
at most 1e9 in absolute value). Without points the box is inverted. -/
theorem C17_bounding_box (ops : List Shape.Op) :
    let s := ops.foldl Shape.step Shape.new
    let b := s.getBoundingBox.2
    (∀ p ∈ s.mesh.points, InBox b.lo b.hi p) ∧
    (s.mesh.points ≠ [] → (∀ p ∈ s.mesh.points, |p.x| ≤ 1e9 ∧ |p.y| ≤ 1e9 ∧ |p.z| ≤ 1e9) →
      ∀ lo hi, (∀ p ∈ s.mesh.points, InBox lo hi p) → InBox lo hi b.lo ∧ InBox lo hi b.hi) ∧
    (s.mesh.points = [] → b.lo = ⟨1e9, 1e9, 1e9⟩ ∧ b.hi = ⟨-1e9, -1e9, -1e9⟩) ∧
    s.getBoundingBox.1.mesh = s.mesh := by
  intro s b
  have hc : s.BBCoherent := Shape.bb_run (s := Shape.new) (by simp [Shape.BBCoherent, Shape.new]) ops
  have he := Shape.getBoundingBox_eq hc
  have h1 : b.lo = (Shape.boundsOf s.mesh.points (.all 1e9) (.all (-1e9))).1 := congrArg Prod.fst he
  have h2 : b.hi = (Shape.boundsOf s.mesh.points (.all 1e9) (.all (-1e9))).2 := congrArg Prod.snd he
  obtain ⟨-, hin, hmin⟩ := boundsOf_spec s.mesh.points (.all 1e9) (.all (-1e9))
  rw [← h1, ← h2] at hin hmin
  refine ⟨hin, ?_, ?_, ?_⟩
  · intro hne hb lo hi hall
    obtain ⟨q, qs, hq⟩ := List.exists_cons_of_ne_nil hne
    have hqm : q ∈ s.mesh.points := by rw [hq]; simp
    obtain ⟨bx, bY, bz⟩ := hb q hqm
    obtain ⟨q1, q2, q3, q4, q5, q6⟩ := hall q hqm
    obtain ⟨r1, r2, r3, r4, r5, r6⟩ := hin q hqm
    rw [abs_le] at bx bY bz
    obtain ⟨m1, m2, m3, m4, m5, m6⟩ := hmin lo hi hall
      ⟨by simp only [Vec3.all]; linarith, by simp only [Vec3.all]; linarith,
       by simp only [Vec3.all]; linarith, by simp only [Vec3.all]; linarith,
       by simp only [Vec3.all]; linarith, by simp only [Vec3.all]; linarith⟩
    exact ⟨⟨m1, by linarith, m2, by linarith, m3, by linarith⟩,
      ⟨by linarith, m4, by linarith, m5, by linarith, m6⟩⟩
  · intro h0
    rw [h1, h2, h0]
    exact ⟨rfl, rfl⟩
  · show s.getBoundingBox.1.mesh = s.mesh
    unfold Shape.getBoundingBox
    cases s.bbValid <;> rfl

/-- C17 case: the box is asked for, then the mesh is replaced; the second answer is that of the second
mesh. -/
example :
    let m1 : Mesh := ⟨[⟨0, 0, 0⟩, ⟨5, 5, 5⟩], [], [], 0, 0⟩
    let m2 : Mesh := ⟨[⟨-1, 2, 0⟩, ⟨1, 1, 3⟩], [], [], 0, 0⟩
    let s := [Shape.Op.setMesh m1, .getBoundingBox, .setMesh m2].foldl Shape.step Shape.new
    s.getBoundingBox.2.lo = ⟨-1, 1, 0⟩ ∧ s.getBoundingBox.2.hi = ⟨1, 2, 3⟩ := by
  simp [Shape.step, Shape.setMesh, Shape.getBoundingBox, Shape.boundsOf, Vec3.all]
  norm_num

/-! ## C18 -/

/-- C18: every point of every triangle of a mesh built through the public interface is contained, as
long as the signed volumes spanned by the point, the far point and an edge of that triangle are zero or
larger than the code's tolerance 1e-16. -/
theorem C18_surface (s : Shape) (hm : Reachable s.mesh) (ts : List (Vec3 × Vec3 × Vec3))
    (hs : soup s.mesh.points s.mesh.tris = some ts) (t : Vec3 × Vec3 × Vec3) (ht : t ∈ ts)
    (x : Vec3) (hx : InTri t x) (r : ℝ) (hr : IsRadius s.mesh.points r)
    (hv : ∀ e ∈ rim t, vol4 x ⟨1.1 * r, 0, 0⟩ e.1 e.2 = 0 ∨
      1e-16 < |vol4 x ⟨1.1 * r, 0, 0⟩ e.1 e.2|) :
    s.contains x = .ok true := by
  obtain ⟨hR, hR2, -⟩ := radius_eq hm.coherent hr
  have hle := inTri_radius hr hs ht hx
  unfold Shape.contains Shape.containsMesh
  rw [hR2, hR, if_neg (not_lt.2 hle)]
  exact loop_inside hs ht (fun it st => step_surface it st hx hv) _

/-- C18 case: the centre of a face diagonal of a cube: the probe line is not coplanar with the face,
and the point lies on an edge of the triangle. -/
example : (⟨(Box.new ⟨-1, -1, -1⟩ ⟨1, 1, 1⟩).mesh, false, 0, 0⟩ : Shape).contains ⟨0, 0, -1⟩ =
    .ok true := by
  have hr : IsRadius (Box.new ⟨-1, -1, -1⟩ ⟨1, 1, 1⟩).mesh.points (Real.sqrt 3) := by
    have hp : (Box.new ⟨-1, -1, -1⟩ ⟨1, 1, 1⟩).mesh.points = corners8 ⟨-1, -1, -1⟩ ⟨1, 1, 1⟩ :=
      (generateMesh_points ⟨_, _, Mesh.new⟩).2.2
    rw [hp]
    constructor
    · intro p hp
      simp only [corners8, List.mem_cons, List.not_mem_nil, or_false] at hp
      rcases hp with rfl | rfl | rfl | rfl | rfl | rfl | rfl | rfl <;>
        simp [Spec.dist, distSq] <;> norm_num
    · left
      exact ⟨⟨1, 1, 1⟩, by simp [corners8], by simp [Spec.dist, distSq]; norm_num⟩
  have h3 : (1.7:ℝ) < Real.sqrt 3 := by
    rw [Real.lt_sqrt (by norm_num)]; norm_num
  refine C18_surface ⟨(Box.new ⟨-1, -1, -1⟩ ⟨1, 1, 1⟩).mesh, false, 0, 0⟩
    (box_reachable ⟨-1, -1, -1⟩ ⟨1, 1, 1⟩) _ (box_soup ⟨-1, -1, -1⟩ ⟨1, 1, 1⟩)
    (⟨1, -1, -1⟩, ⟨-1, -1, -1⟩, ⟨-1, 1, -1⟩) (by simp) _
    ⟨1 / 2, 0, 1 / 2, by norm_num, by norm_num, by norm_num, by norm_num, by ext <;> norm_num⟩ _ hr ?_
  intro e he
  simp only [rim, List.mem_cons, List.not_mem_nil, or_false] at he
  rcases he with rfl | rfl | rfl
  · right
    simp only [vol4_eq]
    rw [lt_abs]; right; norm_num
  · right
    simp only [vol4_eq]
    rw [lt_abs]; right; norm_num
  · left
    simp only [vol4_eq]; ring

/-- C18, why the tolerance condition is needed: on a mesh of micrometre size every side product is below
1e-16, the triangle is taken for coplanar with the probe line, and an interior point of the triangle is
not contained. -/
theorem C18_micrometre_wrong : ∃ s : Shape, Reachable s.mesh ∧
    ∃ ts t x, soup s.mesh.points s.mesh.tris = some ts ∧ t ∈ ts ∧ InTri t x ∧
      s.contains x = .ok false := by
  let v1 : Vec3 := ⟨0, 0, 0⟩
  let v2 : Vec3 := ⟨0, 3e-6, 0⟩
  let v3 : Vec3 := ⟨0, 0, 3e-6⟩
  let m : Mesh := ⟨[v1, v2, v3], [⟨0, 1, 2⟩], [], 0, 0⟩
  have hm : Reachable m := ⟨[.addPoint v1, .addPoint v2, .addPoint v3, .addTriangle 0 1 2], by
    simp [Mesh.run, Mesh.step, Mesh.addPoint, Mesh.addTriangle, Mesh.new, Mesh.invalidateCache, bind,
      Except.bind, m]⟩
  refine ⟨⟨m, false, 0, 0⟩, hm, [(v1, v2, v3)], (v1, v2, v3), ⟨0, 1e-6, 1e-6⟩, rfl, by simp,
    ⟨1 / 3, 1 / 3, 1 / 3, by norm_num, by norm_num, by norm_num, by norm_num, by
      simp only [v1, v2, v3]; ext <;> norm_num⟩, ?_⟩
  have hr : IsRadius m.points 3e-6 := by
    have e : Real.sqrt (3e-6 ^ 2) = 3e-6 := Real.sqrt_sq (by norm_num)
    constructor
    · intro p hp
      simp only [m, List.mem_cons, List.not_mem_nil, or_false] at hp
      rcases hp with rfl | rfl | rfl
      · simp [Spec.dist, distSq, v1]; norm_num
      · simp [Spec.dist, distSq, v2]; norm_num
      · simp [Spec.dist, distSq, v3]; norm_num
    · left
      exact ⟨v2, by simp [m], by simp only [Spec.dist, distSq, v2]; simp; exact e⟩
  obtain ⟨hR, hR2, -⟩ := radius_eq hm.coherent hr
  unfold Shape.contains Shape.containsMesh
  simp only
  rw [hR2, hR, if_neg (by simp [Vec3.length2]; norm_num)]
  have hstep : ∀ st, Shape.containsStep ⟨0, 1e-6, 1e-6⟩ ⟨1.1 * 3e-6, 0, 0⟩ ⟨0, 1, 2⟩ v1 v2 v3 st
      = .go st := by
    intro st
    have e1 : sideProduct (LS.new ⟨0, 1e-6, 1e-6⟩ ⟨1.1 * 3e-6, 0, 0⟩) (LS.new v1 v2) = 9.9e-18 := by
      simp only [sideProduct_eq, v1, v2]; norm_num
    have e2 : sideProduct (LS.new ⟨0, 1e-6, 1e-6⟩ ⟨1.1 * 3e-6, 0, 0⟩) (LS.new v2 v3) = 9.9e-18 := by
      simp only [sideProduct_eq, v3, v2]; norm_num
    have e3 : sideProduct (LS.new ⟨0, 1e-6, 1e-6⟩ ⟨1.1 * 3e-6, 0, 0⟩) (LS.new v3 v1) = 9.9e-18 := by
      simp only [sideProduct_eq, v1, v3]; norm_num
    have hc : compute2DIntersection ⟨v1, v2, v3⟩ (LS.new ⟨0, 1e-6, 1e-6⟩ ⟨1.1 * 3e-6, 0, 0⟩) = false := by
      unfold compute2DIntersection lineLinesegmentIntersection
      simp only [List.any_cons, List.any_nil, e1, e2, e3]
      norm_num
    unfold Shape.containsStep
    simp only [e1, e2, e3, hc]
    norm_num
  show Shape.containsLoop _ _ [v1, v2, v3] [⟨0, 1, 2⟩] _ = _
  simp [Shape.containsLoop, vget, bind, Except.bind, hstep]

/-! ## C19 -/

/-- C19 (full statement refuted by `C19_coplanar_wrong`): what holds is (1) points farther from the
origin than every vertex are not contained. -/
theorem C19_beyond_partial (s : Shape) (hm : Reachable s.mesh) (r : ℝ) (hr : IsRadius s.mesh.points r)
    (p : Vec3) (hp : r < Spec.dist p ⟨0, 0, 0⟩) : s.contains p = .ok false := by
  obtain ⟨hR, hR2, h0⟩ := radius_eq hm.coherent hr
  rw [Mesh.dist_origin] at hp
  have : r ^ 2 < p.length2 := (Real.lt_sqrt h0).1 hp
  unfold Shape.contains Shape.containsMesh
  rw [hR2, if_pos this]

/-- C19: (2) when the probe segment is in general position (no side product within the tolerance, the
point not within the tolerance of a triangle) `contains` is true exactly when the signed number of
crossings of the segment from `p` to the far point with the triangles is 1. Missing for the full claim:
the positions excluded here, where the code returns true for outside points (`C19_coplanar_wrong`). That the
crossing number of a closed mesh is 0 for outside points is in `Verif.Props.Containment`. -/
theorem C19_crossing_number_partial (s : Shape) (hm : Reachable s.mesh)
    (ts : List (Vec3 × Vec3 × Vec3)) (hs : soup s.mesh.points s.mesh.tris = some ts)
    (r : ℝ) (hr : IsRadius s.mesh.points r) (p : Vec3) (hp : Spec.dist p ⟨0, 0, 0⟩ ≤ r)
    (hgen : ∀ t ∈ ts, ∀ e ∈ rim t, 1e-16 < |vol4 p ⟨1.1 * r, 0, 0⟩ e.1 e.2|)
    (hseg : ∀ t ∈ ts, side t p * side t ⟨1.1 * r, 0, 0⟩ ≤ 0 ∨
      1e-16 < side t p * side t ⟨1.1 * r, 0, 0⟩)
    (hfar : ∀ t ∈ ts, 1e-12 ≤
      |heron t.2.1 p t.2.2 + heron p t.1 t.2.2 + heron p t.1 t.2.1 - heron t.1 t.2.1 t.2.2|) :
    s.contains p = .ok (decide ((ts.map (crossing p ⟨1.1 * r, 0, 0⟩)).sum = 1)) := by
  obtain ⟨hR, hR2, h0⟩ := radius_eq hm.coherent hr
  rw [Mesh.dist_origin] at hp
  have : p.length2 ≤ r ^ 2 := (Real.sqrt_le_left h0).1 hp
  unfold Shape.contains Shape.containsMesh
  rw [hR2, hR, if_neg (not_lt.2 this)]
  rw [loop_generic hs (fun t ht it st => step_generic it st (hgen t ht) (hseg t ht) (hfar t ht))]
  simp

/-- C19 cases: a mesh with one triangle in the plane x = 2 and radius 3: a far point is not contained; the
point (0, 0.1, 0) meets the hypotheses and its crossing number is 1, so it is contained (the mesh is not
closed). -/
example :
    let m : Mesh := ⟨[⟨2, 2, 1⟩, ⟨2, -2, 1⟩, ⟨2, 1, -2⟩], [⟨0, 1, 2⟩], [], 0, 0⟩
    (⟨m, false, 0, 0⟩ : Shape).contains ⟨0, 4, 0⟩ = .ok false ∧
    (⟨m, false, 0, 0⟩ : Shape).contains ⟨0, 0.1, 0⟩ = .ok true := by
  intro m
  have hm : Reachable m := ⟨[.addPoint ⟨2, 2, 1⟩, .addPoint ⟨2, -2, 1⟩, .addPoint ⟨2, 1, -2⟩,
    .addTriangle 0 1 2], by
    simp [Mesh.run, Mesh.step, Mesh.addPoint, Mesh.addTriangle, Mesh.new, Mesh.invalidateCache, bind,
      Except.bind, m]⟩
  have hr : IsRadius m.points 3 := by
    have e9 : Real.sqrt 9 = 3 := by rw [show (9:ℝ) = 3 ^ 2 by norm_num]; exact Real.sqrt_sq (by norm_num)
    constructor
    · intro p hp
      rw [Spec.dist, Real.sqrt_le_left (by norm_num)]
      simp only [m, List.mem_cons, List.not_mem_nil, or_false] at hp
      rcases hp with rfl | rfl | rfl <;> simp only [distSq] <;> norm_num
    · left
      refine ⟨⟨2, 2, 1⟩, by simp [m], ?_⟩
      rw [← e9, Spec.dist]; congr 1; simp only [distSq]; norm_num
  constructor
  · apply C19_beyond_partial _ hm 3 hr
    rw [Spec.dist, Real.lt_sqrt (by norm_num)]
    simp only [distSq]; norm_num
  · rw [C19_crossing_number_partial _ hm [(⟨2, 2, 1⟩, ⟨2, -2, 1⟩, ⟨2, 1, -2⟩)] rfl 3 hr]
    · have : crossing ⟨0, 0.1, 0⟩ ⟨1.1 * 3, 0, 0⟩ (⟨2, 2, 1⟩, ⟨2, -2, 1⟩, ⟨2, 1, -2⟩) = 1 := by
        unfold crossing
        rw [if_pos, if_pos]
        · simp only [side]; norm_num
        · refine ⟨20 / 33, by norm_num, by norm_num, 343 / 1320, 179 / 440, 1 / 3, by norm_num,
            by norm_num, by norm_num, by norm_num, ?_⟩
          ext <;> simp only [lerp] <;> norm_num
      simp [this]
    · rw [Spec.dist, Real.sqrt_le_left (by norm_num)]
      simp only [distSq]; norm_num
    · intro t ht e he
      simp only [List.mem_singleton] at ht
      subst ht
      simp only [rim, List.mem_cons, List.not_mem_nil, or_false] at he
      rcases he with rfl | rfl | rfl <;> simp only [vol4_eq] <;> norm_num [abs_of_pos]
    · intro t ht
      simp only [List.mem_singleton] at ht
      subst ht
      left; simp only [side]; norm_num
    · intro t ht
      simp only [List.mem_singleton] at ht
      subst ht
      simp only [heron_eq, triangleArea, Vec3.length, Vec3.cross, Vec3.sub_x, Vec3.sub_y, Vec3.sub_z]
      norm_num
      have h1 : (90:ℝ) < Real.sqrt 8289 := by rw [Real.lt_sqrt (by norm_num)]; norm_num
      have h2 : (70:ℝ) < Real.sqrt 6209 := by rw [Real.lt_sqrt (by norm_num)]; norm_num
      have h3 : (8:ℝ) < Real.sqrt 80 := by rw [Real.lt_sqrt (by norm_num)]; norm_num
      rw [le_abs]; left; linarith

/-- C19: the code violates the claim. The solid box [0,1]x[0,2]x[0,2], whose mesh is closed and outward
oriented, does not contain (1.5, 1, 0); the code says it does, because the extension backwards of the
probe line runs through the coplanar bottom face. -/
theorem C19_coplanar_wrong :
    Watertight (Box.new ⟨0, 0, 0⟩ ⟨1, 2, 2⟩).mesh.tris ∧
    (⟨(Box.new ⟨0, 0, 0⟩ ⟨1, 2, 2⟩).mesh, false, 0, 0⟩ : Shape).contains ⟨1.5, 1, 0⟩ = .ok true ∧
    ¬ InBox ⟨0, 0, 0⟩ ⟨1, 2, 2⟩ ⟨1.5, 1, 0⟩ := by
  refine ⟨(C30_mesh_partial ⟨0, 0, 0⟩ ⟨1, 2, 2⟩ ⟨by norm_num, by norm_num, by norm_num⟩).1, ?_, ?_⟩
  · have hr : IsRadius (Box.new ⟨0, 0, 0⟩ ⟨1, 2, 2⟩).mesh.points 3 := by
      have hp : (Box.new ⟨0, 0, 0⟩ ⟨1, 2, 2⟩).mesh.points = corners8 ⟨0, 0, 0⟩ ⟨1, 2, 2⟩ :=
        (generateMesh_points ⟨_, _, Mesh.new⟩).2.2
      rw [hp]
      have e9 : Real.sqrt 9 = 3 := by rw [show (9:ℝ) = 3 ^ 2 by norm_num]; exact Real.sqrt_sq (by norm_num)
      constructor
      · intro p hp
        rw [Spec.dist, Real.sqrt_le_left (by norm_num)]
        simp only [corners8, List.mem_cons, List.not_mem_nil, or_false] at hp
        rcases hp with rfl | rfl | rfl | rfl | rfl | rfl | rfl | rfl <;>
          simp only [distSq] <;> norm_num
      · left
        refine ⟨⟨1, 2, 2⟩, by simp [corners8], ?_⟩
        rw [← e9, Spec.dist]; congr 1; simp only [distSq]; norm_num
    obtain ⟨hR, hR2, h0⟩ := radius_eq (box_reachable _ _).coherent hr
    unfold Shape.contains Shape.containsMesh
    simp only
    rw [hR2, hR, if_neg (by simp only [Vec3.length2]; norm_num)]
    refine loop_inside (box_soup _ _) (t := (⟨1, 0, 0⟩, ⟨0, 0, 0⟩, ⟨0, 2, 0⟩)) (by simp) ?_ _
    intro it st
    have hc : compute2DIntersection ⟨⟨1, 0, 0⟩, ⟨0, 0, 0⟩, ⟨0, 2, 0⟩⟩
        (LS.new ⟨1.5, 1, 0⟩ ⟨1.1 * 3, 0, 0⟩) = true := by
      unfold compute2DIntersection lineLinesegmentIntersection
      simp only [displacedCorner, sideProduct_eq, LS.new_a, LS.new_b, List.any_cons, List.any_nil]
      norm_num
    unfold Shape.containsStep
    simp only [sideProduct_eq, hc]
    norm_num
  · rintro ⟨-, h, -⟩; norm_num at h

/-- C19: (3) the same with probes through edges and vertices. When every side product is zero or beyond the
tolerance, the answer is true exactly when the contributions of all places where the segment meets the
surface sum to 1. Interior contacts contribute their headings; an edge or a vertex contributes the end of a
walk confined to -1, 0, 1 along the headings of its triangles in mesh order. -/
theorem C19_contacts_partial (s : Shape) (hm : Reachable s.mesh)
    (ts : List (Vec3 × Vec3 × Vec3)) (hs : soup s.mesh.points s.mesh.tris = some ts)
    (hn : s.mesh.points.length ≤ 2 ^ 32)
    (r : ℝ) (hr : IsRadius s.mesh.points r) (p : Vec3) (hp : Spec.dist p ⟨0, 0, 0⟩ ≤ r)
    (hc : ∀ t ∈ ts, Clear p ⟨1.1 * r, 0, 0⟩ t) :
    open Classical in
    s.contains p = .ok (decide (∑ c ∈ ((s.mesh.tris.zip ts).filterMap
        (contact p ⟨1.1 * r, 0, 0⟩)).toFinset,
      score c (headings p ⟨1.1 * r, 0, 0⟩ (s.mesh.tris.zip ts) c) = 1)) := by
  classical
  obtain ⟨hR, hR2, h0⟩ := radius_eq hm.coherent hr
  rw [Mesh.dist_origin] at hp
  have : p.length2 ≤ r ^ 2 := (Real.sqrt_le_left h0).1 hp
  unfold Shape.contains Shape.containsMesh
  rw [hR2, hR, if_neg (not_lt.2 this)]
  simp only
  rw [loop_contact hs hc]
  rw [run_count _ (((s.mesh.tris.zip ts).filterMap (contact p ⟨1.1 * r, 0, 0⟩)).toFinset)]
  · rw [Finset.sum_congr rfl (g := fun c =>
      score c (headings p ⟨1.1 * r, 0, 0⟩ (s.mesh.tris.zip ts) c))]
    · simp
    · intro c _
      rw [← gain_score c _ (fun d hd => headings_unit hd)]
      cases c <;> rfl
  · intro x hx c hc
    simp only [List.mem_toFinset, List.mem_filterMap]
    exact ⟨x, hx, hc⟩
  · intro c hc
    simp only [List.mem_toFinset, List.mem_filterMap] at hc
    obtain ⟨x, hx, hc⟩ := hc
    exact contact_small hs hn hx hc

/-- C19: (4) hence, when the segment meets no vertex and every edge it meets belongs to two triangles (as in
a closed mesh), `contains` is true exactly when the crossing number, an edge counting one half for each of
its triangles, is 1. -/
theorem C19_shared_edges_partial (s : Shape) (hm : Reachable s.mesh)
    (ts : List (Vec3 × Vec3 × Vec3)) (hs : soup s.mesh.points s.mesh.tris = some ts)
    (hn : s.mesh.points.length ≤ 2 ^ 32)
    (r : ℝ) (hr : IsRadius s.mesh.points r) (p : Vec3) (hp : Spec.dist p ⟨0, 0, 0⟩ ≤ r)
    (hc : ∀ t ∈ ts, Clear p ⟨1.1 * r, 0, 0⟩ t)
    (hv : ∀ x ∈ s.mesh.tris.zip ts, ∀ i, contact p ⟨1.1 * r, 0, 0⟩ x ≠ some (.vertex i))
    (he : ∀ x ∈ s.mesh.tris.zip ts, ∀ e, contact p ⟨1.1 * r, 0, 0⟩ x = some (.edge e) →
      (headings p ⟨1.1 * r, 0, 0⟩ (s.mesh.tris.zip ts) (.edge e)).length = 2) :
    s.contains p =
      .ok (decide (((s.mesh.tris.zip ts).map (weight2 p ⟨1.1 * r, 0, 0⟩)).sum = 2)) := by
  classical
  rw [C19_contacts_partial s hm ts hs hn r hr p hp hc]
  rw [weight_sum _ (((s.mesh.tris.zip ts).filterMap (contact p ⟨1.1 * r, 0, 0⟩)).toFinset) ?_ hv]
  · congr 1
    rw [decide_eq_decide]
    have key : ∀ c ∈ ((s.mesh.tris.zip ts).filterMap (contact p ⟨1.1 * r, 0, 0⟩)).toFinset,
        double c (headings p ⟨1.1 * r, 0, 0⟩ (s.mesh.tris.zip ts) c).sum =
        2 * score c (headings p ⟨1.1 * r, 0, 0⟩ (s.mesh.tris.zip ts) c) := by
      intro c hc
      simp only [List.mem_toFinset, List.mem_filterMap] at hc
      obtain ⟨x, hx, hcx⟩ := hc
      cases c with
      | face => rfl
      | vertex i => exact absurd hcx (hv x hx i)
      | edge e =>
        have hl := he x hx e hcx
        have hu := fun d => @headings_unit p ⟨1.1 * r, 0, 0⟩ (s.mesh.tris.zip ts) (.edge e) d
        generalize headings p ⟨1.1 * r, 0, 0⟩ (s.mesh.tris.zip ts) (.edge e) = ds at hl hu
        match ds, hl with
        | [d1, d2], _ =>
          rcases hu d1 (by simp) with rfl | rfl <;> rcases hu d2 (by simp) with rfl | rfl <;>
            simp [score, walk, double]
    rw [Finset.sum_congr rfl key, ← Finset.mul_sum]
    omega
  · intro x hx c hc
    simp only [List.mem_toFinset, List.mem_filterMap]
    exact ⟨x, hx, hc⟩

/-- C19 case: two triangles in the plane x = 2 share the edge met by the segment from the origin; the answer
is that of one crossing. -/
example :
    let m : Mesh := ⟨[⟨2, 2, 1⟩, ⟨2, -2, -1⟩, ⟨2, 2, -1⟩, ⟨2, -2, 1⟩], [⟨0, 1, 2⟩, ⟨1, 0, 3⟩], [], 0, 0⟩
    (⟨m, false, 0, 0⟩ : Shape).contains ⟨0, 0, 0⟩ = .ok true := by
  intro m
  have hm : Reachable m := ⟨[.addPoint ⟨2, 2, 1⟩, .addPoint ⟨2, -2, -1⟩, .addPoint ⟨2, 2, -1⟩,
    .addPoint ⟨2, -2, 1⟩, .addTriangle 0 1 2, .addTriangle 1 0 3], by
    simp [Mesh.run, Mesh.step, Mesh.addPoint, Mesh.addTriangle, Mesh.new, Mesh.invalidateCache, bind,
      Except.bind, m]⟩
  have e9 : Real.sqrt 9 = 3 := by rw [show (9:ℝ) = 3 ^ 2 by norm_num]; exact Real.sqrt_sq (by norm_num)
  have hr : IsRadius m.points 3 := by
    constructor
    · intro p hp
      rw [Spec.dist, Real.sqrt_le_left (by norm_num)]
      simp only [m, List.mem_cons, List.not_mem_nil, or_false] at hp
      rcases hp with rfl | rfl | rfl | rfl <;> simp only [distSq] <;> norm_num
    · left
      refine ⟨⟨2, 2, 1⟩, by simp [m], ?_⟩
      rw [← e9, Spec.dist]; congr 1; simp only [distSq]; norm_num
  have c1 : Clear ⟨0, 0, 0⟩ ⟨1.1 * 3, 0, 0⟩ (⟨2, 2, 1⟩, ⟨2, -2, -1⟩, ⟨2, 2, -1⟩) := by
    constructor
    · intro e he
      simp only [rim, List.mem_cons, List.not_mem_nil, or_false] at he
      rcases he with rfl | rfl | rfl <;> simp only [vol4_eq] <;> norm_num [abs_of_pos]
    · exact ⟨(⟨2, -2, -1⟩, ⟨2, 2, -1⟩), by simp [rim], by simp only [vol4_eq]; norm_num⟩
    · left; simp only [side]; norm_num
    · simp only [heron_eq, triangleArea, Vec3.length, Vec3.cross, Vec3.sub_x, Vec3.sub_y, Vec3.sub_z]
      norm_num
      have h1 : (8:ℝ) < Real.sqrt 80 := by rw [Real.lt_sqrt (by norm_num)]; norm_num
      have h2 := Real.sqrt_nonneg 32
      rw [le_abs]; left; linarith
    · intro e he
      simp only [rim, List.mem_cons, List.not_mem_nil, or_false] at he
      rcases he with rfl | rfl | rfl <;> simp only [Spec.dist, distSq] <;> norm_num
      have h1 : Real.sqrt 20 < 5 := by rw [Real.sqrt_lt' (by norm_num)]; norm_num
      rw [lt_abs]; left; linarith
  have k1 : contact ⟨0, 0, 0⟩ ⟨1.1 * 3, 0, 0⟩ (⟨0, 1, 2⟩, (⟨2, 2, 1⟩, ⟨2, -2, -1⟩, ⟨2, 2, -1⟩)) =
      some (.edge s(0, 1)) := by
    have hn : ¬ (vol4 ⟨0, 0, 0⟩ ⟨1.1 * 3, 0, 0⟩ ⟨2, 2, 1⟩ ⟨2, -2, -1⟩ = 0 ∧ vol4 ⟨0, 0, 0⟩ ⟨1.1 * 3, 0, 0⟩ ⟨2, -2, -1⟩ ⟨2, 2, -1⟩ = 0 ∧
        vol4 ⟨0, 0, 0⟩ ⟨1.1 * 3, 0, 0⟩ ⟨2, 2, -1⟩ ⟨2, 2, 1⟩ = 0) := by
      simp only [vol4_eq]; norm_num
    unfold contact
    simp only [meets_iff hn, vol4_eq, side]
    norm_num
  have d1 : heading ⟨0, 0, 0⟩ ⟨1.1 * 3, 0, 0⟩ (⟨2, 2, 1⟩, ⟨2, -2, -1⟩, ⟨2, 2, -1⟩) = 1 := by
    unfold heading
    rw [if_pos (by simp only [side]; norm_num)]
  have c2 : Clear ⟨0, 0, 0⟩ ⟨1.1 * 3, 0, 0⟩ (⟨2, -2, -1⟩, ⟨2, 2, 1⟩, ⟨2, -2, 1⟩) := by
    constructor
    · intro e he
      simp only [rim, List.mem_cons, List.not_mem_nil, or_false] at he
      rcases he with rfl | rfl | rfl <;> simp only [vol4_eq] <;> norm_num [abs_of_pos]
    · exact ⟨(⟨2, 2, 1⟩, ⟨2, -2, 1⟩), by simp [rim], by simp only [vol4_eq]; norm_num⟩
    · left; simp only [side]; norm_num
    · simp only [heron_eq, triangleArea, Vec3.length, Vec3.cross, Vec3.sub_x, Vec3.sub_y, Vec3.sub_z]
      norm_num
      have h1 : (8:ℝ) < Real.sqrt 80 := by rw [Real.lt_sqrt (by norm_num)]; norm_num
      have h2 := Real.sqrt_nonneg 32
      rw [le_abs]; left; linarith
    · intro e he
      simp only [rim, List.mem_cons, List.not_mem_nil, or_false] at he
      rcases he with rfl | rfl | rfl <;> simp only [Spec.dist, distSq] <;> norm_num
      have h1 : Real.sqrt 20 < 5 := by rw [Real.sqrt_lt' (by norm_num)]; norm_num
      rw [lt_abs]; left; linarith
  have k2 : contact ⟨0, 0, 0⟩ ⟨1.1 * 3, 0, 0⟩ (⟨1, 0, 3⟩, (⟨2, -2, -1⟩, ⟨2, 2, 1⟩, ⟨2, -2, 1⟩)) =
      some (.edge s(0, 1)) := by
    have hn : ¬ (vol4 ⟨0, 0, 0⟩ ⟨1.1 * 3, 0, 0⟩ ⟨2, -2, -1⟩ ⟨2, 2, 1⟩ = 0 ∧ vol4 ⟨0, 0, 0⟩ ⟨1.1 * 3, 0, 0⟩ ⟨2, 2, 1⟩ ⟨2, -2, 1⟩ = 0 ∧
        vol4 ⟨0, 0, 0⟩ ⟨1.1 * 3, 0, 0⟩ ⟨2, -2, 1⟩ ⟨2, -2, -1⟩ = 0) := by
      simp only [vol4_eq]; norm_num
    unfold contact
    simp only [meets_iff hn, vol4_eq, side]
    norm_num
  have d2 : heading ⟨0, 0, 0⟩ ⟨1.1 * 3, 0, 0⟩ (⟨2, -2, -1⟩, ⟨2, 2, 1⟩, ⟨2, -2, 1⟩) = 1 := by
    unfold heading
    rw [if_pos (by simp only [side]; norm_num)]
  rw [C19_shared_edges_partial _ hm [(⟨2, 2, 1⟩, ⟨2, -2, -1⟩, ⟨2, 2, -1⟩),
    (⟨2, -2, -1⟩, ⟨2, 2, 1⟩, ⟨2, -2, 1⟩)] rfl (by simp [m]) 3 hr]
  · simp [m, weight2, k1, k2, d1, d2]
  · rw [Spec.dist, Real.sqrt_le_left (by norm_num)]
    simp only [distSq]; norm_num
  · intro t ht
    simp only [List.mem_cons, List.not_mem_nil, or_false] at ht
    rcases ht with rfl | rfl
    · exact c1
    · exact c2
  · intro x hx i
    simp only [m, List.zip_cons_cons, List.zip_nil_right, List.mem_cons, List.not_mem_nil, or_false] at hx
    rcases hx with rfl | rfl
    · rw [k1]; simp
    · rw [k2]; simp
  · intro x hx e hxe
    have he : e = s(0, 1) := by
      simp only [m, List.zip_cons_cons, List.zip_nil_right, List.mem_cons, List.not_mem_nil, or_false] at hx
      rcases hx with rfl | rfl
      · rw [k1] at hxe; simpa using hxe.symm
      · rw [k2] at hxe; simpa using hxe.symm
    subst he
    simp [headings, m, k1, k2]

/-- C19: the code violates the claim also for a probe through a vertex, and its answer depends on the order
of the triangles. The closed tetrahedron below lies on the inner side of the plane of its face (0, 3, 1) and
the point (-1, 0, 0) on the outer side; in one order of the triangles it is reported as contained, in
another it is not. -/
theorem C19_vertex_wrong :
    let pts : List Vec3 := [⟨1, 0, 0⟩, ⟨-2, -2, 1⟩, ⟨0, -1, 0⟩, ⟨0, 0, -1⟩]
    let p : Vec3 := ⟨-1, 0, 0⟩
    let tris : List TriI := [⟨0, 3, 1⟩, ⟨0, 1, 2⟩, ⟨0, 2, 3⟩, ⟨1, 3, 2⟩]
    let tris' : List TriI := [⟨0, 1, 2⟩, ⟨0, 2, 3⟩, ⟨0, 3, 1⟩, ⟨1, 3, 2⟩]
    Watertight tris ∧ tris.Perm tris' ∧
    (∀ v ∈ pts, side (⟨1, 0, 0⟩, ⟨0, 0, -1⟩, ⟨-2, -2, 1⟩) v ≤ 0) ∧
    0 < side (⟨1, 0, 0⟩, ⟨0, 0, -1⟩, ⟨-2, -2, 1⟩) p ∧
    (⟨⟨pts, tris, [], 0, 0⟩, false, 0, 0⟩ : Shape).contains p = .ok true ∧
    (⟨⟨pts, tris', [], 0, 0⟩, false, 0, 0⟩ : Shape).contains p = .ok false := by
  intro pts p tris tris'
  have hr : IsRadius pts 3 := by
    have e9 : Real.sqrt 9 = 3 := by rw [show (9:ℝ) = 3 ^ 2 by norm_num]; exact Real.sqrt_sq (by norm_num)
    constructor
    · intro p hp
      rw [Spec.dist, Real.sqrt_le_left (by norm_num)]
      simp only [pts, List.mem_cons, List.not_mem_nil, or_false] at hp
      rcases hp with rfl | rfl | rfl | rfl <;> simp only [distSq] <;> norm_num
    · left
      refine ⟨⟨-2, -2, 1⟩, by simp [pts], ?_⟩
      rw [← e9, Spec.dist]; congr 1; simp only [distSq]; norm_num
  have t1 : ∀ st, Shape.containsStep p ⟨1.1 * 3, 0, 0⟩ ⟨0, 3, 1⟩ ⟨1, 0, 0⟩ ⟨0, 0, -1⟩ ⟨-2, -2, 1⟩ st =
      if st.vertex 0 = -1 then .go st else
        .go ⟨st.count + -1, st.edge, Function.update st.vertex 0 (st.vertex 0 + -1)⟩ := by
    intro st
    unfold Shape.containsStep
    simp only [sideProduct_eq, p, Shape.count3]
    norm_num
    intro h
    exfalso
    split_ifs at h <;> norm_num [Vec3.mk.injEq] at h
  have t2 : ∀ st, Shape.containsStep p ⟨1.1 * 3, 0, 0⟩ ⟨0, 1, 2⟩ ⟨1, 0, 0⟩ ⟨-2, -2, 1⟩ ⟨0, -1, 0⟩ st =
      if st.vertex 0 = 1 then .go st else
        .go ⟨st.count + 1, st.edge, Function.update st.vertex 0 (st.vertex 0 + 1)⟩ := by
    intro st
    unfold Shape.containsStep
    simp only [sideProduct_eq, p, Shape.count3]
    norm_num
    intro h
    exfalso
    split_ifs at h <;> norm_num [Vec3.mk.injEq] at h
  have t3 : ∀ st, Shape.containsStep p ⟨1.1 * 3, 0, 0⟩ ⟨0, 2, 3⟩ ⟨1, 0, 0⟩ ⟨0, -1, 0⟩ ⟨0, 0, -1⟩ st =
      if st.vertex 0 = 1 then .go st else
        .go ⟨st.count + 1, st.edge, Function.update st.vertex 0 (st.vertex 0 + 1)⟩ := by
    intro st
    unfold Shape.containsStep
    simp only [sideProduct_eq, p, Shape.count3]
    norm_num
    intro h
    exfalso
    split_ifs at h <;> norm_num [Vec3.mk.injEq] at h
  have t4 : ∀ st, Shape.containsStep p ⟨1.1 * 3, 0, 0⟩ ⟨1, 3, 2⟩ ⟨-2, -2, 1⟩ ⟨0, 0, -1⟩ ⟨0, -1, 0⟩ st =
      .go st := by
    intro st
    unfold Shape.containsStep
    simp only [sideProduct_eq, p, Shape.count3]
    norm_num
  refine ⟨?_, ?_, ?_, ?_, ?_, ?_⟩
  · simp [Watertight, Spec.edges, tris]
  · exact (List.perm_append_comm (l₁ := [(⟨0, 3, 1⟩ : TriI)]) (l₂ := [⟨0, 1, 2⟩, ⟨0, 2, 3⟩])).append_right _
  · intro v hv
    simp only [pts, List.mem_cons, List.not_mem_nil, or_false] at hv
    rcases hv with rfl | rfl | rfl | rfl <;> simp only [side] <;> norm_num
  · simp only [side, p]; norm_num
  · obtain ⟨hR, hR2, h0⟩ := radius_eq (m := ⟨pts, tris, [], 0, 0⟩) (by simp [Mesh.Coherent]) hr
    unfold Shape.contains Shape.containsMesh
    simp only
    rw [hR2, hR, if_neg (by simp only [Vec3.length2, p]; norm_num)]
    simp only [tris, pts, Shape.containsLoop, vget, List.getElem?_cons_succ, List.getElem?_cons_zero, bind, Except.bind, t1, t2, t3, t4]
    simp
  · obtain ⟨hR, hR2, h0⟩ := radius_eq (m := ⟨pts, tris', [], 0, 0⟩) (by simp [Mesh.Coherent]) hr
    unfold Shape.contains Shape.containsMesh
    simp only
    rw [hR2, hR, if_neg (by simp only [Vec3.length2, p]; norm_num)]
    simp only [tris', pts, Shape.containsLoop, vget, List.getElem?_cons_succ, List.getElem?_cons_zero, bind, Except.bind, t1, t2, t3, t4]
    simp

/-! ## C20 -/

/-- C20: a positive answer of the sphere test means that the centre is contained or that some point of
some triangle is within the radius, up to the relative tolerance 1e-9 (on the squared radius, and on the
length of an edge). -/
theorem C20_sphere_sound (s : Shape) (ts : List (Vec3 × Vec3 × Vec3))
    (hs : soup s.mesh.points s.mesh.tris = some ts) (p : Vec3) (R : ℝ)
    (h : s.intersectSphere p R = .ok true) :
    s.contains p = .ok true ∨ ∃ t ∈ ts, ∃ x, InTri t x ∧ ∃ e ∈ rim t,
      distSq p x ≤ R ^ 2 * (1 + 1e-9) + 1e-18 * distSq e.1 e.2 := by
  unfold Shape.intersectSphere Shape.intersectSphereMesh at h
  split_ifs at h with h0 h1
  · simp at h
  · obtain ⟨b, hb, hiff⟩ := sphereLoop_true (p := p) (R2 := R * R) hs
    rw [hb] at h
    simp only [bind, Except.bind] at h
    split_ifs at h with hh
    · right
      obtain ⟨t, ht, hhit⟩ := hiff.1 hh
      obtain ⟨x, hx, e, he, hd⟩ := sphereHits_sound (mul_self_nonneg R) hhit
      exact ⟨t, ht, x, hx, e, he, by rw [pow_two]; exact hd⟩
    · exact Or.inl h
  · exact Or.inl h

/-- C20 case: a sphere touching the interior of a face from outside. -/
example :
    (⟨⟨[⟨0, 0, 0⟩, ⟨10, 0, 0⟩, ⟨0, 10, 0⟩], [⟨0, 1, 2⟩], [], 0, 0⟩, false, 0, 0⟩ : Shape).intersectSphere
      ⟨2, 2, 1.9⟩ 1.95 = .ok true := by
  have hsp : Shape.sphereHitsTriangle ⟨2, 2, 1.9⟩ (1.95 * 1.95) ⟨0, 0, 0⟩ ⟨10, 0, 0⟩ ⟨0, 10, 0⟩ = true := by
    apply sphereHits_complete (x := ⟨2, 2, 0⟩)
    · exact ⟨0.6, 0.2, 0.2, by norm_num, by norm_num, by norm_num, by norm_num, by ext <;> norm_num⟩
    · simp only [distSq]; norm_num
    · simp only [side]; norm_num
  have hc : Mesh.Coherent ⟨[⟨0, 0, 0⟩, ⟨10, 0, 0⟩, ⟨0, 10, 0⟩], [⟨0, 1, 2⟩], [], 0, 0⟩ := by
    simp [Mesh.Coherent]
  have hR := (Mesh.getMaxRadius_ok hc).1
  unfold Shape.intersectSphere Shape.intersectSphereMesh
  simp only
  rw [hR]
  have h1 : Mesh.sqMax [⟨0, 0, 0⟩, ⟨10, 0, 0⟩, ⟨0, 10, 0⟩] 0 = 100 := by
    simp [Mesh.sqMax, Vec3.length2]; norm_num
  have h2 : Real.sqrt 100 = 10 := by
    rw [show (100:ℝ) = 10 ^ 2 by norm_num]; exact Real.sqrt_sq (by norm_num)
  have h3 : (⟨2, 2, 1.9⟩ : Vec3).length ≤ 4 := by
    unfold Vec3.length
    rw [Real.sqrt_le_left (by norm_num)]; norm_num
  rw [h1, h2, if_neg (by linarith), if_pos (by norm_num)]
  simp [Shape.sphereLoop, vget, bind, Except.bind, hsp, pure, Except.pure]

/-! ## C21 -/

/-- C21 (full statement refuted by `C21_back_side_wrong`): a sphere that strictly contains a point of a
triangle is reported whenever its centre is on the front side of that triangle (or in its plane) or the
point is on the triangle's rim. Missing for the full claim: interior points of a triangle seen from its
back side. -/
theorem C21_sphere_complete_partial (s : Shape) (hm : Reachable s.mesh)
    (ts : List (Vec3 × Vec3 × Vec3)) (hs : soup s.mesh.points s.mesh.tris = some ts)
    (p : Vec3) (R : ℝ) (hR : 0 < R) (t : Vec3 × Vec3 × Vec3) (ht : t ∈ ts) (x : Vec3)
    (hx : InTri t x) (hd : Spec.dist p x < R) (hfront : 0 ≤ side t p ∨ OnRim t x) :
    s.intersectSphere p R = .ok true := by
  have hr := Mesh.sqMax_isRadius s.mesh.points
  obtain ⟨e1, -, h0⟩ := radius_eq hm.coherent hr
  have hl := inTri_radius hr hs ht hx
  have hdsq : distSq p x < R * R := by
    have h1 : 0 ≤ distSq p x := by unfold distSq; positivity
    have := (Real.sqrt_lt_sqrt_iff h1).1 (show Real.sqrt (distSq p x) < Real.sqrt (R * R) by
      rw [Real.sqrt_mul_self hR.le]; exact hd)
    exact this
  have htri : p.length ≤ x.length + R := by
    unfold Vec3.length
    rw [Real.sqrt_le_left (by have := Real.sqrt_nonneg (x.x * x.x + x.y * x.y + x.z * x.z); linarith)]
    have hX := Real.sq_sqrt (Mesh.length2_nonneg x)
    have hX0 := Real.sqrt_nonneg x.length2
    have hxe : x.length2 = x.x * x.x + x.y * x.y + x.z * x.z := rfl
    rw [hxe] at hX hX0
    set L := Real.sqrt (x.x * x.x + x.y * x.y + x.z * x.z) with hL
    have hcs : (x.x * (p.x - x.x) + x.y * (p.y - x.y) + x.z * (p.z - x.z)) ≤ L * R := by
      have hLR : 0 ≤ L * R := mul_nonneg hX0 hR.le
      by_contra hn
      push Not at hn
      have hsq : (L * R) ^ 2 < (x.x * (p.x - x.x) + x.y * (p.y - x.y) + x.z * (p.z - x.z)) ^ 2 :=
        pow_lt_pow_left₀ hn hLR (by norm_num)
      have hlag : (x.x * (p.x - x.x) + x.y * (p.y - x.y) + x.z * (p.z - x.z)) ^ 2 ≤
          (x.x * x.x + x.y * x.y + x.z * x.z) * distSq p x := by
        have : (x.x * x.x + x.y * x.y + x.z * x.z) * distSq p x -
          (x.x * (p.x - x.x) + x.y * (p.y - x.y) + x.z * (p.z - x.z)) ^ 2 =
          (x.x * (p.y - x.y) - x.y * (p.x - x.x)) ^ 2 + (x.y * (p.z - x.z) - x.z * (p.y - x.y)) ^ 2 +
          (x.z * (p.x - x.x) - x.x * (p.z - x.z)) ^ 2 := by unfold distSq; ring
        have h2 : 0 ≤ (x.x * x.x + x.y * x.y + x.z * x.z) * distSq p x -
          (x.x * (p.x - x.x) + x.y * (p.y - x.y) + x.z * (p.z - x.z)) ^ 2 := by rw [this]; positivity
        linarith
      rw [← hX] at hlag
      have : L ^ 2 * distSq p x ≤ L ^ 2 * (R * R) := by
        apply mul_le_mul_of_nonneg_left hdsq.le; positivity
      have e : (L * R) ^ 2 = L ^ 2 * (R * R) := by ring
      linarith
    have : p.x * p.x + p.y * p.y + p.z * p.z = L ^ 2 +
      2 * (x.x * (p.x - x.x) + x.y * (p.y - x.y) + x.z * (p.z - x.z)) + distSq p x := by
      rw [hX]; unfold distSq; ring
    rw [this]
    have e : (L + R) ^ 2 = L ^ 2 + 2 * (L * R) + R * R := by ring
    linarith
  have hxl : x.length ≤ Real.sqrt (Mesh.sqMax s.mesh.points 0) := by
    have : x.length = Real.sqrt x.length2 := rfl
    rw [this, Real.sqrt_le_left h0]; exact hl
  unfold Shape.intersectSphere Shape.intersectSphereMesh
  rw [e1, if_neg (by linarith), if_pos hR]
  obtain ⟨b, hb, hiff⟩ := sphereLoop_true (p := p) (R2 := R * R) hs
  have hbt : b = true := by
    rw [hiff]
    refine ⟨t, ht, ?_⟩
    rcases hfront with hf | hf
    · exact sphereHits_complete hx hdsq hf
    · exact sphereHits_rim hf hdsq
  rw [hb, hbt]
  simp [bind, Except.bind, pure, Except.pure]

/-- C21 case: hypotheses met by a sphere above the interior of a triangle. -/
example : InTri (⟨0, 0, 0⟩, ⟨10, 0, 0⟩, ⟨0, 10, 0⟩) ⟨2, 2, 0⟩ ∧
    0 ≤ side (⟨0, 0, 0⟩, ⟨10, 0, 0⟩, ⟨0, 10, 0⟩) ⟨2, 2, 1.9⟩ ∧
    Spec.dist ⟨2, 2, 1.9⟩ ⟨2, 2, 0⟩ < 1.95 := by
  refine ⟨⟨0.6, 0.2, 0.2, by norm_num, by norm_num, by norm_num, by norm_num, by ext <;> norm_num⟩,
    by simp only [side]; norm_num, ?_⟩
  rw [Spec.dist, Real.sqrt_lt' (by norm_num)]
  simp only [distSq]; norm_num

/-- C21: the code violates the claim behind a triangle: the mirror image of a reported sphere is not
reported, although its centre is at distance 1.9 < 1.95 from the triangle. -/
theorem C21_back_side_wrong : ∃ s : Shape, Reachable s.mesh ∧ ∃ ts t x p R,
    soup s.mesh.points s.mesh.tris = some ts ∧ t ∈ ts ∧ InTri t x ∧ 0 < R ∧ Spec.dist p x < R ∧
    s.intersectSphere p R = .ok false := by
  let m : Mesh := ⟨[⟨0, 0, 0⟩, ⟨10, 0, 0⟩, ⟨0, 10, 0⟩], [⟨0, 1, 2⟩], [], 0, 0⟩
  have hm : Reachable m := ⟨[.addPoint ⟨0, 0, 0⟩, .addPoint ⟨10, 0, 0⟩, .addPoint ⟨0, 10, 0⟩,
    .addTriangle 0 1 2], by
    simp [Mesh.run, Mesh.step, Mesh.addPoint, Mesh.addTriangle, Mesh.new, Mesh.invalidateCache, bind,
      Except.bind, m]⟩
  refine ⟨⟨m, false, 0, 0⟩, hm, [(⟨0, 0, 0⟩, ⟨10, 0, 0⟩, ⟨0, 10, 0⟩)],
    (⟨0, 0, 0⟩, ⟨10, 0, 0⟩, ⟨0, 10, 0⟩), ⟨2, 2, 0⟩, ⟨2, 2, -1.9⟩, 1.95, rfl, by simp, ?_, by norm_num, ?_, ?_⟩
  · exact ⟨0.6, 0.2, 0.2, by norm_num, by norm_num, by norm_num, by norm_num, by ext <;> norm_num⟩
  · rw [Spec.dist, Real.sqrt_lt' (by norm_num)]
    simp only [distSq]; norm_num
  · have hsp : Shape.sphereHitsTriangle ⟨2, 2, -1.9⟩ (1.95 * 1.95) ⟨0, 0, 0⟩ ⟨10, 0, 0⟩ ⟨0, 10, 0⟩ =
        false := by
      have hn : (((⟨10, 0, 0⟩ : Vec3) - ⟨0, 0, 0⟩).cross ((⟨0, 10, 0⟩ : Vec3) - ⟨10, 0, 0⟩)).length2 ≠ 0 := by
        simp [Vec3.length2, Vec3.cross]
      unfold Shape.sphereHitsTriangle checkLinesegment
      simp only [normal_scale _ hn]
      simp only [Vec3.length2, Vec3.cross, Vec3.dot, Vec3.sub_x, Vec3.sub_y, Vec3.sub_z, Vec3.smul_x,
        Vec3.smul_y, Vec3.smul_z]
      norm_num
    have h1 : Mesh.sqMax [⟨0, 0, 0⟩, ⟨10, 0, 0⟩, ⟨0, 10, 0⟩] 0 = 100 := by
      simp [Mesh.sqMax, Vec3.length2]; norm_num
    have h2 : Real.sqrt 100 = 10 := by
      rw [show (100:ℝ) = 10 ^ 2 by norm_num]; exact Real.sqrt_sq (by norm_num)
    have hr : IsRadius m.points 10 := by
      have := Mesh.sqMax_isRadius m.points
      rwa [show m.points = [⟨0, 0, 0⟩, ⟨10, 0, 0⟩, ⟨0, 10, 0⟩] from rfl, h1, h2] at this
    obtain ⟨hR, hR2, -⟩ := radius_eq hm.coherent hr
    have h3 : (⟨2, 2, -1.9⟩ : Vec3).length ≤ 4 := by
      unfold Vec3.length
      rw [Real.sqrt_le_left (by norm_num)]; norm_num
    unfold Shape.intersectSphere Shape.intersectSphereMesh
    simp only
    rw [hR, if_neg (by linarith), if_pos (by norm_num)]
    have hl : Shape.sphereLoop ⟨2, 2, -1.9⟩ (1.95 * 1.95) m.points m.tris = .ok false := by
      simp only [m, Shape.sphereLoop, vget, bind, Except.bind, List.getElem?_cons_zero,
        List.getElem?_cons_succ, hsp]
      rfl
    rw [hl]
    simp only [bind, Except.bind]
    unfold Shape.containsMesh
    rw [hR2, hR]
    have hstep : ∀ st, Shape.containsStep ⟨2, 2, -1.9⟩ ⟨1.1 * 10, 0, 0⟩ ⟨0, 1, 2⟩ ⟨0, 0, 0⟩ ⟨10, 0, 0⟩
        ⟨0, 10, 0⟩ st = .go st := by
      intro st
      unfold Shape.containsStep
      simp only [sideProduct_eq]
      norm_num
    simp only [m, Shape.containsLoop, vget, bind, Except.bind, List.getElem?_cons_zero,
        List.getElem?_cons_succ, hstep]
    simp [Vec3.length2]

/-- C21, what the code computes: a sphere clear of the rims of all triangles is reported exactly if its centre is
contained or if, for some triangle with an area, the foot of the centre on its plane lies within the radius and is
noticed (`Noticed`: inside the triangle, for centres on the front side). -/
theorem C21_noticed (s : Shape) (hm : Reachable s.mesh) (ts : List (Vec3 × Vec3 × Vec3))
    (hs : soup s.mesh.points s.mesh.tris = some ts) (p : Vec3) (R r : ℝ) (hR : 0 < R)
    (hr : IsRadius s.mesh.points r) (hreach : Spec.dist p ⟨0, 0, 0⟩ ≤ r + R)
    (hrim : ∀ t ∈ ts, ∀ x, OnRim t x → ∀ e ∈ rim t, R ^ 2 * (1 + 1e-9) + 1e-18 * distSq e.1 e.2 < distSq p x) :
    s.intersectSphere p R = .ok true ↔ s.contains p = .ok true ∨
      ∃ t ∈ ts, ¬ Collinear3 t.1 t.2.1 t.2.2 ∧
        ∃ a b c k x, Over t a b c k x p ∧ Spec.dist p x ≤ R ∧ Noticed t a b c k := by
  obtain ⟨e1, -, h0⟩ := radius_eq hm.coherent hr
  have hl : p.length = Spec.dist p ⟨0, 0, 0⟩ := by
    unfold Vec3.length Spec.dist distSq
    congr 1
    ring
  have hd : ∀ x, Spec.dist p x ≤ R ↔ distSq p x ≤ R * R := by
    intro x
    rw [Spec.dist, Real.sqrt_le_left hR.le, pow_two]
  have each : ∀ t ∈ ts, (Shape.sphereHitsTriangle p (R * R) t.1 t.2.1 t.2.2 = true ↔ ¬ Collinear3 t.1 t.2.1 t.2.2 ∧
      ∃ a b c k x, Over t a b c k x p ∧ Spec.dist p x ≤ R ∧ Noticed t a b c k) := by
    intro t ht
    simp only [hd]
    exact sphereHits_iff (mul_self_nonneg R) (by rw [← pow_two]; exact hrim t ht)
  unfold Shape.intersectSphere Shape.intersectSphereMesh
  rw [e1, if_neg (by rw [hl]; linarith), if_pos hR]
  obtain ⟨b, hb, hiff⟩ := sphereLoop_true (p := p) (R2 := R * R) hs
  rw [hb]
  have hex : b = true ↔ ∃ t ∈ ts, ¬ Collinear3 t.1 t.2.1 t.2.2 ∧
      ∃ a b c k x, Over t a b c k x p ∧ Spec.dist p x ≤ R ∧ Noticed t a b c k := by
    rw [hiff]
    constructor
    · rintro ⟨t, ht, h⟩; exact ⟨t, ht, (each t ht).1 h⟩
    · rintro ⟨t, ht, h⟩; exact ⟨t, ht, (each t ht).2 h⟩
  rw [← hex]
  cases b <;> simp [bind, Except.bind, pure, Except.pure, Shape.contains]

/-- C21 case: one point of a triangle seen from both sides at distance 1.9, and from behind at distance 1. -/
example : Noticed (⟨0, 0, 0⟩, ⟨10, 0, 0⟩, ⟨0, 10, 0⟩) 0.6 0.2 0.2 0.019 ∧
    ¬ Noticed (⟨0, 0, 0⟩, ⟨10, 0, 0⟩, ⟨0, 10, 0⟩) 0.6 0.2 0.2 (-0.019) ∧
    Noticed (⟨0, 0, 0⟩, ⟨10, 0, 0⟩, ⟨0, 10, 0⟩) 0.6 0.2 0.2 (-0.01) ∧
    Over (⟨0, 0, 0⟩, ⟨10, 0, 0⟩, ⟨0, 10, 0⟩) 0.6 0.2 0.2 (-0.01) ⟨2, 2, 0⟩ ⟨2, 2, -1⟩ := by
  refine ⟨?_, ?_, ?_, ?_⟩
  · norm_num [Noticed]
  · norm_num [Noticed, cornerDot]
  · norm_num [Noticed, cornerDot]
  · norm_num [Over]

/-! ## C22 -/

/-- C22: the side product of two lines is six times the signed volume of the tetrahedron spanned by
their defining points; it is zero iff the lines are coplanar, symmetric in the lines and antisymmetric
under reversing one. -/
theorem C22_side_product (a b c d : Vec3) :
    sideProduct (LS.new a b) (LS.new c d) = vol4 a b c d ∧
    (sideProduct (LS.new a b) (LS.new c d) = 0 ↔ Coplanar4 a b c d) ∧
    sideProduct (LS.new b a) (LS.new c d) = -sideProduct (LS.new a b) (LS.new c d) ∧
    sideProduct (LS.new c d) (LS.new a b) = sideProduct (LS.new a b) (LS.new c d) := by
  refine ⟨sideProduct_vol a b c d, ?_, ?_, ?_⟩
  · rw [sideProduct_vol, vol4_coplanar]
  · simp only [sideProduct_eq]; ring
  · simp only [sideProduct_eq]; ring

/-- C22 case: two skew lines. -/
example : sideProduct (LS.new ⟨0, 0, 0⟩ ⟨1, 0, 0⟩) (LS.new ⟨0, 0, 1⟩ ⟨0, 1, 1⟩) = -1 := by
  simp only [sideProduct_eq]; norm_num

/-- C22: for a line that is not parallel to the triangle's plane, the three side products have a common
(weak) sign exactly when the line meets the triangle. -/
theorem C22_line_triangle (p P v1 v2 v3 : Vec3)
    (h : side (v1, v2, v3) p ≠ side (v1, v2, v3) P) :
    let s1 := sideProduct (LS.new p P) (LS.new v1 v2)
    let s2 := sideProduct (LS.new p P) (LS.new v2 v3)
    let s3 := sideProduct (LS.new p P) (LS.new v3 v1)
    ((0 ≤ s1 ∧ 0 ≤ s2 ∧ 0 ≤ s3) ∨ (s1 ≤ 0 ∧ s2 ≤ 0 ∧ s3 ≤ 0)) ↔
      ∃ s, InTri (v1, v2, v3) (lerp p P s) := by
  simp only [sideProduct_vol]
  exact tri_pattern h

/-- C22: together with the test on the products `s4`, `s5` it decides whether the segment meets the
triangle. -/
theorem C22_segment_triangle (p P v1 v2 v3 : Vec3)
    (h : side (v1, v2, v3) p ≠ side (v1, v2, v3) P) :
    let s1 := sideProduct (LS.new p P) (LS.new v1 v2)
    let s2 := sideProduct (LS.new p P) (LS.new v2 v3)
    let s3 := sideProduct (LS.new p P) (LS.new v3 v1)
    let s4 := sideProduct (LS.new P v1) (LS.new v2 v3)
    let s5 := sideProduct (LS.new v1 p) (LS.new v2 v3)
    (((0 ≤ s1 ∧ 0 ≤ s2 ∧ 0 ≤ s3) ∨ (s1 ≤ 0 ∧ s2 ≤ 0 ∧ s3 ≤ 0)) ∧ 0 ≤ s4 * s5) ↔
      ∃ s, 0 ≤ s ∧ s ≤ 1 ∧ InTri (v1, v2, v3) (lerp p P s) := by
  simp only [sideProduct_vol, (vol4_side P v1 v2 v3).1, (vol4_side p v1 v2 v3).2]
  rw [seg_pattern h, tri_pattern h]
  constructor
  · rintro ⟨h1, h2⟩; exact ⟨h1, by linarith⟩
  · rintro ⟨h1, h2⟩; exact ⟨h1, by linarith⟩

/-- C22 case: the segment from (1,1,-1) to (1,1,1) meets the triangle in (1,1,0). -/
example : side (⟨0, 0, 0⟩, ⟨10, 0, 0⟩, ⟨0, 10, 0⟩) ⟨1, 1, -1⟩ ≠
      side (⟨0, 0, 0⟩, ⟨10, 0, 0⟩, ⟨0, 10, 0⟩) ⟨1, 1, 1⟩ ∧
    InTri (⟨0, 0, 0⟩, ⟨10, 0, 0⟩, ⟨0, 10, 0⟩) (lerp ⟨1, 1, -1⟩ ⟨1, 1, 1⟩ (1 / 2)) := by
  refine ⟨by simp only [side]; norm_num,
    ⟨0.8, 0.1, 0.1, by norm_num, by norm_num, by norm_num, by norm_num, ?_⟩⟩
  ext <;> simp only [lerp] <;> norm_num

/-- C22: the coplanar case. For a line in the plane of a non-degenerate triangle,
`compute2DIntersection` is true exactly when the line meets the triangle, provided the products by which
it selects a corner off the plane are not non-zero but below its tolerance. -/
theorem C22_coplanar (p P v1 v2 v3 : Vec3) (hdeg : ¬ Collinear3 v1 v2 v3) (hne : p ≠ P)
    (hp : side (v1, v2, v3) p = 0) (hP : side (v1, v2, v3) P = 0)
    (htiny : ∀ q ∈ [(⟨v3.x + 1, v3.y, v3.z⟩ : Vec3), ⟨v3.x, v3.y + 1, v3.z⟩],
      vol4 p P v2 q = 0 ∨ 1e-16 ≤ |vol4 p P v2 q|) :
    compute2DIntersection ⟨v1, v2, v3⟩ (LS.new p P) = true ↔
      ∃ s, InTri (v1, v2, v3) (lerp p P s) :=
  compute2D_exact hdeg hne hp hP htiny

/-- C22 case: a line in the plane z = 0 that passes the triangle by. -/
example : compute2DIntersection ⟨⟨0, 0, 0⟩, ⟨10, 0, 0⟩, ⟨0, 10, 0⟩⟩ (LS.new ⟨11, 0, 0⟩ ⟨0, 11, 0⟩) =
    false := by
  rw [← Bool.not_eq_true, C22_coplanar]
  · rintro ⟨s, a, b, c, ha, hb, hc, hs, he⟩
    simp only [lerp, Vec3.mk.injEq] at he
    linarith [he.1, he.2.1]
  · rw [← cross_zero_collinear]
    intro h
    have := congrArg Vec3.z h
    simp [Vec3.cross] at this
  · intro h; have := congrArg Vec3.x h; norm_num at this
  · simp only [side]; norm_num
  · simp only [side]; norm_num
  · intro q hq
    left
    simp only [List.mem_cons, List.not_mem_nil, or_false] at hq
    rcases hq with rfl | rfl <;> simp only [vol4_eq] <;> norm_num

end Geo
