import Verif.Lemmas.RoundedSphereMesh
import Verif.Props.RoundedShape
import Verif.Props.Rounded

/-!
# C125: the sphere test of meshes in floating point arithmetic
-/

namespace Geo

open Spec RoundedSphere

/-- C125: without roundings it is the sphere test of the exact model. -/
theorem C125_exact (s : Shape) (hm : Reachable s.mesh) (p : Vec3) (R : ℝ) :
    Rounded.intersectSphere id s p R = s.intersectSphere p R := by
  have h0 : ∀ (q : Vec3) (R2 : ℝ) (a ab : Vec3), Rounded.checkLinesegment id q R2 a ab = checkLinesegment q R2 a ab :=
    fun _ _ _ _ => rfl
  have h1 : ∀ (q : Vec3) (R2 : ℝ) (v1 v2 v3 : Vec3),
      Rounded.sphereHitsTriangle id q R2 v1 v2 v3 = Shape.sphereHitsTriangle q R2 v1 v2 v3 :=
    fun _ _ _ _ _ => rfl
  have h2 : ∀ (R2 : ℝ) ps is, Rounded.sphereLoop id p R2 ps is = Shape.sphereLoop p R2 ps is := by
    intro R2 ps is
    induction is with
    | nil => rfl
    | cons i is ih =>
      unfold Rounded.sphereLoop Shape.sphereLoop
      simp only [ih, h1]
  have h3 := (Mesh.getMaxRadius_ok hm.coherent).1
  have h4 := C100_exact s hm p
  unfold Rounded.intersectSphere Shape.intersectSphere Shape.intersectSphereMesh
  rw [h3]
  simp only [h2]
  rw [h4]
  rfl

/-- C125: a sphere that contains a point of an edge of some triangle by more than 40 rounding errors is reported, from either
side of the triangle and whatever its shape. The errors are relative to the square of the distance of the centre from the
origin plus the radius of the mesh. -/
theorem C125_edges {u : ℝ} {rnd : ℝ → ℝ} (h : RelErr u rnd) (hu : u ≤ 1e-11) (s : Shape) (hm : Reachable s.mesh)
    (ts : List (Vec3 × Vec3 × Vec3)) (hs : soup s.mesh.points s.mesh.tris = some ts)
    (r : ℝ) (hr : IsRadius s.mesh.points r) (p : Vec3) (R : ℝ) (hR : 0 < R) (t : Vec3 × Vec3 × Vec3) (ht : t ∈ ts) (y : Vec3)
    (hy : OnRim t y) (hd : distSq p y + 40 * u * (Spec.dist p ⟨0, 0, 0⟩ + r) ^ 2 < R ^ 2) :
    Rounded.intersectSphere rnd s p R = .ok true := by
  have hr0 := (radius_eq hm.coherent hr).2.2
  rw [Mesh.dist_origin] at hd
  have hyt : InTri t y := by
    obtain ⟨a, b, c, ha, hb, hc, hsum, -, e⟩ := hy
    exact ⟨a, b, c, ha, hb, hc, hsum, e⟩
  have hp0 : 0 ≤ p.length := Real.sqrt_nonneg _
  obtain ⟨c1, c2, c3⟩ := corners_near hr hr0 hs ht p
  exact mesh_true hs hR (early h hu hr hr0 hR (inTri_radius hr hs ht hyt) hd) ht
    (rim_complete h hu (by linarith) c1 c2 c3 hy hd)

/-- C125: a sphere with its centre on the front side of a triangle that contains a point of the triangle by more than 100 K
rounding errors is reported, if the sines of the angles of the triangle are at least 1 / K. -/
theorem C125_faces {u : ℝ} {rnd : ℝ → ℝ} (h : RelErr u rnd) (hu : u ≤ 1e-11) (s : Shape) (hm : Reachable s.mesh)
    (ts : List (Vec3 × Vec3 × Vec3)) (hs : soup s.mesh.points s.mesh.tris = some ts)
    (r : ℝ) (hr : IsRadius s.mesh.points r) (p : Vec3) (R : ℝ) (hR : 0 < R) (t : Vec3 × Vec3 × Vec3) (ht : t ∈ ts) (x : Vec3)
    (K : ℝ) (hK : 1 ≤ K) (hKu : K * u ≤ 1 / 1000) (hst : Stout K t) (hfront : 0 ≤ side t p)
    (hx : InTri t x) (hd : distSq p x + 100 * K * u * (Spec.dist p ⟨0, 0, 0⟩ + r) ^ 2 < R ^ 2) :
    Rounded.intersectSphere rnd s p R = .ok true := by
  have hu0 := Rounded.relErr_nonneg h
  have hr0 := (radius_eq hm.coherent hr).2.2
  rw [Mesh.dist_origin] at hd
  have hp0 : 0 ≤ p.length := Real.sqrt_nonneg _
  obtain ⟨c1, c2, c3⟩ := corners_near hr hr0 hs ht p
  have hKD : 1 * (u * (p.length + r) ^ 2) ≤ K * (u * (p.length + r) ^ 2) := mul_le_mul_of_nonneg_right hK (by positivity)
  have huD : 0 ≤ u * (p.length + r) ^ 2 := by positivity
  have hd' : distSq p x + 40 * u * (p.length + r) ^ 2 < R ^ 2 := by
    change distSq p x + 100 * K * u * (p.length + r) ^ 2 < R ^ 2 at hd
    linarith
  refine mesh_true hs hR (early h hu hr hr0 hR (inTri_radius hr hs ht hx) hd') ht ?_
  refine triangle_complete h hu hK hKu ?_ (by linarith) (by linarith) c1 c2 c3 hx hfront
    (by change distSq p x + 100 * K * u * (p.length + r) ^ 2 < R ^ 2 at hd; linarith)
  have := hst.2.1
  simp only [dist_length'] at this
  rwa [heron_cross] at this

/-- C125: a positive answer means that the computed containment test is positive or that some point of some triangle is within
the radius, up to the tolerance 1e-9 of the code and 25000 K³ rounding errors, if the sines of all angles are at least 1 / K. -/
theorem C125_sound {u : ℝ} {rnd : ℝ → ℝ} (h : RelErr u rnd) (hu : u ≤ 1e-11) (s : Shape) (hm : Reachable s.mesh)
    (ts : List (Vec3 × Vec3 × Vec3)) (hs : soup s.mesh.points s.mesh.tris = some ts)
    (r : ℝ) (hr : IsRadius s.mesh.points r) (p : Vec3) (R : ℝ)
    (K : ℝ) (hK : 1 ≤ K) (hKu : K * u ≤ 1 / 1000) (hst : ∀ t ∈ ts, Stout K t)
    (hh : Rounded.intersectSphere rnd s p R = .ok true) :
    Rounded.contains rnd s p = .ok true ∨ ∃ t ∈ ts, ∃ x, InTri t x ∧ ∃ e ∈ rim t,
      distSq p x ≤ R ^ 2 * (1 + 2e-9) + 1e-17 * distSq e.1 e.2 + 25000 * K ^ 3 * u * (Spec.dist p ⟨0, 0, 0⟩ + r) ^ 2 := by
  have hr0 := (radius_eq hm.coherent hr).2.2
  rw [Mesh.dist_origin, show Real.sqrt p.length2 = p.length from rfl]
  have hp0 : 0 ≤ p.length := Real.sqrt_nonneg _
  unfold Rounded.intersectSphere at hh
  split_ifs at hh with g0 g1
  · simp at hh
  · obtain ⟨b, hb, hiff⟩ := sphereLoop_true' (rnd := rnd) (p := p) (R2 := rnd (R * R)) hs
    rw [hb] at hh
    simp only [bind, Except.bind] at hh
    split_ifs at hh with hbt
    · right
      obtain ⟨t, ht, hhit⟩ := hiff.1 hbt
      obtain ⟨c1, c2, c3⟩ := corners_near hr hr0 hs ht p
      exact ⟨t, ht, triangle_sound h hu hK hKu (hst t ht) (by linarith) (by linarith) c1 c2 c3 hhit⟩
    · exact Or.inl hh
  · exact Or.inl hh

/-- C125 cases: one triangle, in `double`. A sphere that just reaches the inside of the triangle from its front side is
reported, and so is one that reaches an edge from the back side. -/
example :
    let s : Shape := ⟨⟨[⟨0, 0, 0⟩, ⟨10, 0, 0⟩, ⟨0, 10, 0⟩], [⟨0, 1, 2⟩], [], 0, 0⟩, false, 0, 0⟩
    Rounded.intersectSphere toDouble s ⟨2, 2, 1.9⟩ 1.95 = .ok true ∧
    Rounded.intersectSphere toDouble s ⟨5, -1, -0.5⟩ 1.2 = .ok true := by
  have hm : Reachable ⟨[⟨0, 0, 0⟩, ⟨10, 0, 0⟩, ⟨0, 10, 0⟩], [⟨0, 1, 2⟩], [], 0, 0⟩ :=
    ⟨[.addPoint ⟨0, 0, 0⟩, .addPoint ⟨10, 0, 0⟩, .addPoint ⟨0, 10, 0⟩, .addTriangle 0 1 2], rfl⟩
  have hr : IsRadius [⟨0, 0, 0⟩, ⟨10, 0, 0⟩, ⟨0, 10, 0⟩] 10 := by
    have h0 : Spec.dist ⟨10, 0, 0⟩ ⟨0, 0, 0⟩ = 10 := by
      rw [Spec.dist, show distSq ⟨10, 0, 0⟩ ⟨0, 0, 0⟩ = 10 ^ 2 by norm_num [distSq]]; exact Real.sqrt_sq (by norm_num)
    refine ⟨?_, Or.inl ⟨⟨10, 0, 0⟩, by simp, h0⟩⟩
    intro v hv
    simp only [List.mem_cons, List.not_mem_nil, or_false] at hv
    rcases hv with rfl | rfl | rfl <;> (rw [Spec.dist, Real.sqrt_le_left (by norm_num)]; norm_num [distSq])
  have hst : Stout 1.5 (⟨0, 0, 0⟩, ⟨10, 0, 0⟩, ⟨0, 10, 0⟩) := by
    have hA : 2 * heron ⟨0, 0, 0⟩ ⟨10, 0, 0⟩ ⟨0, 10, 0⟩ = 100 := by
      rw [heron_area4, show area4 ⟨0, 0, 0⟩ ⟨10, 0, 0⟩ ⟨0, 10, 0⟩ = 100 ^ 2 by norm_num [area4], Real.sqrt_sq (by norm_num)]
      norm_num
    have d1 : Spec.dist ⟨0, 0, 0⟩ ⟨10, 0, 0⟩ = 10 := by
      rw [Spec.dist, show distSq ⟨0, 0, 0⟩ ⟨10, 0, 0⟩ = 10 ^ 2 by norm_num [distSq]]; exact Real.sqrt_sq (by norm_num)
    have d3 : Spec.dist ⟨0, 10, 0⟩ ⟨0, 0, 0⟩ = 10 := by
      rw [Spec.dist, show distSq ⟨0, 10, 0⟩ ⟨0, 0, 0⟩ = 10 ^ 2 by norm_num [distSq]]; exact Real.sqrt_sq (by norm_num)
    have d2 : Spec.dist ⟨10, 0, 0⟩ ⟨0, 10, 0⟩ ≤ 15 := by
      rw [Spec.dist, Real.sqrt_le_left (by norm_num)]; norm_num [distSq]
    unfold Stout
    simp only [hA, d1, d3]
    refine ⟨by norm_num, ?_, ?_, ?_⟩ <;> linarith
  intro s
  constructor
  · have hp : Spec.dist ⟨2, 2, 1.9⟩ ⟨0, 0, 0⟩ ≤ 4 := by
      rw [Spec.dist, Real.sqrt_le_left (by norm_num)]; norm_num [distSq]
    have hp0 : 0 ≤ Spec.dist ⟨2, 2, 1.9⟩ ⟨0, 0, 0⟩ := Real.sqrt_nonneg _
    refine C125_faces C93_roundings.1 (by norm_num) s hm [(⟨0, 0, 0⟩, ⟨10, 0, 0⟩, ⟨0, 10, 0⟩)] rfl 10 hr _ _ (by norm_num) _
      (List.mem_singleton.2 rfl) ⟨2, 2, 0⟩ 1.5 (by norm_num) (by norm_num) hst (by simp only [side]; norm_num)
      ⟨0.6, 0.2, 0.2, by norm_num, by norm_num, by norm_num, by norm_num, by ext <;> norm_num⟩ ?_
    have : (Spec.dist ⟨2, 2, 1.9⟩ ⟨0, 0, 0⟩ + 10) ^ 2 ≤ 14 ^ 2 := pow_le_pow_left₀ (by linarith) (by linarith) 2
    norm_num [distSq] at this ⊢
    linarith
  · have hp : Spec.dist ⟨5, -1, -0.5⟩ ⟨0, 0, 0⟩ ≤ 6 := by
      rw [Spec.dist, Real.sqrt_le_left (by norm_num)]; norm_num [distSq]
    have hp0 : 0 ≤ Spec.dist ⟨5, -1, -0.5⟩ ⟨0, 0, 0⟩ := Real.sqrt_nonneg _
    refine C125_edges C93_roundings.1 (by norm_num) s hm [(⟨0, 0, 0⟩, ⟨10, 0, 0⟩, ⟨0, 10, 0⟩)] rfl 10 hr _ _ (by norm_num) _
      (List.mem_singleton.2 rfl) ⟨5, 0, 0⟩
      ⟨0.5, 0.5, 0, by norm_num, by norm_num, by norm_num, by norm_num, by norm_num, by ext <;> norm_num⟩ ?_
    have : (Spec.dist ⟨5, -1, -0.5⟩ ⟨0, 0, 0⟩ + 10) ^ 2 ≤ 16 ^ 2 := pow_le_pow_left₀ (by linarith) (by linarith) 2
    norm_num [distSq] at this ⊢
    linarith

/-- C125 case: the tetrahedron with corners at distance 3, in `double`. A sphere of radius 0.3 around a point outside at
distance 1/3 from the nearest face is not reported. -/
example : Rounded.intersectSphere toDouble ⟨tetraMesh, false, 0, 0⟩ ⟨-1, -1, 1⟩ 0.3 ≠ .ok true := by
  intro hh
  have hw : Watertight tetraMesh.tris := by unfold Watertight edges tetraMesh; decide
  have hcl : ClosedSoup tetraTs := watertight_closed (ps := tetraMesh.points) rfl hw
  have hp : Spec.dist ⟨-1, -1, 1⟩ ⟨0, 0, 0⟩ ≤ 2 := by
    rw [Spec.dist, Real.sqrt_le_left (by norm_num)]; norm_num [distSq]
  have hp0 : 0 ≤ Spec.dist ⟨-1, -1, 1⟩ ⟨0, 0, 0⟩ := Real.sqrt_nonneg _
  have hc : Rounded.contains toDouble ⟨tetraMesh, false, 0, 0⟩ ⟨-1, -1, 1⟩ = .ok false := by
    refine (C100_solid C93_roundings.1 (by norm_num) ⟨tetraMesh, false, 0, 0⟩ tetra_reachable tetraTs rfl hcl 3
      tetra_radius _ (.inl ?_) tetra_well_out (fun t ht => (tetra_out t ht).1.sides)
      (fun t ht => (tetra_out t ht).1.offFace)).1 ?_
    · rw [Spec.dist, Real.sqrt_le_left (by norm_num)]; norm_num [distSq]
    · exact escapes_side (t := (⟨-2, 1, 2⟩, ⟨-1, -2, -2⟩, ⟨1, -2, 2⟩)) (tetra_convex _ (by simp [tetraTs]))
        (by simp only [side]; norm_num)
  have hst : ∀ t ∈ tetraTs, Stout 3 t := by
    intro t ht
    simp only [tetraTs, List.mem_cons, List.not_mem_nil, or_false] at ht
    rcases ht with rfl | rfl | rfl | rfl
    all_goals
      refine stout_of (a := 6) (b := 6) (c := 6) (L := 15) (by norm_num) (by norm_num) (by norm_num) (by norm_num)
        (by norm_num) ?_ ?_ ?_ ?_ (by norm_num) (by norm_num) (by norm_num) <;> norm_num [distSq, area4]
  rcases C125_sound C93_roundings.1 (by norm_num) _ tetra_reachable tetraTs rfl 3 tetra_radius _ _ 3 (by norm_num)
    (by norm_num) hst hh with h | ⟨t, ht, x, hx, e, he, hd⟩
  · rw [hc] at h; simp at h
  · have h5 : (Spec.dist ⟨-1, -1, 1⟩ ⟨0, 0, 0⟩ + 3) ^ 2 ≤ 5 ^ 2 := pow_le_pow_left₀ (by linarith) (by linarith) 2
    have h6 : distSq e.1 e.2 ≤ 36 := by
      simp only [tetraTs, List.mem_cons, List.not_mem_nil, or_false] at ht
      rcases ht with rfl | rfl | rfl | rfl <;> simp only [rim, List.mem_cons, List.not_mem_nil, or_false] at he <;>
        rcases he with rfl | rfl | rfl <;> norm_num [distSq]
    have h7 : 0.1 ≤ distSq ⟨-1, -1, 1⟩ x := by
      simp only [tetraTs, List.mem_cons, List.not_mem_nil, or_false] at ht
      rcases ht with rfl | rfl | rfl | rfl
      all_goals
        have h8 := side_le (p := ⟨-1, -1, 1⟩) hx
        norm_num [side, area4] at h8
        linarith
    norm_num at hd h5
    linarith

end Geo
