import Verif.Lemmas.FrameCases
import Verif.Props.Containment
import Verif.Props.Mesh

/-!
# Property C109: the queries of a mesh and the frame of its coordinates

The full statement is: if a mesh and a point are moved by the same proper rigid motion, `contains` and the sphere test give the same answer
as before. It is false (`C109_contains_wrong`, `C109_sphere_wrong`).
-/

namespace Geo

open Spec

/-! The mesh of the moved shape. -/

theorem moved_soup {s s' : Shape} {T : Transform3} (hm : s'.mesh = s.mesh.getTransformed T) {ts : List (Vec3 × Vec3 × Vec3)}
    (hs : soup s.mesh.points s.mesh.tris = some ts) : soup s'.mesh.points s'.mesh.tris = some (ts.map (moved T)) := by
  rw [hm]
  exact (C14_transform s.mesh T T T).2.1 ts hs

theorem moved_coherent {s s' : Shape} {T : Transform3} (hm : s'.mesh = s.mesh.getTransformed T) : s'.mesh.Coherent := by
  rw [hm]
  simp [Mesh.Coherent, Mesh.getTransformed, Mesh.new, Mesh.invalidateCache]

theorem moved_reachable {s s' : Shape} {T : Transform3} (hm : s'.mesh = s.mesh.getTransformed T) (h : Reachable s.mesh) :
    Reachable s'.mesh := by
  obtain ⟨ops, h⟩ := h
  refine ⟨ops ++ [.transform T], ?_⟩
  rw [hm]
  rw [run_append h]
  rfl

/-- C109 (partial): a closed mesh, any proper rigid motion, and a point that is outside or inside the solid: `contains` gives the same
answer in both frames. Missing for the full claim: probes within tolerance of a triangle's plane or edges or through a vertex, in either
frame (`C109_contains_wrong`), open meshes, and points that are neither outside nor enclosed. -/
theorem C109_closed_partial (s s' : Shape) (T : Transform3) (hT : Rotation T.R) (hm : Reachable s.mesh)
    (hm' : s'.mesh = s.mesh.getTransformed T)
    (ts ts' : List (Vec3 × Vec3 × Vec3)) (hs : soup s.mesh.points s.mesh.tris = some ts)
    (hs' : soup s'.mesh.points s'.mesh.tris = some ts')
    (hn : s.mesh.points.length ≤ 2 ^ 32) (hw : Watertight s.mesh.tris)
    (r r' : ℝ) (hr : IsRadius s.mesh.points r) (hr' : IsRadius s'.mesh.points r') (p : Vec3)
    (hc : ∀ t ∈ ts, Clear p ⟨1.1 * r, 0, 0⟩ t) (hc' : ∀ t ∈ ts', Clear (T.apply p) ⟨1.1 * r', 0, 0⟩ t)
    (hv : ∀ x ∈ s.mesh.tris.zip ts, ∀ i, contact p ⟨1.1 * r, 0, 0⟩ x ≠ some (.vertex i))
    (hv' : ∀ x ∈ s'.mesh.tris.zip ts', ∀ i, contact (T.apply p) ⟨1.1 * r', 0, 0⟩ x ≠ some (.vertex i))
    (hp : Escapes ts p ∨ Enclosed ts p) : s'.contains (T.apply p) = s.contains p := by
  have e : ts' = ts.map (moved T) := by
    have := moved_soup hm' hs
    rw [hs'] at this
    exact Option.some.inj this
  have hn' : s'.mesh.points.length ≤ 2 ^ 32 := by
    rw [hm']
    simpa [Mesh.getTransformed] using hn
  have hw' : Watertight s'.mesh.tris := by
    rw [hm']
    exact hw
  rcases hp with hp | hp
  · rw [C19_closed_partial s hm ts hs hn hw r hr p hc hv hp,
      C19_closed_partial s' (moved_reachable hm' hm) ts' hs' hn' hw' r' hr' _ hc' hv' (e ▸ escapes_move hT hp)]
  · rw [C86_closed_partial s hm ts hs hn hw r hr p hc hv hp,
      C86_closed_partial s' (moved_reachable hm' hm) ts' hs' hn' hw' r' hr' _ hc' hv' (e ▸ enclosed_move hT hp)]

/-- C109 (partial): turning about the x axis, the axis on which the far end of the probe lies. Any mesh with valid indices, closed or not,
and any point whose probe is not within tolerance of the plane of a triangle: `contains` gives the same answer. Missing for the full claim:
other motions, and probes in the plane of a triangle. -/
theorem C109_turn_partial (s s' : Shape) (T : Transform3) (hT : Rotation T.R) (hx : T.R.mulVec ⟨1, 0, 0⟩ = ⟨1, 0, 0⟩) (h0 : T.t = ⟨0, 0, 0⟩)
    (hm : Reachable s.mesh) (hm' : s'.mesh = s.mesh.getTransformed T)
    (ts : List (Vec3 × Vec3 × Vec3)) (hs : soup s.mesh.points s.mesh.tris = some ts)
    (r : ℝ) (hr : IsRadius s.mesh.points r) (p : Vec3)
    (hn : ∀ t ∈ ts, ∃ e ∈ rim t, 1e-16 < |vol4 p ⟨1.1 * r, 0, 0⟩ e.1 e.2|) :
    s'.contains (T.apply p) = s.contains p := by
  obtain ⟨hR, hR2, -⟩ := radius_eq hm.coherent hr
  have hr' : IsRadius s'.mesh.points r := by
    rw [hm']
    exact isRadius_turn h0 hT hr
  obtain ⟨hR', hR2', -⟩ := radius_eq (moved_coherent hm') hr'
  have hl : (T.apply p).length2 = p.length2 := by
    have := rigid_apply_sq (T := T) hT.1 p ⟨0, 0, 0⟩
    rw [apply_zero h0] at this
    simpa [distSq, Vec3.length2, pow_two] using this
  have hq : T.apply ⟨1.1 * r, 0, 0⟩ = ⟨1.1 * r, 0, 0⟩ := by
    have a := congrArg Vec3.x hx
    have b := congrArg Vec3.y hx
    have c := congrArg Vec3.z hx
    simp [Mat3.mulVec] at a b c
    ext <;> simp [Transform3.apply, Mat3.mulVec, h0, a, b, c]
  unfold Shape.contains Shape.containsMesh
  rw [hR, hR2, hR', hR2', hl]
  dsimp only
  split_ifs
  · rfl
  · rw [hm']
    have := containsLoop_move hT p ⟨1.1 * r, 0, 0⟩ hs hn ⟨0, fun _ => 0, fun _ => 0⟩
    rw [hq] at this
    exact this

/-- C109 (partial): the sphere test, for every mesh with valid indices, every proper rigid motion and every positive radius: if `contains`
gives the same answer in both frames, then the sphere test does, unless the nearest point of the mesh is farther away than the radius but not
beyond the tolerance of the test. Missing for the full claim: that band (`C109_sphere_wrong`), and what is missing for `contains`. -/
theorem C109_sphere_partial (s s' : Shape) (T : Transform3) (hT : Rotation T.R) (hm : Reachable s.mesh)
    (hm' : s'.mesh = s.mesh.getTransformed T)
    (ts : List (Vec3 × Vec3 × Vec3)) (hs : soup s.mesh.points s.mesh.tris = some ts)
    (p : Vec3) (R : ℝ) (hR : 0 < R)
    (hband : (∃ t ∈ ts, ∃ x, InTri t x ∧ Spec.dist p x ≤ R) ∨
      ∀ t ∈ ts, ∀ x, InTri t x → ∀ e ∈ rim t, R ^ 2 * (1 + 1e-9) + 1e-18 * distSq e.1 e.2 < distSq p x)
    (hcon : s'.contains (T.apply p) = s.contains p) :
    s'.intersectSphere (T.apply p) R = s.intersectSphere p R := by
  obtain ⟨a1, a2, a3⟩ := radius_eq hm.coherent (Mesh.sqMax_isRadius s.mesh.points)
  obtain ⟨b1, b2, b3⟩ := radius_eq (moved_coherent hm') (Mesh.sqMax_isRadius s'.mesh.points)
  have hrad := Mesh.sqMax_isRadius s.mesh.points
  have hrad' := Mesh.sqMax_isRadius s'.mesh.points
  generalize Real.sqrt (Mesh.sqMax s.mesh.points 0) = r at a1 a2 a3 hrad
  generalize Real.sqrt (Mesh.sqMax s'.mesh.points 0) = r' at b1 b2 b3 hrad'
  have hs' := moved_soup hm' hs
  have hloop : Shape.sphereLoop (T.apply p) (R * R) s'.mesh.points s'.mesh.tris =
      Shape.sphereLoop p (R * R) s.mesh.points s.mesh.tris := by
    rw [hm']
    exact sphereLoop_move hT p (R * R) s.mesh.points s.mesh.tris
  -- the early exit
  have early : ∀ (w : Shape) (q : Vec3) (ρ : ℝ), 0 ≤ ρ → w.mesh.getSquaredMaxRadius.2 = ρ ^ 2 → q.length - R > ρ →
      w.contains q = .ok false := by
    intro w q ρ h0 h2 h
    unfold Shape.contains Shape.containsMesh
    rw [h2, if_pos]
    have h1 : ρ < q.length := by linarith
    have : q.length ^ 2 = q.length2 := vlength_sq q
    rw [gt_iff_lt, ← this]
    nlinarith
  rcases hband with ⟨t, ht, x, hx, hd⟩ | hfar
  · have n1 : ∀ (ρ : ℝ) (ps : List Vec3) (is : List TriI) (us : List (Vec3 × Vec3 × Vec3)) (u : Vec3 × Vec3 × Vec3) (q y : Vec3),
        0 ≤ ρ → IsRadius ps ρ → soup ps is = some us → u ∈ us → InTri u y → Spec.dist q y ≤ R → ¬ q.length - R > ρ := by
      intro ρ ps is us u q y h0 hρ hus hu hy hd
      have h1 := inTri_radius hρ hus hu hy
      have h2 : y.length ≤ ρ := by
        rw [← vlength_sq] at h1
        exact abs_le_of_sq_le_sq' h1 h0 |>.2
      have h3 : q.length ≤ y.length + (q - y).length := by
        have e : q = y + (q - y) := by ext <;> simp
        calc q.length = (y + (q - y)).length := by rw [← e]
          _ ≤ y.length + (q - y).length := length_add_le y (q - y)
      rw [dist_length] at hd
      intro h
      linarith
    have m1 := n1 r _ _ _ t p x a3 hrad hs ht hx hd
    have m2 := n1 r' _ _ _ (moved T t) (T.apply p) (T.apply x) b3 hrad' hs' (List.mem_map.2 ⟨t, ht, rfl⟩) ((inTri_move hT t x).2 hx)
      (by unfold Spec.dist at hd ⊢; rw [rigid_apply_sq (T := T) hT.1]; exact hd)
    unfold Shape.intersectSphere Shape.intersectSphereMesh
    rw [a1, b1, if_neg m1, if_neg m2, if_pos hR, if_pos hR, hloop]
    unfold Shape.contains at hcon
    rw [hcon]
  · obtain ⟨b, hb, hiff⟩ := sphereLoop_true (p := p) (R2 := R * R) hs
    have hbf : b = false := by
      cases hb' : b with
      | false => rfl
      | true =>
        exfalso
        obtain ⟨t, ht, hhit⟩ := hiff.1 hb'
        obtain ⟨x, hx, e, he, hd⟩ := sphereHits_sound (mul_self_nonneg R) hhit
        have := hfar t ht x hx e he
        rw [pow_two] at this
        linarith
    rw [hbf] at hb
    have gen : ∀ (w : Shape) (q : Vec3) (ρ : ℝ), 0 ≤ ρ → w.mesh.getMaxRadius.2 = ρ → w.mesh.getSquaredMaxRadius.2 = ρ ^ 2 →
        Shape.sphereLoop q (R * R) w.mesh.points w.mesh.tris = .ok false → w.intersectSphere q R = w.contains q := by
      intro w q ρ h0 h1 h2 hw
      unfold Shape.intersectSphere Shape.intersectSphereMesh
      rw [h1]
      split_ifs with h
      · exact (early w q ρ h0 h2 h).symm
      · rw [hw]
        rfl
    rw [gen s p r a3 a1 a2 hb, gen s' _ r' b3 b1 b2 (hloop.trans hb), hcon]

/-- C109: the code violates the claim for `contains`. The solid box [0,1]x[0,2]x[0,2] and the point (1.5, 1, 0) outside it: the answer is
true, and after moving both by (10, 0, 0) it is false. -/
theorem C109_contains_wrong :
    ∃ (s s' : Shape) (T : Transform3) (p : Vec3), Rotation T.R ∧ Reachable s.mesh ∧ Watertight s.mesh.tris ∧
      s'.mesh = s.mesh.getTransformed T ∧ s.contains p = .ok true ∧ s'.contains (T.apply p) = .ok false := by
  refine ⟨⟨(Box.new ⟨0, 0, 0⟩ ⟨1, 2, 2⟩).mesh, false, 0, 0⟩, ⟨(Box.new ⟨0, 0, 0⟩ ⟨1, 2, 2⟩).mesh.getTransformed (shifted 10 0 0), false, 0, 0⟩,
    shifted 10 0 0, ⟨1.5, 1, 0⟩, shifted_rotation 10 0 0, box_reachable _ _, C19_coplanar_wrong.1, rfl, C19_coplanar_wrong.2.1, ?_⟩
  refine C19_beyond_partial _ (moved_reachable (s := ⟨(Box.new ⟨0, 0, 0⟩ ⟨1, 2, 2⟩).mesh, false, 0, 0⟩) rfl (box_reachable _ _))
    (Real.sqrt 129) ?_ _ ?_
  · have hp : ((Box.new ⟨0, 0, 0⟩ ⟨1, 2, 2⟩).mesh.getTransformed (shifted 10 0 0)).points =
        (corners8 ⟨0, 0, 0⟩ ⟨1, 2, 2⟩).map (shifted 10 0 0).apply :=
      congrArg (List.map _) (generateMesh_points ⟨_, _, Mesh.new⟩).2.2
    change IsRadius ((Box.new ⟨0, 0, 0⟩ ⟨1, 2, 2⟩).mesh.getTransformed (shifted 10 0 0)).points _
    rw [hp]
    constructor
    · intro q hq
      apply Real.sqrt_le_sqrt
      simp only [corners8, List.map_cons, List.map_nil, List.mem_cons, List.not_mem_nil, or_false] at hq
      rcases hq with rfl | rfl | rfl | rfl | rfl | rfl | rfl | rfl <;>
        norm_num [distSq, shifted, Transform3.apply, Mat3.mulVec]
    · left
      exact ⟨_, List.mem_map.2 ⟨⟨1, 2, 2⟩, by simp [corners8], rfl⟩, by norm_num [Spec.dist, distSq, shifted, Transform3.apply, Mat3.mulVec]⟩
  · apply Real.sqrt_lt_sqrt (by norm_num)
    norm_num [distSq, shifted, Transform3.apply, Mat3.mulVec]

/-- C109: the code violates the claim for the sphere test also where `contains` gives the same answer. A triangle with the edge from
(0, 0, 0) to (1, 0, 0) and the sphere with radius 1e-11 about (1 + 1e-10, 0, 0): the sphere is beyond the largest radius of the mesh and the
answer is false. After moving both by (-5, 0, 1) the answer is true, because the tolerance of the edge test accepts points beyond the end of
the edge. -/
theorem C109_sphere_wrong :
    ∃ (s s' : Shape) (T : Transform3) (p : Vec3) (R : ℝ), Rotation T.R ∧ Reachable s.mesh ∧ 0 < R ∧
      s'.mesh = s.mesh.getTransformed T ∧ s'.contains (T.apply p) = s.contains p ∧
      s.intersectSphere p R = .ok false ∧ s'.intersectSphere (T.apply p) R = .ok true := by
  obtain ⟨a1, a2, a3⟩ := radius_eq cornerMesh_reachable.coherent cornerMesh_radius
  obtain ⟨b1, b2, b3⟩ := radius_eq (m := cornerMesh.getTransformed (shifted (-5) 0 1))
    (moved_coherent (s := ⟨cornerMesh, false, 0, 0⟩) (s' := ⟨cornerMesh.getTransformed (shifted (-5) 0 1), false, 0, 0⟩) rfl)
    cornerMesh_shifted_radius
  have hp : (cornerMesh.getTransformed (shifted (-5) 0 1)).points = [⟨-5, 0, 1⟩, ⟨-4, 0, 1⟩, ⟨-5, 1, 1⟩] :=
    cornerMesh_shifted_points
  have ht : (cornerMesh.getTransformed (shifted (-5) 0 1)).tris = [⟨0, 1, 2⟩] := rfl
  have hq : (shifted (-5) 0 1).apply ⟨1 + 1e-10, 0, 0⟩ = ⟨-4 + 1e-10, 0, 1⟩ := by
    ext <;> norm_num [shifted, Transform3.apply, Mat3.mulVec]
  have c1 : (⟨cornerMesh, false, 0, 0⟩ : Shape).contains ⟨1 + 1e-10, 0, 0⟩ = .ok false := by
    unfold Shape.contains Shape.containsMesh
    dsimp only
    rw [a2, if_pos]
    norm_num [Vec3.length2]
  have c2 : (⟨cornerMesh.getTransformed (shifted (-5) 0 1), false, 0, 0⟩ : Shape).contains ⟨-4 + 1e-10, 0, 1⟩ = .ok false := by
    unfold Shape.contains Shape.containsMesh
    dsimp only
    split_ifs
    · rfl
    rw [b1, hp, ht]
    have : Shape.containsStep ⟨-4 + 1e-10, 0, 1⟩ ⟨1.1 * Real.sqrt 27, 0, 0⟩ ⟨0, 1, 2⟩ ⟨-5, 0, 1⟩ ⟨-4, 0, 1⟩ ⟨-5, 1, 1⟩
        ⟨0, fun _ => 0, fun _ => 0⟩ = .go ⟨0, fun _ => 0, fun _ => 0⟩ := by
      unfold Shape.containsStep
      dsimp only
      rw [if_pos]
      simp only [sideProduct_eq]
      norm_num
      exact ⟨.inr (by linarith), .inl (by linarith)⟩
    simp [Shape.containsLoop, vget, bind, Except.bind, this]
  refine ⟨⟨cornerMesh, false, 0, 0⟩, ⟨cornerMesh.getTransformed (shifted (-5) 0 1), false, 0, 0⟩, shifted (-5) 0 1, ⟨1 + 1e-10, 0, 0⟩, 1e-11,
    shifted_rotation _ _ _, cornerMesh_reachable, by norm_num, rfl, by rw [hq, c1, c2], ?_, ?_⟩
  · unfold Shape.intersectSphere Shape.intersectSphereMesh
    dsimp only
    rw [a1, if_pos]
    have : Vec3.length ⟨1 + 1e-10, 0, 0⟩ = 1 + 1e-10 := by
      unfold Vec3.length
      simp only [mul_zero, add_zero]
      exact Real.sqrt_mul_self (by norm_num)
    rw [this]
    norm_num
  · unfold Shape.intersectSphere Shape.intersectSphereMesh
    dsimp only
    rw [hq, b1, if_neg, if_pos (by norm_num), hp, ht]
    · have : Shape.sphereHitsTriangle ⟨-4 + 1e-10, 0, 1⟩ (1e-11 * 1e-11) ⟨-5, 0, 1⟩ ⟨-4, 0, 1⟩ ⟨-5, 1, 1⟩ = true := by
        have hc : checkLinesegment ⟨-4 + 1e-10, 0, 1⟩ (1e-11 * 1e-11) ⟨-5, 0, 1⟩ (⟨-4, 0, 1⟩ - ⟨-5, 0, 1⟩) = true := by
          unfold checkLinesegment
          norm_num [Vec3.dot, Vec3.length2]
        unfold Shape.sphereHitsTriangle
        simp [hc]
      simp [Shape.sphereLoop, vget, bind, Except.bind, pure, Except.pure, this]
    · rw [not_lt]
      have : Vec3.length ⟨-4 + 1e-10, 0, 1⟩ ≤ Real.sqrt 27 := by
        apply Real.sqrt_le_sqrt
        norm_num
      linarith

/-! Cases: a tetrahedron turned by a quarter about the z axis and by a quarter about the x axis, and a sphere about a point inside it. -/

example : (⟨tetraMesh.getTransformed quarterZ, false, 0, 0⟩ : Shape).contains (quarterZ.apply ⟨1/10, 1/5, 3/10⟩) =
    (⟨tetraMesh, false, 0, 0⟩ : Shape).contains ⟨1/10, 1/5, 3/10⟩ := by
  have hz : ∀ x ∈ tetraMesh.tris.zip tetraTs, x.2 ∈ tetraTs := fun x hx =>
    (List.of_mem_zip (a := x.1) (b := x.2) hx).2
  have hz' : ∀ x ∈ tetraMesh.tris.zip turnedTs, x.2 ∈ turnedTs := fun x hx =>
    (List.of_mem_zip (a := x.1) (b := x.2) hx).2
  have hw : Watertight tetraMesh.tris := by unfold Watertight edges tetraMesh; decide
  have e : tetraTs.map (moved quarterZ) = turnedTs := by
    have q : ∀ x y z, quarterZ.apply ⟨x, y, z⟩ = ⟨-y, x, z⟩ := by
      intro x y z
      ext <;> simp [quarterZ, Transform3.apply, Mat3.mulVec]
    simp only [tetraTs, turnedTs, List.map_cons, List.map_nil, moved, q]
    norm_num
  have hq : quarterZ.apply ⟨1/10, 1/5, 3/10⟩ = ⟨-1/5, 1/10, 3/10⟩ := by
    ext <;> norm_num [quarterZ, Transform3.apply, Mat3.mulVec]
  refine C109_closed_partial ⟨tetraMesh, false, 0, 0⟩ ⟨tetraMesh.getTransformed quarterZ, false, 0, 0⟩ quarterZ quarterZ_rotation
    tetra_reachable rfl tetraTs turnedTs rfl (e ▸ moved_soup (s := ⟨tetraMesh, false, 0, 0⟩) rfl rfl) (by simp [tetraMesh]) hw 3 3
    tetra_radius ?_ _ (fun t ht => (tetra_in' t ht).1) (fun t ht => hq ▸ (turned_in t ht).1)
    (fun x hx i => (tetra_in' x.2 (hz x hx)).2.1 x.1 i) (fun x hx i => hq ▸ (turned_in x.2 (hz' x hx)).2.1 x.1 i)
    (.inr (enclosed_convex tetra_convex tetra_face ?_))
  · exact isRadius_turn (by rfl) quarterZ_rotation tetra_radius
  · intro t ht
    simp only [tetraTs, List.mem_cons, List.not_mem_nil, or_false] at ht
    rcases ht with rfl | rfl | rfl | rfl <;> simp only [side] <;> norm_num

example : (⟨tetraMesh.getTransformed quarterX, false, 0, 0⟩ : Shape).contains (quarterX.apply ⟨-1, -1, 1⟩) =
    (⟨tetraMesh, false, 0, 0⟩ : Shape).contains ⟨-1, -1, 1⟩ :=
  C109_turn_partial ⟨tetraMesh, false, 0, 0⟩ ⟨tetraMesh.getTransformed quarterX, false, 0, 0⟩ quarterX quarterX_rotation
    (by ext <;> norm_num [quarterX, Mat3.mulVec]) rfl tetra_reachable rfl tetraTs rfl 3 tetra_radius _
    (fun t ht => ⟨_, List.mem_cons_self, (tetra_out t ht).2.2 _ List.mem_cons_self⟩)

example : (⟨tetraMesh.getTransformed quarterX, false, 0, 0⟩ : Shape).intersectSphere (quarterX.apply ⟨-1, -1, 1⟩) 4 =
    (⟨tetraMesh, false, 0, 0⟩ : Shape).intersectSphere ⟨-1, -1, 1⟩ 4 := by
  refine C109_sphere_partial ⟨tetraMesh, false, 0, 0⟩ ⟨tetraMesh.getTransformed quarterX, false, 0, 0⟩ quarterX quarterX_rotation
    tetra_reachable rfl tetraTs rfl _ 4 (by norm_num) (.inl ⟨(⟨2, 2, 1⟩, ⟨-2, 1, 2⟩, ⟨1, -2, 2⟩), by simp [tetraTs], ⟨1, -2, 2⟩, ?_, ?_⟩) ?_
  · exact ⟨0, 0, 1, by norm_num, by norm_num, by norm_num, by norm_num, by ext <;> simp⟩
  · rw [Spec.dist, Real.sqrt_le_left (by norm_num)]
    norm_num [distSq]
  · exact C109_turn_partial ⟨tetraMesh, false, 0, 0⟩ ⟨tetraMesh.getTransformed quarterX, false, 0, 0⟩ quarterX quarterX_rotation
      (by ext <;> norm_num [quarterX, Mat3.mulVec]) rfl tetra_reachable rfl tetraTs rfl 3 tetra_radius _
      (fun t ht => ⟨_, List.mem_cons_self, (tetra_out t ht).2.2 _ List.mem_cons_self⟩)

end Geo
