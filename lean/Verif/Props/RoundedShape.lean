import Verif.Lemmas.RoundedShape
import Verif.Props.Containment
import Verif.Props.Rounded

/-!
# The containment test in floating point arithmetic
-/

namespace Geo

open Spec

/-- Without rounding the function is that of `Model/Shape`. -/
theorem C100_exact (s : Shape) (hm : Reachable s.mesh) (p : Vec3) : Rounded.contains id s p = s.contains p := by
  have h1 : ∀ ps is st q, Rounded.containsLoop id p q ps is st = Shape.containsLoop p q ps is st := by
    intro ps is
    induction is with
    | nil => intro st q; rfl
    | cons i is ih =>
      intro st q
      unfold Rounded.containsLoop Shape.containsLoop
      simp only [ih]
      rfl
  have h2 := Mesh.getSquaredMaxRadius_ok hm.coherent
  have h3 := (Mesh.getMaxRadius_ok hm.coherent).1
  unfold Rounded.contains Shape.contains Shape.containsMesh
  rw [h2, h3]
  simp only [h1]
  rfl

/-- C100: the roundings do not change the answer of `contains` for a probe that is clear of the tolerances by a few hundred
rounding errors. -/
theorem C100_contains {u : ℝ} {rnd : ℝ → ℝ} (h : RelErr u rnd) (hu : u ≤ 1 / 1000) (s : Shape) (hm : Reachable s.mesh)
    (ts : List (Vec3 × Vec3 × Vec3)) (hs : soup s.mesh.points s.mesh.tris = some ts)
    (r : ℝ) (hr : IsRadius s.mesh.points r) (p : Vec3)
    (hd : Spec.dist p ⟨0, 0, 0⟩ ≤ (1 - 4 * u) * r ∨ (1 + 4 * u) * r < Spec.dist p ⟨0, 0, 0⟩)
    (hc : Spec.dist p ⟨0, 0, 0⟩ ≤ r → ∀ t ∈ ts, WellClear u r p ⟨1.1 * r, 0, 0⟩ t) :
    Rounded.contains rnd s p = s.contains p :=
  Rnd.contains ⟨(radius_eq hm.coherent hr).2.2, Rounded.relErr_nonneg h, hu, h⟩ hm.coherent hs hr hd hc

/-- C100: hence, for closed meshes, the computed answer is false for points outside and true for points inside. -/
theorem C100_solid {u : ℝ} {rnd : ℝ → ℝ} (h : RelErr u rnd) (hu : u ≤ 1 / 1000) (s : Shape) (hm : Reachable s.mesh)
    (ts : List (Vec3 × Vec3 × Vec3)) (hs : soup s.mesh.points s.mesh.tris = some ts) (hcl : ClosedSoup ts)
    (r : ℝ) (hr : IsRadius s.mesh.points r) (p : Vec3)
    (hd : Spec.dist p ⟨0, 0, 0⟩ ≤ (1 - 4 * u) * r ∨ (1 + 4 * u) * r < Spec.dist p ⟨0, 0, 0⟩)
    (hc : ∀ t ∈ ts, WellClear u r p ⟨1.1 * r, 0, 0⟩ t)
    (hseg : ∀ t ∈ ts, side t p * side t ⟨1.1 * r, 0, 0⟩ ≤ 0 ∨ 1e-16 < side t p * side t ⟨1.1 * r, 0, 0⟩)
    (hfar : ∀ t ∈ ts, 1e-12 ≤ |excess p t|) :
    (Escapes ts p → Rounded.contains rnd s p = .ok false) ∧ (Enclosed ts p → Rounded.contains rnd s p = .ok true) := by
  have hu0 := Rounded.relErr_nonneg h
  have h0 := (radius_eq hm.coherent hr).2.2
  have hgen : ∀ t ∈ ts, ∀ e ∈ rim t, 1e-16 < |vol4 p ⟨1.1 * r, 0, 0⟩ e.1 e.2| := by
    intro t ht e he
    have := (hc t ht).edges e he
    have : 0 ≤ u * r ^ 3 := by positivity
    linarith
  rw [C100_contains h hu s hm ts hs r hr p hd (fun _ => hc)]
  exact ⟨C19_generic_partial s hm ts hs hcl r hr p hgen hseg hfar, C86_generic_partial s hm ts hs hcl r hr p hgen hseg hfar⟩

/-- C100 cases: the tetrahedron with corners at distance 3, in `double`. The probe from (-1, -1, 1) enters the tetrahedron
and leaves it again, the probe from the origin leaves it. -/
example : Rounded.contains toDouble ⟨tetraMesh, false, 0, 0⟩ ⟨-1, -1, 1⟩ = .ok false ∧
    Rounded.contains toDouble ⟨tetraMesh, false, 0, 0⟩ ⟨0, 0, 0⟩ = .ok true := by
  have hw : Watertight tetraMesh.tris := by unfold Watertight edges tetraMesh; decide
  have hcl : ClosedSoup tetraTs := watertight_closed (ps := tetraMesh.points) rfl hw
  constructor
  · refine (C100_solid C93_roundings.1 (by norm_num) ⟨tetraMesh, false, 0, 0⟩ tetra_reachable tetraTs rfl hcl 3
      tetra_radius _ (.inl ?_) tetra_well_out (fun t ht => (tetra_out t ht).1.sides)
      (fun t ht => (tetra_out t ht).1.offFace)).1 ?_
    · rw [Spec.dist, Real.sqrt_le_left (by norm_num)]; norm_num [distSq]
    · exact escapes_side (t := (⟨-2, 1, 2⟩, ⟨-1, -2, -2⟩, ⟨1, -2, 2⟩)) (tetra_convex _ (by simp [tetraTs]))
        (by simp only [side]; norm_num)
  · refine (C100_solid C93_roundings.1 (by norm_num) ⟨tetraMesh, false, 0, 0⟩ tetra_reachable tetraTs rfl hcl 3
      tetra_radius _ (.inl ?_) tetra_well_in (fun t ht => (tetra_in t ht).1.sides)
      (fun t ht => (tetra_in t ht).1.offFace)).2 ?_
    · rw [Spec.dist, Real.sqrt_le_left (by norm_num)]; norm_num [distSq]
    · refine enclosed_convex tetra_convex tetra_face ?_
      intro t ht
      simp only [tetraTs, List.mem_cons, List.not_mem_nil, or_false] at ht
      rcases ht with rfl | rfl | rfl | rfl <;> simp only [side] <;> norm_num

end Geo
