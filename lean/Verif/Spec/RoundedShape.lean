import Verif.Spec.Rounded
import Verif.Spec.Shape

/-!
# Specification vocabulary for the containment test in floating point arithmetic
-/

namespace Geo.Spec

/-- The line through `p` and `q` passes the edges of the triangle all on the same side, that is, through its inside.
(Specification.) -/
def Pierced (p q : Vec3) (t : Vec3 × Vec3 × Vec3) : Prop :=
  (∀ e ∈ rim t, 0 < vol4 p q e.1 e.2) ∨ (∀ e ∈ rim t, vol4 p q e.1 e.2 < 0)

/-- How much larger the triangles from `p` to the edges are together than the triangle. (Specification.) -/
noncomputable def excess (p : Vec3) (t : Vec3 × Vec3 × Vec3) : ℝ :=
  heron t.2.1 p t.2.2 + heron p t.1 t.2.2 + heron p t.1 t.2.1 - heron t.1 t.2.1 t.2.2

/-- The probe from `p` to `q` is clear of the tolerances by more than rounding errors of relative size `u` on coordinates of
size `r`: the line is off the edges; if it goes through the triangle, the ends of the probe are off the plane of the
triangle, and the area test is not near its tolerance. (Specification.) -/
structure WellClear (u r : ℝ) (p q : Vec3) (t : Vec3 × Vec3 × Vec3) : Prop where
  edges : ∀ e ∈ rim t, (1 + u) * 1e-16 + 300 * u * r ^ 3 < |vol4 p q e.1 e.2|
  ends : Pierced p q t → 2e-8 + 300 * u * r ^ 3 < |side t p| ∧ 2e-8 + 300 * u * r ^ 3 < |side t q|
  face : Pierced p q t → u * 1e-12 + 300 * u * r ^ 2 < |(|excess p t| - 1e-12)|

end Geo.Spec
