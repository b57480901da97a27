import Verif.Spec.RoundedShape

/-!
# Specification vocabulary for the sphere test of meshes in floating point arithmetic
-/

namespace Geo.Spec

/-- The triangle is not degenerate and the sine of each of its angles is at least `1 / K`: twice its area is the product of two
sides and the sine of the angle between them. (Specification.) -/
def Stout (K : ℝ) (t : Vec3 × Vec3 × Vec3) : Prop :=
  let A := 2 * heron t.1 t.2.1 t.2.2
  0 < A ∧ dist t.1 t.2.1 * dist t.2.1 t.2.2 ≤ K * A ∧ dist t.2.1 t.2.2 * dist t.2.2 t.1 ≤ K * A ∧
    dist t.2.2 t.1 * dist t.1 t.2.1 ≤ K * A

end Geo.Spec
