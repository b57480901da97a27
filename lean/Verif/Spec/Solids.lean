import Verif.Spec.Shapes
import Verif.Spec.Shape

/-!
# Specification vocabulary for the solids made of cylinders and prisms
-/

namespace Geo.Spec

/-- On which side of the edge from corner `i` to the next corner a point is: positive on the left, negative on the right.
(Specification.) -/
def leftOf (f : ℕ → Vec2) (n i : ℕ) (x y : ℝ) : ℝ :=
  ((f ((i + 1) % n)).x - (f i).x) * (y - (f i).y) - ((f ((i + 1) % n)).y - (f i).y) * (x - (f i).x)

/-- A strictly convex polygon in clockwise order: at least three corners, all corners that are not on an edge are right of it.
(Specification.) -/
def StrictlyConvex (f : ℕ → Vec2) (n : ℕ) : Prop :=
  3 ≤ n ∧ ∀ i < n, ∀ k < n, k ≠ i → k ≠ (i + 1) % n → leftOf f n i (f k).x (f k).y < 0

/-- The point is in the prism of height `h` over the polygon, not on its surface. (Specification.) -/
def Within (f : ℕ → Vec2) (n : ℕ) (h : ℝ) (p : Vec3) : Prop :=
  -(h / 2) < p.z ∧ p.z < h / 2 ∧ ∀ i < n, leftOf f n i p.x p.y < 0

/-- The point is outside the prism of height `h` over the polygon. (Specification.) -/
def Beyond (f : ℕ → Vec2) (n : ℕ) (h : ℝ) (p : Vec3) : Prop :=
  p.z < -(h / 2) ∨ h / 2 < p.z ∨ ∃ i < n, 0 < leftOf f n i p.x p.y

/-- The probe segment from `p` to `q` has a clear relation to every triangle of the mesh. (Specification.) -/
def ClearProbe (m : Mesh) (p q : Vec3) : Prop :=
  ∃ ts, soup m.points m.tris = some ts ∧ ∀ t ∈ ts, Clear p q t

/-- The segment from `p` to `q` passes through no vertex of the mesh. (Specification.) -/
def AvoidsVertices (m : Mesh) (p q : Vec3) : Prop :=
  ∀ v ∈ m.points, ∀ s : ℝ, 0 ≤ s → s ≤ 1 → lerp p q s ≠ v

end Geo.Spec
