import Verif.Model.Composite
import Verif.Spec.Shape
import Mathlib.Order.Bounds.Basic

/-!
# Specification vocabulary for composites
-/

namespace Geo.Spec

/-- The corners of the triangles. (Specification.) -/
def cornersOf (ts : List (Vec3 × Vec3 × Vec3)) : List Vec3 := ts.flatMap fun t => [t.1, t.2.1, t.2.2]

/-- The point lies in every half-space that contains all the given points, that is, in their convex
hull. (Specification.) -/
def InHull (S : List Vec3) (q : Vec3) : Prop :=
  ∀ a b c d : ℝ, (∀ x ∈ S, a * x.x + b * x.y + c * x.z ≤ d) → a * q.x + b * q.y + c * q.z ≤ d

/-- The triangles of a mesh (none if an index is invalid). (Specification.) -/
def trianglesOf (m : Mesh) : List (Vec3 × Vec3 × Vec3) := (soup m.points m.tris).getD []

/-- A mesh a client can build, with valid indices. (Specification.) -/
def GoodMesh (m : Mesh) : Prop := Reachable m ∧ Valid m.points m.tris

/-- The volumetric queries of the part never report anything outside the convex hull of its triangles,
and never fail. (Specification.) -/
structure WithinMesh (o : ShapeObj) : Prop where
  good : GoodMesh o.mesh
  contains : ∀ q, o.contains q = .ok true → InHull (cornersOf (trianglesOf o.mesh)) q
  sphere : ∀ q R, 0 < R → o.sphere q R = .ok true →
    ∃ x, InHull (cornersOf (trianglesOf o.mesh)) x ∧ dist q x ≤ R
  sphere0 : ∀ q R, R ≤ 0 → o.sphere q R = .ok true → InHull (cornersOf (trianglesOf o.mesh)) q
  total : ∀ q R, (∃ b, o.contains q = .ok b) ∧ (∃ b, o.sphere q R = .ok b)

/-- Ray-cast contract: for this ray and lower bound the part has at most one candidate distance `e`,
which is reported exactly when it is below the upper bound. (Specification.) -/
def Candidate (o : ShapeObj) (r : Ray) (t0 : ℝ) (e : Option ℝ) : Prop :=
  ∀ t1 d0, ∃ res, o.ray r t0 t1 d0 = .ok res ∧
    (res.1 = true ↔ ∃ x, e = some x ∧ x < t1) ∧ (res.1 = true → e = some res.2)

/-- The part's answer in the frame of the whole: `p` is the image of a point with the property.
(Specification.) -/
def Posed (T : Transform3) (P : Vec3 → Prop) (p : Vec3) : Prop := ∃ q, T.apply q = p ∧ P q

/-- All triangles of all parts, moved to the frame of the whole. (Specification.) -/
def posedTriangles (l : List (ShapeObj × Transform3)) : List (Vec3 × Vec3 × Vec3) :=
  l.flatMap fun x =>
    (trianglesOf x.1.mesh).map fun t => (x.2.apply t.1, x.2.apply t.2.1, x.2.apply t.2.2)

end Geo.Spec
