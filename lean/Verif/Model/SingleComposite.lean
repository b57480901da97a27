import Verif.Model.Single
import Verif.Model.Composite

/-!
# The ray query of composites with its casts to `float`

As in `Model/Single`, arithmetic in `double` is exact and the casts to `float` are the rounding `rnd`. With `rnd` the identity, the
functions are those of `Model/Composite` (`Lemmas/SingleComposite`).
-/

namespace Geo

/-- A `Box` seen as a `Shape`, include/geolib/Box.h:13-61, with the casts to `float` of its ray query, src/Box.cpp:31-61. -/
noncomputable def Box.toObjF (rnd : ℝ → ℝ) (b : Box) : ShapeObj :=
  { b.toObj with ray := fun r t0 t1 d => .ok (b.intersectRayF rnd r t0 t1 d) }

namespace Composite

/-- The loop of `CompositeShape::intersect(Ray)`, src/CompositeShape.cpp:40-54, as `rayLoop` but with the cast of `min_distance` to
`float` of line 49. -/
noncomputable def rayLoopF (rnd : ℝ → ℝ) (r : Ray) (t0 : ℝ) : List (ShapeObj × Transform3) → Bool → ℝ → Exec (Bool × ℝ)
  | [], hit, md => .ok (hit, md)
  | (shape, pose_inv) :: rest, hit, md => do
    let r_t := Ray.new (pose_inv.apply r.origin) (pose_inv.R.mulVec r.direction)
    let (h, d) ← shape.ray r_t t0 (rnd md) 0
    if h then rayLoopF rnd r t0 rest true d else rayLoopF rnd r t0 rest hit md

/-- `CompositeShape::intersect(const Ray&, float, float, double&)`, src/CompositeShape.cpp:30-63, with the casts to `float` of line 49
and of `Box::intersect` for the bounding box, line 32. -/
noncomputable def intersectRayF (rnd : ℝ → ℝ) (c : Composite) (r : Ray) (t0 t1 d0 : ℝ) : Exec (Bool × ℝ) :=
  let (b, d) := c.bb.intersectRayF rnd r t0 t1 d0
  if !b then .ok (false, d)
  else do
    let (hit, md) ← rayLoopF rnd r t0 c.shapes false t1
    if hit then return (true, md) else return (false, d)

/-- A composite seen as a `Shape`, include/geolib/CompositeShape.h:17-50, with the casts to `float` of its ray query,
src/CompositeShape.cpp:30-63. -/
noncomputable def toObjF (rnd : ℝ → ℝ) (c : Composite) : ShapeObj := { c.toObj with ray := c.intersectRayF rnd }

end Composite

end Geo
