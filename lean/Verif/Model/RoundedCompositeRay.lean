import Verif.Model.RoundedComposite

/-!
# The ray query of composites in floating point arithmetic

As in `Model/RoundedComposite`, every operation on `double` is followed by the rounding `rnd`; the casts to `float` are the
rounding `toF`. With the identity for both the functions are those of `Model/Composite` (`C129_exact`). Simplifications: no
overflow, no subnormal numbers, no NaN; products and sums are not fused; the bounds `t0`, `t1` of a query are `float` already.
-/

namespace Geo.Rounded

/-- The loop of `CompositeShape::intersect(Ray)`, src/CompositeShape.cpp:40-54, with the constructor of the ray of line 46 and the
cast of `min_distance` to `float` of line 49. Simplification: `d` of line 48 starts as 0 instead of NaN (a part that reports a hit
sets it). -/
noncomputable def rayLoop (rnd toF : ℝ → ℝ) (r : Ray) (t0 : ℝ) : List (ShapeObj × Transform3) → Bool → ℝ → Exec (Bool × ℝ)
  | [], hit, md => .ok (hit, md)
  | (shape, pose_inv) :: rest, hit, md => do
    let r_t := rayNew rnd (apply rnd pose_inv r.origin) (mulVec rnd pose_inv.R r.direction)
    let (h, d) ← shape.ray r_t t0 (toF md) 0
    if h then rayLoop rnd toF r t0 rest true d else rayLoop rnd toF r t0 rest hit md

/-- `CompositeShape::intersect(const Ray&, float, float, double&)`, src/CompositeShape.cpp:30-63. Returns the flag and the value of
the out-parameter, whose initial value is `d0`. -/
noncomputable def compositeRay (rnd toF : ℝ → ℝ) (c : Composite) (r : Ray) (t0 t1 d0 : ℝ) : Exec (Bool × ℝ) :=
  let (b, d) := boxRay rnd toF c.bb r t0 t1 d0
  if !b then .ok (false, d)
  else do
    let (hit, md) ← rayLoop rnd toF r t0 c.shapes false t1
    if hit then return (true, md) else return (false, d)

end Geo.Rounded
