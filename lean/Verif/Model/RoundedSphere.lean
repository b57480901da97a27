import Verif.Model.RoundedBox

/-!
# The sphere test of meshes in floating point arithmetic

`Shape::intersect(p, radius)` with the rounding `rnd` after every operation, as in `Model/RoundedShape`. With `rnd` the identity
the functions are those of `Model/Shape` (`C125_exact`). Simplifications: no overflow and no subnormal numbers; products and
sums are not fused.
-/

namespace Geo.Rounded

open Classical in
/-- `checkLinesegment`, src/Shape.cpp:38-50. For a zero-length segment line 48 computes 0/0 = NaN and both comparisons of
line 49 fail. -/
noncomputable def checkLinesegment (rnd : ℝ → ℝ) (p : Vec3) (radius2 : ℝ) (a ab : Vec3) : Bool :=
  let ap := sub rnd p a
  let d1_2 := length2 rnd ap
  let d2 := dot rnd ab ap
  if d2 < 0 then false
  else if length2 rnd ab = 0 then false
  else
    let d2_2 := rnd (rnd (d2 * d2) / length2 rnd ab)
    let slack := rnd (1 + rnd 1e-9)
    decide (d2_2 ≤ rnd (length2 rnd ab * slack) ∧ rnd (d1_2 - d2_2) ≤ rnd (radius2 * slack))

open Classical in
/-- The last part of an iteration of the loop of `Shape::intersect(p, RADIUS)`, src/Shape.cpp:245-266: the test of the surface
of a triangle with edges `e1`, `e2`, `e3`. For a triangle with zero normal line 248 computes 0/0 = NaN, so that neither the
comparison of line 250 nor those of line 265 hold. -/
noncomputable def sphereHitsFace (rnd : ℝ → ℝ) (p : Vec3) (radius2 : ℝ) (v1 v2 v3 e1 e2 e3 : Vec3) : Bool :=
  let n := cross rnd e1 e2
  let pd := dot rnd (sub rnd v1 p) n
  if length2 rnd n = 0 then false
  else
  let pd2 := rnd (rnd (pd * pd) / length2 rnd n)
  if pd2 > radius2 then false
  else
  let s := rnd (Real.sqrt pd2)
  let m := normalized rnd n
  let q := sub rnd p ⟨rnd (m.x * s), rnd (m.y * s), rnd (m.z * s)⟩
  let cross1 := cross rnd e1 (sub rnd q v1)
  let cross2 := cross rnd e2 (sub rnd q v2)
  let cross3 := cross rnd e3 (sub rnd q v3)
  decide (dot rnd cross1 cross2 > 0 ∧ dot rnd cross2 cross3 > 0 ∧ dot rnd cross3 cross1 > 0)

open Classical in
/-- One iteration of the loop of `Shape::intersect(p, RADIUS)`, src/Shape.cpp:221-266: true for `return true`. -/
noncomputable def sphereHitsTriangle (rnd : ℝ → ℝ) (p : Vec3) (radius2 : ℝ) (v1 v2 v3 : Vec3) : Bool :=
  if length2 rnd (sub rnd v1 p) < radius2 then true
  else if length2 rnd (sub rnd v2 p) < radius2 then true
  else if length2 rnd (sub rnd v3 p) < radius2 then true
  else
  let e1 := sub rnd v2 v1
  let e2 := sub rnd v3 v2
  let e3 := sub rnd v1 v3
  if checkLinesegment rnd p radius2 v1 e1 then true
  else if checkLinesegment rnd p radius2 v2 e2 then true
  else if checkLinesegment rnd p radius2 v3 e3 then true
  else sphereHitsFace rnd p radius2 v1 v2 v3 e1 e2 e3

/-- The loop of `Shape::intersect(p, RADIUS)`, src/Shape.cpp:219-267: true if some iteration returned true. -/
noncomputable def sphereLoop (rnd : ℝ → ℝ) (p : Vec3) (radius2 : ℝ) (points : List Vec3) : List TriI → Exec Bool
  | [] => .ok false
  | it :: ts => do
    let v1 ← vget points it.i1
    let v2 ← vget points it.i2
    let v3 ← vget points it.i3
    if sphereHitsTriangle rnd p radius2 v1 v2 v3 then return true
    else sphereLoop rnd p radius2 points ts

open Classical in
/-- `Shape::intersect(const Vector3&, double)`, src/Shape.cpp:205-270. -/
noncomputable def intersectSphere (rnd : ℝ → ℝ) (s : Shape) (p : Vec3) (radius : ℝ) : Exec Bool :=
  if rnd (length rnd p - radius) > maxRadius rnd s.mesh.points then .ok false
  else if radius > 0 then do
    let hit ← sphereLoop rnd p (rnd (radius * radius)) s.mesh.points s.mesh.tris
    if hit then return true else contains rnd s p
  else contains rnd s p

end Geo.Rounded
