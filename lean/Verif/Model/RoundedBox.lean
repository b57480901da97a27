import Verif.Model.Box
import Verif.Model.RoundedShape

/-!
# Rays and boxes in floating point arithmetic

`Model/Box` computes with real numbers. Here the same functions are written with the rounding `rnd` that follows every
operation on `double` and the rounding `toF` of the casts to `float`. With the identity for both the functions are those of
`Model/Box` (`C122_exact`). Simplifications: no overflow, no subnormal numbers, no NaN; products and sums are not fused; the
bounds `t0`, `t1` of a ray query are `float` already.
-/

namespace Geo.Rounded

/-- `Vec3T::normalized`, include/geolib/math_types.h:217-221.
Simplification: a zero vector normalises to 0 instead of NaN (never claimed about). -/
noncomputable def normalized (rnd : ℝ → ℝ) (d : Vec3) : Vec3 :=
  let l := length rnd d
  ⟨rnd (d.x / l), rnd (d.y / l), rnd (d.z / l)⟩

/-- One component of `Ray::calculateInvDirection`, src/Ray.cpp:20-22; the literal `1e-9` is rounded. -/
noncomputable def invComponent (rnd : ℝ → ℝ) (d : ℝ) : ℝ := if |d| < rnd 1e-9 then 0 else rnd (1 / d)

open Classical in
/-- `Ray::Ray`, src/Ray.cpp:8-15 with `calculateInvDirection`, 17-25. -/
noncomputable def rayNew (rnd : ℝ → ℝ) (o d : Vec3) : Ray :=
  let u := normalized rnd d
  { origin := o, direction := u, length := 0,
    inv := ⟨invComponent rnd u.x, invComponent rnd u.y, invComponent rnd u.z⟩,
    sx := decide (u.x < 0), sy := decide (u.y < 0), sz := decide (u.z < 0) }

open Classical in
/-- `Box::intersect(const Ray&, float, float, double&)`, src/Box.cpp:31-61. Returns the flag and the
value of the out-parameter, whose initial value is `d0`. -/
noncomputable def boxRay (rnd toF : ℝ → ℝ) (b : Box) (r : Ray) (t0 t1 d0 : ℝ) : Bool × ℝ :=
  let tmin := toF (rnd (rnd ((b.bound r.sx).x - r.origin.x) * r.inv.x))
  let tmax := toF (rnd (rnd ((b.bound (!r.sx)).x - r.origin.x) * r.inv.x))
  let tymin := toF (rnd (rnd ((b.bound r.sy).y - r.origin.y) * r.inv.y))
  let tymax := toF (rnd (rnd ((b.bound (!r.sy)).y - r.origin.y) * r.inv.y))
  if tmin > tymax ∨ tymin > tmax then (false, d0) else
  let tmin := max tymin tmin
  let tmax := min tymax tmax
  let tzmin := toF (rnd (rnd ((b.bound r.sz).z - r.origin.z) * r.inv.z))
  let tzmax := toF (rnd (rnd ((b.bound (!r.sz)).z - r.origin.z) * r.inv.z))
  if tmin > tzmax ∨ tzmin > tmax then (false, d0) else
  let tmin := max tzmin tmin
  let tmax := min tzmax tmax
  (decide (t0 < tmax ∧ tmin < t1), tmin)

/-- `Box::getMaxRadius`, src/Box.cpp:63-66. -/
noncomputable def boxMaxRadius (rnd : ℝ → ℝ) (b : Box) : ℝ := max (length rnd b.lo) (length rnd b.hi)

/-- `Box::getSize`, src/Box.cpp:133-136. -/
def boxSize (rnd : ℝ → ℝ) (b : Box) : Vec3 := sub rnd b.hi b.lo

/-- `Box::getCenter`, src/Box.cpp:138-141. -/
noncomputable def boxCenter (rnd : ℝ → ℝ) (b : Box) : Vec3 :=
  let s := add rnd b.lo b.hi
  ⟨rnd (s.x / 2), rnd (s.y / 2), rnd (s.z / 2)⟩

/-- `getSize() * 0.5`, src/Box.cpp:73-74, with include/geolib/math_types.h:202. -/
noncomputable def boxHalf (rnd : ℝ → ℝ) (b : Box) : Vec3 :=
  let s := boxSize rnd b
  ⟨rnd (s.x * 0.5), rnd (s.y * 0.5), rnd (s.z * 0.5)⟩

open Classical in
/-- `Box::intersect(const Box&)`, src/Box.cpp:68-84 (with `c1.y - c2.z` on line 80 as written). -/
noncomputable def boxBox (rnd : ℝ → ℝ) (b o : Box) : Bool :=
  let c1 := boxCenter rnd b
  let c2 := boxCenter rnd o
  let r1 := boxHalf rnd b
  let r2 := boxHalf rnd o
  if |rnd (c1.x - c2.x)| > rnd (r1.x + r2.x) then false
  else if |rnd (c1.y - c2.y)| > rnd (r1.y + r2.y) then false
  else if |rnd (c1.y - c2.z)| > rnd (r1.z + r2.z) then false
  else true

open Classical in
/-- `Box::intersect(const Vector3&, double)`, src/Box.cpp:86-103. The comparisons of `contains` and of the loop
(`Box.closestCoord`) are exact. -/
noncomputable def boxSphere (rnd : ℝ → ℝ) (b : Box) (p : Vec3) (radius : ℝ) : Bool :=
  let c := boxCenter rnd b
  if radius ≤ 0 then b.contains p else
  let c : Vec3 := ⟨Box.closestCoord b.lo.x b.hi.x c.x p.x, Box.closestCoord b.lo.y b.hi.y c.y p.y,
    Box.closestCoord b.lo.z b.hi.z c.z p.z⟩
  decide (rnd (radius * radius) ≥ length2 rnd (sub rnd p c))

/-- `Box::enclose`, src/Box.cpp:116-131, with the points of `Mesh::getTransformed`, src/Mesh.cpp:76-87. The comparisons of
`std::min` and `std::max` (`Box.enclosePoint`) are exact. -/
noncomputable def boxEnclose (rnd : ℝ → ℝ) (b o : Box) (pose : Transform3) : Box :=
  Box.generateMesh ((o.mesh.points.map (apply rnd pose)).foldl Box.enclosePoint b)

end Geo.Rounded
