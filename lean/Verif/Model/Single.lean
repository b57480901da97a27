import Verif.Model.Octree
import Mathlib.Data.Int.Log

/-!
# The ray queries of boxes and octrees with their casts to `float`

`Model/Box` and `Model/Octree` take the casts to `float` as exact. Here the same functions are written with the rounding
`rnd` that the casts perform. Arithmetic in `double` stays exact. With `rnd` the identity, the functions are those of
`Model/Box` and `Model/Octree` (`Lemmas/Single`).
-/

namespace Geo

/-- The nearest integer, ties to even. Models the platform (no line in /repo). -/
noncomputable def nearestEven (q : ℝ) : ℤ :=
  let f := ⌊q⌋
  if q - f < 1 / 2 then f else if q - f > 1 / 2 then f + 1 else if Even f then f else f + 1

/-- `static_cast<float>(x)`: the nearest number with 24 binary digits, ties to even. Models the platform (no line in
/repo). Simplification: no overflow, no subnormal numbers, no signed zero. -/
noncomputable def toFloat (x : ℝ) : ℝ :=
  if x = 0 then 0
  else
    let e := Int.log 2 |x| - 23
    nearestEven (x / 2 ^ e) * 2 ^ e

open Classical in
/-- `Box::intersect(const Ray&, float, float, double&)`, src/Box.cpp:31-61, with the casts to `float` of lines 43-46 and
52-53. Returns the flag and the value of the out-parameter, whose initial value is `d0`. -/
noncomputable def Box.intersectRayF (rnd : ℝ → ℝ) (b : Box) (r : Ray) (t0 t1 d0 : ℝ) : Bool × ℝ :=
  let tmin := rnd (((b.bound r.sx).x - r.origin.x) * r.inv.x)
  let tmax := rnd (((b.bound (!r.sx)).x - r.origin.x) * r.inv.x)
  let tymin := rnd (((b.bound r.sy).y - r.origin.y) * r.inv.y)
  let tymax := rnd (((b.bound (!r.sy)).y - r.origin.y) * r.inv.y)
  if tmin > tymax ∨ tymin > tmax then (false, d0) else
  let tmin := max tymin tmin
  let tmax := min tymax tmax
  let tzmin := rnd (((b.bound r.sz).z - r.origin.z) * r.inv.z)
  let tzmax := rnd (((b.bound (!r.sz)).z - r.origin.z) * r.inv.z)
  if tmin > tzmax ∨ tzmin > tmax then (false, d0) else
  let tmin := max tzmin tmin
  let tmax := min tzmax tmax
  (decide (t0 < tmax ∧ tmin < t1), tmin)

namespace OctNode

/-- The distance written to `dist` by src/OctreeNode.cpp:169-171,219-221, as `OctNode.exitDist` but with the casts to
`float` in `Box::intersect`. -/
noncomputable def exitDistF (rnd : ℝ → ℝ) (size : ℝ) (x y z : Bool) (o dir : Vec3) (range : ℝ) : ℝ :=
  let d := shift size x y z
  ((Box.new d ⟨d.x + size / 2, d.y + size / 2, d.z + size / 2⟩).intersectRayF rnd (Ray.new o (-dir)) 0 range 0).2

open Classical in
/-- `OctreeNode::intersect(const Ray&, ...)`, src/OctreeNode.cpp:114-174, with a bound on the recursion depth, the cast
to `float` of line 173 and the `float` subtraction of line 171. The unused `offset` is omitted. -/
noncomputable def intersectRayF (rnd : ℝ → ℝ) (res : ℝ) : ℕ → OctNode → Ray → ℝ → ℝ → ℝ → Exec (Bool × ℝ)
  | 0, _, _, _, _, _ => .error .hang
  | _ + 1, .null, _, _, _, _ => .error .ub
  | n + 1, .node size occupied children, r, t0, t1, d =>
    if occupied then .ok (true, d)
    else
      let o := r.origin + t0 * r.direction
      if Outside size o then .ok (false, d)
      else
        let x := decide (o.x ≥ size / 2)
        let y := decide (o.y ≥ size / 2)
        let z := decide (o.z ≥ size / 2)
        let below : Exec (Bool × ℝ) := match children (index x y z) with
          | .null => .ok (false, d)
          | c => intersectRayF rnd res n c (Ray.new (r.origin - shift size x y z) r.direction) t0 t1 d
        match below with
        | .error e => .error e
        | .ok (true, d') => .ok (true, d')
        | .ok (false, _) =>
          let distance := t0 - exitDistF rnd size x y z o r.direction (rnd (t1 - t0))
          intersectRayF rnd res n (.node size occupied children) r (rnd (distance + res * 0.1)) t1 distance

open Classical in
/-- `OctreeNode::raytrace`, src/OctreeNode.cpp:177-224, with a bound on the recursion depth and the cast to `float` of
line 223; returns the modified node. The unused `offset` is omitted. -/
noncomputable def raytraceF (rnd : ℝ → ℝ) (res : ℝ) : ℕ → OctNode → Vec3 → Vec3 → ℝ → ℝ → Exec OctNode
  | 0, _, _, _, _, _ => .error .hang
  | _ + 1, .null, _, _, _, _ => .error .ub
  | n + 1, .node size occupied children, o, dir, t0, t1 =>
    if t1 < t0 then .ok (.node size occupied children)
    else
      let newo := o + t0 * dir
      if Outside size newo then .ok (.node size occupied children)
      else
        let x := decide (newo.x ≥ size / 2)
        let y := decide (newo.y ≥ size / 2)
        let z := decide (newo.z ≥ size / 2)
        let i := index x y z
        let below : Exec (Fin 8 → OctNode) := match children i with
          | .null => .ok children
          | c => do
            let c' ← raytraceF rnd res n c (o - shift size x y z) dir t0 t1
            return Function.update children i c'
        match below with
        | .error e => .error e
        | .ok ch =>
          let distance := t0 - exitDistF rnd size x y z newo dir (rnd (t1 - t0))
          raytraceF rnd res n (.node size false ch) o dir (rnd (distance + res * 0.1)) t1

end OctNode

/-- `Octree::intersect(const Ray&, ...)`, src/Octree.cpp:71-86, with the cast to `float` of line 82. -/
noncomputable def Octree.intersectRayF (rnd : ℝ → ℝ) (t : Octree) (r : Ray) (t0 t1 d : ℝ) : Exec (Bool × ℝ) :=
  let hit := (Box.new t.offset t.max).intersectRayF rnd r t0 t1 0
  if !hit.1 then .ok (false, d)
  else
    let dist := Max.max hit.2 0
    unbounded fun n => t.root.intersectRayF rnd t.resolution n (Ray.new (r.origin - t.offset) r.direction)
      (rnd (t0 + dist + t.resolution * 0.1)) t1 d

/-- `Octree::raytrace`, src/Octree.cpp:93-108, with the cast to `float` of line 104. -/
noncomputable def Octree.raytraceF (rnd : ℝ → ℝ) (t : Octree) (r : Ray) (t0 t1 : ℝ) : Exec Octree :=
  let hit := (Box.new t.offset t.max).intersectRayF rnd r t0 t1 0
  if !hit.1 then .ok t
  else do
    let dist := Max.max hit.2 0
    let root ← unbounded fun n => t.root.raytraceF rnd t.resolution n (r.origin - t.offset) r.direction
      (rnd (t0 + dist + t.resolution * 0.1)) t1
    let t' ← ({ t with root := root } : Octree).add (r.origin + r.direction * t1)
    return { t' with mesh := t'.mesh.clear }

end Geo
