import Verif.Model.RoundedBox
import Verif.Model.RoundedOctreeQueries

/-!
# Rays through octrees in floating point arithmetic

As `Model/RoundedOctree`, for `Octree::intersect` with a ray: `rnd` is the rounding of every operation on `double`, `toF` that of the casts to `float`.
With the identity for both the functions are those of `Model/Octree` (`C140_exact`). Simplifications: no overflow, no subnormal numbers, no NaN; the
bounds `t0`, `t1` of the query are `float` already.
-/

namespace Geo.Rounded

/-- The value of `dist` after src/OctreeNode.cpp:169-171; `split_` is computed in line 13. As for `OctNode.exitDist` the octant contains `o`, so the
initial value of `dist` is taken as 0 instead of NaN. -/
noncomputable def exitDist (rnd toF : ℝ → ℝ) (size : ℝ) (x y z : Bool) (o dir : Vec3) (range : ℝ) : ℝ :=
  let d := octShift rnd size x y z
  (boxRay rnd toF (Box.new d ⟨rnd (d.x + rnd (size / 2)), rnd (d.y + rnd (size / 2)), rnd (d.z + rnd (size / 2))⟩) (rayNew rnd o (-dir)) 0
    range 0).2

open Classical in
/-- `OctreeNode::intersect(const Ray&, ...)`, src/OctreeNode.cpp:114-174, with a bound on the recursion depth; see `OctNode.intersectRay`. The parameter
`offset` is not used by the code. -/
noncomputable def nodeRay (rnd toF : ℝ → ℝ) (res : ℝ) : ℕ → OctNode → Ray → ℝ → ℝ → ℝ → Exec (Bool × ℝ)
  | 0, _, _, _, _, _ => .error .hang
  | _ + 1, .null, _, _, _, _ => .error .ub
  | n + 1, .node size occupied children, r, t0, t1, d =>
    if occupied then .ok (true, d)
    else
      let o := add rnd r.origin ⟨rnd (r.direction.x * t0), rnd (r.direction.y * t0), rnd (r.direction.z * t0)⟩
      if OctNode.Outside size o then .ok (false, d)
      else
        let x := decide (o.x ≥ rnd (size / 2))
        let y := decide (o.y ≥ rnd (size / 2))
        let z := decide (o.z ≥ rnd (size / 2))
        let below : Exec (Bool × ℝ) := match children (OctNode.index x y z) with
          | .null => .ok (false, d)
          | c => nodeRay rnd toF res n c (rayNew rnd (sub rnd r.origin (octShift rnd size x y z)) r.direction) t0 t1 d
        match below with
        | .error e => .error e
        | .ok (true, d') => .ok (true, d')
        | .ok (false, _) =>
          let distance := rnd (t0 - exitDist rnd toF size x y z o r.direction (toF (t1 - t0)))
          nodeRay rnd toF res n (.node size occupied children) r (toF (rnd (distance + rnd (res * rnd 0.1)))) t1 distance

/-- `Octree::intersect(const Ray&, ...)`, src/Octree.cpp:71-86. -/
noncomputable def octRay (rnd toF : ℝ → ℝ) (t : Octree) (r : Ray) (t0 t1 d : ℝ) : Exec (Bool × ℝ) :=
  let hit := boxRay rnd toF (Box.new t.offset t.max) r t0 t1 0
  if !hit.1 then .ok (false, d)
  else
    let dist := Max.max hit.2 0
    unbounded fun n => nodeRay rnd toF t.resolution n t.root (rayNew rnd (sub rnd r.origin t.offset) r.direction)
      (toF (rnd (rnd (t0 + dist) + rnd (t.resolution * rnd 0.1)))) t1 d

end Geo.Rounded
