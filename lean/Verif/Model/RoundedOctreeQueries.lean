import Verif.Model.RoundedMesh
import Verif.Model.RoundedOctree

/-!
# Queries of octrees in floating point arithmetic

As `Model/RoundedOctree`, for the queries with points and boxes, the mesh and the bounding box. With `rnd` the identity the functions are those of
`Model/Octree` (`C136_exact`).
-/

namespace Geo.Rounded

open Classical in
/-- `OctreeNode::contains`, src/OctreeNode.cpp:227-259; `split_` is computed in line 13. -/
noncomputable def nodeContains (rnd : ℝ → ℝ) : OctNode → Vec3 → Bool
  | .null, _ => false
  | .node size occupied children, p =>
    if occupied then true
    else nodeContains rnd (children (OctNode.index (decide (p.x > rnd (size / 2))) (decide (p.y > rnd (size / 2)))
      (decide (p.z > rnd (size / 2))))) p

/-- `Vector3(split_ * x, split_ * y, split_ * z)`, src/OctreeNode.cpp:289; the products with 0 and 1 are exact. -/
noncomputable def octShift (rnd : ℝ → ℝ) (size : ℝ) (x y z : Bool) : Vec3 :=
  ⟨if x then rnd (size / 2) else 0, if y then rnd (size / 2) else 0, if z then rnd (size / 2) else 0⟩

open Classical in
/-- `OctreeNode::intersect(const Box&)`, src/OctreeNode.cpp:262-300; see `OctNode.intersectBox`. -/
noncomputable def nodeBox (rnd : ℝ → ℝ) : OctNode → Vec3 → Vec3 → Bool
  | .null, _, _ => false
  | .node size occupied children, lo, hi =>
    if occupied then true
    else OctNode.octants.any fun o =>
      decide (decide (lo.x > rnd (size / 2)) ≤ o.1 ∧ o.1 ≤ decide (hi.x > rnd (size / 2))) &&
      decide (decide (lo.y > rnd (size / 2)) ≤ o.2.1 ∧ o.2.1 ≤ decide (hi.y > rnd (size / 2))) &&
      decide (decide (lo.z > rnd (size / 2)) ≤ o.2.2 ∧ o.2.2 ≤ decide (hi.z > rnd (size / 2))) &&
      nodeBox rnd (children (OctNode.index o.1 o.2.1 o.2.2)) (sub rnd lo (octShift rnd size o.1 o.2.1 o.2.2))
        (sub rnd hi (octShift rnd size o.1 o.2.1 o.2.2))

open Classical in
/-- `Octree::contains`, src/Octree.cpp:110-118. -/
noncomputable def octContains (rnd : ℝ → ℝ) (t : Octree) (p : Vec3) : Bool :=
  if p.x < t.offset.x ∨ p.y < t.offset.y ∨ p.z < t.offset.z ∨ p.x > t.max.x ∨ p.y > t.max.y ∨
      p.z > t.max.z then false
  else nodeContains rnd t.root (sub rnd p t.offset)

open Classical in
/-- `Octree::intersect(const Box&)`, src/Octree.cpp:120-133; minima and maxima are exact. -/
noncomputable def octBox (rnd : ℝ → ℝ) (t : Octree) (b : Box) : Bool :=
  if b.hi.x < t.offset.x ∨ b.hi.y < t.offset.y ∨ b.hi.z < t.offset.z ∨ b.lo.x > t.max.x ∨
      b.lo.y > t.max.y ∨ b.lo.z > t.max.z then false
  else nodeBox rnd t.root
    (sub rnd ⟨Max.max b.lo.x t.offset.x, Max.max b.lo.y t.offset.y, Max.max b.lo.z t.offset.z⟩ t.offset)
    (sub rnd ⟨min b.hi.x t.max.x, min b.hi.y t.max.y, min b.hi.z t.max.z⟩ t.offset)

/-- `Octree::getMesh`, src/Octree.cpp:135-151: the object with its refreshed cache, and the mesh. -/
noncomputable def octMesh (rnd : ℝ → ℝ) (t : Octree) : Exec (Octree × Mesh) :=
  if t.mesh.empty then do
    let m ← filterOverlappingVertices rnd ((octCubes rnd t).foldl (fun m b => m.add b.mesh) t.mesh)
    return ({ t with mesh := m }, m)
  else .ok (t, t.mesh)

/-- `Shape::getBoundingBox` on an octree, src/Shape.cpp:475-501 with the virtual `getMesh`: the object with its refreshed caches, and the
box. Minima and maxima are exact, and 1e9 is a `double`. -/
noncomputable def octBoundingBox (rnd : ℝ → ℝ) (t : Octree) : Exec (Octree × Box) := do
  let (t, b) ← (if t.base.bbValid then .ok (t, t.base) else do
    let (t, m) ← octMesh rnd t
    let bd := Shape.boundsOf m.points ⟨1e9, 1e9, 1e9⟩ ⟨-1e9, -1e9, -1e9⟩
    let s : Shape := { t.base with bbMin := bd.1, bbMax := bd.2, bbValid := true }
    return ({ t with base := s }, s) : Exec (Octree × Shape))
  return (t, Box.new b.bbMin b.bbMax)

end Geo.Rounded
