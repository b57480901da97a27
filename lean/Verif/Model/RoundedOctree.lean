import Verif.Model.Octree
import Verif.Model.RoundedShape

/-!
# Octrees in floating point arithmetic

`Model/Octree` computes with real numbers. Here construction, adding points, clearing and listing the cubes are written with the rounding
`rnd` that follows every operation. With `rnd` the identity the functions are those of `Model/Octree` (`C120_exact`).
Simplifications: no overflow and no subnormal numbers.
-/

namespace Geo.Rounded

open Classical in
/-- `OctreeNode::add`, src/OctreeNode.cpp:47-84, with a bound on the recursion depth; `split_` is computed in line 13. -/
noncomputable def nodeAdd (rnd : ℝ → ℝ) (res : ℝ) : ℕ → OctNode → Vec3 → Exec OctNode
  | 0, _, _ => .error .hang
  | _ + 1, .null, _ => .error .ub
  | n + 1, .node size occupied children, p =>
    if rnd (size - rnd 1e-10) < res then .ok (.node size true children)
    else do
      let split := rnd (size / 2)
      let x := decide (p.x > split)
      let y := decide (p.y > split)
      let z := decide (p.z > split)
      let q : Vec3 := ⟨if x then rnd (p.x - split) else p.x, if y then rnd (p.y - split) else p.y, if z then rnd (p.z - split) else p.z⟩
      let i := OctNode.index x y z
      let c ← nodeAdd rnd res n (OctNode.ensure (rnd (size / 2)) (children i)) q
      return .node size occupied (Function.update children i c)

/-- `OctreeNode::getCubes`, src/OctreeNode.cpp:87-111: the boxes appended to `cubes`. The products with 0 and 1 of line 104 are exact. -/
noncomputable def nodeCubes (rnd : ℝ → ℝ) : OctNode → Vec3 → List Box
  | .null, _ => []
  | .node size occupied children, offset =>
    if occupied then [Box.new offset (add rnd offset ⟨size, size, size⟩)]
    else OctNode.octants.flatMap fun o =>
      let split := rnd (size / 2)
      nodeCubes rnd (children (OctNode.index o.1 o.2.1 o.2.2))
        (add rnd offset ⟨if o.1 then split else 0, if o.2.1 then split else 0, if o.2.2 then split else 0⟩)

open Classical in
/-- The loop of `Octree::setResolution`, src/Octree.cpp:59-62, with a bound on the iterations. -/
noncomputable def halve (rnd : ℝ → ℝ) (limit : ℝ) : ℕ → ℝ → Exec ℝ
  | 0, _ => .error .hang
  | n + 1, res => if res > limit then halve rnd limit n (rnd (res / 2)) else .ok res

/-- `Octree::Octree(double, double)`, src/Octree.cpp:15-20, with `setResolution`, 56-64. -/
noncomputable def octNew (rnd : ℝ → ℝ) (size resolution : ℝ) : Exec Octree := do
  let r ← unbounded fun n => halve rnd resolution n size
  return ⟨r, ⟨rnd (-size / 2), rnd (-size / 2), rnd (-size / 2)⟩, ⟨rnd (size / 2), rnd (size / 2), rnd (size / 2)⟩, size,
    OctNode.new size, Mesh.new, Shape.new⟩

/-- `Octree::add`, src/Octree.cpp:45-49. -/
noncomputable def octAdd (rnd : ℝ → ℝ) (t : Octree) (p : Vec3) : Exec Octree := do
  let root ← unbounded fun n => nodeAdd rnd t.resolution n t.root (sub rnd p t.offset)
  return { t with root := root, mesh := t.mesh.clear }

/-- `Octree::getCubes`, src/Octree.cpp:51-54. -/
noncomputable def octCubes (rnd : ℝ → ℝ) (t : Octree) : List Box := nodeCubes rnd t.root t.offset

/-- A sequence of additions (`some p`) and clearings (`none`). (Models a client, no line in /repo.) -/
noncomputable def octRun (rnd : ℝ → ℝ) : List (Option Vec3) → Octree → Exec Octree
  | [], t => .ok t
  | some p :: ops, t => do let t ← octAdd rnd t p; octRun rnd ops t
  | none :: ops, t => octRun rnd ops t.clear

end Geo.Rounded
