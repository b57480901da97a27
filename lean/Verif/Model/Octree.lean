import Verif.Model.Composite

/-!
# Model of src/OctreeNode.cpp, src/Octree.cpp, include/geolib/Octree.h, include/geolib/OctreeNode.h
-/

namespace Geo

/-- A pointer to `class OctreeNode`, include/geolib/OctreeNode.h: `null`, or the members of the node.
Simplifications: `split_` is always `size_ / 2` (src/OctreeNode.cpp:13) and is computed; the back pointer
`tree_` is only used for `tree_->resolution_`, which is a parameter of the methods. -/
inductive OctNode where
  | null
  | node (size : ℝ) (occupied : Bool) (children : Fin 8 → OctNode)

namespace OctNode

/-- `OctreeNode::OctreeNode(double, Octree*)`, src/OctreeNode.cpp:13-19. -/
def new (size : ℝ) : OctNode := .node size false fun _ => .null

/-- The index computation `index += 4 / 2 / 1`, src/OctreeNode.cpp:57-77, and `4 x + 2 y + z`, 286. -/
def index (x y z : Bool) : Fin 8 :=
  match x, y, z with
  | false, false, false => 0
  | false, false, true => 1
  | false, true, false => 2
  | false, true, true => 3
  | true, false, false => 4
  | true, false, true => 5
  | true, true, false => 6
  | true, true, true => 7

/-- `Vector3(split_ * x, split_ * y, split_ * z)`, src/OctreeNode.cpp:104,289; also `(dx, dy, dz)`,
135-153. -/
noncomputable def shift (size : ℝ) (x y z : Bool) : Vec3 :=
  ⟨if x then size / 2 else 0, if y then size / 2 else 0, if z then size / 2 else 0⟩

/-- The loop order `x`, `y`, `z` in 0, 1 of src/OctreeNode.cpp:96-108. -/
def octants : List (Bool × Bool × Bool) :=
  [(false, false, false), (false, false, true), (false, true, false), (false, true, true),
   (true, false, false), (true, false, true), (true, true, false), (true, true, true)]

/-- `if (!children_[index]) children_[index] = new OctreeNode(size_ / 2, tree_)`, src/OctreeNode.cpp:79-82. -/
noncomputable def ensure (half : ℝ) : OctNode → OctNode
  | .null => new half
  | c => c

open Classical in
/-- `OctreeNode::add`, src/OctreeNode.cpp:47-84, with a bound on the recursion depth. -/
noncomputable def add (res : ℝ) : ℕ → OctNode → Vec3 → Exec OctNode
  | 0, _, _ => .error .hang
  | _ + 1, .null, _ => .error .ub
  | n + 1, .node size occupied children, p =>
    if size - 1e-10 < res then .ok (.node size true children)
    else do
      let x := decide (p.x > size / 2)
      let y := decide (p.y > size / 2)
      let z := decide (p.z > size / 2)
      let q := p - shift size x y z
      let i := index x y z
      let c ← add res n (ensure (size / 2) (children i)) q
      return .node size occupied (Function.update children i c)

/-- `OctreeNode::getCubes`, src/OctreeNode.cpp:87-111: the boxes appended to `cubes`. -/
noncomputable def getCubes : OctNode → Vec3 → List Box
  | .null, _ => []
  | .node size occupied children, offset =>
    if occupied then [Box.new offset (offset + ⟨size, size, size⟩)]
    else octants.flatMap fun o =>
      getCubes (children (index o.1 o.2.1 o.2.2)) (offset + shift size o.1 o.2.1 o.2.2)

open Classical in
/-- `OctreeNode::contains`, src/OctreeNode.cpp:227-259; the recursive call passes `p` unshifted. -/
noncomputable def contains : OctNode → Vec3 → Bool
  | .null, _ => false
  | .node size occupied children, p =>
    if occupied then true
    else contains (children (index (decide (p.x > size / 2)) (decide (p.y > size / 2))
      (decide (p.z > size / 2)))) p

open Classical in
/-- `OctreeNode::intersect(const Box&)`, src/OctreeNode.cpp:262-300; the loops visit the octants between
the two indices on each axis. -/
noncomputable def intersectBox : OctNode → Vec3 → Vec3 → Bool
  | .null, _, _ => false
  | .node size occupied children, lo, hi =>
    if occupied then true
    else octants.any fun o =>
      decide (decide (lo.x > size / 2) ≤ o.1 ∧ o.1 ≤ decide (hi.x > size / 2)) &&
      decide (decide (lo.y > size / 2) ≤ o.2.1 ∧ o.2.1 ≤ decide (hi.y > size / 2)) &&
      decide (decide (lo.z > size / 2) ≤ o.2.2 ∧ o.2.2 ≤ decide (hi.z > size / 2)) &&
      intersectBox (children (index o.1 o.2.1 o.2.2)) (lo - shift size o.1 o.2.1 o.2.2)
        (hi - shift size o.1 o.2.1 o.2.2)

/-- The test `o.x < 0 || ... || o.z > size_`, src/OctreeNode.cpp:126,185. -/
def Outside (size : ℝ) (o : Vec3) : Prop :=
  o.x < 0 ∨ o.y < 0 ∨ o.z < 0 ∨ o.x > size ∨ o.y > size ∨ o.z > size

/-- The distance from `o` to the point where the ray from `o` against `dir` leaves the octant, as written to
`dist` by src/OctreeNode.cpp:169-171,219-221. `dist` is NaN before the call; the octant contains `o`, so the
call always overwrites it (`OctNode.inside_written`) and the initial value does not matter. -/
noncomputable def exitDist (size : ℝ) (x y z : Bool) (o dir : Vec3) (range : ℝ) : ℝ :=
  let d := shift size x y z
  ((Box.new d ⟨d.x + size / 2, d.y + size / 2, d.z + size / 2⟩).intersectRay (Ray.new o (-dir)) 0
    range 0).2

open Classical in
/-- `OctreeNode::intersect(const Ray&, ...)`, src/OctreeNode.cpp:114-174, with a bound on the recursion
depth; returns the flag and the out-parameter `distance`, initially `d`. Simplifications: casts to `float` are
exact; the unused `offset` is omitted. -/
noncomputable def intersectRay (res : ℝ) : ℕ → OctNode → Ray → ℝ → ℝ → ℝ → Exec (Bool × ℝ)
  | 0, _, _, _, _, _ => .error .hang
  | _ + 1, .null, _, _, _, _ => .error .ub
  | n + 1, .node size occupied children, r, t0, t1, d =>
    if occupied then .ok (true, d)
    else
      let o := r.origin + t0 * r.direction
      if Outside size o then .ok (false, d)
      else
        let x := decide (o.x ≥ size / 2)
        let y := decide (o.y ≥ size / 2)
        let z := decide (o.z ≥ size / 2)
        let below : Exec (Bool × ℝ) := match children (index x y z) with
          | .null => .ok (false, d)
          | c => intersectRay res n c (Ray.new (r.origin - shift size x y z) r.direction) t0 t1 d
        match below with
        | .error e => .error e
        | .ok (true, d') => .ok (true, d')
        | .ok (false, _) =>
          let distance := t0 - exitDist size x y z o r.direction (t1 - t0)
          intersectRay res n (.node size occupied children) r (distance + res * 0.1) t1 distance

open Classical in
/-- `OctreeNode::raytrace`, src/OctreeNode.cpp:177-224, with a bound on the recursion depth; returns the
modified node. Simplifications as for `intersectRay`. -/
noncomputable def raytrace (res : ℝ) : ℕ → OctNode → Vec3 → Vec3 → ℝ → ℝ → Exec OctNode
  | 0, _, _, _, _, _ => .error .hang
  | _ + 1, .null, _, _, _, _ => .error .ub
  | n + 1, .node size occupied children, o, dir, t0, t1 =>
    if t1 < t0 then .ok (.node size occupied children)
    else
      let newo := o + t0 * dir
      if Outside size newo then .ok (.node size occupied children)
      else
        let x := decide (newo.x ≥ size / 2)
        let y := decide (newo.y ≥ size / 2)
        let z := decide (newo.z ≥ size / 2)
        let i := index x y z
        let below : Exec (Fin 8 → OctNode) := match children i with
          | .null => .ok children
          | c => do
            let c' ← raytrace res n c (o - shift size x y z) dir t0 t1
            return Function.update children i c'
        match below with
        | .error e => .error e
        | .ok ch =>
          let distance := t0 - exitDist size x y z newo dir (t1 - t0)
          raytrace res n (.node size false ch) o dir (distance + res * 0.1) t1

end OctNode

/-- `class Octree`, include/geolib/Octree.h:51-62: `mesh` is `Octree::mesh_`, which hides the `mesh_` of the
base class `Shape` held in `base`. -/
structure Octree where
  resolution : ℝ
  offset : Vec3
  max : Vec3
  size : ℝ
  root : OctNode
  mesh : Mesh
  base : Shape

namespace Octree

open Classical in
/-- The loop of `Octree::setResolution`, src/Octree.cpp:59-62, with a bound on the iterations. -/
noncomputable def halve (limit : ℝ) : ℕ → ℝ → Exec ℝ
  | 0, _ => .error .hang
  | n + 1, res => if res > limit then halve limit n (res / 2) else .ok res

/-- `Octree::setResolution`, src/Octree.cpp:56-64: the changed tree and the returned value. -/
noncomputable def setResolution (t : Octree) (resolution : ℝ) : Exec (Octree × ℝ) := do
  let r ← unbounded fun n => halve resolution n t.size
  return ({ t with resolution := r }, r)

/-- `Octree::Octree(double, double)`, src/Octree.cpp:15-20. -/
noncomputable def new (size resolution : ℝ) : Exec Octree := do
  let t : Octree := ⟨0, ⟨-size / 2, -size / 2, -size / 2⟩, ⟨size / 2, size / 2, size / 2⟩, size,
    OctNode.new size, Mesh.new, Shape.new⟩
  let (t, _) ← t.setResolution resolution
  return t

/-- `Octree::Octree(const Octree&)`, src/Octree.cpp:22-26, and `clone`, 33-36: the nodes are copied
(src/OctreeNode.cpp:22-36), the derived mesh is not. -/
def copy (t : Octree) : Octree := { t with mesh := Mesh.new }

/-- `Octree::clear`, src/Octree.cpp:38-43. -/
def clear (t : Octree) : Octree := { t with root := OctNode.new t.size, mesh := t.mesh.clear }

/-- `Octree::add`, src/Octree.cpp:45-49. -/
noncomputable def add (t : Octree) (p : Vec3) : Exec Octree := do
  let root ← unbounded fun n => OctNode.add t.resolution n t.root (p - t.offset)
  return { t with root := root, mesh := t.mesh.clear }

/-- `Octree::getCubes`, src/Octree.cpp:51-54. -/
noncomputable def getCubes (t : Octree) : List Box := t.root.getCubes t.offset

/-- `Octree::getResolution`, src/Octree.cpp:66-69. -/
def getResolution (t : Octree) : ℝ := t.resolution

/-- `Octree::intersect(const Ray&, ...)`, src/Octree.cpp:71-86. -/
noncomputable def intersectRay (t : Octree) (r : Ray) (t0 t1 d : ℝ) : Exec (Bool × ℝ) :=
  let hit := (Box.new t.offset t.max).intersectRay r t0 t1 0
  if !hit.1 then .ok (false, d)
  else
    let dist := Max.max hit.2 0
    unbounded fun n => t.root.intersectRay t.resolution n (Ray.new (r.origin - t.offset) r.direction)
      (t0 + dist + t.resolution * 0.1) t1 d

/-- `Octree::getMaxRadius`, src/Octree.cpp:88-91. -/
def getMaxRadius (t : Octree) : ℝ := t.size

/-- `Octree::raytrace`, src/Octree.cpp:93-108. -/
noncomputable def raytrace (t : Octree) (r : Ray) (t0 t1 : ℝ) : Exec Octree :=
  let hit := (Box.new t.offset t.max).intersectRay r t0 t1 0
  if !hit.1 then .ok t
  else do
    let dist := Max.max hit.2 0
    let root ← unbounded fun n => t.root.raytrace t.resolution n (r.origin - t.offset) r.direction
      (t0 + dist + t.resolution * 0.1) t1
    let t' ← ({ t with root := root } : Octree).add (r.origin + r.direction * t1)
    return { t' with mesh := t'.mesh.clear }

open Classical in
/-- `Octree::contains`, src/Octree.cpp:110-118. -/
noncomputable def contains (t : Octree) (p : Vec3) : Bool :=
  if p.x < t.offset.x ∨ p.y < t.offset.y ∨ p.z < t.offset.z ∨ p.x > t.max.x ∨ p.y > t.max.y ∨
      p.z > t.max.z then false
  else t.root.contains (p - t.offset)

open Classical in
/-- `Octree::intersect(const Box&)`, src/Octree.cpp:120-133. -/
noncomputable def intersectBox (t : Octree) (b : Box) : Bool :=
  if b.hi.x < t.offset.x ∨ b.hi.y < t.offset.y ∨ b.hi.z < t.offset.z ∨ b.lo.x > t.max.x ∨
      b.lo.y > t.max.y ∨ b.lo.z > t.max.z then false
  else t.root.intersectBox
    ((⟨Max.max b.lo.x t.offset.x, Max.max b.lo.y t.offset.y, Max.max b.lo.z t.offset.z⟩ : Vec3) - t.offset)
    ((⟨min b.hi.x t.max.x, min b.hi.y t.max.y, min b.hi.z t.max.z⟩ : Vec3) - t.offset)

/-- `Octree::getMesh`, src/Octree.cpp:135-151: the object with its refreshed cache, and the mesh. -/
noncomputable def getMesh (t : Octree) : Exec (Octree × Mesh) :=
  if t.mesh.empty then do
    let m ← (t.getCubes.foldl (fun m b => m.add b.mesh) t.mesh).filterOverlappingVertices
    return ({ t with mesh := m }, m)
  else .ok (t, t.mesh)

/-- `Shape::getBoundingBox` on an octree, src/Shape.cpp:475-501 with the virtual `getMesh`: the object with
its refreshed caches, and the box. -/
noncomputable def getBoundingBox (t : Octree) : Exec (Octree × Box) := do
  let (t, b) ← (if t.base.bbValid then .ok (t, t.base) else do
    let (t, m) ← t.getMesh
    let bd := Shape.boundsOf m.points ⟨1e9, 1e9, 1e9⟩ ⟨-1e9, -1e9, -1e9⟩
    let s : Shape := { t.base with bbMin := bd.1, bbMax := bd.2, bbValid := true }
    return ({ t with base := s }, s) : Exec (Octree × Shape))
  return (t, Box.new b.bbMin b.bbMax)

/-- `Shape::intersect(const Vector3&, double)` on an octree, src/Shape.cpp:205-270 (inherited through
`using Shape::intersect`, include/geolib/Octree.h:37) with the virtual `getMesh` and `contains`. -/
noncomputable def intersectSphere (t : Octree) (p : Vec3) (radius : ℝ) : Exec Bool := open Classical in do
  let (_, m) ← t.getMesh
  if p.length - radius > m.getMaxRadius.2 then return false
  else if radius > 0 then
    let hit ← Shape.sphereLoop p (radius * radius) m.points m.tris
    if hit then return true else return t.contains p
  else return t.contains p

/-- `Shape::setMesh` on an octree, src/Shape.cpp:508-512 (inherited): sets the hidden base mesh. -/
def setMesh (t : Octree) (m : Mesh) : Octree := { t with base := t.base.setMesh m }

/-- `Shape::empty` on an octree, include/geolib/Shape.h:105 (inherited): looks at the base mesh. -/
def empty (t : Octree) : Bool := t.base.empty

/-- Client operations on an octree; their semantics `step` is src/Octree.cpp. -/
inductive Op where
  | add (p : Vec3)
  | clear
  | raytrace (r : Ray) (t0 t1 : ℝ)
  | getMesh
  | getBoundingBox

/-- The effect of a client operation on the object. The methods are cited at their models. -/
noncomputable def step (t : Octree) : Op → Exec Octree
  | .add p => t.add p
  | .clear => .ok t.clear
  | .raytrace r t0 t1 => t.raytrace r t0 t1
  | .getMesh => do let (t, _) ← t.getMesh; return t
  | .getBoundingBox => do let (t, _) ← t.getBoundingBox; return t

/-- A sequence of client operations. (Models a client, no line in /repo.) -/
noncomputable def run (t : Octree) : List Op → Exec Octree
  | [] => .ok t
  | o :: os => do let t ← t.step o; t.run os

end Octree

end Geo
