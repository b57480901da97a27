import Verif.Model.Octree
import Verif.Model.HeightMap

/-!
# Model of the nodes of octrees and height maps as objects on the heap

`Verif.Model.Octree` and `Verif.Model.HeightMap` take trees as values. Here nodes are reached through pointers, as
in src/Octree.cpp, src/OctreeNode.cpp, src/HeightMap.cpp and src/HeightMapNode.cpp, and are copied and destroyed
as there.
-/

namespace Geo

/-- A node on the heap: its data and `children_[k]`, `none` being `nullptr`; include/geolib/OctreeNode.h:41-49 and
include/geolib/HeightMapNode.h:35-41. -/
structure Cell (D : Type) (k : ℕ) where
  data : D
  children : Fin k → Option ℕ

/-- The heap: addresses below `next` have been handed out, the cells that are still alive have a value. Addresses
are not used again, so a pointer to a destroyed node stays invalid. Models the language (no line in /repo). -/
structure Heap (D : Type) (k : ℕ) where
  next : ℕ
  cells : ℕ → Option (Cell D k)

namespace Heap

variable {D : Type} {k : ℕ}

/-- The heap before the program starts. Models the language (no line in /repo). -/
def empty : Heap D k := ⟨0, fun _ => none⟩

/-- Access through a pointer; undefined for a node that is not alive. Models the language (no line in /repo). -/
def read (h : Heap D k) (a : ℕ) : Exec (Cell D k) :=
  match h.cells a with
  | some c => .ok c
  | none => .error .ub

/-- Assignment to the members of a node. Models the language (no line in /repo). -/
def write (h : Heap D k) (a : ℕ) (c : Cell D k) : Heap D k :=
  { h with cells := Function.update h.cells a (some c) }

/-- Release of the storage; undefined for a node that is not alive. Models the language (no line in /repo). -/
def free (h : Heap D k) (a : ℕ) : Exec (Heap D k) :=
  match h.cells a with
  | some _ => .ok { h with cells := Function.update h.cells a none }
  | none => .error .ub

/-- `new` of a node without children, src/OctreeNode.cpp:13-19 and src/HeightMapNode.cpp:10-16: the heap and
the address. -/
def alloc (h : Heap D k) (d : D) : Heap D k × ℕ :=
  (({ h with next := h.next + 1 } : Heap D k).write h.next ⟨d, fun _ => none⟩, h.next)

/-- The recursive copy of a node, `OctreeNode::OctreeNode(const OctreeNode&, Octree*)`, src/OctreeNode.cpp:22-36, and
`HeightMapNode::HeightMapNode(const HeightMapNode&)`, `clone`, src/HeightMapNode.cpp:19-32,53-56, with a bound on the
recursion depth: the heap and the address of the copy. `f` is the change of the data: another `tree_` for octrees,
none for height maps. The storage is obtained before the children are copied. -/
def copy (f : D → D) : ℕ → Heap D k → ℕ → Exec (Heap D k × ℕ)
  | 0, _, _ => .error .hang
  | n + 1, h, a => do
    let c ← h.read a
    let s ← (List.finRange k).foldlM (fun (s : Heap D k × (Fin k → Option ℕ)) i =>
      match c.children i with
      | none => .ok s
      | some b => do
        let r ← copy f n s.1 b
        return (r.1, Function.update s.2 i (some r.2))) ({ h with next := h.next + 1 }, fun _ => none)
    return (s.1.write h.next ⟨f c.data, s.2⟩, h.next)

/-- `delete` of an octree node, src/OctreeNode.cpp:38-44, with a bound on the recursion depth: the children first,
then the node. -/
def delete : ℕ → Heap D k → ℕ → Exec (Heap D k)
  | 0, _, _ => .error .hang
  | n + 1, h, a => do
    let c ← h.read a
    let h ← (List.finRange k).foldlM (fun (h : Heap D k) i =>
      match c.children i with
      | none => .ok h
      | some b => delete n h b) h
    h.free a

end Heap

/-! ## Octrees -/

/-- The members of `class OctreeNode` other than `children_`, include/geolib/OctreeNode.h:41-49. `tree_` is the
name of an object of the program. -/
structure OctData where
  size : ℝ
  split : ℝ
  occupied : Bool
  tree : ℕ

/-- The members of `class Octree`, include/geolib/Octree.h:51-62, with `root_` an address. Simplification: the
cached `mesh_` and the members of the base class, which hold no nodes, are left out. -/
structure OctObj where
  resolution : ℝ
  offset : Vec3
  max : Vec3
  size : ℝ
  root : ℕ

/-- A program's octrees, by name, and their nodes. (Models a client, no line in /repo.) -/
structure World where
  heap : Heap OctData 8
  objs : ℕ → Option OctObj

namespace World

/-- Before the first octree is created. (Models a client, no line in /repo.) -/
def empty : World := ⟨Heap.empty, fun _ => none⟩

/-- The members of an octree; undefined when it does not exist. Models the language (no line in /repo). -/
def obj (w : World) (v : ℕ) : Exec OctObj :=
  match w.objs v with
  | some o => .ok o
  | none => .error .ub

/-- `OctreeNode::OctreeNode(double, Octree*)`, src/OctreeNode.cpp:13. -/
noncomputable def nodeData (size : ℝ) (tree : ℕ) : OctData := ⟨size, size / 2, false, tree⟩

open Classical in
/-- `OctreeNode::add`, src/OctreeNode.cpp:47-84, with a bound on the recursion depth; `objs` are the octrees that
`tree_` refers to. -/
noncomputable def addNode (objs : ℕ → Option OctObj) : ℕ → Heap OctData 8 → ℕ → Vec3 → Exec (Heap OctData 8)
  | 0, _, _, _ => .error .hang
  | n + 1, h, a, p => do
    let c ← h.read a
    let t ← World.obj ⟨h, objs⟩ c.data.tree
    if c.data.size - 1e-10 < t.resolution then
      return h.write a { c with data := { c.data with occupied := true } }
    else
      let x := decide (p.x > c.data.split)
      let y := decide (p.y > c.data.split)
      let z := decide (p.z > c.data.split)
      let q : Vec3 := ⟨if x then p.x - c.data.split else p.x, if y then p.y - c.data.split else p.y,
        if z then p.z - c.data.split else p.z⟩
      let i := OctNode.index x y z
      match c.children i with
      | some b => addNode objs n h b q
      | none =>
        let r := h.alloc (nodeData (c.data.size / 2) c.data.tree)
        addNode objs n (r.1.write a { c with children := Function.update c.children i (some r.2) }) r.2 q

open Classical in
/-- `OctreeNode::raytrace`, src/OctreeNode.cpp:177-224, with a bound on the recursion depth. Simplifications as for
`OctNode.raytrace`. -/
noncomputable def rayNode (objs : ℕ → Option OctObj) :
    ℕ → Heap OctData 8 → ℕ → Vec3 → Vec3 → ℝ → ℝ → Exec (Heap OctData 8)
  | 0, _, _, _, _, _, _ => .error .hang
  | n + 1, h, a, o, dir, t0, t1 => do
    let c ← h.read a
    if t1 < t0 then return h
    else
      let newo := o + t0 * dir
      if OctNode.Outside c.data.size newo then return h
      else
        let h := h.write a { c with data := { c.data with occupied := false } }
        let x := decide (newo.x ≥ c.data.split)
        let y := decide (newo.y ≥ c.data.split)
        let z := decide (newo.z ≥ c.data.split)
        let d : Vec3 := ⟨if x then c.data.split else 0, if y then c.data.split else 0, if z then c.data.split else 0⟩
        let h ← match c.children (OctNode.index x y z) with
          | none => Except.ok h
          | some b => rayNode objs n h b (o - d) dir t0 t1
        let dist := ((Box.new d ⟨d.x + c.data.size / 2, d.y + c.data.size / 2, d.z + c.data.size / 2⟩).intersectRay
          (Ray.new newo (-dir)) 0 (t1 - t0) 0).2
        let t ← World.obj ⟨h, objs⟩ c.data.tree
        rayNode objs n h a o dir (t0 - dist + t.resolution * 0.1) t1

/-- `OctreeNode::getCubes`, src/OctreeNode.cpp:87-111, with a bound on the recursion depth: the boxes appended. -/
noncomputable def nodeCubes : ℕ → Heap OctData 8 → ℕ → Vec3 → Exec (List Box)
  | 0, _, _, _ => .error .hang
  | n + 1, h, a, offset => do
    let c ← h.read a
    if c.data.occupied then return [Box.new offset (offset + ⟨c.data.size, c.data.size, c.data.size⟩)]
    else OctNode.octants.foldlM (fun l o =>
      match c.children (OctNode.index o.1 o.2.1 o.2.2) with
      | none => .ok l
      | some b => do
        let m ← nodeCubes n h b (offset + ⟨if o.1 then c.data.split else 0, if o.2.1 then c.data.split else 0,
          if o.2.2 then c.data.split else 0⟩)
        return l ++ m) []

/-- `Octree::Octree(double, double)`, src/Octree.cpp:15-20, of an octree named `v`. -/
noncomputable def create (w : World) (v : ℕ) (size resolution : ℝ) : Exec World := do
  let r := w.heap.alloc (nodeData size v)
  let res ← unbounded fun n => Octree.halve resolution n size
  return ⟨r.1, Function.update w.objs v (some ⟨res, ⟨-size / 2, -size / 2, -size / 2⟩,
    ⟨size / 2, size / 2, size / 2⟩, size, r.2⟩)⟩

/-- `Octree::Octree(const Octree&)`, `clone`, src/Octree.cpp:22-26,33-36: `v` becomes a copy of `u`. No tree is deeper
than the number of nodes created. -/
def copy (w : World) (v u : ℕ) : Exec World := do
  let o ← w.obj u
  let r ← w.heap.copy (fun d => { d with tree := v }) (w.heap.next + 1) o.root
  return ⟨r.1, Function.update w.objs v (some { o with root := r.2 })⟩

/-- `Octree::~Octree`, src/Octree.cpp:28-31. -/
def destroy (w : World) (v : ℕ) : Exec World := do
  let o ← w.obj v
  let h ← w.heap.delete (w.heap.next + 1) o.root
  return ⟨h, Function.update w.objs v none⟩

/-- `Octree::clear`, src/Octree.cpp:38-43. -/
noncomputable def clear (w : World) (v : ℕ) : Exec World := do
  let o ← w.obj v
  let h ← w.heap.delete (w.heap.next + 1) o.root
  let r := h.alloc (nodeData o.size v)
  return ⟨r.1, Function.update w.objs v (some { o with root := r.2 })⟩

/-- `Octree::add`, src/Octree.cpp:45-49. -/
noncomputable def add (w : World) (v : ℕ) (p : Vec3) : Exec World := do
  let o ← w.obj v
  let h ← unbounded fun n => addNode w.objs n w.heap o.root (p - o.offset)
  return { w with heap := h }

/-- `Octree::raytrace`, src/Octree.cpp:93-108. -/
noncomputable def raytrace (w : World) (v : ℕ) (r : Ray) (t0 t1 : ℝ) : Exec World := do
  let o ← w.obj v
  let hit := (Box.new o.offset o.max).intersectRay r t0 t1 0
  if !hit.1 then return w
  else
    let dist := Max.max hit.2 0
    let h ← unbounded fun n => rayNode w.objs n w.heap o.root (r.origin - o.offset) r.direction
      (t0 + dist + o.resolution * 0.1) t1
    add { w with heap := h } v (r.origin + r.direction * t1)

/-- `Octree::setResolution`, src/Octree.cpp:56-64. -/
noncomputable def setResolution (w : World) (v : ℕ) (resolution : ℝ) : Exec World := do
  let o ← w.obj v
  let res ← unbounded fun n => Octree.halve resolution n o.size
  return { w with objs := Function.update w.objs v (some { o with resolution := res }) }

/-- `Octree::getCubes`, src/Octree.cpp:51-54. -/
noncomputable def getCubes (w : World) (v : ℕ) : Exec (List Box) := do
  let o ← w.obj v
  nodeCubes (w.heap.next + 1) w.heap o.root o.offset

/-- The assignment operator of `Octree`, which the class (include/geolib/Octree.h:13-63) does not declare, so that the
compiler's copies each member, `root_` among them. -/
def assign (w : World) (v u : ℕ) : Exec World := do
  let _ ← w.obj v
  let o ← w.obj u
  return { w with objs := Function.update w.objs v (some o) }

end World

/-- What a program does with its octrees. (Models a client, no line in /repo.) -/
inductive OctOp where
  | create (v : ℕ) (size resolution : ℝ)
  | copy (v u : ℕ)
  | destroy (v : ℕ)
  | clear (v : ℕ)
  | add (v : ℕ) (p : Vec3)
  | raytrace (v : ℕ) (r : Ray) (t0 t1 : ℝ)
  | setResolution (v : ℕ) (resolution : ℝ)
  | assign (v u : ℕ)

/-- The effect of one statement. A name can be given again only after the object is destroyed. The methods are
cited at their models. -/
noncomputable def World.step (w : World) : OctOp → Exec World
  | .create v size resolution => if (w.objs v).isSome then .error .ub else w.create v size resolution
  | .copy v u => if (w.objs v).isSome then .error .ub else w.copy v u
  | .destroy v => w.destroy v
  | .clear v => w.clear v
  | .add v p => w.add v p
  | .raytrace v r t0 t1 => w.raytrace v r t0 t1
  | .setResolution v resolution => w.setResolution v resolution
  | .assign v u => w.assign v u

/-- A program. (Models a client, no line in /repo.) -/
noncomputable def World.run (w : World) : List OctOp → Exec World
  | [] => .ok w
  | o :: os => do let w ← w.step o; w.run os

/-! ## Height maps -/

/-- The members of `class HeightMapNode` other than `children_`, include/geolib/HeightMapNode.h:35-41. -/
structure HData where
  box : Box
  occupied : Bool

/-- A program's height maps, by name: `root_` of each, and the nodes. Simplification: the mesh, which holds no nodes,
is left out. (Models a client, no line in /repo.) -/
structure HWorld where
  heap : Heap HData 4
  objs : ℕ → Option (Option ℕ)

namespace HWorld

/-- Before the first height map is created. (Models a client, no line in /repo.) -/
def empty : HWorld := ⟨Heap.empty, fun _ => none⟩

/-- The member `root_` of a height map; undefined when it does not exist. Models the language (no line in
/repo). -/
def obj (w : HWorld) (v : ℕ) : Exec (Option ℕ) :=
  match w.objs v with
  | some o => .ok o
  | none => .error .ub

/-- The nodes that `HeightMap::createQuadTree`, src/HeightMap.cpp:248-294, creates for its result `t`: a node before its
children, lines 274-291. -/
def build : HNode → Heap HData 4 → Heap HData 4 × Option ℕ
  | .null, h => (h, none)
  | .node box occupied children, h =>
    let r := h.alloc ⟨box, occupied⟩
    let c0 := build (children 0) r.1
    let c1 := build (children 1) c0.1
    let c2 := build (children 2) c1.1
    let c3 := build (children 3) c2.1
    (c3.1.write r.2 ⟨⟨box, occupied⟩, ![c0.2, c1.2, c2.2, c3.2]⟩, some r.2)

/-- `HeightMap::HeightMap()`, src/HeightMap.cpp:14. -/
def create (w : HWorld) (v : ℕ) : Exec HWorld := .ok { w with objs := Function.update w.objs v (some none) }

/-- `HeightMap::fromGrid`, src/HeightMap.cpp:48-246, into a new object `v`; without the mesh. Simplification: the local
variable `hmap` is the result, not copied, and the tree is computed before its nodes are created. -/
noncomputable def fromGrid (w : HWorld) (v : ℕ) (grid : List (List ℝ)) (resolution : ℝ) : Exec HWorld := do
  let m ← HeightMap.fromGrid grid resolution
  let r := build m.root w.heap
  return ⟨r.1, Function.update w.objs v (some r.2)⟩

/-- `HeightMap::HeightMap(const HeightMap&)`, `clone`, src/HeightMap.cpp:16-27,34-37: `v` becomes a copy of `u`. -/
def copy (w : HWorld) (v u : ℕ) : Exec HWorld := do
  let o ← w.obj u
  match o with
  | none => return { w with objs := Function.update w.objs v (some none) }
  | some a =>
    let r ← w.heap.copy id (w.heap.next + 1) a
    return ⟨r.1, Function.update w.objs v (some (some r.2))⟩

/-- `HeightMap::~HeightMap`, src/HeightMap.cpp:29-32. The destructor of the node is the compiler's
(src/HeightMapNode.cpp:50) and does nothing for the pointers `children_`. -/
def destroy (w : HWorld) (v : ℕ) : Exec HWorld := do
  let o ← w.obj v
  match o with
  | none => return { w with objs := Function.update w.objs v none }
  | some a =>
    let h ← w.heap.free a
    return ⟨h, Function.update w.objs v none⟩

/-- The assignment operator of `HeightMap`, which the class (include/geolib/HeightMap.h:16-59) does not declare, so that
the compiler's copies the pointer. -/
def assign (w : HWorld) (v u : ℕ) : Exec HWorld := do
  let _ ← w.obj v
  let o ← w.obj u
  return { w with objs := Function.update w.objs v (some o) }

/-- `HeightMapNode::HeightMapNode(HeightMapNode&&)`, src/HeightMapNode.cpp:34-48: a new node that takes the children of the
node at `a`. -/
def moveNode (h : Heap HData 4) (a : ℕ) : Exec (Heap HData 4 × ℕ) := do
  let c ← h.read a
  let r := h.alloc c.data
  return ((r.1.write r.2 c).write a { c with children := fun _ => none }, r.2)

end HWorld

/-- What a program does with its height maps. (Models a client, no line in /repo.) -/
inductive HOp where
  | create (v : ℕ)
  | fromGrid (v : ℕ) (grid : List (List ℝ)) (resolution : ℝ)
  | copy (v u : ℕ)
  | destroy (v : ℕ)
  | assign (v u : ℕ)

/-- The effect of one statement. A name can be given again only after the object is destroyed. The methods are
cited at their models. -/
noncomputable def HWorld.step (w : HWorld) : HOp → Exec HWorld
  | .create v => if (w.objs v).isSome then .error .ub else w.create v
  | .fromGrid v grid resolution => if (w.objs v).isSome then .error .ub else w.fromGrid v grid resolution
  | .copy v u => if (w.objs v).isSome then .error .ub else w.copy v u
  | .destroy v => w.destroy v
  | .assign v u => w.assign v u

/-- A program. (Models a client, no line in /repo.) -/
noncomputable def HWorld.run (w : HWorld) : List HOp → Exec HWorld
  | [] => .ok w
  | o :: os => do let w ← w.step o; w.run os

end Geo
