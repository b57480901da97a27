import Verif.Model.Composite
import Verif.Model.Octree
import Verif.Model.Parts
import Verif.Model.DepthCamera

/-!
# The ray queries with NaN as the initial value of the distance

`CompositeShape::intersect` hands its parts a variable that holds NaN, and goes on with what it finds there. Here `t1` and the
out-parameter can be NaN; the other numbers are finite, and casts to `float` exact, as in `Model/Box`, `Model/Octree` and
`Model/Composite`.
-/

namespace Geo

/-- `Box::intersect(const Ray&, float, float, double&)`, src/Box.cpp:31-61, where `t1` and the initial value `d0` of the
out-parameter may be NaN. -/
noncomputable def Box.intersectRayN (b : Box) (r : Ray) (t0 : ℝ) (t1 d0 : Fl) : Bool × Fl :=
  let tmin := ((b.bound r.sx).x - r.origin.x) * r.inv.x
  let tmax := ((b.bound (!r.sx)).x - r.origin.x) * r.inv.x
  let tymin := ((b.bound r.sy).y - r.origin.y) * r.inv.y
  let tymax := ((b.bound (!r.sy)).y - r.origin.y) * r.inv.y
  if tmin > tymax ∨ tymin > tmax then (false, d0) else
  let tmin := max tymin tmin
  let tmax := min tymax tmax
  let tzmin := ((b.bound r.sz).z - r.origin.z) * r.inv.z
  let tzmax := ((b.bound (!r.sz)).z - r.origin.z) * r.inv.z
  if tmin > tzmax ∨ tzmin > tmax then (false, d0) else
  let tmin := max tzmin tmin
  let tmax := min tzmax tmax
  ((Fl.fin t0).lt (.fin tmax) && (Fl.fin tmin).lt t1, .fin tmin)

open Classical in
/-- `OctreeNode::intersect(const Ray&, ...)`, src/OctreeNode.cpp:114-174, as `OctNode.intersectRay`, but the initial value `d` of
the out-parameter may be NaN. `t1` is omitted: it reaches only the result of the call on line 171, which is ignored. -/
noncomputable def OctNode.intersectRayN (res : ℝ) : ℕ → OctNode → Ray → ℝ → Fl → Exec (Bool × Fl)
  | 0, _, _, _, _ => .error .hang
  | _ + 1, .null, _, _, _ => .error .ub
  | n + 1, .node size occupied children, r, t0, d =>
    if occupied then .ok (true, d)
    else
      let o := r.origin + t0 * r.direction
      if Outside size o then .ok (false, d)
      else
        let x := decide (o.x ≥ size / 2)
        let y := decide (o.y ≥ size / 2)
        let z := decide (o.z ≥ size / 2)
        let below : Exec (Bool × Fl) := match children (index x y z) with
          | .null => .ok (false, d)
          | c => intersectRayN res n c (Ray.new (r.origin - shift size x y z) r.direction) t0 d
        match below with
        | .error e => .error e
        | .ok (true, d') => .ok (true, d')
        | .ok (false, _) =>
          let distance := t0 - exitDist size x y z o r.direction 0
          intersectRayN res n (.node size occupied children) r (distance + res * 0.1) (.fin distance)

/-- `Octree::intersect(const Ray&, ...)`, src/Octree.cpp:71-86; `dist` is NaN before the call on line 74, and a hit always
overwrites it by a number, so the last case is the miss. -/
noncomputable def Octree.intersectRayN (t : Octree) (r : Ray) (t0 : ℝ) (t1 d : Fl) : Exec (Bool × Fl) :=
  match (Box.new t.offset t.max).intersectRayN r t0 t1 .nan with
  | (true, .fin x) => unbounded fun n => t.root.intersectRayN t.resolution n (Ray.new (r.origin - t.offset) r.direction)
      (t0 + Max.max x 0 + t.resolution * 0.1) d
  | _ => .ok (false, d)

/-- The first loop of `HeightMapNode::intersect`, src/HeightMapNode.cpp:78-89, as `HNode.loopOrigin`. -/
def HNode.loopOriginN (sel : Fin 4 → Bool) (f : Fin 4 → Fl → Bool × Fl) :
    List (Fin 4) → Fl → Option (Fin 4) → Bool × Fl × Option (Fin 4)
  | [], d, k => (false, d, k)
  | i :: l, d, k =>
    if sel i then
      let h := f i d
      if h.1 then (true, h.2, k) else loopOriginN sel f l h.2 (some i)
    else loopOriginN sel f l d k

/-- The second loop of `HeightMapNode::intersect`, src/HeightMapNode.cpp:91-97. -/
def HNode.loopRestN (skip : Option (Fin 4)) (f : Fin 4 → Fl → Bool × Fl) : List (Fin 4) → Fl → Bool × Fl
  | [], d => (false, d)
  | i :: l, d =>
    if some i ≠ skip then
      let h := f i d
      if h.1 then (true, h.2) else loopRestN skip f l h.2
    else loopRestN skip f l d

/-- `HeightMapNode::intersect`, src/HeightMapNode.cpp:59-100, as `HNode.intersectRay`, but `t1` and the initial value `d` of the
out-parameter may be NaN. -/
noncomputable def HNode.intersectRayN : HNode → Ray → ℝ → Fl → Fl → Bool × Fl
  | .null, _, _, _, d => (false, d)
  | .node box occupied children, r, t0, t1, d =>
    let hit := box.intersectRayN r t0 t1 d
    if !hit.1 then (false, hit.2)
    else if occupied then (true, hit.2)
    else
      let f := fun i d => intersectRayN (children i) r t0 t1 d
      let first := loopOriginN (fun i => (children i).boxContains r.origin) f [0, 1, 2, 3] hit.2 none
      if first.1 then (true, first.2.1) else loopRestN first.2.2 f [0, 1, 2, 3] first.2.1

/-- A shape with its ray query for values that may be NaN: the virtual `intersect` of include/geolib/Shape.h:40, next to the
methods with which `CompositeShape::addShape` builds the mesh and the bounding box. -/
structure NanPart where
  obj : ShapeObj
  ray : Ray → ℝ → Fl → Fl → Exec (Bool × Fl)

/-- A box as a part, include/geolib/Box.h:13-61. -/
noncomputable def Box.toNan (b : Box) : NanPart := ⟨b.toObj, fun r t0 t1 d => .ok (b.intersectRayN r t0 t1 d)⟩

/-- A plain mesh as a part, include/geolib/Shape.h:20-105: its ray query throws (src/Shape.cpp:193-197). -/
noncomputable def Shape.toNan (s : Shape) : NanPart := ⟨s.toObj, fun _ _ _ _ => .error .exception⟩

/-- A height map as a part, include/geolib/HeightMap.h:16-59, with `HeightMap::intersect` of src/HeightMap.cpp:39-46. -/
noncomputable def HeightMap.toNan (h : HeightMap) : NanPart :=
  ⟨h.toObj, fun r t0 t1 d => .ok (h.root.intersectRayN r t0 t1 d)⟩

/-- An octree as a part, include/geolib/Octree.h:13-63, with its overrides of `intersect` and `contains`; `mesh` is what its
`getMesh` returns (src/Octree.cpp:135-151), passed here because the call refreshes a cache. The other methods are those of `Shape`
on this mesh. -/
noncomputable def Octree.toNan (t : Octree) (mesh : Mesh) : NanPart where
  obj := { (⟨mesh, false, 0, 0⟩ : Shape).toObj with
    ray := t.intersectRay, contains := fun p => .ok (t.contains p), maxRadius := t.getMaxRadius }
  ray := t.intersectRayN

/-- The loop of `CompositeShape::intersect(Ray)`, src/CompositeShape.cpp:37-54: the out-parameter of the parts is NaN before each
call (line 48). -/
noncomputable def Composite.rayLoopN (r : Ray) (t0 : ℝ) : List (NanPart × Transform3) → Bool → Fl → Exec (Bool × Fl)
  | [], hit, md => .ok (hit, md)
  | (shape, pose_inv) :: rest, hit, md => do
    let r_t := Ray.new (pose_inv.apply r.origin) (pose_inv.R.mulVec r.direction)
    let (h, d) ← shape.ray r_t t0 md .nan
    if h then rayLoopN r t0 rest true d else rayLoopN r t0 rest hit md

/-- `CompositeShape::intersect(const Ray&, float, float, double&)`, src/CompositeShape.cpp:30-63, for a composite with the given
bounding box and parts. -/
noncomputable def Composite.intersectRayN (bb : Box) (shapes : List (NanPart × Transform3)) (r : Ray) (t0 : ℝ) (t1 d0 : Fl) :
    Exec (Bool × Fl) :=
  let (b, d) := bb.intersectRayN r t0 t1 d0
  if !b then .ok (false, d)
  else do
    let (hit, md) ← rayLoopN r t0 (shapes.map fun x => (x.1, x.2.inverse)) false t1
    if hit then return (true, md) else return (false, d)

/-- A composite as a part, include/geolib/CompositeShape.h:17-50: `c` is what the calls of `addShape` with these parts give. -/
noncomputable def Composite.toNan (c : Composite) (shapes : List (NanPart × Transform3)) : NanPart :=
  ⟨c.toObj, Composite.intersectRayN c.bb shapes⟩

end Geo
