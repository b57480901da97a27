import Verif.Model.Shape
import Verif.Model.Octree
import Verif.Model.DepthCamera

/-!
# Point queries of boxes, meshes and octrees for points with infinite or NaN coordinates

The point queries of `Model/Box`, `Model/Shape` and `Model/Octree` once more, for points whose coordinates are floating
point numbers with special values (`Fl`). The shapes themselves are finite. On finite points the functions are those of the
other modules (`Lemmas/Special`).
-/

namespace Geo

namespace Fl

open Classical in
/-- `a <= b`. Models the platform (no line in /repo). -/
noncomputable def le : Fl → Fl → Bool
  | .nan, _ => false
  | _, .nan => false
  | .fin a, .fin b => decide (a ≤ b)
  | .ninf, _ => true
  | _, .pinf => true
  | .pinf, _ => false
  | .fin _, .ninf => false

/-- `std::abs(a)`. Models the platform (no line in /repo). -/
noncomputable def abs : Fl → Fl
  | .nan => .nan
  | .fin a => .fin |a|
  | .pinf => .pinf
  | .ninf => .pinf

open Classical in
/-- `sqrt(a)`. Models the platform (no line in /repo). -/
noncomputable def sqrt : Fl → Fl
  | .nan => .nan
  | .fin a => if a < 0 then .nan else .fin (Real.sqrt a)
  | .pinf => .pinf
  | .ninf => .nan

open Classical in
/-- `a == b`. Models the platform (no line in /repo). -/
noncomputable def eq : Fl → Fl → Bool
  | .fin a, .fin b => decide (a = b)
  | .pinf, .pinf => true
  | .ninf, .ninf => true
  | _, _ => false

end Fl

/-- `Vec3T`, include/geolib/math_types.h:158-303, with special values. -/
structure FVec where
  x : Fl
  y : Fl
  z : Fl

namespace FVec

/-- A vector of ordinary numbers. Device to pass the finite data of the shapes (no line in /repo). -/
def ofVec (v : Vec3) : FVec := ⟨.fin v.x, .fin v.y, .fin v.z⟩

/-- `operator-`, include/geolib/math_types.h:199. -/
noncomputable def sub (a b : FVec) : FVec := ⟨a.x.sub b.x, a.y.sub b.y, a.z.sub b.z⟩

/-- `dot`, include/geolib/math_types.h:190. -/
noncomputable def dot (a b : FVec) : Fl := ((a.x.mul b.x).add (a.y.mul b.y)).add (a.z.mul b.z)

/-- `cross`, include/geolib/math_types.h:193. -/
noncomputable def cross (a b : FVec) : FVec :=
  ⟨(a.y.mul b.z).sub (a.z.mul b.y), (a.z.mul b.x).sub (a.x.mul b.z), (a.x.mul b.y).sub (a.y.mul b.x)⟩

/-- `operator*(T, v)`, include/geolib/math_types.h:208. -/
noncomputable def smul (s : Fl) (v : FVec) : FVec := ⟨v.x.mul s, v.y.mul s, v.z.mul s⟩

/-- `length2`, include/geolib/math_types.h:214. -/
noncomputable def length2 (a : FVec) : Fl := ((a.x.mul a.x).add (a.y.mul a.y)).add (a.z.mul a.z)

/-- `length`, include/geolib/math_types.h:211. -/
noncomputable def length (a : FVec) : Fl := a.length2.sqrt

/-- `normalized`, include/geolib/math_types.h:217-221. -/
noncomputable def normalized (a : FVec) : FVec := ⟨a.x.div a.length, a.y.div a.length, a.z.div a.length⟩

/-- `operator==`, include/geolib/math_types.h:185. -/
noncomputable def eq (a b : FVec) : Bool := a.x.eq b.x && a.y.eq b.y && a.z.eq b.z

end FVec

/-! ## Boxes -/

namespace Box

/-- `Box::contains`, src/Box.cpp:105-109. -/
noncomputable def containsS (b : Box) (p : FVec) : Bool :=
  Fl.le (.fin b.lo.x) p.x && Fl.le p.x (.fin b.hi.x) && Fl.le (.fin b.lo.y) p.y && Fl.le p.y (.fin b.hi.y) &&
    Fl.le (.fin b.lo.z) p.z && Fl.le p.z (.fin b.hi.z)

/-- One iteration of the loop of `Box::intersect(p, RADIUS)`, src/Box.cpp:96-99, for one axis with bounds `lo`, `hi`, centre
coordinate `c`. -/
noncomputable def closestCoordS (lo hi c : ℝ) (p : Fl) : Fl :=
  if Fl.lt (.fin lo) p && Fl.lt p (.fin hi) then p else if Fl.lt (.fin c) p then .fin hi else .fin lo

open Classical in
/-- `Box::intersect(const Vector3&, double)`, src/Box.cpp:86-103. -/
noncomputable def intersectSphereS (b : Box) (p : FVec) (radius : ℝ) : Bool :=
  let c := b.getCenter
  if radius ≤ 0 then b.containsS p else
  let c : FVec := ⟨closestCoordS b.lo.x b.hi.x c.x p.x, closestCoordS b.lo.y b.hi.y c.y p.y,
    closestCoordS b.lo.z b.hi.z c.z p.z⟩
  Fl.le (p.sub c).length2 (.fin (radius * radius))

end Box

/-! ## Meshes -/

/-- `class LineSegment` (`LS`), src/Shape.cpp:55-89. -/
structure FLS where
  a : FVec
  b : FVec
  u : FVec
  v : FVec

/-- `LineSegment::LineSegment`, src/Shape.cpp:58-62. -/
noncomputable def FLS.new (a b : FVec) : FLS := ⟨a, b, b.sub a, a.cross b⟩

/-- `sideProduct`, src/Shape.cpp:103-106. -/
noncomputable def sideProductS (p q : FLS) : Fl := (p.u.dot q.v).add (q.u.dot p.v)

/-- `checkLinesegment`, src/Shape.cpp:38-50. -/
noncomputable def checkLinesegmentS (p : FVec) (radius2 : Fl) (a ab : FVec) : Bool :=
  let ap := p.sub a
  let d1_2 := ap.length2
  let d2 := ab.dot ap
  if d2.lt (.fin 0) then false
  else
    let d2_2 := (d2.mul d2).div ab.length2
    d2_2.le (ab.length2.mul (.fin (1 + 1e-9))) && (d1_2.sub d2_2).le (radius2.mul (.fin (1 + 1e-9)))

/-- `lineLinesegmentIntersection`, src/Shape.cpp:116-128. -/
noncomputable def lineLinesegmentIntersectionS (l ls : FLS) (outside : FVec) : Bool :=
  let s := sideProductS l ls
  if !s.eq (.fin 0) then false
  else
    let s1 := sideProductS l (FLS.new outside ls.a)
    let s2 := sideProductS l (FLS.new ls.b outside)
    (Fl.fin 0).le (s1.mul s2)

/-- The first loop of `compute2DIntersection`, src/Shape.cpp:145-155, unrolled: the displaced third corner on which the loop
stops. -/
noncomputable def displacedCornerS (v1 v2 v3 : FVec) (line : FLS) : FVec :=
  let test := fun p3 : FVec =>
    let s2 := sideProductS line (FLS.new v2 p3)
    let s3 := sideProductS line (FLS.new p3 v1)
    (Fl.fin 1e-16).le s2.abs || (Fl.fin 1e-16).le s3.abs
  let c0 : FVec := ⟨v3.x.add (.fin 1), v3.y, v3.z⟩
  let c1 : FVec := ⟨v3.x, v3.y.add (.fin 1), v3.z⟩
  let c2 : FVec := ⟨v3.x, v3.y, v3.z.add (.fin 1)⟩
  if test c0 then c0 else if test c1 then c1 else c2

/-- `compute2DIntersection`, src/Shape.cpp:137-178 (the loops over the three edges, 157-176, as list searches). -/
noncomputable def compute2DIntersectionS (v1 v2 v3 : FVec) (line : FLS) : Bool :=
  let p3 := displacedCornerS v1 v2 v3 line
  let edges := [(v1, v2), (v2, v3), (v3, v1)]
  edges.any fun e =>
    let s2 := sideProductS line (FLS.new e.2 p3)
    let s3 := sideProductS line (FLS.new p3 e.1)
    (Fl.fin 0).le (s2.mul s3) &&
      edges.any fun v => lineLinesegmentIntersectionS line (FLS.new v.1 v.2) p3

/-- `triangleArea`, src/Triangle.cpp:8-11. -/
noncomputable def triangleAreaS (p1 p2 p3 : FVec) : Fl := (Fl.fin 0.5).mul ((p1.sub p2).cross (p1.sub p3)).length

namespace Shape

/-- One iteration of the loop of `Shape::contains`, src/Shape.cpp:301-462, for the triangle `it` with corners `v1 v2 v3`,
point `p` and far point `p_out`. Simplification: `intersect_count` and the hit counters do not overflow. -/
noncomputable def containsStepS (p p_out : FVec) (it : TriI) (v1 v2 v3 : FVec) (st : HitState) : Hit :=
  let eps : Fl := .fin 1e-16
  let meps : Fl := .fin (-1e-16)
  let line := FLS.new p p_out
  let e1 := FLS.new v1 v2
  let e2 := FLS.new v2 v3
  let e3 := FLS.new v3 v1
  let s1 := sideProductS line e1
  let s2 := sideProductS line e2
  let s3 := sideProductS line e3
  let clockwise := meps.le s1 && meps.le s2 && meps.le s3
  let clockwise_nz := count3 (eps.lt s1) (eps.lt s2) (eps.lt s3)
  let counterclockwise := s1.le eps && s2.le eps && s3.le eps
  let counterclockwise_nz := count3 (s1.lt meps) (s2.lt meps) (s3.lt meps)
  let dir : ℤ := clockwise.toInt - counterclockwise.toInt
  if !clockwise && !counterclockwise then .go st
  else if clockwise && counterclockwise then
    if compute2DIntersectionS v1 v2 v3 line then .inside else .go st
  else if (clockwise && decide (clockwise_nz > 0)) ||
      (counterclockwise && decide (counterclockwise_nz > 0)) then
    let l4 := FLS.new p_out v1
    let l5 := FLS.new v1 p
    let s4 := sideProductS l4 e2
    let s5 := sideProductS l5 e2
    if meps.le (s4.mul s5) then
      if clockwise_nz = 2 ∨ counterclockwise_nz = 2 then
        -- edge intersection
        let sel := if s1.abs.lt eps then ((it.i1, v1), (it.i2, v2))
          else if s2.abs.lt eps then ((it.i2, v2), (it.i3, v3))
          else ((it.i3, v3), (it.i1, v1))
        let key := edgeKey sel.1.1 sel.2.1
        let pmin := if sel.2.1 < sel.1.1 then sel.2.2 else sel.1.2
        let pmax := if sel.2.1 < sel.1.1 then sel.1.2 else sel.2.2
        if (((p.sub pmin).length.add (pmax.sub p).length).sub (pmax.sub pmin).length).abs.le (.fin 1e-12) then .inside
        else if st.edge key = dir then .go st
        else .go { st with count := st.count + dir,
                           edge := Function.update st.edge key (st.edge key + dir) }
      else if clockwise_nz = 1 ∨ counterclockwise_nz = 1 then
        -- vertex intersection
        let sel := if eps.lt s2.abs then (it.i1, v1)
          else if eps.lt s3.abs then (it.i2, v2)
          else (it.i3, v3)
        if sel.2.eq p then .inside
        else if st.vertex sel.1 = dir then .go st
        else .go { st with count := st.count + dir,
                           vertex := Function.update st.vertex sel.1 (st.vertex sel.1 + dir) }
      else
        -- proper intersection
        let s := triangleAreaS v1 v2 v3
        let a1 := triangleAreaS v2 p v3
        let a2 := triangleAreaS p v1 v3
        let a3 := triangleAreaS p v1 v2
        if (((a1.add a2).add a3).sub s).abs.lt (.fin 1e-12) then .inside
        else .go { st with count := st.count + dir }
    else .go st
  else .go st

/-- The loop of `Shape::contains` over the triangles, src/Shape.cpp:299-463, and the final decision, 465-472. Indices out of
range are undefined behaviour. -/
noncomputable def containsLoopS (p p_out : FVec) (points : List Vec3) :
    List TriI → HitState → Exec Bool
  | [], st => .ok (if st.count < 0 ∨ st.count > 1 then false else decide (st.count > 0))
  | it :: ts, st => do
    let v1 ← vget points it.i1
    let v2 ← vget points it.i2
    let v3 ← vget points it.i3
    match containsStepS p p_out it (.ofVec v1) (.ofVec v2) (.ofVec v3) st with
    | .inside => return true
    | .go st' => containsLoopS p p_out points ts st'

/-- `Shape::contains` for a mesh, src/Shape.cpp:278-473. Simplification: the mesh's mutable radius caches are read but their
update is not threaded (C10 shows it is unobservable). -/
noncomputable def containsMeshS (mesh : Mesh) (p : FVec) : Exec Bool :=
  if Fl.lt (.fin mesh.getSquaredMaxRadius.2) p.length2 then .ok false
  else containsLoopS p ⟨.fin (1.1 * mesh.getMaxRadius.2), .fin 0, .fin 0⟩ mesh.points mesh.tris
    ⟨0, fun _ => 0, fun _ => 0⟩

/-- One iteration of the loop of `Shape::intersect(p, RADIUS)`, src/Shape.cpp:225-266: true for `return true`. -/
noncomputable def sphereHitsTriangleS (p : FVec) (radius2 : Fl) (v1 v2 v3 : FVec) : Bool :=
  if (v1.sub p).length2.lt radius2 then true
  else if (v2.sub p).length2.lt radius2 then true
  else if (v3.sub p).length2.lt radius2 then true
  else
  let e1 := v2.sub v1
  let e2 := v3.sub v2
  let e3 := v1.sub v3
  if checkLinesegmentS p radius2 v1 e1 then true
  else if checkLinesegmentS p radius2 v2 e2 then true
  else if checkLinesegmentS p radius2 v3 e3 then true
  else
  let n := e1.cross e2
  let pd := (v1.sub p).dot n
  let pd2 := (pd.mul pd).div n.length2
  if radius2.lt pd2 then false
  else
  let q := p.sub (FVec.smul pd2.sqrt n.normalized)
  let cross1 := e1.cross (q.sub v1)
  let cross2 := e2.cross (q.sub v2)
  let cross3 := e3.cross (q.sub v3)
  let dot1 := cross1.dot cross2
  let dot2 := cross2.dot cross3
  let dot3 := cross3.dot cross1
  (Fl.fin 0).lt dot1 && (Fl.fin 0).lt dot2 && (Fl.fin 0).lt dot3

/-- The loop of `Shape::intersect(p, RADIUS)`, src/Shape.cpp:219-267: true if some iteration returned true. -/
noncomputable def sphereLoopS (p : FVec) (radius2 : Fl) (points : List Vec3) : List TriI → Exec Bool
  | [] => .ok false
  | it :: ts => do
    let v1 ← vget points it.i1
    let v2 ← vget points it.i2
    let v3 ← vget points it.i3
    if sphereHitsTriangleS p radius2 (.ofVec v1) (.ofVec v2) (.ofVec v3) then return true
    else sphereLoopS p radius2 points ts

open Classical in
/-- `Shape::intersect(const Vector3&, double)` for a mesh, src/Shape.cpp:205-270. -/
noncomputable def intersectSphereMeshS (mesh : Mesh) (p : FVec) (radius : ℝ) : Exec Bool :=
  if Fl.lt (.fin mesh.getMaxRadius.2) (p.length.sub (.fin radius)) then .ok false
  else if radius > 0 then do
    let hit ← sphereLoopS p (.fin (radius * radius)) mesh.points mesh.tris
    if hit then return true else containsMeshS mesh p
  else containsMeshS mesh p

end Shape

/-! ## Octrees -/

namespace OctNode

/-- One axis of `OctreeNode::add`, src/OctreeNode.cpp:59-77: whether the upper half is taken, and the coordinate passed on. -/
noncomputable def halfS (split : ℝ) (x : Fl) : Bool × Fl :=
  if Fl.lt (.fin split) x then (true, x.sub (.fin split)) else (false, x)

open Classical in
/-- `OctreeNode::add`, src/OctreeNode.cpp:47-84, with a bound on the recursion depth. -/
noncomputable def addS (res : ℝ) : ℕ → OctNode → FVec → Exec OctNode
  | 0, _, _ => .error .hang
  | _ + 1, .null, _ => .error .ub
  | n + 1, .node size occupied children, p =>
    if size - 1e-10 < res then .ok (.node size true children)
    else do
      let x := halfS (size / 2) p.x
      let y := halfS (size / 2) p.y
      let z := halfS (size / 2) p.z
      let i := index x.1 y.1 z.1
      let c ← addS res n (ensure (size / 2) (children i)) ⟨x.2, y.2, z.2⟩
      return .node size occupied (Function.update children i c)

/-- `OctreeNode::contains`, src/OctreeNode.cpp:227-259; the recursive call passes `p` unshifted. -/
noncomputable def containsS : OctNode → FVec → Bool
  | .null, _ => false
  | .node size occupied children, p =>
    if occupied then true
    else containsS (children (index (Fl.lt (.fin (size / 2)) p.x) (Fl.lt (.fin (size / 2)) p.y)
      (Fl.lt (.fin (size / 2)) p.z))) p

end OctNode

namespace Octree

/-- `Octree::add`, src/Octree.cpp:45-49. -/
noncomputable def addS (t : Octree) (p : FVec) : Exec Octree := do
  let root ← unbounded fun n => OctNode.addS t.resolution n t.root (p.sub (.ofVec t.offset))
  return { t with root := root, mesh := t.mesh.clear }

/-- `Octree::contains`, src/Octree.cpp:110-118. -/
noncomputable def containsS (t : Octree) (p : FVec) : Bool :=
  if p.x.lt (.fin t.offset.x) || p.y.lt (.fin t.offset.y) || p.z.lt (.fin t.offset.z) || Fl.lt (.fin t.max.x) p.x ||
      Fl.lt (.fin t.max.y) p.y || Fl.lt (.fin t.max.z) p.z then false
  else t.root.containsS (p.sub (.ofVec t.offset))

end Octree

end Geo
