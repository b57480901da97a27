import Verif.Model.Box
import Mathlib.Logic.Function.Basic

/-!
# Model of src/Shape.cpp, include/geolib/Shape.h (serialisation is in Model/Serialization.lean)
-/

namespace Geo

/-- `class LineSegment` (`LS`), src/Shape.cpp:55-89. -/
structure LS where
  a : Vec3
  b : Vec3
  u : Vec3
  v : Vec3

/-- `LineSegment::LineSegment`, src/Shape.cpp:58-62. -/
def LS.new (a b : Vec3) : LS := ⟨a, b, b - a, a.cross b⟩

/-- `sideProduct`, src/Shape.cpp:103-106. -/
def sideProduct (p q : LS) : ℝ := p.u.dot q.v + q.u.dot p.v

open Classical in
/-- `checkLinesegment`, src/Shape.cpp:38-50. For a zero-length segment line 48 computes 0/0 = NaN and
both comparisons of line 49 fail. -/
noncomputable def checkLinesegment (p : Vec3) (radius2 : ℝ) (a ab : Vec3) : Bool :=
  let ap := p - a
  let d1_2 := ap.length2
  let d2 := ab.dot ap
  if d2 < 0 then false
  else if ab.length2 = 0 then false
  else
    let d2_2 := d2 * d2 / ab.length2
    decide (d2_2 ≤ ab.length2 * (1 + 1e-9) ∧ d1_2 - d2_2 ≤ radius2 * (1 + 1e-9))

open Classical in
/-- `lineLinesegmentIntersection`, src/Shape.cpp:116-128. -/
noncomputable def lineLinesegmentIntersection (l ls : LS) (outside : Vec3) : Bool :=
  let s := sideProduct l ls
  if s ≠ 0 then false
  else
    let s1 := sideProduct l (LS.new outside ls.a)
    let s2 := sideProduct l (LS.new ls.b outside)
    decide (s1 * s2 ≥ 0)

open Classical in
/-- The first loop of `compute2DIntersection`, src/Shape.cpp:145-155, unrolled: the displaced third
corner on which the loop stops. -/
noncomputable def displacedCorner (t : Tri) (line : LS) : Vec3 :=
  let test := fun p3 : Vec3 =>
    let s2 := sideProduct line (LS.new t.p2 p3)
    let s3 := sideProduct line (LS.new p3 t.p1)
    |s2| ≥ 1e-16 ∨ |s3| ≥ 1e-16
  let c0 : Vec3 := ⟨t.p3.x + 1, t.p3.y, t.p3.z⟩
  let c1 : Vec3 := ⟨t.p3.x, t.p3.y + 1, t.p3.z⟩
  let c2 : Vec3 := ⟨t.p3.x, t.p3.y, t.p3.z + 1⟩
  if test c0 then c0 else if test c1 then c1 else c2

open Classical in
/-- `compute2DIntersection`, src/Shape.cpp:137-178 (the loops over the three edges, 157-176, as
list searches). -/
noncomputable def compute2DIntersection (t : Tri) (line : LS) : Bool :=
  let p3 := displacedCorner t line
  let edges := [(t.p1, t.p2), (t.p2, t.p3), (t.p3, t.p1)]
  edges.any fun e =>
    let s2 := sideProduct line (LS.new e.2 p3)
    let s3 := sideProduct line (LS.new p3 e.1)
    decide (s2 * s3 ≥ 0) &&
      edges.any fun v => lineLinesegmentIntersection line (LS.new v.1 v.2) p3

/-- `class Shape`, include/geolib/Shape.h:113-118: the mesh and the bounding-box cache. -/
structure Shape where
  mesh : Mesh
  bbValid : Bool
  bbMin : Vec3
  bbMax : Vec3

namespace Shape

/-- `Shape::Shape`, src/Shape.cpp:184. -/
def new : Shape := ⟨Mesh.new, false, 0, 0⟩

/-- `Shape::intersect(Ray, ...)`, src/Shape.cpp:193-197: always throws. -/
def intersectRay (_ : Shape) (_ : Ray) (_ _ _ : ℝ) : Exec (Bool × ℝ) := .error .exception

/-- The variables of the loop of `Shape::contains` that survive an iteration, src/Shape.cpp:286-294.
The two `std::map`s whose missing entries are created with value 0 are total functions. -/
structure HitState where
  count : ℤ
  edge : ℕ × ℕ → ℤ
  vertex : ℕ → ℤ

/-- How one iteration of the loop of `Shape::contains` ends: `return true`, or go on. -/
inductive Hit where
  | inside
  | go (s : HitState)

/-- Number of true conditions, `ushort const clockwise_nz = (s1 > 1e-16) + ...`,
src/Shape.cpp:315,317. -/
def count3 (a b c : Bool) : ℕ := a.toNat + b.toNat + c.toNat

/-- Key of the edge hit map, src/Shape.cpp:373-376,390: smaller index, and `i_max - i_min - 1`
(unsigned). -/
def edgeKey (i1 i2 : ℕ) : ℕ × ℕ :=
  let lo := if i2 < i1 then i2 else i1
  let hi := if i2 < i1 then i1 else i2
  (lo, u32 (hi + 2 ^ 32 - lo - 1))

open Classical in
/-- One iteration of the loop of `Shape::contains`, src/Shape.cpp:301-462, for the triangle `it` with
corners `v1 v2 v3`, point `p` and far point `p_out`. Simplification: `intersect_count` and the hit
counters do not overflow. -/
noncomputable def containsStep (p p_out : Vec3) (it : TriI) (v1 v2 v3 : Vec3) (st : HitState) : Hit :=
  let line := LS.new p p_out
  let e1 := LS.new v1 v2
  let e2 := LS.new v2 v3
  let e3 := LS.new v3 v1
  let s1 := sideProduct line e1
  let s2 := sideProduct line e2
  let s3 := sideProduct line e3
  let clockwise := decide (s1 ≥ -1e-16 ∧ s2 ≥ -1e-16 ∧ s3 ≥ -1e-16)
  let clockwise_nz := count3 (decide (s1 > 1e-16)) (decide (s2 > 1e-16)) (decide (s3 > 1e-16))
  let counterclockwise := decide (s1 ≤ 1e-16 ∧ s2 ≤ 1e-16 ∧ s3 ≤ 1e-16)
  let counterclockwise_nz :=
    count3 (decide (s1 < -1e-16)) (decide (s2 < -1e-16)) (decide (s3 < -1e-16))
  let dir : ℤ := clockwise.toInt - counterclockwise.toInt
  if !clockwise && !counterclockwise then .go st
  else if clockwise && counterclockwise then
    if compute2DIntersection ⟨v1, v2, v3⟩ line then .inside else .go st
  else if (clockwise && decide (clockwise_nz > 0)) ||
      (counterclockwise && decide (counterclockwise_nz > 0)) then
    let l4 := LS.new p_out v1
    let l5 := LS.new v1 p
    let s4 := sideProduct l4 e2
    let s5 := sideProduct l5 e2
    if s4 * s5 ≥ -1e-16 then
      if clockwise_nz = 2 ∨ counterclockwise_nz = 2 then
        -- edge intersection
        let sel := if |s1| < 1e-16 then ((it.i1, v1), (it.i2, v2))
          else if |s2| < 1e-16 then ((it.i2, v2), (it.i3, v3))
          else ((it.i3, v3), (it.i1, v1))
        let key := edgeKey sel.1.1 sel.2.1
        let pmin := if sel.2.1 < sel.1.1 then sel.2.2 else sel.1.2
        let pmax := if sel.2.1 < sel.1.1 then sel.1.2 else sel.2.2
        if |(p - pmin).length + (pmax - p).length - (pmax - pmin).length| ≤ 1e-12 then .inside
        else if st.edge key = dir then .go st
        else .go { st with count := st.count + dir,
                           edge := Function.update st.edge key (st.edge key + dir) }
      else if clockwise_nz = 1 ∨ counterclockwise_nz = 1 then
        -- vertex intersection
        let sel := if |s2| > 1e-16 then (it.i1, v1)
          else if |s3| > 1e-16 then (it.i2, v2)
          else (it.i3, v3)
        if sel.2 = p then .inside
        else if st.vertex sel.1 = dir then .go st
        else .go { st with count := st.count + dir,
                           vertex := Function.update st.vertex sel.1 (st.vertex sel.1 + dir) }
      else
        -- proper intersection
        let s := triangleArea v1 v2 v3
        let a1 := triangleArea v2 p v3
        let a2 := triangleArea p v1 v3
        let a3 := triangleArea p v1 v2
        if |a1 + a2 + a3 - s| < 1e-12 then .inside
        else .go { st with count := st.count + dir }
    else .go st
  else .go st

/-- The loop of `Shape::contains` over the triangles, src/Shape.cpp:299-463, and the final decision,
465-472. Indices out of range are undefined behaviour. -/
noncomputable def containsLoop (p p_out : Vec3) (points : List Vec3) :
    List TriI → HitState → Exec Bool
  | [], st => .ok (if st.count < 0 ∨ st.count > 1 then false else decide (st.count > 0))
  | it :: ts, st => do
    let v1 ← vget points it.i1
    let v2 ← vget points it.i2
    let v3 ← vget points it.i3
    match containsStep p p_out it v1 v2 v3 st with
    | .inside => return true
    | .go st' => containsLoop p p_out points ts st'

/-- `Shape::contains` for a mesh, src/Shape.cpp:278-473. Simplification: the mesh's mutable radius caches are read but their
update is not threaded (C10 shows it is unobservable). -/
noncomputable def containsMesh (mesh : Mesh) (p : Vec3) : Exec Bool :=
  open Classical in
  if p.length2 > mesh.getSquaredMaxRadius.2 then .ok false
  else
    let p_out : Vec3 := ⟨1.1 * mesh.getMaxRadius.2, 0, 0⟩
    containsLoop p p_out mesh.points mesh.tris ⟨0, fun _ => 0, fun _ => 0⟩

/-- `Shape::contains`, src/Shape.cpp:278-280. -/
noncomputable def contains (s : Shape) (p : Vec3) : Exec Bool := containsMesh s.mesh p

open Classical in
/-- One iteration of the loop of `Shape::intersect(p, RADIUS)`, src/Shape.cpp:225-266: true for
`return true`. For a triangle with zero normal line 248 computes 0/0 = NaN, so that neither the
comparison of line 250 nor those of line 265 hold. -/
noncomputable def sphereHitsTriangle (p : Vec3) (radius2 : ℝ) (v1 v2 v3 : Vec3) : Bool :=
  if (v1 - p).length2 < radius2 then true
  else if (v2 - p).length2 < radius2 then true
  else if (v3 - p).length2 < radius2 then true
  else
  let e1 := v2 - v1
  let e2 := v3 - v2
  let e3 := v1 - v3
  if checkLinesegment p radius2 v1 e1 then true
  else if checkLinesegment p radius2 v2 e2 then true
  else if checkLinesegment p radius2 v3 e3 then true
  else
  let n := e1.cross e2
  let pd := (v1 - p).dot n
  if n.length2 = 0 then false
  else
  let pd2 := pd * pd / n.length2
  if pd2 > radius2 then false
  else
  let q := p - (Real.sqrt pd2) * n.normalized
  let cross1 := e1.cross (q - v1)
  let cross2 := e2.cross (q - v2)
  let cross3 := e3.cross (q - v3)
  let dot1 := cross1.dot cross2
  let dot2 := cross2.dot cross3
  let dot3 := cross3.dot cross1
  decide (dot1 > 0 ∧ dot2 > 0 ∧ dot3 > 0)

/-- The loop of `Shape::intersect(p, RADIUS)`, src/Shape.cpp:219-267: true if some iteration returned
true. -/
noncomputable def sphereLoop (p : Vec3) (radius2 : ℝ) (points : List Vec3) : List TriI → Exec Bool
  | [] => .ok false
  | it :: ts => do
    let v1 ← vget points it.i1
    let v2 ← vget points it.i2
    let v3 ← vget points it.i3
    if sphereHitsTriangle p radius2 v1 v2 v3 then return true
    else sphereLoop p radius2 points ts

open Classical in
/-- `Shape::intersect(const Vector3&, double)` for a mesh, src/Shape.cpp:205-270. -/
noncomputable def intersectSphereMesh (mesh : Mesh) (p : Vec3) (radius : ℝ) : Exec Bool :=
  if p.length - radius > mesh.getMaxRadius.2 then .ok false
  else if radius > 0 then do
    let hit ← sphereLoop p (radius * radius) mesh.points mesh.tris
    if hit then return true else containsMesh mesh p
  else containsMesh mesh p

/-- `Shape::intersect(const Vector3&, double)`, src/Shape.cpp:205-207. -/
noncomputable def intersectSphere (s : Shape) (p : Vec3) (radius : ℝ) : Exec Bool :=
  intersectSphereMesh s.mesh p radius

/-- The running minimum and maximum of `Shape::getBoundingBox`, src/Shape.cpp:481-497, as a pair of
corners. -/
noncomputable def boundsOf (points : List Vec3) (lo hi : Vec3) : Vec3 × Vec3 :=
  points.foldl (fun (b : Vec3 × Vec3) p =>
    (⟨min p.x b.1.x, min p.y b.1.y, min p.z b.1.z⟩, ⟨max p.x b.2.x, max p.y b.2.y, max p.z b.2.z⟩))
    (lo, hi)

/-- `Shape::getBoundingBox`, src/Shape.cpp:475-501: the shape with updated cache and the box. -/
noncomputable def getBoundingBox (s : Shape) : Shape × Box :=
  let s := if !s.bbValid then
      let b := boundsOf s.mesh.points (.all 1e9) (.all (-1e9))
      { s with bbMin := b.1, bbMax := b.2, bbValid := true }
    else s
  (s, Box.new s.bbMin s.bbMax)

/-- `Shape::getMesh`, src/Shape.cpp:503-506. -/
def getMesh (s : Shape) : Mesh := s.mesh

/-- `Shape::setMesh`, src/Shape.cpp:508-512. -/
def setMesh (s : Shape) (m : Mesh) : Shape := { s with bbValid := false, mesh := m }

/-- `Shape::getMaxRadius`, src/Shape.cpp:514-518. -/
noncomputable def getMaxRadius (s : Shape) : ℝ := s.mesh.getMaxRadius.2

/-- `Shape::empty`, include/geolib/Shape.h:105. -/
def empty (s : Shape) : Bool := s.mesh.empty

/-- Calls a client may make that concern the bounding box: `setMesh` (src/Shape.cpp:508-512) and
`getBoundingBox` (src/Shape.cpp:475-501). -/
inductive Op where
  | setMesh (m : Mesh)
  | getBoundingBox

/-- Effect of a call (a client history, see `Op`). -/
noncomputable def step (s : Shape) : Op → Shape
  | .setMesh m => s.setMesh m
  | .getBoundingBox => s.getBoundingBox.1

end Shape

end Geo
