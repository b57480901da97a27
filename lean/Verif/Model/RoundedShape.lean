import Verif.Model.Rounded
import Verif.Model.Shape

/-!
# `Shape::contains` in floating point arithmetic

`Model/Shape` computes with real numbers. Here `Shape::contains` and everything it calls is written with the rounding `rnd`
that follows every multiplication, addition, subtraction and square root, and that the decimal constants of the source go
through. With `rnd` the identity the functions are those of `Model/Shape` (`C100_exact`). Simplifications: no overflow and no
subnormal numbers; products and sums are not fused.
-/

namespace Geo.Rounded

/-- `Vec3T::operator-`, include/geolib/math_types.h:199. -/
def sub (rnd : ℝ → ℝ) (a b : Vec3) : Vec3 := ⟨rnd (a.x - b.x), rnd (a.y - b.y), rnd (a.z - b.z)⟩

/-- `Vec3T::dot`, include/geolib/math_types.h:190. -/
def dot (rnd : ℝ → ℝ) (a b : Vec3) : ℝ := dot3 rnd a.x a.y a.z b.x b.y b.z

/-- `Vec3T::cross`, include/geolib/math_types.h:193. -/
def cross (rnd : ℝ → ℝ) (a b : Vec3) : Vec3 :=
  ⟨rnd (rnd (a.y * b.z) - rnd (a.z * b.y)), rnd (rnd (a.z * b.x) - rnd (a.x * b.z)),
   rnd (rnd (a.x * b.y) - rnd (a.y * b.x))⟩

/-- `Vec3T::length2`, include/geolib/math_types.h:214. -/
def length2 (rnd : ℝ → ℝ) (a : Vec3) : ℝ := dot3 rnd a.x a.y a.z a.x a.y a.z

/-- `Vec3T::length`, include/geolib/math_types.h:211. -/
noncomputable def length (rnd : ℝ → ℝ) (a : Vec3) : ℝ := rnd (Real.sqrt (length2 rnd a))

/-- `triangleArea`, src/Triangle.cpp:8-11. -/
noncomputable def triangleArea (rnd : ℝ → ℝ) (p1 p2 p3 : Vec3) : ℝ :=
  rnd (0.5 * length rnd (cross rnd (sub rnd p1 p2) (sub rnd p1 p3)))

/-- `LineSegment::LineSegment`, src/Shape.cpp:58-62. -/
def newLS (rnd : ℝ → ℝ) (a b : Vec3) : LS := ⟨a, b, sub rnd b a, cross rnd a b⟩

/-- `sideProduct`, src/Shape.cpp:103-106. -/
def sideProduct (rnd : ℝ → ℝ) (p q : LS) : ℝ := rnd (dot rnd p.u q.v + dot rnd q.u p.v)

open Classical in
/-- `lineLinesegmentIntersection`, src/Shape.cpp:116-128. -/
noncomputable def lineLinesegmentIntersection (rnd : ℝ → ℝ) (l ls : LS) (outside : Vec3) : Bool :=
  let s := sideProduct rnd l ls
  if s ≠ 0 then false
  else
    let s1 := sideProduct rnd l (newLS rnd outside ls.a)
    let s2 := sideProduct rnd l (newLS rnd ls.b outside)
    decide (rnd (s1 * s2) ≥ 0)

open Classical in
/-- The first loop of `compute2DIntersection`, src/Shape.cpp:145-155, unrolled as in `Model/Shape`. -/
noncomputable def displacedCorner (rnd : ℝ → ℝ) (t : Tri) (line : LS) : Vec3 :=
  let test := fun p3 : Vec3 =>
    let s2 := sideProduct rnd line (newLS rnd t.p2 p3)
    let s3 := sideProduct rnd line (newLS rnd p3 t.p1)
    |s2| ≥ rnd 1e-16 ∨ |s3| ≥ rnd 1e-16
  let c0 : Vec3 := ⟨rnd (t.p3.x + 1), t.p3.y, t.p3.z⟩
  let c1 : Vec3 := ⟨t.p3.x, rnd (t.p3.y + 1), t.p3.z⟩
  let c2 : Vec3 := ⟨t.p3.x, t.p3.y, rnd (t.p3.z + 1)⟩
  if test c0 then c0 else if test c1 then c1 else c2

open Classical in
/-- `compute2DIntersection`, src/Shape.cpp:137-178 (the loops over the three edges, 157-176, as list searches). -/
noncomputable def compute2DIntersection (rnd : ℝ → ℝ) (t : Tri) (line : LS) : Bool :=
  let p3 := displacedCorner rnd t line
  let edges := [(t.p1, t.p2), (t.p2, t.p3), (t.p3, t.p1)]
  edges.any fun e =>
    let s2 := sideProduct rnd line (newLS rnd e.2 p3)
    let s3 := sideProduct rnd line (newLS rnd p3 e.1)
    decide (rnd (s2 * s3) ≥ 0) &&
      edges.any fun v => lineLinesegmentIntersection rnd line (newLS rnd v.1 v.2) p3

open Classical in
/-- One iteration of the loop of `Shape::contains`, src/Shape.cpp:301-462 (see `Shape.containsStep` in `Model/Shape`). -/
noncomputable def containsStep (rnd : ℝ → ℝ) (p p_out : Vec3) (it : TriI) (v1 v2 v3 : Vec3) (st : Shape.HitState) :
    Shape.Hit :=
  let line := newLS rnd p p_out
  let e1 := newLS rnd v1 v2
  let e2 := newLS rnd v2 v3
  let e3 := newLS rnd v3 v1
  let s1 := sideProduct rnd line e1
  let s2 := sideProduct rnd line e2
  let s3 := sideProduct rnd line e3
  let tol := rnd 1e-16
  let clockwise := decide (s1 ≥ -tol ∧ s2 ≥ -tol ∧ s3 ≥ -tol)
  let clockwise_nz := Shape.count3 (decide (s1 > tol)) (decide (s2 > tol)) (decide (s3 > tol))
  let counterclockwise := decide (s1 ≤ tol ∧ s2 ≤ tol ∧ s3 ≤ tol)
  let counterclockwise_nz :=
    Shape.count3 (decide (s1 < -tol)) (decide (s2 < -tol)) (decide (s3 < -tol))
  let dir : ℤ := clockwise.toInt - counterclockwise.toInt
  if !clockwise && !counterclockwise then .go st
  else if clockwise && counterclockwise then
    if compute2DIntersection rnd ⟨v1, v2, v3⟩ line then .inside else .go st
  else if (clockwise && decide (clockwise_nz > 0)) ||
      (counterclockwise && decide (counterclockwise_nz > 0)) then
    let l4 := newLS rnd p_out v1
    let l5 := newLS rnd v1 p
    let s4 := sideProduct rnd l4 e2
    let s5 := sideProduct rnd l5 e2
    if rnd (s4 * s5) ≥ -tol then
      if clockwise_nz = 2 ∨ counterclockwise_nz = 2 then
        -- edge intersection
        let sel := if |s1| < tol then ((it.i1, v1), (it.i2, v2))
          else if |s2| < tol then ((it.i2, v2), (it.i3, v3))
          else ((it.i3, v3), (it.i1, v1))
        let key := Shape.edgeKey sel.1.1 sel.2.1
        let pmin := if sel.2.1 < sel.1.1 then sel.2.2 else sel.1.2
        let pmax := if sel.2.1 < sel.1.1 then sel.1.2 else sel.2.2
        if |rnd (rnd (length rnd (sub rnd p pmin) + length rnd (sub rnd pmax p)) - length rnd (sub rnd pmax pmin))|
            ≤ rnd 1e-12 then .inside
        else if st.edge key = dir then .go st
        else .go { st with count := st.count + dir,
                           edge := Function.update st.edge key (st.edge key + dir) }
      else if clockwise_nz = 1 ∨ counterclockwise_nz = 1 then
        -- vertex intersection
        let sel := if |s2| > tol then (it.i1, v1)
          else if |s3| > tol then (it.i2, v2)
          else (it.i3, v3)
        if sel.2 = p then .inside
        else if st.vertex sel.1 = dir then .go st
        else .go { st with count := st.count + dir,
                           vertex := Function.update st.vertex sel.1 (st.vertex sel.1 + dir) }
      else
        -- proper intersection
        let s := triangleArea rnd v1 v2 v3
        let a1 := triangleArea rnd v2 p v3
        let a2 := triangleArea rnd p v1 v3
        let a3 := triangleArea rnd p v1 v2
        if |rnd (rnd (rnd (a1 + a2) + a3) - s)| < rnd 1e-12 then .inside
        else .go { st with count := st.count + dir }
    else .go st
  else .go st

/-- The loop of `Shape::contains` over the triangles, src/Shape.cpp:299-463, and the final decision, 465-472. -/
noncomputable def containsLoop (rnd : ℝ → ℝ) (p p_out : Vec3) (points : List Vec3) :
    List TriI → Shape.HitState → Exec Bool
  | [], st => .ok (if st.count < 0 ∨ st.count > 1 then false else decide (st.count > 0))
  | it :: ts, st => do
    let v1 ← vget points it.i1
    let v2 ← vget points it.i2
    let v3 ← vget points it.i3
    match containsStep rnd p p_out it v1 v2 v3 st with
    | .inside => return true
    | .go st' => containsLoop rnd p p_out points ts st'

/-- `Mesh::getSquaredMaxRadius`, src/Mesh.cpp:145-155. Simplification: without the cache (C10 shows that it is unobservable). -/
noncomputable def sqMaxRadius (rnd : ℝ → ℝ) (points : List Vec3) : ℝ :=
  points.foldl (fun acc p => max acc (length2 rnd p)) 0

/-- `Mesh::getMaxRadius`, src/Mesh.cpp:157-164. Simplification: without the cache. -/
noncomputable def maxRadius (rnd : ℝ → ℝ) (points : List Vec3) : ℝ := rnd (Real.sqrt (sqMaxRadius rnd points))

open Classical in
/-- `Shape::contains`, src/Shape.cpp:278-473. -/
noncomputable def contains (rnd : ℝ → ℝ) (s : Shape) (p : Vec3) : Exec Bool :=
  if length2 rnd p > sqMaxRadius rnd s.mesh.points then .ok false
  else
    let p_out : Vec3 := ⟨rnd (rnd 1.1 * maxRadius rnd s.mesh.points), 0, 0⟩
    containsLoop rnd p p_out s.mesh.points s.mesh.tris ⟨0, fun _ => 0, fun _ => 0⟩

end Geo.Rounded
