import Verif.Model.Composite
import Verif.Model.RoundedBox

/-!
# Composites in floating point arithmetic

`Model/Composite` computes with real numbers. Here the functions that build a composite and the two volumetric queries are
written with the rounding `rnd` that follows every operation. With `rnd` the identity the functions are those of
`Model/Composite` (`C126_exact`). Simplifications: no overflow, no subnormal numbers, no NaN; products and sums are not fused.
The parts answer with whatever arithmetic they have.
-/

namespace Geo.Rounded

/-- A `Box` seen as a `Shape` in floating point arithmetic: the overrides of include/geolib/Box.h:13-61, see
`Model/RoundedBox`. -/
noncomputable def boxObj (rnd toF : ℝ → ℝ) (b : Box) : ShapeObj where
  ray r t0 t1 d := .ok (boxRay rnd toF b r t0 t1 d)
  sphere p R := .ok (boxSphere rnd b p R)
  contains p := .ok (b.contains p)
  maxRadius := boxMaxRadius rnd b
  bbox := b.getBoundingBox
  mesh := b.mesh

/-- `Mesh::getTransformed`, src/Mesh.cpp:76-87. Simplification: as in `Mesh.getTransformed`. -/
def getTransformed (rnd : ℝ → ℝ) (m : Mesh) (T : Transform3) : Mesh :=
  { Mesh.new with tris := m.tris, points := m.points.map (apply rnd T) }

/-- The loop body of `CompositeShape::addShape`, src/CompositeShape.cpp:112-126; minima and maxima are exact. -/
noncomputable def addCorners (rnd : ℝ → ℝ) (pose : Transform3) (c : Composite) (t : Tri) : Composite :=
  let p1 := apply rnd pose t.p1
  let p2 := apply rnd pose t.p2
  let p3 := apply rnd pose t.p3
  let m4 := fun (f : ℝ → ℝ → ℝ) (a b c d : ℝ) => f (f (f a b) c) d
  { c with
    maxRadius := m4 Max.max c.maxRadius (length rnd p1) (length rnd p2) (length rnd p3)
    min := ⟨m4 Min.min c.min.x p1.x p2.x p3.x, m4 Min.min c.min.y p1.y p2.y p3.y,
      m4 Min.min c.min.z p1.z p2.z p3.z⟩
    max := ⟨m4 Max.max c.max.x p1.x p2.x p3.x, m4 Max.max c.max.y p1.y p2.y p3.y,
      m4 Max.max c.max.z p1.z p2.z p3.z⟩ }

/-- `CompositeShape::addShape`, src/CompositeShape.cpp:103-132. A part whose mesh has dangling indices is
undefined behaviour (line 109). -/
noncomputable def addShape (rnd : ℝ → ℝ) (c : Composite) (shape : ShapeObj) (pose : Transform3) : Exec Composite := do
  let shapes := c.shapes ++ [(shape, inverse rnd pose)]
  let (_, triangles) ← shape.mesh.getTriangles
  let c := triangles.foldl (addCorners rnd pose) c
  let mesh := c.mesh.add (getTransformed rnd shape.mesh pose)
  return { c with shapes, mesh, bb := Box.new c.min c.max }

/-- A client's sequence of `addShape` calls (src/CompositeShape.cpp:103-132) on a fresh composite. -/
noncomputable def build (rnd : ℝ → ℝ) (l : List (ShapeObj × Transform3)) : Exec Composite :=
  l.foldlM (fun c x => addShape rnd c x.1 x.2) Composite.new

/-- `CompositeShape::intersect(const Vector3&, double)`, src/CompositeShape.cpp:65-79. -/
noncomputable def compositeSphere (rnd : ℝ → ℝ) (c : Composite) (p : Vec3) (radius : ℝ) : Exec Bool :=
  if !boxSphere rnd c.bb p radius then .ok false
  else anyOf (fun s : ShapeObj × Transform3 => s.1.sphere (apply rnd s.2 p) radius) c.shapes

/-- `CompositeShape::contains`, src/CompositeShape.cpp:81-96; the comparisons with the bounding box are exact. -/
noncomputable def compositeContains (rnd : ℝ → ℝ) (c : Composite) (p : Vec3) : Exec Bool :=
  if !c.bb.contains p then .ok false
  else anyOf (fun s : ShapeObj × Transform3 => s.1.contains (apply rnd s.2 p)) c.shapes

end Geo.Rounded
