import Verif.Model.Shape

/-!
# Model of src/CompositeShape.cpp, include/geolib/CompositeShape.h
-/

namespace Geo

/-- The virtual interface of `Shape`, include/geolib/Shape.h:37-105, as a record of methods, so that a
composite may hold any shape (including composites). `mesh` is what `getMesh()` returns. Query methods
that only refresh mutable caches are functions of the object alone. -/
structure ShapeObj where
  ray : Ray → ℝ → ℝ → ℝ → Exec (Bool × ℝ)
  sphere : Vec3 → ℝ → Exec Bool
  contains : Vec3 → Exec Bool
  maxRadius : ℝ
  bbox : Box
  mesh : Mesh

/-- A `Box` seen as a `Shape`: the overrides of include/geolib/Box.h:13-61. -/
noncomputable def Box.toObj (b : Box) : ShapeObj where
  ray r t0 t1 d := .ok (b.intersectRay r t0 t1 d)
  sphere p R := .ok (b.intersectSphere p R)
  contains p := .ok (b.contains p)
  maxRadius := b.getMaxRadius
  bbox := b.getBoundingBox
  mesh := b.mesh

/-- A plain mesh shape: the methods of include/geolib/Shape.h:37-105 without overrides. -/
noncomputable def Shape.toObj (s : Shape) : ShapeObj where
  ray := s.intersectRay
  sphere := s.intersectSphere
  contains := s.contains
  maxRadius := s.getMaxRadius
  bbox := s.getBoundingBox.2
  mesh := s.getMesh

/-- `class CompositeShape`, include/geolib/CompositeShape.h:52-65, with the mesh inherited from `Shape`;
`shapes` holds the children with their inverse poses. Simplification: children are held by value (the
code holds clones through shared pointers and never modifies them). -/
structure Composite where
  shapes : List (ShapeObj × Transform3)
  maxRadius : ℝ
  min : Vec3
  max : Vec3
  bb : Box
  mesh : Mesh

/-- `std::any_of` with a predicate that may fail: stops at the first true, as used in
src/CompositeShape.cpp:71,87. -/
def anyOf {α : Type _} (f : α → Exec Bool) : List α → Exec Bool
  | [] => .ok false
  | a :: l => do
    let b ← f a
    if b then return true else anyOf f l

namespace Composite

/-- `CompositeShape::CompositeShape`, src/CompositeShape.cpp:19-21. -/
noncomputable def new : Composite :=
  { shapes := [], maxRadius := 0, min := .all 1e10, max := .all (-1e10),
    bb := Box.new (-(.all 1e10)) (-(.all (-1e10))), mesh := Mesh.new }

/-- The loop of `CompositeShape::intersect(Ray)`, src/CompositeShape.cpp:37-54: state is the hit flag
and `min_distance`. Simplifications: the initial value of the children's out-parameter (`NAN`, line 48) is 0
(`Model/NanComposite` has it; on a hit it is read only if the child has not written it, as octrees may do); the cast of `min_distance` to `float` is exact
(`Model/SingleComposite` has it). -/
noncomputable def rayLoop (r : Ray) (t0 : ℝ) : List (ShapeObj × Transform3) → Bool → ℝ →
    Exec (Bool × ℝ)
  | [], hit, md => .ok (hit, md)
  | (shape, pose_inv) :: rest, hit, md => do
    let r_t := Ray.new (pose_inv.apply r.origin) (pose_inv.R.mulVec r.direction)
    let (h, d) ← shape.ray r_t t0 md 0
    if h then rayLoop r t0 rest true d else rayLoop r t0 rest hit md

/-- `CompositeShape::intersect(const Ray&, float, float, double&)`, src/CompositeShape.cpp:30-63.
Returns the flag and the out-parameter, whose initial value is `d0`. -/
noncomputable def intersectRay (c : Composite) (r : Ray) (t0 t1 d0 : ℝ) : Exec (Bool × ℝ) :=
  let (b, d) := c.bb.intersectRay r t0 t1 d0
  if !b then .ok (false, d)
  else do
    let (hit, md) ← rayLoop r t0 c.shapes false t1
    if hit then return (true, md) else return (false, d)

/-- `CompositeShape::intersect(const Vector3&, double)`, src/CompositeShape.cpp:65-79. -/
noncomputable def intersectSphere (c : Composite) (p : Vec3) (radius : ℝ) : Exec Bool :=
  if !c.bb.intersectSphere p radius then .ok false
  else anyOf (fun s : ShapeObj × Transform3 => s.1.sphere (s.2.apply p) radius) c.shapes

/-- `CompositeShape::contains`, src/CompositeShape.cpp:81-96. -/
noncomputable def contains (c : Composite) (p : Vec3) : Exec Bool :=
  if !c.bb.contains p then .ok false
  else anyOf (fun s : ShapeObj × Transform3 => s.1.contains (s.2.apply p)) c.shapes

/-- `CompositeShape::getMaxRadius`, src/CompositeShape.cpp:98-101. -/
def getMaxRadius (c : Composite) : ℝ := c.maxRadius

/-- The loop body of `CompositeShape::addShape`, src/CompositeShape.cpp:112-126. -/
noncomputable def addCorners (pose : Transform3) (c : Composite) (t : Tri) : Composite :=
  let p1 := pose.apply t.p1
  let p2 := pose.apply t.p2
  let p3 := pose.apply t.p3
  let m4 := fun (f : ℝ → ℝ → ℝ) (a b c d : ℝ) => f (f (f a b) c) d
  { c with
    maxRadius := m4 Max.max c.maxRadius p1.length p2.length p3.length
    min := ⟨m4 Min.min c.min.x p1.x p2.x p3.x, m4 Min.min c.min.y p1.y p2.y p3.y,
      m4 Min.min c.min.z p1.z p2.z p3.z⟩
    max := ⟨m4 Max.max c.max.x p1.x p2.x p3.x, m4 Max.max c.max.y p1.y p2.y p3.y,
      m4 Max.max c.max.z p1.z p2.z p3.z⟩ }

/-- `CompositeShape::addShape`, src/CompositeShape.cpp:103-132. A part whose mesh has dangling indices is
undefined behaviour (line 109). -/
noncomputable def addShape (c : Composite) (shape : ShapeObj) (pose : Transform3) : Exec Composite := do
  let shapes := c.shapes ++ [(shape, pose.inverse)]
  let (_, triangles) ← shape.mesh.getTriangles
  let c := triangles.foldl (addCorners pose) c
  let mesh := c.mesh.add (shape.mesh.getTransformed pose)
  return { c with shapes, mesh, bb := Box.new c.min c.max }

/-- `CompositeShape::getBoundingBox`, src/CompositeShape.cpp:134-137. -/
def getBoundingBox (c : Composite) : Box := c.bb

/-- `CompositeShape::getShapes`, src/CompositeShape.cpp:139-142. -/
def getShapes (c : Composite) : List (ShapeObj × Transform3) := c.shapes

/-- `CompositeShape::setMesh`, src/CompositeShape.cpp:144-149: always throws. -/
def setMesh (_ : Composite) (_ : Mesh) : Exec Composite := .error .exception

/-- A composite seen as a `Shape`: the overrides of include/geolib/CompositeShape.h:17-50. -/
noncomputable def toObj (c : Composite) : ShapeObj where
  ray := c.intersectRay
  sphere := c.intersectSphere
  contains := c.contains
  maxRadius := c.getMaxRadius
  bbox := c.getBoundingBox
  mesh := c.mesh

/-- A client's sequence of `addShape` calls (src/CompositeShape.cpp:103-132) on a fresh composite. -/
noncomputable def build (l : List (ShapeObj × Transform3)) : Exec Composite :=
  l.foldlM (fun c x => c.addShape x.1 x.2) new

end Composite

end Geo
