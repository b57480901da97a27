import Verif.Model.Math

/-!
# Model of src/Mesh.cpp, include/geolib/Mesh.h, src/Triangle.cpp, include/geolib/Triangle.h
-/

namespace Geo

/-- `struct TriangleI`, include/geolib/Mesh.h:12-25 (three `unsigned int` indices). -/
@[ext] structure TriI where
  i1 : ℕ
  i2 : ℕ
  i3 : ℕ
  deriving DecidableEq, Repr

/-- `class Triangle`, include/geolib/Triangle.h (three points), src/Triangle.cpp:13. -/
@[ext] structure Tri where
  p1 : Vec3
  p2 : Vec3
  p3 : Vec3

/-- `triangleArea`, src/Triangle.cpp:8-11. -/
noncomputable def triangleArea (p1 p2 p3 : Vec3) : ℝ := 0.5 * ((p1 - p2).cross (p1 - p3)).length

/-- `Triangle::area`, src/Triangle.cpp:17-20. -/
noncomputable def Tri.area (t : Tri) : ℝ := triangleArea t.p1 t.p2 t.p3

/-- `class Mesh`, include/geolib/Mesh.h:28-152 (data members 136-143, including the three
`mutable` caches). -/
@[ext] structure Mesh where
  points : List Vec3
  tris : List TriI
  triCache : List Tri
  maxR2 : ℝ
  maxR : ℝ

namespace Mesh

/-- `Mesh::invalidateCache`, include/geolib/Mesh.h:146-151. -/
def invalidateCache (m : Mesh) : Mesh := { m with triCache := [], maxR2 := 0, maxR := 0 }

/-- `Mesh::Mesh`, src/Mesh.cpp:15-18. -/
def new : Mesh := invalidateCache ⟨[], [], [], 0, 0⟩

/-- `Mesh::addPoint(Vector3)`, src/Mesh.cpp:27-33 (and the coordinate overload, 22-25).
Returns the new mesh and the index (`size_t` narrowed to `unsigned int`). -/
def addPoint (m : Mesh) (p : Vec3) : Mesh × ℕ :=
  (invalidateCache { m with points := m.points ++ [p] }, u32 m.points.length)

/-- `Mesh::addTriangle`, src/Mesh.cpp:35-39. -/
def addTriangle (m : Mesh) (i1 i2 i3 : ℕ) : Mesh :=
  invalidateCache { m with tris := m.tris ++ [⟨i1, i2, i3⟩] }

/-- `Mesh::add` for a mesh other than `*this`, src/Mesh.cpp:41-52. -/
def add (m n : Mesh) : Mesh :=
  let i_start := u32 m.points.length
  invalidateCache
    { m with
      points := m.points ++ n.points
      tris := m.tris ++ n.tris.map
        (fun t => ⟨u32 (t.i1 + i_start), u32 (t.i2 + i_start), u32 (t.i3 + i_start)⟩) }

/-- `m.add(m)`, src/Mesh.cpp:41-52 with `&mesh == this`: `vector::insert` with iterators into the
same vector violates its precondition (line 44), and so does appending to the vector being iterated
(lines 46-48): undefined behaviour. -/
def addSelf (_ : Mesh) : Exec Mesh := .error .ub

/-- `Mesh::empty`, include/geolib/Mesh.h:70. -/
def empty (m : Mesh) : Bool := m.tris.isEmpty

/-- `Mesh::size`, include/geolib/Mesh.h:76. -/
def size (m : Mesh) : ℕ := m.tris.length

/-- `Mesh::clear`, include/geolib/Mesh.h:79-85. -/
def clear (m : Mesh) : Mesh := invalidateCache { m with tris := [], points := [] }

/-- One iteration of the loop of `Mesh::getTriangles`, src/Mesh.cpp:70. -/
def corners (points : List Vec3) (t : TriI) : Exec Tri := do
  let a ← vget points t.i1
  let b ← vget points t.i2
  let c ← vget points t.i3
  return ⟨a, b, c⟩

/-- `Mesh::getTriangles`, src/Mesh.cpp:64-74; returns the mesh with updated cache and the result. -/
def getTriangles (m : Mesh) : Exec (Mesh × List Tri) :=
  if m.triCache.isEmpty then do
    let ts ← m.tris.mapM (corners m.points)
    return ({ m with triCache := ts }, ts)
  else .ok (m, m.triCache)

/-- `Mesh::getTransformed`, src/Mesh.cpp:76-87 (a default-constructed mesh whose vectors are
overwritten, so its caches are empty).
Simplification: the 32-bit loop counter is taken not to wrap (fewer than 2^32 points). -/
def getTransformed (m : Mesh) (T : Transform3) : Mesh :=
  { new with tris := m.tris, points := m.points.map T.apply }

/-- Key of the vertex map: the three `static_cast<int>(1000 * v)`, src/Mesh.cpp:119-123. -/
noncomputable def cellKey (v : Vec3) : Exec (ℤ × ℤ × ℤ) := do
  let ix ← castInt (1000 * v.x)
  let iy ← castInt (1000 * v.y)
  let iz ← castInt (1000 * v.z)
  return (ix, iy, iz)

/-- The loop of `Mesh::filterOverlappingVertices` over the old points, src/Mesh.cpp:115-135.
`pts` is the vector being rebuilt, `xyz` the map, `imap` the index map built so far.
Simplifications: `std::map` with the lexicographic comparator `CompareVec3i` (94-105), a strict total
order, is an association list looked up by equality of keys; the `unsigned → int → unsigned` round
trip of the index (131-133, 139) is the identity modulo 2^32; the 32-bit loop counter is taken not
to wrap (fewer than 2^32 points). -/
noncomputable def filterLoop : List Vec3 → List Vec3 → List ((ℤ × ℤ × ℤ) × ℕ) → List ℕ →
    Exec (List Vec3 × List ℕ)
  | [], pts, _, imap => .ok (pts, imap)
  | v :: vs, pts, xyz, imap => do
    let key ← cellKey v
    match xyz.lookup key with
    | some i => filterLoop vs pts xyz (imap ++ [i])
    | none =>
      let ip := u32 pts.length
      filterLoop vs (pts ++ [v]) ((key, ip) :: xyz) (imap ++ [ip])

/-- `Mesh::filterOverlappingVertices`, src/Mesh.cpp:107-143. The caches are invalidated by
`addPoint` (called for the first point whenever there is one); without points they are left as they
are. -/
noncomputable def filterOverlappingVertices (m : Mesh) : Exec Mesh := do
  let (pts, imap) ← filterLoop m.points [] [] []
  let tris ← m.tris.mapM (fun t => do
    let a ← vget imap t.i1
    let b ← vget imap t.i2
    let c ← vget imap t.i3
    return (⟨a, b, c⟩ : TriI))
  let m' := if m.points.isEmpty then m else invalidateCache m
  return { m' with points := pts, tris := tris }

/-- `Mesh::getSquaredMaxRadius`, src/Mesh.cpp:145-155 (mesh with updated cache, result). -/
noncomputable def getSquaredMaxRadius (m : Mesh) : Mesh × ℝ :=
  if m.maxR2 = 0 then
    let r := m.points.foldl (fun acc p => max acc p.length2) m.maxR2
    ({ m with maxR2 := r }, r)
  else (m, m.maxR2)

/-- `Mesh::getMaxRadius`, src/Mesh.cpp:157-164 (mesh with updated caches, result). -/
noncomputable def getMaxRadius (m : Mesh) : Mesh × ℝ :=
  if m.maxR = 0 then
    let (m', r2) := m.getSquaredMaxRadius
    let r := Real.sqrt r2
    ({ m' with maxR := r }, r)
  else (m, m.maxR)

/-- `Mesh::getTriangleNormal`, src/Mesh.cpp:166-175. -/
noncomputable def getTriangleNormal (m : Mesh) (index : ℕ) : Exec Vec3 := do
  let t ← vget m.tris index
  let p1 ← vget m.points t.i1
  let p2 ← vget m.points t.i2
  let p3 ← vget m.points t.i3
  return ((p3 - p1).cross (p2 - p1)).normalized

/-- The public operations of `Mesh` as a history alphabet, include/geolib/Mesh.h:43-126.
`transform T` is the assignment `m = m.getTransformed(T)`. -/
inductive Op where
  | addPoint (p : Vec3)
  | addTriangle (i1 i2 i3 : ℕ)
  | add (n : Mesh)
  | addSelf
  | clear
  | filter
  | transform (T : Transform3)
  | queryTriangles
  | querySquaredMaxRadius
  | queryMaxRadius

/-- Effect of one call on the mesh, src/Mesh.cpp:22-175 (see the individual definitions). -/
noncomputable def step (m : Mesh) : Op → Exec Mesh
  | .addPoint p => .ok (m.addPoint p).1
  | .addTriangle i j k => .ok (m.addTriangle i j k)
  | .add n => .ok (m.add n)
  | .addSelf => m.addSelf
  | .clear => .ok m.clear
  | .filter => m.filterOverlappingVertices
  | .transform T => .ok (m.getTransformed T)
  | .queryTriangles => do
    let r ← m.getTriangles
    return r.1
  | .querySquaredMaxRadius => .ok m.getSquaredMaxRadius.1
  | .queryMaxRadius => .ok m.getMaxRadius.1

/-- Effect of a sequence of calls (a client history; see `step`). -/
noncomputable def run (m : Mesh) : List Op → Exec Mesh
  | [] => .ok m
  | o :: os => do
    let m' ← m.step o
    run m' os

end Mesh

end Geo
