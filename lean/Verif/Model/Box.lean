import Verif.Model.Mesh

/-!
# Model of src/Ray.cpp, include/geolib/Ray.h, src/Box.cpp, include/geolib/Box.h
-/

namespace Geo

/-- `class Ray`, include/geolib/Ray.h (members 30-38); `sign` is 0 or 1 per axis. -/
structure Ray where
  origin : Vec3
  direction : Vec3
  inv : Vec3
  length : ℝ
  sx : Bool
  sy : Bool
  sz : Bool

/-- One component of `Ray::calculateInvDirection`, src/Ray.cpp:20-22. -/
noncomputable def invComponent (d : ℝ) : ℝ := if |d| < 1e-9 then 0 else 1 / d

open Classical in
/-- `Ray::Ray`, src/Ray.cpp:8-15 with `calculateInvDirection`, 17-25.
Simplification: a zero direction normalises to 0 instead of NaN (never claimed about). -/
noncomputable def Ray.new (o d : Vec3) : Ray :=
  let u := d.normalized
  { origin := o, direction := u, length := 0,
    inv := ⟨invComponent u.x, invComponent u.y, invComponent u.z⟩,
    sx := decide (u.x < 0), sy := decide (u.y < 0), sz := decide (u.z < 0) }

/-- `class Box`, include/geolib/Box.h (member `bounds`) with the mesh inherited from `Shape`. The
unused member `max_radius_` is omitted. -/
structure Box where
  lo : Vec3
  hi : Vec3
  mesh : Mesh

namespace Box

/-- `bounds[i]`, include/geolib/Box.h (member `bounds`), with a Boolean index. -/
def bound (b : Box) (i : Bool) : Vec3 := if i then b.hi else b.lo

/-- `Box::generate_mesh_`, src/Box.cpp:160-197: appends eight points and twelve triangles to the
mesh. -/
def generateMesh (b : Box) : Box :=
  let m := b.mesh
  let (m, p0) := m.addPoint ⟨b.lo.x, b.lo.y, b.lo.z⟩
  let (m, p1) := m.addPoint ⟨b.hi.x, b.lo.y, b.lo.z⟩
  let (m, p2) := m.addPoint ⟨b.lo.x, b.hi.y, b.lo.z⟩
  let (m, p3) := m.addPoint ⟨b.hi.x, b.hi.y, b.lo.z⟩
  let (m, p4) := m.addPoint ⟨b.lo.x, b.lo.y, b.hi.z⟩
  let (m, p5) := m.addPoint ⟨b.hi.x, b.lo.y, b.hi.z⟩
  let (m, p6) := m.addPoint ⟨b.lo.x, b.hi.y, b.hi.z⟩
  let (m, p7) := m.addPoint ⟨b.hi.x, b.hi.y, b.hi.z⟩
  let m := (m.addTriangle p1 p0 p2).addTriangle p1 p2 p3
  let m := (m.addTriangle p4 p5 p6).addTriangle p6 p5 p7
  let m := (m.addTriangle p0 p4 p2).addTriangle p2 p4 p6
  let m := (m.addTriangle p5 p1 p3).addTriangle p5 p3 p7
  let m := (m.addTriangle p0 p1 p4).addTriangle p4 p1 p5
  let m := (m.addTriangle p3 p2 p6).addTriangle p3 p6 p7
  { b with mesh := m }

/-- `Box::Box`, src/Box.cpp:19-24. -/
def new (lo hi : Vec3) : Box := generateMesh ⟨lo, hi, Mesh.new⟩

open Classical in
/-- `Box::intersect(const Ray&, float, float, double&)`, src/Box.cpp:31-61. Returns the flag and the
value of the out-parameter, whose initial value is `d0`.
Simplification: the casts to `float` are exact. -/
noncomputable def intersectRay (b : Box) (r : Ray) (t0 t1 d0 : ℝ) : Bool × ℝ :=
  let tmin := ((b.bound r.sx).x - r.origin.x) * r.inv.x
  let tmax := ((b.bound (!r.sx)).x - r.origin.x) * r.inv.x
  let tymin := ((b.bound r.sy).y - r.origin.y) * r.inv.y
  let tymax := ((b.bound (!r.sy)).y - r.origin.y) * r.inv.y
  if tmin > tymax ∨ tymin > tmax then (false, d0) else
  let tmin := max tymin tmin
  let tmax := min tymax tmax
  let tzmin := ((b.bound r.sz).z - r.origin.z) * r.inv.z
  let tzmax := ((b.bound (!r.sz)).z - r.origin.z) * r.inv.z
  if tmin > tzmax ∨ tzmin > tmax then (false, d0) else
  let tmin := max tzmin tmin
  let tmax := min tzmax tmax
  (decide (t0 < tmax ∧ tmin < t1), tmin)

/-- `Box::getMaxRadius`, src/Box.cpp:63-66. -/
noncomputable def getMaxRadius (b : Box) : ℝ := max b.lo.length b.hi.length

/-- `Box::getSize`, src/Box.cpp:133-136. -/
def getSize (b : Box) : Vec3 := b.hi - b.lo

/-- `Box::getCenter`, src/Box.cpp:138-141. -/
noncomputable def getCenter (b : Box) : Vec3 := (b.lo + b.hi) / (2 : ℝ)

open Classical in
/-- `Box::intersect(const Box&)`, src/Box.cpp:68-84 (with `c1.y - c2.z` on line 80 as written). -/
noncomputable def intersectBox (b o : Box) : Bool :=
  let c1 := b.getCenter
  let c2 := o.getCenter
  let r1 := b.getSize * (0.5 : ℝ)
  let r2 := o.getSize * (0.5 : ℝ)
  if |c1.x - c2.x| > r1.x + r2.x then false
  else if |c1.y - c2.y| > r1.y + r2.y then false
  else if |c1.y - c2.z| > r1.z + r2.z then false
  else true

open Classical in
/-- `Box::contains`, src/Box.cpp:105-109. -/
noncomputable def contains (b : Box) (p : Vec3) : Bool :=
  decide (p.x ≥ b.lo.x ∧ p.x ≤ b.hi.x ∧ p.y ≥ b.lo.y ∧ p.y ≤ b.hi.y ∧ p.z ≥ b.lo.z ∧ p.z ≤ b.hi.z)

/-- One iteration of the loop of `Box::intersect(p, RADIUS)`, src/Box.cpp:96-99, for one axis with
bounds `lo`, `hi`, centre coordinate `c`. -/
noncomputable def closestCoord (lo hi c p : ℝ) : ℝ :=
  if p > lo ∧ p < hi then p else if p > c then hi else lo

open Classical in
/-- `Box::intersect(const Vector3&, double)`, src/Box.cpp:86-103. -/
noncomputable def intersectSphere (b : Box) (p : Vec3) (radius : ℝ) : Bool :=
  let c := b.getCenter
  if radius ≤ 0 then b.contains p else
  let c : Vec3 := ⟨closestCoord b.lo.x b.hi.x c.x p.x, closestCoord b.lo.y b.hi.y c.y p.y,
    closestCoord b.lo.z b.hi.z c.z p.z⟩
  decide (radius * radius ≥ (p - c).length2)

/-- `Box::getBoundingBox`, src/Box.cpp:111-114. -/
def getBoundingBox (b : Box) : Box := b

/-- The loop body of `Box::enclose`, src/Box.cpp:122-128. -/
noncomputable def enclosePoint (b : Box) (p : Vec3) : Box :=
  { b with
    lo := ⟨min b.lo.x p.x, min b.lo.y p.y, min b.lo.z p.z⟩
    hi := ⟨max b.hi.x p.x, max b.hi.y p.y, max b.hi.z p.z⟩ }

/-- `Box::enclose`, src/Box.cpp:116-131. -/
noncomputable def enclose (b o : Box) (pose : Transform3) : Box :=
  generateMesh ((o.mesh.getTransformed pose).points.foldl enclosePoint b)

/-- `Box::setMesh`, src/Box.cpp:153-158: always throws. -/
def setMesh (_ : Box) (_ : Mesh) : Exec Box := .error .exception

end Box

end Geo
