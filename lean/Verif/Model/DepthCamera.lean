import Verif.Model.Shape

/-!
# Model of src/sensors/DepthCamera.cpp and include/geolib/sensors/DepthCamera.h

The rasteriser divides by zero in ordinary use, so floats are real numbers together with the infinities and NaN (`Fl`).
Simplifications: no rounding or overflow, conversions between `double` and `float` are exact, a denominator that is zero is
positive zero. Corners handed to the rasteriser are finite (they are in front of the camera), so they are real vectors.
-/

namespace Geo

/-- A `float` with its special values. Models the platform (no line in /repo); no rounding, overflow or signed zeros. -/
inductive Fl where
  | fin (r : ℝ)
  | pinf
  | ninf
  | nan

namespace Fl

/-- `a + b` as IEEE 754 has it. Models the platform (no line in /repo). -/
noncomputable def add : Fl → Fl → Fl
  | .nan, _ => .nan
  | _, .nan => .nan
  | .fin a, .fin b => .fin (a + b)
  | .pinf, .ninf => .nan
  | .ninf, .pinf => .nan
  | .pinf, _ => .pinf
  | _, .pinf => .pinf
  | .ninf, _ => .ninf
  | _, .ninf => .ninf

/-- `-a`. Models the platform (no line in /repo). -/
noncomputable def neg : Fl → Fl
  | .nan => .nan
  | .fin a => .fin (-a)
  | .pinf => .ninf
  | .ninf => .pinf

/-- `a - b`. Models the platform (no line in /repo). -/
noncomputable def sub (a b : Fl) : Fl := add a (neg b)

open Classical in
/-- Infinity of the sign of a real, NaN for 0. Models the platform (no line in /repo). -/
noncomputable def inf (s : ℝ) : Fl := if 0 < s then .pinf else if s < 0 then .ninf else .nan

/-- `a * b`. Models the platform (no line in /repo). -/
noncomputable def mul : Fl → Fl → Fl
  | .nan, _ => .nan
  | _, .nan => .nan
  | .fin a, .fin b => .fin (a * b)
  | .fin a, .pinf => inf a
  | .fin a, .ninf => inf (-a)
  | .pinf, .fin b => inf b
  | .ninf, .fin b => inf (-b)
  | .pinf, .pinf => .pinf
  | .pinf, .ninf => .ninf
  | .ninf, .pinf => .ninf
  | .ninf, .ninf => .pinf

open Classical in
/-- `a / b`. A denominator 0 is positive zero. Models the platform (no line in /repo). -/
noncomputable def div : Fl → Fl → Fl
  | .nan, _ => .nan
  | _, .nan => .nan
  | .fin a, .fin b => if b = 0 then inf a else .fin (a / b)
  | .fin _, .pinf => .fin 0
  | .fin _, .ninf => .fin 0
  | .pinf, .fin b => if b < 0 then .ninf else .pinf
  | .ninf, .fin b => if b < 0 then .pinf else .ninf
  | .pinf, _ => .nan
  | .ninf, _ => .nan

open Classical in
/-- `a < b`. Models the platform (no line in /repo). -/
noncomputable def lt : Fl → Fl → Bool
  | .nan, _ => false
  | _, .nan => false
  | .fin a, .fin b => decide (a < b)
  | .fin _, .pinf => true
  | .fin _, .ninf => false
  | .pinf, _ => false
  | .ninf, .ninf => false
  | .ninf, _ => true

open Classical in
/-- `a == 0`. Models the platform (no line in /repo). -/
noncomputable def isZero : Fl → Bool
  | .fin a => decide (a = 0)
  | _ => false

/-- `static_cast<int>(a)`: undefined behaviour for the special values. Models the language (no line in /repo). -/
noncomputable def toInt : Fl → Exec ℤ
  | .fin a => castInt a
  | _ => .error .ub

end Fl

/-- A call of `RenderResult::renderPixel`, include/geolib/sensors/DepthCamera.h:95. -/
structure PixelCall where
  x : ℤ
  y : ℤ
  depth : Fl
  tri : ℕ

/-- `class DepthCamera`, include/geolib/sensors/DepthCamera.h:163-296: what the code uses of the pinhole model. -/
structure Camera where
  fx : ℝ
  fy : ℝ
  cx : ℝ
  cy : ℝ
  Tx : ℝ
  Ty : ℝ
  width : ℕ
  height : ℕ

namespace Camera

/-- `DepthCamera::project3Dto2D`, include/geolib/sensors/DepthCamera.h:210-214. Simplification: division by 0 gives 0; the
results for such points are not used. -/
noncomputable def project3Dto2D (c : Camera) (p : Vec3) : Vec2 :=
  ⟨(c.fx * p.x + c.Tx) / -p.z + c.cx, (c.fy * -p.y + c.Ty) / -p.z + c.cy⟩

/-- `DepthCamera::project2Dto3DX`, include/geolib/sensors/DepthCamera.h:216. -/
noncomputable def project2Dto3DX (c : Camera) (x : ℤ) : ℝ := (x - (c.cx + c.Tx)) / c.fx

/-- `DepthCamera::project2Dto3DY`, include/geolib/sensors/DepthCamera.h:218. -/
noncomputable def project2Dto3DY (c : Camera) (y : ℤ) : ℝ := -(y - (c.cy + c.Ty)) / c.fy

/-- `DepthCamera::project2Dto3D`, include/geolib/sensors/DepthCamera.h:226-229. -/
noncomputable def project2Dto3D (c : Camera) (x y : ℤ) : Vec3 := ⟨c.project2Dto3DX x, c.project2Dto3DY y, -1⟩

end Camera

namespace Raster

open Classical in
/-- `DepthCamera::sort`, src/sensors/DepthCamera.cpp:477-491, with the coordinate as a function. -/
noncomputable def sort (f : Vec3 → ℝ) (pmin pmid pmax : Vec3) : Vec3 × Vec3 × Vec3 :=
  let (pmin, pmax) := if f pmin > f pmax then (pmax, pmin) else (pmin, pmax)
  let (pmin, pmid) := if f pmin > f pmid then (pmid, pmin) else (pmin, pmid)
  let (pmid, pmax) := if f pmid > f pmax then (pmax, pmid) else (pmid, pmax)
  (pmin, pmid, pmax)

/-- The loop over the pixels of a row, src/sensors/DepthCamera.cpp:460-466, with the number of pixels left. -/
noncomputable def pixels (y : ℤ) (dDelta : Fl) (tri : ℕ) : ℕ → ℤ → Fl → List PixelCall
  | 0, _, _ => []
  | n + 1, x, d => ⟨x, y, (Fl.fin 1).div d, tri⟩ :: pixels y dDelta tri n (x + 1) (d.add dDelta)

/-- One row, src/sensors/DepthCamera.cpp:444-466. -/
noncomputable def row (width : ℕ) (y : ℤ) (xs xe ds de : Fl) (tri : ℕ) : Exec (List PixelCall) := do
  let dDelta := (de.sub ds).div (xe.sub xs)
  let (d, x2) ← if xs.lt (.fin 0) then pure (ds.add (dDelta.mul xs.neg), (0 : ℤ)) else do
    let x2 ← xs.toInt
    pure (ds, x2)
  let e2 := min ((width : ℤ) - 1) (← xe.toInt)
  return pixels y dDelta tri (e2 - x2 + 1).toNat x2 d

/-- The interpolated values along an edge: the inverse depth and the position, src/sensors/DepthCamera.cpp:418-425. -/
structure Edge where
  x : Fl
  xDelta : Fl
  d : Fl
  dDelta : Fl

/-- The values `n` rows further in one step, src/sensors/DepthCamera.cpp:433-436. -/
noncomputable def Edge.jump (e : Edge) (n : ℤ) : Edge :=
  { e with x := e.x.add (e.xDelta.mul (.fin n)), d := e.d.add (e.dDelta.mul (.fin n)) }

/-- The values one row further, src/sensors/DepthCamera.cpp:468-471. -/
noncomputable def Edge.next (e : Edge) : Edge := { e with x := e.x.add e.xDelta, d := e.d.add e.dDelta }

/-- The loop over rows, src/sensors/DepthCamera.cpp:442-472, with the number of rows left. -/
noncomputable def rows (width : ℕ) (tri : ℕ) : ℕ → ℤ → Edge → Edge → Exec (List PixelCall)
  | 0, _, _, _ => .ok []
  | n + 1, y, s, e => do
    let cs ← row width y s.x e.x s.d e.d tri
    let rest ← rows width tri n (y + 1) s.next e.next
    return cs ++ rest

/-- `DepthCamera::drawTrianglePart`, src/sensors/DepthCamera.cpp:416-473: the pixels rendered. -/
noncomputable def part (width height : ℕ) (yStart yEnd : ℤ) (s e : Edge) (tri : ℕ) : Exec (List PixelCall) := do
  let (yStart, s, e) ← if yStart < 0 then do
    let n ← intOp (-yStart)
    pure ((0 : ℤ), s.jump n, e.jump n)
  else pure (yStart, s, e)
  let yEnd := min ((height : ℤ) - 1) yEnd
  rows width tri (yEnd - yStart + 1).toNat yStart s e

/-- The edge from one corner to another over a number of rows, src/sensors/DepthCamera.cpp:382-405. -/
noncomputable def edge (p q : Vec3) (n : ℤ) : Edge :=
  ⟨.fin p.x, (Fl.fin (q.x - p.x)).div (.fin n), .fin p.z, (Fl.fin (q.z - p.z)).div (.fin n)⟩

/-- A vertical edge, src/sensors/DepthCamera.cpp:364-365. -/
noncomputable def still (p : Vec3) : Edge := ⟨.fin p.x, .fin 0, .fin p.z, .fin 0⟩

/-- The culling test, src/sensors/DepthCamera.cpp:346. -/
def culls (p1 p2 p3 : Vec3) : Prop := ¬ ((p2.x - p1.x) * (p3.y - p1.y) - (p3.x - p1.x) * (p2.y - p1.y) < 0)

open Classical in
/-- `DepthCamera::drawTriangle2D`, src/sensors/DepthCamera.cpp:337-412: the pixels rendered. -/
noncomputable def triangle2D (width height : ℕ) (culling : Bool) (p1 p2 p3 : Vec3) (tri : ℕ) : Exec (List PixelCall) := do
  if culling = true ∧ culls p1 p2 p3 then return [] else
  let y1 ← castInt p1.y
  let y2 ← castInt p2.y
  let y3 ← castInt p3.y
  let x1 ← castInt p1.x
  let x2 ← castInt p2.x
  let x3 ← castInt p3.x
  let minY := min y1 (min y2 y3)
  let maxY := max y1 (max y2 y3)
  let minX := min x1 (min x2 x3)
  let maxX := max x1 (max x2 x3)
  if minX < width ∧ maxX > 0 ∧ minY < height ∧ maxY > 0 then
    if minY = maxY then
      let (pmin, pmid, pmax) := sort Vec3.x p1 p2 p3
      part width height (← castInt pmin.y) (← castInt pmid.y) (still pmin) (still pmax) tri
    else
      let (pmin, pmid, pmax) := sort Vec3.y p1 p2 p3
      let yMin ← castInt pmin.y
      let yMid ← castInt pmid.y
      let yMax ← castInt pmax.y
      let minMid ← intOp (yMid - yMin)
      let midMax ← intOp (yMax - yMid)
      let minMax ← intOp (yMax - yMin)
      let prime : Vec3 := ((midMax : ℝ) * pmin + (minMid : ℝ) * pmax) / (minMax : ℝ)
      let (pa, pb) := if prime.x > pmid.x then (pmid, prime) else (prime, pmid)
      let cs1 ← part width height yMin yMid (edge pmin pa minMid) (edge pmin pb minMid) tri
      let cs2 ← part width height yMid yMax (edge pa pmax midMax) (edge pb pmax midMax) tri
      return cs1 ++ cs2
  else return []

/-- A projected corner with its inverse depth, src/sensors/DepthCamera.cpp:292-301,323-332. -/
noncomputable def corner (c : Camera) (p : Vec3) : Vec3 := ⟨(c.project3Dto2D p).x, (c.project3Dto2D p).y, 1 / -p.z⟩

/-- `near_clip_z_`, include/geolib/sensors/DepthCamera.h:260. -/
noncomputable def nearClip : ℝ := -1 / 10

/-- The point of an edge on the near plane, src/sensors/DepthCamera.cpp:235-246,273-284. -/
noncomputable def clip (v w : Vec3) : Vec3 :=
  let d := w - v
  let t := (nearClip - v.z) / d.z
  ⟨v.x + d.x * t, v.y + d.y * t, nearClip⟩

open Classical in
/-- The clipped triangles of a triangle, src/sensors/DepthCamera.cpp:187-302. -/
noncomputable def clipped (p1 p2 p3 : Vec3) : List (Vec3 × Vec3 × Vec3) :=
  let in1 := decide (p1.z < nearClip)
  let in2 := decide (p2.z < nearClip)
  let in3 := decide (p3.z < nearClip)
  match in1, in2, in3 with
  | true, false, false => [(p1, clip p1 p2, clip p1 p3)]
  | false, true, false => [(p2, clip p2 p3, clip p2 p1)]
  | false, false, true => [(p3, clip p3 p1, clip p3 p2)]
  | false, true, true => [(p2, p3, clip p2 p1), (clip p2 p1, p3, clip p3 p1)]
  | true, false, true => [(p3, p1, clip p3 p2), (clip p3 p2, p1, clip p1 p2)]
  | true, true, false => [(p1, p2, clip p1 p3), (clip p1 p3, p2, clip p2 p3)]
  | true, true, true => [(p1, p2, p3)]
  | false, false, false => []

/-- The pixels of some triangles in space, src/sensors/DepthCamera.cpp:315-333. -/
noncomputable def triangles3D (c : Camera) (width height : ℕ) (culling : Bool) (tri : ℕ) :
    List (Vec3 × Vec3 × Vec3) → Exec (List PixelCall)
  | [] => .ok []
  | (p1, p2, p3) :: ts => do
    let cs ← triangle2D width height culling (corner c p1) (corner c p2) (corner c p3) tri
    let rest ← triangles3D c width height culling tri ts
    return cs ++ rest

/-- A `RenderResult`, include/geolib/sensors/DepthCamera.h:85-107: what `renderPixel` does to its state and whether `stop`
was called. -/
structure Sink (σ : Type) where
  pixel : σ → PixelCall → Exec σ
  stopped : σ → Bool

/-- Successive calls of `renderPixel`, include/geolib/sensors/DepthCamera.h:95. -/
def Sink.pixels {σ : Type} (k : Sink σ) : List PixelCall → σ → Exec σ
  | [], s => .ok s
  | p :: ps, s => do
    let s ← k.pixel s p
    k.pixels ps s

/-- The loop over triangles, src/sensors/DepthCamera.cpp:180-310. -/
noncomputable def loop {σ : Type} (k : Sink σ) (c : Camera) (width height : ℕ) (culling : Bool) (points : List Vec3) :
    ℕ → List TriI → σ → Exec σ
  | _, [], s => .ok s
  | i, t :: ts, s => do
    let p1 ← vget points t.i1
    let p2 ← vget points t.i2
    let p3 ← vget points t.i3
    let calls ← triangles3D c width height culling i (clipped p1 p2 p3)
    let s ← k.pixels calls s
    if k.stopped s then return s else loop k c width height culling points (u32 (i + 1)) ts s

open Classical in
/-- `DepthCamera::render`, src/sensors/DepthCamera.cpp:147-311. -/
noncomputable def render {σ : Type} (k : Sink σ) (c : Camera) (width height : ℕ) (mesh : Mesh) (pose : Transform3)
    (culling : Bool) (s : σ) : Exec σ :=
  if mesh.getMaxRadius.2 < pose.t.z then .ok s
  else
    let points := mesh.points.map fun p => pose.apply p
    if ¬ ∃ p ∈ points, p.z < nearClip then .ok s
    else loop k c width height culling points 0 mesh.tris s

end Raster

/-- The depth image `cv::Mat`, include/geolib/sensors/DepthCamera.h:147. -/
structure DepthImage where
  cols : ℕ
  rows : ℕ
  at' : ℕ → ℕ → Fl

/-- `class DefaultRenderResult`, include/geolib/sensors/DepthCamera.h:109-151, with `stop_` of the base class. A null pointer
is 0. -/
structure DefaultResult where
  image : DepthImage
  pointer : ℕ
  pointerMap : List (List ℕ)
  triangleMap : List (List ℤ)
  stop : Bool

namespace DefaultResult

/-- `std::vector<std::vector<T>>::resize(cols, std::vector<T>(rows, v))`, include/geolib/sensors/DepthCamera.h:126,134. -/
def resize {α : Type} (m : List (List α)) (cols rows : ℕ) (v : α) : List (List α) :=
  m.take cols ++ List.replicate (cols - m.length) (List.replicate rows v)

/-- The test before a resize, include/geolib/sensors/DepthCamera.h:123-124,131-132. -/
def misfit {α : Type} (m : List (List α)) (cols rows : ℕ) : Bool :=
  match m with
  | [] => true
  | col :: _ => m.length != cols || col.length != rows

/-- The constructor, include/geolib/sensors/DepthCamera.h:115-136. -/
def new (image : DepthImage) (pointer : ℕ) (pointerMap : List (List ℕ)) (triangleMap : List (List ℤ)) : DefaultResult :=
  ⟨image, pointer,
    if pointer ≠ 0 ∧ misfit pointerMap image.cols image.rows = true then resize pointerMap image.cols image.rows 0 else pointerMap,
    if misfit triangleMap image.cols image.rows = true then resize triangleMap image.cols image.rows (-1) else triangleMap,
    false⟩

/-- `m[x][y] = v`: undefined behaviour out of range. Models `std::vector::operator[]` (src/sensors/DepthCamera.cpp:26,31). -/
def store {α : Type} (m : List (List α)) (x y : ℕ) (v : α) : Exec (List (List α)) := do
  let col ← vget m x
  if y < col.length then return m.set x (col.set y v) else .error .ub

/-- `DefaultRenderResult::renderPixel`, src/sensors/DepthCamera.cpp:17-34. -/
noncomputable def pixel (r : DefaultResult) (p : PixelCall) : Exec DefaultResult := do
  if ¬ (0 ≤ p.x ∧ p.x < r.image.cols ∧ 0 ≤ p.y ∧ p.y < r.image.rows) then .error .ub else
  let x := p.x.toNat
  let y := p.y.toNat
  let old := r.image.at' y x
  if old.isZero || p.depth.lt old then
    let image : DepthImage := { r.image with at' := fun y' x' => if y' = y ∧ x' = x then p.depth else r.image.at' y' x' }
    let pm ← if r.pointer ≠ 0 then store r.pointerMap x y r.pointer else pure r.pointerMap
    let tm ← if r.triangleMap.isEmpty then pure r.triangleMap else store r.triangleMap x y (toInt32 p.tri)
    return { r with image := image, pointerMap := pm, triangleMap := tm }
  else return r

/-- The object as a `RenderResult`, include/geolib/sensors/DepthCamera.h:109-151. -/
noncomputable def sink : Raster.Sink DefaultResult := ⟨pixel, DefaultResult.stop⟩

end DefaultResult

/-- `DepthCamera::rasterize` with one pose, src/sensors/DepthCamera.cpp:127-143, for the mesh `getMesh()` of the shape. The
result carries the image and the maps, which the C++ function changes in place. -/
noncomputable def rasterize (c : Camera) (mesh : Mesh) (pose : Transform3) (image : DepthImage) (pointerMap : List (List ℕ))
    (pointer : ℕ) (triangleMap : List (List ℤ)) : Exec DefaultResult :=
  Raster.render DefaultResult.sink c image.cols image.rows mesh pose true (.new image pointer pointerMap triangleMap)

/-- `DepthCamera::rasterize` with two poses, src/sensors/DepthCamera.cpp:114-123. -/
noncomputable def rasterize2 (c : Camera) (mesh : Mesh) (camPose objPose : Transform3) (image : DepthImage)
    (pointerMap : List (List ℕ)) (pointer : ℕ) (triangleMap : List (List ℤ)) : Exec DefaultResult :=
  rasterize c mesh (camPose.inverse.mul objPose) image pointerMap pointer triangleMap

end Geo
