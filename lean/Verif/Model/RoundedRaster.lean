import Verif.Model.RoundedCamera

/-!
# The rasteriser of the depth camera in floating point arithmetic

`Model/DepthCamera` computes with real numbers, infinities and NaN. Here the rounding `rnd` of `float` follows every operation on
floats, and `rndD` that of `double` every operation on doubles. With the identity for both the functions are those of
`Model/DepthCamera` (`C118_exact`). Simplifications: no overflow, no subnormal numbers, no signed zeros; products and sums are not
fused.
-/

namespace Geo

/-- The rounding of a result. Models the platform (no line in /repo). -/
noncomputable def Fl.round (rnd : ℝ → ℝ) : Fl → Fl
  | .fin a => .fin (rnd a)
  | a => a

namespace Rounded

open Raster (Edge Sink)

/-- The loop over the pixels of a row, src/sensors/DepthCamera.cpp:460-466, with the number of pixels left. -/
noncomputable def pixels (rnd : ℝ → ℝ) (y : ℤ) (dDelta : Fl) (tri : ℕ) : ℕ → ℤ → Fl → List PixelCall
  | 0, _, _ => []
  | n + 1, x, d => ⟨x, y, ((Fl.fin 1).div d).round rnd, tri⟩ :: pixels rnd y dDelta tri n (x + 1) ((d.add dDelta).round rnd)

/-- One row, src/sensors/DepthCamera.cpp:444-466. -/
noncomputable def row (rnd : ℝ → ℝ) (width : ℕ) (y : ℤ) (xs xe ds de : Fl) (tri : ℕ) : Exec (List PixelCall) := do
  let dDelta := (((de.sub ds).round rnd).div ((xe.sub xs).round rnd)).round rnd
  let (d, x2) ← if xs.lt (.fin 0) then pure ((ds.add ((dDelta.mul xs.neg).round rnd)).round rnd, (0 : ℤ)) else do
    let x2 ← xs.toInt
    pure (ds, x2)
  let e2 := min ((width : ℤ) - 1) (← xe.toInt)
  return pixels rnd y dDelta tri (e2 - x2 + 1).toNat x2 d

/-- The values of an edge `n` rows further in one step, src/sensors/DepthCamera.cpp:433-436; the number of rows is converted to
`float`. -/
noncomputable def jump (rnd : ℝ → ℝ) (e : Edge) (n : ℤ) : Edge :=
  { e with
    x := (e.x.add ((e.xDelta.mul (.fin (rnd n))).round rnd)).round rnd
    d := (e.d.add ((e.dDelta.mul (.fin (rnd n))).round rnd)).round rnd }

/-- The values of an edge one row further, src/sensors/DepthCamera.cpp:468-471. -/
noncomputable def next (rnd : ℝ → ℝ) (e : Edge) : Edge :=
  { e with x := (e.x.add e.xDelta).round rnd, d := (e.d.add e.dDelta).round rnd }

/-- The loop over rows, src/sensors/DepthCamera.cpp:442-472, with the number of rows left. -/
noncomputable def rows (rnd : ℝ → ℝ) (width : ℕ) (tri : ℕ) : ℕ → ℤ → Edge → Edge → Exec (List PixelCall)
  | 0, _, _, _ => .ok []
  | n + 1, y, s, e => do
    let cs ← row rnd width y s.x e.x s.d e.d tri
    let rest ← rows rnd width tri n (y + 1) (next rnd s) (next rnd e)
    return cs ++ rest

/-- `DepthCamera::drawTrianglePart`, src/sensors/DepthCamera.cpp:416-473: the pixels rendered. -/
noncomputable def part (rnd : ℝ → ℝ) (width height : ℕ) (yStart yEnd : ℤ) (s e : Edge) (tri : ℕ) : Exec (List PixelCall) := do
  let (yStart, s, e) ← if yStart < 0 then do
    let n ← intOp (-yStart)
    pure ((0 : ℤ), jump rnd s n, jump rnd e n)
  else pure (yStart, s, e)
  let yEnd := min ((height : ℤ) - 1) yEnd
  rows rnd width tri (yEnd - yStart + 1).toNat yStart s e

/-- The edge from one corner to another over a number of rows, src/sensors/DepthCamera.cpp:382-405; the number of rows is converted
to `float`. -/
noncomputable def edge (rnd : ℝ → ℝ) (p q : Vec3) (n : ℤ) : Edge :=
  ⟨.fin p.x, ((Fl.fin (rnd (q.x - p.x))).div (.fin (rnd n))).round rnd,
    .fin p.z, ((Fl.fin (rnd (q.z - p.z))).div (.fin (rnd n))).round rnd⟩

/-- The culling test, src/sensors/DepthCamera.cpp:346. -/
def culls (rnd : ℝ → ℝ) (p1 p2 p3 : Vec3) : Prop :=
  ¬ (rnd (rnd (rnd (p2.x - p1.x) * rnd (p3.y - p1.y)) - rnd (rnd (p3.x - p1.x) * rnd (p2.y - p1.y))) < 0)

/-- One coordinate of `p_prime`, src/sensors/DepthCamera.cpp:375, with the operators of `Vec3T`,
include/geolib/math_types.h:196-208; the numbers of rows are converted to `float`. -/
noncomputable def primeCoord (rnd : ℝ → ℝ) (midMax minMid minMax : ℤ) (a c : ℝ) : ℝ :=
  rnd (rnd (rnd (a * rnd midMax) + rnd (c * rnd minMid)) / rnd minMax)

open Classical in
/-- `DepthCamera::drawTriangle2D`, src/sensors/DepthCamera.cpp:337-412: the pixels rendered. -/
noncomputable def triangle2D (rnd : ℝ → ℝ) (width height : ℕ) (culling : Bool) (p1 p2 p3 : Vec3) (tri : ℕ) :
    Exec (List PixelCall) := do
  if culling = true ∧ culls rnd p1 p2 p3 then return [] else
  let y1 ← castInt p1.y
  let y2 ← castInt p2.y
  let y3 ← castInt p3.y
  let x1 ← castInt p1.x
  let x2 ← castInt p2.x
  let x3 ← castInt p3.x
  let minY := min y1 (min y2 y3)
  let maxY := max y1 (max y2 y3)
  let minX := min x1 (min x2 x3)
  let maxX := max x1 (max x2 x3)
  if minX < width ∧ maxX > 0 ∧ minY < height ∧ maxY > 0 then
    if minY = maxY then
      let (pmin, pmid, pmax) := Raster.sort Vec3.x p1 p2 p3
      part rnd width height (← castInt pmin.y) (← castInt pmid.y) (Raster.still pmin) (Raster.still pmax) tri
    else
      let (pmin, pmid, pmax) := Raster.sort Vec3.y p1 p2 p3
      let yMin ← castInt pmin.y
      let yMid ← castInt pmid.y
      let yMax ← castInt pmax.y
      let minMid ← intOp (yMid - yMin)
      let midMax ← intOp (yMax - yMid)
      let minMax ← intOp (yMax - yMin)
      let prime : Vec3 := ⟨primeCoord rnd midMax minMid minMax pmin.x pmax.x, primeCoord rnd midMax minMid minMax pmin.y pmax.y,
        primeCoord rnd midMax minMid minMax pmin.z pmax.z⟩
      let (pa, pb) := if prime.x > pmid.x then (pmid, prime) else (prime, pmid)
      let cs1 ← part rnd width height yMin yMid (edge rnd pmin pa minMid) (edge rnd pmin pb minMid) tri
      let cs2 ← part rnd width height yMid yMax (edge rnd pa pmax midMax) (edge rnd pb pmax midMax) tri
      return cs1 ++ cs2
  else return []

/-- A projected corner with its inverse depth, src/sensors/DepthCamera.cpp:292-301,323-332: computed in `double`, converted to
`float`. -/
noncomputable def corner (rnd rndD : ℝ → ℝ) (c : Camera) (p : Vec3) : Vec3 :=
  ⟨(project3Dto2Dfloat rndD rnd c p).x, (project3Dto2Dfloat rndD rnd c p).y, rnd (rndD (1 / -p.z))⟩

/-- `near_clip_z_`, include/geolib/sensors/DepthCamera.h:260: the `double` next to -0.1. -/
noncomputable def nearClip (rndD : ℝ → ℝ) : ℝ := rndD (-1 / 10)

/-- The point of an edge on the near plane, src/sensors/DepthCamera.cpp:235-246,273-284; the parameter is converted to `float`. -/
noncomputable def clip (rnd rndD : ℝ → ℝ) (v w : Vec3) : Vec3 :=
  let t := rnd (rndD (rndD (nearClip rndD - v.z) / rndD (w.z - v.z)))
  ⟨rndD (v.x + rndD (rndD (w.x - v.x) * t)), rndD (v.y + rndD (rndD (w.y - v.y) * t)), nearClip rndD⟩

open Classical in
/-- The clipped triangles of a triangle, src/sensors/DepthCamera.cpp:187-302. -/
noncomputable def clipped (rnd rndD : ℝ → ℝ) (p1 p2 p3 : Vec3) : List (Vec3 × Vec3 × Vec3) :=
  let in1 := decide (p1.z < nearClip rndD)
  let in2 := decide (p2.z < nearClip rndD)
  let in3 := decide (p3.z < nearClip rndD)
  let clip := clip rnd rndD
  match in1, in2, in3 with
  | true, false, false => [(p1, clip p1 p2, clip p1 p3)]
  | false, true, false => [(p2, clip p2 p3, clip p2 p1)]
  | false, false, true => [(p3, clip p3 p1, clip p3 p2)]
  | false, true, true => [(p2, p3, clip p2 p1), (clip p2 p1, p3, clip p3 p1)]
  | true, false, true => [(p3, p1, clip p3 p2), (clip p3 p2, p1, clip p1 p2)]
  | true, true, false => [(p1, p2, clip p1 p3), (clip p1 p3, p2, clip p2 p3)]
  | true, true, true => [(p1, p2, p3)]
  | false, false, false => []

/-- The pixels of some triangles in space, src/sensors/DepthCamera.cpp:315-333. -/
noncomputable def triangles3D (rnd rndD : ℝ → ℝ) (c : Camera) (width height : ℕ) (culling : Bool) (tri : ℕ) :
    List (Vec3 × Vec3 × Vec3) → Exec (List PixelCall)
  | [] => .ok []
  | (p1, p2, p3) :: ts => do
    let cs ← triangle2D rnd width height culling (corner rnd rndD c p1) (corner rnd rndD c p2) (corner rnd rndD c p3) tri
    let rest ← triangles3D rnd rndD c width height culling tri ts
    return cs ++ rest

/-- The loop over triangles, src/sensors/DepthCamera.cpp:180-310. -/
noncomputable def loop {σ : Type} (rnd rndD : ℝ → ℝ) (k : Sink σ) (c : Camera) (width height : ℕ) (culling : Bool)
    (points : List Vec3) : ℕ → List TriI → σ → Exec σ
  | _, [], s => .ok s
  | i, t :: ts, s => do
    let p1 ← vget points t.i1
    let p2 ← vget points t.i2
    let p3 ← vget points t.i3
    let calls ← triangles3D rnd rndD c width height culling i (clipped rnd rndD p1 p2 p3)
    let s ← k.pixels calls s
    if k.stopped s then return s else loop rnd rndD k c width height culling points (u32 (i + 1)) ts s

open Classical in
/-- `DepthCamera::render`, src/sensors/DepthCamera.cpp:147-311. Simplification: the maximum radius is that of exact arithmetic. -/
noncomputable def render {σ : Type} (rnd rndD : ℝ → ℝ) (k : Sink σ) (c : Camera) (width height : ℕ) (mesh : Mesh)
    (pose : Transform3) (culling : Bool) (s : σ) : Exec σ :=
  if mesh.getMaxRadius.2 < pose.t.z then .ok s
  else
    let points := mesh.points.map fun p => apply rndD pose p
    if ¬ ∃ p ∈ points, p.z < nearClip rndD then .ok s
    else loop rnd rndD k c width height culling points 0 mesh.tris s

end Rounded

end Geo
