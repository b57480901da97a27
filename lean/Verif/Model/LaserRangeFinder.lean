import Verif.Model.Shape
import Mathlib.Data.EReal.Basic

/-!
# Model of src/sensors/LaserRangeFinder.cpp

Doubles are real numbers. Ranges are extended reals, since a beam parallel to a line gives an infinite depth.
Simplifications: the conversion of a depth to `float` is exact; a denominator that is zero is positive zero; ranges are
never NaN; beam tables are computed without rounding.
-/

namespace Geo

/-- `class LaserRangeFinder`, include/geolib/sensors/LaserRangeFinder.h:127-140. -/
structure LRF where
  aMin : ℝ
  aMax : ℝ
  rangeMin : ℝ
  rangeMax : ℝ
  numBeams : ℕ
  angles : List ℝ
  rayDirs : List Vec3
  angleIncr : ℝ
  iHalfCircle : ℕ

/-- `class LaserRangeFinder::RenderResult`, include/geolib/sensors/LaserRangeFinder.h:37-55; the pointer `lrf_` is an
argument of the functions instead. -/
structure RenderResult where
  minI : ℕ
  maxI : ℕ
  ranges : List EReal

namespace LRF

/-- `LaserRangeFinder::LaserRangeFinder`, src/sensors/LaserRangeFinder.cpp:15-17 (and LaserRangeFinder.h:140 for
`i_half_circle_`). -/
def new : LRF := ⟨0, 0, 0, 0, 0, [], [], 0, 0⟩

/-- `LaserRangeFinder::polarTo2D`, src/sensors/LaserRangeFinder.cpp:402-405. -/
noncomputable def polarTo2D (angle range : ℝ) : Vec3 := (⟨Real.cos angle, Real.sin angle, 0⟩ : Vec3) * range

/-- `LaserRangeFinder::polarTo3D`, src/sensors/LaserRangeFinder.cpp:407-410. -/
noncomputable def polarTo3D (laserPose : Transform3) (angle range : ℝ) : Vec3 :=
  laserPose.R.mulVec (polarTo2D angle range)

/-- The values of `a` in the loop src/sensors/LaserRangeFinder.cpp:334-340, with the number of iterations left. -/
def beamAngles (incr : ℝ) : ℕ → ℝ → List ℝ
  | 0, _ => []
  | n + 1, a => a :: beamAngles incr n (a + incr)

/-- `LaserRangeFinder::calculateRays`, src/sensors/LaserRangeFinder.cpp:324-343. The subtraction `num_beams_ - 1` does not
wrap, since the callers check that there is a beam. -/
noncomputable def calculateRays (l : LRF) : Exec LRF := do
  let incr := (l.aMax - l.aMin) / (max (l.numBeams - 1) 1 : ℕ)
  let angles := beamAngles incr l.numBeams l.aMin
  let half ← castUInt (Real.pi / incr)
  return { l with angleIncr := incr, angles := angles, rayDirs := angles.map fun a => polarTo2D a 1, iHalfCircle := half }

open Classical in
/-- `LaserRangeFinder::setAngleLimits`, src/sensors/LaserRangeFinder.cpp:305-313. -/
noncomputable def setAngleLimits (l : LRF) (min max : ℝ) : Exec LRF :=
  let l := { l with aMin := min, aMax := max }
  if 0 < l.numBeams ∧ l.aMax - l.aMin > 0 then l.calculateRays else .ok l

open Classical in
/-- `LaserRangeFinder::setNumBeams`, src/sensors/LaserRangeFinder.cpp:315-322. -/
noncomputable def setNumBeams (l : LRF) (n : ℕ) : Exec LRF :=
  let l := { l with numBeams := n }
  if 0 < n ∧ l.aMax - l.aMin > 0 then l.calculateRays else .ok l

/-- `LaserRangeFinder::setRangeLimits`, include/geolib/sensors/LaserRangeFinder.h:72-76. -/
def setRangeLimits (l : LRF) (min max : ℝ) : LRF := { l with rangeMin := min, rangeMax := max }

/-- `LaserRangeFinder::getAngleIncrement`, src/sensors/LaserRangeFinder.cpp:345-348. -/
def getAngleIncrement (l : LRF) : ℝ := l.angleIncr

open Classical in
/-- `LaserRangeFinder::getAngleUpperIndexRaw(double)`, src/sensors/LaserRangeFinder.cpp:361-364. Before the tables are
computed the increment is 0 and infinity or NaN is converted, which is undefined behaviour. -/
noncomputable def getAngleUpperIndexRaw (l : LRF) (angle : ℝ) : Exec ℤ := do
  if l.angleIncr = 0 then .error .ub else
  let i ← castInt ((angle - l.aMin) / l.angleIncr)
  intOp (i + 1)

/-- `LaserRangeFinder::getAngleUpperIndexRaw(double, double)`, src/sensors/LaserRangeFinder.cpp:366-370. -/
noncomputable def getAngleUpperIndexRaw2 (l : LRF) (x y : ℝ) : Exec ℤ := l.getAngleUpperIndexRaw (atan2 y x)

/-- `LaserRangeFinder::getAngleUpperIndex(double)`, src/sensors/LaserRangeFinder.cpp:350-353. -/
noncomputable def getAngleUpperIndex (l : LRF) (angle : ℝ) : Exec ℕ := do
  return min l.numBeams (max 0 (← l.getAngleUpperIndexRaw angle)).toNat

/-- `LaserRangeFinder::getAngleUpperIndex(double, double)`, src/sensors/LaserRangeFinder.cpp:355-359. -/
noncomputable def getAngleUpperIndex2 (l : LRF) (x y : ℝ) : Exec ℕ := l.getAngleUpperIndex (atan2 y x)

/-- `LaserRangeFinder::rangeToPoint`, src/sensors/LaserRangeFinder.cpp:378-381. -/
def rangeToPoint (l : LRF) (range : ℝ) (i : ℕ) : Exec Vec3 := do
  return (← vget l.rayDirs i) * range

/-- `LaserRangeFinder::getRayDirection`, src/sensors/LaserRangeFinder.cpp:383-386. -/
def getRayDirection (l : LRF) (i : ℕ) : Exec Vec3 := vget l.rayDirs i

/-- `LaserRangeFinder::rangesToPoints`, src/sensors/LaserRangeFinder.cpp:388-400: the result and the new points. The
ranges are finite here. -/
def rangesToPoints (l : LRF) (ranges : List ℝ) (points : List Vec3) : Bool × List Vec3 :=
  if ranges.length ≠ l.rayDirs.length then (false, points)
  else (true, List.zipWith (fun r d => r * d) l.rayDirs ranges)

end LRF

namespace RenderResult

/-- The constructor, include/geolib/sensors/LaserRangeFinder.h:41-43. -/
def new (ranges : List EReal) : RenderResult := ⟨u32 (ranges.length + (2 ^ 32 - 1)), 0, ranges⟩

open Classical in
/-- `RenderResult::renderPoint`, src/sensors/LaserRangeFinder.cpp:142-148, acting on the ranges. -/
noncomputable def renderPoint (ranges : List EReal) (i : ℕ) (d : EReal) : Exec (List EReal) := do
  let r ← vget ranges i
  if r = 0 ∨ d < r then return ranges.set i d else return ranges

/-- A sequence of `renderPoint` calls, as the loops src/sensors/LaserRangeFinder.cpp:122-137 and 197-269 make them. -/
noncomputable def renderPoints : List (ℕ × EReal) → List EReal → Exec (List EReal)
  | [], ranges => .ok ranges
  | (i, d) :: ps, ranges => do
    let ranges ← renderPoint ranges i d
    renderPoints ps ranges

open Classical in
/-- The quotient src/sensors/LaserRangeFinder.cpp:125,134 as IEEE division has it, `none` being NaN. Simplification: a
denominator that is zero is positive zero. -/
noncomputable def quotient (a b : ℝ) : Option EReal :=
  if b ≠ 0 then some (a / b : ℝ) else if 0 < a then some ⊤ else if a < 0 then some ⊥ else none

open Classical in
/-- A part of the beams, src/sensors/LaserRangeFinder.cpp:122-128,131-137: `n` beams from `i` on. -/
noncomputable def drawPart (l : LRF) (p1 s : Vec2) : ℕ → ℕ → List EReal → Exec (List EReal)
  | 0, _, ranges => .ok ranges
  | n + 1, i, ranges => do
    let r := (← vget l.rayDirs i).projectTo2d
    match quotient (p1.cross s) (r.cross s) with
    | none => drawPart l p1 s n (i + 1) ranges
    | some d => if 0 < d then drawPart l p1 s n (i + 1) (← renderPoint ranges i d) else drawPart l p1 s n (i + 1) ranges

/-- The squared distance of the origin to the segment, src/sensors/LaserRangeFinder.cpp:42-51. -/
noncomputable def distanceSq (p1 p2 : Vec2) : ℝ :=
  let diff := p2 - p1
  let t := p1.dot diff / -diff.length2
  if t < 0 then p1.length2 else if t > 1 then p2.length2 else (p1 + t * diff).length2

open Classical in
/-- The two parts to draw, src/sensors/LaserRangeFinder.cpp:58-112: `none` if the line is omitted, otherwise the limits of
the two parts and the new `min_i` and `max_i`. -/
noncomputable def parts (l : LRF) (p1 p2 : Vec2) (res : RenderResult) :
    Exec (Option ((ℕ × ℕ) × (ℕ × ℕ) × (ℕ × ℕ))) := do
  let i1 ← l.getAngleUpperIndexRaw2 p1.x p1.y
  let i2 ← l.getAngleUpperIndexRaw2 p2.x p2.y
  let iMin := min i1 i2
  let iMax := max i1 i2
  if (← intOp (iMax - iMin)) < toInt32 l.iHalfCircle then
    if i1 > i2 then return none
    else if iMin ≥ toInt32 l.numBeams then return none
    else
      let a := (max 0 iMin).toNat
      let b := min l.numBeams (max 0 iMax).toNat
      return some ((a, b), (0, 0), (min res.minI a, max res.maxI b))
  else
    if i2 > i1 then return none
    else return some (((max 0 iMax).toNat, l.numBeams), (0, min l.numBeams (max 0 iMin).toNat), (0, l.numBeams))

open Classical in
/-- `RenderResult::renderLine`, src/sensors/LaserRangeFinder.cpp:29-138. -/
noncomputable def renderLine (l : LRF) (res : RenderResult) (p1 p2 : Vec2) : Exec RenderResult := do
  let diff := p2 - p1
  if (p1.x = 0 ∧ p1.y = 0) ∨ (p2.x = 0 ∧ p2.y = 0) ∨ diff.length2 = 0 then return res
  else if l.rangeMax > 0 ∧ distanceSq p1 p2 > l.rangeMax * l.rangeMax then return res
  else
    match ← parts l p1 p2 res with
    | none => return res
    | some ((a1, b1), (a2, b2), (minI, maxI)) =>
      let ranges ← drawPart l p1 diff (b1 - a1) a1 res.ranges
      let ranges ← drawPart l p1 diff (b2 - a2) a2 ranges
      return ⟨minI, maxI, ranges⟩

end RenderResult

namespace LRF

/-- A crossing of an edge with the plane, src/sensors/LaserRangeFinder.cpp:230,231,235,236,243,244,248,249,257,258,262,263. -/
noncomputable def cut (p q : Vec2) (zp zq : ℝ) : Vec2 := (p * |zq| + q * |zp|) / (|zp| + |zq|)

open Classical in
/-- The segment in which a triangle meets the plane, src/sensors/LaserRangeFinder.cpp:203-265; `none` if all vertices are
on the same side. The last `if` of the code is an alternative here, since exactly one of the three cases applies. -/
noncomputable def slice (p1 p2 p3 : Vec2) (z1 z2 z3 : ℝ) : Option (Vec2 × Vec2) :=
  let u1 := decide (z1 < 0)
  let u2 := decide (z2 < 0)
  let u3 := decide (z3 < 0)
  if u1 = u2 ∧ u2 = u3 then none
  else if u2 = u3 then
    if u2 then some (cut p1 p3 z1 z3, cut p1 p2 z1 z2) else some (cut p1 p2 z1 z2, cut p1 p3 z1 z3)
  else if u1 = u3 then
    if u1 then some (cut p2 p1 z2 z1, cut p2 p3 z2 z3) else some (cut p2 p3 z2 z3, cut p2 p1 z2 z1)
  else
    if u1 then some (cut p3 p2 z3 z2, cut p3 p1 z3 z1) else some (cut p3 p1 z3 z1, cut p3 p2 z3 z2)

/-- The transformed height of a vertex, src/sensors/LaserRangeFinder.cpp:187-191. -/
def height (pose : Transform3) (p : Vec3) : ℝ := (pose.R.getRow 2).dot p + pose.t.z

/-- The transformed planar position of a vertex, src/sensors/LaserRangeFinder.cpp:193-194,211-213. -/
def planar (pose : Transform3) (p : Vec3) : Vec2 :=
  ⟨(pose.R.getRow 0).dot p + pose.t.x, (pose.R.getRow 1).dot p + pose.t.y⟩

/-- The loop over triangles, src/sensors/LaserRangeFinder.cpp:197-270. -/
noncomputable def renderTriangles (l : LRF) (pose : Transform3) (points : List Vec3) :
    List TriI → RenderResult → Exec RenderResult
  | [], res => .ok res
  | t :: ts, res => do
    let a ← vget points t.i1
    let b ← vget points t.i2
    let c ← vget points t.i3
    match slice (planar pose a) (planar pose b) (planar pose c) (height pose a) (height pose b) (height pose c) with
    | none => renderTriangles l pose points ts res
    | some (q1, q2) => renderTriangles l pose points ts (← RenderResult.renderLine l res q1 q2)

open Classical in
/-- The early returns, src/sensors/LaserRangeFinder.cpp:166-181. -/
noncomputable def skips (l : LRF) (pose : Transform3) (maxRadius : ℝ) : Bool :=
  decide (maxRadius > 0 ∧ (|pose.t.z| > maxRadius ∨
    (pose.t.length2 > maxRadius * maxRadius ∧ Real.sqrt pose.t.length2 - maxRadius > l.rangeMax)))

/-- `std::vector::resize` with zeros, src/sensors/LaserRangeFinder.cpp:157-160. -/
noncomputable def resizeRanges (ranges : List EReal) (n : ℕ) : List EReal := ranges.take n ++ List.replicate (n - ranges.length) 0

/-- `LaserRangeFinder::render(RenderOptions, RenderResult)`, src/sensors/LaserRangeFinder.cpp:152-271. -/
noncomputable def render (l : LRF) (mesh : Mesh) (pose : Transform3) (ranges : List EReal) : Exec RenderResult :=
  let res : RenderResult := ⟨0, u32 l.rayDirs.length, resizeRanges ranges l.rayDirs.length⟩
  if l.skips pose mesh.getMaxRadius.2 then .ok res
  else renderTriangles l pose mesh.points mesh.tris res

/-- `LaserRangeFinder::render(Shape, Pose3D, Pose3D, ranges)`, src/sensors/LaserRangeFinder.cpp:275-288, for the mesh
`getMesh()` of the shape. -/
noncomputable def renderShape (l : LRF) (mesh : Mesh) (camPose objPose : Transform3) (ranges : List EReal) :
    Exec RenderResult := l.render mesh (camPose.inverse.mul objPose) ranges

/-- `LaserRangeFinder::renderLine`, src/sensors/LaserRangeFinder.cpp:292-297: the new ranges. -/
noncomputable def renderLine (l : LRF) (p1 p2 : Vec2) (ranges : List EReal) : Exec (List EReal) := do
  let res ← RenderResult.renderLine l (RenderResult.new ranges) p1 p2
  return res.ranges

/-- A call of a setter, include/geolib/sensors/LaserRangeFinder.h:70-78. -/
inductive Op where
  | angleLimits (min max : ℝ)
  | rangeLimits (min max : ℝ)
  | numBeams (n : ℕ)

/-- One setter call, src/sensors/LaserRangeFinder.cpp:305-322 and include/geolib/sensors/LaserRangeFinder.h:72-76. -/
noncomputable def step (l : LRF) : Op → Exec LRF
  | .angleLimits a b => l.setAngleLimits a b
  | .rangeLimits a b => .ok (l.setRangeLimits a b)
  | .numBeams n => l.setNumBeams n

/-- A sequence of setter calls, src/sensors/LaserRangeFinder.cpp:305-322. -/
noncomputable def run (l : LRF) : List Op → Exec LRF
  | [] => .ok l
  | o :: ops => do
    let l ← l.step o
    l.run ops

end LRF

end Geo
