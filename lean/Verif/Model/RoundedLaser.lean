import Verif.Model.LaserRangeFinder
import Verif.Model.RoundedCamera
import Verif.Model.RoundedShape

/-!
# The laser range finder in floating point arithmetic

`Model/LaserRangeFinder` computes with real numbers. Here the rounding `rnd` follows every multiplication, addition, subtraction,
division and square root, depths are converted to `float` by `toF` before they are stored, and the library functions are
approximations. With exact operations the functions are those of `Model/LaserRangeFinder` (`C121_exact`). Simplifications: no
overflow and no subnormal numbers; products and sums are not fused; a denominator that is zero is positive zero.
-/

namespace Geo

/-- The arithmetic of a platform: rounding to `double`, conversion to `float`, and the library functions used in
src/sensors/LaserRangeFinder.cpp:342 (`acos(-1.0)`), 358, 369 and 404. Models the platform (no line in /repo). -/
structure FloatLib where
  rnd : ℝ → ℝ
  toF : ℝ → ℝ
  cos : ℝ → ℝ
  sin : ℝ → ℝ
  atan2 : ℝ → ℝ → ℝ
  pi : ℝ

/-- Exact arithmetic. Models the platform (no line in /repo). -/
noncomputable def FloatLib.exact : FloatLib := ⟨id, id, Real.cos, Real.sin, Geo.atan2, Real.pi⟩

namespace RoundedLRF

variable (F : FloatLib)

/-- `Vec2T::dot`, include/geolib/math_types.h:52. -/
def dot (a b : Vec2) : ℝ := F.rnd (F.rnd (a.x * b.x) + F.rnd (a.y * b.y))

/-- `Vec2T::cross`, include/geolib/math_types.h:55. -/
def cross (a b : Vec2) : ℝ := F.rnd (F.rnd (a.x * b.y) - F.rnd (a.y * b.x))

/-- `Vec2T::operator+`, include/geolib/math_types.h:58. -/
def add (a b : Vec2) : Vec2 := ⟨F.rnd (a.x + b.x), F.rnd (a.y + b.y)⟩

/-- `Vec2T::operator-`, include/geolib/math_types.h:61. -/
def sub (a b : Vec2) : Vec2 := ⟨F.rnd (a.x - b.x), F.rnd (a.y - b.y)⟩

/-- `Vec2T::operator*(T)` and `operator*(T, Vec2T)`, include/geolib/math_types.h:64,70. -/
def scale (a : Vec2) (s : ℝ) : Vec2 := ⟨F.rnd (a.x * s), F.rnd (a.y * s)⟩

/-- `Vec2T::operator/(T)`, include/geolib/math_types.h:67. -/
noncomputable def div (a : Vec2) (s : ℝ) : Vec2 := ⟨F.rnd (a.x / s), F.rnd (a.y / s)⟩

/-- `Vec2T::length2`, include/geolib/math_types.h:76. -/
def length2 (a : Vec2) : ℝ := F.rnd (F.rnd (a.x * a.x) + F.rnd (a.y * a.y))

/-- `LaserRangeFinder::polarTo2D`, src/sensors/LaserRangeFinder.cpp:402-405. -/
def polarTo2D (angle range : ℝ) : Vec3 := Rounded.scale F.rnd ⟨F.cos angle, F.sin angle, 0⟩ range

/-- The values of `a` in the loop src/sensors/LaserRangeFinder.cpp:334-340, with the number of iterations left. -/
def beamAngles (incr : ℝ) : ℕ → ℝ → List ℝ
  | 0, _ => []
  | n + 1, a => a :: beamAngles incr n (F.rnd (a + incr))

/-- `LaserRangeFinder::calculateRays`, src/sensors/LaserRangeFinder.cpp:324-343; the conversion of the number of beams is
exact. -/
noncomputable def calculateRays (l : LRF) : Exec LRF := do
  let incr := F.rnd (F.rnd (l.aMax - l.aMin) / (max (l.numBeams - 1) 1 : ℕ))
  let angles := beamAngles F incr l.numBeams l.aMin
  let half ← castUInt (F.rnd (F.pi / incr))
  return { l with
    angleIncr := incr, angles := angles, rayDirs := angles.map fun a => polarTo2D F a 1, iHalfCircle := half }

open Classical in
/-- `LaserRangeFinder::setAngleLimits`, src/sensors/LaserRangeFinder.cpp:305-313. -/
noncomputable def setAngleLimits (l : LRF) (min max : ℝ) : Exec LRF :=
  let l := { l with aMin := min, aMax := max }
  if 0 < l.numBeams ∧ F.rnd (l.aMax - l.aMin) > 0 then calculateRays F l else .ok l

open Classical in
/-- `LaserRangeFinder::setNumBeams`, src/sensors/LaserRangeFinder.cpp:315-322. -/
noncomputable def setNumBeams (l : LRF) (n : ℕ) : Exec LRF :=
  let l := { l with numBeams := n }
  if 0 < n ∧ F.rnd (l.aMax - l.aMin) > 0 then calculateRays F l else .ok l

/-- One setter call, src/sensors/LaserRangeFinder.cpp:305-322 and include/geolib/sensors/LaserRangeFinder.h:72-76. -/
noncomputable def step (l : LRF) : LRF.Op → Exec LRF
  | .angleLimits a b => setAngleLimits F l a b
  | .rangeLimits a b => .ok (l.setRangeLimits a b)
  | .numBeams n => setNumBeams F l n

/-- A sequence of setter calls, src/sensors/LaserRangeFinder.cpp:305-322. -/
noncomputable def run (l : LRF) : List LRF.Op → Exec LRF
  | [] => .ok l
  | o :: ops => do
    let l ← step F l o
    run l ops

open Classical in
/-- `LaserRangeFinder::getAngleUpperIndexRaw(double)`, src/sensors/LaserRangeFinder.cpp:361-364. -/
noncomputable def getAngleUpperIndexRaw (l : LRF) (angle : ℝ) : Exec ℤ := do
  if l.angleIncr = 0 then .error .ub else
  let i ← castInt (F.rnd (F.rnd (angle - l.aMin) / l.angleIncr))
  intOp (i + 1)

/-- `LaserRangeFinder::getAngleUpperIndexRaw(double, double)`, src/sensors/LaserRangeFinder.cpp:366-370. -/
noncomputable def getAngleUpperIndexRaw2 (l : LRF) (x y : ℝ) : Exec ℤ := getAngleUpperIndexRaw F l (F.atan2 y x)

open Classical in
/-- A rounding applied to a depth that may be infinite. (Helper.) -/
noncomputable def roundE (f : ℝ → ℝ) (d : EReal) : EReal := if d = ⊤ then ⊤ else if d = ⊥ then ⊥ else (f d.toReal : ℝ)

/-- The depth src/sensors/LaserRangeFinder.cpp:125,134; `none` is NaN. -/
noncomputable def depth (p1 s r : Vec2) : Option EReal :=
  (RenderResult.quotient (cross F p1 s) (cross F r s)).map (roundE F.rnd)

open Classical in
/-- A part of the beams, src/sensors/LaserRangeFinder.cpp:122-128,131-137: `n` beams from `i` on. -/
noncomputable def drawPart (l : LRF) (p1 s : Vec2) : ℕ → ℕ → List EReal → Exec (List EReal)
  | 0, _, ranges => .ok ranges
  | n + 1, i, ranges => do
    let r := (← vget l.rayDirs i).projectTo2d
    match depth F p1 s r with
    | none => drawPart l p1 s n (i + 1) ranges
    | some d =>
      if 0 < d then drawPart l p1 s n (i + 1) (← RenderResult.renderPoint ranges i (roundE F.toF d))
      else drawPart l p1 s n (i + 1) ranges

open Classical in
/-- The squared distance of the origin to the segment, src/sensors/LaserRangeFinder.cpp:31-32,42-51. -/
noncomputable def distanceSq (p1 p2 : Vec2) : ℝ :=
  let diff := sub F p2 p1
  let t := F.rnd (dot F p1 diff / -length2 F diff)
  if t < 0 then length2 F p1 else if t > 1 then length2 F p2 else length2 F (add F p1 (scale F diff t))

open Classical in
/-- The two parts to draw, src/sensors/LaserRangeFinder.cpp:58-112: `none` if the line is omitted, otherwise the limits of
the two parts and the new `min_i` and `max_i`. -/
noncomputable def parts (l : LRF) (p1 p2 : Vec2) (res : RenderResult) :
    Exec (Option ((ℕ × ℕ) × (ℕ × ℕ) × (ℕ × ℕ))) := do
  let i1 ← getAngleUpperIndexRaw2 F l p1.x p1.y
  let i2 ← getAngleUpperIndexRaw2 F l p2.x p2.y
  let iMin := min i1 i2
  let iMax := max i1 i2
  if (← intOp (iMax - iMin)) < toInt32 l.iHalfCircle then
    if i1 > i2 then return none
    else if iMin ≥ toInt32 l.numBeams then return none
    else
      let a := (max 0 iMin).toNat
      let b := min l.numBeams (max 0 iMax).toNat
      return some ((a, b), (0, 0), (min res.minI a, max res.maxI b))
  else
    if i2 > i1 then return none
    else return some (((max 0 iMax).toNat, l.numBeams), (0, min l.numBeams (max 0 iMin).toNat), (0, l.numBeams))

open Classical in
/-- `RenderResult::renderLine`, src/sensors/LaserRangeFinder.cpp:29-138. -/
noncomputable def renderLine (l : LRF) (res : RenderResult) (p1 p2 : Vec2) : Exec RenderResult := do
  let diff := sub F p2 p1
  if (p1.x = 0 ∧ p1.y = 0) ∨ (p2.x = 0 ∧ p2.y = 0) ∨ length2 F diff = 0 then return res
  else if l.rangeMax > 0 ∧ distanceSq F p1 p2 > F.rnd (l.rangeMax * l.rangeMax) then return res
  else
    match ← parts F l p1 p2 res with
    | none => return res
    | some ((a1, b1), (a2, b2), (minI, maxI)) =>
      let ranges ← drawPart F l p1 diff (b1 - a1) a1 res.ranges
      let ranges ← drawPart F l p1 diff (b2 - a2) a2 ranges
      return ⟨minI, maxI, ranges⟩

/-- A crossing of an edge with the plane, src/sensors/LaserRangeFinder.cpp:230,231,235,236,243,244,248,249,257,258,262,263. -/
noncomputable def cut (p q : Vec2) (zp zq : ℝ) : Vec2 :=
  div F (add F (scale F p |zq|) (scale F q |zp|)) (F.rnd (|zp| + |zq|))

open Classical in
/-- The segment in which a triangle meets the plane, src/sensors/LaserRangeFinder.cpp:203-265; `none` if all vertices are
on the same side. The last `if` of the code is an alternative here, since exactly one of the three cases applies. -/
noncomputable def slice (p1 p2 p3 : Vec2) (z1 z2 z3 : ℝ) : Option (Vec2 × Vec2) :=
  let u1 := decide (z1 < 0)
  let u2 := decide (z2 < 0)
  let u3 := decide (z3 < 0)
  if u1 = u2 ∧ u2 = u3 then none
  else if u2 = u3 then
    if u2 then some (cut F p1 p3 z1 z3, cut F p1 p2 z1 z2) else some (cut F p1 p2 z1 z2, cut F p1 p3 z1 z3)
  else if u1 = u3 then
    if u1 then some (cut F p2 p1 z2 z1, cut F p2 p3 z2 z3) else some (cut F p2 p3 z2 z3, cut F p2 p1 z2 z1)
  else
    if u1 then some (cut F p3 p2 z3 z2, cut F p3 p1 z3 z1) else some (cut F p3 p1 z3 z1, cut F p3 p2 z3 z2)

/-- The transformed height of a vertex, src/sensors/LaserRangeFinder.cpp:187-191. -/
def height (pose : Transform3) (p : Vec3) : ℝ := F.rnd (Rounded.dot F.rnd (pose.R.getRow 2) p + pose.t.z)

/-- The transformed planar position of a vertex, src/sensors/LaserRangeFinder.cpp:193-194,211-213. -/
def planar (pose : Transform3) (p : Vec3) : Vec2 :=
  ⟨F.rnd (Rounded.dot F.rnd (pose.R.getRow 0) p + pose.t.x), F.rnd (Rounded.dot F.rnd (pose.R.getRow 1) p + pose.t.y)⟩

/-- The loop over triangles, src/sensors/LaserRangeFinder.cpp:197-270. -/
noncomputable def renderTriangles (l : LRF) (pose : Transform3) (points : List Vec3) :
    List TriI → RenderResult → Exec RenderResult
  | [], res => .ok res
  | t :: ts, res => do
    let a ← vget points t.i1
    let b ← vget points t.i2
    let c ← vget points t.i3
    match slice F (planar F pose a) (planar F pose b) (planar F pose c) (height F pose a) (height F pose b) (height F pose c) with
    | none => renderTriangles l pose points ts res
    | some (q1, q2) => renderTriangles l pose points ts (← renderLine F l res q1 q2)

open Classical in
/-- The early returns, src/sensors/LaserRangeFinder.cpp:166-181. -/
noncomputable def skips (l : LRF) (pose : Transform3) (maxRadius : ℝ) : Bool :=
  decide (maxRadius > 0 ∧ (|pose.t.z| > maxRadius ∨
    (Rounded.length2 F.rnd pose.t > F.rnd (maxRadius * maxRadius) ∧
      F.rnd (F.rnd (Real.sqrt (Rounded.length2 F.rnd pose.t)) - maxRadius) > l.rangeMax)))

/-- `LaserRangeFinder::render(RenderOptions, RenderResult)`, src/sensors/LaserRangeFinder.cpp:152-271; the radius of the mesh
(165) is an argument. -/
noncomputable def render (l : LRF) (mesh : Mesh) (maxRadius : ℝ) (pose : Transform3) (ranges : List EReal) :
    Exec RenderResult :=
  let res : RenderResult := ⟨0, u32 l.rayDirs.length, LRF.resizeRanges ranges l.rayDirs.length⟩
  if skips F l pose maxRadius then .ok res
  else renderTriangles F l pose mesh.points mesh.tris res

end RoundedLRF

end Geo
