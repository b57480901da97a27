import Verif.Model.LaserRangeFinder
import Mathlib.Order.Bounds.Basic

/-!
# Specification vocabulary for the laser range finder
-/

namespace Geo.Spec

/-- Beam angle number `i` of `n` beams equally spaced between two limits. (Specification.) -/
noncomputable def beamAngle (lo hi : ℝ) (n i : ℕ) : ℝ := lo + i * ((hi - lo) / (max (n - 1) 1 : ℕ))

/-- The angle limits after a history of setter calls: those of the last call that sets them. (Specification.) -/
def lastLimits (ops : List LRF.Op) : ℝ × ℝ :=
  ops.foldl (fun c o => match o with | .angleLimits a b => (a, b) | _ => c) (0, 0)

/-- The range limits after a history of setter calls. (Specification.) -/
def lastRange (ops : List LRF.Op) : ℝ × ℝ :=
  ops.foldl (fun c o => match o with | .rangeLimits a b => (a, b) | _ => c) (0, 0)

/-- The number of beams after a history of setter calls. (Specification.) -/
def lastBeams (ops : List LRF.Op) : ℕ := ops.foldl (fun c o => match o with | .numBeams n => n | _ => c) 0

/-- The tables of the sensor match its configuration: as many angles and unit directions as beams. (Specification.) -/
def TablesOk (l : LRF) : Prop :=
  l.angles.length = l.numBeams ∧ l.rayDirs.length = l.numBeams ∧
  ∀ i < l.numBeams, l.angles[i]? = some (beamAngle l.aMin l.aMax l.numBeams i) ∧
    l.rayDirs[i]? = some ⟨Real.cos (beamAngle l.aMin l.aMax l.numBeams i),
      Real.sin (beamAngle l.aMin l.aMax l.numBeams i), 0⟩

/-- A sensor configured through its setters with at least one beam and proper angle limits. (Specification.) -/
def Ready (l : LRF) : Prop := (∃ ops, LRF.new.run ops = .ok l) ∧ 0 < l.numBeams ∧ l.aMin < l.aMax

/-- The angle between neighbouring beams. (Specification.) -/
noncomputable def spacing (l : LRF) : ℝ := (l.aMax - l.aMin) / (max (l.numBeams - 1) 1 : ℕ)

/-- Direction of an angle in the plane. (Specification.) -/
noncomputable def dir (a : ℝ) : Vec2 := ⟨Real.cos a, Real.sin a⟩

/-- `q` is the point of the segment with parameter `t`. (Specification.) -/
def AtParam (p1 p2 : Vec2) (t : ℝ) (q : Vec2) : Prop :=
  q.x = p1.x + t * (p2.x - p1.x) ∧ q.y = p1.y + t * (p2.y - p1.y)

/-- `q` lies on the segment. (Specification.) -/
def OnSeg (p1 p2 q : Vec2) : Prop := ∃ t, 0 ≤ t ∧ t ≤ 1 ∧ AtParam p1 p2 t q

/-- What a beam with the earlier value `old` (0: nothing) has to show after the depths in `ds` were rendered.
(Specification.) -/
def IsNearest (old : EReal) (ds : Set EReal) (new : EReal) : Prop :=
  (ds = ∅ → new = old) ∧ (ds.Nonempty → IsLeast (ds ∪ {d | d = old ∧ old ≠ 0}) new)

/-- A ready sensor whose beams lie within one turn from -pi to pi and are not closer than the index type allows (about
3e-9 rad). (Specification.) -/
structure Fine (l : LRF) : Prop where
  ready : Ready l
  lo : -Real.pi ≤ l.aMin
  hi : l.aMax ≤ Real.pi
  steps : 2 * Real.pi < (2 ^ 31 - 1) * spacing l

/-- The line through two points. (Specification.) -/
def OnLine (p1 p2 q : Vec2) : Prop := ∃ t, AtParam p1 p2 t q

/-- The end points are fewer steps of the beam grid apart than fit into half a turn. (Specification.) -/
def OnePart (l : LRF) (p1 p2 : Vec2) : Prop :=
  |⌊(atan2 p2.y p2.x - l.aMin) / spacing l⌋ - ⌊(atan2 p1.y p1.x - l.aMin) / spacing l⌋| < ⌊Real.pi / spacing l⌋

/-- Points of a triangle given by planar positions and heights that are at height 0. (Specification.) -/
def InSection (p1 p2 p3 : Vec2) (z1 z2 z3 : ℝ) (q : Vec2) : Prop :=
  ∃ a b c : ℝ, 0 ≤ a ∧ 0 ≤ b ∧ 0 ≤ c ∧ a + b + c = 1 ∧ a * z1 + b * z2 + c * z3 = 0 ∧
    q.x = a * p1.x + b * p2.x + c * p3.x ∧ q.y = a * p1.y + b * p2.y + c * p3.y

/-- `r` is the point at height 0 of an edge given by planar positions and heights. (Specification.) -/
def OnEdge (p q : Vec2) (zp zq : ℝ) (r : Vec2) : Prop :=
  ∃ t, 0 ≤ t ∧ t ≤ 1 ∧ AtParam p q t r ∧ (1 - t) * zp + t * zq = 0

/-- A range may stay, become positive after being 0 (nothing seen), or become smaller but stay positive. (Specification.) -/
def Improves (old new : EReal) : Prop := new = old ∨ (0 < new ∧ (old = 0 ∨ new < old))

/-- A point strictly inside a triangle. (Specification.) -/
def InsideTriangle (A B C X : Vec3) : Prop :=
  ∃ a b c : ℝ, 0 < a ∧ 0 < b ∧ 0 < c ∧ a + b + c = 1 ∧ X.x = a * A.x + b * B.x + c * C.x ∧
    X.y = a * A.y + b * B.y + c * C.y ∧ X.z = a * A.z + b * B.z + c * C.z

/-- The origin is on the outer side of a counter-clockwise triangle: the normal has an obtuse angle with the vector from the
origin. (Specification.) -/
def FacesOrigin (A B C : Vec3) : Prop :=
  ((B.y - A.y) * (C.z - A.z) - (B.z - A.z) * (C.y - A.y)) * A.x +
  ((B.z - A.z) * (C.x - A.x) - (B.x - A.x) * (C.z - A.z)) * A.y +
  ((B.x - A.x) * (C.y - A.y) - (B.y - A.y) * (C.x - A.x)) * A.z < 0

/-- A posed triangle with valid indices. (Specification.) -/
def PosedTriangle (T : Transform3) (points : List Vec3) (t : TriI) (A B C : Vec3) : Prop :=
  ∃ a b c, points[t.i1]? = some a ∧ points[t.i2]? = some b ∧ points[t.i3]? = some c ∧
    A = T.apply a ∧ B = T.apply b ∧ C = T.apply c

end Geo.Spec
