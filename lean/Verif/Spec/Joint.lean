import Verif.Spec.LaserRangeFinder
import Verif.Spec.DepthCamera
import Verif.Spec.Composite

/-!
# Specification vocabulary for sensors that see several objects
-/

namespace Geo.Spec

/-- Calls of the laser's `render` one after another for objects with their poses, with the same ranges. (Specification.) -/
noncomputable def scanAll (l : LRF) : List (Mesh × Transform3) → List EReal → Exec (List EReal)
  | [], ranges => .ok ranges
  | x :: xs, ranges => do
    let r ← l.render x.1 x.2 ranges
    scanAll l xs r.ranges

/-- Calls of `rasterize` one after another for objects with their poses, with the same image, pointer and maps.
(Specification.) -/
noncomputable def paintAll (c : Camera) : List (Mesh × Transform3) → DefaultResult → Exec DefaultResult
  | [], r => .ok r
  | x :: xs, r => do
    let r ← rasterize c x.1 x.2 r.image r.pointerMap r.pointer r.triangleMap
    paintAll c xs r

/-- The depths other than 0 that beam `j` shows if the objects are drawn alone. (Specification.) -/
def SingleDepths (l : LRF) (xs : List (Mesh × Transform3)) (j : ℕ) : Set EReal :=
  {d | d ≠ 0 ∧ ∃ x ∈ xs, ∃ s, l.render x.1 x.2 [] = .ok s ∧ s.ranges[j]? = some d}

/-- The parts of a composite with their poses as seen from the sensor, if the composite has the pose `T`.
(Specification.) -/
def partsIn (T : Transform3) (parts : List (ShapeObj × Transform3)) : List (Mesh × Transform3) :=
  parts.map fun x => (x.1.mesh, T.mul x.2)

/-- Two outcomes are the same error or results with the same image and the same pointer map. (Specification.) -/
def SamePicture : Exec DefaultResult → Exec DefaultResult → Prop
  | .ok r, .ok r' => r.image = r'.image ∧ r.pointerMap = r'.pointerMap
  | .error e, .error e' => e = e'
  | _, _ => False

end Geo.Spec
