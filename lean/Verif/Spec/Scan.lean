import Verif.Spec.LaserRangeFinder
import Verif.Spec.Box
import Verif.Spec.Shape

/-!
# Specification vocabulary for scans and ray tests of the same object
-/

namespace Geo.Spec

/-- In the frame of an object with pose `T` (seen from the sensor) the beam with angle `a` starts at `o` and goes in the
direction `u`. (Specification.) -/
def BeamIn (T : Transform3) (a : ℝ) (o u : Vec3) : Prop :=
  ∀ t : ℝ, T.apply (along o u t) = ⟨t * Real.cos a, t * Real.sin a, 0⟩

/-- The points of a set that the pose puts into the plane of the sensor are seen at angles from `a` to `b`.
(Specification.) -/
def SeenWithin (T : Transform3) (X : Vec3 → Prop) (a b : ℝ) : Prop :=
  ∀ p, X p → (T.apply p).z = 0 → a ≤ atan2 (T.apply p).y (T.apply p).x ∧ atan2 (T.apply p).y (T.apply p).x ≤ b

/-- A point of some triangle. (Specification.) -/
def OnSurface (ts : List (Vec3 × Vec3 × Vec3)) (p : Vec3) : Prop := ∃ t ∈ ts, InTri t p

open Classical in
/-- What a beam with the earlier value `old` (0: nothing) shows after an object at distance `d` was drawn.
(Specification.) -/
noncomputable def nearer (old d : EReal) : EReal := if old = 0 then d else min old d

end Geo.Spec
