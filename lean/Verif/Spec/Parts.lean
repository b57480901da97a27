import Verif.Model.Parts
import Verif.Spec.HeightMap
import Verif.Spec.Composite
import Verif.Spec.Box

/-!
# Parts of composites whose ray queries are sound
-/

namespace Geo.Spec

/-- The posed part is a box, or a height map in whose frame the ray points towards larger x and y. (Specification.) -/
def EasyPart (r : Ray) (x : ShapeObj × Transform3) : Prop :=
  (∃ lo hi, x.1 = (Box.new lo hi).toObj) ∨
  ∃ grid m n res h u, Rectangular grid m n ∧ 0 < m ∧ GridInRange grid m n res ∧ 0 ≤ res ∧ HeightMap.fromGrid grid res = .ok h ∧
    x.1 = h.toObj ∧ UnitAlong (x.2.inverse.R.mulVec r.direction) u ∧ 1e-9 ≤ u.x ∧ 1e-9 ≤ u.y ∧ 1e-9 ≤ |u.z|

end Geo.Spec
