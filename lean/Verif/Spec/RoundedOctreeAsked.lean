import Verif.Model.RoundedOctreeAsked

/-!
# Specification of octrees that are asked between additions
-/

namespace Geo.Spec
open Rounded

/-- The additions and clearings among calls. (Specification.) -/
def changes : List OctCall → List (Option Vec3)
  | [] => []
  | .add p :: os => some p :: changes os
  | .clear :: os => none :: changes os
  | .getMesh :: os => changes os
  | .getBoundingBox :: os => changes os

end Geo.Spec
