import Verif.Model.Composite
import Verif.Model.HeightMap

/-!
# Height maps as parts of composites
-/

namespace Geo

/-- A `HeightMap` seen as a `Shape`, include/geolib/HeightMap.h:16-59: of the virtual methods used by composites it overrides the
ray query only. -/
noncomputable def HeightMap.toObj (h : HeightMap) : ShapeObj :=
  { (⟨h.mesh, false, 0, 0⟩ : Shape).toObj with ray := fun r t0 t1 d => .ok (h.intersectRay r t0 t1 d) }

end Geo
