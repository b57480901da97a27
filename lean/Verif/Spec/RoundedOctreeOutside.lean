import Verif.Spec.RoundedOctree

/-! # Specification vocabulary for points outside of octrees -/

namespace Geo.Spec

/-- The point of the cube of edge length `size` about the origin that is nearest to `p`. (Specification.) -/
noncomputable def clampTo (size : ℝ) (p : Vec3) : Vec3 :=
  ⟨max (-size / 2) (min p.x (size / 2)), max (-size / 2) (min p.y (size / 2)), max (-size / 2) (min p.z (size / 2))⟩

end Geo.Spec
