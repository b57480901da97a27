import Verif.Spec.Composite
import Verif.Spec.Rounded

/-!
# Specification vocabulary for composites in floating point arithmetic
-/

namespace Geo.Spec

/-- A part that a composite can hold: a proper mesh within `ρ` of the origin of the part, a nearly orthogonal pose with a
translation of at most `τ`, and queries that do not fail. (Specification.) -/
structure PartOk (δ ρ τ : ℝ) (x : ShapeObj × Transform3) : Prop where
  good : GoodMesh x.1.mesh
  orth : NearlyOrthogonal δ x.2.R
  near : ∀ c ∈ cornersOf (trianglesOf x.1.mesh), len (V c) ≤ ρ
  shift : len (V x.2.t) ≤ τ
  total : ∀ q R, (∃ b, x.1.contains q = .ok b) ∧ (∃ b, x.1.sphere q R = .ok b)

end Geo.Spec
