import Verif.Model.Composite

/-!
# Specification of sphere tests as a function of the radius (C105)
-/

namespace Geo.Spec

/-- A sphere test about a fixed centre, as a function of the radius: it gives an answer for every radius, a hit is not lost when the
sphere grows, and for radius 0 the answer is `atCentre`, that of the point test at the centre. (Specification.) -/
structure Grows (test : ℝ → Exec Bool) (atCentre : Exec Bool) : Prop where
  answers : ∀ r, ∃ b, test r = .ok b
  grows : ∀ r r', r ≤ r' → test r = .ok true → test r' = .ok true
  zero : test 0 = atCentre

end Geo.Spec
