import Verif.Spec.Shape

/-!
# Probes that pass clear of a mesh
-/

namespace Geo.Spec

/-- The probe that the containment test of the mesh sends from `p` has a clear relation to every triangle and passes no corner.
(Specification.) -/
def ProbeClear (m : Mesh) (p : Vec3) : Prop :=
  ∃ ts r, soup m.points m.tris = some ts ∧ IsRadius m.points r ∧ (∀ t ∈ ts, Clear p ⟨1.1 * r, 0, 0⟩ t) ∧
    ∀ x ∈ m.tris.zip ts, ∀ i, contact p ⟨1.1 * r, 0, 0⟩ x ≠ some (.vertex i)

end Geo.Spec
