import Verif.Spec.Math

/-!
# Specification vocabulary for poses in floating point arithmetic
-/

namespace Geo.Spec

open Matrix

/-- A rounding with relative error at most `u`. (Specification.) -/
def RelErr (u : ℝ) (rnd : ℝ → ℝ) : Prop := ∀ x, |rnd x - x| ≤ u * |x|

/-- The columns are orthonormal up to `δ`. (Specification.) -/
def NearlyOrthogonal (δ : ℝ) (R : Mat3) : Prop := ∀ i j, |((M R)ᵀ * M R - 1) i j| ≤ δ

/-- The length of a vector. (Specification.) -/
noncomputable def len (f : Fin 3 → ℝ) : ℝ := Real.sqrt (∑ i, f i ^ 2)

end Geo.Spec
