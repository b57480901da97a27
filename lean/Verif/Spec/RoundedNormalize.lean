import Verif.Spec.Rounded

/-!
# Specification vocabulary for normalisation in floating point arithmetic
-/

namespace Geo.Spec

/-- The rounding does not depend on the exponent. (Specification.) -/
def ScaleFree (rnd : ℝ → ℝ) : Prop := ∀ (k : ℤ) (x : ℝ), rnd (2 ^ k * x) = 2 ^ k * rnd x

/-- The columns of `m` are those of `R`, stretched by positive factors. (Specification.) -/
def Stretched (R m : Mat3) (s : Fin 3 → ℝ) : Prop := (∀ j, 0 < s j) ∧ ∀ i j, M m i j = s j * M R i j

/-- The columns of a matrix have length one. (Specification.) -/
def UnitColumns (R : Mat3) : Prop := ∀ j, M R 0 j ^ 2 + M R 1 j ^ 2 + M R 2 j ^ 2 = 1

end Geo.Spec
