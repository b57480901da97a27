import Verif.Model.Conversions
import Verif.Spec.Math

/-!
# Specification vocabulary for messages
-/

namespace Geo.Spec

/-- A number with a significand of at most `bits` bits; the exponent is not restricted. (Specification.) -/
def Binary (bits : ℕ) (x : ℝ) : Prop := ∃ m e : ℤ, |m| < 2 ^ bits ∧ x = m * (2 : ℝ) ^ e

/-- A conversion from `double` to `float`: its results are `float`s, and `float`s are not changed. (Specification.) -/
def Narrows (narrow : ℝ → ℝ) : Prop := (∀ x, Binary 24 (narrow x)) ∧ ∀ x, Binary 24 x → narrow x = x

end Geo.Spec
