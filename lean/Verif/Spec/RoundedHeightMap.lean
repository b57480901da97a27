import Verif.Spec.HeightMap
import Verif.Spec.RoundedMesh

/-!
# Specification vocabulary for height maps in floating point arithmetic
-/

namespace Geo.Spec

/-- A point with rounded horizontal coordinates. (Specification.) -/
def flat (rnd : ℝ → ℝ) (p : Vec3) : Vec3 := ⟨rnd p.x, rnd p.y, p.z⟩

/-- Any two heights, counting 0 as one, are equal or at least `2e-10` apart. (Specification.) -/
def HeightsApart (grid : List (List ℝ)) : Prop :=
  ∀ a b, (a = 0 ∨ ∃ row ∈ grid, a ∈ row) → (b = 0 ∨ ∃ row ∈ grid, b ∈ row) → a = b ∨ 2e-10 ≤ |a - b|

/-- At most 2^32 / 12 corners of cells, and all corners can be merged: coordinates and heights, rounded up to twice, are below `2^31` mm.
(Specification.) -/
def RoundedGridInRange (u : ℝ) (grid : List (List ℝ)) (m n : ℕ) (res : ℝ) : Prop :=
  12 * ((m + 1) * (n + 1)) ≤ 2 ^ 32 ∧
  (∀ x y : ℕ, x ≤ m → y ≤ n → (1 + u) * ((1 + u) * |1000 * (res * x)|) < 2 ^ 31 ∧ (1 + u) * ((1 + u) * |1000 * (res * y)|) < 2 ^ 31) ∧
  ∀ x y, (1 + u) * |1000 * height grid x y| < 2 ^ 31

end Geo.Spec
