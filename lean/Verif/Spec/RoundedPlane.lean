import Verif.Spec.Rounded

/-!
# Specification vocabulary for poses in the plane in floating point arithmetic
-/

namespace Geo.Spec

/-- The columns of a matrix in the plane are orthonormal up to `δ`. (Specification.) -/
def NearlyOrthogonal2 (δ : ℝ) (R : Mat2) : Prop :=
  |R.xx ^ 2 + R.yx ^ 2 - 1| ≤ δ ∧ |R.xy ^ 2 + R.yy ^ 2 - 1| ≤ δ ∧ |R.xx * R.xy + R.yx * R.yy| ≤ δ

/-- The distance of two points of the plane. (Specification.) -/
noncomputable def dist2 (p q : Vec2) : ℝ := Real.sqrt ((p.x - q.x) ^ 2 + (p.y - q.y) ^ 2)

/-- The distance of a point of the plane from the origin. (Specification.) -/
noncomputable def norm2 (p : Vec2) : ℝ := Real.sqrt (p.x ^ 2 + p.y ^ 2)

/-- The rounding leaves one alone, and rounding twice is rounding once. (Specification.) -/
def Idempotent (rnd : ℝ → ℝ) : Prop := rnd 1 = 1 ∧ ∀ x, rnd (rnd x) = rnd x

/-- A rotation by an angle followed by a translation. (Specification.) -/
noncomputable def turned (a : ℝ) (t p : Vec2) : Vec2 :=
  ⟨Real.cos a * p.x - Real.sin a * p.y + t.x, Real.sin a * p.x + Real.cos a * p.y + t.y⟩

end Geo.Spec
