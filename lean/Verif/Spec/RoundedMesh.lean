import Verif.Spec.Mesh
import Verif.Spec.Rounded

/-! # What merging points may do to coordinates in floating point arithmetic -/

namespace Geo.Spec

/-- A coordinate stays in the range of `int` after scaling by 1000 and a relative error `u`. (Specification.) -/
def RoundedIntRange (u : ℝ) (p : Vec3) : Prop :=
  (1 + u) * |1000 * p.x| < 2 ^ 31 ∧ (1 + u) * |1000 * p.y| < 2 ^ 31 ∧ (1 + u) * |1000 * p.z| < 2 ^ 31

/-- A coordinate has moved within one rounded cell: by less than 2 mm, and by less than 1 mm if it is clearly at least 1 mm in
magnitude, up to the rounding of both coordinates. (Specification.) -/
def CellMove (u x y : ℝ) : Prop :=
  |x - y| < 2 / 1000 + u * (|x| + |y|) ∧ (1 / 1000 ≤ |x| - u * |x| → |x - y| < 1 / 1000 + u * (|x| + |y|))

/-- A point has moved within one rounded cell. (Specification.) -/
def CellMove3 (u : ℝ) (p q : Vec3) : Prop := CellMove u p.x q.x ∧ CellMove u p.y q.y ∧ CellMove u p.z q.z

/-- A coordinate in millimetres is farther from every integer except zero than the rounding of the scaling. (Specification.) -/
def ClearOfBorders (u x : ℝ) : Prop := ∀ k : ℤ, k ≠ 0 → u * |1000 * x| < |1000 * x - k|

/-- Two points are put in one cell by truncating the rounded products. (Specification.) -/
def SameRoundedCell (rnd : ℝ → ℝ) (p q : Vec3) : Prop :=
  trunc (rnd (1000 * p.x)) = trunc (rnd (1000 * q.x)) ∧ trunc (rnd (1000 * p.y)) = trunc (rnd (1000 * q.y)) ∧
    trunc (rnd (1000 * p.z)) = trunc (rnd (1000 * q.z))

end Geo.Spec
