import Verif.Spec.DepthCamera
import Verif.Spec.Rounded

/-!
# Specification vocabulary for the rasteriser in floating point arithmetic
-/

namespace Geo.Spec

/-- Pixel `(x, y)` belongs to a place of the snapped triangle in row `y`, up to a shift of at most `e` along the row.
(Specification.) -/
def Touched (e : ℝ) (p1 p2 p3 : Vec3) (x y : ℤ) : Prop :=
  ∃ u d v, InSnapped p1 p2 p3 u y d ∧ |v - u| ≤ e ∧ trunc v = x

/-- Pixel `(x, y)` belongs to a place of the snapped triangle in row `y` and to all places within `e` of it in the row.
(Specification.) -/
def Covered (e : ℝ) (p1 p2 p3 : Vec3) (x y : ℤ) : Prop :=
  ∃ u d, InSnapped p1 p2 p3 u y d ∧ ∀ v, |v - u| ≤ e → trunc v = x

/-- Points at most `K` off the axis of a camera, and the points where edges between them are cut off, project into the range of
`Small`, if they are in front of the near plane, with room for rounding errors. (Specification.) -/
def Modest (c : Camera) (K : ℝ) : Prop :=
  11 * (4 * |c.fx| * K + |c.Tx|) + 2 * |c.cx| < 2 ^ 30 ∧ 11 * (4 * |c.fy| * K + |c.Ty|) + 2 * |c.cy| < 2 ^ 30

end Geo.Spec
