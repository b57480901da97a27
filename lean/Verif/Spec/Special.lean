import Verif.Model.Special

/-!
# Specification of points with special coordinates
-/

namespace Geo.Spec

/-- All coordinates are numbers. (Specification.) -/
def FinitePoint (p : FVec) : Prop := ∃ x y z : ℝ, p = ⟨.fin x, .fin y, .fin z⟩

/-- Some coordinate is infinite. (Specification.) -/
def InfinitePoint (p : FVec) : Prop :=
  (p.x = .pinf ∨ p.x = .ninf) ∨ (p.y = .pinf ∨ p.y = .ninf) ∨ (p.z = .pinf ∨ p.z = .ninf)

/-- The number in whose place a special coordinate counts on an axis from `lo` to `hi`: NaN and negative infinity count as
`lo`, positive infinity as `hi`. (Specification.) -/
def standIn (lo hi : ℝ) : Fl → ℝ
  | .fin a => a
  | .pinf => hi
  | .ninf => lo
  | .nan => lo

end Geo.Spec
