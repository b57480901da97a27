import Verif.Model.RoundedLaser
import Verif.Spec.LaserRangeFinder
import Verif.Spec.Rounded

/-!
# Specification vocabulary for the laser range finder in floating point arithmetic
-/

namespace Geo.Spec

/-- Every operation has relative error at most `u`, the conversion to `float` at most `v`, and a library function is off by at
most twice as much as one operation. (Specification.) -/
structure Accurate (u v : ℝ) (F : FloatLib) : Prop where
  rnd : RelErr u F.rnd
  toF : RelErr v F.toF
  cos : ∀ a, |F.cos a - Real.cos a| ≤ 2 * u
  sin : ∀ a, |F.sin a - Real.sin a| ≤ 2 * u
  atan2 : ∀ y x, |F.atan2 y x - atan2 y x| ≤ 2 * u * |atan2 y x|
  pi : |F.pi - Real.pi| ≤ 2 * u * Real.pi

/-- The error of an entry in the table of angles. (Specification.) -/
noncomputable def beamErr (u lo hi : ℝ) (i : ℕ) : ℝ := u * (2 * i + 5) * max |lo| |hi|

/-- The error of a coordinate of an entry in the table of directions. (Specification.) -/
noncomputable def dirErr (u lo hi : ℝ) (i : ℕ) : ℝ := beamErr u lo hi i + 4 * u

/-- A sensor configured through its setters in the given arithmetic, with limits about a turn at most, beams that are not
closer than the index type allows, and not more beams than the rounding allows. (Specification.) -/
structure RoundedFine (u : ℝ) (F : FloatLib) (l : LRF) : Prop where
  setters : ∃ ops, RoundedLRF.run F LRF.new ops = .ok l
  beams : 0 < l.numBeams
  order : l.aMin < l.aMax
  lo : -4 ≤ l.aMin
  hi : l.aMax ≤ 4
  few : l.numBeams * u ≤ 1 / 1000
  steps : 8 ≤ (2 ^ 31 - 3) * spacing l

/-- How far the depth of a beam may be off: `p` bounds the coordinates of the first end point, `η` the error of the direction,
`d` is the depth and `κ` tells how far the beam is from being parallel to the line. (Specification.) -/
noncomputable def depthErr (u v η p κ d : ℝ) : ℝ := (7 * u * p + 5 * η * |d|) / κ + 2 * v * |d|

end Geo.Spec
