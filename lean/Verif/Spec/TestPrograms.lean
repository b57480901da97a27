import Verif.Model.TestPrograms
import Verif.Spec.Scan

/-!
# Specification vocabulary for the pictures of the test programs
-/

namespace Geo.Spec

/-- Where the picture of `test_geolib_lrf` shows a place on the floor: 100 pixels per metre, the sensor at (50, 250), the second
coordinate pointing down. (Specification.) -/
def onPicture (X Y : ℝ) : ℝ × ℝ := (50 + 100 * X, 250 - 100 * Y)

/-- A pixel is less than `d` off a point of the picture in each coordinate. (Specification.) -/
def NearPixel (d : ℝ) (q : ℤ × ℤ) (p : ℝ × ℝ) : Prop := |(q.1 : ℝ) - p.1| < d ∧ |(q.2 : ℝ) - p.2| < d

/-- Where the picture shows the place `(a, b)` of an object that stands at `(x, y)`, turned by `yaw`. (Specification.) -/
noncomputable def placed (x y yaw a b : ℝ) : ℝ × ℝ :=
  onPicture (x + (Real.cos yaw * a - Real.sin yaw * b)) (y + (Real.sin yaw * a + Real.cos yaw * b))

/-- The pixel of row `i` and column `j` shows the point `p` of a scan, 25 pixels per metre, the sensor in the middle of the picture,
x up and y to the left. (Specification.) -/
def ShowsPoint (rows cols : ℕ) (p : Vec3) (i j : ℕ) : Prop :=
  (i : ℝ) ≤ (rows / 2 : ℕ) - 25 * p.x ∧ (rows / 2 : ℕ) - 25 * p.x < i + 1 ∧
  (j : ℝ) ≤ (cols / 2 : ℕ) - 25 * p.y ∧ (cols / 2 : ℕ) - 25 * p.y < j + 1

/-- The pixel of row `i` and column `j` shows the end of a beam with the angle `a` and the range `r`, 25 pixels per metre, the sensor in
the middle of the picture, x to the right and y down. (Specification.) -/
def ShowsEnd (rows cols : ℕ) (a r : ℝ) (i j : ℕ) : Prop :=
  (i : ℝ) ≤ (rows / 2 : ℕ) + 25 * (r * Real.sin a) ∧ (rows / 2 : ℕ) + 25 * (r * Real.sin a) < i + 1 ∧
  (j : ℝ) ≤ (cols / 2 : ℕ) + 25 * (r * Real.cos a) ∧ (cols / 2 : ℕ) + 25 * (r * Real.cos a) < j + 1

/-- How many cells a cell of a square grid is away from the nearest side. (Specification.) -/
def ring (n a b : ℕ) : ℕ := min (min a b) (min (n - 1 - a) (n - 1 - b))

end Geo.Spec
