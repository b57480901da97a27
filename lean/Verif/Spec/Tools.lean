import Verif.Model.Tools
import Verif.Spec.HeightMap

/-!
# Specification vocabulary for the tools
-/

namespace Geo.Spec

open Tools

/-- The parameters after the file names as the usage messages have them: `RESOLUTION [BLOCK_HEIGHT] [ORIGIN_X ORIGIN_Y]`, with
block height 1 and origin (0, 0) if not given. (Specification.) -/
inductive Meant (atof : List Char → ℝ) : List (List Char) → Options → Prop
  | resolution (a : List Char) : Meant atof [a] ⟨atof a, 1, 0, 0⟩
  | height (a b : List Char) : Meant atof [a, b] ⟨atof a, atof b, 0, 0⟩
  | origin (a b x y : List Char) : Meant atof [a, b, x, y] ⟨atof a, atof b, atof x, atof y⟩

/-- The grid holds the heights of the picture: columns of the picture are rows of the grid, the lowest row of pixels comes first,
white is 0 and black the full height. (Specification.) -/
def Pictures (img : GreyImage) (full : ℝ) (grid : List (List ℝ)) : Prop :=
  Rectangular grid img.cols img.rows ∧
  ∀ x y, x < img.cols → y < img.rows → height grid x y = full * (1 - (img.data (img.rows - 1 - y) x).toNat / 255)

/-- The picture is small enough for the index and rounding types of the mesh. (Specification.) -/
def PictureInRange (img : GreyImage) (o : Options) : Prop :=
  0 < img.rows ∧ 0 < img.cols ∧ 12 * ((img.cols + 1) * (img.rows + 1)) ≤ 2 ^ 32 ∧
  1000 * |o.resolution| * img.cols < 2 ^ 31 ∧ 1000 * |o.resolution| * img.rows < 2 ^ 31 ∧ 1000 * |o.blockHeight| < 2 ^ 31

end Geo.Spec
