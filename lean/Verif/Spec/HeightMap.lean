import Verif.Model.HeightMap
import Verif.Spec.Composite

/-!
# Specification vocabulary for height maps: grids as functions of cell coordinates, columns as boxes.
-/

namespace Geo.Spec

/-- The grid is rectangular: `m` rows of `n` values. (Specification.) -/
def Rectangular (grid : List (List ℝ)) (m n : ℕ) : Prop := grid.length = m ∧ ∀ row ∈ grid, row.length = n

/-- The value of a cell, 0 outside the grid. (Specification.) -/
def height (grid : List (List ℝ)) (x y : ℕ) : ℝ := (grid.getD x []).getD y 0

/-- Sizes and coordinates small enough for the index and rounding types of the mesh: fewer than 2^32 vertices,
and scaled coordinates that fit an `int`. (Specification.) -/
def GridInRange (grid : List (List ℝ)) (m n : ℕ) (res : ℝ) : Prop :=
  12 * ((m + 1) * (n + 1)) ≤ 2 ^ 32 ∧
  (∀ x y : ℕ, x ≤ m → y ≤ n → |1000 * (res * x)| < 2 ^ 31 ∧ |1000 * (res * y)| < 2 ^ 31) ∧
  ∀ x y, |1000 * height grid x y| < 2 ^ 31

/-- The solid column above a cell: `[x, x+1] × [y, y+1]` scaled by the resolution, from 0 up to the height.
(Specification.) -/
def columnLo (res : ℝ) (c : ℕ × ℕ) : Vec3 := ⟨c.1 * res, c.2 * res, 0⟩
/-- See `columnLo`. (Specification.) -/
def columnHi (res : ℝ) (grid : List (List ℝ)) (c : ℕ × ℕ) : Vec3 :=
  ⟨(c.1 + 1) * res, (c.2 + 1) * res, height grid c.1 c.2⟩

/-- The boxes of the occupied nodes, in the order of the tree. (Specification.) -/
def leaves : HNode → List Box
  | .null => []
  | .node b true _ => [b]
  | .node _ false ch => leaves (ch 0) ++ leaves (ch 1) ++ leaves (ch 2) ++ leaves (ch 3)

/-- Box of a node, if there is a node. (Specification.) -/
def boxOf : HNode → Option Box
  | .null => none
  | .node b _ _ => some b

/-- Boxes of nodes are proper, and contain those of their children. (Specification.) -/
def Nested : HNode → Prop
  | .null => True
  | .node b _ ch => Proper b.lo b.hi ∧ ∀ i, Nested (ch i) ∧
      ∀ b', boxOf (ch i) = some b' → InBox b.lo b.hi b'.lo ∧ InBox b.lo b.hi b'.hi

/-- A rectangle of the surface of a height map, in cell coordinates: the top at height `h` over
`[x0, x1] × [y0, y1]`; a wall on the line `x` from `y0` to `y1`, between the height `h` on the side of larger x
and `h2` on the other; a wall on the line `y` from `x0` to `x1`, between the height `h` on the side of larger y
and `h2` on the other. (Specification.) -/
inductive Face where
  | top (x0 y0 x1 y1 : ℕ) (h : ℝ)
  | wallX (x y0 y1 : ℕ) (h h2 : ℝ)
  | wallY (y x0 x1 : ℕ) (h h2 : ℝ)

/-- The two triangles of a rectangle. (Specification.) -/
def Face.tris (res : ℝ) : Face → List (Vec3 × Vec3 × Vec3)
  | .top x0 y0 x1 y1 h =>
    [(⟨res * x0, res * y0, h⟩, ⟨res * x1, res * y0, h⟩, ⟨res * x0, res * y1, h⟩),
     (⟨res * x1, res * y0, h⟩, ⟨res * x1, res * y1, h⟩, ⟨res * x0, res * y1, h⟩)]
  | .wallX x y0 y1 h h2 =>
    [(⟨res * x, res * y1, h⟩, ⟨res * x, res * y0, h2⟩, ⟨res * x, res * y0, h⟩),
     (⟨res * x, res * y0, h2⟩, ⟨res * x, res * y1, h⟩, ⟨res * x, res * y1, h2⟩)]
  | .wallY y x0 x1 h h2 =>
    [(⟨res * x0, res * y, h2⟩, ⟨res * x1, res * y, h⟩, ⟨res * x0, res * y, h⟩),
     (⟨res * x1, res * y, h⟩, ⟨res * x0, res * y, h2⟩, ⟨res * x1, res * y, h2⟩)]

/-- The top rectangle lies in the grid and all its cells have its height, up to 1e-10; it can be extended neither in x nor,
along its first column, in y. (Specification.) -/
def GoodTop (grid : List (List ℝ)) (m n : ℕ) : Face → Prop
  | .top x0 y0 x1 y1 h => x0 < x1 ∧ x1 ≤ m ∧ y0 < y1 ∧ y1 ≤ n ∧ h = height grid x0 y0 ∧ 0 < h ∧
      (∀ x y, x0 ≤ x → x < x1 → y0 ≤ y → y < y1 → |height grid x y - h| ≤ 1e-10) ∧
      (x1 = m ∨ ∃ y, y0 ≤ y ∧ y < y1 ∧ 1e-10 < |height grid x1 y - h|) ∧
      (y1 = n ∨ 1e-10 ≤ |height grid x0 y1 - h|)
  | _ => False

/-- The rectangle is a top and covers the cell. (Specification.) -/
def Face.Covers : Face → ℕ → ℕ → Prop
  | .top x0 y0 x1 y1 _, x, y => x0 ≤ x ∧ x < x1 ∧ y0 ≤ y ∧ y < y1
  | _, _, _ => False

/-- The second rectangle starts at a later cell than the first (in the order by x, then y), which the first does not cover.
(Specification.) -/
def Face.StartsOutside : Face → Face → Prop
  | .top a b c d h, .top x y _ _ _ => (a < x ∨ a = x ∧ b < y) ∧ ¬ (Face.top a b c d h).Covers x y
  | _, _ => True

/-- Height before the cell in x direction, 0 before the first. (Specification.) -/
def heightLeft (grid : List (List ℝ)) (x y : ℕ) : ℝ := if x = 0 then 0 else height grid (x - 1) y
/-- Height before the cell in y direction, 0 before the first. (Specification.) -/
def heightBelow (grid : List (List ℝ)) (x y : ℕ) : ℝ := if y = 0 then 0 else height grid x (y - 1)

/-- The wall lies on a line of constant x in the grid and its heights are those of the last pair of neighbouring
cells along it. (Specification.) -/
def WallXIn (grid : List (List ℝ)) (m n : ℕ) : Face → Prop
  | .wallX x y0 y1 h h2 => x ≤ m ∧ y0 < y1 ∧ y1 ≤ n ∧ h = height grid x (y1 - 1) ∧ h2 = heightLeft grid x (y1 - 1)
  | _ => False

/-- The same for lines of constant y. (Specification.) -/
def WallYIn (grid : List (List ℝ)) (m n : ℕ) : Face → Prop
  | .wallY y x0 x1 h h2 => y ≤ n ∧ x0 < x1 ∧ x1 ≤ m ∧ h = height grid (x1 - 1) y ∧ h2 = heightBelow grid (x1 - 1) y
  | _ => False

/-- The wall stands between cell `(x, y)` and its neighbour at smaller x. (Specification.) -/
def Face.AtX : Face → ℕ → ℕ → Prop
  | .wallX x' y0 y1 _ _, x, y => x' = x ∧ y0 ≤ y ∧ y < y1
  | _, _, _ => False

/-- The wall stands between cell `(x, y)` and its neighbour at smaller y. (Specification.) -/
def Face.AtY : Face → ℕ → ℕ → Prop
  | .wallY y' x0 x1 _ _, x, y => y' = y ∧ x0 ≤ x ∧ x < x1
  | _, _, _ => False

/-- The two heights of a wall. (Specification.) -/
def Face.wallHeights : Face → ℝ × ℝ
  | .wallX _ _ _ h h2 => (h, h2)
  | .wallY _ _ _ h h2 => (h, h2)
  | .top _ _ _ _ h => (h, h)

/-- `W` is, one wall each, exactly the steps between a cell and its neighbour at smaller x, reaching between the two
heights. (Specification.) -/
def WallsX (grid : List (List ℝ)) (W : List Face) : Prop :=
  (∀ f ∈ W, ∀ x y, f.AtX x y → f.wallHeights = (height grid x y, heightLeft grid x y) ∧
    height grid x y ≠ heightLeft grid x y) ∧
  (∀ x y, height grid x y ≠ heightLeft grid x y → ∃ f ∈ W, f.AtX x y) ∧
  W.Pairwise fun f f' => ∀ x y, ¬ (f.AtX x y ∧ f'.AtX x y)

/-- The same for neighbours at smaller y. (Specification.) -/
def WallsY (grid : List (List ℝ)) (W : List Face) : Prop :=
  (∀ f ∈ W, ∀ x y, f.AtY x y → f.wallHeights = (height grid x y, heightBelow grid x y) ∧
    height grid x y ≠ heightBelow grid x y) ∧
  (∀ x y, height grid x y ≠ heightBelow grid x y → ∃ f ∈ W, f.AtY x y) ∧
  W.Pairwise fun f f' => ∀ x y, ¬ (f.AtY x y ∧ f'.AtY x y)

/-- The point is above a corner of a cell of the grid, at a height that occurs in the grid or around it.
(Specification.) -/
def InGrid (grid : List (List ℝ)) (m n : ℕ) (res : ℝ) (p : Vec3) : Prop :=
  ∃ x y : ℕ, x ≤ m ∧ y ≤ n ∧ p.x = res * x ∧ p.y = res * y ∧ ∃ x' y', p.z = height grid x' y'

/-- `q` is on the outer side of the surface at the rectangle: above a top, on the lower side of a wall.
(Specification.) -/
def Face.Outside (res : ℝ) (q : Vec3) : Face → Prop
  | .top _ _ _ _ h => h < q.z
  | .wallX x _ _ h h2 => (h2 < h ∧ q.x < res * x) ∨ (h < h2 ∧ res * x < q.x)
  | .wallY y _ _ h h2 => (h2 < h ∧ q.y < res * y) ∨ (h < h2 ∧ res * y < q.y)

/-- The point is a convex combination of the corners with positive weights. (Specification.) -/
def InteriorPoint (t : Vec3 × Vec3 × Vec3) (p : Vec3) : Prop :=
  ∃ a b c : ℝ, 0 < a ∧ 0 < b ∧ 0 < c ∧ a + b + c = 1 ∧ p.x = a * t.1.x + b * t.2.1.x + c * t.2.2.x ∧
    p.y = a * t.1.y + b * t.2.1.y + c * t.2.2.y ∧ p.z = a * t.1.z + b * t.2.1.z + c * t.2.2.z

/-- Different heights, the 0 around the grid included, differ by more than the tolerance 1e-10 of the code.
(Specification.) -/
def Separated (grid : List (List ℝ)) : Prop :=
  ∀ x y x' y', height grid x y ≠ height grid x' y' → 1e-10 < |height grid x y - height grid x' y'|

/-- No step has an inner corner towards smaller x: where two cells that are neighbours in y have the same positive height, and
one of the two cells before them in x has it, so has the other. (Specification.) -/
def NoNotch (grid : List (List ℝ)) : Prop :=
  ∀ x y h, 0 < h → height grid (x + 1) y = h → height grid (x + 1) (y + 1) = h →
    (height grid x y = h ↔ height grid x (y + 1) = h)

/-- The cells are at least 2 mm wide and different heights, the 0 around the grid included, differ by at least 2 mm, so that
no two different vertices are merged. (Specification.) -/
def Coarse (grid : List (List ℝ)) (res : ℝ) : Prop :=
  0.002 ≤ res ∧ ∀ x y x' y', height grid x y ≠ height grid x' y' → 0.002 ≤ |height grid x y - height grid x' y'|

/-- The volume of the columns of the grid together. (Specification.) -/
noncomputable def columnsVolume (grid : List (List ℝ)) (m n : ℕ) (res : ℝ) : ℝ :=
  ∑ x ∈ Finset.range m, ∑ y ∈ Finset.range n, res * res * height grid x y

/-- The segment from `p` to `q` meets no edge of the triangle. (Specification.) -/
def MissesEdges (p q : Vec3) (t : Vec3 × Vec3 × Vec3) : Prop :=
  ∀ s, 0 ≤ s → s ≤ 1 → ¬ OnRim t (lerp p q s)

/-- The probe that the containment test of a mesh sends from `p` to `(1.1 r, 0, 0)` has a clear relation to every triangle, and
meets no edge. (Specification.) -/
def OpenProbe (ts : List (Vec3 × Vec3 × Vec3)) (r : ℝ) (p : Vec3) : Prop :=
  ∀ t ∈ ts, Clear p ⟨1.1 * r, 0, 0⟩ t ∧ MissesEdges p ⟨1.1 * r, 0, 0⟩ t

/-- The point lies in the box over the block of side `2 ^ j` (in cells, at multiples of its side) around the cell,
which reaches up to the greatest height in the block. (Specification.) -/
def InBlock (grid : List (List ℝ)) (res : ℝ) (o : Vec3) (j : ℕ) (c : ℕ × ℕ) : Prop :=
  ((c.1 / 2 ^ j : ℕ) : ℝ) * 2 ^ j * res ≤ o.x ∧ o.x ≤ (((c.1 / 2 ^ j : ℕ) : ℝ) + 1) * 2 ^ j * res ∧
  ((c.2 / 2 ^ j : ℕ) : ℝ) * 2 ^ j * res ≤ o.y ∧ o.y ≤ (((c.2 / 2 ^ j : ℕ) : ℝ) + 1) * 2 ^ j * res ∧
  0 ≤ o.z ∧ ∃ c' : ℕ × ℕ, c'.1 / 2 ^ j = c.1 / 2 ^ j ∧ c'.2 / 2 ^ j = c.2 / 2 ^ j ∧ o.z ≤ height grid c'.1 c'.2

/-- The quarter of its block of side `2 ^ (j + 1)` that the cell lies in: 0 to 3, x before y. (Specification.) -/
def quarter (j : ℕ) (c : ℕ × ℕ) : ℕ := c.1 / 2 ^ j % 2 + 2 * (c.2 / 2 ^ j % 2)

/-- The order in which the cells are searched for a ray from `o`: in the smallest block with both cells, a quarter
whose box holds `o` comes before one whose box does not, otherwise the quarter with the lower number comes first.
(Specification.) -/
def Sooner (grid : List (List ℝ)) (res : ℝ) (o : Vec3) (c c' : ℕ × ℕ) : Prop :=
  ∃ j, c.1 / 2 ^ (j + 1) = c'.1 / 2 ^ (j + 1) ∧ c.2 / 2 ^ (j + 1) = c'.2 / 2 ^ (j + 1) ∧
    (c.1 / 2 ^ j ≠ c'.1 / 2 ^ j ∨ c.2 / 2 ^ j ≠ c'.2 / 2 ^ j) ∧
    ((InBlock grid res o j c ∧ ¬ InBlock grid res o j c') ∨
      ((InBlock grid res o j c ↔ InBlock grid res o j c') ∧ quarter j c < quarter j c'))

end Geo.Spec
