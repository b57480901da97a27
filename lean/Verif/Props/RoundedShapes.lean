import Verif.Lemmas.RoundedShapes
import Verif.Props.Shapes
import Verif.Props.RoundedLaser
import Verif.Lemmas.RoundedCamera

/-!
# Cylinders and prisms in floating point arithmetic
-/

namespace Geo

open Spec RoundedShapes

/-- With exact operations the functions are those of `Model/Shapes`. -/
theorem C131_exact (s : Shape) (radius height : ℝ) (n : ℕ) (points : List Vec2) :
    RoundedShapes.createCylinder .exact s radius height n = Shapes.createCylinder s radius height n ∧
      RoundedShapes.createConvexPolygon .exact s points height = Shapes.createConvexPolygon s points height := ⟨rfl, rfl⟩

/-- A cylinder whose half height is a `double` is a closed prism over a polygon whose corners are close to those of the regular
one, with an area close to that of the regular one. Unless there are very many corners the polygon is convex and clockwise (so
all triangles face outwards, by `Prism.outward`). -/
theorem C131_cylinder {u v : ℝ} {F : FloatLib} (hF : Accurate u v F) (hu : u ≤ 1 / 1000) (s : Shape) (radius : ℝ) {height : ℝ}
    (h1 : F.rnd (height / 2) = height / 2) (h2 : F.rnd (-height / 2) = -height / 2) {n : ℕ} (hn : 2 ≤ n) (h32 : 2 * n ≤ 2 ^ 32) :
    ∃ s' g, RoundedShapes.createCylinder F s radius height n = .ok s' ∧ Prism s'.mesh g n height ∧ s'.bbValid = false ∧
      (∀ i < n, |(g i).x - Real.sin (2 * Real.pi * i / n) * radius| ≤ 36 * u * |radius| ∧
        |(g i).y - Real.cos (2 * Real.pi * i / n) * radius| ≤ 36 * u * |radius|) ∧
      |clockwise2 g n / 2 - n / 2 * radius ^ 2 * Real.sin (2 * Real.pi / n)| ≤ 74 * n * u * radius ^ 2 ∧
      (20 * (n : ℝ) ^ 3 * u ≤ 1 → ConvexClockwise g n) := by
  obtain ⟨s', h, hp, ht, -, hb⟩ := RoundedShapes.cylinder_mesh s radius h1 h2 hn h32
  refine ⟨s', corner F radius n, h, Shapes.prism_of _ hn height hp ht, hb, fun i hi => corner_err hF hu radius hi, ?_,
    corner_convex hF hu radius⟩
  rw [← (C69_cylinder_polygon radius hn).2]
  have := corner_area hF hu radius (n := n)
  change |_ - clockwise2 (exactCorner radius n) n / 2| ≤ _
  rw [← sub_div, abs_div, abs_of_pos (show (0 : ℝ) < 2 by norm_num)]
  linarith

/-- A prism whose half height is a `double` is the exact one. -/
theorem C131_polygon {F : FloatLib} (s : Shape) (points : List Vec2) {height : ℝ} (h1 : F.rnd (height / 2) = height / 2)
    (h2 : F.rnd (-height / 2) = -height / 2) :
    RoundedShapes.createConvexPolygon F s points height = Shapes.createConvexPolygon s points height := by
  unfold RoundedShapes.createConvexPolygon Shapes.createConvexPolygon
  simp only [h1, h2]

/-- C131 case: in double precision a cylinder of height 4 with 50000 corners is closed and convex, and all its triangles face
outwards. -/
example (radius : ℝ) : ∃ s', RoundedShapes.createCylinder doubleLib Shape.new radius 4 50000 = .ok s' ∧ Watertight s'.mesh.tris ∧
    ∃ l, soup s'.mesh.points s'.mesh.tris = some l ∧ ∀ c ∈ l, ∀ q ∈ s'.mesh.points, side c q ≤ 0 := by
  have a : toDouble (4 / 2) = 4 / 2 := by
    have := toDouble_eq (x := 4 / 2) (-51) (m := 2 ^ 52) (by norm_num) (by norm_num) (by norm_num)
    rw [this]; norm_num
  have b : toDouble (-4 / 2) = -4 / 2 := by
    rw [show (-4 / 2 : ℝ) = -2 by norm_num]
    exact toDouble_neg_two
  obtain ⟨s', g, h, p, -, -, -, c⟩ := C131_cylinder C121_library (by norm_num) Shape.new radius (height := 4) (n := 50000) a b
    (by norm_num) (by norm_num)
  exact ⟨s', h, p.closed, p.outward (c (by norm_num)) (by norm_num)⟩

end Geo
