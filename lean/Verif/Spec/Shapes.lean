import Verif.Model.Shapes
import Verif.Spec.Box

/-!
# Specification vocabulary for cylinders and prisms
-/

namespace Geo.Spec

/-- Twice the area of a polygon with `n` corners `f 0, f 1, ...`, positive if they are in clockwise order. (Specification.) -/
def clockwise2 (f : ℕ → Vec2) (n : ℕ) : ℝ :=
  ((List.range n).map fun i => (f ((i + 1) % n)).x * (f i).y - (f ((i + 1) % n)).y * (f i).x).sum

/-- A convex polygon in clockwise order: no corner is left of an edge. (Specification.) -/
def ConvexClockwise (f : ℕ → Vec2) (n : ℕ) : Prop :=
  ∀ i < n, ∀ k < n, ((f ((i + 1) % n)).x - (f i).x) * ((f k).y - (f i).y) -
    ((f ((i + 1) % n)).y - (f i).y) * ((f k).x - (f i).x) ≤ 0

/-- A closed prism of height `h` over the polygon: vertices and triangles, indices valid, closed, and with the volume of the
prism. (Specification.) -/
structure Prism (m : Mesh) (f : ℕ → Vec2) (n : ℕ) (h : ℝ) : Prop where
  count : m.points.length = 2 * n ∧ m.tris.length = 4 * n - 4
  vertices : ∀ i < n, m.points[2 * i]? = some ⟨(f i).x, (f i).y, -h / 2⟩ ∧
    m.points[2 * i + 1]? = some ⟨(f i).x, (f i).y, h / 2⟩
  valid : ∀ t ∈ m.tris, t.i1 < 2 * n ∧ t.i2 < 2 * n ∧ t.i3 < 2 * n
  closed : Watertight m.tris
  volume : ∃ l, soup m.points m.tris = some l ∧ (l.map vol6).sum = 6 * (clockwise2 f n / 2 * h)
  outward : ConvexClockwise f n → 0 ≤ h → ∃ l, soup m.points m.tris = some l ∧ ∀ c ∈ l, ∀ q ∈ m.points, side c q ≤ 0

end Geo.Spec
