import Verif.Model.Box
import Verif.Spec.Mesh
import Mathlib.Analysis.Convex.Combination

/-!
# Specification vocabulary for boxes and rays: plain coordinates only.
-/

namespace Geo.Spec

/-- The closed axis-aligned box with corners `lo` and `hi`. (Specification.) -/
def InBox (lo hi p : Vec3) : Prop :=
  lo.x ≤ p.x ∧ p.x ≤ hi.x ∧ lo.y ≤ p.y ∧ p.y ≤ hi.y ∧ lo.z ≤ p.z ∧ p.z ≤ hi.z

/-- Non-inverted box. (Specification.) -/
def Proper (lo hi : Vec3) : Prop := lo.x ≤ hi.x ∧ lo.y ≤ hi.y ∧ lo.z ≤ hi.z

/-- The point at parameter `t` of the line through `o` in direction `u`. (Specification.) -/
def along (o u : Vec3) (t : ℝ) : Vec3 := ⟨o.x + t * u.x, o.y + t * u.y, o.z + t * u.z⟩

/-- `u` is the unit vector in the direction of `d`. (Specification.) -/
def UnitAlong (d u : Vec3) : Prop :=
  u.x ^ 2 + u.y ^ 2 + u.z ^ 2 = 1 ∧ ∃ l : ℝ, 0 < l ∧ d.x = l * u.x ∧ d.y = l * u.y ∧ d.z = l * u.z

/-- The eight corners. (Specification.) -/
def corners8 (lo hi : Vec3) : List Vec3 :=
  [⟨lo.x, lo.y, lo.z⟩, ⟨hi.x, lo.y, lo.z⟩, ⟨lo.x, hi.y, lo.z⟩, ⟨hi.x, hi.y, lo.z⟩,
   ⟨lo.x, lo.y, hi.z⟩, ⟨hi.x, lo.y, hi.z⟩, ⟨lo.x, hi.y, hi.z⟩, ⟨hi.x, hi.y, hi.z⟩]

/-- A box object is in a state reachable through its public interface as far as its mesh is
concerned: all mesh points lie in the box and the last eight are its corners. (Specification.) -/
def BoxOk (b : Box) : Prop :=
  Proper b.lo b.hi ∧ (∀ p ∈ b.mesh.points, InBox b.lo b.hi p) ∧
  ∃ old, b.mesh.points = old ++ corners8 b.lo b.hi

/-- Six times the signed volume of the tetrahedron spanned by the origin and a triangle.
(Specification.) -/
def vol6 (c : Vec3 × Vec3 × Vec3) : ℝ :=
  c.1.x * (c.2.1.y * c.2.2.z - c.2.1.z * c.2.2.y) - c.1.y * (c.2.1.x * c.2.2.z - c.2.1.z * c.2.2.x)
    + c.1.z * (c.2.1.x * c.2.2.y - c.2.1.y * c.2.2.x)

/-- Positive when `q` lies on the side from which the triangle appears counter-clockwise (the outer
side of an outward oriented triangle; points on the inner side give a non-positive value).
(Specification.) -/
def side (c : Vec3 × Vec3 × Vec3) (q : Vec3) : ℝ :=
  let a := (⟨c.2.1.x - c.1.x, c.2.1.y - c.1.y, c.2.1.z - c.1.z⟩ : Vec3)
  let b := (⟨c.2.2.x - c.1.x, c.2.2.y - c.1.y, c.2.2.z - c.1.z⟩ : Vec3)
  (a.y * b.z - a.z * b.y) * (q.x - c.1.x) + (a.z * b.x - a.x * b.z) * (q.y - c.1.y)
    + (a.x * b.y - a.y * b.x) * (q.z - c.1.z)

/-- Directed edges of an index list. (Specification.) -/
def edges (ts : List TriI) : List (ℕ × ℕ) :=
  ts.flatMap fun t => [(t.i1, t.i2), (t.i2, t.i3), (t.i3, t.i1)]

/-- Closed surface: every directed edge occurs once and its reverse occurs. (Specification.) -/
def Watertight (ts : List TriI) : Prop :=
  (edges ts).Nodup ∧ ∀ e ∈ edges ts, (e.2, e.1) ∈ edges ts ∧ e.1 ≠ e.2

end Geo.Spec
