import Verif.Model.Octree
import Verif.Spec.Composite

/-!
# Specification vocabulary for octrees: grid cells in plain coordinates.
-/

namespace Geo.Spec

/-- Coordinate `x` falls into interval number `c` of `n` intervals of width `r` starting at 0: intervals
are open below and closed above, and the outermost ones extend to infinity. (Specification.) -/
def InSlab (r : ℝ) (n c : ℕ) (x : ℝ) : Prop :=
  c < n ∧ (c = 0 ∨ c * r < x) ∧ (c + 1 = n ∨ x ≤ (c + 1) * r)

/-- Point `p` falls into cell `c` of the grid of `n`³ cells of width `r` with lowest corner `off`.
(Specification.) -/
def InCell (r : ℝ) (n : ℕ) (off : Vec3) (c : ℕ × ℕ × ℕ) (p : Vec3) : Prop :=
  InSlab r n c.1 (p.x - off.x) ∧ InSlab r n c.2.1 (p.y - off.y) ∧ InSlab r n c.2.2 (p.z - off.z)

/-- Lowest corner of a cell. (Specification.) -/
def cellLo (r : ℝ) (off : Vec3) (c : ℕ × ℕ × ℕ) : Vec3 :=
  ⟨off.x + c.1 * r, off.y + c.2.1 * r, off.z + c.2.2 * r⟩

/-- Highest corner of a cell. (Specification.) -/
def cellHi (r : ℝ) (off : Vec3) (c : ℕ × ℕ × ℕ) : Vec3 :=
  ⟨off.x + (c.1 + 1) * r, off.y + (c.2.1 + 1) * r, off.z + (c.2.2 + 1) * r⟩

/-- The points added since the last `clear`. (Specification.) -/
def live : List Octree.Op → List Vec3 → List Vec3
  | [], ps => ps
  | .add p :: os, ps => live os (ps ++ [p])
  | .clear :: os, _ => live os []
  | _ :: os, ps => live os ps

/-- The octree reports exactly the cells in `S`, each once. (Specification.) -/
def Shows (t : Octree) (r : ℝ) (off : Vec3) (S : ℕ × ℕ × ℕ → Prop) : Prop :=
  ∃ cells : List (ℕ × ℕ × ℕ), cells.Nodup ∧ (∀ c, c ∈ cells ↔ S c) ∧
    t.getCubes = cells.map fun c => Box.new (cellLo r off c) (cellHi r off c)

/-- What the caller of an octree operation must guarantee: rays are made from a non-zero direction.
(Specification.) -/
def OctOpOk : Octree.Op → Prop
  | .raytrace r _ _ => ∃ o d u, UnitAlong d u ∧ r = Ray.new o d
  | _ => True

/-- The octree results from some history on a new octree, with cells of at least the tolerance 1e-10 used by
the code. (Specification.) -/
def OctReach (size : ℝ) (t : Octree) : Prop :=
  0 < size ∧ 1e-10 ≤ t.resolution ∧ ∃ request t0 ops, 0 < request ∧ Octree.new size request = .ok t0 ∧
    (∀ o ∈ ops, OctOpOk o) ∧ t0.run ops = .ok t

/-- The line runs inside the open cell for parameters between `x` and `y`, and that is more than a tenth of
the cell width. (Specification.) -/
def Crosses (r : ℝ) (off o u : Vec3) (c : ℕ × ℕ × ℕ) (x y : ℝ) : Prop :=
  x + r / 10 < y ∧ ∀ t, x < t → t < y →
    (cellLo r off c).x < (along o u t).x ∧ (along o u t).x < (cellHi r off c).x ∧
    (cellLo r off c).y < (along o u t).y ∧ (along o u t).y < (cellHi r off c).y ∧
    (cellLo r off c).z < (along o u t).z ∧ (along o u t).z < (cellHi r off c).z

/-- No component of the direction is treated as zero by the ray class. (Specification.) -/
def Oblique (u : Vec3) : Prop := 1e-9 ≤ |u.x| ∧ 1e-9 ≤ |u.y| ∧ 1e-9 ≤ |u.z|

/-- The history contains no ray tracing. (Specification.) -/
def Untraced (ops : List Octree.Op) : Prop := ∀ r t0 t1, Octree.Op.raytrace r t0 t1 ∉ ops

end Geo.Spec
