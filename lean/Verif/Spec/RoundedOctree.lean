import Verif.Spec.Octree

/-!
# Specification vocabulary for octrees in floating point arithmetic
-/

namespace Geo.Spec

/-- The coordinates of two points differ by at most `ε`. (Specification.) -/
def Moved (ε : ℝ) (p q : Vec3) : Prop := |p.x - q.x| ≤ ε ∧ |p.y - q.y| ≤ ε ∧ |p.z - q.z| ≤ ε

/-- The corners of two boxes differ by at most `ε`. (Specification.) -/
def MovedBox (ε : ℝ) (a b : Box) : Prop := Moved ε a.lo b.lo ∧ Moved ε a.hi b.hi

/-- A point is in a box that is widened by `ε` on each side. (Specification.) -/
def InWide (ε : ℝ) (b : Box) (p : Vec3) : Prop :=
  InBox ⟨b.lo.x - ε, b.lo.y - ε, b.lo.z - ε⟩ ⟨b.hi.x + ε, b.hi.y + ε, b.hi.z + ε⟩ p

/-- The points added since the last clearing; `some p` adds a point, `none` clears. (Specification.) -/
def kept : List (Option Vec3) → List Vec3 → List Vec3
  | [], ps => ps
  | some p :: os, ps => kept os (ps ++ [p])
  | none :: os, _ => kept os []

/-- The same operations for the model with real numbers. (Specification.) -/
def asOps (ops : List (Option Vec3)) : List Octree.Op :=
  ops.map fun o => match o with
    | some p => .add p
    | none => .clear

end Geo.Spec
