import Verif.Model.Mesh
import Verif.Spec.Math

/-!
# Specification vocabulary for meshes: cache-free readings of points and triangles.
-/

namespace Geo.Spec

/-- The triangle soup of a point list and an index list, when all indices are valid.
(Specification.) -/
def soup (points : List Vec3) (tris : List TriI) : Option (List (Vec3 × Vec3 × Vec3)) :=
  tris.mapM fun t =>
    match points[t.i1]?, points[t.i2]?, points[t.i3]? with
    | some a, some b, some c => some (a, b, c)
    | _, _, _ => none

/-- All indices refer to existing points. (Specification.) -/
def Valid (points : List Vec3) (tris : List TriI) : Prop :=
  ∀ t ∈ tris, t.i1 < points.length ∧ t.i2 < points.length ∧ t.i3 < points.length

/-- `r` is the tight upper bound of the distances of the points to the origin, 0 if there are none.
(Specification.) -/
def IsRadius (points : List Vec3) (r : ℝ) : Prop :=
  (∀ p ∈ points, dist p ⟨0, 0, 0⟩ ≤ r) ∧
  ((∃ p ∈ points, dist p ⟨0, 0, 0⟩ = r) ∨ (points = [] ∧ r = 0))

/-- Two reals fall in the same truncated-millimetre cell. (Specification.) -/
def SameCell (x y : ℝ) : Prop :=
  ∃ k : ℤ, (|1000 * x| < 1 ∧ |1000 * y| < 1 ∧ k = 0) ∨
    (0 < k ∧ (k : ℝ) ≤ 1000 * x ∧ 1000 * x < k + 1 ∧ (k : ℝ) ≤ 1000 * y ∧ 1000 * y < k + 1) ∨
    (k < 0 ∧ (k : ℝ) - 1 < 1000 * x ∧ 1000 * x ≤ k ∧ (k : ℝ) - 1 < 1000 * y ∧ 1000 * y ≤ k)

/-- Two points fall in the same truncated-millimetre cell. (Specification.) -/
def SameCell3 (p q : Vec3) : Prop := SameCell p.x q.x ∧ SameCell p.y q.y ∧ SameCell p.z q.z

/-- The coordinates are small enough for the conversion to `int` after scaling by 1000.
(Specification.) -/
def InIntRange (p : Vec3) : Prop :=
  |1000 * p.x| < 2 ^ 31 ∧ |1000 * p.y| < 2 ^ 31 ∧ |1000 * p.z| < 2 ^ 31

/-- What a caller of a mesh operation must guarantee, in terms of the current points and triangles.
(Specification.) -/
def CallOk (points : List Vec3) : Mesh.Op → Prop
  | .addPoint _ => points.length < 2 ^ 32
  | .addTriangle i j k => i < points.length ∧ j < points.length ∧ k < points.length
  | .add n => Valid n.points n.tris ∧ points.length + n.points.length ≤ 2 ^ 32
  | .addSelf => False
  | .filter => ∀ p ∈ points, InIntRange p
  | _ => True

/-- Every call of the history meets its precondition in the state in which it is made.
(Specification.) -/
def Admissible : Mesh → List Mesh.Op → Prop
  | _, [] => True
  | m, o :: os => CallOk m.points o ∧ ∀ m', m.step o = .ok m' → Admissible m' os

/-- Operations that may renumber or drop points. (Specification.) -/
def Renumbers : Mesh.Op → Prop
  | .clear | .filter | .transform _ => True
  | _ => False

/-- The three points lie on a line (some non-trivial affine dependency). (Specification.) -/
def Collinear3 (p q r : Vec3) : Prop :=
  ∃ a b c : ℝ, (a ≠ 0 ∨ b ≠ 0 ∨ c ≠ 0) ∧ a + b + c = 0 ∧
    a * p.x + b * q.x + c * r.x = 0 ∧ a * p.y + b * q.y + c * r.y = 0 ∧
    a * p.z + b * q.z + c * r.z = 0

end Geo.Spec
