import Verif.Model.Shape
import Verif.Spec.Box
import Mathlib.Data.Sym.Sym2

/-!
# Specification vocabulary for mesh shapes: plain coordinates only.
-/

namespace Geo.Spec

/-- The mesh is the result of some client history. (Specification.) -/
def Reachable (m : Mesh) : Prop := ∃ ops, Mesh.new.run ops = .ok m

/-- `x` is a convex combination of the corners of the triangle. (Specification.) -/
def InTri (t : Vec3 × Vec3 × Vec3) (x : Vec3) : Prop :=
  ∃ a b c : ℝ, 0 ≤ a ∧ 0 ≤ b ∧ 0 ≤ c ∧ a + b + c = 1 ∧
    x = ⟨a * t.1.x + b * t.2.1.x + c * t.2.2.x, a * t.1.y + b * t.2.1.y + c * t.2.2.y,
         a * t.1.z + b * t.2.1.z + c * t.2.2.z⟩

/-- `x` is on the boundary of the triangle. (Specification.) -/
def OnRim (t : Vec3 × Vec3 × Vec3) (x : Vec3) : Prop :=
  ∃ a b c : ℝ, 0 ≤ a ∧ 0 ≤ b ∧ 0 ≤ c ∧ a + b + c = 1 ∧ (a = 0 ∨ b = 0 ∨ c = 0) ∧
    x = ⟨a * t.1.x + b * t.2.1.x + c * t.2.2.x, a * t.1.y + b * t.2.1.y + c * t.2.2.y,
         a * t.1.z + b * t.2.1.z + c * t.2.2.z⟩

/-- Six times the signed volume of a tetrahedron. (Specification.) -/
def vol4 (a b c d : Vec3) : ℝ :=
  Matrix.det !![b.x - a.x, b.y - a.y, b.z - a.z;
                c.x - a.x, c.y - a.y, c.z - a.z;
                d.x - a.x, d.y - a.y, d.z - a.z]

/-- Four points lie in a common plane. (Specification.) -/
def Coplanar4 (a b c d : Vec3) : Prop :=
  ∃ n : Vec3, ∃ k : ℝ, n ≠ ⟨0, 0, 0⟩ ∧ ∀ q ∈ [a, b, c, d], n.x * q.x + n.y * q.y + n.z * q.z = k

/-- The point at parameter `s` of the line from `p` (parameter 0) to `q` (parameter 1).
(Specification.) -/
def lerp (p q : Vec3) (s : ℝ) : Vec3 :=
  ⟨p.x + s * (q.x - p.x), p.y + s * (q.y - p.y), p.z + s * (q.z - p.z)⟩

/-- The three directed edges. (Specification.) -/
def rim (t : Vec3 × Vec3 × Vec3) : List (Vec3 × Vec3) :=
  [(t.1, t.2.1), (t.2.1, t.2.2), (t.2.2, t.1)]

/-- Signed crossing of the segment from `p` to `q` with a triangle: +1 if it goes through it from the
inner to the outer side, -1 if from the outer to the inner side, 0 if it does not go through.
(Specification.) -/
noncomputable def crossing (p q : Vec3) (t : Vec3 × Vec3 × Vec3) : ℤ :=
  open Classical in
  if ∃ s : ℝ, 0 ≤ s ∧ s ≤ 1 ∧ InTri t (lerp p q s) then
    (if side t p < side t q then 1 else -1) else 0

/-- Every directed edge of the triangles occurs as often as its reverse. (Specification.) -/
def ClosedSoup (ts : List (Vec3 × Vec3 × Vec3)) : Prop :=
  (ts.flatMap rim).Perm ((ts.flatMap rim).map Prod.swap)

/-- A continuous path that touches no triangle leads from `a` to `b`. (Specification.) -/
def Joined (ts : List (Vec3 × Vec3 × Vec3)) (a b : Vec3) : Prop :=
  ∃ f : ℝ → Vec3, ContinuousOn (fun s => (f s).x) (Set.Icc 0 1) ∧
    ContinuousOn (fun s => (f s).y) (Set.Icc 0 1) ∧ ContinuousOn (fun s => (f s).z) (Set.Icc 0 1) ∧
    f 0 = a ∧ f 1 = b ∧ ∀ s ∈ Set.Icc (0:ℝ) 1, ∀ t ∈ ts, ¬ InTri t (f s)

/-- `p` is outside: a path that touches no triangle leads from it to a place farther from the origin than
every corner. (Specification.) -/
def Escapes (ts : List (Vec3 × Vec3 × Vec3)) (p : Vec3) : Prop :=
  ∃ y, Joined ts p y ∧ ∀ t ∈ ts, ∀ v ∈ [t.1, t.2.1, t.2.2], dist v ⟨0, 0, 0⟩ < dist y ⟨0, 0, 0⟩

/-- `c` is a point of the triangle that is on none of its edges. (Specification.) -/
def StrictlyIn (t : Vec3 × Vec3 × Vec3) (c : Vec3) : Prop :=
  ∃ u v w : ℝ, 0 < u ∧ 0 < v ∧ 0 < w ∧ u + v + w = 1 ∧
    c = ⟨u * t.1.x + v * t.2.1.x + w * t.2.2.x, u * t.1.y + v * t.2.1.y + w * t.2.2.y,
      u * t.1.z + v * t.2.1.z + w * t.2.2.z⟩

/-- `p` is inside: a path that touches no triangle leads from it to the inner side of a triangle through
which one comes outside. The segment from `a` to `b` meets that triangle in `c` and no other triangle.
(Specification.) -/
def Enclosed (ts : List (Vec3 × Vec3 × Vec3)) (p : Vec3) : Prop :=
  ∃ l₁ t l₂ a b, ts = l₁ ++ t :: l₂ ∧ Joined ts p a ∧ Escapes ts b ∧ side t a < 0 ∧ 0 < side t b ∧
    (∃ s, 0 ≤ s ∧ s ≤ 1 ∧ StrictlyIn t (lerp a b s)) ∧
    ∀ s, 0 ≤ s → s ≤ 1 → ∀ t' ∈ l₁ ++ l₂, ¬ InTri t' (lerp a b s)

/-- No corner is on the outer side of a triangle. (Specification.) -/
def ConvexSoup (ts : List (Vec3 × Vec3 × Vec3)) : Prop :=
  ∀ t ∈ ts, ∀ t' ∈ ts, ∀ v ∈ [t'.1, t'.2.1, t'.2.2], side t v ≤ 0

/-- Some point of a triangle is on none of its edges and on no other triangle. (Specification.) -/
def HasFace (ts : List (Vec3 × Vec3 × Vec3)) : Prop :=
  ∃ l₁ t l₂ c, ts = l₁ ++ t :: l₂ ∧ StrictlyIn t c ∧ ∀ t' ∈ l₁ ++ l₂, ¬ InTri t' c

/-- Area of a triangle by Heron's formula. (Specification.) -/
noncomputable def heron (p q r : Vec3) : ℝ :=
  let a := dist p q
  let b := dist q r
  let c := dist r p
  let h := (a + b + c) / 2
  Real.sqrt (h * (h - a) * (h - b) * (h - c))

/-! ### Contacts of a probe segment with an indexed triangle -/

/-- Where a segment meets a triangle: in its interior, inside the edge between two vertices, or in a
vertex; vertices are mesh indices. (Specification.) -/
inductive Contact where
  | face
  | edge (e : Sym2 ℕ)
  | vertex (i : ℕ)

/-- The segment from `p` to `q` meets the triangle in a point whose weight for the first, second, third
corner is zero exactly as told by the three flags. (Specification.) -/
def Meets (p q : Vec3) (t : Vec3 × Vec3 × Vec3) (za zb zc : Prop) : Prop :=
  ∃ s a b c : ℝ, 0 ≤ s ∧ s ≤ 1 ∧ 0 ≤ a ∧ 0 ≤ b ∧ 0 ≤ c ∧ a + b + c = 1 ∧
    (a = 0 ↔ za) ∧ (b = 0 ↔ zb) ∧ (c = 0 ↔ zc) ∧
    lerp p q s = ⟨a * t.1.x + b * t.2.1.x + c * t.2.2.x, a * t.1.y + b * t.2.1.y + c * t.2.2.y,
      a * t.1.z + b * t.2.1.z + c * t.2.2.z⟩

/-- The contact of the segment with an indexed triangle, if any. (Specification.) -/
noncomputable def contact (p q : Vec3) (x : TriI × (Vec3 × Vec3 × Vec3)) : Option Contact :=
  open Classical in
  if Meets p q x.2 False False False then some .face
  else if Meets p q x.2 True False False then some (.edge s(x.1.i2, x.1.i3))
  else if Meets p q x.2 False True False then some (.edge s(x.1.i3, x.1.i1))
  else if Meets p q x.2 False False True then some (.edge s(x.1.i1, x.1.i2))
  else if Meets p q x.2 False True True then some (.vertex x.1.i1)
  else if Meets p q x.2 True False True then some (.vertex x.1.i2)
  else if Meets p q x.2 True True False then some (.vertex x.1.i3)
  else none

/-- The probe segment from `p` to `q` has a clear relation to the triangle: every side product is zero or
beyond the tolerance of the code, not all are zero, the end points are not within tolerance on the same
side of its plane, and `p` is not within tolerance on it or on an edge. (Specification.) -/
structure Clear (p q : Vec3) (t : Vec3 × Vec3 × Vec3) : Prop where
  product : ∀ e ∈ rim t, vol4 p q e.1 e.2 = 0 ∨ 1e-16 < |vol4 p q e.1 e.2|
  transversal : ∃ e ∈ rim t, vol4 p q e.1 e.2 ≠ 0
  sides : side t p * side t q ≤ 0 ∨ 1e-16 < side t p * side t q
  offFace : 1e-12 ≤
    |heron t.2.1 p t.2.2 + heron p t.1 t.2.2 + heron p t.1 t.2.1 - heron t.1 t.2.1 t.2.2|
  offEdge : ∀ e ∈ rim t, 1e-12 < |dist p e.1 + dist e.2 p - dist e.2 e.1|

/-- +1 if the segment goes from the inner to the outer side of the triangle, else -1.
(Specification.) -/
noncomputable def heading (p q : Vec3) (t : Vec3 × Vec3 × Vec3) : ℤ :=
  open Classical in if side t p < side t q then 1 else -1

/-- The headings, in mesh order, of the triangles which the segment meets at the given place.
(Specification.) -/
noncomputable def headings (p q : Vec3) (L : List (TriI × (Vec3 × Vec3 × Vec3))) (c : Contact) :
    List ℤ :=
  open Classical in (L.filter fun x => contact p q x = some c).map fun x => heading p q x.2

/-- A walk on -1, 0, 1 that stays where it is when it would leave this range. (Specification.) -/
def walk (ds : List ℤ) : ℤ := ds.foldl (fun e d => max (-1) (min 1 (e + d))) 0

/-- What a place contributes to the crossing count. (Specification.) -/
def score : Contact → List ℤ → ℤ
  | .face, ds => ds.sum
  | _, ds => walk ds

/-- Twice the contribution of a triangle to the crossing number when every edge met is shared by two
triangles: 2 in the interior, 1 on an edge. (Specification.) -/
noncomputable def weight2 (p q : Vec3) (x : TriI × (Vec3 × Vec3 × Vec3)) : ℤ :=
  match contact p q x with
  | some .face => 2 * heading p q x.2
  | some (.edge _) => heading p q x.2
  | _ => 0

/-- `p` is `k` times the normal of the triangle (of the length of twice the area) away from the point of its plane with
weights `a`, `b`, `c`; `x` is that point. (Specification.) -/
def Over (t : Vec3 × Vec3 × Vec3) (a b c k : ℝ) (x p : Vec3) : Prop :=
  a + b + c = 1 ∧
  x = ⟨a * t.1.x + b * t.2.1.x + c * t.2.2.x, a * t.1.y + b * t.2.1.y + c * t.2.2.y,
       a * t.1.z + b * t.2.1.z + c * t.2.2.z⟩ ∧
  p.x = x.x + k * ((t.2.1.y - t.1.y) * (t.2.2.z - t.1.z) - (t.2.1.z - t.1.z) * (t.2.2.y - t.1.y)) ∧
  p.y = x.y + k * ((t.2.1.z - t.1.z) * (t.2.2.x - t.1.x) - (t.2.1.x - t.1.x) * (t.2.2.z - t.1.z)) ∧
  p.z = x.z + k * ((t.2.1.x - t.1.x) * (t.2.2.y - t.1.y) - (t.2.1.y - t.1.y) * (t.2.2.x - t.1.x))

/-- Inner product of the edges from `u` to `v` and to `w`. (Specification.) -/
def cornerDot (u v w : Vec3) : ℝ :=
  (v.x - u.x) * (w.x - u.x) + (v.y - u.y) * (w.y - u.y) + (v.z - u.z) * (w.z - u.z)

/-- From the front, or in the plane, a point of the plane is noticed if it lies inside the triangle; from behind only
if, at every corner, the product of the weights of the other two exceeds a bound that grows with the square of the
distance. (Specification.) -/
def Noticed (t : Vec3 × Vec3 × Vec3) (a b c k : ℝ) : Prop :=
  if 0 ≤ k then 0 < a ∧ 0 < b ∧ 0 < c
  else 4 * k ^ 2 * cornerDot t.1 t.2.1 t.2.2 < b * c ∧ 4 * k ^ 2 * cornerDot t.2.1 t.2.2 t.1 < c * a ∧
    4 * k ^ 2 * cornerDot t.2.2 t.1 t.2.1 < a * b

end Geo.Spec
