import Verif.Model.DepthCamera
import Verif.Spec.LaserRangeFinder

/-!
# Specification vocabulary for the depth camera
-/

namespace Geo.Spec

/-- A corner whose image position fits comfortably into an `int`. (Specification.) -/
def Small (p : Vec3) : Prop := |p.x| < 2 ^ 30 ∧ |p.y| < 2 ^ 30

/-- `(u, y, d)` is the affine combination with weights `a`, `b`, `c` of corners whose rows are cut off to integers.
(Specification.) -/
def Weighted (p1 p2 p3 : Vec3) (a b c u y d : ℝ) : Prop :=
  a + b + c = 1 ∧ u = a * p1.x + b * p2.x + c * p3.x ∧
    y = a * (trunc p1.y : ℝ) + b * (trunc p2.y : ℝ) + c * (trunc p3.y : ℝ) ∧ d = a * p1.z + b * p2.z + c * p3.z

/-- `(u, y)` with the inverse depth `d` is on the triangle whose corners have their rows cut off to integers.
(Specification.) -/
def InSnapped (p1 p2 p3 : Vec3) (u y d : ℝ) : Prop :=
  ∃ a b c : ℝ, 0 ≤ a ∧ 0 ≤ b ∧ 0 ≤ c ∧ Weighted p1 p2 p3 a b c u y d

/-- The same on the plane of that triangle. (Specification.) -/
def OnSnapped (p1 p2 p3 : Vec3) (u y d : ℝ) : Prop := ∃ a b c : ℝ, Weighted p1 p2 p3 a b c u y d

/-- A pixel of an image. (Specification.) -/
def InImage (width height : ℕ) (x y : ℤ) : Prop := 0 ≤ x ∧ x < width ∧ 0 ≤ y ∧ y < height

/-- A map with a place for every pixel of an image. (Specification.) -/
def Roomy {α : Type} (m : List (List α)) (cols rows : ℕ) : Prop := cols ≤ m.length ∧ ∀ col ∈ m, rows ≤ col.length

/-- The entry of a map at a pixel. (Specification.) -/
def entry {α : Type} (m : List (List α)) (x y : ℕ) : Option α := (m[x]?).bind fun col => col[y]?

/-- A call renders to a pixel. (Specification.) -/
def At (x y : ℕ) (c : PixelCall) : Prop := c.x = x ∧ c.y = y

/-- A point of a triangle in space. (Specification.) -/
def OnTriangle (A B C q : Vec3) : Prop :=
  ∃ a b c : ℝ, 0 ≤ a ∧ 0 ≤ b ∧ 0 ≤ c ∧ a + b + c = 1 ∧ q.x = a * A.x + b * B.x + c * C.x ∧
    q.y = a * A.y + b * B.y + c * C.y ∧ q.z = a * A.z + b * B.z + c * C.z

/-- The normal of a counter-clockwise triangle, as long as twice its area. (Specification.) -/
def normalOf (A B C : Vec3) : Vec3 :=
  ⟨(B.y - A.y) * (C.z - A.z) - (B.z - A.z) * (C.y - A.y), (B.z - A.z) * (C.x - A.x) - (B.x - A.x) * (C.z - A.z),
    (B.x - A.x) * (C.y - A.y) - (B.y - A.y) * (C.x - A.x)⟩

/-- Points at most `K` off the axis of a camera project into the range of `Small`, if they are in front of the near plane.
(Specification.) -/
def Moderate (c : Camera) (K : ℝ) : Prop :=
  10 * (|c.fx| * K + |c.Tx|) + |c.cx| < 2 ^ 30 ∧ 10 * (|c.fy| * K + |c.Ty|) + |c.cy| < 2 ^ 30

/-- All corners of a posed mesh are at most `K` off the axis. (Specification.) -/
def Near (m : Mesh) (T : Transform3) (K : ℝ) : Prop := ∀ p ∈ m.points, |(T.apply p).x| ≤ K ∧ |(T.apply p).y| ≤ K

/-- The arguments of a call of `rasterize` other than the maps. (Specification.) -/
structure RasterCall where
  mesh : Mesh
  pose : Transform3
  image : DepthImage
  pointer : ℕ

/-- Calls of `rasterize` one after another with the same maps. (Specification.) -/
noncomputable def rasterizeAll (c : Camera) : List RasterCall → List (List ℕ) → List (List ℤ) →
    Exec (List (List ℕ) × List (List ℤ))
  | [], pm, tm => .ok (pm, tm)
  | x :: xs, pm, tm => do
    let r ← rasterize c x.mesh x.pose x.image pm x.pointer tm
    rasterizeAll c xs r.pointerMap r.triangleMap

end Geo.Spec
