import Verif.Model.Shapes
import Verif.Model.RoundedLaser

/-!
# Cylinders and prisms in floating point arithmetic

`Model/Shapes` computes with real numbers. Here the rounding `F.rnd` follows every multiplication and division, and `M_PI`, `sin`
and `cos` are those of the platform `F`. With exact operations the functions are those of `Model/Shapes` (`C131_exact`).
Simplifications: no overflow of `double` and no subnormal numbers. The conversion of an `unsigned int` to `double` is exact.
-/

namespace Geo.RoundedShapes

open Shapes

/-- The angle of corner `i` of `n`, src/shapes.cpp:22. -/
noncomputable def cornerAngle (F : FloatLib) (n i : ℕ) : ℝ := F.rnd (F.rnd (F.rnd (2 * F.pi) * i) / n)

/-- The corner `i` of `n` in the plane, src/shapes.cpp:22-24. -/
noncomputable def corner (F : FloatLib) (radius : ℝ) (n i : ℕ) : Vec2 :=
  let a := cornerAngle F n i
  ⟨F.rnd (F.sin a * radius), F.rnd (F.cos a * radius)⟩

/-- The body of the vertex loop of a cylinder, src/shapes.cpp:21-28. -/
noncomputable def cylinderPoint (F : FloatLib) (radius height : ℝ) (n i : ℕ) (m : Mesh) : Mesh :=
  let c := corner F radius n i
  ((m.addPoint ⟨c.x, c.y, F.rnd (-height / 2)⟩).1.addPoint ⟨c.x, c.y, F.rnd (height / 2)⟩).1

/-- `createCylinder`, src/shapes.cpp:15-51. Simplification: memory is unlimited. -/
noncomputable def createCylinder (F : FloatLib) (shape : Shape) (radius height : ℝ) (n : ℕ) : Exec Shape := do
  let m ← loop 0 n (fun i m => .ok (cylinderPoint F radius height n i m)) Mesh.new
  let m ← loop 1 (predU 32 n) (fun i m =>
    let i2 := u32 (2 * i)
    .ok ((m.addTriangle 0 i2 (u32 (i2 + 2))).addTriangle 1 (u32 (i2 + 3)) (u32 (i2 + 1)))) m
  let m ← loop 0 n (fun i m =>
    let j := u32 (i + 1) % n
    .ok ((m.addTriangle (u32 (i * 2)) (u32 (i * 2 + 1)) (u32 (j * 2))).addTriangle (u32 (i * 2 + 1)) (u32 (j * 2 + 1))
      (u32 (j * 2)))) m
  return shape.setMesh m

/-- `createConvexPolygon`, src/shapes.cpp:55-90. `size_t` has 64 bits. Simplification: memory is unlimited. -/
noncomputable def createConvexPolygon (F : FloatLib) (shape : Shape) (points : List Vec2) (height : ℝ) : Exec Shape := do
  let minZ := F.rnd (-height / 2)
  let maxZ := F.rnd (height / 2)
  let m := points.foldl (fun m p => ((m.addPoint ⟨p.x, p.y, minZ⟩).1.addPoint ⟨p.x, p.y, maxZ⟩).1) Mesh.new
  let m ← loop 1 (predU 64 points.length) polygonCap m
  let m ← loop 0 points.length (polygonSide points.length) m
  return shape.setMesh m

end Geo.RoundedShapes
