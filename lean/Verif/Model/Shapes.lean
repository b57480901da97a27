import Verif.Model.Shape

/-!
# Model of src/shapes.cpp: cylinders and prisms
-/

namespace Geo

namespace Shapes

/-- `for (unsigned int i = ...; i < limit; ++i) body`, src/shapes.cpp:20,31,43,70,82, with limited fuel. The counter wraps
around, `limit` may be larger than any value of the counter. -/
def loopFuel {σ : Type} (limit : ℕ) (body : ℕ → σ → Exec σ) : ℕ → ℕ → σ → Exec σ
  | 0, _, _ => .error .hang
  | f + 1, i, s => if i < limit then do
      let s ← body i s
      loopFuel limit body f (u32 (i + 1)) s
    else .ok s

/-- The loop without limit of fuel, src/shapes.cpp:20,31,43,70,82. -/
noncomputable def loop {σ : Type} (start limit : ℕ) (body : ℕ → σ → Exec σ) (s : σ) : Exec σ :=
  unbounded fun f => loopFuel limit body f start s

/-- A signed number passed as an `unsigned int`. Models the language (src/shapes.cpp:75,78,85,86). -/
def asUInt (n : ℤ) : ℕ := (n % 2 ^ 32).toNat

/-- `n - 1` of an unsigned number with `bits` bits. Models the language (src/shapes.cpp:31,70). -/
def predU (bits n : ℕ) : ℕ := if n = 0 then 2 ^ bits - 1 else n - 1

/-- The body of the vertex loop of a cylinder, src/shapes.cpp:21-28. -/
noncomputable def cylinderPoint (radius height : ℝ) (n i : ℕ) (m : Mesh) : Mesh :=
  let a := 2 * Real.pi * i / n
  let x := Real.sin a * radius
  let y := Real.cos a * radius
  ((m.addPoint ⟨x, y, -height / 2⟩).1.addPoint ⟨x, y, height / 2⟩).1

/-- `createCylinder`, src/shapes.cpp:15-51. `n` is `num_corners`, an `unsigned int`. Simplification: memory is unlimited. -/
noncomputable def createCylinder (shape : Shape) (radius height : ℝ) (n : ℕ) : Exec Shape := do
  let m ← loop 0 n (fun i m => .ok (cylinderPoint radius height n i m)) Mesh.new
  let m ← loop 1 (predU 32 n) (fun i m =>
    let i2 := u32 (2 * i)
    .ok ((m.addTriangle 0 i2 (u32 (i2 + 2))).addTriangle 1 (u32 (i2 + 3)) (u32 (i2 + 1)))) m
  let m ← loop 0 n (fun i m =>
    let j := u32 (i + 1) % n
    .ok ((m.addTriangle (u32 (i * 2)) (u32 (i * 2 + 1)) (u32 (j * 2))).addTriangle (u32 (i * 2 + 1)) (u32 (j * 2 + 1))
      (u32 (j * 2)))) m
  return shape.setMesh m

/-- The body of the loop for bottom and top of a prism, src/shapes.cpp:72-78. -/
def polygonCap (i : ℕ) (m : Mesh) : Exec Mesh := do
  let i2 := toInt32 (u32 (2 * i))
  let a ← intOp (i2 + 2)
  let m := m.addTriangle 0 (asUInt i2) (asUInt a)
  let b ← intOp (i2 + 3)
  let c ← intOp (i2 + 1)
  return m.addTriangle 1 (asUInt b) (asUInt c)

/-- The body of the loop for the sides of a prism with `n` corners, src/shapes.cpp:84-86. -/
def polygonSide (n i : ℕ) (m : Mesh) : Exec Mesh := do
  let j2 ← intOp (toInt32 (u32 (u32 (i + 1) % n)) * 2)
  let m := m.addTriangle (u32 (i * 2)) (u32 (i * 2 + 1)) (asUInt j2)
  let k ← intOp (j2 + 1)
  return m.addTriangle (u32 (i * 2 + 1)) (asUInt k) (asUInt j2)

/-- `createConvexPolygon`, src/shapes.cpp:55-90. `size_t` has 64 bits. Simplification: memory is unlimited. -/
noncomputable def createConvexPolygon (shape : Shape) (points : List Vec2) (height : ℝ) : Exec Shape := do
  let m := points.foldl (fun m p => ((m.addPoint ⟨p.x, p.y, -height / 2⟩).1.addPoint ⟨p.x, p.y, height / 2⟩).1) Mesh.new
  let m ← loop 1 (predU 64 points.length) polygonCap m
  let m ← loop 0 points.length (polygonSide points.length) m
  return shape.setMesh m

end Shapes

end Geo
