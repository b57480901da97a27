import Verif.Model.Mesh
import Verif.Model.RoundedBox

/-!
# Functions of meshes in floating point arithmetic

`Model/Mesh` computes with real numbers. Here the functions of a mesh that compute with coordinates are written with the rounding
`rnd` that follows every operation. With `rnd` the identity the functions are those of `Model/Mesh` (`C130_exact`).
Simplifications: no overflow of `double`, no subnormal numbers, no NaN; products and sums are not fused.
-/

namespace Geo.Rounded

/-- The cell of a point, src/Mesh.cpp:119-123. -/
noncomputable def cellKey (rnd : ℝ → ℝ) (v : Vec3) : Exec (ℤ × ℤ × ℤ) := do
  let ix ← castInt (rnd (1000 * v.x))
  let iy ← castInt (rnd (1000 * v.y))
  let iz ← castInt (rnd (1000 * v.z))
  return (ix, iy, iz)

/-- The loop of `Mesh::filterOverlappingVertices` over the old points, src/Mesh.cpp:115-135. Simplifications: as in
`Mesh.filterLoop`. -/
noncomputable def filterLoop (rnd : ℝ → ℝ) : List Vec3 → List Vec3 → List ((ℤ × ℤ × ℤ) × ℕ) → List ℕ →
    Exec (List Vec3 × List ℕ)
  | [], pts, _, imap => .ok (pts, imap)
  | v :: vs, pts, xyz, imap => do
    let key ← cellKey rnd v
    match xyz.lookup key with
    | some i => filterLoop rnd vs pts xyz (imap ++ [i])
    | none =>
      let ip := u32 pts.length
      filterLoop rnd vs (pts ++ [v]) ((key, ip) :: xyz) (imap ++ [ip])

/-- `Mesh::filterOverlappingVertices`, src/Mesh.cpp:107-143. -/
noncomputable def filterOverlappingVertices (rnd : ℝ → ℝ) (m : Mesh) : Exec Mesh := do
  let (pts, imap) ← filterLoop rnd m.points [] [] []
  let tris ← m.tris.mapM (fun t => do
    let a ← vget imap t.i1
    let b ← vget imap t.i2
    let c ← vget imap t.i3
    return (⟨a, b, c⟩ : TriI))
  let m' := if m.points.isEmpty then m else m.invalidateCache
  return { m' with points := pts, tris := tris }

/-- `Mesh::getSquaredMaxRadius`, src/Mesh.cpp:145-155 (mesh with updated cache, result); the comparisons are exact. -/
noncomputable def getSquaredMaxRadius (rnd : ℝ → ℝ) (m : Mesh) : Mesh × ℝ :=
  if m.maxR2 = 0 then
    let r := m.points.foldl (fun acc p => max acc (length2 rnd p)) m.maxR2
    ({ m with maxR2 := r }, r)
  else (m, m.maxR2)

/-- `Mesh::getMaxRadius`, src/Mesh.cpp:157-164 (mesh with updated caches, result). -/
noncomputable def getMaxRadius (rnd : ℝ → ℝ) (m : Mesh) : Mesh × ℝ :=
  if m.maxR = 0 then
    let (m', r2) := getSquaredMaxRadius rnd m
    let r := rnd (Real.sqrt r2)
    ({ m' with maxR := r }, r)
  else (m, m.maxR)

/-- `Mesh::getTriangleNormal`, src/Mesh.cpp:166-175. -/
noncomputable def getTriangleNormal (rnd : ℝ → ℝ) (m : Mesh) (index : ℕ) : Exec Vec3 := do
  let t ← vget m.tris index
  let p1 ← vget m.points t.i1
  let p2 ← vget m.points t.i2
  let p3 ← vget m.points t.i3
  return normalized rnd (cross rnd (sub rnd p3 p1) (sub rnd p2 p1))

end Geo.Rounded
