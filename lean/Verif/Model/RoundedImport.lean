import Verif.Model.Import
import Verif.Model.RoundedNormalize

/-!
# Import in floating point arithmetic

`Model/Import` computes with real numbers. Here the rounding `rnd` follows every operation on `double`. With the identity for `rnd` the
functions are those of `Model/Import` (`C134_exact`). Simplifications: as in `Model/Import`; no overflow of `double`, no subnormal
numbers; products and sums are not fused.
-/

namespace Geo.RoundedImport
open Import

/-- The key of the vertex map, src/io/import.cpp:66-68. -/
noncomputable def key (rnd : ℝ → ℝ) (scale v : Vec3) : Exec (ℤ × ℤ × ℤ) := do
  let ix ← castInt (rnd (rnd (1000 * scale.x) * v.x))
  let iy ← castInt (rnd (rnd (1000 * scale.y) * v.y))
  let iz ← castInt (rnd (rnd (1000 * scale.z) * v.z))
  return (ix, iy, iz)

/-- The new point for a vertex, src/io/import.cpp:88-92. -/
def place (rnd : ℝ → ℝ) (scale : Vec3) (transform : Bool) (pose : Transform3) (v : Vec3) : Vec3 :=
  let p := if transform then Rounded.apply rnd pose v else v
  ⟨rnd (scale.x * p.x), rnd (scale.y * p.y), rnd (scale.z * p.z)⟩

/-- The loop over the vertices of a mesh, src/io/import.cpp:62-96. Simplification: as in `Import.vertexLoop`. -/
noncomputable def vertexLoop (rnd : ℝ → ℝ) (scale : Vec3) (transform : Bool) (pose : Transform3) :
    List Vec3 → Mesh → List ((ℤ × ℤ × ℤ) × ℤ) → List ℤ → Exec (Mesh × List ℤ)
  | [], mesh, _, imap => .ok (mesh, imap)
  | v :: vs, mesh, xyz, imap => do
    let k ← key rnd scale v
    match xyz.lookup k with
    | some i => vertexLoop rnd scale transform pose vs mesh xyz (imap ++ [i])
    | none =>
      let r := mesh.addPoint (place rnd scale transform pose v)
      let ip := toInt32 r.2
      vertexLoop rnd scale transform pose vs r.1 ((k, ip) :: xyz) (imap ++ [ip])

/-- The body of the loop over the meshes of a node, src/io/import.cpp:57-129; the loop over the faces (100-129) computes with integers
only. -/
noncomputable def addMesh (rnd : ℝ → ℝ) (scene : List AiMesh) (scale : Vec3) (transform : Bool) (pose : Transform3) (mesh : Mesh)
    (k : ℕ) : Exec Mesh := do
  let m ← vget scene k
  let (mesh, imap) ← vertexLoop rnd scale transform pose m.vertices mesh [] []
  faceLoop imap m.faces mesh []

mutual

/-- `constructMesh`, src/io/import.cpp:34-131. -/
noncomputable def constructMesh (rnd : ℝ → ℝ) (scene : List AiMesh) (scale : Vec3) (transform : Bool) :
    AiNode → Transform3 → Mesh → Exec Mesh
  | .mk t children meshes, parent, mesh => do
    let pose := Rounded.mul rnd parent t.pose
    let mesh ← constructChildren rnd scene scale transform children pose mesh
    meshes.foldlM (addMesh rnd scene scale transform pose) mesh

/-- The loop over the children of a node, src/io/import.cpp:50-53. -/
noncomputable def constructChildren (rnd : ℝ → ℝ) (scene : List AiMesh) (scale : Vec3) (transform : Bool) :
    List AiNode → Transform3 → Mesh → Exec Mesh
  | [], _, mesh => .ok mesh
  | n :: ns, pose, mesh => do
    let mesh ← constructMesh rnd scene scale transform n pose mesh
    constructChildren rnd scene scale transform ns pose mesh

end

/-- `readMeshFile`, src/io/import.cpp:140-182, given what the Assimp importer makes of the file (`none` if it fails). -/
noncomputable def readMeshFile (rnd : ℝ → ℝ) (scene : Option AiScene) (filename : List Char) (scale : Vec3) : Exec (Option Shape) :=
  match scene with
  | none => .ok none
  | some s => do
    let ext1 ← substr filename (sizeMinus filename 3)
    let transform := !(ext1 = "3ds".toList)
    let ext2 ← substr filename (sizeMinus filename 3)
    let mesh ←
      if ext2 = "dae".toList then
        let t := s.root.trafo.pose
        let p : Transform3 := ⟨RoundedNormalize.matNormalized rnd t.R, t.t⟩
        constructMesh rnd s.meshes scale transform s.root (Rounded.inverse rnd p) Mesh.new
      else constructMesh rnd s.meshes scale transform s.root Transform3.identity Mesh.new
    return some (Shape.new.setMesh mesh)

end Geo.RoundedImport
