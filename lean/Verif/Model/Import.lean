import Verif.Model.Shapes

/-!
# Model of src/io/import.cpp

A scene of the Assimp library is a list of meshes and a tree of nodes. Its coordinates are `float`s, taken as real numbers.
-/

namespace Geo

/-- `std::string::substr(pos)` for a position computed in 64 bits: an exception past the end. Models the library (used in
src/io/import.cpp:156,165 and src/io/export.cpp:86-103). -/
def substr (s : List Char) (pos : ℕ) : Exec (List Char) := if pos ≤ s.length then .ok (s.drop pos) else .error .exception

/-- `s.size() - k` in 64 bits, src/io/import.cpp:156,165 and src/io/export.cpp:86-103. -/
def sizeMinus (s : List Char) (k : ℕ) : ℕ := if k ≤ s.length then s.length - k else 2 ^ 64 + s.length - k

namespace Import

/-- The first three rows of an `aiMatrix4x4`, as used in src/io/import.cpp:43-46,171-173. -/
structure AiMatrix where
  (a1 a2 a3 a4 b1 b2 b3 b4 c1 c2 c3 c4 : ℝ)

/-- The pose made of a matrix, src/io/import.cpp:44-46. -/
def AiMatrix.pose (t : AiMatrix) : Transform3 :=
  ⟨⟨t.a1, t.a2, t.a3, t.b1, t.b2, t.b3, t.c1, t.c2, t.c3⟩, ⟨t.a4, t.b4, t.c4⟩⟩

/-- `aiMesh`: vertices and faces, as used in src/io/import.cpp:57-129. -/
structure AiMesh where
  vertices : List Vec3
  faces : List (List ℕ)

/-- `aiNode`: transformation, children, numbers of meshes, as used in src/io/import.cpp:43-57. -/
inductive AiNode where
  | mk (trafo : AiMatrix) (children : List AiNode) (meshes : List ℕ)

/-- The transformation of a node, src/io/import.cpp:43. -/
def AiNode.trafo : AiNode → AiMatrix
  | mk t _ _ => t

/-- The children of a node, src/io/import.cpp:52. -/
def AiNode.children : AiNode → List AiNode
  | mk _ c _ => c

/-- The numbers of the meshes of a node, src/io/import.cpp:57. -/
def AiNode.meshes : AiNode → List ℕ
  | mk _ _ m => m

/-- `aiScene`, as used in src/io/import.cpp:57,146,171-178. -/
structure AiScene where
  meshes : List AiMesh
  root : AiNode

/-- The key of the vertex map, src/io/import.cpp:66-68. -/
noncomputable def key (scale v : Vec3) : Exec (ℤ × ℤ × ℤ) := do
  let ix ← castInt (1000 * scale.x * v.x)
  let iy ← castInt (1000 * scale.y * v.y)
  let iz ← castInt (1000 * scale.z * v.z)
  return (ix, iy, iz)

/-- The new point for a vertex, src/io/import.cpp:88-92. -/
def place (scale : Vec3) (transform : Bool) (pose : Transform3) (v : Vec3) : Vec3 :=
  let p := if transform then pose.apply v else v
  ⟨scale.x * p.x, scale.y * p.y, scale.z * p.z⟩

/-- The loop over the vertices of a mesh, src/io/import.cpp:62-96. `xyz` is the map of keys seen so far, `imap` the part of
`i_map` filled so far. Simplification: the nested `std::map`s are an association list looked up by equality. -/
noncomputable def vertexLoop (scale : Vec3) (transform : Bool) (pose : Transform3) :
    List Vec3 → Mesh → List ((ℤ × ℤ × ℤ) × ℤ) → List ℤ → Exec (Mesh × List ℤ)
  | [], mesh, _, imap => .ok (mesh, imap)
  | v :: vs, mesh, xyz, imap => do
    let k ← key scale v
    match xyz.lookup k with
    | some i => vertexLoop scale transform pose vs mesh xyz (imap ++ [i])
    | none =>
      let r := mesh.addPoint (place scale transform pose v)
      let ip := toInt32 r.2
      vertexLoop scale transform pose vs r.1 ((k, ip) :: xyz) (imap ++ [ip])

/-- The loop over the faces of a mesh, src/io/import.cpp:100-129. `seen` is the map of triangles added so far. Simplification:
the nested maps are a list looked up by equality. -/
def faceLoop (imap : List ℤ) : List (List ℕ) → Mesh → List (ℤ × ℤ × ℤ) → Exec Mesh
  | [], mesh, _ => .ok mesh
  | f :: fs, mesh, seen =>
    match f with
    | [a, b, c] => do
      let ix ← vget imap a
      let iy ← vget imap b
      let iz ← vget imap c
      if (ix, iy, iz) ∈ seen then faceLoop imap fs mesh seen
      else faceLoop imap fs (mesh.addTriangle (Shapes.asUInt ix) (Shapes.asUInt iy) (Shapes.asUInt iz)) ((ix, iy, iz) :: seen)
    | _ => faceLoop imap fs mesh seen

/-- The body of the loop over the meshes of a node, src/io/import.cpp:57-129. -/
noncomputable def addMesh (scene : List AiMesh) (scale : Vec3) (transform : Bool) (pose : Transform3) (mesh : Mesh) (k : ℕ) :
    Exec Mesh := do
  let m ← vget scene k
  let (mesh, imap) ← vertexLoop scale transform pose m.vertices mesh [] []
  faceLoop imap m.faces mesh []

mutual

/-- `constructMesh`, src/io/import.cpp:34-131. -/
noncomputable def constructMesh (scene : List AiMesh) (scale : Vec3) (transform : Bool) :
    AiNode → Transform3 → Mesh → Exec Mesh
  | .mk t children meshes, parent, mesh => do
    let pose := parent.mul t.pose
    let mesh ← constructChildren scene scale transform children pose mesh
    meshes.foldlM (addMesh scene scale transform pose) mesh

/-- The loop over the children of a node, src/io/import.cpp:50-53. -/
noncomputable def constructChildren (scene : List AiMesh) (scale : Vec3) (transform : Bool) :
    List AiNode → Transform3 → Mesh → Exec Mesh
  | [], _, mesh => .ok mesh
  | n :: ns, pose, mesh => do
    let mesh ← constructMesh scene scale transform n pose mesh
    constructChildren scene scale transform ns pose mesh

end

/-- `readMeshFile`, src/io/import.cpp:140-182, given what the Assimp importer makes of the file (`none` if it fails). -/
noncomputable def readMeshFile (scene : Option AiScene) (filename : List Char) (scale : Vec3) : Exec (Option Shape) :=
  match scene with
  | none => .ok none
  | some s => do
    let ext1 ← substr filename (sizeMinus filename 3)
    let transform := !(ext1 = "3ds".toList)
    let ext2 ← substr filename (sizeMinus filename 3)
    let mesh ←
      if ext2 = "dae".toList then
        let t := s.root.trafo.pose
        let p : Transform3 := ⟨t.R.normalized, t.t⟩
        constructMesh s.meshes scale transform s.root p.inverse Mesh.new
      else constructMesh s.meshes scale transform s.root Transform3.identity Mesh.new
    return some (Shape.new.setMesh mesh)

end Import

end Geo
