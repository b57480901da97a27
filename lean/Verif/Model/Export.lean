import Verif.Model.Import

/-!
# Model of src/io/export.cpp
-/

namespace Geo.Export

open Import

/-- `::tolower` of a `char` in the "C" locale. A negative `char` other than -1 (`EOF`, returned as it is) is undefined
behaviour. Models the library (used in src/io/export.cpp:82). Strings are lists of bytes; bytes from 128 on are negative. -/
def tolower (c : Char) : Exec Char :=
  if c.toNat < 128 then .ok c.toLower else if c.toNat = 255 then .ok c else .error .ub

/-- One of the tests of the suffix, src/io/export.cpp:85-103. -/
def hasSuffix (filename suffix : List Char) : Exec Bool := do
  let s ← substr filename (sizeMinus filename suffix.length)
  return s = suffix

/-- The format chosen from the file name, src/io/export.cpp:85-103. -/
def guess (filename : List Char) : Exec (List Char) := do
  if ← hasSuffix filename "3ds".toList then return "3ds".toList
  else if ← hasSuffix filename "3mf".toList then return "3mf".toList
  else if ← hasSuffix filename "dae".toList then return "collada".toList
  else if ← hasSuffix filename "ply".toList then return "ply".toList
  else if ← hasSuffix filename "obj".toList then return "obj".toList
  else if ← hasSuffix filename "stp".toList then return "stp".toList
  else if ← hasSuffix filename "stl".toList then return "stl".toList
  else if ← hasSuffix filename "x".toList then return "x".toList
  else if ← hasSuffix filename "x3d".toList then return "x3d".toList
  else return []

/-- What `writeMeshFile` hands to the Assimp exporter, src/io/export.cpp:37-80,107. -/
structure Call where
  scene : AiScene
  numVertices : ℕ
  numFaces : ℕ
  format : List Char
  filename : List Char

/-- `writeMeshFile`, src/io/export.cpp:35-117, up to the call of the exporter. `narrow` is the conversion of `double` to `float`.
The node has a default-constructed transformation, the identity. -/
def writeCall (narrow : ℝ → ℝ) (filename : List Char) (shape : Shape) (format : List Char) : Exec Call := do
  let mesh := shape.getMesh
  let vertices := mesh.points.map fun v => (⟨narrow v.x, narrow v.y, narrow v.z⟩ : Vec3)
  let faces := mesh.tris.map fun t => [t.i1, t.i2, t.i3]
  let format ← format.mapM tolower
  let format ← if format = [] then guess filename else pure format
  return ⟨⟨[⟨vertices, faces⟩], .mk ⟨1, 0, 0, 0, 0, 1, 0, 0, 0, 0, 1, 0⟩ [] [0]⟩, u32 mesh.points.length, u32 mesh.tris.length,
    format, filename⟩

/-- `writeMeshFile`, src/io/export.cpp:35-117. `exporter` is the Assimp exporter, `true` for success. -/
def writeMeshFile (exporter : Call → Bool) (narrow : ℝ → ℝ) (filename : List Char) (shape : Shape) (format : List Char) :
    Exec Bool := do
  let c ← writeCall narrow filename shape format
  return exporter c

end Geo.Export
