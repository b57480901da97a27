import Verif.Model.Serialization

/-!
# Streams of several meshes
-/

namespace Geo.Spec

open Serialization

/-- Several meshes written one after another with `Shape::write` (src/Shape.cpp:520-551). (Models a client.) -/
def writeAll (ms : List RawMesh) (output : OStream) : OStream := ms.foldl (fun o m => (m.write o).2) output

/-- `n` meshes read one after another, each by reading the eight bytes of its tag (src/serialization.cpp:35) and calling
`Shape::read` (src/Shape.cpp:553-586). (Models a client.) -/
def readAll : ℕ → IStream → List RawMesh × IStream
  | 0, s => ([], s)
  | n + 1, s =>
    let (m, s) := RawMesh.read (s.read 8).2
    let (ms, s) := readAll n s
    (m :: ms, s)

/-- The sizes fit the counts of the format. (Specification.) -/
def Fits (m : RawMesh) : Prop := m.points.length < 2 ^ 31 ∧ m.tris.length < 2 ^ 31

end Geo.Spec
