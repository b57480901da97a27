import Verif.Model.Basic

/-!
# Model of serialization: src/serialization.cpp, `Shape::write` and `Shape::read` of src/Shape.cpp

Doubles are their 64-bit patterns here, since the code only copies them. The byte order is little-endian, `int` has 4
bytes and `double` 8 (x86-64).
-/

namespace Geo

/-- The bytes of an unsigned number in memory, lowest first. Models the platform (no line in /repo). -/
def leBytes : ℕ → ℕ → List UInt8
  | 0, _ => []
  | n + 1, v => UInt8.ofNat v :: leBytes n (v / 256)

/-- The unsigned number with the given bytes in memory. Models the platform (no line in /repo). -/
def leVal : List UInt8 → ℕ
  | [] => 0
  | b :: l => b.toNat + 256 * leVal l

/-- A point with raw coordinates, used for `geo::Vector3` in src/Shape.cpp:529-538,560-569. -/
structure RawPoint where
  x : UInt64
  y : UInt64
  z : UInt64
  deriving DecidableEq

/-- `geo::TriangleI`, include/geolib/Mesh.h:12-25. -/
structure RawTri where
  i1 : UInt32
  i2 : UInt32
  i3 : UInt32
  deriving DecidableEq

/-- The members of `Mesh` that are written, include/geolib/Mesh.h:132-134; the caches are left out, `addPoint` and
`addTriangle` only invalidate them. -/
structure RawMesh where
  points : List RawPoint
  tris : List RawTri
  deriving DecidableEq

/-- An output stream: the bytes that arrived, how many more the device takes (`none`: any number) and whether no
error has occurred. Models `std::ostream` (no line in /repo). -/
structure OStream where
  data : List UInt8
  room : Option ℕ
  good : Bool

/-- `std::ostream::write`: nothing after an error; what does not fit is lost and an error is set. Models the library
(no line in /repo); buffering is left out. -/
def OStream.write (s : OStream) (bs : List UInt8) : OStream :=
  if !s.good then s else
  match s.room with
  | none => { s with data := s.data ++ bs }
  | some r => if bs.length ≤ r then ⟨s.data ++ bs, some (r - bs.length), true⟩ else ⟨s.data ++ bs.take r, some 0, false⟩

/-- An input stream: the bytes left and whether no error (including the end of the input) has occurred. Models
`std::istream` (no line in /repo). -/
structure IStream where
  data : List UInt8
  good : Bool

/-- `std::istream::read`: nothing after an error; otherwise as many bytes as there are, and an error if these are
fewer than asked for. Returns the bytes stored. Models the library (no line in /repo). -/
def IStream.read (s : IStream) (n : ℕ) : List UInt8 × IStream :=
  if !s.good then ([], s) else (s.data.take n, ⟨s.data.drop n, decide (n ≤ s.data.length)⟩)

/-- `input.read(reinterpret_cast<char*>(&v), sizeof(v))` for a variable with the bytes `init` before,
src/Shape.cpp:558,565-567,572,579-581: bytes that are not read keep their value. -/
def IStream.field (s : IStream) (init : List UInt8) : ℕ × IStream :=
  let (got, s) := s.read init.length
  (leVal (got ++ init.drop got.length), s)

/-- The bytes of `double x = NAN`, src/Shape.cpp:562-564. -/
def nanBytes : List UInt8 := leBytes 8 0x7FF8000000000000

/-- The bytes of `int i = 0`, src/Shape.cpp:557,571,576-578. -/
def zeroBytes : List UInt8 := leBytes 4 0

namespace RawMesh

/-- The tag `"mesh    "`, src/Shape.cpp:522. -/
def tag : List UInt8 := [109, 101, 115, 104, 32, 32, 32, 32]

/-- The body of the loop over points, src/Shape.cpp:529-538. -/
def writePoint (s : OStream) (p : RawPoint) : OStream :=
  ((s.write (leBytes 8 p.x.toNat)).write (leBytes 8 p.y.toNat)).write (leBytes 8 p.z.toNat)

/-- The body of the loop over triangles, src/Shape.cpp:543-548. -/
def writeTri (s : OStream) (t : RawTri) : OStream :=
  ((s.write (leBytes 4 t.i1.toNat)).write (leBytes 4 t.i2.toNat)).write (leBytes 4 t.i3.toNat)

/-- `Shape::write`, src/Shape.cpp:520-551, for the mesh `getMesh()` of the shape. The conversion of the sizes to
`int` keeps the low 32 bits. -/
def write (m : RawMesh) (output : OStream) : Bool × OStream :=
  let output := output.write tag
  let output := output.write (leBytes 4 (u32 m.points.length))
  let output := m.points.foldl writePoint output
  let output := output.write (leBytes 4 (u32 m.tris.length))
  let output := m.tris.foldl writeTri output
  (true, output)

/-- The loop over points, src/Shape.cpp:560-569, with the number of iterations left. -/
def readPoints : ℕ → IStream → RawMesh → RawMesh × IStream
  | 0, input, m => (m, input)
  | n + 1, input, m =>
    let (x, input) := input.field nanBytes
    let (y, input) := input.field nanBytes
    let (z, input) := input.field nanBytes
    readPoints n input { m with points := m.points ++ [⟨UInt64.ofNat x, UInt64.ofNat y, UInt64.ofNat z⟩] }

/-- The loop over triangles, src/Shape.cpp:574-583, with the number of iterations left. -/
def readTris : ℕ → IStream → RawMesh → RawMesh × IStream
  | 0, input, m => (m, input)
  | n + 1, input, m =>
    let (i1, input) := input.field zeroBytes
    let (i2, input) := input.field zeroBytes
    let (i3, input) := input.field zeroBytes
    readTris n input { m with tris := m.tris ++ [⟨UInt32.ofNat i1, UInt32.ofNat i2, UInt32.ofNat i3⟩] }

/-- `Shape::read`, src/Shape.cpp:553-586. -/
def read (input : IStream) : RawMesh × IStream :=
  let (p_size, input) := input.field zeroBytes
  let (m, input) := readPoints (toInt32 p_size).toNat input ⟨[], []⟩
  let (t_size, input) := input.field zeroBytes
  readTris (toInt32 t_size).toNat input m

end RawMesh

namespace Serialization

/-- `deserialization_method`, include/geolib/serialization.h:15. -/
abbrev Method := IStream → RawMesh × IStream

/-- `deserializers_`, include/geolib/serialization.h:17,39. -/
abbrev Registry := List UInt8 → Option Method

/-- `serialization::deserializers_` at the start of the program, src/serialization.cpp:16. -/
def Registry.empty : Registry := fun _ => none

/-- The padding of the name, src/serialization.cpp:48-52. -/
def pad (shape_type : List UInt8) : List UInt8 :=
  (List.range (min shape_type.length 8)).foldl (fun s i => s.set i (shape_type.getD i 0)) (List.replicate 8 32)

/-- `serialization::registerDeserializer`, src/serialization.cpp:46-54. -/
def register (reg : Registry) (shape_type : List UInt8) (method : Method) : Registry :=
  fun k => if k = pad shape_type then some method else reg k

/-- Construction of a `std::string` from a `char*` into memory with these contents (`none`: indeterminate) up to the
end of what may be read, src/serialization.cpp:37. -/
def cstring : List (Option UInt8) → Exec (List UInt8)
  | [] => .error .ub
  | none :: _ => .error .ub
  | some b :: l => if b = 0 then .ok [] else do
    let s ← cstring l
    return b :: s

/-- `serialization::deserialize`, src/serialization.cpp:32-44, with `shape_type` having the contents `buf` before and
being followed in memory by `after`. Returns the shape, if any, and the stream. -/
def deserializeIn (buf after : List (Option UInt8)) (reg : Registry) (input : IStream) :
    Exec (Option RawMesh × IStream) := do
  let (got, input) := input.read 8
  let key ← cstring (got.map some ++ buf.drop got.length ++ after)
  match reg key with
  | none => return (none, input)
  | some method =>
    let (m, input) := method input
    return (some m, input)

/-- `serialization::deserialize` as the language has it, src/serialization.cpp:32-44: the buffer is not initialised, and
reading beyond it is undefined behaviour. -/
def deserialize (reg : Registry) (input : IStream) : Exec (Option RawMesh × IStream) :=
  deserializeIn (List.replicate 8 none) [] reg input

/-- `serialization::serialize`, src/serialization.cpp:22-30. -/
def serialize (m : RawMesh) (output : OStream) : Bool × OStream := m.write output

/-- `serialization::toFile`, src/serialization.cpp:65-79, on a device with the given room: the contents of the file. -/
def toFile (m : RawMesh) (room : Option ℕ) : List UInt8 := (serialize m ⟨[], room, true⟩).2.data

/-- `std::ifstream::open`, src/serialization.cpp:58-59: `none` is a file that cannot be opened. -/
def openFile : Option (List UInt8) → IStream
  | none => ⟨[], false⟩
  | some data => ⟨data, true⟩

/-- `serialization::fromFile`, src/serialization.cpp:56-63, with memory as in `deserializeIn`. -/
def fromFileIn (buf after : List (Option UInt8)) (reg : Registry) (file : Option (List UInt8)) : Exec (Option RawMesh) := do
  let (m, _) ← deserializeIn buf after reg (openFile file)
  return m

/-- `serialization::fromFile`, src/serialization.cpp:56-63. -/
def fromFile (reg : Registry) (file : Option (List UInt8)) : Exec (Option RawMesh) :=
  fromFileIn (List.replicate 8 none) [] reg file

end Serialization

end Geo
