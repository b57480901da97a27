import Verif.Model.HeightMap
import Verif.Model.Export
import Verif.Model.Serialization

/-!
# Model of tools/height_image_to_shape.cpp, tools/height_image_to_file.cpp, tools/show.cpp and src/visualization.cpp

What the programs print is left out. Strings are lists of characters. The window, and the loop of `show` around `rasterize`
(tools/show.cpp:58-92, it runs until a key), are left out; drawing is in `Model/DepthCamera.lean`.
-/

namespace Geo.Tools

/-- The parameters of the height image tools, tools/height_image_to_shape.cpp:35-53, tools/height_image_to_file.cpp:32-50. -/
structure Options where
  resolution : ℝ
  blockHeight : ℝ
  originX : ℝ
  originY : ℝ

/-- A grey image with 8 bits per pixel, `data y x`, the result of `cv::imread`, tools/height_image_to_shape.cpp:55. -/
structure GreyImage where
  rows : ℕ
  cols : ℕ
  data : ℕ → ℕ → UInt8

/-- `v[i] = a`: undefined behaviour when out of range. Models `std::vector::operator[]` (no line in /repo). -/
def vset {α : Type _} (l : List α) (i : ℕ) (a : α) : Exec (List α) :=
  if i < l.length then .ok (l.set i a) else .error .ub

/-- The parameters in tools/height_image_to_shape.cpp:25-53; `none` for the usage message and exit status 1. `argv` includes
the name of the program, `atof` is the library function (0 for what is no number). -/
noncomputable def shapeOptions (atof : List Char → ℝ) (argv : List (List Char)) : Exec (Option Options) :=
  let argc := argv.length
  if argc < 2 ∨ argc > 7 then return none
  else do
    let resolution ← if argc > 3 then (do return atof (← vget argv 2)) else pure 0.2
    let block_height ← if argc > 4 then (do return atof (← vget argv 3)) else pure 1
    let origin_x ← if argc > 6 then (do return atof (← vget argv 4)) else pure 0
    let origin_y ← if argc > 6 then (do return atof (← vget argv 5)) else pure 0
    return some ⟨resolution, block_height, origin_x, origin_y⟩

/-- The parameters in tools/height_image_to_file.cpp:21-50. -/
noncomputable def fileOptions (atof : List Char → ℝ) (argv : List (List Char)) : Exec (Option Options) :=
  let argc := argv.length
  if argc < 3 ∨ argc > 7 then return none
  else do
    let resolution ← if argc > 3 then (do return atof (← vget argv 3)) else pure 0.2
    let block_height ← if argc > 4 then (do return atof (← vget argv 4)) else pure 1
    let origin_x ← if argc > 6 then (do return atof (← vget argv 5)) else pure 0
    let origin_y ← if argc > 6 then (do return atof (← vget argv 6)) else pure 0
    return some ⟨resolution, block_height, origin_x, origin_y⟩

/-- One column of the grid, tools/height_image_to_shape.cpp:64-69, tools/height_image_to_file.cpp:61-66. -/
noncomputable def imageColumn (img : GreyImage) (block_height : ℝ) (x : ℕ) : Exec (List ℝ) :=
  (List.range img.rows).foldlM (init := List.replicate img.rows 0) fun col y =>
    vset col (img.rows - y - 1) (block_height - (img.data y x).toNat / 255 * block_height)

/-- The grid of the image, tools/height_image_to_shape.cpp:57-70, tools/height_image_to_file.cpp:54-67. -/
noncomputable def imageGrid (img : GreyImage) (block_height : ℝ) : Exec (List (List ℝ)) :=
  (List.range img.cols).foldlM (init := List.replicate img.cols []) fun map x => do
    vset map x (← imageColumn img block_height x)

/-- The shape of the image, tools/height_image_to_shape.cpp:57-85, tools/height_image_to_file.cpp:54-82. -/
noncomputable def imageShape (img : GreyImage) (o : Options) : Exec Shape := do
  let map ← imageGrid img o.blockHeight
  let hmap ← HeightMap.fromGrid map o.resolution
  return Shape.new.setMesh (hmap.mesh.getTransformed (Transform3.ofXYZRPY o.originX o.originY 0 0 0 0))

/-- The mesh as it is written; `bits` gives the bit patterns of doubles. See src/Shape.cpp:520-551. -/
def rawMesh (bits : ℝ → UInt64) (m : Mesh) : RawMesh :=
  ⟨m.points.map fun p => ⟨bits p.x, bits p.y, bits p.z⟩,
   m.tris.map fun t => ⟨UInt32.ofNat t.i1, UInt32.ofNat t.i2, UInt32.ofNat t.i3⟩⟩

/-- `main` of tools/height_image_to_shape.cpp:21-94: the exit status and, if the program gets so far, the name and the contents
of the file. `imread` reads an image, if it can; `room` is what the device takes. -/
noncomputable def imageToShape (atof : List Char → ℝ) (imread : List Char → Option GreyImage) (bits : ℝ → UInt64)
    (room : Option ℕ) (argv : List (List Char)) : Exec (ℕ × Option (List Char × List UInt8)) := do
  match ← shapeOptions atof argv with
  | none => return (1, none)
  | some o =>
    let filename_img ← vget argv 1
    match imread filename_img with
    | none => return (1, none)
    | some img =>
      let shape ← imageShape img o
      return (0, some (filename_img ++ ".geo".toList, Serialization.toFile (rawMesh bits shape.getMesh) room))

/-- `main` of tools/height_image_to_file.cpp:17-90: the exit status and, if the program gets so far, the call of the exporter and
whether it succeeded. `narrow` is the conversion of `double` to `float`. -/
noncomputable def imageToFile (atof : List Char → ℝ) (imread : List Char → Option GreyImage) (exporter : Export.Call → Bool)
    (narrow : ℝ → ℝ) (argv : List (List Char)) : Exec (ℕ × Option (Export.Call × Bool)) := do
  match ← fileOptions atof argv with
  | none => return (1, none)
  | some o =>
    let filename_img ← vget argv 1
    let output_file ← vget argv 2
    match imread filename_img with
    | none => return (1, none)
    | some img =>
      let shape ← imageShape img o
      let call ← Export.writeCall narrow output_file shape []
      return (0, some (call, exporter call))

/-- Where `main` of tools/show.cpp:21-46 gets the shape from: the own format, then Assimp; `none` for the message and exit status
1. `buf` and `after` are the memory of `fromFile` (see `Serialization.deserializeIn`), `ofRaw` makes a shape of what was
read, `assimp` is what Assimp makes of the file. -/
noncomputable def showShape (buf after : List (Option UInt8)) (ofRaw : RawMesh → Shape) (filename : List Char)
    (file : Option (List UInt8)) (assimp : Option Import.AiScene) : Exec (Option Shape) := do
  let reg := Serialization.register Serialization.Registry.empty [109, 101, 115, 104] RawMesh.read
  match ← Serialization.fromFileIn buf after reg file with
  | some m => return some (ofRaw m)
  | none => Import.readMeshFile assimp filename ⟨1, 1, 1⟩

open Classical in
/-- The value shown for the depth `d`, tools/show.cpp:75-79, for the radius `r`. Simplifications: no rounding to `float`, and a
division by a radius of 0 gives 0 where the code has an infinity or NaN. -/
noncomputable def grey (r d : ℝ) : ℝ := if d > 0 then (d - r * 3 + r) / (2 * r) else d

open Classical in
/-- The loop of `visualization::showKinect`, src/visualization.cpp:29-42, with the number of iterations left: the poses with which
the shape is drawn, from frame `i` on. `key i` tells whether a key was pressed after frame `i`. -/
noncomputable def kinectLoop (dist : ℝ) (key : ℕ → Bool) : ℕ → ℕ → Exec (List Transform3)
  | 0, _ => .error .hang
  | n + 1, i =>
    if (i : ℝ) * 0.05 < 6.283 then do
      let pose := Transform3.ofXYZRPY 0 0 dist (-1.57) (i * 0.05) 0
      if key i then return [pose]
      else
        let rest ← kinectLoop dist key n (i + 1)
        return pose :: rest
    else return []

/-- `visualization::showKinect`, src/visualization.cpp:15-43: width and height of the camera and the poses with which the shape is
drawn. Simplification: the drawing itself (`rasterize`) and the window are left out. -/
noncomputable def showKinect (shape : Shape) (canvas_width canvas_height : ℝ) (key : ℕ → Bool) :
    Exec (ℕ × ℕ × List Transform3) := do
  let w ← castUInt canvas_width
  let h ← castUInt canvas_height
  let dist := shape.getMaxRadius / 2
  let poses ← unbounded fun n => kinectLoop dist key n 0
  return (w, h, poses)

end Geo.Tools
