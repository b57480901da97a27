import Verif.Model.DepthCamera
import Verif.Model.Shapes

/-!
# Model of include/geolib/ros/msg_conversions.h, src/ros/msg_conversions.cpp, include/geolib/ros/tf2_conversions.h and the
constructors of `DepthCamera`

Messages are records that a call fills; fields of the target that a call does not assign keep their values.
-/

namespace Geo.Ros

/-- `geometry_msgs::msg::Point`, used in include/geolib/ros/msg_conversions.h:26-31. -/
@[ext] structure Point where
  (x y z : ℝ)

/-- `geometry_msgs::msg::Point32`, whose fields are `float`s, used in include/geolib/ros/msg_conversions.h:38-43. -/
@[ext] structure Point32 where
  (x y z : ℝ)

/-- `geometry_msgs::msg::Vector3`, used in include/geolib/ros/msg_conversions.h:50-55. -/
@[ext] structure Vector3 where
  (x y z : ℝ)

/-- `geometry_msgs::msg::Quaternion`, used in include/geolib/ros/msg_conversions.h:62-68. -/
@[ext] structure Quaternion where
  (x y z w : ℝ)

/-- `geometry_msgs::msg::Pose`, used in include/geolib/ros/msg_conversions.h:87-91. -/
@[ext] structure Pose where
  position : Point
  orientation : Quaternion

/-- `geometry_msgs::msg::Transform`, used in include/geolib/ros/msg_conversions.h:98-102. -/
@[ext] structure Transform where
  translation : Vector3
  rotation : Quaternion

/-- `convert(geo::Vector3, Point)`, include/geolib/ros/msg_conversions.h:26-31. -/
def toPoint (v : Vec3) : Point := ⟨v.x, v.y, v.z⟩

/-- `convert(geo::Vector3, Point32)`, include/geolib/ros/msg_conversions.h:38-43. `narrow` is the conversion of `double` to
`float`. -/
def toPoint32 (narrow : ℝ → ℝ) (v : Vec3) : Point32 := ⟨narrow v.x, narrow v.y, narrow v.z⟩

/-- `convert(geo::Vector3, Vector3)`, include/geolib/ros/msg_conversions.h:50-55. -/
def toVector3 (v : Vec3) : Vector3 := ⟨v.x, v.y, v.z⟩

/-- `convert(geo::Quaternion, Quaternion)`, include/geolib/ros/msg_conversions.h:62-68. -/
def toQuaternion (q : Quat) : Quaternion := ⟨q.x, q.y, q.z, q.w⟩

/-- `convert(geo::Matrix3, Quaternion)`, include/geolib/ros/msg_conversions.h:75-80. -/
noncomputable def rotationToQuaternion (r : Mat3) : Quaternion :=
  let q := r.getRotation
  toQuaternion q

/-- `convert(geo::Transform, Pose)`, include/geolib/ros/msg_conversions.h:87-91. -/
noncomputable def toPose (t : Transform3) : Pose := ⟨toPoint t.t, rotationToQuaternion t.R⟩

/-- `convert(geo::Transform, Transform)`, include/geolib/ros/msg_conversions.h:98-102. -/
noncomputable def toTransform (t : Transform3) : Transform := ⟨toVector3 t.t, rotationToQuaternion t.R⟩

/-- `convert(TriangleI, MeshTriangle)`, include/geolib/ros/msg_conversions.h:109-114; the message is an array of three. -/
def toTriangle (t : TriI) : List ℕ := [t.i1, t.i2, t.i3]

/-- `convert(Point, geo::Vector3)`, include/geolib/ros/msg_conversions.h:138-143. -/
def ofPoint (m : Point) : Vec3 := ⟨m.x, m.y, m.z⟩

/-- `convert(Point32, geo::Vector3)`, include/geolib/ros/msg_conversions.h:150-155. -/
def ofPoint32 (m : Point32) : Vec3 := ⟨m.x, m.y, m.z⟩

/-- `convert(Vector3, geo::Vector3)`, include/geolib/ros/msg_conversions.h:162-167. -/
def ofVector3 (m : Vector3) : Vec3 := ⟨m.x, m.y, m.z⟩

/-- `convert(Quaternion, geo::Quaternion)`, include/geolib/ros/msg_conversions.h:174-180. -/
def ofQuaternion (m : Quaternion) : Quat := ⟨m.x, m.y, m.z, m.w⟩

/-- `convert(Quaternion, geo::Matrix3)`, include/geolib/ros/msg_conversions.h:187-192. -/
noncomputable def quaternionToRotation (m : Quaternion) : Mat3 :=
  let q := ofQuaternion m
  Mat3.setRotation q

/-- `convert(Pose, geo::Transform)`, include/geolib/ros/msg_conversions.h:199-203. -/
noncomputable def ofPose (m : Pose) : Transform3 := ⟨quaternionToRotation m.orientation, ofPoint m.position⟩

/-- `convert(Transform, geo::Transform)`, include/geolib/ros/msg_conversions.h:210-214. -/
noncomputable def ofTransform (m : Transform) : Transform3 := ⟨quaternionToRotation m.rotation, ofVector3 m.translation⟩

/-! ## Meshes -/

/-- `shape_msgs::msg::Mesh`, used in src/ros/msg_conversions.cpp:14-32. -/
structure MeshMsg where
  vertices : List Point
  triangles : List (List ℕ)

/-- `convert(geo::Mesh, shape_msgs::msg::Mesh)`, src/ros/msg_conversions.cpp:14-32. -/
def toMesh (m : Mesh) (msg : MeshMsg) : MeshMsg :=
  let msg := m.points.foldl (fun (msg : MeshMsg) p => { msg with vertices := msg.vertices ++ [toPoint p] }) msg
  m.tris.foldl (fun (msg : MeshMsg) t => { msg with triangles := msg.triangles ++ [toTriangle t] }) msg

/-! ## Cameras -/

/-- `sensor_msgs::msg::CameraInfo`, used in src/ros/msg_conversions.cpp:34-88 and src/sensors/DepthCamera.cpp:40-97.
Simplification: header and the fields `do_rectify`, `width`, `height` of the region of interest are left out. -/
structure CameraInfo where
  width : ℕ
  height : ℕ
  distortionModel : String
  d : List ℝ
  k : List ℝ
  r : List ℝ
  p : List ℝ
  binningX : ℕ
  binningY : ℕ
  roiX : ℕ
  roiY : ℕ

/-- A message as it is constructed. Models the library (used in src/sensors/DepthCamera.cpp:40). -/
def CameraInfo.new : CameraInfo := ⟨0, 0, "", [], List.replicate 9 0, List.replicate 9 0, List.replicate 12 0, 0, 0, 0, 0⟩

/-- What `DepthCamera` reads of a `PinholeCameraModel`, include/geolib/sensors/DepthCamera.h:231-251. -/
@[ext] structure Pinhole where
  (fx fy cx cy Tx Ty : ℝ)
  width : ℤ
  height : ℤ

/-- The binning that takes effect: 0 stands for 1. Models the library (used in src/sensors/DepthCamera.cpp:86,97). -/
def binning (n : ℕ) : ℕ := if n = 0 then 1 else n

/-- `PinholeCameraModel::fromCameraInfo` of the image_geometry library (used in src/sensors/DepthCamera.cpp:86,97): the
projection matrix, with the offset of the region of interest subtracted from the centre and divided by the binning; the size is
the full one, as `int`. A message with too few entries in `p` does not occur (its type is an array of 12); 0 is taken. -/
noncomputable def fromCameraInfo (m : CameraInfo) : Pinhole :=
  let bx : ℝ := binning m.binningX
  let by' : ℝ := binning m.binningY
  let p (i : ℕ) : ℝ := (m.p[i]?).getD 0
  ⟨p 0 / bx, p 5 / by', (p 2 - m.roiX) / bx, (p 6 - m.roiY) / by', p 3 / bx, p 7 / by', toInt32 m.width, toInt32 m.height⟩

/-- `std::vector<double>::resize(n, 0)`. Models the library (used in src/ros/msg_conversions.cpp:38 and
src/sensors/DepthCamera.cpp:41). -/
def resize (l : List ℝ) (n : ℕ) : List ℝ := l.take n ++ List.replicate (n - l.length) 0

/-- The constructor from numbers, src/sensors/DepthCamera.cpp:38-87. -/
noncomputable def ofNumbers (width height : ℕ) (fx fy cx cy tx ty : ℝ) : Pinhole :=
  let info := CameraInfo.new
  let info := { info with d := resize info.d 5 }
  let info := { info with k := [fx, 0, cx, 0, fy, cy, 0, 0, 1] }
  let info := { info with r := [1, 0, 0, 0, 1, 0, 0, 0, 1] }
  let info := { info with p := [fx, 0, cx, tx, 0, fy, cy, ty, 0, 0, 1, 0] }
  let info := { info with width := width, height := height }
  fromCameraInfo info

/-- The constructor from a message, src/sensors/DepthCamera.cpp:94-99, with `initFromCamModel`, 103-106. -/
noncomputable def ofInfo (info : CameraInfo) : Pinhole := fromCameraInfo info

/-- `convert(DepthCamera, CameraInfo)`, src/ros/msg_conversions.cpp:34-88. -/
def toInfo (c : Pinhole) (msg : CameraInfo) : CameraInfo :=
  let msg := { msg with distortionModel := "plumb_bob" }
  let msg := { msg with d := resize msg.d 5 }
  let msg := { msg with k := [c.fx, 0, c.cx, 0, c.fy, c.cy, 0, 0, 1] }
  let msg := { msg with r := [1, 0, 0, 0, 1, 0, 0, 0, 1] }
  let msg := { msg with p := [c.fx, 0, c.cx, c.Tx, 0, c.fy, c.cy, c.Ty, 0, 0, 1, 0] }
  let msg := { msg with width := Shapes.asUInt c.width, height := Shapes.asUInt c.height }
  { msg with binningX := 1, binningY := 1 }

/-- The camera of the rasterising code, with the size as a natural number, include/geolib/sensors/DepthCamera.h:231-251. -/
def Pinhole.camera (c : Pinhole) : Camera := ⟨c.fx, c.fy, c.cx, c.cy, c.Tx, c.Ty, c.width.toNat, c.height.toNat⟩

/-! ## tf2 -/

/-- `tf2::Vector3`: coordinates in an array, used in include/geolib/ros/tf2_conversions.h:23-26. -/
structure TfVector where
  floats : List ℝ

/-- `tf2::Quaternion`: x, y, z, w in an array, used in include/geolib/ros/tf2_conversions.h:28-31. -/
structure TfQuaternion where
  floats : List ℝ

/-- `tf2::Matrix3x3`: rows, used in include/geolib/ros/tf2_conversions.h:33-36. -/
structure TfMatrix where
  rows : List (List ℝ)

/-- `tf2::Transform`, used in include/geolib/ros/tf2_conversions.h:38-42. -/
structure TfTransform where
  origin : TfVector
  basis : TfMatrix

/-- `convert(geo::Vector3, tf2::Vector3)`, include/geolib/ros/tf2_conversions.h:23-26. -/
def toTfVector (v : Vec3) : TfVector := ⟨[v.x, v.y, v.z]⟩

/-- `convert(geo::Quaternion, tf2::Quaternion)`, include/geolib/ros/tf2_conversions.h:28-31. -/
def toTfQuaternion (q : Quat) : TfQuaternion := ⟨[q.x, q.y, q.z, q.w]⟩

/-- `convert(geo::Matrix3, tf2::Matrix3x3)`, include/geolib/ros/tf2_conversions.h:33-36. -/
def toTfMatrix (m : Mat3) : TfMatrix := ⟨[[m.xx, m.xy, m.xz], [m.yx, m.yy, m.yz], [m.zx, m.zy, m.zz]]⟩

/-- `convert(geo::Transform, tf2::Transform)`, include/geolib/ros/tf2_conversions.h:38-42. -/
def toTfTransform (t : Transform3) : TfTransform := ⟨toTfVector t.t, toTfMatrix t.R⟩

/-- An element of an array of the tf2 library (0 outside, which does not occur), used in
include/geolib/ros/tf2_conversions.h:46-64. -/
def tfGet (l : List ℝ) (i : ℕ) : ℝ := (l[i]?).getD 0

/-- `tf[i][j]`, used in include/geolib/ros/tf2_conversions.h:63. -/
def TfMatrix.get (m : TfMatrix) (i j : ℕ) : ℝ := tfGet ((m.rows[i]?).getD []) j

/-- `convert(tf2::Vector3, geo::Vector3)`, include/geolib/ros/tf2_conversions.h:46-51. -/
def ofTfVector (t : TfVector) : Vec3 := ⟨tfGet t.floats 0, tfGet t.floats 1, tfGet t.floats 2⟩

/-- `convert(tf2::Quaternion, geo::Quaternion)`, include/geolib/ros/tf2_conversions.h:53-59. -/
def ofTfQuaternion (t : TfQuaternion) : Quat := ⟨tfGet t.floats 0, tfGet t.floats 1, tfGet t.floats 2, tfGet t.floats 3⟩

/-- `convert(tf2::Matrix3x3, geo::Matrix3)`, include/geolib/ros/tf2_conversions.h:61-64. -/
def ofTfMatrix (t : TfMatrix) : Mat3 :=
  ⟨t.get 0 0, t.get 0 1, t.get 0 2, t.get 1 0, t.get 1 1, t.get 1 2, t.get 2 0, t.get 2 1, t.get 2 2⟩

/-- `convert(tf2::Transform, geo::Transform)`, include/geolib/ros/tf2_conversions.h:66-70. -/
def ofTfTransform (t : TfTransform) : Transform3 := ⟨ofTfMatrix t.basis, ofTfVector t.origin⟩

end Geo.Ros
