import Verif.Spec.Conversions
import Verif.Props.Math
import Verif.Lemmas.Import

/-!
# Properties of the conversions to and from messages (C72, C73)
-/

namespace Geo

open Spec Ros

/-- C72: points, vectors and quaternions return unchanged from their messages, as do proper rotations and poses with a proper
rotation, which are sent as unit quaternions. -/
theorem C72_messages (v : Vec3) (q : Quat) :
    ofPoint (toPoint v) = v ∧ ofVector3 (toVector3 v) = v ∧ ofQuaternion (toQuaternion q) = q ∧
    (∀ p, toPoint (ofPoint p) = p) ∧ (∀ p, toVector3 (ofVector3 p) = p) ∧ (∀ p, toQuaternion (ofQuaternion p) = p) ∧
    (∀ R, Rotation R → quaternionToRotation (rotationToQuaternion R) = R ∧
      (rotationToQuaternion R).x ^ 2 + (rotationToQuaternion R).y ^ 2 + (rotationToQuaternion R).z ^ 2 +
        (rotationToQuaternion R).w ^ 2 = 1) ∧
    ∀ T : Transform3, Rotation T.R → ofPose (toPose T) = T ∧ ofTransform (toTransform T) = T := by
  have hq : ∀ R, Rotation R → quaternionToRotation (rotationToQuaternion R) = R := fun R h =>
    (C05_quaternion_roundtrip (T := ⟨R, ⟨0, 0, 0⟩⟩) h).2.2
  refine ⟨rfl, rfl, rfl, fun p => rfl, fun p => rfl, fun p => rfl, fun R h => ⟨hq R h, ?_⟩, fun T h => ⟨?_, ?_⟩⟩
  · exact (C05_quaternion_roundtrip (T := ⟨R, ⟨0, 0, 0⟩⟩) h).2.1
  · unfold ofPose toPose
    rw [hq _ h]
    rfl
  · unfold ofTransform toTransform
    rw [hq _ h]
    rfl

/-- C72: a pose message with a non-zero quaternion is read as a rigid transform, and is sent back with the same position and the
normalised quaternion, or its negative. -/
theorem C72_back (m : Pose) (h : ofQuaternion m.orientation ≠ ⟨0, 0, 0, 0⟩) :
    Rotation (ofPose m).R ∧ (toPose (ofPose m)).position = m.position ∧
    (ofQuaternion (toPose (ofPose m)).orientation = (ofQuaternion m.orientation).normalized ∨
      ofQuaternion (toPose (ofPose m)).orientation = (ofQuaternion m.orientation).normalized.scale (-1)) := by
  obtain ⟨h1, -, -, h2, -⟩ := C06_setRotation h
  exact ⟨h1, rfl, h2⟩

/-- C72: the tf2 conversions return vectors, quaternions, matrices and transforms unchanged, whether rigid or not. -/
theorem C72_tf2 (v : Vec3) (q : Quat) (m : Mat3) (t : Transform3) :
    ofTfVector (toTfVector v) = v ∧ ofTfQuaternion (toTfQuaternion q) = q ∧ ofTfMatrix (toTfMatrix m) = m ∧
    ofTfTransform (toTfTransform t) = t :=
  ⟨rfl, rfl, rfl, rfl⟩

/-- C72 for `Point32`: numbers that fit a `float` return unchanged; others are rounded once, to numbers that fit a `float`,
and then stay. Missing: other numbers, for which it is false (`C72_point32_wrong`). -/
theorem C72_point32_partial {narrow : ℝ → ℝ} (hn : Narrows narrow) (v : Vec3) :
    (Binary 24 v.x → Binary 24 v.y → Binary 24 v.z → ofPoint32 (toPoint32 narrow v) = v) ∧
    toPoint32 narrow (ofPoint32 (toPoint32 narrow v)) = toPoint32 narrow v ∧
    (Binary 24 (toPoint32 narrow v).x ∧ Binary 24 (toPoint32 narrow v).y ∧ Binary 24 (toPoint32 narrow v).z) := by
  refine ⟨?_, ?_, hn.1 _, hn.1 _, hn.1 _⟩
  · intro hx hy hz
    unfold ofPoint32 toPoint32
    simp only [hn.2 _ hx, hn.2 _ hy, hn.2 _ hz]
  · unfold ofPoint32 toPoint32
    simp only [hn.2 _ (hn.1 _)]

/-- C72 for `Point32` in general: some `double` does not return, whatever the rounding. -/
theorem C72_point32_wrong {narrow : ℝ → ℝ} (hn : Narrows narrow) :
    ∃ v : Vec3, (Binary 53 v.x ∧ Binary 53 v.y ∧ Binary 53 v.z) ∧ ofPoint32 (toPoint32 narrow v) ≠ v := by
  have hz : Binary 53 0 := ⟨0, 0, by norm_num, by norm_num⟩
  refine ⟨⟨2 ^ 52 + 1, 0, 0⟩, ⟨⟨2 ^ 52 + 1, 0, by norm_num, by norm_num⟩, hz, hz⟩, fun h => ?_⟩
  have hx : narrow (2 ^ 52 + 1) = 2 ^ 52 + 1 := congrArg Vec3.x h
  obtain ⟨m, e, hm, he⟩ := hn.1 (2 ^ 52 + 1)
  rw [hx] at he
  have hm' : m < 2 ^ 24 := (abs_lt.1 hm).2
  rcases le_or_gt e 0 with h0 | h0
  · obtain ⟨k, rfl⟩ : ∃ k : ℕ, e = -k := ⟨e.natAbs, by omega⟩
    have : (2 : ℝ) ^ (-(k : ℤ)) ≤ 1 := zpow_le_one_of_nonpos₀ (by norm_num) (by omega)
    have hp : (0 : ℝ) < (2 : ℝ) ^ (-(k : ℤ)) := by positivity
    have hr : (m : ℝ) < 2 ^ 24 := by exact_mod_cast hm'
    nlinarith
  · obtain ⟨k, rfl⟩ : ∃ k : ℕ, e = k + 1 := ⟨(e - 1).toNat, by omega⟩
    have e1 : (2 : ℝ) ^ ((k : ℤ) + 1) = ((2 ^ (k + 1) : ℤ) : ℝ) := by
      push_cast
      exact_mod_cast rfl
    rw [e1] at he
    have e2 : (2 ^ 52 + 1 : ℤ) = m * 2 ^ (k + 1) := by exact_mod_cast he
    have e3 : (2 : ℤ) ^ (k + 1) = 2 ^ k * 2 := pow_succ 2 k
    rw [e3] at e2
    generalize (2 : ℤ) ^ k = y at e2
    have : (2 ^ 52 + 1 : ℤ) = 2 * (m * y) := e2.trans (by ring)
    omega

/-- A quarter turn about z with a translation, a number that fits a `float`, and a quaternion message that is not normalised. -/
example : Rotation (⟨⟨0, -1, 0, 1, 0, 0, 0, 0, 1⟩, ⟨1, 2, 3⟩⟩ : Transform3).R ∧ Binary 24 0.5 ∧
    ofQuaternion ⟨0, 0, 2, 0⟩ ≠ ⟨0, 0, 0, 0⟩ := by
  refine ⟨?_, ⟨1, -1, by norm_num, by norm_num⟩, ?_⟩
  · rw [rotation_iff, orth_iff]
    norm_num
  · intro h
    have := congrArg Quat.z h
    norm_num [ofQuaternion] at this

open Classical in
/-- Some function narrows. -/
example : ∃ narrow, Narrows narrow := by
  refine ⟨fun x => if Binary 24 x then x else 0, fun x => ?_, fun x h => if_pos h⟩
  show Binary 24 (if Binary 24 x then x else 0)
  split_ifs with h
  · exact h
  · exact ⟨0, 0, by norm_num, by norm_num⟩

/-! ## Meshes -/

/-- C73: converting a mesh into a message appends its points and triangles in order, leaving the indices as they are. -/
theorem C73_mesh (m : Mesh) (msg : MeshMsg) :
    (toMesh m msg).vertices = msg.vertices ++ m.points.map toPoint ∧
    (toMesh m msg).triangles = msg.triangles ++ m.tris.map fun t => [t.i1, t.i2, t.i3] := by
  have hv : ∀ (l : List Vec3) (msg : MeshMsg), l.foldl (fun (msg : MeshMsg) p => { msg with vertices := msg.vertices ++ [toPoint p] }) msg =
      ⟨msg.vertices ++ l.map toPoint, msg.triangles⟩ := by
    intro l
    induction l with
    | nil => intro msg; simp
    | cons p l ih => intro msg; rw [List.foldl_cons, ih]; simp
  have ht : ∀ (l : List TriI) (msg : MeshMsg), l.foldl (fun (msg : MeshMsg) t => { msg with triangles := msg.triangles ++ [toTriangle t] }) msg =
      ⟨msg.vertices, msg.triangles ++ l.map toTriangle⟩ := by
    intro l
    induction l with
    | nil => intro msg; simp
    | cons p l ih => intro msg; rw [List.foldl_cons, ih]; simp
  unfold toMesh
  simp only [hv, ht]
  exact ⟨trivial, rfl⟩

/-- C73: in an empty message every triangle has the corners it has in the mesh; in a message that has vertices, an index below
their number refers to one of them instead. -/
theorem C73_corners (m : Mesh) (msg : MeshMsg) (i : ℕ) :
    (msg.vertices = [] → ((toMesh m msg).vertices[i]?).map ofPoint = m.points[i]?) ∧
    (i < msg.vertices.length → (toMesh m msg).vertices[i]? = msg.vertices[i]?) := by
  rw [(C73_mesh m msg).1]
  constructor
  · intro h
    rw [h, List.nil_append, List.getElem?_map, Option.map_map]
    exact Option.map_id' ..
  · intro h
    exact List.getElem?_append_left h

/-- Sending a triangle twice into the same message: the second copy shows the points of the first. -/
example : let m : Mesh := ⟨[⟨0, 0, 0⟩, ⟨1, 0, 0⟩, ⟨0, 1, 0⟩], [⟨0, 1, 2⟩], [], 0, 0⟩
    let m' : Mesh := ⟨[⟨0, 0, 5⟩, ⟨1, 0, 5⟩, ⟨0, 1, 5⟩], [⟨0, 1, 2⟩], [], 0, 0⟩
    (toMesh m' (toMesh m ⟨[], []⟩)).triangles[1]? = some [0, 1, 2] ∧
    (toMesh m' (toMesh m ⟨[], []⟩)).vertices[0]? = some ⟨0, 0, 0⟩ :=
  ⟨rfl, rfl⟩

/-! ## Cameras -/

/-- C73: a camera constructed from numbers has those intrinsics and that size. -/
theorem C73_constructor {width height : ℕ} (hw : width < 2 ^ 31) (hh : height < 2 ^ 31) (fx fy cx cy tx ty : ℝ) :
    (ofNumbers width height fx fy cx cy tx ty).camera = ⟨fx, fy, cx, cy, tx, ty, width, height⟩ := by
  have t : ∀ n : ℕ, n < 2 ^ 31 → (toInt32 n).toNat = n := fun n h => by
    unfold toInt32
    rw [if_pos h]
    exact Int.toNat_natCast n
  simp [ofNumbers, fromCameraInfo, CameraInfo.new, binning, Ros.Pinhole.camera, t _ hw, t _ hh]

/-- C73: a camera converted to a message without region of interest, such as a new one, and used to construct a camera has the
same intrinsics and size, whatever else the message contained. The distortion is zero if the message had none. Missing: messages
with a region of interest or distortion coefficients, for which it is false (`C73_reused_wrong`). -/
theorem C73_camera_partial {c : Pinhole} (hw : -2 ^ 31 ≤ c.width ∧ c.width < 2 ^ 31) (hh : -2 ^ 31 ≤ c.height ∧ c.height < 2 ^ 31)
    {msg : CameraInfo} (hx : msg.roiX = 0) (hy : msg.roiY = 0) :
    ofInfo (toInfo c msg) = c ∧ (toInfo c msg).d.length = 5 ∧
    ((∀ a ∈ msg.d, a = 0) → ∀ a ∈ (toInfo c msg).d, a = 0) := by
  have t : ∀ n : ℤ, -2 ^ 31 ≤ n ∧ n < 2 ^ 31 → toInt32 (Shapes.asUInt n) = n := fun n h => by
    unfold toInt32 Shapes.asUInt
    split_ifs <;> omega
  refine ⟨?_, ?_, ?_⟩
  · simp [ofInfo, toInfo, fromCameraInfo, binning, hx, hy, t _ hw, t _ hh]
  · simp only [toInfo, resize, List.length_append, List.length_take, List.length_replicate]
    omega
  · intro h a ha
    simp only [toInfo, resize] at ha
    rcases List.mem_append.1 ha with ha | ha
    · exact h a (List.mem_of_mem_take ha)
    · exact List.eq_of_mem_replicate ha

/-- C73: the camera of any message is within the range of the theorem above. -/
theorem C73_size (info : CameraInfo) (hw : info.width < 2 ^ 32) (hh : info.height < 2 ^ 32) :
    (-2 ^ 31 ≤ (ofInfo info).width ∧ (ofInfo info).width < 2 ^ 31) ∧ -2 ^ 31 ≤ (ofInfo info).height ∧
      (ofInfo info).height < 2 ^ 31 := by
  simp only [ofInfo, fromCameraInfo, toInt32]
  split_ifs <;> omega

/-- C73 for a message that is used again: the region of interest of the earlier content moves the optical centre, and its
distortion coefficients are kept. -/
theorem C73_reused_wrong : ∃ (c : Pinhole) (msg : CameraInfo), c = ofNumbers 640 480 500 500 320 240 0 0 ∧
    (ofInfo (toInfo c msg)).cx = c.cx - 100 ∧ 0.25 ∈ (toInfo c msg).d := by
  refine ⟨_, { CameraInfo.new with roiX := 100, d := [0.25, 0, 0, 0, 0] }, rfl, ?_, ?_⟩
  · simp [ofInfo, toInfo, fromCameraInfo, ofNumbers, binning, CameraInfo.new]
  · simp [toInfo, resize]

/-- A camera and the new message meet the conditions of `C73_camera_partial`. -/
example : let c := ofNumbers 640 480 500 500 320 240 0 0
    (-2 ^ 31 ≤ c.width ∧ c.width < 2 ^ 31) ∧ (-2 ^ 31 ≤ c.height ∧ c.height < 2 ^ 31) ∧ CameraInfo.new.roiX = 0 := by
  refine ⟨?_, ?_, rfl⟩ <;> simp [ofNumbers, fromCameraInfo, toInt32]

end Geo
