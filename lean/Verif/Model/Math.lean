import Verif.Model.Basic

/-!
# Model of include/geolib/math_types.h

Doubles are modelled by exact reals. Template parameter `T` is fixed to `real` (`double`).
-/

namespace Geo

/-! ## Vectors -/

/-- `Vec2T<real>`: include/geolib/math_types.h:21-154 (members 146-153). -/
@[ext] structure Vec2 where
  x : ℝ
  y : ℝ

/-- `Vec3T<real>`: include/geolib/math_types.h:158-303 (members 295-302). -/
@[ext] structure Vec3 where
  x : ℝ
  y : ℝ
  z : ℝ

namespace Vec2

/-- `Vec2T::dot`, include/geolib/math_types.h:52. -/
def dot (a b : Vec2) : ℝ := a.x * b.x + a.y * b.y

/-- `Vec2T::cross`, include/geolib/math_types.h:55. -/
def cross (a b : Vec2) : ℝ := a.x * b.y - a.y * b.x

/-- `Vec2T::operator+`, include/geolib/math_types.h:58. -/
instance : Add Vec2 := ⟨fun a b => ⟨a.x + b.x, a.y + b.y⟩⟩

/-- `Vec2T::operator-`, include/geolib/math_types.h:61. -/
instance : Sub Vec2 := ⟨fun a b => ⟨a.x - b.x, a.y - b.y⟩⟩

/-- `Vec2T::operator*(T)`, include/geolib/math_types.h:64. -/
instance : HMul Vec2 ℝ Vec2 := ⟨fun a s => ⟨a.x * s, a.y * s⟩⟩

/-- `Vec2T::operator/(T)`, include/geolib/math_types.h:67. -/
noncomputable instance : HDiv Vec2 ℝ Vec2 := ⟨fun a s => ⟨a.x / s, a.y / s⟩⟩

/-- `operator*(T, Vec2T)`, include/geolib/math_types.h:70. -/
instance : HMul ℝ Vec2 Vec2 := ⟨fun s a => ⟨a.x * s, a.y * s⟩⟩

/-- unary `operator-`, include/geolib/math_types.h:93. -/
instance : Neg Vec2 := ⟨fun a => ⟨-a.x, -a.y⟩⟩

/-- `Vec2T::length`, include/geolib/math_types.h:73. -/
noncomputable def length (a : Vec2) : ℝ := Real.sqrt (a.x * a.x + a.y * a.y)

/-- `Vec2T::length2`, include/geolib/math_types.h:76. -/
def length2 (a : Vec2) : ℝ := a.x * a.x + a.y * a.y

/-- `Vec2T::normalized`, include/geolib/math_types.h:79-83 (and `normalize`, 86-91).
Simplification: division by zero gives 0 instead of NaN; results for the zero vector are not claimed. -/
noncomputable def normalized (a : Vec2) : Vec2 :=
  let len := a.length
  ⟨a.x / len, a.y / len⟩

/-- `Vec2T::projectTo3d`, include/geolib/math_types.h:137. -/
def projectTo3d (a : Vec2) : Vec3 := ⟨a.x, a.y, 0⟩

@[simp] theorem add_x (a b : Vec2) : (a + b).x = a.x + b.x := rfl
@[simp] theorem add_y (a b : Vec2) : (a + b).y = a.y + b.y := rfl
@[simp] theorem sub_x (a b : Vec2) : (a - b).x = a.x - b.x := rfl
@[simp] theorem sub_y (a b : Vec2) : (a - b).y = a.y - b.y := rfl
@[simp] theorem neg_x (a : Vec2) : (-a).x = -a.x := rfl
@[simp] theorem neg_y (a : Vec2) : (-a).y = -a.y := rfl
@[simp] theorem mul_x (a : Vec2) (s : ℝ) : (a * s).x = a.x * s := rfl
@[simp] theorem mul_y (a : Vec2) (s : ℝ) : (a * s).y = a.y * s := rfl
@[simp] theorem smul_x (a : Vec2) (s : ℝ) : (s * a).x = a.x * s := rfl
@[simp] theorem smul_y (a : Vec2) (s : ℝ) : (s * a).y = a.y * s := rfl
@[simp] theorem div_x (a : Vec2) (s : ℝ) : (a / s).x = a.x / s := rfl
@[simp] theorem div_y (a : Vec2) (s : ℝ) : (a / s).y = a.y / s := rfl

end Vec2

namespace Vec3

/-- `Vec3T(T value)`, include/geolib/math_types.h:165. -/
def all (v : ℝ) : Vec3 := ⟨v, v, v⟩

/-- default constructor, include/geolib/math_types.h:162. -/
instance : Zero Vec3 := ⟨⟨0, 0, 0⟩⟩

/-- `Vec3T::operator[]`, include/geolib/math_types.h:181-183 (union member `m`, 295-302).
Simplification: only indices 0,1,2 occur at the call sites; others are mapped to `z`. -/
def get (a : Vec3) (i : ℕ) : ℝ := if i = 0 then a.x else if i = 1 then a.y else a.z

/-- `Vec3T::dot`, include/geolib/math_types.h:190. -/
def dot (a b : Vec3) : ℝ := a.x * b.x + a.y * b.y + a.z * b.z

/-- `Vec3T::cross`, include/geolib/math_types.h:193. -/
def cross (a b : Vec3) : Vec3 :=
  ⟨a.y * b.z - a.z * b.y, a.z * b.x - a.x * b.z, a.x * b.y - a.y * b.x⟩

/-- `Vec3T::operator+`, include/geolib/math_types.h:196. -/
instance : Add Vec3 := ⟨fun a b => ⟨a.x + b.x, a.y + b.y, a.z + b.z⟩⟩

/-- `Vec3T::operator-`, include/geolib/math_types.h:199. -/
instance : Sub Vec3 := ⟨fun a b => ⟨a.x - b.x, a.y - b.y, a.z - b.z⟩⟩

/-- `Vec3T::operator*(T)`, include/geolib/math_types.h:202. -/
instance : HMul Vec3 ℝ Vec3 := ⟨fun a s => ⟨a.x * s, a.y * s, a.z * s⟩⟩

/-- `Vec3T::operator/(T)`, include/geolib/math_types.h:205. -/
noncomputable instance : HDiv Vec3 ℝ Vec3 := ⟨fun a s => ⟨a.x / s, a.y / s, a.z / s⟩⟩

/-- `operator*(T, Vec3T)`, include/geolib/math_types.h:208. -/
instance : HMul ℝ Vec3 Vec3 := ⟨fun s a => ⟨a.x * s, a.y * s, a.z * s⟩⟩

/-- unary `operator-`, include/geolib/math_types.h:232. -/
instance : Neg Vec3 := ⟨fun a => ⟨-a.x, -a.y, -a.z⟩⟩

/-- `Vec3T::length`, include/geolib/math_types.h:211. -/
noncomputable def length (a : Vec3) : ℝ := Real.sqrt (a.x * a.x + a.y * a.y + a.z * a.z)

/-- `Vec3T::length2`, include/geolib/math_types.h:214. -/
def length2 (a : Vec3) : ℝ := a.x * a.x + a.y * a.y + a.z * a.z

/-- `Vec3T::normalized`, include/geolib/math_types.h:217-221 (and `normalize`, 224-230).
Simplification: division by zero gives 0 instead of NaN; results for the zero vector are not claimed. -/
noncomputable def normalized (a : Vec3) : Vec3 :=
  let len := a.length
  ⟨a.x / len, a.y / len, a.z / len⟩

/-- `Vec3T::projectTo2d`, include/geolib/math_types.h:286. -/
def projectTo2d (a : Vec3) : Vec2 := ⟨a.x, a.y⟩

@[simp] theorem zero_x : (0 : Vec3).x = 0 := rfl
@[simp] theorem zero_y : (0 : Vec3).y = 0 := rfl
@[simp] theorem zero_z : (0 : Vec3).z = 0 := rfl
@[simp] theorem add_x (a b : Vec3) : (a + b).x = a.x + b.x := rfl
@[simp] theorem add_y (a b : Vec3) : (a + b).y = a.y + b.y := rfl
@[simp] theorem add_z (a b : Vec3) : (a + b).z = a.z + b.z := rfl
@[simp] theorem sub_x (a b : Vec3) : (a - b).x = a.x - b.x := rfl
@[simp] theorem sub_y (a b : Vec3) : (a - b).y = a.y - b.y := rfl
@[simp] theorem sub_z (a b : Vec3) : (a - b).z = a.z - b.z := rfl
@[simp] theorem neg_x (a : Vec3) : (-a).x = -a.x := rfl
@[simp] theorem neg_y (a : Vec3) : (-a).y = -a.y := rfl
@[simp] theorem neg_z (a : Vec3) : (-a).z = -a.z := rfl
@[simp] theorem mul_x (a : Vec3) (s : ℝ) : (a * s).x = a.x * s := rfl
@[simp] theorem mul_y (a : Vec3) (s : ℝ) : (a * s).y = a.y * s := rfl
@[simp] theorem mul_z (a : Vec3) (s : ℝ) : (a * s).z = a.z * s := rfl
@[simp] theorem smul_x (a : Vec3) (s : ℝ) : (s * a).x = a.x * s := rfl
@[simp] theorem smul_y (a : Vec3) (s : ℝ) : (s * a).y = a.y * s := rfl
@[simp] theorem smul_z (a : Vec3) (s : ℝ) : (s * a).z = a.z * s := rfl
@[simp] theorem div_x (a : Vec3) (s : ℝ) : (a / s).x = a.x / s := rfl
@[simp] theorem div_y (a : Vec3) (s : ℝ) : (a / s).y = a.y / s := rfl
@[simp] theorem div_z (a : Vec3) (s : ℝ) : (a / s).z = a.z / s := rfl
@[simp] theorem cross_x (a b : Vec3) : (a.cross b).x = a.y * b.z - a.z * b.y := rfl
@[simp] theorem cross_y (a b : Vec3) : (a.cross b).y = a.z * b.x - a.x * b.z := rfl
@[simp] theorem cross_z (a b : Vec3) : (a.cross b).z = a.x * b.y - a.y * b.x := rfl

end Vec3

/-! ## Matrices and quaternions -/

/-- `Mat2T<real>`: include/geolib/math_types.h:307-390. -/
@[ext] structure Mat2 where
  xx : ℝ
  xy : ℝ
  yx : ℝ
  yy : ℝ

/-- `Mat3T<real>`: include/geolib/math_types.h:483-710. -/
@[ext] structure Mat3 where
  xx : ℝ
  xy : ℝ
  xz : ℝ
  yx : ℝ
  yy : ℝ
  yz : ℝ
  zx : ℝ
  zy : ℝ
  zz : ℝ

/-- `QuaternionT<real>`: include/geolib/math_types.h:394-479. -/
@[ext] structure Quat where
  x : ℝ
  y : ℝ
  z : ℝ
  w : ℝ

namespace Mat2

/-- `Mat2T::operator*(Vec2T)`, include/geolib/math_types.h:344. -/
def mulVec (m : Mat2) (v : Vec2) : Vec2 := ⟨m.xx * v.x + m.xy * v.y, m.yx * v.x + m.yy * v.y⟩

/-- `Mat2T::operator*(Mat2T)`, include/geolib/math_types.h:347-350. -/
def mul (a m : Mat2) : Mat2 :=
  ⟨a.xx * m.xx + a.xy * m.yx, a.xx * m.xy + a.xy * m.yy,
   a.yx * m.xx + a.yy * m.yx, a.yx * m.xy + a.yy * m.yy⟩

/-- `Mat2T::transpose`, include/geolib/math_types.h:352. -/
def transpose (m : Mat2) : Mat2 := ⟨m.xx, m.yx, m.xy, m.yy⟩

/-- `Mat2T::identity`, include/geolib/math_types.h:367. -/
def identity : Mat2 := ⟨1, 0, 0, 1⟩

/-- `Mat2T::projectTo3d`, include/geolib/math_types.h:373. -/
def projectTo3d (m : Mat2) : Mat3 := ⟨m.xx, m.xy, 0, m.yx, m.yy, 0, 0, 0, 1⟩

end Mat2

namespace Quat

/-- Element access of the union member `m`, include/geolib/math_types.h:471-478.
Simplification: indices above 3 (never used) are mapped to `w`. -/
def set (q : Quat) (i : ℕ) (v : ℝ) : Quat :=
  if i = 0 then { q with x := v } else if i = 1 then { q with y := v }
  else if i = 2 then { q with z := v } else { q with w := v }

/-- `QuaternionT::operator*(T)`, include/geolib/math_types.h:438-440. -/
def scale (s : ℝ) (q : Quat) : Quat := ⟨q.x * s, q.y * s, q.z * s, q.w * s⟩

/-- `QuaternionT::length`, include/geolib/math_types.h:443. -/
noncomputable def length (q : Quat) : ℝ :=
  Real.sqrt (q.x * q.x + q.y * q.y + q.z * q.z + q.w * q.w)

/-- `QuaternionT::length2`, include/geolib/math_types.h:446. -/
def length2 (q : Quat) : ℝ := q.x * q.x + q.y * q.y + q.z * q.z + q.w * q.w

/-- `QuaternionT::normalized`, include/geolib/math_types.h:449-453 (and `normalize`, 456-463). -/
noncomputable def normalized (q : Quat) : Quat :=
  let len := q.length
  ⟨q.x / len, q.y / len, q.z / len, q.w / len⟩

end Quat

namespace Mat3

/-- Element access of the union member `m`, include/geolib/math_types.h:678-685.
Simplification: indices above 8 (never used) are mapped to `zz`. -/
def get (a : Mat3) (i : ℕ) : ℝ :=
  if i = 0 then a.xx else if i = 1 then a.xy else if i = 2 then a.xz
  else if i = 3 then a.yx else if i = 4 then a.yy else if i = 5 then a.yz
  else if i = 6 then a.zx else if i = 7 then a.zy else a.zz

/-- `Mat3T(Vec3T x, Vec3T y, Vec3T z)` (columns), include/geolib/math_types.h:501-504. -/
def ofCols (x y z : Vec3) : Mat3 := ⟨x.x, y.x, z.x, x.y, y.y, z.y, x.z, y.z, z.z⟩

/-- `Mat3T::operator*(Vec3T)`, include/geolib/math_types.h:549-552. -/
def mulVec (m : Mat3) (v : Vec3) : Vec3 :=
  ⟨m.xx * v.x + m.xy * v.y + m.xz * v.z,
   m.yx * v.x + m.yy * v.y + m.yz * v.z,
   m.zx * v.x + m.zy * v.y + m.zz * v.z⟩

/-- `Mat3T::operator*(Mat3T)`, include/geolib/math_types.h:554-565. -/
def mul (a m : Mat3) : Mat3 :=
  ⟨a.xx * m.xx + a.xy * m.yx + a.xz * m.zx,
   a.xx * m.xy + a.xy * m.yy + a.xz * m.zy,
   a.xx * m.xz + a.xy * m.yz + a.xz * m.zz,
   a.yx * m.xx + a.yy * m.yx + a.yz * m.zx,
   a.yx * m.xy + a.yy * m.yy + a.yz * m.zy,
   a.yx * m.xz + a.yy * m.yz + a.yz * m.zz,
   a.zx * m.xx + a.zy * m.yx + a.zz * m.zx,
   a.zx * m.xy + a.zy * m.yy + a.zz * m.zy,
   a.zx * m.xz + a.zy * m.yz + a.zz * m.zz⟩

/-- `Mat3T::transpose`, include/geolib/math_types.h:583. -/
def transpose (m : Mat3) : Mat3 := ⟨m.xx, m.yx, m.zx, m.xy, m.yy, m.zy, m.xz, m.yz, m.zz⟩

/-- `Mat3T::getRow`, include/geolib/math_types.h:585. -/
def getRow (m : Mat3) (i : ℕ) : Vec3 := ⟨m.get (i * 3), m.get (i * 3 + 1), m.get (i * 3 + 2)⟩

/-- `Mat3T::getColumn`, include/geolib/math_types.h:587. -/
def getColumn (m : Mat3) (i : ℕ) : Vec3 := ⟨m.get i, m.get (3 + i), m.get (6 + i)⟩

/-- `Mat3T::setRPY`, include/geolib/math_types.h:589-610. -/
noncomputable def setRPY (roll pitch yaw : ℝ) : Mat3 :=
  let ci := Real.cos roll
  let cj := Real.cos pitch
  let ch := Real.cos yaw
  let si := Real.sin roll
  let sj := Real.sin pitch
  let sh := Real.sin yaw
  let cc := ci * ch
  let cs := ci * sh
  let sc := si * ch
  let ss := si * sh
  ⟨cj * ch, sj * sc - cs, sj * cc + ss,
   cj * sh, sj * ss + cc, sj * cs - sc,
   -sj, cj * si, cj * ci⟩

/-- `Mat3T::identity`, include/geolib/math_types.h:612. -/
def identity : Mat3 := ⟨1, 0, 0, 0, 1, 0, 0, 0, 1⟩

/-- `Mat3T::getRotation`, include/geolib/math_types.h:614-642. The initial value of the output
quaternion is the default-constructed one of `getQuaternion` (832-837); all components are
overwritten. Simplification: a root of a negative number or a division by zero gives 0 instead of
NaN/inf; the property about this function shows that neither occurs for proper rotations. -/
noncomputable def getRotation (a : Mat3) : Quat :=
  let trace := a.xx + a.yy + a.zz
  if trace > 0 then
    let s := Real.sqrt (trace + 1)
    let q := Quat.set ⟨0, 0, 0, 0⟩ 3 (s / 2)
    let s := 0.5 / s
    let q := q.set 0 ((a.zy - a.yz) * s)
    let q := q.set 1 ((a.xz - a.zx) * s)
    q.set 2 ((a.yx - a.xy) * s)
  else
    let i := if a.xx < a.yy then (if a.yy < a.zz then 2 else 1) else (if a.xx < a.zz then 2 else 0)
    let j := (i + 1) % 3
    let k := (i + 2) % 3
    let s := Real.sqrt (a.get (i * 4) - a.get (j * 4) - a.get (k * 4) + 1)
    let q := Quat.set ⟨0, 0, 0, 0⟩ i (s / 2)
    let s := 0.5 / s
    let q := q.set 3 ((a.get (k * 3 + j) - a.get (j * 3 + k)) * s)
    let q := q.set j ((a.get (j * 3 + i) + a.get (i * 3 + j)) * s)
    q.set k ((a.get (k * 3 + i) + a.get (i * 3 + k)) * s)

/-- The radicand used by `Mat3T::getRotation` in the branch taken,
include/geolib/math_types.h:620,634 (used to state that no invalid operation happens). -/
noncomputable def getRotationRadicand (a : Mat3) : ℝ :=
  let trace := a.xx + a.yy + a.zz
  if trace > 0 then trace + 1
  else
    let i := if a.xx < a.yy then (if a.yy < a.zz then 2 else 1) else (if a.xx < a.zz then 2 else 0)
    let j := (i + 1) % 3
    let k := (i + 2) % 3
    a.get (i * 4) - a.get (j * 4) - a.get (k * 4) + 1

/-- `Mat3T::setRotation`, include/geolib/math_types.h:644-662. -/
noncomputable def setRotation (q : Quat) : Mat3 :=
  let d := q.length2
  let s := 2 / d
  let xs := q.x * s
  let ys := q.y * s
  let zs := q.z * s
  let wx := q.w * xs
  let wy := q.w * ys
  let wz := q.w * zs
  let xx := q.x * xs
  let xy := q.x * ys
  let xz := q.x * zs
  let yy := q.y * ys
  let yz := q.y * zs
  let zz := q.z * zs
  ⟨1 - (yy + zz), xy - wz, xz + wy,
   xy + wz, 1 - (xx + zz), yz - wx,
   xz - wy, yz + wx, 1 - (xx + yy)⟩

/-- `Mat3T::projectTo2d`, include/geolib/math_types.h:668. -/
def projectTo2d (m : Mat3) : Mat2 := ⟨m.xx, m.xy, m.yx, m.yy⟩

/-- `Mat3T::normalize` (the new value of the matrix), include/geolib/math_types.h:687-701. -/
noncomputable def normalize (m : Mat3) : Mat3 :=
  let len_x := (m.getColumn 0).length
  let len_y := (m.getColumn 1).length
  let len_z := (m.getColumn 2).length
  ⟨m.xx / len_x, m.xy / len_y, m.xz / len_z,
   m.yx / len_x, m.yy / len_y, m.yz / len_z,
   m.zx / len_x, m.zy / len_y, m.zz / len_z⟩

/-- `Mat3T::normalized`, include/geolib/math_types.h:703-709. -/
noncomputable def normalized (m : Mat3) : Mat3 :=
  let x := m.getColumn 0
  let y := m.getColumn 1
  let z := m.getColumn 2
  ofCols x.normalized y.normalized z.normalized

end Mat3

/-! ## Transforms -/

/-- `Transform2T<real>`: include/geolib/math_types.h:714-789. -/
@[ext] structure Transform2 where
  R : Mat2
  t : Vec2

/-- `Transform3T<real>`: include/geolib/math_types.h:793-892. -/
@[ext] structure Transform3 where
  R : Mat3
  t : Vec3

namespace Transform2

/-- `Transform2T::operator*(Vec2T)`, include/geolib/math_types.h:737. -/
def apply (T : Transform2) (v : Vec2) : Vec2 := T.R.mulVec v + T.t

/-- `Transform2T::operator*(Transform2T)`, include/geolib/math_types.h:739. -/
def mul (T S : Transform2) : Transform2 := ⟨T.R.mul S.R, T.R.mulVec S.t + T.t⟩

/-- `Transform2T::inverse`, include/geolib/math_types.h:754-758. -/
def inverse (T : Transform2) : Transform2 :=
  let inv := T.R.transpose
  ⟨inv, inv.mulVec (-T.t)⟩

/-- `Transform2T::inverseTimes`, include/geolib/math_types.h:741-745. -/
def inverseTimes (T S : Transform2) : Transform2 := T.inverse.mul S

/-- `Transform2T::setRotation`, include/geolib/math_types.h:760-769. -/
noncomputable def setRotation (T : Transform2) (yaw : ℝ) : Transform2 :=
  let c := Real.cos yaw
  let s := Real.sin yaw
  { T with R := ⟨c, -s, s, c⟩ }

/-- `Transform2T::rotation`, include/geolib/math_types.h:771. -/
noncomputable def rotation (T : Transform2) : ℝ := atan2 T.R.yx T.R.xx

/-- `Transform2T::identity`, include/geolib/math_types.h:773. -/
def identity : Transform2 := ⟨Mat2.identity, ⟨0, 0⟩⟩

/-- `Transform2T::projectTo3d`, include/geolib/math_types.h:779. -/
def projectTo3d (T : Transform2) : Transform3 := ⟨T.R.projectTo3d, T.t.projectTo3d⟩

end Transform2

namespace Transform3

/-- `Transform3T::operator*(Vec3T)`, include/geolib/math_types.h:820. -/
def apply (T : Transform3) (v : Vec3) : Vec3 := T.R.mulVec v + T.t

/-- `Transform3T::operator*(Transform3T)`, include/geolib/math_types.h:822. -/
def mul (T S : Transform3) : Transform3 := ⟨T.R.mul S.R, T.R.mulVec S.t + T.t⟩

/-- `Transform3T::inverse`, include/geolib/math_types.h:844-848. -/
def inverse (T : Transform3) : Transform3 :=
  let inv := T.R.transpose
  ⟨inv, inv.mulVec (-T.t)⟩

/-- `Transform3T::inverseTimes`, include/geolib/math_types.h:824-828. -/
def inverseTimes (T S : Transform3) : Transform3 := T.inverse.mul S

/-- `Transform3T::getQuaternion`, include/geolib/math_types.h:832-837. -/
noncomputable def getQuaternion (T : Transform3) : Quat := T.R.getRotation

/-- `Transform3T::setRPY`, include/geolib/math_types.h:850. -/
noncomputable def setRPY (T : Transform3) (roll pitch yaw : ℝ) : Transform3 :=
  { T with R := Mat3.setRPY roll pitch yaw }

/-- `Transform3T::getRPY` as the triple (roll, pitch, yaw), include/geolib/math_types.h:852-867.
Simplification: `M_PI` is the exact `π`. -/
noncomputable def getRPY (T : Transform3) : ℝ × ℝ × ℝ :=
  let epsilon : ℝ := 1e-12
  let pitch := atan2 (-T.R.zx) (Real.sqrt (T.R.zy * T.R.zy + T.R.zz * T.R.zz))
  if |pitch - Real.pi / 2| < epsilon then
    (0, pitch, atan2 (-T.R.xy) T.R.yy)
  else
    (atan2 T.R.zy T.R.zz, pitch, atan2 T.R.yx T.R.xx)

/-- `Transform3T::getYaw`, include/geolib/math_types.h:869-874. -/
noncomputable def getYaw (T : Transform3) : ℝ := T.getRPY.2.2

/-- `Transform3T::identity`, include/geolib/math_types.h:876. -/
def identity : Transform3 := ⟨Mat3.identity, ⟨0, 0, 0⟩⟩

/-- `Transform3T(x, y, z, roll, pitch, yaw)`, include/geolib/math_types.h:800. -/
noncomputable def ofXYZRPY (x y z roll pitch yaw : ℝ) : Transform3 :=
  ⟨Mat3.setRPY roll pitch yaw, ⟨x, y, z⟩⟩

/-- `Transform3T::projectTo2d`, include/geolib/math_types.h:882. -/
def projectTo2d (T : Transform3) : Transform2 := ⟨T.R.projectTo2d, T.t.projectTo2d⟩

end Transform3

end Geo
