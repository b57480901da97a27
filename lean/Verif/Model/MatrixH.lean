import Verif.Model.Math

/-!
# Model of include/geolib/matrix.h (the legacy linear-algebra header)

The classes store plain arrays; they are modelled by their elements in array order.
-/

namespace Geo.Legacy

/-- `class Vector3`, include/geolib/matrix.h:13-83 (`v_[3]`, line 82). -/
@[ext] structure Vector3 where
  v0 : ℝ
  v1 : ℝ
  v2 : ℝ

/-- `class Matrix3x3`, include/geolib/matrix.h:85-164 (`m_[9]`, line 163). -/
@[ext] structure Matrix3x3 where
  m0 : ℝ
  m1 : ℝ
  m2 : ℝ
  m3 : ℝ
  m4 : ℝ
  m5 : ℝ
  m6 : ℝ
  m7 : ℝ
  m8 : ℝ

/-- `class Transform`, include/geolib/matrix.h:166-293 (`o_[3]`, `r_[9]`, lines 291-292). -/
@[ext] structure Transform where
  r : Matrix3x3
  o : Vector3

namespace Vector3

/-- `Vector3::length`, include/geolib/matrix.h:43. -/
noncomputable def length (a : Vector3) : ℝ := Real.sqrt (a.v0 * a.v0 + a.v1 * a.v1 + a.v2 * a.v2)

/-- `Vector3::length2`, include/geolib/matrix.h:45. -/
def length2 (a : Vector3) : ℝ := a.v0 * a.v0 + a.v1 * a.v1 + a.v2 * a.v2

/-- `Vector3::normalize` (new value), include/geolib/matrix.h:47-53. -/
noncomputable def normalize (a : Vector3) : Vector3 :=
  let l := a.length
  ⟨a.v0 / l, a.v1 / l, a.v2 / l⟩

/-- `Vector3::dot`, include/geolib/matrix.h:55. -/
def dot (a v : Vector3) : ℝ := a.v0 * v.v0 + a.v1 * v.v1 + a.v2 * v.v2

/-- `Vector3::operator+`, include/geolib/matrix.h:57-60. -/
def add (a v : Vector3) : Vector3 := ⟨a.v0 + v.v0, a.v1 + v.v1, a.v2 + v.v2⟩

/-- `Vector3::operator-`, include/geolib/matrix.h:62-65. -/
def sub (a v : Vector3) : Vector3 := ⟨a.v0 - v.v0, a.v1 - v.v1, a.v2 - v.v2⟩

/-- `Vector3::operator*(real)`, include/geolib/matrix.h:67 (and the mirrored form, 77). -/
def mul (a : Vector3) (f : ℝ) : Vector3 := ⟨a.v0 * f, a.v1 * f, a.v2 * f⟩

/-- `Vector3::operator/(real)`, include/geolib/matrix.h:69. -/
noncomputable def div (a : Vector3) (f : ℝ) : Vector3 := ⟨a.v0 / f, a.v1 / f, a.v2 / f⟩

/-- unary minus, include/geolib/matrix.h:79. -/
def neg (a : Vector3) : Vector3 := ⟨-a.v0, -a.v1, -a.v2⟩

end Vector3

namespace Matrix3x3

/-- The array `m_`, include/geolib/matrix.h:163; an index outside it is undefined behaviour. -/
def get (m : Matrix3x3) (i : ℕ) : Exec ℝ := vget [m.m0, m.m1, m.m2, m.m3, m.m4, m.m5, m.m6, m.m7, m.m8] i

/-- `Matrix3x3::getRow`, include/geolib/matrix.h:132, for a non-negative `i`. -/
def getRow (m : Matrix3x3) (i : ℕ) : Exec Vector3 := do
  return ⟨← m.get (i * 3), ← m.get (i * 3 + 1), ← m.get (i * 3 + 2)⟩

/-- `Matrix3x3::setRPY` (new value), include/geolib/matrix.h:109-130. -/
noncomputable def setRPY (roll pitch yaw : ℝ) : Matrix3x3 :=
  let ci := Real.cos roll
  let cj := Real.cos pitch
  let ch := Real.cos yaw
  let si := Real.sin roll
  let sj := Real.sin pitch
  let sh := Real.sin yaw
  let cc := ci * ch
  let cs := ci * sh
  let sc := si * ch
  let ss := si * sh
  ⟨cj * ch, sj * sc - cs, sj * cc + ss,
   cj * sh, sj * ss + cc, sj * cs - sc,
   -sj, cj * si, cj * ci⟩

/-- `Matrix3x3::operator*(Matrix3x3)`, include/geolib/matrix.h:134-145. -/
def mul (m n : Matrix3x3) : Matrix3x3 :=
  ⟨m.m0 * n.m0 + m.m1 * n.m3 + m.m2 * n.m6,
   m.m0 * n.m1 + m.m1 * n.m4 + m.m2 * n.m7,
   m.m0 * n.m2 + m.m1 * n.m5 + m.m2 * n.m8,
   m.m3 * n.m0 + m.m4 * n.m3 + m.m5 * n.m6,
   m.m3 * n.m1 + m.m4 * n.m4 + m.m5 * n.m7,
   m.m3 * n.m2 + m.m4 * n.m5 + m.m5 * n.m8,
   m.m6 * n.m0 + m.m7 * n.m3 + m.m8 * n.m6,
   m.m6 * n.m1 + m.m7 * n.m4 + m.m8 * n.m7,
   m.m6 * n.m2 + m.m7 * n.m5 + m.m8 * n.m8⟩

/-- `Matrix3x3::operator*(Vector3)`, include/geolib/matrix.h:147-152. -/
def mulVec (m : Matrix3x3) (v : Vector3) : Vector3 :=
  ⟨m.m0 * v.v0 + m.m1 * v.v1 + m.m2 * v.v2,
   m.m3 * v.v0 + m.m4 * v.v1 + m.m5 * v.v2,
   m.m6 * v.v0 + m.m7 * v.v1 + m.m8 * v.v2⟩

end Matrix3x3

namespace Transform

/-- `Transform::operator*(Vector3)`, include/geolib/matrix.h:214-219. -/
def apply (T : Transform) (v : Vector3) : Vector3 :=
  ⟨T.r.m0 * v.v0 + T.r.m1 * v.v1 + T.r.m2 * v.v2 + T.o.v0,
   T.r.m3 * v.v0 + T.r.m4 * v.v1 + T.r.m5 * v.v2 + T.o.v1,
   T.r.m6 * v.v0 + T.r.m7 * v.v1 + T.r.m8 * v.v2 + T.o.v2⟩

/-- `Transform::operator*(Transform)`, include/geolib/matrix.h:221-236. -/
def mul (T S : Transform) : Transform :=
  ⟨⟨T.r.m0 * S.r.m0 + T.r.m1 * S.r.m3 + T.r.m2 * S.r.m6,
    T.r.m0 * S.r.m1 + T.r.m1 * S.r.m4 + T.r.m2 * S.r.m7,
    T.r.m0 * S.r.m2 + T.r.m1 * S.r.m5 + T.r.m2 * S.r.m8,
    T.r.m3 * S.r.m0 + T.r.m4 * S.r.m3 + T.r.m5 * S.r.m6,
    T.r.m3 * S.r.m1 + T.r.m4 * S.r.m4 + T.r.m5 * S.r.m7,
    T.r.m3 * S.r.m2 + T.r.m4 * S.r.m5 + T.r.m5 * S.r.m8,
    T.r.m6 * S.r.m0 + T.r.m7 * S.r.m3 + T.r.m8 * S.r.m6,
    T.r.m6 * S.r.m1 + T.r.m7 * S.r.m4 + T.r.m8 * S.r.m7,
    T.r.m6 * S.r.m2 + T.r.m7 * S.r.m5 + T.r.m8 * S.r.m8⟩,
   ⟨T.r.m0 * S.o.v0 + T.r.m1 * S.o.v1 + T.r.m2 * S.o.v2 + T.o.v0,
    T.r.m3 * S.o.v0 + T.r.m4 * S.o.v1 + T.r.m5 * S.o.v2 + T.o.v1,
    T.r.m6 * S.o.v0 + T.r.m7 * S.o.v1 + T.r.m8 * S.o.v2 + T.o.v2⟩⟩

/-- `Transform::inverse`, include/geolib/matrix.h:242-257. -/
def inverse (T : Transform) : Transform :=
  ⟨⟨T.r.m0, T.r.m3, T.r.m6, T.r.m1, T.r.m4, T.r.m7, T.r.m2, T.r.m5, T.r.m8⟩,
   ⟨-T.r.m0 * T.o.v0 - T.r.m3 * T.o.v1 - T.r.m6 * T.o.v2,
    -T.r.m1 * T.o.v0 - T.r.m4 * T.o.v1 - T.r.m7 * T.o.v2,
    -T.r.m2 * T.o.v0 - T.r.m5 * T.o.v1 - T.r.m8 * T.o.v2⟩⟩

/-- `Transform::setRPY` (new value), include/geolib/matrix.h:259-280. -/
noncomputable def setRPY (T : Transform) (roll pitch yaw : ℝ) : Transform :=
  let ci := Real.cos roll
  let cj := Real.cos pitch
  let ch := Real.cos yaw
  let si := Real.sin roll
  let sj := Real.sin pitch
  let sh := Real.sin yaw
  let cc := ci * ch
  let cs := ci * sh
  let sc := si * ch
  let ss := si * sh
  { T with r := ⟨cj * ch, sj * sc - cs, sj * cc + ss,
                 cj * sh, sj * ss + cc, sj * cs - sc,
                 -sj, cj * si, cj * ci⟩ }

end Transform

end Geo.Legacy
